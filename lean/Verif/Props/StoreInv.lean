import Verif.Lemmas.InstExt
import Verif.Spec.History
import Verif.Spec.Demo

/-!
# Properties of every history: C12, C13, C14, C15, C16
-/

namespace Pywasm
open Spec M

theorem KeepsExt.final {α} {n : Nat} {x : M α} (h : ∀ s0, n ≤ s0.mods.length → KeepsExt n s0 x) (m : Machine)
    (hn : n ≤ m.store.mods.length) : ExtendsUpTo n m.store (Spec.final x m).store := by
  have := h m.store hn m (.refl _ _)
  unfold Wp at this
  unfold Spec.final
  cases hx : x m <;> simp only [hx] at this ⊢ <;> exact this

theorem perform_extends {H : Host} (hH : HostExtends H) (N : Nat) (a : Action) (m : Machine) {n : Nat}
    (hn : n ≤ m.store.mods.length) : ExtendsUpTo n m.store (a.perform H N m).store := by
  cases a with
  | decode d => exact KeepsExt.final (fun _ _ => keeps_loadBuffers d) m hn
  | «instance» i d b => exact KeepsExt.final (fun _ h => keeps_runtimeInstance h hH N i d b) m hn
  | invocate mod name args => exact KeepsExt.final (fun _ _ => keeps_runtimeInvocate hH N mod name args) m hn
  | newMemory l => exact KeepsExt.final (fun _ _ => keeps_allocateMemory l) m hn
  | newTable t => exact KeepsExt.final (fun _ _ => keeps_allocateTable t) m hn
  | newGlobal t v => exact KeepsExt.final (fun _ _ => keeps_allocateGlobal t v) m hn
  | newHostFunc t c => exact KeepsExt.final (fun _ _ => keeps_allocateFuncHost t c) m hn
  | putMemory a p d =>
    show ExtendsUpTo n m.store (onMemory _ a m).store
    unfold onMemory
    split
    · rename_i y hy
      obtain ⟨x, hx, h⟩ := Option.bind_eq_some_iff.mp hy
      split at h
      · rename_i hl
        cases h
        exact .memData hx (Py.sliceSet_length rfl hl)
      · cases h
    · exact .refl _ _
  | growMemory a k =>
    show ExtendsUpTo n m.store (onMemory _ a m).store
    unfold onMemory
    split
    · rename_i y hy
      obtain ⟨x, hx, h⟩ := Option.bind_eq_some_iff.mp hy
      cases hg : x.grow k with
      | error e => rw [hg] at h; cases h
      | ok z =>
        rw [hg] at h
        cases h
        exact .memGrow hx hg
    · exact .refl _ _

theorem history_extends {H : Host} (hH : HostExtends H) (N : Nat) (acts : List Action) (m : Machine) {n : Nat}
    (hn : n ≤ m.store.mods.length) : ExtendsUpTo n m.store (history H N acts m).store := by
  induction acts generalizing m with
  | nil => exact .refl _ _
  | cons a acts ih =>
    have h1 := perform_extends hH N a m hn
    exact h1.trans (ih (a.perform H N m) (h1.length_le hn))

namespace Props

variable {H : Host} {N : Nat} {m : Machine}

/-- **C16** Whatever the embedder and the guest code do, successfully or not, the store afterwards extends the store
before: every function, module instance, memory, table, global and segment is still at its address, with its type. -/
theorem C16_store_stable (hH : HostExtends H) (acts : List Action) :
    ExtendsUpTo m.store.mods.length m.store (history H N acts m).store :=
  history_extends hH N acts m (le_refl _)

/-- **C16** The same for every single instruction, whether it completes or raises. -/
theorem C16_step_stable (hH : HostExtends H) : Extends m.store (final (step H) m).store := by
  intro n
  have := keeps_step (n := n) (s0 := m.store) hH m (.refl _ _)
  unfold Wp at this
  unfold Spec.final
  cases hx : step H m <;> simp only [hx] at this ⊢ <;> exact this

/-- **C16** A function address denotes the same function for ever. -/
theorem C16_functions (hH : HostExtends H) (acts : List Action) {a : Nat} {f : FuncInst}
    (h : m.store.func[a]? = some f) : (history H N acts m).store.func[a]? = some f :=
  (C16_store_stable hH acts).func a f h

/-- **C15** A global that is not mutable keeps its value through any history. -/
theorem C15_immutable_globals (hH : HostExtends H) (acts : List Action) {a : Nat} {g : GlobalInst}
    (h : m.store.glob[a]? = some g) (hc : g.isMut = false) : (history H N acts m).store.glob[a]? = some g := by
  obtain ⟨y, hy, _, e⟩ := (C16_store_stable hH acts).glob a g h
  rw [hy, e hc]

/-- **C15** … and through any instruction of any run. -/
theorem C15_immutable_globals_step (hH : HostExtends H) {a : Nat} {g : GlobalInst} (h : m.store.glob[a]? = some g)
    (hc : g.isMut = false) : (final (step H) m).store.glob[a]? = some g := by
  obtain ⟨y, hy, _, e⟩ := (C16_step_stable (m := m) hH 0).glob a g h
  rw [hy, e hc]

/-- **C12** In every history of a runtime that starts empty, the byte length of every memory is 65536 times its size,
the size is at most 65536 pages and, if a maximum other than 0 was declared, at most that. -/
theorem C12_history_partial (hH : HostExtends H) (acts : List Action) {a : Nat} {mem : MemInst}
    (h : (history H N acts {}).store.mems[a]? = some mem) : MemOk mem :=
  (C16_store_stable (m := {}) hH acts).newMem a mem (Nat.zero_le _) h

/-- A declared maximum of 0 is the missing part of `C12_history_partial`: pywasm records "no maximum" as 0
(core.py:601-602, 898), so a memory declared `(memory 0 0)` can grow past its maximum. -/
theorem C12_max_zero_false : ∃ mem mem', MemInst.make ⟨0, 0⟩ = .ok mem ∧ mem.grow 1 = .ok mem' ∧ mem'.size = 1 :=
  ⟨⟨⟨0, 0⟩, [], 0⟩, ⟨⟨0, 0⟩, [] ++ Py.zeros (1 * pageSize), 1⟩, rfl, rfl, rfl⟩

/-- **C12** A memory never shrinks and keeps its limits. -/
theorem C12_never_shrinks (hH : HostExtends H) (acts : List Action) {a : Nat} {mem : MemInst}
    (h : m.store.mems[a]? = some mem) :
    ∃ mem', (history H N acts m).store.mems[a]? = some mem' ∧ mem'.limits = mem.limits ∧ mem.size ≤ mem'.size ∧
      mem.data.length ≤ mem'.data.length := by
  obtain ⟨y, hy, h1, h2, h3, _⟩ := (C16_store_stable (N := N) hH acts).mems a mem h
  exact ⟨y, hy, h1, h2, h3⟩

/-- **C14** In every history the size of a table is the number of its entries and respects its maximum. -/
theorem C14_history (hH : HostExtends H) (acts : List Action) {a : Nat} {t : TableInst}
    (h : (history H N acts {}).store.tabl[a]? = some t) : TableOk t :=
  (C16_store_stable (m := {}) hH acts).newTable a t (Nat.zero_le _) h

/-- The same holds of tables: `(table 0 0 funcref)` can grow past its maximum. -/
theorem C14_max_zero_false : ∃ t t', TableInst.make ⟨.funcref, ⟨0, 0⟩⟩ = .ok t ∧ t.grow 1 (Val.zero .funcref) = .ok t' ∧
    t'.size = 1 :=
  ⟨⟨⟨.funcref, ⟨0, 0⟩⟩, [], 0⟩, ⟨⟨.funcref, ⟨0, 0⟩⟩, [Val.zero .funcref], 1⟩, rfl, rfl, rfl⟩

/-- **C13** A dropped data segment stays empty. -/
theorem C13_dropped_for_good (hH : HostExtends H) (acts : List Action) {a b : Nat} (h : m.store.data[a]? = some b)
    (hb : m.store.bufs[b]? = some []) :
    (history H N acts m).store.data[a]? = some b ∧ (history H N acts m).store.bufs[b]? = some [] :=
  ⟨(C16_store_stable hH acts).data a b h, ((C16_store_stable hH acts).bufs b [] hb).elim id id⟩

/-- **C14** A dropped element segment stays empty. -/
theorem C14_dropped_for_good (hH : HostExtends H) (acts : List Action) {a : Nat} {e : ElemInst}
    (h : m.store.elem[a]? = some e) (he : e.data = []) :
    ∃ e', (history H N acts m).store.elem[a]? = some e' ∧ e'.type = e.type ∧ e'.data = [] := by
  obtain ⟨y, hy, h1, h2⟩ := (C16_store_stable (N := N) hH acts).elem a e h
  exact ⟨y, hy, h1, h2.elim (fun h => h ▸ he) id⟩

/-! The hypotheses are met: a host that does nothing to the store, and a runtime with a memory, a table, a constant
global and two dropped segments. -/

theorem noHost_extends : HostExtends noHost := by
  refine fun c mod args s => ⟨fun r s' h => ?_, fun e s' h n => ?_⟩
  · cases h
  · cases h; exact .refl _ _

def emptySegments : Machine :=
  { store := { data := [0], bufs := [[]], elem := [⟨.funcref, []⟩], glob := [⟨i32 7, false⟩],
               mems := [⟨⟨0, 1⟩, [], 0⟩] } }
example : HostExtends noHost ∧ emptySegments.store.data[0]? = some 0 ∧ emptySegments.store.bufs[0]? = some [] ∧
    emptySegments.store.glob[0]? = some ⟨i32 7, false⟩ := ⟨noHost_extends, rfl, rfl, rfl⟩
example : (history noHost 9 [.newMemory ⟨0, 3⟩, .newTable ⟨.funcref, ⟨2, 0⟩⟩] {}).store.tabl[0]?.map (·.size) = some 2 ∧
    (history noHost 9 [.newMemory ⟨0, 3⟩, .newTable ⟨.funcref, ⟨2, 0⟩⟩] {}).store.mems[0]?.map (·.limits) = some ⟨0, 3⟩ := by
  decide

/-! ## The hypotheses are met -/

example (acts : List Action) : (history noHost 100 acts emptySegments).store.glob[0]? = some ⟨i32 7, false⟩ :=
  C15_immutable_globals noHost_extends acts rfl rfl
example : (final (step noHost) emptySegments).store.glob[0]? = some ⟨i32 7, false⟩ :=
  C15_immutable_globals_step noHost_extends rfl rfl
example (acts : List Action) := C12_never_shrinks (m := emptySegments) (N := 100) noHost_extends acts (a := 0) rfl
example (acts : List Action) : (history noHost 100 acts emptySegments).store.bufs[0]? = some [] :=
  (C13_dropped_for_good noHost_extends acts (a := 0) rfl rfl).2
example (acts : List Action) := C14_dropped_for_good (m := emptySegments) noHost_extends acts (N := 100) (a := 0) rfl rfl
example (acts : List Action) := C16_store_stable (m := emptySegments) (N := 100) noHost_extends acts
example := C16_step_stable (m := emptySegments) noHost_extends
example (acts : List Action) := C16_functions (N := 100) noHost_extends acts
  (m := { store := { func := [.host ⟨[.i32], []⟩ 0] } }) (a := 0) rfl
example : MemOk ⟨⟨0, 3⟩, [], 0⟩ :=
  C12_history_partial (N := 9) noHost_extends [.newMemory ⟨0, 3⟩, .newTable ⟨.funcref, ⟨2, 0⟩⟩] (a := 0) rfl
example : MemOk ⟨⟨0, 3⟩, [], 0⟩ :=
  C12_history_partial (N := 9) noHost_extends [.newMemory ⟨0, 3⟩, .putMemory 0 0 [], .growMemory 0 4, .putMemory 0 7 [1]] (a := 0) rfl
example := C14_history (N := 9) noHost_extends [.newMemory ⟨0, 3⟩, .newTable ⟨.funcref, ⟨2, 0⟩⟩] (a := 0) rfl

end Props
end Pywasm
