import Verif.Lemmas.StepExt

namespace Pywasm
open Spec M

variable {n : Nat} {s0 : Store} {H : Host}

theorem Spec.ExtendsUpTo.length_le {s s' : Store} (hn : n ≤ s.mods.length) (h : ExtendsUpTo n s s') : n ≤ s'.mods.length := by
  cases n with
  | zero => exact Nat.zero_le _
  | succ n =>
    have := h.mods n _ (Nat.lt_succ_self n) (List.getElem?_eq_getElem (by omega))
    exact (List.getElem?_eq_some_iff.mp this).1

theorem keeps_pure {α} (a : α) : KeepsExt n s0 (pure a : M α) := fun _ h => wp_pure h

theorem keeps_forIn {α β} (l : List α) (f : α → β → M (ForInStep β)) (hf : ∀ a b, KeepsExt n s0 (f a b)) :
    ∀ b : β, KeepsExt n s0 (forIn l b f) := by
  induction l with
  | nil => intro b; rw [List.forIn_nil]; exact keeps_pure b
  | cons a l ih =>
    intro b
    rw [List.forIn_cons]
    refine (hf a b).bind fun r => ?_
    cases r with
    | done b => exact keeps_pure b
    | yield b => exact ih b

theorem keeps_mapM {α β} (l : List α) (f : α → M β) (hf : ∀ a, KeepsExt n s0 (f a)) : KeepsExt n s0 (l.mapM f) := by
  induction l with
  | nil => rw [List.mapM_nil]; exact keeps_pure _
  | cons a l ih =>
    rw [List.mapM_cons]
    exact (hf a).bind fun _ => ih.bind fun _ => keeps_pure _

theorem keeps_get : KeepsExt n s0 (get : M Machine) := fun _ h => wp_get h
theorem keeps_idx {α} (l : List α) (i : Nat) : KeepsExt n s0 (idx l i) := fun _ h => wp_idx (fun _ _ => h) h
theorem keeps_lift {α} (e : Except Err α) : KeepsExt n s0 (lift e) := fun _ h => wp_lift (fun _ _ => h) h
theorem keeps_assert (c : Bool) : KeepsExt n s0 (assert c) := fun _ h => wp_assert (fun _ => h) h
theorem keeps_pop : KeepsExt n s0 pop := fun _ h => wp_pop (fun _ _ _ => h) h
theorem keeps_throw {α} (e : Err) : KeepsExt n s0 (throw e : M α) := fun _ h => wp_throw h
/-- a change of the stacks -/
theorem keeps_stack (f : Machine → Machine) (hf : ∀ m, (f m).store = m.store) : KeepsExt n s0 (modify f) :=
  fun m h => wp_modify (by rw [hf]; exact h)
theorem keeps_store (f : Machine → Machine) (hf : ∀ m, ExtendsUpTo n m.store (f m).store) : KeepsExt n s0 (modify f) :=
  fun m h => wp_modify (h.trans (hf m))

theorem keeps_loadBuffers (d : ModuleDesc) : KeepsExt n s0 (loadBuffers d) := by
  intro m h
  have : Wp (loadBuffers d) (fun _ m' => ExtendsUpTo n s0 m'.store) (fun m' => ExtendsUpTo n s0 m'.store) m := by
    unfold Wp loadBuffers
    exact h.trans (.addBufs _)
  exact this

theorem keeps_editMod {k : Nat} (hk : n ≤ k) (f : ModuleInst → ModuleInst) : KeepsExt n s0 (editMod k f) :=
  keeps_store _ fun _ => .editMod hk f
theorem keeps_allocateFuncWasm (k : Nat) (f : FuncDesc) : KeepsExt n s0 (allocateFuncWasm k f) := by
  intro m h
  unfold allocateFuncWasm
  wp_run
  · exact h.trans (.addFunc _)
  all_goals exact h
theorem keeps_allocateFuncHost (t : FuncType) (c : Nat) : KeepsExt n s0 (allocateFuncHost t c) := by
  intro m h
  unfold allocateFuncHost
  wp_run
  exact h.trans (.addFunc _)
theorem keeps_allocateTable (t : TableType) : KeepsExt n s0 (allocateTable t) := by
  intro m h
  unfold allocateTable
  wp_run
  · exact h.trans (.addTable (by assumption))
  all_goals exact h
theorem keeps_allocateMemory (t : Limits) : KeepsExt n s0 (allocateMemory t) := by
  intro m h
  unfold allocateMemory
  wp_run
  · exact h.trans (.addMem (by assumption))
  all_goals exact h
theorem keeps_allocateGlobal (t : GlobalType) (v : Val) : KeepsExt n s0 (allocateGlobal t v) := by
  intro m h
  unfold allocateGlobal
  wp_run
  exact h.trans (.addGlob _)
theorem keeps_allocateElem (t : ValType) (v : List Val) : KeepsExt n s0 (allocateElem t v) := by
  intro m h
  unfold allocateElem
  wp_run
  · exact h.trans (.addElem _)
  · exact h
theorem keeps_allocateData (b : Nat) : KeepsExt n s0 (allocateData b) := by
  intro m h
  unfold allocateData
  wp_run
  exact h.trans (.addData _)
theorem keeps_resolveExport (i : ModuleInst) (e : ExportDesc) : KeepsExt n s0 (resolveExport i e) := by
  unfold resolveExport
  split <;> exact (keeps_idx _ _).bind fun _ => keeps_pure _

theorem keeps_allocate (hn : n ≤ s0.mods.length) (d : ModuleDesc) (bufs : List Nat) (extern : List Extern)
    (globin : List Val) (elemin : List (List Val)) : KeepsExt n s0 (allocate d bufs extern globin elemin) := by
  intro m h
  unfold allocate
  apply wp_bind; apply wp_get
  have hk : n ≤ m.store.mods.length := h.length_le hn
  generalize m.store.mods.length = k at hk
  suffices hK : KeepsExt n s0 _ from hK m h
  refine (keeps_store _ (by intro; exact .addMod _)).bind fun _ => ?_
  refine (keeps_forIn _ _ (fun _ _ => (keeps_editMod hk _).bind fun _ => keeps_pure _) _).bind fun _ => ?_
  refine (keeps_forIn _ _ (fun _ _ => (keeps_allocateFuncWasm _ _).bind fun _ =>
    (keeps_editMod hk _).bind fun _ => keeps_pure _) _).bind fun _ => ?_
  refine (keeps_forIn _ _ (fun _ _ => (keeps_allocateTable _).bind fun _ =>
    (keeps_editMod hk _).bind fun _ => keeps_pure _) _).bind fun _ => ?_
  refine (keeps_forIn _ _ (fun _ _ => (keeps_allocateMemory _).bind fun _ =>
    (keeps_editMod hk _).bind fun _ => keeps_pure _) _).bind fun _ => ?_
  refine (keeps_forIn _ _ (fun _ _ => (keeps_idx _ _).bind fun _ => (keeps_allocateGlobal _ _).bind fun _ =>
    (keeps_editMod hk _).bind fun _ => keeps_pure _) _).bind fun _ => ?_
  refine (keeps_forIn _ _ (fun _ _ => (keeps_idx _ _).bind fun _ => (keeps_allocateElem _ _).bind fun _ =>
    (keeps_editMod hk _).bind fun _ => keeps_pure _) _).bind fun _ => ?_
  refine (keeps_forIn _ _ (fun _ _ => (keeps_idx _ _).bind fun _ => (keeps_allocateData _).bind fun _ =>
    (keeps_editMod hk _).bind fun _ => keeps_pure _) _).bind fun _ => ?_
  refine (keeps_forIn _ _ (fun _ _ => keeps_get.bind fun _ => (keeps_idx _ _).bind fun _ =>
    (keeps_resolveExport _ _).bind fun _ => (keeps_editMod hk _).bind fun _ => keeps_pure _) _).bind fun _ => ?_
  exact keeps_get.bind fun _ => keeps_idx _ _

theorem keeps_checkImport (d : ModuleDesc) (a : Import) (b : Extern) : KeepsExt n s0 (checkImport d a b) := by
  unfold checkImport
  split
  · exact keeps_get.bind fun _ => (keeps_idx _ _).bind fun _ => (keeps_idx _ _).bind fun _ => keeps_assert _
  · exact keeps_get.bind fun _ => (keeps_idx _ _).bind fun _ => (keeps_assert _).bind fun _ => keeps_assert _
  · exact keeps_get.bind fun _ => (keeps_idx _ _).bind fun _ => keeps_assert _
  · exact keeps_get.bind fun _ => (keeps_idx _ _).bind fun _ => (keeps_assert _).bind fun _ => keeps_assert _
  · exact keeps_assert _

theorem keeps_runInit (hH : HostExtends H) (N : Nat) (e : Expr) (k : Nat) : KeepsExt n s0 (runInit H N e k) := by
  unfold runInit
  refine (keeps_stack _ (by intro; rfl)).bind fun _ => (keeps_evaluate hH N).bind fun _ => ?_
  exact keeps_get.bind fun _ => (keeps_assert _).bind fun _ => keeps_get.bind fun _ => (keeps_assert _).bind fun _ =>
    keeps_get.bind fun _ => keeps_assert _

theorem keeps_runConst (hH : HostExtends H) (N : Nat) (e : Expr) : KeepsExt n s0 (runConst H N e) :=
  (keeps_runInit hH N e 1).bind fun _ => keeps_pop

theorem keeps_ite {α} {c : Prop} [Decidable c] {x y : M α} (hx : KeepsExt n s0 x) (hy : KeepsExt n s0 y) :
    KeepsExt n s0 (if c then x else y) := by
  split
  · exact hx
  · exact hy

theorem keeps_linkImports (d : ModuleDesc) (extern : List Extern) : KeepsExt n s0 (linkImports d extern) := by
  unfold linkImports
  exact (keeps_assert _).bind fun _ =>
    (keeps_forIn _ _ (fun _ _ => (keeps_checkImport _ _ _).bind fun _ => keeps_pure _) _).bind fun _ => keeps_pure _

theorem keeps_buildInstance (hn : n ≤ s0.mods.length) (hH : HostExtends H) (N : Nat) (d : ModuleDesc) (bufs : List Nat)
    (extern : List Extern) : KeepsExt n s0 (buildInstance H N d bufs extern) := by
  unfold buildInstance
  refine keeps_get.bind fun _ => (keeps_stack _ (by intro; rfl)).bind fun _ => ?_
  refine (keeps_mapM _ _ fun _ => keeps_runConst hH _ _).bind fun _ => ?_
  refine (keeps_mapM _ _ fun _ => keeps_mapM _ _ fun _ => keeps_runConst hH _ _).bind fun _ => ?_
  refine (keeps_stack _ (by intro; rfl)).bind fun _ => ?_
  refine (keeps_allocate hn _ _ _ _ _).bind fun _ => ?_
  exact (keeps_assert _).bind fun _ => keeps_pure _

theorem keeps_initSegments (hH : HostExtends H) (N : Nat) (d : ModuleDesc) (bufs : List Nat) :
    KeepsExt n s0 (initSegments H N d bufs) := by
  unfold initSegments
  refine (keeps_forIn _ _ (fun _ _ => ?_) _).bind fun _ => ?_
  · exact keeps_ite ((keeps_runInit hH _ _ _).bind fun _ => keeps_pure _) (keeps_pure _)
  refine (keeps_forIn _ _ (fun _ _ => ?_) _).bind fun _ => ?_
  · exact keeps_ite ((keeps_runInit hH _ _ _).bind fun _ => keeps_pure _) (keeps_pure _)
  refine (keeps_forIn _ _ (fun _ _ => ?_) _).bind fun _ => keeps_pure _
  exact keeps_ite ((keeps_idx _ _).bind fun _ => keeps_get.bind fun _ => (keeps_idx _ _).bind fun _ => (keeps_runInit hH _ _ _).bind fun _ => keeps_pure _) (keeps_pure _)

theorem keeps_runStart (hH : HostExtends H) (N : Nat) (d : ModuleDesc) : KeepsExt n s0 (runStart H N d) := by
  unfold runStart
  split
  · exact keeps_runInit hH _ _ _
  · exact keeps_pure _

theorem keeps_instantiate (hn : n ≤ s0.mods.length) (hH : HostExtends H) (N : Nat) (d : ModuleDesc) (bufs : List Nat)
    (extern : List Extern) : KeepsExt n s0 (instantiate H N d bufs extern) := by
  unfold instantiate
  refine (keeps_linkImports _ _).bind fun _ => (keeps_buildInstance hn hH _ _ _ _).bind fun _ => ?_
  refine (keeps_stack _ (by intro; rfl)).bind fun _ => (keeps_initSegments hH _ _ _).bind fun _ => ?_
  exact (keeps_runStart hH _ _).bind fun _ => (keeps_stack _ (by intro; rfl)).bind fun _ => keeps_pure _

theorem keeps_runtimeInstance (hn : n ≤ s0.mods.length) (hH : HostExtends H) (N : Nat) (imports : Imports) (d : ModuleDesc)
    (bufs : List Nat) : KeepsExt n s0 (Runtime.instance H N imports d bufs) :=
  (keeps_mapM _ _ fun _ => keeps_lift _).bind fun _ => keeps_instantiate hn hH _ _ _ _

theorem keeps_runtimeInvocate (hH : HostExtends H) (N : Nat) (mod : ModuleInst) (name : String) (args : List HVal) :
    KeepsExt n s0 (Runtime.invocate H N mod name args) := by
  unfold Runtime.invocate
  exact (keeps_lift _).bind fun _ => keeps_get.bind fun _ => (keeps_idx _ _).bind fun _ => (keeps_assert _).bind fun _ =>
    (keeps_lift _).bind fun _ => (keeps_invocate hH _ _ _).bind fun _ => keeps_lift _

end Pywasm
