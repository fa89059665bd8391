import Verif.Lemmas.TypeSound
import Verif.Props.Control
import Verif.Spec.Returns

/-!
# C24: valid programs do not go wrong

`Spec/Typing.lean` has the validation rules and what it means for a store to be well typed.  `Ref` (`Spec/Ref.lean`) is the
structured reference interpreter; it is `stuck` exactly where the specification relies on validation (missing operands,
unknown indices, operands of the wrong type), and it traps exactly where the specification says so.
-/

namespace Pywasm.Props
open Spec Spec.Typing M

variable {H : Host} {m m' : Machine} {N a fuel : Nat} {S : StoreType} {t : FuncType} {args : List Val}

/-- What an invocation of a function with result types `rets` may end in, given that the store had type `S` before. -/
def Good24 (S : StoreType) (rets : List ValType) : Ref.Res → Prop
  | .norm st => ∃ T, S.Le T ∧ StoreOk T st.store ∧ ValsOk T st.vs.reverse rets
  | .trap s => ∃ T, S.Le T ∧ StoreOk T s
  | .timeout => True
  | _ => False

/-- **C24** (for the reference interpreter) Invoking any function of a well-typed store with arguments of its parameter
types never gets stuck: it returns results of the declared types, traps, or the fuel does not suffice.  The store stays
well typed in each case. -/
theorem C24_reference (hO : HostOk S.hosts H) {s : Store} (hS : StoreOk S s) (ha : S.funcs[a]? = some t) (hargs : ValsOk S args t.args) :
    Good24 S t.rets (Ref.invoke H fuel a args s) := by
  obtain ⟨h1, h2, h3⟩ := Sound.call_ok (C := { types := [], funcs := [], tables := [], mems := 0, globals := [], elems := [], datas := 0 })
    (caller := none) (d := 1) (r := []) (st := ⟨s, [], args.reverse⟩) (Sound.sound fuel).1 hO ha
    ⟨hS, .nil, by rw [List.append_nil]; exact List.forall₂_reverse_iff.mpr hargs⟩
  unfold Ref.invoke
  cases hx : Ref.call H (Ref.run H fuel) none 1 a ⟨s, [], args.reverse⟩ with
  | norm st =>
    rw [hx] at h3
    obtain ⟨T, hT, h4⟩ := h3
    refine ⟨T, hT, h4.store, ?_⟩
    have := List.forall₂_reverse_iff.mpr h4.vs
    rw [List.append_nil, List.reverse_reverse] at this
    exact this
  | br n st => exact h1 n st hx
  | ret st => exact h2 st hx
  | trap s' => rw [hx] at h3; exact h3
  | stuck => rw [hx] at h3; exact h3
  | timeout => trivial

section machine
variable {k : Nat} {code : FuncDesc}

theorem valsOk_ty {ts : List ValType} {vs : List Val} (h : ValsOk S vs ts) : List.Forall₂ (fun t (v : Val) => v.ty = t) ts vs :=
  List.Forall₂.flip (f2_mono h fun _ _ h => h.1)

theorem invoke_typed (hS : StoreOk S m.store) (hf : m.store.func[a]? = some (.wasm t k code)) :
    S.funcs[a]? = some t ∧ ∃ mod, m.store.mods[k]? = some mod := by
  refine ⟨by rw [← hS.funcs, List.getElem?_map, hf]; rfl, ?_⟩
  obtain ⟨mod, _, h, _⟩ := hS.code _ (List.mem_of_getElem? hf)
  exact ⟨mod, h⟩

/-- The invocation of function `a`, which has type `t` and the given code, on a machine whose store has type `S`:
* it returns the results of the reference interpreter, which have the declared types, leaving a clean machine whose store is well typed;
* or it raises, exactly where the reference interpreter traps and with the same store, which is well typed;
* or it runs forever: it never raises and never stops, however many steps it is given. -/
def WellBehaved (S : StoreType) (H : Host) (m : Machine) (a : Nat) (t : FuncType) (k : Nat) (code : FuncDesc) (args : List Val) : Prop :=
  (∃ N₀ fuel st T, (∀ N ≥ N₀, Pywasm.invocate H N a args m = .ok st.vs.reverse { store := st.store }) ∧
    Ref.invoke H fuel a args m.store = .norm st ∧ S.Le T ∧ StoreOk T st.store ∧ ValsOk T st.vs.reverse t.rets) ∨
  (∃ N₀ e m' fuel T, (∀ N ≥ N₀, Pywasm.invocate H N a args m = .error e m') ∧
    Ref.invoke H fuel a args m.store = .trap m'.store ∧ S.Le T ∧ StoreOk T m'.store) ∨
  (∀ N, ∃ mod m1, m.store.mods[k]? = some mod ∧ StepsN H N (started m t mod code args) m1)

theorem valid_gen {P : Option Bool} (hO : HostOk S.hosts H) (hH : ∀ nd, P = some nd → HostCovered nd H) (hc : Clean m)
    (hcov : Cov P m.store) (hS : StoreOk S m.store) (hf : m.store.func[a]? = some (.wasm t k code)) (hargs : ValsOk S args t.args) :
    WellBehaved S H m a t k code args ∨
      ∃ mod, m.store.mods[k]? = some mod ∧ Meets H (Dev P) (started m t mod code args) := by
  obtain ⟨ha, mod, hm⟩ := invoke_typed hS hf
  have hty := valsOk_ty hargs
  by_cases hdev : Meets H (Dev P) (started m t mod code args)
  · exact .inr ⟨mod, hm, hdev⟩
  left
  by_cases hx : ∀ fuel, Ref.invoke H fuel a args m.store = .timeout
  · refine .inr (.inr fun N => ?_)
    have h := (invoke_sim hH hc hcov hf hm hty.length_eq.symm (3 * N + 1)).resolve_left hdev
    rw [hx] at h
    obtain ⟨n, m1, h1, h2⟩ := h
    obtain ⟨c, rfl⟩ := Nat.exists_eq_add_of_le (show N ≤ n by omega)
    obtain ⟨m2, h3, _⟩ := StepsN.split h2
    exact ⟨mod, m2, hm, h3⟩
  · obtain ⟨fuel, hx⟩ := Classical.not_forall.mp hx
    have hg := C24_reference (fuel := fuel) hO hS ha hargs
    cases hr : Ref.invoke H fuel a args m.store with
    | norm st =>
      rw [hr] at hg
      obtain ⟨T, hT, h1, h2⟩ := hg
      obtain ⟨N₀, h3⟩ := (returns_gen hH hc hcov hf hm hty hr (valsOk_ty h2)).resolve_right hdev
      exact .inl ⟨N₀, fuel, st, T, h3, hr, hT, h1, h2⟩
    | trap s =>
      rw [hr] at hg
      obtain ⟨T, hT, h1⟩ := hg
      obtain ⟨N₀, e, m', rfl, h3⟩ := (traps_gen hH hc hcov hf hm hty hr).resolve_right hdev
      exact .inr (.inl ⟨N₀, e, m', fuel, T, h3, hr, hT, h1⟩)
    | br n st => rw [hr] at hg; exact hg.elim
    | ret st => rw [hr] at hg; exact hg.elim
    | stuck => rw [hr] at hg; exact hg.elim
    | timeout => exact absurd hr hx

/-- **C24** On a clean machine with a well-typed store, an invocation of a function with arguments of its parameter types
returns results of the declared types, raises where the specification traps, or runs forever.  In particular it never
raises because operands, indices or labels are missing.
Missing: runs that come to one of the two states of `Spec/Deviation.lean`, where the claim is false
(`C05_i64_div_u_false`, `C22_called_function_false`). -/
theorem C24_valid_programs_partial (hO : HostOk S.hosts H) (hc : Clean m) (hS : StoreOk S m.store)
    (hf : m.store.func[a]? = some (.wasm t k code)) (hargs : ValsOk S args t.args) :
    WellBehaved S H m a t k code args ∨
      ∃ mod, m.store.mods[k]? = some mod ∧ Meets H Deviation (started m t mod code args) :=
  (valid_gen (P := none) hO nofun hc nofun hS hf hargs).imp id fun ⟨mod, h1, h2⟩ => ⟨mod, h1, Meets.imp h2 fun _ => dev_any⟩

/-- **C24** (code without branches to a function's own label) The same, where the only other outcome is that it raises
`OverflowError` at an `i64.div_u` with a quotient of `2^63` or more. -/
theorem C24_valid_programs_covered_partial (hO : HostOk S.hosts H) (hH : HostCovered false H) (hc : Clean m)
    (hcov : Ref.CoveredStore false m.store) (hS : StoreOk S m.store) (hf : m.store.func[a]? = some (.wasm t k code))
    (hargs : ValsOk S args t.args) :
    WellBehaved S H m a t k code args ∨
      ∃ mod N₀ m', m.store.mods[k]? = some mod ∧ Meets H AtBadDiv (started m t mod code args) ∧
        ∀ N ≥ N₀, Pywasm.invocate H N a args m = .error .overflow m' := by
  rcases valid_gen (P := some false) hO (by rintro _ ⟨⟩; exact hH) hc (by rintro _ ⟨⟩; exact hcov) hS hf hargs with h | ⟨mod, h1, h2⟩
  · exact .inl h
  · have h3 := Meets.imp h2 fun _ => dev_static
    obtain ⟨N₀, m', h4⟩ := C17_bad_div_raises hf h1 (valsOk_ty hargs) h3
    exact .inr ⟨mod, N₀, m', h1, h3, h4⟩

/-- **C24** (code without branches to a function's own label and without `i64.div_u`) The same with no other outcome. -/
theorem C24_valid_programs_exactly (hO : HostOk S.hosts H) (hH : HostCovered true H) (hc : Clean m)
    (hcov : Ref.CoveredStore true m.store) (hS : StoreOk S m.store) (hf : m.store.func[a]? = some (.wasm t k code))
    (hargs : ValsOk S args t.args) : WellBehaved S H m a t k code args :=
  (valid_gen (P := some true) hO (by rintro _ ⟨⟩; exact hH) hc (by rintro _ ⟨⟩; exact hcov) hS hf hargs).resolve_right
    fun ⟨_, _, _, _, _, h⟩ => dev_strict h

/-- **C24** Whatever number of iterations it is given: when `Machine.invocate` returns, the results have the declared types,
the store is well typed, and the results are those of the reference interpreter.  (`C17_complete_covered_partial` without the
escape that the reference interpreter gets stuck.) -/
theorem C24_results_partial (hO : HostOk S.hosts H) (hH : HostCovered false H) (hc : Clean m) (hcov : Ref.CoveredStore false m.store)
    (hS : StoreOk S m.store) (hf : m.store.func[a]? = some (.wasm t k code)) (hargs : ValsOk S args t.args)
    {rets : List Val} (hr : Pywasm.invocate H N a args m = .ok rets m') :
    (∃ T, S.Le T ∧ StoreOk T m'.store ∧ ValsOk T rets t.rets) ∧
    ∀ fuel > 3 * N + 1, ∃ st, Ref.invoke H fuel a args m.store = .norm st ∧ st.vs.reverse = rets ∧ st.store = m'.store := by
  obtain ⟨ha, mod, hm⟩ := invoke_typed hS hf
  have key : ∀ fuel > 3 * N + 1, ∃ st, Ref.invoke H fuel a args m.store = .norm st ∧ st.vs.reverse = rets ∧ st.store = m'.store := by
    intro fuel hfu
    have hg := C24_reference (fuel := fuel) hO hS ha hargs
    rcases C17_complete_covered_partial hH hc hcov hf hm (valsOk_ty hargs) hr hfu with h | h
    · exact h
    · rw [h] at hg; exact hg.elim
  refine ⟨?_, key⟩
  obtain ⟨st, h1, rfl, h3⟩ := key (3 * N + 2) (by omega)
  have hg := C24_reference (fuel := 3 * N + 2) hO hS ha hargs
  rw [h1] at hg
  rw [← h3]
  exact hg

end machine

/-- **C24** (one instruction) An instruction that is not a control instruction, executed on a machine whose store, locals
and operands have the types the instruction was validated with: the machine executes it, and the types are as validation
says; or it raises, which only the instructions that the specification lets trap do, and leaves the store alone.
Control instructions are covered by the theorems on whole invocations. -/
theorem C24_instruction {C : Typing.Ctx} {i : Inst} {as bs r : List ValType} {st : Ref.St} {rest : List Val} {lab : Label}
    {L : List Label} {fr : Frame} {F : List Frame} (hi : Instr C i as bs) (hc : isControl i = false)
    (hmo : ModOk S C fr.module) (hst : StOk S C st (as ++ r))
    (hn : lab.instr[lab.index]? = some i) :
    (∃ st', StOk S C st' (bs ++ r) ∧
      step H ⟨st.store, st.vs ++ rest, lab :: L, { fr with locals := st.locals } :: F⟩ =
        .ok () ⟨st'.store, st'.vs ++ rest, { lab with index := lab.index + 1 } :: L, { fr with locals := st'.locals } :: F⟩) ∨
    (mayTrap i = true ∧ Traps H ⟨st.store, st.vs ++ rest, lab :: L, { fr with locals := st.locals } :: F⟩) := by
  have h1 := plain_ok hi hc hmo hst
  by_cases hb : AtBadDiv (conf st rest lab L fr F)
  · obtain ⟨_, m', h2, h3⟩ := bad_div_step (H := H) hb
    have hi' : i = .num (.int .i64_div_u) := Option.some.inj (hn.symm.trans hb.1)
    exact .inr ⟨by rw [hi']; rfl, .overflow, m', h2, h3⟩
  have h2 := plain_sim (H := H) (st := st) (rest := rest) (L := L) (fr := fr) (F := F) hn hb
  cases hx : Ref.plain fr.module st i with
  | ok st' =>
    rw [hx] at h1 h2
    exact .inl ⟨st', h1, h2⟩
  | trap =>
    rw [hx] at h1 h2
    exact .inr ⟨h1, h2⟩
  | stuck => rw [hx] at h1; exact h1.elim

/-! ## Non-vacuity -/

theorem noHost_ok (B : Nat → FuncType → Prop) : HostOk B noHost := by
  intro S s t c caller args xs _ hS _ _ _
  exact ⟨S, .refl S, hS⟩

def factCtx : Typing.Ctx where
  types := [⟨[.i32], [.i32]⟩]
  funcs := List.replicate 3 ⟨[.i32], [.i32]⟩
  tables := []
  mems := 0
  globals := [⟨.i32, true⟩]
  elems := []
  datas := 0
def factType : StoreType where
  funcs := List.replicate 3 ⟨[.i32], [.i32]⟩
  tables := []
  mems := 0
  globals := [⟨.i32, true⟩]
  elems := []
  datas := 0
  hosts := fun _ _ => False

theorem factCtx_mod : ModOk factType factCtx { type := [⟨[.i32], [.i32]⟩], func := [0, 1, 2], glob := [0] } :=
  ⟨rfl, .cons rfl (.cons rfl (.cons rfl .nil)), .nil, ⟨Nat.le_refl _, nofun⟩, .cons rfl .nil, .nil, Nat.le_refl _, nofun⟩

theorem factStore_ok : StoreOk factType factStore := by
  refine ⟨rfl, ?_, by decide, .nil, ⟨rfl, nofun⟩, .cons ⟨rfl, rfl, nofun⟩ .nil, .nil, rfl, nofun⟩
  intro f hf
  simp only [factStore, List.mem_cons, List.not_mem_nil, or_false] at hf
  rcases hf with rfl | rfl | rfl
  · refine ⟨_, factCtx, rfl, factCtx_mod, ?_⟩
    refine .cons [] (.localGet (t := .i32) rfl) ?_
    refine .cons (a := [.i32]) (b := [.i32]) [] (.num (op := .int .i32_eqz) trivial) ?_
    refine .cons (a := [.i32]) (b := [.i32]) [] (.ifThen (t := ⟨[], [.i32]⟩) rfl ?_ ?_) (.nil _)
    · exact .cons [] (.i32Const (by decide)) (.nil _)
    · refine .cons [] (.localGet (t := .i32) rfl) ?_
      refine .cons [.i32] (.localGet (t := .i32) rfl) ?_
      refine .cons [.i32, .i32] (.i32Const (by decide)) ?_
      refine .cons (a := [.i32, .i32]) (b := [.i32]) [.i32] (.num (op := .int .i32_sub) trivial) ?_
      refine .cons (a := [.i32]) (b := [.i32]) [.i32] (.call (t := ⟨[.i32], [.i32]⟩) rfl) ?_
      refine .cons (a := [.i32, .i32]) (b := [.i32]) [] (.num (op := .int .i32_mul) trivial) (.nil _)
  · refine ⟨_, factCtx, rfl, factCtx_mod, ?_⟩
    refine .cons (a := []) (b := []) [] (.block (t := ⟨[], []⟩) rfl ?_) ?_
    · refine .cons (a := []) (b := []) [] (.loop (t := ⟨[], []⟩) rfl ?_) (.nil _)
      refine .cons [] (.localGet (t := .i32) rfl) ?_
      refine .cons (a := [.i32]) (b := [.i32]) [] (.num (op := .int .i32_eqz) trivial) ?_
      refine .cons (a := [.i32]) (b := []) [] (.brIf (ts := []) rfl) ?_
      refine .cons [] (.localGet (t := .i32) rfl) ?_
      refine .cons [.i32] (.localGet (t := .i32) rfl) ?_
      refine .cons (a := [.i32, .i32]) (b := [.i32]) [] (.num (op := .int .i32_add) trivial) ?_
      refine .cons (a := [.i32]) (b := []) [] (.localSet (t := .i32) rfl) ?_
      refine .cons [] (.localGet (t := .i32) rfl) ?_
      refine .cons [.i32] (.i32Const (by decide)) ?_
      refine .cons (a := [.i32, .i32]) (b := [.i32]) [] (.num (op := .int .i32_sub) trivial) ?_
      refine .cons (a := [.i32]) (b := []) [] (.localSet (t := .i32) rfl) ?_
      exact .cons (a := []) (b := []) [] (.br (ts := []) [] [] rfl) (.nil _)
    · exact .cons [] (.localGet (t := .i32) rfl) (.nil _)
  · refine ⟨_, factCtx, rfl, factCtx_mod, ?_⟩
    refine .cons [] (.i32Const (by decide)) ?_
    refine .cons (a := [.i32]) (b := []) [] (.globalSet (g := ⟨.i32, true⟩) rfl rfl) ?_
    refine .cons [] (.i32Const (by decide)) ?_
    refine .cons [.i32] (.localGet (t := .i32) rfl) ?_
    refine .cons (a := [.i32, .i32]) (b := [.i32]) [] (.num (op := .int .i32_div_s) trivial) ?_
    exact .cons (a := [.i32]) (b := [.i32]) [] (.ret [] [.i32]) (.nil _)

/-- Every invocation of the recursive factorial returns an i32, traps where the reference does, or runs forever. -/
example (x : BitVec 32) :=
  C24_valid_programs_exactly (m := { store := factStore }) (a := 0) (args := [i32 x]) (noHost_ok _) (noHost_covered _) ⟨rfl, rfl, rfl⟩
    (factStore_covered _) factStore_ok rfl (.cons (valOk_num rfl rfl) .nil)

/-! ## The hypotheses are met -/

example (x : BitVec 32) (fuel : Nat) := C24_reference (a := 0) (args := [i32 x]) (fuel := fuel) (noHost_ok _) factStore_ok rfl
  (.cons (valOk_num rfl rfl) .nil)
example (x : BitVec 32) :=
  C24_valid_programs_partial (m := { store := factStore }) (a := 1) (args := [i32 x]) (noHost_ok _) ⟨rfl, rfl, rfl⟩
    factStore_ok rfl (.cons (valOk_num rfl rfl) .nil)
example (x : BitVec 32) :=
  C24_valid_programs_covered_partial (m := { store := factStore }) (a := 2) (args := [i32 x]) (noHost_ok _) (noHost_covered _)
    ⟨rfl, rfl, rfl⟩ (factStore_covered _) factStore_ok rfl (.cons (valOk_num rfl rfl) .nil)
example := (returns (x := Pywasm.invocate noHost 200 0 [i32 5]) (m := { store := factStore }) (by decide +kernel)).imp fun _ =>
  Exists.imp fun _ h => C24_results_partial (m := { store := factStore }) (a := 0) (args := [i32 5]) (noHost_ok _)
    (noHost_covered _) ⟨rfl, rfl, rfl⟩ (factStore_covered _) factStore_ok rfl (.cons (valOk_num rfl rfl) .nil) h

example (x : BitVec 32) : (∃ m', step noHost ⟨factStore, [i32 x, i32 7], [⟨1, 1, 0, .func, [.num (.int .i32_div_s)], 0⟩],
      [⟨{ type := [⟨[.i32], [.i32]⟩], func := [0, 1, 2], glob := [0] }, [i32 0], 1, 0, 0⟩]⟩ = .ok () m') ∨
    Traps noHost ⟨factStore, [i32 x, i32 7], [⟨1, 1, 0, .func, [.num (.int .i32_div_s)], 0⟩],
      [⟨{ type := [⟨[.i32], [.i32]⟩], func := [0, 1, 2], glob := [0] }, [i32 0], 1, 0, 0⟩]⟩ := by
  rcases C24_instruction (H := noHost) (C := { factCtx with locals := [.i32] }) (st := ⟨factStore, [i32 0], [i32 x, i32 7]⟩) (r := []) (rest := [])
      (lab := ⟨1, 1, 0, .func, [.num (.int .i32_div_s)], 0⟩) (L := []) (F := [])
      (fr := ⟨{ type := [⟨[.i32], [.i32]⟩], func := [0, 1, 2], glob := [0] }, [i32 0], 1, 0, 0⟩)
      (.num (op := .int .i32_div_s) trivial) rfl (factCtx_mod.ctx _ _ _) ⟨factStore_ok, .cons (valOk_num rfl rfl) .nil, .cons (valOk_num rfl rfl) (.cons (valOk_num rfl rfl) .nil)⟩ rfl with ⟨st', _, h⟩ | ⟨_, h⟩
  · exact .inl ⟨_, h⟩
  · exact .inr h

end Pywasm.Props
