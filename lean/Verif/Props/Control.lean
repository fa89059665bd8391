import Verif.Lemmas.RefMain
import Verif.Props.Invocate
import Verif.Spec.Returns

/-!
# C17, C18: whole invocations against the reference interpreter

`Ref.invoke` (`Spec/Ref.lean`) is the structured big-step interpreter.  The theorems say that `Machine.invocate` on a clean
machine computes what it computes, unless the run comes to one of two states (`Spec/Deviation.lean`): an `i64.div_u` whose
quotient is `2^63` or more (there the claim is false, `C05_i64_div_u_false`), or a branch to the label of the body of a
function that was called by another one (false, `C22_called_function_false`).  The second does not occur in code without
branches to a function's own label (`Ref.CoveredStore`, a syntactic check).
-/

namespace Pywasm.Props
open Spec M

variable {H : Host} {S : Option Bool} {m m' : Machine} {N a : Nat}

theorem step_label {m m' : Machine} (h : step H m = .ok () m') : m.label ≠ [] := by
  intro hl
  unfold step at h
  rw [bind_get_run, bind_idx_none (by rw [hl]; rfl)] at h
  cases h

theorem evaluate_step {m m' : Machine} {N : Nat} (h : step H m = .ok () m') : evaluate H (N + 1) m = evaluate H N m' := by
  simp only [evaluate]
  rw [bind_get_run, if_neg (by simpa using step_label h), bind_ok h]

theorem evaluate_stepsN {m m' : Machine} {n N : Nat} (h : StepsN H n m m') : evaluate H (n + N) m = evaluate H N m' := by
  induction h with
  | refl => rw [Nat.zero_add]
  | head hs _ ih => rw [Nat.add_right_comm, evaluate_step hs, ih]

theorem evaluate_done {m : Machine} {N : Nat} (h : m.label = []) : evaluate H N m = .ok () m := by
  cases N with
  | zero => rfl
  | succ N => simp only [evaluate]; rw [bind_get_run, if_pos (by simp [h])]; rfl

theorem evaluate_err {m m' : Machine} {N : Nat} {e : Err} (hl : m.label ≠ []) (h : step H m = .error e m') :
    evaluate H (N + 1) m = .error e m' := by
  simp only [evaluate]; rw [bind_get_run, if_neg (by simpa using hl), bind_err h]

theorem StepsN.split {m m' : Machine} {i j : Nat} (h : StepsN H (i + j) m m') : ∃ m1, StepsN H i m m1 ∧ StepsN H j m1 m' := by
  induction i generalizing m with
  | zero => rw [Nat.zero_add] at h; exact ⟨m, .refl m, h⟩
  | succ i ih =>
    rw [Nat.add_right_comm] at h
    cases h with
    | head hs h =>
      obtain ⟨m1, h1, h2⟩ := ih h
      exact ⟨m1, .head hs h1, h2⟩

/-- What `Machine.invocate` does after `evaluate`. -/
def finish (t : FuncType) : M (List Val) := do
  let rets ← popN t.rets.length
  assert ((t.rets.zip rets).all fun p => decide (p.1 = p.2.ty))
  if (← get).frame.isEmpty then throw .index
  modify fun m => { m with frame := m.frame.tail }
  assert (← get).frame.isEmpty
  assert (← get).label.isEmpty
  assert (← get).value.isEmpty
  return rets

theorem zip_all_ty {ts : List ValType} {vs : List Val} (h : List.Forall₂ (fun t (v : Val) => v.ty = t) ts vs) :
    (ts.zip vs).all (fun p => decide (p.1 = p.2.ty)) = true := by
  induction h with
  | nil => rfl
  | cons h _ ih => simp [ih, h]

theorem invocate_eq {t : FuncType} {k : Nat} {code : FuncDesc} {mod : ModuleInst} {args : List Val}
    (hf : m.store.func[a]? = some (.wasm t k code)) (hm : m.store.mods[k]? = some mod)
    (hty : List.Forall₂ (fun t (v : Val) => v.ty = t) t.args args) :
    Pywasm.invocate H N a args m = (evaluate H N >>= fun _ => finish t) (started m t mod code args) := by
  unfold Pywasm.invocate
  rw [bind_get_run, Py.getItem_some hf, bind_lift_ok]
  simp only
  rw [zip_all_ty hty, bind_assert, if_pos rfl, bind_modify_run, bind_get_run]
  simp only
  rw [bind_idx_some hm, bind_modify_run, bind_modify_run]
  rfl

theorem finish_ok {t : FuncType} {s : Store} {fr : Frame} {rets : List Val}
    (hty : List.Forall₂ (fun t (v : Val) => v.ty = t) t.rets rets) :
    finish t ⟨s, rets.reverse, [], [fr]⟩ = .ok rets ⟨s, [], [], []⟩ := by
  unfold finish
  rw [bind_popN (l := rets) (s := []) (by simp) (hty.length_eq), zip_all_ty hty, bind_assert, if_pos rfl, bind_get_run]
  simp only [List.isEmpty_cons, Bool.false_eq_true, if_false]
  rfl

theorem finish_label {t : FuncType} {m : Machine} (h : m.label ≠ []) : ∃ e m', finish t m = .error e m' ∧ m'.store = m.store := by
  cases hr : finish t m with
  | error e m' =>
    refine ⟨e, m', rfl, ?_⟩
    have : Wp (finish t) (fun _ _ => True) (fun m' => m'.store = m.store) m := by
      unfold finish
      wp_run <;> trivial
    unfold Wp at this
    rw [hr] at this
    exact this
  | ok r m' =>
    exfalso
    have : Wp (finish t) (fun _ m' => m'.label = [] ∧ m'.label = m.label) (fun _ => True) m := by
      unfold finish
      wp_run
      all_goals first | trivial | skip
      rename_i h1 _
      exact ⟨by simpa using h1, rfl⟩
    unfold Wp at this
    rw [hr] at this
    exact h (this.2 ▸ this.1)

theorem bad_div_step {m : Machine} (h : AtBadDiv m) : m.label ≠ [] ∧ ∃ m', step H m = .error .overflow m' ∧ m'.store = m.store := by
  obtain ⟨hn, y, x, vs, q, hv, hd, hq⟩ := h
  obtain ⟨lab, ls, f, fs, hl, hf, hs, ha⟩ := step_next (H := H) hn
  refine ⟨by rw [hl]; simp, { advance m with value := vs }, ?_, by simp [ha]⟩
  rw [hs]; simp only [exec]
  show M.vm _ _ = _
  unfold M.vm
  rw [show (advance m).value = y :: x :: vs by rw [ha]; exact hv,
    show evalNum (.int .i64_div_u) (y :: x :: vs) = _ from (C05_i64_div_u_partial y x vs).2.1 q hd hq]

theorem Meets.imp {P Q : Machine → Prop} (h : Meets H P m) (hi : ∀ m, P m → Q m) : Meets H Q m := by
  obtain ⟨n, m', h1, h2⟩ := h
  exact ⟨n, m', h1, hi _ h2⟩
theorem dev_static {m : Machine} (h : Dev (some false) m) : AtBadDiv m := (h.resolve_right (by simp)).2
theorem dev_some {nd : Bool} {m : Machine} (h : Dev (some nd) m) : AtBadDiv m := (h.resolve_right (by simp)).2
theorem dev_strict {m : Machine} (h : Dev (some true) m) : False := by simp [Dev] at h
theorem dev_any {m : Machine} (h : Dev none m) : Deviation m := h.imp And.right And.right

theorem meets_bad_div (h : Meets H AtBadDiv m) :
    ∃ n m1 m2, StepsN H n m m1 ∧ m1.label ≠ [] ∧ step H m1 = .error .overflow m2 := by
  obtain ⟨n, m1, h1, h2⟩ := h
  obtain ⟨h3, m2, h4, _⟩ := bad_div_step (H := H) h2
  exact ⟨n, m1, m2, h1, h3, h4⟩

/-- What the machine started by `invocate` does when the reference interpreter gives a result. -/
def Follows (S : Option Bool) (H : Host) (fuel : Nat) (m0 : Machine) : Ref.Res → Prop
  | .norm st => Cov S st.store ∧ ∃ n, StepsN H n m0 ⟨st.store, st.vs, [], [⟨{}, [], 0, 0, 0⟩]⟩
  | .trap s => ∃ n m1 e m2, StepsN H n m0 m1 ∧ m1.label ≠ [] ∧ step H m1 = .error e m2 ∧ m2.store = s
  | .stuck => True
  | .timeout => ∃ n m1, fuel - 1 ≤ 3 * n ∧ StepsN H n m0 m1
  | _ => False

/-- The machine started by `invocate` follows the reference interpreter. -/
theorem invoke_sim (hH : ∀ nd, S = some nd → HostCovered nd H) (hc : Clean m) (hcov : Cov S m.store) {t : FuncType} {k : Nat}
    {code : FuncDesc} {mod : ModuleInst} {args : List Val} (hf : m.store.func[a]? = some (.wasm t k code))
    (hm : m.store.mods[k]? = some mod) (hn : args.length = t.args.length) (fuel : Nat) :
    Meets H (Dev S) (started m t mod code args) ∨
      Follows S H fuel (started m t mod code args) (Ref.invoke H fuel a args m.store) := by
  obtain ⟨hc1, hc2, hc3⟩ := hc
  unfold Ref.invoke Ref.call
  rw [hf]
  simp only
  rw [if_neg (by simp; omega), if_neg (by omega), hm]
  simp only
  have e1 : (List.take t.args.length args.reverse).reverse = args := by
    rw [List.take_of_length_le (by simp; omega), List.reverse_reverse]
  have e2 : List.drop t.args.length args.reverse = [] := List.drop_eq_nil_of_le (by simp; omega)
  rw [e1, e2]
  set zs := code.locals.flatMap fun e => List.replicate e.1 (Val.zero e.2) with hzs
  let fr : Frame := ⟨mod, args ++ zs, t.rets.length, 0, 0⟩
  let lab : Label := ⟨t.rets.length, 1, 0, .func, code.expr, 0⟩
  have hstart : started m t mod code args = conf ⟨m.store, args ++ zs, []⟩ [] lab [] fr [⟨{}, [], 0, 0, 0⟩] := by
    simp [started, conf, hc1, hc2, hc3, lab, fr, hzs, zeroLocals]
  rw [hstart]
  have hs := (all_sim hH fuel).1 (d := 2) (k := 0) (is := code.expr) (st := ⟨m.store, args ++ zs, []⟩) (rest := [])
    (lab := lab) (L := []) (fr := fr) (F := [⟨{}, [], 0, 0, 0⟩])
    ⟨rfl, le_refl _, le_refl _, le_refl _, fun j hj => absurd hj (by omega), fun lb hlb => by
      cases hlb; exact ⟨rfl, le_refl _, .inr rfl⟩⟩ (Nat.zero_le _) rfl
    (fun nd hS => hcov nd hS a t k code hf) hcov
  rcases hs with hs | hs
  · exact .inl hs
  right
  generalize hr : Ref.run H fuel (1 + 1) mod code.expr ⟨m.store, args ++ zs, []⟩ = r at hs ⊢
  cases r with
  | norm st' =>
    simp only
    by_cases hlen : st'.vs.length = t.rets.length
    · simp only [if_pos hlen]
      obtain ⟨h1, n, _, h2⟩ := hs
      refine ⟨h1, n + 1, h2.trans (StepsN.one ?_)⟩
      rw [C18_fall_off_end (H := H) (lab := { lab with index := lab.instr.length }) (ls := [])
        (f := { fr with locals := st'.locals }) (fs := [⟨{}, [], 0, 0, 0⟩]) rfl rfl rfl rfl (by simp [conf, fr, hlen])]
      simp [conf]
    · simp only [if_neg hlen]; trivial
  | br j st' =>
    rcases j with _ | j
    · simp only
      by_cases hlen : st'.vs.length < t.rets.length
      · simp only [if_pos hlen]; trivial
      · simp only [if_neg hlen]
        obtain ⟨n, _, h4⟩ := (hs.2.2 (le_refl _) lab rfl).2 (by show t.rets.length ≤ _; omega)
        refine ⟨hs.1, n, ?_⟩
        have : jumped 0 st' lab [] [] fr [⟨{}, [], 0, 0, 0⟩] = ⟨st'.store, st'.vs.take t.rets.length ++ [], [], [⟨{}, [], 0, 0, 0⟩]⟩ := by
          simp [jumped, keep, lab]
        rw [← this]; exact h4
    · trivial
  | ret st' =>
    simp only
    by_cases hlen : st'.vs.length < t.rets.length
    · simp only [if_pos hlen]; trivial
    · simp only [if_neg hlen]
      obtain ⟨h1, h2⟩ := hs
      obtain ⟨n, h3, h4⟩ := h2 (by show t.rets.length ≤ _; omega)
      refine ⟨h1, n, ?_⟩
      have : returned st' [] [] fr [⟨{}, [], 0, 0, 0⟩] = ⟨st'.store, st'.vs.take t.rets.length ++ [], [], [⟨{}, [], 0, 0, 0⟩]⟩ := by
        simp [returned, keep, fr]
      rw [← this]; exact h4
  | trap s => exact hs
  | stuck => trivial
  | timeout => exact hs

section whole
variable {t : FuncType} {k : Nat} {code : FuncDesc} {mod : ModuleInst} {args : List Val} {fuel : Nat}

/-- A run that comes to a step that raises does not return. -/
theorem no_ok {n : Nat} {m0 m1 m2 : Machine} {e : Err} (h1 : StepsN H n m0 m1) (h2 : m1.label ≠ []) (h3 : step H m1 = .error e m2)
    (rets : List Val) (m' : Machine) : (evaluate H N >>= fun _ => finish t) m0 ≠ .ok rets m' := by
  intro hr
  by_cases hnN : n + 1 ≤ N
  · obtain ⟨c, rfl⟩ := Nat.exists_eq_add_of_le hnN
    rw [bind_err (by rw [Nat.add_assoc, evaluate_stepsN h1, Nat.add_comm, evaluate_err h2 h3])] at hr
    cases hr
  · obtain ⟨c, rfl⟩ : ∃ c, n = N + c := Nat.exists_eq_add_of_le (by omega)
    obtain ⟨m3, h5, h6⟩ := StepsN.split h1
    rw [bind_ok (by rw [show N = N + 0 from rfl, evaluate_stepsN h5]; rfl)] at hr
    have : m3.label ≠ [] := by
      cases h6 with
      | refl => exact h2
      | head hs _ => exact step_label hs
    obtain ⟨e, m'', h7, _⟩ := finish_label (t := t) this
    rw [h7] at hr; cases hr

theorem returns_gen (hH : ∀ nd, S = some nd → HostCovered nd H) (hc : Clean m) (hcov : Cov S m.store)
    (hf : m.store.func[a]? = some (.wasm t k code)) (hm : m.store.mods[k]? = some mod)
    (hty : List.Forall₂ (fun t (v : Val) => v.ty = t) t.args args) {st : Ref.St}
    (hr : Ref.invoke H fuel a args m.store = .norm st) (hret : List.Forall₂ (fun t (v : Val) => v.ty = t) t.rets st.vs.reverse) :
    (∃ N₀, ∀ N ≥ N₀, Pywasm.invocate H N a args m = .ok st.vs.reverse { store := st.store }) ∨
      Meets H (Dev S) (started m t mod code args) := by
  have h := invoke_sim hH hc hcov hf hm hty.length_eq.symm fuel
  rw [hr] at h
  rcases h with h | h
  · exact .inr h
  left
  obtain ⟨-, n, h⟩ := h
  refine ⟨n, fun N hN => ?_⟩
  obtain ⟨c, rfl⟩ := Nat.exists_eq_add_of_le hN
  rw [invocate_eq hf hm hty, bind_ok (by rw [evaluate_stepsN h, evaluate_done rfl])]
  have := finish_ok (s := st.store) (fr := ⟨{}, [], 0, 0, 0⟩) hret
  rw [List.reverse_reverse] at this
  exact this

theorem traps_gen (hH : ∀ nd, S = some nd → HostCovered nd H) (hc : Clean m) (hcov : Cov S m.store)
    (hf : m.store.func[a]? = some (.wasm t k code)) (hm : m.store.mods[k]? = some mod)
    (hty : List.Forall₂ (fun t (v : Val) => v.ty = t) t.args args) {s : Store}
    (hr : Ref.invoke H fuel a args m.store = .trap s) :
    (∃ N₀ e m', m'.store = s ∧ ∀ N ≥ N₀, Pywasm.invocate H N a args m = .error e m') ∨
      Meets H (Dev S) (started m t mod code args) := by
  have h := invoke_sim hH hc hcov hf hm hty.length_eq.symm fuel
  rw [hr] at h
  rcases h with h | h
  · exact .inr h
  left
  obtain ⟨n, m1, e, m2, h1, h2, h3, h4⟩ := h
  refine ⟨n + 1, e, m2, h4, fun N hN => ?_⟩
  obtain ⟨c, rfl⟩ := Nat.exists_eq_add_of_le hN
  rw [invocate_eq hf hm hty]
  refine bind_err ?_
  rw [Nat.add_assoc, evaluate_stepsN h1, Nat.add_comm, evaluate_err h2 h3]

theorem complete_gen (hH : ∀ nd, S = some nd → HostCovered nd H) (hc : Clean m) (hcov : Cov S m.store)
    (hf : m.store.func[a]? = some (.wasm t k code)) (hm : m.store.mods[k]? = some mod)
    (hty : List.Forall₂ (fun t (v : Val) => v.ty = t) t.args args) {rets : List Val}
    (hr : Pywasm.invocate H N a args m = .ok rets m') (hfuel : 3 * N + 1 < fuel) :
    (∃ st, Ref.invoke H fuel a args m.store = .norm st ∧ st.vs.reverse = rets ∧ st.store = m'.store) ∨
      Ref.invoke H fuel a args m.store = .stuck ∨ Meets H (Dev S) (started m t mod code args) := by
  have h := invoke_sim hH hc hcov hf hm hty.length_eq.symm fuel
  rcases h with h | h
  · exact .inr (.inr h)
  rw [invocate_eq hf hm hty] at hr
  generalize hres : Ref.invoke H fuel a args m.store = r at h
  cases r with
  | norm st =>
    left
    obtain ⟨-, n, h⟩ := h
    refine ⟨st, rfl, ?_⟩
    by_cases hnN : n ≤ N
    · obtain ⟨c, rfl⟩ := Nat.exists_eq_add_of_le hnN
      rw [bind_ok (by rw [evaluate_stepsN h, evaluate_done rfl])] at hr
      have : Wp (finish t) (fun r m' => r.reverse = st.vs ∧ m'.store = st.store) (fun _ => True)
          ⟨st.store, st.vs, [], [⟨{}, [], 0, 0, 0⟩]⟩ := by
        unfold finish
        wp_run
        all_goals first | trivial | skip
        rename_i hv _ _ _ _ he
        simp only [List.isEmpty_iff] at he
        refine ⟨?_, rfl⟩
        have hv' : st.vs = _ ++ _ := hv
        rw [hv', he, List.append_nil]
      unfold Wp at this
      rw [hr] at this
      exact ⟨by rw [← this.1, List.reverse_reverse], this.2.symm⟩
    · obtain ⟨c, rfl⟩ := Nat.exists_eq_add_of_lt (Nat.lt_of_not_le hnN)
      obtain ⟨m1, h1, h2⟩ := StepsN.split (i := N) (j := c + 1) h
      cases h2 with
      | head hs _ =>
        rw [bind_ok (by rw [show N = N + 0 from rfl, evaluate_stepsN h1]; rfl)] at hr
        obtain ⟨e, m'', h3, _⟩ := finish_label (t := t) (step_label hs)
        rw [h3] at hr; cases hr
  | trap s =>
    obtain ⟨n, m1, e, m2, h1, h2, h3, _⟩ := h
    exact absurd hr (no_ok h1 h2 h3 _ _)
  | stuck => exact .inr (.inl rfl)
  | timeout =>
    exfalso
    obtain ⟨n, m1, h1, h2⟩ := h
    obtain ⟨c, rfl⟩ := Nat.exists_eq_add_of_lt (show N < n by omega)
    obtain ⟨m3, h5, h6⟩ := StepsN.split (i := N) (j := c + 1) h2
    cases h6 with
    | head hs _ =>
      rw [bind_ok (by rw [show N = N + 0 from rfl, evaluate_stepsN h5]; rfl)] at hr
      obtain ⟨e, m'', h7, _⟩ := finish_label (t := t) (step_label hs)
      rw [h7] at hr; cases hr
  | br j st => exact h.elim
  | ret st => exact h.elim

/-- Covered code leaves covered stores. -/
theorem invoke_covered (hH : HostCovered false H) (hc : Clean m) (hcov : Ref.CoveredStore false m.store)
    (hf : m.store.func[a]? = some (.wasm t k code)) (hm : m.store.mods[k]? = some mod)
    (hty : List.Forall₂ (fun t (v : Val) => v.ty = t) t.args args) {rets : List Val}
    (hr : Pywasm.invocate H N a args m = .ok rets m') {st : Ref.St} (hx : Ref.invoke H fuel a args m.store = .norm st) :
    Ref.CoveredStore false st.store := by
  rcases invoke_sim (S := some false) (by rintro _ ⟨⟩; exact hH) hc (by rintro _ ⟨⟩; exact hcov) hf hm hty.length_eq.symm fuel with h | h
  · obtain ⟨n, m1, m2, h1, h2, h3⟩ := meets_bad_div (Meets.imp h fun _ => dev_static)
    rw [invocate_eq hf hm hty] at hr
    exact absurd hr (no_ok h1 h2 h3 _ _)
  · rw [hx] at h
    exact h.1 false rfl

/-- **C17** An invocation that comes to a division with such a quotient raises `OverflowError`. -/
theorem C17_bad_div_raises (hf : m.store.func[a]? = some (.wasm t k code)) (hm : m.store.mods[k]? = some mod)
    (hty : List.Forall₂ (fun t (v : Val) => v.ty = t) t.args args) (h : Meets H AtBadDiv (started m t mod code args)) :
    ∃ N₀ m', ∀ N ≥ N₀, Pywasm.invocate H N a args m = .error .overflow m' := by
  obtain ⟨n, m1, m2, h1, h2, h3⟩ := meets_bad_div h
  refine ⟨n + 1, m2, fun N hN => ?_⟩
  obtain ⟨c, rfl⟩ := Nat.exists_eq_add_of_le hN
  rw [invocate_eq hf hm hty]
  refine bind_err ?_
  rw [Nat.add_assoc, evaluate_stepsN h1, Nat.add_comm, evaluate_err h2 h3]

/-- **C17**, **C18** (all code) When the reference interpreter returns results, `Machine.invocate` with a sufficient
iteration budget returns the same results and leaves the same store and a clean machine.
Missing: runs that come to a deviation, where the claim is false. -/
theorem C17_returns_partial (hc : Clean m) (hf : m.store.func[a]? = some (.wasm t k code)) (hm : m.store.mods[k]? = some mod)
    (hty : List.Forall₂ (fun t (v : Val) => v.ty = t) t.args args) {st : Ref.St}
    (hr : Ref.invoke H fuel a args m.store = .norm st) (hret : List.Forall₂ (fun t (v : Val) => v.ty = t) t.rets st.vs.reverse) :
    (∃ N₀, ∀ N ≥ N₀, Pywasm.invocate H N a args m = .ok st.vs.reverse { store := st.store }) ∨
      Meets H Deviation (started m t mod code args) :=
  (returns_gen (S := none) nofun hc nofun hf hm hty hr hret).imp id fun h => Meets.imp h fun _ => dev_any

/-- **C17** (all code) When the reference interpreter traps, `Machine.invocate` with a sufficient budget raises, with
the same store. -/
theorem C17_traps_partial (hc : Clean m) (hf : m.store.func[a]? = some (.wasm t k code)) (hm : m.store.mods[k]? = some mod)
    (hty : List.Forall₂ (fun t (v : Val) => v.ty = t) t.args args) {s : Store}
    (hr : Ref.invoke H fuel a args m.store = .trap s) :
    (∃ N₀ e m', m'.store = s ∧ ∀ N ≥ N₀, Pywasm.invocate H N a args m = .error e m') ∨
      Meets H Deviation (started m t mod code args) :=
  (traps_gen (S := none) nofun hc nofun hf hm hty hr).imp id fun h => Meets.imp h fun _ => dev_any

/-- **C17** (all code) Conversely, when `Machine.invocate` returns, the reference interpreter, given enough fuel,
returns the same results and store, unless it gets stuck (which typed code does not, C24). -/
theorem C17_complete_partial (hc : Clean m) (hf : m.store.func[a]? = some (.wasm t k code)) (hm : m.store.mods[k]? = some mod)
    (hty : List.Forall₂ (fun t (v : Val) => v.ty = t) t.args args) {rets : List Val}
    (hr : Pywasm.invocate H N a args m = .ok rets m') (hfuel : 3 * N + 1 < fuel) :
    (∃ st, Ref.invoke H fuel a args m.store = .norm st ∧ st.vs.reverse = rets ∧ st.store = m'.store) ∨
      Ref.invoke H fuel a args m.store = .stuck ∨ Meets H Deviation (started m t mod code args) :=
  (complete_gen (S := none) nofun hc nofun hf hm hty hr hfuel).imp id fun h => h.imp id fun h => Meets.imp h fun _ => dev_any

/-- **C17**, **C18** (code without branches to a function's own label) When the reference interpreter returns results, so
does `Machine.invocate`, or it comes to a division that makes it raise `OverflowError` (`C17_bad_div_raises`). -/
theorem C17_returns_covered_partial (hH : HostCovered false H) (hc : Clean m) (hcov : Ref.CoveredStore false m.store)
    (hf : m.store.func[a]? = some (.wasm t k code)) (hm : m.store.mods[k]? = some mod)
    (hty : List.Forall₂ (fun t (v : Val) => v.ty = t) t.args args) {st : Ref.St}
    (hr : Ref.invoke H fuel a args m.store = .norm st) (hret : List.Forall₂ (fun t (v : Val) => v.ty = t) t.rets st.vs.reverse) :
    (∃ N₀, ∀ N ≥ N₀, Pywasm.invocate H N a args m = .ok st.vs.reverse { store := st.store }) ∨
      Meets H AtBadDiv (started m t mod code args) :=
  (returns_gen (S := some false) (by rintro _ ⟨⟩; exact hH) hc (by rintro _ ⟨⟩; exact hcov) hf hm hty hr hret).imp id fun h => Meets.imp h fun _ => dev_static

/-- **C17** (code without branches to a function's own label) When the reference interpreter traps, `Machine.invocate`
raises; with the same store, unless it comes to a division with a large quotient before. -/
theorem C17_traps_covered_partial (hH : HostCovered false H) (hc : Clean m) (hcov : Ref.CoveredStore false m.store)
    (hf : m.store.func[a]? = some (.wasm t k code)) (hm : m.store.mods[k]? = some mod)
    (hty : List.Forall₂ (fun t (v : Val) => v.ty = t) t.args args) {s : Store}
    (hr : Ref.invoke H fuel a args m.store = .trap s) :
    (∃ N₀ e m', m'.store = s ∧ ∀ N ≥ N₀, Pywasm.invocate H N a args m = .error e m') ∨
      Meets H AtBadDiv (started m t mod code args) :=
  (traps_gen (S := some false) (by rintro _ ⟨⟩; exact hH) hc (by rintro _ ⟨⟩; exact hcov) hf hm hty hr).imp id fun h => Meets.imp h fun _ => dev_static

/-- **C17** (code without branches to a function's own label) When `Machine.invocate` returns, the reference interpreter
returns the same results and store, unless it gets stuck. -/
theorem C17_complete_covered_partial (hH : HostCovered false H) (hc : Clean m) (hcov : Ref.CoveredStore false m.store)
    (hf : m.store.func[a]? = some (.wasm t k code)) (hm : m.store.mods[k]? = some mod)
    (hty : List.Forall₂ (fun t (v : Val) => v.ty = t) t.args args) {rets : List Val}
    (hr : Pywasm.invocate H N a args m = .ok rets m') (hfuel : 3 * N + 1 < fuel) :
    (∃ st, Ref.invoke H fuel a args m.store = .norm st ∧ st.vs.reverse = rets ∧ st.store = m'.store) ∨
      Ref.invoke H fuel a args m.store = .stuck := by
  rcases complete_gen (S := some false) (by rintro _ ⟨⟩; exact hH) hc (by rintro _ ⟨⟩; exact hcov) hf hm hty hr hfuel with h | h | h
  · exact .inl h
  · exact .inr h
  · obtain ⟨n, m1, m2, h1, h2, h3⟩ := meets_bad_div (Meets.imp h fun _ => dev_static)
    rw [invocate_eq hf hm hty] at hr
    exact absurd hr (no_ok h1 h2 h3 _ _)

/-- **C17**, **C18** (code without branches to a function's own label and without `i64.div_u`) When the reference interpreter
returns results, `Machine.invocate` with a sufficient iteration budget returns the same results and leaves the same store
and a clean machine. -/
theorem C17_returns_exactly (hH : HostCovered true H) (hc : Clean m) (hcov : Ref.CoveredStore true m.store)
    (hf : m.store.func[a]? = some (.wasm t k code)) (hm : m.store.mods[k]? = some mod)
    (hty : List.Forall₂ (fun t (v : Val) => v.ty = t) t.args args) {st : Ref.St}
    (hr : Ref.invoke H fuel a args m.store = .norm st) (hret : List.Forall₂ (fun t (v : Val) => v.ty = t) t.rets st.vs.reverse) :
    ∃ N₀, ∀ N ≥ N₀, Pywasm.invocate H N a args m = .ok st.vs.reverse { store := st.store } :=
  (returns_gen (S := some true) (by rintro _ ⟨⟩; exact hH) hc (by rintro _ ⟨⟩; exact hcov) hf hm hty hr hret).resolve_right
    fun ⟨_, _, _, h⟩ => dev_strict h

/-- **C17** (the same code) When the reference interpreter traps, `Machine.invocate` raises, with the same store. -/
theorem C17_traps_exactly (hH : HostCovered true H) (hc : Clean m) (hcov : Ref.CoveredStore true m.store)
    (hf : m.store.func[a]? = some (.wasm t k code)) (hm : m.store.mods[k]? = some mod)
    (hty : List.Forall₂ (fun t (v : Val) => v.ty = t) t.args args) {s : Store}
    (hr : Ref.invoke H fuel a args m.store = .trap s) :
    ∃ N₀ e m', m'.store = s ∧ ∀ N ≥ N₀, Pywasm.invocate H N a args m = .error e m' :=
  (traps_gen (S := some true) (by rintro _ ⟨⟩; exact hH) hc (by rintro _ ⟨⟩; exact hcov) hf hm hty hr).resolve_right
    fun ⟨_, _, _, h⟩ => dev_strict h

end whole

/-- A store with a recursive factorial (function 0), a sum 1 + ... + n computed by a loop (function 1) and a function that
writes a global and then divides by its argument (function 2). -/
def factStore : Store where
  func := [
    .wasm ⟨[.i32], [.i32]⟩ 0 ⟨0, [], [.localGet 0, .num (.int .i32_eqz), .ifThen (.val .i32) [.i32Const 1]
      [.localGet 0, .localGet 0, .i32Const 1, .num (.int .i32_sub), .call 0, .num (.int .i32_mul)]]⟩,
    .wasm ⟨[.i32], [.i32]⟩ 0 ⟨0, [(1, .i32)], [.block .empty [.loop .empty [
      .localGet 0, .num (.int .i32_eqz), .brIf 1,
      .localGet 1, .localGet 0, .num (.int .i32_add), .localSet 1,
      .localGet 0, .i32Const 1, .num (.int .i32_sub), .localSet 0, .br 0]], .localGet 1]⟩,
    .wasm ⟨[.i32], [.i32]⟩ 0 ⟨0, [], [.i32Const 9, .globalSet 0, .i32Const 1, .localGet 0, .num (.int .i32_div_s), .ret]⟩]
  glob := [⟨i32 7, true⟩]
  mods := [{ type := [⟨[.i32], [.i32]⟩], func := [0, 1, 2], glob := [0] }]

theorem factStore_covered (nd : Bool) : Ref.CoveredStore nd factStore := by
  intro a t k code h
  have : factStore.func.all (fun f => match f with | .wasm _ _ c => Ref.coveredList nd 0 c.expr | _ => true) = true := by cases nd <;> decide
  exact List.all_eq_true.mp this _ (List.mem_of_getElem? h)

theorem noHost_covered (nd : Bool) : HostCovered nd noHost := by
  intro c mod xs s hs
  refine ⟨nofun, fun e s' h => ?_⟩
  cases h
  exact hs

/-- Results of the reference interpreter, `none` unless it returns. -/
def refResults (fuel a : Nat) (args : List Val) : Option (List Val) :=
  match Ref.invoke noHost fuel a args factStore with
  | .norm st => some st.vs.reverse
  | _ => none

example : Clean { store := factStore } := ⟨rfl, rfl, rfl⟩
example : refResults 60 0 [i32 5] = some [i32 120] := by decide +kernel
example : refResults 60 1 [i32 4] = some [i32 10] := by decide +kernel
example : (match Ref.invoke noHost 20 2 [i32 0] factStore with | .trap s => some (s.glob.map (·.data)) | _ => none) =
    some [i32 9] := by decide +kernel

/-- `C17_returns_exactly` at work: pywasm computes the factorial of 5. -/
example : ∃ N₀, ∀ N ≥ N₀, ∃ m', Pywasm.invocate noHost N 0 [i32 5] { store := factStore } = .ok [i32 120] m' := by
  have h : refResults 60 0 [i32 5] = some [i32 120] := by decide +kernel
  unfold refResults at h
  split at h
  · rename_i st hst
    cases h' : st.vs.reverse with
    | nil => rw [h'] at h; cases h
    | cons v l =>
      rw [h', Option.some.injEq] at h
      obtain ⟨N₀, hN⟩ := C17_returns_exactly (m := { store := factStore }) (a := 0) (noHost_covered _) ⟨rfl, rfl, rfl⟩
        (factStore_covered _) rfl rfl (.cons rfl .nil) hst (by rw [h', h]; exact .cons rfl .nil)
      rw [h', h] at hN
      exact ⟨N₀, fun N h1 => ⟨_, hN N h1⟩⟩
  · cases h

/-- Function 0 divides `2^64 - 1` by its argument, function 1 branches to its own label, function 2 calls function 1. -/
def devStore : Store where
  func := [
    .wasm ⟨[.i64], [.i64]⟩ 0 ⟨0, [], [.i64Const (-1), .localGet 0, .num (.int .i64_div_u)]⟩,
    .wasm ⟨[.i64], [.i64]⟩ 0 ⟨0, [], [.localGet 0, .br 0, .unreachable]⟩,
    .wasm ⟨[.i64], [.i64]⟩ 0 ⟨0, [], [.localGet 0, .call 1]⟩]
  mods := [{ type := [⟨[.i64], [.i64]⟩], func := [0, 1, 2] }]
def devStarted (a : Nat) (x : BitVec 64) : Option Machine :=
  match devStore.func[a]?, devStore.mods[0]? with
  | some (.wasm t _ code), some mod => some (started { store := devStore } t mod code [i64 x])
  | _, _ => none
/-- The machine after `n` steps. -/
def afterSteps : Nat → Machine → Option Machine
  | 0, m => some m
  | n + 1, m => match step noHost m with
    | .ok _ m' => afterSteps n m'
    | .error _ _ => none
theorem afterSteps_sound : ∀ {n m m'}, afterSteps n m = some m' → StepsN noHost n m m'
  | 0, m, m', h => by cases h; exact .refl _
  | n + 1, m, m', h => by
    simp only [afterSteps] at h
    split at h
    · rename_i h1; exact .head h1 (afterSteps_sound h)
    · cases h

/-- `(2^64 - 1) / 1` comes to the first deviation, `(2^64 - 1) / 2` is computed. -/
example : ∃ m, devStarted 0 1 = some m ∧ Meets noHost AtBadDiv m := by
  refine ⟨_, rfl, 2, _, afterSteps_sound rfl, rfl, i64 1, i64 (-1), [], -1, rfl, ?_, by decide⟩
  rw [low64_i64, low64_i64]; decide
example : (match Pywasm.invocate noHost 20 0 [i64 2] { store := devStore } with | .ok r _ => some r | _ => none) =
    some [i64 0x7fffffffffffffff] := by decide +kernel
/-- A function that branches to its own label computes the right result when the embedder calls it; calling it from another
function comes to the second deviation. -/
example : (match Pywasm.invocate noHost 20 1 [i64 7] { store := devStore } with | .ok r _ => some r | _ => none) = some [i64 7] ∧
    (match Ref.invoke noHost 20 1 [i64 7] devStore with | .norm st => some st.vs | _ => none) = some [i64 7] := by
  constructor <;> decide +kernel
example : ∃ m, devStarted 2 7 = some m ∧ Meets noHost AtBadBranch m :=
  ⟨_, rfl, 3, _, afterSteps_sound rfl, 0, _, .inl rfl, rfl, rfl, rfl⟩

/-! ## The hypotheses are met -/

/-- The reference interpreter's normal outcome of a call, given its results. -/
theorem refNorm {r : Ref.Res} {vs : List Val} (h : (match r with | .norm st => some st.vs.reverse | _ => none) = some vs) :
    ∃ st, r = .norm st ∧ st.vs.reverse = vs := by
  cases r <;> cases h
  exact ⟨_, rfl, rfl⟩
/-- The reference interpreter's trap. -/
theorem refTrap {r : Ref.Res} (h : (match r with | .trap _ => true | _ => false) = true) : ∃ s, r = .trap s := by
  cases r <;> cases h
  exact ⟨_, rfl⟩

example : ∃ N₀ m', ∀ N ≥ N₀, Pywasm.invocate noHost N 0 [i64 1] { store := devStore } = .error .overflow m' := by
  refine C17_bad_div_raises (m := { store := devStore }) (a := 0) rfl rfl (.cons rfl .nil) ?_
  refine ⟨2, _, afterSteps_sound rfl, rfl, i64 1, i64 (-1), [], -1, rfl, ?_, by decide⟩
  rw [low64_i64, low64_i64]; decide
example := (refNorm (r := Ref.invoke noHost 20 1 [i64 7] devStore) (vs := [i64 7]) (by decide +kernel)).imp fun _ h =>
  C17_returns_partial (m := { store := devStore }) (a := 1) ⟨rfl, rfl, rfl⟩ rfl rfl (.cons rfl .nil) h.1
    (by rw [h.2]; exact .cons rfl .nil)
example := (refTrap (r := Ref.invoke noHost 20 2 [i32 0] factStore) (by decide +kernel)).imp fun _ h =>
  C17_traps_partial (m := { store := factStore }) (a := 2) ⟨rfl, rfl, rfl⟩ rfl rfl (.cons rfl .nil) h
example := (returns (x := Pywasm.invocate noHost 20 1 [i64 7]) (m := { store := devStore }) (by decide +kernel)).imp fun _ =>
  Exists.imp fun _ h => C17_complete_partial (fuel := 62) (m := { store := devStore }) (a := 1) ⟨rfl, rfl, rfl⟩ rfl rfl
    (.cons rfl .nil) h (by decide)
example := (refNorm (r := Ref.invoke noHost 60 0 [i32 5] factStore) (vs := [i32 120]) (by decide +kernel)).imp fun _ h =>
  C17_returns_covered_partial (m := { store := factStore }) (a := 0) (noHost_covered _) ⟨rfl, rfl, rfl⟩ (factStore_covered _) rfl rfl
    (.cons rfl .nil) h.1 (by rw [h.2]; exact .cons rfl .nil)
example := (refTrap (r := Ref.invoke noHost 20 2 [i32 0] factStore) (by decide +kernel)).imp fun _ h =>
  C17_traps_covered_partial (m := { store := factStore }) (a := 2) (noHost_covered _) ⟨rfl, rfl, rfl⟩ (factStore_covered _) rfl rfl
    (.cons rfl .nil) h
example := (refTrap (r := Ref.invoke noHost 20 2 [i32 0] factStore) (by decide +kernel)).imp fun _ h =>
  C17_traps_exactly (m := { store := factStore }) (a := 2) (noHost_covered _) ⟨rfl, rfl, rfl⟩ (factStore_covered _) rfl rfl
    (.cons rfl .nil) h
example := (returns (x := Pywasm.invocate noHost 200 0 [i32 5]) (m := { store := factStore }) (by decide +kernel)).imp fun _ =>
  Exists.imp fun _ h => C17_complete_covered_partial (fuel := 602) (m := { store := factStore }) (a := 0) (noHost_covered _)
    ⟨rfl, rfl, rfl⟩ (factStore_covered _) rfl rfl (.cons rfl .nil) h (by decide)

end Pywasm.Props
