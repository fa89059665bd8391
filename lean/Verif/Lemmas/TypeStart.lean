import Verif.Lemmas.TypeInst
import Verif.Props.Control

/-!
# The start function keeps the store well typed
-/

namespace Pywasm
open Spec Spec.Typing M Props

variable {H : Host} {N : Nat}

/-- An iteration budget smaller than the number of steps leaves a label. -/
theorem evaluate_short {n : Nat} {m m' m1 : Machine} (h : StepsN H n m m') (hn : N < n) (he : evaluate H N m = .ok () m1) :
    m1.label ≠ [] := by
  obtain ⟨c, rfl⟩ := Nat.exists_eq_add_of_le (show N + 1 ≤ n from hn)
  rw [Nat.add_assoc, Nat.add_comm 1 c] at h
  obtain ⟨m2, h1, h2⟩ := StepsN.split h
  have := evaluate_stepsN (N := 0) h1
  rw [Nat.add_zero, he] at this
  cases this
  cases h2 with
  | head hs _ => exact step_label hs

theorem evaluate_end {n : Nat} {m m' m1 : Machine} (h : StepsN H n m m') (hl : m'.label = []) (he : evaluate H N m = .ok () m1)
    (hl1 : m1.label = []) : m1 = m' := by
  by_cases hn : N < n
  · exact absurd hl1 (evaluate_short h hn he)
  · obtain ⟨c, rfl⟩ := Nat.exists_eq_add_of_le (Nat.le_of_not_lt hn)
    rw [evaluate_stepsN h, evaluate_done hl] at he
    cases he
    rfl

/-- A run that comes to a step that raises does not end. -/
theorem evaluate_no_err {n : Nat} {m m1 m2 m' : Machine} {e : Err} (h1 : StepsN H n m m1) (h2 : m1.label ≠ []) (h3 : step H m1 = .error e m2)
    (he : evaluate H N m = .ok () m') : m'.label ≠ [] := by
  by_cases hn : N ≤ n
  · obtain ⟨c, rfl⟩ := Nat.exists_eq_add_of_le hn
    rcases Nat.eq_zero_or_pos c with rfl | hc
    · have := evaluate_stepsN (N := 0) h1
      rw [Nat.add_zero, he] at this
      cases this
      exact h2
    · exact evaluate_short h1 (by omega) he
  · obtain ⟨c, rfl⟩ := Nat.exists_eq_add_of_le (show n + 1 ≤ N by omega)
    rw [Nat.add_right_comm, Nat.add_assoc, evaluate_stepsN h1, evaluate_err h2 h3] at he
    cases he

/-- What `runInit` leaves when it succeeds. -/
theorem runInit_ok {expr : Expr} {m m3 : Machine} (h : runInit H N expr 0 m = .ok () m3) :
    evaluate H N { m with label := ⟨1, 1, 0, .block, expr, 0⟩ :: m.label } = .ok () m3 ∧ m3.label = [] ∧ m3.frame.length = 1 ∧
      m3.value.length = 0 := by
  unfold runInit at h
  rw [bind_modify_run] at h
  cases he : evaluate H N { m with label := ⟨1, 1, 0, .block, expr, 0⟩ :: m.label } with
  | error e m' => rw [bind_err he] at h; cases h
  | ok u m' =>
    rw [bind_ok he, bind_get_run, bind_assert] at h
    split at h
    swap
    · cases h
    rw [bind_get_run, bind_assert] at h
    split at h
    swap
    · cases h
    rw [bind_get_run] at h
    rename_i h1 h2
    by_cases h3 : m'.value.length = 0
    · have : assert (decide (m'.value.length = 0)) m' = .ok () m' := by simp [assert, h3]; rfl
      rw [this] at h
      cases h
      exact ⟨rfl, by simpa using h2, by simpa using h1, h3⟩
    · have : assert (decide (m'.value.length = 0)) m' = .error .assertion m' := by simp [assert, h3]; rfl
      rw [this] at h
      cases h

/-- Code of an instantiation step that takes and leaves no operands. -/
theorem runInit_typed {T : StoreType} {C : Typing.Ctx} {mod : ModuleInst} {expr : Expr} {s : Store} {m3 : Machine} {nd : Bool} (hO : HostOk T.hosts H)
    (hH : HostCovered nd H) (hcov : Ref.CoveredStore nd s) (hce : Ref.coveredList nd 1 expr = true) (hS : StoreOk T s) (hM : ModOk T C mod)
    (hcode : Code { C with locals := [], labels := [], ret := [] } expr [] [])
    (h : runInit H N expr 0 ⟨s, [], [], [⟨mod, [], 0, 0, 0⟩]⟩ = .ok () m3) :
    ∃ U s', T.Le U ∧ StoreOk U s' ∧ Ref.CoveredStore nd s' ∧ m3 = ⟨s', [], [], [⟨mod, [], 0, 0, 0⟩]⟩ := by
  obtain ⟨he, hl, hf, hv⟩ := runInit_ok h
  have hs := (all_sim (S := some nd) (by rintro _ ⟨⟩; exact hH) (3 * N + 4)).1 (d := 1) (k := 1) (is := expr) (st := ⟨s, [], []⟩) (rest := [])
    (lab := ⟨1, 1, 0, .block, expr, 0⟩) (L := []) (fr := ⟨mod, [], 0, 0, 0⟩) (F := [])
    ⟨rfl, le_refl _, le_refl _, le_refl _, fun j hj => by
      obtain rfl : j = 0 := by omega
      exact ⟨_, rfl, rfl, by simp, le_refl _⟩, nofun⟩ (Nat.zero_le _) rfl (by rintro _ ⟨⟩; exact hce) (by rintro _ ⟨⟩; exact hcov)
  have ht := (Sound.sound (3 * N + 4)).1 T _ mod 1 expr [] [] ⟨s, [], []⟩ hO hcode (hM.ctx [] [] []) ⟨hS, .nil, .nil⟩
  rcases hs with hs | hs
  · obtain ⟨n, m1, m2, h1, h2, h3⟩ := meets_bad_div (Meets.imp hs fun _ => dev_some)
    exact absurd hl (evaluate_no_err h1 h2 h3 he)
  change evaluate H N (conf ⟨s, [], []⟩ [] ⟨1, 1, 0, .block, expr, 0⟩ [] ⟨mod, [], 0, 0, 0⟩ []) = _ at he
  cases hr : Ref.run H (3 * N + 4) 1 mod expr ⟨s, [], []⟩ with
  | norm st =>
    rw [hr] at hs ht
    obtain ⟨h1, n, _, h2⟩ := hs
    obtain ⟨U, h3, h4⟩ := ht
    obtain ⟨s', ls, vs⟩ := st
    have h5 : ls = [] := List.forall₂_nil_right_iff.mp h4.locals
    have h6 : vs = [] := List.forall₂_nil_right_iff.mp h4.vs
    subst h5 h6
    refine ⟨U, s', h3, h4.store, h1 nd rfl, evaluate_end (h2.trans (StepsN.one ?_)) rfl he hl⟩
    unfold step
    rw [bind_get_run, bind_idx_some (a := ⟨1, 1, 0, .block, expr, expr.length⟩) rfl, bind_topFrame rfl, if_pos rfl,
      bind_modify_run, if_neg (by simp)]
    rfl
  | br j st =>
    rw [hr] at ht
    obtain ⟨_, ts, _, _, h1, _⟩ := ht
    simp at h1
  | ret st =>
    rw [hr] at hs
    obtain ⟨h1, h2⟩ := hs
    obtain ⟨n, _, h3⟩ := h2 (Nat.zero_le _)
    have := evaluate_end h3 (by simp [returned, keep]) he hl
    subst this
    simp [returned] at hf
  | trap s' =>
    rw [hr] at hs
    obtain ⟨n, m1, e, m2, h1, h2, h3, _⟩ := hs
    exact absurd hl (evaluate_no_err h1 h2 h3 he)
  | stuck => rw [hr] at ht; exact ht.elim
  | timeout =>
    rw [hr] at hs
    obtain ⟨n, m1, h1, h2⟩ := hs
    exact absurd hl (evaluate_short h2 (by omega) he)

theorem runStart_typed {T : StoreType} {C : Typing.Ctx} {d : ModuleDesc} {mod : ModuleInst} {s : Store} {m3 : Machine} {nd : Bool} (hO : HostOk T.hosts H)
    (hH : HostCovered nd H) (hcov : Ref.CoveredStore nd s) (hS : StoreOk T s) (hM : ModOk T C mod) (hV : ValidModule C d)
    (h : runStart H N d ⟨s, [], [], [⟨mod, [], 0, 0, 0⟩]⟩ = .ok () m3) :
    ∃ U s', T.Le U ∧ StoreOk U s' ∧ Ref.CoveredStore nd s' ∧ m3 = ⟨s', [], [], [⟨mod, [], 0, 0, 0⟩]⟩ := by
  unfold runStart at h
  cases hd : d.star with
  | some f =>
    rw [hd] at h
    exact runInit_typed hO hH hcov rfl hS hM (.cons (a := []) (b := []) []
      (.call (C := { C with locals := [], labels := [], ret := [] }) (t := ⟨[], []⟩) (hV.start f hd)) (.nil _)) h
  | none =>
    rw [hd] at h
    cases h
    exact ⟨T, s, .refl T, hS, hcov, rfl⟩

/-- The same for a start function of which it is known that it does what the reference interpreter does. -/
theorem runStart_ref {T : StoreType} {C : Typing.Ctx} {d : ModuleDesc} {mod : ModuleInst} {s : Store} {m3 : Machine}
    (hO : HostOk T.hosts H) (hS : StoreOk T s) (hM : ModOk T C mod) (hV : ValidModule C d)
    (h : runStart H N d ⟨s, [], [], [⟨mod, [], 0, 0, 0⟩]⟩ = .ok () m3)
    (hr : ∀ f, d.star = some f → ∃ fuel st, Ref.run H fuel 1 mod [.call f] ⟨s, [], []⟩ = .norm st ∧ st.store = m3.store) :
    ∃ U, T.Le U ∧ StoreOk U m3.store ∧ Clean { m3 with frame := m3.frame.tail } := by
  unfold runStart at h
  cases hd : d.star with
  | some f =>
    rw [hd] at h
    obtain ⟨_, hl, hf, hv⟩ := runInit_ok h
    obtain ⟨fuel, st, h1, h2⟩ := hr f hd
    have ht := (Sound.sound fuel).1 T _ mod 1 [.call f] [] [] ⟨s, [], []⟩ hO (.cons (a := []) (b := []) []
      (.call (C := { C with locals := [], labels := [], ret := [] }) (t := ⟨[], []⟩) (hV.start f hd)) (.nil _)) (hM.ctx [] [] []) ⟨hS, .nil, .nil⟩
    rw [h1] at ht
    obtain ⟨U, h3, h4⟩ := ht
    refine ⟨U, h3, h2 ▸ h4.store, ?_, hl, List.length_eq_zero_iff.mp hv⟩
    show m3.frame.tail = []
    match hm : m3.frame with
    | [] => rfl
    | [_] => rfl
    | _ :: _ :: _ => rw [hm] at hf; simp at hf
  | none =>
    rw [hd] at h
    cases h
    exact ⟨T, .refl T, hS, rfl, rfl, rfl⟩

end Pywasm
