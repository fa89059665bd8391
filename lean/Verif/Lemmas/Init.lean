import Verif.Lemmas.Link

namespace Pywasm
open Spec M Props

variable {H : Host} {m m' : Machine} {N : Nat}

/-- Straight-line code in the reference interpreter. -/
def plains (mod : ModuleInst) : List Inst → Ref.St → Ref.Plain
  | [], st => .ok st
  | i :: is, st => match Ref.plain mod st i with
    | .ok st' => plains mod is st'
    | r => r

theorem plains_sim {rest : List Val} {L : List Label} {fr : Frame} {F : List Frame} {k : Nat} :
    ∀ (is : List Inst) {st : Ref.St} {lab : Label}, lab.index ≤ lab.instr.length → lab.instr.drop lab.index = is →
    Ref.coveredList true k is = true →
    match plains fr.module is st with
    | .ok st' => StepsN H is.length (conf st rest lab L fr F) (conf st' rest { lab with index := lab.instr.length } L fr F)
    | .trap => ∃ n m1 e m2, StepsN H n (conf st rest lab L fr F) m1 ∧ m1.label ≠ [] ∧ step H m1 = .error e m2
    | .stuck => True := by
  intro is
  induction is with
  | nil =>
    intro st lab hle hd _
    have : lab.index = lab.instr.length := by
      have := congrArg List.length hd
      simp only [List.length_drop, List.length_nil] at this
      omega
    simp only [plains, List.length_nil]
    rw [← this]
    exact .refl _
  | cons i is ih =>
    intro st lab hle hd hg
    have hi : lab.instr[lab.index]? = some i := by
      have := congrArg List.head? hd
      simpa [List.head?_drop] using this
    have hlt : lab.index < lab.instr.length := (List.getElem?_eq_some_iff.mp hi).1
    simp only [Ref.coveredList, Bool.and_eq_true] at hg
    have h := plain_sim (H := H) (st := st) (rest := rest) (L := L) (fr := fr) (F := F) hi (not_bad_div hi hg.1)
    simp only [plains]
    generalize Ref.plain fr.module st i = r at h
    cases r with
    | ok st' =>
      simp only
      have hd' : lab.adv.instr.drop lab.adv.index = is := by
        have := congrArg List.tail hd
        simpa [Label.adv] using this
      have h2 := ih (st := st') (lab := lab.adv) (by show lab.index + 1 ≤ _; exact hlt) hd' hg.2
      generalize plains fr.module is st' = r2 at h2
      cases r2 with
      | ok st'' => exact .head h h2
      | trap =>
        obtain ⟨n, m1, e, m2, h3, h4, h5⟩ := h2
        exact ⟨n + 1, m1, e, m2, .head h h3, h4, h5⟩
      | stuck => trivial
    | trap =>
      obtain ⟨e, m2, h2, _⟩ := h
      exact ⟨0, _, e, m2, .refl _, by simp [conf], h2⟩
    | stuck => trivial

theorem eval_wp {n : Nat} (h : StepsN H n m m') (hl : m'.label = []) :
    Wp (evaluate H N) (fun _ m1 => m1 = m' ∨ N < n ∧ m1.label ≠ []) (fun _ => False) m := by
  unfold Wp
  by_cases hn : n ≤ N
  · obtain ⟨c, rfl⟩ := Nat.exists_eq_add_of_le hn
    rw [evaluate_stepsN h, evaluate_done hl]
    exact .inl rfl
  · obtain ⟨c, rfl⟩ := Nat.exists_eq_add_of_lt (Nat.lt_of_not_le hn)
    obtain ⟨m1, h1, h2⟩ := StepsN.split (i := N) (j := c + 1) h
    rw [show N = N + 0 from rfl, evaluate_stepsN h1]
    cases h2 with
    | head hs _ => exact .inr ⟨by omega, step_label hs⟩

theorem eval_trap_wp {n : Nat} {m1 m2 : Machine} {e : Err} (h : StepsN H n m m1) (hl : m1.label ≠ [])
    (he : step H m1 = .error e m2) : Wp (evaluate H N) (fun _ m' => m'.label ≠ []) (fun _ => True) m := by
  unfold Wp
  by_cases hn : n + 1 ≤ N
  · obtain ⟨c, rfl⟩ := Nat.exists_eq_add_of_le hn
    rw [Nat.add_assoc, evaluate_stepsN h, Nat.add_comm, evaluate_err hl he]
    trivial
  · obtain ⟨c, rfl⟩ : ∃ c, n = N + c := Nat.exists_eq_add_of_le (by omega)
    obtain ⟨m3, h5, h6⟩ := StepsN.split h
    rw [show N = N + 0 from rfl, evaluate_stepsN h5]
    cases h6 with
    | refl => exact hl
    | head hs _ => exact step_label hs

/-- The machine after straight-line code. -/
def After (f : Frame) (nval : Nat) (m' : Machine) : Ref.Plain → Prop
  | .ok st' => st'.vs.length = nval ∧ m' = ⟨st'.store, st'.vs, [], [{ f with locals := st'.locals }]⟩
  | .trap => False
  | .stuck => True

/-- Straight-line code goes through within `N` steps. -/
def GoodInit (N : Nat) (expr : Expr) (nval : Nat) (o : Ref.Plain) : Prop := expr.length < N ∧ ∃ st, o = .ok st ∧ st.vs.length = nval

/-- Running straight-line code during instantiation. -/
theorem runInit_wp {expr : Expr} {nval : Nat} {f : Frame} {o : Ref.Plain} (hf : m.frame = [f]) (hl : m.label = [])
    (hv : m.value = []) (hg : Ref.coveredList true 0 expr = true) (ho : plains f.module expr ⟨m.store, f.locals, []⟩ = o) :
    Wp (runInit H N expr nval) (fun _ m' => After f nval m' o) (fun _ => ¬ GoodInit N expr nval o) m := by
  unfold runInit
  apply wp_bind; apply wp_modify
  have hm : { m with label := ⟨1, 1, 0, .block, expr, 0⟩ :: m.label } =
      conf ⟨m.store, f.locals, []⟩ [] ⟨1, 1, 0, .block, expr, 0⟩ [] f [] := by
    simp [conf, hf, hl, hv]
  rw [hm]
  have h := plains_sim (H := H) (rest := []) (L := []) (fr := f) (F := []) expr (st := ⟨m.store, f.locals, []⟩)
    (lab := ⟨1, 1, 0, .block, expr, 0⟩) (Nat.zero_le _) rfl hg
  rw [ho] at h
  apply wp_bind
  cases o with
  | ok st' =>
    have hend : step H (conf st' [] ⟨1, 1, 0, .block, expr, expr.length⟩ [] f []) =
        .ok () ⟨st'.store, st'.vs, [], [{ f with locals := st'.locals }]⟩ := by
      unfold step
      rw [bind_get_run, bind_idx_some (a := ⟨1, 1, 0, .block, expr, expr.length⟩) rfl, bind_topFrame rfl, if_pos rfl,
        bind_modify_run, if_neg (by nofun)]
      simp [conf, pure_run]
    refine wp_mono (eval_wp (h.trans (StepsN.one hend)) rfl) (fun _ m1 h1 => ?_) (fun _ h => h.elim)
    rcases h1 with rfl | ⟨hN, h1⟩
    · apply wp_bind; apply wp_get; apply wp_bind
      refine wp_assert_or (fun _ => ?_) (fun h => absurd (by simp) h)
      apply wp_bind; apply wp_get; apply wp_bind
      refine wp_assert_or (fun _ => ?_) (fun h => absurd (by simp) h)
      apply wp_bind; apply wp_get
      refine wp_assert_or (fun h2 => ⟨by simpa using h2, rfl⟩) (fun h2 hx => ?_)
      obtain ⟨_, _, h3, h4⟩ := hx
      cases h3
      exact h2 (by simpa using h4)
    · have hbad : ¬ GoodInit N expr nval (.ok st') := fun h => by have := h.1; omega
      wp_run
      · rename_i h2 _
        exact absurd (by simpa using h2) h1
      all_goals exact hbad
  | trap =>
    obtain ⟨n, m1, e, m2, h1, h2, h3⟩ := h
    have hbad : ¬ GoodInit N expr nval .trap := by rintro ⟨_, _, h, _⟩; cases h
    refine wp_mono (eval_trap_wp h1 h2 h3) (fun _ m1 h1 => ?_) (fun _ _ => hbad)
    wp_run
    · rename_i h2 _
      exact absurd (by simpa using h2) h1
    all_goals exact hbad
  | stuck =>
    have : Wp (evaluate H N) (fun _ _ => True) (fun _ => True) (conf ⟨m.store, f.locals, []⟩ [] ⟨1, 1, 0, .block, expr, 0⟩ [] f []) := by
      unfold Wp; split <;> trivial
    have hbad : ¬ GoodInit N expr nval .stuck := by rintro ⟨_, _, h, _⟩; cases h
    refine wp_mono this (fun _ m1 _ => ?_) (fun _ _ => hbad)
    wp_run
    · trivial
    all_goals exact hbad

/-- A constant expression pushes its value. -/
theorem plains_const {s : Store} {mod : ModuleInst} {ls vs : List Val} {e : Expr} {v : Val}
    (h : constVal s mod.func mod.glob e = some v) (is : List Inst) :
    plains mod (e ++ is) ⟨s, ls, vs⟩ = plains mod is ⟨s, ls, v :: vs⟩ ∧ Ref.coveredList true 0 (e ++ is) = Ref.coveredList true 0 is := by
  unfold constVal at h
  split at h
  · rename_i i
    cases h1 : mod.glob[i]? with
    | none => simp [h1] at h
    | some a =>
      cases h2 : s.glob[a]? with
      | none => simp [h1, h2] at h
      | some g =>
        simp only [h1, h2, Option.bind_some, Option.map_some, Option.some.injEq] at h
        subst h
        simp [plains, Ref.plain, Ref.vars, Ref.theGlobal, h1, h2, Ref.coveredList, Ref.covered]
  · rename_i i
    cases h1 : mod.func[i]? with
    | none => simp [h1] at h
    | some a =>
      simp only [h1, Option.bind_some] at h
      split at h
      · rename_i h2
        simp only [Option.some.injEq] at h
        subst h
        simp [plains, Ref.plain, Ref.vars, h1, h2, Ref.coveredList, Ref.covered]
      · cases h
  · rename_i i _ _
    cases i <;> first
      | (simp [Ref.const] at h; done)
      | simp [plains, Ref.plain, h, Ref.coveredList, Ref.covered]
  · cases h

theorem constVal_length {s : Store} {F G : List Nat} {e : Expr} {v : Val} (h : constVal s F G e = some v) : e.length = 1 := by
  unfold constVal at h
  split at h <;> first | rfl | cases h

theorem runConst_wp {e : Expr} {f : Frame} {v : Val} (hf : m.frame = [f]) (hl : m.label = [])
    (hv : m.value = []) (h : constVal m.store f.module.func f.module.glob e = some v) :
    Wp (runConst H N e) (fun b m' => b = v ∧ m' = m) (fun _ => ¬ 1 < N) m := by
  unfold runConst
  have h' := plains_const (ls := f.locals) (vs := []) h []
  rw [List.append_nil] at h'
  apply wp_bind
  refine wp_mono (runInit_wp (H := H) (N := N) hf hl hv h'.2 h'.1) (fun _ m' h1 => ?_)
    (fun _ h1 hN => h1 ⟨by rw [constVal_length h]; exact hN, _, rfl, rfl⟩)
  obtain ⟨_, rfl⟩ := h1
  unfold Wp
  rw [pop_eq rfl]
  refine ⟨rfl, ?_⟩
  cases m
  simp_all

end Pywasm
