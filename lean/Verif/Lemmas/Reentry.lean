import Verif.Spec.Reentry
import Verif.Lemmas.Wp
import Verif.Spec.History

namespace Pywasm.Reentry
open M Spec

/-- The stacks are as before, or empty. -/
def Kept (m : Machine) (called : Bool) (m' : Machine) : Prop :=
  (called = false ∧ m'.frame = m.frame ∧ m'.label = m.label) ∨ (m'.frame = [] ∧ m'.label = [])

/-- Successful invocations leave empty stacks. -/
def Cleans (inv : Int → List Val → M (List Val × Bool)) : Prop :=
  ∀ a args m, Wp (inv a args) (fun _ m' => m'.frame = [] ∧ m'.label = []) (fun _ => True) m

theorem run_wp {inv} (hi : Cleans inv) (p : HostProg) (hp : p.NoCatch) : ∀ m, Wp (p.run inv) (fun r m' => Kept m r.2 m') (fun _ => True) m := by
  induction p with
  | ret rets => intro m; unfold HostProg.run; exact wp_pure (.inl ⟨rfl, rfl, rfl⟩)
  | raise e => intro m; unfold HostProg.run; exact wp_throw trivial
  | store f k ih =>
    intro m
    unfold HostProg.run
    apply wp_bind; apply wp_get
    apply wp_bind; apply wp_modify
    exact wp_mono (ih _ (hp _) _) (fun _ _ h => h) (fun _ h => h)
  | invocate a args k ih =>
    intro m
    unfold HostProg.run
    apply wp_bind
    refine wp_mono (hi a args m) (fun r m1 h1 => ?_) (fun _ h => h)
    apply wp_bind
    refine wp_mono (ih r.1 (hp _) m1) (fun x m2 h2 => ?_) (fun _ h => h)
    refine wp_pure (.inr ?_)
    rcases h2 with ⟨_, h3, h4⟩ | h2
    · exact ⟨h3.trans h1.1, h4.trans h1.2⟩
    · exact h2
  | attempt => exact hp.elim

section
variable {host : Nat → List HVal → M (List HVal × Bool)}

/-- After a callback there is nothing left to run. -/
def Stops (x : M Bool) : Prop := ∀ m, Wp x (fun c m' => c = true → m'.frame = [] ∧ m'.label = []) (fun _ => True) m

theorem any_wp {α} {x : M α} {m : Machine} : Wp x (fun _ _ => True) (fun _ => True) m := by
  unfold Wp; split <;> trivial

theorem stops_false (x : M Unit) : Stops (do x; return false) := by
  intro m
  apply wp_bind
  refine wp_mono (any_wp (x := x)) (fun _ _ _ => ?_) (fun _ h => h)
  exact wp_pure (fun h => absurd h Bool.false_ne_true)

theorem evaluateCall_stops (hh : ∀ c xs m, Wp (host c xs) (fun r m' => Kept m r.2 m') (fun _ => True) m) (a : Int) :
    Stops (evaluateCall host a) := by
  intro m
  unfold evaluateCall
  apply wp_bind; apply wp_get
  apply wp_bind; refine wp_lift (fun func _ => ?_) trivial
  cases func with
  | wasm t k code => exact stops_false _ m
  | host t c =>
    apply wp_bind
    refine wp_mono (any_wp (x := popN t.args.length)) (fun args m1 _ => ?_) (fun _ h => h)
    apply wp_bind; refine wp_lift (fun hargs _ => ?_) trivial
    apply wp_bind
    refine wp_mono (hh c hargs m1) (fun r m2 h2 => ?_) (fun _ h => h)
    apply wp_bind; refine wp_lift (fun rets _ => ?_) trivial
    apply wp_bind; apply wp_modify
    refine wp_pure (fun hc => ?_)
    rcases h2 with ⟨h3, _⟩ | h2
    · rw [hc] at h3; cases h3
    · exact h2

theorem exec_stops (hh : ∀ c xs m, Wp (host c xs) (fun r m' => Kept m r.2 m') (fun _ => True) m) (l : Label) (f : Frame) (i : Inst) :
    Stops (exec host l f i) := by
  cases i with
  | call x =>
    intro m
    unfold exec
    apply wp_bind; refine wp_idx (fun _ _ => ?_) trivial
    exact evaluateCall_stops hh _ _
  | callIndirect t tab =>
    intro m
    unfold exec
    apply wp_bind; refine wp_mono any_wp (fun _ _ _ => ?_) (fun _ h => h)
    apply wp_bind; refine wp_mono any_wp (fun _ _ _ => ?_) (fun _ h => h)
    apply wp_bind; refine wp_mono any_wp (fun _ _ _ => ?_) (fun _ h => h)
    apply wp_bind; refine wp_mono any_wp (fun _ _ _ => ?_) (fun _ h => h)
    apply wp_bind; refine wp_mono any_wp (fun _ _ _ => ?_) (fun _ h => h)
    apply wp_bind; refine wp_mono any_wp (fun _ _ _ => ?_) (fun _ h => h)
    apply wp_bind; refine wp_mono any_wp (fun _ _ _ => ?_) (fun _ h => h)
    apply wp_bind; refine wp_mono any_wp (fun _ _ _ => ?_) (fun _ h => h)
    exact evaluateCall_stops hh _ _
  | _ => exact stops_false _

theorem step_stops (hh : ∀ c xs m, Wp (host c xs) (fun r m' => Kept m r.2 m') (fun _ => True) m) : Stops (step host) := by
  intro m
  unfold step
  apply wp_bind; apply wp_get
  apply wp_bind; refine wp_idx (fun lab _ => ?_) trivial
  apply wp_bind; refine wp_mono any_wp (fun fr m1 _ => ?_) (fun _ h => h)
  split
  · apply wp_bind; apply wp_modify
    split
    · apply wp_bind; apply wp_get
      apply wp_bind; refine wp_assert (fun _ => ?_) trivial
      apply wp_bind; apply wp_modify
      exact wp_pure (fun h => absurd h Bool.false_ne_true)
    · exact wp_pure (fun h => absurd h Bool.false_ne_true)
  · apply wp_bind; refine wp_idx (fun i _ => ?_) trivial
    apply wp_bind; apply wp_modify
    exact exec_stops hh _ _ _ _

theorem evaluate_stops (hh : ∀ c xs m, Wp (host c xs) (fun r m' => Kept m r.2 m') (fun _ => True) m) : ∀ N, Stops (evaluate host N)
  | 0 => fun _ => by unfold evaluate; exact wp_pure (fun h => absurd h Bool.false_ne_true)
  | N + 1 => by
    intro m
    unfold evaluate
    apply wp_bind; apply wp_get
    split
    · exact wp_pure (fun h => absurd h Bool.false_ne_true)
    · apply wp_bind
      refine wp_mono (step_stops hh m) (fun a m1 h1 => ?_) (fun _ h => h)
      cases a with
      | false =>
        apply wp_bind
        exact wp_mono (evaluate_stops hh N m1) (fun b m2 h2 => by simpa [Wp, pure_run] using h2) (fun _ h => h)
      | true =>
        obtain ⟨h2, h3⟩ := h1 rfl
        have : evaluate host N m1 = .ok false m1 := by
          cases N with
          | zero => rfl
          | succ N => unfold evaluate; rw [bind_get_run, if_pos (by simp [h3])]; rfl
        unfold Wp
        rw [bind_ok this]
        exact fun _ => ⟨h2, h3⟩

/-- A successful invocation has made no host function call back, and leaves empty stacks. -/
theorem invocateWith_wp (hh : ∀ c xs m, Wp (host c xs) (fun r m' => Kept m r.2 m') (fun _ => True) m) (N : Nat) (a : Int) (args : List Val)
    (m : Machine) :
    Wp (invocateWith host N a args) (fun r m' => r.2 = false ∧ m'.frame = [] ∧ m'.label = [] ∧ m'.value = []) (fun _ => True) m := by
  unfold invocateWith
  apply wp_bind; apply wp_get
  apply wp_bind; refine wp_lift (fun func _ => ?_) trivial
  cases func with
  | host => exact wp_throw trivial
  | wasm t k code =>
    apply wp_bind; refine wp_assert (fun _ => ?_) trivial
    apply wp_bind; apply wp_modify
    apply wp_bind; apply wp_get
    apply wp_bind; refine wp_idx (fun mod _ => ?_) trivial
    apply wp_bind; apply wp_modify
    apply wp_bind; apply wp_modify
    apply wp_bind
    refine wp_mono (evaluate_stops hh N _) (fun c m1 h1 => ?_) (fun _ h => h)
    apply wp_bind; refine wp_popN (fun rets s _ _ => ?_) (fun _ => trivial)
    apply wp_bind; refine wp_assert (fun _ => ?_) trivial
    apply wp_bind; apply wp_get
    by_cases he : m1.frame = []
    · rw [if_pos (by simp [he])]
      apply wp_bind
      exact wp_throw trivial
    · rw [if_neg (by simpa using he)]
      apply wp_bind; apply wp_modify
      apply wp_bind; apply wp_get
      apply wp_bind; refine wp_assert (fun h2 => ?_) trivial
      apply wp_bind; apply wp_get
      apply wp_bind; refine wp_assert (fun h3 => ?_) trivial
      apply wp_bind; apply wp_get
      apply wp_bind; refine wp_assert (fun h4 => ?_) trivial
      refine wp_pure ⟨?_, by simpa using h2, by simpa using h3, by simpa using h4⟩
      cases c with
      | false => rfl
      | true => exact absurd (h1 rfl).1 he
end

theorem invocate_wp (H : Host) (hH : NoCatch H) (N : Nat) : ∀ lim a args m,
    Wp (invocate H N lim a args) (fun r m' => r.2 = false ∧ m'.frame = [] ∧ m'.label = [] ∧ m'.value = []) (fun _ => True) m
  | 0, _, _, _ => by unfold invocate; exact wp_throw trivial
  | lim + 1, a, args, m => by
    refine invocateWith_wp (fun c xs m => ?_) N a args m
    apply wp_bind; apply wp_get
    refine run_wp (fun a args m => ?_) _ (hH _ _ _) _
    exact wp_mono (invocate_wp H hH N lim a args m) (fun _ _ h => ⟨h.2.1, h.2.2.1⟩) (fun _ h => h)

/-! ## Without callbacks -/

/-- `x` ends without a callback exactly when `y` ends, in the same state and with the same result. -/
def Agree {α} (x : M (α × Bool)) (y : M α) : Prop := ∀ m m' a, x m = .ok (a, false) m' ↔ y m = .ok a m'
def Agree' (x : M Bool) (y : M Unit) : Prop := ∀ m m', x m = .ok false m' ↔ y m = .ok () m'

theorem run_agree {inv} (p : HostProg) : ∀ m m' rets,
    p.run inv m = .ok (rets, false) m' ↔ ∃ s, p.plain m.store = .ok rets s ∧ m' = { m with store := s } := by
  induction p with
  | ret r =>
    intro m m' rets
    unfold HostProg.run HostProg.plain
    constructor
    · intro h; injection h with h1 h2; injection h1 with h1 _; subst h1 h2; exact ⟨_, rfl, rfl⟩
    · rintro ⟨s, h, rfl⟩; injection h with h1 h2; subst h1 h2; rfl
  | raise e =>
    intro m m' rets
    unfold HostProg.run HostProg.plain
    constructor
    · intro h; cases h
    · rintro ⟨s, h, _⟩; cases h
  | store f k ih =>
    intro m m' rets
    unfold HostProg.run HostProg.plain
    exact ih m.store { m with store := f m.store } m' rets
  | invocate a args k ih =>
    intro m m' rets
    unfold HostProg.run HostProg.plain
    constructor
    · intro h
      rw [bind_run] at h
      cases hx : inv a args m with
      | error e m1 => rw [hx] at h; cases h
      | ok r m1 =>
        rw [hx] at h
        simp only [bind_run] at h
        cases hy : (k r.1).run inv m1 with
        | error e m2 => rw [hy] at h; cases h
        | ok x m2 => rw [hy] at h; injection h with h1 _; injection h1 with _ h1; cases h1
    · rintro ⟨s, h, _⟩; cases h
  | attempt a args k g ih ih' =>
    intro m m' rets
    unfold HostProg.run HostProg.plain
    constructor
    · intro h
      split at h <;> (
        rw [bind_run] at h
        split at h
        · injection h with h1 _; injection h1 with _ h1; cases h1
        · cases h)
    · rintro ⟨s, h, _⟩; cases h

theorem agree_bind {α} {x : M α} {f : α → M Bool} {g : α → M Unit} (h : ∀ a, Agree' (f a) (g a)) :
    Agree' (x >>= f) (x >>= g) := by
  intro m m'
  rw [bind_run, bind_run]
  cases x m with
  | ok a m1 => exact h a m1 m'
  | error e m1 => exact ⟨(fun h => by cases h), (fun h => by cases h)⟩

theorem agree_false (x : M Unit) : Agree' (do x; return false) x := by
  intro m m'
  rw [bind_run]
  cases x m with
  | ok a m1 => exact ⟨(fun h => by injection h with _ h; subst h; rfl), (fun h => by injection h with _ h; subst h; rfl)⟩
  | error e m1 => exact ⟨(fun h => by cases h), (fun h => by cases h)⟩

section
variable {host : Nat → List HVal → M (List HVal × Bool)} {H : Pywasm.Host}

theorem evaluateCall_agree (hh : ∀ c xs, Agree (host c xs) (callHost H c xs)) (a : Int) :
    Agree' (evaluateCall host a) (Pywasm.evaluateCall H a) := by
  intro m m'
  unfold evaluateCall
  rw [bind_get_run]
  cases hx : Py.getItem m.store.func a with
  | error e =>
    unfold Pywasm.evaluateCall
    rw [bind_get_run]
    simp only [hx]
    exact ⟨(fun h => by cases h), (fun h => by cases h)⟩
  | ok func =>
    rw [bind_lift_ok]
    cases func with
    | wasm t k code =>
      refine (agree_false _ m m').trans ?_
      unfold Pywasm.evaluateCall
      rw [bind_get_run, bind_get_run, hx, bind_lift_ok, bind_lift_ok]
    | host t c =>
      unfold Pywasm.evaluateCall
      rw [bind_get_run, hx, bind_lift_ok]
      refine (agree_bind fun args => agree_bind fun hargs => ?_) m m'
      intro m m'
      rw [bind_run, bind_run]
      have key := hh c hargs m
      cases hy : callHost H c hargs m with
      | ok rets m1 =>
        have := (key m1 rets).2 hy
        rw [this]
        exact agree_bind (fun rets => agree_false _) m1 m'
      | error e m1 =>
        simp only
        refine ⟨fun h => ?_, (fun h => by cases h)⟩
        cases hz : host c hargs m with
        | error e m1 => rw [hz] at h; cases h
        | ok r m2 =>
          obtain ⟨rets, called⟩ := r
          cases called with
          | false => rw [(key m2 rets).1 hz] at hy; cases hy
          | true =>
            rw [hz] at h
            simp only [bind_run] at h
            repeat' (split at h)
            all_goals cases h

theorem exec_agree (hh : ∀ c xs, Agree (host c xs) (callHost H c xs)) (l : Label) (f : Frame) (i : Inst) :
    Agree' (exec host l f i) (Pywasm.exec H l f i) := by
  cases i with
  | call x => exact agree_bind fun _ => evaluateCall_agree hh _
  | callIndirect t tab =>
    exact agree_bind fun _ => agree_bind fun _ => agree_bind fun _ => agree_bind fun _ => agree_bind fun _ => agree_bind fun _ =>
      agree_bind fun _ => agree_bind fun _ => evaluateCall_agree hh _
  | _ => exact agree_false _

theorem step_agree (hh : ∀ c xs, Agree (host c xs) (callHost H c xs)) : Agree' (step host) (Pywasm.step H) := by
  unfold step Pywasm.step
  refine agree_bind fun _ => agree_bind fun _ => agree_bind fun _ => ?_
  split
  · refine agree_bind fun _ => ?_
    split
    · exact agree_bind fun _ => agree_bind fun _ => agree_false _
    · exact fun m m' => ⟨(fun h => by injection h with _ h; subst h; rfl), (fun h => by injection h with _ h; subst h; rfl)⟩
  · exact agree_bind fun _ => agree_bind fun _ => exec_agree hh _ _ _

theorem evaluate_agree (hh : ∀ c xs, Agree (host c xs) (callHost H c xs)) : ∀ N, Agree' (evaluate host N) (Pywasm.evaluate H N)
  | 0 => fun m m' => ⟨(fun h => by injection h with _ h; subst h; rfl), (fun h => by injection h with _ h; subst h; rfl)⟩
  | N + 1 => by
    unfold evaluate Pywasm.evaluate
    refine agree_bind fun m0 => ?_
    split
    · exact fun m m' => ⟨(fun h => by injection h with _ h; subst h; rfl), (fun h => by injection h with _ h; subst h; rfl)⟩
    · intro m m'
      rw [bind_run, bind_run]
      have key := step_agree hh m
      cases hy : Pywasm.step H m with
      | ok u m1 =>
        rw [(key m1).2 hy]
        simp only [bind_run]
        cases hz : evaluate host N m1 with
        | ok b m2 =>
          cases b with
          | false =>
            have := (evaluate_agree hh N m1 m2).1 hz
            simp only [this]
            exact ⟨(fun h => by injection h with _ h; subst h; rfl), (fun h => by injection h with _ h; subst h; rfl)⟩
          | true =>
            refine ⟨(fun h => by injection h with h _; cases h), fun h => ?_⟩
            rw [(evaluate_agree hh N m1 m').2 h] at hz
            injection hz with hz _; cases hz
        | error e m2 =>
          refine ⟨(fun h => by cases h), fun h => ?_⟩
          rw [(evaluate_agree hh N m1 m').2 h] at hz
          cases hz
      | error e m1 =>
        refine ⟨fun h => ?_, (fun h => by cases h)⟩
        cases hz : step host m with
        | error e m1 => rw [hz] at h; cases h
        | ok a m2 =>
          cases a with
          | false => rw [(key m2).1 hz] at hy; cases hy
          | true =>
            rw [hz] at h
            simp only [bind_run] at h
            split at h
            · injection h with h _; simp at h
            · cases h

theorem agree_bindP {α β} {x : M β} {f : β → M (α × Bool)} {g : β → M α} (h : ∀ a, Agree (f a) (g a)) :
    Agree (x >>= f) (x >>= g) := by
  intro m m' a
  rw [bind_run, bind_run]
  cases x m with
  | ok b m1 => exact h b m1 m' a
  | error e m1 => exact ⟨(fun h => by cases h), (fun h => by cases h)⟩

theorem agree_then {α} {x : M Bool} {y : M Unit} {f : Bool → M (α × Bool)} {g : Unit → M α} (h : Agree' x y)
    (hf : Agree (f false) (g ())) (ht : ∀ m m' a, f true m ≠ .ok (a, false) m') : Agree (x >>= f) (y >>= g) := by
  intro m m' a
  rw [bind_run, bind_run]
  cases hx : x m with
  | error e m1 =>
    cases hy : y m with
    | ok u m2 => rw [(h m m2).2 hy] at hx; cases hx
    | error e m2 => exact ⟨(fun h => by cases h), (fun h => by cases h)⟩
  | ok b m1 =>
    cases b with
    | false => rw [(h m m1).1 hx]; exact hf m1 m' a
    | true =>
      cases hy : y m with
      | ok u m2 => rw [(h m m2).2 hy] at hx; injection hx with hx _; cases hx
      | error e m2 => exact ⟨fun h => absurd h (ht _ _ _), (fun h => by cases h)⟩

theorem invocateWith_agree (hh : ∀ c xs, Agree (host c xs) (callHost H c xs)) (N : Nat) (a : Int) (args : List Val) :
    Agree (invocateWith host N a args) (Pywasm.invocate H N a args) := by
  unfold invocateWith Pywasm.invocate
  refine agree_bindP fun m0 => agree_bindP fun func => ?_
  cases func with
  | host t c => exact fun m m' a => ⟨(fun h => by cases h), (fun h => by cases h)⟩
  | wasm t k code =>
    refine agree_bindP fun _ => agree_bindP fun _ => agree_bindP fun _ => agree_bindP fun _ => agree_bindP fun _ =>
      agree_bindP fun _ => agree_then (evaluate_agree hh N) ?_ ?_
    · refine agree_bindP fun rets => agree_bindP fun _ => agree_bindP fun m1 => ?_
      split
      · exact fun m m' a => ⟨(fun h => by cases h), (fun h => by cases h)⟩
      · refine agree_bindP fun _ => agree_bindP fun _ => agree_bindP fun _ => agree_bindP fun _ => agree_bindP fun _ =>
          agree_bindP fun _ => agree_bindP fun _ => ?_
        exact fun m m' a => ⟨(fun h => by injection h with h1 h2; injection h1 with h1 _; subst h1 h2; rfl),
          (fun h => by injection h with h1 h2; subst h1 h2; rfl)⟩
    · intro m m' a h
      simp only [bind_run] at h
      repeat' (split at h)
      all_goals first
        | cases h
        | (simp only [bind_run] at h; repeat' (split at h)
           all_goals cases h)

theorem callHost_agree (H : Host) (N lim c : Nat) (xs : List HVal) :
    Agree (do
      let mod := (← get).frame.head?.map (·.module)
      (H c mod xs).run (invocate H N lim)) (callHost (plain H) c xs) := by
  intro m m' rets
  rw [bind_get_run, run_agree]
  unfold callHost plain
  cases hx : (H c (m.frame.head?.map (·.module)) xs).plain m.store with
  | ok r s =>
    constructor
    · rintro ⟨s', h, rfl⟩; injection h with h1 h2; subst h1 h2; rfl
    · intro h; injection h with h1 h2; subst h1; exact ⟨s, rfl, h2.symm⟩
  | error e s =>
    constructor
    · rintro ⟨s', h, _⟩; cases h
    · intro h; cases h

/-- An invocation that returns and in which no host function has called back is one of a machine whose host functions do not call back. -/
theorem invocate_iff' (H : Host) (N lim : Nat) (a : Int) (args : List Val) (m m' : Machine) (rets : List Val) :
    invocate H N (lim + 1) a args m = .ok (rets, false) m' ↔ Pywasm.invocate (plain H) N a args m = .ok rets m' :=
  invocateWith_agree (callHost_agree H N lim) N a args m m' rets

/-- An invocation that returns is one of a machine whose host functions do not call back. -/
theorem invocate_iff (H : Host) (hH : NoCatch H) (N lim : Nat) (a : Int) (args : List Val) (m m' : Machine) (rets : List Val) (c : Bool) :
    invocate H N (lim + 1) a args m = .ok (rets, c) m' ↔ c = false ∧ Pywasm.invocate (plain H) N a args m = .ok rets m' := by
  have key := invocateWith_agree (callHost_agree H N lim) N a args m m' rets
  constructor
  · intro h
    have h1 := invocate_wp H hH N (lim + 1) a args m
    unfold Wp at h1
    rw [h] at h1
    obtain rfl : c = false := h1.1
    exact ⟨rfl, key.1 h⟩
  · rintro ⟨rfl, h⟩
    exact key.2 h
end

end Pywasm.Reentry
