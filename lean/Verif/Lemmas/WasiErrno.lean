import Verif.Spec.WasiErrno

/-!
# Which numbers a WASI call returns: reasoning about results only
-/

namespace Pywasm.Wasi
open WasiSpec

/-- Whenever `x` returns, its result satisfies `P`. -/
def Ret {α} (P : α → Prop) (x : W α) : Prop := ∀ s r t, x s = .ok r t → P r

theorem Ret.bind {α β} {P : β → Prop} {x : W α} {f : α → W β} (h : ∀ a, Ret P (f a)) : Ret P (x >>= f) := by
  intro s r t hr
  change EStateM.bind x f s = _ at hr
  unfold EStateM.bind at hr
  split at hr
  · exact h _ _ _ _ hr
  · cases hr
theorem Ret.bind' {α β} {P : β → Prop} {Q : α → Prop} {x : W α} {f : α → W β} (hx : Ret Q x)
    (h : ∀ a, Q a → Ret P (f a)) : Ret P (x >>= f) := by
  intro s r t hr
  change EStateM.bind x f s = _ at hr
  unfold EStateM.bind at hr
  split at hr
  · next h1 => exact h _ (hx _ _ _ h1) _ _ _ hr
  · cases hr
theorem Ret.pure {α} {P : α → Prop} {a : α} (h : P a) : Ret P (Pure.pure a : W α) := by
  intro s r t hr
  cases hr
  exact h
theorem Ret.throw {α} {P : α → Prop} {e : Err} : Ret P (throw e : W α) := by
  intro s r t hr
  cases hr
theorem Ret.ite {α} {P : α → Prop} {c : Prop} [Decidable c] {x y : W α} (hx : Ret P x) (hy : Ret P y) :
    Ret P (if c then x else y) := by
  split
  · exact hx
  · exact hy
theorem mem_of_lookup : ∀ {l : List (Nat × Int)} {n : Nat} {e : Int}, l.lookup n = some e → (n, e) ∈ l
  | [], _, _, h => by cases h
  | (k, v) :: l, n, e, h => by
    unfold List.lookup at h
    split at h
    · next hk =>
      cases h
      rw [beq_iff_eq] at hk
      subst hk
      exact List.mem_cons_self
    · exact List.mem_cons_of_mem _ (mem_of_lookup h)
theorem Ret.onErr {α} {P : Int → Prop} {r : Except Err α} {tbl : List (Nat × Int)} {k : α → W Int}
    (h : ∀ p ∈ tbl, P p.2) (hk : ∀ a, Ret P (k a)) : Ret P (onErr r tbl k) := by
  unfold Wasi.onErr
  split
  · exact hk _
  · split
    · next h1 => exact Ret.pure (h _ (mem_of_lookup h1))
    · exact Ret.throw
  · exact Ret.throw

theorem Ret.run {α} {P : α → Prop} {x : W α} (h : Ret P x) {s t : St} {r : α} (hr : x s = .ok r t) : P r := h _ _ _ hr
attribute [irreducible] Ret

/-- The errors a loop over subscriptions ends with. -/
def SubErr {α} : Except Int α → Prop
  | .ok _ => True
  | .error e => e = Errno.number .badf ∨ e = Errno.number .notcapable

set_option hygiene false in
/-- Go through a `do` block: every way it can return is one of the numbers listed. -/
macro "rets" : tactic => `(tactic| repeat' (first
  | intro _
  | exact Ret.throw
  | (refine Ret.pure ?_; first | exact trivial | decide)
  | refine Ret.ite ?_ ?_
  | refine Ret.onErr (by decide) ?_
  | refine Ret.onErr (by generalize os.plat = p; revert p; rintro (_ | _ | _) <;> decide) ?_
  | refine Ret.bind ?_
  | (dsimp only; split)))

theorem Ret.readSub (os : Os) (a : Int) : Ret SubErr (readSub os a) := by
  unfold Wasi.readSub
  repeat' (first
    | intro _
    | exact Ret.pure trivial
    | exact Ret.pure (Or.inl rfl)
    | exact Ret.pure (Or.inr rfl)
    | refine Ret.ite ?_ ?_
    | refine Ret.bind ?_)
theorem Ret.readSubs (os : Os) : ∀ (n : Nat) (a : Int), Ret SubErr (readSubs os n a)
  | 0, _ => Ret.pure trivial
  | n + 1, a => by
    unfold Wasi.readSubs
    refine Ret.bind' (Ret.readSub os a) fun r hr => ?_
    cases r with
    | error e => exact Ret.pure hr
    | ok x =>
      refine Ret.bind' (Ret.readSubs os n (a + 48)) fun r hr => ?_
      cases r with
      | error e => exact Ret.pure hr
      | ok l => exact Ret.pure trivial

end Pywasm.Wasi
