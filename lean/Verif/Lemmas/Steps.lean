import Verif.Lemmas.Wp
import Verif.Spec.History

namespace Pywasm
open Spec M

variable {H : Host}

theorem Spec.Steps.trans {a b c : Machine} (h1 : Steps H a b) (h2 : Steps H b c) : Steps H a c := by
  induction h2 with
  | refl => exact h1
  | tail _ hs ih => exact .tail ih hs
theorem Spec.Steps.one {a b : Machine} (h : step H a = .ok () b) : Steps H a b := .tail (.refl a) h

/-- `evaluate` returns only states reached by executing instructions. -/
theorem evaluate_steps : ∀ {N : Nat} {m : Machine}, Wp (evaluate H N) (fun _ m' => Steps H m m') (fun _ => True) m := by
  intro N
  induction N with
  | zero => intro m; exact wp_pure (.refl m)
  | succ N ih =>
    intro m
    unfold evaluate
    apply wp_bind; apply wp_get; apply wp_ite
    · intro _; exact wp_pure (.refl m)
    · intro _
      apply wp_bind
      have : Wp (step H) (fun _ m' => step H m = .ok () m') (fun _ => True) m := by
        unfold Wp; cases step H m <;> simp
      refine wp_mono this (fun _ m' h => ?_) (fun _ _ => trivial)
      exact wp_mono ih (fun _ _ h' => (Spec.Steps.one h).trans h') (fun _ _ => trivial)

end Pywasm
