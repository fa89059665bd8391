import Verif.Model.Machine

/-!
# Runs that return, by computing them

Used by the examples beside the theorems, to meet hypotheses that say that a run returns or raises.
-/

namespace Pywasm.Spec

/-- Did it return? -/
def returned {α} : EStateM.Result Err Machine α → Bool
  | .ok _ _ => true
  | .error _ _ => false

theorem returns {α} {x : M α} {m : Machine} (h : returned (x m) = true) : ∃ a m', x m = .ok a m' := by
  cases hx : x m with
  | ok a m' => exact ⟨a, m', rfl⟩
  | error e m' => rw [hx] at h; cases h

theorem raises {α} {x : M α} {m : Machine} (h : returned (x m) = false) : ∃ e m', x m = .error e m' := by
  cases hx : x m with
  | ok a m' => rw [hx] at h; cases h
  | error e m' => exact ⟨e, m', rfl⟩

end Pywasm.Spec
