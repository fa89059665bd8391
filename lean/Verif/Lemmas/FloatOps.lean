import Verif.Lemmas.Float
import Verif.Lemmas.IntOps

/-!
# The scalar float instructions
-/

set_option exponentiation.threshold 3000

namespace Pywasm
open Spec

/-! ## Comparison -/

theorem F64.num_nan {x : F64} (h : x.isNaN = true) : num64 x = .nan := by
  unfold num64; rw [if_pos ((F64.isNaN_iff x).mp h)]
theorem F64.num_isInf {x : F64} (h : x.isInf = true) : num64 x = .inf x.msb := by
  have := (F64.isInf_iff x).mp h
  unfold num64; rw [if_neg (by omega), if_pos this]
theorem F64.num_fin {x : F64} (h : code64 x < inf64) : num64 x = .fin x.msb (magnitude 52 (code64 x)) := by
  unfold num64; rw [if_neg (by omega), if_neg (by omega)]
theorem F32.num_nan {x : F32} (h : x.isNaN = true) : num32 x = .nan := by
  unfold num32; rw [if_pos ((F32.isNaN_iff x).mp h)]
theorem F32.num_isInf {x : F32} (h : x.isInf = true) : num32 x = .inf x.msb := by
  have := (F32.isInf_iff x).mp h
  unfold num32; rw [if_neg (by omega), if_pos this]
theorem F32.num_fin {x : F32} (h : code32 x < inf32) : num32 x = .fin x.msb (magnitude 23 (code32 x)) := by
  unfold num32; rw [if_neg (by omega), if_neg (by omega)]

theorem F64.lt_eq (a b : F64) : F64.lt a b = (num64 a).less (num64 b) := by
  unfold F64.lt
  rcases F64.num_cases a with ⟨h1, h2, h3⟩ | ⟨h1, h2, h3⟩ | ⟨h1, h2, h, h3⟩
  · rw [h1, h3]; rfl
  · rcases F64.num_cases b with ⟨k1, k2, k3⟩ | ⟨k1, k2, k3⟩ | ⟨k1, k2, k, k3⟩
    · rw [h1, h3, k1, k3]; rfl
    · rw [h1, h2, h3, k1, k2, k3, F64.sign_eq, F64.sign_eq]
      cases a.msb <;> cases b.msb <;> rfl
    · rw [h1, h2, h3, k1, k2, k3, F64.sign_eq, F64.sign_eq]
      cases a.msb <;> rfl
  · rcases F64.num_cases b with ⟨k1, k2, k3⟩ | ⟨k1, k2, k3⟩ | ⟨k1, k2, k, k3⟩
    · rw [h1, h3, k1, k3]; rfl
    · rw [h1, h2, h3, k1, k2, k3, F64.sign_eq]
      rfl
    · rw [F64.val_eq h, F64.val_eq k, h1, h2, k1, k2, h3, k3]
      rfl

theorem F64.eq_eq (a b : F64) : F64.eq a b = (num64 a).equal (num64 b) := by
  unfold F64.eq
  rcases F64.num_cases a with ⟨h1, h2, h3⟩ | ⟨h1, h2, h3⟩ | ⟨h1, h2, h, h3⟩
  · rw [h1, h3]; rfl
  · rcases F64.num_cases b with ⟨k1, k2, k3⟩ | ⟨k1, k2, k3⟩ | ⟨k1, k2, k, k3⟩
    · rw [h1, h3, k1, k3]; rfl
    · rw [h1, h2, h3, k1, k2, k3]
      show (a == b) = (a.msb == b.msb)
      rw [Bool.eq_iff_iff, beq_iff_eq, beq_iff_eq]
      refine ⟨fun h => by rw [h], fun h => F64.code_ext h ?_⟩
      rw [(F64.isInf_iff a).mp h2, (F64.isInf_iff b).mp k2]
    · rw [h1, h2, h3, k1, k2, k3]
      show (a == b) = false
      rw [beq_eq_false_iff_ne]
      rintro rfl
      rw [h2] at k2; cases k2
  · rcases F64.num_cases b with ⟨k1, k2, k3⟩ | ⟨k1, k2, k3⟩ | ⟨k1, k2, k, k3⟩
    · rw [h1, h3, k1, k3]; rfl
    · rw [h1, h2, h3, k1, k2, k3]
      show (a == b) = false
      rw [beq_eq_false_iff_ne]
      rintro rfl
      rw [h2] at k2; cases k2
    · rw [F64.val_eq h, F64.val_eq k, h1, h2, k1, k2, h3, k3]
      show (_ == _) = decide _
      rw [Bool.eq_iff_iff, beq_iff_eq, decide_eq_true_eq]

/-- Scale a number by a positive factor. -/
def Spec.Num.scale (k : Nat) : Num → Num
  | .fin s m => .fin s (m * k)
  | x => x

theorem Spec.Num.units_scale (k : Nat) (s : Bool) (m : Nat) : (Num.fin s (m * k)).units = (Num.fin s m).units * k := by
  unfold Num.units
  cases s <;> push_cast <;> simp

theorem Spec.Num.less_scale {k : Nat} (hk : 0 < k) (x y : Num) : (x.scale k).less (y.scale k) = x.less y := by
  cases x with
  | nan => rfl
  | inf s => cases y <;> rfl
  | fin s m =>
    cases y with
    | nan => rfl
    | inf _ => rfl
    | fin s' m' =>
      show decide ((Num.fin s (m * k)).units < (Num.fin s' (m' * k)).units) = decide _
      rw [Num.units_scale, Num.units_scale]
      have hk' : (0 : Int) < k := by exact_mod_cast hk
      rw [decide_eq_decide, Int.mul_lt_mul_right hk']

theorem Spec.Num.equal_scale {k : Nat} (hk : 0 < k) (x y : Num) : (x.scale k).equal (y.scale k) = x.equal y := by
  cases x with
  | nan => rfl
  | inf s => cases y <;> rfl
  | fin s m =>
    cases y with
    | nan => rfl
    | inf _ => rfl
    | fin s' m' =>
      show decide ((Num.fin s (m * k)).units = (Num.fin s' (m' * k)).units) = decide _
      rw [Num.units_scale, Num.units_scale]
      have hk' : (k : Int) ≠ 0 := by have : k ≠ 0 := by omega
                                     exact_mod_cast this
      rw [decide_eq_decide, mul_left_inj' hk']

theorem F32.num_toF64 (x : F32) : num64 (F32.toF64 x) = (num32 x).scale (2 ^ 925) := by
  rcases F32.num_cases x with ⟨h, h2, h3⟩ | ⟨h, h2, h3⟩ | ⟨h, h2, h4, h3⟩
  · rw [h3, F64.num_nan (by rw [F32.toF64_isNaN, h])]; rfl
  · rw [h3, F64.num_isInf (by rw [F32.toF64_isInf, h2]), F32.toF64_msb]; rfl
  · obtain ⟨a, b, c⟩ := F32.toF64_fin h4
    rw [F64.num_fin b, a, c, F32.num_fin h4]
    rfl

theorem F32.lt_toF64 (a b : F32) : F64.lt (F32.toF64 a) (F32.toF64 b) = (num32 a).less (num32 b) := by
  rw [F64.lt_eq, F32.num_toF64, F32.num_toF64, Spec.Num.less_scale (Nat.two_pow_pos 925)]
theorem F32.eq_toF64 (a b : F32) : F64.eq (F32.toF64 a) (F32.toF64 b) = (num32 a).equal (num32 b) := by
  rw [F64.eq_eq, F32.num_toF64, F32.num_toF64, Spec.Num.equal_scale (Nat.two_pow_pos 925)]


end Pywasm
