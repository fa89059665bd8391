import Verif.Lemmas.FloatSign

/-!
# Conversions and arithmetic
-/

set_option exponentiation.threshold 3000

namespace Pywasm
open Spec

theorem nearest_scale {p top num den k c : Nat} (hk : 0 < k) :
    Nearest p top (num * k) (den * k) c ↔ Nearest p top num den c := by
  unfold Nearest
  have e : ∀ c, |(magnitude p c : Int) * ((den * k : Nat) : Int) - ((num * k : Nat) : Int)| =
      |(magnitude p c : Int) * den - num| * k := by
    intro c
    have : (magnitude p c : Int) * ((den * k : Nat) : Int) - ((num * k : Nat) : Int) = ((magnitude p c : Int) * den - num) * k := by
      push_cast; ring
    rw [this, abs_mul, abs_of_nonneg (Int.natCast_nonneg k)]
  have hk' : (0 : Int) < k := by exact_mod_cast hk
  simp only [e]
  refine and_congr_right fun _ => forall₂_congr fun c' _ => and_congr ?_ ?_
  · exact Int.mul_le_mul_right hk'
  · rw [mul_left_inj' (by omega)]

/-- The nearest code is not above one whose magnitude is at least the number. -/
theorem nearest_le {p top num den c c' : Nat} (hd : 0 < den) (h : Nearest p top num den c) (hc' : c' ≤ top)
    (hm : num ≤ magnitude p c' * den) : c ≤ c' := by
  by_contra hlt
  have h1 := (h.2 c' hc').1
  have h2 : magnitude p c' * den < magnitude p c * den := Nat.mul_lt_mul_of_pos_right (magnitude_strictMono p (by omega)) hd
  have h3 : (num : Int) ≤ magnitude p c' * den := by exact_mod_cast hm
  have h4 : ((magnitude p c' : Int) * den) < magnitude p c * den := by exact_mod_cast h2
  rw [abs_of_nonneg (by omega), abs_of_nonneg (by omega)] at h1
  omega
theorem nearest_ge {p top num den c c' : Nat} (hd : 0 < den) (h : Nearest p top num den c) (hc' : c' ≤ top)
    (hm : magnitude p c' * den ≤ num) : c' ≤ c := by
  by_contra hlt
  have h1 := (h.2 c' hc').1
  have h2 : magnitude p c * den < magnitude p c' * den := Nat.mul_lt_mul_of_pos_right (magnitude_strictMono p (by omega)) hd
  have h3 : (magnitude p c' : Int) * den ≤ num := by exact_mod_cast hm
  have h4 : ((magnitude p c : Int) * den) < magnitude p c' * den := by exact_mod_cast h2
  rw [abs_of_nonpos (by omega), abs_of_nonpos (by omega)] at h1
  omega

/-- `float(n)` for a 64-bit integer. -/
theorem F64.ofInt_spec {k : Int} (hk : k.natAbs ≤ 2 ^ 64) :
    ∃ y, F64.ofInt k = .ok y ∧ y.msb = decide (k < 0) ∧ code64 y < inf64 ∧ Nearest 52 inf64 (k.natAbs * 2 ^ 1074) 1 (code64 y) := by
  have hn := (roundMag_nearest 52 2047 (k.natAbs * 2 ^ 1074) 1 (by decide) (by decide)).1
  obtain ⟨c', hc'⟩ := exists_code (p := 52) (a := 1) (by decide) (64 + 1074)
  have hlt : c' < inf64 := by
    apply Pywasm.code_lt (p := 52)
    rw [hc', magnitude_inf64, Nat.one_mul]
    exact Nat.pow_lt_pow_right (by decide) (by decide)
  have hle := nearest_le (by decide) hn (c' := c') hlt.le (by
    rw [hc', Nat.one_mul, Nat.mul_one, pow_add]
    exact Nat.mul_le_mul_right _ hk)
  unfold F64.ofInt
  simp only
  generalize IEEE.roundMag 52 2047 (k.natAbs * 2 ^ 1074) 1 = R at *
  have hR : R < inf64 := by omega
  have h63 : R < 2 ^ 63 := by unfold inf64 at hR; omega
  refine ⟨_, if_pos hR, F64.ofMag_msb h63, ?_, ?_⟩
  · rw [F64.ofMag_code h63]; exact hR
  · rw [F64.ofMag_code h63]; exact hn

/-- A 53-bit integer is a double. -/
theorem F64.ofInt_small {k : Int} (hk : k.natAbs ≤ 2 ^ 53) :
    ∃ y, F64.ofInt k = .ok y ∧ y.msb = decide (k < 0) ∧ code64 y < inf64 ∧ magnitude 52 (code64 y) = k.natAbs * 2 ^ 1074 := by
  obtain ⟨c, hc⟩ := exists_code (p := 52) (a := k.natAbs) hk 1074
  have hlt := code_of_int64 hc (by omega)
  have h63 : c < 2 ^ 63 := by unfold inf64 at hlt; omega
  refine ⟨_, F64.ofInt_exact hlt hc, F64.ofMag_msb h63, ?_, ?_⟩
  · rw [F64.ofMag_code h63]; exact hlt
  · rw [F64.ofMag_code h63]; exact hc

theorem F32.ofInt_small {k : Int} (hk : k.natAbs ≤ 2 ^ 53) :
    ∃ y, F64.ofInt k = .ok y ∧ (F32.ofF64 y).msb = decide (k < 0) ∧ Nearest 23 inf32 (k.natAbs * 2 ^ 149) 1 (code32 (F32.ofF64 y)) := by
  obtain ⟨y, h1, h2, h3, h4⟩ := F64.ofInt_small hk
  obtain ⟨k1, _, k3⟩ := F32.ofF64_spec h3
  refine ⟨y, h1, by rw [k1, h2], ?_⟩
  rw [h4, show k.natAbs * 2 ^ 1074 = k.natAbs * 2 ^ 149 * 2 ^ 925 by rw [Nat.mul_assoc, ← pow_add]] at k3
  rw [← nearest_scale (Nat.two_pow_pos 925), Nat.one_mul]
  exact k3

theorem lift_bind_ok {α β} {m : Except Err α} {f : α → Except Err β} {a : α} (h : m = .ok a) : (m >>= f) = f a := by
  subst h; rfl

end Pywasm
