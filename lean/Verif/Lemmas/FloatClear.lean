import Verif.Lemmas.DoubleRound

/-!
# The results of single-precision operations are clear of midpoints

So that computing in double and rounding again to single is the same as rounding once.
-/

set_option exponentiation.threshold 3000

namespace Pywasm
open Spec

/-- Two multiples of `g` that differ, differ by at least `g`. -/
theorem dvd_gap {P Q g : Nat} (hP : g ∣ P) (hQ : g ∣ Q) (hne : P ≠ Q) : (g : Int) ≤ |(P : Int) - Q| := by
  obtain ⟨a, rfl⟩ := hP
  obtain ⟨b, rfl⟩ := hQ
  have hab : a ≠ b := fun h => hne (by rw [h])
  have e : ((g * a : Nat) : Int) - ((g * b : Nat) : Int) = g * ((a : Int) - b) := by push_cast; ring
  rw [e, abs_mul, abs_of_nonneg (Int.natCast_nonneg g)]
  have h1 : (1 : Int) ≤ |(a : Int) - b| := Int.one_le_abs (by omega)
  calc (g : Int) = g * 1 := (mul_one _).symm
    _ ≤ _ := by apply mul_le_mul_of_nonneg_left h1 (Int.natCast_nonneg g)

theorem clear_of {N D M2 g : Nat} (hM : 0 < M2 * (D * 2 ^ 925)) (hP : g ∣ 2 * N) (hQ : g ∣ M2 * (D * 2 ^ 925))
    (hg : M2 * (D * 2 ^ 925) < 2 * (2 * N) → M2 * (D * 2 ^ 925) < 2 ^ 53 * g) : Clear N D M2 := by
  unfold Clear
  by_cases hne : 2 * N = M2 * (D * 2 ^ 925)
  · exact .inl hne
  · right
    have h := dvd_gap hP hQ hne
    generalize M2 * (D * 2 ^ 925) = Q at *
    have e : ((2 * N : Nat) : Int) = 2 * (N : Int) := by push_cast; rfl
    rw [e] at h
    by_cases hq : Q < 2 * (2 * N)
    · have := hg hq
      omega
    · rw [abs_of_nonpos (by omega)]
      omega

theorem pow_dvd_mul {a i j : Nat} (h : i ≤ j) : 2 ^ i ∣ a * 2 ^ j := Dvd.dvd.mul_left (Nat.pow_dvd_pow 2 h) a

/-- Product: `N/D` is `(a 2^925) (b 2^925) / 2^1074`. -/
theorem clear_mul {a b : Nat} (c ca cb : Nat) (ha : a = magnitude 23 ca) (hb : b = magnitude 23 cb) :
    Clear (a * 2 ^ 925 * (b * 2 ^ 925)) (2 ^ 1074) (magnitude 23 c + magnitude 23 (c + 1)) := by
  obtain ⟨a', i, ha', hai⟩ := magnitude_form 23 ca
  obtain ⟨b', j, hb', hbj⟩ := magnitude_form 23 cb
  obtain ⟨m, k, hmid, hm, _, _⟩ := mid_form 23 c
  have hN : 2 * (a * 2 ^ 925 * (b * 2 ^ 925)) = a' * b' * 2 ^ (i + j + 1851) := by
    rw [ha, hb, hai, hbj, pow_add, pow_add, show (1851 : Nat) = 925 + 925 + 1 from rfl, pow_add (2 : Nat) (925 + 925), pow_add (2 : Nat) 925]; ring
  have hQ : (2 * m + 1) * 2 ^ k * (2 ^ 1074 * 2 ^ 925) = (2 * m + 1) * 2 ^ (k + 1999) := by
    rw [pow_add, show (1999 : Nat) = 1074 + 925 from rfl, pow_add]; ring
  have hab : a' * b' < 2 ^ 48 := by
    calc a' * b' < 2 ^ 24 * 2 ^ 24 := Nat.mul_lt_mul'' ha' hb'
      _ = 2 ^ 48 := by rw [← pow_add]
  rw [hmid]
  rcases Nat.le_total (i + j + 1851) (k + 1999) with h | h
  · apply clear_of (g := 2 ^ (i + j + 1851)) (by rw [hQ]; exact Nat.mul_pos (by omega) (Nat.two_pow_pos _))
    · rw [hN]; exact pow_dvd_mul le_rfl
    · rw [hQ]; exact pow_dvd_mul h
    · intro hlt
      rw [hN] at hlt
      refine lt_trans hlt ?_
      have := Nat.two_pow_pos (i + j + 1851)
      calc 2 * (a' * b' * 2 ^ (i + j + 1851)) = 2 * (a' * b') * 2 ^ (i + j + 1851) := by ring
        _ < 2 ^ 53 * 2 ^ (i + j + 1851) := Nat.mul_lt_mul_of_pos_right (by omega) this
  · apply clear_of (g := 2 ^ (k + 1999)) (by rw [hQ]; exact Nat.mul_pos (by omega) (Nat.two_pow_pos _))
    · rw [hN]; exact pow_dvd_mul h
    · rw [hQ]; exact pow_dvd_mul le_rfl
    · intro _
      rw [hQ]
      exact Nat.mul_lt_mul_of_pos_right (by omega) (Nat.two_pow_pos _)

/-- Quotient: `N/D` is `(a 2^925) 2^1074 / (b 2^925)`. -/
theorem clear_div {a b : Nat} (c ca cb : Nat) (ha : a = magnitude 23 ca) (hb : b = magnitude 23 cb) (hb0 : b ≠ 0) :
    Clear (a * 2 ^ 925 * 2 ^ 1074) (b * 2 ^ 925) (magnitude 23 c + magnitude 23 (c + 1)) := by
  obtain ⟨a', i, ha', hai⟩ := magnitude_form 23 ca
  obtain ⟨b', j, hb', hbj⟩ := magnitude_form 23 cb
  obtain ⟨m, k, hmid, hm, _, _⟩ := mid_form 23 c
  have hN : 2 * (a * 2 ^ 925 * 2 ^ 1074) = a' * 2 ^ (i + 2000) := by
    rw [ha, hai, pow_add, show (2000 : Nat) = 925 + 1074 + 1 from rfl, pow_add (2 : Nat) (925 + 1074), pow_add (2 : Nat) 925]; ring
  have hQ : (2 * m + 1) * 2 ^ k * (b * 2 ^ 925 * 2 ^ 925) = (2 * m + 1) * b' * 2 ^ (k + j + 1850) := by
    rw [hb, hbj, pow_add, pow_add, show (1850 : Nat) = 925 + 925 from rfl, pow_add (2 : Nat) 925]; ring
  have hb'0 : 0 < b' := by
    rcases Nat.eq_zero_or_pos b' with h | h
    · exfalso; apply hb0; rw [hb, hbj, h, Nat.zero_mul]
    · exact h
  rw [hmid]
  have hQ0 : 0 < (2 * m + 1) * 2 ^ k * (b * 2 ^ 925 * 2 ^ 925) := by
    rw [hQ]; exact Nat.mul_pos (Nat.mul_pos (by omega) hb'0) (Nat.two_pow_pos _)
  rcases Nat.le_total (i + 2000) (k + j + 1850) with h | h
  · apply clear_of (g := 2 ^ (i + 2000)) hQ0
    · rw [hN]; exact pow_dvd_mul le_rfl
    · rw [hQ]; exact pow_dvd_mul h
    · intro hlt
      rw [hN] at hlt
      refine lt_trans hlt ?_
      calc 2 * (a' * 2 ^ (i + 2000)) = 2 * a' * 2 ^ (i + 2000) := by ring
        _ < 2 ^ 53 * 2 ^ (i + 2000) := Nat.mul_lt_mul_of_pos_right (by omega) (Nat.two_pow_pos _)
  · apply clear_of (g := 2 ^ (k + j + 1850)) hQ0
    · rw [hN]; exact pow_dvd_mul h
    · rw [hQ]; exact pow_dvd_mul le_rfl
    · intro _
      rw [hQ]
      apply Nat.mul_lt_mul_of_pos_right _ (Nat.two_pow_pos _)
      calc (2 * m + 1) * b' < 2 ^ 25 * 2 ^ 24 := Nat.mul_lt_mul'' (by omega) hb'
        _ < 2 ^ 53 := by decide

/-- The significand and exponent of a code. -/
theorem magnitude_norm (p c : Nat) : ∃ a i, magnitude p c = a * 2 ^ i ∧ a < 2 ^ (p + 1) ∧ (i = 0 ∨ 2 ^ p ≤ a) := by
  obtain ⟨m, k, _, h1, h2, h3⟩ := mid_form p c
  exact ⟨m, k, h3, h1, h2⟩

/-- A difference or sum of two singles, smaller exponent first. -/
theorem clear_add_aux {a' i b' j n m k : Nat} (hij : i ≤ j) (ha : a' < 2 ^ 24) (hb : b' < 2 ^ 24) (hbn : j = 0 ∨ 2 ^ 23 ≤ b')
    (hm : m < 2 ^ 24) (hmn : k = 0 ∨ 2 ^ 23 ≤ m)
    (hn : (n : Int) = |((b' * 2 ^ j : Nat) : Int) - ((a' * 2 ^ i : Nat) : Int)| ∨ n = b' * 2 ^ j + a' * 2 ^ i) :
    Clear (n * 2 ^ 925) 1 ((2 * m + 1) * 2 ^ k) := by
  have hdvd : 2 ^ i ∣ n := by
    have hA : 2 ^ i ∣ a' * 2 ^ i := pow_dvd_mul le_rfl
    have hB : 2 ^ i ∣ b' * 2 ^ j := pow_dvd_mul hij
    rcases hn with h | h
    · rw [← Int.natCast_dvd_natCast, h, dvd_abs]
      exact dvd_sub (Int.natCast_dvd_natCast.mpr hB) (Int.natCast_dvd_natCast.mpr hA)
    · rw [h]; exact dvd_add hB hA
  have hbound : n ≤ b' * 2 ^ j + a' * 2 ^ i ∧ b' * 2 ^ j ≤ n + a' * 2 ^ i := by
    rcases hn with h | h
    · rcases abs_cases (((b' * 2 ^ j : Nat) : Int) - ((a' * 2 ^ i : Nat) : Int)) with h' | h' <;> omega
    · omega
  have hN2 : 2 * (n * 2 ^ 925) = n * 2 * 2 ^ 925 := by ring
  have hQ : (2 * m + 1) * 2 ^ k * (1 * 2 ^ 925) = (2 * m + 1) * 2 ^ k * 2 ^ 925 := by ring
  -- scale down by 2^925
  have E := Nat.two_pow_pos 925
  have scaled : (n * 2 = (2 * m + 1) * 2 ^ k ∨
      (((2 * m + 1) * 2 ^ k : Nat) : Int) < 2 ^ 53 * |((n * 2 : Nat) : Int) - ((2 * m + 1) * 2 ^ k : Nat)|) →
      Clear (n * 2 ^ 925) 1 ((2 * m + 1) * 2 ^ k) := by
    intro h
    unfold Clear
    rw [hN2, hQ]
    rcases h with h | h
    · exact .inl (by rw [h])
    · right
      generalize (2 * m + 1) * 2 ^ k = Q at *
      have e : (2 * ((n * 2 ^ 925 : Nat) : Int) - ((Q * 2 ^ 925 : Nat) : Int)) = (((n * 2 : Nat) : Int) - (Q : Int)) * ((2 ^ 925 : Nat) : Int) := by
        push_cast; ring
      rw [e, abs_mul, abs_of_nonneg (Int.natCast_nonneg (2 ^ 925)), Nat.cast_mul, ← mul_assoc]
      exact mul_lt_mul_of_pos_right h (by exact_mod_cast E)
  apply scaled
  have hA : a' * 2 ^ i < 2 ^ 24 * 2 ^ i := Nat.mul_lt_mul_of_pos_right ha (Nat.two_pow_pos i)
  have hB : b' * 2 ^ j < 2 ^ 24 * 2 ^ j := Nat.mul_lt_mul_of_pos_right hb (Nat.two_pow_pos j)
  have hK := Nat.two_pow_pos k
  have hQlt : (2 * m + 1) * 2 ^ k < 2 ^ 25 * 2 ^ k := Nat.mul_lt_mul_of_pos_right (by omega) hK
  have hQ0 : 0 < (2 * m + 1) * 2 ^ k := Nat.mul_pos (by omega) hK
  by_cases hfar : j ≤ i + 27
  · by_cases hne : n * 2 = (2 * m + 1) * 2 ^ k
    · exact .inl hne
    right
    have hJ : 2 ^ j ≤ 2 ^ 27 * 2 ^ i := by rw [← pow_add]; exact Nat.pow_le_pow_right (by decide) (by omega)
    rcases Nat.le_total (i + 1) k with h | h
    · have hg := dvd_gap (g := 2 ^ (i + 1)) (P := n * 2) (Q := (2 * m + 1) * 2 ^ k) (by rw [pow_succ]; exact Nat.mul_dvd_mul_right hdvd 2)
        (pow_dvd_mul h) hne
      generalize (2 * m + 1) * 2 ^ k = Q at *
      rw [pow_succ] at hg
      generalize 2 ^ i = I at *
      by_cases hq : Q < 2 * (n * 2)
      · omega
      · rw [abs_of_nonpos (by omega)]; omega
    · have hg := dvd_gap (g := 2 ^ k) (P := n * 2) (Q := (2 * m + 1) * 2 ^ k)
        (dvd_trans (Nat.pow_dvd_pow 2 h) (by rw [pow_succ]; exact Nat.mul_dvd_mul_right hdvd 2)) (pow_dvd_mul le_rfl) hne
      generalize (2 * m + 1) * 2 ^ k = Q at *
      omega
  · right
    obtain ⟨t, ht⟩ : ∃ t, j = t + 4 := ⟨j - 4, by omega⟩
    have hbn' : 2 ^ 23 ≤ b' := by omega
    have hAJ : a' * 2 ^ i < 2 ^ t := by
      refine lt_of_lt_of_le hA ?_
      rw [← pow_add]; exact Nat.pow_le_pow_right (by decide) (by omega)
    have hBj : b' * 2 ^ j = b' * 16 * 2 ^ t := by rw [ht, pow_add]; ring
    have hBlo : 2 ^ 23 * 16 * 2 ^ t ≤ b' * 16 * 2 ^ t := Nat.mul_le_mul_right _ (by omega)
    rcases Nat.lt_or_ge k (t + 3) with h | h
    · -- the midpoint is much smaller
      have hK' : 2 ^ k ≤ 4 * 2 ^ t := by
        calc 2 ^ k ≤ 2 ^ (t + 2) := Nat.pow_le_pow_right (by decide) (by omega)
          _ = 4 * 2 ^ t := by rw [pow_add]; ring
      rw [hBj] at hbound
      generalize (2 * m + 1) * 2 ^ k = Q at *
      generalize b' * 16 * 2 ^ t = B at *
      rw [abs_of_nonneg (by omega)]
      omega
    · rcases Nat.lt_or_ge k (t + 5) with h' | h'
      · -- next to it: an odd multiple
        have hK' : 2 ^ k = 8 * 2 ^ t ∨ 2 ^ k = 16 * 2 ^ t := by
          rcases (by omega : k = t + 3 ∨ k = t + 4) with e | e <;> rw [e, pow_add]
          · left; ring
          · right; ring
        have hne : b' * 2 ^ j * 2 ≠ (2 * m + 1) * 2 ^ k := by
          obtain ⟨u, hu⟩ : ∃ u, j = k + u := ⟨j - k, by omega⟩
          rw [hu, pow_add, show b' * (2 ^ k * 2 ^ u) * 2 = (2 * (b' * 2 ^ u)) * 2 ^ k by ring]
          intro hh
          have := Nat.eq_of_mul_eq_mul_right hK hh
          omega
        have hg := dvd_gap (g := 2 ^ k) (P := b' * 2 ^ j * 2) (Q := (2 * m + 1) * 2 ^ k)
          (by rw [show b' * 2 ^ j * 2 = b' * 2 * 2 ^ j by ring]; exact pow_dvd_mul (by omega)) (pow_dvd_mul le_rfl) hne
        rw [hBj] at hbound hg
        generalize (2 * m + 1) * 2 ^ k = Q at *
        generalize b' * 16 * 2 ^ t = B at *
        rcases abs_cases (((B * 2 : Nat) : Int) - Q) with hh | hh <;>
          rcases abs_cases (((n * 2 : Nat) : Int) - Q) with hh' | hh' <;> omega
      · -- the midpoint is larger
        obtain ⟨u, hu⟩ : ∃ u, k = t + 5 + u := ⟨k - (t + 5), by omega⟩
        have hK' : 32 * 2 ^ t ≤ 2 ^ k := by
          calc 32 * 2 ^ t = 2 ^ (t + 5) := by rw [pow_add]; ring
            _ ≤ 2 ^ k := Nat.pow_le_pow_right (by decide) h'
        have hm' : 2 ^ 23 ≤ m := by omega
        have hBhi : b' * 16 * 2 ^ t ≤ (2 ^ 24 - 1) * 16 * 2 ^ t := Nat.mul_le_mul_right _ (by omega)
        obtain ⟨w, hw⟩ : ∃ w, 2 * m + 1 = 2 ^ 24 + 1 + w := ⟨2 * m + 1 - (2 ^ 24 + 1), by omega⟩
        have hQe : (2 * m + 1) * 2 ^ k = 2 ^ 24 * 2 ^ k + 2 ^ k + w * 2 ^ k := by rw [hw]; ring
        rw [hBj] at hbound
        generalize (2 * m + 1) * 2 ^ k = Q at *
        generalize b' * 16 * 2 ^ t = B at *
        generalize w * 2 ^ k = W at *
        rw [abs_of_nonpos (by omega)]
        omega

/-- Sum: `N/D` is `|±a ± b| 2^925`. -/
theorem clear_add {n : Nat} (c ca cb : Nat)
    (hn : (n : Int) = |((magnitude 23 ca : Nat) : Int) - (magnitude 23 cb : Nat)| ∨ n = magnitude 23 ca + magnitude 23 cb) :
    Clear (n * 2 ^ 925) 1 (magnitude 23 c + magnitude 23 (c + 1)) := by
  obtain ⟨a', i, hai, ha, han⟩ := magnitude_norm 23 ca
  obtain ⟨b', j, hbj, hb, hbn⟩ := magnitude_norm 23 cb
  obtain ⟨m, k, hmid, hm, hmn, _⟩ := mid_form 23 c
  rw [hmid]
  rw [hai, hbj] at hn
  rcases Nat.le_total i j with h | h
  · refine clear_add_aux h ha hb hbn hm hmn ?_
    rcases hn with h | h
    · left; rw [h, abs_sub_comm]
    · right; rw [h, Nat.add_comm]
  · exact clear_add_aux h hb ha han hm hmn hn

end Pywasm
