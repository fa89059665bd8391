import Verif.Lemmas.FloatArith

/-!
# Rounding twice

pywasm computes `f32` arithmetic in double precision and rounds the result again to single.  Here: when that gives the
same as rounding once.
-/

set_option exponentiation.threshold 3000

namespace Pywasm
open Spec

/-- `roundMag` from any two adjacent codes that enclose the number. -/
theorem roundMag_cases {p emax num den c0 : Nat} (hp : 0 < p) (hd : 0 < den) (hlo : magnitude p c0 * den ≤ num)
    (hhi : num ≤ magnitude p (c0 + 1) * den) :
    (2 * num < (magnitude p c0 + magnitude p (c0 + 1)) * den → IEEE.roundMag p emax num den = min c0 (emax * 2 ^ p)) ∧
    ((magnitude p c0 + magnitude p (c0 + 1)) * den < 2 * num → IEEE.roundMag p emax num den = min (c0 + 1) (emax * 2 ^ p)) ∧
    (2 * num = (magnitude p c0 + magnitude p (c0 + 1)) * den →
      IEEE.roundMag p emax num den = min (if c0 % 2 = 1 then c0 + 1 else c0) (emax * 2 ^ p)) := by
  obtain ⟨c, d, r, ⟨h1, h2, h3⟩, hR⟩ := roundMag_bracket p emax num den hp hd
  rw [hR]
  have hst : ∀ a b, a < b → magnitude p a * den < magnitude p b * den := fun a b h =>
    Nat.mul_lt_mul_of_pos_right (magnitude_strictMono p h) hd
  have hgap := hst c0 (c0 + 1) (by omega)
  rw [Nat.add_mul]
  -- either the same bracket or the number is the upper end
  rcases Nat.lt_trichotomy c c0 with hc | hc | hc
  · have : magnitude p (c + 1) * den ≤ magnitude p c0 * den := Nat.mul_le_mul_right _ (magnitude_le hc)
    omega
  · subst hc
    refine ⟨fun h => ?_, fun h => ?_, fun h => ?_⟩
    · rw [if_neg (by omega)]
    · rw [if_pos (by omega)]
    · by_cases ho : c % 2 = 1
      · rw [if_pos (by omega), if_pos ho]
      · rw [if_neg (by omega), if_neg ho]
  · have h4 : c = c0 + 1 := by
      by_contra hne
      have := hst (c0 + 1) c (by omega)
      omega
    subst h4
    have hr : r = 0 := by omega
    refine ⟨fun h => ?_, fun h => ?_, fun h => ?_⟩
    · omega
    · rw [if_neg (by omega)]
    · omega

/-- Gaps between adjacent normal numbers, relative to the number. -/
theorem gap_up {p c : Nat} (h : 2 ^ p ≤ c) : (magnitude p (c + 1) - magnitude p c) * 2 ^ p ≤ magnitude p c := by
  have hp := Nat.two_pow_pos p
  obtain ⟨e, m, hc, h1, h2⟩ : ∃ e m, c = e * 2 ^ p + m ∧ 2 ^ p ≤ m ∧ m < 2 ^ (p + 1) := by
    refine ⟨c / 2 ^ p - 1, 2 ^ p + c % 2 ^ p, ?_, by omega, ?_⟩
    · have hd : 1 ≤ c / 2 ^ p := (Nat.one_le_div_iff hp).mpr (by omega)
      have := Nat.div_add_mod c (2 ^ p)
      obtain ⟨k, hk⟩ : ∃ k, c / 2 ^ p = k + 1 := ⟨c / 2 ^ p - 1, by omega⟩
      rw [hk] at this ⊢
      rw [Nat.add_sub_cancel]
      rw [Nat.mul_add, Nat.mul_one, Nat.mul_comm] at this
      omega
    · have := Nat.mod_lt c hp; rw [pow_succ]; omega
  subst hc
  rw [Nat.add_assoc, magnitude_eq h2.le (.inr h1), magnitude_eq (by omega) (.inr (by omega)), Nat.add_mul, Nat.one_mul,
    Nat.add_sub_cancel_left, Nat.mul_comm]
  exact Nat.mul_le_mul_right _ h1
theorem gap_down {p c : Nat} (h : 2 ^ p ≤ c) : (magnitude p (c + 1) - magnitude p c) * 2 ^ p ≤ magnitude p (c + 1) :=
  le_trans (gap_up h) (magnitude_le (by omega))

/-- The sum of two adjacent single magnitudes (twice their midpoint). -/
theorem mid_form (p c : Nat) : ∃ m k, magnitude p c + magnitude p (c + 1) = (2 * m + 1) * 2 ^ k ∧ m < 2 ^ (p + 1) ∧
    (k = 0 ∨ 2 ^ p ≤ m) ∧ magnitude p c = m * 2 ^ k := by
  have hp := Nat.two_pow_pos p
  by_cases h : c < 2 ^ p
  · have h1 := magnitude_eq (p := p) (e := 0) (m := c) (by rw [pow_succ]; omega) (.inl rfl)
    have h2 := magnitude_eq (p := p) (e := 0) (m := c + 1) (by rw [pow_succ]; omega) (.inl rfl)
    simp only [Nat.zero_mul, Nat.zero_add, pow_zero, Nat.mul_one] at h1 h2
    exact ⟨c, 0, by rw [h1, h2]; omega, by rw [pow_succ]; omega, .inl rfl, by rw [h1]; omega⟩
  · obtain ⟨e, m, hc, h1, h2⟩ : ∃ e m, c = e * 2 ^ p + m ∧ 2 ^ p ≤ m ∧ m < 2 ^ (p + 1) := by
      refine ⟨c / 2 ^ p - 1, 2 ^ p + c % 2 ^ p, ?_, by omega, ?_⟩
      · have hd : 1 ≤ c / 2 ^ p := (Nat.one_le_div_iff hp).mpr (by omega)
        have := Nat.div_add_mod c (2 ^ p)
        obtain ⟨k, hk⟩ : ∃ k, c / 2 ^ p = k + 1 := ⟨c / 2 ^ p - 1, by omega⟩
        rw [hk] at this ⊢
        rw [Nat.add_sub_cancel]
        rw [Nat.mul_add, Nat.mul_one, Nat.mul_comm] at this
        omega
      · have := Nat.mod_lt c hp; rw [pow_succ]; omega
    subst hc
    refine ⟨m, e, ?_, h2, .inr h1, magnitude_eq h2.le (.inr h1)⟩
    rw [Nat.add_assoc, magnitude_eq h2.le (.inr h1), magnitude_eq (by omega) (.inr (by omega))]
    ring

/-- The number `N/D` (in double units) is not too close to a midpoint `M2/2` (in single units) unless it is equal. -/
def Clear (N D M2 : Nat) : Prop := 2 * N = M2 * (D * 2 ^ 925) ∨
  ((M2 * (D * 2 ^ 925) : Nat) : Int) < 2 ^ 53 * |(2 * N : Int) - ((M2 * (D * 2 ^ 925) : Nat) : Int)|

/-- Rounding to double and then to single gives what rounding once to single gives, when the number is clear of the
midpoint of the two singles around it. -/
theorem double_round {N D c1 : Nat} (hD : 0 < D) (h1 : Nearest 52 inf64 N D c1)
    (hM : ∀ c, c < inf32 → Clear N D (magnitude 23 c + magnitude 23 (c + 1))) :
    IEEE.roundMag 23 255 (magnitude 52 c1) (2 ^ 925) = IEEE.roundMag 23 255 N (D * 2 ^ 925) := by
  have hE : 0 < 2 ^ 925 := Nat.two_pow_pos 925
  have hDE : 0 < D * 2 ^ 925 := Nat.mul_pos hD hE
  have rep : ∀ c, c ≤ inf32 → ∃ c', c' ≤ inf64 ∧ magnitude 52 c' = magnitude 23 c * 2 ^ 925 := by
    intro c hc
    rcases Nat.lt_or_eq_of_le hc with h | rfl
    · obtain ⟨c', a, b⟩ := exists_code64 h; exact ⟨c', a.le, b⟩
    · obtain ⟨c', h'⟩ := exists_code (p := 52) (a := 1) (by decide) (277 + 925)
      refine ⟨c', ?_, by rw [h', magnitude_inf32, Nat.one_mul, pow_add]⟩
      apply code_le (p := 52)
      rw [h', magnitude_inf64, Nat.one_mul]
      exact Nat.pow_le_pow_right (by decide) (by decide)
  obtain ⟨c0, d, r, ⟨b1, b2, b3⟩, _⟩ := roundMag_bracket 23 255 N (D * 2 ^ 925) (by decide) hDE
  have hlo : magnitude 23 c0 * (D * 2 ^ 925) ≤ N := by omega
  by_cases hc0 : inf32 ≤ c0
  · -- overflow: both give infinity
    have e1 : ∀ num den, 0 < den → magnitude 23 inf32 * den ≤ num → IEEE.roundMag 23 255 num den = inf32 := by
      intro num den hd h
      have hn := (roundMag_nearest 23 255 num den (by decide) hd).1
      have := nearest_ge hd hn (c' := inf32) le_rfl h
      have := roundMag_le 23 255 num den
      unfold inf32 at *; omega
    have h2 : magnitude 23 inf32 * (D * 2 ^ 925) ≤ N := le_trans (Nat.mul_le_mul_right _ (magnitude_le hc0)) hlo
    rw [e1 _ _ hDE h2]
    obtain ⟨c', a, b⟩ := rep inf32 le_rfl
    apply e1 _ _ hE
    rw [← b]
    apply magnitude_le
    apply nearest_ge hD h1 a
    rw [b]; calc _ = magnitude 23 inf32 * (D * 2 ^ 925) := by ring
      _ ≤ N := h2
  · have hc0' : c0 < inf32 := by omega
    have hhi : N ≤ magnitude 23 (c0 + 1) * (D * 2 ^ 925) := by omega
    obtain ⟨cl, al, bl⟩ := rep c0 hc0'.le
    obtain ⟨ch, ah, bh⟩ := rep (c0 + 1) hc0'
    have ylo : magnitude 23 c0 * 2 ^ 925 ≤ magnitude 52 c1 := by
      rw [← bl]; apply magnitude_le; apply nearest_ge hD h1 al
      rw [bl]; calc _ = magnitude 23 c0 * (D * 2 ^ 925) := by ring
        _ ≤ N := hlo
    have yhi : magnitude 52 c1 ≤ magnitude 23 (c0 + 1) * 2 ^ 925 := by
      rw [← bh]; apply magnitude_le; apply nearest_le hD h1 ah
      rw [bh]; calc N ≤ magnitude 23 (c0 + 1) * (D * 2 ^ 925) := hhi
        _ = _ := by ring
    have A := roundMag_cases (p := 23) (emax := 255) (by decide) hDE hlo hhi
    have B := roundMag_cases (p := 23) (emax := 255) (by decide) hE ylo yhi
    -- the midpoint as a double
    obtain ⟨m, k, hmid, hm, _, _⟩ := mid_form 23 c0
    have clear := hM c0 hc0'
    obtain ⟨M2, hM2⟩ : ∃ M2, M2 = magnitude 23 c0 + magnitude 23 (c0 + 1) := ⟨_, rfl⟩
    rw [← hM2] at A B clear hmid
    obtain ⟨cM, hcM⟩ := exists_code (p := 52) (a := 2 * m + 1) (by omega) (k + 924)
    have hVM : magnitude 52 cM = M2 * 2 ^ 924 := by rw [hcM, hmid, pow_add]; ring
    have hV2 : magnitude 52 cM * 2 = M2 * 2 ^ 925 := by rw [hVM, Nat.mul_assoc, ← pow_succ]
    have hM2pos : 0 < M2 := by rw [hmid]; exact Nat.mul_pos (by omega) (Nat.two_pow_pos k)
    have hM2lt : M2 ≤ magnitude 23 inf32 * 2 := by
      have x1 : magnitude 23 c0 ≤ magnitude 23 inf32 := magnitude_le hc0'.le
      have x2 : magnitude 23 (c0 + 1) ≤ magnitude 23 inf32 := magnitude_le hc0'
      omega
    have hcMlt : cM + 1 ≤ inf64 := by
      apply Pywasm.code_lt (p := 52)
      rw [hVM, magnitude_inf64]
      calc M2 * 2 ^ 924 ≤ 2 ^ 277 * 2 * 2 ^ 924 := Nat.mul_le_mul_right _ (by rw [← magnitude_inf32]; exact hM2lt)
        _ = 2 ^ 1202 := by rw [← pow_succ, ← pow_add]
        _ < 2 ^ 2098 := Nat.pow_lt_pow_right (by decide) (by decide)
    have hcMn : 2 ^ 52 < cM := by
      apply Pywasm.code_lt (p := 52)
      have x := magnitude_eq (p := 52) (e := 0) (m := 2 ^ 52) (by omega) (.inl rfl)
      rw [Nat.zero_mul, Nat.zero_add, pow_zero, Nat.mul_one] at x
      rw [x, hVM]
      calc 2 ^ 52 < 2 ^ 924 := Nat.pow_lt_pow_right (by decide) (by decide)
        _ ≤ M2 * 2 ^ 924 := Nat.le_mul_of_pos_left _ hM2pos
    -- in units where everything is an integer
    obtain ⟨V, hV⟩ : ∃ V : Nat → Nat, ∀ c, V c = magnitude 52 c := ⟨magnitude 52, fun _ => rfl⟩
    have hVst : ∀ a b, a < b → V a < V b := fun a b h => by rw [hV, hV]; exact magnitude_strictMono 52 h
    have hgu := gap_up (p := 52) (c := cM) (by omega)
    have hgd := gap_down (p := 52) (c := cM - 1) (by omega)
    rw [show cM - 1 + 1 = cM by omega] at hgd
    have near := h1.2
    simp only [← hV] at hgu hgd hV2 near B ylo yhi ⊢
    -- compare N/D with M
    rcases Nat.lt_trichotomy (2 * N) (M2 * (D * 2 ^ 925)) with hlt | heq | hgt
    · rw [A.1 hlt]
      apply B.1
      have hle : c1 ≤ cM := by
        apply nearest_le hD h1 (by omega)
        rw [← hV]
        have : 2 * N < V cM * 2 * D := by rw [hV2]; calc 2 * N < _ := hlt
                                            _ = _ := by ring
        have e : V cM * 2 * D = 2 * (V cM * D) := by ring
        omega
      rcases Nat.lt_or_eq_of_le hle with hl | rfl
      · have := hVst _ _ hl
        rw [← hV2]; omega
      · exfalso
        rcases clear with h | h
        · omega
        · have hn := (near (c1 - 1) (by omega)).1
          have e0 : M2 * (D * 2 ^ 925) = V c1 * 2 * D := by rw [hV2]; ring
          rw [e0] at h hlt
          have g0 := hVst (c1 - 1) c1 (by omega)
          have g1 : V (c1 - 1) * D < V c1 * D := Nat.mul_lt_mul_of_pos_right g0 hD
          have g2 : (V c1 - V (c1 - 1)) * 2 ^ 52 * D ≤ V c1 * D := Nat.mul_le_mul_right _ hgd
          have e1 : (V c1 - V (c1 - 1)) * 2 ^ 52 * D = (V c1 * D - V (c1 - 1) * D) * 2 ^ 52 := by
            rw [Nat.mul_right_comm, Nat.sub_mul]
          have e2 : V c1 * 2 * D = 2 * (V c1 * D) := by ring
          rw [e1] at g2
          rw [e2] at h hlt
          have c1' : ((V c1 : Int) * D) = ((V c1 * D : Nat) : Int) := by push_cast; rfl
          have c2' : ((V (c1 - 1) : Int) * D) = ((V (c1 - 1) * D : Nat) : Int) := by push_cast; rfl
          rw [c1', c2'] at hn
          generalize V c1 * D = X at *
          generalize V (c1 - 1) * D = Y at *
          rw [abs_of_neg (by omega)] at h
          rw [abs_of_nonneg (by omega)] at hn
          rcases le_total ((Y : Int) - N) 0 with hy | hy
          · rw [abs_of_nonpos hy] at hn; omega
          · rw [abs_of_nonneg hy] at hn; omega
    · have hex : c1 = cM := by
        have e : magnitude 52 cM * D = N := by
          have : magnitude 52 cM * 2 * D = 2 * N := by rw [← hV, hV2, heq]; ring
          have e' : magnitude 52 cM * 2 * D = 2 * (magnitude 52 cM * D) := by ring
          omega
        have u := (roundMag_nearest 52 2047 N D (by decide) hD).2
        rw [u c1 h1]
        exact roundMag_exact (by decide) hD (by unfold inf64 at hcMlt; omega) e
      rw [A.2.2 heq]
      apply B.2.2
      rw [hex, ← hV2]; ring
    · rw [A.2.1 hgt]
      apply B.2.1
      have hle : cM ≤ c1 := by
        apply nearest_ge hD h1 (by omega)
        rw [← hV]
        have : V cM * 2 * D < 2 * N := by rw [hV2]; calc _ = M2 * (D * 2 ^ 925) := by ring
                                            _ < _ := hgt
        have e : V cM * 2 * D = 2 * (V cM * D) := by ring
        omega
      rcases Nat.lt_or_eq_of_le hle with hl | rfl
      · have := hVst _ _ hl
        rw [← hV2]; omega
      · exfalso
        rcases clear with h | h
        · omega
        · have hn := (near (cM + 1) hcMlt).1
          have e0 : M2 * (D * 2 ^ 925) = V cM * 2 * D := by rw [hV2]; ring
          rw [e0] at h hgt
          have g0 := hVst cM (cM + 1) (by omega)
          have g1 : V cM * D < V (cM + 1) * D := Nat.mul_lt_mul_of_pos_right g0 hD
          have g2 : (V (cM + 1) - V cM) * 2 ^ 52 * D ≤ V cM * D := Nat.mul_le_mul_right _ hgu
          have e1 : (V (cM + 1) - V cM) * 2 ^ 52 * D = (V (cM + 1) * D - V cM * D) * 2 ^ 52 := by
            rw [Nat.mul_right_comm, Nat.sub_mul]
          have e2 : V cM * 2 * D = 2 * (V cM * D) := by ring
          rw [e1] at g2
          rw [e2] at h hgt
          have c1' : ((V cM : Int) * D) = ((V cM * D : Nat) : Int) := by push_cast; rfl
          have c2' : ((V (cM + 1) : Int) * D) = ((V (cM + 1) * D : Nat) : Int) := by push_cast; rfl
          rw [c1', c2'] at hn
          generalize V cM * D = X at *
          generalize V (cM + 1) * D = Y at *
          rw [abs_of_pos (by omega)] at h
          rw [abs_of_nonpos (by omega)] at hn
          rcases le_total ((Y : Int) - N) 0 with hy | hy
          · rw [abs_of_nonpos hy] at hn; omega
          · rw [abs_of_nonneg hy] at hn; omega

end Pywasm
