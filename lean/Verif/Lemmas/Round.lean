import Verif.Spec.Float
import Verif.Model.PyFloat
import Mathlib.Tactic.Linarith
import Mathlib.Tactic.Ring
import Mathlib.Tactic.Positivity

/-!
# Rounding: `IEEE.roundMag` gives the nearest float, ties to even
-/

namespace Pywasm
open Spec

theorem magnitude_eq {p e m : Nat} (h : m ≤ 2 ^ (p + 1)) (he : e = 0 ∨ 2 ^ p ≤ m) : magnitude p (e * 2 ^ p + m) = m * 2 ^ e := by
  have hp : 0 < 2 ^ p := Nat.two_pow_pos p
  unfold magnitude
  by_cases hm : m < 2 ^ p
  · have : e = 0 := by omega
    subst this
    simp [hm]
  · have hm' : 2 ^ p ≤ m := by omega
    rw [if_neg (by have := Nat.zero_le (e * 2 ^ p); omega)]
    rw [pow_succ] at h
    by_cases h2 : m = 2 ^ p * 2
    · subst h2
      have e1 : e * 2 ^ p + 2 ^ p * 2 = (e + 2) * 2 ^ p := by ring
      rw [e1, Nat.mul_mod_left, Nat.mul_div_cancel _ hp, show e + 2 - 1 = e + 1 by omega, pow_succ]
      ring
    · have e1 : e * 2 ^ p + m = (m - 2 ^ p) + (e + 1) * 2 ^ p := by
        rw [Nat.add_mul, Nat.one_mul]; omega
      rw [e1, Nat.add_mul_mod_self_right, Nat.add_mul_div_right _ _ hp, Nat.mod_eq_of_lt (by omega),
        Nat.div_eq_of_lt (by omega), Nat.zero_add, Nat.add_sub_cancel, show 2 ^ p + (m - 2 ^ p) = m by omega]

theorem magnitude_succ_lt (p c : Nat) : magnitude p c < magnitude p (c + 1) := by
  have hp : 0 < 2 ^ p := Nat.two_pow_pos p
  by_cases h : c < 2 ^ p
  · have h1 := magnitude_eq (p := p) (e := 0) (m := c) (by rw [pow_succ]; omega) (.inl rfl)
    have h2 := magnitude_eq (p := p) (e := 0) (m := c + 1) (by rw [pow_succ]; omega) (.inl rfl)
    simp only [Nat.zero_mul, Nat.zero_add, pow_zero, Nat.mul_one] at h1 h2
    omega
  · -- c = e * 2^p + m with 2^p ≤ m < 2^(p+1)
    obtain ⟨e, m, hc, h1, h2⟩ : ∃ e m, c = e * 2 ^ p + m ∧ 2 ^ p ≤ m ∧ m < 2 ^ (p + 1) := by
      refine ⟨c / 2 ^ p - 1, 2 ^ p + c % 2 ^ p, ?_, by omega, ?_⟩
      · have hd : 1 ≤ c / 2 ^ p := (Nat.one_le_div_iff hp).mpr (by omega)
        have := Nat.div_add_mod c (2 ^ p)
        obtain ⟨k, hk⟩ : ∃ k, c / 2 ^ p = k + 1 := ⟨c / 2 ^ p - 1, by omega⟩
        rw [hk] at this ⊢
        rw [Nat.add_sub_cancel]
        rw [Nat.mul_add, Nat.mul_one, Nat.mul_comm] at this
        omega
      · have := Nat.mod_lt c hp; rw [pow_succ]; omega
    subst hc
    rw [Nat.add_assoc, magnitude_eq h2.le (.inr h1), magnitude_eq (by omega) (.inr (by omega))]
    exact Nat.mul_lt_mul_of_pos_right (by omega) (Nat.two_pow_pos e)

theorem magnitude_strictMono (p : Nat) : StrictMono (magnitude p) := strictMono_nat_of_lt_succ (magnitude_succ_lt p)
theorem magnitude_inj {p a b : Nat} (h : magnitude p a = magnitude p b) : a = b := (magnitude_strictMono p).injective h
theorem magnitude_le {p a b : Nat} (h : a ≤ b) : magnitude p a ≤ magnitude p b := (magnitude_strictMono p).monotone h

/-- The two neighbours of `num/den`: `roundMag` looks at `c0` and `c0 + 1`. -/
structure Bracket (p num den c0 d r : Nat) : Prop where
  lo : magnitude p c0 * den + r = num
  hi : num + d = magnitude p (c0 + 1) * den + r
  lt : r < d

theorem roundMag_bracket (p emax num den : Nat) (hp : 0 < p) (hd : 0 < den) :
    ∃ c0 d r, Bracket p num den c0 d r ∧
      IEEE.roundMag p emax num den = min (if d < 2 * r ∨ (d = 2 * r ∧ c0 % 2 = 1) then c0 + 1 else c0) (emax * 2 ^ p) := by
  obtain ⟨e, he⟩ : ∃ e, e = (if num / den < 2 ^ (p + 1) then 0 else Nat.log2 (num / den) - p) := ⟨_, rfl⟩
  have hpe : 0 < 2 ^ e := Nat.two_pow_pos e
  obtain ⟨d, hdd⟩ : ∃ d, d = den * 2 ^ e := ⟨_, rfl⟩
  have hd0 : 0 < d := by rw [hdd]; exact Nat.mul_pos hd hpe
  obtain ⟨m, hm⟩ : ∃ m, m = num / d := ⟨_, rfl⟩
  obtain ⟨r, hr⟩ : ∃ r, r = num % d := ⟨_, rfl⟩
  have hmq : m = num / den / 2 ^ e := by rw [hm, hdd, Nat.div_div_eq_div_mul]
  have hbnd : m < 2 ^ (p + 1) ∧ (e = 0 ∨ 2 ^ p ≤ m) := by
    rw [hmq]
    by_cases hq : num / den < 2 ^ (p + 1)
    · rw [if_pos hq] at he
      subst he
      rw [pow_zero, Nat.div_one]
      exact ⟨hq, .inl rfl⟩
    · rw [if_neg hq] at he
      have hq0 : num / den ≠ 0 := by have := Nat.two_pow_pos (p + 1); omega
      have h1 := Nat.log2_self_le hq0
      have h2 := Nat.lt_log2_self (n := num / den)
      have h3 : p + 1 ≤ Nat.log2 (num / den) := (Nat.le_log2 hq0).mpr (by omega)
      constructor
      · rw [Nat.div_lt_iff_lt_mul hpe, ← pow_add]
        have : p + 1 + e = Nat.log2 (num / den) + 1 := by omega
        rw [this]; exact h2
      · right
        rw [Nat.le_div_iff_mul_le hpe, ← pow_add]
        have : p + e = Nat.log2 (num / den) := by omega
        rw [this]; exact h1
  obtain ⟨hb1, hb2⟩ := hbnd
  have hdm : d * m + r = num := by rw [hm, hr]; exact Nat.div_add_mod num d
  refine ⟨e * 2 ^ p + m, d, r, ⟨?_, ?_, ?_⟩, ?_⟩
  · rw [magnitude_eq hb1.le hb2, ← hdm, hdd]; ring
  · rw [Nat.add_assoc, magnitude_eq hb1 (hb2.imp_right (by omega)), ← hdm, hdd, Nat.succ_eq_add_one]; ring
  · rw [hr]; exact Nat.mod_lt _ hd0
  · unfold IEEE.roundMag
    simp only
    rw [← he, ← hdd, ← hm, ← hr]
    have hpar : (e * 2 ^ p + m) % 2 = m % 2 := by
      obtain ⟨j, rfl⟩ : ∃ j, p = j + 1 := ⟨p - 1, by omega⟩
      rw [pow_succ, ← Nat.mul_assoc, Nat.mul_comm _ 2, Nat.mul_add_mod]
    rw [hpar]
    split <;> simp [Nat.add_assoc]

/-- **The rounding function gives the nearest float.** -/
theorem roundMag_nearest (p emax num den : Nat) (hp : 0 < p) (hd : 0 < den) :
    Nearest p (emax * 2 ^ p) num den (IEEE.roundMag p emax num den) ∧
      ∀ c, Nearest p (emax * 2 ^ p) num den c → c = IEEE.roundMag p emax num den := by
  obtain ⟨c0, d, r, ⟨hlo, hhi, hlt⟩, hR⟩ := roundMag_bracket p emax num den hp hd
  have hmono : ∀ a b, a ≤ b → magnitude p a * den ≤ magnitude p b * den := fun a b h => Nat.mul_le_mul_right _ (magnitude_le h)
  have hstrict : ∀ a b, a < b → magnitude p a * den < magnitude p b * den := fun a b h =>
    Nat.mul_lt_mul_of_pos_right (magnitude_strictMono p h) hd
  obtain ⟨V, hV⟩ : ∃ V : Nat → Nat, ∀ c, V c = magnitude p c * den := ⟨fun c => magnitude p c * den, fun _ => rfl⟩
  simp only [← hV] at hlo hhi hmono hstrict
  have hcast : ∀ c, ((magnitude p c : Int) * den) = (V c : Int) := fun c => by rw [hV]; push_cast; ring
  simp only [Nearest, hcast]
  obtain ⟨top, htop⟩ : ∃ top, top = emax * 2 ^ p := ⟨_, rfl⟩
  rw [← htop] at hR ⊢
  -- distances
  have dist : ∀ c, |(V c : Int) - num| = if c ≤ c0 then (num : Int) - V c else V c - num := by
    intro c
    split
    · rename_i h
      have := hmono c c0 h
      rw [abs_of_nonpos (by omega)]; omega
    · rename_i h
      have := hmono (c0 + 1) c (by omega)
      rw [abs_of_nonneg (by omega)]
  simp only [dist]
  have key : ∀ R, R = IEEE.roundMag p emax num den → (R ≤ top ∧ ∀ c' ≤ top,
      ((if R ≤ c0 then (num : Int) - V R else V R - num) ≤ (if c' ≤ c0 then (num : Int) - V c' else V c' - num)) ∧
      ((if R ≤ c0 then (num : Int) - V R else V R - num) = (if c' ≤ c0 then (num : Int) - V c' else V c' - num) →
        c' ≠ R → R % 2 = 0 ∧ c' % 2 = 1)) := by
    intro R hRR
    rw [hR] at hRR
    have hle : R ≤ top := by rw [hRR]; exact Nat.min_le_right _ _
    refine ⟨hle, fun c' hc' => ?_⟩
    have f1 : c' ≤ c0 → V c' ≤ V c0 := hmono c' c0
    have f2 : c' < c0 → V c' < V c0 := hstrict c' c0
    have f3 : c0 + 1 ≤ c' → V (c0 + 1) ≤ V c' := hmono _ _
    have f4 : c0 + 1 < c' → V (c0 + 1) < V c' := hstrict _ _
    by_cases hcap : top ≤ c0
    · have hR' : R = top := by rw [hRR]; split <;> omega
      subst hR'
      have g1 : c' ≤ R → V c' ≤ V R := hmono c' R
      have g2 : c' < R → V c' < V R := hstrict c' R
      rw [if_pos (by omega : R ≤ c0), if_pos (by omega : c' ≤ c0)]
      constructor
      · have := g1 hc'; omega
      · intro h hne
        have := g2 (by omega); omega
    · by_cases hup : d < 2 * r ∨ (d = 2 * r ∧ c0 % 2 = 1)
      · rw [if_pos hup] at hRR
        have hR' : R = c0 + 1 := by omega
        subst hR'
        rw [if_neg (by omega : ¬ c0 + 1 ≤ c0)]
        by_cases hc : c' ≤ c0
        · rw [if_pos hc]
          have := f1 hc
          constructor
          · omega
          · intro h hne
            have h5 : c' = c0 := by
              by_contra hx
              have := f2 (by omega); omega
            subst h5
            omega
        · rw [if_neg hc]
          have := f3 (by omega)
          constructor
          · omega
          · intro h hne
            have := f4 (by omega); omega
      · rw [if_neg hup] at hRR
        have hR' : R = c0 := by omega
        subst hR'
        rw [if_pos (by omega : R ≤ R)]
        by_cases hc : c' ≤ R
        · rw [if_pos hc]
          have := f1 hc
          constructor
          · omega
          · intro h hne
            have := f2 (by omega); omega
        · rw [if_neg hc]
          have := f3 (by omega)
          constructor
          · omega
          · intro h hne
            have h5 : c' = R + 1 := by
              by_contra hx
              have := f4 (by omega); omega
            subst h5
            omega
  constructor
  · obtain ⟨h1, h2⟩ := key _ rfl
    exact ⟨h1, fun c' hc' => ⟨(h2 c' hc').1, fun h hne => ((h2 c' hc').2 h hne).1⟩⟩
  · rintro c ⟨h1, h2⟩
    obtain ⟨k1, k2⟩ := key _ rfl
    by_contra hne
    have a1 := h2 _ k1
    have a2 := k2 c h1
    have heq := le_antisymm a2.1 a1.1
    have := a2.2 heq hne
    have := a1.2 heq.symm (Ne.symm hne)
    omega

/-- A representable magnitude is kept. -/
theorem roundMag_exact {p emax num den c : Nat} (hp : 0 < p) (hd : 0 < den) (hc : c ≤ emax * 2 ^ p)
    (h : magnitude p c * den = num) : IEEE.roundMag p emax num den = c := by
  obtain ⟨⟨h1, h2⟩, _⟩ := roundMag_nearest p emax num den hp hd
  have := (h2 c hc).1
  have e : (magnitude p c * den : Int) - num = 0 := by rw [← h]; push_cast; ring
  rw [e, abs_zero] at this
  have h3 := abs_eq_zero.mp (le_antisymm this (abs_nonneg _))
  have h4 : magnitude p (IEEE.roundMag p emax num den) * den = magnitude p c * den := by
    rw [h]; have : ((magnitude p (IEEE.roundMag p emax num den) * den : Nat) : Int) = num := by push_cast; linarith
    exact_mod_cast this
  exact magnitude_inj (Nat.eq_of_mul_eq_mul_right hd h4)

theorem magnitude_double (p c : Nat) : ∃ c', magnitude p c' = magnitude p c * 2 := by
  have hp : 0 < 2 ^ p := Nat.two_pow_pos p
  by_cases h : c < 2 ^ p
  · refine ⟨c * 2, ?_⟩
    have h1 := magnitude_eq (p := p) (e := 0) (m := c) (by rw [pow_succ]; omega) (.inl rfl)
    have h2 := magnitude_eq (p := p) (e := 0) (m := c * 2) (by rw [pow_succ]; omega) (.inl rfl)
    simp only [Nat.zero_mul, Nat.zero_add, pow_zero, Nat.mul_one] at h1 h2
    omega
  · refine ⟨c + 2 ^ p, ?_⟩
    unfold magnitude
    rw [if_neg h, if_neg (by omega), Nat.add_mod_right, Nat.add_div_right _ hp]
    have hd : 1 ≤ c / 2 ^ p := (Nat.one_le_div_iff hp).mpr (by omega)
    obtain ⟨k, hk⟩ : ∃ k, c / 2 ^ p = k + 1 := ⟨c / 2 ^ p - 1, by omega⟩
    rw [hk, Nat.add_sub_cancel, Nat.add_sub_cancel, pow_succ]
    ring

/-- Integers with at most `p + 1` significant bits are representable. -/
theorem exists_code {p a : Nat} (ha : a ≤ 2 ^ (p + 1)) (j : Nat) : ∃ c, magnitude p c = a * 2 ^ j := by
  induction j with
  | zero =>
    refine ⟨a, ?_⟩
    have := magnitude_eq (p := p) (e := 0) (m := a) ha (.inl rfl)
    simpa using this
  | succ j ih =>
    obtain ⟨c, h⟩ := ih
    obtain ⟨c', h'⟩ := magnitude_double p c
    exact ⟨c', by rw [h', h, pow_succ]; ring⟩

/-- The magnitude of every code is such an integer. -/
theorem magnitude_form (p c : Nat) : ∃ a j, a < 2 ^ (p + 1) ∧ magnitude p c = a * 2 ^ j := by
  unfold magnitude
  split
  · exact ⟨c, 0, by rw [pow_succ]; omega, by simp⟩
  · exact ⟨_, _, by have := Nat.mod_lt c (Nat.two_pow_pos p); rw [pow_succ]; omega, rfl⟩

theorem code_lt {p a b : Nat} (h : magnitude p a < magnitude p b) : a < b := (magnitude_strictMono p).lt_iff_lt.mp h
theorem code_le {p a b : Nat} (h : magnitude p a ≤ magnitude p b) : a ≤ b := (magnitude_strictMono p).le_iff_le.mp h

end Pywasm
