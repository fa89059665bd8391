import Verif.Lemmas.FloatClear
import Mathlib.Tactic.Positivity

/-!
# Square roots: the sticky bit and rounding
-/

set_option exponentiation.threshold 3000

namespace Pywasm
open Spec

/-- Twice the integer square root, plus the sticky bit. -/
def root2 (n : Nat) : Nat := 2 * Nat.sqrt n + (if Nat.sqrt n * Nat.sqrt n = n then 0 else 1)

theorem root2_cmp (n T : Nat) : (root2 n ≤ 2 * T ↔ n ≤ T * T) ∧ (2 * T ≤ root2 n ↔ T * T ≤ n) ∧ (root2 n = 2 * T ↔ n = T * T) := by
  have h1 := Nat.sqrt_le n
  have h2 := Nat.lt_succ_sqrt n
  unfold root2
  generalize Nat.sqrt n = s at *
  have mono : ∀ a b : Nat, a ≤ b → a * a ≤ b * b := fun a b h => Nat.mul_le_mul h h
  have key : (T < s → T * T < s * s) ∧ (T = s → T * T = s * s) ∧ (s < T → (s + 1) * (s + 1) ≤ T * T) := by
    refine ⟨fun h => ?_, fun h => by rw [h], fun h => mono _ _ h⟩
    exact Nat.mul_self_lt_mul_self h
  change n < (s + 1) * (s + 1) at h2
  rcases Nat.lt_trichotomy T s with h | h | h
  · have := key.1 h; split <;> omega
  · have := key.2.1 h; split <;> omega
  · have := key.2.2 h; split <;> omega

theorem root2_lower {n t : Nat} (h : t * t ≤ n) : 2 * t ≤ root2 n := (root2_cmp n t).2.1.mpr h

theorem nearest_root {p top n0 D c : Nat} (hD : 0 < D) (h : Nearest p top (root2 (n0 * (D * D))) (2 * D) c) (hc : c < top)
    (hev : ∀ c', c' = c + 1 ∨ (c' + 1 = c) → (magnitude p c + magnitude p c') * D % 2 = 0) : NearestSqrt p top n0 c := by
  obtain ⟨V, hV⟩ : ∃ V : Nat → Nat, ∀ c, V c = magnitude p c := ⟨magnitude p, fun _ => rfl⟩
  have hVst : ∀ a b, a < b → V a < V b := fun a b h => by rw [hV, hV]; exact magnitude_strictMono p h
  have hVle : ∀ a b, a ≤ b → V a ≤ V b := fun a b h => by rw [hV, hV]; exact magnitude_le h
  have near := h.2
  unfold NearestSqrt
  simp only [← hV] at near hev ⊢
  have sq : ∀ x, (x * D) * (x * D) = x ^ 2 * (D * D) := fun x => by ring
  have hDD : 0 < D * D := Nat.mul_pos hD hD
  have cast : ∀ c', ((V c' : Int) * ((2 * D : Nat) : Int)) = ((V c' * (2 * D) : Nat) : Int) := fun c' => by push_cast; rfl
  simp only [cast] at near
  have up : 4 * n0 ≤ (V c + V (c + 1)) ^ 2 ∧ (4 * n0 = (V c + V (c + 1)) ^ 2 → c % 2 = 0) := by
    obtain ⟨h1, h2⟩ := near (c + 1) hc
    have hlt : V c * (2 * D) < V (c + 1) * (2 * D) := Nat.mul_lt_mul_of_pos_right (hVst _ _ (by omega)) (by omega)
    obtain ⟨T, hT⟩ : ∃ T, (V c + V (c + 1)) * D = 2 * T := ⟨(V c + V (c + 1)) * D / 2, by have := hev (c + 1) (.inl rfl); omega⟩
    have hs : V c * (2 * D) + V (c + 1) * (2 * D) = 4 * T := by
      have : V c * (2 * D) + V (c + 1) * (2 * D) = 2 * ((V c + V (c + 1)) * D) := by ring
      omega
    have e : 4 * (T * T) = (V c + V (c + 1)) ^ 2 * (D * D) := by rw [← sq, hT]; ring
    have cmp := root2_cmp (n0 * (D * D)) T
    generalize root2 (n0 * (D * D)) = N at *
    generalize V c * (2 * D) = A at *
    generalize V (c + 1) * (2 * D) = B at *
    have hle : N ≤ 2 * T := by
      rcases abs_cases ((A : Int) - N) with x | x <;> rcases abs_cases ((B : Int) - N) with y | y <;> omega
    have f := cmp.1.mp hle
    have g : 4 * n0 * (D * D) ≤ (V c + V (c + 1)) ^ 2 * (D * D) := by rw [← e]; nlinarith
    refine ⟨Nat.le_of_mul_le_mul_right g hDD, fun he => ?_⟩
    apply h2 _ (by omega)
    have f2 : N = 2 * T := by
      apply cmp.2.2.mpr
      have : 4 * (n0 * (D * D)) = 4 * (T * T) := by rw [e, ← he]; ring
      omega
    rcases abs_cases ((A : Int) - N) with x | x <;> rcases abs_cases ((B : Int) - N) with y | y <;> omega
  have down : ∀ c', c' + 1 = c → (V c + V c') ^ 2 ≤ 4 * n0 ∧ ((V c + V c') ^ 2 = 4 * n0 → c % 2 = 0) := by
    intro c' hc'
    obtain ⟨h1, h2⟩ := near c' (by omega)
    have hlt : V c' * (2 * D) < V c * (2 * D) := Nat.mul_lt_mul_of_pos_right (hVst _ _ (by omega)) (by omega)
    obtain ⟨T, hT⟩ : ∃ T, (V c + V c') * D = 2 * T := ⟨(V c + V c') * D / 2, by have := hev c' (.inr hc'); omega⟩
    have hs : V c * (2 * D) + V c' * (2 * D) = 4 * T := by
      have : V c * (2 * D) + V c' * (2 * D) = 2 * ((V c + V c') * D) := by ring
      omega
    have e : 4 * (T * T) = (V c + V c') ^ 2 * (D * D) := by rw [← sq, hT]; ring
    have cmp := root2_cmp (n0 * (D * D)) T
    generalize root2 (n0 * (D * D)) = N at *
    generalize V c * (2 * D) = A at *
    generalize V c' * (2 * D) = B at *
    have hle : 2 * T ≤ N := by
      rcases abs_cases ((A : Int) - N) with x | x <;> rcases abs_cases ((B : Int) - N) with y | y <;> omega
    have f := cmp.2.1.mp hle
    have g : (V c + V c') ^ 2 * (D * D) ≤ 4 * n0 * (D * D) := by rw [← e]; nlinarith
    refine ⟨Nat.le_of_mul_le_mul_right g hDD, fun he => ?_⟩
    apply h2 _ (by omega)
    have f2 : N = 2 * T := by
      apply cmp.2.2.mpr
      have : 4 * (n0 * (D * D)) = 4 * (T * T) := by rw [e, he]; ring
      omega
    rcases abs_cases ((A : Int) - N) with x | x <;> rcases abs_cases ((B : Int) - N) with y | y <;> omega
  have sqlt : ∀ a b : Nat, a < b → a ^ 2 < b ^ 2 := fun a b h => Nat.pow_lt_pow_left h (by decide)
  refine ⟨hc, fun c' hc' => ⟨fun hlt => ?_, fun hlt => ?_⟩⟩
  · rcases Nat.lt_or_eq_of_le (Nat.succ_le_of_lt hlt) with hl | hl
    · have := sqlt (V c + V (c + 1)) (V c + V c') (by have := hVst _ _ hl; exact Nat.add_lt_add_left this _)
      omega
    · rw [← hl]; exact up
  · obtain ⟨c1, rfl⟩ : ∃ c1, c = c1 + 1 := ⟨c - 1, by omega⟩
    have d := down c1 rfl
    rcases Nat.lt_or_eq_of_le (Nat.le_of_lt_succ hlt) with hl | hl
    · have := sqlt (V (c1 + 1) + V c') (V (c1 + 1) + V c1) (by have := hVst _ _ hl; exact Nat.add_lt_add_left this _)
      omega
    · rw [hl]; exact d

theorem magnitude_even {p c : Nat} (h : 2 ^ (p + 1) ≤ magnitude p c) : magnitude p c % 2 = 0 := by
  obtain ⟨a, i, e, ha, _⟩ := magnitude_norm p c
  rcases Nat.eq_zero_or_pos i with h0 | h0
  · rw [h0, pow_zero, Nat.mul_one] at e; omega
  · obtain ⟨k, rfl⟩ : ∃ k, i = k + 1 := ⟨i - 1, by omega⟩
    rw [e, pow_succ, ← Nat.mul_assoc, Nat.mul_mod_left]

/-- The double nearest to a square root. -/
theorem sqrt64_nearest {m c : Nat} (hm : 0 < m) (hlt : m < 2 ^ 2098) (h : Nearest 52 inf64 (root2 (m * 2 ^ 1074)) 2 c) :
    NearestSqrt 52 inf64 (m * 2 ^ 1074) c := by
  have lowN : 2 * 2 ^ 537 ≤ root2 (m * 2 ^ 1074) := by
    apply root2_lower
    rw [← pow_add]
    exact Nat.le_mul_of_pos_left _ hm
  have highN : root2 (m * 2 ^ 1074) ≤ 2 * 2 ^ 1586 := by
    apply (root2_cmp _ _).1.mpr
    rw [← pow_add, show 1586 + 1586 = 2098 + 1074 from rfl, pow_add]
    exact Nat.mul_le_mul_right _ hlt.le
  obtain ⟨c60, h60⟩ := exists_code (p := 52) (a := 1) (by decide) 60
  obtain ⟨c54, h54⟩ := exists_code (p := 52) (a := 1) (by decide) 54
  obtain ⟨ch, hh⟩ := exists_code (p := 52) (a := 1) (by decide) 1586
  rw [Nat.one_mul] at h60 h54 hh
  have l1 : c54 < c60 := by apply Pywasm.code_lt (p := 52); rw [h54, h60]; decide
  have l2 : c60 < inf64 := by
    apply Pywasm.code_lt (p := 52); rw [h60, magnitude_inf64]; exact Nat.pow_lt_pow_right (by decide) (by decide)
  have l3 : ch < inf64 := by
    apply Pywasm.code_lt (p := 52); rw [hh, magnitude_inf64]; exact Nat.pow_lt_pow_right (by decide) (by decide)
  have g1 : c60 ≤ c := nearest_ge (by decide) h l2.le (by
    rw [h60]
    refine le_trans ?_ lowN
    rw [Nat.mul_comm]
    exact Nat.mul_le_mul_left _ (Nat.pow_le_pow_right (by decide) (by decide)))
  have g2 : c ≤ ch := nearest_le (by decide) h l3.le (by rw [hh, Nat.mul_comm (2 ^ 1586)]; exact highN)
  have ev : ∀ c', c54 ≤ c' → magnitude 52 c' % 2 = 0 := by
    intro c' hc'
    apply magnitude_even
    have : magnitude 52 c54 ≤ magnitude 52 c' := magnitude_le hc'
    rw [h54] at this
    omega
  apply nearest_root (D := 1) (by decide)
  · rw [Nat.mul_one, Nat.mul_one]; exact h
  · omega
  · intro c' hc'
    have a := ev c (by omega)
    have b := ev c' (by omega)
    omega

/-- A single's square root is clear of midpoints. -/
theorem clear_sqrt {m : Nat} (ca c : Nat) (hm : m = magnitude 23 ca) :
    Clear (root2 (m * 2 ^ 925 * 2 ^ 1074)) 2 (magnitude 23 c + magnitude 23 (c + 1)) := by
  obtain ⟨a', i, ha', hai⟩ := magnitude_form 23 ca
  obtain ⟨m', k, hmid, hm', _, _⟩ := mid_form 23 c
  rw [hmid]
  obtain ⟨mm, hmm⟩ : ∃ mm, mm = 2 * m' + 1 := ⟨_, rfl⟩
  rw [← hmm]
  have hmm1 : 1 ≤ mm := by omega
  have hmm2 : mm < 2 ^ 25 := by omega
  obtain ⟨n, hn⟩ : ∃ n, n = m * 2 ^ 925 * 2 ^ 1074 := ⟨_, rfl⟩
  have hn' : n = a' * 2 ^ (i + 1999) := by rw [hn, hm, hai, pow_add, show (1999 : Nat) = 925 + 1074 from rfl, pow_add]; ring
  rw [← hn]
  obtain ⟨E, hE⟩ : ∃ E, E = mm * 2 ^ (k + 872) := ⟨_, rfl⟩
  obtain ⟨T, hT⟩ : ∃ T, T = E * 2 ^ 52 := ⟨_, rfl⟩
  have hQ : mm * 2 ^ k * (2 * 2 ^ 925) = 4 * T := by
    rw [hT, hE, pow_add, show (925 : Nat) = 872 + 52 + 1 from rfl, pow_add (2 : Nat) (872 + 52), pow_add (2 : Nat) 872]; ring
  have hE2 : 2 ^ 872 ≤ E := by
    rw [hE, pow_add]
    calc 2 ^ 872 = 1 * (1 * 2 ^ 872) := by ring
      _ ≤ mm * (2 ^ k * 2 ^ 872) := Nat.mul_le_mul hmm1 (Nat.mul_le_mul_right _ (Nat.two_pow_pos k))
  have hE1 : 2 ≤ E := le_trans (by calc 2 = 2 ^ 1 := rfl
                                    _ ≤ 2 ^ 872 := Nat.pow_le_pow_right (by decide) (by decide)) hE2
  clear hE2
  unfold Clear
  rw [hQ]
  have fin : (root2 n = 2 * T ∨ T + E ≤ Nat.sqrt n ∨ Nat.sqrt n + E ≤ T) →
      2 * root2 n = 4 * T ∨ ((4 * T : Nat) : Int) < 2 ^ 53 * |2 * (root2 n : Int) - ((4 * T : Nat) : Int)| := by
    intro h
    unfold root2 at *
    generalize Nat.sqrt n = s at *
    rcases h with h | h | h
    · left; rw [h]; ring
    · right
      generalize hd : (if s * s = n then 0 else 1) = δ at *
      rw [abs_of_nonneg (by omega)]
      omega
    · right
      have hδ : (if s * s = n then 0 else 1) ≤ 1 := by split <;> omega
      generalize (if s * s = n then 0 else 1) = δ at *
      rw [abs_of_nonpos (by omega)]
      omega
  apply fin
  by_cases hne : n = T * T
  · exact .inl ((root2_cmp n T).2.2.mpr hne)
  right
  have hTT : T * T = mm * mm * 2 ^ (2 * k + 1848) := by
    rw [hT, hE, pow_add, show 2 * k + 1848 = k + k + (872 + 52) + (872 + 52) by omega]
    simp only [pow_add]; ring
  have hTE : T * E * 2 ^ 52 = T * T := by rw [hT]; ring
  have upper : 3 * (T * E) ≤ n - T * T → T * T < n → T + E ≤ Nat.sqrt n := by
    intro h1 h2
    apply Nat.le_sqrt.mpr
    have e : (T + E) * (T + E) = T * T + 2 * (T * E) + E * E := by ring
    have f : E * E ≤ T * E := Nat.mul_le_mul_right _ (by omega)
    omega
  have lower : 2 * (T * E) ≤ T * T - n → n < T * T → Nat.sqrt n + E ≤ T := by
    intro h1 h2
    have h3 : Nat.sqrt n ≤ T - E := by
      rw [← Nat.sqrt_eq (T - E)]
      apply Nat.sqrt_le_sqrt
      obtain ⟨R, rfl⟩ : ∃ R, T = R + E := ⟨T - E, by omega⟩
      rw [Nat.add_sub_cancel]
      have e1 : (R + E) * (R + E) = R * R + 2 * (R * E) + E * E := by ring
      have e2 : (R + E) * E = R * E + E * E := by ring
      omega
    omega
  have gap : ∀ g, g ∣ n → g ∣ T * T → 3 * (T * E) ≤ g → (T + E ≤ Nat.sqrt n ∨ Nat.sqrt n + E ≤ T) := by
    intro g h1 h2 h3
    have hd := dvd_gap h1 h2 hne
    rcases Nat.lt_or_ge n (T * T) with h | h
    · right
      apply lower _ h
      rw [abs_of_neg (by omega)] at hd; omega
    · left
      apply upper _ (by omega)
      rw [abs_of_nonneg (by omega)] at hd; omega
  rcases Nat.le_total (2 * k + 1848) (i + 1999) with h | h
  · apply gap (2 ^ (2 * k + 1848)) (by rw [hn']; exact pow_dvd_mul h) (by rw [hTT]; exact pow_dvd_mul le_rfl)
    have : mm * mm < 2 ^ 50 := by
      calc mm * mm < 2 ^ 25 * 2 ^ 25 := Nat.mul_lt_mul'' hmm2 hmm2
        _ = 2 ^ 50 := by rw [← pow_add]
    have h2 : mm * mm * 2 ^ (2 * k + 1848) ≤ 2 ^ 50 * 2 ^ (2 * k + 1848) := Nat.mul_le_mul_right _ this.le
    rw [← hTT] at h2
    generalize 2 ^ (2 * k + 1848) = G at *
    generalize T * T = TT at *
    generalize T * E = TE at *
    omega
  · by_cases hfar : T * T ≤ 4 * n
    · apply gap (2 ^ (i + 1999)) (by rw [hn']; exact pow_dvd_mul le_rfl) (by rw [hTT]; exact pow_dvd_mul h)
      have h2 : a' * 2 ^ (i + 1999) ≤ 2 ^ 24 * 2 ^ (i + 1999) := Nat.mul_le_mul_right _ ha'.le
      rw [← hn'] at h2
      generalize 2 ^ (i + 1999) = G at *
      generalize T * T = TT at *
      generalize T * E = TE at *
      omega
    · right
      apply lower _ (by omega)
      generalize T * T = TT at *
      generalize T * E = TE at *
      omega

end Pywasm
