import Verif.Lemmas.Round
import Verif.Lemmas.VM
import Verif.Model.FloatOps

/-!
# Python floats and the specification of floats
-/

set_option exponentiation.threshold 3000

namespace Pywasm
open Spec

theorem getLsbD_top64 (x : BitVec 64) : x.getLsbD 63 = x.msb := by rw [BitVec.msb_eq_getLsbD_last]
theorem getLsbD_top32 (x : BitVec 32) : x.getLsbD 31 = x.msb := by rw [BitVec.msb_eq_getLsbD_last]

theorem msb64_iff (x : BitVec 64) : x.msb = decide (2 ^ 63 ≤ x.toNat) := by
  rw [BitVec.msb_eq_decide]
theorem msb32_iff (x : BitVec 32) : x.msb = decide (2 ^ 31 ≤ x.toNat) := by
  rw [BitVec.msb_eq_decide]

/-! ## Sign and code of a pattern -/

namespace F64

theorem sign_eq (x : F64) : x.sign = x.msb := getLsbD_top64 x

theorem expo_eq (x : F64) : x.expo = code64 x / 2 ^ 52 := by
  unfold expo code64; omega
theorem mant_eq (x : F64) : x.mant = code64 x % 2 ^ 52 := by
  unfold mant code64; omega
theorem code_lt (x : F64) : code64 x < 2 ^ 63 := by unfold code64; omega

theorem isNaN_iff (x : F64) : x.isNaN = true ↔ inf64 < code64 x := by
  unfold isNaN
  rw [Bool.and_eq_true, beq_iff_eq, bne_iff_ne, expo_eq, mant_eq]
  have := code_lt x
  unfold inf64; omega
theorem isInf_iff (x : F64) : x.isInf = true ↔ code64 x = inf64 := by
  unfold isInf
  rw [Bool.and_eq_true, beq_iff_eq, beq_iff_eq, expo_eq, mant_eq]
  have := code_lt x
  unfold inf64; omega
theorem isNaN_false_iff (x : F64) : x.isNaN = false ↔ code64 x ≤ inf64 := by
  rw [← Bool.not_eq_true, isNaN_iff]; omega
theorem isInf_false_iff (x : F64) : x.isInf = false ↔ code64 x ≠ inf64 := by
  rw [← Bool.not_eq_true, isInf_iff]

theorem mag_eq (x : F64) : x.mag = magnitude 52 (code64 x) := by
  unfold mag magnitude
  rw [expo_eq, mant_eq]
  by_cases h : code64 x < 2 ^ 52
  · rw [if_pos h, if_pos (by omega), Nat.mod_eq_of_lt h]
  · rw [if_neg h, if_neg (by omega)]

theorem toNat_split (x : F64) : x.toNat = (if x.msb then 2 ^ 63 else 0) + code64 x := by
  have := x.isLt
  rw [msb64_iff]; unfold code64
  simp only [decide_eq_true_eq]; split <;> omega

theorem ofMag_toNat {s : Bool} {c : Nat} (h : c < 2 ^ 63) : (ofMag s c).toNat = (if s then 2 ^ 63 else 0) + c := by
  unfold ofMag
  rw [BitVec.toNat_ofNat, Nat.mod_eq_of_lt]
  split <;> omega
theorem ofMag_code {s : Bool} {c : Nat} (h : c < 2 ^ 63) : code64 (ofMag s c) = c := by
  unfold code64; rw [ofMag_toNat h]; split <;> omega
theorem ofMag_msb {s : Bool} {c : Nat} (h : c < 2 ^ 63) : (ofMag s c).msb = s := by
  rw [msb64_iff, ofMag_toNat h]; cases s <;> (simp only [Bool.false_eq_true, if_false, if_true, decide_eq_true_eq, decide_eq_false_iff_not]; omega)
theorem eq_ofMag (x : F64) : x = ofMag x.msb (code64 x) := by
  apply BitVec.eq_of_toNat_eq
  rw [ofMag_toNat (code_lt x), ← toNat_split]

/-- The three kinds of doubles. -/
theorem num_cases (x : F64) :
    (x.isNaN = true ∧ x.isInf = false ∧ num64 x = .nan) ∨
    (x.isNaN = false ∧ x.isInf = true ∧ num64 x = .inf x.msb) ∨
    (x.isNaN = false ∧ x.isInf = false ∧ code64 x < inf64 ∧ num64 x = .fin x.msb x.mag) := by
  rw [isNaN_iff, isNaN_false_iff, isInf_iff, isInf_false_iff, mag_eq]
  unfold num64
  rcases Nat.lt_trichotomy (code64 x) inf64 with h | h | h
  · refine .inr (.inr ⟨h.le, by omega, h, ?_⟩)
    rw [if_neg (by omega), if_neg (by omega)]
  · refine .inr (.inl ⟨by omega, h, ?_⟩)
    rw [if_neg (by omega), if_pos h]
  · exact .inl ⟨h, by omega, by rw [if_pos h]⟩

theorem num_ofMag_lt {s : Bool} {c : Nat} (h : c < inf64) : num64 (ofMag s c) = .fin s (magnitude 52 c) := by
  have h63 : c < 2 ^ 63 := by unfold inf64 at h; omega
  unfold num64
  rw [ofMag_code h63, ofMag_msb h63, if_neg (by omega), if_neg (by omega)]
theorem num_inf {s : Bool} : num64 (inf s) = .inf s := by
  have h63 : inf64 < 2 ^ 63 := by unfold inf64; omega
  show num64 (ofMag s inf64) = _
  unfold num64
  rw [ofMag_code h63, ofMag_msb h63, if_neg (by omega), if_pos rfl]

theorem finite_iff {x : F64} : (x.isNaN = false ∧ x.isInf = false) ↔ code64 x < inf64 := by
  rw [isNaN_false_iff, isInf_false_iff]; omega

theorem val_eq {x : F64} (h : code64 x < inf64) : x.val = (num64 x).units := by
  have hn : num64 x = .fin x.msb (magnitude 52 (code64 x)) := by
    unfold num64; rw [if_neg (by omega), if_neg (by omega)]
  rw [hn]
  unfold val
  rw [sign_eq, mag_eq]
  rfl

end F64

namespace F32

theorem sign_eq (x : F32) : x.sign = x.msb := getLsbD_top32 x

theorem expo_eq (x : F32) : x.expo = code32 x / 2 ^ 23 := by
  unfold expo code32; omega
theorem mant_eq (x : F32) : x.mant = code32 x % 2 ^ 23 := by
  unfold mant code32; omega
theorem code_lt (x : F32) : code32 x < 2 ^ 31 := by unfold code32; omega

theorem isNaN_iff (x : F32) : x.isNaN = true ↔ inf32 < code32 x := by
  unfold isNaN
  rw [Bool.and_eq_true, beq_iff_eq, bne_iff_ne, expo_eq, mant_eq]
  have := code_lt x
  unfold inf32; omega
theorem isInf_iff (x : F32) : x.isInf = true ↔ code32 x = inf32 := by
  unfold isInf
  rw [Bool.and_eq_true, beq_iff_eq, beq_iff_eq, expo_eq, mant_eq]
  have := code_lt x
  unfold inf32; omega
theorem isNaN_false_iff (x : F32) : x.isNaN = false ↔ code32 x ≤ inf32 := by
  rw [← Bool.not_eq_true, isNaN_iff]; omega
theorem isInf_false_iff (x : F32) : x.isInf = false ↔ code32 x ≠ inf32 := by
  rw [← Bool.not_eq_true, isInf_iff]

theorem mag_eq (x : F32) : x.mag = magnitude 23 (code32 x) := by
  unfold mag magnitude
  rw [expo_eq, mant_eq]
  by_cases h : code32 x < 2 ^ 23
  · rw [if_pos h, if_pos (by omega), Nat.mod_eq_of_lt h]
  · rw [if_neg h, if_neg (by omega)]

theorem toNat_split (x : F32) : x.toNat = (if x.msb then 2 ^ 31 else 0) + code32 x := by
  have := x.isLt
  rw [msb32_iff]; unfold code32
  simp only [decide_eq_true_eq]; split <;> omega

theorem ofMag_toNat {s : Bool} {c : Nat} (h : c < 2 ^ 31) : (ofMag s c).toNat = (if s then 2 ^ 31 else 0) + c := by
  unfold ofMag
  rw [BitVec.toNat_ofNat, Nat.mod_eq_of_lt]
  split <;> omega
theorem ofMag_code {s : Bool} {c : Nat} (h : c < 2 ^ 31) : code32 (ofMag s c) = c := by
  unfold code32; rw [ofMag_toNat h]; split <;> omega
theorem ofMag_msb {s : Bool} {c : Nat} (h : c < 2 ^ 31) : (ofMag s c).msb = s := by
  rw [msb32_iff, ofMag_toNat h]; cases s <;> (simp only [Bool.false_eq_true, if_false, if_true, decide_eq_true_eq, decide_eq_false_iff_not]; omega)
theorem eq_ofMag (x : F32) : x = ofMag x.msb (code32 x) := by
  apply BitVec.eq_of_toNat_eq
  rw [ofMag_toNat (code_lt x), ← toNat_split]

theorem num_cases (x : F32) :
    (x.isNaN = true ∧ x.isInf = false ∧ num32 x = .nan) ∨
    (x.isNaN = false ∧ x.isInf = true ∧ num32 x = .inf x.msb) ∨
    (x.isNaN = false ∧ x.isInf = false ∧ code32 x < inf32 ∧ num32 x = .fin x.msb x.mag) := by
  rw [isNaN_iff, isNaN_false_iff, isInf_iff, isInf_false_iff, mag_eq]
  unfold num32
  rcases Nat.lt_trichotomy (code32 x) inf32 with h | h | h
  · refine .inr (.inr ⟨h.le, by omega, h, ?_⟩)
    rw [if_neg (by omega), if_neg (by omega)]
  · refine .inr (.inl ⟨by omega, h, ?_⟩)
    rw [if_neg (by omega), if_pos h]
  · exact .inl ⟨h, by omega, by rw [if_pos h]⟩

theorem num_ofMag_lt {s : Bool} {c : Nat} (h : c < inf32) : num32 (ofMag s c) = .fin s (magnitude 23 c) := by
  have h63 : c < 2 ^ 31 := by unfold inf32 at h; omega
  unfold num32
  rw [ofMag_code h63, ofMag_msb h63, if_neg (by omega), if_neg (by omega)]
theorem num_ofMag_inf {s : Bool} : num32 (ofMag s inf32) = .inf s := by
  have h63 : inf32 < 2 ^ 31 := by unfold inf32; omega
  unfold num32
  rw [ofMag_code h63, ofMag_msb h63, if_neg (by omega), if_pos rfl]

theorem finite_iff {x : F32} : (x.isNaN = false ∧ x.isInf = false) ↔ code32 x < inf32 := by
  rw [isNaN_false_iff, isInf_false_iff]; omega

theorem val_eq {x : F32} (h : code32 x < inf32) : x.val = (num32 x).units := by
  have hn : num32 x = .fin x.msb (magnitude 23 (code32 x)) := by
    unfold num32; rw [if_neg (by omega), if_neg (by omega)]
  rw [hn]
  unfold val
  rw [sign_eq, mag_eq]
  rfl

end F32

/-! ## Rounding to a format -/

theorem roundMag_le (p emax num den : Nat) : IEEE.roundMag p emax num den ≤ emax * 2 ^ p := Nat.min_le_right _ _

/-- A rounded double: sign and nearest code. -/
theorem F64.round_spec (s : Bool) (num den : Nat) (hd : 0 < den) :
    (F64.round s num den).msb = s ∧ Nearest 52 inf64 num den (code64 (F64.round s num den)) := by
  have hle : IEEE.roundMag 52 2047 num den ≤ inf64 := roundMag_le 52 2047 num den
  have h63 : IEEE.roundMag 52 2047 num den < 2 ^ 63 := by unfold inf64 at hle; omega
  unfold F64.round
  rw [F64.ofMag_msb h63, F64.ofMag_code h63]
  exact ⟨rfl, (roundMag_nearest 52 2047 num den (by decide) hd).1⟩

/-- A single rounded from a finite double: sign and nearest code. -/
theorem F32.ofF64_spec {x : F64} (h : code64 x < inf64) :
    (F32.ofF64 x).msb = x.msb ∧ code32 (F32.ofF64 x) = IEEE.roundMag 23 255 (magnitude 52 (code64 x)) (2 ^ 925) ∧
    Nearest 23 inf32 (magnitude 52 (code64 x)) (2 ^ 925) (code32 (F32.ofF64 x)) := by
  have hle : ∀ n d, IEEE.roundMag 23 255 n d ≤ inf32 := fun n d => roundMag_le 23 255 n d
  have h63 : ∀ n d, IEEE.roundMag 23 255 n d < 2 ^ 31 := fun n d => by have := hle n d; unfold inf32 at this; omega
  obtain ⟨h1, h2⟩ := F64.finite_iff.mpr h
  unfold F32.ofF64
  rw [h1, h2, if_neg (by decide), if_neg (by decide), F64.sign_eq, F64.mag_eq, F32.ofMag_msb (h63 _ _), F32.ofMag_code (h63 _ _)]
  exact ⟨rfl, rfl, (roundMag_nearest 23 255 _ _ (by decide) (Nat.two_pow_pos 925)).1⟩

theorem F32.ofF64_nan {x : F64} (h : x.isNaN = true) :
    (F32.ofF64 x).msb = x.msb ∧ code32 (F32.ofF64 x) = 255 * 2 ^ 23 + 2 ^ 22 + (code64 x / 2 ^ 29) % 2 ^ 22 := by
  unfold F32.ofF64
  rw [h, if_pos rfl, F64.sign_eq, F64.mant_eq]
  have hlt : 255 * 2 ^ 23 + 2 ^ 22 + code64 x % 2 ^ 52 / 2 ^ 29 % 2 ^ 22 < 2 ^ 31 := by omega
  rw [F32.ofMag_msb hlt, F32.ofMag_code hlt]
  refine ⟨rfl, ?_⟩
  omega
theorem F32.ofF64_inf {x : F64} (h : x.isInf = true) :
    (F32.ofF64 x).msb = x.msb ∧ code32 (F32.ofF64 x) = inf32 := by
  have hn : x.isNaN = false := by rw [F64.isNaN_false_iff, (F64.isInf_iff x).mp h]
  unfold F32.ofF64
  rw [hn, h, if_neg (by decide), if_pos rfl, F64.sign_eq]
  have hlt : 255 * 2 ^ 23 < 2 ^ 31 := by omega
  rw [F32.ofMag_msb hlt, F32.ofMag_code hlt]
  exact ⟨rfl, rfl⟩

/-- The exact magnitude of any single is a double magnitude. -/
theorem exists_code64 {c : Nat} (hc : c < inf32) : ∃ c', c' < inf64 ∧ magnitude 52 c' = magnitude 23 c * 2 ^ 925 := by
  obtain ⟨a, j, ha, hm⟩ := magnitude_form 23 c
  obtain ⟨c', h'⟩ := exists_code (p := 52) (a := a) (by omega) (j + 925)
  refine ⟨c', ?_, by rw [h', hm, pow_add]; ring⟩
  apply Pywasm.code_lt (p := 52)
  rw [h', pow_add, ← Nat.mul_assoc, ← hm]
  have h1 : magnitude 23 c < magnitude 23 inf32 := magnitude_strictMono 23 hc
  have h2 : magnitude 23 inf32 = 2 ^ 23 * 2 ^ 254 := by
    have := magnitude_eq (p := 23) (e := 254) (m := 2 ^ 23) (by omega) (.inr le_rfl)
    rw [← this]; rfl
  have h3 : magnitude 52 inf64 = 2 ^ 52 * 2 ^ 2046 := by
    have := magnitude_eq (p := 52) (e := 2046) (m := 2 ^ 52) (by omega) (.inr le_rfl)
    rw [← this]; rfl
  calc magnitude 23 c * 2 ^ 925 < magnitude 23 inf32 * 2 ^ 925 := Nat.mul_lt_mul_of_pos_right h1 (Nat.two_pow_pos _)
    _ = 2 ^ (23 + 254 + 925) := by rw [h2, pow_add, pow_add]
    _ ≤ 2 ^ (52 + 2046) := Nat.pow_le_pow_right (by decide) (by decide)
    _ = magnitude 52 inf64 := by rw [h3, pow_add]

/-- Widening a finite single is exact. -/
theorem F32.toF64_fin {x : F32} (h : code32 x < inf32) :
    (F32.toF64 x).msb = x.msb ∧ code64 (F32.toF64 x) < inf64 ∧
      magnitude 52 (code64 (F32.toF64 x)) = magnitude 23 (code32 x) * 2 ^ 925 := by
  obtain ⟨h1, h2⟩ := F32.finite_iff.mpr h
  obtain ⟨c', hc', hm⟩ := exists_code64 h
  have e : IEEE.roundMag 52 2047 (magnitude 23 (code32 x) * 2 ^ 925) 1 = c' :=
    roundMag_exact (by decide) (by decide) hc'.le (by rw [hm, Nat.mul_one])
  have h63 : c' < 2 ^ 63 := by unfold inf64 at hc'; omega
  unfold F32.toF64
  rw [h1, h2, if_neg (by decide), if_neg (by decide), F32.sign_eq, F32.mag_eq, F64.round, e, F64.ofMag_msb h63,
    F64.ofMag_code h63]
  exact ⟨rfl, hc', hm⟩
theorem F32.toF64_nan {x : F32} (h : x.isNaN = true) :
    (F32.toF64 x).msb = x.msb ∧ code64 (F32.toF64 x) = 2047 * 2 ^ 52 + 2 ^ 51 + (code32 x % 2 ^ 22) * 2 ^ 29 := by
  unfold F32.toF64
  rw [h, if_pos rfl, F32.sign_eq, F32.mant_eq]
  have hlt : 2047 * 2 ^ 52 + 2 ^ 51 + code32 x % 2 ^ 23 % 2 ^ 22 * 2 ^ 29 < 2 ^ 63 := by omega
  rw [F64.ofMag_msb hlt, F64.ofMag_code hlt]
  refine ⟨rfl, ?_⟩
  omega
theorem F32.toF64_inf {x : F32} (h : x.isInf = true) :
    (F32.toF64 x).msb = x.msb ∧ code64 (F32.toF64 x) = inf64 := by
  have hn : x.isNaN = false := by rw [F32.isNaN_false_iff, (F32.isInf_iff x).mp h]
  unfold F32.toF64
  rw [hn, h, if_neg (by decide), if_pos rfl, F32.sign_eq, F64.inf]
  have hlt : 2047 * 2 ^ 52 < 2 ^ 63 := by omega
  rw [F64.ofMag_msb hlt, F64.ofMag_code hlt]
  exact ⟨rfl, rfl⟩

theorem F32.toF64_isNaN (x : F32) : (F32.toF64 x).isNaN = x.isNaN := by
  rcases F32.num_cases x with ⟨h, _, _⟩ | ⟨h, h2, _⟩ | ⟨h, _, h3, _⟩
  · rw [h, F64.isNaN_iff, (F32.toF64_nan h).2]; unfold inf64; omega
  · rw [h, F64.isNaN_false_iff, (F32.toF64_inf h2).2]
  · rw [h, F64.isNaN_false_iff]; exact (F32.toF64_fin h3).2.1.le
theorem F32.toF64_isInf (x : F32) : (F32.toF64 x).isInf = x.isInf := by
  rcases F32.num_cases x with ⟨h, h2, _⟩ | ⟨h, h2, _⟩ | ⟨h, h2, h3, _⟩
  · rw [h2, F64.isInf_false_iff, (F32.toF64_nan h).2]; unfold inf64; omega
  · rw [h2, F64.isInf_iff, (F32.toF64_inf h2).2]
  · rw [h2, F64.isInf_false_iff]; exact (F32.toF64_fin h3).2.1.ne
theorem F32.toF64_msb (x : F32) : (F32.toF64 x).msb = x.msb := by
  rcases F32.num_cases x with ⟨h, h2, _⟩ | ⟨h, h2, _⟩ | ⟨h, h2, h3, _⟩
  · exact (F32.toF64_nan h).1
  · exact (F32.toF64_inf h2).1
  · exact (F32.toF64_fin h3).1
theorem F32.ofF64_msb (x : F64) : (F32.ofF64 x).msb = x.msb := by
  rcases F64.num_cases x with ⟨h, h2, _⟩ | ⟨h, h2, _⟩ | ⟨h, h2, h3, _⟩
  · exact (F32.ofF64_nan h).1
  · exact (F32.ofF64_inf h2).1
  · exact (F32.ofF64_spec h3).1

/-- A signalling NaN: quiet bit clear. -/
def sNaN32 (x : BitVec 32) : Prop := inf32 < code32 x ∧ code32 x < inf32 + 2 ^ 22

theorem F32.code_ext {x y : F32} (h1 : x.msb = y.msb) (h2 : code32 x = code32 y) : x = y := by
  rw [F32.eq_ofMag x, F32.eq_ofMag y, h1, h2]
theorem F64.code_ext {x y : F64} (h1 : x.msb = y.msb) (h2 : code64 x = code64 y) : x = y := by
  rw [F64.eq_ofMag x, F64.eq_ofMag y, h1, h2]

/-- The single nearest to an exact single magnitude is that single. -/
theorem F32.ofF64_exact {y : F64} {s : Bool} {c : Nat} (hy : code64 y < inf64) (hs : y.msb = s) (hc : c ≤ inf32)
    (hm : magnitude 52 (code64 y) = magnitude 23 c * 2 ^ 925) : F32.ofF64 y = F32.ofMag s c := by
  obtain ⟨h1, h2, _⟩ := F32.ofF64_spec hy
  have h31 : c < 2 ^ 31 := by unfold inf32 at hc; omega
  apply F32.code_ext
  · rw [h1, hs, F32.ofMag_msb h31]
  · rw [h2, F32.ofMag_code h31, hm]
    exact roundMag_exact (by decide) (Nat.two_pow_pos 925) hc rfl

/-- Widening and narrowing gives a single back, unless it is a signalling NaN. -/
theorem F32.ofF64_toF64 {x : F32} (h : ¬ sNaN32 x) : F32.ofF64 (F32.toF64 x) = x := by
  rcases F32.num_cases x with ⟨h1, h2, _⟩ | ⟨h1, h2, _⟩ | ⟨h1, h2, h3, _⟩
  · have h' : (F32.toF64 x).isNaN = true := by rw [F32.toF64_isNaN, h1]
    apply F32.code_ext
    · rw [F32.ofF64_msb, F32.toF64_msb]
    · rw [(F32.ofF64_nan h').2, (F32.toF64_nan h1).2]
      have := (F32.isNaN_iff x).mp h1
      have := F32.code_lt x
      unfold sNaN32 at h
      unfold inf32 at *
      omega
  · have h' : (F32.toF64 x).isInf = true := by rw [F32.toF64_isInf, h2]
    apply F32.code_ext
    · rw [F32.ofF64_msb, F32.toF64_msb]
    · rw [(F32.ofF64_inf h').2, (F32.isInf_iff x).mp h2]
  · obtain ⟨a, b, c⟩ := F32.toF64_fin h3
    rw [F32.ofF64_exact b a h3.le c, ← F32.eq_ofMag]

theorem F32.ofF64_not_sNaN (x : F64) : ¬ sNaN32 (F32.ofF64 x) := by
  unfold sNaN32
  rcases F64.num_cases x with ⟨h, h2, _⟩ | ⟨h, h2, _⟩ | ⟨h, h2, h3, _⟩
  · rw [(F32.ofF64_nan h).2]; unfold inf32; omega
  · rw [(F32.ofF64_inf h2).2]; omega
  · have := (F32.ofF64_spec h3).2.2.1; omega

theorem F32.ofF64_idem (x : F64) : F32.ofF64 (F32.toF64 (F32.ofF64 x)) = F32.ofF64 x :=
  F32.ofF64_toF64 (F32.ofF64_not_sNaN x)

/-! ## Reading and writing cells -/

theorem VM.popF64_cons (v : Val) (s : List Val) : VM.popF64 (v :: s) = .ok v.low64 s := by
  show EStateM.Result.ok v.intoF64 s = _
  rw [Val.intoF64, ← readLE_eq]; rfl
theorem VM.popF32_cons (v : Val) (s : List Val) : VM.popF32 (v :: s) = .ok (F32.toF64 v.low32) s := by
  show EStateM.Result.ok v.intoF32 s = _
  rw [Val.intoF32, ← readLE_eq]; rfl

theorem fromF64_eq (x : F64) : Val.fromF64 x = .ok (f64 x) := by
  unfold Val.fromF64
  rw [← bytesLE_eq]; exact make_cell _ 8 _ (by decide)
theorem fromF32_eq (x : F64) : Val.fromF32 x = .ok (f32 (F32.ofF64 x)) := by
  show Val.make .f32 (Py.leBytes 4 (F32.ofF64 (F32.toF64 (F32.ofF64 x))).toNat ++ Py.zeros 12) = _
  rw [F32.ofF64_idem, ← bytesLE_eq]; exact make_cell _ 4 _ (by decide)

end Pywasm
