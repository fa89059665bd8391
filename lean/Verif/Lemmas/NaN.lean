import Verif.Lemmas.FloatArSpec
import Verif.Spec.FloatDev

/-!
# Which NaNs the operations on doubles return
-/

set_option exponentiation.threshold 3000

namespace Pywasm
open Spec

theorem or_two_pow (c k : Nat) : c ||| 2 ^ k = c ∨ (c / 2 ^ k % 2 = 0 ∧ c ||| 2 ^ k = c + 2 ^ k) := by
  have e0 := Nat.div_add_mod c (2 ^ k)
  have e1 := Nat.two_pow_add_eq_or_of_lt (Nat.mod_lt c (Nat.two_pow_pos k)) (c / 2 ^ k)
  by_cases h : c / 2 ^ k % 2 = 0
  · right
    refine ⟨h, ?_⟩
    apply Nat.eq_of_testBit_eq
    intro i
    have e2 := Nat.div_add_mod (c / 2 ^ k) 2
    have hc : c + 2 ^ k = 2 ^ k * (c / 2 ^ k + 1) + c % 2 ^ k := by rw [Nat.mul_add]; omega
    have e3 := Nat.two_pow_add_eq_or_of_lt (Nat.mod_lt c (Nat.two_pow_pos k)) (c / 2 ^ k + 1)
    have e4 : c / 2 ^ k + 1 = c / 2 ^ k ||| 1 := by
      have := Nat.two_pow_add_eq_or_of_lt (i := 1) (b := 1) (by decide) (c / 2 ^ k / 2)
      rw [show 2 ^ 1 * (c / 2 ^ k / 2) = c / 2 ^ k by omega] at this
      exact this
    rw [hc, e3, e4]
    conv_lhs => rw [← e0, e1]
    simp only [Nat.testBit_or, Nat.testBit_two_pow_mul, Nat.testBit_two_pow]
    by_cases hi : k ≤ i
    · simp only [hi, decide_true, Bool.true_and]
      by_cases h2 : k = i
      · subst h2; simp
      · have : Nat.testBit 1 (i - k) = false := by
          rw [show (1 : Nat) = 2 ^ 0 from rfl, Nat.testBit_two_pow]; simp; omega
        rw [this]; simp [h2]
    · simp [hi]; omega
  · left
    apply Nat.eq_of_testBit_eq
    intro i
    rw [Nat.testBit_or, Nat.testBit_two_pow]
    by_cases h2 : k = i
    · subst h2
      have : c.testBit k = true := by
        rw [Nat.testBit_eq_decide_div_mod_eq]; simp; omega
      rw [this]; rfl
    · simp [h2]

theorem code64_quiet (x : F64) : code64 x.quiet = code64 x ||| 2 ^ 51 := by
  unfold code64 F64.quiet
  rw [BitVec.toNat_or, BitVec.toNat_ofNat, Nat.mod_eq_of_lt (by decide : 2 ^ 51 < 2 ^ 64), Nat.or_mod_two_pow,
    Nat.mod_eq_of_lt (by decide : 2 ^ 51 < 2 ^ 63)]

theorem quiet_arith {x : F64} (h : x.isNaN = true) : inf64 + 2 ^ 51 ≤ code64 x.quiet ∧
    (code64 x = inf64 + 2 ^ 51 → code64 x.quiet = inf64 + 2 ^ 51) := by
  rw [F64.isNaN_iff] at h
  have hc := F64.code_lt x
  rw [code64_quiet]
  rcases or_two_pow (code64 x) 51 with h1 | ⟨h1, h2⟩
  · refine ⟨?_, fun e => h1.trans e⟩
    have h3 : (code64 x).testBit 51 = true := by
      rw [← h1, Nat.testBit_or, Nat.testBit_two_pow_self, Bool.or_true]
    rw [Nat.testBit_eq_decide_div_mod_eq, decide_eq_true_eq] at h3
    rw [h1]
    unfold inf64 at h ⊢
    omega
  · rw [h2]
    unfold inf64 at h ⊢
    exact ⟨by omega, by omega⟩

/-- A NaN result is an operand made quiet, or canonical. -/
def NanOf (xs : List F64) (y : F64) : Prop :=
  y.isNaN = true → (∃ x ∈ xs, x.isNaN = true ∧ y = x.quiet) ∨ code64 y = inf64 + 2 ^ 51

theorem round_not_nan (s : Bool) (N D : Nat) (hD : 0 < D) : (F64.round s N D).isNaN = false := by
  rw [F64.isNaN_false_iff]; exact (F64.round_spec s N D hD).2.1
theorem nanC_code (s : Bool) : code64 (F64.ofMag s (2047 * 2 ^ 52 + 2 ^ 51)) = inf64 + 2 ^ 51 := F64.ofMag_code (by decide)

theorem NanOf.quiet {xs : List F64} {x : F64} (h : x ∈ xs) (hx : x.isNaN = true) : NanOf xs x.quiet := fun _ => .inl ⟨x, h, hx, rfl⟩
theorem NanOf.canon {xs : List F64} (s : Bool) : NanOf xs (F64.ofMag s (2047 * 2 ^ 52 + 2 ^ 51)) := fun _ => .inr (nanC_code s)
theorem NanOf.not {xs : List F64} {y : F64} (h : y.isNaN = false) : NanOf xs y := fun h' => by rw [h] at h'; cases h'
theorem NanOf.of_code {xs : List F64} {y : F64} (h : code64 y ≤ inf64) : NanOf xs y := .not ((F64.isNaN_false_iff _).mpr h)

theorem neg_isNaN (x : F64) : (F64.neg x).isNaN = x.isNaN := by
  rw [Bool.eq_iff_iff, F64.isNaN_iff, F64.isNaN_iff]
  have : code64 (F64.neg x) = code64 x := F64.ofMag_code (F64.code_lt x)
  rw [this]

theorem nanOf_add (a b : F64) : NanOf [a, b] (F64.add a b) := by
  unfold F64.add
  by_cases ha : a.isNaN = true
  · rw [if_pos ha]; exact .quiet (by simp) ha
  · rw [if_neg ha]
    by_cases hb : b.isNaN = true
    · rw [if_pos hb]; exact .quiet (by simp) hb
    · rw [if_neg hb]
      split
      · split
        · exact .canon _
        · exact .not (by simpa using ha)
      · split
        · exact .not (by simpa using hb)
        · simp only
          split
          · split
            · exact .of_code (by rw [F64.ofMag_code (by decide)]; decide)
            · exact .of_code (by decide)
          · exact .not (round_not_nan _ _ _ (by decide))

theorem nanOf_sub (a b : F64) : NanOf [a, b] (F64.sub a b) := by
  unfold F64.sub
  by_cases hb : b.isNaN = true ∧ a.isNaN = false
  · rw [if_pos (by rw [hb.1, hb.2]; rfl)]; exact .quiet (by simp) hb.1
  · have h : ¬ (b.isNaN && !a.isNaN) = true := by
      intro h; rw [Bool.and_eq_true, Bool.not_eq_true'] at h; exact hb h
    rw [if_neg h]
    by_cases ha : a.isNaN = true
    · unfold F64.add; rw [if_pos ha]; exact .quiet (by simp) ha
    · have hb' : b.isNaN = false := by
        by_contra h'; exact hb ⟨by simpa using h', by simpa using ha⟩
      intro hn
      rcases nanOf_add a (F64.neg b) hn with ⟨x, hx, hx1, _⟩ | h
      · simp only [List.mem_cons, List.not_mem_nil, or_false] at hx
        rcases hx with rfl | rfl
        · exact absurd hx1 ha
        · rw [neg_isNaN, hb'] at hx1; cases hx1
      · exact .inr h

theorem nanOf_mul (a b : F64) : NanOf [a, b] (F64.mul a b) := by
  unfold F64.mul
  simp only
  by_cases ha : a.isNaN = true
  · rw [if_pos ha]; exact .quiet (by simp) ha
  · rw [if_neg ha]
    by_cases hb : b.isNaN = true
    · rw [if_pos hb]; exact .quiet (by simp) hb
    · rw [if_neg hb]
      split
      · split
        · exact .canon _
        · exact .of_code (by unfold F64.inf; rw [F64.ofMag_code (by decide)]; decide)
      · exact .not (round_not_nan _ _ _ (Nat.two_pow_pos 1074))

theorem nanOf_div (a b : F64) : NanOf [a, b] (Arith.F64.div a b) := by
  unfold Arith.F64.div
  split
  · simp only
    split
    · unfold F64.copysign
      refine fun _ => .inr ?_
      rw [F64.ofMag_code (Nat.mod_lt _ (by decide))]
      decide +kernel
    · unfold F64.copysign
      refine .of_code ?_
      rw [F64.ofMag_code (Nat.mod_lt _ (by decide))]
      decide +kernel
  · rename_i hz
    unfold F64.div
    simp only
    by_cases ha : a.isNaN = true
    · rw [if_pos ha]; exact .quiet (by simp) ha
    · rw [if_neg ha]
      by_cases hb : b.isNaN = true
      · rw [if_pos hb]; exact .quiet (by simp) hb
      · rw [if_neg hb]
        split
        · split
          · exact .canon _
          · exact .of_code (by unfold F64.inf; rw [F64.ofMag_code (by decide)]; decide)
        · split
          · exact .of_code (by rw [F64.ofMag_code (by decide)]; decide)
          · refine .not (round_not_nan _ _ _ (Nat.pos_of_ne_zero fun h => hz ?_))
            rename_i h1 h2
            have hb' : b.isNaN = false := by simpa using hb
            have hi' : b.isInf = false := by simpa using h2
            have hf := F64.finite_iff.mp ⟨hb', hi'⟩
            have hv : b.val = 0 := by unfold F64.val; rw [h]; simp
            have e0 : num64 F64.zero = .fin false 0 := by decide +kernel
            rw [F64.eq_eq, e0, F64.num_fin hf]
            rw [F64.val_eq hf, F64.num_fin hf] at hv
            simp only [Num.equal, hv]
            rfl

theorem nanOf_sqrt (a : F64) : NanOf [a] (if F64.le F64.zero a then F64.sqrt a else F64.nan) := by
  split
  · rename_i h
    unfold F64.sqrt
    split
    · rename_i h1
      by_cases hn : a.isNaN = true
      · exfalso
        rw [F64.le, F64.lt, F64.eq, hn] at h
        simp at h
      · exact .not (by simpa using hn)
    · exact .not (round_not_nan _ _ _ (by decide))
  · exact .canon _

end Pywasm
