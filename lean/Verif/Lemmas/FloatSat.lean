import Verif.Lemmas.FloatInt

/-! # Saturating truncation -/

set_option exponentiation.threshold 3000

namespace Pywasm
open Spec


def satAt (w : FW) (lo hi : Int) (v : Val) : Except Err Int :=
  match w with
  | .w32 => satInt lo hi (if (F32.toF64 v.low32).isNaN then F64.zero else F32.toF64 v.low32)
  | .w64 => satInt lo hi (if F64.isNaN v.low64 then F64.zero else v.low64)

theorem satInt_zero {lo hi : Int} (h1 : lo ≤ 0) (h2 : 0 < hi) : satInt lo hi F64.zero = .ok 0 := by
  unfold satInt F64.intLt
  have e1 : F64.zero.isNaN = false := by decide
  have e2 : F64.zero.isInf = false := by decide
  have e3 : F64.zero.val = 0 := by decide
  have e4 : F64.zero.toInt = .ok 0 := by
    unfold F64.toInt; rw [e1, e2, e3, Int.zero_tdiv]; rfl
  rw [e1, e2, e3, e4]
  simp only [Bool.false_eq_true, if_false, decide_eq_true_eq]
  have hp : (0 : Int) < 2 ^ 1074 := by positivity
  generalize (2 : Int) ^ 1074 = d at *
  have h3 : 0 < hi * d := Int.mul_pos h2 hp
  rw [if_neg (by omega)]
  split
  · rfl
  · rename_i hx
    have : lo = 0 := by
      by_contra hne
      have := Int.mul_neg_of_neg_of_pos (show lo < 0 by omega) hp
      omega
    rw [this]

theorem satInt_spec {lo hi : Int} (h1 : lo ≤ 0) (h2 : 0 < hi) (y : F64) :
    (num64 y = .inf true → satInt lo hi y = .ok lo) ∧ (num64 y = .inf false → satInt lo hi y = .ok hi) ∧
    (code64 y < inf64 → satInt lo hi y = .ok (max lo (min y.trunc hi))) := by
  have hp : (0 : Int) < 2 ^ 1074 := by positivity
  refine ⟨fun h => ?_, fun h => ?_, fun h => ?_⟩
  · rcases F64.num_cases y with ⟨a1, a2, a3⟩ | ⟨a1, a2, a3⟩ | ⟨a1, a2, _, a3⟩
    · rw [h] at a3; cases a3
    · rw [h] at a3; injection a3 with a3
      unfold satInt F64.intLt
      rw [a1, a2, F64.sign_eq, ← a3]
      simp
    · rw [h] at a3; cases a3
  · rcases F64.num_cases y with ⟨a1, a2, a3⟩ | ⟨a1, a2, a3⟩ | ⟨a1, a2, _, a3⟩
    · rw [h] at a3; cases a3
    · rw [h] at a3; injection a3 with a3
      unfold satInt F64.intLt
      rw [a1, a2, F64.sign_eq, ← a3]
      have : hi > lo := by omega
      simp [this]
    · rw [h] at a3; cases a3
  · obtain ⟨a1, a2⟩ := F64.finite_iff.mpr h
    have ht := F64.isTrunc_trunc (x := y)
    have e4 : y.toInt = .ok y.trunc := by
      unfold F64.toInt; rw [a1, a2]; rfl
    unfold satInt F64.intLt
    rw [a1, a2, e4]
    simp only [Bool.false_eq_true, if_false, decide_eq_true_eq]
    generalize y.trunc = k at *
    generalize y.val = u at *
    generalize (2 : Int) ^ 1074 = d at *
    unfold IsTrunc at ht
    have hhd : 0 < hi * d := Int.mul_pos h2 hp
    have hld : lo * d ≤ 0 := Int.mul_nonpos_of_nonpos_of_nonneg h1 hp.le
    split at ht
    · rename_i hu
      obtain ⟨b1, b2⟩ := ht
      have hk0 : 0 < k + 1 := Int.pos_of_mul_pos_left (b := d) (by omega) hp
      by_cases hx : hi * d < u
      · rw [if_pos hx, if_pos (by omega)]
        have : hi < k + 1 := Int.lt_of_mul_lt_mul_right (a := d) (by omega) hp.le
        rw [min_eq_right (by omega), max_eq_right (by omega)]
      · rw [if_neg hx]
        have : k ≤ hi := Int.le_of_mul_le_mul_right (a := d) (by omega) hp
        rw [min_eq_left this, max_eq_right (by omega)]
        split
        · rfl
        · have : u = 0 := by omega
          have : k * d ≤ 0 := by omega
          have : k ≤ 0 := by
            by_contra hne
            have := Int.mul_pos (show 0 < k by omega) hp
            omega
          have : lo = 0 := by
            by_contra hne
            have := Int.mul_neg_of_neg_of_pos (show lo < 0 by omega) hp
            omega
          congr 1; omega
    · rename_i hu
      obtain ⟨b1, b2⟩ := ht
      have hk0 : k - 1 < 0 := by
        by_contra hne
        have := Int.mul_nonneg (show 0 ≤ k - 1 by omega) hp.le
        omega
      rw [if_neg (by omega), min_eq_left (by omega)]
      by_cases hx : lo * d < u
      · rw [if_pos hx]
        have : lo < k + 1 := by
          have : lo * d < (k + 1) * d := by rw [Int.add_mul]; omega
          exact Int.lt_of_mul_lt_mul_right this hp.le
        rw [max_eq_right (by omega)]
      · rw [if_neg hx]
        have : k - 1 < lo := Int.lt_of_mul_lt_mul_right (a := d) (by omega) hp.le
        rw [max_eq_left (by omega)]

theorem trunc_w64 {v : Val} (h : code64 v.low64 < inf64) : IsTrunc (one .w64) (numAt .w64 v).units (F64.trunc v.low64) := by
  have := F64.isTrunc_trunc (x := v.low64)
  rw [F64.val_eq h] at this
  exact this
theorem trunc_w32 {v : Val} (h : code32 v.low32 < inf32) :
    IsTrunc (one .w32) (numAt .w32 v).units (F64.trunc (F32.toF64 v.low32)) := by
  have := F64.isTrunc_trunc (x := F32.toF64 v.low32)
  rw [F32.val_toF64 h, den_split] at this
  exact isTrunc_scale (by positivity) this

theorem satAt_spec {lo hi : Int} (h1 : lo ≤ 0) (h2 : 0 < hi) (w : FW) (v : Val) :
    (numAt w v = .nan → satAt w lo hi v = .ok 0) ∧ (numAt w v = .inf true → satAt w lo hi v = .ok lo) ∧
    (numAt w v = .inf false → satAt w lo hi v = .ok hi) ∧
    (∀ sg m k, numAt w v = .fin sg m → IsTrunc (one w) (numAt w v).units k → satAt w lo hi v = .ok (max lo (min k hi))) := by
  cases w with
  | w64 =>
    obtain ⟨b1, b2, b3⟩ := satInt_spec h1 h2 v.low64
    have key : F64.isNaN v.low64 = false → satAt .w64 lo hi v = satInt lo hi v.low64 := by
      intro h; show satInt lo hi (if _ then _ else _) = _; rw [h, if_neg (by decide)]
    have cs := F64.num_cases v.low64
    refine ⟨fun h => ?_, fun h => ?_, fun h => ?_, fun sg m k h hk => ?_⟩ <;>
      change num64 v.low64 = _ at h <;> rw [h] at cs
    · have hn : F64.isNaN v.low64 = true := by
        rcases cs with ⟨c, _, _⟩ | ⟨_, _, c⟩ | ⟨_, _, _, c⟩
        · exact c
        · cases c
        · cases c
      show satInt lo hi (if _ then _ else _) = _
      rw [hn, if_pos rfl]; exact satInt_zero h1 h2
    · have hn : F64.isNaN v.low64 = false := by
        rcases cs with ⟨_, _, c⟩ | ⟨c, _, _⟩ | ⟨_, _, _, c⟩
        · cases c
        · exact c
        · cases c
      rw [key hn, b1 h]
    · have hn : F64.isNaN v.low64 = false := by
        rcases cs with ⟨_, _, c⟩ | ⟨c, _, _⟩ | ⟨_, _, _, c⟩
        · cases c
        · exact c
        · cases c
      rw [key hn, b2 h]
    · have hn : F64.isNaN v.low64 = false ∧ code64 v.low64 < inf64 := by
        rcases cs with ⟨_, _, c⟩ | ⟨_, _, c⟩ | ⟨c, _, c2, _⟩
        · cases c
        · cases c
        · exact ⟨c, c2⟩
      rw [key hn.1, b3 hn.2]
      rw [isTrunc_unique (one_pos .w64) (trunc_w64 hn.2) hk]
  | w32 =>
    obtain ⟨b1, b2, b3⟩ := satInt_spec h1 h2 (F32.toF64 v.low32)
    rw [F32.num_toF64] at b1 b2
    have key : F32.isNaN v.low32 = false → satAt .w32 lo hi v = satInt lo hi (F32.toF64 v.low32) := by
      intro h; show satInt lo hi (if _ then _ else _) = _; rw [F32.toF64_isNaN, h, if_neg (by decide)]
    have cs := F32.num_cases v.low32
    refine ⟨fun h => ?_, fun h => ?_, fun h => ?_, fun sg m k h hk => ?_⟩ <;>
      change num32 v.low32 = _ at h <;> rw [h] at cs
    · have hn : F32.isNaN v.low32 = true := by
        rcases cs with ⟨c, _, _⟩ | ⟨_, _, c⟩ | ⟨_, _, _, c⟩
        · exact c
        · cases c
        · cases c
      show satInt lo hi (if _ then _ else _) = _
      rw [F32.toF64_isNaN, hn, if_pos rfl]; exact satInt_zero h1 h2
    · have hn : F32.isNaN v.low32 = false := by
        rcases cs with ⟨_, _, c⟩ | ⟨c, _, _⟩ | ⟨_, _, _, c⟩
        · cases c
        · exact c
        · cases c
      rw [key hn, b1 (by rw [h]; rfl)]
    · have hn : F32.isNaN v.low32 = false := by
        rcases cs with ⟨_, _, c⟩ | ⟨c, _, _⟩ | ⟨_, _, _, c⟩
        · cases c
        · exact c
        · cases c
      rw [key hn, b2 (by rw [h]; rfl)]
    · have hn : F32.isNaN v.low32 = false ∧ code32 v.low32 < inf32 := by
        rcases cs with ⟨_, _, c⟩ | ⟨_, _, c⟩ | ⟨c, _, c2, _⟩
        · cases c
        · cases c
        · exact ⟨c, c2⟩
      rw [key hn.1, b3 (F32.toF64_fin hn.2).2.1]
      rw [isTrunc_unique (one_pos .w32) (trunc_w32 hn.2) hk]

end Pywasm
