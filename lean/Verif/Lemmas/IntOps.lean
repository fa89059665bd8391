import Verif.Lemmas.Arith
import Verif.Lemmas.VM

/-!
# Every modelled integer case implements its specification
-/

namespace Pywasm
open Spec Arith

theorem i32_of_nat_le {n : Nat} (h : n ≤ 64) : Val.fromI32 (n : Int) = .ok (i32 (BitVec.ofNat 32 n)) := by
  rw [fromI32_of_range (by omega), BitVec.ofInt_natCast]
theorem i64_of_nat_le {n : Nat} (h : n ≤ 64) : Val.fromI64 (n : Int) = .ok (i64 (BitVec.ofNat 64 n)) := by
  rw [fromI64_of_range (by omega), BitVec.ofInt_natCast]

theorem u32_range (x : BitVec 32) : -2 ^ 63 ≤ (x.toNat : Int) ∧ (x.toNat : Int) < 2 ^ 63 := by
  have h := x.isLt
  omega
theorem fromI64_u32 (x : BitVec 32) : Val.fromI64 x.toNat = .ok (i64 (x.setWidth 64)) := by
  rw [fromI64_of_range (u32_range x), BitVec.ofInt_natCast, BitVec.ofNat_toNat]

theorem ofInt_toInt_of_le {v w : Nat} (h : v ≤ w) (x : BitVec w) : BitVec.ofInt v x.toInt = x.setWidth v := by
  rw [← BitVec.signExtend_eq_setWidth_of_le _ h]; rfl

theorem toInt_beq {w : Nat} (x y : BitVec w) : (x.toInt == y.toInt) = decide (x = y) := by
  rw [Bool.eq_iff_iff]; simp [BitVec.toInt_inj]
theorem toInt_bne {w : Nat} (x y : BitVec w) : (x.toInt != y.toInt) = decide (x ≠ y) := by
  rw [bne, toInt_beq]; simp
theorem toInt_beq_zero {w : Nat} (x : BitVec w) : (x.toInt == 0) = decide (x = 0) := by
  rw [Bool.eq_iff_iff]; simp [toInt_eq_zero]
theorem cast_lt (a b : Nat) : decide ((a : Int) < (b : Int)) = decide (a < b) := by simp
theorem cast_gt (a b : Nat) : decide ((a : Int) > (b : Int)) = decide (a > b) := by simp
theorem cast_le (a b : Nat) : decide ((a : Int) ≤ (b : Int)) = decide (a ≤ b) := by simp
theorem cast_ge (a b : Nat) : decide ((a : Int) ≥ (b : Int)) = decide (a ≥ b) := by simp

theorem and_w {w : Nat} (h : w = (w - 1) + 1) (x y : BitVec w) : Py.and x.toInt y.toInt = (x &&& y).toInt := by
  generalize w - 1 = k at h; subst h; exact Py.and_toInt x y
theorem or_w {w : Nat} (h : w = (w - 1) + 1) (x y : BitVec w) : Py.or x.toInt y.toInt = (x ||| y).toInt := by
  generalize w - 1 = k at h; subst h; exact Py.or_toInt x y
theorem xor_w {w : Nat} (h : w = (w - 1) + 1) (x y : BitVec w) : Py.xor x.toInt y.toInt = (x ^^^ y).toInt := by
  generalize w - 1 = k at h; subst h; exact Py.xor_toInt x y

theorem i32_eqz_sound (s : List Val) : Implements (evalInt .i32_eqz) s (intSem .i32_eqz s) := by
  rcases s with _ | ⟨a, s⟩
  · exact ⟨_, rfl⟩
  · simp only [intSem, test32, Implements, evalInt]
    rw [VM.bind_eq (VM.popI32_cons _ _), toInt_beq_zero, VM.bind_eq (VM.lift_ok (fromI32_bool _)), VM.push_eq]


theorem i32_eq_sound (s : List Val) : Implements (evalInt .i32_eq) s (intSem .i32_eq s) := by
  rcases s with _ | ⟨b, _ | ⟨a, s⟩⟩
  · exact ⟨_, rfl⟩
  · exact ⟨_, rfl⟩
  · simp only [intSem, rel32, Implements, evalInt]
    rw [VM.bind_eq (VM.popI32_cons _ _), VM.bind_eq (VM.popI32_cons _ _), toInt_beq, VM.bind_eq (VM.lift_ok (fromI32_bool _)), VM.push_eq]


theorem i32_ne_sound (s : List Val) : Implements (evalInt .i32_ne) s (intSem .i32_ne s) := by
  rcases s with _ | ⟨b, _ | ⟨a, s⟩⟩
  · exact ⟨_, rfl⟩
  · exact ⟨_, rfl⟩
  · simp only [intSem, rel32, Implements, evalInt]
    rw [VM.bind_eq (VM.popI32_cons _ _), VM.bind_eq (VM.popI32_cons _ _), toInt_bne, VM.bind_eq (VM.lift_ok (fromI32_bool _)), VM.push_eq]


theorem i32_lt_s_sound (s : List Val) : Implements (evalInt .i32_lt_s) s (intSem .i32_lt_s s) := by
  rcases s with _ | ⟨b, _ | ⟨a, s⟩⟩
  · exact ⟨_, rfl⟩
  · exact ⟨_, rfl⟩
  · simp only [intSem, rel32, Implements, evalInt]
    rw [VM.bind_eq (VM.popI32_cons _ _), VM.bind_eq (VM.popI32_cons _ _), VM.bind_eq (VM.lift_ok (fromI32_bool _)), VM.push_eq]


theorem i32_lt_u_sound (s : List Val) : Implements (evalInt .i32_lt_u) s (intSem .i32_lt_u s) := by
  rcases s with _ | ⟨b, _ | ⟨a, s⟩⟩
  · exact ⟨_, rfl⟩
  · exact ⟨_, rfl⟩
  · simp only [intSem, rel32, Implements, evalInt]
    rw [VM.bind_eq (VM.popU32_cons _ _), VM.bind_eq (VM.popU32_cons _ _), cast_lt, VM.bind_eq (VM.lift_ok (fromI32_bool _)), VM.push_eq]


theorem i32_gt_s_sound (s : List Val) : Implements (evalInt .i32_gt_s) s (intSem .i32_gt_s s) := by
  rcases s with _ | ⟨b, _ | ⟨a, s⟩⟩
  · exact ⟨_, rfl⟩
  · exact ⟨_, rfl⟩
  · simp only [intSem, rel32, Implements, evalInt]
    rw [VM.bind_eq (VM.popI32_cons _ _), VM.bind_eq (VM.popI32_cons _ _), VM.bind_eq (VM.lift_ok (fromI32_bool _)), VM.push_eq]


theorem i32_gt_u_sound (s : List Val) : Implements (evalInt .i32_gt_u) s (intSem .i32_gt_u s) := by
  rcases s with _ | ⟨b, _ | ⟨a, s⟩⟩
  · exact ⟨_, rfl⟩
  · exact ⟨_, rfl⟩
  · simp only [intSem, rel32, Implements, evalInt]
    rw [VM.bind_eq (VM.popU32_cons _ _), VM.bind_eq (VM.popU32_cons _ _), cast_gt, VM.bind_eq (VM.lift_ok (fromI32_bool _)), VM.push_eq]


theorem i32_le_s_sound (s : List Val) : Implements (evalInt .i32_le_s) s (intSem .i32_le_s s) := by
  rcases s with _ | ⟨b, _ | ⟨a, s⟩⟩
  · exact ⟨_, rfl⟩
  · exact ⟨_, rfl⟩
  · simp only [intSem, rel32, Implements, evalInt]
    rw [VM.bind_eq (VM.popI32_cons _ _), VM.bind_eq (VM.popI32_cons _ _), VM.bind_eq (VM.lift_ok (fromI32_bool _)), VM.push_eq]


theorem i32_le_u_sound (s : List Val) : Implements (evalInt .i32_le_u) s (intSem .i32_le_u s) := by
  rcases s with _ | ⟨b, _ | ⟨a, s⟩⟩
  · exact ⟨_, rfl⟩
  · exact ⟨_, rfl⟩
  · simp only [intSem, rel32, Implements, evalInt]
    rw [VM.bind_eq (VM.popU32_cons _ _), VM.bind_eq (VM.popU32_cons _ _), cast_le, VM.bind_eq (VM.lift_ok (fromI32_bool _)), VM.push_eq]


theorem i32_ge_s_sound (s : List Val) : Implements (evalInt .i32_ge_s) s (intSem .i32_ge_s s) := by
  rcases s with _ | ⟨b, _ | ⟨a, s⟩⟩
  · exact ⟨_, rfl⟩
  · exact ⟨_, rfl⟩
  · simp only [intSem, rel32, Implements, evalInt]
    rw [VM.bind_eq (VM.popI32_cons _ _), VM.bind_eq (VM.popI32_cons _ _), VM.bind_eq (VM.lift_ok (fromI32_bool _)), VM.push_eq]


theorem i32_ge_u_sound (s : List Val) : Implements (evalInt .i32_ge_u) s (intSem .i32_ge_u s) := by
  rcases s with _ | ⟨b, _ | ⟨a, s⟩⟩
  · exact ⟨_, rfl⟩
  · exact ⟨_, rfl⟩
  · simp only [intSem, rel32, Implements, evalInt]
    rw [VM.bind_eq (VM.popU32_cons _ _), VM.bind_eq (VM.popU32_cons _ _), cast_ge, VM.bind_eq (VM.lift_ok (fromI32_bool _)), VM.push_eq]


theorem i32_clz_sound (s : List Val) : Implements (evalInt .i32_clz) s (intSem .i32_clz s) := by
  rcases s with _ | ⟨a, s⟩
  · exact ⟨_, rfl⟩
  · simp only [intSem, un32, Implements, evalInt]
    have hle : Spec.clz a.low32 ≤ 64 := (clz_le a.low32).trans (by decide)
    rw [VM.bind_eq (VM.popU32_cons _ _), U.clz_w rfl, VM.bind_eq (VM.lift_ok (i32_of_nat_le hle)), VM.push_eq]


theorem i32_ctz_sound (s : List Val) : Implements (evalInt .i32_ctz) s (intSem .i32_ctz s) := by
  rcases s with _ | ⟨a, s⟩
  · exact ⟨_, rfl⟩
  · simp only [intSem, un32, Implements, evalInt]
    have hle : Spec.ctz a.low32 ≤ 64 := (ctz_le a.low32).trans (by decide)
    rw [VM.bind_eq (VM.popU32_cons _ _), U.ctz_w rfl, VM.bind_eq (VM.lift_ok (i32_of_nat_le hle)), VM.push_eq]


theorem i32_popcnt_sound (s : List Val) : Implements (evalInt .i32_popcnt) s (intSem .i32_popcnt s) := by
  rcases s with _ | ⟨a, s⟩
  · exact ⟨_, rfl⟩
  · simp only [intSem, un32, Implements, evalInt]
    have hle : Spec.popcnt a.low32 ≤ 64 := (popcnt_le a.low32).trans (by decide)
    rw [VM.bind_eq (VM.popU32_cons _ _), U.popcnt_w rfl, VM.bind_eq (VM.lift_ok (i32_of_nat_le hle)), VM.push_eq]


theorem i32_add_sound (s : List Val) : Implements (evalInt .i32_add) s (intSem .i32_add s) := by
  rcases s with _ | ⟨b, _ | ⟨a, s⟩⟩
  · exact ⟨_, rfl⟩
  · exact ⟨_, rfl⟩
  · simp only [intSem, bin32, Implements, evalInt]
    rw [VM.bind_eq (VM.popI32_cons _ _), VM.bind_eq (VM.popI32_cons _ _), I.add_w rfl (by decide), VM.bind_eq (VM.lift_ok (fromI32_toInt _)), VM.push_eq]


theorem i32_sub_sound (s : List Val) : Implements (evalInt .i32_sub) s (intSem .i32_sub s) := by
  rcases s with _ | ⟨b, _ | ⟨a, s⟩⟩
  · exact ⟨_, rfl⟩
  · exact ⟨_, rfl⟩
  · simp only [intSem, bin32, Implements, evalInt]
    rw [VM.bind_eq (VM.popI32_cons _ _), VM.bind_eq (VM.popI32_cons _ _), I.sub_w rfl (by decide), VM.bind_eq (VM.lift_ok (fromI32_toInt _)), VM.push_eq]


theorem i32_mul_sound (s : List Val) : Implements (evalInt .i32_mul) s (intSem .i32_mul s) := by
  rcases s with _ | ⟨b, _ | ⟨a, s⟩⟩
  · exact ⟨_, rfl⟩
  · exact ⟨_, rfl⟩
  · simp only [intSem, bin32, Implements, evalInt]
    rw [VM.bind_eq (VM.popI32_cons _ _), VM.bind_eq (VM.popI32_cons _ _), I.mul_w rfl (by decide), VM.bind_eq (VM.lift_ok (fromI32_toInt _)), VM.push_eq]


theorem i32_and_sound (s : List Val) : Implements (evalInt .i32_and) s (intSem .i32_and s) := by
  rcases s with _ | ⟨b, _ | ⟨a, s⟩⟩
  · exact ⟨_, rfl⟩
  · exact ⟨_, rfl⟩
  · simp only [intSem, bin32, Implements, evalInt]
    rw [VM.bind_eq (VM.popI32_cons _ _), VM.bind_eq (VM.popI32_cons _ _), and_w rfl, VM.bind_eq (VM.lift_ok (fromI32_toInt _)), VM.push_eq]


theorem i32_or_sound (s : List Val) : Implements (evalInt .i32_or) s (intSem .i32_or s) := by
  rcases s with _ | ⟨b, _ | ⟨a, s⟩⟩
  · exact ⟨_, rfl⟩
  · exact ⟨_, rfl⟩
  · simp only [intSem, bin32, Implements, evalInt]
    rw [VM.bind_eq (VM.popI32_cons _ _), VM.bind_eq (VM.popI32_cons _ _), or_w rfl, VM.bind_eq (VM.lift_ok (fromI32_toInt _)), VM.push_eq]


theorem i32_xor_sound (s : List Val) : Implements (evalInt .i32_xor) s (intSem .i32_xor s) := by
  rcases s with _ | ⟨b, _ | ⟨a, s⟩⟩
  · exact ⟨_, rfl⟩
  · exact ⟨_, rfl⟩
  · simp only [intSem, bin32, Implements, evalInt]
    rw [VM.bind_eq (VM.popI32_cons _ _), VM.bind_eq (VM.popI32_cons _ _), xor_w rfl, VM.bind_eq (VM.lift_ok (fromI32_toInt _)), VM.push_eq]


theorem i32_shl_sound (s : List Val) : Implements (evalInt .i32_shl) s (intSem .i32_shl s) := by
  rcases s with _ | ⟨b, _ | ⟨a, s⟩⟩
  · exact ⟨_, rfl⟩
  · exact ⟨_, rfl⟩
  · simp only [intSem, bin32, Implements, evalInt]
    rw [VM.bind_eq (VM.popI32_cons _ _), VM.bind_eq (VM.popI32_cons _ _), I.shl_w rfl (by decide) 5 rfl, VM.bind_eq (VM.lift_ok (fromI32_toInt _)), VM.push_eq]


theorem i32_shr_s_sound (s : List Val) : Implements (evalInt .i32_shr_s) s (intSem .i32_shr_s s) := by
  rcases s with _ | ⟨b, _ | ⟨a, s⟩⟩
  · exact ⟨_, rfl⟩
  · exact ⟨_, rfl⟩
  · simp only [intSem, bin32, Implements, evalInt]
    rw [VM.bind_eq (VM.popI32_cons _ _), VM.bind_eq (VM.popI32_cons _ _), I.shr_w rfl (by decide) 5 rfl, VM.bind_eq (VM.lift_ok (fromI32_toInt _)), VM.push_eq]


theorem i32_shr_u_sound (s : List Val) : Implements (evalInt .i32_shr_u) s (intSem .i32_shr_u s) := by
  rcases s with _ | ⟨b, _ | ⟨a, s⟩⟩
  · exact ⟨_, rfl⟩
  · exact ⟨_, rfl⟩
  · simp only [intSem, bin32, Implements, evalInt]
    rw [VM.bind_eq (VM.popU32_cons _ _), VM.bind_eq (VM.popU32_cons _ _), U.shr_w rfl 5 rfl, VM.bind_eq (VM.lift_ok (fromU32_toNat _)), VM.push_eq]


theorem i32_rotl_sound (s : List Val) : Implements (evalInt .i32_rotl) s (intSem .i32_rotl s) := by
  rcases s with _ | ⟨b, _ | ⟨a, s⟩⟩
  · exact ⟨_, rfl⟩
  · exact ⟨_, rfl⟩
  · simp only [intSem, bin32, Implements, evalInt]
    rw [VM.bind_eq (VM.popU32_cons _ _), VM.bind_eq (VM.popU32_cons _ _), U.rotl_w rfl, VM.bind_eq (VM.lift_ok (fromU32_toNat _)), VM.push_eq]


theorem i32_rotr_sound (s : List Val) : Implements (evalInt .i32_rotr) s (intSem .i32_rotr s) := by
  rcases s with _ | ⟨b, _ | ⟨a, s⟩⟩
  · exact ⟨_, rfl⟩
  · exact ⟨_, rfl⟩
  · simp only [intSem, bin32, Implements, evalInt]
    rw [VM.bind_eq (VM.popU32_cons _ _), VM.bind_eq (VM.popU32_cons _ _), U.rotr_w rfl, VM.bind_eq (VM.lift_ok (fromU32_toNat _)), VM.push_eq]


theorem i32_div_s_sound (s : List Val) : Implements (evalInt .i32_div_s) s (intSem .i32_div_s s) := by
  rcases s with _ | ⟨b, _ | ⟨a, s⟩⟩
  · exact ⟨_, rfl⟩
  · exact ⟨_, rfl⟩
  · have h := I.div_w (k := 4) rfl (by decide) a.low32 b.low32
    simp only [intSem, part32]
    split
    · rename_i hz
      simp only [Implements, evalInt]
      rw [VM.bind_eq (VM.popI32_cons _ _), VM.bind_eq (VM.popI32_cons _ _), VM.bind_eq (VM.lift_ok (h.1 _ hz)), VM.bind_eq (VM.lift_ok (fromI32_toInt _)), VM.push_eq]
    · rename_i hz
      obtain ⟨e, h, he⟩ := h.2 hz
      refine ⟨e, s, ?_, he⟩
      simp only [evalInt]
      rw [VM.bind_eq (VM.popI32_cons _ _), VM.bind_eq (VM.popI32_cons _ _), VM.bind_error (VM.lift_error h)]


theorem i32_div_u_sound (s : List Val) : Implements (evalInt .i32_div_u) s (intSem .i32_div_u s) := by
  rcases s with _ | ⟨b, _ | ⟨a, s⟩⟩
  · exact ⟨_, rfl⟩
  · exact ⟨_, rfl⟩
  · have h := U.div_w 4 a.low32 b.low32
    simp only [intSem, part32]
    split
    · rename_i hz
      simp only [Implements, evalInt]
      rw [VM.bind_eq (VM.popU32_cons _ _), VM.bind_eq (VM.popU32_cons _ _), VM.bind_eq (VM.lift_ok (h.1 _ hz)), VM.bind_eq (VM.lift_ok (fromU32_toNat _)), VM.push_eq]
    · rename_i hz
      obtain ⟨e, h, he⟩ := h.2 hz
      refine ⟨e, s, ?_, he⟩
      simp only [evalInt]
      rw [VM.bind_eq (VM.popU32_cons _ _), VM.bind_eq (VM.popU32_cons _ _), VM.bind_error (VM.lift_error h)]


theorem i32_rem_s_sound (s : List Val) : Implements (evalInt .i32_rem_s) s (intSem .i32_rem_s s) := by
  rcases s with _ | ⟨b, _ | ⟨a, s⟩⟩
  · exact ⟨_, rfl⟩
  · exact ⟨_, rfl⟩
  · have h := I.rem_w (k := 4) rfl (by decide) a.low32 b.low32
    simp only [intSem, part32]
    split
    · rename_i hz
      simp only [Implements, evalInt]
      rw [VM.bind_eq (VM.popI32_cons _ _), VM.bind_eq (VM.popI32_cons _ _), VM.bind_eq (VM.lift_ok (h.1 _ hz)), VM.bind_eq (VM.lift_ok (fromI32_toInt _)), VM.push_eq]
    · rename_i hz
      obtain ⟨e, h, he⟩ := h.2 hz
      refine ⟨e, s, ?_, he⟩
      simp only [evalInt]
      rw [VM.bind_eq (VM.popI32_cons _ _), VM.bind_eq (VM.popI32_cons _ _), VM.bind_error (VM.lift_error h)]


theorem i32_rem_u_sound (s : List Val) : Implements (evalInt .i32_rem_u) s (intSem .i32_rem_u s) := by
  rcases s with _ | ⟨b, _ | ⟨a, s⟩⟩
  · exact ⟨_, rfl⟩
  · exact ⟨_, rfl⟩
  · have h := U.rem_w 4 a.low32 b.low32
    simp only [intSem, part32]
    split
    · rename_i hz
      simp only [Implements, evalInt]
      rw [VM.bind_eq (VM.popU32_cons _ _), VM.bind_eq (VM.popU32_cons _ _), VM.bind_eq (VM.lift_ok (h.1 _ hz)), VM.bind_eq (VM.lift_ok (fromU32_toNat _)), VM.push_eq]
    · rename_i hz
      obtain ⟨e, h, he⟩ := h.2 hz
      refine ⟨e, s, ?_, he⟩
      simp only [evalInt]
      rw [VM.bind_eq (VM.popU32_cons _ _), VM.bind_eq (VM.popU32_cons _ _), VM.bind_error (VM.lift_error h)]


theorem i64_eqz_sound (s : List Val) : Implements (evalInt .i64_eqz) s (intSem .i64_eqz s) := by
  rcases s with _ | ⟨a, s⟩
  · exact ⟨_, rfl⟩
  · simp only [intSem, test64, Implements, evalInt]
    rw [VM.bind_eq (VM.popI64_cons _ _), toInt_beq_zero, VM.bind_eq (VM.lift_ok (fromI32_bool _)), VM.push_eq]


theorem i64_eq_sound (s : List Val) : Implements (evalInt .i64_eq) s (intSem .i64_eq s) := by
  rcases s with _ | ⟨b, _ | ⟨a, s⟩⟩
  · exact ⟨_, rfl⟩
  · exact ⟨_, rfl⟩
  · simp only [intSem, rel64, Implements, evalInt]
    rw [VM.bind_eq (VM.popI64_cons _ _), VM.bind_eq (VM.popI64_cons _ _), toInt_beq, VM.bind_eq (VM.lift_ok (fromI32_bool _)), VM.push_eq]


theorem i64_ne_sound (s : List Val) : Implements (evalInt .i64_ne) s (intSem .i64_ne s) := by
  rcases s with _ | ⟨b, _ | ⟨a, s⟩⟩
  · exact ⟨_, rfl⟩
  · exact ⟨_, rfl⟩
  · simp only [intSem, rel64, Implements, evalInt]
    rw [VM.bind_eq (VM.popI64_cons _ _), VM.bind_eq (VM.popI64_cons _ _), toInt_bne, VM.bind_eq (VM.lift_ok (fromI32_bool _)), VM.push_eq]


theorem i64_lt_s_sound (s : List Val) : Implements (evalInt .i64_lt_s) s (intSem .i64_lt_s s) := by
  rcases s with _ | ⟨b, _ | ⟨a, s⟩⟩
  · exact ⟨_, rfl⟩
  · exact ⟨_, rfl⟩
  · simp only [intSem, rel64, Implements, evalInt]
    rw [VM.bind_eq (VM.popI64_cons _ _), VM.bind_eq (VM.popI64_cons _ _), VM.bind_eq (VM.lift_ok (fromI32_bool _)), VM.push_eq]


theorem i64_lt_u_sound (s : List Val) : Implements (evalInt .i64_lt_u) s (intSem .i64_lt_u s) := by
  rcases s with _ | ⟨b, _ | ⟨a, s⟩⟩
  · exact ⟨_, rfl⟩
  · exact ⟨_, rfl⟩
  · simp only [intSem, rel64, Implements, evalInt]
    rw [VM.bind_eq (VM.popU64_cons _ _), VM.bind_eq (VM.popU64_cons _ _), cast_lt, VM.bind_eq (VM.lift_ok (fromI32_bool _)), VM.push_eq]


theorem i64_gt_s_sound (s : List Val) : Implements (evalInt .i64_gt_s) s (intSem .i64_gt_s s) := by
  rcases s with _ | ⟨b, _ | ⟨a, s⟩⟩
  · exact ⟨_, rfl⟩
  · exact ⟨_, rfl⟩
  · simp only [intSem, rel64, Implements, evalInt]
    rw [VM.bind_eq (VM.popI64_cons _ _), VM.bind_eq (VM.popI64_cons _ _), VM.bind_eq (VM.lift_ok (fromI32_bool _)), VM.push_eq]


theorem i64_gt_u_sound (s : List Val) : Implements (evalInt .i64_gt_u) s (intSem .i64_gt_u s) := by
  rcases s with _ | ⟨b, _ | ⟨a, s⟩⟩
  · exact ⟨_, rfl⟩
  · exact ⟨_, rfl⟩
  · simp only [intSem, rel64, Implements, evalInt]
    rw [VM.bind_eq (VM.popU64_cons _ _), VM.bind_eq (VM.popU64_cons _ _), cast_gt, VM.bind_eq (VM.lift_ok (fromI32_bool _)), VM.push_eq]


theorem i64_le_s_sound (s : List Val) : Implements (evalInt .i64_le_s) s (intSem .i64_le_s s) := by
  rcases s with _ | ⟨b, _ | ⟨a, s⟩⟩
  · exact ⟨_, rfl⟩
  · exact ⟨_, rfl⟩
  · simp only [intSem, rel64, Implements, evalInt]
    rw [VM.bind_eq (VM.popI64_cons _ _), VM.bind_eq (VM.popI64_cons _ _), VM.bind_eq (VM.lift_ok (fromI32_bool _)), VM.push_eq]


theorem i64_le_u_sound (s : List Val) : Implements (evalInt .i64_le_u) s (intSem .i64_le_u s) := by
  rcases s with _ | ⟨b, _ | ⟨a, s⟩⟩
  · exact ⟨_, rfl⟩
  · exact ⟨_, rfl⟩
  · simp only [intSem, rel64, Implements, evalInt]
    rw [VM.bind_eq (VM.popU64_cons _ _), VM.bind_eq (VM.popU64_cons _ _), cast_le, VM.bind_eq (VM.lift_ok (fromI32_bool _)), VM.push_eq]


theorem i64_ge_s_sound (s : List Val) : Implements (evalInt .i64_ge_s) s (intSem .i64_ge_s s) := by
  rcases s with _ | ⟨b, _ | ⟨a, s⟩⟩
  · exact ⟨_, rfl⟩
  · exact ⟨_, rfl⟩
  · simp only [intSem, rel64, Implements, evalInt]
    rw [VM.bind_eq (VM.popI64_cons _ _), VM.bind_eq (VM.popI64_cons _ _), VM.bind_eq (VM.lift_ok (fromI32_bool _)), VM.push_eq]


theorem i64_ge_u_sound (s : List Val) : Implements (evalInt .i64_ge_u) s (intSem .i64_ge_u s) := by
  rcases s with _ | ⟨b, _ | ⟨a, s⟩⟩
  · exact ⟨_, rfl⟩
  · exact ⟨_, rfl⟩
  · simp only [intSem, rel64, Implements, evalInt]
    rw [VM.bind_eq (VM.popU64_cons _ _), VM.bind_eq (VM.popU64_cons _ _), cast_ge, VM.bind_eq (VM.lift_ok (fromI32_bool _)), VM.push_eq]


theorem i64_clz_sound (s : List Val) : Implements (evalInt .i64_clz) s (intSem .i64_clz s) := by
  rcases s with _ | ⟨a, s⟩
  · exact ⟨_, rfl⟩
  · simp only [intSem, un64, Implements, evalInt]
    have hle : Spec.clz a.low64 ≤ 64 := (clz_le a.low64).trans (by decide)
    rw [VM.bind_eq (VM.popU64_cons _ _), U.clz_w rfl, VM.bind_eq (VM.lift_ok (i64_of_nat_le hle)), VM.push_eq]


theorem i64_ctz_sound (s : List Val) : Implements (evalInt .i64_ctz) s (intSem .i64_ctz s) := by
  rcases s with _ | ⟨a, s⟩
  · exact ⟨_, rfl⟩
  · simp only [intSem, un64, Implements, evalInt]
    have hle : Spec.ctz a.low64 ≤ 64 := (ctz_le a.low64).trans (by decide)
    rw [VM.bind_eq (VM.popU64_cons _ _), U.ctz_w rfl, VM.bind_eq (VM.lift_ok (i64_of_nat_le hle)), VM.push_eq]


theorem i64_popcnt_sound (s : List Val) : Implements (evalInt .i64_popcnt) s (intSem .i64_popcnt s) := by
  rcases s with _ | ⟨a, s⟩
  · exact ⟨_, rfl⟩
  · simp only [intSem, un64, Implements, evalInt]
    have hle : Spec.popcnt a.low64 ≤ 64 := (popcnt_le a.low64).trans (by decide)
    rw [VM.bind_eq (VM.popU64_cons _ _), U.popcnt_w rfl, VM.bind_eq (VM.lift_ok (i64_of_nat_le hle)), VM.push_eq]


theorem i64_add_sound (s : List Val) : Implements (evalInt .i64_add) s (intSem .i64_add s) := by
  rcases s with _ | ⟨b, _ | ⟨a, s⟩⟩
  · exact ⟨_, rfl⟩
  · exact ⟨_, rfl⟩
  · simp only [intSem, bin64, Implements, evalInt]
    rw [VM.bind_eq (VM.popI64_cons _ _), VM.bind_eq (VM.popI64_cons _ _), I.add_w rfl (by decide), VM.bind_eq (VM.lift_ok (fromI64_toInt _)), VM.push_eq]


theorem i64_sub_sound (s : List Val) : Implements (evalInt .i64_sub) s (intSem .i64_sub s) := by
  rcases s with _ | ⟨b, _ | ⟨a, s⟩⟩
  · exact ⟨_, rfl⟩
  · exact ⟨_, rfl⟩
  · simp only [intSem, bin64, Implements, evalInt]
    rw [VM.bind_eq (VM.popI64_cons _ _), VM.bind_eq (VM.popI64_cons _ _), I.sub_w rfl (by decide), VM.bind_eq (VM.lift_ok (fromI64_toInt _)), VM.push_eq]


theorem i64_mul_sound (s : List Val) : Implements (evalInt .i64_mul) s (intSem .i64_mul s) := by
  rcases s with _ | ⟨b, _ | ⟨a, s⟩⟩
  · exact ⟨_, rfl⟩
  · exact ⟨_, rfl⟩
  · simp only [intSem, bin64, Implements, evalInt]
    rw [VM.bind_eq (VM.popI64_cons _ _), VM.bind_eq (VM.popI64_cons _ _), I.mul_w rfl (by decide), VM.bind_eq (VM.lift_ok (fromI64_toInt _)), VM.push_eq]


theorem i64_and_sound (s : List Val) : Implements (evalInt .i64_and) s (intSem .i64_and s) := by
  rcases s with _ | ⟨b, _ | ⟨a, s⟩⟩
  · exact ⟨_, rfl⟩
  · exact ⟨_, rfl⟩
  · simp only [intSem, bin64, Implements, evalInt]
    rw [VM.bind_eq (VM.popI64_cons _ _), VM.bind_eq (VM.popI64_cons _ _), and_w rfl, VM.bind_eq (VM.lift_ok (fromI64_toInt _)), VM.push_eq]


theorem i64_or_sound (s : List Val) : Implements (evalInt .i64_or) s (intSem .i64_or s) := by
  rcases s with _ | ⟨b, _ | ⟨a, s⟩⟩
  · exact ⟨_, rfl⟩
  · exact ⟨_, rfl⟩
  · simp only [intSem, bin64, Implements, evalInt]
    rw [VM.bind_eq (VM.popI64_cons _ _), VM.bind_eq (VM.popI64_cons _ _), or_w rfl, VM.bind_eq (VM.lift_ok (fromI64_toInt _)), VM.push_eq]


theorem i64_xor_sound (s : List Val) : Implements (evalInt .i64_xor) s (intSem .i64_xor s) := by
  rcases s with _ | ⟨b, _ | ⟨a, s⟩⟩
  · exact ⟨_, rfl⟩
  · exact ⟨_, rfl⟩
  · simp only [intSem, bin64, Implements, evalInt]
    rw [VM.bind_eq (VM.popI64_cons _ _), VM.bind_eq (VM.popI64_cons _ _), xor_w rfl, VM.bind_eq (VM.lift_ok (fromI64_toInt _)), VM.push_eq]


theorem i64_shl_sound (s : List Val) : Implements (evalInt .i64_shl) s (intSem .i64_shl s) := by
  rcases s with _ | ⟨b, _ | ⟨a, s⟩⟩
  · exact ⟨_, rfl⟩
  · exact ⟨_, rfl⟩
  · simp only [intSem, bin64, Implements, evalInt]
    rw [VM.bind_eq (VM.popI64_cons _ _), VM.bind_eq (VM.popI64_cons _ _), I.shl_w rfl (by decide) 6 rfl, VM.bind_eq (VM.lift_ok (fromI64_toInt _)), VM.push_eq]


theorem i64_shr_s_sound (s : List Val) : Implements (evalInt .i64_shr_s) s (intSem .i64_shr_s s) := by
  rcases s with _ | ⟨b, _ | ⟨a, s⟩⟩
  · exact ⟨_, rfl⟩
  · exact ⟨_, rfl⟩
  · simp only [intSem, bin64, Implements, evalInt]
    rw [VM.bind_eq (VM.popI64_cons _ _), VM.bind_eq (VM.popI64_cons _ _), I.shr_w rfl (by decide) 6 rfl, VM.bind_eq (VM.lift_ok (fromI64_toInt _)), VM.push_eq]


theorem i64_shr_u_sound (s : List Val) : Implements (evalInt .i64_shr_u) s (intSem .i64_shr_u s) := by
  rcases s with _ | ⟨b, _ | ⟨a, s⟩⟩
  · exact ⟨_, rfl⟩
  · exact ⟨_, rfl⟩
  · simp only [intSem, bin64, Implements, evalInt]
    rw [VM.bind_eq (VM.popU64_cons _ _), VM.bind_eq (VM.popU64_cons _ _), U.shr_w rfl 6 rfl, VM.bind_eq (VM.lift_ok (fromU64_toNat _)), VM.push_eq]


theorem i64_rotl_sound (s : List Val) : Implements (evalInt .i64_rotl) s (intSem .i64_rotl s) := by
  rcases s with _ | ⟨b, _ | ⟨a, s⟩⟩
  · exact ⟨_, rfl⟩
  · exact ⟨_, rfl⟩
  · simp only [intSem, bin64, Implements, evalInt]
    rw [VM.bind_eq (VM.popU64_cons _ _), VM.bind_eq (VM.popU64_cons _ _), U.rotl_w rfl, VM.bind_eq (VM.lift_ok (fromU64_toNat _)), VM.push_eq]


theorem i64_rotr_sound (s : List Val) : Implements (evalInt .i64_rotr) s (intSem .i64_rotr s) := by
  rcases s with _ | ⟨b, _ | ⟨a, s⟩⟩
  · exact ⟨_, rfl⟩
  · exact ⟨_, rfl⟩
  · simp only [intSem, bin64, Implements, evalInt]
    rw [VM.bind_eq (VM.popU64_cons _ _), VM.bind_eq (VM.popU64_cons _ _), U.rotr_w rfl, VM.bind_eq (VM.lift_ok (fromU64_toNat _)), VM.push_eq]


theorem i64_div_s_sound (s : List Val) : Implements (evalInt .i64_div_s) s (intSem .i64_div_s s) := by
  rcases s with _ | ⟨b, _ | ⟨a, s⟩⟩
  · exact ⟨_, rfl⟩
  · exact ⟨_, rfl⟩
  · have h := I.div_w (k := 8) rfl (by decide) a.low64 b.low64
    simp only [intSem, part64]
    split
    · rename_i hz
      simp only [Implements, evalInt]
      rw [VM.bind_eq (VM.popI64_cons _ _), VM.bind_eq (VM.popI64_cons _ _), VM.bind_eq (VM.lift_ok (h.1 _ hz)), VM.bind_eq (VM.lift_ok (fromI64_toInt _)), VM.push_eq]
    · rename_i hz
      obtain ⟨e, h, he⟩ := h.2 hz
      refine ⟨e, s, ?_, he⟩
      simp only [evalInt]
      rw [VM.bind_eq (VM.popI64_cons _ _), VM.bind_eq (VM.popI64_cons _ _), VM.bind_error (VM.lift_error h)]


theorem i64_rem_s_sound (s : List Val) : Implements (evalInt .i64_rem_s) s (intSem .i64_rem_s s) := by
  rcases s with _ | ⟨b, _ | ⟨a, s⟩⟩
  · exact ⟨_, rfl⟩
  · exact ⟨_, rfl⟩
  · have h := I.rem_w (k := 8) rfl (by decide) a.low64 b.low64
    simp only [intSem, part64]
    split
    · rename_i hz
      simp only [Implements, evalInt]
      rw [VM.bind_eq (VM.popI64_cons _ _), VM.bind_eq (VM.popI64_cons _ _), VM.bind_eq (VM.lift_ok (h.1 _ hz)), VM.bind_eq (VM.lift_ok (fromI64_toInt _)), VM.push_eq]
    · rename_i hz
      obtain ⟨e, h, he⟩ := h.2 hz
      refine ⟨e, s, ?_, he⟩
      simp only [evalInt]
      rw [VM.bind_eq (VM.popI64_cons _ _), VM.bind_eq (VM.popI64_cons _ _), VM.bind_error (VM.lift_error h)]


theorem i64_rem_u_sound (s : List Val) : Implements (evalInt .i64_rem_u) s (intSem .i64_rem_u s) := by
  rcases s with _ | ⟨b, _ | ⟨a, s⟩⟩
  · exact ⟨_, rfl⟩
  · exact ⟨_, rfl⟩
  · have h := U.rem_w 8 a.low64 b.low64
    simp only [intSem, part64]
    split
    · rename_i hz
      simp only [Implements, evalInt]
      rw [VM.bind_eq (VM.popU64_cons _ _), VM.bind_eq (VM.popU64_cons _ _), VM.bind_eq (VM.lift_ok (h.1 _ hz)), VM.bind_eq (VM.lift_ok (fromU64_toNat _)), VM.push_eq]
    · rename_i hz
      obtain ⟨e, h, he⟩ := h.2 hz
      refine ⟨e, s, ?_, he⟩
      simp only [evalInt]
      rw [VM.bind_eq (VM.popU64_cons _ _), VM.bind_eq (VM.popU64_cons _ _), VM.bind_error (VM.lift_error h)]


theorem i32_wrap_i64_sound (s : List Val) : Implements (evalInt .i32_wrap_i64) s (intSem .i32_wrap_i64 s) := by
  rcases s with _ | ⟨a, s⟩
  · exact ⟨_, rfl⟩
  · simp only [intSem, cvt64_32, Implements, evalInt]
    rw [VM.bind_eq (VM.popI64_cons _ _), I.fit_w (w := 32) rfl (by decide), ofInt_toInt_of_le (by decide), VM.bind_eq (VM.lift_ok (fromI32_toInt _)), VM.push_eq]


theorem i64_extend_i32_s_sound (s : List Val) : Implements (evalInt .i64_extend_i32_s) s (intSem .i64_extend_i32_s s) := by
  rcases s with _ | ⟨a, s⟩
  · exact ⟨_, rfl⟩
  · simp only [intSem, cvt32_64, Implements, evalInt]
    rw [VM.bind_eq (VM.popI32_cons _ _), ← BitVec.toInt_signExtend_of_le (v := 64) (by decide : 32 ≤ 64),
      VM.bind_eq (VM.lift_ok (fromI64_toInt _)), VM.push_eq]


theorem i64_extend_i32_u_sound (s : List Val) : Implements (evalInt .i64_extend_i32_u) s (intSem .i64_extend_i32_u s) := by
  rcases s with _ | ⟨a, s⟩
  · exact ⟨_, rfl⟩
  · simp only [intSem, cvt32_64, Implements, evalInt]
    rw [VM.bind_eq (VM.popU32_cons _ _), VM.bind_eq (VM.lift_ok (fromI64_u32 _)), VM.push_eq]


theorem i32_extend8_s_sound (s : List Val) : Implements (evalInt .i32_extend8_s) s (intSem .i32_extend8_s s) := by
  rcases s with _ | ⟨a, s⟩
  · exact ⟨_, rfl⟩
  · simp only [intSem, un32, Implements, evalInt]
    rw [VM.bind_eq (VM.popI32_cons _ _), I.fit_w (w := 8) rfl (by decide), ofInt_toInt_of_le (by decide),
      ← BitVec.toInt_signExtend_of_le (v := 32) (by decide : 8 ≤ 32),
      VM.bind_eq (VM.lift_ok (fromI32_toInt _)), VM.push_eq]


theorem i32_extend16_s_sound (s : List Val) : Implements (evalInt .i32_extend16_s) s (intSem .i32_extend16_s s) := by
  rcases s with _ | ⟨a, s⟩
  · exact ⟨_, rfl⟩
  · simp only [intSem, un32, Implements, evalInt]
    rw [VM.bind_eq (VM.popI32_cons _ _), I.fit_w (w := 16) rfl (by decide), ofInt_toInt_of_le (by decide),
      ← BitVec.toInt_signExtend_of_le (v := 32) (by decide : 16 ≤ 32),
      VM.bind_eq (VM.lift_ok (fromI32_toInt _)), VM.push_eq]


theorem i64_extend8_s_sound (s : List Val) : Implements (evalInt .i64_extend8_s) s (intSem .i64_extend8_s s) := by
  rcases s with _ | ⟨a, s⟩
  · exact ⟨_, rfl⟩
  · simp only [intSem, un64, Implements, evalInt]
    rw [VM.bind_eq (VM.popI64_cons _ _), I.fit_w (w := 8) rfl (by decide), ofInt_toInt_of_le (by decide),
      ← BitVec.toInt_signExtend_of_le (v := 64) (by decide : 8 ≤ 64),
      VM.bind_eq (VM.lift_ok (fromI64_toInt _)), VM.push_eq]


theorem i64_extend16_s_sound (s : List Val) : Implements (evalInt .i64_extend16_s) s (intSem .i64_extend16_s s) := by
  rcases s with _ | ⟨a, s⟩
  · exact ⟨_, rfl⟩
  · simp only [intSem, un64, Implements, evalInt]
    rw [VM.bind_eq (VM.popI64_cons _ _), I.fit_w (w := 16) rfl (by decide), ofInt_toInt_of_le (by decide),
      ← BitVec.toInt_signExtend_of_le (v := 64) (by decide : 16 ≤ 64),
      VM.bind_eq (VM.lift_ok (fromI64_toInt _)), VM.push_eq]


theorem i64_extend32_s_sound (s : List Val) : Implements (evalInt .i64_extend32_s) s (intSem .i64_extend32_s s) := by
  rcases s with _ | ⟨a, s⟩
  · exact ⟨_, rfl⟩
  · simp only [intSem, un64, Implements, evalInt]
    rw [VM.bind_eq (VM.popI64_cons _ _), I.fit_w (w := 32) rfl (by decide), ofInt_toInt_of_le (by decide),
      ← BitVec.toInt_signExtend_of_le (v := 64) (by decide : 32 ≤ 64),
      VM.bind_eq (VM.lift_ok (fromI64_toInt _)), VM.push_eq]


theorem int_sound (op : IOp) (h : op ≠ .i64_div_u) (s : List Val) : Implements (evalInt op) s (intSem op s) := by
  cases op
  case i64_div_u => exact absurd rfl h
  case i32_eqz => exact i32_eqz_sound s
  case i32_eq => exact i32_eq_sound s
  case i32_ne => exact i32_ne_sound s
  case i32_lt_s => exact i32_lt_s_sound s
  case i32_lt_u => exact i32_lt_u_sound s
  case i32_gt_s => exact i32_gt_s_sound s
  case i32_gt_u => exact i32_gt_u_sound s
  case i32_le_s => exact i32_le_s_sound s
  case i32_le_u => exact i32_le_u_sound s
  case i32_ge_s => exact i32_ge_s_sound s
  case i32_ge_u => exact i32_ge_u_sound s
  case i32_clz => exact i32_clz_sound s
  case i32_ctz => exact i32_ctz_sound s
  case i32_popcnt => exact i32_popcnt_sound s
  case i32_add => exact i32_add_sound s
  case i32_sub => exact i32_sub_sound s
  case i32_mul => exact i32_mul_sound s
  case i32_and => exact i32_and_sound s
  case i32_or => exact i32_or_sound s
  case i32_xor => exact i32_xor_sound s
  case i32_shl => exact i32_shl_sound s
  case i32_shr_s => exact i32_shr_s_sound s
  case i32_shr_u => exact i32_shr_u_sound s
  case i32_rotl => exact i32_rotl_sound s
  case i32_rotr => exact i32_rotr_sound s
  case i32_div_s => exact i32_div_s_sound s
  case i32_div_u => exact i32_div_u_sound s
  case i32_rem_s => exact i32_rem_s_sound s
  case i32_rem_u => exact i32_rem_u_sound s
  case i64_eqz => exact i64_eqz_sound s
  case i64_eq => exact i64_eq_sound s
  case i64_ne => exact i64_ne_sound s
  case i64_lt_s => exact i64_lt_s_sound s
  case i64_lt_u => exact i64_lt_u_sound s
  case i64_gt_s => exact i64_gt_s_sound s
  case i64_gt_u => exact i64_gt_u_sound s
  case i64_le_s => exact i64_le_s_sound s
  case i64_le_u => exact i64_le_u_sound s
  case i64_ge_s => exact i64_ge_s_sound s
  case i64_ge_u => exact i64_ge_u_sound s
  case i64_clz => exact i64_clz_sound s
  case i64_ctz => exact i64_ctz_sound s
  case i64_popcnt => exact i64_popcnt_sound s
  case i64_add => exact i64_add_sound s
  case i64_sub => exact i64_sub_sound s
  case i64_mul => exact i64_mul_sound s
  case i64_and => exact i64_and_sound s
  case i64_or => exact i64_or_sound s
  case i64_xor => exact i64_xor_sound s
  case i64_shl => exact i64_shl_sound s
  case i64_shr_s => exact i64_shr_s_sound s
  case i64_shr_u => exact i64_shr_u_sound s
  case i64_rotl => exact i64_rotl_sound s
  case i64_rotr => exact i64_rotr_sound s
  case i64_div_s => exact i64_div_s_sound s
  case i64_rem_s => exact i64_rem_s_sound s
  case i64_rem_u => exact i64_rem_u_sound s
  case i32_wrap_i64 => exact i32_wrap_i64_sound s
  case i64_extend_i32_s => exact i64_extend_i32_s_sound s
  case i64_extend_i32_u => exact i64_extend_i32_u_sound s
  case i32_extend8_s => exact i32_extend8_s_sound s
  case i32_extend16_s => exact i32_extend16_s_sound s
  case i64_extend8_s => exact i64_extend8_s_sound s
  case i64_extend16_s => exact i64_extend16_s_sound s
  case i64_extend32_s => exact i64_extend32_s_sound s

end Pywasm
