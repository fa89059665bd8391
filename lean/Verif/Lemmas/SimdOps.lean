import Verif.Lemmas.SimdBase2

/-!
# Every integer and bitwise vector instruction implements its lane-wise meaning
-/

namespace Pywasm
open Spec

/-- repeating the low bytes of a cell -/
theorem splat_bytes {w k n : Nat} (hw : w = 8 * k) (hk : 16 / k * k = 16) (hn : 16 / k = n) (x : Val) :
    Val.fromV128 (List.replicate n (x.data.take k)).flatten =
      .ok (v128 (ofLanes w fun _ => (BitVec.ofNat w (readLE (x.data.take k))))) := by
  have hk16 : k ≤ 16 := by
    rcases Nat.lt_or_ge 16 k with h | h
    · rw [Nat.div_eq_of_lt h] at hk; omega
    · exact h
  have hl := Val.take_length x hk16
  have e : x.data.take k = bytesLE k (BitVec.ofNat w (readLE (x.data.take k))).toNat := by
    have h1 := Py.leBytes_leNat (x.data.take k)
    rw [hl] at h1
    rw [bytesLE_eq, BitVec.toNat_ofNat, readLE_eq, hw, ← Py.pow256, Py.leBytes_mod, h1]
  have h2 : (List.replicate n (x.data.take k)).flatten =
      ((List.range (16 / k)).map fun _ => bytesLE k (BitVec.ofNat w (readLE (x.data.take k))).toNat).flatten := by
    rw [hn, ← replicate_eq_map, ← e]
  rw [h2, flatten_lanes hw hk (fun _ => BitVec.ofNat w (readLE (x.data.take k)))]
  have h3 : ∀ y : BitVec 128, Val.fromV128 (bytesLE 16 y.toNat) = .ok (v128 y) := by
    intro y
    unfold Val.fromV128
    rw [show Py.assert ((bytesLE 16 y.toNat).length == 16) = .ok () by simp [Py.assert, bytesLE_length]]
    show Val.make .v128 (bytesLE 16 y.toNat ++ Py.zeros 0) = _
    exact make_cell _ 16 _ (by decide)
  exact h3 _

theorem i8x16_eq_sound (f) (h : vecSem .i8x16_eq = some f) (s : List Val) : Implements (evalVec .i8x16_eq) s (f s) := by
  injection h with h; subst h
  refine shapeBin .i8 .i8 _ _ (fun x y => fromI rfl rfl rfl fun i hi => ?_) s
  simp only [Popper.i8, intsS_at _ hi]
  exact mask_toInt (by decide) (toInt_eq_iff _ _)

theorem i8x16_ne_sound (f) (h : vecSem .i8x16_ne = some f) (s : List Val) : Implements (evalVec .i8x16_ne) s (f s) := by
  injection h with h; subst h
  refine shapeBin .i8 .i8 _ _ (fun x y => fromI rfl rfl rfl fun i hi => ?_) s
  simp only [Popper.i8, intsS_at _ hi]
  exact mask_toInt (by decide) (not_congr (toInt_eq_iff _ _))

theorem i8x16_lt_s_sound (f) (h : vecSem .i8x16_lt_s = some f) (s : List Val) : Implements (evalVec .i8x16_lt_s) s (f s) := by
  injection h with h; subst h
  refine shapeBin .i8 .i8 _ _ (fun x y => fromI rfl rfl rfl fun i hi => ?_) s
  simp only [Popper.i8, intsS_at _ hi]
  exact mask_toInt (by decide) Iff.rfl

theorem i8x16_lt_u_sound (f) (h : vecSem .i8x16_lt_u = some f) (s : List Val) : Implements (evalVec .i8x16_lt_u) s (f s) := by
  injection h with h; subst h
  refine shapeBin .u8 .u8 _ _ (fun x y => fromI rfl rfl rfl fun i hi => ?_) s
  simp only [Popper.u8, intsU_at _ hi]
  exact mask_toInt (by decide) Int.ofNat_lt

theorem i8x16_gt_s_sound (f) (h : vecSem .i8x16_gt_s = some f) (s : List Val) : Implements (evalVec .i8x16_gt_s) s (f s) := by
  injection h with h; subst h
  refine shapeBin .i8 .i8 _ _ (fun x y => fromI rfl rfl rfl fun i hi => ?_) s
  simp only [Popper.i8, intsS_at _ hi]
  exact mask_toInt (by decide) Iff.rfl

theorem i8x16_gt_u_sound (f) (h : vecSem .i8x16_gt_u = some f) (s : List Val) : Implements (evalVec .i8x16_gt_u) s (f s) := by
  injection h with h; subst h
  refine shapeBin .u8 .u8 _ _ (fun x y => fromI rfl rfl rfl fun i hi => ?_) s
  simp only [Popper.u8, intsU_at _ hi]
  exact mask_toInt (by decide) Int.ofNat_lt

theorem i8x16_le_s_sound (f) (h : vecSem .i8x16_le_s = some f) (s : List Val) : Implements (evalVec .i8x16_le_s) s (f s) := by
  injection h with h; subst h
  refine shapeBin .i8 .i8 _ _ (fun x y => fromI rfl rfl rfl fun i hi => ?_) s
  simp only [Popper.i8, intsS_at _ hi]
  exact mask_toInt (by decide) Iff.rfl

theorem i8x16_le_u_sound (f) (h : vecSem .i8x16_le_u = some f) (s : List Val) : Implements (evalVec .i8x16_le_u) s (f s) := by
  injection h with h; subst h
  refine shapeBin .u8 .u8 _ _ (fun x y => fromI rfl rfl rfl fun i hi => ?_) s
  simp only [Popper.u8, intsU_at _ hi]
  exact mask_toInt (by decide) Int.ofNat_le

theorem i8x16_ge_s_sound (f) (h : vecSem .i8x16_ge_s = some f) (s : List Val) : Implements (evalVec .i8x16_ge_s) s (f s) := by
  injection h with h; subst h
  refine shapeBin .i8 .i8 _ _ (fun x y => fromI rfl rfl rfl fun i hi => ?_) s
  simp only [Popper.i8, intsS_at _ hi]
  exact mask_toInt (by decide) Iff.rfl

theorem i8x16_ge_u_sound (f) (h : vecSem .i8x16_ge_u = some f) (s : List Val) : Implements (evalVec .i8x16_ge_u) s (f s) := by
  injection h with h; subst h
  refine shapeBin .u8 .u8 _ _ (fun x y => fromI rfl rfl rfl fun i hi => ?_) s
  simp only [Popper.u8, intsU_at _ hi]
  exact mask_toInt (by decide) Int.ofNat_le

theorem i8x16_abs_sound (f) (h : vecSem .i8x16_abs = some f) (s : List Val) : Implements (evalVec .i8x16_abs) s (f s) := by
  injection h with h; subst h
  refine shapeUn .i8 _ _ (fun x => ?_) s
  simp only [Popper.i8, map_intsS]
  exact fromI rfl rfl rfl fun i hi => abs_w rfl (by decide) _

theorem i8x16_neg_sound (f) (h : vecSem .i8x16_neg = some f) (s : List Val) : Implements (evalVec .i8x16_neg) s (f s) := by
  injection h with h; subst h
  refine shapeUn .i8 _ _ (fun x => ?_) s
  simp only [Popper.i8, map_intsS]
  exact fromI rfl rfl rfl fun i hi => neg_w rfl (by decide) _

theorem i8x16_all_true_sound (f) (h : vecSem .i8x16_all_true = some f) (s : List Val) : Implements (evalVec .i8x16_all_true) s (f s) := by
  injection h with h; subst h
  refine shapeTest .i8 _ _ (fun x => ?_) s
  simp only [Popper.i8, all_true_w, ite_bool]
  exact fromI32_bool _

theorem i8x16_bitmask_sound (f) (h : vecSem .i8x16_bitmask = some f) (s : List Val) : Implements (evalVec .i8x16_bitmask) s (f s) := by
  injection h with h; subst h
  exact shapeMask .i8 _ _ _ (fun x => bitmask_w _ (by decide) _) s

theorem i8x16_shl_sound (f) (h : vecSem .i8x16_shl = some f) (s : List Val) : Implements (evalVec .i8x16_shl) s (f s) := by
  injection h with h; subst h
  refine shapeShift .i8 _ _ (fun x y => ?_) s
  simp only [Popper.i8, map_intsS]
  exact fromI rfl rfl rfl fun i hi => vshl_w rfl (by decide) 3 (by decide) rfl _ _

theorem i8x16_shr_s_sound (f) (h : vecSem .i8x16_shr_s = some f) (s : List Val) : Implements (evalVec .i8x16_shr_s) s (f s) := by
  injection h with h; subst h
  refine shapeShift .i8 _ _ (fun x y => ?_) s
  simp only [Popper.i8, map_intsS]
  exact fromI rfl rfl rfl fun i hi => vshr_s_w rfl (by decide) 3 (by decide) rfl _ _

theorem i8x16_shr_u_sound (f) (h : vecSem .i8x16_shr_u = some f) (s : List Val) : Implements (evalVec .i8x16_shr_u) s (f s) := by
  injection h with h; subst h
  refine shapeShift .u8 _ _ (fun x y => ?_) s
  simp only [Popper.u8, map_intsU]
  exact fromU rfl rfl rfl fun i hi => vshr_u_w rfl 3 (by decide) rfl _ _

theorem i8x16_add_sound (f) (h : vecSem .i8x16_add = some f) (s : List Val) : Implements (evalVec .i8x16_add) s (f s) := by
  injection h with h; subst h
  refine shapeBin .i8 .i8 _ _ (fun x y => fromI rfl rfl rfl fun i hi => ?_) s
  simp only [Popper.i8, intsS_at _ hi]
  exact Arith.I.add_w rfl (by decide) _ _

theorem i8x16_sub_sound (f) (h : vecSem .i8x16_sub = some f) (s : List Val) : Implements (evalVec .i8x16_sub) s (f s) := by
  injection h with h; subst h
  refine shapeBin .i8 .i8 _ _ (fun x y => fromI rfl rfl rfl fun i hi => ?_) s
  simp only [Popper.i8, intsS_at _ hi]
  exact Arith.I.sub_w rfl (by decide) _ _

theorem i8x16_add_sat_s_sound (f) (h : vecSem .i8x16_add_sat_s = some f) (s : List Val) : Implements (evalVec .i8x16_add_sat_s) s (f s) := by
  injection h with h; subst h
  refine shapeBin .i8 .i8 _ _ (fun x y => fromI rfl rfl rfl fun i hi => ?_) s
  simp only [Popper.i8, intsS_at _ hi]
  exact satS_w rfl (by decide) _

theorem i8x16_sub_sat_s_sound (f) (h : vecSem .i8x16_sub_sat_s = some f) (s : List Val) : Implements (evalVec .i8x16_sub_sat_s) s (f s) := by
  injection h with h; subst h
  refine shapeBin .i8 .i8 _ _ (fun x y => fromI rfl rfl rfl fun i hi => ?_) s
  simp only [Popper.i8, intsS_at _ hi]
  exact satS_w rfl (by decide) _

theorem i8x16_add_sat_u_sound (f) (h : vecSem .i8x16_add_sat_u = some f) (s : List Val) : Implements (evalVec .i8x16_add_sat_u) s (f s) := by
  injection h with h; subst h
  refine shapeBin .u8 .u8 _ _ (fun x y => fromU rfl rfl rfl fun i hi => ?_) s
  simp only [Popper.u8, intsU_at _ hi]
  exact satU_w rfl _

theorem i8x16_sub_sat_u_sound (f) (h : vecSem .i8x16_sub_sat_u = some f) (s : List Val) : Implements (evalVec .i8x16_sub_sat_u) s (f s) := by
  injection h with h; subst h
  refine shapeBin .u8 .u8 _ _ (fun x y => fromU rfl rfl rfl fun i hi => ?_) s
  simp only [Popper.u8, intsU_at _ hi]
  exact satU_w rfl _

theorem i8x16_avgr_u_sound (f) (h : vecSem .i8x16_avgr_u = some f) (s : List Val) : Implements (evalVec .i8x16_avgr_u) s (f s) := by
  injection h with h; subst h
  refine shapeBin .u8 .u8 _ _ (fun x y => fromU rfl rfl rfl fun i hi => ?_) s
  simp only [Popper.u8, intsU_at _ hi]
  exact avgr_w _ _

theorem i8x16_narrow_i16x8_s_sound (f) (h : vecSem .i8x16_narrow_i16x8_s = some f) (s : List Val) : Implements (evalVec .i8x16_narrow_i16x8_s) s (f s) := by
  injection h with h; subst h
  refine shapeBin .i16 .i16 _ _ (fun x y => ?_) s
  simp only [Popper.i16, narrow_list]
  exact fromI rfl rfl rfl fun i hi => satS_w rfl (by decide) _

theorem i8x16_narrow_i16x8_u_sound (f) (h : vecSem .i8x16_narrow_i16x8_u = some f) (s : List Val) : Implements (evalVec .i8x16_narrow_i16x8_u) s (f s) := by
  injection h with h; subst h
  refine shapeBin .i16 .i16 _ _ (fun x y => ?_) s
  simp only [Popper.i16, narrow_list]
  exact fromU rfl rfl rfl fun i hi => satU_w rfl _

theorem i8x16_min_s_sound (f) (h : vecSem .i8x16_min_s = some f) (s : List Val) : Implements (evalVec .i8x16_min_s) s (f s) := by
  injection h with h; subst h
  refine shapeBin .i8 .i8 _ _ (fun x y => fromI rfl rfl rfl fun i hi => ?_) s
  simp only [Popper.i8, intsS_at _ hi]
  exact min_toInt _ _

theorem i8x16_max_s_sound (f) (h : vecSem .i8x16_max_s = some f) (s : List Val) : Implements (evalVec .i8x16_max_s) s (f s) := by
  injection h with h; subst h
  refine shapeBin .i8 .i8 _ _ (fun x y => fromI rfl rfl rfl fun i hi => ?_) s
  simp only [Popper.i8, intsS_at _ hi]
  exact max_toInt _ _

theorem i8x16_min_u_sound (f) (h : vecSem .i8x16_min_u = some f) (s : List Val) : Implements (evalVec .i8x16_min_u) s (f s) := by
  injection h with h; subst h
  refine shapeBin .u8 .u8 _ _ (fun x y => fromU rfl rfl rfl fun i hi => ?_) s
  simp only [Popper.u8, intsU_at _ hi]
  exact min_toNat _ _

theorem i8x16_max_u_sound (f) (h : vecSem .i8x16_max_u = some f) (s : List Val) : Implements (evalVec .i8x16_max_u) s (f s) := by
  injection h with h; subst h
  refine shapeBin .u8 .u8 _ _ (fun x y => fromU rfl rfl rfl fun i hi => ?_) s
  simp only [Popper.u8, intsU_at _ hi]
  exact max_toNat _ _

theorem i8x16_popcnt_sound (f) (h : vecSem .i8x16_popcnt = some f) (s : List Val) : Implements (evalVec .i8x16_popcnt) s (f s) := by
  injection h with h; subst h
  refine shapeUn .u8 _ _ (fun x => ?_) s
  simp only [Popper.u8, map_intsU]
  exact fromU rfl rfl rfl fun i hi => (by
    rw [Arith.U.popcnt_w (w := 8) rfl, BitVec.toNat_ofNat, Nat.mod_eq_of_lt (lt_of_le_of_lt (Arith.popcnt_le _) (by decide))])

theorem i16x8_eq_sound (f) (h : vecSem .i16x8_eq = some f) (s : List Val) : Implements (evalVec .i16x8_eq) s (f s) := by
  injection h with h; subst h
  refine shapeBin .i16 .i16 _ _ (fun x y => fromI rfl rfl rfl fun i hi => ?_) s
  simp only [Popper.i16, intsS_at _ hi]
  exact mask_toInt (by decide) (toInt_eq_iff _ _)

theorem i16x8_ne_sound (f) (h : vecSem .i16x8_ne = some f) (s : List Val) : Implements (evalVec .i16x8_ne) s (f s) := by
  injection h with h; subst h
  refine shapeBin .i16 .i16 _ _ (fun x y => fromI rfl rfl rfl fun i hi => ?_) s
  simp only [Popper.i16, intsS_at _ hi]
  exact mask_toInt (by decide) (not_congr (toInt_eq_iff _ _))

theorem i16x8_lt_s_sound (f) (h : vecSem .i16x8_lt_s = some f) (s : List Val) : Implements (evalVec .i16x8_lt_s) s (f s) := by
  injection h with h; subst h
  refine shapeBin .i16 .i16 _ _ (fun x y => fromI rfl rfl rfl fun i hi => ?_) s
  simp only [Popper.i16, intsS_at _ hi]
  exact mask_toInt (by decide) Iff.rfl

theorem i16x8_lt_u_sound (f) (h : vecSem .i16x8_lt_u = some f) (s : List Val) : Implements (evalVec .i16x8_lt_u) s (f s) := by
  injection h with h; subst h
  refine shapeBin .u16 .u16 _ _ (fun x y => fromI rfl rfl rfl fun i hi => ?_) s
  simp only [Popper.u16, intsU_at _ hi]
  exact mask_toInt (by decide) Int.ofNat_lt

theorem i16x8_gt_s_sound (f) (h : vecSem .i16x8_gt_s = some f) (s : List Val) : Implements (evalVec .i16x8_gt_s) s (f s) := by
  injection h with h; subst h
  refine shapeBin .i16 .i16 _ _ (fun x y => fromI rfl rfl rfl fun i hi => ?_) s
  simp only [Popper.i16, intsS_at _ hi]
  exact mask_toInt (by decide) Iff.rfl

theorem i16x8_gt_u_sound (f) (h : vecSem .i16x8_gt_u = some f) (s : List Val) : Implements (evalVec .i16x8_gt_u) s (f s) := by
  injection h with h; subst h
  refine shapeBin .u16 .u16 _ _ (fun x y => fromI rfl rfl rfl fun i hi => ?_) s
  simp only [Popper.u16, intsU_at _ hi]
  exact mask_toInt (by decide) Int.ofNat_lt

theorem i16x8_le_s_sound (f) (h : vecSem .i16x8_le_s = some f) (s : List Val) : Implements (evalVec .i16x8_le_s) s (f s) := by
  injection h with h; subst h
  refine shapeBin .i16 .i16 _ _ (fun x y => fromI rfl rfl rfl fun i hi => ?_) s
  simp only [Popper.i16, intsS_at _ hi]
  exact mask_toInt (by decide) Iff.rfl

theorem i16x8_le_u_sound (f) (h : vecSem .i16x8_le_u = some f) (s : List Val) : Implements (evalVec .i16x8_le_u) s (f s) := by
  injection h with h; subst h
  refine shapeBin .u16 .u16 _ _ (fun x y => fromI rfl rfl rfl fun i hi => ?_) s
  simp only [Popper.u16, intsU_at _ hi]
  exact mask_toInt (by decide) Int.ofNat_le

theorem i16x8_ge_s_sound (f) (h : vecSem .i16x8_ge_s = some f) (s : List Val) : Implements (evalVec .i16x8_ge_s) s (f s) := by
  injection h with h; subst h
  refine shapeBin .i16 .i16 _ _ (fun x y => fromI rfl rfl rfl fun i hi => ?_) s
  simp only [Popper.i16, intsS_at _ hi]
  exact mask_toInt (by decide) Iff.rfl

theorem i16x8_ge_u_sound (f) (h : vecSem .i16x8_ge_u = some f) (s : List Val) : Implements (evalVec .i16x8_ge_u) s (f s) := by
  injection h with h; subst h
  refine shapeBin .u16 .u16 _ _ (fun x y => fromI rfl rfl rfl fun i hi => ?_) s
  simp only [Popper.u16, intsU_at _ hi]
  exact mask_toInt (by decide) Int.ofNat_le

theorem i16x8_abs_sound (f) (h : vecSem .i16x8_abs = some f) (s : List Val) : Implements (evalVec .i16x8_abs) s (f s) := by
  injection h with h; subst h
  refine shapeUn .i16 _ _ (fun x => ?_) s
  simp only [Popper.i16, map_intsS]
  exact fromI rfl rfl rfl fun i hi => abs_w rfl (by decide) _

theorem i16x8_neg_sound (f) (h : vecSem .i16x8_neg = some f) (s : List Val) : Implements (evalVec .i16x8_neg) s (f s) := by
  injection h with h; subst h
  refine shapeUn .i16 _ _ (fun x => ?_) s
  simp only [Popper.i16, map_intsS]
  exact fromI rfl rfl rfl fun i hi => neg_w rfl (by decide) _

theorem i16x8_all_true_sound (f) (h : vecSem .i16x8_all_true = some f) (s : List Val) : Implements (evalVec .i16x8_all_true) s (f s) := by
  injection h with h; subst h
  refine shapeTest .i16 _ _ (fun x => ?_) s
  simp only [Popper.i16, all_true_w, ite_bool]
  exact fromI32_bool _

theorem i16x8_bitmask_sound (f) (h : vecSem .i16x8_bitmask = some f) (s : List Val) : Implements (evalVec .i16x8_bitmask) s (f s) := by
  injection h with h; subst h
  exact shapeMask .i16 _ _ _ (fun x => bitmask_w _ (by decide) _) s

theorem i16x8_shl_sound (f) (h : vecSem .i16x8_shl = some f) (s : List Val) : Implements (evalVec .i16x8_shl) s (f s) := by
  injection h with h; subst h
  refine shapeShift .i16 _ _ (fun x y => ?_) s
  simp only [Popper.i16, map_intsS]
  exact fromI rfl rfl rfl fun i hi => vshl_w rfl (by decide) 4 (by decide) rfl _ _

theorem i16x8_shr_s_sound (f) (h : vecSem .i16x8_shr_s = some f) (s : List Val) : Implements (evalVec .i16x8_shr_s) s (f s) := by
  injection h with h; subst h
  refine shapeShift .i16 _ _ (fun x y => ?_) s
  simp only [Popper.i16, map_intsS]
  exact fromI rfl rfl rfl fun i hi => vshr_s_w rfl (by decide) 4 (by decide) rfl _ _

theorem i16x8_shr_u_sound (f) (h : vecSem .i16x8_shr_u = some f) (s : List Val) : Implements (evalVec .i16x8_shr_u) s (f s) := by
  injection h with h; subst h
  refine shapeShift .u16 _ _ (fun x y => ?_) s
  simp only [Popper.u16, map_intsU]
  exact fromU rfl rfl rfl fun i hi => vshr_u_w rfl 4 (by decide) rfl _ _

theorem i16x8_add_sound (f) (h : vecSem .i16x8_add = some f) (s : List Val) : Implements (evalVec .i16x8_add) s (f s) := by
  injection h with h; subst h
  refine shapeBin .i16 .i16 _ _ (fun x y => fromI rfl rfl rfl fun i hi => ?_) s
  simp only [Popper.i16, intsS_at _ hi]
  exact Arith.I.add_w rfl (by decide) _ _

theorem i16x8_sub_sound (f) (h : vecSem .i16x8_sub = some f) (s : List Val) : Implements (evalVec .i16x8_sub) s (f s) := by
  injection h with h; subst h
  refine shapeBin .i16 .i16 _ _ (fun x y => fromI rfl rfl rfl fun i hi => ?_) s
  simp only [Popper.i16, intsS_at _ hi]
  exact Arith.I.sub_w rfl (by decide) _ _

theorem i16x8_mul_sound (f) (h : vecSem .i16x8_mul = some f) (s : List Val) : Implements (evalVec .i16x8_mul) s (f s) := by
  injection h with h; subst h
  refine shapeBin .i16 .i16 _ _ (fun x y => fromI rfl rfl rfl fun i hi => ?_) s
  simp only [Popper.i16, intsS_at _ hi]
  exact Arith.I.mul_w rfl (by decide) _ _

theorem i16x8_add_sat_s_sound (f) (h : vecSem .i16x8_add_sat_s = some f) (s : List Val) : Implements (evalVec .i16x8_add_sat_s) s (f s) := by
  injection h with h; subst h
  refine shapeBin .i16 .i16 _ _ (fun x y => fromI rfl rfl rfl fun i hi => ?_) s
  simp only [Popper.i16, intsS_at _ hi]
  exact satS_w rfl (by decide) _

theorem i16x8_sub_sat_s_sound (f) (h : vecSem .i16x8_sub_sat_s = some f) (s : List Val) : Implements (evalVec .i16x8_sub_sat_s) s (f s) := by
  injection h with h; subst h
  refine shapeBin .i16 .i16 _ _ (fun x y => fromI rfl rfl rfl fun i hi => ?_) s
  simp only [Popper.i16, intsS_at _ hi]
  exact satS_w rfl (by decide) _

theorem i16x8_add_sat_u_sound (f) (h : vecSem .i16x8_add_sat_u = some f) (s : List Val) : Implements (evalVec .i16x8_add_sat_u) s (f s) := by
  injection h with h; subst h
  refine shapeBin .u16 .u16 _ _ (fun x y => fromU rfl rfl rfl fun i hi => ?_) s
  simp only [Popper.u16, intsU_at _ hi]
  exact satU_w rfl _

theorem i16x8_sub_sat_u_sound (f) (h : vecSem .i16x8_sub_sat_u = some f) (s : List Val) : Implements (evalVec .i16x8_sub_sat_u) s (f s) := by
  injection h with h; subst h
  refine shapeBin .u16 .u16 _ _ (fun x y => fromU rfl rfl rfl fun i hi => ?_) s
  simp only [Popper.u16, intsU_at _ hi]
  exact satU_w rfl _

theorem i16x8_avgr_u_sound (f) (h : vecSem .i16x8_avgr_u = some f) (s : List Val) : Implements (evalVec .i16x8_avgr_u) s (f s) := by
  injection h with h; subst h
  refine shapeBin .u16 .u16 _ _ (fun x y => fromU rfl rfl rfl fun i hi => ?_) s
  simp only [Popper.u16, intsU_at _ hi]
  exact avgr_w _ _

theorem i16x8_narrow_i32x4_s_sound (f) (h : vecSem .i16x8_narrow_i32x4_s = some f) (s : List Val) : Implements (evalVec .i16x8_narrow_i32x4_s) s (f s) := by
  injection h with h; subst h
  refine shapeBin .i32 .i32 _ _ (fun x y => ?_) s
  simp only [Popper.i32, narrow_list]
  exact fromI rfl rfl rfl fun i hi => satS_w rfl (by decide) _

theorem i16x8_narrow_i32x4_u_sound (f) (h : vecSem .i16x8_narrow_i32x4_u = some f) (s : List Val) : Implements (evalVec .i16x8_narrow_i32x4_u) s (f s) := by
  injection h with h; subst h
  refine shapeBin .i32 .i32 _ _ (fun x y => ?_) s
  simp only [Popper.i32, narrow_list]
  exact fromU rfl rfl rfl fun i hi => satU_w rfl _

theorem i16x8_min_s_sound (f) (h : vecSem .i16x8_min_s = some f) (s : List Val) : Implements (evalVec .i16x8_min_s) s (f s) := by
  injection h with h; subst h
  refine shapeBin .i16 .i16 _ _ (fun x y => fromI rfl rfl rfl fun i hi => ?_) s
  simp only [Popper.i16, intsS_at _ hi]
  exact min_toInt _ _

theorem i16x8_max_s_sound (f) (h : vecSem .i16x8_max_s = some f) (s : List Val) : Implements (evalVec .i16x8_max_s) s (f s) := by
  injection h with h; subst h
  refine shapeBin .i16 .i16 _ _ (fun x y => fromI rfl rfl rfl fun i hi => ?_) s
  simp only [Popper.i16, intsS_at _ hi]
  exact max_toInt _ _

theorem i16x8_min_u_sound (f) (h : vecSem .i16x8_min_u = some f) (s : List Val) : Implements (evalVec .i16x8_min_u) s (f s) := by
  injection h with h; subst h
  refine shapeBin .u16 .u16 _ _ (fun x y => fromU rfl rfl rfl fun i hi => ?_) s
  simp only [Popper.u16, intsU_at _ hi]
  exact min_toNat _ _

theorem i16x8_max_u_sound (f) (h : vecSem .i16x8_max_u = some f) (s : List Val) : Implements (evalVec .i16x8_max_u) s (f s) := by
  injection h with h; subst h
  refine shapeBin .u16 .u16 _ _ (fun x y => fromU rfl rfl rfl fun i hi => ?_) s
  simp only [Popper.u16, intsU_at _ hi]
  exact max_toNat _ _

theorem i16x8_extadd_pairwise_i8x16_s_sound (f) (h : vecSem .i16x8_extadd_pairwise_i8x16_s = some f) (s : List Val) : Implements (evalVec .i16x8_extadd_pairwise_i8x16_s) s (f s) := by
  injection h with h; subst h
  refine shapeUn .i8 _ _ (fun x => ?_) s
  simp only [Popper.i8, range'_eq_map, Nat.zero_add]
  refine fromI rfl rfl rfl fun i hi => ?_
  rw [intsS_at _ (by omega), intsS_at _ (by omega)]
  exact extadd_s (by decide) (by decide) _ _

theorem i16x8_extadd_pairwise_i8x16_u_sound (f) (h : vecSem .i16x8_extadd_pairwise_i8x16_u = some f) (s : List Val) : Implements (evalVec .i16x8_extadd_pairwise_i8x16_u) s (f s) := by
  injection h with h; subst h
  refine shapeUn .u8 _ _ (fun x => ?_) s
  simp only [Popper.u8, range'_eq_map, Nat.zero_add]
  refine fromU rfl rfl rfl fun i hi => ?_
  rw [intsU_at _ (by omega), intsU_at _ (by omega)]
  exact extadd_u (by decide) _ _

theorem i16x8_extend_low_i8x16_s_sound (f) (h : vecSem .i16x8_extend_low_i8x16_s = some f) (s : List Val) : Implements (evalVec .i16x8_extend_low_i8x16_s) s (f s) := by
  injection h with h; subst h
  refine shapeUn .i8 _ _ (fun x => ?_) s
  simp only [Popper.i8, intsS]
  rw [take_range_map (by decide)]
  exact fromI rfl rfl rfl fun i hi => (signExtend_toInt (by decide) _).symm

theorem i16x8_extend_high_i8x16_s_sound (f) (h : vecSem .i16x8_extend_high_i8x16_s = some f) (s : List Val) : Implements (evalVec .i16x8_extend_high_i8x16_s) s (f s) := by
  injection h with h; subst h
  refine shapeUn .i8 _ _ (fun x => ?_) s
  simp only [Popper.i8, intsS]
  rw [drop_range_map (n := 8) (m := 8)]
  exact fromI rfl rfl rfl fun i hi => (signExtend_toInt (by decide) _).symm

theorem i16x8_extmul_low_i8x16_s_sound (f) (h : vecSem .i16x8_extmul_low_i8x16_s = some f) (s : List Val) : Implements (evalVec .i16x8_extmul_low_i8x16_s) s (f s) := by
  injection h with h; subst h
  refine shapeBin .i8 .i8 _ _ (fun x y => fromI rfl rfl rfl fun i hi => ?_) s
  simp only [Popper.i8]
  rw [intsS_at _ (by omega), intsS_at _ (by omega)]
  exact extmul_s rfl (by decide) _ _

theorem i16x8_extmul_high_i8x16_s_sound (f) (h : vecSem .i16x8_extmul_high_i8x16_s = some f) (s : List Val) : Implements (evalVec .i16x8_extmul_high_i8x16_s) s (f s) := by
  injection h with h; subst h
  refine shapeBin .i8 .i8 _ _ (fun x y => ?_) s
  simp only [Popper.i8, range'_eq_map, Nat.one_mul, Nat.add_comm 8]
  refine fromI rfl rfl rfl fun i hi => ?_
  rw [intsS_at _ (by omega), intsS_at _ (by omega)]
  exact extmul_s rfl (by decide) _ _

theorem i16x8_extend_low_i8x16_u_sound (f) (h : vecSem .i16x8_extend_low_i8x16_u = some f) (s : List Val) : Implements (evalVec .i16x8_extend_low_i8x16_u) s (f s) := by
  injection h with h; subst h
  refine shapeUn .u8 _ _ (fun x => ?_) s
  simp only [Popper.u8, intsU]
  rw [take_range_map (by decide)]
  exact fromI rfl rfl rfl fun i hi => setWidth_toInt (by decide) _

theorem i16x8_extend_high_i8x16_u_sound (f) (h : vecSem .i16x8_extend_high_i8x16_u = some f) (s : List Val) : Implements (evalVec .i16x8_extend_high_i8x16_u) s (f s) := by
  injection h with h; subst h
  refine shapeUn .u8 _ _ (fun x => ?_) s
  simp only [Popper.u8, intsU]
  rw [drop_range_map (n := 8) (m := 8)]
  exact fromI rfl rfl rfl fun i hi => setWidth_toInt (by decide) _

theorem i16x8_extmul_low_i8x16_u_sound (f) (h : vecSem .i16x8_extmul_low_i8x16_u = some f) (s : List Val) : Implements (evalVec .i16x8_extmul_low_i8x16_u) s (f s) := by
  injection h with h; subst h
  refine shapeBin .u8 .u8 _ _ (fun x y => fromU rfl rfl rfl fun i hi => ?_) s
  simp only [Popper.u8]
  rw [intsU_at _ (by omega), intsU_at _ (by omega)]
  exact extmul_u rfl _ _

theorem i16x8_extmul_high_i8x16_u_sound (f) (h : vecSem .i16x8_extmul_high_i8x16_u = some f) (s : List Val) : Implements (evalVec .i16x8_extmul_high_i8x16_u) s (f s) := by
  injection h with h; subst h
  refine shapeBin .u8 .u8 _ _ (fun x y => ?_) s
  simp only [Popper.u8, range'_eq_map, Nat.one_mul, Nat.add_comm 8]
  refine fromU rfl rfl rfl fun i hi => ?_
  rw [intsU_at _ (by omega), intsU_at _ (by omega)]
  exact extmul_u rfl _ _

theorem i16x8_q15mulr_sat_s_sound (f) (h : vecSem .i16x8_q15mulr_sat_s = some f) (s : List Val) : Implements (evalVec .i16x8_q15mulr_sat_s) s (f s) := by
  injection h with h; subst h
  refine shapeBin .i16 .i16 _ _ (fun x y => fromI rfl rfl rfl fun i hi => ?_) s
  simp only [Popper.i16, intsS_at _ hi]
  exact (by rw [satS_w rfl (by decide), Py.shr_eq]; rfl)

theorem i32x4_eq_sound (f) (h : vecSem .i32x4_eq = some f) (s : List Val) : Implements (evalVec .i32x4_eq) s (f s) := by
  injection h with h; subst h
  refine shapeBin .i32 .i32 _ _ (fun x y => fromI rfl rfl rfl fun i hi => ?_) s
  simp only [Popper.i32, intsS_at _ hi]
  exact mask_toInt (by decide) (toInt_eq_iff _ _)

theorem i32x4_ne_sound (f) (h : vecSem .i32x4_ne = some f) (s : List Val) : Implements (evalVec .i32x4_ne) s (f s) := by
  injection h with h; subst h
  refine shapeBin .i32 .i32 _ _ (fun x y => fromI rfl rfl rfl fun i hi => ?_) s
  simp only [Popper.i32, intsS_at _ hi]
  exact mask_toInt (by decide) (not_congr (toInt_eq_iff _ _))

theorem i32x4_lt_s_sound (f) (h : vecSem .i32x4_lt_s = some f) (s : List Val) : Implements (evalVec .i32x4_lt_s) s (f s) := by
  injection h with h; subst h
  refine shapeBin .i32 .i32 _ _ (fun x y => fromI rfl rfl rfl fun i hi => ?_) s
  simp only [Popper.i32, intsS_at _ hi]
  exact mask_toInt (by decide) Iff.rfl

theorem i32x4_lt_u_sound (f) (h : vecSem .i32x4_lt_u = some f) (s : List Val) : Implements (evalVec .i32x4_lt_u) s (f s) := by
  injection h with h; subst h
  refine shapeBin .u32 .u32 _ _ (fun x y => fromI rfl rfl rfl fun i hi => ?_) s
  simp only [Popper.u32, intsU_at _ hi]
  exact mask_toInt (by decide) Int.ofNat_lt

theorem i32x4_gt_s_sound (f) (h : vecSem .i32x4_gt_s = some f) (s : List Val) : Implements (evalVec .i32x4_gt_s) s (f s) := by
  injection h with h; subst h
  refine shapeBin .i32 .i32 _ _ (fun x y => fromI rfl rfl rfl fun i hi => ?_) s
  simp only [Popper.i32, intsS_at _ hi]
  exact mask_toInt (by decide) Iff.rfl

theorem i32x4_gt_u_sound (f) (h : vecSem .i32x4_gt_u = some f) (s : List Val) : Implements (evalVec .i32x4_gt_u) s (f s) := by
  injection h with h; subst h
  refine shapeBin .u32 .u32 _ _ (fun x y => fromI rfl rfl rfl fun i hi => ?_) s
  simp only [Popper.u32, intsU_at _ hi]
  exact mask_toInt (by decide) Int.ofNat_lt

theorem i32x4_le_s_sound (f) (h : vecSem .i32x4_le_s = some f) (s : List Val) : Implements (evalVec .i32x4_le_s) s (f s) := by
  injection h with h; subst h
  refine shapeBin .i32 .i32 _ _ (fun x y => fromI rfl rfl rfl fun i hi => ?_) s
  simp only [Popper.i32, intsS_at _ hi]
  exact mask_toInt (by decide) Iff.rfl

theorem i32x4_le_u_sound (f) (h : vecSem .i32x4_le_u = some f) (s : List Val) : Implements (evalVec .i32x4_le_u) s (f s) := by
  injection h with h; subst h
  refine shapeBin .u32 .u32 _ _ (fun x y => fromI rfl rfl rfl fun i hi => ?_) s
  simp only [Popper.u32, intsU_at _ hi]
  exact mask_toInt (by decide) Int.ofNat_le

theorem i32x4_ge_s_sound (f) (h : vecSem .i32x4_ge_s = some f) (s : List Val) : Implements (evalVec .i32x4_ge_s) s (f s) := by
  injection h with h; subst h
  refine shapeBin .i32 .i32 _ _ (fun x y => fromI rfl rfl rfl fun i hi => ?_) s
  simp only [Popper.i32, intsS_at _ hi]
  exact mask_toInt (by decide) Iff.rfl

theorem i32x4_ge_u_sound (f) (h : vecSem .i32x4_ge_u = some f) (s : List Val) : Implements (evalVec .i32x4_ge_u) s (f s) := by
  injection h with h; subst h
  refine shapeBin .u32 .u32 _ _ (fun x y => fromI rfl rfl rfl fun i hi => ?_) s
  simp only [Popper.u32, intsU_at _ hi]
  exact mask_toInt (by decide) Int.ofNat_le

theorem i32x4_abs_sound (f) (h : vecSem .i32x4_abs = some f) (s : List Val) : Implements (evalVec .i32x4_abs) s (f s) := by
  injection h with h; subst h
  refine shapeUn .i32 _ _ (fun x => ?_) s
  simp only [Popper.i32, map_intsS]
  exact fromI rfl rfl rfl fun i hi => abs_w rfl (by decide) _

theorem i32x4_neg_sound (f) (h : vecSem .i32x4_neg = some f) (s : List Val) : Implements (evalVec .i32x4_neg) s (f s) := by
  injection h with h; subst h
  refine shapeUn .i32 _ _ (fun x => ?_) s
  simp only [Popper.i32, map_intsS]
  exact fromI rfl rfl rfl fun i hi => neg_w rfl (by decide) _

theorem i32x4_all_true_sound (f) (h : vecSem .i32x4_all_true = some f) (s : List Val) : Implements (evalVec .i32x4_all_true) s (f s) := by
  injection h with h; subst h
  refine shapeTest .i32 _ _ (fun x => ?_) s
  simp only [Popper.i32, all_true_w, ite_bool]
  exact fromI32_bool _

theorem i32x4_bitmask_sound (f) (h : vecSem .i32x4_bitmask = some f) (s : List Val) : Implements (evalVec .i32x4_bitmask) s (f s) := by
  injection h with h; subst h
  exact shapeMask .i32 _ _ _ (fun x => bitmask_w _ (by decide) _) s

theorem i32x4_shl_sound (f) (h : vecSem .i32x4_shl = some f) (s : List Val) : Implements (evalVec .i32x4_shl) s (f s) := by
  injection h with h; subst h
  refine shapeShift .i32 _ _ (fun x y => ?_) s
  simp only [Popper.i32, map_intsS]
  exact fromI rfl rfl rfl fun i hi => vshl_w rfl (by decide) 5 (by decide) rfl _ _

theorem i32x4_shr_s_sound (f) (h : vecSem .i32x4_shr_s = some f) (s : List Val) : Implements (evalVec .i32x4_shr_s) s (f s) := by
  injection h with h; subst h
  refine shapeShift .i32 _ _ (fun x y => ?_) s
  simp only [Popper.i32, map_intsS]
  exact fromI rfl rfl rfl fun i hi => vshr_s_w rfl (by decide) 5 (by decide) rfl _ _

theorem i32x4_shr_u_sound (f) (h : vecSem .i32x4_shr_u = some f) (s : List Val) : Implements (evalVec .i32x4_shr_u) s (f s) := by
  injection h with h; subst h
  refine shapeShift .u32 _ _ (fun x y => ?_) s
  simp only [Popper.u32, map_intsU]
  exact fromU rfl rfl rfl fun i hi => vshr_u_w rfl 5 (by decide) rfl _ _

theorem i32x4_add_sound (f) (h : vecSem .i32x4_add = some f) (s : List Val) : Implements (evalVec .i32x4_add) s (f s) := by
  injection h with h; subst h
  refine shapeBin .i32 .i32 _ _ (fun x y => fromI rfl rfl rfl fun i hi => ?_) s
  simp only [Popper.i32, intsS_at _ hi]
  exact Arith.I.add_w rfl (by decide) _ _

theorem i32x4_sub_sound (f) (h : vecSem .i32x4_sub = some f) (s : List Val) : Implements (evalVec .i32x4_sub) s (f s) := by
  injection h with h; subst h
  refine shapeBin .i32 .i32 _ _ (fun x y => fromI rfl rfl rfl fun i hi => ?_) s
  simp only [Popper.i32, intsS_at _ hi]
  exact Arith.I.sub_w rfl (by decide) _ _

theorem i32x4_mul_sound (f) (h : vecSem .i32x4_mul = some f) (s : List Val) : Implements (evalVec .i32x4_mul) s (f s) := by
  injection h with h; subst h
  refine shapeBin .i32 .i32 _ _ (fun x y => fromI rfl rfl rfl fun i hi => ?_) s
  simp only [Popper.i32, intsS_at _ hi]
  exact Arith.I.mul_w rfl (by decide) _ _

theorem i32x4_min_s_sound (f) (h : vecSem .i32x4_min_s = some f) (s : List Val) : Implements (evalVec .i32x4_min_s) s (f s) := by
  injection h with h; subst h
  refine shapeBin .i32 .i32 _ _ (fun x y => fromI rfl rfl rfl fun i hi => ?_) s
  simp only [Popper.i32, intsS_at _ hi]
  exact min_toInt _ _

theorem i32x4_max_s_sound (f) (h : vecSem .i32x4_max_s = some f) (s : List Val) : Implements (evalVec .i32x4_max_s) s (f s) := by
  injection h with h; subst h
  refine shapeBin .i32 .i32 _ _ (fun x y => fromI rfl rfl rfl fun i hi => ?_) s
  simp only [Popper.i32, intsS_at _ hi]
  exact max_toInt _ _

theorem i32x4_min_u_sound (f) (h : vecSem .i32x4_min_u = some f) (s : List Val) : Implements (evalVec .i32x4_min_u) s (f s) := by
  injection h with h; subst h
  refine shapeBin .u32 .u32 _ _ (fun x y => fromU rfl rfl rfl fun i hi => ?_) s
  simp only [Popper.u32, intsU_at _ hi]
  exact min_toNat _ _

theorem i32x4_max_u_sound (f) (h : vecSem .i32x4_max_u = some f) (s : List Val) : Implements (evalVec .i32x4_max_u) s (f s) := by
  injection h with h; subst h
  refine shapeBin .u32 .u32 _ _ (fun x y => fromU rfl rfl rfl fun i hi => ?_) s
  simp only [Popper.u32, intsU_at _ hi]
  exact max_toNat _ _

theorem i32x4_extadd_pairwise_i16x8_s_sound (f) (h : vecSem .i32x4_extadd_pairwise_i16x8_s = some f) (s : List Val) : Implements (evalVec .i32x4_extadd_pairwise_i16x8_s) s (f s) := by
  injection h with h; subst h
  refine shapeUn .i16 _ _ (fun x => ?_) s
  simp only [Popper.i16, range'_eq_map, Nat.zero_add]
  refine fromI rfl rfl rfl fun i hi => ?_
  rw [intsS_at _ (by omega), intsS_at _ (by omega)]
  exact extadd_s (by decide) (by decide) _ _

theorem i32x4_extadd_pairwise_i16x8_u_sound (f) (h : vecSem .i32x4_extadd_pairwise_i16x8_u = some f) (s : List Val) : Implements (evalVec .i32x4_extadd_pairwise_i16x8_u) s (f s) := by
  injection h with h; subst h
  refine shapeUn .u16 _ _ (fun x => ?_) s
  simp only [Popper.u16, range'_eq_map, Nat.zero_add]
  refine fromU rfl rfl rfl fun i hi => ?_
  rw [intsU_at _ (by omega), intsU_at _ (by omega)]
  exact extadd_u (by decide) _ _

theorem i32x4_extend_low_i16x8_s_sound (f) (h : vecSem .i32x4_extend_low_i16x8_s = some f) (s : List Val) : Implements (evalVec .i32x4_extend_low_i16x8_s) s (f s) := by
  injection h with h; subst h
  refine shapeUn .i16 _ _ (fun x => ?_) s
  simp only [Popper.i16, intsS]
  rw [take_range_map (by decide)]
  exact fromI rfl rfl rfl fun i hi => (signExtend_toInt (by decide) _).symm

theorem i32x4_extend_high_i16x8_s_sound (f) (h : vecSem .i32x4_extend_high_i16x8_s = some f) (s : List Val) : Implements (evalVec .i32x4_extend_high_i16x8_s) s (f s) := by
  injection h with h; subst h
  refine shapeUn .i16 _ _ (fun x => ?_) s
  simp only [Popper.i16, intsS]
  rw [drop_range_map (n := 4) (m := 4)]
  exact fromI rfl rfl rfl fun i hi => (signExtend_toInt (by decide) _).symm

theorem i32x4_extmul_low_i16x8_s_sound (f) (h : vecSem .i32x4_extmul_low_i16x8_s = some f) (s : List Val) : Implements (evalVec .i32x4_extmul_low_i16x8_s) s (f s) := by
  injection h with h; subst h
  refine shapeBin .i16 .i16 _ _ (fun x y => fromI rfl rfl rfl fun i hi => ?_) s
  simp only [Popper.i16]
  rw [intsS_at _ (by omega), intsS_at _ (by omega)]
  exact extmul_s rfl (by decide) _ _

theorem i32x4_extmul_high_i16x8_s_sound (f) (h : vecSem .i32x4_extmul_high_i16x8_s = some f) (s : List Val) : Implements (evalVec .i32x4_extmul_high_i16x8_s) s (f s) := by
  injection h with h; subst h
  refine shapeBin .i16 .i16 _ _ (fun x y => ?_) s
  simp only [Popper.i16, range'_eq_map, Nat.one_mul, Nat.add_comm 4]
  refine fromI rfl rfl rfl fun i hi => ?_
  rw [intsS_at _ (by omega), intsS_at _ (by omega)]
  exact extmul_s rfl (by decide) _ _

theorem i32x4_extend_low_i16x8_u_sound (f) (h : vecSem .i32x4_extend_low_i16x8_u = some f) (s : List Val) : Implements (evalVec .i32x4_extend_low_i16x8_u) s (f s) := by
  injection h with h; subst h
  refine shapeUn .u16 _ _ (fun x => ?_) s
  simp only [Popper.u16, intsU]
  rw [take_range_map (by decide)]
  exact fromI rfl rfl rfl fun i hi => setWidth_toInt (by decide) _

theorem i32x4_extend_high_i16x8_u_sound (f) (h : vecSem .i32x4_extend_high_i16x8_u = some f) (s : List Val) : Implements (evalVec .i32x4_extend_high_i16x8_u) s (f s) := by
  injection h with h; subst h
  refine shapeUn .u16 _ _ (fun x => ?_) s
  simp only [Popper.u16, intsU]
  rw [drop_range_map (n := 4) (m := 4)]
  exact fromI rfl rfl rfl fun i hi => setWidth_toInt (by decide) _

theorem i32x4_extmul_low_i16x8_u_sound (f) (h : vecSem .i32x4_extmul_low_i16x8_u = some f) (s : List Val) : Implements (evalVec .i32x4_extmul_low_i16x8_u) s (f s) := by
  injection h with h; subst h
  refine shapeBin .u16 .u16 _ _ (fun x y => fromU rfl rfl rfl fun i hi => ?_) s
  simp only [Popper.u16]
  rw [intsU_at _ (by omega), intsU_at _ (by omega)]
  exact extmul_u rfl _ _

theorem i32x4_extmul_high_i16x8_u_sound (f) (h : vecSem .i32x4_extmul_high_i16x8_u = some f) (s : List Val) : Implements (evalVec .i32x4_extmul_high_i16x8_u) s (f s) := by
  injection h with h; subst h
  refine shapeBin .u16 .u16 _ _ (fun x y => ?_) s
  simp only [Popper.u16, range'_eq_map, Nat.one_mul, Nat.add_comm 4]
  refine fromU rfl rfl rfl fun i hi => ?_
  rw [intsU_at _ (by omega), intsU_at _ (by omega)]
  exact extmul_u rfl _ _

theorem i64x2_eq_sound (f) (h : vecSem .i64x2_eq = some f) (s : List Val) : Implements (evalVec .i64x2_eq) s (f s) := by
  injection h with h; subst h
  refine shapeBin .i64 .i64 _ _ (fun x y => fromI rfl rfl rfl fun i hi => ?_) s
  simp only [Popper.i64, intsS_at _ hi]
  exact mask_toInt (by decide) (toInt_eq_iff _ _)

theorem i64x2_ne_sound (f) (h : vecSem .i64x2_ne = some f) (s : List Val) : Implements (evalVec .i64x2_ne) s (f s) := by
  injection h with h; subst h
  refine shapeBin .i64 .i64 _ _ (fun x y => fromI rfl rfl rfl fun i hi => ?_) s
  simp only [Popper.i64, intsS_at _ hi]
  exact mask_toInt (by decide) (not_congr (toInt_eq_iff _ _))

theorem i64x2_lt_s_sound (f) (h : vecSem .i64x2_lt_s = some f) (s : List Val) : Implements (evalVec .i64x2_lt_s) s (f s) := by
  injection h with h; subst h
  refine shapeBin .i64 .i64 _ _ (fun x y => fromI rfl rfl rfl fun i hi => ?_) s
  simp only [Popper.i64, intsS_at _ hi]
  exact mask_toInt (by decide) Iff.rfl

theorem i64x2_gt_s_sound (f) (h : vecSem .i64x2_gt_s = some f) (s : List Val) : Implements (evalVec .i64x2_gt_s) s (f s) := by
  injection h with h; subst h
  refine shapeBin .i64 .i64 _ _ (fun x y => fromI rfl rfl rfl fun i hi => ?_) s
  simp only [Popper.i64, intsS_at _ hi]
  exact mask_toInt (by decide) Iff.rfl

theorem i64x2_le_s_sound (f) (h : vecSem .i64x2_le_s = some f) (s : List Val) : Implements (evalVec .i64x2_le_s) s (f s) := by
  injection h with h; subst h
  refine shapeBin .i64 .i64 _ _ (fun x y => fromI rfl rfl rfl fun i hi => ?_) s
  simp only [Popper.i64, intsS_at _ hi]
  exact mask_toInt (by decide) Iff.rfl

theorem i64x2_ge_s_sound (f) (h : vecSem .i64x2_ge_s = some f) (s : List Val) : Implements (evalVec .i64x2_ge_s) s (f s) := by
  injection h with h; subst h
  refine shapeBin .i64 .i64 _ _ (fun x y => fromI rfl rfl rfl fun i hi => ?_) s
  simp only [Popper.i64, intsS_at _ hi]
  exact mask_toInt (by decide) Iff.rfl

theorem i64x2_abs_sound (f) (h : vecSem .i64x2_abs = some f) (s : List Val) : Implements (evalVec .i64x2_abs) s (f s) := by
  injection h with h; subst h
  refine shapeUn .i64 _ _ (fun x => ?_) s
  simp only [Popper.i64, map_intsS]
  exact fromI rfl rfl rfl fun i hi => abs_w rfl (by decide) _

theorem i64x2_neg_sound (f) (h : vecSem .i64x2_neg = some f) (s : List Val) : Implements (evalVec .i64x2_neg) s (f s) := by
  injection h with h; subst h
  refine shapeUn .i64 _ _ (fun x => ?_) s
  simp only [Popper.i64, map_intsS]
  exact fromI rfl rfl rfl fun i hi => neg_w rfl (by decide) _

theorem i64x2_all_true_sound (f) (h : vecSem .i64x2_all_true = some f) (s : List Val) : Implements (evalVec .i64x2_all_true) s (f s) := by
  injection h with h; subst h
  refine shapeTest .i64 _ _ (fun x => ?_) s
  simp only [Popper.i64, all_true_w, ite_bool]
  exact fromI32_bool _

theorem i64x2_bitmask_sound (f) (h : vecSem .i64x2_bitmask = some f) (s : List Val) : Implements (evalVec .i64x2_bitmask) s (f s) := by
  injection h with h; subst h
  exact shapeMask .i64 _ _ _ (fun x => bitmask_w _ (by decide) _) s

theorem i64x2_shl_sound (f) (h : vecSem .i64x2_shl = some f) (s : List Val) : Implements (evalVec .i64x2_shl) s (f s) := by
  injection h with h; subst h
  refine shapeShift .i64 _ _ (fun x y => ?_) s
  simp only [Popper.i64, map_intsS]
  exact fromI rfl rfl rfl fun i hi => vshl_w rfl (by decide) 6 (by decide) rfl _ _

theorem i64x2_shr_s_sound (f) (h : vecSem .i64x2_shr_s = some f) (s : List Val) : Implements (evalVec .i64x2_shr_s) s (f s) := by
  injection h with h; subst h
  refine shapeShift .i64 _ _ (fun x y => ?_) s
  simp only [Popper.i64, map_intsS]
  exact fromI rfl rfl rfl fun i hi => vshr_s_w rfl (by decide) 6 (by decide) rfl _ _

theorem i64x2_shr_u_sound (f) (h : vecSem .i64x2_shr_u = some f) (s : List Val) : Implements (evalVec .i64x2_shr_u) s (f s) := by
  injection h with h; subst h
  refine shapeShift .u64 _ _ (fun x y => ?_) s
  simp only [Popper.u64, map_intsU]
  exact fromU rfl rfl rfl fun i hi => vshr_u_w rfl 6 (by decide) rfl _ _

theorem i64x2_add_sound (f) (h : vecSem .i64x2_add = some f) (s : List Val) : Implements (evalVec .i64x2_add) s (f s) := by
  injection h with h; subst h
  refine shapeBin .i64 .i64 _ _ (fun x y => fromI rfl rfl rfl fun i hi => ?_) s
  simp only [Popper.i64, intsS_at _ hi]
  exact Arith.I.add_w rfl (by decide) _ _

theorem i64x2_sub_sound (f) (h : vecSem .i64x2_sub = some f) (s : List Val) : Implements (evalVec .i64x2_sub) s (f s) := by
  injection h with h; subst h
  refine shapeBin .i64 .i64 _ _ (fun x y => fromI rfl rfl rfl fun i hi => ?_) s
  simp only [Popper.i64, intsS_at _ hi]
  exact Arith.I.sub_w rfl (by decide) _ _

theorem i64x2_mul_sound (f) (h : vecSem .i64x2_mul = some f) (s : List Val) : Implements (evalVec .i64x2_mul) s (f s) := by
  injection h with h; subst h
  refine shapeBin .i64 .i64 _ _ (fun x y => fromI rfl rfl rfl fun i hi => ?_) s
  simp only [Popper.i64, intsS_at _ hi]
  exact Arith.I.mul_w rfl (by decide) _ _

theorem i64x2_extend_low_i32x4_s_sound (f) (h : vecSem .i64x2_extend_low_i32x4_s = some f) (s : List Val) : Implements (evalVec .i64x2_extend_low_i32x4_s) s (f s) := by
  injection h with h; subst h
  refine shapeUn .i32 _ _ (fun x => ?_) s
  simp only [Popper.i32, intsS]
  rw [take_range_map (by decide)]
  exact fromI rfl rfl rfl fun i hi => (signExtend_toInt (by decide) _).symm

theorem i64x2_extend_high_i32x4_s_sound (f) (h : vecSem .i64x2_extend_high_i32x4_s = some f) (s : List Val) : Implements (evalVec .i64x2_extend_high_i32x4_s) s (f s) := by
  injection h with h; subst h
  refine shapeUn .i32 _ _ (fun x => ?_) s
  simp only [Popper.i32, intsS]
  rw [drop_range_map (n := 2) (m := 2)]
  exact fromI rfl rfl rfl fun i hi => (signExtend_toInt (by decide) _).symm

theorem i64x2_extmul_low_i32x4_s_sound (f) (h : vecSem .i64x2_extmul_low_i32x4_s = some f) (s : List Val) : Implements (evalVec .i64x2_extmul_low_i32x4_s) s (f s) := by
  injection h with h; subst h
  refine shapeBin .i32 .i32 _ _ (fun x y => fromI rfl rfl rfl fun i hi => ?_) s
  simp only [Popper.i32]
  rw [intsS_at _ (by omega), intsS_at _ (by omega)]
  exact extmul_s rfl (by decide) _ _

theorem i64x2_extmul_high_i32x4_s_sound (f) (h : vecSem .i64x2_extmul_high_i32x4_s = some f) (s : List Val) : Implements (evalVec .i64x2_extmul_high_i32x4_s) s (f s) := by
  injection h with h; subst h
  refine shapeBin .i32 .i32 _ _ (fun x y => ?_) s
  simp only [Popper.i32, range'_eq_map, Nat.one_mul, Nat.add_comm 2]
  refine fromI rfl rfl rfl fun i hi => ?_
  rw [intsS_at _ (by omega), intsS_at _ (by omega)]
  exact extmul_s rfl (by decide) _ _

theorem i64x2_extend_low_i32x4_u_sound (f) (h : vecSem .i64x2_extend_low_i32x4_u = some f) (s : List Val) : Implements (evalVec .i64x2_extend_low_i32x4_u) s (f s) := by
  injection h with h; subst h
  refine shapeUn .u32 _ _ (fun x => ?_) s
  simp only [Popper.u32, intsU]
  rw [take_range_map (by decide)]
  exact fromI rfl rfl rfl fun i hi => setWidth_toInt (by decide) _

theorem i64x2_extend_high_i32x4_u_sound (f) (h : vecSem .i64x2_extend_high_i32x4_u = some f) (s : List Val) : Implements (evalVec .i64x2_extend_high_i32x4_u) s (f s) := by
  injection h with h; subst h
  refine shapeUn .u32 _ _ (fun x => ?_) s
  simp only [Popper.u32, intsU]
  rw [drop_range_map (n := 2) (m := 2)]
  exact fromI rfl rfl rfl fun i hi => setWidth_toInt (by decide) _

theorem i64x2_extmul_low_i32x4_u_sound (f) (h : vecSem .i64x2_extmul_low_i32x4_u = some f) (s : List Val) : Implements (evalVec .i64x2_extmul_low_i32x4_u) s (f s) := by
  injection h with h; subst h
  refine shapeBin .u32 .u32 _ _ (fun x y => fromU rfl rfl rfl fun i hi => ?_) s
  simp only [Popper.u32]
  rw [intsU_at _ (by omega), intsU_at _ (by omega)]
  exact extmul_u rfl _ _

theorem i64x2_extmul_high_i32x4_u_sound (f) (h : vecSem .i64x2_extmul_high_i32x4_u = some f) (s : List Val) : Implements (evalVec .i64x2_extmul_high_i32x4_u) s (f s) := by
  injection h with h; subst h
  refine shapeBin .u32 .u32 _ _ (fun x y => ?_) s
  simp only [Popper.u32, range'_eq_map, Nat.one_mul, Nat.add_comm 2]
  refine fromU rfl rfl rfl fun i hi => ?_
  rw [intsU_at _ (by omega), intsU_at _ (by omega)]
  exact extmul_u rfl _ _

theorem i32x4_dot_i16x8_s_sound (f) (h : vecSem .i32x4_dot_i16x8_s = some f) (s : List Val) : Implements (evalVec .i32x4_dot_i16x8_s) s (f s) := by
  injection h with h; subst h
  refine shapeBin .i16 .i16 _ _ (fun x y => fromI rfl rfl rfl fun i hi => ?_) s
  simp only [Popper.i16, Nat.mul_comm i 2]
  rw [intsS_at _ (by omega), intsS_at _ (by omega), intsS_at _ (by omega), intsS_at _ (by omega)]
  exact dot_w rfl (by decide) (by decide) _ _ _ _

theorem i8x16_swizzle_sound (f) (h : vecSem .i8x16_swizzle = some f) (s : List Val) : Implements (evalVec .i8x16_swizzle) s (f s) := by
  injection h with h; subst h
  refine shapeBin .u8 .i8 _ _ (fun x y => fromI rfl rfl rfl fun i hi => ?_) s
  simp only [Popper.i8, Popper.u8, intsU_at _ hi]
  by_cases hl : (lane 8 y.low128 i).toNat < 16
  · rw [if_pos (by exact_mod_cast hl), if_pos hl, Int.toNat_natCast, intsS_at _ hl]
  · rw [if_neg (by exact_mod_cast hl), if_neg hl]; rfl

theorem i8x16_splat_sound (f) (h : vecSem .i8x16_splat = some f) (s : List Val) : Implements (evalVec .i8x16_splat) s (f s) := by
  injection h with h; subst h
  refine shapeSplat32 .s32 _ _ (fun x => ?_) s
  simp only [Popper.s32, replicate_eq_map]
  exact fromI rfl rfl rfl fun i _ => by rw [Arith.I.fit_w (w := 8) rfl (by decide), ofInt_toInt_of_le (by decide)]

theorem i16x8_splat_sound (f) (h : vecSem .i16x8_splat = some f) (s : List Val) : Implements (evalVec .i16x8_splat) s (f s) := by
  injection h with h; subst h
  refine shapeSplat32 .s32 _ _ (fun x => ?_) s
  simp only [Popper.s32, replicate_eq_map]
  exact fromI rfl rfl rfl fun i _ => by rw [Arith.I.fit_w (w := 16) rfl (by decide), ofInt_toInt_of_le (by decide)]

theorem i32x4_splat_sound (f) (h : vecSem .i32x4_splat = some f) (s : List Val) : Implements (evalVec .i32x4_splat) s (f s) := by
  injection h with h; subst h
  refine shapeSplat32 .s32 _ _ (fun x => ?_) s
  simp only [Popper.s32, replicate_eq_map]
  exact fromI rfl rfl rfl fun i _ => by rw [BitVec.setWidth_eq]

theorem i64x2_splat_sound (f) (h : vecSem .i64x2_splat = some f) (s : List Val) : Implements (evalVec .i64x2_splat) s (f s) := by
  injection h with h; subst h
  refine shapeSplat64 .s64 _ _ (fun x => ?_) s
  simp only [Popper.s64, replicate_eq_map]
  exact fromI rfl rfl rfl fun i _ => by rw [BitVec.setWidth_eq]

theorem f32x4_splat_sound (f) (h : vecSem .f32x4_splat = some f) (s : List Val) : Implements (evalVec .f32x4_splat) s (f s) := by
  injection h with h; subst h
  refine shapeSplat32 .val (fun v => Val.fromV128 (List.replicate 4 (v.data.take 4)).flatten) _ (fun x => ?_) s
  exact splat_bytes (n := 4) (k := 4) rfl rfl rfl x

theorem f64x2_splat_sound (f) (h : vecSem .f64x2_splat = some f) (s : List Val) : Implements (evalVec .f64x2_splat) s (f s) := by
  injection h with h; subst h
  refine shapeSplat64 .val (fun v => Val.fromV128 (List.replicate 2 (v.data.take 8)).flatten) _ (fun x => ?_) s
  exact splat_bytes (n := 2) (k := 8) rfl rfl rfl x

theorem v128_not_sound (f) (h : vecSem .v128_not = some f) (s : List Val) : Implements (evalVec .v128_not) s (f s) := by
  injection h with h; subst h
  refine shapeUn .bytes _ _ (fun x => ?_) s
  simp only [Popper.bytes]
  rw [data_map x _ (fun n => Arith.U.fit 1 (Py.inv n)) (fun b => rfl)]
  exact fromBytes' fun i hi => by rw [unot, lane_not _ hi]

theorem v128_and_sound (f) (h : vecSem .v128_and = some f) (s : List Val) : Implements (evalVec .v128_and) s (f s) := by
  injection h with h; subst h
  refine shapeBin .bytes .bytes _ _ (fun x y => fromBytes' fun i hi => ?_) s
  simp only [Popper.bytes, data_at _ hi]
  rw [uand, lane_and]

theorem v128_or_sound (f) (h : vecSem .v128_or = some f) (s : List Val) : Implements (evalVec .v128_or) s (f s) := by
  injection h with h; subst h
  refine shapeBin .bytes .bytes _ _ (fun x y => fromBytes' fun i hi => ?_) s
  simp only [Popper.bytes, data_at _ hi]
  rw [uor, lane_or]

theorem v128_xor_sound (f) (h : vecSem .v128_xor = some f) (s : List Val) : Implements (evalVec .v128_xor) s (f s) := by
  injection h with h; subst h
  refine shapeBin .bytes .bytes _ _ (fun x y => fromBytes' fun i hi => ?_) s
  simp only [Popper.bytes, data_at _ hi]
  rw [uxor, lane_xor]

theorem v128_andnot_sound (f) (h : vecSem .v128_andnot = some f) (s : List Val) : Implements (evalVec .v128_andnot) s (f s) := by
  injection h with h; subst h
  refine shapeBin .bytes .bytes _ _ (fun x y => fromBytes' fun i hi => ?_) s
  simp only [Popper.bytes, data_at _ hi]
  rw [uandnot, lane_and, lane_not _ hi]

theorem v128_bitselect_sound (f) (h : vecSem .v128_bitselect = some f) (s : List Val) : Implements (evalVec .v128_bitselect) s (f s) := by
  injection h with h; subst h
  refine shapeTer .bytes .bytes .bytes _ _ (fun x y z => fromBytes' fun i hi => ?_) s
  simp only [Popper.bytes, data_at _ hi]
  rw [uandnot, uand, uor, lane_or, lane_and, lane_and, lane_not _ hi]

theorem v128_any_true_sound (f) (h : vecSem .v128_any_true = some f) (s : List Val) : Implements (evalVec .v128_any_true) s (f s) := by
  injection h with h; subst h
  refine shapeTest .bytes _ _ (fun x => ?_) s
  rw [ite_bool, show List.any (Popper.bytes.get x) (fun e => decide (e ≠ 0)) = decide (x.low128 ≠ 0) from any_true_w x]
  exact fromI32_bool _

/-- Every instruction that has a meaning in `vecSem` implements it. -/
theorem vec_sound (op : VOp) (f : List Val → Out) (h : vecSem op = some f) (s : List Val) :
    Implements (evalVec op) s (f s) := by
  cases op
  case i8x16_swizzle => exact i8x16_swizzle_sound f h s
  case i8x16_splat => exact i8x16_splat_sound f h s
  case i16x8_splat => exact i16x8_splat_sound f h s
  case i32x4_splat => exact i32x4_splat_sound f h s
  case i64x2_splat => exact i64x2_splat_sound f h s
  case f32x4_splat => exact f32x4_splat_sound f h s
  case f64x2_splat => exact f64x2_splat_sound f h s
  case i8x16_eq => exact i8x16_eq_sound f h s
  case i8x16_ne => exact i8x16_ne_sound f h s
  case i8x16_lt_s => exact i8x16_lt_s_sound f h s
  case i8x16_lt_u => exact i8x16_lt_u_sound f h s
  case i8x16_gt_s => exact i8x16_gt_s_sound f h s
  case i8x16_gt_u => exact i8x16_gt_u_sound f h s
  case i8x16_le_s => exact i8x16_le_s_sound f h s
  case i8x16_le_u => exact i8x16_le_u_sound f h s
  case i8x16_ge_s => exact i8x16_ge_s_sound f h s
  case i8x16_ge_u => exact i8x16_ge_u_sound f h s
  case i16x8_eq => exact i16x8_eq_sound f h s
  case i16x8_ne => exact i16x8_ne_sound f h s
  case i16x8_lt_s => exact i16x8_lt_s_sound f h s
  case i16x8_lt_u => exact i16x8_lt_u_sound f h s
  case i16x8_gt_s => exact i16x8_gt_s_sound f h s
  case i16x8_gt_u => exact i16x8_gt_u_sound f h s
  case i16x8_le_s => exact i16x8_le_s_sound f h s
  case i16x8_le_u => exact i16x8_le_u_sound f h s
  case i16x8_ge_s => exact i16x8_ge_s_sound f h s
  case i16x8_ge_u => exact i16x8_ge_u_sound f h s
  case i32x4_eq => exact i32x4_eq_sound f h s
  case i32x4_ne => exact i32x4_ne_sound f h s
  case i32x4_lt_s => exact i32x4_lt_s_sound f h s
  case i32x4_lt_u => exact i32x4_lt_u_sound f h s
  case i32x4_gt_s => exact i32x4_gt_s_sound f h s
  case i32x4_gt_u => exact i32x4_gt_u_sound f h s
  case i32x4_le_s => exact i32x4_le_s_sound f h s
  case i32x4_le_u => exact i32x4_le_u_sound f h s
  case i32x4_ge_s => exact i32x4_ge_s_sound f h s
  case i32x4_ge_u => exact i32x4_ge_u_sound f h s
  case f32x4_eq => cases h
  case f32x4_ne => cases h
  case f32x4_lt => cases h
  case f32x4_gt => cases h
  case f32x4_le => cases h
  case f32x4_ge => cases h
  case f64x2_eq => cases h
  case f64x2_ne => cases h
  case f64x2_lt => cases h
  case f64x2_gt => cases h
  case f64x2_le => cases h
  case f64x2_ge => cases h
  case v128_not => exact v128_not_sound f h s
  case v128_and => exact v128_and_sound f h s
  case v128_andnot => exact v128_andnot_sound f h s
  case v128_or => exact v128_or_sound f h s
  case v128_xor => exact v128_xor_sound f h s
  case v128_bitselect => exact v128_bitselect_sound f h s
  case v128_any_true => exact v128_any_true_sound f h s
  case f32x4_demote_f64x2_zero => cases h
  case f64x2_promote_low_f32x4 => cases h
  case i8x16_abs => exact i8x16_abs_sound f h s
  case i8x16_neg => exact i8x16_neg_sound f h s
  case i8x16_popcnt => exact i8x16_popcnt_sound f h s
  case i8x16_all_true => exact i8x16_all_true_sound f h s
  case i8x16_bitmask => exact i8x16_bitmask_sound f h s
  case i8x16_narrow_i16x8_s => exact i8x16_narrow_i16x8_s_sound f h s
  case i8x16_narrow_i16x8_u => exact i8x16_narrow_i16x8_u_sound f h s
  case f32x4_ceil => cases h
  case f32x4_floor => cases h
  case f32x4_trunc => cases h
  case f32x4_nearest => cases h
  case i8x16_shl => exact i8x16_shl_sound f h s
  case i8x16_shr_s => exact i8x16_shr_s_sound f h s
  case i8x16_shr_u => exact i8x16_shr_u_sound f h s
  case i8x16_add => exact i8x16_add_sound f h s
  case i8x16_add_sat_s => exact i8x16_add_sat_s_sound f h s
  case i8x16_add_sat_u => exact i8x16_add_sat_u_sound f h s
  case i8x16_sub => exact i8x16_sub_sound f h s
  case i8x16_sub_sat_s => exact i8x16_sub_sat_s_sound f h s
  case i8x16_sub_sat_u => exact i8x16_sub_sat_u_sound f h s
  case f64x2_ceil => cases h
  case f64x2_floor => cases h
  case i8x16_min_s => exact i8x16_min_s_sound f h s
  case i8x16_min_u => exact i8x16_min_u_sound f h s
  case i8x16_max_s => exact i8x16_max_s_sound f h s
  case i8x16_max_u => exact i8x16_max_u_sound f h s
  case f64x2_trunc => cases h
  case i8x16_avgr_u => exact i8x16_avgr_u_sound f h s
  case i16x8_extadd_pairwise_i8x16_s => exact i16x8_extadd_pairwise_i8x16_s_sound f h s
  case i16x8_extadd_pairwise_i8x16_u => exact i16x8_extadd_pairwise_i8x16_u_sound f h s
  case i32x4_extadd_pairwise_i16x8_s => exact i32x4_extadd_pairwise_i16x8_s_sound f h s
  case i32x4_extadd_pairwise_i16x8_u => exact i32x4_extadd_pairwise_i16x8_u_sound f h s
  case i16x8_abs => exact i16x8_abs_sound f h s
  case i16x8_neg => exact i16x8_neg_sound f h s
  case i16x8_q15mulr_sat_s => exact i16x8_q15mulr_sat_s_sound f h s
  case i16x8_all_true => exact i16x8_all_true_sound f h s
  case i16x8_bitmask => exact i16x8_bitmask_sound f h s
  case i16x8_narrow_i32x4_s => exact i16x8_narrow_i32x4_s_sound f h s
  case i16x8_narrow_i32x4_u => exact i16x8_narrow_i32x4_u_sound f h s
  case i16x8_extend_low_i8x16_s => exact i16x8_extend_low_i8x16_s_sound f h s
  case i16x8_extend_high_i8x16_s => exact i16x8_extend_high_i8x16_s_sound f h s
  case i16x8_extend_low_i8x16_u => exact i16x8_extend_low_i8x16_u_sound f h s
  case i16x8_extend_high_i8x16_u => exact i16x8_extend_high_i8x16_u_sound f h s
  case i16x8_shl => exact i16x8_shl_sound f h s
  case i16x8_shr_s => exact i16x8_shr_s_sound f h s
  case i16x8_shr_u => exact i16x8_shr_u_sound f h s
  case i16x8_add => exact i16x8_add_sound f h s
  case i16x8_add_sat_s => exact i16x8_add_sat_s_sound f h s
  case i16x8_add_sat_u => exact i16x8_add_sat_u_sound f h s
  case i16x8_sub => exact i16x8_sub_sound f h s
  case i16x8_sub_sat_s => exact i16x8_sub_sat_s_sound f h s
  case i16x8_sub_sat_u => exact i16x8_sub_sat_u_sound f h s
  case f64x2_nearest => cases h
  case i16x8_mul => exact i16x8_mul_sound f h s
  case i16x8_min_s => exact i16x8_min_s_sound f h s
  case i16x8_min_u => exact i16x8_min_u_sound f h s
  case i16x8_max_s => exact i16x8_max_s_sound f h s
  case i16x8_max_u => exact i16x8_max_u_sound f h s
  case i16x8_avgr_u => exact i16x8_avgr_u_sound f h s
  case i16x8_extmul_low_i8x16_s => exact i16x8_extmul_low_i8x16_s_sound f h s
  case i16x8_extmul_high_i8x16_s => exact i16x8_extmul_high_i8x16_s_sound f h s
  case i16x8_extmul_low_i8x16_u => exact i16x8_extmul_low_i8x16_u_sound f h s
  case i16x8_extmul_high_i8x16_u => exact i16x8_extmul_high_i8x16_u_sound f h s
  case i32x4_abs => exact i32x4_abs_sound f h s
  case i32x4_neg => exact i32x4_neg_sound f h s
  case i32x4_all_true => exact i32x4_all_true_sound f h s
  case i32x4_bitmask => exact i32x4_bitmask_sound f h s
  case i32x4_extend_low_i16x8_s => exact i32x4_extend_low_i16x8_s_sound f h s
  case i32x4_extend_high_i16x8_s => exact i32x4_extend_high_i16x8_s_sound f h s
  case i32x4_extend_low_i16x8_u => exact i32x4_extend_low_i16x8_u_sound f h s
  case i32x4_extend_high_i16x8_u => exact i32x4_extend_high_i16x8_u_sound f h s
  case i32x4_shl => exact i32x4_shl_sound f h s
  case i32x4_shr_s => exact i32x4_shr_s_sound f h s
  case i32x4_shr_u => exact i32x4_shr_u_sound f h s
  case i32x4_add => exact i32x4_add_sound f h s
  case i32x4_sub => exact i32x4_sub_sound f h s
  case i32x4_mul => exact i32x4_mul_sound f h s
  case i32x4_min_s => exact i32x4_min_s_sound f h s
  case i32x4_min_u => exact i32x4_min_u_sound f h s
  case i32x4_max_s => exact i32x4_max_s_sound f h s
  case i32x4_max_u => exact i32x4_max_u_sound f h s
  case i32x4_dot_i16x8_s => exact i32x4_dot_i16x8_s_sound f h s
  case i32x4_extmul_low_i16x8_s => exact i32x4_extmul_low_i16x8_s_sound f h s
  case i32x4_extmul_high_i16x8_s => exact i32x4_extmul_high_i16x8_s_sound f h s
  case i32x4_extmul_low_i16x8_u => exact i32x4_extmul_low_i16x8_u_sound f h s
  case i32x4_extmul_high_i16x8_u => exact i32x4_extmul_high_i16x8_u_sound f h s
  case i64x2_abs => exact i64x2_abs_sound f h s
  case i64x2_neg => exact i64x2_neg_sound f h s
  case i64x2_all_true => exact i64x2_all_true_sound f h s
  case i64x2_bitmask => exact i64x2_bitmask_sound f h s
  case i64x2_extend_low_i32x4_s => exact i64x2_extend_low_i32x4_s_sound f h s
  case i64x2_extend_high_i32x4_s => exact i64x2_extend_high_i32x4_s_sound f h s
  case i64x2_extend_low_i32x4_u => exact i64x2_extend_low_i32x4_u_sound f h s
  case i64x2_extend_high_i32x4_u => exact i64x2_extend_high_i32x4_u_sound f h s
  case i64x2_shl => exact i64x2_shl_sound f h s
  case i64x2_shr_s => exact i64x2_shr_s_sound f h s
  case i64x2_shr_u => exact i64x2_shr_u_sound f h s
  case i64x2_add => exact i64x2_add_sound f h s
  case i64x2_sub => exact i64x2_sub_sound f h s
  case i64x2_mul => exact i64x2_mul_sound f h s
  case i64x2_eq => exact i64x2_eq_sound f h s
  case i64x2_ne => exact i64x2_ne_sound f h s
  case i64x2_lt_s => exact i64x2_lt_s_sound f h s
  case i64x2_gt_s => exact i64x2_gt_s_sound f h s
  case i64x2_le_s => exact i64x2_le_s_sound f h s
  case i64x2_ge_s => exact i64x2_ge_s_sound f h s
  case i64x2_extmul_low_i32x4_s => exact i64x2_extmul_low_i32x4_s_sound f h s
  case i64x2_extmul_high_i32x4_s => exact i64x2_extmul_high_i32x4_s_sound f h s
  case i64x2_extmul_low_i32x4_u => exact i64x2_extmul_low_i32x4_u_sound f h s
  case i64x2_extmul_high_i32x4_u => exact i64x2_extmul_high_i32x4_u_sound f h s
  case f32x4_abs => cases h
  case f32x4_neg => cases h
  case f32x4_sqrt => cases h
  case f32x4_add => cases h
  case f32x4_sub => cases h
  case f32x4_mul => cases h
  case f32x4_div => cases h
  case f32x4_min => cases h
  case f32x4_max => cases h
  case f32x4_pmin => cases h
  case f32x4_pmax => cases h
  case f64x2_abs => cases h
  case f64x2_neg => cases h
  case f64x2_sqrt => cases h
  case f64x2_add => cases h
  case f64x2_sub => cases h
  case f64x2_mul => cases h
  case f64x2_div => cases h
  case f64x2_min => cases h
  case f64x2_max => cases h
  case f64x2_pmin => cases h
  case f64x2_pmax => cases h
  case i32x4_trunc_sat_f32x4_s => cases h
  case i32x4_trunc_sat_f32x4_u => cases h
  case f32x4_convert_i32x4_s => cases h
  case f32x4_convert_i32x4_u => cases h
  case i32x4_trunc_sat_f64x2_s_zero => cases h
  case i32x4_trunc_sat_f64x2_u_zero => cases h
  case f64x2_convert_low_i32x4_s => cases h
  case f64x2_convert_low_i32x4_u => cases h

end Pywasm
