import Verif.Spec.Lanes
import Verif.Spec.IntOps
import Verif.Model.SimdOps

/-!
# Specification of the integer and bitwise vector instructions

Each instruction as an operation on 128-bit vectors, lane by lane, following the WebAssembly 2.0 core specification,
section 4.4.3.  Lane 0 is the least significant one.
-/

namespace Pywasm.Spec

/-- All lanes of one vector. -/
def map1 (w : Nat) (f : BitVec w → BitVec w) (x : BitVec 128) : BitVec 128 := ofLanes w fun i => f (lane w x i)
/-- All lanes of two vectors. -/
def map2 (w : Nat) (f : BitVec w → BitVec w → BitVec w) (x y : BitVec 128) : BitVec 128 :=
  ofLanes w fun i => f (lane w x i) (lane w y i)
/-- Result of a lane-wise comparison. -/
def mask {w : Nat} (p : Prop) [Decidable p] : BitVec w := if p then BitVec.allOnes w else 0
/-- Signed saturation to `w` bits. -/
def satS (w : Nat) (n : Int) : BitVec w :=
  BitVec.ofInt w (if n < -2 ^ (w - 1) then -2 ^ (w - 1) else if 2 ^ (w - 1) - 1 < n then 2 ^ (w - 1) - 1 else n)
/-- Unsigned saturation to `w` bits. -/
def satU (w : Nat) (n : Int) : BitVec w := BitVec.ofInt w (if n < 0 then 0 else if 2 ^ w - 1 < n then 2 ^ w - 1 else n)
/-- The `n` lanes of `x`, then those of `y`, saturated from `w'` to `w` bits; the source lanes are always signed. -/
def narrow (w w' n : Nat) (f : Int → BitVec w) (x y : BitVec 128) : BitVec 128 :=
  ofLanes w fun i => f (if i < n then (lane w' x i).toInt else (lane w' y (i - n)).toInt)
/-- `i8x16.swizzle` -/
def swizzle (x s : BitVec 128) : BitVec 128 :=
  ofLanes 8 fun i => if (lane 8 s i).toNat < 16 then lane 8 x (lane 8 s i).toNat else 0
/-- `i8x16.shuffle`: selectors below 16 pick from `x`, the others from `y`. -/
def shuffle (sel : Nat → Nat) (x y : BitVec 128) : BitVec 128 :=
  ofLanes 8 fun i => if sel i < 16 then lane 8 x (sel i) else lane 8 y (sel i - 16)

section shapes
def un128 (f : BitVec 128 → BitVec 128) : List Val → Out
  | x :: s => .ok (v128 (f x.low128) :: s)
  | _ => .stuck
def bin128 (f : BitVec 128 → BitVec 128 → BitVec 128) : List Val → Out
  | y :: x :: s => .ok (v128 (f x.low128 y.low128) :: s)
  | _ => .stuck
def ter128 (f : BitVec 128 → BitVec 128 → BitVec 128 → BitVec 128) : List Val → Out
  | z :: y :: x :: s => .ok (v128 (f x.low128 y.low128 z.low128) :: s)
  | _ => .stuck
def test128 (p : BitVec 128 → Bool) : List Val → Out
  | x :: s => .ok (bool (p x.low128) :: s)
  | _ => .stuck
/-- The i32 whose bit `i` is the sign bit of lane `i`. -/
def bitmask (w n : Nat) : List Val → Out
  | x :: s => .ok (i32 (BitVec.ofNat 32 ((List.range n).map fun i => if (lane w x.low128 i).msb then 2 ^ i else 0).sum) :: s)
  | _ => .stuck
/-- The shift count is an i32. -/
def shift (f : BitVec 128 → Nat → BitVec 128) : List Val → Out
  | k :: x :: s => .ok (v128 (f x.low128 k.low32.toNat) :: s)
  | _ => .stuck
def splat32 (w : Nat) : List Val → Out
  | a :: s => .ok (v128 (ofLanes w fun _ => a.low32.setWidth w) :: s)
  | _ => .stuck
def splat64 (w : Nat) : List Val → Out
  | a :: s => .ok (v128 (ofLanes w fun _ => a.low64.setWidth w) :: s)
  | _ => .stuck
end shapes

/-- The meaning of every integer and bitwise vector instruction without immediates; `none` for the float ones. -/
def vecSem : VOp → Option (List Val → Out)
  -- i8x16
  | .i8x16_splat => some (splat32 8)
  | .i8x16_swizzle => some (bin128 swizzle)
  | .i8x16_eq => some (bin128 (map2 8 fun a b => mask (a = b)))
  | .i8x16_ne => some (bin128 (map2 8 fun a b => mask (a ≠ b)))
  | .i8x16_lt_s => some (bin128 (map2 8 fun a b => mask (a.toInt < b.toInt)))
  | .i8x16_lt_u => some (bin128 (map2 8 fun a b => mask (a.toNat < b.toNat)))
  | .i8x16_gt_s => some (bin128 (map2 8 fun a b => mask (a.toInt > b.toInt)))
  | .i8x16_gt_u => some (bin128 (map2 8 fun a b => mask (a.toNat > b.toNat)))
  | .i8x16_le_s => some (bin128 (map2 8 fun a b => mask (a.toInt ≤ b.toInt)))
  | .i8x16_le_u => some (bin128 (map2 8 fun a b => mask (a.toNat ≤ b.toNat)))
  | .i8x16_ge_s => some (bin128 (map2 8 fun a b => mask (a.toInt ≥ b.toInt)))
  | .i8x16_ge_u => some (bin128 (map2 8 fun a b => mask (a.toNat ≥ b.toNat)))
  | .i8x16_abs => some (un128 (map1 8 fun a => if a.toInt < 0 then -a else a))
  | .i8x16_neg => some (un128 (map1 8 fun a => -a))
  | .i8x16_popcnt => some (un128 (map1 8 fun a => BitVec.ofNat 8 (popcnt a)))
  | .i8x16_all_true => some (test128 fun x => (List.range 16).all fun i => lane 8 x i ≠ 0)
  | .i8x16_bitmask => some (bitmask 8 16)
  | .i8x16_shl => some (shift fun x k => map1 8 (fun a => a <<< (k % 8)) x)
  | .i8x16_shr_s => some (shift fun x k => map1 8 (fun a => a.sshiftRight (k % 8)) x)
  | .i8x16_shr_u => some (shift fun x k => map1 8 (fun a => a >>> (k % 8)) x)
  | .i8x16_add => some (bin128 (map2 8 (· + ·)))
  | .i8x16_sub => some (bin128 (map2 8 (· - ·)))
  | .i8x16_add_sat_s => some (bin128 (map2 8 fun a b => satS 8 (a.toInt + b.toInt)))
  | .i8x16_add_sat_u => some (bin128 (map2 8 fun a b => satU 8 (a.toNat + b.toNat)))
  | .i8x16_sub_sat_s => some (bin128 (map2 8 fun a b => satS 8 (a.toInt - b.toInt)))
  | .i8x16_sub_sat_u => some (bin128 (map2 8 fun a b => satU 8 ((a.toNat : Int) - b.toNat)))
  | .i8x16_avgr_u => some (bin128 (map2 8 fun a b => BitVec.ofNat 8 ((a.toNat + b.toNat + 1) / 2)))
  | .i8x16_narrow_i16x8_s => some (bin128 (narrow 8 16 8 (satS 8)))
  | .i8x16_narrow_i16x8_u => some (bin128 (narrow 8 16 8 (satU 8)))
  | .i8x16_min_s => some (bin128 (map2 8 fun a b => if a.toInt ≤ b.toInt then a else b))
  | .i8x16_min_u => some (bin128 (map2 8 fun a b => if a.toNat ≤ b.toNat then a else b))
  | .i8x16_max_s => some (bin128 (map2 8 fun a b => if a.toInt ≤ b.toInt then b else a))
  | .i8x16_max_u => some (bin128 (map2 8 fun a b => if a.toNat ≤ b.toNat then b else a))
  -- i16x8
  | .i16x8_splat => some (splat32 16)
  | .i16x8_eq => some (bin128 (map2 16 fun a b => mask (a = b)))
  | .i16x8_ne => some (bin128 (map2 16 fun a b => mask (a ≠ b)))
  | .i16x8_lt_s => some (bin128 (map2 16 fun a b => mask (a.toInt < b.toInt)))
  | .i16x8_lt_u => some (bin128 (map2 16 fun a b => mask (a.toNat < b.toNat)))
  | .i16x8_gt_s => some (bin128 (map2 16 fun a b => mask (a.toInt > b.toInt)))
  | .i16x8_gt_u => some (bin128 (map2 16 fun a b => mask (a.toNat > b.toNat)))
  | .i16x8_le_s => some (bin128 (map2 16 fun a b => mask (a.toInt ≤ b.toInt)))
  | .i16x8_le_u => some (bin128 (map2 16 fun a b => mask (a.toNat ≤ b.toNat)))
  | .i16x8_ge_s => some (bin128 (map2 16 fun a b => mask (a.toInt ≥ b.toInt)))
  | .i16x8_ge_u => some (bin128 (map2 16 fun a b => mask (a.toNat ≥ b.toNat)))
  | .i16x8_abs => some (un128 (map1 16 fun a => if a.toInt < 0 then -a else a))
  | .i16x8_neg => some (un128 (map1 16 fun a => -a))
  | .i16x8_all_true => some (test128 fun x => (List.range 8).all fun i => lane 16 x i ≠ 0)
  | .i16x8_bitmask => some (bitmask 16 8)
  | .i16x8_shl => some (shift fun x k => map1 16 (fun a => a <<< (k % 16)) x)
  | .i16x8_shr_s => some (shift fun x k => map1 16 (fun a => a.sshiftRight (k % 16)) x)
  | .i16x8_shr_u => some (shift fun x k => map1 16 (fun a => a >>> (k % 16)) x)
  | .i16x8_add => some (bin128 (map2 16 (· + ·)))
  | .i16x8_sub => some (bin128 (map2 16 (· - ·)))
  | .i16x8_mul => some (bin128 (map2 16 (· * ·)))
  | .i16x8_add_sat_s => some (bin128 (map2 16 fun a b => satS 16 (a.toInt + b.toInt)))
  | .i16x8_add_sat_u => some (bin128 (map2 16 fun a b => satU 16 (a.toNat + b.toNat)))
  | .i16x8_sub_sat_s => some (bin128 (map2 16 fun a b => satS 16 (a.toInt - b.toInt)))
  | .i16x8_sub_sat_u => some (bin128 (map2 16 fun a b => satU 16 ((a.toNat : Int) - b.toNat)))
  | .i16x8_avgr_u => some (bin128 (map2 16 fun a b => BitVec.ofNat 16 ((a.toNat + b.toNat + 1) / 2)))
  | .i16x8_narrow_i32x4_s => some (bin128 (narrow 16 32 4 (satS 16)))
  | .i16x8_narrow_i32x4_u => some (bin128 (narrow 16 32 4 (satU 16)))
  | .i16x8_min_s => some (bin128 (map2 16 fun a b => if a.toInt ≤ b.toInt then a else b))
  | .i16x8_min_u => some (bin128 (map2 16 fun a b => if a.toNat ≤ b.toNat then a else b))
  | .i16x8_max_s => some (bin128 (map2 16 fun a b => if a.toInt ≤ b.toInt then b else a))
  | .i16x8_max_u => some (bin128 (map2 16 fun a b => if a.toNat ≤ b.toNat then b else a))
  | .i16x8_q15mulr_sat_s => some (bin128 (map2 16 fun a b => satS 16 ((a.toInt * b.toInt + 2 ^ 14) / 2 ^ 15)))
  | .i16x8_extadd_pairwise_i8x16_s => some (un128 fun x => ofLanes 16 fun i =>
      (lane 8 x (2 * i)).signExtend 16 + (lane 8 x (2 * i + 1)).signExtend 16)
  | .i16x8_extadd_pairwise_i8x16_u => some (un128 fun x => ofLanes 16 fun i =>
      (lane 8 x (2 * i)).setWidth 16 + (lane 8 x (2 * i + 1)).setWidth 16)
  | .i16x8_extend_low_i8x16_s => some (un128 fun x => ofLanes 16 fun i => (lane 8 x (i)).signExtend 16)
  | .i16x8_extmul_low_i8x16_s => some (bin128 fun x y => ofLanes 16 fun i =>
      (lane 8 x (i)).signExtend 16 * (lane 8 y (i)).signExtend 16)
  | .i16x8_extend_low_i8x16_u => some (un128 fun x => ofLanes 16 fun i => (lane 8 x (i)).setWidth 16)
  | .i16x8_extmul_low_i8x16_u => some (bin128 fun x y => ofLanes 16 fun i =>
      (lane 8 x (i)).setWidth 16 * (lane 8 y (i)).setWidth 16)
  | .i16x8_extend_high_i8x16_s => some (un128 fun x => ofLanes 16 fun i => (lane 8 x (i + 8)).signExtend 16)
  | .i16x8_extmul_high_i8x16_s => some (bin128 fun x y => ofLanes 16 fun i =>
      (lane 8 x (i + 8)).signExtend 16 * (lane 8 y (i + 8)).signExtend 16)
  | .i16x8_extend_high_i8x16_u => some (un128 fun x => ofLanes 16 fun i => (lane 8 x (i + 8)).setWidth 16)
  | .i16x8_extmul_high_i8x16_u => some (bin128 fun x y => ofLanes 16 fun i =>
      (lane 8 x (i + 8)).setWidth 16 * (lane 8 y (i + 8)).setWidth 16)
  -- i32x4
  | .i32x4_splat => some (splat32 32)
  | .i32x4_eq => some (bin128 (map2 32 fun a b => mask (a = b)))
  | .i32x4_ne => some (bin128 (map2 32 fun a b => mask (a ≠ b)))
  | .i32x4_lt_s => some (bin128 (map2 32 fun a b => mask (a.toInt < b.toInt)))
  | .i32x4_lt_u => some (bin128 (map2 32 fun a b => mask (a.toNat < b.toNat)))
  | .i32x4_gt_s => some (bin128 (map2 32 fun a b => mask (a.toInt > b.toInt)))
  | .i32x4_gt_u => some (bin128 (map2 32 fun a b => mask (a.toNat > b.toNat)))
  | .i32x4_le_s => some (bin128 (map2 32 fun a b => mask (a.toInt ≤ b.toInt)))
  | .i32x4_le_u => some (bin128 (map2 32 fun a b => mask (a.toNat ≤ b.toNat)))
  | .i32x4_ge_s => some (bin128 (map2 32 fun a b => mask (a.toInt ≥ b.toInt)))
  | .i32x4_ge_u => some (bin128 (map2 32 fun a b => mask (a.toNat ≥ b.toNat)))
  | .i32x4_abs => some (un128 (map1 32 fun a => if a.toInt < 0 then -a else a))
  | .i32x4_neg => some (un128 (map1 32 fun a => -a))
  | .i32x4_all_true => some (test128 fun x => (List.range 4).all fun i => lane 32 x i ≠ 0)
  | .i32x4_bitmask => some (bitmask 32 4)
  | .i32x4_shl => some (shift fun x k => map1 32 (fun a => a <<< (k % 32)) x)
  | .i32x4_shr_s => some (shift fun x k => map1 32 (fun a => a.sshiftRight (k % 32)) x)
  | .i32x4_shr_u => some (shift fun x k => map1 32 (fun a => a >>> (k % 32)) x)
  | .i32x4_add => some (bin128 (map2 32 (· + ·)))
  | .i32x4_sub => some (bin128 (map2 32 (· - ·)))
  | .i32x4_mul => some (bin128 (map2 32 (· * ·)))
  | .i32x4_min_s => some (bin128 (map2 32 fun a b => if a.toInt ≤ b.toInt then a else b))
  | .i32x4_min_u => some (bin128 (map2 32 fun a b => if a.toNat ≤ b.toNat then a else b))
  | .i32x4_max_s => some (bin128 (map2 32 fun a b => if a.toInt ≤ b.toInt then b else a))
  | .i32x4_max_u => some (bin128 (map2 32 fun a b => if a.toNat ≤ b.toNat then b else a))
  | .i32x4_extadd_pairwise_i16x8_s => some (un128 fun x => ofLanes 32 fun i =>
      (lane 16 x (2 * i)).signExtend 32 + (lane 16 x (2 * i + 1)).signExtend 32)
  | .i32x4_extadd_pairwise_i16x8_u => some (un128 fun x => ofLanes 32 fun i =>
      (lane 16 x (2 * i)).setWidth 32 + (lane 16 x (2 * i + 1)).setWidth 32)
  | .i32x4_extend_low_i16x8_s => some (un128 fun x => ofLanes 32 fun i => (lane 16 x (i)).signExtend 32)
  | .i32x4_extmul_low_i16x8_s => some (bin128 fun x y => ofLanes 32 fun i =>
      (lane 16 x (i)).signExtend 32 * (lane 16 y (i)).signExtend 32)
  | .i32x4_extend_low_i16x8_u => some (un128 fun x => ofLanes 32 fun i => (lane 16 x (i)).setWidth 32)
  | .i32x4_extmul_low_i16x8_u => some (bin128 fun x y => ofLanes 32 fun i =>
      (lane 16 x (i)).setWidth 32 * (lane 16 y (i)).setWidth 32)
  | .i32x4_extend_high_i16x8_s => some (un128 fun x => ofLanes 32 fun i => (lane 16 x (i + 4)).signExtend 32)
  | .i32x4_extmul_high_i16x8_s => some (bin128 fun x y => ofLanes 32 fun i =>
      (lane 16 x (i + 4)).signExtend 32 * (lane 16 y (i + 4)).signExtend 32)
  | .i32x4_extend_high_i16x8_u => some (un128 fun x => ofLanes 32 fun i => (lane 16 x (i + 4)).setWidth 32)
  | .i32x4_extmul_high_i16x8_u => some (bin128 fun x y => ofLanes 32 fun i =>
      (lane 16 x (i + 4)).setWidth 32 * (lane 16 y (i + 4)).setWidth 32)
  | .i32x4_dot_i16x8_s => some (bin128 fun x y => ofLanes 32 fun i =>
      (lane 16 x (2 * i)).signExtend 32 * (lane 16 y (2 * i)).signExtend 32 +
        (lane 16 x (2 * i + 1)).signExtend 32 * (lane 16 y (2 * i + 1)).signExtend 32)
  -- i64x2
  | .i64x2_splat => some (splat64 64)
  | .i64x2_eq => some (bin128 (map2 64 fun a b => mask (a = b)))
  | .i64x2_ne => some (bin128 (map2 64 fun a b => mask (a ≠ b)))
  | .i64x2_lt_s => some (bin128 (map2 64 fun a b => mask (a.toInt < b.toInt)))
  | .i64x2_gt_s => some (bin128 (map2 64 fun a b => mask (a.toInt > b.toInt)))
  | .i64x2_le_s => some (bin128 (map2 64 fun a b => mask (a.toInt ≤ b.toInt)))
  | .i64x2_ge_s => some (bin128 (map2 64 fun a b => mask (a.toInt ≥ b.toInt)))
  | .i64x2_abs => some (un128 (map1 64 fun a => if a.toInt < 0 then -a else a))
  | .i64x2_neg => some (un128 (map1 64 fun a => -a))
  | .i64x2_all_true => some (test128 fun x => (List.range 2).all fun i => lane 64 x i ≠ 0)
  | .i64x2_bitmask => some (bitmask 64 2)
  | .i64x2_shl => some (shift fun x k => map1 64 (fun a => a <<< (k % 64)) x)
  | .i64x2_shr_s => some (shift fun x k => map1 64 (fun a => a.sshiftRight (k % 64)) x)
  | .i64x2_shr_u => some (shift fun x k => map1 64 (fun a => a >>> (k % 64)) x)
  | .i64x2_add => some (bin128 (map2 64 (· + ·)))
  | .i64x2_sub => some (bin128 (map2 64 (· - ·)))
  | .i64x2_mul => some (bin128 (map2 64 (· * ·)))
  | .i64x2_extend_low_i32x4_s => some (un128 fun x => ofLanes 64 fun i => (lane 32 x (i)).signExtend 64)
  | .i64x2_extmul_low_i32x4_s => some (bin128 fun x y => ofLanes 64 fun i =>
      (lane 32 x (i)).signExtend 64 * (lane 32 y (i)).signExtend 64)
  | .i64x2_extend_low_i32x4_u => some (un128 fun x => ofLanes 64 fun i => (lane 32 x (i)).setWidth 64)
  | .i64x2_extmul_low_i32x4_u => some (bin128 fun x y => ofLanes 64 fun i =>
      (lane 32 x (i)).setWidth 64 * (lane 32 y (i)).setWidth 64)
  | .i64x2_extend_high_i32x4_s => some (un128 fun x => ofLanes 64 fun i => (lane 32 x (i + 2)).signExtend 64)
  | .i64x2_extmul_high_i32x4_s => some (bin128 fun x y => ofLanes 64 fun i =>
      (lane 32 x (i + 2)).signExtend 64 * (lane 32 y (i + 2)).signExtend 64)
  | .i64x2_extend_high_i32x4_u => some (un128 fun x => ofLanes 64 fun i => (lane 32 x (i + 2)).setWidth 64)
  | .i64x2_extmul_high_i32x4_u => some (bin128 fun x y => ofLanes 64 fun i =>
      (lane 32 x (i + 2)).setWidth 64 * (lane 32 y (i + 2)).setWidth 64)
  -- bitwise
  | .v128_not => some (un128 fun x => ~~~x)
  | .v128_and => some (bin128 fun x y => x &&& y)
  | .v128_andnot => some (bin128 fun x y => x &&& ~~~y)
  | .v128_or => some (bin128 fun x y => x ||| y)
  | .v128_xor => some (bin128 fun x y => x ^^^ y)
  | .v128_bitselect => some (ter128 fun x y z => (x &&& z) ||| (y &&& ~~~z))
  | .v128_any_true => some (test128 fun x => x ≠ 0)
  -- splats that copy a bit pattern
  | .f32x4_splat => some (splat32 32)
  | .f64x2_splat => some (splat64 64)
  | _ => none

/-- The meaning of the instructions with a lane index. -/
def laneSem (op : LOp) (i : Nat) : List Val → Out :=
  let extract (f : BitVec 128 → Val) : List Val → Out
    | x :: s => .ok (f x.low128 :: s)
    | _ => .stuck
  let replace (w : Nat) (f : Val → BitVec w) : List Val → Out
    | a :: x :: s => .ok (v128 (ofLanes w fun j => if j = i then f a else lane w x.low128 j) :: s)
    | _ => .stuck
  match op with
  | .i8x16_extract_lane_s => extract fun x => i32 ((lane 8 x i).signExtend 32)
  | .i8x16_extract_lane_u => extract fun x => i32 ((lane 8 x i).setWidth 32)
  | .i16x8_extract_lane_s => extract fun x => i32 ((lane 16 x i).signExtend 32)
  | .i16x8_extract_lane_u => extract fun x => i32 ((lane 16 x i).setWidth 32)
  | .i32x4_extract_lane => extract fun x => i32 (lane 32 x i)
  | .i64x2_extract_lane => extract fun x => i64 (lane 64 x i)
  | .f32x4_extract_lane => extract fun x => f32 (lane 32 x i)
  | .f64x2_extract_lane => extract fun x => f64 (lane 64 x i)
  | .i8x16_replace_lane => replace 8 fun a => a.low32.setWidth 8
  | .i16x8_replace_lane => replace 16 fun a => a.low32.setWidth 16
  | .i32x4_replace_lane => replace 32 fun a => a.low32
  | .i64x2_replace_lane => replace 64 fun a => a.low64
  | .f32x4_replace_lane => replace 32 fun a => a.low32
  | .f64x2_replace_lane => replace 64 fun a => a.low64

/-- The number of lanes of the shape an instruction with a lane index works on. -/
def laneCount : LOp → Nat
  | .i8x16_extract_lane_s | .i8x16_extract_lane_u | .i8x16_replace_lane => 16
  | .i16x8_extract_lane_s | .i16x8_extract_lane_u | .i16x8_replace_lane => 8
  | .i32x4_extract_lane | .i32x4_replace_lane | .f32x4_extract_lane | .f32x4_replace_lane => 4
  | .i64x2_extract_lane | .i64x2_replace_lane | .f64x2_extract_lane | .f64x2_replace_lane => 2

end Pywasm.Spec
