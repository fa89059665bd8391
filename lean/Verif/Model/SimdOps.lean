import Verif.Model.FloatOps

/-!
# Model of the 128-bit vector cases of `Machine.evaluate`, /repo/pywasm/core.py:2859-3254, 3317-4105

The vector instructions that access memory are in `Verif/Model/Machine.lean`.  The comment before each case gives the
lines of core.py.  Lists read from a vector have as many elements as the vector has lanes, so the subscripts `a[i]`
inside list comprehensions never raise: they are written `a.at i`.
-/

namespace Pywasm

/-- `l[i]` for an index that is in range. -/
def _root_.List.at {α} [Inhabited α] (l : List α) (i : Nat) : α := l.getD i default

namespace Py
/-- `bytearray([..])`: `ValueError` unless every element is in `0..255`. -/
def bytearray (l : List Int) : Except Err Bytes :=
  if l.all (fun n => 0 ≤ n ∧ n < 256) then .ok (l.map fun n => UInt8.ofNat n.toNat) else .error .value
end Py

namespace VM
/-- `self.stack.value.pop().into_v128()` -/
def popV128 : VM Bytes := do let v ← pop; return v.intoV128
def popLanesI8 : VM (List Int) := do let v ← pop; return v.intoV128I8
def popLanesU8 : VM (List Int) := do let v ← pop; return v.intoV128U8
/-- `self.stack.value.pop().into_v128_i16/i32/i64()` -/
def popLanesI (k : Nat) : VM (List Int) := do let v ← pop; return v.intoV128I k
/-- `self.stack.value.pop().into_v128_u16/u32/u64()` -/
def popLanesU (k : Nat) : VM (List Int) := do let v ← pop; return v.intoV128U k
def popLanesF32 : VM (List F64) := do let v ← pop; return v.intoV128F32
def popLanesF64 : VM (List F64) := do let v ← pop; return v.intoV128F64
end VM

/-- Vector opcodes without immediates (names as in /repo/pywasm/opcode.py). -/
inductive VOp where
  | i8x16_swizzle | i8x16_splat | i16x8_splat | i32x4_splat | i64x2_splat | f32x4_splat | f64x2_splat | i8x16_eq
  | i8x16_ne | i8x16_lt_s | i8x16_lt_u | i8x16_gt_s | i8x16_gt_u | i8x16_le_s | i8x16_le_u | i8x16_ge_s | i8x16_ge_u
  | i16x8_eq | i16x8_ne | i16x8_lt_s | i16x8_lt_u | i16x8_gt_s | i16x8_gt_u | i16x8_le_s | i16x8_le_u | i16x8_ge_s
  | i16x8_ge_u | i32x4_eq | i32x4_ne | i32x4_lt_s | i32x4_lt_u | i32x4_gt_s | i32x4_gt_u | i32x4_le_s | i32x4_le_u
  | i32x4_ge_s | i32x4_ge_u | f32x4_eq | f32x4_ne | f32x4_lt | f32x4_gt | f32x4_le | f32x4_ge | f64x2_eq | f64x2_ne
  | f64x2_lt | f64x2_gt | f64x2_le | f64x2_ge | v128_not | v128_and | v128_andnot | v128_or | v128_xor
  | v128_bitselect | v128_any_true | f32x4_demote_f64x2_zero | f64x2_promote_low_f32x4 | i8x16_abs | i8x16_neg
  | i8x16_popcnt | i8x16_all_true | i8x16_bitmask | i8x16_narrow_i16x8_s | i8x16_narrow_i16x8_u | f32x4_ceil
  | f32x4_floor | f32x4_trunc | f32x4_nearest | i8x16_shl | i8x16_shr_s | i8x16_shr_u | i8x16_add | i8x16_add_sat_s
  | i8x16_add_sat_u | i8x16_sub | i8x16_sub_sat_s | i8x16_sub_sat_u | f64x2_ceil | f64x2_floor | i8x16_min_s
  | i8x16_min_u | i8x16_max_s | i8x16_max_u | f64x2_trunc | i8x16_avgr_u | i16x8_extadd_pairwise_i8x16_s
  | i16x8_extadd_pairwise_i8x16_u | i32x4_extadd_pairwise_i16x8_s | i32x4_extadd_pairwise_i16x8_u | i16x8_abs
  | i16x8_neg | i16x8_q15mulr_sat_s | i16x8_all_true | i16x8_bitmask | i16x8_narrow_i32x4_s | i16x8_narrow_i32x4_u
  | i16x8_extend_low_i8x16_s | i16x8_extend_high_i8x16_s | i16x8_extend_low_i8x16_u | i16x8_extend_high_i8x16_u
  | i16x8_shl | i16x8_shr_s | i16x8_shr_u | i16x8_add | i16x8_add_sat_s | i16x8_add_sat_u | i16x8_sub
  | i16x8_sub_sat_s | i16x8_sub_sat_u | f64x2_nearest | i16x8_mul | i16x8_min_s | i16x8_min_u | i16x8_max_s
  | i16x8_max_u | i16x8_avgr_u | i16x8_extmul_low_i8x16_s | i16x8_extmul_high_i8x16_s | i16x8_extmul_low_i8x16_u
  | i16x8_extmul_high_i8x16_u | i32x4_abs | i32x4_neg | i32x4_all_true | i32x4_bitmask | i32x4_extend_low_i16x8_s
  | i32x4_extend_high_i16x8_s | i32x4_extend_low_i16x8_u | i32x4_extend_high_i16x8_u | i32x4_shl | i32x4_shr_s
  | i32x4_shr_u | i32x4_add | i32x4_sub | i32x4_mul | i32x4_min_s | i32x4_min_u | i32x4_max_s | i32x4_max_u
  | i32x4_dot_i16x8_s | i32x4_extmul_low_i16x8_s | i32x4_extmul_high_i16x8_s | i32x4_extmul_low_i16x8_u
  | i32x4_extmul_high_i16x8_u | i64x2_abs | i64x2_neg | i64x2_all_true | i64x2_bitmask | i64x2_extend_low_i32x4_s
  | i64x2_extend_high_i32x4_s | i64x2_extend_low_i32x4_u | i64x2_extend_high_i32x4_u | i64x2_shl | i64x2_shr_s
  | i64x2_shr_u | i64x2_add | i64x2_sub | i64x2_mul | i64x2_eq | i64x2_ne | i64x2_lt_s | i64x2_gt_s | i64x2_le_s
  | i64x2_ge_s | i64x2_extmul_low_i32x4_s | i64x2_extmul_high_i32x4_s | i64x2_extmul_low_i32x4_u
  | i64x2_extmul_high_i32x4_u | f32x4_abs | f32x4_neg | f32x4_sqrt | f32x4_add | f32x4_sub | f32x4_mul | f32x4_div
  | f32x4_min | f32x4_max | f32x4_pmin | f32x4_pmax | f64x2_abs | f64x2_neg | f64x2_sqrt | f64x2_add | f64x2_sub
  | f64x2_mul | f64x2_div | f64x2_min | f64x2_max | f64x2_pmin | f64x2_pmax | i32x4_trunc_sat_f32x4_s
  | i32x4_trunc_sat_f32x4_u | f32x4_convert_i32x4_s | f32x4_convert_i32x4_u | i32x4_trunc_sat_f64x2_s_zero
  | i32x4_trunc_sat_f64x2_u_zero | f64x2_convert_low_i32x4_s | f64x2_convert_low_i32x4_u
  deriving DecidableEq, Repr

/-- Vector opcodes with a lane index. -/
inductive LOp where
  | i8x16_extract_lane_s | i8x16_extract_lane_u | i8x16_replace_lane | i16x8_extract_lane_s | i16x8_extract_lane_u
  | i16x8_replace_lane | i32x4_extract_lane | i32x4_replace_lane | i64x2_extract_lane | i64x2_replace_lane
  | f32x4_extract_lane | f32x4_replace_lane | f64x2_extract_lane | f64x2_replace_lane
  deriving DecidableEq, Repr

open VM in
/-- The vector cases of `Machine.evaluate` without immediates. -/
def evalVec : VOp → VM Unit
  -- 2866-2871
  | .i8x16_swizzle => do
    let b ← popLanesU8
    let a ← popLanesI8
    let c := (List.range 16).map (fun i => if b.at i < 16 then a.at (b.at i).toNat else 0)
    let d ← lift (Val.fromV128I 1 c)
    push d
  -- 2872-2875
  | .i8x16_splat => do
    let a ← popI32
    let b ← lift (Val.fromV128I 1 (List.replicate 16 (Arith.I.fit 1 a)))
    push b
  -- 2876-2879
  | .i16x8_splat => do
    let a ← popI32
    let b ← lift (Val.fromV128I 2 (List.replicate 8 (Arith.I.fit 2 a)))
    push b
  -- 2880-2883
  | .i32x4_splat => do
    let a ← popI32
    let b ← lift (Val.fromV128I 4 (List.replicate 4 (a)))
    push b
  -- 2884-2887
  | .i64x2_splat => do
    let a ← popI64
    let b ← lift (Val.fromV128I 8 (List.replicate 2 (a)))
    push b
  -- 2888-2891
  | .f32x4_splat => do
    let a := (← pop).data.take 4
    let b ← lift (Val.fromV128 (List.replicate 4 a).flatten)
    push b
  -- 2892-2895
  | .f64x2_splat => do
    let a := (← pop).data.take 8
    let b ← lift (Val.fromV128 (List.replicate 2 a).flatten)
    push b
  -- 2968-2973
  | .i8x16_eq => do
    let b ← popLanesI8
    let a ← popLanesI8
    let c := (List.range 16).map (fun i => if a.at i = b.at i then -1 else 0)
    let d ← lift (Val.fromV128I 1 c)
    push d
  -- 2974-2979
  | .i8x16_ne => do
    let b ← popLanesI8
    let a ← popLanesI8
    let c := (List.range 16).map (fun i => if a.at i ≠ b.at i then -1 else 0)
    let d ← lift (Val.fromV128I 1 c)
    push d
  -- 2980-2985
  | .i8x16_lt_s => do
    let b ← popLanesI8
    let a ← popLanesI8
    let c := (List.range 16).map (fun i => if a.at i < b.at i then -1 else 0)
    let d ← lift (Val.fromV128I 1 c)
    push d
  -- 2986-2991
  | .i8x16_lt_u => do
    let b ← popLanesU8
    let a ← popLanesU8
    let c := (List.range 16).map (fun i => if a.at i < b.at i then -1 else 0)
    let d ← lift (Val.fromV128I 1 c)
    push d
  -- 2992-2997
  | .i8x16_gt_s => do
    let b ← popLanesI8
    let a ← popLanesI8
    let c := (List.range 16).map (fun i => if a.at i > b.at i then -1 else 0)
    let d ← lift (Val.fromV128I 1 c)
    push d
  -- 2998-3003
  | .i8x16_gt_u => do
    let b ← popLanesU8
    let a ← popLanesU8
    let c := (List.range 16).map (fun i => if a.at i > b.at i then -1 else 0)
    let d ← lift (Val.fromV128I 1 c)
    push d
  -- 3004-3009
  | .i8x16_le_s => do
    let b ← popLanesI8
    let a ← popLanesI8
    let c := (List.range 16).map (fun i => if a.at i ≤ b.at i then -1 else 0)
    let d ← lift (Val.fromV128I 1 c)
    push d
  -- 3010-3015
  | .i8x16_le_u => do
    let b ← popLanesU8
    let a ← popLanesU8
    let c := (List.range 16).map (fun i => if a.at i ≤ b.at i then -1 else 0)
    let d ← lift (Val.fromV128I 1 c)
    push d
  -- 3016-3021
  | .i8x16_ge_s => do
    let b ← popLanesI8
    let a ← popLanesI8
    let c := (List.range 16).map (fun i => if a.at i ≥ b.at i then -1 else 0)
    let d ← lift (Val.fromV128I 1 c)
    push d
  -- 3022-3027
  | .i8x16_ge_u => do
    let b ← popLanesU8
    let a ← popLanesU8
    let c := (List.range 16).map (fun i => if a.at i ≥ b.at i then -1 else 0)
    let d ← lift (Val.fromV128I 1 c)
    push d
  -- 3028-3033
  | .i16x8_eq => do
    let b ← popLanesI 2
    let a ← popLanesI 2
    let c := (List.range 8).map (fun i => if a.at i = b.at i then -1 else 0)
    let d ← lift (Val.fromV128I 2 c)
    push d
  -- 3034-3039
  | .i16x8_ne => do
    let b ← popLanesI 2
    let a ← popLanesI 2
    let c := (List.range 8).map (fun i => if a.at i ≠ b.at i then -1 else 0)
    let d ← lift (Val.fromV128I 2 c)
    push d
  -- 3040-3045
  | .i16x8_lt_s => do
    let b ← popLanesI 2
    let a ← popLanesI 2
    let c := (List.range 8).map (fun i => if a.at i < b.at i then -1 else 0)
    let d ← lift (Val.fromV128I 2 c)
    push d
  -- 3046-3051
  | .i16x8_lt_u => do
    let b ← popLanesU 2
    let a ← popLanesU 2
    let c := (List.range 8).map (fun i => if a.at i < b.at i then -1 else 0)
    let d ← lift (Val.fromV128I 2 c)
    push d
  -- 3052-3057
  | .i16x8_gt_s => do
    let b ← popLanesI 2
    let a ← popLanesI 2
    let c := (List.range 8).map (fun i => if a.at i > b.at i then -1 else 0)
    let d ← lift (Val.fromV128I 2 c)
    push d
  -- 3058-3063
  | .i16x8_gt_u => do
    let b ← popLanesU 2
    let a ← popLanesU 2
    let c := (List.range 8).map (fun i => if a.at i > b.at i then -1 else 0)
    let d ← lift (Val.fromV128I 2 c)
    push d
  -- 3064-3069
  | .i16x8_le_s => do
    let b ← popLanesI 2
    let a ← popLanesI 2
    let c := (List.range 8).map (fun i => if a.at i ≤ b.at i then -1 else 0)
    let d ← lift (Val.fromV128I 2 c)
    push d
  -- 3070-3075
  | .i16x8_le_u => do
    let b ← popLanesU 2
    let a ← popLanesU 2
    let c := (List.range 8).map (fun i => if a.at i ≤ b.at i then -1 else 0)
    let d ← lift (Val.fromV128I 2 c)
    push d
  -- 3076-3081
  | .i16x8_ge_s => do
    let b ← popLanesI 2
    let a ← popLanesI 2
    let c := (List.range 8).map (fun i => if a.at i ≥ b.at i then -1 else 0)
    let d ← lift (Val.fromV128I 2 c)
    push d
  -- 3082-3087
  | .i16x8_ge_u => do
    let b ← popLanesU 2
    let a ← popLanesU 2
    let c := (List.range 8).map (fun i => if a.at i ≥ b.at i then -1 else 0)
    let d ← lift (Val.fromV128I 2 c)
    push d
  -- 3088-3093
  | .i32x4_eq => do
    let b ← popLanesI 4
    let a ← popLanesI 4
    let c := (List.range 4).map (fun i => if a.at i = b.at i then -1 else 0)
    let d ← lift (Val.fromV128I 4 c)
    push d
  -- 3094-3099
  | .i32x4_ne => do
    let b ← popLanesI 4
    let a ← popLanesI 4
    let c := (List.range 4).map (fun i => if a.at i ≠ b.at i then -1 else 0)
    let d ← lift (Val.fromV128I 4 c)
    push d
  -- 3100-3105
  | .i32x4_lt_s => do
    let b ← popLanesI 4
    let a ← popLanesI 4
    let c := (List.range 4).map (fun i => if a.at i < b.at i then -1 else 0)
    let d ← lift (Val.fromV128I 4 c)
    push d
  -- 3106-3111
  | .i32x4_lt_u => do
    let b ← popLanesU 4
    let a ← popLanesU 4
    let c := (List.range 4).map (fun i => if a.at i < b.at i then -1 else 0)
    let d ← lift (Val.fromV128I 4 c)
    push d
  -- 3112-3117
  | .i32x4_gt_s => do
    let b ← popLanesI 4
    let a ← popLanesI 4
    let c := (List.range 4).map (fun i => if a.at i > b.at i then -1 else 0)
    let d ← lift (Val.fromV128I 4 c)
    push d
  -- 3118-3123
  | .i32x4_gt_u => do
    let b ← popLanesU 4
    let a ← popLanesU 4
    let c := (List.range 4).map (fun i => if a.at i > b.at i then -1 else 0)
    let d ← lift (Val.fromV128I 4 c)
    push d
  -- 3124-3129
  | .i32x4_le_s => do
    let b ← popLanesI 4
    let a ← popLanesI 4
    let c := (List.range 4).map (fun i => if a.at i ≤ b.at i then -1 else 0)
    let d ← lift (Val.fromV128I 4 c)
    push d
  -- 3130-3135
  | .i32x4_le_u => do
    let b ← popLanesU 4
    let a ← popLanesU 4
    let c := (List.range 4).map (fun i => if a.at i ≤ b.at i then -1 else 0)
    let d ← lift (Val.fromV128I 4 c)
    push d
  -- 3136-3141
  | .i32x4_ge_s => do
    let b ← popLanesI 4
    let a ← popLanesI 4
    let c := (List.range 4).map (fun i => if a.at i ≥ b.at i then -1 else 0)
    let d ← lift (Val.fromV128I 4 c)
    push d
  -- 3142-3147
  | .i32x4_ge_u => do
    let b ← popLanesU 4
    let a ← popLanesU 4
    let c := (List.range 4).map (fun i => if a.at i ≥ b.at i then -1 else 0)
    let d ← lift (Val.fromV128I 4 c)
    push d
  -- 3148-3153
  | .f32x4_eq => do
    let b ← popLanesF32
    let a ← popLanesF32
    let c := (List.range 4).map (fun i => if F64.eq (a.at i) (b.at i) then -1 else 0)
    let d ← lift (Val.fromV128I 4 c)
    push d
  -- 3154-3159
  | .f32x4_ne => do
    let b ← popLanesF32
    let a ← popLanesF32
    let c := (List.range 4).map (fun i => if !F64.eq (a.at i) (b.at i) then -1 else 0)
    let d ← lift (Val.fromV128I 4 c)
    push d
  -- 3160-3165
  | .f32x4_lt => do
    let b ← popLanesF32
    let a ← popLanesF32
    let c := (List.range 4).map (fun i => if F64.lt (a.at i) (b.at i) then -1 else 0)
    let d ← lift (Val.fromV128I 4 c)
    push d
  -- 3166-3171
  | .f32x4_gt => do
    let b ← popLanesF32
    let a ← popLanesF32
    let c := (List.range 4).map (fun i => if F64.lt (b.at i) (a.at i) then -1 else 0)
    let d ← lift (Val.fromV128I 4 c)
    push d
  -- 3172-3177
  | .f32x4_le => do
    let b ← popLanesF32
    let a ← popLanesF32
    let c := (List.range 4).map (fun i => if F64.le (a.at i) (b.at i) then -1 else 0)
    let d ← lift (Val.fromV128I 4 c)
    push d
  -- 3178-3183
  | .f32x4_ge => do
    let b ← popLanesF32
    let a ← popLanesF32
    let c := (List.range 4).map (fun i => if F64.le (b.at i) (a.at i) then -1 else 0)
    let d ← lift (Val.fromV128I 4 c)
    push d
  -- 3184-3189
  | .f64x2_eq => do
    let b ← popLanesF64
    let a ← popLanesF64
    let c := (List.range 2).map (fun i => if F64.eq (a.at i) (b.at i) then -1 else 0)
    let d ← lift (Val.fromV128I 8 c)
    push d
  -- 3190-3195
  | .f64x2_ne => do
    let b ← popLanesF64
    let a ← popLanesF64
    let c := (List.range 2).map (fun i => if !F64.eq (a.at i) (b.at i) then -1 else 0)
    let d ← lift (Val.fromV128I 8 c)
    push d
  -- 3196-3201
  | .f64x2_lt => do
    let b ← popLanesF64
    let a ← popLanesF64
    let c := (List.range 2).map (fun i => if F64.lt (a.at i) (b.at i) then -1 else 0)
    let d ← lift (Val.fromV128I 8 c)
    push d
  -- 3202-3207
  | .f64x2_gt => do
    let b ← popLanesF64
    let a ← popLanesF64
    let c := (List.range 2).map (fun i => if F64.lt (b.at i) (a.at i) then -1 else 0)
    let d ← lift (Val.fromV128I 8 c)
    push d
  -- 3208-3213
  | .f64x2_le => do
    let b ← popLanesF64
    let a ← popLanesF64
    let c := (List.range 2).map (fun i => if F64.le (a.at i) (b.at i) then -1 else 0)
    let d ← lift (Val.fromV128I 8 c)
    push d
  -- 3214-3219
  | .f64x2_ge => do
    let b ← popLanesF64
    let a ← popLanesF64
    let c := (List.range 2).map (fun i => if F64.le (b.at i) (a.at i) then -1 else 0)
    let d ← lift (Val.fromV128I 8 c)
    push d
  -- 3220-3223
  | .v128_not => do
    let a ← popV128
    let b ← lift (do Val.fromV128 (← Py.bytearray (a.map (fun e => Arith.U.fit 1 (Py.inv e.toNat)))))
    push b
  -- 3224-3228
  | .v128_and => do
    let b ← popV128
    let a ← popV128
    let c ← lift (do Val.fromV128 (← Py.bytearray ((List.range 16).map (fun i => Py.and (a.at i).toNat (b.at i).toNat))))
    push c
  -- 3229-3233
  | .v128_andnot => do
    let b ← popV128
    let a ← popV128
    let c ← lift (do Val.fromV128 (← Py.bytearray ((List.range 16).map (fun i => Py.and (a.at i).toNat (Py.inv (b.at i).toNat)))))
    push c
  -- 3234-3238
  | .v128_or => do
    let b ← popV128
    let a ← popV128
    let c ← lift (do Val.fromV128 (← Py.bytearray ((List.range 16).map (fun i => Py.or (a.at i).toNat (b.at i).toNat))))
    push c
  -- 3239-3243
  | .v128_xor => do
    let b ← popV128
    let a ← popV128
    let c ← lift (do Val.fromV128 (← Py.bytearray ((List.range 16).map (fun i => Py.xor (a.at i).toNat (b.at i).toNat))))
    push c
  -- 3244-3249
  | .v128_bitselect => do
    let c ← popV128
    let b ← popV128
    let a ← popV128
    let d ← lift (do Val.fromV128 (← Py.bytearray ((List.range 16).map (fun i => Py.or (Py.and (a.at i).toNat (c.at i).toNat) (Py.and (b.at i).toNat (Py.inv (c.at i).toNat))))))
    push d
  -- 3250-3254
  | .v128_any_true => do
    let a ← popV128
    let b : Int := if a.any (fun e => e ≠ 0) then 1 else 0
    let c ← lift (Val.fromI32 b)
    push c
  -- 3317-3321
  | .f32x4_demote_f64x2_zero => do
    let a ← popLanesF64
    let b := a ++ [F64.zero, F64.zero]
    let c ← lift (Val.fromV128F32 b)
    push c
  -- 3322-3326
  | .f64x2_promote_low_f32x4 => do
    let a ← popLanesF32
    let b := a.take 2
    let c ← lift (Val.fromV128F64 b)
    push c
  -- 3327-3331
  | .i8x16_abs => do
    let a ← popLanesI8
    let b := a.map (fun e => Arith.I.fit 1 (e.natAbs))
    let c ← lift (Val.fromV128I 1 b)
    push c
  -- 3332-3336
  | .i8x16_neg => do
    let a ← popLanesI8
    let b := a.map (fun e => Arith.I.fit 1 (-e))
    let c ← lift (Val.fromV128I 1 b)
    push c
  -- 3337-3341
  | .i8x16_popcnt => do
    let a ← popLanesU8
    let b := a.map (fun e => Arith.U.popcnt 1 e)
    let c ← lift (Val.fromV128U 1 b)
    push c
  -- 3342-3346
  | .i8x16_all_true => do
    let a ← popLanesI8
    let b : Int := if a.all (fun e => e ≠ 0) then 1 else 0
    let c ← lift (Val.fromI32 b)
    push c
  -- 3347-3354
  | .i8x16_bitmask => do
    let a ← popLanesI8
    let b := (List.range 16).foldl (fun b i => if a.at i < 0 then Py.or b (Py.shl 1 i) else b) 0
    let c ← lift (Val.fromI32 b)
    push c
  -- 3355-3361
  | .i8x16_narrow_i16x8_s => do
    let b ← popLanesI 2
    let a ← popLanesI 2
    let c := a ++ b
    let d := c.map (fun e => Arith.I.sat 1 e)
    let e ← lift (Val.fromV128I 1 d)
    push e
  -- 3362-3368
  | .i8x16_narrow_i16x8_u => do
    let b ← popLanesI 2
    let a ← popLanesI 2
    let c := a ++ b
    let d := c.map (fun e => Arith.U.sat 1 e)
    let e ← lift (Val.fromV128U 1 d)
    push e
  -- 3369-3373
  | .f32x4_ceil => do
    let a ← popLanesF32
    let b ← lift (a.mapM (fun e => if e.isNaN || e.isInf then .ok e else F64.ofInt (F64.ceil e)))
    let c ← lift (Val.fromV128F32 b)
    push c
  -- 3374-3378
  | .f32x4_floor => do
    let a ← popLanesF32
    let b ← lift (a.mapM (fun e => if e.isNaN || e.isInf then .ok e else F64.ofInt (F64.floor e)))
    let c ← lift (Val.fromV128F32 b)
    push c
  -- 3379-3383
  | .f32x4_trunc => do
    let a ← popLanesF32
    let b ← lift (a.mapM (fun e => if e.isNaN || e.isInf then .ok e else F64.ofInt (F64.trunc e)))
    let c ← lift (Val.fromV128F32 b)
    push c
  -- 3384-3388
  | .f32x4_nearest => do
    let a ← popLanesF32
    let b ← lift (a.mapM (fun e => if e.isNaN || e.isInf then .ok e else F64.ofInt (F64.roundEven e)))
    let c ← lift (Val.fromV128F32 b)
    push c
  -- 3389-3393
  | .i8x16_shl => do
    let b ← popI32
    let a ← popLanesI8
    let c ← lift (Val.fromV128I 1 (a.map (fun e => Arith.I.shl 1 e b)))
    push c
  -- 3394-3398
  | .i8x16_shr_s => do
    let b ← popI32
    let a ← popLanesI8
    let c ← lift (Val.fromV128I 1 (a.map (fun e => Arith.I.shr 1 e b)))
    push c
  -- 3399-3403
  | .i8x16_shr_u => do
    let b ← popI32
    let a ← popLanesU8
    let c ← lift (Val.fromV128U 1 (a.map (fun e => Arith.U.shr 1 e b)))
    push c
  -- 3404-3409
  | .i8x16_add => do
    let b ← popLanesI8
    let a ← popLanesI8
    let c := (List.range 16).map (fun i => Arith.I.add 1 (a.at i) (b.at i))
    let d ← lift (Val.fromV128I 1 c)
    push d
  -- 3410-3415
  | .i8x16_add_sat_s => do
    let b ← popLanesI8
    let a ← popLanesI8
    let c := (List.range 16).map (fun i => Arith.I.addSat 1 (a.at i) (b.at i))
    let d ← lift (Val.fromV128I 1 c)
    push d
  -- 3416-3421
  | .i8x16_add_sat_u => do
    let b ← popLanesU8
    let a ← popLanesU8
    let c := (List.range 16).map (fun i => Arith.U.addSat 1 (a.at i) (b.at i))
    let d ← lift (Val.fromV128U 1 c)
    push d
  -- 3422-3427
  | .i8x16_sub => do
    let b ← popLanesI8
    let a ← popLanesI8
    let c := (List.range 16).map (fun i => Arith.I.sub 1 (a.at i) (b.at i))
    let d ← lift (Val.fromV128I 1 c)
    push d
  -- 3428-3433
  | .i8x16_sub_sat_s => do
    let b ← popLanesI8
    let a ← popLanesI8
    let c := (List.range 16).map (fun i => Arith.I.subSat 1 (a.at i) (b.at i))
    let d ← lift (Val.fromV128I 1 c)
    push d
  -- 3434-3439
  | .i8x16_sub_sat_u => do
    let b ← popLanesU8
    let a ← popLanesU8
    let c := (List.range 16).map (fun i => Arith.U.subSat 1 (a.at i) (b.at i))
    let d ← lift (Val.fromV128U 1 c)
    push d
  -- 3440-3444
  | .f64x2_ceil => do
    let a ← popLanesF64
    let b ← lift (a.mapM (fun e => if e.isNaN || e.isInf then .ok e else F64.ofInt (F64.ceil e)))
    let c ← lift (Val.fromV128F64 b)
    push c
  -- 3445-3449
  | .f64x2_floor => do
    let a ← popLanesF64
    let b ← lift (a.mapM (fun e => if e.isNaN || e.isInf then .ok e else F64.ofInt (F64.floor e)))
    let c ← lift (Val.fromV128F64 b)
    push c
  -- 3450-3455
  | .i8x16_min_s => do
    let b ← popLanesI8
    let a ← popLanesI8
    let c := (List.range 16).map (fun i => min (a.at i) (b.at i))
    let d ← lift (Val.fromV128I 1 c)
    push d
  -- 3456-3461
  | .i8x16_min_u => do
    let b ← popLanesU8
    let a ← popLanesU8
    let c := (List.range 16).map (fun i => min (a.at i) (b.at i))
    let d ← lift (Val.fromV128U 1 c)
    push d
  -- 3462-3467
  | .i8x16_max_s => do
    let b ← popLanesI8
    let a ← popLanesI8
    let c := (List.range 16).map (fun i => max (a.at i) (b.at i))
    let d ← lift (Val.fromV128I 1 c)
    push d
  -- 3468-3473
  | .i8x16_max_u => do
    let b ← popLanesU8
    let a ← popLanesU8
    let c := (List.range 16).map (fun i => max (a.at i) (b.at i))
    let d ← lift (Val.fromV128U 1 c)
    push d
  -- 3474-3478
  | .f64x2_trunc => do
    let a ← popLanesF64
    let b ← lift (a.mapM (fun e => if e.isNaN || e.isInf then .ok e else F64.ofInt (F64.trunc e)))
    let c ← lift (Val.fromV128F64 b)
    push c
  -- 3479-3484
  | .i8x16_avgr_u => do
    let b ← popLanesU8
    let a ← popLanesU8
    let c := (List.range 16).map (fun i => Int.fdiv (a.at i + b.at i + 1) 2)
    let d ← lift (Val.fromV128U 1 c)
    push d
  -- 3485-3489
  | .i16x8_extadd_pairwise_i8x16_s => do
    let a ← popLanesI8
    let b := (List.range' 0 8 2).map (fun i => a.at i + a.at (i + 1))
    let c ← lift (Val.fromV128I 2 b)
    push c
  -- 3490-3494
  | .i16x8_extadd_pairwise_i8x16_u => do
    let a ← popLanesU8
    let b := (List.range' 0 8 2).map (fun i => a.at i + a.at (i + 1))
    let c ← lift (Val.fromV128U 2 b)
    push c
  -- 3495-3499
  | .i32x4_extadd_pairwise_i16x8_s => do
    let a ← popLanesI 2
    let b := (List.range' 0 4 2).map (fun i => a.at i + a.at (i + 1))
    let c ← lift (Val.fromV128I 4 b)
    push c
  -- 3500-3504
  | .i32x4_extadd_pairwise_i16x8_u => do
    let a ← popLanesU 2
    let b := (List.range' 0 4 2).map (fun i => a.at i + a.at (i + 1))
    let c ← lift (Val.fromV128U 4 b)
    push c
  -- 3505-3509
  | .i16x8_abs => do
    let a ← popLanesI 2
    let b := a.map (fun e => Arith.I.fit 2 (e.natAbs))
    let c ← lift (Val.fromV128I 2 b)
    push c
  -- 3510-3514
  | .i16x8_neg => do
    let a ← popLanesI 2
    let b := a.map (fun e => Arith.I.fit 2 (-e))
    let c ← lift (Val.fromV128I 2 b)
    push c
  -- 3515-3520
  | .i16x8_q15mulr_sat_s => do
    let b ← popLanesI 2
    let a ← popLanesI 2
    let c := (List.range 8).map (fun i => Arith.I.sat 2 (Py.shr (a.at i * b.at i + 0x4000) 15))
    let d ← lift (Val.fromV128I 2 c)
    push d
  -- 3521-3525
  | .i16x8_all_true => do
    let a ← popLanesI 2
    let b : Int := if a.all (fun e => e ≠ 0) then 1 else 0
    let c ← lift (Val.fromI32 b)
    push c
  -- 3526-3533
  | .i16x8_bitmask => do
    let a ← popLanesI 2
    let b := (List.range 8).foldl (fun b i => if a.at i < 0 then Py.or b (Py.shl 1 i) else b) 0
    let c ← lift (Val.fromI32 b)
    push c
  -- 3534-3540
  | .i16x8_narrow_i32x4_s => do
    let b ← popLanesI 4
    let a ← popLanesI 4
    let c := a ++ b
    let d := c.map (fun e => Arith.I.sat 2 e)
    let e ← lift (Val.fromV128I 2 d)
    push e
  -- 3541-3547
  | .i16x8_narrow_i32x4_u => do
    let b ← popLanesI 4
    let a ← popLanesI 4
    let c := a ++ b
    let d := c.map (fun e => Arith.U.sat 2 e)
    let e ← lift (Val.fromV128U 2 d)
    push e
  -- 3548-3551
  | .i16x8_extend_low_i8x16_s => do
    let a := (← popLanesI8).take 8
    let b ← lift (Val.fromV128I 2 a)
    push b
  -- 3552-3555
  | .i16x8_extend_high_i8x16_s => do
    let a := (← popLanesI8).drop 8
    let b ← lift (Val.fromV128I 2 a)
    push b
  -- 3556-3559
  | .i16x8_extend_low_i8x16_u => do
    let a := (← popLanesU8).take 8
    let b ← lift (Val.fromV128I 2 a)
    push b
  -- 3560-3563
  | .i16x8_extend_high_i8x16_u => do
    let a := (← popLanesU8).drop 8
    let b ← lift (Val.fromV128I 2 a)
    push b
  -- 3564-3568
  | .i16x8_shl => do
    let b ← popI32
    let a ← popLanesI 2
    let c ← lift (Val.fromV128I 2 (a.map (fun e => Arith.I.shl 2 e b)))
    push c
  -- 3569-3573
  | .i16x8_shr_s => do
    let b ← popI32
    let a ← popLanesI 2
    let c ← lift (Val.fromV128I 2 (a.map (fun e => Arith.I.shr 2 e b)))
    push c
  -- 3574-3578
  | .i16x8_shr_u => do
    let b ← popI32
    let a ← popLanesU 2
    let c ← lift (Val.fromV128U 2 (a.map (fun e => Arith.U.shr 2 e b)))
    push c
  -- 3579-3584
  | .i16x8_add => do
    let b ← popLanesI 2
    let a ← popLanesI 2
    let c := (List.range 8).map (fun i => Arith.I.add 2 (a.at i) (b.at i))
    let d ← lift (Val.fromV128I 2 c)
    push d
  -- 3585-3590
  | .i16x8_add_sat_s => do
    let b ← popLanesI 2
    let a ← popLanesI 2
    let c := (List.range 8).map (fun i => Arith.I.addSat 2 (a.at i) (b.at i))
    let d ← lift (Val.fromV128I 2 c)
    push d
  -- 3591-3596
  | .i16x8_add_sat_u => do
    let b ← popLanesU 2
    let a ← popLanesU 2
    let c := (List.range 8).map (fun i => Arith.U.addSat 2 (a.at i) (b.at i))
    let d ← lift (Val.fromV128U 2 c)
    push d
  -- 3597-3602
  | .i16x8_sub => do
    let b ← popLanesI 2
    let a ← popLanesI 2
    let c := (List.range 8).map (fun i => Arith.I.sub 2 (a.at i) (b.at i))
    let d ← lift (Val.fromV128I 2 c)
    push d
  -- 3603-3608
  | .i16x8_sub_sat_s => do
    let b ← popLanesI 2
    let a ← popLanesI 2
    let c := (List.range 8).map (fun i => Arith.I.subSat 2 (a.at i) (b.at i))
    let d ← lift (Val.fromV128I 2 c)
    push d
  -- 3609-3614
  | .i16x8_sub_sat_u => do
    let b ← popLanesU 2
    let a ← popLanesU 2
    let c := (List.range 8).map (fun i => Arith.U.subSat 2 (a.at i) (b.at i))
    let d ← lift (Val.fromV128U 2 c)
    push d
  -- 3615-3619
  | .f64x2_nearest => do
    let a ← popLanesF64
    let b ← lift (a.mapM (fun e => if e.isNaN || e.isInf then .ok e else F64.ofInt (F64.roundEven e)))
    let c ← lift (Val.fromV128F64 b)
    push c
  -- 3620-3625
  | .i16x8_mul => do
    let b ← popLanesI 2
    let a ← popLanesI 2
    let c := (List.range 8).map (fun i => Arith.I.mul 2 (a.at i) (b.at i))
    let d ← lift (Val.fromV128I 2 c)
    push d
  -- 3626-3631
  | .i16x8_min_s => do
    let b ← popLanesI 2
    let a ← popLanesI 2
    let c := (List.range 8).map (fun i => min (a.at i) (b.at i))
    let d ← lift (Val.fromV128I 2 c)
    push d
  -- 3632-3637
  | .i16x8_min_u => do
    let b ← popLanesU 2
    let a ← popLanesU 2
    let c := (List.range 8).map (fun i => min (a.at i) (b.at i))
    let d ← lift (Val.fromV128U 2 c)
    push d
  -- 3638-3643
  | .i16x8_max_s => do
    let b ← popLanesI 2
    let a ← popLanesI 2
    let c := (List.range 8).map (fun i => max (a.at i) (b.at i))
    let d ← lift (Val.fromV128I 2 c)
    push d
  -- 3644-3649
  | .i16x8_max_u => do
    let b ← popLanesU 2
    let a ← popLanesU 2
    let c := (List.range 8).map (fun i => max (a.at i) (b.at i))
    let d ← lift (Val.fromV128U 2 c)
    push d
  -- 3650-3655
  | .i16x8_avgr_u => do
    let b ← popLanesU 2
    let a ← popLanesU 2
    let c := (List.range 8).map (fun i => Int.fdiv (a.at i + b.at i + 1) 2)
    let d ← lift (Val.fromV128U 2 c)
    push d
  -- 3656-3661
  | .i16x8_extmul_low_i8x16_s => do
    let b ← popLanesI8
    let a ← popLanesI8
    let c := (List.range 8).map (fun i => a.at i * b.at i)
    let d ← lift (Val.fromV128I 2 c)
    push d
  -- 3662-3667
  | .i16x8_extmul_high_i8x16_s => do
    let b ← popLanesI8
    let a ← popLanesI8
    let c := (List.range' 8 8).map (fun i => a.at i * b.at i)
    let d ← lift (Val.fromV128I 2 c)
    push d
  -- 3668-3673
  | .i16x8_extmul_low_i8x16_u => do
    let b ← popLanesU8
    let a ← popLanesU8
    let c := (List.range 8).map (fun i => a.at i * b.at i)
    let d ← lift (Val.fromV128U 2 c)
    push d
  -- 3674-3679
  | .i16x8_extmul_high_i8x16_u => do
    let b ← popLanesU8
    let a ← popLanesU8
    let c := (List.range' 8 8).map (fun i => a.at i * b.at i)
    let d ← lift (Val.fromV128U 2 c)
    push d
  -- 3680-3684
  | .i32x4_abs => do
    let a ← popLanesI 4
    let b := a.map (fun e => Arith.I.fit 4 (e.natAbs))
    let c ← lift (Val.fromV128I 4 b)
    push c
  -- 3685-3689
  | .i32x4_neg => do
    let a ← popLanesI 4
    let b := a.map (fun e => Arith.I.fit 4 (-e))
    let c ← lift (Val.fromV128I 4 b)
    push c
  -- 3690-3694
  | .i32x4_all_true => do
    let a ← popLanesI 4
    let b : Int := if a.all (fun e => e ≠ 0) then 1 else 0
    let c ← lift (Val.fromI32 b)
    push c
  -- 3695-3702
  | .i32x4_bitmask => do
    let a ← popLanesI 4
    let b := (List.range 4).foldl (fun b i => if a.at i < 0 then Py.or b (Py.shl 1 i) else b) 0
    let c ← lift (Val.fromI32 b)
    push c
  -- 3703-3706
  | .i32x4_extend_low_i16x8_s => do
    let a := (← popLanesI 2).take 4
    let b ← lift (Val.fromV128I 4 a)
    push b
  -- 3707-3710
  | .i32x4_extend_high_i16x8_s => do
    let a := (← popLanesI 2).drop 4
    let b ← lift (Val.fromV128I 4 a)
    push b
  -- 3711-3714
  | .i32x4_extend_low_i16x8_u => do
    let a := (← popLanesU 2).take 4
    let b ← lift (Val.fromV128I 4 a)
    push b
  -- 3715-3718
  | .i32x4_extend_high_i16x8_u => do
    let a := (← popLanesU 2).drop 4
    let b ← lift (Val.fromV128I 4 a)
    push b
  -- 3719-3723
  | .i32x4_shl => do
    let b ← popI32
    let a ← popLanesI 4
    let c ← lift (Val.fromV128I 4 (a.map (fun e => Arith.I.shl 4 e b)))
    push c
  -- 3724-3728
  | .i32x4_shr_s => do
    let b ← popI32
    let a ← popLanesI 4
    let c ← lift (Val.fromV128I 4 (a.map (fun e => Arith.I.shr 4 e b)))
    push c
  -- 3729-3733
  | .i32x4_shr_u => do
    let b ← popI32
    let a ← popLanesU 4
    let c ← lift (Val.fromV128U 4 (a.map (fun e => Arith.U.shr 4 e b)))
    push c
  -- 3734-3739
  | .i32x4_add => do
    let b ← popLanesI 4
    let a ← popLanesI 4
    let c := (List.range 4).map (fun i => Arith.I.add 4 (a.at i) (b.at i))
    let d ← lift (Val.fromV128I 4 c)
    push d
  -- 3740-3745
  | .i32x4_sub => do
    let b ← popLanesI 4
    let a ← popLanesI 4
    let c := (List.range 4).map (fun i => Arith.I.sub 4 (a.at i) (b.at i))
    let d ← lift (Val.fromV128I 4 c)
    push d
  -- 3746-3751
  | .i32x4_mul => do
    let b ← popLanesI 4
    let a ← popLanesI 4
    let c := (List.range 4).map (fun i => Arith.I.mul 4 (a.at i) (b.at i))
    let d ← lift (Val.fromV128I 4 c)
    push d
  -- 3752-3757
  | .i32x4_min_s => do
    let b ← popLanesI 4
    let a ← popLanesI 4
    let c := (List.range 4).map (fun i => min (a.at i) (b.at i))
    let d ← lift (Val.fromV128I 4 c)
    push d
  -- 3758-3763
  | .i32x4_min_u => do
    let b ← popLanesU 4
    let a ← popLanesU 4
    let c := (List.range 4).map (fun i => min (a.at i) (b.at i))
    let d ← lift (Val.fromV128U 4 c)
    push d
  -- 3764-3769
  | .i32x4_max_s => do
    let b ← popLanesI 4
    let a ← popLanesI 4
    let c := (List.range 4).map (fun i => max (a.at i) (b.at i))
    let d ← lift (Val.fromV128I 4 c)
    push d
  -- 3770-3775
  | .i32x4_max_u => do
    let b ← popLanesU 4
    let a ← popLanesU 4
    let c := (List.range 4).map (fun i => max (a.at i) (b.at i))
    let d ← lift (Val.fromV128U 4 c)
    push d
  -- 3776-3781
  | .i32x4_dot_i16x8_s => do
    let b ← popLanesI 2
    let a ← popLanesI 2
    let c := (List.range 4).map (fun i => Arith.I.fit 4 (a.at (i * 2) * b.at (i * 2) + a.at (i * 2 + 1) * b.at (i * 2 + 1)))
    let d ← lift (Val.fromV128I 4 c)
    push d
  -- 3782-3787
  | .i32x4_extmul_low_i16x8_s => do
    let b ← popLanesI 2
    let a ← popLanesI 2
    let c := (List.range 4).map (fun i => a.at i * b.at i)
    let d ← lift (Val.fromV128I 4 c)
    push d
  -- 3788-3793
  | .i32x4_extmul_high_i16x8_s => do
    let b ← popLanesI 2
    let a ← popLanesI 2
    let c := (List.range' 4 4).map (fun i => a.at i * b.at i)
    let d ← lift (Val.fromV128I 4 c)
    push d
  -- 3794-3799
  | .i32x4_extmul_low_i16x8_u => do
    let b ← popLanesU 2
    let a ← popLanesU 2
    let c := (List.range 4).map (fun i => a.at i * b.at i)
    let d ← lift (Val.fromV128U 4 c)
    push d
  -- 3800-3805
  | .i32x4_extmul_high_i16x8_u => do
    let b ← popLanesU 2
    let a ← popLanesU 2
    let c := (List.range' 4 4).map (fun i => a.at i * b.at i)
    let d ← lift (Val.fromV128U 4 c)
    push d
  -- 3806-3810
  | .i64x2_abs => do
    let a ← popLanesI 8
    let b := a.map (fun e => Arith.I.fit 8 (e.natAbs))
    let c ← lift (Val.fromV128I 8 b)
    push c
  -- 3811-3815
  | .i64x2_neg => do
    let a ← popLanesI 8
    let b := a.map (fun e => Arith.I.fit 8 (-e))
    let c ← lift (Val.fromV128I 8 b)
    push c
  -- 3816-3820
  | .i64x2_all_true => do
    let a ← popLanesI 8
    let b : Int := if a.all (fun e => e ≠ 0) then 1 else 0
    let c ← lift (Val.fromI32 b)
    push c
  -- 3821-3828
  | .i64x2_bitmask => do
    let a ← popLanesI 8
    let b := (List.range 2).foldl (fun b i => if a.at i < 0 then Py.or b (Py.shl 1 i) else b) 0
    let c ← lift (Val.fromI32 b)
    push c
  -- 3829-3832
  | .i64x2_extend_low_i32x4_s => do
    let a := (← popLanesI 4).take 2
    let b ← lift (Val.fromV128I 8 a)
    push b
  -- 3833-3836
  | .i64x2_extend_high_i32x4_s => do
    let a := (← popLanesI 4).drop 2
    let b ← lift (Val.fromV128I 8 a)
    push b
  -- 3837-3840
  | .i64x2_extend_low_i32x4_u => do
    let a := (← popLanesU 4).take 2
    let b ← lift (Val.fromV128I 8 a)
    push b
  -- 3841-3844
  | .i64x2_extend_high_i32x4_u => do
    let a := (← popLanesU 4).drop 2
    let b ← lift (Val.fromV128I 8 a)
    push b
  -- 3845-3849
  | .i64x2_shl => do
    let b ← popI32
    let a ← popLanesI 8
    let c ← lift (Val.fromV128I 8 (a.map (fun e => Arith.I.shl 8 e b)))
    push c
  -- 3850-3854
  | .i64x2_shr_s => do
    let b ← popI32
    let a ← popLanesI 8
    let c ← lift (Val.fromV128I 8 (a.map (fun e => Arith.I.shr 8 e b)))
    push c
  -- 3855-3859
  | .i64x2_shr_u => do
    let b ← popI32
    let a ← popLanesU 8
    let c ← lift (Val.fromV128U 8 (a.map (fun e => Arith.U.shr 8 e b)))
    push c
  -- 3860-3865
  | .i64x2_add => do
    let b ← popLanesI 8
    let a ← popLanesI 8
    let c := (List.range 2).map (fun i => Arith.I.add 8 (a.at i) (b.at i))
    let d ← lift (Val.fromV128I 8 c)
    push d
  -- 3866-3871
  | .i64x2_sub => do
    let b ← popLanesI 8
    let a ← popLanesI 8
    let c := (List.range 2).map (fun i => Arith.I.sub 8 (a.at i) (b.at i))
    let d ← lift (Val.fromV128I 8 c)
    push d
  -- 3872-3877
  | .i64x2_mul => do
    let b ← popLanesI 8
    let a ← popLanesI 8
    let c := (List.range 2).map (fun i => Arith.I.mul 8 (a.at i) (b.at i))
    let d ← lift (Val.fromV128I 8 c)
    push d
  -- 3878-3883
  | .i64x2_eq => do
    let b ← popLanesI 8
    let a ← popLanesI 8
    let c := (List.range 2).map (fun i => if a.at i = b.at i then -1 else 0)
    let d ← lift (Val.fromV128I 8 c)
    push d
  -- 3884-3889
  | .i64x2_ne => do
    let b ← popLanesI 8
    let a ← popLanesI 8
    let c := (List.range 2).map (fun i => if a.at i ≠ b.at i then -1 else 0)
    let d ← lift (Val.fromV128I 8 c)
    push d
  -- 3890-3895
  | .i64x2_lt_s => do
    let b ← popLanesI 8
    let a ← popLanesI 8
    let c := (List.range 2).map (fun i => if a.at i < b.at i then -1 else 0)
    let d ← lift (Val.fromV128I 8 c)
    push d
  -- 3896-3901
  | .i64x2_gt_s => do
    let b ← popLanesI 8
    let a ← popLanesI 8
    let c := (List.range 2).map (fun i => if a.at i > b.at i then -1 else 0)
    let d ← lift (Val.fromV128I 8 c)
    push d
  -- 3902-3907
  | .i64x2_le_s => do
    let b ← popLanesI 8
    let a ← popLanesI 8
    let c := (List.range 2).map (fun i => if a.at i ≤ b.at i then -1 else 0)
    let d ← lift (Val.fromV128I 8 c)
    push d
  -- 3908-3913
  | .i64x2_ge_s => do
    let b ← popLanesI 8
    let a ← popLanesI 8
    let c := (List.range 2).map (fun i => if a.at i ≥ b.at i then -1 else 0)
    let d ← lift (Val.fromV128I 8 c)
    push d
  -- 3914-3919
  | .i64x2_extmul_low_i32x4_s => do
    let b ← popLanesI 4
    let a ← popLanesI 4
    let c := (List.range 2).map (fun i => a.at i * b.at i)
    let d ← lift (Val.fromV128I 8 c)
    push d
  -- 3920-3925
  | .i64x2_extmul_high_i32x4_s => do
    let b ← popLanesI 4
    let a ← popLanesI 4
    let c := (List.range' 2 2).map (fun i => a.at i * b.at i)
    let d ← lift (Val.fromV128I 8 c)
    push d
  -- 3926-3931
  | .i64x2_extmul_low_i32x4_u => do
    let b ← popLanesU 4
    let a ← popLanesU 4
    let c := (List.range 2).map (fun i => a.at i * b.at i)
    let d ← lift (Val.fromV128U 8 c)
    push d
  -- 3932-3937
  | .i64x2_extmul_high_i32x4_u => do
    let b ← popLanesU 4
    let a ← popLanesU 4
    let c := (List.range' 2 2).map (fun i => a.at i * b.at i)
    let d ← lift (Val.fromV128U 8 c)
    push d
  -- 3938-3942
  | .f32x4_abs => do
    let a ← popLanesF32
    let b := a.map (fun e => F64.abs e)
    let c ← lift (Val.fromV128F32 b)
    push c
  -- 3943-3947
  | .f32x4_neg => do
    let a ← popLanesF32
    let b := a.map (fun e => F64.neg e)
    let c ← lift (Val.fromV128F32 b)
    push c
  -- 3948-3952
  | .f32x4_sqrt => do
    let a ← popLanesF32
    let b := a.map (fun e => if F64.le F64.zero e then F64.sqrt e else F64.nan)
    let c ← lift (Val.fromV128F32 b)
    push c
  -- 3953-3958
  | .f32x4_add => do
    let b ← popLanesF32
    let a ← popLanesF32
    let c := (List.range 4).map (fun i => F64.add (a.at i) (b.at i))
    let d ← lift (Val.fromV128F32 c)
    push d
  -- 3959-3964
  | .f32x4_sub => do
    let b ← popLanesF32
    let a ← popLanesF32
    let c := (List.range 4).map (fun i => F64.sub (a.at i) (b.at i))
    let d ← lift (Val.fromV128F32 c)
    push d
  -- 3965-3970
  | .f32x4_mul => do
    let b ← popLanesF32
    let a ← popLanesF32
    let c := (List.range 4).map (fun i => F64.mul (a.at i) (b.at i))
    let d ← lift (Val.fromV128F32 c)
    push d
  -- 3971-3976
  | .f32x4_div => do
    let b ← popLanesF32
    let a ← popLanesF32
    let c := (List.range 4).map (fun i => Arith.F32.div (a.at i) (b.at i))
    let d ← lift (Val.fromV128F32 c)
    push d
  -- 3977-3982
  | .f32x4_min => do
    let b ← popLanesF32
    let a ← popLanesF32
    let c := (List.range 4).map (fun i => Arith.F32.min (a.at i) (b.at i))
    let d ← lift (Val.fromV128F32 c)
    push d
  -- 3983-3988
  | .f32x4_max => do
    let b ← popLanesF32
    let a ← popLanesF32
    let c := (List.range 4).map (fun i => Arith.F32.max (a.at i) (b.at i))
    let d ← lift (Val.fromV128F32 c)
    push d
  -- 3989-3994
  | .f32x4_pmin => do
    let b ← popLanesF32
    let a ← popLanesF32
    let c := (List.range 4).map (fun i => F64.pyMin (a.at i) (b.at i))
    let d ← lift (Val.fromV128F32 c)
    push d
  -- 3995-4000
  | .f32x4_pmax => do
    let b ← popLanesF32
    let a ← popLanesF32
    let c := (List.range 4).map (fun i => F64.pyMax (a.at i) (b.at i))
    let d ← lift (Val.fromV128F32 c)
    push d
  -- 4001-4005
  | .f64x2_abs => do
    let a ← popLanesF64
    let b := a.map (fun e => F64.abs e)
    let c ← lift (Val.fromV128F64 b)
    push c
  -- 4006-4010
  | .f64x2_neg => do
    let a ← popLanesF64
    let b := a.map (fun e => F64.neg e)
    let c ← lift (Val.fromV128F64 b)
    push c
  -- 4011-4015
  | .f64x2_sqrt => do
    let a ← popLanesF64
    let b := a.map (fun e => if F64.le F64.zero e then F64.sqrt e else F64.nan)
    let c ← lift (Val.fromV128F64 b)
    push c
  -- 4016-4021
  | .f64x2_add => do
    let b ← popLanesF64
    let a ← popLanesF64
    let c := (List.range 2).map (fun i => F64.add (a.at i) (b.at i))
    let d ← lift (Val.fromV128F64 c)
    push d
  -- 4022-4027
  | .f64x2_sub => do
    let b ← popLanesF64
    let a ← popLanesF64
    let c := (List.range 2).map (fun i => F64.sub (a.at i) (b.at i))
    let d ← lift (Val.fromV128F64 c)
    push d
  -- 4028-4033
  | .f64x2_mul => do
    let b ← popLanesF64
    let a ← popLanesF64
    let c := (List.range 2).map (fun i => F64.mul (a.at i) (b.at i))
    let d ← lift (Val.fromV128F64 c)
    push d
  -- 4034-4039
  | .f64x2_div => do
    let b ← popLanesF64
    let a ← popLanesF64
    let c := (List.range 2).map (fun i => Arith.F64.div (a.at i) (b.at i))
    let d ← lift (Val.fromV128F64 c)
    push d
  -- 4040-4045
  | .f64x2_min => do
    let b ← popLanesF64
    let a ← popLanesF64
    let c := (List.range 2).map (fun i => Arith.F64.min (a.at i) (b.at i))
    let d ← lift (Val.fromV128F64 c)
    push d
  -- 4046-4051
  | .f64x2_max => do
    let b ← popLanesF64
    let a ← popLanesF64
    let c := (List.range 2).map (fun i => Arith.F64.max (a.at i) (b.at i))
    let d ← lift (Val.fromV128F64 c)
    push d
  -- 4052-4057
  | .f64x2_pmin => do
    let b ← popLanesF64
    let a ← popLanesF64
    let c := (List.range 2).map (fun i => F64.pyMin (a.at i) (b.at i))
    let d ← lift (Val.fromV128F64 c)
    push d
  -- 4058-4063
  | .f64x2_pmax => do
    let b ← popLanesF64
    let a ← popLanesF64
    let c := (List.range 2).map (fun i => F64.pyMax (a.at i) (b.at i))
    let d ← lift (Val.fromV128F64 c)
    push d
  -- 4064-4069
  | .i32x4_trunc_sat_f32x4_s => do
    let a ← popLanesF32
    let b := a.map (fun e => if e.isNaN then F64.zero else e)
    let c ← lift (b.mapM (fun e => satInt (Arith.I.min 4) (Arith.I.max 4) e))
    let d ← lift (Val.fromV128I 4 c)
    push d
  -- 4070-4075
  | .i32x4_trunc_sat_f32x4_u => do
    let a ← popLanesF32
    let b := a.map (fun e => if e.isNaN then F64.zero else e)
    let c ← lift (b.mapM (fun e => satInt (Arith.U.min 4) (Arith.U.max 4) e))
    let d ← lift (Val.fromV128U 4 c)
    push d
  -- 4076-4079
  | .f32x4_convert_i32x4_s => do
    let a ← popLanesI 4
    let b ← lift (do Val.fromV128F32 (← a.mapM (fun e => F64.ofInt e)))
    push b
  -- 4080-4083
  | .f32x4_convert_i32x4_u => do
    let a ← popLanesU 4
    let b ← lift (do Val.fromV128F32 (← a.mapM (fun e => F64.ofInt e)))
    push b
  -- 4084-4090
  | .i32x4_trunc_sat_f64x2_s_zero => do
    let a ← popLanesF64
    let b := a.map (fun e => if e.isNaN then F64.zero else e)
    let c ← lift (b.mapM (fun e => satInt (Arith.I.min 4) (Arith.I.max 4) e))
    let c := c ++ [0, 0]
    let d ← lift (Val.fromV128I 4 c)
    push d
  -- 4091-4097
  | .i32x4_trunc_sat_f64x2_u_zero => do
    let a ← popLanesF64
    let b := a.map (fun e => if e.isNaN then F64.zero else e)
    let c ← lift (b.mapM (fun e => satInt (Arith.U.min 4) (Arith.U.max 4) e))
    let c := c ++ [0, 0]
    let d ← lift (Val.fromV128U 4 c)
    push d
  -- 4098-4101
  | .f64x2_convert_low_i32x4_s => do
    let a := (← popLanesI 4).take 2
    let b ← lift (do Val.fromV128F64 (← a.mapM (fun e => F64.ofInt e)))
    push b
  -- 4102-4105
  | .f64x2_convert_low_i32x4_u => do
    let a := (← popLanesU 4).take 2
    let b ← lift (do Val.fromV128F64 (← a.mapM (fun e => F64.ofInt e)))
    push b

open VM in
/-- The vector cases of `Machine.evaluate` whose immediate `instr.args[0]` is a lane index. -/
def evalLane (op : LOp) (lane : Nat) : VM Unit :=
  match op with
  -- 2896-2899
  | .i8x16_extract_lane_s => do
    let a ← popLanesI8
    let b ← lift (do Val.fromI32 (← Py.getItem a lane))
    push b
  -- 2900-2903
  | .i8x16_extract_lane_u => do
    let a ← popLanesU8
    let b ← lift (do Val.fromI32 (← Py.getItem a lane))
    push b
  -- 2904-2909
  | .i8x16_replace_lane => do
    let b ← popI32
    let a ← popLanesI8
    let a ← lift (Py.setItem a lane (Arith.I.fit 1 b))
    let c ← lift (Val.fromV128I 1 a)
    push c
  -- 2910-2913
  | .i16x8_extract_lane_s => do
    let a ← popLanesI 2
    let b ← lift (do Val.fromI32 (← Py.getItem a lane))
    push b
  -- 2914-2917
  | .i16x8_extract_lane_u => do
    let a ← popLanesU 2
    let b ← lift (do Val.fromI32 (← Py.getItem a lane))
    push b
  -- 2918-2923
  | .i16x8_replace_lane => do
    let b ← popI32
    let a ← popLanesI 2
    let a ← lift (Py.setItem a lane (Arith.I.fit 2 b))
    let c ← lift (Val.fromV128I 2 a)
    push c
  -- 2924-2927
  | .i32x4_extract_lane => do
    let a ← popLanesI 4
    let b ← lift (do Val.fromI32 (← Py.getItem a lane))
    push b
  -- 2928-2933
  | .i32x4_replace_lane => do
    let b ← popI32
    let a ← popLanesI 4
    let a ← lift (Py.setItem a lane (b))
    let c ← lift (Val.fromV128I 4 a)
    push c
  -- 2934-2937
  | .i64x2_extract_lane => do
    let a ← popLanesI 8
    let b ← lift (do Val.fromI64 (← Py.getItem a lane))
    push b
  -- 2938-2943
  | .i64x2_replace_lane => do
    let b ← popI64
    let a ← popLanesI 8
    let a ← lift (Py.setItem a lane (b))
    let c ← lift (Val.fromV128I 8 a)
    push c
  -- 2944-2948
  | .f32x4_extract_lane => do
    let a ← popV128
    let b := lane
    let c ← lift (Val.make .f32 (Py.slice a (b * 4) (b * 4 + 4) ++ Py.zeros (16 - 4)))
    push c
  -- 2949-2955
  | .f32x4_replace_lane => do
    let b ← popU32
    let a ← popV128
    let c := lane
    let a := Py.sliceSet a (c * 4) (c * 4 + 4) (← lift (Arith.U.intoBytearray 4 b))
    let d ← lift (Val.make .v128 a)
    push d
  -- 2956-2960
  | .f64x2_extract_lane => do
    let a ← popV128
    let b := lane
    let c ← lift (Val.make .f64 (Py.slice a (b * 8) (b * 8 + 8) ++ Py.zeros (16 - 8)))
    push c
  -- 2961-2967
  | .f64x2_replace_lane => do
    let b ← popU64
    let a ← popV128
    let c := lane
    let a := Py.sliceSet a (c * 8) (c * 8 + 8) (← lift (Arith.U.intoBytearray 8 b))
    let d ← lift (Val.make .v128 a)
    push d

open VM in
/-- core.py:2859-2865; `lanes` is `instr.args`. -/
def evalShuffle (lanes : List Nat) : VM Unit := do
  let b ← popLanesI8
  let a ← popLanesI8
  let c := a ++ b
  let d ← lift ((List.range 16).mapM (fun (i : Nat) => do Py.getItem c (← Py.getItem lanes i : Nat)))
  let e ← lift (Val.fromV128I 1 d)
  push e

end Pywasm
