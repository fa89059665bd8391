import Verif.Spec.Lanes
import Verif.Spec.Float
import Verif.Model.SimdOps

/-!
# Specification of the vector instructions on float lanes

A vector instruction on float lanes does in each lane what a scalar instruction does on the number in that lane
(WebAssembly 2.0 core specification, section 4.4.3).  The tables say which scalar instruction that is.
-/

namespace Pywasm.Spec

/-- What a lane holds. -/
inductive LaneTy where
  | i32 | f32 | f64
  deriving DecidableEq, Repr

/-- How many lanes of this type a vector has. -/
def LaneTy.count : LaneTy → Nat
  | .i32 | .f32 => 4
  | .f64 => 2

/-- Lane `i` of a vector, as the scalar operand it is. -/
def laneCell : LaneTy → BitVec 128 → Nat → Val
  | .i32, x, i => i32 (lane 32 x i)
  | .f32, x, i => f32 (lane 32 x i)
  | .f64, x, i => f64 (lane 64 x i)

/-- Instructions of one operand: the type of the source lanes and of the result lanes, how many lanes are computed (the
others, if there are more, become zero), and the scalar instruction. -/
def unaryLanes : List (VOp × LaneTy × LaneTy × Nat × FOp) :=
  [(.f32x4_ceil, .f32, .f32, 4, .f32_ceil), (.f32x4_floor, .f32, .f32, 4, .f32_floor),
   (.f32x4_trunc, .f32, .f32, 4, .f32_trunc), (.f32x4_nearest, .f32, .f32, 4, .f32_nearest),
   (.f32x4_sqrt, .f32, .f32, 4, .f32_sqrt),
   (.f64x2_ceil, .f64, .f64, 2, .f64_ceil), (.f64x2_floor, .f64, .f64, 2, .f64_floor),
   (.f64x2_trunc, .f64, .f64, 2, .f64_trunc), (.f64x2_nearest, .f64, .f64, 2, .f64_nearest),
   (.f64x2_sqrt, .f64, .f64, 2, .f64_sqrt),
   (.f32x4_demote_f64x2_zero, .f64, .f32, 2, .f32_demote_f64), (.f64x2_promote_low_f32x4, .f32, .f64, 2, .f64_promote_f32),
   (.i32x4_trunc_sat_f32x4_s, .f32, .i32, 4, .i32_trunc_sat_f32_s), (.i32x4_trunc_sat_f32x4_u, .f32, .i32, 4, .i32_trunc_sat_f32_u),
   (.i32x4_trunc_sat_f64x2_s_zero, .f64, .i32, 2, .i32_trunc_sat_f64_s),
   (.i32x4_trunc_sat_f64x2_u_zero, .f64, .i32, 2, .i32_trunc_sat_f64_u),
   (.f32x4_convert_i32x4_s, .i32, .f32, 4, .f32_convert_i32_s), (.f32x4_convert_i32x4_u, .i32, .f32, 4, .f32_convert_i32_u),
   (.f64x2_convert_low_i32x4_s, .i32, .f64, 2, .f64_convert_i32_s), (.f64x2_convert_low_i32x4_u, .i32, .f64, 2, .f64_convert_i32_u)]

/-- Instructions of two operands whose lanes and results are floats of one type. -/
def binaryLanes : List (VOp × LaneTy × FOp) :=
  [(.f32x4_add, .f32, .f32_add), (.f32x4_sub, .f32, .f32_sub), (.f32x4_mul, .f32, .f32_mul), (.f32x4_div, .f32, .f32_div),
   (.f32x4_min, .f32, .f32_min), (.f32x4_max, .f32, .f32_max),
   (.f64x2_add, .f64, .f64_add), (.f64x2_sub, .f64, .f64_sub), (.f64x2_mul, .f64, .f64_mul), (.f64x2_div, .f64, .f64_div),
   (.f64x2_min, .f64, .f64_min), (.f64x2_max, .f64, .f64_max)]

/-- Comparisons. -/
def compareLanes : List (VOp × FW × (Num → Num → Bool)) :=
  [(.f32x4_eq, .w32, Num.equal), (.f32x4_ne, .w32, fun a b => !a.equal b), (.f32x4_lt, .w32, Num.less),
   (.f32x4_gt, .w32, fun a b => b.less a), (.f32x4_le, .w32, fun a b => a.less b || a.equal b),
   (.f32x4_ge, .w32, fun a b => b.less a || b.equal a),
   (.f64x2_eq, .w64, Num.equal), (.f64x2_ne, .w64, fun a b => !a.equal b), (.f64x2_lt, .w64, Num.less),
   (.f64x2_gt, .w64, fun a b => b.less a), (.f64x2_le, .w64, fun a b => a.less b || a.equal b),
   (.f64x2_ge, .w64, fun a b => b.less a || b.equal a)]

/-- The width of a lane of a float format, and the number in a lane. -/
def FW.width : FW → Nat
  | .w32 => 32
  | .w64 => 64
def laneNum : FW → BitVec 128 → Nat → Num
  | .w32, x, i => num32 (lane 32 x i)
  | .w64, x, i => num64 (lane 64 x i)

end Pywasm.Spec
