import Verif.Spec.FloatOps

/-!
# The operands on which pywasm computes something the specification does not allow
-/

namespace Pywasm.Spec

/-- Rounding `n` to a double and that to a single does not give the single nearest to `n`. -/
def RoundsTwice (n : Nat) : Prop :=
  ∃ d c, Nearest 52 inf64 (n * 2 ^ 1074) 1 d ∧ Nearest 23 inf32 (magnitude 52 d) (2 ^ 925) c ∧ ¬ Nearest 23 inf32 (n * 2 ^ 149) 1 c

/-- A negative number, or `-0`, that is rounded to zero. -/
def LosesSign (w : FW) (rel : Int → Int → Int → Prop) (v : Val) : Prop :=
  ∃ m, numAt w v = .fin true m ∧ rel (one w) (Num.fin true m).units 0

/-- Scalar float instructions. -/
def fltDev : FOp → List Val → Prop
  -- goes through a double, which makes the NaN arithmetic
  | .f32_copysign, _ :: a :: _ => SignallingNaN .w32 a
  -- Python's `min` and `max` return the first of two equal numbers
  | .f32_min, b :: a :: _ => numAt .w32 a = .fin false 0 ∧ numAt .w32 b = .fin true 0
  | .f32_max, b :: a :: _ => numAt .w32 a = .fin true 0 ∧ numAt .w32 b = .fin false 0
  -- and pywasm returns a NaN as it is
  | .f64_min, b :: a :: _ => (numAt .w64 a = .fin false 0 ∧ numAt .w64 b = .fin true 0) ∨
      SignallingNaN .w64 b ∨ (numAt .w64 b ≠ .nan ∧ SignallingNaN .w64 a)
  | .f64_max, b :: a :: _ => (numAt .w64 a = .fin true 0 ∧ numAt .w64 b = .fin false 0) ∨
      SignallingNaN .w64 b ∨ (numAt .w64 b ≠ .nan ∧ SignallingNaN .w64 a)
  -- the result is a Python `int` on the way, which has no negative zero
  | .f32_ceil, v :: _ => LosesSign .w32 IsCeil v
  | .f32_floor, v :: _ => LosesSign .w32 IsFloor v
  | .f32_trunc, v :: _ => LosesSign .w32 IsTrunc v
  | .f32_nearest, v :: _ => LosesSign .w32 IsRound v
  | .f64_ceil, v :: _ => LosesSign .w64 IsCeil v ∨ SignallingNaN .w64 v
  | .f64_floor, v :: _ => LosesSign .w64 IsFloor v ∨ SignallingNaN .w64 v
  | .f64_trunc, v :: _ => LosesSign .w64 IsTrunc v ∨ SignallingNaN .w64 v
  | .f64_nearest, v :: _ => LosesSign .w64 IsRound v ∨ SignallingNaN .w64 v
  | .f32_convert_i64_s, v :: _ => RoundsTwice v.low64.toInt.natAbs
  | .f32_convert_i64_u, v :: _ => RoundsTwice v.low64.toNat
  | _, _ => False

/-- A lane is one of those of the scalar instruction. -/
def devLanes1 (t : LaneTy) (n : Nat) (op : FOp) : List Val → Prop
  | x :: _ => ∃ i < n, fltDev op [laneCell t x.low128 i]
  | [] => False
def devLanes2 (t : LaneTy) (op : FOp) : List Val → Prop
  | y :: x :: _ => ∃ i < t.count, fltDev op [laneCell t y.low128 i, laneCell t x.low128 i]
  | _ => False
/-- A lane that goes through a double, which makes it arithmetic, is a signalling NaN. -/
def devQuiet1 : List Val → Prop
  | x :: _ => ∃ i < 4, SignallingNaN .w32 (laneCell .f32 x.low128 i)
  | [] => False
/-- The same for the lane that is chosen, which is that of the second operand if `c` holds. -/
def devQuiet2 (c : Num → Num → Bool) : List Val → Prop
  | y :: x :: _ => ∃ i < 4, SignallingNaN .w32
      (if c (laneNum .w32 x.low128 i) (laneNum .w32 y.low128 i) then laneCell .f32 y.low128 i else laneCell .f32 x.low128 i)
  | _ => False

/-- Vector instructions on float lanes. -/
def fvecDev : VOp → List Val → Prop
  | .f32x4_ceil => devLanes1 .f32 4 .f32_ceil
  | .f32x4_floor => devLanes1 .f32 4 .f32_floor
  | .f32x4_trunc => devLanes1 .f32 4 .f32_trunc
  | .f32x4_nearest => devLanes1 .f32 4 .f32_nearest
  | .f64x2_ceil => devLanes1 .f64 2 .f64_ceil
  | .f64x2_floor => devLanes1 .f64 2 .f64_floor
  | .f64x2_trunc => devLanes1 .f64 2 .f64_trunc
  | .f64x2_nearest => devLanes1 .f64 2 .f64_nearest
  | .f32x4_min => devLanes2 .f32 .f32_min
  | .f32x4_max => devLanes2 .f32 .f32_max
  | .f64x2_min => devLanes2 .f64 .f64_min
  | .f64x2_max => devLanes2 .f64 .f64_max
  | .f32x4_abs => devQuiet1
  | .f32x4_neg => devQuiet1
  | .f32x4_pmin => devQuiet2 fun x y => y.less x
  | .f32x4_pmax => devQuiet2 fun x y => x.less y
  | _ => fun _ => False

/-- Numeric instructions. -/
def NumDev : NumOp → List Val → Prop
  | .flt op, vs => fltDev op vs
  | .vec op, vs => fvecDev op vs
  | _, _ => False

end Pywasm.Spec
