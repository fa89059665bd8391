import Verif.Spec.Float
import Verif.Spec.IntOps
import Verif.Spec.SimdFloat
import Verif.Spec.SimdOps
import Verif.Model.NumOps

/-!
# Specification of all numeric instructions, with everything a conforming implementation may do

After section 4.3.3 of the WebAssembly 2.0 core specification.  A float instruction whose result is a NaN may return any of a set of
NaNs, so that this is a relation between the operand stack and the outcome.
-/

namespace Pywasm.Spec

/-- The type of the values of a format. -/
def FW.ty : FW → ValType
  | .w32 => .f32
  | .w64 => .f64
/-- All bits of a float but the sign. -/
def codeAt : FW → Val → Nat
  | .w32, v => code32 v.low32
  | .w64, v => code64 v.low64
/-- The sign bit of a float. -/
def negAt : FW → Val → Bool
  | .w32, v => v.low32.msb
  | .w64, v => v.low64.msb

/-! ## NaNs -/

/-- The canonical NaN: of the significand bits, only the first is set. -/
def CanonicalNaN (w : FW) (v : Val) : Prop := codeAt w v = w.top + 2 ^ (w.bits - 1)
/-- An arithmetic NaN: the first bit of the significand is set. -/
def ArithmeticNaN (w : FW) (v : Val) : Prop := w.top + 2 ^ (w.bits - 1) ≤ codeAt w v
/-- A NaN that is not arithmetic. -/
def SignallingNaN (w : FW) (v : Val) : Prop := numAt w v = .nan ∧ ¬ ArithmeticNaN w v
/-- NaN propagation: a NaN that is a result is canonical, if the operands that are NaNs are, and arithmetic otherwise. -/
def NaNRule (operands : List (FW × Val)) (w : FW) (r : Val) : Prop :=
  numAt w r = .nan →
    ArithmeticNaN w r ∧ ((∀ o ∈ operands, numAt o.1 o.2 = .nan → CanonicalNaN o.1 o.2) → CanonicalNaN w r)

/-! ## Operations on numbers -/

/-- The smaller number; `-0` is smaller than `+0`. -/
def MinSpec (x y r : Num) : Prop :=
  if x = .nan ∨ y = .nan then r = .nan
  else if x.less y then r = x else if y.less x then r = y
  else if x.neg then r = x else r = y
/-- The larger number; `+0` is larger than `-0`. -/
def MaxSpec (x y r : Num) : Prop :=
  if x = .nan ∨ y = .nan then r = .nan
  else if x.less y then r = y else if y.less x then r = x
  else if x.neg then r = y else r = x
/-- Rounding to a whole number; the sign stays, also that of a zero. -/
def RoundSpec (w : FW) (rel : Int → Int → Int → Prop) (x r : Num) : Prop :=
  match x with
  | .fin s _ => ∃ k, rel (one w) x.units k ∧ r = .fin s (k.natAbs * w.unit)
  | x => r = x
/-- The float nearest to a whole number. -/
def ConvertSpec (w : FW) (k : Int) (r : Val) : Prop :=
  r.ty = w.ty ∧ RoundsTo w (decide (k < 0)) (k.natAbs * w.unit) 1 (numAt w r)
/-- A double as a single. -/
def DemoteSpec (x r : Num) : Prop :=
  match x with
  | .fin s m => RoundsTo .w32 s m (2 ^ 925) r
  | x => r = x
/-- A single as a double. -/
def PromoteSpec (x r : Num) : Prop :=
  match x with
  | .fin s m => r = .fin s (m * 2 ^ 925)
  | x => r = x

/-! ## Instructions -/

/-- One operand. -/
def unary (R : Val → Val → Prop) : List Val → Out → Prop
  | a :: s, o => ∃ r, R a r ∧ o = .ok (r :: s)
  | [], o => o = .stuck
/-- Two operands; the second is on top. -/
def binary (R : Val → Val → Val → Prop) : List Val → Out → Prop
  | b :: a :: s, o => ∃ r, R a b r ∧ o = .ok (r :: s)
  | _, o => o = .stuck
/-- The bits of `a` with another sign. -/
def SameBits (w : FW) (a : Val) (neg : Bool) (r : Val) : Prop := r.ty = w.ty ∧ codeAt w r = codeAt w a ∧ negAt w r = neg
def compares (w : FW) (f : Num → Num → Bool) : List Val → Out → Prop :=
  binary fun a b r => r = bool (f (numAt w a) (numAt w b))
def arith1 (w w' : FW) (R : Num → Num → Prop) : List Val → Out → Prop :=
  unary fun a r => r.ty = w'.ty ∧ R (numAt w a) (numAt w' r) ∧ NaNRule [(w, a)] w' r
def arith2 (w : FW) (R : Num → Num → Num → Prop) : List Val → Out → Prop :=
  binary fun a b r => r.ty = w.ty ∧ R (numAt w a) (numAt w b) (numAt w r) ∧ NaNRule [(w, a), (w, b)] w r
/-- Truncation to an integer between `lo` and `hi`, or a trap. -/
def truncates (w : FW) (lo hi : Int) (mk : Int → Val) : List Val → Out → Prop
  | v :: s, o => match numAt w v with
    | .fin g m => ∃ k, IsTrunc (one w) (Num.fin g m).units k ∧ o = if lo ≤ k ∧ k ≤ hi then .ok (mk k :: s) else .trap
    | _ => o = .trap
  | [], o => o = .stuck
/-- Truncation to the nearest integer between `lo` and `hi`. -/
def saturates (w : FW) (lo hi : Int) (mk : Int → Val) : List Val → Out → Prop
  | v :: s, o => match numAt w v with
    | .fin g m => ∃ k, IsTrunc (one w) (Num.fin g m).units k ∧ o = .ok (mk (max lo (min k hi)) :: s)
    | .inf neg => o = .ok (mk (if neg then lo else hi) :: s)
    | .nan => o = .ok (mk 0 :: s)
  | [], o => o = .stuck

/-- What each scalar float instruction may do. -/
def fltSpec : FOp → List Val → Out → Prop
  | .f32_eq => compares .w32 Num.equal
  | .f32_ne => compares .w32 (fun x y => !x.equal y)
  | .f32_lt => compares .w32 Num.less
  | .f32_gt => compares .w32 (fun x y => y.less x)
  | .f32_le => compares .w32 (fun x y => x.less y || x.equal y)
  | .f32_ge => compares .w32 (fun x y => y.less x || y.equal x)
  | .f64_eq => compares .w64 Num.equal
  | .f64_ne => compares .w64 (fun x y => !x.equal y)
  | .f64_lt => compares .w64 Num.less
  | .f64_gt => compares .w64 (fun x y => y.less x)
  | .f64_le => compares .w64 (fun x y => x.less y || x.equal y)
  | .f64_ge => compares .w64 (fun x y => y.less x || y.equal x)
  | .f32_abs => unary fun a r => SameBits .w32 a false r
  | .f32_neg => unary fun a r => SameBits .w32 a (!negAt .w32 a) r
  | .f32_ceil => arith1 .w32 .w32 (RoundSpec .w32 IsCeil)
  | .f32_floor => arith1 .w32 .w32 (RoundSpec .w32 IsFloor)
  | .f32_trunc => arith1 .w32 .w32 (RoundSpec .w32 IsTrunc)
  | .f32_nearest => arith1 .w32 .w32 (RoundSpec .w32 IsRound)
  | .f32_sqrt => arith1 .w32 .w32 (SqrtSpec .w32)
  | .f32_add => arith2 .w32 (AddSpec .w32)
  | .f32_sub => arith2 .w32 (SubSpec .w32)
  | .f32_mul => arith2 .w32 (MulSpec .w32)
  | .f32_div => arith2 .w32 (DivSpec .w32)
  | .f32_min => arith2 .w32 MinSpec
  | .f32_max => arith2 .w32 MaxSpec
  | .f32_copysign => binary fun a b r => SameBits .w32 a (negAt .w32 b) r
  | .f64_abs => unary fun a r => SameBits .w64 a false r
  | .f64_neg => unary fun a r => SameBits .w64 a (!negAt .w64 a) r
  | .f64_ceil => arith1 .w64 .w64 (RoundSpec .w64 IsCeil)
  | .f64_floor => arith1 .w64 .w64 (RoundSpec .w64 IsFloor)
  | .f64_trunc => arith1 .w64 .w64 (RoundSpec .w64 IsTrunc)
  | .f64_nearest => arith1 .w64 .w64 (RoundSpec .w64 IsRound)
  | .f64_sqrt => arith1 .w64 .w64 (SqrtSpec .w64)
  | .f64_add => arith2 .w64 (AddSpec .w64)
  | .f64_sub => arith2 .w64 (SubSpec .w64)
  | .f64_mul => arith2 .w64 (MulSpec .w64)
  | .f64_div => arith2 .w64 (DivSpec .w64)
  | .f64_min => arith2 .w64 MinSpec
  | .f64_max => arith2 .w64 MaxSpec
  | .f64_copysign => binary fun a b r => SameBits .w64 a (negAt .w64 b) r
  | .i32_trunc_f32_s => truncates .w32 (-2 ^ 31) (2 ^ 31 - 1) fun k => i32 (BitVec.ofInt 32 k)
  | .i32_trunc_f32_u => truncates .w32 0 (2 ^ 32 - 1) fun k => i32 (BitVec.ofInt 32 k)
  | .i32_trunc_f64_s => truncates .w64 (-2 ^ 31) (2 ^ 31 - 1) fun k => i32 (BitVec.ofInt 32 k)
  | .i32_trunc_f64_u => truncates .w64 0 (2 ^ 32 - 1) fun k => i32 (BitVec.ofInt 32 k)
  | .i64_trunc_f32_s => truncates .w32 (-2 ^ 63) (2 ^ 63 - 1) fun k => i64 (BitVec.ofInt 64 k)
  | .i64_trunc_f32_u => truncates .w32 0 (2 ^ 64 - 1) fun k => i64 (BitVec.ofInt 64 k)
  | .i64_trunc_f64_s => truncates .w64 (-2 ^ 63) (2 ^ 63 - 1) fun k => i64 (BitVec.ofInt 64 k)
  | .i64_trunc_f64_u => truncates .w64 0 (2 ^ 64 - 1) fun k => i64 (BitVec.ofInt 64 k)
  | .f32_convert_i32_s => unary fun v r => ConvertSpec .w32 (v.low32.toInt) r
  | .f32_convert_i32_u => unary fun v r => ConvertSpec .w32 ((v.low32.toNat : Int)) r
  | .f32_convert_i64_s => unary fun v r => ConvertSpec .w32 (v.low64.toInt) r
  | .f32_convert_i64_u => unary fun v r => ConvertSpec .w32 ((v.low64.toNat : Int)) r
  | .f32_demote_f64 => arith1 .w64 .w32 DemoteSpec
  | .f64_convert_i32_s => unary fun v r => ConvertSpec .w64 (v.low32.toInt) r
  | .f64_convert_i32_u => unary fun v r => ConvertSpec .w64 ((v.low32.toNat : Int)) r
  | .f64_convert_i64_s => unary fun v r => ConvertSpec .w64 (v.low64.toInt) r
  | .f64_convert_i64_u => unary fun v r => ConvertSpec .w64 ((v.low64.toNat : Int)) r
  | .f64_promote_f32 => arith1 .w32 .w64 PromoteSpec
  | .i32_reinterpret_f32 => unary fun a r => r.ty = .i32 ∧ r.low32 = a.low32
  | .i64_reinterpret_f64 => unary fun a r => r.ty = .i64 ∧ r.low64 = a.low64
  | .f32_reinterpret_i32 => unary fun a r => r.ty = .f32 ∧ r.low32 = a.low32
  | .f64_reinterpret_i64 => unary fun a r => r.ty = .f64 ∧ r.low64 = a.low64
  | .i32_trunc_sat_f32_s => saturates .w32 (-2 ^ 31) (2 ^ 31 - 1) fun k => i32 (BitVec.ofInt 32 k)
  | .i32_trunc_sat_f32_u => saturates .w32 0 (2 ^ 32 - 1) fun k => i32 (BitVec.ofInt 32 k)
  | .i32_trunc_sat_f64_s => saturates .w64 (-2 ^ 31) (2 ^ 31 - 1) fun k => i32 (BitVec.ofInt 32 k)
  | .i32_trunc_sat_f64_u => saturates .w64 0 (2 ^ 32 - 1) fun k => i32 (BitVec.ofInt 32 k)
  | .i64_trunc_sat_f32_s => saturates .w32 (-2 ^ 63) (2 ^ 63 - 1) fun k => i64 (BitVec.ofInt 64 k)
  | .i64_trunc_sat_f32_u => saturates .w32 0 (2 ^ 64 - 1) fun k => i64 (BitVec.ofInt 64 k)
  | .i64_trunc_sat_f64_s => saturates .w64 (-2 ^ 63) (2 ^ 63 - 1) fun k => i64 (BitVec.ofInt 64 k)
  | .i64_trunc_sat_f64_u => saturates .w64 0 (2 ^ 64 - 1) fun k => i64 (BitVec.ofInt 64 k)

/-! ## Vector instructions on float lanes -/

/-- Each of the first `n` lanes meets the specification of the scalar instruction, the others are zero. -/
def lanes1 (tin tout : LaneTy) (n : Nat) (op : FOp) : List Val → Out → Prop
  | x :: s, o => ∃ z : BitVec 128, o = .ok (v128 z :: s) ∧
      (∀ i < n, fltSpec op [laneCell tin x.low128 i] (.ok [laneCell tout z i])) ∧
      ∀ i, n ≤ i → i < tout.count → laneCell tout z i = laneCell tout 0 i
  | [], o => o = .stuck
/-- Each lane of the result is related to those of the operands; the second operand is on top. -/
def lanes2 (n : Nat) (R : BitVec 128 → BitVec 128 → BitVec 128 → Nat → Prop) : List Val → Out → Prop
  | y :: x :: s, o => ∃ z : BitVec 128, o = .ok (v128 z :: s) ∧ ∀ i < n, R x.low128 y.low128 z i
  | _, o => o = .stuck
/-- A scalar instruction in each lane. -/
def lanesBin (t : LaneTy) (op : FOp) : List Val → Out → Prop :=
  lanes2 t.count fun x y z i => fltSpec op [laneCell t y i, laneCell t x i] (.ok [laneCell t z i])
/-- A comparison in each lane. -/
def lanesCmp (w : FW) (f : Num → Num → Bool) : List Val → Out → Prop :=
  lanes2 (128 / w.width) fun x y z i =>
    lane w.width z i = if f (laneNum w x i) (laneNum w y i) then BitVec.allOnes w.width else 0
/-- The second operand's lane if it is the smaller one, the first operand's otherwise. -/
def lanesPmin (w : FW) : List Val → Out → Prop :=
  lanes2 (128 / w.width) fun x y z i =>
    lane w.width z i = if (laneNum w y i).less (laneNum w x i) then lane w.width y i else lane w.width x i
/-- The second operand's lane if it is the larger one, the first operand's otherwise. -/
def lanesPmax (w : FW) : List Val → Out → Prop :=
  lanes2 (128 / w.width) fun x y z i =>
    lane w.width z i = if (laneNum w x i).less (laneNum w y i) then lane w.width y i else lane w.width x i

/-- What each vector instruction on float lanes may do. -/
def fvecSpec : VOp → List Val → Out → Prop
  | .f32x4_ceil => lanes1 .f32 .f32 4 .f32_ceil
  | .f32x4_floor => lanes1 .f32 .f32 4 .f32_floor
  | .f32x4_trunc => lanes1 .f32 .f32 4 .f32_trunc
  | .f32x4_nearest => lanes1 .f32 .f32 4 .f32_nearest
  | .f32x4_sqrt => lanes1 .f32 .f32 4 .f32_sqrt
  | .f64x2_ceil => lanes1 .f64 .f64 2 .f64_ceil
  | .f64x2_floor => lanes1 .f64 .f64 2 .f64_floor
  | .f64x2_trunc => lanes1 .f64 .f64 2 .f64_trunc
  | .f64x2_nearest => lanes1 .f64 .f64 2 .f64_nearest
  | .f64x2_sqrt => lanes1 .f64 .f64 2 .f64_sqrt
  | .f32x4_demote_f64x2_zero => lanes1 .f64 .f32 2 .f32_demote_f64
  | .f64x2_promote_low_f32x4 => lanes1 .f32 .f64 2 .f64_promote_f32
  | .i32x4_trunc_sat_f32x4_s => lanes1 .f32 .i32 4 .i32_trunc_sat_f32_s
  | .i32x4_trunc_sat_f32x4_u => lanes1 .f32 .i32 4 .i32_trunc_sat_f32_u
  | .i32x4_trunc_sat_f64x2_s_zero => lanes1 .f64 .i32 2 .i32_trunc_sat_f64_s
  | .i32x4_trunc_sat_f64x2_u_zero => lanes1 .f64 .i32 2 .i32_trunc_sat_f64_u
  | .f32x4_convert_i32x4_s => lanes1 .i32 .f32 4 .f32_convert_i32_s
  | .f32x4_convert_i32x4_u => lanes1 .i32 .f32 4 .f32_convert_i32_u
  | .f64x2_convert_low_i32x4_s => lanes1 .i32 .f64 2 .f64_convert_i32_s
  | .f64x2_convert_low_i32x4_u => lanes1 .i32 .f64 2 .f64_convert_i32_u
  | .f32x4_abs => lanes1 .f32 .f32 4 .f32_abs
  | .f32x4_neg => lanes1 .f32 .f32 4 .f32_neg
  | .f64x2_abs => lanes1 .f64 .f64 2 .f64_abs
  | .f64x2_neg => lanes1 .f64 .f64 2 .f64_neg
  | .f32x4_add => lanesBin .f32 .f32_add
  | .f32x4_sub => lanesBin .f32 .f32_sub
  | .f32x4_mul => lanesBin .f32 .f32_mul
  | .f32x4_div => lanesBin .f32 .f32_div
  | .f32x4_min => lanesBin .f32 .f32_min
  | .f32x4_max => lanesBin .f32 .f32_max
  | .f32x4_eq => lanesCmp .w32 Num.equal
  | .f32x4_ne => lanesCmp .w32 (fun x y => !x.equal y)
  | .f32x4_lt => lanesCmp .w32 Num.less
  | .f32x4_gt => lanesCmp .w32 (fun x y => y.less x)
  | .f32x4_le => lanesCmp .w32 (fun x y => x.less y || x.equal y)
  | .f32x4_ge => lanesCmp .w32 (fun x y => y.less x || y.equal x)
  | .f32x4_pmin => lanesPmin .w32
  | .f32x4_pmax => lanesPmax .w32
  | .f64x2_add => lanesBin .f64 .f64_add
  | .f64x2_sub => lanesBin .f64 .f64_sub
  | .f64x2_mul => lanesBin .f64 .f64_mul
  | .f64x2_div => lanesBin .f64 .f64_div
  | .f64x2_min => lanesBin .f64 .f64_min
  | .f64x2_max => lanesBin .f64 .f64_max
  | .f64x2_eq => lanesCmp .w64 Num.equal
  | .f64x2_ne => lanesCmp .w64 (fun x y => !x.equal y)
  | .f64x2_lt => lanesCmp .w64 Num.less
  | .f64x2_gt => lanesCmp .w64 (fun x y => y.less x)
  | .f64x2_le => lanesCmp .w64 (fun x y => x.less y || x.equal y)
  | .f64x2_ge => lanesCmp .w64 (fun x y => y.less x || y.equal x)
  | .f64x2_pmin => lanesPmin .w64
  | .f64x2_pmax => lanesPmax .w64
  | _ => fun _ _ => False

/-- What each numeric instruction may do. -/
def NumSpec : NumOp → List Val → Out → Prop
  | .int op, vs, o => o = intSem op vs
  | .flt op, vs, o => fltSpec op vs o
  | .vec op, vs, o => match vecSem op with
    | some f => o = f vs
    | none => fvecSpec op vs o
  | .lane op i, vs, o => o = if i < laneCount op then laneSem op i vs else .stuck
  | .shuffle sel, vs, o => o = if sel.length = 16 ∧ ∀ j ∈ sel, j < 32 then bin128 (shuffle fun i => sel.getD i 0) vs else .stuck

end Pywasm.Spec
