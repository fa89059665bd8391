import Verif.Spec.FloatDev
import Verif.Spec.Ref

/-!
# The reference interpreter with the numeric results the specification allows
-/

namespace Pywasm.Spec.Ref

/-- Every result is one the specification allows. -/
def Conforms (N : Numerics) : Prop := ∀ op vs, NumSpec op vs (N.sem op vs)

/-- pywasm's results, but none for the listed operands. -/
@[instance_reducible] noncomputable def strict : Numerics := ⟨fun op vs => open Classical in if NumDev op vs then .stuck else numSem op vs⟩

/-- The invocation comes to a numeric instruction whose operands are listed: an interpreter that has no result for those gets stuck. -/
def MeetsListed (H : Host) (fuel a : Nat) (args : List Val) (s : Store) : Prop := @invoke strict H fuel a args s = .stuck

/-- The reference interpreter, with some numeric semantics the specification allows, comes to the result `r`. -/
def Allowed (H : Host) (fuel a : Nat) (args : List Val) (s : Store) (r : Res) : Prop :=
  ∃ N : Numerics, Conforms N ∧ @invoke N H fuel a args s = r

mutual
/-- All numeric instructions in the code are among `Q`. -/
def numericAll (Q : NumOp → Bool) : Inst → Bool
  | .block _ body => numericList Q body
  | .loop _ body => numericList Q body
  | .ifThen _ thn els => numericList Q thn && numericList Q els
  | .num op => Q op
  | _ => true
def numericList (Q : NumOp → Bool) : List Inst → Bool
  | [] => true
  | i :: is => numericAll Q i && numericList Q is
end

/-- All numeric instructions of the functions of the store are among `Q`. -/
def NumericStore (Q : NumOp → Bool) (s : Store) : Prop :=
  ∀ (a : Nat) t k code, s.func[a]? = some (.wasm t k code) → numericList Q code.expr = true
/-- Host functions add no other functions. -/
def NumericHost (Q : NumOp → Bool) (H : Host) : Prop := ∀ c mod xs s, NumericStore Q s →
  (∀ ys s', H c mod xs s = .ok ys s' → NumericStore Q s') ∧ ∀ e s', H c mod xs s = .error e s' → NumericStore Q s'

/-- The instructions that have listed operands: 15 scalar ones and 16 on vectors. -/
def listed : NumOp → Bool
  | .flt op => op ∈ [.f32_copysign, .f32_min, .f32_max, .f64_min, .f64_max, .f32_ceil, .f32_floor, .f32_trunc, .f32_nearest,
      .f64_ceil, .f64_floor, .f64_trunc, .f64_nearest, .f32_convert_i64_s, .f32_convert_i64_u]
  | .vec op => op ∈ [.f32x4_ceil, .f32x4_floor, .f32x4_trunc, .f32x4_nearest, .f64x2_ceil, .f64x2_floor, .f64x2_trunc, .f64x2_nearest,
      .f32x4_min, .f32x4_max, .f64x2_min, .f64x2_max, .f32x4_abs, .f32x4_neg, .f32x4_pmin, .f32x4_pmax]
  | _ => false

/-- The instructions whose result is not a float: integer and vector integer instructions, float comparisons and truncations.  The
specification allows only one result. -/
def exact : NumOp → Bool
  | .flt op => op ∈ [.f32_eq, .f32_ne, .f32_lt, .f32_gt, .f32_le, .f32_ge, .f64_eq, .f64_ne, .f64_lt, .f64_gt, .f64_le, .f64_ge,
      .i32_trunc_f32_s, .i32_trunc_f32_u, .i32_trunc_f64_s, .i32_trunc_f64_u, .i64_trunc_f32_s, .i64_trunc_f32_u, .i64_trunc_f64_s,
      .i64_trunc_f64_u, .i32_trunc_sat_f32_s, .i32_trunc_sat_f32_u, .i32_trunc_sat_f64_s, .i32_trunc_sat_f64_u, .i64_trunc_sat_f32_s,
      .i64_trunc_sat_f32_u, .i64_trunc_sat_f64_s, .i64_trunc_sat_f64_u]
  | .vec op => (vecSem op).isSome
  | _ => true

end Pywasm.Spec.Ref
