import Verif.Lemmas.SimdLane

/-!
# Vector instructions

C32: the integer instructions act lane by lane.  C33: bitwise instructions, shuffle and swizzle.
The meaning of each instruction is in `Verif/Spec/SimdOps.lean`.
-/

namespace Pywasm.Props
open Spec

/-- The bitwise instructions. -/
def bitwise : List VOp :=
  [.v128_not, .v128_and, .v128_andnot, .v128_or, .v128_xor, .v128_bitselect, .v128_any_true, .i8x16_swizzle]

/-- The vector instructions whose lanes are floats (or become integers from floats). -/
def floatLanes : List VOp :=
  [.f32x4_eq, .f32x4_ne, .f32x4_lt, .f32x4_gt, .f32x4_le, .f32x4_ge, .f64x2_eq, .f64x2_ne, .f64x2_lt, .f64x2_gt, .f64x2_le,
   .f64x2_ge, .f32x4_demote_f64x2_zero, .f64x2_promote_low_f32x4, .f32x4_ceil, .f32x4_floor, .f32x4_trunc, .f32x4_nearest,
   .f64x2_ceil, .f64x2_floor, .f64x2_trunc, .f64x2_nearest, .f32x4_abs, .f32x4_neg, .f32x4_sqrt, .f32x4_add, .f32x4_sub,
   .f32x4_mul, .f32x4_div, .f32x4_min, .f32x4_max, .f32x4_pmin, .f32x4_pmax, .f64x2_abs, .f64x2_neg, .f64x2_sqrt, .f64x2_add,
   .f64x2_sub, .f64x2_mul, .f64x2_div, .f64x2_min, .f64x2_max, .f64x2_pmin, .f64x2_pmax, .i32x4_trunc_sat_f32x4_s,
   .i32x4_trunc_sat_f32x4_u, .f32x4_convert_i32x4_s, .f32x4_convert_i32x4_u, .i32x4_trunc_sat_f64x2_s_zero,
   .i32x4_trunc_sat_f64x2_u_zero, .f64x2_convert_low_i32x4_s, .f64x2_convert_low_i32x4_u]

/-- Every vector instruction without immediates, except those on float lanes, does on every operand stack what the
specification says. -/
theorem C32_vector_int (op : VOp) (h : op ∉ floatLanes) :
    ∃ f, vecSem op = some f ∧ ∀ s, Implements (evalVec op) s (f s) := by
  cases e : vecSem op with
  | some f => exact ⟨f, rfl, vec_sound op f e⟩
  | none => exact absurd e (by revert h; cases op <;> decide)

/-- `ofLanes` and `lane` are inverse to each other: the result of a lane-wise instruction has exactly the lanes computed. -/
theorem C32_lanes_of_result (k : Nat) (hk : k ∈ [1, 2, 4, 8]) (f : Nat → BitVec (8 * k)) :
    (∀ i < 16 / k, lane (8 * k) (ofLanes (8 * k) f) i = f i) ∧
    ∀ z : BitVec 128, (∀ i < 16 / k, lane (8 * k) z i = f i) → z = ofLanes (8 * k) f := by
  have h : 16 / k * k = 16 := by
    simp only [List.mem_cons, List.not_mem_nil, or_false] at hk
    rcases hk with rfl | rfl | rfl | rfl <;> rfl
  exact ⟨fun i hi => lane_ofLanes rfl h f hi, fun z hz => lane_ext rfl h fun i hi => by rw [hz i hi, lane_ofLanes rfl h f hi]⟩

/-- Spelled out for a two-operand lane-wise instruction: every lane of the result is the scalar function of the two
corresponding lanes (the right operand is on top of the stack), and the rest of the stack is untouched. -/
theorem C32_lanewise (op : VOp) (k : Nat) (hk : k ∈ [1, 2, 4, 8]) (g : BitVec (8 * k) → BitVec (8 * k) → BitVec (8 * k))
    (h : vecSem op = some (bin128 (map2 (8 * k) g))) (x y : Val) (s : List Val) :
    ∃ z : BitVec 128, evalVec op (y :: x :: s) = .ok () (v128 z :: s) ∧
      ∀ i < 16 / k, lane (8 * k) z i = g (lane (8 * k) x.low128 i) (lane (8 * k) y.low128 i) :=
  ⟨_, vec_sound op _ h (y :: x :: s), (C32_lanes_of_result k hk _).1⟩

/-- Extracting and replacing a lane, for every lane index validation admits. -/
theorem C32_extract_replace (op : LOp) (i : Nat) (h : i < laneCount op) (s : List Val) :
    Implements (evalLane op i) s (laneSem op i s) := lane_sound op i h s

/-- The bitwise instructions and swizzle. -/
theorem C33_bitwise (op : VOp) (h : op ∈ bitwise) : ∃ f, vecSem op = some f ∧ ∀ s, Implements (evalVec op) s (f s) :=
  C32_vector_int op (by revert h; cases op <;> decide)

/-- `i8x16.shuffle`, for every list of sixteen selectors below 32. -/
theorem C33_shuffle (sel : List Nat) (hl : sel.length = 16) (h : ∀ j ∈ sel, j < 32) (s : List Val) :
    Implements (evalShuffle sel) s (bin128 (shuffle fun i => sel.getD i 0) s) := shuffle_sound sel hl h s

/-! ### the hypotheses are met -/

example : VOp.i16x8_q15mulr_sat_s ∉ floatLanes := by decide
example : VOp.i8x16_swizzle ∈ bitwise := by decide
example : vecSem .i8x16_add_sat_s = some (bin128 (map2 8 fun a b => satS 8 (a.toInt + b.toInt))) := rfl
example : (15 : Nat) < laneCount .i8x16_replace_lane := by decide
example : ∀ j ∈ (List.range 16).map (fun i => 31 - i), j < 32 := by decide
/-- 100 + 100 saturates at 127 in every lane -/
example : map2 8 (fun a b => satS 8 (a.toInt + b.toInt)) (ofLanes 8 fun _ => 100) (ofLanes 8 fun _ => 100) = ofLanes 8 fun _ => 127 := by
  decide +kernel
/-- reversing the bytes -/
example : shuffle (fun i => 15 - i) (ofLanes 8 fun i => BitVec.ofNat 8 i) 0 = ofLanes 8 fun i => BitVec.ofNat 8 (15 - i) := by
  decide +kernel

/-! ## The hypotheses are met -/

example := C32_vector_int .i16x8_q15mulr_sat_s (by decide)
example := C32_lanewise .i8x16_add_sat_s 1 (by decide) (fun a b => satS 8 (a.toInt + b.toInt)) rfl (v128 100) (v128 100) []
example := C32_lanes_of_result 4 (by decide) fun i => BitVec.ofNat 32 (i * 3)
example := C32_extract_replace .i8x16_replace_lane 15 (by decide) [i32 7, v128 9]
example := C33_bitwise .i8x16_swizzle (by decide)
example := C33_shuffle ((List.range 16).map fun i => 31 - i) (by decide) (by decide) [v128 7, v128 9]

end Pywasm.Props
