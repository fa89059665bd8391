import Verif.Lemmas.SimdFloat
import Verif.Props.FloatArith
import Verif.Props.Float
import Verif.Props.Simd

/-!
# C69: vector instructions on float lanes

Each lane of the result is what the scalar instruction gives on the same lanes of the operands; which scalar instruction
that is stands in `Verif/Spec/SimdFloat.lean`.  What the scalar instructions do is C34–C38, C57 and C58.
-/

set_option exponentiation.threshold 3000

namespace Pywasm.Props
open Spec

/-- **C69** Instructions of one operand (rounding, square roots, conversions between lane types): they never trap, lane `i`
of the result is the scalar instruction's result on lane `i` of the operand, bit for bit, and the remaining lanes of a
`_zero` instruction are zero. -/
theorem C69_unary (op : VOp) (tin tout : LaneTy) (n : Nat) (fop : FOp) (h : (op, tin, tout, n, fop) ∈ unaryLanes) (x : Val)
    (s : List Val) :
    ∃ z : BitVec 128, evalVec op (x :: s) = .ok () (v128 z :: s) ∧
      (∀ i < n, evalFlt fop [laneCell tin x.low128 i] = .ok () [laneCell tout z i]) ∧
      ∀ i, n ≤ i → i < tout.count → laneCell tout z i = laneCell tout 0 i := by
  have key : UnLanes op tin tout n fop := by
    simp only [unaryLanes, List.mem_cons, Prod.mk.injEq, List.not_mem_nil, or_false] at h
    rcases h with ⟨rfl, rfl, rfl, rfl, rfl⟩ | ⟨rfl, rfl, rfl, rfl, rfl⟩ | ⟨rfl, rfl, rfl, rfl, rfl⟩ | ⟨rfl, rfl, rfl, rfl, rfl⟩ |
      ⟨rfl, rfl, rfl, rfl, rfl⟩ | ⟨rfl, rfl, rfl, rfl, rfl⟩ | ⟨rfl, rfl, rfl, rfl, rfl⟩ | ⟨rfl, rfl, rfl, rfl, rfl⟩ |
      ⟨rfl, rfl, rfl, rfl, rfl⟩ | ⟨rfl, rfl, rfl, rfl, rfl⟩ | ⟨rfl, rfl, rfl, rfl, rfl⟩ | ⟨rfl, rfl, rfl, rfl, rfl⟩ |
      ⟨rfl, rfl, rfl, rfl, rfl⟩ | ⟨rfl, rfl, rfl, rfl, rfl⟩ | ⟨rfl, rfl, rfl, rfl, rfl⟩ | ⟨rfl, rfl, rfl, rfl, rfl⟩ |
      ⟨rfl, rfl, rfl, rfl, rfl⟩ | ⟨rfl, rfl, rfl, rfl, rfl⟩ | ⟨rfl, rfl, rfl, rfl, rfl⟩ | ⟨rfl, rfl, rfl, rfl, rfl⟩
    exacts [l_ceil32, l_floor32, l_trunc32, l_nearest32, l_sqrt32, l_ceil64, l_floor64, l_trunc64, l_nearest64, l_sqrt64,
      l_demote, l_promote, l_sat32s, l_sat32u, l_sat64s, l_sat64u, l_conv32s, l_conv32u, l_conv64s, l_conv64u]
  exact key x s

/-- **C69** Instructions of two operands: the right operand is on top of the stack. -/
theorem C69_binary (op : VOp) (t : LaneTy) (fop : FOp) (h : (op, t, fop) ∈ binaryLanes) (x y : Val) (s : List Val) :
    ∃ z : BitVec 128, evalVec op (y :: x :: s) = .ok () (v128 z :: s) ∧
      ∀ i < t.count, evalFlt fop [laneCell t y.low128 i, laneCell t x.low128 i] = .ok () [laneCell t z i] := by
  have key : BinLanes op t fop := by
    simp only [binaryLanes, List.mem_cons, Prod.mk.injEq, List.not_mem_nil, or_false] at h
    rcases h with ⟨rfl, rfl, rfl⟩ | ⟨rfl, rfl, rfl⟩ | ⟨rfl, rfl, rfl⟩ | ⟨rfl, rfl, rfl⟩ | ⟨rfl, rfl, rfl⟩ | ⟨rfl, rfl, rfl⟩ |
      ⟨rfl, rfl, rfl⟩ | ⟨rfl, rfl, rfl⟩ | ⟨rfl, rfl, rfl⟩ | ⟨rfl, rfl, rfl⟩ | ⟨rfl, rfl, rfl⟩ | ⟨rfl, rfl, rfl⟩
    exacts [l_add32, l_sub32, l_mul32, l_div32, l_min32, l_max32, l_add64, l_sub64, l_mul64, l_div64, l_min64, l_max64]
  exact key x y s

/-- The vector instruction of each arithmetic operation. -/
def vectorArith : List (VOp × FW × (FW → Num → Num → Num → Prop)) :=
  [(.f32x4_add, .w32, AddSpec), (.f32x4_sub, .w32, SubSpec), (.f32x4_mul, .w32, MulSpec), (.f32x4_div, .w32, DivSpec),
   (.f64x2_add, .w64, AddSpec), (.f64x2_sub, .w64, SubSpec), (.f64x2_mul, .w64, MulSpec), (.f64x2_div, .w64, DivSpec)]

theorem laneNum32 (x : BitVec 128) (i : Nat) : laneNum .w32 x i = num32 (lane 32 x i) := rfl
theorem laneNum64 (x : BitVec 128) (i : Nat) : laneNum .w64 x i = num64 (lane 64 x i) := rfl
theorem ok_one {ε : Type} {a b : Val} (h : (.ok () [a] : EStateM.Result ε (List Val) Unit) = .ok () [b]) : a = b := by
  injection h with _ h; injection h

section
attribute [local irreducible] num32 num64 evalFlt evalVec lane
theorem arith_lane32 {op : VOp} {fop : FOp} {spec : FW → Num → Num → Num → Prop} (h1 : (op, LaneTy.f32, fop) ∈ binaryLanes)
    (h2 : (fop, FW.w32, spec) ∈ arithOps) (x y : Val) (s : List Val) :
    ∃ z : BitVec 128, evalVec op (y :: x :: s) = .ok () (v128 z :: s) ∧
      ∀ i < 4, spec .w32 (laneNum .w32 x.low128 i) (laneNum .w32 y.low128 i) (laneNum .w32 z i) := by
  obtain ⟨z, hz, hl⟩ := C69_binary op .f32 fop h1 x y s
  refine ⟨z, hz, fun i hi => ?_⟩
  obtain ⟨r, hr, _, hs⟩ := C58_arith fop .w32 spec h2 (laneCell .f32 y.low128 i) (laneCell .f32 x.low128 i) []
  have hr : r = laneCell .f32 z i := ok_one (hr.symm.trans (hl i hi))
  clear hl hz
  rw [hr] at hs
  unfold laneCell at hs
  dsimp only at hs
  rw [numAt_f32, numAt_f32, numAt_f32] at hs
  exact hs
theorem arith_lane64 {op : VOp} {fop : FOp} {spec : FW → Num → Num → Num → Prop} (h1 : (op, LaneTy.f64, fop) ∈ binaryLanes)
    (h2 : (fop, FW.w64, spec) ∈ arithOps) (x y : Val) (s : List Val) :
    ∃ z : BitVec 128, evalVec op (y :: x :: s) = .ok () (v128 z :: s) ∧
      ∀ i < 2, spec .w64 (laneNum .w64 x.low128 i) (laneNum .w64 y.low128 i) (laneNum .w64 z i) := by
  obtain ⟨z, hz, hl⟩ := C69_binary op .f64 fop h1 x y s
  refine ⟨z, hz, fun i hi => ?_⟩
  obtain ⟨r, hr, _, hs⟩ := C58_arith fop .w64 spec h2 (laneCell .f64 y.low128 i) (laneCell .f64 x.low128 i) []
  have hr : r = laneCell .f64 z i := ok_one (hr.symm.trans (hl i hi))
  clear hl hz
  rw [hr] at hs
  unfold laneCell at hs
  dsimp only at hs
  rw [numAt_f64, numAt_f64, numAt_f64] at hs
  exact hs

end

/-- **C69** Vector arithmetic gives in every lane the exact result of that lane rounded once. -/
theorem C69_arith (op : VOp) (w : FW) (spec : FW → Num → Num → Num → Prop) (h : (op, w, spec) ∈ vectorArith) (x y : Val)
    (s : List Val) :
    ∃ z : BitVec 128, evalVec op (y :: x :: s) = .ok () (v128 z :: s) ∧
      ∀ i < 128 / w.width, spec w (laneNum w x.low128 i) (laneNum w y.low128 i) (laneNum w z i) := by
  simp only [vectorArith, List.mem_cons, Prod.mk.injEq, List.not_mem_nil, or_false] at h
  rcases h with ⟨rfl, rfl, rfl⟩ | ⟨rfl, rfl, rfl⟩ | ⟨rfl, rfl, rfl⟩ | ⟨rfl, rfl, rfl⟩ |
    ⟨rfl, rfl, rfl⟩ | ⟨rfl, rfl, rfl⟩ | ⟨rfl, rfl, rfl⟩ | ⟨rfl, rfl, rfl⟩
  · exact arith_lane32 (fop := .f32_add) (by decide) (by simp [arithOps]) x y s
  · exact arith_lane32 (fop := .f32_sub) (by decide) (by simp [arithOps]) x y s
  · exact arith_lane32 (fop := .f32_mul) (by decide) (by simp [arithOps]) x y s
  · exact arith_lane32 (fop := .f32_div) (by decide) (by simp [arithOps]) x y s
  · exact arith_lane64 (fop := .f64_add) (by decide) (by simp [arithOps]) x y s
  · exact arith_lane64 (fop := .f64_sub) (by decide) (by simp [arithOps]) x y s
  · exact arith_lane64 (fop := .f64_mul) (by decide) (by simp [arithOps]) x y s
  · exact arith_lane64 (fop := .f64_div) (by decide) (by simp [arithOps]) x y s

/-! ## comparisons -/

/-- All ones or zero. -/
theorem cmp_lanes32 (p : F64 → F64 → Bool) (q : Num → Num → Bool)
    (hp : ∀ a b : F32, p (F32.toF64 a) (F32.toF64 b) = q (num32 a) (num32 b)) {op : VOp}
    (h : evalVec op = do
      let b ← VM.popLanesF32
      let a ← VM.popLanesF32
      let c := (List.range 4).map (fun i => if p (a.at i) (b.at i) then -1 else 0)
      let d ← VM.lift (Val.fromV128I 4 c)
      VM.push d) (x y : Val) (s : List Val) :
    ∃ z : BitVec 128, evalVec op (y :: x :: s) = .ok () (v128 z :: s) ∧
      ∀ i < 4, lane 32 z i = if q (laneNum .w32 x.low128 i) (laneNum .w32 y.low128 i) then BitVec.allOnes 32 else 0 := by
  refine ⟨ofLanes 32 fun i => if q (laneNum .w32 x.low128 i) (laneNum .w32 y.low128 i) then BitVec.allOnes 32 else 0, ?_,
    fun i hi => lane32 _ hi⟩
  rw [h, VM.bind_eq (VM.popLanesF32_cons _ _), VM.bind_eq (VM.popLanesF32_cons _ _)]
  simp only [range_at (k := fun a b => if p a b then (-1 : Int) else 0)]
  rw [VM.bind_eq (VM.lift_ok (fromI (w := 32) rfl rfl rfl fun i _ => ?_)), VM.push_eq]
  rw [hp]
  exact mask_toInt (by decide) Iff.rfl
theorem cmp_lanes64 (p : F64 → F64 → Bool) (q : Num → Num → Bool) (hp : ∀ a b : F64, p a b = q (num64 a) (num64 b)) {op : VOp}
    (h : evalVec op = do
      let b ← VM.popLanesF64
      let a ← VM.popLanesF64
      let c := (List.range 2).map (fun i => if p (a.at i) (b.at i) then -1 else 0)
      let d ← VM.lift (Val.fromV128I 8 c)
      VM.push d) (x y : Val) (s : List Val) :
    ∃ z : BitVec 128, evalVec op (y :: x :: s) = .ok () (v128 z :: s) ∧
      ∀ i < 2, lane 64 z i = if q (laneNum .w64 x.low128 i) (laneNum .w64 y.low128 i) then BitVec.allOnes 64 else 0 := by
  refine ⟨ofLanes 64 fun i => if q (laneNum .w64 x.low128 i) (laneNum .w64 y.low128 i) then BitVec.allOnes 64 else 0, ?_,
    fun i hi => lane64 _ hi⟩
  rw [h, VM.bind_eq (VM.popLanesF64_cons _ _), VM.bind_eq (VM.popLanesF64_cons _ _)]
  simp only [range_at (k := fun a b => if p a b then (-1 : Int) else 0)]
  rw [VM.bind_eq (VM.lift_ok (fromI (w := 64) rfl rfl rfl fun i _ => ?_)), VM.push_eq]
  rw [hp]
  exact mask_toInt (by decide) Iff.rfl

section
attribute [local irreducible] F64.eq F64.lt Val.fromV128I

/-- **C69** Comparisons: a lane of the result is all ones where the comparison of the two lanes holds and zero elsewhere. -/
theorem C69_compare (op : VOp) (w : FW) (q : Num → Num → Bool) (h : (op, w, q) ∈ compareLanes) (x y : Val) (s : List Val) :
    ∃ z : BitVec 128, evalVec op (y :: x :: s) = .ok () (v128 z :: s) ∧
      ∀ i < 128 / w.width, lane w.width z i =
        if q (laneNum w x.low128 i) (laneNum w y.low128 i) then BitVec.allOnes w.width else 0 := by
  simp only [compareLanes, List.mem_cons, Prod.mk.injEq, List.not_mem_nil, or_false] at h
  rcases h with ⟨rfl, rfl, rfl⟩ | ⟨rfl, rfl, rfl⟩ | ⟨rfl, rfl, rfl⟩ | ⟨rfl, rfl, rfl⟩ | ⟨rfl, rfl, rfl⟩ | ⟨rfl, rfl, rfl⟩ |
    ⟨rfl, rfl, rfl⟩ | ⟨rfl, rfl, rfl⟩ | ⟨rfl, rfl, rfl⟩ | ⟨rfl, rfl, rfl⟩ | ⟨rfl, rfl, rfl⟩ | ⟨rfl, rfl, rfl⟩
  · exact cmp_lanes32 (op := .f32x4_eq) F64.eq Num.equal F32.eq_toF64 (by rw [evalVec]) x y s
  · exact cmp_lanes32 (op := .f32x4_ne) (fun a b => !F64.eq a b) (fun a b => !a.equal b) (fun a b => by rw [F32.eq_toF64]) (by rw [evalVec]) x y s
  · exact cmp_lanes32 (op := .f32x4_lt) F64.lt Num.less F32.lt_toF64 (by rw [evalVec]) x y s
  · exact cmp_lanes32 (op := .f32x4_gt) (fun a b => F64.lt b a) (fun a b => b.less a) (fun a b => F32.lt_toF64 b a) (by rw [evalVec]) x y s
  · exact cmp_lanes32 (op := .f32x4_le) F64.le (fun a b => a.less b || a.equal b) (fun a b => by rw [F64.le, F32.eq_toF64, F32.lt_toF64]) (by rw [evalVec]) x y s
  · exact cmp_lanes32 (op := .f32x4_ge) (fun a b => F64.le b a) (fun a b => b.less a || b.equal a) (fun a b => by rw [F64.le, F32.eq_toF64, F32.lt_toF64]) (by rw [evalVec]) x y s
  · exact cmp_lanes64 (op := .f64x2_eq) F64.eq Num.equal F64.eq_eq (by rw [evalVec]) x y s
  · exact cmp_lanes64 (op := .f64x2_ne) (fun a b => !F64.eq a b) (fun a b => !a.equal b) (fun a b => by rw [F64.eq_eq]) (by rw [evalVec]) x y s
  · exact cmp_lanes64 (op := .f64x2_lt) F64.lt Num.less F64.lt_eq (by rw [evalVec]) x y s
  · exact cmp_lanes64 (op := .f64x2_gt) (fun a b => F64.lt b a) (fun a b => b.less a) (fun a b => F64.lt_eq b a) (by rw [evalVec]) x y s
  · exact cmp_lanes64 (op := .f64x2_le) F64.le (fun a b => a.less b || a.equal b) (fun a b => by rw [F64.le, F64.eq_eq, F64.lt_eq]) (by rw [evalVec]) x y s
  · exact cmp_lanes64 (op := .f64x2_ge) (fun a b => F64.le b a) (fun a b => b.less a || b.equal a) (fun a b => by rw [F64.le, F64.eq_eq, F64.lt_eq]) (by rw [evalVec]) x y s
end

/-! ## pmin, pmax, abs, neg: instructions that copy bits -/

/-- **C69** `f64x2.pmin` and `f64x2.pmax` give one of the two lanes unchanged: the second one if it is smaller (greater),
and the first one otherwise, also when a lane is a NaN. -/
theorem C69_f64_pmin_pmax (x y : Val) (s : List Val) :
    (∃ z : BitVec 128, evalVec .f64x2_pmin (y :: x :: s) = .ok () (v128 z :: s) ∧ ∀ i < 2, lane 64 z i =
      if (laneNum .w64 y.low128 i).less (laneNum .w64 x.low128 i) then lane 64 y.low128 i else lane 64 x.low128 i) ∧
    (∃ z : BitVec 128, evalVec .f64x2_pmax (y :: x :: s) = .ok () (v128 z :: s) ∧ ∀ i < 2, lane 64 z i =
      if (laneNum .w64 x.low128 i).less (laneNum .w64 y.low128 i) then lane 64 y.low128 i else lane 64 x.low128 i) := by
  constructor
  · refine ⟨_, ?_, fun i hi => lane64 (fun i => if (laneNum .w64 y.low128 i).less (laneNum .w64 x.low128 i) then lane 64 y.low128 i
      else lane 64 x.low128 i) hi⟩
    rw [evalVec, VM.bind_eq (VM.popLanesF64_cons _ _), VM.bind_eq (VM.popLanesF64_cons _ _)]
    simp only [range_at]
    rw [VM.bind_eq (VM.lift_ok (fromV128F64_eq _)), VM.push_eq]
    unfold F64.pyMin
    simp only [F64.lt_eq]; rfl
  · refine ⟨_, ?_, fun i hi => lane64 (fun i => if (laneNum .w64 x.low128 i).less (laneNum .w64 y.low128 i) then lane 64 y.low128 i
      else lane 64 x.low128 i) hi⟩
    rw [evalVec, VM.bind_eq (VM.popLanesF64_cons _ _), VM.bind_eq (VM.popLanesF64_cons _ _)]
    simp only [range_at]
    rw [VM.bind_eq (VM.lift_ok (fromV128F64_eq _)), VM.push_eq]
    unfold F64.pyMax
    simp only [F64.lt_eq]; rfl

/-- **C69** `f32x4.pmin` and `f32x4.pmax` do the same when the chosen lane is not a signalling NaN; it then stays a NaN.
Missing: its bits, see `C69_quiets_false`. -/
theorem C69_f32_pmin_pmax_partial (x y : Val) (s : List Val) :
    (∃ z : BitVec 128, evalVec .f32x4_pmin (y :: x :: s) = .ok () (v128 z :: s) ∧ ∀ i < 4, ∀ c, c =
      (if (laneNum .w32 y.low128 i).less (laneNum .w32 x.low128 i) then lane 32 y.low128 i else lane 32 x.low128 i) →
      (¬ sNaN32 c → lane 32 z i = c) ∧ (sNaN32 c → laneNum .w32 z i = .nan)) ∧
    (∃ z : BitVec 128, evalVec .f32x4_pmax (y :: x :: s) = .ok () (v128 z :: s) ∧ ∀ i < 4, ∀ c, c =
      (if (laneNum .w32 x.low128 i).less (laneNum .w32 y.low128 i) then lane 32 y.low128 i else lane 32 x.low128 i) →
      (¬ sNaN32 c → lane 32 z i = c) ∧ (sNaN32 c → laneNum .w32 z i = .nan)) := by
  have key : ∀ c : F32, (¬ sNaN32 c → F32.ofF64 (F32.toF64 c) = c) ∧ (sNaN32 c → num32 (F32.ofF64 (F32.toF64 c)) = .nan) :=
    fun c => ⟨F32.ofF64_toF64, fun h => num32_ofF64_nan (by rw [F32.toF64_isNaN, F32.isNaN_iff]; exact h.1)⟩
  constructor
  · refine ⟨ofLanes 32 fun i => F32.ofF64 (F64.pyMin (F32.toF64 (lane 32 x.low128 i)) (F32.toF64 (lane 32 y.low128 i))), ?_, fun i hi c hc => ?_⟩
    · rw [evalVec, VM.bind_eq (VM.popLanesF32_cons _ _), VM.bind_eq (VM.popLanesF32_cons _ _)]
      simp only [range_at]
      rw [VM.bind_eq (VM.lift_ok (fromV128F32_eq _)), VM.push_eq]
    · simp only [laneNum32] at hc ⊢
      rw [lane32 _ hi, F64.pyMin, F32.lt_toF64, ← apply_ite F32.toF64, show (if (num32 (lane 32 y.low128 i)).less (num32 (lane 32 x.low128 i)) = true then
        lane 32 y.low128 i else lane 32 x.low128 i) = c from hc.symm]
      exact key c
  · refine ⟨ofLanes 32 fun i => F32.ofF64 (F64.pyMax (F32.toF64 (lane 32 x.low128 i)) (F32.toF64 (lane 32 y.low128 i))), ?_, fun i hi c hc => ?_⟩
    · rw [evalVec, VM.bind_eq (VM.popLanesF32_cons _ _), VM.bind_eq (VM.popLanesF32_cons _ _)]
      simp only [range_at]
      rw [VM.bind_eq (VM.lift_ok (fromV128F32_eq _)), VM.push_eq]
    · simp only [laneNum32] at hc ⊢
      rw [lane32 _ hi, F64.pyMax, F32.lt_toF64, ← apply_ite F32.toF64, show (if (num32 (lane 32 x.low128 i)).less (num32 (lane 32 y.low128 i)) = true then
        lane 32 y.low128 i else lane 32 x.low128 i) = c from hc.symm]
      exact key c

/-- **C69** `f64x2.abs` and `f64x2.neg` change only the sign bit of each lane, also of NaNs. -/
theorem C69_f64_abs_neg (x : Val) (s : List Val) :
    (∃ z : BitVec 128, evalVec .f64x2_abs (x :: s) = .ok () (v128 z :: s) ∧ ∀ i < 2,
      code64 (lane 64 z i) = code64 (lane 64 x.low128 i) ∧ (lane 64 z i).msb = false) ∧
    (∃ z : BitVec 128, evalVec .f64x2_neg (x :: s) = .ok () (v128 z :: s) ∧ ∀ i < 2,
      code64 (lane 64 z i) = code64 (lane 64 x.low128 i) ∧ (lane 64 z i).msb = !(lane 64 x.low128 i).msb) := by
  constructor
  · refine ⟨ofLanes 64 fun i => F64.abs (lane 64 x.low128 i), ?_, fun i hi => ?_⟩
    · rw [evalVec, VM.bind_eq (VM.popLanesF64_cons _ _)]
      simp only [List.map_map]
      rw [VM.bind_eq (VM.lift_ok (fromV128F64_eq _)), VM.push_eq]; rfl
    · rw [lane64 _ hi]
      exact ⟨F64.ofMag_code (F64.code_lt _), F64.ofMag_msb (F64.code_lt _)⟩
  · refine ⟨ofLanes 64 fun i => F64.neg (lane 64 x.low128 i), ?_, fun i hi => ?_⟩
    · rw [evalVec, VM.bind_eq (VM.popLanesF64_cons _ _)]
      simp only [List.map_map]
      rw [VM.bind_eq (VM.lift_ok (fromV128F64_eq _)), VM.push_eq]; rfl
    · rw [lane64 _ hi]
      exact ⟨F64.ofMag_code (F64.code_lt _), (F64.ofMag_msb (F64.code_lt _)).trans (by rw [F64.sign_eq])⟩

theorem ofF64_setSign (x : F32) (b : Bool) :
    (F32.ofF64 (F64.ofMag b (code64 (F32.toF64 x)))).msb = b ∧
    (¬ sNaN32 x → code32 (F32.ofF64 (F64.ofMag b (code64 (F32.toF64 x)))) = code32 x) ∧
    (sNaN32 x → num32 (F32.ofF64 (F64.ofMag b (code64 (F32.toF64 x)))) = .nan) := by
  have hc := F64.ofMag_code (s := b) (F64.code_lt (F32.toF64 x))
  refine ⟨by rw [F32.ofF64_msb]; exact F64.ofMag_msb (F64.code_lt _), fun h => ?_, fun h => ?_⟩
  · have e : code32 (F32.ofF64 (F64.ofMag b (code64 (F32.toF64 x)))) = code32 (F32.ofF64 (F32.toF64 x)) := by
      generalize F32.toF64 x = y at hc
      rcases F64.num_cases y with ⟨h1, h2, h3⟩ | ⟨h1, h2, h3⟩ | ⟨h1, h2, h4, h3⟩
      · rw [(F32.ofF64_nan (x := F64.ofMag b (code64 y)) ((F64.isNaN_iff _).mpr (by rw [hc]; exact (F64.isNaN_iff y).mp h1))).2,
          (F32.ofF64_nan h1).2, hc]
      · rw [(F32.ofF64_inf (x := F64.ofMag b (code64 y)) ((F64.isInf_iff _).mpr (by rw [hc]; exact (F64.isInf_iff y).mp h2))).2,
          (F32.ofF64_inf h2).2]
      · rw [(F32.ofF64_spec (x := F64.ofMag b (code64 y)) (by rw [hc]; exact h4)).2.1, (F32.ofF64_spec h4).2.1, hc]
    rw [e, F32.ofF64_toF64 h]
  · refine num32_ofF64_nan ((F64.isNaN_iff _).mpr ?_)
    rw [hc, ← F64.isNaN_iff, F32.toF64_isNaN, F32.isNaN_iff]
    exact h.1

/-- **C69** `f32x4.abs` and `f32x4.neg` set or flip the sign bit of each lane and keep the other bits unless the lane is a
signalling NaN; it stays a NaN.  Missing: its bits, see `C69_quiets_false`. -/
theorem C69_f32_abs_neg_partial (x : Val) (s : List Val) :
    (∃ z : BitVec 128, evalVec .f32x4_abs (x :: s) = .ok () (v128 z :: s) ∧ ∀ i < 4, (lane 32 z i).msb = false ∧
      (¬ sNaN32 (lane 32 x.low128 i) → code32 (lane 32 z i) = code32 (lane 32 x.low128 i)) ∧
      (sNaN32 (lane 32 x.low128 i) → laneNum .w32 z i = .nan)) ∧
    (∃ z : BitVec 128, evalVec .f32x4_neg (x :: s) = .ok () (v128 z :: s) ∧ ∀ i < 4, (lane 32 z i).msb = !(lane 32 x.low128 i).msb ∧
      (¬ sNaN32 (lane 32 x.low128 i) → code32 (lane 32 z i) = code32 (lane 32 x.low128 i)) ∧
      (sNaN32 (lane 32 x.low128 i) → laneNum .w32 z i = .nan)) := by
  constructor
  · refine ⟨ofLanes 32 fun i => F32.ofF64 (F64.abs (F32.toF64 (lane 32 x.low128 i))), ?_, fun i hi => ?_⟩
    · rw [evalVec, VM.bind_eq (VM.popLanesF32_cons _ _)]
      simp only [List.map_map]
      rw [VM.bind_eq (VM.lift_ok (fromV128F32_eq _)), VM.push_eq]; rfl
    · simp only [laneNum32]
      rw [lane32 _ hi]
      unfold F64.abs
      exact ofF64_setSign _ false
  · refine ⟨ofLanes 32 fun i => F32.ofF64 (F64.neg (F32.toF64 (lane 32 x.low128 i))), ?_, fun i hi => ?_⟩
    · rw [evalVec, VM.bind_eq (VM.popLanesF32_cons _ _)]
      simp only [List.map_map]
      rw [VM.bind_eq (VM.lift_ok (fromV128F32_eq _)), VM.push_eq]; rfl
    · simp only [laneNum32]
      rw [lane32 _ hi, ← F32.toF64_msb (lane 32 x.low128 i), ← F64.sign_eq]
      unfold F64.neg
      exact ofF64_setSign (lane 32 x.low128 i) (!F64.sign (F32.toF64 (lane 32 x.low128 i)))

/-- The restriction is needed: `f32x4.neg` of a signalling NaN sets the quiet bit, although the scalar `f32.neg` does not, and so
does `f32x4.pmin`. -/
theorem C69_quiets_false :
    evalVec .f32x4_neg [v128 0x7fa00000] = .ok () [v128 0x800000008000000080000000ffe00000] ∧
    evalFlt .f32_neg [f32 0x7fa00000] = .ok () [f32 0xffa00000] ∧
    evalVec .f32x4_pmin [v128 0, v128 0x7fa00000] = .ok () [v128 0x7fe00000] := by decide +kernel

/-- Every instruction on float lanes is in one of the tables or has a theorem of its own above. -/
theorem C69_covers (op : VOp) : op ∈ floatLanes ↔ op ∈ unaryLanes.map (·.1) ∨ op ∈ binaryLanes.map (·.1) ∨
    op ∈ compareLanes.map (·.1) ∨ op ∈ [.f32x4_abs, .f32x4_neg, .f32x4_pmin, .f32x4_pmax, .f64x2_abs, .f64x2_neg,
      .f64x2_pmin, .f64x2_pmax] := by
  cases op <;> decide

/-! ### the hypotheses are met -/

example : (VOp.i32x4_trunc_sat_f64x2_u_zero, LaneTy.f64, LaneTy.i32, 2, FOp.i32_trunc_sat_f64_u) ∈ unaryLanes := by decide
example : (VOp.f32x4_div, LaneTy.f32, FOp.f32_div) ∈ binaryLanes := by decide
/-- (1, 2, 3, 4) + (0.5, 0.5, 0.5, 0.5) -/
example : evalVec .f32x4_add [v128 0x3f0000003f0000003f0000003f000000, v128 0x4080000040400000400000003f800000] =
    .ok () [v128 0x4090000040600000402000003fc00000] := by decide +kernel
/-- truncation saturates; the upper lanes are zero: (-1.5, 1e300) -/
example : evalVec .i32x4_trunc_sat_f64x2_s_zero [v128 0x7e37e43c8800759cbff8000000000000] =
    .ok () [v128 0x7fffffffffffffff] := by decide +kernel
example : evalVec .f32x4_lt [v128 0x7fc00000000000003f80000040000000, v128 0x3f800000000000003f8000003f800000] =
    .ok () [v128 0x000000000000000000000000ffffffff] := by decide +kernel

/-! ## The hypotheses are met -/

example := C69_unary .i32x4_trunc_sat_f64x2_u_zero .f64 .i32 2 .i32_trunc_sat_f64_u (by decide) (v128 0x7e37e43c8800759cbff8000000000000) []
example := C69_binary .f32x4_div .f32 .f32_div (by decide) (v128 0x3f0000003f0000003f0000003f000000) (v128 0x4080000040400000400000003f800000) []
example := C69_arith _ _ _ (List.mem_cons_self ..) (v128 0x3f0000003f0000003f0000003f000000) (v128 0x4080000040400000400000003f800000) []
example := C69_compare _ _ _ (List.mem_cons_self ..) (v128 0x7fc00000000000003f80000040000000) (v128 0x3f800000000000003f8000003f800000) []

end Pywasm.Props
