import Verif.Spec.SimdFloat
import Verif.Lemmas.NumTy

/-!
# Vector instructions on float lanes
-/

set_option exponentiation.threshold 3000

namespace Pywasm
open Spec

/-! ## reading and writing lanes -/

theorem intoV128F32_eq (v : Val) : v.intoV128F32 = (List.range 4).map fun i => F32.toF64 (lane 32 v.low128 i) := by
  unfold Val.intoV128F32 Val.chunks
  rw [List.map_map]
  apply List.map_congr_left
  intro i _
  simp only [Function.comp]
  rw [lane_low128 (k := 4) rfl, BitVec.ofNat_toNat, BitVec.setWidth_eq]
theorem intoV128F64_eq (v : Val) : v.intoV128F64 = (List.range 2).map fun i => lane 64 v.low128 i := by
  unfold Val.intoV128F64 Val.chunks
  rw [List.map_map]
  apply List.map_congr_left
  intro i _
  simp only [Function.comp]
  rw [lane_low128 (k := 8) rfl, BitVec.ofNat_toNat, BitVec.setWidth_eq]

theorem fromV128F32_eq (f : Nat → F64) :
    Val.fromV128F32 ((List.range 4).map f) = .ok (v128 (ofLanes 32 fun i => F32.ofF64 (f i))) := by
  unfold Val.fromV128F32
  rw [show Py.assert (((List.range 4).map f).length == 4) = .ok () by simp [Py.assert]]
  show Val.make .v128 ((((List.range 4).map f).map fun x => Py.leBytes 4 (F32.ofF64 x).toNat).flatten ++ Py.zeros 0) = _
  rw [List.map_map]
  have := flatten_lanes (w := 32) (k := 4) rfl (by decide) fun i => F32.ofF64 (f i)
  rw [show ((List.range 4).map ((fun x => Py.leBytes 4 (F32.ofF64 x).toNat) ∘ f)) =
    ((List.range (16 / 4)).map fun i => bytesLE 4 (F32.ofF64 (f i)).toNat) from
    List.map_congr_left fun i _ => by rw [bytesLE_eq]; rfl, this]
  exact make_cell _ 16 _ (by decide)
theorem fromV128F64_eq (f : Nat → F64) :
    Val.fromV128F64 ((List.range 2).map f) = .ok (v128 (ofLanes 64 f)) := by
  unfold Val.fromV128F64
  rw [show Py.assert (((List.range 2).map f).length == 2) = .ok () by simp [Py.assert]]
  show Val.make .v128 ((((List.range 2).map f).map fun x => Py.leBytes 8 x.toNat).flatten ++ Py.zeros 0) = _
  rw [List.map_map]
  have := flatten_lanes (w := 64) (k := 8) rfl (by decide) f
  rw [show ((List.range 2).map ((fun x : F64 => Py.leBytes 8 x.toNat) ∘ f)) =
    ((List.range (16 / 8)).map fun i => bytesLE 8 (f i).toNat) from
    List.map_congr_left fun i _ => by rw [bytesLE_eq]; rfl, this]
  exact make_cell _ 16 _ (by decide)

namespace VM
theorem popLanesF32_cons (v : Val) (s) :
    popLanesF32 (v :: s) = .ok ((List.range 4).map fun i => F32.toF64 (lane 32 v.low128 i)) s := by
  unfold popLanesF32; rw [bind_eq (pop_cons v s), intoV128F32_eq]; rfl
theorem popLanesF64_cons (v : Val) (s) : popLanesF64 (v :: s) = .ok ((List.range 2).map fun i => lane 64 v.low128 i) s := by
  unfold popLanesF64; rw [bind_eq (pop_cons v s), intoV128F64_eq]; rfl
end VM

theorem lane32 (f : Nat → BitVec 32) {i : Nat} (h : i < 4) : lane 32 (ofLanes 32 f) i = f i :=
  lane_ofLanes (k := 4) rfl (by decide) f h
theorem lane64 (f : Nat → BitVec 64) {i : Nat} (h : i < 2) : lane 64 (ofLanes 64 f) i = f i :=
  lane_ofLanes (k := 8) rfl (by decide) f h

/-- The value of a computation that does not fail. -/
def okD {α} [Inhabited α] : Except Err α → α
  | .ok x => x
  | .error _ => default
theorem okD_eq {α} [Inhabited α] {P : α → Prop} {x : Except Err α} (h : Good P x) : x = .ok (okD x) := by
  obtain ⟨y, rfl, _⟩ := h; rfl
theorem okD_prop {α} [Inhabited α] {P : α → Prop} {x : Except Err α} (h : Good P x) : P (okD x) := by
  obtain ⟨y, rfl, h⟩ := h; exact h
theorem mapM_range {α β} [Inhabited β] {P : β → Prop} (g : α → Except Err β) (f : Nat → α) (n : Nat) (h : ∀ i < n, Good P (g (f i))) :
    ((List.range n).map f).mapM g = .ok ((List.range n).map fun i => okD (g (f i))) := by
  rw [List.mapM_map]
  exact mapM_ok _ _ _ fun i hi => okD_eq (h i (List.mem_range.mp hi))

/-! ## shapes -/

/-- What a unary instruction must do. -/
def UnLanes (op : VOp) (tin tout : LaneTy) (n : Nat) (fop : FOp) : Prop :=
  ∀ (x : Val) (s : List Val), ∃ z : BitVec 128, evalVec op (x :: s) = .ok () (v128 z :: s) ∧
    (∀ i < n, evalFlt fop [laneCell tin x.low128 i] = .ok () [laneCell tout z i]) ∧
    ∀ i, n ≤ i → i < tout.count → laneCell tout z i = laneCell tout 0 i
/-- What a binary instruction must do. -/
def BinLanes (op : VOp) (t : LaneTy) (fop : FOp) : Prop :=
  ∀ (x y : Val) (s : List Val), ∃ z : BitVec 128, evalVec op (y :: x :: s) = .ok () (v128 z :: s) ∧
    ∀ i < t.count, evalFlt fop [laneCell t y.low128 i, laneCell t x.low128 i] = .ok () [laneCell t z i]

section
variable {op : VOp} {fop : FOp}

theorem un32 {g : F64 → F64}
    (h : evalVec op = do
      let a ← VM.popLanesF32
      let b := a.map g
      let c ← VM.lift (Val.fromV128F32 b)
      VM.push c)
    (h' : evalFlt fop = do
      let a ← VM.popF32
      let b := g a
      let c ← VM.lift (Val.fromF32 b)
      VM.push c) : UnLanes op .f32 .f32 4 fop := by
  intro x s
  refine ⟨ofLanes 32 fun i => F32.ofF64 (g (F32.toF64 (lane 32 x.low128 i))), ?_, fun i hi => ?_, fun i h1 h2 => absurd h2 (Nat.not_lt.mpr h1)⟩
  · rw [h, VM.bind_eq (VM.popLanesF32_cons _ _)]
    simp only [List.map_map]
    rw [VM.bind_eq (VM.lift_ok (fromV128F32_eq _)), VM.push_eq]; rfl
  · rw [h', VM.bind_eq (VM.popF32_cons _ _)]
    simp only [laneCell, low32_f32]
    rw [VM.bind_eq (VM.lift_ok (fromF32_eq _)), VM.push_eq, lane32 _ hi]
theorem un64 {g : F64 → F64}
    (h : evalVec op = do
      let a ← VM.popLanesF64
      let b := a.map g
      let c ← VM.lift (Val.fromV128F64 b)
      VM.push c)
    (h' : evalFlt fop = do
      let a ← VM.popF64
      let b := g a
      let c ← VM.lift (Val.fromF64 b)
      VM.push c) : UnLanes op .f64 .f64 2 fop := by
  intro x s
  refine ⟨ofLanes 64 fun i => g (lane 64 x.low128 i), ?_, fun i hi => ?_, fun i h1 h2 => absurd h2 (Nat.not_lt.mpr h1)⟩
  · rw [h, VM.bind_eq (VM.popLanesF64_cons _ _)]
    simp only [List.map_map]
    rw [VM.bind_eq (VM.lift_ok (fromV128F64_eq _)), VM.push_eq]; rfl
  · rw [h', VM.bind_eq (VM.popF64_cons _ _)]
    simp only [laneCell, low64_f64]
    rw [VM.bind_eq (VM.lift_ok (fromF64_eq _)), VM.push_eq, lane64 _ hi]

theorem unM32 {g : F64 → Except Err F64} (hg : ∀ x, Good (fun _ => True) (g x))
    (h : evalVec op = do
      let a ← VM.popLanesF32
      let b ← VM.lift (a.mapM g)
      let c ← VM.lift (Val.fromV128F32 b)
      VM.push c)
    (h' : evalFlt fop = do
      let a ← VM.popF32
      let b ← VM.lift (g a)
      let c ← VM.lift (Val.fromF32 b)
      VM.push c) : UnLanes op .f32 .f32 4 fop := by
  intro x s
  refine ⟨ofLanes 32 fun i => F32.ofF64 (okD (g (F32.toF64 (lane 32 x.low128 i)))), ?_, fun i hi => ?_, fun i h1 h2 => absurd h2 (Nat.not_lt.mpr h1)⟩
  · rw [h, VM.bind_eq (VM.popLanesF32_cons _ _), VM.bind_eq (VM.lift_ok (mapM_range _ _ _ fun i _ => hg _)),
      VM.bind_eq (VM.lift_ok (fromV128F32_eq _)), VM.push_eq]
  · rw [h', VM.bind_eq (VM.popF32_cons _ _)]
    simp only [laneCell, low32_f32]
    rw [VM.bind_eq (VM.lift_ok (okD_eq (hg _))), VM.bind_eq (VM.lift_ok (fromF32_eq _)), VM.push_eq, lane32 _ hi]
theorem unM64 {g : F64 → Except Err F64} (hg : ∀ x, Good (fun _ => True) (g x))
    (h : evalVec op = do
      let a ← VM.popLanesF64
      let b ← VM.lift (a.mapM g)
      let c ← VM.lift (Val.fromV128F64 b)
      VM.push c)
    (h' : evalFlt fop = do
      let a ← VM.popF64
      let b ← VM.lift (g a)
      let c ← VM.lift (Val.fromF64 b)
      VM.push c) : UnLanes op .f64 .f64 2 fop := by
  intro x s
  refine ⟨ofLanes 64 fun i => okD (g (lane 64 x.low128 i)), ?_, fun i hi => ?_, fun i h1 h2 => absurd h2 (Nat.not_lt.mpr h1)⟩
  · rw [h, VM.bind_eq (VM.popLanesF64_cons _ _), VM.bind_eq (VM.lift_ok (mapM_range _ _ _ fun i _ => hg _)),
      VM.bind_eq (VM.lift_ok (fromV128F64_eq _)), VM.push_eq]
  · rw [h', VM.bind_eq (VM.popF64_cons _ _)]
    simp only [laneCell, low64_f64]
    rw [VM.bind_eq (VM.lift_ok (okD_eq (hg _))), VM.bind_eq (VM.lift_ok (fromF64_eq _)), VM.push_eq, lane64 _ hi]

theorem range_at {α} [Inhabited α] {n : Nat} (f g : Nat → α) {β} (k : α → α → β) :
    ((List.range n).map fun i => k (((List.range n).map f).at i) (((List.range n).map g).at i)) =
      (List.range n).map fun i => k (f i) (g i) :=
  List.map_congr_left fun i hi => by
    rw [range_map_at f (List.mem_range.mp hi), range_map_at g (List.mem_range.mp hi)]

theorem bin32 {g : F64 → F64 → F64}
    (h : evalVec op = do
      let b ← VM.popLanesF32
      let a ← VM.popLanesF32
      let c := (List.range 4).map (fun i => g (a.at i) (b.at i))
      let d ← VM.lift (Val.fromV128F32 c)
      VM.push d)
    (h' : evalFlt fop = do
      let b ← VM.popF32
      let a ← VM.popF32
      let c := g a b
      let d ← VM.lift (Val.fromF32 c)
      VM.push d) : BinLanes op .f32 fop := by
  intro x y s
  refine ⟨ofLanes 32 fun i => F32.ofF64 (g (F32.toF64 (lane 32 x.low128 i)) (F32.toF64 (lane 32 y.low128 i))), ?_, fun i hi => ?_⟩
  · rw [h, VM.bind_eq (VM.popLanesF32_cons _ _), VM.bind_eq (VM.popLanesF32_cons _ _)]
    simp only [range_at]
    rw [VM.bind_eq (VM.lift_ok (fromV128F32_eq _)), VM.push_eq]
  · rw [h']
    simp only [laneCell]
    rw [VM.bind_eq (VM.popF32_cons _ _), VM.bind_eq (VM.popF32_cons _ _), low32_f32, low32_f32,
      VM.bind_eq (VM.lift_ok (fromF32_eq _)), VM.push_eq, lane32 _ hi]
theorem bin64 {g : F64 → F64 → F64}
    (h : evalVec op = do
      let b ← VM.popLanesF64
      let a ← VM.popLanesF64
      let c := (List.range 2).map (fun i => g (a.at i) (b.at i))
      let d ← VM.lift (Val.fromV128F64 c)
      VM.push d)
    (h' : evalFlt fop = do
      let b ← VM.popF64
      let a ← VM.popF64
      let c := g a b
      let d ← VM.lift (Val.fromF64 c)
      VM.push d) : BinLanes op .f64 fop := by
  intro x y s
  refine ⟨ofLanes 64 fun i => g (lane 64 x.low128 i) (lane 64 y.low128 i), ?_, fun i hi => ?_⟩
  · rw [h, VM.bind_eq (VM.popLanesF64_cons _ _), VM.bind_eq (VM.popLanesF64_cons _ _)]
    simp only [range_at]
    rw [VM.bind_eq (VM.lift_ok (fromV128F64_eq _)), VM.push_eq]
  · rw [h']
    simp only [laneCell]
    rw [VM.bind_eq (VM.popF64_cons _ _), VM.bind_eq (VM.popF64_cons _ _), low64_f64, low64_f64,
      VM.bind_eq (VM.lift_ok (fromF64_eq _)), VM.push_eq, lane64 _ hi]
end

/-! ## all unary and binary instructions -/
section
attribute [local irreducible] Val.fromF32 Val.fromF64 Val.fromV128F32 Val.fromV128F64 F64.ofInt satInt
  F64.ceil F64.floor F64.trunc F64.roundEven F64.sqrt F64.add F64.sub F64.mul Arith.F64.div Arith.F32.div Arith.F64.min
  Arith.F32.min Arith.F64.max Arith.F32.max

theorem l_ceil32 : UnLanes .f32x4_ceil .f32 .f32 4 .f32_ceil := unM32 good_ceil (by rw [evalVec]) (by rw [evalFlt])
theorem l_floor32 : UnLanes .f32x4_floor .f32 .f32 4 .f32_floor := unM32 good_floor (by rw [evalVec]) (by rw [evalFlt])
theorem l_trunc32 : UnLanes .f32x4_trunc .f32 .f32 4 .f32_trunc := unM32 good_trunc (by rw [evalVec]) (by rw [evalFlt])
theorem l_nearest32 : UnLanes .f32x4_nearest .f32 .f32 4 .f32_nearest := unM32 good_nearest (by rw [evalVec]) (by rw [evalFlt])
theorem l_ceil64 : UnLanes .f64x2_ceil .f64 .f64 2 .f64_ceil := unM64 good_ceil (by rw [evalVec]) (by rw [evalFlt])
theorem l_floor64 : UnLanes .f64x2_floor .f64 .f64 2 .f64_floor := unM64 good_floor (by rw [evalVec]) (by rw [evalFlt])
theorem l_trunc64 : UnLanes .f64x2_trunc .f64 .f64 2 .f64_trunc := unM64 good_trunc (by rw [evalVec]) (by rw [evalFlt])
theorem l_nearest64 : UnLanes .f64x2_nearest .f64 .f64 2 .f64_nearest := unM64 good_nearest (by rw [evalVec]) (by rw [evalFlt])
theorem l_sqrt32 : UnLanes .f32x4_sqrt .f32 .f32 4 .f32_sqrt := un32 (by rw [evalVec]) (by rw [evalFlt])
theorem l_sqrt64 : UnLanes .f64x2_sqrt .f64 .f64 2 .f64_sqrt := un64 (by rw [evalVec]) (by rw [evalFlt])

theorem l_add32 : BinLanes .f32x4_add .f32 .f32_add := bin32 (by rw [evalVec]) (by rw [evalFlt])
theorem l_sub32 : BinLanes .f32x4_sub .f32 .f32_sub := bin32 (by rw [evalVec]) (by rw [evalFlt])
theorem l_mul32 : BinLanes .f32x4_mul .f32 .f32_mul := bin32 (by rw [evalVec]) (by rw [evalFlt])
theorem l_div32 : BinLanes .f32x4_div .f32 .f32_div := bin32 (by rw [evalVec]) (by rw [evalFlt])
theorem l_min32 : BinLanes .f32x4_min .f32 .f32_min := bin32 (by rw [evalVec]) (by rw [evalFlt])
theorem l_max32 : BinLanes .f32x4_max .f32 .f32_max := bin32 (by rw [evalVec]) (by rw [evalFlt])
theorem l_add64 : BinLanes .f64x2_add .f64 .f64_add := bin64 (by rw [evalVec]) (by rw [evalFlt])
theorem l_sub64 : BinLanes .f64x2_sub .f64 .f64_sub := bin64 (by rw [evalVec]) (by rw [evalFlt])
theorem l_mul64 : BinLanes .f64x2_mul .f64 .f64_mul := bin64 (by rw [evalVec]) (by rw [evalFlt])
theorem l_div64 : BinLanes .f64x2_div .f64 .f64_div := bin64 (by rw [evalVec]) (by rw [evalFlt])
theorem l_min64 : BinLanes .f64x2_min .f64 .f64_min := bin64 (by rw [evalVec]) (by rw [evalFlt])
theorem l_max64 : BinLanes .f64x2_max .f64 .f64_max := bin64 (by rw [evalVec]) (by rw [evalFlt])
end

/-! ## conversions -/

theorem pad4 {α} (f : Nat → α) (z : α) : (List.range 2).map f ++ [z, z] = (List.range 4).map fun i => if i < 2 then f i else z := by
  simp [List.range_succ]
theorem take2 {α} (f : Nat → α) : ((List.range 4).map f).take 2 = (List.range 2).map f := by
  simp [List.range_succ]
theorem ofF64_zero : F32.ofF64 F64.zero = 0 := by decide +kernel
theorem lane_zero (w i : Nat) : lane w (0 : BitVec 128) i = 0 := by
  unfold lane; exact BitVec.extractLsb'_zero ..

theorem l_demote : UnLanes .f32x4_demote_f64x2_zero .f64 .f32 2 .f32_demote_f64 := by
  intro x s
  refine ⟨ofLanes 32 fun i => F32.ofF64 (if i < 2 then lane 64 x.low128 i else F64.zero), ?_, fun i hi => ?_, fun i h1 h2 => ?_⟩
  · rw [evalVec, VM.bind_eq (VM.popLanesF64_cons _ _)]
    simp only [pad4]
    rw [VM.bind_eq (VM.lift_ok (fromV128F32_eq _)), VM.push_eq]
  · rw [evalFlt, VM.bind_eq (VM.popF64_cons _ _)]
    simp only [laneCell, low64_f64]
    rw [VM.bind_eq (VM.lift_ok (fromF32_eq _)), VM.push_eq, lane32 _ (by omega), if_pos hi]
  · simp only [laneCell]
    rw [lane32 _ h2, if_neg (by omega), ofF64_zero, lane_zero]
theorem l_promote : UnLanes .f64x2_promote_low_f32x4 .f32 .f64 2 .f64_promote_f32 := by
  intro x s
  refine ⟨ofLanes 64 fun i => F32.toF64 (lane 32 x.low128 i), ?_, fun i hi => ?_, fun i h1 h2 => absurd h2 (Nat.not_lt.mpr h1)⟩
  · rw [evalVec, VM.bind_eq (VM.popLanesF32_cons _ _)]
    simp only [take2]
    rw [VM.bind_eq (VM.lift_ok (fromV128F64_eq _)), VM.push_eq]
  · rw [evalFlt, VM.bind_eq (VM.popF32_cons _ _)]
    simp only [laneCell, low32_f32]
    rw [VM.bind_eq (VM.lift_ok (fromF64_eq _)), VM.push_eq, lane64 _ hi]

section
attribute [local irreducible] satInt F64.ofInt

theorem i32_toInt {k : Int} (h : -2 ^ 31 ≤ k ∧ k < 2 ^ 31) : k = (BitVec.ofInt 32 k).toInt := by
  rw [BitVec.toInt_ofInt, Int.bmod_def]; norm_num; split <;> omega
theorem u32_toNat {k : Int} (h : 0 ≤ k ∧ k ≤ 2 ^ 32 - 1) : k = ((BitVec.ofInt 32 k).toNat : Int) := by
  rw [BitVec.toNat_ofInt]; norm_num; omega

/-- the integer a lane is truncated to -/
abbrev satS32 (e : F64) : Except Err Int := satInt (Arith.I.min 4) (Arith.I.max 4) (if e.isNaN then F64.zero else e)
abbrev satU32 (e : F64) : Except Err Int := satInt (Arith.U.min 4) (Arith.U.max 4) (if e.isNaN then F64.zero else e)

theorem satS_list (f : Nat → F64) (n : Nat) :
    (((List.range n).map f).map fun e => if e.isNaN then F64.zero else e).mapM (fun e => satInt (Arith.I.min 4) (Arith.I.max 4) e) =
      .ok ((List.range n).map fun i => okD (satS32 (f i))) := by
  rw [List.map_map]
  exact mapM_range (fun e => satInt (Arith.I.min 4) (Arith.I.max 4) e) (fun i => if F64.isNaN (f i) then F64.zero else f i) n
    fun i _ => good_satI32 (f i)
theorem satU_list (f : Nat → F64) (n : Nat) :
    (((List.range n).map f).map fun e => if e.isNaN then F64.zero else e).mapM (fun e => satInt (Arith.U.min 4) (Arith.U.max 4) e) =
      .ok ((List.range n).map fun i => okD (satU32 (f i))) := by
  rw [List.map_map]
  exact mapM_range (fun e => satInt (Arith.U.min 4) (Arith.U.max 4) e) (fun i => if F64.isNaN (f i) then F64.zero else f i) n
    fun i _ => good_satU32 (f i)

theorem l_sat32s : UnLanes .i32x4_trunc_sat_f32x4_s .f32 .i32 4 .i32_trunc_sat_f32_s := by
  intro x s
  refine ⟨ofLanes 32 fun i => BitVec.ofInt 32 (okD (satS32 (F32.toF64 (lane 32 x.low128 i)))), ?_, fun i hi => ?_, fun i h1 h2 => absurd h2 (Nat.not_lt.mpr h1)⟩
  · rw [evalVec, VM.bind_eq (VM.popLanesF32_cons _ _)]
    rw [VM.bind_eq (VM.lift_ok (satS_list _ _)),
      VM.bind_eq (VM.lift_ok (fromI (w := 32) rfl rfl rfl fun i _ => i32_toInt (okD_prop (good_satI32 _)))), VM.push_eq]
  · rw [evalFlt, VM.bind_eq (VM.popF32_cons _ _)]
    simp only [laneCell, low32_f32]
    rw [VM.bind_eq (VM.lift_ok (okD_eq (good_satI32 _))), VM.bind_eq (VM.lift_ok (fromI32_of_range (okD_prop (good_satI32 _)))),
      VM.push_eq, lane32 _ hi]
theorem l_sat32u : UnLanes .i32x4_trunc_sat_f32x4_u .f32 .i32 4 .i32_trunc_sat_f32_u := by
  intro x s
  refine ⟨ofLanes 32 fun i => BitVec.ofInt 32 (okD (satU32 (F32.toF64 (lane 32 x.low128 i)))), ?_, fun i hi => ?_, fun i h1 h2 => absurd h2 (Nat.not_lt.mpr h1)⟩
  · rw [evalVec, VM.bind_eq (VM.popLanesF32_cons _ _)]
    rw [VM.bind_eq (VM.lift_ok (satU_list _ _)),
      VM.bind_eq (VM.lift_ok (fromU (w := 32) rfl rfl rfl fun i _ => u32_toNat (okD_prop (good_satU32 _)))), VM.push_eq]
  · rw [evalFlt, VM.bind_eq (VM.popF32_cons _ _)]
    simp only [laneCell, low32_f32]
    rw [VM.bind_eq (VM.lift_ok (okD_eq (good_satU32 _))), VM.bind_eq (VM.lift_ok (fromU32_ofInt (okD_prop (good_satU32 _)))),
      VM.push_eq, lane32 _ hi]
theorem l_sat64s : UnLanes .i32x4_trunc_sat_f64x2_s_zero .f64 .i32 2 .i32_trunc_sat_f64_s := by
  intro x s
  refine ⟨ofLanes 32 fun i => BitVec.ofInt 32 (if i < 2 then okD (satS32 (lane 64 x.low128 i)) else 0), ?_, fun i hi => ?_, fun i h1 h2 => ?_⟩
  · rw [evalVec, VM.bind_eq (VM.popLanesF64_cons _ _)]
    rw [VM.bind_eq (VM.lift_ok (satS_list _ _))]
    simp only [pad4]
    rw [VM.bind_eq (VM.lift_ok (fromI (w := 32) (G := fun i => BitVec.ofInt 32 (if i < 2 then okD (satS32 (lane 64 x.low128 i)) else 0)) rfl rfl rfl fun i _ => ?_)), VM.push_eq]
    refine i32_toInt ?_
    split
    · exact okD_prop (good_satI32 _)
    · decide
  · rw [evalFlt, VM.bind_eq (VM.popF64_cons _ _)]
    simp only [laneCell, low64_f64]
    rw [VM.bind_eq (VM.lift_ok (okD_eq (good_satI32 _))), VM.bind_eq (VM.lift_ok (fromI32_of_range (okD_prop (good_satI32 _)))),
      VM.push_eq, lane32 _ (by omega), if_pos hi]
  · simp only [laneCell]
    rw [lane32 _ h2, if_neg (by omega), lane_zero]; rfl
theorem l_sat64u : UnLanes .i32x4_trunc_sat_f64x2_u_zero .f64 .i32 2 .i32_trunc_sat_f64_u := by
  intro x s
  refine ⟨ofLanes 32 fun i => BitVec.ofInt 32 (if i < 2 then okD (satU32 (lane 64 x.low128 i)) else 0), ?_, fun i hi => ?_, fun i h1 h2 => ?_⟩
  · rw [evalVec, VM.bind_eq (VM.popLanesF64_cons _ _)]
    rw [VM.bind_eq (VM.lift_ok (satU_list _ _))]
    simp only [pad4]
    rw [VM.bind_eq (VM.lift_ok (fromU (w := 32) (G := fun i => BitVec.ofInt 32 (if i < 2 then okD (satU32 (lane 64 x.low128 i)) else 0)) rfl rfl rfl fun i _ => ?_)), VM.push_eq]
    refine u32_toNat ?_
    split
    · exact okD_prop (good_satU32 _)
    · decide
  · rw [evalFlt, VM.bind_eq (VM.popF64_cons _ _)]
    simp only [laneCell, low64_f64]
    rw [VM.bind_eq (VM.lift_ok (okD_eq (good_satU32 _))), VM.bind_eq (VM.lift_ok (fromU32_ofInt (okD_prop (good_satU32 _)))),
      VM.push_eq, lane32 _ (by omega), if_pos hi]
  · simp only [laneCell]
    rw [lane32 _ h2, if_neg (by omega), lane_zero]; rfl

theorem good_s32 (x : BitVec 32) : Good (fun _ => True) (F64.ofInt x.toInt) := good_ofInt (by
  have h2 := BitVec.toInt_lt (x := x)
  have h3 := BitVec.le_toInt (x := x)
  omega)
theorem good_u32 (x : BitVec 32) : Good (fun _ => True) (F64.ofInt x.toNat) := good_ofInt (by
  have h2 := x.isLt
  omega)

theorem l_conv32s : UnLanes .f32x4_convert_i32x4_s .i32 .f32 4 .f32_convert_i32_s := by
  intro x s
  refine ⟨ofLanes 32 fun i => F32.ofF64 (okD (F64.ofInt (lane 32 x.low128 i).toInt)), ?_, fun i hi => ?_, fun i h1 h2 => absurd h2 (Nat.not_lt.mpr h1)⟩
  · rw [evalVec, VM.bind_eq (VM.popLanesI_cons (w := 32) (n := 4) rfl rfl _ _)]
    refine (VM.bind_eq (VM.lift_ok (a := v128 (ofLanes 32 fun i => F32.ofF64 (okD (F64.ofInt (lane 32 x.low128 i).toInt)))) ?_)).trans (VM.push_eq ..)
    unfold intsS
    rw [lift_bind_ok (mapM_range _ _ _ fun i _ => good_s32 _)]
    exact fromV128F32_eq _
  · rw [evalFlt, VM.bind_eq (VM.popI32_cons _ _)]
    simp only [laneCell, low32_i32]
    rw [VM.bind_eq (VM.lift_ok (by rw [lift_bind_ok (okD_eq (good_s32 _))]; exact fromF32_eq _)), VM.push_eq, lane32 _ hi]
theorem l_conv32u : UnLanes .f32x4_convert_i32x4_u .i32 .f32 4 .f32_convert_i32_u := by
  intro x s
  refine ⟨ofLanes 32 fun i => F32.ofF64 (okD (F64.ofInt (lane 32 x.low128 i).toNat)), ?_, fun i hi => ?_, fun i h1 h2 => absurd h2 (Nat.not_lt.mpr h1)⟩
  · rw [evalVec, VM.bind_eq (VM.popLanesU_cons (w := 32) (n := 4) rfl rfl _ _)]
    refine (VM.bind_eq (VM.lift_ok (a := v128 (ofLanes 32 fun i => F32.ofF64 (okD (F64.ofInt (lane 32 x.low128 i).toNat)))) ?_)).trans (VM.push_eq ..)
    unfold intsU
    rw [lift_bind_ok (mapM_range _ _ _ fun i _ => good_u32 _)]
    exact fromV128F32_eq _
  · rw [evalFlt, VM.bind_eq (VM.popU32_cons _ _)]
    simp only [laneCell, low32_i32]
    rw [VM.bind_eq (VM.lift_ok (by rw [lift_bind_ok (okD_eq (good_u32 _))]; exact fromF32_eq _)), VM.push_eq, lane32 _ hi]
theorem l_conv64s : UnLanes .f64x2_convert_low_i32x4_s .i32 .f64 2 .f64_convert_i32_s := by
  intro x s
  refine ⟨ofLanes 64 fun i => okD (F64.ofInt (lane 32 x.low128 i).toInt), ?_, fun i hi => ?_, fun i h1 h2 => absurd h2 (Nat.not_lt.mpr h1)⟩
  · rw [evalVec, VM.bind_eq (VM.popLanesI_cons (w := 32) (n := 4) rfl rfl _ _)]
    refine (VM.bind_eq (VM.lift_ok (a := v128 (ofLanes 64 fun i => okD (F64.ofInt (lane 32 x.low128 i).toInt))) ?_)).trans (VM.push_eq ..)
    unfold intsS
    rw [take2, lift_bind_ok (mapM_range _ _ _ fun i _ => good_s32 _)]
    exact fromV128F64_eq _
  · rw [evalFlt, VM.bind_eq (VM.popI32_cons _ _)]
    simp only [laneCell, low32_i32]
    rw [VM.bind_eq (VM.lift_ok (by rw [lift_bind_ok (okD_eq (good_s32 _))]; exact fromF64_eq _)), VM.push_eq, lane64 _ hi]
theorem l_conv64u : UnLanes .f64x2_convert_low_i32x4_u .i32 .f64 2 .f64_convert_i32_u := by
  intro x s
  refine ⟨ofLanes 64 fun i => okD (F64.ofInt (lane 32 x.low128 i).toNat), ?_, fun i hi => ?_, fun i h1 h2 => absurd h2 (Nat.not_lt.mpr h1)⟩
  · rw [evalVec, VM.bind_eq (VM.popLanesU_cons (w := 32) (n := 4) rfl rfl _ _)]
    refine (VM.bind_eq (VM.lift_ok (a := v128 (ofLanes 64 fun i => okD (F64.ofInt (lane 32 x.low128 i).toNat))) ?_)).trans (VM.push_eq ..)
    unfold intsU
    rw [take2, lift_bind_ok (mapM_range _ _ _ fun i _ => good_u32 _)]
    exact fromV128F64_eq _
  · rw [evalFlt, VM.bind_eq (VM.popU32_cons _ _)]
    simp only [laneCell, low32_i32]
    rw [VM.bind_eq (VM.lift_ok (by rw [lift_bind_ok (okD_eq (good_u32 _))]; exact fromF64_eq _)), VM.push_eq, lane64 _ hi]
end

end Pywasm
