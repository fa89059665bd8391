import Verif.Lemmas.SimdBase

/-!
# Bytes, masks and concatenations of vectors
-/

namespace Pywasm
open Spec

theorem data_at (v : Val) {i : Nat} (h : i < 16) : ((v.data.at i).toNat : Int) = ((lane 8 v.low128 i).toNat : Int) := by
  conv => lhs; rw [data_eq_map v]
  rw [range_map_at _ h, UInt8.toNat_ofNat_of_lt' (by simpa using (lane 8 v.low128 i).isLt)]

theorem fromBytes {F : Nat → Int} {G : Nat → BitVec 8} (h : ∀ i < 16, F i = ((G i).toNat : Int)) :
    (do Val.fromV128 (← Py.bytearray ((List.range 16).map F))) = .ok (v128 (ofLanes 8 G)) := by
  have e : Py.bytearray ((List.range 16).map F) = .ok ((List.range 16).map fun i => UInt8.ofNat (G i).toNat) := by
    unfold Py.bytearray
    rw [if_pos, List.map_map]
    · congr 1
      apply List.map_congr_left
      intro i hi
      simp [h i (List.mem_range.mp hi)]
    · rw [List.all_eq_true]
      intro n hn
      obtain ⟨i, hi, rfl⟩ := List.mem_map.mp hn
      have := (G i).isLt
      rw [h i (List.mem_range.mp hi)]
      simp; omega
  have key : BitVec.ofNat 128 (readLE ((List.range 16).map fun i => UInt8.ofNat (G i).toNat)) = ofLanes 8 G := by
    apply lane_ext (w := 8) (k := 1) rfl rfl
    intro i hi
    rw [lane_ofLanes rfl rfl _ hi, lane_bytes (w := 8) (k := 1) rfl _ (by simp)]
    have hi' : i < 16 := hi
    rw [Nat.mul_one i, List.drop_eq_getElem_cons (by simpa using hi'), List.take_succ_cons, List.take_zero]
    rw [readLE_eq, leNat_singleton]
    simp
  rw [e]
  simp only [bind, Except.bind]
  rw [fromV128_eq (by simp), key]

theorem lane_not (x : BitVec 128) {i : Nat} (h : i < 16) : lane 8 (~~~x) i = ~~~ lane 8 x i := by
  apply BitVec.eq_of_getLsbD_eq
  intro j hj
  simp [lane, hj]; omega
theorem lane_and (x y : BitVec 128) (i : Nat) : lane 8 (x &&& y) i = lane 8 x i &&& lane 8 y i := by
  apply BitVec.eq_of_getLsbD_eq; intro j hj; simp [lane, hj]
theorem lane_or (x y : BitVec 128) (i : Nat) : lane 8 (x ||| y) i = lane 8 x i ||| lane 8 y i := by
  apply BitVec.eq_of_getLsbD_eq; intro j hj; simp [lane, hj]
theorem lane_xor (x y : BitVec 128) (i : Nat) : lane 8 (x ^^^ y) i = lane 8 x i ^^^ lane 8 y i := by
  apply BitVec.eq_of_getLsbD_eq; intro j hj; simp [lane, hj]

theorem fromBytes' {F : Nat → Int} {x : BitVec 128} (h : ∀ i < 16, F i = ((lane 8 x i).toNat : Int)) :
    (do Val.fromV128 (← Py.bytearray ((List.range 16).map F))) = .ok (v128 x) := by
  rw [fromBytes (G := fun i => lane 8 x i) h, ofLanes_lane (k := 1) rfl rfl]

section bytes
variable {w : Nat} (x y : BitVec w)
theorem uand : Py.and (x.toNat : Int) y.toNat = ((x &&& y).toNat : Int) := by rw [BitVec.toNat_and]; rfl
theorem uor : Py.or (x.toNat : Int) y.toNat = ((x ||| y).toNat : Int) := by rw [BitVec.toNat_or]; rfl
theorem uxor : Py.xor (x.toNat : Int) y.toNat = ((x ^^^ y).toNat : Int) := by rw [BitVec.toNat_xor]; rfl
theorem uandnot : Py.and (x.toNat : Int) (Py.inv y.toNat) = ((x &&& ~~~y).toNat : Int) := by
  rw [show Py.inv (y.toNat : Int) = Int.negSucc y.toNat by unfold Py.inv; omega]
  show ((x.toNat - (x.toNat &&& y.toNat) : Nat) : Int) = _
  rw [← Py.bv_sub_and, BitVec.toNat_sub_of_le]
  · rw [BitVec.toNat_and]
  · rw [BitVec.le_def, BitVec.toNat_and]; exact Nat.and_le_left
end bytes

theorem unot (x : BitVec 8) : Arith.U.fit 1 (Py.inv x.toNat) = ((~~~x).toNat : Int) := by
  rw [Arith.U.fit_w (w := 8) rfl, Py.ofInt_inv]; simp

theorem data_map (v : Val) (f : UInt8 → Int) (g : Nat → Int) (h : ∀ b, f b = g b.toNat) :
    v.data.map f = (List.range 16).map fun i => g (lane 8 v.low128 i).toNat := by
  conv => lhs; rw [data_eq_map v]
  rw [List.map_map]
  apply List.map_congr_left
  intro i _
  simp only [Function.comp]
  rw [h, UInt8.toNat_ofNat_of_lt' (by simpa using (lane 8 v.low128 i).isLt)]

/-! ### tests -/

theorem ite_bool (b : Bool) : (if b then (1 : Int) else 0) = Py.ofBool b := by cases b <;> rfl

theorem all_true_w (w n : Nat) (x : BitVec 128) :
    (intsS w n x).all (fun e => e ≠ 0) = (List.range n).all fun i => lane w x i ≠ 0 := by
  unfold intsS
  rw [List.all_map]
  congr 1
  funext i
  simp only [Function.comp]
  congr 1
  exact propext (not_congr ⟨fun h => BitVec.toInt_inj.mp (by simpa using h), fun h => by rw [h]; simp⟩)

theorem any_true_w (v : Val) : v.data.any (fun e => e ≠ 0) = decide (v.low128 ≠ 0) := by
  by_cases h : v.low128 = 0
  · simp only [h]
    rw [data_eq_map v, h, List.any_map]
    simp [lane]
  · rw [decide_eq_true h, List.any_eq_true]
    by_contra hc
    push Not at hc
    apply h
    apply lane_ext (w := 8) (k := 1) rfl rfl
    intro i hi
    have h1 := data_at v hi
    have h2 : v.data.at i = 0 := by
      have hi' : i < v.data.length := by rw [v.len]; exact hi
      have := hc (v.data.at i) (by simp [List.at, List.getD, hi'])
      simpa using this
    rw [h2] at h1
    apply BitVec.eq_of_toNat_eq
    have : (lane 8 (0 : BitVec 128) i).toNat = 0 := by simp [lane]
    rw [this]
    have : ((0 : UInt8).toNat : Int) = 0 := rfl
    omega

/-- setting one more bit -/
theorem or_pow (b i : Nat) (h : b < 2 ^ i) : Py.or (b : Int) (Py.shl 1 i) = ((b + 2 ^ i : Nat) : Int) := by
  rw [show Py.shl 1 i = ((2 ^ i : Nat) : Int) by unfold Py.shl; push_cast; ring]
  show ((b ||| 2 ^ i : Nat) : Int) = _
  have := Nat.two_pow_add_eq_or_of_lt h 1
  rw [Nat.mul_one] at this
  rw [Nat.or_comm, ← this, Nat.add_comm]

theorem bitmask_loop (n : Nat) (p : Nat → Bool) (a : List Int) (h : ∀ i < n, (a.at i < 0 ↔ p i)) :
    (List.range n).foldl (fun b i => if a.at i < 0 then Py.or b (Py.shl 1 i) else b) (0 : Int) =
      ((((List.range n).map fun i => if p i then 2 ^ i else 0).sum : Nat) : Int) ∧
      ((List.range n).map fun i => if p i then 2 ^ i else 0).sum < 2 ^ n := by
  induction n with
  | zero => simp
  | succ n ih =>
    obtain ⟨h1, h2⟩ := ih fun i hi => h i (by omega)
    rw [List.range_succ, List.foldl_append, List.map_append, List.sum_append]
    simp only [List.foldl_cons, List.foldl_nil, List.map_cons, List.map_nil, List.sum_cons, List.sum_nil]
    rw [h1]
    have hp := h n (by omega)
    by_cases hb : p n
    · rw [if_pos (hp.mpr hb), or_pow _ _ h2]
      simp only [hb, if_true]
      constructor
      · simp
      · rw [pow_succ]; omega
    · rw [if_neg (fun hc => hb (hp.mp hc))]
      simp only [hb]
      constructor
      · simp
      · rw [pow_succ]; simp; omega

theorem bitmask_w {w : Nat} (n : Nat) (hn : n ≤ 16) (x : BitVec 128) :
    Val.fromI32 ((List.range n).foldl (fun b i => if (intsS w n x).at i < 0 then Py.or b (Py.shl 1 i) else b) (0 : Int)) =
      .ok (i32 (BitVec.ofNat 32 ((List.range n).map fun i => if (lane w x i).msb then 2 ^ i else 0).sum)) := by
  obtain ⟨h1, h2⟩ := bitmask_loop n (fun i => (lane w x i).msb) (intsS w n x) (by
    intro i hi
    rw [intsS_at x hi]
    exact (BitVec.msb_eq_toInt (x := lane w x i) ▸ (by simp)))
  rw [h1]
  have h3 : 2 ^ n ≤ 2 ^ 16 := Nat.pow_le_pow_right (by decide) hn
  generalize ((List.range n).map fun i => if (lane w x i).msb then 2 ^ i else 0).sum = m at *
  rw [fromI32_of_range (by constructor <;> omega), BitVec.ofInt_natCast]

/-! ### two vectors side by side -/

theorem narrow_list {w' n : Nat} (f : Int → Int) (x y : BitVec 128) :
    (intsS w' n x ++ intsS w' n y).map f =
      (List.range (n + n)).map fun i => f (if i < n then (lane w' x i).toInt else (lane w' y (i - n)).toInt) := by
  unfold intsS
  rw [append_range_map, List.map_map]; rfl

/-! ### the shapes of the specification -/

section shapes
variable {α β γ : Type} (pc : Popper γ) (pb : Popper β) (pa : Popper α)

theorem shapeUn (body : α → Except Err Val) (f : BitVec 128 → BitVec 128)
    (h : ∀ x, body (pa.get x) = .ok (v128 (f x.low128))) (s : List Val) :
    Implements (do let a ← pa.m; let c ← VM.lift (body a); VM.push c) s (un128 f s) :=
  shape1 pa body (fun x => v128 (f x.low128)) h s
theorem shapeBin (body : α → β → Except Err Val) (f : BitVec 128 → BitVec 128 → BitVec 128)
    (h : ∀ x y, body (pa.get x) (pb.get y) = .ok (v128 (f x.low128 y.low128))) (s : List Val) :
    Implements (do let b ← pb.m; let a ← pa.m; let c ← VM.lift (body a b); VM.push c) s (bin128 f s) :=
  shape2 pb pa body (fun x y => v128 (f x.low128 y.low128)) h s
theorem shapeTer (body : α → β → γ → Except Err Val) (f : BitVec 128 → BitVec 128 → BitVec 128 → BitVec 128)
    (h : ∀ x y z, body (pa.get x) (pb.get y) (pc.get z) = .ok (v128 (f x.low128 y.low128 z.low128))) (s : List Val) :
    Implements (do let c ← pc.m; let b ← pb.m; let a ← pa.m; let d ← VM.lift (body a b c); VM.push d) s (ter128 f s) :=
  shape3 pc pb pa body (fun x y z => v128 (f x.low128 y.low128 z.low128)) h s
theorem shapeTest (body : α → Except Err Val) (f : BitVec 128 → Bool)
    (h : ∀ x, body (pa.get x) = .ok (bool (f x.low128))) (s : List Val) :
    Implements (do let a ← pa.m; let c ← VM.lift (body a); VM.push c) s (test128 f s) :=
  shape1 pa body (fun x => bool (f x.low128)) h s
theorem shapeMask (body : α → Except Err Val) (w n : Nat)
    (h : ∀ x, body (pa.get x) =
      .ok (i32 (BitVec.ofNat 32 ((List.range n).map fun i => if (lane w x.low128 i).msb then 2 ^ i else 0).sum)))
    (s : List Val) : Implements (do let a ← pa.m; let c ← VM.lift (body a); VM.push c) s (bitmask w n s) :=
  shape1 pa body _ h s
theorem shapeShift (body : α → Int → Except Err Val) (f : BitVec 128 → Nat → BitVec 128)
    (h : ∀ x y, body (pa.get x) (Popper.s32.get y) = .ok (v128 (f x.low128 y.low32.toNat))) (s : List Val) :
    Implements (do let b ← Popper.s32.m; let a ← pa.m; let c ← VM.lift (body a b); VM.push c) s (shift f s) :=
  shape2 Popper.s32 pa body (fun x y => v128 (f x.low128 y.low32.toNat)) h s
theorem shapeSplat32 (body : α → Except Err Val) (w : Nat)
    (h : ∀ x, body (pa.get x) = .ok (v128 (ofLanes w fun _ => x.low32.setWidth w))) (s : List Val) :
    Implements (do let a ← pa.m; let c ← VM.lift (body a); VM.push c) s (splat32 w s) :=
  shape1 pa body _ h s
theorem shapeSplat64 (body : α → Except Err Val) (w : Nat)
    (h : ∀ x, body (pa.get x) = .ok (v128 (ofLanes w fun _ => x.low64.setWidth w))) (s : List Val) :
    Implements (do let a ← pa.m; let c ← VM.lift (body a); VM.push c) s (splat64 w s) :=
  shape1 pa body _ h s
end shapes

end Pywasm
