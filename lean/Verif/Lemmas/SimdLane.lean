import Verif.Lemmas.SimdOps

/-!
# Lane access and shuffling
-/

namespace Pywasm
open Spec

theorem getItem_nat {α} [Inhabited α] (l : List α) {i : Nat} (h : i < l.length) : Py.getItem l (i : Int) = .ok (l.at i) := by
  unfold Py.getItem
  rw [if_neg (by omega : ¬ (i : Int) < 0)]
  simp [List.at, List.getD, h]
theorem setItem_nat {α} (l : List α) (v : α) {i : Nat} (h : i < l.length) : Py.setItem l (i : Int) v = .ok (l.set i v) := by
  unfold Py.setItem
  rw [if_neg (by omega : ¬ (i : Int) < 0), if_neg (by omega)]
  simp
theorem intsS_length (w n x) : (intsS w n x).length = n := by simp [intsS]
theorem intsU_length (w n x) : (intsU w n x).length = n := by simp [intsU]
theorem set_intsS (w n x) (i : Nat) (v : Int) :
    (intsS w n x).set i v = (List.range n).map fun j => if j = i then v else (lane w x j).toInt := by
  apply List.ext_getElem
  · simp [intsS]
  · intro j h1 h2
    simp [List.getElem_set, intsS, eq_comm]

theorem except_bind {α β} (a : α) (f : α → Except Err β) : (Except.ok a >>= f) = f a := rfl

theorem extract_s (x : BitVec 128) {w n i : Nat} (h : i < n) (hw : w ≤ 32) :
    (do Val.fromI32 (← Py.getItem (intsS w n x) (i : Int))) = .ok (i32 ((lane w x i).signExtend 32)) := by
  rw [getItem_nat _ (by rw [intsS_length]; exact h), intsS_at _ h, except_bind]
  rw [← signExtend_toInt hw]
  exact fromI32_toInt _
theorem extract_u (x : BitVec 128) {w n i : Nat} (h : i < n) (hw : w < 32) :
    (do Val.fromI32 (← Py.getItem (intsU w n x) (i : Int))) = .ok (i32 ((lane w x i).setWidth 32)) := by
  rw [getItem_nat _ (by rw [intsU_length]; exact h), intsU_at _ h, except_bind]
  rw [show ((lane w x i).toNat : Int) = ((lane w x i).setWidth 32).toInt from setWidth_toInt hw _]
  exact fromI32_toInt ((lane w x i).setWidth 32)
theorem extract_64 (x : BitVec 128) {i : Nat} (h : i < 2) :
    (do Val.fromI64 (← Py.getItem (intsS 64 2 x) (i : Int))) = .ok (i64 (lane 64 x i)) := by
  rw [getItem_nat _ (by rw [intsS_length]; exact h), intsS_at _ h, except_bind]
  exact fromI64_toInt _

theorem clamp_nat {n i : Nat} (h : i ≤ n) : Py.clamp n (i : Int) = i := by
  unfold Py.clamp; rw [if_neg (by omega)]; omega

/-- the bytes of one lane -/
theorem data_slice {w k : Nat} (hw : w = 8 * k) (v : Val) {i : Nat} (h : i * k + k ≤ 16) :
    Py.slice v.data ((i * k : Nat) : Int) ((i * k + k : Nat) : Int) = bytesLE k (lane w v.low128 i).toNat := by
  have e : Py.slice v.data ((i * k : Nat) : Int) ((i * k + k : Nat) : Int) = (v.data.drop (i * k)).take k := by
    unfold Py.slice
    have h1 : Py.clamp v.data.length ((i * k + k : Nat) : Int) = i * k + k := by exact clamp_nat (by rw [v.len]; omega)
    have h2 : Py.clamp v.data.length ((i * k : Nat) : Int) = i * k := by exact clamp_nat (by rw [v.len]; omega)
    rw [h1, h2, List.drop_take]; congr 1; omega
  have hl := chunk_length v h
  have h1 := Py.leBytes_leNat ((v.data.drop (i * k)).take k)
  rw [hl] at h1
  rw [e, bytesLE_eq, ← lane_low128 hw v i, h1]

theorem slice_cell {ty : ValType} {w k : Nat} (hw : w = 8 * k) (hk : k ≤ 16) (v : Val) {i : Nat} (h : i * k + k ≤ 16) :
    Val.make ty (Py.slice v.data ((i * k : Nat) : Int) ((i * k + k : Nat) : Int) ++ Py.zeros (16 - k)) =
      .ok (cell ty k (lane w v.low128 i).toNat hk) := by
  rw [data_slice hw v h]
  exact make_cell ty k _ hk

/-- overwriting the bytes of one lane -/
theorem replace_bytes {w k n : Nat} (hw : w = 8 * k) (hk : 16 / k * k = 16) (hn : 16 / k = n) (v : Val) (a : BitVec w)
    {i : Nat} (h : i < n) :
    Val.make .v128 (Py.sliceSet v.data ((i * k : Nat) : Int) ((i * k + k : Nat) : Int) (bytesLE k a.toNat)) =
      .ok (v128 (ofLanes w fun j => if j = i then a else lane w v.low128 j)) := by
  have h16 : i * k + k ≤ 16 := by
    have h1 : (i + 1) * k ≤ 16 / k * k := Nat.mul_le_mul_right _ (by omega)
    rw [Nat.succ_mul] at h1; omega
  have e : Py.sliceSet v.data ((i * k : Nat) : Int) ((i * k + k : Nat) : Int) (bytesLE k a.toNat) =
      v.data.take (i * k) ++ bytesLE k a.toNat ++ v.data.drop (i * k + k) := by
    unfold Py.sliceSet
    rw [clamp_nat (by rw [v.len]; omega), clamp_nat (by rw [v.len]; omega)]
    simp only
    rw [Nat.max_eq_right (by omega)]
  have key : v.data.take (i * k) ++ bytesLE k a.toNat ++ v.data.drop (i * k + k) =
      bytesLE 16 (ofLanes w fun j => if j = i then a else lane w v.low128 j).toNat := by
    rw [← flatten_lanes hw hk, hn]
    have hd : v.data = ((List.range n).map fun j => bytesLE k (lane w v.low128 j).toNat).flatten := by
      have h1 := flatten_lanes hw hk (fun j => lane w v.low128 j)
      rw [hn] at h1
      rw [h1, ofLanes_lane hw hk]
      have := Py.leBytes_leNat v.data
      rw [v.len] at this
      rw [bytesLE_eq]
      conv => lhs; rw [← this]
      congr 1
      unfold Val.low128
      rw [BitVec.toNat_ofNat, readLE_eq, Nat.mod_eq_of_lt]
      have h3 := Py.leNat_lt v.data
      rw [v.len, Py.pow256] at h3
      exact h3
    obtain ⟨r, hr⟩ : ∃ r, n = i + (r + 1) := ⟨n - i - 1, by omega⟩
    have e1 : List.range n = List.range i ++ [i] ++ (List.range r).map (i + 1 + ·) := by
      rw [hr, List.range_add, List.range_succ_eq_map]
      simp [Function.comp_def, Nat.add_comm]
      intro a _; omega
    rw [hd, e1]
    simp only [List.map_append, List.flatten_append, List.map_cons, List.map_nil, List.flatten_cons, List.flatten_nil,
      List.append_nil, if_true]
    have l1 : (((List.range i).map fun j => bytesLE k (lane w v.low128 j).toNat).flatten).length = i * k := flatten_length k i _
    have l2 := bytesLE_length k (lane w v.low128 i).toNat
    have m1 : ((List.range i).map fun j => bytesLE k (if j = i then a else lane w v.low128 j).toNat) =
        (List.range i).map fun j => bytesLE k (lane w v.low128 j).toNat := by
      apply List.map_congr_left
      intro j hj
      rw [if_neg (by have := List.mem_range.mp hj; omega)]
    have m2 : (((List.range r).map (i + 1 + ·)).map fun j => bytesLE k (if j = i then a else lane w v.low128 j).toNat) =
        ((List.range r).map (i + 1 + ·)).map fun j => bytesLE k (lane w v.low128 j).toNat := by
      rw [List.map_map, List.map_map]
      apply List.map_congr_left
      intro j _
      simp only [Function.comp]
      rw [if_neg (by omega)]
    rw [m1, m2]
    generalize ((List.range i).map fun j => bytesLE k (lane w v.low128 j).toNat).flatten = P at *
    generalize bytesLE k (lane w v.low128 i).toNat = A at *
    rw [← l1]
    conv => lhs; rw [show P.length + k = P.length + A.length by rw [l2]]
    simp
  rw [e, key]
  exact make_cell .v128 16 _ (by decide)

theorem replace_sound {α β} (pb : Popper β) (pa : Popper α) (body : α → β → Except Err Val) (w i : Nat) (g : Val → BitVec w)
    (h : ∀ x y, body (pa.get x) (pb.get y) = .ok (v128 (ofLanes w fun j => if j = i then g y else lane w x.low128 j)))
    (s : List Val) : Implements (do let b ← pb.m; let a ← pa.m; let c ← VM.lift (body a b); VM.push c) s
      (match s with
        | a :: x :: s => .ok (v128 (ofLanes w fun j => if j = i then g a else lane w x.low128 j) :: s)
        | _ => .stuck) :=
  shape2 pb pa body (fun x y => v128 (ofLanes w fun j => if j = i then g y else lane w x.low128 j)) h s

theorem lift_bind {α β} (e : Except Err α) (f : α → Except Err β) : VM.lift (e >>= f) = (VM.lift e >>= fun a => VM.lift (f a)) := by
  cases e <;> rfl
theorem vm_assoc {α β γ} (m : VM α) (f : α → VM β) (g : β → VM γ) : (m >>= f) >>= g = m >>= fun a => f a >>= g :=
  bind_assoc m f g

theorem replace_int {w k n : Nat} (hw : w = 8 * k) (hk : 16 / k * k = 16) (hn : 16 / k = n) (x : BitVec 128) (b : Int)
    (a : BitVec w) (hb : b = a.toInt) {i : Nat} (h : i < n) :
    (do Val.fromV128I k (← Py.setItem (intsS w n x) (i : Int) b)) =
      .ok (v128 (ofLanes w fun j => if j = i then a else lane w x j)) := by
  rw [setItem_nat _ _ (by rw [intsS_length]; exact h), except_bind, set_intsS]
  refine fromI hw hk hn fun j _ => ?_
  split
  · exact hb
  · rfl

/-! ### the instructions -/

theorem i8x16_extract_lane_s_sound (i : Nat) (h : i < laneCount .i8x16_extract_lane_s) (s : List Val) :
    Implements (evalLane .i8x16_extract_lane_s i) s (laneSem .i8x16_extract_lane_s i s) := by
  simp only [laneCount] at h
  exact shape1 .i8 _ _ (fun x => extract_s x.low128 h (by decide)) s

theorem i8x16_extract_lane_u_sound (i : Nat) (h : i < laneCount .i8x16_extract_lane_u) (s : List Val) :
    Implements (evalLane .i8x16_extract_lane_u i) s (laneSem .i8x16_extract_lane_u i s) := by
  simp only [laneCount] at h
  exact shape1 .u8 _ _ (fun x => extract_u x.low128 h (by decide)) s

theorem i8x16_replace_lane_sound (i : Nat) (h : i < laneCount .i8x16_replace_lane) (s : List Val) :
    Implements (evalLane .i8x16_replace_lane i) s (laneSem .i8x16_replace_lane i s) := by
  simp only [laneCount] at h
  have := replace_sound .s32 .i8 (fun a b => Py.setItem a (i : Int) (Arith.I.fit 1 b) >>= Val.fromV128I 1) 8 i (fun a => a.low32.setWidth 8)
    (fun x y => replace_int (w := 8) (k := 1) (n := 16) rfl rfl rfl x.low128 (Arith.I.fit 1 y.low32.toInt) (y.low32.setWidth 8) (by
      rw [Arith.I.fit_w (w := 8) rfl (by decide), ofInt_toInt_of_le (by decide)]) h) s
  simp only [lift_bind, vm_assoc] at this
  exact this

theorem i16x8_extract_lane_s_sound (i : Nat) (h : i < laneCount .i16x8_extract_lane_s) (s : List Val) :
    Implements (evalLane .i16x8_extract_lane_s i) s (laneSem .i16x8_extract_lane_s i s) := by
  simp only [laneCount] at h
  exact shape1 .i16 _ _ (fun x => extract_s x.low128 h (by decide)) s

theorem i16x8_extract_lane_u_sound (i : Nat) (h : i < laneCount .i16x8_extract_lane_u) (s : List Val) :
    Implements (evalLane .i16x8_extract_lane_u i) s (laneSem .i16x8_extract_lane_u i s) := by
  simp only [laneCount] at h
  exact shape1 .u16 _ _ (fun x => extract_u x.low128 h (by decide)) s

theorem i16x8_replace_lane_sound (i : Nat) (h : i < laneCount .i16x8_replace_lane) (s : List Val) :
    Implements (evalLane .i16x8_replace_lane i) s (laneSem .i16x8_replace_lane i s) := by
  simp only [laneCount] at h
  have := replace_sound .s32 .i16 (fun a b => Py.setItem a (i : Int) (Arith.I.fit 2 b) >>= Val.fromV128I 2) 16 i (fun a => a.low32.setWidth 16)
    (fun x y => replace_int (w := 16) (k := 2) (n := 8) rfl rfl rfl x.low128 (Arith.I.fit 2 y.low32.toInt) (y.low32.setWidth 16) (by
      rw [Arith.I.fit_w (w := 16) rfl (by decide), ofInt_toInt_of_le (by decide)]) h) s
  simp only [lift_bind, vm_assoc] at this
  exact this

theorem i32x4_extract_lane_sound (i : Nat) (h : i < laneCount .i32x4_extract_lane) (s : List Val) :
    Implements (evalLane .i32x4_extract_lane i) s (laneSem .i32x4_extract_lane i s) := by
  simp only [laneCount] at h
  refine shape1 .i32 _ (fun x => i32 (lane 32 x.low128 i)) (fun x => ?_) s
  have := extract_s x.low128 (w := 32) h (by decide)
  rw [BitVec.signExtend_eq] at this
  exact this

theorem i64x2_extract_lane_sound (i : Nat) (h : i < laneCount .i64x2_extract_lane) (s : List Val) :
    Implements (evalLane .i64x2_extract_lane i) s (laneSem .i64x2_extract_lane i s) := by
  simp only [laneCount] at h
  exact shape1 .i64 _ _ (fun x => extract_64 x.low128 h) s

theorem i32x4_replace_lane_sound (i : Nat) (h : i < laneCount .i32x4_replace_lane) (s : List Val) :
    Implements (evalLane .i32x4_replace_lane i) s (laneSem .i32x4_replace_lane i s) := by
  simp only [laneCount] at h
  have := replace_sound .s32 .i32 (fun a b => Py.setItem a (i : Int) b >>= Val.fromV128I 4) 32 i (fun a => a.low32)
    (fun x y => replace_int (w := 32) (k := 4) (n := 4) rfl rfl rfl x.low128 y.low32.toInt y.low32 rfl h) s
  simp only [lift_bind, vm_assoc] at this
  exact this

theorem f32x4_extract_lane_sound (i : Nat) (h : i < laneCount .f32x4_extract_lane) (s : List Val) :
    Implements (evalLane .f32x4_extract_lane i) s (laneSem .f32x4_extract_lane i s) := by
  simp only [laneCount] at h
  refine shape1 .bytes (fun a => Val.make .f32 (Py.slice a ((i : Int) * 4) ((i : Int) * 4 + 4) ++ Py.zeros (16 - 4))) (fun x => f32 (lane 32 x.low128 i)) (fun x => ?_) s
  have := slice_cell (ty := .f32) (w := 32) (k := 4) rfl (by decide) x (i := i) (by omega)
  rw [Nat.cast_add, Nat.cast_mul] at this
  exact this

theorem f32x4_replace_lane_sound (i : Nat) (h : i < laneCount .f32x4_replace_lane) (s : List Val) :
    Implements (evalLane .f32x4_replace_lane i) s (laneSem .f32x4_replace_lane i s) := by
  simp only [laneCount] at h
  have := replace_sound .us32 .bytes (fun a b => Arith.U.intoBytearray 4 b >>= fun z => Val.make .v128 (Py.sliceSet a ((i : Int) * 4) ((i : Int) * 4 + 4) z)) 32 i (fun a => a.low32)
    (fun x y => by
      have h1 : Arith.U.intoBytearray 4 (Popper.us32.get y) = .ok (bytesLE 4 y.low32.toNat) := toBytesU_toNat 4 y.low32
      rw [h1, except_bind]
      have := replace_bytes (w := 32) (k := 4) rfl rfl rfl x y.low32 h
      rw [Nat.cast_add, Nat.cast_mul] at this
      exact this) s
  simp only [lift_bind, vm_assoc] at this
  exact this

theorem i64x2_replace_lane_sound (i : Nat) (h : i < laneCount .i64x2_replace_lane) (s : List Val) :
    Implements (evalLane .i64x2_replace_lane i) s (laneSem .i64x2_replace_lane i s) := by
  simp only [laneCount] at h
  have := replace_sound .s64 .i64 (fun a b => Py.setItem a (i : Int) b >>= Val.fromV128I 8) 64 i (fun a => a.low64)
    (fun x y => replace_int (w := 64) (k := 8) (n := 2) rfl rfl rfl x.low128 y.low64.toInt y.low64 rfl h) s
  simp only [lift_bind, vm_assoc] at this
  exact this

theorem f64x2_extract_lane_sound (i : Nat) (h : i < laneCount .f64x2_extract_lane) (s : List Val) :
    Implements (evalLane .f64x2_extract_lane i) s (laneSem .f64x2_extract_lane i s) := by
  simp only [laneCount] at h
  refine shape1 .bytes (fun a => Val.make .f64 (Py.slice a ((i : Int) * 8) ((i : Int) * 8 + 8) ++ Py.zeros (16 - 8))) (fun x => f64 (lane 64 x.low128 i)) (fun x => ?_) s
  have := slice_cell (ty := .f64) (w := 64) (k := 8) rfl (by decide) x (i := i) (by omega)
  rw [Nat.cast_add, Nat.cast_mul] at this
  exact this

theorem f64x2_replace_lane_sound (i : Nat) (h : i < laneCount .f64x2_replace_lane) (s : List Val) :
    Implements (evalLane .f64x2_replace_lane i) s (laneSem .f64x2_replace_lane i s) := by
  simp only [laneCount] at h
  have := replace_sound .us64 .bytes (fun a b => Arith.U.intoBytearray 8 b >>= fun z => Val.make .v128 (Py.sliceSet a ((i : Int) * 8) ((i : Int) * 8 + 8) z)) 64 i (fun a => a.low64)
    (fun x y => by
      have h1 : Arith.U.intoBytearray 8 (Popper.us64.get y) = .ok (bytesLE 8 y.low64.toNat) := toBytesU_toNat 8 y.low64
      rw [h1, except_bind]
      have := replace_bytes (w := 64) (k := 8) rfl rfl rfl x y.low64 h
      rw [Nat.cast_add, Nat.cast_mul] at this
      exact this) s
  simp only [lift_bind, vm_assoc] at this
  exact this

theorem lane_sound (op : LOp) (i : Nat) (h : i < laneCount op) (s : List Val) :
    Implements (evalLane op i) s (laneSem op i s) := by
  cases op
  case i8x16_extract_lane_s => exact i8x16_extract_lane_s_sound i h s
  case i8x16_extract_lane_u => exact i8x16_extract_lane_u_sound i h s
  case i8x16_replace_lane => exact i8x16_replace_lane_sound i h s
  case i16x8_extract_lane_s => exact i16x8_extract_lane_s_sound i h s
  case i16x8_extract_lane_u => exact i16x8_extract_lane_u_sound i h s
  case i16x8_replace_lane => exact i16x8_replace_lane_sound i h s
  case i32x4_extract_lane => exact i32x4_extract_lane_sound i h s
  case i64x2_extract_lane => exact i64x2_extract_lane_sound i h s
  case i32x4_replace_lane => exact i32x4_replace_lane_sound i h s
  case f32x4_extract_lane => exact f32x4_extract_lane_sound i h s
  case f32x4_replace_lane => exact f32x4_replace_lane_sound i h s
  case i64x2_replace_lane => exact i64x2_replace_lane_sound i h s
  case f64x2_extract_lane => exact f64x2_extract_lane_sound i h s
  case f64x2_replace_lane => exact f64x2_replace_lane_sound i h s

theorem shuffle_sound (sel : List Nat) (hl : sel.length = 16) (h : ∀ j ∈ sel, j < 32) (s : List Val) :
    Implements (evalShuffle sel) s (bin128 (shuffle fun i => sel.getD i 0) s) := by
  have := shape2 .i8 .i8 (fun a b => (List.range 16).mapM (fun (i : Nat) => do Py.getItem (a ++ b) (← Py.getItem sel i : Nat)) >>= Val.fromV128I 1)
    (fun x y => v128 (shuffle (fun i => sel.getD i 0) x.low128 y.low128)) (fun x y => by
      have h1 : (List.range 16).mapM (fun (i : Nat) => do Py.getItem (Popper.i8.get x ++ Popper.i8.get y) (← Py.getItem sel i : Nat)) =
          .ok ((List.range 16).map fun i => (intsS 8 16 x.low128 ++ intsS 8 16 y.low128).at (sel.getD i 0)) := by
        apply mapM_ok
        intro i hi
        have hi' : i < sel.length := by rw [hl]; exact List.mem_range.mp hi
        have e : sel.at i = sel.getD i 0 := rfl
        have hb : sel.getD i 0 < 32 := by
          apply h
          rw [List.getD_eq_getElem _ _ hi']; exact List.getElem_mem hi'
        rw [getItem_nat sel hi', except_bind, e]
        exact getItem_nat (intsS 8 16 x.low128 ++ intsS 8 16 y.low128) (by rw [List.length_append, intsS_length, intsS_length]; exact hb)
      rw [h1, except_bind]
      refine fromI rfl rfl rfl fun i hi => ?_
      have hi' : i < sel.length := by rw [hl]; exact hi
      have hb : sel.getD i 0 < 32 := by
        apply h
        rw [List.getD_eq_getElem _ _ hi']; exact List.getElem_mem hi'
      show (intsS 8 16 x.low128 ++ intsS 8 16 y.low128).at (sel.getD i 0) = (if sel.getD i 0 < 16 then lane 8 x.low128 (sel.getD i 0)
        else lane 8 y.low128 (sel.getD i 0 - 16)).toInt
      generalize sel.getD i 0 = j at hb ⊢
      unfold intsS
      rw [append_range_map, range_map_at _ hb]
      split <;> rfl) s
  simp only [lift_bind, vm_assoc] at this
  exact this

end Pywasm
