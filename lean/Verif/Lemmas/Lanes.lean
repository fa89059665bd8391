import Verif.Lemmas.Cells
import Verif.Spec.Lanes

/-! Lanes of a vector and the chunks of a 16-byte cell. -/

namespace Pywasm
open Spec

theorem Py.leNat_drop (j : Nat) (l : Bytes) : Py.leNat (l.drop j) = Py.leNat l / 256 ^ j := by
  induction j generalizing l with
  | zero => simp
  | succ j ih =>
    cases l with
    | nil => simp [Py.leNat]
    | cons b l =>
      simp only [List.drop_succ_cons, ih, Py.leNat]
      have hb : b.toNat < 256 := b.toNat_lt
      rw [Nat.pow_succ, Nat.mul_comm (256 ^ j), ← Nat.div_div_eq_div_mul]
      congr 1; omega

theorem Py.leNat_take (j : Nat) (l : Bytes) : Py.leNat (l.take j) = Py.leNat l % 256 ^ j := by
  induction j generalizing l with
  | zero => simp [Py.leNat, Nat.mod_one]
  | succ j ih =>
    cases l with
    | nil => simp [Py.leNat]
    | cons b l =>
      simp only [List.take_succ_cons, ih, Py.leNat]
      have hb : b.toNat < 256 := b.toNat_lt
      rw [Nat.pow_succ, Nat.mul_comm (256 ^ j), Nat.mod_mul]
      congr 1
      · omega
      · congr 2; omega

/-- The little-endian number of a chunk of bytes is a lane. -/
theorem leNat_chunk {w k : Nat} (hw : w = 8 * k) (l : Bytes) (i : Nat) :
    Py.leNat ((l.drop (i * k)).take k) = (lane w (BitVec.ofNat (8 * l.length) (Py.leNat l)) i).toNat := by
  subst hw
  rw [Py.leNat_take, Py.leNat_drop, lane, BitVec.extractLsb'_toNat, BitVec.toNat_ofNat, ← Py.pow256,
    Nat.mod_eq_of_lt (Py.leNat_lt l), Nat.shiftRight_eq_div_pow, Py.pow256, Py.pow256]
  congr 3; ring

theorem lane_low128 {w k : Nat} (hw : w = 8 * k) (v : Val) (i : Nat) :
    Py.leNat ((v.data.drop (i * k)).take k) = (lane w v.low128 i).toNat := by
  rw [leNat_chunk hw, v.len, Val.low128, readLE_eq]

theorem chunk_length {k i : Nat} (v : Val) (h : i * k + k ≤ 16) : ((v.data.drop (i * k)).take k).length = k := by
  simp [v.len]; omega

theorem fromBytesS_w {w : Nat} {b : Bytes} (hw : w = 8 * b.length) : Py.fromBytesS b = (BitVec.ofNat w (Py.leNat b)).toInt := by
  subst hw; exact Py.fromBytesS_eq b
theorem fromBytesU_w {w : Nat} {b : Bytes} (hw : w = 8 * b.length) :
    Py.fromBytesU b = ((BitVec.ofNat w (Py.leNat b)).toNat : Int) := by
  subst hw; exact Py.fromBytesU_eq b

theorem intoV128I_eq {w k : Nat} (hw : w = 8 * k) (v : Val) :
    v.intoV128I k = (List.range (16 / k)).map fun i => (lane w v.low128 i).toInt := by
  unfold Val.intoV128I Val.chunks
  rw [List.map_map]
  apply List.map_congr_left
  intro i hi
  have h1 : i * k + k ≤ 16 := by
    have := List.mem_range.mp hi
    have h2 : (i + 1) * k ≤ 16 / k * k := Nat.mul_le_mul_right _ this
    have := Nat.div_mul_le_self 16 k
    rw [Nat.succ_mul] at h2; omega
  simp only [Function.comp]
  rw [fromBytesS_w (w := w) (by rw [chunk_length v h1, hw]), lane_low128 hw, BitVec.ofNat_toNat, BitVec.setWidth_eq]

theorem intoV128U_eq {w k : Nat} (hw : w = 8 * k) (v : Val) :
    v.intoV128U k = (List.range (16 / k)).map fun i => ((lane w v.low128 i).toNat : Int) := by
  unfold Val.intoV128U Val.chunks
  rw [List.map_map]
  apply List.map_congr_left
  intro i hi
  have h1 : i * k + k ≤ 16 := by
    have := List.mem_range.mp hi
    have h2 : (i + 1) * k ≤ 16 / k * k := Nat.mul_le_mul_right _ this
    have := Nat.div_mul_le_self 16 k
    rw [Nat.succ_mul] at h2; omega
  simp only [Function.comp]
  rw [fromBytesU_w (w := w) (by rw [chunk_length v h1, hw]), lane_low128 hw, BitVec.ofNat_toNat, BitVec.setWidth_eq]

theorem leNat_singleton (b : UInt8) : Py.leNat [b] = b.toNat := by simp [Py.leNat]

theorem data_eq_map (v : Val) : v.data = (List.range 16).map fun i => UInt8.ofNat (lane 8 v.low128 i).toNat := by
  apply List.ext_getElem
  · simp [v.len]
  intro i h1 h2
  have hi : i < 16 := by rw [v.len] at h1; exact h1
  have := lane_low128 (w := 8) (k := 1) rfl v i
  rw [Nat.mul_one, List.drop_eq_getElem_cons h1, List.take_succ_cons, List.take_zero, leNat_singleton] at this
  simp only [List.getElem_map, List.getElem_range]
  rw [← this]; simp

theorem intoV128I8_eq (v : Val) : v.intoV128I8 = (List.range 16).map fun i => (lane 8 v.low128 i).toInt := by
  unfold Val.intoV128I8
  conv => lhs; rw [data_eq_map v]
  rw [List.map_map]
  apply List.map_congr_left
  intro i _
  have h : (lane 8 v.low128 i).toNat < 256 := (lane 8 v.low128 i).isLt
  simp only [Function.comp]
  rw [Arith.I.fit_eq 1 _ (by decide), UInt8.toNat_ofNat_of_lt' (by simpa using h)]
  simp

theorem intoV128U8_eq (v : Val) : v.intoV128U8 = (List.range 16).map fun i => ((lane 8 v.low128 i).toNat : Int) := by
  unfold Val.intoV128U8
  conv => lhs; rw [data_eq_map v]
  rw [List.map_map]
  apply List.map_congr_left
  intro i _
  have h : (lane 8 v.low128 i).toNat < 256 := (lane 8 v.low128 i).isLt
  simp only [Function.comp]
  rw [Arith.U.fit_eq 1, UInt8.toNat_ofNat_of_lt' (by simpa using h)]
  simp

theorem leNat_flatten (k : Nat) (f : Nat → Nat) (n : Nat) (h : ∀ i, f i < 256 ^ k) :
    Py.leNat ((List.range n).map fun i => Py.leBytes k (f i)).flatten =
      ((List.range n).map fun i => f i * 256 ^ (k * i)).sum := by
  induction n with
  | zero => simp [Py.leNat]
  | succ n ih =>
    rw [List.range_succ, List.map_append, List.flatten_append, Py.leNat_append, ih, List.map_append, List.sum_append]
    congr 1
    simp only [List.map_cons, List.map_nil, List.flatten_cons, List.flatten_nil, List.append_nil, List.sum_cons,
      List.sum_nil, Nat.add_zero]
    rw [Py.leNat_leBytes, Nat.mod_eq_of_lt (h n)]
    have : ((List.range n).map fun i => Py.leBytes k (f i)).flatten.length = k * n := by
      rw [List.length_flatten, List.map_map]
      have : (List.length ∘ fun i => Py.leBytes k (f i)) = fun _ => k := by
        funext i; simp [← bytesLE_eq, bytesLE_length]
      rw [this]; simp [Nat.mul_comm]
    rw [this, Nat.mul_comm]

theorem flatten_length (k n : Nat) (f : Nat → Nat) :
    ((List.range n).map fun i => bytesLE k (f i)).flatten.length = n * k := by
  rw [List.length_flatten, List.map_map]
  have : (List.length ∘ fun i => bytesLE k (f i)) = fun _ => k := by
    funext i; simp [bytesLE_length]
  rw [this]; simp

/-- Concatenating the bytes of the lanes gives the bytes of the vector. -/
theorem flatten_lanes {w k : Nat} (hw : w = 8 * k) (hk : 16 / k * k = 16) (f : Nat → BitVec w) :
    ((List.range (16 / k)).map fun i => bytesLE k (f i).toNat).flatten = bytesLE 16 (ofLanes w f).toNat := by
  have hn : 128 / w = 16 / k := by
    subst hw
    rw [show 128 = 8 * 16 from rfl, Nat.mul_div_mul_left _ _ (by decide)]
  have hlen := flatten_length k (16 / k) (fun i => (f i).toNat)
  rw [hk] at hlen
  have h1 := Py.leBytes_leNat ((List.range (16 / k)).map fun i => bytesLE k (f i).toNat).flatten
  rw [hlen] at h1
  rw [← h1, bytesLE_eq]
  simp only [bytesLE_eq]
  rw [leNat_flatten k (fun i => (f i).toNat) _ (fun i => by rw [Py.pow256, ← hw]; exact (f i).isLt)]
  rw [ofLanes, BitVec.toNat_ofNat, hn, show (2:Nat) ^ 128 = 256 ^ 16 by decide, Py.leBytes_mod]
  congr 2
  apply List.map_congr_left
  intro i _
  have : 8 * (k * i) = w * i := by rw [hw]; ring
  rw [Py.pow256, this]

theorem mapM_ok {α β} (f : α → Except Err β) (g : α → β) (l : List α) (h : ∀ a ∈ l, f a = .ok (g a)) :
    l.mapM f = .ok (l.map g) := by
  induction l with
  | nil => rfl
  | cons a l ih =>
    rw [List.mapM_cons, h a (by simp), ih (fun b hb => h b (by simp [hb]))]
    rfl

theorem fromV128I_eq {w k : Nat} (hw : w = 8 * k) (hk : 16 / k * k = 16) (f : Nat → BitVec w) :
    Val.fromV128I k ((List.range (16 / k)).map fun i => (f i).toInt) = .ok (v128 (ofLanes w f)) := by
  subst hw
  unfold Val.fromV128I
  have h0 : Py.assert ((((List.range (16 / k)).map fun i => (f i).toInt).length == 16 / k)) = .ok () := by
    simp [Py.assert]
  rw [h0]
  have h1 : ((List.range (16 / k)).map fun i => (f i).toInt).mapM (Arith.I.intoBytearray k) =
      .ok ((List.range (16 / k)).map fun i => bytesLE k (f i).toNat) := by
    rw [List.mapM_map]
    exact mapM_ok _ _ _ (fun i _ => toBytesS_toInt k (f i))
  rw [h1]
  show Val.make .v128 (_ ++ Py.zeros 0) = _
  rw [flatten_lanes rfl hk]
  exact make_cell _ 16 _ (by decide)

theorem fromV128U_eq {w k : Nat} (hw : w = 8 * k) (hk : 16 / k * k = 16) (f : Nat → BitVec w) :
    Val.fromV128U k ((List.range (16 / k)).map fun i => ((f i).toNat : Int)) = .ok (v128 (ofLanes w f)) := by
  subst hw
  unfold Val.fromV128U
  have h0 : Py.assert ((((List.range (16 / k)).map fun i => ((f i).toNat : Int)).length == 16 / k)) = .ok () := by
    simp [Py.assert]
  rw [h0]
  have h1 : ((List.range (16 / k)).map fun i => ((f i).toNat : Int)).mapM (Arith.U.intoBytearray k) =
      .ok ((List.range (16 / k)).map fun i => bytesLE k (f i).toNat) := by
    rw [List.mapM_map]
    exact mapM_ok _ _ _ (fun i _ => toBytesU_toNat k (f i))
  rw [h1]
  show Val.make .v128 (_ ++ Py.zeros 0) = _
  rw [flatten_lanes rfl hk]
  exact make_cell _ 16 _ (by decide)

/-- Sixteen bytes as a vector. -/
theorem fromV128_eq {b : Bytes} (h : b.length = 16) : Val.fromV128 b = .ok (v128 (BitVec.ofNat 128 (readLE b))) := by
  unfold Val.fromV128
  rw [show Py.assert (b.length == 16) = .ok () by simp [Py.assert, h]]
  show Val.make .v128 (b ++ Py.zeros 0) = _
  have : b = bytesLE 16 (BitVec.ofNat 128 (readLE b)).toNat := by
    have := Py.leBytes_leNat b
    rw [h] at this
    rw [bytesLE_eq, BitVec.toNat_ofNat, readLE_eq, show (2:Nat) ^ 128 = 256 ^ 16 by decide, Py.leBytes_mod, this]
  conv => lhs; rw [this]
  exact make_cell _ 16 _ (by decide)

/-- The lanes of `ofLanes f` are `f`. -/
theorem lane_ofLanes {w k : Nat} (hw : w = 8 * k) (hk : 16 / k * k = 16) (f : Nat → BitVec w) {i : Nat} (hi : i < 16 / k) :
    lane w (ofLanes w f) i = f i := by
  have h1 := intoV128U_eq hw (v128 (ofLanes w f))
  rw [low128_v128] at h1
  have h2 : (v128 (ofLanes w f)).data = ((List.range (16 / k)).map fun i => bytesLE k (f i).toNat).flatten := by
    rw [flatten_lanes hw hk]
    simp [v128, cell]
  have hk0 : 0 < k := by
    rcases Nat.eq_zero_or_pos k with h | h
    · subst h; simp at hk
    · exact h
  have h3 : (((v128 (ofLanes w f)).data).drop (i * k)).take k = bytesLE k (f i).toNat := by
    rw [h2]
    obtain ⟨n, hn⟩ : ∃ n, n = 16 / k := ⟨_, rfl⟩
    rw [← hn] at hi ⊢
    clear h1 h2 hn hk
    have e : List.range n = List.range i ++ (List.range (n - i)).map (i + ·) := by
      rw [← List.range_add]; congr 1; omega
    rw [e, List.map_append, List.flatten_append, List.drop_append, flatten_length, Nat.sub_self, List.drop_zero]
    rw [List.drop_of_length_le (by rw [flatten_length]), List.nil_append]
    obtain ⟨r, hr⟩ : ∃ r, n - i = r + 1 := ⟨n - i - 1, by omega⟩
    rw [hr, List.range_succ_eq_map]
    simp only [List.map_cons, List.flatten_cons, Nat.add_zero]
    rw [List.take_append, bytesLE_length, Nat.sub_self, List.take_zero, List.append_nil,
      List.take_of_length_le (by rw [bytesLE_length])]
  have h4 := lane_low128 hw (v128 (ofLanes w f)) i
  rw [low128_v128, h3, bytesLE_eq, Py.leNat_leBytes, Py.pow256, ← hw, Nat.mod_eq_of_lt (f i).isLt] at h4
  exact (BitVec.eq_of_toNat_eq h4).symm

/-- Vectors with the same lanes are equal. -/
theorem lane_ext {w k : Nat} (hw : w = 8 * k) (hk : 16 / k * k = 16) {x y : BitVec 128}
    (h : ∀ i < 16 / k, lane w x i = lane w y i) : x = y := by
  have hk0 : 0 < k := by
    rcases Nat.eq_zero_or_pos k with h | h
    · subst h; simp at hk
    · exact h
  have hw0 : 0 < w := by omega
  apply BitVec.eq_of_getLsbD_eq
  intro j hj
  have h1 : j / w < 16 / k := by
    rw [Nat.div_lt_iff_lt_mul hw0, hw, show 16 / k * (8 * k) = 8 * (16 / k * k) by ring, hk]; exact hj
  have h2 := congrArg (fun z => z.getLsbD (j % w)) (h _ h1)
  simp only [lane, BitVec.getLsbD_extractLsb', Nat.mod_lt j hw0, decide_true, Bool.true_and] at h2
  rwa [Nat.div_add_mod] at h2

theorem ofLanes_lane {w k : Nat} (hw : w = 8 * k) (hk : 16 / k * k = 16) (x : BitVec 128) :
    ofLanes w (fun i => lane w x i) = x :=
  lane_ext hw hk fun _ hi => lane_ofLanes hw hk _ hi

/-- A lane of sixteen bytes is a chunk of them. -/
theorem lane_bytes {w k : Nat} (hw : w = 8 * k) (b : Bytes) (hb : b.length = 16) (i : Nat) :
    lane w (BitVec.ofNat 128 (readLE b)) i = BitVec.ofNat w (readLE ((b.drop (i * k)).take k)) := by
  apply BitVec.eq_of_toNat_eq
  have := leNat_chunk hw b i
  rw [hb] at this
  rw [readLE_eq, ← this, readLE_eq, BitVec.toNat_ofNat, Nat.mod_eq_of_lt]
  have h2 := Py.leNat_lt ((b.drop (i * k)).take k)
  rw [Py.pow256] at h2
  refine lt_of_lt_of_le h2 (Nat.pow_le_pow_right (by decide) ?_)
  rw [hw]; simp

end Pywasm
