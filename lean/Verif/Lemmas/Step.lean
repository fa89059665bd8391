import Verif.Lemmas.Mem

/-! Helpers for statements about one instruction. -/

namespace Pywasm
open Spec M

theorem Spec.HasMem.frame {m : Machine} {a mem f fs} (h : HasMem m a mem) (hf : m.frame = f :: fs) :
    f.module.mems[0]? = some a ∧ (advance m).store.mems[a]? = some mem := by
  obtain ⟨mod, h1, h2, h3⟩ := h
  simp only [curModule, hf, List.head?_cons, Option.map_some, Option.some.injEq] at h1
  subst h1; exact ⟨h2, by simpa using h3⟩
theorem Spec.HasTable.frame {m : Machine} {i a t f fs} (h : HasTable m i a t) (hf : m.frame = f :: fs) :
    f.module.tabl[i]? = some a ∧ (advance m).store.tabl[a]? = some t := by
  obtain ⟨mod, h1, h2, h3⟩ := h
  simp only [curModule, hf, List.head?_cons, Option.map_some, Option.some.injEq] at h1
  subst h1; exact ⟨h2, by simpa using h3⟩
theorem Spec.HasGlobal.frame {m : Machine} {i a g f fs} (h : HasGlobal m i a g) (hf : m.frame = f :: fs) :
    f.module.glob[i]? = some a ∧ (advance m).store.glob[a]? = some g := by
  obtain ⟨mod, h1, h2, h3⟩ := h
  simp only [curModule, hf, List.head?_cons, Option.map_some, Option.some.injEq] at h1
  subst h1; exact ⟨h2, by simpa using h3⟩
theorem Spec.HasElem.frame {m : Machine} {i a g f fs} (h : HasElem m i a g) (hf : m.frame = f :: fs) :
    f.module.elem[i]? = some a ∧ (advance m).store.elem[a]? = some g := by
  obtain ⟨mod, h1, h2, h3⟩ := h
  simp only [curModule, hf, List.head?_cons, Option.map_some, Option.some.injEq] at h1
  subst h1; exact ⟨h2, by simpa using h3⟩
theorem Spec.HasData.frame {m : Machine} {i b g f fs} (h : HasData m i b g) (hf : m.frame = f :: fs) :
    ∃ a, f.module.data[i]? = some a ∧ (advance m).store.data[a]? = some b ∧ (advance m).store.bufs[b]? = some g := by
  obtain ⟨mod, a, h1, h2, h3, h4⟩ := h
  simp only [curModule, hf, List.head?_cons, Option.map_some, Option.some.injEq] at h1
  subst h1; exact ⟨a, h2, by simpa using h3, by simpa using h4⟩

theorem evaluateMemSave_ok {m : Machine} {f fs a mem v b s} (hf : m.frame = f :: fs) (h : f.module.mems[0]? = some a)
    (hm : m.store.mems[a]? = some mem) (hv : m.value = v :: b :: s) (off n : Nat) (hn : n ≤ 16)
    (hb : b.low32.toNat + off + n ≤ mem.data.length) :
    evaluateMemSave off n m = .ok () (withMem { m with value := s } a
      { mem with data := patch mem.data (b.low32.toNat + off) (v.data.take n) }) := by
  unfold evaluateMemSave
  rw [bind_topFrame hf, bind_theMem h hm]
  simp only
  rw [bind_pop hv, bind_popU32 rfl, bind_assert_pos hb, Py.sliceSet_nat _ _ _ _ (by simp [v.len, hn]) hb]; rfl
theorem evaluateMemSave_err {m : Machine} {f fs a mem v b s} (hf : m.frame = f :: fs) (h : f.module.mems[0]? = some a)
    (hm : m.store.mems[a]? = some mem) (hv : m.value = v :: b :: s) (off n : Nat)
    (hb : ¬ b.low32.toNat + off + n ≤ mem.data.length) :
    evaluateMemSave off n m = .error .assertion { m with value := s } := by
  unfold evaluateMemSave
  rw [bind_topFrame hf, bind_theMem h hm]
  simp only
  rw [bind_pop hv, bind_popU32 rfl, bind_assert_neg hb]

theorem storeWidth_le (op : StoreOp) : storeWidth op ≤ 16 := by cases op <;> decide

theorem range_patch {α} (l : List α) (p : Nat) (new : List α) (h : p + new.length ≤ l.length) :
    Spec.range (patch l p new) p new.length = new := by
  rw [Py.patch_eq _ _ _ h, Spec.range, List.append_assoc, List.drop_append_of_le_length (by simp; omega),
    List.drop_eq_nil_of_le (by simp)]
  simp

theorem byte0_eq (v : Val) : v.byte 0 = UInt8.ofNat v.low32.toNat := by
  obtain ⟨ty, data, hl⟩ := v
  match data, hl with
  | x :: l, hl =>
    show x = _
    simp only [Val.low32]
    rw [BitVec.toNat_ofNat, readLE_eq, List.take_succ_cons, Py.leNat]
    apply UInt8.toNat_inj.mp
    rw [UInt8.toNat_ofNat']
    have := x.toNat_lt
    have h2 : 2 ^ 32 = 256 * 2 ^ 24 := by norm_num
    omega

theorem range_patch_disjoint {α} (l : List α) (p q n : Nat) (new : List α) (hd : q + n ≤ p ∨ p + new.length ≤ q) :
    Spec.range (patch l p new) q n = Spec.range l q n := by
  apply List.ext_getElem?
  intro i
  simp only [Spec.range, List.getElem?_take, List.getElem?_drop, patch, List.getElem?_mapIdx]
  split
  · have : ¬ (p ≤ q + i ∧ q + i < p + new.length) := by omega
    simp [this]
  · rfl

/-- Overwriting the bytes of one lane. -/
theorem lane_replace {w k : Nat} (hw : w = 8 * k) (hk : 16 / k * k = 16) (x : Val) (l : Nat) (hl : l < 16 / k)
    (b : Bytes) (hb : b.length = k) :
    Val.make .v128 (Py.sliceSet x.intoV128 (k * l : Nat) (k * l + k : Nat) b ++ Py.zeros 0) =
      .ok (v128 (ofLanes w fun i => if i = l then BitVec.ofNat w (readLE b) else lane w x.low128 i)) := by
  have hx : x.intoV128 = x.data := by unfold Val.intoV128; rw [List.take_of_length_le (by rw [x.len])]
  have hkl : k * l + k ≤ 16 := by
    rw [← hk, Nat.mul_comm, ← Nat.succ_mul]; exact Nat.mul_le_mul_right k hl
  rw [hx, Py.sliceSet_nat _ _ _ _ hb (by rw [x.len]; exact hkl)]
  have hlen : (patch x.data (k * l) b).length = 16 := by rw [Py.patch_length, x.len]
  have h1 := make_bytes .v128 16 (by decide) _ hlen
  rw [h1, ← cell_ofNat (w := 128) _ _ _ _ rfl]
  show _ = Except.ok (cell .v128 16 _ _)
  congr 3
  apply lane_ext hw hk
  intro i hi
  rw [lane_ofLanes hw hk _ hi, lane_bytes hw _ hlen]
  split
  · rename_i h; subst h
    have := range_patch x.data (k * i) b (by rw [x.len, hb]; exact hkl)
    rw [Spec.range, hb, Nat.mul_comm] at this
    rw [Nat.mul_comm k, this]
  · rename_i h
    have := range_patch_disjoint x.data (k * l) (i * k) k b (by
      rw [hb, Nat.mul_comm k]
      rcases Nat.lt_or_gt_of_ne h with h | h
      · left; have := Nat.mul_le_mul_right k (show i + 1 ≤ l from h); rw [Nat.succ_mul] at this; exact this
      · right; have := Nat.mul_le_mul_right k (show l + 1 ≤ i from h); rw [Nat.succ_mul] at this; exact this)
    rw [Spec.range, Spec.range] at this
    rw [this, ← lane_bytes hw _ x.len]; rfl

theorem LaneW.div (w : LaneW) : 16 / w.bytes * w.bytes = 16 := by cases w <;> decide

/-- The bytes of a lane moved to the front, as the lane stores do. -/
theorem lane_front {w k : Nat} (hw : w = 8 * k) (hk : 16 / k * k = 16) (x : Val) (l : Nat) (hl : l < 16 / k) :
    ∃ y : Val, Val.fromV128 (Py.sliceSet x.intoV128 0 k (Py.slice x.intoV128 (k * l : Nat) (k * l + k : Nat))) = .ok y ∧
      y.data.take k = bytesLE k (lane w x.low128 l).toNat := by
  have hx : x.intoV128 = x.data := by unfold Val.intoV128; rw [List.take_of_length_le (by rw [x.len])]
  have hkl : k * l + k ≤ 16 := by
    rw [← hk, Nat.mul_comm, ← Nat.succ_mul]; exact Nat.mul_le_mul_right k hl
  rw [hx, Py.slice_nat _ _ _ (by rw [x.len]; exact hkl)]
  have hr := Py.range_length x.data (k * l) k (by rw [x.len]; exact hkl)
  have h0 := Py.sliceSet_nat x.data 0 k _ hr (by rw [x.len]; omega)
  rw [Nat.zero_add] at h0
  rw [show ((0 : Nat) : Int) = 0 from rfl] at h0
  rw [h0]
  have hlen : (patch x.data 0 (Spec.range x.data (k * l) k)).length = 16 := by rw [Py.patch_length, x.len]
  refine ⟨_, fromV128_eq hlen, ?_⟩
  have e : (v128 (BitVec.ofNat 128 (readLE (patch x.data 0 (Spec.range x.data (k * l) k))))).data =
      patch x.data 0 (Spec.range x.data (k * l) k) := by
    have := Py.leBytes_leNat (patch x.data 0 (Spec.range x.data (k * l) k))
    rw [hlen] at this
    show bytesLE 16 _ ++ [] = _
    rw [List.append_nil, bytesLE_eq, BitVec.toNat_ofNat, readLE_eq, show (2:Nat) ^ 128 = 256 ^ 16 by decide, Py.leBytes_mod, this]
  rw [e]
  have h2 := range_patch x.data 0 (Spec.range x.data (k * l) k) (by rw [hr, x.len]; omega)
  rw [hr] at h2
  have h3 : List.take k (patch x.data 0 (Spec.range x.data (k * l) k)) = Spec.range x.data (k * l) k := by
    exact h2
  rw [h3, bytesLE_eq, ← lane_low128 hw x l]
  have := Py.leBytes_leNat (Spec.range x.data (k * l) k)
  rw [hr] at this
  rw [← this, Spec.range, Nat.mul_comm]

theorem byte_eq (v : Val) (i : Nat) : v.byte i = (v.data[i]?).getD 0 := by
  unfold Val.byte; rw [List.getD_eq_getElem?_getD]

theorem intoRef_some {r : Val} {n : Int} (h : refTarget r = some n) : r.intoRef = .ok n := by
  unfold refTarget at h
  split at h
  · rename_i h4
    unfold Val.intoRef
    rw [byte_eq, h4]
    simp only [Option.some.injEq] at h
    rw [← h, Val.intoI32_eq]; rfl
  · cases h
theorem intoRef_none {r : Val} (h : refTarget r = none) : r.intoRef = .error .assertion := by
  unfold refTarget at h
  split at h
  · cases h
  · rename_i h4
    unfold Val.intoRef
    have hl : 4 < r.data.length := by rw [r.len]; decide
    rw [byte_eq, List.getElem?_eq_getElem hl]
    rw [List.getElem?_eq_getElem hl] at h4
    have : (r.data[4] == 1) = false := by
      simp only [Option.some.injEq] at h4
      simp [h4]
    simp only [Option.getD_some, this]; rfl

theorem fromRef_target (ty : ValType) {a : Nat} (h : a < 2 ^ 31) :
    ∃ r, Val.fromRef ty a = .ok r ∧ r.ty = ty ∧ refTarget r = some (a : Int) := by
  have e : Py.packS 4 (a : Int) = .ok (bytesLE 4 (BitVec.ofNat 32 a).toNat) := by
    have h1 := toBytesS_toInt 4 (BitVec.ofNat 32 a)
    rw [show (BitVec.ofNat 32 a).toInt = (a : Int) by
      rw [BitVec.toInt_eq_toNat_of_lt (by rw [BitVec.toNat_ofNat, Nat.mod_eq_of_lt (by omega)]; omega), BitVec.toNat_ofNat,
        Nat.mod_eq_of_lt (by omega)]] at h1
    unfold Py.toBytesS at h1
    unfold Py.packS
    split at h1
    · rename_i hc; rw [if_pos hc]; exact h1
    · cases h1
  have hB : (bytesLE 4 (BitVec.ofNat 32 a).toNat).length = 4 := bytesLE_length _ _
  have hR : (BitVec.ofNat 32 (readLE (bytesLE 4 (BitVec.ofNat 32 a).toNat))).toInt = a := by
    rw [readLE_eq, bytesLE_eq, Py.leNat_leBytes, show (256:Nat) ^ 4 = 2 ^ 32 by decide, Nat.mod_eq_of_lt (BitVec.isLt _),
      BitVec.ofNat_toNat, BitVec.setWidth_eq,
      BitVec.toInt_eq_toNat_of_lt (by rw [BitVec.toNat_ofNat, Nat.mod_eq_of_lt (by omega)]; omega), BitVec.toNat_ofNat,
      Nat.mod_eq_of_lt (by omega)]
  generalize bytesLE 4 (BitVec.ofNat 32 a).toNat = B at e hB hR
  have hlen : (B ++ [0x01] ++ Py.zeros 11).length = 16 := by
    simp [hB, Py.zeros]
  refine ⟨⟨ty, B ++ [0x01] ++ Py.zeros 11, hlen⟩, ?_, rfl, ?_⟩
  · unfold Val.fromRef
    rw [e]
    show Val.make ty _ = _
    unfold Val.make
    rw [dif_pos hlen]
  · unfold refTarget
    have h4 : (B ++ [0x01] ++ Py.zeros 11)[4]? = some 1 := by
      rw [List.append_assoc, List.getElem?_append_right (by rw [hB])]
      simp [hB]
    simp only [h4, if_true]
    refine congrArg some ?_
    unfold Val.low32
    simp only
    rw [List.append_assoc, List.take_append_of_le_length (by rw [hB]), List.take_of_length_le (by rw [hB])]
    exact hR

end Pywasm
