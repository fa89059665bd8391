import Verif.Lemmas.MRun
import Verif.Lemmas.Lanes
import Verif.Lemmas.Arith
import Verif.Spec.Exec

/-! One step of the machine; loads and stores. -/

namespace Pywasm
open Spec M

theorem step_next {H : Host} {m : Machine} {i : Inst} (h : next m = some i) :
    ∃ lab ls f fs, m.label = lab :: ls ∧ m.frame = f :: fs ∧
      step H m = exec H { lab with index := lab.index + 1 } f i (advance m) ∧
      advance m = { m with label := { lab with index := lab.index + 1 } :: ls } := by
  unfold next at h
  split at h
  · rename_i lab ls f fs hl hf
    refine ⟨lab, ls, f, fs, hl, hf, ?_, by simp [advance, hl]⟩
    unfold step
    rw [bind_get_run, bind_idx_some (a := lab) (by simp [hl]), bind_topFrame hf]
    have hlt : ¬ lab.index = lab.instr.length := by
      have := (List.getElem?_eq_some_iff.mp h).1; omega
    rw [if_neg hlt, bind_idx_some h, bind_modify_run]
    simp [advance, hl]
  · cases h

@[simp] theorem advance_store (m : Machine) : (advance m).store = m.store := by unfold advance; split <;> rfl
@[simp] theorem advance_value (m : Machine) : (advance m).value = m.value := by unfold advance; split <;> rfl
@[simp] theorem advance_frame (m : Machine) : (advance m).frame = m.frame := by unfold advance; split <;> rfl

namespace Py
theorem clamp_nat (n a : Nat) : clamp n (a : Int) = min a n := by
  unfold clamp; rw [if_neg (by omega)]; simp
theorem slice_nat {α} (l : List α) (a n : Nat) (h : a + n ≤ l.length) : slice l a (a + n : Nat) = Spec.range l a n := by
  unfold slice Spec.range
  rw [clamp_nat, clamp_nat, Nat.min_eq_left h, Nat.min_eq_left (by omega), List.drop_take]; congr 1; omega
theorem setItem_ok {α} {l : List α} {i : Nat} (v : α) (h : i < l.length) : setItem l (i : Int) v = .ok (l.set i v) := by
  unfold setItem; simp only [show ¬ ((i : Int) < 0) by omega, if_false]
  rw [if_neg (by simp; omega)]; simp
theorem setItem_err {α} {l : List α} {i : Nat} (v : α) (h : l.length ≤ i) : setItem l (i : Int) v = .error .index := by
  unfold setItem; simp only [show ¬ ((i : Int) < 0) by omega, if_false]
  rw [if_pos (by simp; omega)]
theorem getItem_some {α} {l : List α} {i : Nat} {v : α} (h : l[i]? = some v) : getItem l (i : Int) = .ok v := by
  unfold getItem; simp [show ¬ ((i : Int) < 0) by omega, h]
theorem getItem_none {α} {l : List α} {i : Nat} (h : l.length ≤ i) : getItem l (i : Int) = .error .index := by
  unfold getItem; simp [show ¬ ((i : Int) < 0) by omega, List.getElem?_eq_none h]
theorem patch_eq {α} (l : List α) (p : Nat) (new : List α) (h : p + new.length ≤ l.length) :
    patch l p new = l.take p ++ new ++ l.drop (p + new.length) := by
  apply List.ext_getElem?
  intro i
  have hm : min p l.length = p := by omega
  simp only [patch, List.getElem?_mapIdx, List.append_assoc, List.getElem?_append, List.length_take, hm,
    List.getElem?_take, List.getElem?_drop]
  rcases Nat.lt_or_ge i p with hi | hi
  · rw [if_pos hi, if_pos hi]
    have : ¬ (p ≤ i ∧ i < p + new.length) := by omega
    simp [this]
  · rw [if_neg (by omega)]
    rcases Nat.lt_or_ge i (p + new.length) with hj | hj
    · have : p ≤ i ∧ i < p + new.length := ⟨hi, hj⟩
      rw [if_pos (by omega), List.getElem?_eq_getElem (by omega), List.getElem?_eq_getElem (by omega)]
      simp only [this, and_self, if_true, Option.map_some, List.getD_eq_getElem?_getD]
      rw [List.getElem?_eq_getElem (by omega)]; rfl
    · have : ¬ (p ≤ i ∧ i < p + new.length) := by omega
      rw [if_neg (by omega)]
      simp only [this, if_false, Option.map_id']
      congr 1; omega
theorem sliceSet_nat {α} (l : List α) (p n : Nat) (new : List α) (hn : new.length = n) (h : p + n ≤ l.length) :
    sliceSet l p (p + n : Nat) new = patch l p new := by
  subst hn
  rw [patch_eq _ _ _ h]
  unfold sliceSet
  rw [clamp_nat, clamp_nat, Nat.min_eq_left h, Nat.min_eq_left (by omega)]
  simp only
  rw [Nat.max_eq_right (by omega)]
theorem range_length {α} (l : List α) (p n : Nat) (h : p + n ≤ l.length) : (Spec.range l p n).length = n := by
  simp [Spec.range]; omega
theorem patch_length {α} (l : List α) (p : Nat) (new : List α) : (patch l p new).length = l.length := by
  simp [patch]
theorem patch_fill {α} (l : List α) (p n : Nat) (x : α) (h : p + n ≤ l.length) :
    (List.range n).foldl (fun l i => l.set (p + i) x) l = patch l p (List.replicate n x) := by
  induction n with
  | zero => 
    rw [patch_eq _ _ _ (by simpa using h)]; simp
  | succ n ih =>
    rw [List.range_succ, List.foldl_append, ih (by omega)]
    simp only [List.foldl_cons, List.foldl_nil]
    apply List.ext_getElem
    · simp [patch]
    intro i h1 h2
    simp only [patch, List.getElem_set, List.getElem_mapIdx, List.length_replicate, List.getD_eq_getElem?_getD,
      List.getElem?_replicate]
    split
    · rename_i h3; subst h3; simp
    · rename_i h3
      by_cases h4 : p ≤ i ∧ i < p + n
      · rw [if_pos h4, if_pos (show p ≤ i ∧ i < p + (n + 1) by omega), if_pos (by omega), if_pos (by omega)]
      · rw [if_neg h4, if_neg (by omega)]
end Py

theorem evaluateMemLoad_ok {m : Machine} {f fs a mem v s} (hf : m.frame = f :: fs) (h : f.module.mems[0]? = some a)
    (hm : m.store.mems[a]? = some mem) (hv : m.value = v :: s) (off n : Nat)
    (hb : v.low32.toNat + off + n ≤ mem.data.length) :
    evaluateMemLoad off n m = .ok (Spec.range mem.data (v.low32.toNat + off) n) { m with value := s } := by
  unfold evaluateMemLoad
  rw [bind_topFrame hf, bind_theMem h hm]
  simp only
  rw [bind_popU32 hv, bind_assert_pos hb, Py.slice_nat _ _ _ hb]; rfl
theorem evaluateMemLoad_err {m : Machine} {f fs a mem v s} (hf : m.frame = f :: fs) (h : f.module.mems[0]? = some a)
    (hm : m.store.mems[a]? = some mem) (hv : m.value = v :: s) (off n : Nat)
    (hb : ¬ v.low32.toNat + off + n ≤ mem.data.length) :
    evaluateMemLoad off n m = .error .assertion { m with value := s } := by
  unfold evaluateMemLoad
  rw [bind_topFrame hf, bind_theMem h hm]
  simp only
  rw [bind_popU32 hv, bind_assert_neg hb]

theorem loadWidth_eq (op : LoadOp) : op.size = loadWidth op := by cases op <;> rfl
theorem storeWidth_eq (op : StoreOp) : op.size = storeWidth op := by cases op <;> rfl

theorem make_bytes (ty : ValType) (k : Nat) (h : k ≤ 16) (b : Bytes) (hb : b.length = k) :
    Val.make ty (b ++ Py.zeros (16 - k)) = .ok (cell ty k (readLE b) h) := by
  subst hb
  have := make_cell ty b.length (readLE b) h
  rwa [readLE_eq, bytesLE_eq, Py.leBytes_leNat, ← readLE_eq] at this

theorem cell_ofNat {w : Nat} (ty : ValType) (k n : Nat) (h : k ≤ 16) (hw : w = 8 * k) :
    cell ty k (BitVec.ofNat w n).toNat h = cell ty k n h := by
  unfold cell
  congr 1
  rw [bytesLE_eq, bytesLE_eq, BitVec.toNat_ofNat, hw, ← Py.pow256, Py.leBytes_mod]

theorem unpackS_w {w : Nat} {b : Bytes} (k : Nat) (hk : b.length = k) (hw : w = 8 * k) :
    Py.unpackS k b = .ok (BitVec.ofNat w (readLE b)).toInt := by
  subst hk; rw [Py.unpackS, if_pos rfl, fromBytesS_w hw, readLE_eq]
theorem unpackU_w {w : Nat} {b : Bytes} (k : Nat) (hk : b.length = k) (hw : w = 8 * k) :
    Py.unpackU k b = .ok ((BitVec.ofNat w (readLE b)).toNat : Int) := by
  subst hk; rw [Py.unpackU, if_pos rfl, fromBytesU_w hw, readLE_eq]

theorem toInt_signExtend {w v : Nat} (x : BitVec w) (h : w ≤ v) : (x.signExtend v).toInt = x.toInt :=
  BitVec.toInt_signExtend_of_le h

theorem toNat_lt_range {w : Nat} (k : Nat) (h : w ≤ k) (x : BitVec w) : -2 ^ k ≤ (x.toNat : Int) ∧ (x.toNat : Int) < 2 ^ k := by
  have h1 := x.isLt
  have h2 : 2 ^ w ≤ 2 ^ k := Nat.pow_le_pow_right (by decide) h
  have h3 : ((2 ^ k : Nat) : Int) = 2 ^ k := by push_cast; rfl
  omega

theorem setWidth_ofInt {w v : Nat} (x : BitVec w) : BitVec.ofInt v (x.toNat : Int) = x.setWidth v := by
  apply BitVec.eq_of_toNat_eq; simp

theorem fromI32_ext {w : Nat} (h : w ≤ 32) (x : BitVec w) : Val.fromI32 x.toInt = .ok (i32 (x.signExtend 32)) := by
  rw [← fromI32_toInt, toInt_signExtend x h]
theorem fromI64_ext {w : Nat} (h : w ≤ 64) (x : BitVec w) : Val.fromI64 x.toInt = .ok (i64 (x.signExtend 64)) := by
  rw [← fromI64_toInt, toInt_signExtend x h]
theorem bind_unpackU {w : Nat} {α} {b : Bytes} (k : Nat) (hk : b.length = k) (hw : w = 8 * k) (f : Int → Except Err α)
    (r : Except Err α) (h : f (((BitVec.ofNat w (readLE b)).toNat : Int)) = r) :
    (Py.unpackU k b >>= f) = r := by rw [unpackU_w k hk hw]; exact h

theorem fromI32_zext {w : Nat} (h : w ≤ 31) (x : BitVec w) : Val.fromI32 (x.toNat : Int) = .ok (i32 (x.setWidth 32)) := by
  rw [fromI32_of_range (toNat_lt_range 31 h x), setWidth_ofInt]
theorem fromI64_zext {w : Nat} (h : w ≤ 63) (x : BitVec w) : Val.fromI64 (x.toNat : Int) = .ok (i64 (x.setWidth 64)) := by
  rw [fromI64_of_range (toNat_lt_range 63 h x), setWidth_ofInt]

theorem repeat_eq {w k : Nat} (hw : w = 8 * k) (hk : 16 / k * k = 16) (b : Bytes) (hb : b.length = k) :
    Val.fromV128 (repeatBytes (16 / k) b) = .ok (v128 (ofLanes w fun _ => BitVec.ofNat w (readLE b))) := by
  have h1 := flatten_lanes hw hk (fun _ => BitVec.ofNat w (readLE b))
  have h2 : (List.range (16 / k)).map (fun _ => bytesLE k (BitVec.ofNat w (readLE b)).toNat) = List.replicate (16 / k) b := by
    have : bytesLE k (BitVec.ofNat w (readLE b)).toNat = b := by
      rw [bytesLE_eq, BitVec.toNat_ofNat, hw, ← Py.pow256, Py.leBytes_mod, readLE_eq, ← hb, Py.leBytes_leNat]
    rw [this]; simp
  rw [h2] at h1
  unfold Val.fromV128 repeatBytes
  rw [h1]
  have h3 := make_cell .v128 16 (ofLanes w fun _ => BitVec.ofNat w (readLE b)).toNat (by decide)
  rw [show Py.assert ((bytesLE 16 (ofLanes w fun _ => BitVec.ofNat w (readLE b)).toNat).length == 16) = .ok () by
    simp [Py.assert, bytesLE_length]]
  exact h3

theorem zero_eq {w k : Nat} (hw : w = 8 * k) (hk : 16 / k * k = 16) (b : Bytes) (hb : b.length = k) :
    Val.fromV128 (b ++ Py.zeros (16 - k)) =
      .ok (v128 (ofLanes w fun i => if i = 0 then BitVec.ofNat w (readLE b) else 0)) := by
  have hk16 : k ≤ 16 := by
    have : 16 / k ≠ 0 := by intro h; rw [h] at hk; simp at hk
    have : 0 < 16 / k := Nat.pos_of_ne_zero this
    rw [← hk]; exact Nat.le_mul_of_pos_left k this
  have hl : (b ++ Py.zeros (16 - k)).length = 16 := by simp [Py.zeros]; omega
  rw [fromV128_eq hl]
  congr 2
  have h1 := flatten_lanes hw hk (fun i => if i = 0 then BitVec.ofNat w (readLE b) else 0)
  have e : bytesLE k (BitVec.ofNat w (readLE b)).toNat = b := by
    rw [bytesLE_eq, BitVec.toNat_ofNat, hw, ← Py.pow256, Py.leBytes_mod, readLE_eq, ← hb, Py.leBytes_leNat]
  have h0 : ∀ k, Py.leBytes k 0 = List.replicate k 0 := by
    intro k; induction k with
    | zero => rfl
    | succ k ih => rw [Py.leBytes]; simp [ih, List.replicate_succ]
  obtain ⟨r, hr⟩ : ∃ r, 16 / k = r + 1 := Nat.exists_eq_succ_of_ne_zero (by intro h; rw [h] at hk; simp at hk)
  rw [hr, List.range_succ_eq_map] at h1
  simp only [List.map_cons, List.map_map, if_true, List.flatten_cons, e] at h1
  have h2 : (List.range r).map ((fun i => bytesLE k (if i = 0 then BitVec.ofNat w (readLE b) else 0).toNat) ∘ Nat.succ)
      = List.replicate r (List.replicate k 0) := by
    have : ((fun i => bytesLE k (if i = 0 then BitVec.ofNat w (readLE b) else 0).toNat) ∘ Nat.succ) =
        fun _ => List.replicate k 0 := by
      funext i
      simp [bytesLE_eq, h0]
    rw [this]; simp
  rw [h2] at h1
  have h3 : (List.replicate r (List.replicate k (0:UInt8))).flatten = Py.zeros (16 - k) := by
    rw [List.flatten_replicate_replicate, Py.zeros]
    congr 1
    have : (r + 1) * k = 16 := by rw [← hr]; exact hk
    rw [Nat.succ_mul] at this; omega
  rw [h3] at h1
  rw [h1]
  apply BitVec.eq_of_toNat_eq
  rw [BitVec.toNat_ofNat, readLE_eq, bytesLE_eq, Py.leNat_leBytes]
  have := (ofLanes w fun i => if i = 0 then BitVec.ofNat w (readLE b) else 0).isLt
  rw [show (256:Nat) ^ 16 = 2 ^ 128 by decide, Nat.mod_mod, Nat.mod_eq_of_lt this]

theorem sub_sign {w : Nat} (hw : 0 < w) (x : BitVec w) :
    (x.toNat : Int) - Py.shl (Py.and x.toNat (2 ^ (w - 1))) 1 = x.toInt := by
  have h1 : (2 ^ (w - 1) : Int) = Int.ofNat (2 ^ (w - 1)) := by simp
  have h2 : Py.and (x.toNat : Int) (2 ^ (w - 1)) = ((x.toNat &&& 2 ^ (w - 1) : Nat) : Int) := by rw [h1]; rfl
  rw [h2, Py.shl]
  have h3 : x.toNat &&& 2 ^ (w - 1) = if x.msb then 2 ^ (w - 1) else 0 := by
    rw [Nat.and_two_pow, BitVec.msb_eq_getLsbD_last, BitVec.getLsbD]
    cases x.toNat.testBit (w - 1) <;> simp
  rw [h3, BitVec.toInt_eq_msb_cond]
  have h4 : (2:Int) ^ w = 2 ^ (w - 1) * 2 := by
    rw [← pow_succ]; congr 1; omega
  split <;> simp [h4]

theorem loadWiden_s {w k n : Nat} (hw : w = 8 * k) (hk : 0 < k) (b : Bytes) (hb : b.length = n * k) :
    loadWiden true k n b = .ok ((List.range n).map fun i =>
      bytesLE (2 * k) ((lane w (BitVec.ofNat (8 * b.length) (readLE b)) i).signExtend (8 * (2 * k))).toNat).flatten := by
  unfold loadWiden
  rw [mapM_ok _ (fun i => bytesLE (2 * k) ((lane w (BitVec.ofNat (8 * b.length) (readLE b)) i).signExtend (8 * (2 * k))).toNat)]
  · rfl
  intro i hi
  have hi := List.mem_range.mp hi
  have h1 : i * k + k ≤ b.length := by
    rw [hb]; have := Nat.mul_le_mul_right k (show i + 1 ≤ n from hi); rw [Nat.succ_mul] at this; exact this
  simp only [if_true]
  rw [Py.slice_nat _ _ _ h1, fromBytesU_w (w := w) (by rw [Py.range_length _ _ _ h1, hw]), Spec.range, leNat_chunk hw]
  rw [BitVec.ofNat_toNat, BitVec.setWidth_eq, ← hw, sub_sign (by omega), ← readLE_eq]
  rw [← toInt_signExtend (v := 8 * (2 * k)) _ (by omega)]
  exact toBytesS_toInt _ _

theorem loadWiden_u {w k n : Nat} (hw : w = 8 * k) (b : Bytes) (hb : b.length = n * k) :
    loadWiden false k n b = .ok ((List.range n).map fun i =>
      bytesLE (2 * k) ((lane w (BitVec.ofNat (8 * b.length) (readLE b)) i).setWidth (8 * (2 * k))).toNat).flatten := by
  unfold loadWiden
  rw [mapM_ok _ (fun i => bytesLE (2 * k) ((lane w (BitVec.ofNat (8 * b.length) (readLE b)) i).setWidth (8 * (2 * k))).toNat)]
  · rfl
  intro i hi
  have hi := List.mem_range.mp hi
  have h1 : i * k + k ≤ b.length := by
    rw [hb]; have := Nat.mul_le_mul_right k (show i + 1 ≤ n from hi); rw [Nat.succ_mul] at this; exact this
  simp only [Bool.false_eq_true, if_false]
  rw [Py.slice_nat _ _ _ h1, fromBytesU_w (w := w) (by rw [Py.range_length _ _ _ h1, hw]), Spec.range, leNat_chunk hw]
  rw [BitVec.ofNat_toNat, BitVec.setWidth_eq, ← readLE_eq]
  rw [← BitVec.toNat_setWidth_of_le (w' := 8 * (2 * k)) (by omega)]
  exact toBytesU_toNat _ _

theorem ofNat_bytes (x : BitVec 128) : BitVec.ofNat 128 (readLE (bytesLE 16 x.toNat)) = x := by
  apply BitVec.eq_of_toNat_eq
  rw [BitVec.toNat_ofNat, readLE_eq, bytesLE_eq, Py.leNat_leBytes, show (256:Nat) ^ 16 = 2 ^ 128 by decide, Nat.mod_mod,
    Nat.mod_eq_of_lt (BitVec.isLt _)]

theorem widen_s {w v k : Nat} (hw : w = 8 * k) (hk : 0 < k) (hv : v = 8 * (2 * k)) (n : Nat) (hn : n = 16 / (2 * k))
    (hk2 : 16 / (2 * k) * (2 * k) = 16) (b : Bytes) (hb : b.length = 8) (hnk : n * k = 8) :
    (do Val.fromV128 (← loadWiden true k n b)) =
      .ok (v128 (ofLanes v fun i => (lane w (BitVec.ofNat 64 (readLE b)) i).signExtend v)) := by
  subst hv hn
  rw [loadWiden_s hw hk b (by rw [hb, hnk])]
  show Val.fromV128 _ = _
  rw [flatten_lanes rfl hk2, hb, fromV128_eq (by rw [bytesLE_length]), ofNat_bytes]
theorem widen_u {w v k : Nat} (hw : w = 8 * k) (hv : v = 8 * (2 * k)) (n : Nat) (hn : n = 16 / (2 * k))
    (hk2 : 16 / (2 * k) * (2 * k) = 16) (b : Bytes) (hb : b.length = 8) (hnk : n * k = 8) :
    (do Val.fromV128 (← loadWiden false k n b)) =
      .ok (v128 (ofLanes v fun i => (lane w (BitVec.ofNat 64 (readLE b)) i).setWidth v)) := by
  subst hv hn
  rw [loadWiden_u hw b (by rw [hb, hnk])]
  show Val.fromV128 _ = _
  rw [flatten_lanes rfl hk2, hb, fromV128_eq (by rw [bytesLE_length]), ofNat_bytes]

theorem LoadOp.make_eq (op : LoadOp) (b : Bytes) (h : b.length = loadWidth op) :
    op.make b = .ok (loaded op (readLE b)) := by
  cases op <;> simp only [loadWidth] at h <;> simp only [LoadOp.make, loaded]
  case i32_load => rw [i32, cell_ofNat _ _ _ _ rfl]; exact make_bytes _ 4 (by decide) b h
  case i64_load => rw [i64, cell_ofNat _ _ _ _ rfl]; exact make_bytes _ 8 (by decide) b h
  case f32_load => rw [f32, cell_ofNat _ _ _ _ rfl]; exact make_bytes _ 4 (by decide) b h
  case f64_load => rw [f64, cell_ofNat _ _ _ _ rfl]; exact make_bytes _ 8 (by decide) b h
  case i32_load8_s => rw [unpackS_w (w := 8) 1 h rfl]; exact fromI32_ext (by decide) _
  case i32_load8_u => exact bind_unpackU (w := 8) 1 h rfl _ _ (fromI32_zext (w := 8) (by decide) _)
  case i32_load16_s => rw [unpackS_w (w := 16) 2 h rfl]; exact fromI32_ext (by decide) _
  case i32_load16_u => exact bind_unpackU (w := 16) 2 h rfl _ _ (fromI32_zext (w := 16) (by decide) _)
  case i64_load8_s => rw [unpackS_w (w := 8) 1 h rfl]; exact fromI64_ext (by decide) _
  case i64_load8_u => exact bind_unpackU (w := 8) 1 h rfl _ _ (fromI64_zext (w := 8) (by decide) _)
  case i64_load16_s => rw [unpackS_w (w := 16) 2 h rfl]; exact fromI64_ext (by decide) _
  case i64_load16_u => exact bind_unpackU (w := 16) 2 h rfl _ _ (fromI64_zext (w := 16) (by decide) _)
  case i64_load32_s => rw [unpackS_w (w := 32) 4 h rfl]; exact fromI64_ext (by decide) _
  case i64_load32_u => exact bind_unpackU (w := 32) 4 h rfl _ _ (fromI64_zext (w := 32) (by decide) _)
  case v128_load => exact fromV128_eq h
  case v128_load8x8_s => exact widen_s rfl (by decide) rfl 8 rfl rfl b h rfl
  case v128_load8x8_u => exact widen_u rfl rfl 8 rfl rfl b h rfl
  case v128_load16x4_s => exact widen_s rfl (by decide) rfl 4 rfl rfl b h rfl
  case v128_load16x4_u => exact widen_u rfl rfl 4 rfl rfl b h rfl
  case v128_load32x2_s => exact widen_s rfl (by decide) rfl 2 rfl rfl b h rfl
  case v128_load32x2_u => exact widen_u rfl rfl 2 rfl rfl b h rfl
  case v128_load8_splat => exact repeat_eq (k := 1) rfl rfl b h
  case v128_load16_splat => exact repeat_eq (k := 2) rfl rfl b h
  case v128_load32_splat => exact repeat_eq (k := 4) rfl rfl b h
  case v128_load64_splat => exact repeat_eq (k := 8) rfl rfl b h
  case v128_load32_zero => exact zero_eq (k := 4) rfl rfl b h
  case v128_load64_zero => exact zero_eq (k := 8) rfl rfl b h

end Pywasm
