import Verif.Lemmas.Wasi

/-!
# Guest memory accesses of WASI calls that stay inside memory
-/

namespace Pywasm.Wasi
open WasiSpec Spec

theorem unpackU_eq (b : Bytes) : Py.unpackU b.length b = .ok (readLE b : Int) := by
  rw [Py.unpackU, if_pos rfl, Py.fromBytesU, readLE_eq]

theorem _root_.Pywasm.WasiSpec.InMem.some {s : St} {p n : Nat} (h : InMem s p n) : ∃ m, s.mem = some m ∧ bytes s = m.data ∧ p + n ≤ m.data.length := by
  obtain ⟨h1, h2⟩ := h
  cases hm : s.mem with
  | none => exact absurd hm h1
  | some m => 
    have : bytes s = m.data := by simp [bytes, hm]
    exact ⟨m, rfl, this, this ▸ h2⟩

theorem mems_run {s : St} {m : MemInst} (h : s.mem = some m) : mems s = .ok m s := by
  unfold mems; simp only [h]

theorem write_some {s : St} {m : MemInst} (h : s.mem = some m) (p : Nat) (d : Bytes) :
    write s p d = { s with mem := some { m with data := patch m.data p d } } := by
  simp [write, h]

theorem put_run {s : St} {p : Nat} {d : Bytes} (h : InMem s p d.length) : put p d s = .ok () (write s p d) := by
  obtain ⟨m, hm, -, hl⟩ := h.some
  unfold put
  rw [bind_ok (mems_run hm), write_some hm, MemInst.put,
    show (p : Int) + (d.length : Int) = ((p + d.length : Nat) : Int) by push_cast; rfl, Py.sliceSet_nat _ _ _ _ rfl hl]
  rfl

theorem putU_run {s : St} {k p v : Nat} (h : InMem s p k) (hv : v < 256 ^ k) :
    putU k p v s = .ok () (write s p (bytesLE k v)) := by
  obtain ⟨m, hm, -, hl⟩ := h.some
  unfold putU
  rw [bind_ok (mems_run hm), write_some hm]
  have : m.putU k (p : Int) (v : Int) = .ok { m with data := patch m.data p (bytesLE k v) } := by
    unfold MemInst.putU Py.packU
    rw [if_pos ⟨by omega, by exact_mod_cast hv⟩]
    show Except.ok _ = _
    rw [show (p : Int) + (k : Int) = ((p + k : Nat) : Int) by push_cast; rfl, Py.sliceSet_nat _ _ _ _ (Py.leBytes_length _ _) hl,
      bytesLE_eq]
    rfl
  rw [this, bind_ok (lift_ok _ _)]
  rfl

theorem patch_one (l : Bytes) (p : Nat) (x : UInt8) (h : p < l.length) : l.set p x = patch l p [x] := by
  rw [Py.patch_eq _ _ _ (by simp only [List.length_singleton]; omega), List.set_eq_take_append_cons_drop, if_pos h]
  simp

theorem except_bind {α β} (a : α) (f : α → Except Err β) : ((Except.ok a : Except Err α) >>= f) = f a := rfl

theorem putU8_run {s : St} {p v : Nat} (h : InMem s p 1) (hv : v < 256) :
    putU8 p v s = .ok () (write s p [UInt8.ofNat v]) := by
  obtain ⟨m, hm, -, hl⟩ := h.some
  unfold putU8
  rw [bind_ok (mems_run hm), write_some hm]
  have : m.putU8 (p : Int) (v : Int) = .ok { m with data := patch m.data p [UInt8.ofNat v] } := by
    unfold MemInst.putU8
    rw [Py.setItem_ok _ (by omega), except_bind, if_pos ⟨by omega, by exact_mod_cast hv⟩, patch_one _ _ _ (by omega)]
    rfl
  rw [this, bind_ok (lift_ok _ _)]
  rfl

theorem getB_run {s : St} {p n : Nat} (h : InMem s p n) : getB p n s = .ok (range (bytes s) p n) s := by
  obtain ⟨m, hm, hb, hl⟩ := h.some
  unfold getB
  rw [bind_ok (mems_run hm), hb, MemInst.get, show (p : Int) + (n : Int) = ((p + n : Nat) : Int) by push_cast; rfl,
    Py.slice_nat _ _ _ hl]
  rfl

theorem unpackU_len {b : Bytes} {k : Nat} (h : b.length = k) : Py.unpackU k b = .ok (readLE b : Int) := by
  subst h; exact unpackU_eq b

theorem getU_run {s : St} {k p : Nat} (h : InMem s p k) : getU k p s = .ok (numAt s p k : Int) s := by
  obtain ⟨m, hm, hb, hl⟩ := h.some
  unfold getU numAt
  rw [bind_ok (mems_run hm), hb, MemInst.getU, show (p : Int) + (k : Int) = ((p + k : Nat) : Int) by push_cast; rfl,
    Py.slice_nat _ _ _ hl, unpackU_len (Py.range_length m.data p k hl)]
  rfl

/-! ## Writing -/

theorem write_mem {s : St} (p : Nat) (d : Bytes) : (write s p d).mem ≠ none ↔ s.mem ≠ none := by
  simp [write]
theorem bytes_write {s : St} (h : s.mem ≠ none) (p : Nat) (d : Bytes) : bytes (write s p d) = patch (bytes s) p d := by
  cases hm : s.mem with
  | none => exact absurd hm h
  | some m => simp [bytes, write, hm]
theorem length_write (s : St) (p : Nat) (d : Bytes) : (bytes (write s p d)).length = (bytes s).length := by
  cases hm : s.mem with
  | none => simp [bytes, write, hm]
  | some m => rw [bytes_write (by simp [hm]), Py.patch_length]
theorem _root_.Pywasm.WasiSpec.InMem.write {s : St} {p n : Nat} (h : InMem s p n) (q : Nat) (d : Bytes) : InMem (WasiSpec.write s q d) p n :=
  ⟨(write_mem q d).mpr h.1, by rw [length_write]; exact h.2⟩
theorem openFile_write (s : St) (p : Nat) (d : Bytes) (fd : Int) : openFile (write s p d) fd = openFile s fd := rfl

theorem putU_inv {s s' : St} {k p : Nat} {v : Int} (h : InMem s p k) (hr : putU k p v s = .ok () s') :
    0 ≤ v ∧ v < 256 ^ k ∧ s' = write s p (bytesLE k v.toNat) := by
  by_cases hv : 0 ≤ v ∧ v < 256 ^ k
  · obtain ⟨n, rfl⟩ : ∃ n : Nat, v = n := ⟨v.toNat, by omega⟩
    rw [putU_run h (by exact_mod_cast hv.2)] at hr
    injection hr with _ hr
    exact ⟨hv.1, hv.2, hr.symm⟩
  · obtain ⟨m, hm, -, -⟩ := h.some
    unfold putU at hr
    rw [bind_ok (mems_run hm)] at hr
    have : m.putU k (p : Int) v = .error .struct := by
      unfold MemInst.putU Py.packU
      rw [if_neg hv]; rfl
    rw [this, bind_err (lift_err _ _)] at hr
    cases hr

theorem getElem?_patch {l new : Bytes} {p i : Nat} :
    (patch l p new)[i]? = if p ≤ i ∧ i < p + new.length ∧ i < l.length then new[i - p]? else l[i]? := by
  simp only [patch, List.getElem?_mapIdx]
  rcases Nat.lt_or_ge i l.length with h | h
  · rw [List.getElem?_eq_getElem h, Option.map_some]
    by_cases c : p ≤ i ∧ i < p + new.length
    · rw [if_pos c, if_pos ⟨c.1, c.2, h⟩, List.getElem?_eq_getElem (by omega), List.getD_eq_getElem?_getD,
        List.getElem?_eq_getElem (by omega)]
      rfl
    · rw [if_neg c, if_neg (by tauto)]
  · rw [List.getElem?_eq_none h, if_neg (by omega)]; rfl

theorem range_patch_self {l new : Bytes} {p : Nat} (h : p + new.length ≤ l.length) :
    range (patch l p new) p new.length = new := by
  rw [Py.patch_eq _ _ _ h]
  unfold range
  have : (l.take p).length = p := by simp; omega
  rw [List.append_assoc, List.drop_append_of_le_length (by omega), List.drop_eq_nil_of_le (by omega), List.nil_append,
    List.take_append_of_le_length (Nat.le_refl _), List.take_length]

/-- Bytes outside the written range. -/
theorem range_patch_other {l new : Bytes} {p q n : Nat} (h : q + n ≤ p ∨ p + new.length ≤ q) :
    range (patch l p new) q n = range l q n := by
  apply List.ext_getElem?
  intro i
  unfold range
  by_cases hi : i < n
  · rw [List.getElem?_take_of_lt hi, List.getElem?_take_of_lt hi, List.getElem?_drop, List.getElem?_drop,
      getElem?_patch, if_neg (by omega)]
  · rw [List.getElem?_eq_none (by simp; omega), List.getElem?_eq_none (by simp; omega)]

theorem readLE_bytesLE (k v : Nat) (h : v < 256 ^ k) : readLE (bytesLE k v) = v := by
  rw [readLE_eq, bytesLE_eq, Py.leNat_leBytes, Nat.mod_eq_of_lt h]

theorem numAt_write_self {s : St} {p k v : Nat} (h : InMem s p k) (hv : v < 256 ^ k) :
    numAt (write s p (bytesLE k v)) p k = v := by
  unfold numAt
  rw [bytes_write h.1]
  have := range_patch_self (l := bytes s) (new := bytesLE k v) (p := p) (by rw [bytesLE_length]; exact h.2)
  rw [bytesLE_length] at this
  rw [this, readLE_bytesLE k v hv]

theorem numAt_write_other {s : St} {p q k : Nat} {d : Bytes} (h : q + k ≤ p ∨ p + d.length ≤ q) :
    numAt (write s p d) q k = numAt s q k := by
  unfold numAt
  cases hm : s.mem with
  | none => simp [bytes, write, hm]
  | some m => rw [bytes_write (by simp [hm]), range_patch_other h]

end Pywasm.Wasi
