import Verif.Props.Memory
import Verif.Props.Instance
import Verif.Lemmas.WasiStrs

/-!
# C90, C91: the embedder's access to memories and globals

`Runtime.exported_memory` and `Runtime.exported_global` hand the embedder an instance, here its store address, and a memory
instance is read and written with `get`, `put`, `get_u32`, `put_i64` and so on.  `x` is a memory instance, `p` an address.
`Spec.range l p n` are the elements `p, ..., p+n-1` of `l`, `patch l p new` is `l` with the elements from `p` on replaced by
`new`, `bytesLE k n` are the `k` bytes of `n` and `readLE` is the number they stand for.
-/

namespace Pywasm.Spec

/-- The number that `k` bytes with value `n` stand for in two's complement. -/
def signed (k n : Nat) : Int := if 2 * n < 256 ^ k then n else n - 256 ^ k

end Pywasm.Spec

namespace Pywasm.Props
open Spec M

variable {H : Host} {m : Machine} {a : Nat}

/-! ## C90 -/

theorem signed_eq {b : Bytes} {k : Nat} (h : b.length = k) : Py.fromBytesS b = signed k (readLE b) := by
  subst h
  have hl : Py.leNat b < 256 ^ b.length := Py.leNat_lt b
  unfold signed Py.fromBytesS
  rw [readLE_eq]

/-- **C90** `get` returns a copy of the bytes. -/
theorem C90_get_partial (x : MemInst) (p n : Nat) (h : p + n ≤ x.data.length) : x.get p n = Spec.range x.data p n :=
  Py.slice_nat _ _ _ h

/-- **C90** `put` replaces exactly those bytes. -/
theorem C90_put_partial (x : MemInst) (p : Nat) (d : Bytes) (h : p + d.length ≤ x.data.length) :
    x.put p d = { x with data := patch x.data p d } := by
  unfold MemInst.put
  rw [show (p : Int) + (d.length : Int) = ((p + d.length : Nat) : Int) by push_cast; rfl, Py.sliceSet_nat _ _ _ _ rfl h]

/-- **C90** `put_u16`, `put_u32`, `put_u64`: numbers that fit are stored little endian, others raise. -/
theorem C90_put_unsigned_partial (x : MemInst) (k p : Nat) (v : Int) (h : p + k ≤ x.data.length) :
    (∀ n : Nat, v = n → n < 256 ^ k → x.putU k p v = .ok { x with data := patch x.data p (bytesLE k n) }) ∧
    (v < 0 ∨ 256 ^ k ≤ v → ∃ e, x.putU k p v = .error e) := by
  constructor
  · rintro n rfl hn
    unfold MemInst.putU Py.packU
    rw [if_pos ⟨by omega, by exact_mod_cast hn⟩]
    show Except.ok _ = _
    rw [show (p : Int) + (k : Int) = ((p + k : Nat) : Int) by push_cast; rfl,
      Py.sliceSet_nat _ _ _ _ (by simp) h, bytesLE_eq]
    rfl
  · intro hv
    refine ⟨.struct, ?_⟩
    unfold MemInst.putU Py.packU
    rw [if_neg (by omega)]
    rfl

/-- **C90** `put_i32`, `put_i64`: numbers that fit are stored little endian in two's complement, others raise. -/
theorem C90_put_signed_partial (x : MemInst) (k p : Nat) (v : Int) (h : p + k ≤ x.data.length) :
    (∀ n : Nat, n < 256 ^ k → v = signed k n → x.putI k p v = .ok { x with data := patch x.data p (bytesLE k n) }) ∧
    ((∀ n : Nat, n < 256 ^ k → v ≠ signed k n) → ∃ e, x.putI k p v = .error e) := by
  constructor
  · rintro n hn rfl
    have h1 : (signed k n % 256 ^ k).toNat = n := by
      unfold signed
      split
      · rw [Int.emod_eq_of_lt (by omega) (by exact_mod_cast hn)]; rfl
      · rw [Int.sub_emod_right, Int.emod_eq_of_lt (by omega) (by exact_mod_cast hn)]; rfl
    have h2 : -(256 ^ k : Int) ≤ 2 * signed k n ∧ 2 * signed k n < 256 ^ k := by
      have hn' : (n : Int) < 256 ^ k := by exact_mod_cast hn
      unfold signed
      split
      · rename_i h3
        have h3' : 2 * (n : Int) < 256 ^ k := by exact_mod_cast h3
        omega
      · rename_i h3
        have h3' : (256 : Int) ^ k ≤ 2 * n := by exact_mod_cast Nat.le_of_not_lt h3
        omega
    unfold MemInst.putI Py.packS
    rw [if_pos h2, h1]
    show Except.ok _ = _
    rw [show (p : Int) + (k : Int) = ((p + k : Nat) : Int) by push_cast; rfl,
      Py.sliceSet_nat _ _ _ _ (by simp) h, bytesLE_eq]
  · intro hv
    refine ⟨.struct, ?_⟩
    unfold MemInst.putI Py.packS
    rw [if_neg]
    · rfl
    rintro ⟨h1, h2⟩
    have hp : (0 : Int) < 256 ^ k := by positivity
    refine hv (v % 256 ^ k).toNat ?_ ?_
    · have := Int.emod_lt_of_pos v hp
      have h0 := Int.emod_nonneg v (Int.ne_of_gt hp)
      zify
      rw [Int.toNat_of_nonneg h0]
      exact this
    · have h0 := Int.emod_nonneg v (Int.ne_of_gt hp)
      have e : (((v % 256 ^ k).toNat : Nat) : Int) = v % 256 ^ k := Int.toNat_of_nonneg h0
      unfold signed
      by_cases hs : 0 ≤ v
      · have e2 : v % 256 ^ k = v := Int.emod_eq_of_lt hs (by omega)
        rw [if_pos (by zify; rw [e, e2]; exact h2), e, e2]
      · have e2 : v % 256 ^ k = v + 256 ^ k := by
          rw [← Int.add_emod_right, Int.emod_eq_of_lt (by omega) (by omega)]
        rw [if_neg (by zify; rw [e, e2]; omega), e, e2]
        omega

/-- **C90** `put_u8` stores one byte, and raises if it does not fit or the address is outside. -/
theorem C90_put_u8 (x : MemInst) (p : Nat) (v : Int) :
    (∀ n : Nat, p < x.data.length → v = n → n < 256 → x.putU8 p v = .ok { x with data := patch x.data p [UInt8.ofNat n] }) ∧
    (x.data.length ≤ p ∨ v < 0 ∨ 256 ≤ v → ∃ e, x.putU8 p v = .error e) := by
  rcases Nat.lt_or_ge p x.data.length with h | h
  swap
  · refine ⟨fun n hp => by omega, fun _ => ⟨.index, ?_⟩⟩
    unfold MemInst.putU8 Py.setItem
    dsimp only
    rw [if_neg (show ¬(p : Int) < 0 by omega), if_pos (by simp; omega)]
    rfl
  have hs : ∀ b, Py.setItem x.data (p : Int) b = .ok (x.data.set p b) := by
    intro b
    unfold Py.setItem
    dsimp only
    rw [if_neg (show ¬(p : Int) < 0 by omega), if_neg (by simp; omega)]
    rfl
  constructor
  · rintro n - rfl hn
    unfold MemInst.putU8
    rw [hs, Wasi.except_bind, if_pos ⟨by omega, by omega⟩, Wasi.patch_one _ _ _ h]
    rfl
  · intro hv
    unfold MemInst.putU8
    rw [hs, Wasi.except_bind, if_neg (by omega)]
    exact ⟨_, rfl⟩

/-- **C90** `get_u16`, `get_u32`, `get_u64` and `get_i32`, `get_i64` return the number in the memory, and raise if it
is not wholly inside. -/
theorem C90_get_number (x : MemInst) (k p : Nat) :
    (p + k ≤ x.data.length → x.getU k p = .ok (readLE (Spec.range x.data p k) : Int) ∧
      x.getI k p = .ok (signed k (readLE (Spec.range x.data p k)))) ∧
    (0 < k → x.data.length < p + k → (∃ e, x.getU k p = .error e) ∧ ∃ e, x.getI k p = .error e) := by
  constructor
  · intro h
    have hl := Py.range_length x.data p k h
    unfold MemInst.getU MemInst.getI
    rw [show (p : Int) + (k : Int) = ((p + k : Nat) : Int) by push_cast; rfl, Py.slice_nat _ _ _ h, Wasi.unpackU_len hl]
    refine ⟨rfl, ?_⟩
    unfold Py.unpackS
    rw [if_pos hl, signed_eq hl]
  · intro hk h
    have hl : (Py.slice x.data p (p + k)).length ≠ k := by
      unfold Py.slice
      rw [show (p : Int) + (k : Int) = ((p + k : Nat) : Int) by push_cast; rfl, Py.clamp_nat, Py.clamp_nat, List.length_drop,
        List.length_take]
      have : min (p + k) x.data.length = x.data.length := by omega
      rw [this]
      omega
    unfold MemInst.getU MemInst.getI Py.unpackU Py.unpackS
    rw [if_neg hl, if_neg hl]
    exact ⟨⟨_, rfl⟩, _, rfl⟩
/-- **C90** `get_u8` returns the byte, and raises outside. -/
theorem C90_get_u8 (x : MemInst) (p : Nat) :
    (∀ b, x.data[p]? = some b → x.getU8 p = .ok (b.toNat : Int)) ∧ (x.data[p]? = none → ∃ e, x.getU8 p = .error e) := by
  have h0 : ¬(p : Int) < 0 := by omega
  unfold MemInst.getU8 Py.getItem
  dsimp only
  rw [if_neg h0, if_neg h0, Int.toNat_natCast]
  constructor
  · intro b hb
    rw [hb]
    rfl
  · intro hb
    rw [hb]
    exact ⟨_, rfl⟩

/-- **C90** What was written is read back: bytes, unsigned numbers and signed numbers. -/
theorem C90_read_back (x : MemInst) (p : Nat) :
    (∀ d : Bytes, p + d.length ≤ x.data.length → (x.put p d).get p d.length = d) ∧
    (∀ k (n : Nat), p + k ≤ x.data.length → n < 256 ^ k → ∃ y, x.putU k p n = .ok y ∧ y.getU k p = .ok (n : Int)) ∧
    (∀ k (n : Nat), p + k ≤ x.data.length → n < 256 ^ k → ∃ y, x.putI k p (signed k n) = .ok y ∧ y.getI k p = .ok (signed k n)) := by
  have hr : ∀ k n : Nat, p + k ≤ x.data.length → n < 256 ^ k → readLE (Spec.range (patch x.data p (bytesLE k n)) p k) = n := by
    intro k n h hn
    have := Wasi.range_patch_self (l := x.data) (new := bytesLE k n) (p := p) (by rw [bytesLE_length]; exact h)
    rw [bytesLE_length] at this
    rw [this, readLE_eq, bytesLE_eq, Py.leNat_leBytes, Nat.mod_eq_of_lt hn]
  refine ⟨fun d h => ?_, fun k n h hn => ?_, fun k n h hn => ?_⟩
  · rw [C90_put_partial x p d h, C90_get_partial _ p _ (by rw [Py.patch_length]; exact h)]
    exact Wasi.range_patch_self h
  · refine ⟨_, (C90_put_unsigned_partial x k p n h).1 n rfl hn, ?_⟩
    rw [((C90_get_number _ k p).1 (by rw [Py.patch_length]; exact h)).1, hr k n h hn]
  · refine ⟨_, (C90_put_signed_partial x k p _ h).1 n hn rfl, ?_⟩
    rw [((C90_get_number _ k p).1 (by rw [Py.patch_length]; exact h)).2, hr k n h hn]

/-- **C90** The guest reads what the embedder wrote: after `put` of `d` at `p` in memory `x`, every load of the guest inside those
bytes gives their value. -/
theorem C90_guest_reads {op : LoadOp} {al off p q : Nat} {v : Val} {s : List Val} {x : MemInst} {d : Bytes}
    (hp : p + d.length ≤ x.data.length) (hi : next m = some (.load op al off)) (hm : HasMem m a (x.put p d)) (hv : m.value = v :: s)
    (ha : v.low32.toNat + off = p + q) (hq : q + loadWidth op ≤ d.length) :
    step H m = .ok () { advance m with value := loaded op (readLE (Spec.range d q (loadWidth op))) :: s } := by
  rw [C90_put_partial x p d hp] at hm
  have h := (C10_load (H := H) hi hm hv).1 (by rw [Py.patch_length]; omega)
  rw [h, ha]
  dsimp only
  rw [Wasi.range_patch_sub hp hq]
  rfl

/-- **C90** The embedder reads what the guest stored. -/
theorem C90_host_reads {op : StoreOp} {al off : Nat} {v b : Val} {s : List Val} {x y : MemInst} {m' : Machine}
    (hi : next m = some (.store op al off)) (hm : HasMem m a x) (hv : m.value = v :: b :: s) (h : step H m = .ok () m')
    (hy : m'.store.mems[a]? = some y) : y.get ((b.low32.toNat + off : Nat) : Int) (storeWidth op) = v.data.take (storeWidth op) := by
  have h1 := C11_store (H := H) hi hm hv
  simp only at h1
  rcases Nat.lt_or_ge x.data.length (b.low32.toNat + off + storeWidth op) with hb | hb
  · obtain ⟨e, m'', h2, _⟩ := h1.2 hb
    rw [h] at h2; cases h2
  · have h2 := h1.1 hb
    rw [h] at h2
    have hmem : m.store.mems[a]? = some x := hm.choose_spec.2.2
    have halt : a < m.store.mems.length := (List.getElem?_eq_some_iff.mp hmem).1
    have e : y = { x with data := patch x.data (b.low32.toNat + off) (v.data.take (storeWidth op)) } := by
      have h3 : m' = _ := (EStateM.Result.ok.inj h2).2
      rw [h3] at hy
      simpa [withMem, List.getElem?_set, halt] using hy.symm
    have hlen : (v.data.take (storeWidth op)).length = storeWidth op := by
      simp [v.len, storeWidth_le]
    rw [e, C90_get_partial _ _ _ (by rw [Py.patch_length]; exact hb)]
    have h5 := range_patch x.data (b.low32.toNat + off) (v.data.take (storeWidth op)) (by rw [hlen]; exact hb)
    rw [hlen] at h5
    exact h5

/-! What C90 leaves out fails: writes that are not inside the memory do not raise. -/

/-- C90 fails for writes across the end of a memory: they return, and the memory becomes longer than its pages. -/
theorem C90_across_end_refuted (x : MemInst) (hx : x.data.length = x.size * 65536) (p : Nat) (d : Bytes) (hp : p ≤ x.data.length)
    (h : x.data.length < p + d.length) :
    (x.put p d).size = x.size ∧ (x.put p d).data = x.data.take p ++ d ∧ x.size * 65536 < (x.put p d).data.length := by
  have e : (x.put p d).data = x.data.take p ++ d := by
    unfold MemInst.put Py.sliceSet
    rw [show (p : Int) + (d.length : Int) = ((p + d.length : Nat) : Int) by push_cast; rfl, Py.clamp_nat, Py.clamp_nat]
    dsimp only
    rw [Nat.min_eq_left hp, Nat.min_eq_right (by omega), Nat.max_eq_right hp, List.drop_length, List.append_nil]
  refine ⟨rfl, e, ?_⟩
  rw [e, List.length_append, List.length_take, Nat.min_eq_left hp]
  omega

/-- C90 fails for writes beyond the end of a memory: they return, and the bytes go to the end of the memory, not to the address. -/
theorem C90_beyond_end_refuted (x : MemInst) (p : Nat) (d : Bytes) (hp : x.data.length ≤ p) : (x.put p d).data = x.data ++ d := by
  unfold MemInst.put Py.sliceSet
  rw [show (p : Int) + (d.length : Int) = ((p + d.length : Nat) : Int) by push_cast; rfl, Py.clamp_nat, Py.clamp_nat]
  dsimp only
  rw [Nat.min_eq_right hp, Nat.min_eq_right (by omega), Nat.max_self, List.drop_length, List.take_length, List.append_nil]

/-- C90 fails for negative addresses: they return, and count from the end of the memory. -/
theorem C90_negative_refuted (x : MemInst) (n : Nat) (d : Bytes) (hn : d.length < n) (h : n ≤ x.data.length) :
    x.put (-n) d = { x with data := patch x.data (x.data.length - n) d } := by
  unfold MemInst.put Py.sliceSet Py.clamp
  dsimp only
  rw [if_pos (by omega), if_pos (by omega), Py.patch_eq _ _ _ (by omega)]
  rw [show (-(n : Int) + (x.data.length : Int)).toNat = x.data.length - n by omega,
    show (-(n : Int) + (d.length : Int) + (x.data.length : Int)).toNat = x.data.length - n + d.length by omega,
    Nat.max_eq_right (by omega)]

/-- C90 fails for `get` outside the memory: it returns fewer bytes than asked for. -/
theorem C90_get_outside_refuted (x : MemInst) (p n : Nat) (h : x.data.length < p + n) (hn : 0 < n) : (x.get p n).length < n := by
  unfold MemInst.get Py.slice
  rw [show (p : Int) + (n : Int) = ((p + n : Nat) : Int) by push_cast; rfl, Py.clamp_nat, Py.clamp_nat, List.length_drop,
    List.length_take, show min (p + n) x.data.length = x.data.length by omega]
  omega

/-- **C90** What `get` and `put` do at any address that is not negative, inside the memory or not. -/
theorem C90_any (x : MemInst) (p : Nat) :
    (∀ n : Nat, x.get p n = (x.data.drop p).take n) ∧
    ∀ d : Bytes, x.put p d = { x with data := x.data.take p ++ d ++ x.data.drop (p + d.length) } := by
  constructor
  · intro n
    unfold MemInst.get Py.slice
    rw [show (p : Int) + (n : Int) = ((p + n : Nat) : Int) by push_cast; rfl, Py.clamp_nat, Py.clamp_nat]
    rcases Nat.le_total p x.data.length with h | h
    · rw [Nat.min_eq_left h, List.take_eq_take_min, Nat.min_assoc, Nat.min_self, ← List.take_eq_take_min, List.drop_take, Nat.add_sub_cancel_left]
    · rw [Nat.min_eq_right h, List.drop_eq_nil_of_le (by rw [List.length_take]; omega), List.drop_eq_nil_of_le h, List.take_nil]
  · intro d
    unfold MemInst.put Py.sliceSet
    rw [show (p : Int) + (d.length : Int) = ((p + d.length : Nat) : Int) by push_cast; rfl, Py.clamp_nat, Py.clamp_nat]
    dsimp only
    rw [Nat.max_eq_right (by omega), ← List.take_eq_take_min]
    rcases Nat.le_total (p + d.length) x.data.length with h | h
    · rw [Nat.min_eq_left h]
    · rw [Nat.min_eq_right h, List.drop_length, List.drop_eq_nil_of_le h]

/-- **C90** The `put_*` of numbers that fit, at any address: the same as `put` of their bytes. -/
theorem C90_put_number_any (x : MemInst) (k : Nat) (p : Int) (n : Nat) (hn : n < 256 ^ k) :
    x.putU k p n = .ok (x.put p (bytesLE k n)) ∧ x.putI k p (signed k n) = .ok (x.put p (bytesLE k n)) := by
  have h1 : (signed k n % 256 ^ k).toNat = n := by
    unfold signed
    split
    · rw [Int.emod_eq_of_lt (by omega) (by exact_mod_cast hn)]; rfl
    · rw [Int.sub_emod_right, Int.emod_eq_of_lt (by omega) (by exact_mod_cast hn)]; rfl
  have h2 : -(256 ^ k : Int) ≤ 2 * signed k n ∧ 2 * signed k n < 256 ^ k := by
    have hn' : (n : Int) < 256 ^ k := by exact_mod_cast hn
    unfold signed
    split
    · rename_i h3
      have h3' : 2 * (n : Int) < 256 ^ k := by exact_mod_cast h3
      omega
    · rename_i h3
      have h3' : (256 : Int) ^ k ≤ 2 * n := by exact_mod_cast Nat.le_of_not_lt h3
      omega
  unfold MemInst.putU MemInst.putI MemInst.put Py.packU Py.packS
  rw [if_pos ⟨by omega, by exact_mod_cast hn⟩, if_pos h2, h1, bytesLE_length, bytesLE_eq, Int.toNat_natCast]
  exact ⟨rfl, rfl⟩
example : (MemInst.put ⟨⟨1, 0⟩, [1, 2, 3], 1⟩ 2 [7, 8]).data = [1, 2, 7, 8] := by decide
example := C90_put_number_any ⟨⟨1, 0⟩, [1, 2, 3], 1⟩ 4 (-1) 4294967295 (by decide)

/-! ## C91 -/

theorem findExport_find (mod : ModuleInst) (name : String) :
    findExport mod name = match mod.exps.find? (fun e => e.name = name) with | some e => .ok e.data | none => .error .index := by
  unfold findExport
  rw [← List.head?_filter]
  cases mod.exps.filter (fun e => e.name = name) <;> rfl
theorem find_name {mod : ModuleInst} {name : String} {e : ExportInst} (h : mod.exps.find? (fun e => e.name = name) = some e) :
    e = ⟨name, e.data⟩ := by
  have := List.find?_some h
  obtain ⟨n, d⟩ := e
  simp at this
  rw [this]

/-- **C91** `exported_memory` returns memory `a` exactly if the first export with that name is memory `a` of the store, and changes
nothing in any case. -/
theorem C91_exported_memory (mod : ModuleInst) (name : String) (m : Machine) :
    (∀ a m', Runtime.exportedMemory mod name m = .ok a m' ↔
      m' = m ∧ mod.exps.find? (fun e => e.name = name) = some ⟨name, .mem a⟩ ∧ a < m.store.mems.length) ∧
    ∀ e m', Runtime.exportedMemory mod name m = .error e m' → m' = m := by
  have hf := findExport_find mod name
  cases hx : mod.exps.find? (fun e => e.name = name) with
  | none =>
    rw [hx] at hf
    have h : Runtime.exportedMemory mod name m = .error .index m := by
      unfold Runtime.exportedMemory; rw [hf]; rfl
    rw [h]
    exact ⟨fun a m' => ⟨nofun, nofun⟩, fun e m' h => by cases h; rfl⟩
  | some e =>
    rw [hx] at hf
    have hn := find_name hx
    obtain ⟨n, x⟩ := e
    cases hn
    cases x with
    | mem b =>
      have h : Runtime.exportedMemory mod name m = if b < m.store.mems.length then .ok b m else .error .index m := by
        have h1 : Runtime.exportedMemory mod name m = (idx m.store.mems b >>= fun _ => pure b) m := by
          unfold Runtime.exportedMemory; rw [hf]; rfl
        rw [h1]
        by_cases hb : b < m.store.mems.length
        · rw [if_pos hb, bind_ok (m' := m) (a := m.store.mems[b]) (by unfold idx; rw [List.getElem?_eq_getElem hb])]; rfl
        · rw [if_neg hb, bind_err (m' := m) (e := .index) (by unfold idx; rw [List.getElem?_eq_none (by omega)])]
      rw [h]
      by_cases hb : b < m.store.mems.length
      · rw [if_pos hb]
        refine ⟨fun a m' => ⟨?_, ?_⟩, nofun⟩
        · intro h; cases h; exact ⟨rfl, rfl, hb⟩
        · rintro ⟨rfl, h, -⟩; cases h; rfl
      · rw [if_neg hb]
        refine ⟨fun a m' => ⟨nofun, ?_⟩, fun e m' h => by cases h; rfl⟩
        rintro ⟨-, h, h2⟩; cases h; exact absurd h2 hb
    | _ =>
      have h : Runtime.exportedMemory mod name m = .error .assertion m := by
        unfold Runtime.exportedMemory; rw [hf]; rfl
      rw [h]
      exact ⟨fun a m' => ⟨nofun, nofun⟩, fun e m' h => by cases h; rfl⟩

/-- **C91** `exported_global` returns global `a` exactly if the first export with that name is global `a` of the store, and changes
nothing in any case. -/
theorem C91_exported_global (mod : ModuleInst) (name : String) (m : Machine) :
    (∀ a m', Runtime.exportedGlobal mod name m = .ok a m' ↔
      m' = m ∧ mod.exps.find? (fun e => e.name = name) = some ⟨name, .glob a⟩ ∧ a < m.store.glob.length) ∧
    ∀ e m', Runtime.exportedGlobal mod name m = .error e m' → m' = m := by
  have hf := findExport_find mod name
  cases hx : mod.exps.find? (fun e => e.name = name) with
  | none =>
    rw [hx] at hf
    have h : Runtime.exportedGlobal mod name m = .error .index m := by
      unfold Runtime.exportedGlobal; rw [hf]; rfl
    rw [h]
    exact ⟨fun a m' => ⟨nofun, nofun⟩, fun e m' h => by cases h; rfl⟩
  | some e =>
    rw [hx] at hf
    have hn := find_name hx
    obtain ⟨n, x⟩ := e
    cases hn
    cases x with
    | glob b =>
      have h : Runtime.exportedGlobal mod name m = if b < m.store.glob.length then .ok b m else .error .index m := by
        have h1 : Runtime.exportedGlobal mod name m = (idx m.store.glob b >>= fun _ => pure b) m := by
          unfold Runtime.exportedGlobal; rw [hf]; rfl
        rw [h1]
        by_cases hb : b < m.store.glob.length
        · rw [if_pos hb, bind_ok (m' := m) (a := m.store.glob[b]) (by unfold idx; rw [List.getElem?_eq_getElem hb])]; rfl
        · rw [if_neg hb, bind_err (m' := m) (e := .index) (by unfold idx; rw [List.getElem?_eq_none (by omega)])]
      rw [h]
      by_cases hb : b < m.store.glob.length
      · rw [if_pos hb]
        refine ⟨fun a m' => ⟨?_, ?_⟩, nofun⟩
        · intro h; cases h; exact ⟨rfl, rfl, hb⟩
        · rintro ⟨rfl, h, -⟩; cases h; rfl
      · rw [if_neg hb]
        refine ⟨fun a m' => ⟨nofun, ?_⟩, fun e m' h => by cases h; rfl⟩
        rintro ⟨-, h, h2⟩; cases h; exact absurd h2 hb
    | _ =>
      have h : Runtime.exportedGlobal mod name m = .error .assertion m := by
        unfold Runtime.exportedGlobal; rw [hf]; rfl
      rw [h]
      exact ⟨fun a m' => ⟨nofun, nofun⟩, fun e m' h => by cases h; rfl⟩

variable {N : Nat} {m' : Machine} {d : ModuleDesc} {bufs : List Nat} {extern : List Extern} {mod : ModuleInst}

theorem linked_mem {s : Store} {x : Extern} (hl : Linked s d extern) (hx : x ∈ extern) : ∃ i, i ∈ d.imps ∧ ImportMatches s d i.desc x := by
  unfold Linked at hl
  generalize d.imps = l at hl
  generalize hD : d = D at hl ⊢
  clear hD
  induction hl with
  | nil => cases hx
  | cons h1 _ ih =>
    rcases List.mem_cons.mp hx with rfl | hx
    · exact ⟨_, List.mem_cons_self, h1⟩
    · obtain ⟨i, h2, h3⟩ := ih hx
      exact ⟨i, List.mem_cons_of_mem _ h2, h3⟩

/-- **C91** After instantiation, `exported_memory` and `exported_global` give, for a name that the module declares (first) for one
of its memories or globals, the instance of that memory or global that its instructions use; for other names they raise. -/
theorem C91_instance (hH : HostExtends H) (h : instantiate H N d bufs extern m = .ok mod m') (name : String) :
    match d.exps.find? (fun e => e.name = name) with
    | some ⟨_, .mem, i⟩ => (∃ a, mod.mems[i]? = some a ∧ Runtime.exportedMemory mod name m' = .ok a m') ∧
      ∃ e, Runtime.exportedGlobal mod name m' = .error e m'
    | some ⟨_, .glob, i⟩ => (∃ a, mod.glob[i]? = some a ∧ Runtime.exportedGlobal mod name m' = .ok a m') ∧
      ∃ e, Runtime.exportedMemory mod name m' = .error e m'
    | _ => (∃ e, Runtime.exportedMemory mod name m' = .error e m') ∧ ∃ e, Runtime.exportedGlobal mod name m' = .error e m' := by
  have hl : Linked m.store d extern := by
    by_contra hn
    obtain ⟨e, he⟩ := C25_reject_partial (H := H) (N := N) (bufs := bufs) hn
    rw [h] at he; cases he
  obtain ⟨s, hs, -, -, -, h4, h5, -, -, h8, h9⟩ := C26_index_spaces hH h
  have hext : ExtendsUpTo m.store.mods.length m.store m'.store := by
    have := keeps_instantiate (n := m.store.mods.length) (s0 := m.store) (le_refl _) hH N d bufs extern m (.refl _ _)
    unfold Wp at this
    rw [h] at this
    exact this
  have hmem : ∀ (i a : Nat), mod.mems[i]? = some a → a < m'.store.mems.length := by
    intro i a hi
    rw [h4, List.getElem?_append] at hi
    split at hi
    · have ha : a ∈ importedMems extern := List.mem_of_getElem? hi
      obtain ⟨x, hx, hxa⟩ := List.mem_filterMap.mp ha
      obtain ⟨j, -, hj⟩ := linked_mem hl hx
      cases x with
      | mem b =>
        cases hxa
        generalize j.desc = t at hj
        cases hj with
        | mem g1 =>
          obtain ⟨y, hy, -⟩ := hext.mems _ _ g1
          exact (List.getElem?_eq_some_iff.mp hy).1
      | _ => cases hxa
    · have ha := List.mem_of_getElem? hi
      unfold addresses at ha
      obtain ⟨j, hj, rfl⟩ := List.mem_range'.mp ha
      obtain ⟨y, hy, -⟩ := h8 j _ (List.getElem?_eq_getElem hj)
      rw [Nat.one_mul]
      exact (List.getElem?_eq_some_iff.mp hy).1
  have hglob : ∀ (i a : Nat), mod.glob[i]? = some a → a < m'.store.glob.length := by
    intro i a hi
    rw [h5, List.getElem?_append] at hi
    split at hi
    · have ha : a ∈ importedGlobs extern := List.mem_of_getElem? hi
      obtain ⟨x, hx, hxa⟩ := List.mem_filterMap.mp ha
      obtain ⟨j, -, hj⟩ := linked_mem hl hx
      cases x with
      | glob b =>
        cases hxa
        generalize j.desc = t at hj
        cases hj with
        | glob g1 =>
          obtain ⟨y, hy, -⟩ := hext.glob _ _ g1
          exact (List.getElem?_eq_some_iff.mp hy).1
      | _ => cases hxa
    · have ha := List.mem_of_getElem? hi
      unfold addresses at ha
      obtain ⟨j, hj, rfl⟩ := List.mem_range'.mp ha
      obtain ⟨y, hy, -⟩ := h9 j _ (List.getElem?_eq_getElem hj)
      rw [Nat.one_mul]
      exact (List.getElem?_eq_some_iff.mp hy).1
  have hM := C91_exported_memory mod name m'
  have hG := C91_exported_global mod name m'
  have hx := C26_lookup hH h name
  rw [findExport_find] at hx
  have noMem : (∀ a, mod.exps.find? (fun e => e.name = name) ≠ some ⟨name, .mem a⟩) →
      ∃ e, Runtime.exportedMemory mod name m' = .error e m' := by
    intro hn
    cases hr : Runtime.exportedMemory mod name m' with
    | ok a t => exact absurd ((hM.1 a t).mp hr).2.1 (hn a)
    | error e t => exact ⟨e, by rw [hM.2 e t hr]⟩
  have noGlob : (∀ a, mod.exps.find? (fun e => e.name = name) ≠ some ⟨name, .glob a⟩) →
      ∃ e, Runtime.exportedGlobal mod name m' = .error e m' := by
    intro hn
    cases hr : Runtime.exportedGlobal mod name m' with
    | ok a t => exact absurd ((hG.1 a t).mp hr).2.1 (hn a)
    | error e t => exact ⟨e, by rw [hG.2 e t hr]⟩
  cases hd : d.exps.find? (fun e => e.name = name) with
  | none =>
    rw [hd] at hx
    cases hf : mod.exps.find? (fun e => e.name = name) with
    | none => exact ⟨noMem (by rw [hf]; nofun), noGlob (by rw [hf]; nofun)⟩
    | some e => rw [hf] at hx; obtain ⟨e, he⟩ := hx; cases he
  | some e =>
    rw [hd] at hx
    obtain ⟨x, h1, h2⟩ := hx
    obtain ⟨n, k, i⟩ := e
    cases hf : mod.exps.find? (fun e => e.name = name) with
    | none => rw [hf] at h2; cases h2
    | some e =>
      rw [hf] at h2
      have hn := find_name hf
      injection h2 with h2
      rw [h2] at hn
      subst hn
      cases k
      case mem =>
        obtain ⟨a, ha, rfl⟩ := Option.map_eq_some_iff.mp (show mod.mems[i]?.map .mem = some x from h1)
        exact ⟨⟨a, ha, (hM.1 a m').mpr ⟨rfl, hf, hmem i a ha⟩⟩, noGlob (by rw [hf]; intro b hb; cases hb)⟩
      case glob =>
        obtain ⟨a, ha, rfl⟩ := Option.map_eq_some_iff.mp (show mod.glob[i]?.map .glob = some x from h1)
        exact ⟨⟨a, ha, (hG.1 a m').mpr ⟨rfl, hf, hglob i a ha⟩⟩, noMem (by rw [hf]; intro b hb; cases hb)⟩
      case func =>
        obtain ⟨a, ha, rfl⟩ := Option.map_eq_some_iff.mp (show mod.func[i]?.map .func = some x from h1)
        exact ⟨noMem (by rw [hf]; intro b hb; cases hb), noGlob (by rw [hf]; intro b hb; cases hb)⟩
      case table =>
        obtain ⟨a, ha, rfl⟩ := Option.map_eq_some_iff.mp (show mod.tabl[i]?.map .table = some x from h1)
        exact ⟨noMem (by rw [hf]; intro b hb; cases hb), noGlob (by rw [hf]; intro b hb; cases hb)⟩

/-! ## The hypotheses are met -/

def pokeMem : MemInst := ⟨⟨1, 2⟩, [1, 2, 3, 0x84, 5, 6, 7, 8], 1⟩
example := C90_get_partial pokeMem 2 3 (by decide)
example := C90_put_partial pokeMem 2 [9, 9] (by decide)
example := (C90_put_unsigned_partial pokeMem 4 2 7 (by decide)).1 7 rfl (by decide)
example := (C90_put_unsigned_partial pokeMem 2 2 65536 (by decide)).2 (by decide)
example := (C90_put_signed_partial pokeMem 4 2 (-1) (by decide)).1 (2 ^ 32 - 1) (by decide) (by decide)
example := (C90_put_u8 pokeMem 7 255).1 255 (by decide) rfl (by decide)
example : pokeMem.getI 4 0 = .ok (-2080177663) ∧ pokeMem.getU 4 0 = .ok 2214789633 := by decide +kernel
example := (C90_get_number pokeMem 4 5).2 (by decide) (by decide)
example := (C90_read_back pokeMem 2).2.2 4 (2 ^ 32 - 7) (by decide) (by decide)
/-- The guest loads 2 bytes from the 3 that the embedder wrote at 4. -/
example := C90_guest_reads (H := noHost) (m := withMem (demo [.load .i32_load16_u 0 1] [i32 4]) 0 (pokeMem.put 4 [10, 20, 30])) (a := 0)
  (p := 4) (q := 1) (x := pokeMem) (d := [10, 20, 30]) (by decide) rfl ⟨_, rfl, rfl, rfl⟩ rfl (by decide) (by decide)
example : (match step noHost (withMem (demo [.load .i32_load16_u 0 1] [i32 4]) 0 (pokeMem.put 4 [10, 20, 30])) with
    | .ok _ m => m.value | .error _ _ => []) = [i32 (20 + 256 * 30)] := by decide +kernel
example : ∃ m' y, step noHost (demo [.store .i32_store16 0 1] [i32 0x0A0B0C0D, i32 4]) = .ok () m' ∧ m'.store.mems[0]? = some y ∧
    y.get 5 2 = [0x0D, 0x0C] := by
  obtain ⟨u, m', h⟩ := returns (x := step noHost) (m := demo [.store .i32_store16 0 1] [i32 0x0A0B0C0D, i32 4]) (by decide +kernel)
  have hy : (match step noHost (demo [.store .i32_store16 0 1] [i32 0x0A0B0C0D, i32 4]) with
    | .ok _ m => m.store.mems[0]?.isSome | .error _ _ => false) = true := by decide +kernel
  rw [h] at hy
  obtain ⟨y, hy⟩ := Option.isSome_iff_exists.mp hy
  exact ⟨m', y, h, hy, C90_host_reads rfl (demo_mem _ _) rfl h hy⟩
/-- New memories, written across their end. -/
def pageMem (n : Nat) : MemInst := ⟨⟨n, 0⟩, List.replicate (n * 65536) 0, n⟩
example (n : Nat) := C90_across_end_refuted (pageMem (n + 1)) (by rw [pageMem, List.length_replicate]) ((n + 1) * 65536 - 2) [1, 2, 3, 4]
  (by rw [pageMem, List.length_replicate]; omega) (by rw [pageMem, List.length_replicate]; show _ < _ + 4; omega)
example := C90_beyond_end_refuted pokeMem 100 [1] (by decide)
example := C90_negative_refuted pokeMem 8 [1, 2] (by decide) (by decide)
example := C90_get_outside_refuted pokeMem 6 4 (by decide) (by decide)

/-- `(module (memory (export "memory") 1) (global (export "g") i32 (i32.const 5)))` -/
def exportDemo : ModuleDesc :=
  { mems := [⟨1, 0⟩], glob := [⟨⟨.i32, false⟩, [.i32Const 5]⟩], exps := [⟨"memory", .mem, 0⟩, ⟨"g", .glob, 0⟩] }
theorem exportRun_ok : ∃ mod m', instantiate noHost 1000 exportDemo [] [] {} = .ok mod m' := returns (by decide +kernel)
example := exportRun_ok.imp fun _ => Exists.imp fun _ h => C91_instance noHost_grows h "memory"
example := exportRun_ok.imp fun _ => Exists.imp fun _ h => C91_instance noHost_grows h "g"

end Pywasm.Props
