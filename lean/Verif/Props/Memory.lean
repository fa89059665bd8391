import Verif.Lemmas.Step
import Verif.Spec.Demo
import Verif.Spec.Returns

/-!
# C10, C11, C13: loads, stores and bulk memory instructions

Each theorem is about one iteration of the interpreter loop (`step`) on an arbitrary machine `m` whose next instruction
is the one named.  `H` is the embedder's host functions and `a`, `mem` the store address and current value of the running
module's memory.  Operands are arbitrary 16-byte cells; `v.low32` is the cell's low 32 bits.
-/

namespace Pywasm.Props
open Spec M

variable {H : Host} {m : Machine} {a : Nat} {mem : MemInst}

/-- **C10** A load of `n` bytes traps exactly when the effective address (a natural number, no wrap-around) plus `n`
exceeds the length of the memory, and then changes nothing in the store; otherwise it replaces the address operand by the
value of the `n` little-endian bytes and changes nothing else. -/
theorem C10_load {op : LoadOp} {al off : Nat} {v : Val} {s : List Val}
    (hi : next m = some (.load op al off)) (hm : HasMem m a mem) (hv : m.value = v :: s) :
    let ea := v.low32.toNat + off
    (ea + loadWidth op ≤ mem.data.length →
      step H m = .ok () { advance m with value := loaded op (readLE (Spec.range mem.data ea (loadWidth op))) :: s }) ∧
    (mem.data.length < ea + loadWidth op → Traps H m) := by
  obtain ⟨lab, ls, f, fs, hl, hf, hs, ha⟩ := step_next (H := H) hi
  obtain ⟨h1, h2⟩ := hm.frame hf
  have hf' : (advance m).frame = f :: fs := by simpa using hf
  have hv' : (advance m).value = v :: s := by simpa using hv
  refine ⟨fun hb => ?_, fun hb => ?_⟩
  · rw [hs]; simp only [exec, loadWidth_eq]
    rw [bind_ok (evaluateMemLoad_ok hf' h1 h2 hv' off _ hb), LoadOp.make_eq _ _ (Py.range_length _ _ _ hb)]; rfl
  · refine ⟨.assertion, { advance m with value := s }, ?_, by simp⟩
    rw [hs]; simp only [exec, loadWidth_eq]
    exact bind_err (evaluateMemLoad_err hf' h1 h2 hv' off _ (by omega))

example : let m := demo [.load .i32_load8_s 0 1] [i32 2]
    next m = some (.load .i32_load8_s 0 1) ∧ stackAfter m = some [i32 0xffffff84] := ⟨rfl, by decide⟩
example : stackAfter (demo [.load .i32_load 0 5] [i32 0]) = none := by decide
/-- No wrap-around: `0xffffffff + 1` is out of bounds, not address 0. -/
example : stackAfter (demo [.load .i32_load8_u 0 1] [i32 0xffffffff]) = none := by decide

/-- **C10**, the `v128.loadN_lane` instructions: the same bounds rule; on success the addressed lane of the vector operand
is replaced by the bytes read and the other lanes are kept. -/
theorem C10_load_lane {w : LaneW} {al off l : Nat} {x v : Val} {s : List Val}
    (hi : next m = some (.loadLane w al off l)) (hl16 : l < 16 / w.bytes) (hm : HasMem m a mem) (hv : m.value = x :: v :: s) :
    let ea := v.low32.toNat + off
    (ea + w.bytes ≤ mem.data.length →
      step H m = .ok () { advance m with value := v128 (ofLanes (8 * w.bytes) fun i =>
        if i = l then BitVec.ofNat _ (readLE (Spec.range mem.data ea w.bytes)) else lane (8 * w.bytes) x.low128 i) :: s }) ∧
    (mem.data.length < ea + w.bytes → Traps H m) := by
  obtain ⟨lab, ls, f, fs, hl, hf, hs, ha⟩ := step_next (H := H) hi
  obtain ⟨h1, h2⟩ := hm.frame hf
  have hf' : (advance m).frame = f :: fs := by simpa using hf
  have hv' : (advance m).value = x :: v :: s := by simpa using hv
  refine ⟨fun hb => ?_, fun hb => ?_⟩
  · rw [hs]; simp only [exec]
    rw [bind_pop hv', bind_ok (evaluateMemLoad_ok (m := { advance m with value := v :: s }) hf' h1 h2 rfl off _ hb)]
    rw [lane_replace rfl w.div x l hl16 _ (Py.range_length _ _ _ hb)]; rfl
  · refine ⟨.assertion, { advance m with value := s }, ?_, by simp⟩
    rw [hs]; simp only [exec]
    rw [bind_pop hv']
    exact bind_err (evaluateMemLoad_err (m := { advance m with value := v :: s }) hf' h1 h2 rfl off _ (by omega))

example : stackAfter (demo [.loadLane .w16 0 1 3] [v128 0, i32 2]) = some [v128 0x0584000000000000] := by decide

/-- **C11** A store of `n` bytes traps exactly when the effective address plus `n` exceeds the length of the memory, and
then the store is unchanged; otherwise exactly the `n` addressed bytes become the low `n` bytes of the operand. -/
theorem C11_store {op : StoreOp} {al off : Nat} {v b : Val} {s : List Val}
    (hi : next m = some (.store op al off)) (hm : HasMem m a mem) (hv : m.value = v :: b :: s) :
    let ea := b.low32.toNat + off
    (ea + storeWidth op ≤ mem.data.length →
      step H m = .ok () (withMem { advance m with value := s } a
        { mem with data := patch mem.data ea (v.data.take (storeWidth op)) })) ∧
    (mem.data.length < ea + storeWidth op → Traps H m) := by
  obtain ⟨lab, ls, f, fs, hl, hf, hs, ha⟩ := step_next (H := H) hi
  obtain ⟨h1, h2⟩ := hm.frame hf
  have hf' : (advance m).frame = f :: fs := by simpa using hf
  have hv' : (advance m).value = v :: b :: s := by simpa using hv
  refine ⟨fun hb => ?_, fun hb => ?_⟩
  · rw [hs]; simp only [exec, storeWidth_eq]
    exact evaluateMemSave_ok hf' h1 h2 hv' off _ (storeWidth_le op) hb
  · refine ⟨.assertion, { advance m with value := s }, ?_, by simp⟩
    rw [hs]; simp only [exec, storeWidth_eq]
    exact evaluateMemSave_err hf' h1 h2 hv' off _ (by omega)

example : memAfter (demo [.store .i32_store16 0 1] [i32 0xaabbccdd, i32 2]) = some [1, 2, 3, 0xdd, 0xcc, 6, 7, 8] := by
  decide
example : memAfter (demo [.store .i32_store 0 5] [i32 0xaabbccdd, i32 0]) = none := by decide

/-- **C11**, the `v128.storeN_lane` instructions. -/
theorem C11_store_lane {w : LaneW} {al off l : Nat} {x b : Val} {s : List Val}
    (hi : next m = some (.storeLane w al off l)) (hl16 : l < 16 / w.bytes) (hm : HasMem m a mem)
    (hv : m.value = x :: b :: s) :
    let ea := b.low32.toNat + off
    (ea + w.bytes ≤ mem.data.length →
      step H m = .ok () (withMem { advance m with value := s } a
        { mem with data := patch mem.data ea (bytesLE w.bytes (lane (8 * w.bytes) x.low128 l).toNat) })) ∧
    (mem.data.length < ea + w.bytes → Traps H m) := by
  obtain ⟨lab, ls, f, fs, hl, hf, hs, ha⟩ := step_next (H := H) hi
  obtain ⟨h1, h2⟩ := hm.frame hf
  have hf' : (advance m).frame = f :: fs := by simpa using hf
  have hv' : (advance m).value = x :: b :: s := by simpa using hv
  obtain ⟨y, hy, hy2⟩ := lane_front rfl w.div x l hl16
  refine ⟨fun hb => ?_, fun hb => ?_⟩
  · rw [hs]; simp only [exec]
    rw [bind_pop hv', hy, bind_lift_ok, bind_push,
      evaluateMemSave_ok (m := { advance m with value := y :: b :: s }) hf' h1 h2 rfl off _ (by cases w <;> decide) hb, hy2]
  · refine ⟨.assertion, { advance m with value := s }, ?_, by simp⟩
    rw [hs]; simp only [exec]
    rw [bind_pop hv', hy, bind_lift_ok, bind_push,
      evaluateMemSave_err (m := { advance m with value := y :: b :: s }) hf' h1 h2 rfl off _ (by omega)]

/-- **C11** A load of the same width from the same address returns the bytes that were stored: `m` executes the store
and reaches `m'`; `m₂` is any later state with the same memory whose next instruction is the load. -/
theorem C11_load_after_store {op : StoreOp} {op₂ : LoadOp} {al off al₂ off₂ : Nat} {v b b₂ : Val} {s s₂ : List Val}
    {m' m₂ : Machine}
    (hi : next m = some (.store op al off)) (hm : HasMem m a mem) (hv : m.value = v :: b :: s)
    (hstep : step H m = .ok () m')
    (hi₂ : next m₂ = some (.load op₂ al₂ off₂)) (hv₂ : m₂.value = b₂ :: s₂)
    {mem₂ : MemInst} (hm₂ : HasMem m₂ a mem₂) (hst : m'.store.mems[a]? = some mem₂)
    (haddr : b₂.low32.toNat + off₂ = b.low32.toNat + off) (hw : loadWidth op₂ = storeWidth op) :
    step H m₂ = .ok () { advance m₂ with value := loaded op₂ (readLE (v.data.take (storeWidth op))) :: s₂ } := by
  have h1 := C11_store (H := H) hi hm hv
  simp only at h1
  rcases Nat.lt_or_ge mem.data.length (b.low32.toNat + off + storeWidth op) with hb | hb
  · obtain ⟨e, m'', h2, _⟩ := h1.2 hb
    rw [hstep] at h2; cases h2
  · have h2 := h1.1 hb
    rw [hstep] at h2
    have hmem : m.store.mems[a]? = some mem := hm.choose_spec.2.2
    have halt : a < m.store.mems.length := (List.getElem?_eq_some_iff.mp hmem).1
    have e : mem₂ = { mem with data := patch mem.data (b.low32.toNat + off) (v.data.take (storeWidth op)) } := by
      have h3 : m' = _ := (EStateM.Result.ok.inj h2).2
      rw [h3] at hst
      simpa [withMem, List.getElem?_set, halt] using hst.symm
    have hlen : (v.data.take (storeWidth op)).length = storeWidth op := by
      simp [v.len, storeWidth_le]
    have h4 := (C10_load (H := H) hi₂ hm₂ hv₂).1 (by rw [hw, haddr, e]; simpa [Py.patch_length] using hb)
    rw [h4, e, haddr, hw]
    have h5 := range_patch mem.data (b.low32.toNat + off) (v.data.take (storeWidth op)) (by rw [hlen]; exact hb)
    rw [hlen] at h5
    simp only [h5]

/-- **C13** `memory.copy` with destination `d`, source `s` and length `n` behaves like `memmove`: the `n` bytes at `d`
become the `n` bytes that were at `s` before the instruction, overlapping or not; it traps exactly when one of the ranges
is out of bounds, changing nothing. -/
theorem C13_memory_copy {n s d : Val} {st : List Val} (hi : next m = some .memoryCopy) (hm : HasMem m a mem)
    (hv : m.value = n :: s :: d :: st) :
    let n := n.low32.toNat; let s := s.low32.toNat; let d := d.low32.toNat
    (s + n ≤ mem.data.length ∧ d + n ≤ mem.data.length →
      step H m = .ok () (withMem { advance m with value := st } a
        { mem with data := patch mem.data d (Spec.range mem.data s n) })) ∧
    (mem.data.length < s + n ∨ mem.data.length < d + n → Traps H m) := by
  obtain ⟨lab, ls, f, fs, hl, hf, hs, ha⟩ := step_next (H := H) hi
  obtain ⟨h1, h2⟩ := hm.frame hf
  have hv' : (advance m).value = n :: s :: d :: st := by simpa using hv
  refine ⟨fun hb => ?_, fun hb => ?_⟩
  · rw [hs]; simp only [exec]
    rw [bind_theMem h1 h2]; simp only
    rw [bind_popU32 hv', bind_popU32 rfl, bind_popU32 rfl, bind_assert_pos hb.1, bind_assert_pos hb.2,
      Py.slice_nat _ _ _ hb.1, Py.sliceSet_nat _ _ _ _ (Py.range_length _ _ _ hb.1) hb.2]; rfl
  · refine ⟨.assertion, { advance m with value := st }, ?_, by simp⟩
    rw [hs]; simp only [exec]
    rw [bind_theMem h1 h2]; simp only
    rw [bind_popU32 hv', bind_popU32 rfl, bind_popU32 rfl]
    by_cases h3 : s.low32.toNat + n.low32.toNat ≤ mem.data.length
    · rw [bind_assert_pos h3, bind_assert_neg (by omega)]
    · rw [bind_assert_neg h3]

/-- Overlapping ranges. -/
example : memAfter (demo [.memoryCopy] [i32 4, i32 1, i32 2]) = some [1, 2, 2, 3, 0x84, 5, 7, 8] := by decide
example : memAfter (demo [.memoryCopy] [i32 4, i32 2, i32 1]) = some [1, 3, 0x84, 5, 6, 6, 7, 8] := by decide

/-- **C13** `memory.fill` of `n` bytes at `d` with the low byte of `x` writes exactly that range; it traps exactly when the
range is out of bounds, changing nothing. -/
theorem C13_memory_fill {n x d : Val} {st : List Val} (hi : next m = some .memoryFill) (hm : HasMem m a mem)
    (hv : m.value = n :: x :: d :: st) :
    let n := n.low32.toNat; let d := d.low32.toNat
    (d + n ≤ mem.data.length →
      step H m = .ok () (withMem { advance m with value := st } a
        { mem with data := patch mem.data d (List.replicate n (UInt8.ofNat x.low32.toNat)) })) ∧
    (mem.data.length < d + n → Traps H m) := by
  obtain ⟨lab, ls, f, fs, hl, hf, hs, ha⟩ := step_next (H := H) hi
  obtain ⟨h1, h2⟩ := hm.frame hf
  have hv' : (advance m).value = n :: x :: d :: st := by simpa using hv
  refine ⟨fun hb => ?_, fun hb => ?_⟩
  · rw [hs]; simp only [exec]
    rw [bind_theMem h1 h2]; simp only
    rw [bind_popU32 hv', bind_pop rfl, bind_popU32 rfl, bind_assert_pos hb, Py.patch_fill _ _ _ _ hb, byte0_eq]; rfl
  · refine ⟨.assertion, { advance m with value := st }, ?_, by simp⟩
    rw [hs]; simp only [exec]
    rw [bind_theMem h1 h2]; simp only
    rw [bind_popU32 hv', bind_pop rfl, bind_popU32 rfl, bind_assert_neg (by omega)]

example : memAfter (demo [.memoryFill] [i32 3, i32 0x1ff, i32 5]) = some [1, 2, 3, 0x84, 5, 0xff, 0xff, 0xff] := by
  decide

/-- **C13** `memory.init` copies `n` bytes from position `s` of data segment `i` to position `d` of the memory; it traps
exactly when one of the ranges is out of bounds, changing nothing. -/
theorem C13_memory_init {i b : Nat} {seg : Bytes} {n s d : Val} {st : List Val} (hi : next m = some (.memoryInit i))
    (hm : HasMem m a mem) (hd : HasData m i b seg) (hv : m.value = n :: s :: d :: st) :
    let n := n.low32.toNat; let s := s.low32.toNat; let d := d.low32.toNat
    (s + n ≤ seg.length ∧ d + n ≤ mem.data.length →
      step H m = .ok () (withMem { advance m with value := st } a
        { mem with data := patch mem.data d (Spec.range seg s n) })) ∧
    (seg.length < s + n ∨ mem.data.length < d + n → Traps H m) := by
  obtain ⟨lab, ls, f, fs, hl, hf, hs, ha⟩ := step_next (H := H) hi
  obtain ⟨h1, h2⟩ := hm.frame hf
  obtain ⟨da, h3, h4, h5⟩ := hd.frame hf
  have hv' : (advance m).value = n :: s :: d :: st := by simpa using hv
  refine ⟨fun hb => ?_, fun hb => ?_⟩
  · rw [hs]; simp only [exec]
    rw [bind_theMem h1 h2]; simp only
    rw [bind_idx_some h3, bind_get_run, bind_idx_some h4, bind_get_run, bind_idx_some h5,
      bind_popU32 hv', bind_popU32 rfl, bind_popU32 rfl, bind_assert_pos hb.1, bind_assert_pos hb.2,
      Py.slice_nat _ _ _ hb.1, Py.sliceSet_nat _ _ _ _ (Py.range_length _ _ _ hb.1) hb.2]; rfl
  · refine ⟨.assertion, { advance m with value := st }, ?_, by simp⟩
    rw [hs]; simp only [exec]
    rw [bind_theMem h1 h2]; simp only
    rw [bind_idx_some h3, bind_get_run, bind_idx_some h4, bind_get_run, bind_idx_some h5,
      bind_popU32 hv', bind_popU32 rfl, bind_popU32 rfl]
    by_cases h3 : s.low32.toNat + n.low32.toNat ≤ seg.length
    · rw [bind_assert_pos h3, bind_assert_neg (by omega)]
    · rw [bind_assert_neg h3]

example : memAfter (demo [.memoryInit 0] [i32 2, i32 1, i32 5]) = some [1, 2, 3, 0x84, 5, 10, 11, 8] := by decide
example : memAfter (demo [.memoryInit 0] [i32 3, i32 1, i32 5]) = none := by decide

/-- **C13** `data.drop` empties the segment and changes nothing else. (That it stays empty is `C16_store_stable`.) -/
theorem C13_data_drop {i b : Nat} {seg : Bytes} (hi : next m = some (.dataDrop i)) (hd : HasData m i b seg) :
    ∃ m', step H m = .ok () m' ∧
      m' = { advance m with store := { m.store with bufs := m.store.bufs.set b [] } } ∧ HasData m' i b [] := by
  obtain ⟨lab, ls, f, fs, hl, hf, hs, ha⟩ := step_next (H := H) hi
  obtain ⟨da, h3, h4, h5⟩ := hd.frame hf
  refine ⟨_, ?_, rfl, ?_⟩
  · rw [hs]; simp only [exec]
    rw [bind_idx_some h3, bind_get_run, bind_idx_some h4, modify_run]; simp
  · obtain ⟨mod, da, e1, e2, e3, e4⟩ := hd
    have := (List.getElem?_eq_some_iff.mp e4).1
    exact ⟨mod, da, by simpa [curModule] using e1, e2, e3, by simp [this]⟩

/-! ## The hypotheses are met -/

example := C10_load (H := noHost) (m := demo [.load .i32_load8_s 0 1] [i32 2]) rfl (demo_mem _ _) rfl
example := C10_load_lane (H := noHost) (m := demo [.loadLane .w16 0 1 3] [v128 0, i32 2]) rfl (by decide) (demo_mem _ _) rfl
example := C11_store (H := noHost) (m := demo [.store .i32_store16 0 1] [i32 0xaabbccdd, i32 2]) rfl (demo_mem _ _) rfl
example := C11_store_lane (H := noHost) (m := demo [.storeLane .w16 0 1 3] [v128 5, i32 2]) rfl (by decide) (demo_mem _ _) rfl
/-- `i32.store16` at address 3, then `i32.load16_u` from there. -/
example := (returns (x := step noHost) (m := demo [.store .i32_store16 0 1, .load .i32_load16_u 0 3] [i32 0xaabbccdd, i32 2, i32 0]) (by decide)).imp
  fun _ => Exists.imp fun m' h => C11_load_after_store (H := noHost)
    (m₂ := { demo [.load .i32_load16_u 0 3] [i32 0] with store := { demoStore with mems := [⟨⟨1, 2⟩, [1, 2, 3, 0xdd, 0xcc, 6, 7, 8], 1⟩] } })
    rfl (demo_mem _ _) rfl h rfl rfl ⟨_, rfl, rfl, rfl⟩
    (by have := (C11_store (H := noHost) (m := demo [.store .i32_store16 0 1, .load .i32_load16_u 0 3] [i32 0xaabbccdd, i32 2, i32 0])
          rfl (demo_mem _ _) rfl).1 (by decide)
        rw [h] at this
        injection this with _ this
        rw [this]
        rfl) (by decide) rfl
example := C13_memory_copy (H := noHost) (m := demo [.memoryCopy] [i32 4, i32 1, i32 2]) rfl (demo_mem _ _) rfl
example := C13_memory_fill (H := noHost) (m := demo [.memoryFill] [i32 3, i32 0x1ff, i32 5]) rfl (demo_mem _ _) rfl
example := C13_memory_init (H := noHost) (m := demo [.memoryInit 0] [i32 2, i32 1, i32 5]) rfl (demo_mem _ _) (demo_data _ _) rfl
example := C13_data_drop (H := noHost) (m := demo [.dataDrop 0] []) rfl (demo_data _ _)

end Pywasm.Props
