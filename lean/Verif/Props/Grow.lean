import Verif.Lemmas.Step
import Verif.Spec.Demo

/-!
# C12: `memory.size` and `memory.grow`, one instruction

The histories part of C12 is in `Props/StoreInv.lean`.
-/

namespace Pywasm.Props
open Spec M

variable {H : Host} {m : Machine} {a : Nat} {mem : MemInst}

theorem fromI32_nat {n : Nat} (h : n < 2 ^ 31) : Val.fromI32 n = .ok (i32 (BitVec.ofNat 32 n)) := by
  rw [fromI32_of_range (by constructor <;> omega)]; simp

/-- **C12** `memory.size` pushes the size in pages and changes nothing. -/
theorem C12_memory_size {b : Nat} (hi : next m = some (.memorySize b)) (hm : HasMem m a mem) (hsz : mem.size ≤ 65536) :
    step H m = .ok () { advance m with value := i32 (BitVec.ofNat 32 mem.size) :: m.value } := by
  obtain ⟨lab, ls, f, fs, hl, hf, hs, ha⟩ := step_next (H := H) hi
  obtain ⟨h1, h2⟩ := hm.frame hf
  rw [hs]; simp only [exec]
  rw [bind_theMem h1 h2]; simp only
  rw [fromI32_nat (by omega), bind_lift_ok, push_eq, advance_value]

/-- **C12** `memory.grow` by `n` pages never raises.  When the new size is at most 1024 pages and within the recorded
maximum (0 stands for none) it pushes the old size, keeps the old bytes, appends `65536 * n` zero bytes and sets the size
to the sum; otherwise it pushes -1 and changes nothing. -/
theorem C12_memory_grow {b : Nat} {v : Val} {s : List Val} (hi : next m = some (.memoryGrow b)) (hm : HasMem m a mem)
    (hv : m.value = v :: s) :
    let n := v.low32.toNat
    let fits := mem.size + n ≤ 1024 ∧ (mem.limits.m ≠ 0 → mem.size + n ≤ mem.limits.m)
    (fits → step H m = .ok () (withMem { advance m with value := i32 (BitVec.ofNat 32 mem.size) :: s } a
        { mem with data := mem.data ++ List.replicate (65536 * n) 0, size := mem.size + n })) ∧
    (¬ fits → step H m = .ok () { advance m with value := i32 (-1) :: s }) := by
  obtain ⟨lab, ls, f, fs, hl, hf, hs, ha⟩ := step_next (H := H) hi
  obtain ⟨h1, h2⟩ := hm.frame hf
  have hv' : (advance m).value = v :: s := by simpa using hv
  intro n fits
  have hiff : fits ↔ mem.size + v.low32.toNat ≤ 1024 ∧ (mem.limits.m = 0 ∨ mem.size + v.low32.toNat ≤ mem.limits.m) := by
    show (_ ∧ (_ → _)) ↔ _
    rw [← or_iff_not_imp_left]
  refine ⟨fun hc => ?_, fun hc => ?_⟩
  · rw [hs]; simp only [exec]
    rw [bind_theMem h1 h2]; simp only
    rw [bind_popU32 hv', if_pos (hiff.mp hc)]
    have hg : mem.grow v.low32.toNat =
        .ok { mem with data := mem.data ++ List.replicate (65536 * n) 0, size := mem.size + n } := by
      unfold MemInst.grow
      have h3 := hc.1
      have e : Py.assert (decide (mem.size + v.low32.toNat ≤ 65536)) = .ok () := by
        rw [decide_eq_true (by omega : mem.size + v.low32.toNat ≤ 65536)]; rfl
      rw [e, Py.zeros, Nat.mul_comm]
      by_cases h0 : mem.limits.m = 0
      · rw [if_neg (by simp [h0])]; rfl
      · rw [if_pos h0, decide_eq_true (hc.2 h0)]; rfl
    have h3 := hc.1
    rw [hg, bind_lift_ok, bind_ok (setMem_run _ _ _), fromI32_nat (by omega), bind_lift_ok]; rfl
  · rw [hs]; simp only [exec]
    rw [bind_theMem h1 h2]; simp only
    rw [bind_popU32 hv', if_neg (fun h => hc (hiff.mpr h)), fromI32_of_range (by decide), bind_lift_ok]; rfl

/-- One page of a recorded maximum of two can be added to one page, two cannot. -/
example : stackAfter (demo [.memoryGrow 0] [i32 2]) = some [i32 (-1)] := by decide
example : next (demo [.memoryGrow 0] [i32 1]) = some (.memoryGrow 0) ∧
    HasMem (demo [.memoryGrow 0] [i32 1]) 0 ⟨⟨1, 2⟩, [1, 2, 3, 0x84, 5, 6, 7, 8], 1⟩ := ⟨rfl, demo_mem _ _⟩

/-! ## The hypotheses are met -/

example := C12_memory_size (H := noHost) (m := demo [.memorySize 0] []) rfl (demo_mem _ _) (by decide)
example := C12_memory_grow (H := noHost) (m := demo [.memoryGrow 0] [i32 1]) rfl (demo_mem _ _) rfl

end Pywasm.Props
