import Verif.Spec.WasiDemo

/-!
# The concrete WASI host with a name in the guest's memory

Used by the examples beside the WASI theorems, to meet hypotheses about open files, memory ranges and calls that succeed.
-/

namespace Pywasm.WasiSpec
open Wasi

/-- The state of `demoSt` with a given guest memory of 256 bytes at most. -/
def memSt (kind : Kind) (b : Bytes) : St := { demoSt kind with mem := some ⟨⟨1, 0⟩, b ++ List.replicate (256 - b.length) 0, 1⟩ }

/-- It is reachable. -/
theorem memSt_reach (kind : Kind) (b : Bytes) (l : List Call) :
    Reach (demoOs kind) (demoInit kind) (runs (demoOs kind) l (memSt kind b)) :=
  (Reach.step (.refl _) (.guest _ (some ⟨⟨1, 0⟩, b ++ List.replicate (256 - b.length) 0, 1⟩))).trans (Reach.runs _ _ _)

/-- The file an open descriptor stands for. -/
abbrev fileAt (s : St) (fd : Int) (h : (openFile s fd).isSome = true := by decide +kernel) : File := (openFile s fd).get h
theorem fileAt_eq (s : St) (fd : Int) (h : (openFile s fd).isSome = true := by decide +kernel) :
    openFile s fd = some (fileAt s fd h) := (Option.some_get h).symm

theorem inMem (s : St) (p n : Nat) (hs : s.mem.isSome = true := by decide +kernel)
    (h : p + n ≤ (bytes s).length := by decide +kernel) : InMem s p n :=
  ⟨fun e => (by rw [e] at hs; exact absurd hs (by decide)), h⟩

theorem lacks (s : St) (fd : Int) (k : Nat) (h : ((openFile s fd).all fun f => !has f.base k) = true := by decide +kernel) :
    ¬Holds s fd k := by
  rintro ⟨f, hf, hh⟩
  rw [hf, Option.all_some, hh] at h
  cases h

/-- The start state of the examples is made without an exception. -/
theorem demo_init_ok : init (demoOs .reg) [['a'], ['b', 'c']] [(['/'], ['/', 's', 'r', 'v'])] [(['k'], ['v'])] (0, 1, 2)
    (['i'], ['o'], ['e']) = (.ok (), demoInit .reg) := by
  unfold demoInit
  have h : (match (init (demoOs .reg) [['a'], ['b', 'c']] [(['/'], ['/', 's', 'r', 'v'])] [(['k'], ['v'])] (0, 1, 2)
    (['i'], ['o'], ['e'])).1 with | .ok _ => true | .error _ => false) = true := by decide +kernel
  generalize init (demoOs .reg) [['a'], ['b', 'c']] [(['/'], ['/', 's', 'r', 'v'])] [(['k'], ['v'])] (0, 1, 2)
    (['i'], ['o'], ['e']) = r at h ⊢
  obtain ⟨_ | _, t⟩ := r
  · cases h
  · rfl

end Pywasm.WasiSpec
