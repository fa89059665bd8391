import Verif.Lemmas.Frames
import Verif.Props.Call
import Verif.Spec.Returns

/-!
# C19: call depth
-/

namespace Pywasm.Props
open Spec M

variable {H : Host} {m m' : Machine}

/-- **C19** No instruction, whether it completes or raises, takes the machine from at most 1024 frames to more. -/
theorem C19_step_bound (h : m.frame.length ≤ 1024) : (final (step H) m).frame.length ≤ 1024 := by
  have := shallow_step (H := H) m h
  unfold Wp at this
  unfold Spec.final
  cases hx : step H m <;> simp only [hx] at this ⊢ <;> exact this

/-- **C19** At no point of an execution, of any length and with any host functions, are there more than 1024 frames
(`Runtime.invocate` starts with 2, instantiation with 1). -/
theorem C19_frames_bounded (h : m.frame.length ≤ 1024) (hs : Steps H m m') : m'.frame.length ≤ 1024 := by
  induction hs with
  | refl => exact h
  | tail _ hs ih =>
    have := C19_step_bound (H := H) ih
    unfold Spec.final at this
    rwa [hs] at this

/-- A function that calls itself for ever, just entered by `Machine.invocate`. -/
def recFunc : FuncInst := .wasm ⟨[], []⟩ 0 ⟨0, [], [.call 0]⟩
def recModule : ModuleInst := { type := [⟨[], []⟩], func := [0] }
def recStart : Machine where
  store := { func := [recFunc], mods := [recModule] }
  label := [⟨0, 1, 0, .func, [.call 0], 0⟩]
  frame := [⟨recModule, [], 0, 0, 0⟩, ⟨{}, [], 0, 0, 0⟩]
example : recStart.frame.length ≤ 1024 := by decide
example : (match step noHost recStart with | .ok _ m => some m.frame.length | _ => none) = some 3 := by decide

/-! ## The hypotheses are met -/

example := C19_step_bound (H := noHost) (m := recStart) (by decide)
example := (returns (x := step noHost) (m := recStart) (by decide)).imp fun _ => Exists.imp fun m' h =>
  C19_frames_bounded (H := noHost) (m := recStart) (m' := m') (by decide) (.tail (.refl _) h)

end Pywasm.Props
