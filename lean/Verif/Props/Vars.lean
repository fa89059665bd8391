import Verif.Lemmas.Step
import Verif.Spec.Demo

/-!
# C52: parametric and variable instructions; constants
-/

namespace Pywasm.Props
open Spec M

variable {H : Host} {m : Machine}

/-- **C52** `drop` removes the top operand. -/
theorem C52_drop {v : Val} {s : List Val} (hi : next m = some .drop) (hv : m.value = v :: s) :
    step H m = .ok () { advance m with value := s } := by
  obtain ⟨lab, ls, f, fs, hl, hf, hs, ha⟩ := step_next (H := H) hi
  have hv' : (advance m).value = v :: s := by simpa using hv
  rw [hs]; simp only [exec]; rw [bind_pop hv']; rfl

/-- **C52** `select` keeps the first of the two values when the condition is non-zero and the second otherwise. -/
theorem C52_select {c a b : Val} {s : List Val} (hi : next m = some .select) (hv : m.value = c :: b :: a :: s) :
    step H m = .ok () { advance m with value := (if c.low32 = 0 then b else a) :: s } := by
  obtain ⟨lab, ls, f, fs, hl, hf, hs, ha⟩ := step_next (H := H) hi
  have hv' : (advance m).value = c :: b :: a :: s := by simpa using hv
  rw [hs]; simp only [exec]; rw [bind_popI32 hv', bind_pop rfl, bind_pop rfl, push_eq]
  by_cases h : c.low32 = 0
  · rw [h]; simp
  · have : c.low32.toInt ≠ 0 := fun h' => h (BitVec.eq_of_toInt_eq (by simpa using h'))
    rw [if_pos this, if_neg h]

example : stackAfter (demo [.select] [i32 1, i64 8, i64 9]) = some [i64 9] := by decide
example : stackAfter (demo [.select] [i32 0, i64 8, i64 9]) = some [i64 8] := by decide

/-- **C52** the typed `select`, on operands of the annotated type. -/
theorem C52_select_type {c a b : Val} {s : List Val} {t : Nat} {ts : List Nat}
    (hi : next m = some (.selectType (t :: ts))) (hv : m.value = c :: b :: a :: s)
    (ha : a.ty.code = t) (hb : b.ty.code = t) :
    step H m = .ok () { advance m with value := (if c.low32 = 0 then b else a) :: s } := by
  obtain ⟨lab, ls, f, fs, hl, hf, hs, _⟩ := step_next (H := H) hi
  have hv' : (advance m).value = c :: b :: a :: s := by simpa using hv
  rw [hs]; simp only [exec]
  rw [bind_popI32 hv', bind_pop rfl, bind_pop rfl, bind_idx_some rfl, bind_assert_pos ha, bind_assert_pos hb, push_eq]
  by_cases h : c.low32 = 0
  · rw [h]; simp
  · have : c.low32.toInt ≠ 0 := fun h' => h (BitVec.eq_of_toInt_eq (by simpa using h'))
    rw [if_pos this, if_neg h]

/-- **C52** `local.get` pushes the local; nothing else changes. -/
theorem C52_local_get {i : Nat} {ls : List Val} {v : Val} (hi : next m = some (.localGet i)) (hl : curLocals m = some ls)
    (hv : ls[i]? = some v) : step H m = .ok () { advance m with value := v :: m.value } := by
  obtain ⟨lab, _, f, fs, _, hf, hs, _⟩ := step_next (H := H) hi
  have hf' : (advance m).frame = f :: fs := by simpa using hf
  simp only [curLocals, hf, List.head?_cons, Option.map_some, Option.some.injEq] at hl
  subst hl
  rw [hs]; simp only [exec]; rw [bind_topFrame hf', bind_idx_some hv, push_eq, advance_value]

/-- The machine with local `i` of the running function replaced. -/
def setLocalTo (m : Machine) (i : Nat) (v : Val) : Machine :=
  match m.frame with
  | f :: fs => { m with frame := { f with locals := f.locals.set i v } :: fs }
  | [] => m

theorem setLocal_eq {f : Frame} {fs i v} (hf : m.frame = f :: fs) (h : i < f.locals.length) :
    exec.setLocal i v m = .ok () (setLocalTo m i v) := by
  unfold exec.setLocal
  rw [bind_topFrame hf, Py.setItem_ok _ h, bind_lift_ok, modify_run]
  simp [setLocalTo, hf]

/-- **C52** `local.set` pops the operand into the local; every other local, the operands below, the other frames, the
labels and the store are unchanged. -/
theorem C52_local_set {i : Nat} {ls : List Val} {v : Val} {s : List Val} (hi : next m = some (.localSet i))
    (hl : curLocals m = some ls) (hil : i < ls.length) (hv : m.value = v :: s) :
    step H m = .ok () { setLocalTo (advance m) i v with value := s } := by
  obtain ⟨lab, _, f, fs, _, hf, hs, _⟩ := step_next (H := H) hi
  have hf' : (advance m).frame = f :: fs := by simpa using hf
  have hv' : (advance m).value = v :: s := by simpa using hv
  simp only [curLocals, hf, List.head?_cons, Option.map_some, Option.some.injEq] at hl
  subst hl
  rw [hs]; simp only [exec]; rw [bind_pop hv']
  rw [setLocal_eq (m := { advance m with value := s }) hf' hil]
  simp [setLocalTo, hf]

/-- **C52** `local.tee` is `local.set` that keeps the operand. -/
theorem C52_local_tee {i : Nat} {ls : List Val} {v : Val} {s : List Val} (hi : next m = some (.localTee i))
    (hl : curLocals m = some ls) (hil : i < ls.length) (hv : m.value = v :: s) :
    step H m = .ok () (setLocalTo (advance m) i v) := by
  obtain ⟨lab, _, f, fs, _, hf, hs, _⟩ := step_next (H := H) hi
  have hf' : (advance m).frame = f :: fs := by simpa using hf
  have hv' : (advance m).value[0]? = some v := by simp [hv]
  simp only [curLocals, hf, List.head?_cons, Option.map_some, Option.some.injEq] at hl
  subst hl
  rw [hs]; simp only [exec]; rw [bind_get_run, bind_idx_some hv']
  exact setLocal_eq hf' hil

example : (match step noHost (demo [.localSet 1] [i64 77]) with
    | .ok _ m => curLocals m | _ => none) = some [i32 5, i64 77] := by decide
example : stackAfter (demo [.localGet 1] [i32 1]) = some [i64 6, i32 1] := by decide

/-- **C52** `global.get` pushes the global; nothing else changes. -/
theorem C52_global_get {i a : Nat} {g : GlobalInst} (hi : next m = some (.globalGet i)) (hg : HasGlobal m i a g) :
    step H m = .ok () { advance m with value := g.data :: m.value } := by
  obtain ⟨lab, _, f, fs, _, hf, hs, _⟩ := step_next (H := H) hi
  obtain ⟨h1, h2⟩ := hg.frame hf
  rw [hs]; simp only [exec]; rw [bind_idx_some h1, bind_get_run, bind_idx_some h2, push_eq, advance_value]

/-- **C52**, **C15** `global.set` pops the operand into a mutable global, changing nothing else, and traps on an immutable
one. -/
theorem C52_global_set {i a : Nat} {g : GlobalInst} {v : Val} {s : List Val} (hi : next m = some (.globalSet i))
    (hg : HasGlobal m i a g) (hv : m.value = v :: s) :
    (g.isMut = true → step H m = .ok ()
      { advance m with value := s, store := { m.store with glob := m.store.glob.set a { g with data := v } } }) ∧
    (g.isMut = false → Traps H m) := by
  obtain ⟨lab, _, f, fs, _, hf, hs, _⟩ := step_next (H := H) hi
  obtain ⟨h1, h2⟩ := hg.frame hf
  have hv' : (advance m).value = v :: s := by simpa using hv
  refine ⟨fun hm => ?_, fun hm => ?_⟩
  · rw [hs]; simp only [exec]
    rw [bind_idx_some h1, bind_get_run, bind_idx_some h2, hm, bind_assert, if_pos rfl, bind_pop hv', modify_run]
    simp
  · refine ⟨.assertion, advance m, ?_, by simp⟩
    rw [hs]; simp only [exec]
    rw [bind_idx_some h1, bind_get_run, bind_idx_some h2, hm, bind_assert]; rfl

example : HasGlobal (demo [.globalSet 1] [i32 1]) 1 1 ⟨i32 8, false⟩ := ⟨_, rfl, rfl, rfl⟩
example : stackAfter (demo [.globalSet 1] [i32 1]) = none := by decide
example : stackAfter (demo [.globalSet 0] [i32 1]) = some [] := by decide

/-- **C52** constants push themselves. -/
theorem C52_i32_const {n : Int} (hi : next m = some (.i32Const n)) (hn : -2 ^ 31 ≤ n ∧ n < 2 ^ 31) :
    step H m = .ok () { advance m with value := i32 (BitVec.ofInt 32 n) :: m.value } := by
  obtain ⟨lab, _, f, fs, _, hf, hs, _⟩ := step_next (H := H) hi
  rw [hs]; simp only [exec]; rw [fromI32_of_range hn, bind_lift_ok, push_eq, advance_value]
theorem C52_i64_const {n : Int} (hi : next m = some (.i64Const n)) (hn : -2 ^ 63 ≤ n ∧ n < 2 ^ 63) :
    step H m = .ok () { advance m with value := i64 (BitVec.ofInt 64 n) :: m.value } := by
  obtain ⟨lab, _, f, fs, _, hf, hs, _⟩ := step_next (H := H) hi
  rw [hs]; simp only [exec]; rw [fromI64_of_range hn, bind_lift_ok, push_eq, advance_value]

/-- **C52** `ref.null` pushes a null reference, `ref.func` a reference to the function's store address, and
`ref.is_null` tells them apart. -/
theorem C52_ref_null {b : Nat} {t : ValType} (hi : next m = some (.refNull b)) (ht : ValType.ofCode b = .ok t) :
    ∃ r, step H m = .ok () { advance m with value := r :: m.value } ∧ r.ty = t ∧ refTarget r = none := by
  obtain ⟨lab, _, f, fs, _, hf, hs, _⟩ := step_next (H := H) hi
  refine ⟨Val.zero t, ?_, rfl, ?_⟩
  · rw [hs]; simp only [exec]; rw [ht, bind_lift_ok, push_eq, advance_value]
  · rfl
theorem C52_ref_func {i a : Nat} {mod : ModuleInst} (hi : next m = some (.refFunc i)) (hm : curModule m = some mod)
    (ha : mod.func[i]? = some a) (hlt : a < 2 ^ 31) :
    ∃ r, step H m = .ok () { advance m with value := r :: m.value } ∧ r.ty = .funcref ∧ refTarget r = some (a : Int) := by
  obtain ⟨lab, _, f, fs, _, hf, hs, _⟩ := step_next (H := H) hi
  simp only [curModule, hf, List.head?_cons, Option.map_some, Option.some.injEq] at hm
  subst hm
  obtain ⟨r, h1, h2, h3⟩ := fromRef_target .funcref hlt
  refine ⟨r, ?_, h2, h3⟩
  rw [hs]; simp only [exec]; rw [bind_idx_some ha, h1, bind_lift_ok, push_eq, advance_value]
theorem C52_ref_is_null {r : Val} {s : List Val} (hi : next m = some .refIsNull) (hv : m.value = r :: s)
    (hr : r.ty.isRef = true) (hwf : r.data[4]? = some 0 ∨ r.data[4]? = some 1) :
    step H m = .ok () { advance m with value := bool (decide (refTarget r = none)) :: s } := by
  obtain ⟨lab, _, f, fs, _, hf, hs, _⟩ := step_next (H := H) hi
  have hv' : (advance m).value = r :: s := by simpa using hv
  have hb : r.byte 4 = if refTarget r = none then 0 else 1 := by
    unfold refTarget
    rw [byte_eq]
    rcases hwf with h | h <;> simp [h]
  rw [hs]; simp only [exec]; rw [bind_pop hv', hr, bind_assert, if_pos rfl, hb]
  by_cases h : refTarget r = none
  · simp only [h, if_true]; rw [fromI32_of_range (by decide), bind_lift_ok, push_eq]; rfl
  · simp only [h, if_false]; rw [if_neg (by decide), fromI32_of_range (by decide), bind_lift_ok, push_eq]; rfl

example : refTarget ref0 = some 0 ∧ refTarget refNull = none := by decide
example : stackAfter (demo [.refIsNull] [refNull]) = some [bool true] := by decide

/-! ## The hypotheses are met -/

example := C52_drop (H := noHost) (m := demo [.drop] [i32 1, i32 2]) rfl rfl
example := C52_select (H := noHost) (m := demo [.select] [i32 1, i64 8, i64 9]) rfl rfl
example := C52_select_type (H := noHost) (m := demo [.selectType [0x7e]] [i32 1, i64 8, i64 9]) rfl rfl rfl rfl
example := C52_local_get (H := noHost) (m := demo [.localGet 1] []) rfl rfl rfl
example := C52_local_set (H := noHost) (m := demo [.localSet 1] [i64 77]) rfl rfl (by decide) rfl
example := C52_local_tee (H := noHost) (m := demo [.localTee 1] [i64 77]) rfl rfl (by decide) rfl
example := C52_global_get (H := noHost) (m := demo [.globalGet 1] []) rfl ⟨_, rfl, rfl, rfl⟩
example := C52_global_set (H := noHost) (m := demo [.globalSet 0] [i32 1]) rfl ⟨_, rfl, rfl, rfl⟩ rfl
example := C52_i32_const (H := noHost) (m := demo [.i32Const (-5)] []) rfl (by decide)
example := C52_i64_const (H := noHost) (m := demo [.i64Const (-5)] []) rfl (by decide)
example := C52_ref_null (H := noHost) (m := demo [.refNull 0x70] []) rfl rfl
example := C52_ref_func (H := noHost) (m := demo [.refFunc 0] []) rfl rfl rfl (by decide)
example := C52_ref_is_null (H := noHost) (m := demo [.refIsNull] [ref0]) rfl rfl rfl (.inr rfl)

end Pywasm.Props
