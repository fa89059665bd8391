import Verif.Props.Call
import Verif.Lemmas.Steps
import Verif.Spec.Invoke

/-!
# C17 (single branches) and C22
-/

namespace Pywasm.Props
open Spec M

variable {H : Host} {m : Machine}

theorem keep_append {α} {n : Nat} (a b : List α) (h : b.length = n) : keep n (a ++ b) = b := by
  unfold keep
  rw [List.length_append, h, Nat.add_sub_cancel, List.drop_left]

theorem evaluateBr_run {l : Nat} {lab : Label} {rets junk low : List Val} (hl : m.label[l]? = some lab)
    (hv : m.value = rets.reverse ++ junk ++ low) (hn : rets.length = lab.arity) (hlow : low.length = lab.value) :
    evaluateBr l m = .ok () { m with
      value := rets.reverse ++ low
      frame := keep lab.frame m.frame
      label := match lab.carry with
        | .loop => { lab with index := 0 } :: m.label.drop (l + 1)
        | _ => m.label.drop (l + 1) } := by
  have hlt := (List.getElem?_eq_some_iff.mp hl).1
  have hv' : m.value = rets.reverse ++ (junk ++ low) := by simpa using hv
  unfold evaluateBr
  rw [bind_get_run, bind_assert_pos (by omega), bind_get_run, bind_idx_some hl, bind_get_run,
    bind_assert_pos (by rw [hv']; simp; omega), bind_popN hv' hn.symm, bind_modify_run, bind_modify_run]
  cases hc : lab.carry <;>
    simp only [bind_modify_run, extend_run, keep_append junk low hlow, List.tail_drop]

/-- **C17** `br l` drops the operands above the target label's height except the values the target expects, drops the
labels inside the target, and continues after the target block (or at the start of a loop). -/
theorem C17_br {l : Nat} {lab : Label} {rets junk low : List Val} (hi : next m = some (.br l))
    (hl : (advance m).label[l]? = some lab) (hv : m.value = rets.reverse ++ junk ++ low) (hn : rets.length = lab.arity)
    (hlow : low.length = lab.value) :
    step H m = .ok () { m with
      value := rets.reverse ++ low
      frame := keep lab.frame m.frame
      label := if lab.carry = .loop then { lab with index := 0 } :: (advance m).label.drop (l + 1)
        else (advance m).label.drop (l + 1) } := by
  obtain ⟨lab', _, f, fs, _, hf, hs, _⟩ := step_next (H := H) hi
  rw [hs]; simp only [exec]
  rw [evaluateBr_run hl (by simpa using hv) hn hlow]
  cases hc : lab.carry <;> simp

example : (match step noHost { demo [.br 1] [i32 1, i32 2, i32 3] with
      label := [⟨0, 1, 1, .block, [.br 1], 0⟩, ⟨1, 1, 1, .block, [], 0⟩] } with
    | .ok _ m => some (m.value, m.label.length) | _ => none) = some ([i32 1, i32 3], 0) := by decide

/-- **C22** (part) In the function that `Runtime.invocate` starts, on a clean machine, `br` to the outermost label and
`return` lead to the same state.  Missing: called functions, for which it is false (`C22_called_function_false`). -/
theorem C22_outermost_partial {t : FuncType} {mod : ModuleInst} {locals : List Val} {ls : List Label} {e : Expr} {k : Nat}
    {rets junk : List Val} {m1 m2 : Machine} {l : Nat}
    (h1 : next m1 = some (.br l)) (h2 : next m2 = some .ret)
    (hs : m1.store = m2.store) (hv : m1.value = m2.value) (hf : m1.frame = m2.frame)
    (hfr : m1.frame = [⟨mod, locals, t.rets.length, 0, 0⟩, ⟨{}, [], 0, 0, 0⟩])
    (hlab : (advance m1).label = ls ++ [⟨t.rets.length, 1, 0, .func, e, k⟩]) (hl : l = ls.length)
    (hval : m1.value = rets.reverse ++ junk) (hn : rets.length = t.rets.length) :
    step H m1 = step H m2 ∧ ∃ m', step H m2 = .ok () m' ∧ m'.value = rets.reverse ∧ m'.label = [] ∧
      m'.frame = [⟨{}, [], 0, 0, 0⟩] := by
  obtain ⟨ls', hr, hlen, _⟩ := C18_return (H := H) (m := m2) (f := ⟨mod, locals, t.rets.length, 0, 0⟩)
    (fs := [⟨{}, [], 0, 0, 0⟩]) (rets := rets) (junk := junk) (low := []) h2 (by rw [← hf, hfr]) (by rw [← hv, hval]; simp)
    hn rfl (Nat.zero_le _)
  have hls : ls' = [] := List.length_eq_zero_iff.mp hlen
  subst hls
  refine ⟨?_, _, hr, by simp, rfl, rfl⟩
  rw [hr, C17_br (H := H) (m := m1) (lab := ⟨t.rets.length, 1, 0, .func, e, k⟩) (rets := rets) (junk := junk) (low := []) h1
    (by rw [hlab, hl]; simp) (by rw [hval]; simp) hn rfl, hlab, hl, hfr, hs]
  simp [keep]

/-- **C22** is false for called functions: just after `C18_call_enters` has entered a function, `br 0` to its own label
leaves the callee's frame on the stack, so the caller goes on with the callee's locals; `return` removes it. -/
theorem C22_called_function_false {t : FuncType} {mod : ModuleInst} {code : FuncDesc} {args rest : List Val}
    {e : Expr} (ht : t.rets = []) (hc : code.expr = .br 0 :: e) :
    ∃ m', step H (entered m t mod code args rest) = .ok () m' ∧ m'.label = m.label ∧ m'.value = rest ∧
      m'.frame = (entered m t mod code args rest).frame ∧ m'.frame ≠ m.frame := by
  have h1 : next (entered m t mod code args rest) = some (.br 0) := by
    simp [next, entered, hc]
  refine ⟨_, C17_br (H := H) (rets := []) (junk := []) (low := rest) (lab := ⟨0, m.frame.length + 1, rest.length, .func,
    code.expr, 1⟩) h1 ?_ ?_ rfl rfl, ?_⟩
  · simp [advance, entered, ht]
  · simp [entered]
  · refine ⟨?_, ?_, ?_, ?_⟩
    · simp [advance, entered]
    · simp
    · simp [entered, keep]
    · intro h
      have := congrArg List.length h
      simp [entered, keep] at this

/-- The observable consequence: `$f` calls `$g` and returns its own parameter; with `return` in `$g` it pushes 7, with
`br 0` it pushes `$g`'s first local, 0, and then fails at its end. -/
def brStore (i : Inst) : Store where
  func := [.wasm ⟨[.i32], [.i32]⟩ 0 ⟨0, [], [.call 1, .localGet 0]⟩, .wasm ⟨[], []⟩ 0 ⟨1, [(1, .i32)], [i]⟩]
  mods := [{ type := [⟨[.i32], [.i32]⟩, ⟨[], []⟩], func := [0, 1] }]
def brSteps (i : Inst) : Option (List Val) :=
  match evaluate noHost 3 (started { store := brStore i } ⟨[.i32], [.i32]⟩
      { type := [⟨[.i32], [.i32]⟩, ⟨[], []⟩], func := [0, 1] } ⟨0, [], [.call 1, .localGet 0]⟩ [i32 7]) with
  | .ok _ m => some m.value
  | .error _ _ => none
example : brSteps .ret = some [i32 7] ∧ brSteps (.br 0) = some [i32 0] := by decide

/-! ## The hypotheses are met -/

example := C17_br (H := noHost) (m := { demo [.br 1] [i32 1, i32 2, i32 3] with
      label := [⟨0, 1, 1, .block, [.br 1], 0⟩, ⟨1, 1, 1, .block, [], 0⟩] }) (rets := [i32 1]) (junk := [i32 2]) (low := [i32 3]) rfl rfl rfl rfl rfl
/-- A function that has a value on its operand stack branches to its own label, or returns. -/
def outermost (i : Inst) : Machine where
  store := demoStore
  value := [i32 1, i32 2]
  label := [⟨1, 1, 0, .func, [i], 0⟩]
  frame := [⟨demoModule, [], 1, 0, 0⟩, ⟨{}, [], 0, 0, 0⟩]
example := C22_outermost_partial (H := noHost) (t := ⟨[], [.i32]⟩) (m1 := outermost (.br 0)) (m2 := outermost .ret) (ls := []) (rets := [i32 1])
  (junk := [i32 2]) rfl rfl rfl rfl rfl rfl rfl rfl rfl rfl
example := C22_called_function_false (H := noHost) (m := demo [.call 1] []) (t := ⟨[], []⟩) (mod := demoModule) (code := ⟨1, [], [.br 0]⟩) (args := [])
  (rest := []) rfl rfl

end Pywasm.Props
