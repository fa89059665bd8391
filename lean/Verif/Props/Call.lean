import Verif.Lemmas.Step
import Verif.Spec.Demo
import Verif.Spec.Returns

/-!
# C18, C19, C51, C53: calls

One interpreter step on an arbitrary machine.  `args` are the arguments in parameter order, so the operand stack (head =
top) is `args.reverse ++ rest`.
-/

namespace Pywasm.Props
open Spec M

variable {H : Host} {m : Machine} {addr : Nat}

theorem evaluateCall_wasm {t : FuncType} {mod code} {args rest : List Val} (hfn : HasFunc m addr t mod code)
    (hv : m.value = args.reverse ++ rest) (hn : args.length = t.args.length) :
    (m.frame.length < 1024 → evaluateCall H addr m = .ok () (entered m t mod code args rest)) ∧
    (1024 ≤ m.frame.length → evaluateCall H addr m = .error .assertion { m with value := rest }) := by
  obtain ⟨k, h1, h2⟩ := hfn
  refine ⟨fun hd => ?_, fun hd => ?_⟩
  · unfold evaluateCall
    rw [bind_get_run, Py.getItem_some h1, bind_lift_ok]
    simp only [FuncInst.type]
    rw [bind_popN hv hn.symm, bind_get_run, bind_assert_pos hd, bind_get_run, bind_idx_some h2, bind_modify_run, modify_run]
    rfl
  · unfold evaluateCall
    rw [bind_get_run, Py.getItem_some h1, bind_lift_ok]
    simp only [FuncInst.type]
    rw [bind_popN hv hn.symm, bind_get_run, bind_assert_neg (by simp; omega)]

/-- **C18** `call` of a function defined by a module starts its body in a fresh frame whose locals are the arguments in
order followed by zeros; the caller's frame and remaining operands are kept below. -/
theorem C18_call_enters {i : Nat} {cur : ModuleInst} {t : FuncType} {mod code} {args rest : List Val}
    (hi : next m = some (.call i)) (hc : curModule m = some cur) (ha : cur.func[i]? = some addr)
    (hfn : HasFunc m addr t mod code) (hv : m.value = args.reverse ++ rest) (hn : args.length = t.args.length)
    (hd : m.frame.length < 1024) : step H m = .ok () (entered (advance m) t mod code args rest) := by
  obtain ⟨lab, _, f, fs, _, hf, hs, _⟩ := step_next (H := H) hi
  simp only [curModule, hf, List.head?_cons, Option.map_some, Option.some.injEq] at hc
  subst hc
  rw [hs]; simp only [exec]; rw [bind_idx_some ha]
  exact (evaluateCall_wasm (m := advance m) (by simpa [HasFunc] using hfn) (by simpa using hv) hn).1 (by simpa using hd)

/-- **C19** A call with 1024 frames on the stack traps. -/
theorem C19_call_traps_when_deep {i : Nat} {cur : ModuleInst} {t : FuncType} {mod code} {args rest : List Val}
    (hi : next m = some (.call i)) (hc : curModule m = some cur) (ha : cur.func[i]? = some addr)
    (hfn : HasFunc m addr t mod code) (hv : m.value = args.reverse ++ rest) (hn : args.length = t.args.length)
    (hd : 1024 ≤ m.frame.length) : Traps H m := by
  obtain ⟨lab, _, f, fs, _, hf, hs, _⟩ := step_next (H := H) hi
  simp only [curModule, hf, List.head?_cons, Option.map_some, Option.some.injEq] at hc
  subst hc
  refine ⟨.assertion, { advance m with value := rest }, ?_, by simp⟩
  rw [hs]; simp only [exec]; rw [bind_idx_some ha]
  exact (evaluateCall_wasm (m := advance m) (by simpa [HasFunc] using hfn) (by simpa using hv) hn).2 (by simpa using hd)

/-- The call of the example function: `i32 41` becomes its first local, its declared `i64` local is zero. -/
example : (match step noHost (demo [.call 0] [i32 41, i32 9]) with
    | .ok _ m => some (m.value, m.frame.length, curLocals m) | _ => none) =
      some ([i32 9], 2, some [i32 41, i64 0]) := by decide
example : HasFunc (demo [.call 0] [i32 41, i32 9]) 0 ⟨[.i32], [.i32]⟩ demoModule
    ⟨0, [(1, .i64)], [.localGet 0, .i32Const 1, .num (.int .i32_add)]⟩ := ⟨0, rfl, rfl⟩

/-- **C18** `return` leaves exactly the results on top of the operands the caller had, removes the callee's frame and
labels, and the caller's frame is on top again as it was. -/
theorem C18_return {f : Frame} {fs : List Frame} {rets junk low : List Val} (hi : next m = some .ret)
    (hf : m.frame = f :: fs) (hv : m.value = rets.reverse ++ junk ++ low) (hn : rets.length = f.arity)
    (hlow : low.length = f.value) (hlab : f.label ≤ m.label.length) :
    ∃ ls, step H m = .ok () { store := m.store, value := rets.reverse ++ low, frame := fs, label := ls } ∧
      ls.length = f.label ∧ ls <:+ (advance m).label := by
  obtain ⟨lab, ls, f', fs', hl, hf', hs, ha⟩ := step_next (H := H) hi
  rw [hf] at hf'; cases hf'
  have hv' : (advance m).value = rets.reverse ++ (junk ++ low) := by simpa using hv
  refine ⟨keep f.label (advance m).label, ?_, ?_, ?_⟩
  · rw [hs]; simp only [exec]
    rw [bind_get_run, bind_assert_pos (by rw [hv']; simp; omega), bind_popN hv' hn.symm, bind_modify_run, bind_modify_run,
      bind_modify_run, extend_run]
    have : keep f.value (junk ++ low) = low := by
      unfold keep
      rw [List.length_append, hlow, Nat.add_sub_cancel, List.drop_left]
    simp [this, hf]
  · unfold keep
    have : (advance m).label.length = m.label.length := by rw [ha, hl]; rfl
    simp; omega
  · exact List.drop_suffix _ _

/-- **C18** Falling off the end of a function body with exactly the results on the stack removes the callee's label and
frame and keeps everything below. -/
theorem C18_fall_off_end {lab : Label} {ls : List Label} {f : Frame} {fs : List Frame}
    (hl : m.label = lab :: ls) (hend : lab.index = lab.instr.length) (hc : lab.carry = .func) (hf : m.frame = f :: fs)
    (hv : m.value.length = f.value + f.arity) :
    step H m = .ok () { m with label := ls, frame := fs } := by
  unfold step
  rw [bind_get_run, bind_idx_some (a := lab) (by simp [hl]), bind_topFrame hf, if_pos hend, bind_modify_run, if_pos hc,
    bind_get_run, bind_assert_pos hv, modify_run]
  simp [hl, hf]

/-- **C51** `call_indirect` traps when the index is outside the table, ... -/
theorem C51_out_of_table {ti tab a : Nat} {tb : TableInst} {cur : ModuleInst} {ty : FuncType} {v : Val} {s : List Val}
    (hi : next m = some (.callIndirect ti tab)) (hc : curModule m = some cur) (hty : cur.type[ti]? = some ty)
    (ht : HasTable m tab a tb) (hv : m.value = v :: s) (hb : tb.elem.length ≤ v.low32.toNat) : Traps H m := by
  obtain ⟨lab, _, f, fs, _, hf, hs, _⟩ := step_next (H := H) hi
  obtain ⟨h1, h2⟩ := ht.frame hf
  simp only [curModule, hf, List.head?_cons, Option.map_some, Option.some.injEq] at hc
  subst hc
  have hv' : (advance m).value = v :: s := by simpa using hv
  refine ⟨.index, { advance m with value := s }, ?_, by simp⟩
  rw [hs]; simp only [exec]; rw [bind_theTable h1 h2]; simp only
  rw [bind_idx_some hty, bind_popU32 hv', bind_idx_none (List.getElem?_eq_none hb)]

/-- ... when the entry is null, ... -/
theorem C51_null {ti tab a : Nat} {tb : TableInst} {cur : ModuleInst} {ty : FuncType} {v r : Val} {s : List Val}
    (hi : next m = some (.callIndirect ti tab)) (hc : curModule m = some cur) (hty : cur.type[ti]? = some ty)
    (ht : HasTable m tab a tb) (hv : m.value = v :: s) (hr : tb.elem[v.low32.toNat]? = some r)
    (hnull : refTarget r = none) : Traps H m := by
  obtain ⟨lab, _, f, fs, _, hf, hs, _⟩ := step_next (H := H) hi
  obtain ⟨h1, h2⟩ := ht.frame hf
  simp only [curModule, hf, List.head?_cons, Option.map_some, Option.some.injEq] at hc
  subst hc
  have hv' : (advance m).value = v :: s := by simpa using hv
  refine ⟨.assertion, { advance m with value := s }, ?_, by simp⟩
  rw [hs]; simp only [exec]; rw [bind_theTable h1 h2]; simp only
  rw [bind_idx_some hty, bind_popU32 hv', bind_idx_some hr, intoRef_none hnull, bind_lift_err]

/-- ... and when the function it points to has another type; ... -/
theorem C51_type_mismatch {ti tab a : Nat} {tb : TableInst} {cur : ModuleInst} {ty : FuncType} {v r : Val} {s : List Val}
    {fn : FuncInst}
    (hi : next m = some (.callIndirect ti tab)) (hc : curModule m = some cur) (hty : cur.type[ti]? = some ty)
    (ht : HasTable m tab a tb) (hv : m.value = v :: s) (hr : tb.elem[v.low32.toNat]? = some r)
    (href : refTarget r = some (addr : Int)) (hfn : m.store.func[addr]? = some fn) (hne : fn.type ≠ ty) : Traps H m := by
  obtain ⟨lab, _, f, fs, _, hf, hs, _⟩ := step_next (H := H) hi
  obtain ⟨h1, h2⟩ := ht.frame hf
  simp only [curModule, hf, List.head?_cons, Option.map_some, Option.some.injEq] at hc
  subst hc
  have hv' : (advance m).value = v :: s := by simpa using hv
  refine ⟨.assertion, { advance m with value := s }, ?_, by simp⟩
  rw [hs]; simp only [exec]; rw [bind_theTable h1 h2]; simp only
  rw [bind_idx_some hty, bind_popU32 hv', bind_idx_some hr, intoRef_some href, bind_lift_ok, bind_get_run,
    Py.getItem_some (by simpa using hfn), bind_lift_ok, bind_assert_neg hne]

/-- ... otherwise it enters the function just as `call` does (`C18_call_enters`). -/
theorem C51_enters {ti tab a : Nat} {tb : TableInst} {cur : ModuleInst} {t : FuncType} {v r : Val} {mod code}
    {args rest : List Val}
    (hi : next m = some (.callIndirect ti tab)) (hc : curModule m = some cur) (hty : cur.type[ti]? = some t)
    (ht : HasTable m tab a tb) (hv : m.value = v :: (args.reverse ++ rest)) (hr : tb.elem[v.low32.toNat]? = some r)
    (href : refTarget r = some (addr : Int)) (hfn : HasFunc m addr t mod code) (hn : args.length = t.args.length)
    (hd : m.frame.length < 1024) : step H m = .ok () (entered (advance m) t mod code args rest) := by
  obtain ⟨lab, _, f, fs, _, hf, hs, _⟩ := step_next (H := H) hi
  obtain ⟨h1, h2⟩ := ht.frame hf
  simp only [curModule, hf, List.head?_cons, Option.map_some, Option.some.injEq] at hc
  subst hc
  have hv' : (advance m).value = v :: (args.reverse ++ rest) := by simpa using hv
  have hfn2 := hfn
  obtain ⟨k, hk, _⟩ := hfn2
  rw [hs]; simp only [exec]; rw [bind_theTable h1 h2]; simp only
  rw [bind_idx_some hty, bind_popU32 hv', bind_idx_some hr, intoRef_some href, bind_lift_ok, bind_get_run,
    Py.getItem_some (by simpa using hk), bind_lift_ok, bind_assert_pos (show (FuncInst.wasm t k code).type = t from rfl)]
  have := (evaluateCall_wasm (H := H) (m := { advance m with value := args.reverse ++ rest }) (addr := addr) (t := t)
    (mod := mod) (code := code) (args := args) (rest := rest) (by simpa [HasFunc] using hfn) rfl hn).1 (by simpa using hd)
  rw [this]; rfl

example : (match step noHost (demo [.callIndirect 0 0] [i32 0, i32 41]) with
    | .ok _ m => some (m.value, m.frame.length, curLocals m) | _ => none) = some ([], 2, some [i32 41, i64 0]) := by decide
example : stackAfter (demo [.callIndirect 1 0] [i32 0, i32 41]) = none := by decide
example : stackAfter (demo [.callIndirect 0 0] [i32 1, i32 41]) = none := by decide
example : stackAfter (demo [.callIndirect 0 0] [i32 3, i32 41]) = none := by decide

theorem mapM_forall₂ {α β} {f : α → Except Err β} {l : List α} {r : List β}
    (h : List.Forall₂ (fun a b => f a = .ok b) l r) : l.mapM f = .ok r := by
  induction h with
  | nil => rfl
  | cons h _ ih => rw [List.mapM_cons, h, ih]; rfl
theorem mapM_raises {α β} {f : α → Except Err β} {l : List α} {a : α} (ha : a ∈ l) {e : Err} (h : f a = .error e) :
    ∃ e, l.mapM f = .error e := by
  induction l with
  | nil => cases ha
  | cons b l ih =>
    rw [List.mapM_cons]
    cases hb : f b with
    | error e => exact ⟨e, rfl⟩
    | ok y =>
      rcases List.mem_cons.mp ha with rfl | ha
      · rw [h] at hb; cases hb
      · obtain ⟨e, he⟩ := ih ha
        exact ⟨e, by rw [he]; rfl⟩

/-- **C53** Calling a host function: it receives one host value per parameter, in order, converted by type; the results
it returns are converted by the declared result types and pushed in order; and whatever it did to the store is kept. -/
theorem C53_host_call {i code : Nat} {cur : ModuleInst} {t : FuncType} {args rest : List Val} {xs ys : List HVal}
    {rets : List Val} {st : Store}
    (hi : next m = some (.call i)) (hc : curModule m = some cur) (ha : cur.func[i]? = some addr)
    (hfn : m.store.func[addr]? = some (.host t code)) (hv : m.value = args.reverse ++ rest)
    (hn : args.length = t.args.length)
    (hargs : List.Forall₂ (fun v x => v.intoAll = .ok x) args xs) (hH : H code (some cur) xs m.store = .ok ys st)
    (hr : List.Forall₂ (fun (p : ValType × HVal) v => Val.fromAll p.1 p.2 = .ok v) (t.rets.zip ys) rets) :
    step H m = .ok () { advance m with store := st, value := rets.reverse ++ rest } := by
  obtain ⟨lab, _, f, fs, _, hf, hs, _⟩ := step_next (H := H) hi
  simp only [curModule, hf, List.head?_cons, Option.map_some, Option.some.injEq] at hc
  subst hc
  have hv' : (advance m).value = args.reverse ++ rest := by simpa using hv
  have hfn' : (advance m).store.func[addr]? = some (.host t code) := by simpa using hfn
  rw [hs]; simp only [exec]; rw [bind_idx_some ha]
  unfold evaluateCall
  rw [bind_get_run, Py.getItem_some hfn', bind_lift_ok]
  simp only [FuncInst.type]
  rw [bind_popN hv' hn.symm, mapM_forall₂ hargs, bind_lift_ok]
  have hcall : callHost H code xs { advance m with value := rest } =
      .ok ys { advance m with value := rest, store := st } := by
    unfold callHost; simp [hf, hH]
  rw [bind_ok hcall, mapM_forall₂ hr, bind_lift_ok, extend_run]

/-- **C53** A returned value that its declared type cannot hold makes the call raise. -/
theorem C53_bad_result_raises {i code : Nat} {cur : ModuleInst} {t : FuncType} {args rest : List Val} {xs ys : List HVal}
    {st : Store} {ty : ValType} {y : HVal} {e : Err}
    (hi : next m = some (.call i)) (hc : curModule m = some cur) (ha : cur.func[i]? = some addr)
    (hfn : m.store.func[addr]? = some (.host t code)) (hv : m.value = args.reverse ++ rest)
    (hn : args.length = t.args.length)
    (hargs : List.Forall₂ (fun v x => v.intoAll = .ok x) args xs) (hH : H code (some cur) xs m.store = .ok ys st)
    (hy : (ty, y) ∈ t.rets.zip ys) (hbad : Val.fromAll ty y = .error e) :
    ∃ e m', step H m = .error e m' := by
  obtain ⟨lab, _, f, fs, _, hf, hs, _⟩ := step_next (H := H) hi
  simp only [curModule, hf, List.head?_cons, Option.map_some, Option.some.injEq] at hc
  subst hc
  have hv' : (advance m).value = args.reverse ++ rest := by simpa using hv
  have hfn' : (advance m).store.func[addr]? = some (.host t code) := by simpa using hfn
  obtain ⟨e', he'⟩ := mapM_raises (f := fun p : ValType × HVal => Val.fromAll p.1 p.2) hy hbad
  refine ⟨e', { advance m with store := st, value := rest }, ?_⟩
  rw [hs]; simp only [exec]; rw [bind_idx_some ha]
  unfold evaluateCall
  rw [bind_get_run, Py.getItem_some hfn', bind_lift_ok]
  simp only [FuncInst.type]
  rw [bind_popN hv' hn.symm, mapM_forall₂ hargs, bind_lift_ok]
  have hcall : callHost H code xs { advance m with value := rest } =
      .ok ys { advance m with value := rest, store := st } := by
    unfold callHost; simp [hf, hH]
  rw [bind_ok hcall, he', bind_lift_err]

/-- A host function that swaps its two arguments, and one that returns a value too large for `i32`. -/
def swapHost : Host := fun _ _ xs s => .ok xs.reverse s
def bigHost : Host := fun _ _ _ s => .ok [.int (2 ^ 31)] s
/-- A machine about to call a host function of type `[i32 i64] -> [i64 i32]` (or `[] -> [i32]`). -/
def hostDemo (t : FuncType) (vs : List Val) : Machine :=
  { store := { func := [.host t 0] }, value := vs, label := [⟨0, 1, 0, .block, [.call 0], 0⟩],
    frame := [⟨{ func := [0] }, [], 0, 0, 0⟩] }
example : (match step swapHost (hostDemo ⟨[.i32, .i64], [.i64, .i32]⟩ [i64 2, i32 1, i32 9]) with
    | .ok _ m => some m.value | _ => none) = some [i32 1, i64 2, i32 9] := by decide
example : (match step bigHost (hostDemo ⟨[], [.i32]⟩ []) with
    | .ok _ _ => none | .error e _ => some e) = some .overflow := by decide

/-! ## The hypotheses are met -/

theorem demo_func (is vs) : HasFunc (demo is vs) 0 ⟨[.i32], [.i32]⟩ demoModule ⟨0, [(1, .i64)], [.localGet 0, .i32Const 1, .num (.int .i32_add)]⟩ :=
  ⟨0, rfl, rfl⟩
example := C18_call_enters (H := noHost) (m := demo [.call 0] [i32 41, i32 9]) (args := [i32 41]) (rest := [i32 9]) rfl rfl rfl (demo_func _ _) rfl rfl
  (by decide)
example := C19_call_traps_when_deep (H := noHost)
  (m := { demo [.call 0] [i32 41, i32 9] with frame := List.replicate 1024 ⟨demoModule, [i32 5, i64 6], 0, 0, 0⟩ })
  (args := [i32 41]) (rest := [i32 9]) rfl rfl rfl (demo_func [] []) rfl rfl (by rw [List.length_replicate])
example := C18_return (H := noHost)
  (m := { demo [.ret] [i32 1, i32 2, i32 3] with frame := [⟨demoModule, [], 1, 0, 1⟩, ⟨{}, [], 0, 0, 0⟩] }) (rets := [i32 1]) (junk := [i32 2])
  (low := [i32 3]) rfl rfl rfl rfl rfl (by decide)
/-- A function is about to return its result to its caller, which has one operand. -/
def ending : Machine where
  store := demoStore
  value := [i32 1, i32 3]
  label := [⟨1, 1, 0, .func, [.nop], 1⟩]
  frame := [⟨demoModule, [], 1, 0, 1⟩, ⟨{}, [], 0, 0, 0⟩]
example := C18_fall_off_end (H := noHost) (m := ending) rfl rfl rfl rfl rfl
example := C51_out_of_table (H := noHost) (m := demo [.callIndirect 0 0] [i32 3, i32 41]) rfl rfl rfl (demo_table _ _) rfl (by decide)
example := C51_null (H := noHost) (m := demo [.callIndirect 0 0] [i32 1, i32 41]) rfl rfl rfl (demo_table _ _) rfl rfl (by decide)
example := C51_type_mismatch (H := noHost) (m := demo [.callIndirect 1 0] [i32 0, i32 41]) (addr := 0) rfl rfl rfl (demo_table _ _) rfl rfl (by decide) rfl
  (by decide)
example := C51_enters (H := noHost) (m := demo [.callIndirect 0 0] [i32 0, i32 41]) (args := [i32 41]) (rest := []) (addr := 0) rfl rfl rfl (demo_table _ _)
  rfl rfl (by decide) (demo_func _ _) rfl (by decide)
example := C53_host_call (H := swapHost) (m := hostDemo ⟨[.i32, .i64], [.i64, .i32]⟩ [i64 2, i32 1, i32 9]) (args := [i32 1, i64 2]) (rest := [i32 9])
  (xs := [.int 1, .int 2]) (rets := [i64 2, i32 1]) rfl rfl rfl rfl rfl rfl
  (.cons (by decide) (.cons (by decide) .nil)) rfl (.cons (by decide) (.cons (by decide) .nil))
example := C53_bad_result_raises (H := bigHost) (m := hostDemo ⟨[], [.i32]⟩ []) (args := []) (rest := []) (xs := []) (ty := .i32) (y := .int (2 ^ 31))
  (e := .overflow) rfl rfl rfl rfl rfl rfl .nil rfl (by simp) (by decide)

end Pywasm.Props
