import Verif.Props.Call
import Verif.Lemmas.Steps
import Verif.Spec.Invoke
import Verif.Spec.Returns

/-!
# C20, C21, C23, C55: `Runtime.invocate`
-/

namespace Pywasm.Props
open Spec M

variable {H : Host} {N : Nat} {m m' : Machine}

theorem mapM_length {α β} {f : α → Except Err β} {l : List α} {r : List β} (h : l.mapM f = .ok r) : r.length = l.length := by
  induction l generalizing r with
  | nil => rw [List.mapM_nil] at h; cases h; rfl
  | cons a l ih =>
    rw [List.mapM_cons] at h
    cases ha : f a with
    | error e => rw [ha] at h; cases h
    | ok b =>
      cases hl : l.mapM f with
      | error e => rw [ha, hl] at h; cases h
      | ok bs => rw [ha, hl] at h; cases h; simp [ih hl]

theorem invocate_wp (addr : Nat) (args : List Val) :
    Wp (invocate H N addr args) (fun rets m' => Clean m' ∧ ∃ t k mod code m1,
      m.store.func[addr]? = some (.wasm t k code) ∧ m.store.mods[k]? = some mod ∧ rets.length = t.rets.length ∧
      Steps H (started m t mod code args) m1 ∧ m1.label = [] ∧ m1.frame.length = 1 ∧ m1.value = rets.reverse ∧
      m'.store = m1.store) (fun _ => True) m := by
  unfold invocate
  apply wp_bind; apply wp_get; apply wp_bind
  apply wp_lift _ trivial
  intro func hf
  cases hfn : m.store.func[addr]? with
  | none =>
    rw [Py.getItem_none (List.getElem?_eq_none_iff.mp hfn)] at hf; cases hf
  | some fn =>
    rw [Py.getItem_some hfn] at hf; injection hf with hf; subst hf
    cases fn with
    | host _ _ => exact wp_throw trivial
    | wasm t k code =>
      apply wp_bind; apply wp_assert _ trivial; intro _
      apply wp_bind; apply wp_modify
      apply wp_bind; apply wp_get
      apply wp_bind; apply wp_idx _ trivial; intro mod hmod
      apply wp_bind; apply wp_modify
      apply wp_bind; apply wp_modify
      apply wp_bind
      refine wp_mono evaluate_steps (fun _ m1 h1 => ?_) (fun _ _ => trivial)
      apply wp_bind; apply wp_popN _ (fun _ => trivial); intro rets s hl hv
      apply wp_bind; apply wp_assert _ trivial; intro _
      apply wp_bind; apply wp_get
      apply wp_ite
      · intro _; apply wp_bind; exact wp_throw trivial
      intro hne
      apply wp_bind; apply wp_modify
      apply wp_bind; apply wp_get
      apply wp_bind; apply wp_assert _ trivial; intro e1
      apply wp_bind; apply wp_get
      apply wp_bind; apply wp_assert _ trivial; intro e2
      apply wp_bind; apply wp_get
      apply wp_bind; apply wp_assert _ trivial; intro e3
      apply wp_pure
      simp only [List.isEmpty_iff] at e1 e2 e3 hne
      refine ⟨⟨e1, e2, e3⟩, t, k, mod, code, m1, rfl, hmod, hl, h1, e2, ?_, by rw [hv, e3, List.append_nil], rfl⟩
      cases hfr : m1.frame with
      | nil => exact absurd hfr hne
      | cons f fs => rw [hfr] at e1; simp at e1; simp [e1]

/-- Inversion of a successful `Runtime.invocate`. -/
theorem invocate_ok {mod : ModuleInst} {name : String} {xs ys : List HVal}
    (h : Runtime.invocate H N mod name xs m = .ok ys m') :
    ∃ ex args rets, findExport mod name = .ok ex ∧ Pywasm.invocate H N ex.addr args m = .ok rets m' ∧
      rets.mapM Val.intoAll = .ok ys ∧ ∃ fn, m.store.func[ex.addr]? = some fn ∧ fn.type.args.length = xs.length ∧
        (fn.type.args.zip xs).mapM (fun p => Val.fromAll p.1 p.2) = .ok args := by
  unfold Runtime.invocate at h
  cases hx : findExport mod name with
  | error e => rw [hx, bind_lift_err] at h; cases h
  | ok ex =>
    rw [hx, bind_lift_ok, bind_get_run] at h
    cases hfn : m.store.func[ex.addr]? with
    | none => rw [bind_idx_none hfn] at h; cases h
    | some fn =>
      rw [bind_idx_some hfn] at h
      by_cases hl : fn.type.args.length = xs.length
      · rw [bind_assert_pos hl] at h
        cases ha : (fn.type.args.zip xs).mapM (fun p => Val.fromAll p.1 p.2) with
        | error e => rw [ha, bind_lift_err] at h; cases h
        | ok args =>
          rw [ha, bind_lift_ok, bind_run] at h
          cases hi : Pywasm.invocate H N ex.addr args m with
          | error e m1 => simp [hi] at h
          | ok rets m1 =>
            simp only [hi] at h
            cases hr : rets.mapM Val.intoAll with
            | error e => rw [hr, lift_err] at h; cases h
            | ok ys' =>
              rw [hr, lift_ok] at h; cases h
              exact ⟨ex, args, rets, rfl, hi, hr, fn, hfn, hl, ha⟩
      · rw [bind_assert_neg hl] at h; cases h

/-- **C20** When `Runtime.invocate` returns normally all stacks are empty and there are as many results as the type of
the called function declares. -/
theorem C20_clean_and_arity {mod : ModuleInst} {name : String} {xs ys : List HVal} {a : Nat} {fn : FuncInst}
    (hx : ExportsFunc mod name a) (hf : m.store.func[a]? = some fn)
    (h : Runtime.invocate H N mod name xs m = .ok ys m') : Clean m' ∧ ys.length = fn.type.rets.length := by
  obtain ⟨ex, args, rets, he, hi, hr, _⟩ := invocate_ok h
  have : ex = .func a := by
    unfold ExportsFunc at hx
    unfold findExport at he
    rw [← List.head?_filter] at hx
    cases hl : mod.exps.filter (fun e => e.name = name) with
    | nil => rw [hl] at hx; cases hx
    | cons e es => rw [hl] at hx he; cases hx; cases he; rfl
  subst this
  have := invocate_wp (H := H) (N := N) (m := m) a args
  unfold Wp at this
  change Pywasm.invocate H N a args m = .ok rets m' at hi
  rw [hi] at this
  obtain ⟨hc, t, k, mod', code, m1, h1, _, hl, _⟩ := this
  rw [hf] at h1; cases h1
  exact ⟨hc, by rw [mapM_length hr, hl]; rfl⟩

/-- **C55** A normal return of `Machine.invocate`, with whatever iteration budget, means that the function has returned:
executing instructions from its first one led to a state with no label and only the placeholder frame left, with exactly
the results on the operand stack. -/
theorem C55_returns_only_when_done {addr : Nat} {args rets : List Val} (h : Pywasm.invocate H N addr args m = .ok rets m') :
    ∃ t k mod code m1, m.store.func[addr]? = some (.wasm t k code) ∧ m.store.mods[k]? = some mod ∧
      Steps H (started m t mod code args) m1 ∧ m1.label = [] ∧ m1.frame.length = 1 ∧ m1.value = rets.reverse ∧
      m'.store = m1.store := by
  have := invocate_wp (H := H) (N := N) (m := m) addr args
  unfold Wp at this
  rw [h] at this
  obtain ⟨_, t, k, mod', code, m1, h1, h2, _, h3⟩ := this
  exact ⟨t, k, mod', code, m1, h1, h2, h3⟩

/-- **C23** An unknown export name raises and changes nothing. -/
theorem C23_unknown_export {mod : ModuleInst} {name : String} {xs : List HVal}
    (hx : mod.exps.find? (fun e => e.name = name) = none) : ∃ e, Runtime.invocate H N mod name xs m = .error e m := by
  refine ⟨.index, ?_⟩
  unfold Runtime.invocate findExport
  rw [← List.head?_filter, List.head?_eq_none_iff] at hx
  rw [hx]; rfl

theorem findExport_func {mod : ModuleInst} {name : String} {a : Nat} (hx : ExportsFunc mod name a) :
    findExport mod name = .ok (.func a) := by
  unfold ExportsFunc at hx
  unfold findExport
  rw [← List.head?_filter] at hx
  cases hl : mod.exps.filter (fun e => e.name = name) with
  | nil => rw [hl] at hx; cases hx
  | cons e es => rw [hl] at hx; cases hx; rfl

/-- **C23** The wrong number of arguments raises and changes nothing. -/
theorem C23_wrong_arity {mod : ModuleInst} {name : String} {xs : List HVal} {a : Nat} {fn : FuncInst}
    (hx : ExportsFunc mod name a) (hf : m.store.func[a]? = some fn) (hn : xs.length ≠ fn.type.args.length) :
    ∃ e, Runtime.invocate H N mod name xs m = .error e m := by
  refine ⟨.assertion, ?_⟩
  unfold Runtime.invocate
  rw [findExport_func hx, bind_lift_ok, bind_get_run, bind_idx_some (show m.store.func[(Extern.func a).addr]? = some fn from hf),
    bind_assert_neg (Ne.symm hn)]

/-- **C23** An argument its parameter type cannot hold raises and changes nothing. -/
theorem C23_bad_argument {mod : ModuleInst} {name : String} {xs : List HVal} {a : Nat} {fn : FuncInst} {ty : ValType}
    {x : HVal} {e : Err} (hx : ExportsFunc mod name a) (hf : m.store.func[a]? = some fn)
    (hmem : (ty, x) ∈ fn.type.args.zip xs) (hbad : Val.fromAll ty x = .error e) :
    ∃ e, Runtime.invocate H N mod name xs m = .error e m := by
  by_cases hn : xs.length = fn.type.args.length
  · obtain ⟨e, he⟩ := mapM_raises (f := fun p : ValType × HVal => Val.fromAll p.1 p.2) hmem hbad
    refine ⟨e, ?_⟩
    unfold Runtime.invocate
    rw [findExport_func hx, bind_lift_ok, bind_get_run,
      bind_idx_some (show m.store.func[(Extern.func a).addr]? = some fn from hf), bind_assert_pos hn.symm, he, bind_lift_err]
  · exact C23_wrong_arity hx hf hn

/-- **C23** When guest code does run, the export exists, the argument count fits, every argument was converted by its
parameter type in order, and every result by its own. -/
theorem C23_conversion {mod : ModuleInst} {name : String} {xs ys : List HVal} {a : Nat} (hx : ExportsFunc mod name a)
    (h : Runtime.invocate H N mod name xs m = .ok ys m') :
    ∃ fn args rets, m.store.func[a]? = some fn ∧ fn.type.args.length = xs.length ∧
      List.Forall₂ (fun (p : ValType × HVal) v => Val.fromAll p.1 p.2 = .ok v) (fn.type.args.zip xs) args ∧
      Pywasm.invocate H N a args m = .ok rets m' ∧ List.Forall₂ (fun v y => v.intoAll = .ok y) rets ys := by
  obtain ⟨ex, args, rets, he, hi, hr, fn, h1, h2, h3⟩ := invocate_ok h
  rw [findExport_func hx] at he; cases he
  have key : ∀ {α β : Type} (f : α → Except Err β) (l : List α) (r : List β), l.mapM f = .ok r →
      List.Forall₂ (fun a b => f a = .ok b) l r := by
    intro α β f l
    induction l with
    | nil => intro r h; rw [List.mapM_nil] at h; cases h; exact .nil
    | cons a l ih =>
      intro r h
      rw [List.mapM_cons] at h
      cases ha : f a with
      | error e => rw [ha] at h; cases h
      | ok b =>
        cases hl : l.mapM f with
        | error e => rw [ha, hl] at h; cases h
        | ok bs => rw [ha, hl] at h; cases h; exact .cons ha (ih _ hl)
  exact ⟨fn, args, rets, h1, h2, key _ _ _ h3, hi, key _ _ _ hr⟩

/-! Concrete cases: `demoFunc` is `n ↦ n + 1`. -/

def exportModule : ModuleInst := { demoModule with exps := [⟨"f", .func 0⟩, ⟨"memory", .mem 0⟩] }
/-- What an invocation of an export of `exportModule` on a fresh machine with `demoStore` returns. -/
def invoke (m : Machine) (name : String) (xs : List HVal) : Option (List HVal) :=
  match Runtime.invocate noHost 100 exportModule name xs m with
  | .ok ys _ => some ys
  | .error _ _ => none
def demoFresh : Machine := { store := demoStore }

example : ExportsFunc exportModule "f" 0 ∧ demoFresh.store.func[0]? = some demoFunc := ⟨by unfold ExportsFunc; decide, rfl⟩
example : invoke demoFresh "f" [.int 41] = some [.int 42] := by decide
example : invoke demoFresh "f" [] = none := by decide
example : invoke demoFresh "f" [.int (2 ^ 32)] = none := by decide
example : invoke demoFresh "g" [] = none := by decide

/-- The kind of the export is not looked at: invoking the exported *memory* runs the function that happens to have the
same address.  This part of C23 is false. -/
theorem C23_kind_unchecked_false : ∃ (m : Machine) (mod : ModuleInst), mod.exps.find? (fun e => e.name = "memory") = some ⟨"memory", .mem 0⟩ ∧
    ∃ m', Runtime.invocate noHost 100 mod "memory" [.int 41] m = .ok [.int 42] m' := by
  refine ⟨demoFresh, exportModule, by decide, ?_⟩
  have h : invoke demoFresh "memory" [.int 41] = some [.int 42] := by decide
  unfold invoke at h
  cases hx : Runtime.invocate noHost 100 exportModule "memory" [.int 41] demoFresh with
  | ok ys m' => rw [hx] at h; cases h; exact ⟨m', rfl⟩
  | error e m' => rw [hx] at h; cases h

/-! ## C21 -/

/-- `(func $trap unreachable)` and `(func $one (result i32) (i32.const 1))`. -/
def trapStore : Store where
  func := [.wasm ⟨[], []⟩ 0 ⟨0, [], [.unreachable]⟩, .wasm ⟨[], [.i32]⟩ 0 ⟨1, [], [.i32Const 1]⟩]
  mods := [{ type := [⟨[], []⟩, ⟨[], [.i32]⟩], func := [0, 1], exps := [⟨"trap", .func 0⟩, ⟨"one", .func 1⟩] }]
def trapModule : ModuleInst :=
  { type := [⟨[], []⟩, ⟨[], [.i32]⟩], func := [0, 1], exps := [⟨"trap", .func 0⟩, ⟨"one", .func 1⟩] }

def outcome (m : Machine) (name : String) : Option (List HVal) × Nat × Nat :=
  match Runtime.invocate noHost 100 trapModule name [] m with
  | .ok ys m' => (some ys, m'.frame.length, m'.label.length)
  | .error _ m' => (none, m'.frame.length, m'.label.length)

/-- **C21** is false: `one` returns 1 on a fresh machine, but after `trap` has trapped (without changing the store) the
same call raises, because the stacks still hold the frames and the label of the trapped invocation. -/
theorem C21_trap_poisons_false :
    outcome { store := trapStore } "one" = (some [.int 1], 0, 0) ∧
    outcome { store := trapStore } "trap" = (none, 2, 1) ∧
    outcome (final (Runtime.invocate noHost 100 trapModule "trap" []) { store := trapStore }) "one" = (none, 3, 0) := by
  refine ⟨by decide, by decide, by decide⟩

/-- `(func $bad (block unreachable (br 0)) (global.set 0 (i32.const 1)))` and `(func $nop)`. -/
def zombieStore : Store where
  func := [.wasm ⟨[], []⟩ 0 ⟨0, [], [.block .empty [.unreachable, .br 0], .i32Const 1, .globalSet 0]⟩, .wasm ⟨[], []⟩ 0 ⟨0, [], []⟩]
  glob := [⟨i32 0, true⟩]
  mods := [{ type := [⟨[], []⟩], func := [0, 1], glob := [0], exps := [⟨"bad", .func 0⟩, ⟨"nop", .func 1⟩] }]
def zombieModule : ModuleInst :=
  { type := [⟨[], []⟩], func := [0, 1], glob := [0], exps := [⟨"bad", .func 0⟩, ⟨"nop", .func 1⟩] }

/-- The results, if it returns, and the globals. -/
def zombieRun (m : Machine) (name : String) : Option (List HVal) × List Val :=
  match Runtime.invocate noHost 100 zombieModule name [] m with
  | .ok ys m' => (some ys, m'.store.glob.map (·.data))
  | .error _ m' => (none, m'.store.glob.map (·.data))

/-- **C21** is false in a worse way: after `bad` has trapped at its first instruction, a call of the empty function `nop` returns as if
nothing had happened, but it has executed the code of `bad` behind the trap and set the global. -/
theorem C21_trapped_code_goes_on_false :
    zombieRun { store := zombieStore } "nop" = (some [], [i32 0]) ∧
    zombieRun { store := zombieStore } "bad" = (none, [i32 0]) ∧
    zombieRun (final (Runtime.invocate noHost 100 zombieModule "bad" []) { store := zombieStore }) "nop" = (some [], [i32 1]) := by
  refine ⟨by decide +kernel, by decide +kernel, by decide +kernel⟩

/-! ## The hypotheses are met -/

theorem exports_f : ExportsFunc exportModule "f" 0 := by unfold ExportsFunc; decide
example := (returns (x := Runtime.invocate noHost 100 exportModule "f" [.int 41]) (m := demoFresh) (by decide)).imp fun _ => Exists.imp fun _ h =>
  C20_clean_and_arity (fn := demoFunc) exports_f rfl h
example := (returns (x := Pywasm.invocate noHost 100 0 [i32 41]) (m := demoFresh) (by decide)).imp fun _ => Exists.imp fun _ h =>
  C55_returns_only_when_done h
example := C23_unknown_export (H := noHost) (N := 100) (m := demoFresh) (mod := exportModule) (name := "g") (xs := []) (by decide)
example := C23_wrong_arity (H := noHost) (N := 100) (m := demoFresh) (xs := []) exports_f rfl (by decide)
example := C23_bad_argument (H := noHost) (N := 100) (m := demoFresh) (xs := [.int (2 ^ 32)]) (ty := .i32) (x := .int (2 ^ 32)) (e := .overflow)
  exports_f rfl (by decide) (by decide)
example := (returns (x := Runtime.invocate noHost 100 exportModule "f" [.int 41]) (m := demoFresh) (by decide)).imp fun _ => Exists.imp fun _ h =>
  C23_conversion exports_f h

end Pywasm.Props
