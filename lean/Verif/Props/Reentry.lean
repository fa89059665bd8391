import Verif.Lemmas.Reentry
import Verif.Spec.Returns

/-!
# C70: host functions that call back

A host function receives the machine, so it can invoke exported functions while an invocation is running.  The inner
invocation should return what it returns when it is made alone, and the outer one should then go on.  It does not: both
invocations use the same stacks, and `invocate` asserts that they are empty at the end.
-/

namespace Pywasm.Props
open M Reentry

/-! ## A program -/

/-- `g` is `(func (result i32) i32.const 7)`, `host` is imported, and `f` is `(func (result i32) call $host)`. -/
def reStore : Store where
  func := [.wasm ⟨[], [.i32]⟩ 0 ⟨0, [], [.i32Const 7]⟩, .host ⟨[], [.i32]⟩ 0, .wasm ⟨[], [.i32]⟩ 0 ⟨0, [], [.call 1]⟩]
  mods := [{ type := [⟨[], [.i32]⟩], func := [0, 1, 2], exps := [⟨"g", .func 0⟩, ⟨"f", .func 2⟩] }]

/-- The host function that returns what `g` returns. -/
def callsBack : Reentry.Host := fun _ _ _ => .invocate 0 [] fun
  | [v] => .ret [.int v.intoI32]
  | _ => .raise .assertion

/-- The host function that returns 7 by itself. -/
def returnsSeven : Reentry.Host := fun _ _ _ => .ret [.int 7]

/-- The values returned and whether there was a callback, or the exception. -/
def reOutcome (H : Reentry.Host) (addr : Int) : Except Err (List Int × Bool) :=
  match Reentry.invocate H 100 10 addr [] { store := reStore } with
  | .ok r _ => .ok (r.1.map Val.intoI32, r.2)
  | .error e _ => .error e

/-- **C70** is false: `g` returns 7, and so does `f` if the host function returns 7; if the host function calls `g` for it,
`f` raises. -/
theorem C70_callback_false :
    reOutcome callsBack 0 = .ok ([7], false) ∧
    reOutcome returnsSeven 2 = .ok ([7], false) ∧
    reOutcome callsBack 2 = .error .assertion := by
  refine ⟨by decide +kernel, by decide +kernel, by decide +kernel⟩

/-- `g` does nothing, `host` is imported, of type `(result i32)`, and `f` is `(func (result i32) call $host i32.const 5 return)`. -/
def catchStore : Store where
  func := [.wasm ⟨[], []⟩ 0 ⟨0, [], []⟩, .host ⟨[], [.i32]⟩ 0,
    .wasm ⟨[], [.i32]⟩ 0 ⟨0, [], [.call 1, .i32Const 5, .ret]⟩]
  mods := [{ type := [⟨[], []⟩, ⟨[], [.i32]⟩], func := [0, 1, 2], exps := [⟨"g", .func 0⟩, ⟨"f", .func 2⟩] }]

/-- The host function that calls `g`, catches what this raises, and returns 7. -/
def catches : Reentry.Host := fun _ _ _ => .attempt 0 [] (fun _ => .ret [.int 7]) fun _ => .ret [.int 7]

/-- **C70** fails worse for a host function that catches the exception of its callback: `f` of `catchStore` returns 5 if the host function
returns 7, and returns 7 if the host function calls the empty function `g` before it returns 7.  (The callback has executed the rest of
`f` with a stack frame of its own.) -/
theorem C70_caught_callback_false :
    (match Reentry.invocate returnsSeven 100 10 2 [] { store := catchStore } with
      | .ok r _ => r.1.map Val.intoI32 | .error _ _ => []) = [5] ∧
    (match Reentry.invocate catches 100 10 2 [] { store := catchStore } with
      | .ok r _ => r.1.map Val.intoI32 | .error _ _ => []) = [7] := by
  refine ⟨by decide +kernel, by decide +kernel⟩

/-- **C70**, how it fails: an invocation during which a host function has made an invocation never returns, whatever the
program, the arguments, the state of the machine and the host functions, as long as these do not catch what their callbacks raise. -/
theorem C70_callback_never_returns (H : Reentry.Host) (hH : NoCatch H) (N lim : Nat) (addr : Int) (args : List Val) (m m' : Machine)
    (rets : List Val) (called : Bool) (h : Reentry.invocate H N lim addr args m = .ok (rets, called) m') : called = false := by
  have := invocate_wp H hH N lim addr args m
  unfold Wp at this
  rw [h] at this
  exact this.1

/-- **C70**, the part that holds: the invocations that return and in which no host function calls back are those of a machine whose host
functions raise where they would call back.  So all theorems about `Pywasm.invocate` hold for them. -/
theorem C70_without_callbacks_partial (H : Reentry.Host) (N lim : Nat) (addr : Int) (args : List Val) (m m' : Machine)
    (rets : List Val) : Reentry.invocate H N (lim + 1) addr args m = .ok (rets, false) m' ↔
      Pywasm.invocate (plain H) N addr args m = .ok rets m' := invocate_iff' H N lim addr args m m' rets

/-- **C70**, likewise: with host functions that do not catch what their callbacks raise, these are all the invocations that return. -/
theorem C70_returning_partial (H : Reentry.Host) (hH : NoCatch H) (N lim : Nat) (addr : Int) (args : List Val) (m m' : Machine)
    (rets : List Val) : (∃ called, Reentry.invocate H N (lim + 1) addr args m = .ok (rets, called) m') ↔
      Pywasm.invocate (plain H) N addr args m = .ok rets m' :=
  ⟨fun ⟨_, h⟩ => ((invocate_iff H hH N lim addr args m m' rets _).1 h).2,
   fun h => ⟨false, (invocate_iff H hH N lim addr args m m' rets false).2 ⟨rfl, h⟩⟩⟩

theorem returnsSeven_noCatch : NoCatch returnsSeven := fun _ _ _ => trivial
theorem callsBack_noCatch : NoCatch callsBack := fun _ _ _ r => by
  dsimp only
  split <;> trivial

/-- There are such invocations. -/
example : ∃ v m', Pywasm.invocate (plain returnsSeven) 100 2 [] { store := reStore } = .ok [v] m' ∧ v.intoI32 = 7 := by
  have h := C70_callback_false.2.1
  unfold reOutcome at h
  split at h
  · rename_i r m' hx
    injection h with h
    injection h with h h2
    obtain ⟨l, c⟩ := r
    match l, h with
    | [v], h => exact ⟨v, m', (C70_returning_partial _ returnsSeven_noCatch 100 9 _ _ _ _ _).1 ⟨c, hx⟩, by simpa using h⟩
  · cases h

/-! ## The hypotheses are met -/

example : ∃ rets called m', Reentry.invocate returnsSeven 100 10 2 [] { store := reStore } = .ok (rets, called) m' ∧ called = false := by
  obtain ⟨r, m', h⟩ := Spec.returns (x := Reentry.invocate returnsSeven 100 10 2 []) (m := { store := reStore }) (by decide +kernel)
  exact ⟨r.1, r.2, m', h, C70_callback_never_returns _ returnsSeven_noCatch _ _ _ _ _ _ _ _ h⟩

/-- The invocation of `g` made while `f` of `reStore` runs is never followed by a return of `f`. -/
example := C70_callback_never_returns callsBack callsBack_noCatch 100 10 2 [] { store := reStore }
example := C70_without_callbacks_partial catches 100 9 0 [] { store := catchStore } { store := catchStore } []
example : Pywasm.invocate (plain catches) 100 0 [] { store := catchStore } = .ok [] { store := catchStore } := rfl

end Pywasm.Props
