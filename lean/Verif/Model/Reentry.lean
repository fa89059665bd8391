import Verif.Model.Machine

/-!
# Host functions that call back

`evaluate_call` passes the machine to the host function (core.py:1774), so a host function can call `m.invocate` while an
invocation is running.  `Model/Machine.lean` has host functions that change the store only.  Here they may call back.

The functions below are those of `Model/Machine.lean` with the host call replaced, and they report whether a host function
has called back.
-/

namespace Pywasm.Reentry
open M

/-- What a host function does: it may read and change the store, invoke functions through the machine, and it returns or
raises.  `attempt` is `try: r = m.invocate(addr, args); k(r)` with an `except` clause `h` for the exceptions of the invocation.
Simplification: it does not touch the stacks, and an `except` clause covers one invocation. -/
inductive HostProg where
  | ret (rets : List HVal)
  | raise (e : Err)
  | store (f : Store → Store) (k : Store → HostProg)
  | invocate (addr : Int) (args : List Val) (k : List Val → HostProg)
  | attempt (addr : Int) (args : List Val) (k : List Val → HostProg) (h : Err → HostProg)

/-- The host functions: the code number, the module of the current frame and the arguments give what is done (cf.
`Pywasm.Host`). -/
abbrev Host := Nat → Option ModuleInst → List HVal → HostProg

/-- Running a host function. `inv` is `Machine.invocate`.  The flag tells whether it has been called. -/
def HostProg.run (inv : Int → List Val → M (List Val × Bool)) : HostProg → M (List HVal × Bool)
  | .ret rets => return (rets, false)
  | .raise e => throw e
  | .store f k => do
    let s := (← get).store
    modify fun m => { m with store := f s }
    (k s).run inv
  | .invocate addr args k => do
    let r ← inv addr args
    let x ← (k r.1).run inv
    return (x.1, true)
  | .attempt addr args k h => fun m =>
    match inv addr args m with
    | .ok r m => (do let x ← (k r.1).run inv; return (x.1, true) : M (List HVal × Bool)) m
    | .error e m => (do let x ← (h e).run inv; return (x.1, true) : M (List HVal × Bool)) m

section
variable (host : Nat → List HVal → M (List HVal × Bool))

/-- `evaluate_call`, core.py:1747-1778. -/
def evaluateCall (addr : Int) : M Bool := do
  let func ← lift (Py.getItem (← get).store.func addr)
  match func with
  | .wasm _ _ _ => do
    Pywasm.evaluateCall (fun _ _ _ => throw .assertion) addr
    return false
  | .host type code => do
    let args ← popN type.args.length
    let hargs ← lift (args.mapM Val.intoAll)
    let (rets, called) ← host code hargs
    let rets ← lift ((type.rets.zip rets).mapM fun p => Val.fromAll p.1 p.2)
    extend rets
    return called

/-- The instructions, core.py:1811-4107: the two that call, 1872-1880, and the others as in `Pywasm.exec`. -/
def exec (label : Label) (frame : Frame) : Inst → M Bool
  | .call f => do
    let addr ← idx frame.module.func f
    evaluateCall host addr
  | .callIndirect t tab => do
    let (_, tabl) ← theTable frame tab
    let type ← idx frame.module.type t
    let i ← popU32
    let ref ← idx tabl.elem i
    let addr ← lift ref.intoRef
    let func ← lift (Py.getItem (← get).store.func addr)
    assert (decide (func.type = type))
    evaluateCall host addr
  | i => do
    Pywasm.exec (fun _ _ _ => throw .assertion) label frame i
    return false

/-- One iteration of the loop of `evaluate`, core.py:1799-1810. -/
def step : M Bool := do
  let label ← idx (← get).label 0
  let frame ← topFrame
  if label.index = label.instr.length then do
    modify fun m => { m with label := m.label.tail }
    if label.carry = .func then do
      assert (decide ((← get).value.length = frame.value + frame.arity))
      modify fun m => { m with frame := m.frame.tail }
      return false
    else return false
  else do
    let instr ← idx label.instr label.index
    modify fun m => { m with label := { label with index := label.index + 1 } :: m.label.tail }
    exec host { label with index := label.index + 1 } frame instr

/-- `evaluate`, core.py:1795-1810. -/
def evaluate : Nat → M Bool
  | 0 => return false
  | n + 1 => do
    if (← get).label.isEmpty then return false
    else do
      let a ← step host
      let b ← evaluate n
      return a || b

/-- `Machine.invocate`, core.py:1701-1721. -/
def invocateWith (N : Nat) (addr : Int) (args : List Val) : M (List Val × Bool) := do
  let func ← lift (Py.getItem (← get).store.func addr)
  match func with
  | .host _ _ => throw .assertion
  | .wasm type mod code => do
    assert ((type.args.zip args).all fun p => decide (p.1 = p.2.ty))
    modify fun m => { m with frame := ⟨{}, [], 0, 0, 0⟩ :: m.frame }
    let locals := args ++ zeroLocals code.locals
    let module ← idx (← get).store.mods mod
    modify fun m => { m with frame := ⟨module, locals, type.rets.length, 0, 0⟩ :: m.frame }
    modify fun m => { m with label := ⟨type.rets.length, 1, 0, .func, code.expr, 0⟩ :: m.label }
    let called ← evaluate host N
    let rets ← popN type.rets.length
    assert ((type.rets.zip rets).all fun p => decide (p.1 = p.2.ty))
    if (← get).frame.isEmpty then throw .index
    modify fun m => { m with frame := m.frame.tail }
    assert (← get).frame.isEmpty
    assert (← get).label.isEmpty
    assert (← get).value.isEmpty
    return (rets, called)
end

/-- `Machine.invocate` with host functions that may call it again.  `lim` bounds the nesting of invocations, as Python's
recursion limit does. -/
def invocate (H : Host) (N : Nat) : Nat → Int → List Val → M (List Val × Bool)
  | 0, _, _ => throw .recursion
  | lim + 1, addr, args => invocateWith (fun c xs => do
      let mod := (← get).frame.head?.map (·.module)
      (H c mod xs).run (invocate H N lim)) N addr args

end Pywasm.Reentry
