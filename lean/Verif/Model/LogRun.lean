import Verif.Model.LogDecode
import Verif.Model.File

/-!
# Model of what running prints, /repo/pywasm/core.py:1604-1721, 1795-1810 and 4148-4177 with /repo/pywasm/log.py

The functions below are those of `Model/Machine.lean`, `Model/Instance.lean` and `Model/File.lean` with the calls of
`debugln`; `lvl` is `pywasm.log.lvl` (log.py:3) and `fr` is `str` of a Python float, which is not modelled.
-/

namespace Pywasm

/-- `ValInst.__repr__`, core.py:82-99. -/
def Val.repr (fr : F64 → Str) (v : Val) : Except Err Str := do
  let body ← match v.ty with
    | .i32 => Py.reprInt v.intoI32
    | .i64 => Py.reprInt v.intoI64
    | .f32 => pure (fr v.intoF32)
    | .f64 => pure (fr v.intoF64)
    | .v128 => pure (v.data.flatMap fun b => [Py.hexDigit (b.toNat / 16), Py.hexDigit (b.toNat % 16)])
    | .funcref | .externref => if v.byte 4 = 0 then pure "null".toList else do Py.reprInt (← v.intoRef)
  return v.ty.repr ++ ' ' :: body

/-- The machine, and what has been printed. -/
structure Talk where
  m : Machine
  out : List Str

/-- Machine code that prints. -/
abbrev LM := EStateM Err Talk

namespace LM
/-- machine code that prints nothing -/
def quiet {α} (x : M α) : LM α := fun t =>
  match x t.m with
  | .ok a m => .ok a ⟨m, t.out⟩
  | .error e m => .error e ⟨m, t.out⟩
/-- printing -/
def say {α} (x : Log α) : LM α := fun t =>
  match x with
  | (l, .ok a) => .ok a ⟨t.m, t.out ++ l⟩
  | (l, .error e) => .error e ⟨t.m, t.out ++ l⟩
end LM

namespace Logged
open M LM

/-- One iteration of the loop of `evaluate` with at least one label, core.py:1799-1810. -/
def step (lvl : Int) (H : Host) : LM Unit := do
  let m ← quiet get
  let label ← quiet (idx m.label 0)
  let frame ← quiet topFrame
  if label.index = label.instr.length then quiet do
    modify fun m => { m with label := m.label.tail }
    if label.carry = .func then do
      assert (decide ((← get).value.length = frame.value + frame.arity))
      modify fun m => { m with frame := m.frame.tail }
    else pure ()
  else do
    let instr ← quiet (idx label.instr label.index)
    quiet (modify fun m => { m with label := { label with index := label.index + 1 } :: m.label.tail })
    say (logLine lvl "    " instr.single)
    quiet (exec H { label with index := label.index + 1 } frame instr)

/-- `evaluate`, core.py:1795-1810. -/
def evaluate (lvl : Int) (H : Host) : Nat → LM Unit
  | 0 => pure ()
  | n + 1 => do
    let m ← quiet get
    if m.label.isEmpty then pure ()
    else do
      step lvl H
      evaluate lvl H n

/-- `Machine.invocate`, core.py:1701-1721. -/
def invocate (fr : F64 → Str) (lvl : Int) (H : Host) (N : Nat) (addr : Int) (args : List Val) : LM (List Val) := do
  let m ← quiet get
  let func ← quiet (lift (Py.getItem m.store.func addr))
  match func with
  | .host _ _ => quiet (throw .assertion)
  | .wasm type mod code => do
    quiet (assert ((type.args.zip args).all fun p => decide (p.1 = p.2.ty)))
    quiet (modify fun m => { m with frame := ⟨{}, [], 0, 0, 0⟩ :: m.frame })
    say (logLine lvl "invocate" do
      let a ← Py.reprInt addr
      return a ++ ' ' :: Py.reprList (← args.mapM (Val.repr fr)))
    let locals := args ++ zeroLocals code.locals
    let m ← quiet get
    let module ← quiet (idx m.store.mods mod)
    quiet (modify fun m => { m with frame := ⟨module, locals, type.rets.length, 0, 0⟩ :: m.frame })
    quiet (modify fun m => { m with label := ⟨type.rets.length, 1, 0, .func, code.expr, 0⟩ :: m.label })
    evaluate lvl H N
    quiet do
      let rets ← popN type.rets.length
      assert ((type.rets.zip rets).all fun p => decide (p.1 = p.2.ty))
      if (← get).frame.isEmpty then throw .index
      modify fun m => { m with frame := m.frame.tail }
      assert (← get).frame.isEmpty
      assert (← get).label.isEmpty
      assert (← get).value.isEmpty
      return rets

/-- core.py:1628-1632 with `nval = 1`, 1660-1664 with `nval = 0` -/
def runInit (lvl : Int) (H : Host) (N : Nat) (expr : Expr) (nval : Nat) : LM Unit := do
  quiet (modify fun m => { m with label := ⟨1, 1, 0, .block, expr, 0⟩ :: m.label })
  evaluate lvl H N
  quiet do
    assert (decide ((← get).frame.length = 1))
    assert (← get).label.isEmpty
    assert (decide ((← get).value.length = nval))

/-- core.py:1628-1633 -/
def runConst (lvl : Int) (H : Host) (N : Nat) (expr : Expr) : LM Val := do
  runInit lvl H N expr 1
  quiet pop

/-- The second part of `Machine.instance`, core.py:1619-1649. -/
def buildInstance (lvl : Int) (H : Host) (N : Nat) (d : ModuleDesc) (bufs : List Nat) (extern : List Extern) : LM ModuleInst := do
  let nfunc := (← quiet get).store.func.length
  let auxmod : ModuleInst :=
    { func := externFuncs extern ++ (List.range d.func.length).map (nfunc + ·), glob := externGlobs extern }
  quiet (modify fun m => { m with frame := ⟨auxmod, [], 1, 0, 0⟩ :: m.frame })
  let globin ← d.glob.mapM fun e => do
    say (logLine lvl "init global" (.ok e.type.repr))
    runConst lvl H N e.init
  let elemin ← d.elem.mapM fun e => do
    say (logLine lvl "init elem" (Py.reprInt e.tidx))
    e.init.mapM fun f => runConst lvl H N f
  quiet (modify fun m => { m with frame := m.frame.tail })
  let newmod ← quiet (allocate d bufs extern globin elemin)
  quiet (assert (decide (newmod.func = auxmod.func)))
  return newmod

/-- The third part of `Machine.instance`, core.py:1651-1690. -/
def initSegments (lvl : Int) (H : Host) (N : Nat) (d : ModuleDesc) (bufs : List Nat) : LM Unit := do
  for (e, i) in d.elem.zipIdx do
    if e.kind % 2 = 0 then runInit lvl H N (elemInitExpr i e) 0
  for (e, i) in d.elem.zipIdx do
    if e.kind % 4 = 3 then runInit lvl H N [.elemDrop i] 0
  for (e, i) in d.data.zipIdx do
    say (logLine lvl "init data" (Py.reprInt 0))
    if e.kind % 2 = 0 then do
      let b ← quiet (idx bufs i)
      let m ← quiet get
      let init ← quiet (idx m.store.bufs b)
      runInit lvl H N (dataInitExpr i e init.length) 0

/-- The last part of `Machine.instance`, core.py:1691-1697. -/
def runStart (lvl : Int) (H : Host) (N : Nat) (d : ModuleDesc) : LM Unit :=
  match d.star with
  | some f => runInit lvl H N [.call f] 0
  | none => pure ()

/-- `Machine.instance`, core.py:1604-1699. -/
def instantiate (lvl : Int) (H : Host) (N : Nat) (d : ModuleDesc) (bufs : List Nat) (extern : List Extern) : LM ModuleInst := do
  quiet (linkImports d extern)
  let newmod ← buildInstance lvl H N d bufs extern
  quiet (modify fun m => { m with frame := ⟨newmod, [], 0, 0, 0⟩ :: m.frame })
  initSegments lvl H N d bufs
  runStart lvl H N d
  quiet (modify fun m => { m with frame := m.frame.tail })
  return newmod

/-- `Runtime.instance`, core.py:4148-4157. -/
def instance' (lvl : Int) (H : Host) (N : Nat) (imports : Imports) (d : ModuleDesc) (bufs : List Nat) : LM ModuleInst := do
  let extern ← quiet (d.imps.mapM fun e => lift (do lookup (← lookup imports e.module) e.name))
  instantiate lvl H N d bufs extern

/-- `Runtime.instance_from_file`, core.py:4159-4162. -/
def instanceFromFile (lvl : Int) (H : Host) (lim N : Nat) (imports : Imports) (file : Bytes) : LM ModuleInst := do
  let r ← say (fromReader lvl lim file)
  let b ← quiet (loadBuffers r.1)
  instance' lvl H N imports r.1 b

/-- `Runtime.invocate`, core.py:4164-4177. -/
def runtimeInvocate (fr : F64 → Str) (lvl : Int) (H : Host) (N : Nat) (mod : ModuleInst) (name : String) (args : List HVal) :
    LM (List HVal) := do
  let addr := (← quiet (lift (findExport mod name))).addr
  let m ← quiet get
  let func ← quiet (idx m.store.func addr)
  quiet (assert (decide (func.type.args.length = args.length)))
  let args ← quiet (lift ((func.type.args.zip args).mapM fun p => Val.fromAll p.1 p.2))
  let rets ← invocate fr lvl H N addr args
  quiet (lift (rets.mapM Val.intoAll))

end Logged
end Pywasm
