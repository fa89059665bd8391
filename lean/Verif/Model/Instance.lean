import Verif.Model.Module
import Verif.Model.Machine

/-!
# Model of `Store.allocate_*`, `Machine.allocate`, `Machine.instance` and `Runtime`

/repo/pywasm/core.py:1453-1493, 1553-1699, 4110-4177
-/

namespace Pywasm
open M

/-- The `bytearray` objects of a decoded module's data segments: a fresh buffer on the heap for every segment
(core.py:1252-1260 creates one `bytearray` per `DataDesc`).  Returns their addresses. -/
def loadBuffers (d : ModuleDesc) : M (List Nat) := fun m =>
  .ok ((List.range d.data.length).map (m.store.bufs.length + ·))
    { m with store := { m.store with bufs := m.store.bufs ++ d.data.map (·.init) } }

/-- change the module instance object `k` in place -/
def editMod (k : Nat) (f : ModuleInst → ModuleInst) : M Unit :=
  modify fun m => { m with store := { m.store with mods := m.store.mods.modify k f } }

/-- `allocate_func_wasm`, core.py:1453-1458 (`k` is the module object). -/
def allocateFuncWasm (k : Nat) (f : FuncDesc) : M Nat := do
  let addr := (← get).store.func.length
  let mod ← idx (← get).store.mods k
  let type ← idx mod.type f.type
  modify fun m => { m with store := { m.store with func := m.store.func ++ [.wasm type k f] } }
  return addr
/-- `allocate_func_host`, core.py:1460-1463. -/
def allocateFuncHost (type : FuncType) (code : Nat) : M Nat := do
  let addr := (← get).store.func.length
  modify fun m => { m with store := { m.store with func := m.store.func ++ [.host type code] } }
  return addr
/-- `allocate_table`, core.py:1465-1469. -/
def allocateTable (t : TableType) : M Nat := do
  let addr := (← get).store.tabl.length
  let inst ← lift (TableInst.make t)
  modify fun m => { m with store := { m.store with tabl := m.store.tabl ++ [inst] } }
  return addr
/-- `allocate_memory`, core.py:1471-1475. -/
def allocateMemory (l : Limits) : M Nat := do
  let addr := (← get).store.mems.length
  let inst ← lift (MemInst.make l)
  modify fun m => { m with store := { m.store with mems := m.store.mems ++ [inst] } }
  return addr
/-- `allocate_global`, core.py:1477-1481. -/
def allocateGlobal (t : GlobalType) (v : Val) : M Nat := do
  let addr := (← get).store.glob.length
  modify fun m => { m with store := { m.store with glob := m.store.glob ++ [⟨v, t.isMut⟩] } }
  return addr
/-- `allocate_elem`, core.py:1483-1487; `ElemInst.__init__` asserts a reference type (1217). -/
def allocateElem (t : ValType) (l : List Val) : M Nat := do
  let addr := (← get).store.elem.length
  assert t.isRef
  modify fun m => { m with store := { m.store with elem := m.store.elem ++ [⟨t, l⟩] } }
  return addr
/-- `allocate_data`, core.py:1489-1493; the buffer is shared, not copied. -/
def allocateData (buf : Nat) : M Nat := do
  let addr := (← get).store.data.length
  modify fun m => { m with store := { m.store with data := m.store.data ++ [buf] } }
  return addr

/-- `match e.kind` of core.py:1562-1571. -/
def addExtern (i : ModuleInst) : Extern → ModuleInst
  | .func a => { i with func := i.func ++ [a] }
  | .table a => { i with tabl := i.tabl ++ [a] }
  | .mem a => { i with mems := i.mems ++ [a] }
  | .glob a => { i with glob := i.glob ++ [a] }

/-- `match e.kind` of core.py:1592-1600. -/
def resolveExport (i : ModuleInst) (e : ExportDesc) : M Extern :=
  match e.kind with
  | .func => return .func (← idx i.func e.desc)
  | .table => return .table (← idx i.tabl e.desc)
  | .mem => return .mem (← idx i.mems e.desc)
  | .glob => return .glob (← idx i.glob e.desc)

/-- `Machine.allocate`, core.py:1553-1602; `bufs` are the buffers of the module's data segments. -/
def allocate (d : ModuleDesc) (bufs : List Nat) (extern : List Extern) (globin : List Val) (elemin : List (List Val)) :
    M ModuleInst := do
  let k := (← get).store.mods.length
  modify fun m => { m with store := { m.store with mods := m.store.mods ++ [{ type := d.type }] } }
  for e in extern do
    editMod k (addExtern · e)
  for e in d.func do
    let addr ← allocateFuncWasm k e
    editMod k fun i => { i with func := i.func ++ [addr] }
  for e in d.tabl do
    let addr ← allocateTable e
    editMod k fun i => { i with tabl := i.tabl ++ [addr] }
  for e in d.mems do
    let addr ← allocateMemory e
    editMod k fun i => { i with mems := i.mems ++ [addr] }
  for (e, i) in d.glob.zipIdx do
    let addr ← allocateGlobal e.type (← idx globin i)
    editMod k fun i => { i with glob := i.glob ++ [addr] }
  for (e, i) in d.elem.zipIdx do
    let addr ← allocateElem e.type (← idx elemin i)
    editMod k fun i => { i with elem := i.elem ++ [addr] }
  for (_, i) in d.data.zipIdx do
    let addr ← allocateData (← idx bufs i)
    editMod k fun i => { i with data := i.data ++ [addr] }
  for e in d.exps do
    let x ← resolveExport (← idx (← get).store.mods k) e
    editMod k fun i => { i with exps := i.exps ++ [⟨e.name, x⟩] }
  idx (← get).store.mods k

/-- The import checks of core.py:1606-1618. -/
def checkImport (d : ModuleDesc) (a : Import) (b : Extern) : M Unit := do
  match a.desc, b with
  | .func t, .func b => do
    let f ← idx (← get).store.func b
    let t ← idx d.type t
    assert (decide (f.type = t))
  | .table t, .table b => do
    let x ← idx (← get).store.tabl b
    assert (decide (x.type.type = t.type))
    assert (x.suit t.limits)
  | .mem l, .mem b => do
    let x ← idx (← get).store.mems b
    assert (x.suit l)
  | .glob t, .glob b => do
    let x ← idx (← get).store.glob b
    assert (decide (x.data.ty = t.type))
    assert (decide (x.isMut = t.isMut))
  | _, _ => assert false

/-- Push a `Label(1, 1, 0, 1, expr, 0)`, run, and check the stacks (core.py:1628-1632 with `nval = 1`, 1660-1664 with
`nval = 0`). -/
def runInit (H : Host) (N : Nat) (expr : Expr) (nval : Nat) : M Unit := do
  modify fun m => { m with label := ⟨1, 1, 0, .block, expr, 0⟩ :: m.label }
  evaluate H N
  assert (decide ((← get).frame.length = 1))
  assert (← get).label.isEmpty
  assert (decide ((← get).value.length = nval))

/-- core.py:1628-1633 -/
def runConst (H : Host) (N : Nat) (expr : Expr) : M Val := do
  runInit H N expr 1
  pop

/-- `[e.data for e in extern if e.kind == 0x00]` -/
def externFuncs (l : List Extern) : List Nat := l.filterMap fun | .func a => some a | _ => none
/-- `[e.data for e in extern if e.kind == 0x03]` -/
def externGlobs (l : List Extern) : List Nat := l.filterMap fun | .glob a => some a | _ => none

/-- core.py:1654-1659: the code that copies an active element segment. -/
def elemInitExpr (i : Nat) (e : ElemDesc) : Expr :=
  e.offset ++ [.i32Const 0, .i32Const e.init.length, .tableInit i e.tidx, .elemDrop i]
/-- core.py:1679-1684: the code that copies an active data segment; `len` is `len(e.init)`. -/
def dataInitExpr (i : Nat) (e : DataDesc) (len : Nat) : Expr :=
  e.offset ++ [.i32Const 0, .i32Const len, .memoryInit i, .dataDrop i]

/-- The first part of `Machine.instance`, core.py:1605-1618: the imports are checked. -/
def linkImports (d : ModuleDesc) (extern : List Extern) : M Unit := do
  assert (decide (d.imps.length = extern.length))
  for (a, b) in d.imps.zip extern do
    checkImport d a b

/-- The second part of `Machine.instance`, core.py:1619-1649: initialisers are evaluated and the instance is allocated. -/
def buildInstance (H : Host) (N : Nat) (d : ModuleDesc) (bufs : List Nat) (extern : List Extern) : M ModuleInst := do
  let nfunc := (← get).store.func.length
  let auxmod : ModuleInst :=
    { func := externFuncs extern ++ (List.range d.func.length).map (nfunc + ·), glob := externGlobs extern }
  modify fun m => { m with frame := ⟨auxmod, [], 1, 0, 0⟩ :: m.frame }
  let globin ← d.glob.mapM fun e => runConst H N e.init
  let elemin ← d.elem.mapM fun e => e.init.mapM fun f => runConst H N f
  modify fun m => { m with frame := m.frame.tail }
  let newmod ← allocate d bufs extern globin elemin
  assert (decide (newmod.func = auxmod.func))
  return newmod

/-- The third part of `Machine.instance`, core.py:1651-1690: segments are copied. -/
def initSegments (H : Host) (N : Nat) (d : ModuleDesc) (bufs : List Nat) : M Unit := do
  for (e, i) in d.elem.zipIdx do
    if e.kind % 2 = 0 then runInit H N (elemInitExpr i e) 0
  for (e, i) in d.elem.zipIdx do
    if e.kind % 4 = 3 then runInit H N [.elemDrop i] 0
  for (e, i) in d.data.zipIdx do
    if e.kind % 2 = 0 then do
      let b ← idx bufs i
      let init ← idx (← get).store.bufs b
      runInit H N (dataInitExpr i e init.length) 0

/-- The last part of `Machine.instance`, core.py:1691-1697. -/
def runStart (H : Host) (N : Nat) (d : ModuleDesc) : M Unit :=
  match d.star with
  | some f => runInit H N [.call f] 0
  | none => pure ()

/-- `Machine.instance`, core.py:1604-1699. -/
def instantiate (H : Host) (N : Nat) (d : ModuleDesc) (bufs : List Nat) (extern : List Extern) : M ModuleInst := do
  linkImports d extern
  let newmod ← buildInstance H N d bufs extern
  modify fun m => { m with frame := ⟨newmod, [], 0, 0, 0⟩ :: m.frame }
  initSegments H N d bufs
  runStart H N d
  modify fun m => { m with frame := m.frame.tail }
  return newmod

/-- `Runtime.imports`, core.py:4115: a dictionary of dictionaries. -/
abbrev Imports := List (String × List (String × Extern))

/-- `d[k]` on a dictionary given as an association list: `KeyError`. -/
def lookup {α} (d : List (String × α)) (k : String) : Except Err α :=
  match List.lookup k d with
  | some v => .ok v
  | none => .error .key

/-- `Runtime.instance`, core.py:4148-4157. -/
def Runtime.instance (H : Host) (N : Nat) (imports : Imports) (d : ModuleDesc) (bufs : List Nat) : M ModuleInst := do
  let extern ← d.imps.mapM fun e => lift (do lookup (← lookup imports e.module) e.name)
  instantiate H N d bufs extern

/-- `[e for e in module.exps if e.name == name][0].data` -/
def findExport (mod : ModuleInst) (name : String) : Except Err Extern :=
  match mod.exps.filter (fun e => e.name = name) with
  | e :: _ => .ok e.data
  | [] => .error .index

/-- `Extern.data` -/
def Extern.addr : Extern → Nat
  | func a | table a | mem a | glob a => a

/-- `Runtime.exported_memory`, core.py:4134-4139: returns the memory object, here its address. -/
def Runtime.exportedMemory (mod : ModuleInst) (name : String) : M Nat := do
  match ← lift (findExport mod name) with
  | .mem a => do
    let _ ← idx (← get).store.mems a
    return a
  | _ => throw .assertion

/-- `Runtime.exported_global`, core.py:4141-4146. -/
def Runtime.exportedGlobal (mod : ModuleInst) (name : String) : M Nat := do
  match ← lift (findExport mod name) with
  | .glob a => do
    let _ ← idx (← get).store.glob a
    return a
  | _ => throw .assertion

/-- `Runtime.invocate`, core.py:4164-4177. The kind of the export is not looked at (4172). -/
def Runtime.invocate (H : Host) (N : Nat) (mod : ModuleInst) (name : String) (args : List HVal) : M (List HVal) := do
  let addr := (← lift (findExport mod name)).addr
  let func ← idx (← get).store.func addr
  assert (decide (func.type.args.length = args.length))
  let args ← lift ((func.type.args.zip args).mapM fun p => Val.fromAll p.1 p.2)
  let rets ← Pywasm.invocate H N addr args
  lift (rets.mapM Val.intoAll)

end Pywasm
