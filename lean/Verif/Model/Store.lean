import Verif.Model.Inst
import Verif.Model.WasiTypes

/-!
# Model of the store: memories, tables, globals, segments, functions

/repo/pywasm/core.py:855-1018, 1075-1082, 1124-1130, 1212-1219, 1264-1268, 1397-1493
-/

namespace Pywasm

/-- `MemInst`, core.py:855-873. `MemType` (840-848) only wraps `Limits`. -/
structure MemInst where
  limits : Limits
  data : Bytes
  size : Nat

/-- `TableInst`, core.py:948-962. -/
structure TableInst where
  type : TableType
  elem : List Val
  size : Nat

/-- `GlobalInst`, core.py:1007-1014. -/
structure GlobalInst where
  data : Val
  isMut : Bool

/-- `ElemInst`, core.py:1212-1219. -/
structure ElemInst where
  type : ValType
  data : List Val

/-- `Extern`, core.py:1075-1082: a kind and a store address. -/
inductive Extern where
  | func (a : Nat) | table (a : Nat) | mem (a : Nat) | glob (a : Nat)
  deriving DecidableEq, Repr

/-- `ExportInst`, core.py:1124-1130. -/
structure ExportInst where
  name : String
  data : Extern
  deriving DecidableEq, Repr

/-- `ModuleInst`, core.py:1397-1409. -/
structure ModuleInst where
  type : List FuncType := []
  func : List Nat := []
  tabl : List Nat := []
  mems : List Nat := []
  glob : List Nat := []
  elem : List Nat := []
  data : List Nat := []
  exps : List ExportInst := []
  deriving DecidableEq, Repr

/-- `FuncInst`, core.py:1412-1419, and `FuncHost`, core.py:1425-1434.
The module of a `FuncInst` is a reference to a `ModuleInst` object: an index into `Store.mods`.
The code of a host function is a Python callable: an index into the environment `Host`. -/
inductive FuncInst where
  | wasm (type : FuncType) (module : Nat) (code : FuncDesc)
  | host (type : FuncType) (code : Nat)

/-- `func.type` -/
def FuncInst.type : FuncInst → FuncType
  | wasm t _ _ => t
  | host t _ => t

/-- `Store`, core.py:1440-1451.
Two heaps are added so that Python's object sharing can be expressed: `mods` holds the `ModuleInst` objects and `bufs`
the `bytearray` objects of data segments.  A `DataInst` (core.py:1264-1268) is a reference to a `bytearray` that it
shares with the `DataDesc` it was made from (core.py:1588), so `data` holds indices into `bufs`.
`wasi` and `priv` are not part of pywasm's `Store`: they hold the private state of the Python objects whose methods are
host functions, so that host functions with a memory of their own can be expressed.  `wasi` is a `Preview1` object and
`priv` stands for any other (finitely encoded) state.  Only host functions read or change them. -/
structure Store where
  func : List FuncInst := []
  tabl : List TableInst := []
  mems : List MemInst := []
  glob : List GlobalInst := []
  elem : List ElemInst := []
  data : List Nat := []
  mods : List ModuleInst := []
  bufs : List Bytes := []
  wasi : Wasi.World := {}
  priv : List Nat := []

/-- The embedder's host functions. They receive the module instance of the running frame
(`m.stack.frame[-1].module`) and the arguments, and may read and change the store (pywasm passes the machine; a host
function that edits the machine's stacks is outside the model; one that re-enters `invocate` is in `Model/Reentry.lean`). -/
abbrev Host := Nat → Option ModuleInst → List HVal → EStateM Err Store (List HVal)

/-- One page, the literal `64 * 1024` of core.py:900. -/
def pageSize : Nat := 65536

/-- `MemInst.grow`, core.py:896-901. `bytearray.extend` and the size update happen after the assertions. -/
def MemInst.grow (m : MemInst) (n : Nat) : Except Err MemInst := do
  if m.limits.m ≠ 0 then Py.assert (decide (m.size + n ≤ m.limits.m)) else pure ()
  Py.assert (decide (m.size + n ≤ 65536))
  return { m with data := m.data ++ Py.zeros (n * pageSize), size := m.size + n }

/-- `MemInst.__init__`, core.py:869-873. -/
def MemInst.make (l : Limits) : Except Err MemInst := MemInst.grow ⟨l, [], 0⟩ l.n

/-- `MemInst.suit`, core.py:925-926. -/
def MemInst.suit (m : MemInst) (l : Limits) : Bool := (Limits.mk m.size m.limits.m).suit l

/-- `TableInst.grow`, core.py:964-969. -/
def TableInst.grow (t : TableInst) (n : Nat) (v : Val) : Except Err TableInst := do
  if t.type.limits.m ≠ 0 then Py.assert (decide (t.size + n ≤ t.type.limits.m)) else pure ()
  Py.assert (decide (v.ty = t.type.type))
  return { t with elem := t.elem ++ List.replicate n v, size := t.size + n }

/-- `TableInst.__init__`, core.py:958-962. -/
def TableInst.make (t : TableType) : Except Err TableInst := TableInst.grow ⟨t, [], 0⟩ t.limits.n (Val.zero t.type)

/-- `TableInst.suit`, core.py:971-972. -/
def TableInst.suit (t : TableInst) (l : Limits) : Bool := (Limits.mk t.size t.type.limits.m).suit l

/-- `MemInst.get`, core.py:893-894; addresses are Python integers. -/
def MemInst.get (m : MemInst) (addr size : Int) : Bytes := Py.slice m.data addr (addr + size)
/-- `MemInst.put`, core.py:921-923. -/
def MemInst.put (m : MemInst) (addr : Int) (d : Bytes) : MemInst :=
  { m with data := Py.sliceSet m.data addr (addr + d.length) d }
/-- `MemInst.get_u8`, core.py:881-882. -/
def MemInst.getU8 (m : MemInst) (addr : Int) : Except Err Int := do return (← Py.getItem m.data addr).toNat
/-- `MemInst.get_u16/get_u32/get_u64`, core.py:884-891 (`k` = 2, 4, 8). -/
def MemInst.getU (k : Nat) (m : MemInst) (addr : Int) : Except Err Int := Py.unpackU k (Py.slice m.data addr (addr + k))
/-- `MemInst.get_i32/get_i64`, core.py:875-879 (`k` = 4, 8). -/
def MemInst.getI (k : Nat) (m : MemInst) (addr : Int) : Except Err Int := Py.unpackS k (Py.slice m.data addr (addr + k))
/-- `MemInst.put_u8`, core.py:909-910: `bytearray.__setitem__`, `ValueError` when the byte is out of range
(the index is checked first). -/
def MemInst.putU8 (m : MemInst) (addr : Int) (v : Int) : Except Err MemInst := do
  let d ← Py.setItem m.data addr (UInt8.ofNat v.toNat)
  if 0 ≤ v ∧ v < 256 then return { m with data := d } else throw .value
/-- `MemInst.put_u16/put_u32/put_u64`, core.py:912-919 (`k` = 2, 4, 8). -/
def MemInst.putU (k : Nat) (m : MemInst) (addr : Int) (v : Int) : Except Err MemInst := do
  let b ← Py.packU k v
  return { m with data := Py.sliceSet m.data addr (addr + k) b }
/-- `MemInst.put_i32/put_i64`, core.py:903-907 (`k` = 4, 8). -/
def MemInst.putI (k : Nat) (m : MemInst) (addr : Int) (v : Int) : Except Err MemInst := do
  let b ← Py.packS k v
  return { m with data := Py.sliceSet m.data addr (addr + k) b }

end Pywasm
