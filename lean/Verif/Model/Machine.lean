import Verif.Model.Store

/-!
# Model of `Label`, `Frame`, `Stack`, `Machine.evaluate*` and `Machine.invocate`

/repo/pywasm/core.py:1496-1551, 1701-2013, 2649-2661, 2718-2796, 3255-3316
-/

namespace Pywasm

/-- `Label.carry`, core.py:1500-1505: 0 (loop), 1 (block, if, constant expression), 3 (function body). -/
inductive Carry where
  | loop | block | func
  deriving DecidableEq, Repr

/-- `Label`, core.py:1496-1507. -/
structure Label where
  arity : Nat
  frame : Nat
  value : Nat
  carry : Carry
  instr : List Inst
  index : Nat

/-- `Frame`, core.py:1513-1523. `locals` is the list inside `LocalsInst` (753-757); every frame has its own list.
`module` is the `ModuleInst`; it is not changed once code can run, so it is kept by value. -/
structure Frame where
  module : ModuleInst
  locals : List Val
  arity : Nat
  label : Nat
  value : Nat

/-- `Machine` with its `Stack`, core.py:1529-1551. In the three stacks the head of the list is the top. -/
structure Machine where
  store : Store := {}
  value : List Val := []
  label : List Label := []
  frame : List Frame := []

/-- Machine code: exceptions keep the machine as it is when they are raised. -/
abbrev M := EStateM Err Machine

namespace M
/-- a computation on the operand stack -/
def vm {α} (c : VM α) : M α := fun m =>
  match c m.value with
  | .ok a s => .ok a { m with value := s }
  | .error e s => .error e { m with value := s }
/-- an expression that may raise but changes nothing -/
def lift {α} (e : Except Err α) : M α := fun m =>
  match e with
  | .ok a => .ok a m
  | .error e => .error e m
def assert (c : Bool) : M Unit := lift (Py.assert c)
/-- `l[i]` for a non-negative index. -/
def idx {α} (l : List α) (i : Nat) : M α := fun m =>
  match l[i]? with
  | some a => .ok a m
  | none => .error .index m
def pop : M Val := vm VM.pop
def push (v : Val) : M Unit := vm (VM.push v)
def popI32 : M Int := do let v ← pop; return v.intoI32
/-- `self.stack.value.pop().into_u32()`; the result is never negative. -/
def popU32 : M Nat := do let v ← pop; return v.intoU32.toNat
/-- `[self.stack.value.pop() for _ in range(n)][::-1]` -/
def popN : Nat → M (List Val)
  | 0 => pure []
  | n + 1 => do
    let v ← pop
    let r ← popN n
    return r ++ [v]
/-- `self.stack.value.extend(l)` -/
def extend (l : List Val) : M Unit := modify fun m => { m with value := l.reverse ++ m.value }
/-- `self.stack.frame[-1]` -/
def topFrame : M Frame := do idx (← get).frame 0
end M

/-- `l[:k]` of a Python list kept with its last element first, for `k ≥ 0`. -/
def keep {α} (k : Nat) (l : List α) : List α := l.drop (l.length - k)

open M

/-- `LocalsDesc` expansion `[ValInst.zero(e.type) for _ in range(e.n)]`, core.py:1709-1710 and 1756-1757. -/
def zeroLocals (l : List (Nat × ValType)) : List Val := l.flatMap fun e => List.replicate e.1 (Val.zero e.2)

/-- `evaluate_br`, core.py:1723-1736. -/
def evaluateBr (l : Nat) : M Unit := do
  assert (decide ((← get).label.length ≥ l + 1))
  let label ← idx (← get).label l
  assert (decide ((← get).value.length ≥ label.value + label.arity))
  let rets ← popN label.arity
  modify fun m => { m with frame := keep label.frame m.frame }
  modify fun m => { m with label := m.label.drop l }
  match label.carry with
  | .loop => modify fun m => { m with label := { label with index := 0 } :: m.label.tail }
  | _ => modify fun m => { m with label := m.label.tail }
  modify fun m => { m with value := keep label.value m.value }
  extend rets

/-- `evaluate_bype`, core.py:1738-1745. -/
def evaluateBype : Bype → M FuncType
  | .empty => return ⟨[], []⟩
  | .val t => return ⟨[], [t]⟩
  | .idx i => do
    let f ← topFrame
    lift (Py.getItem f.module.type i)

/-- `hostcode(self, args)`: the host function may change the store. -/
def callHost (H : Host) (c : Nat) (args : List HVal) : M (List HVal) := fun m =>
  match H c (m.frame.head?.map (·.module)) args m.store with
  | .ok a s => .ok a { m with store := s }
  | .error e s => .error e { m with store := s }

/-- `evaluate_call`, core.py:1747-1778. -/
def evaluateCall (H : Host) (addr : Int) : M Unit := do
  let func ← lift (Py.getItem (← get).store.func addr)
  let args ← popN func.type.args.length
  let nret := func.type.rets.length
  match func with
  | .wasm _ mod code => do
    assert (decide ((← get).frame.length < 1024))
    let locals := args ++ zeroLocals code.locals
    let module ← idx (← get).store.mods mod
    modify fun m => { m with frame := ⟨module, locals, nret, m.label.length, m.value.length⟩ :: m.frame }
    modify fun m => { m with label := ⟨nret, m.frame.length, m.value.length, .func, code.expr, 0⟩ :: m.label }
  | .host type code => do
    let hargs ← lift (args.mapM Val.intoAll)
    let rets ← callHost H code hargs
    let rets ← lift ((type.rets.zip rets).mapM fun p => Val.fromAll p.1 p.2)
    extend rets

/-- `self.store.mems[frame.module.mems[0]]`: the address and the object. -/
def theMem (f : Frame) : M (Nat × MemInst) := do
  let a ← idx f.module.mems 0
  let mem ← idx (← get).store.mems a
  return (a, mem)

/-- in-place update of a memory's `data` -/
def setMem (a : Nat) (mem : MemInst) : M Unit :=
  modify fun m => { m with store := { m.store with mems := m.store.mems.set a mem } }

/-- `self.store.tabl[frame.module.tabl[i]]` -/
def theTable (f : Frame) (i : Nat) : M (Nat × TableInst) := do
  let a ← idx f.module.tabl i
  let t ← idx (← get).store.tabl a
  return (a, t)

/-- in-place update of a table -/
def setTable (a : Nat) (t : TableInst) : M Unit :=
  modify fun m => { m with store := { m.store with tabl := m.store.tabl.set a t } }

/-- `evaluate_mem_load`, core.py:1780-1785. -/
def evaluateMemLoad (offset size : Nat) : M Bytes := do
  let (_, mem) ← theMem (← topFrame)
  let addr ← popU32
  let addr := addr + offset
  assert (decide (addr + size ≤ mem.data.length))
  return Py.slice mem.data addr (addr + size : Nat)

/-- `evaluate_mem_save`, core.py:1787-1793. -/
def evaluateMemSave (offset size : Nat) : M Unit := do
  let (a, mem) ← theMem (← topFrame)
  let data := (← pop).data
  let addr ← popU32
  let addr := addr + offset
  assert (decide (addr + size ≤ mem.data.length))
  setMem a { mem with data := Py.sliceSet mem.data addr (addr + size : Nat) (data.take size) }

/-- Number of bytes read, the second argument of `evaluate_mem_load` in core.py:1924-1965, 2794-2853, 3307-3316. -/
def LoadOp.size : LoadOp → Nat
  | i32_load => 4 | i64_load => 8 | f32_load => 4 | f64_load => 8
  | i32_load8_s => 1 | i32_load8_u => 1 | i32_load16_s => 2 | i32_load16_u => 2
  | i64_load8_s => 1 | i64_load8_u => 1 | i64_load16_s => 2 | i64_load16_u => 2
  | i64_load32_s => 4 | i64_load32_u => 4
  | v128_load => 16 | v128_load8x8_s => 8 | v128_load8x8_u => 8 | v128_load16x4_s => 8 | v128_load16x4_u => 8
  | v128_load32x2_s => 8 | v128_load32x2_u => 8
  | v128_load8_splat => 1 | v128_load16_splat => 2 | v128_load32_splat => 4 | v128_load64_splat => 8
  | v128_load32_zero => 4 | v128_load64_zero => 8

/-- The loops of core.py:2797-2841 that widen `cnt` groups of `k` bytes: `n - ((n & sign bit) << 1)` for the signed
forms, then `to_bytes(2k, ..., signed)`. -/
def loadWiden (signed : Bool) (k cnt : Nat) (a : Bytes) : Except Err Bytes := do
  let l ← (List.range cnt).mapM fun i => do
    let n := Py.fromBytesU (Py.slice a (i * k : Nat) (i * k + k : Nat))
    if signed then Py.toBytesS (2 * k) (n - Py.shl (Py.and n (2 ^ (8 * k - 1))) 1)
    else Py.toBytesU (2 * k) n
  return l.flatten

/-- `a * n` on a `bytearray` -/
def repeatBytes (n : Nat) (a : Bytes) : Bytes := (List.replicate n a).flatten

/-- The value built from the bytes read, core.py:1924-1965, 2794-2853, 3307-3316. -/
def LoadOp.make : LoadOp → Bytes → Except Err Val
  | i32_load, b => Val.make .i32 (b ++ Py.zeros 12)
  | i64_load, b => Val.make .i64 (b ++ Py.zeros 8)
  | f32_load, b => Val.make .f32 (b ++ Py.zeros 12)
  | f64_load, b => Val.make .f64 (b ++ Py.zeros 8)
  | i32_load8_s, b => do Val.fromI32 (← Py.unpackS 1 b)
  | i32_load8_u, b => do Val.fromI32 (← Py.unpackU 1 b)
  | i32_load16_s, b => do Val.fromI32 (← Py.unpackS 2 b)
  | i32_load16_u, b => do Val.fromI32 (← Py.unpackU 2 b)
  | i64_load8_s, b => do Val.fromI64 (← Py.unpackS 1 b)
  | i64_load8_u, b => do Val.fromI64 (← Py.unpackU 1 b)
  | i64_load16_s, b => do Val.fromI64 (← Py.unpackS 2 b)
  | i64_load16_u, b => do Val.fromI64 (← Py.unpackU 2 b)
  | i64_load32_s, b => do Val.fromI64 (← Py.unpackS 4 b)
  | i64_load32_u, b => do Val.fromI64 (← Py.unpackU 4 b)
  | v128_load, b => Val.fromV128 b
  | v128_load8x8_s, b => do Val.fromV128 (← loadWiden true 1 8 b)
  | v128_load8x8_u, b => do Val.fromV128 (← loadWiden false 1 8 b)
  | v128_load16x4_s, b => do Val.fromV128 (← loadWiden true 2 4 b)
  | v128_load16x4_u, b => do Val.fromV128 (← loadWiden false 2 4 b)
  | v128_load32x2_s, b => do Val.fromV128 (← loadWiden true 4 2 b)
  | v128_load32x2_u, b => do Val.fromV128 (← loadWiden false 4 2 b)
  | v128_load8_splat, b => Val.fromV128 (repeatBytes 16 b)
  | v128_load16_splat, b => Val.fromV128 (repeatBytes 8 b)
  | v128_load32_splat, b => Val.fromV128 (repeatBytes 4 b)
  | v128_load64_splat, b => Val.fromV128 (repeatBytes 2 b)
  | v128_load32_zero, b => Val.fromV128 (b ++ Py.zeros 12)
  | v128_load64_zero, b => Val.fromV128 (b ++ Py.zeros 8)

/-- Number of bytes written, core.py:1966-1983, 2854-2855. -/
def StoreOp.size : StoreOp → Nat
  | i32_store => 4 | i64_store => 8 | f32_store => 4 | f64_store => 8
  | i32_store8 => 1 | i32_store16 => 2 | i64_store8 => 1 | i64_store16 => 2 | i64_store32 => 4
  | v128_store => 16

/-- Pushing the label of a `block` or `if`, core.py:1817-1825 and 1840-1849. -/
def pushBlock (label : Label) (bt : FuncType) (body : List Inst) : M Unit := do
  assert (decide ((← get).value.length ≥ label.value + bt.args.length))
  modify fun m => { m with
    label := ⟨bt.rets.length, m.frame.length, m.value.length - bt.args.length, .block, body, 0⟩ :: m.label }

/-- The `match instr.opcode` of `evaluate`; `label` and `frame` are the Python locals of those names (core.py:1799-1800,
`label.index` already advanced).  The lines of each case are given before it. -/
def exec (H : Host) (label : Label) (frame : Frame) : Inst → M Unit
  -- 1811-1814
  | .unreachable => assert false
  | .nop => pure ()
  -- 1815-1825
  | .block bt body => do
    let bt ← evaluateBype bt
    pushBlock label bt body
  -- 1826-1836
  | .loop bt body => do
    let bt ← evaluateBype bt
    assert (decide ((← get).value.length ≥ label.value + bt.args.length))
    modify fun m => { m with
      label := ⟨bt.args.length, m.frame.length, m.value.length - bt.args.length, .loop, body, 0⟩ :: m.label }
  -- 1837-1849
  | .ifThen bt thn els => do
    let bt ← evaluateBype bt
    let cond ← popI32
    pushBlock label bt (if cond ≠ 0 then thn else els)
  -- 1850-1853
  | .elseFi => assert false
  | .endFi => assert false
  -- 1854-1855
  | .br l => evaluateBr l
  -- 1856-1858
  | .brIf l => do
    if (← popI32) ≠ 0 then evaluateBr l else pure ()
  -- 1859-1864
  | .brTable ls d => do
    let a ← popU32
    evaluateBr (ls.getD a d)
  -- 1865-1871
  | .ret => do
    assert (decide ((← get).value.length ≥ frame.value + frame.arity))
    let rets ← popN frame.arity
    modify fun m => { m with frame := m.frame.tail }
    modify fun m => { m with label := keep frame.label m.label }
    modify fun m => { m with value := keep frame.value m.value }
    extend rets
  -- 1872-1874
  | .call f => do
    let addr ← idx frame.module.func f
    evaluateCall H addr
  -- 1875-1880
  | .callIndirect t tab => do
    let (_, tabl) ← theTable frame tab
    let type ← idx frame.module.type t
    let i ← popU32
    let ref ← idx tabl.elem i
    let addr ← lift ref.intoRef
    let func ← lift (Py.getItem (← get).store.func addr)
    assert (decide (func.type = type))
    evaluateCall H addr
  -- 1881-1882
  | .drop => do let _ ← pop
  -- 1883-1888
  | .select => do
    let c ← popI32
    let b ← pop
    let a ← pop
    push (if c ≠ 0 then a else b)
  -- 1889-1896
  | .selectType ts => do
    let c ← popI32
    let b ← pop
    let a ← pop
    let t ← idx ts 0
    assert (decide (a.ty.code = t))
    assert (decide (b.ty.code = t))
    push (if c ≠ 0 then a else b)
  -- 1897-1899
  | .localGet i => do
    let f ← topFrame
    let a ← idx f.locals i
    push a
  -- 1900-1902
  | .localSet i => do
    let a ← pop
    setLocal i a
  -- 1903-1905
  | .localTee i => do
    let a ← idx (← get).value 0
    setLocal i a
  -- 1906-1908
  | .globalGet i => do
    let ga ← idx frame.module.glob i
    let g ← idx (← get).store.glob ga
    push g.data
  -- 1909-1912
  | .globalSet i => do
    let ga ← idx frame.module.glob i
    let g ← idx (← get).store.glob ga
    assert g.isMut
    let v ← pop
    modify fun m => { m with store := { m.store with glob := m.store.glob.set ga { g with data := v } } }
  -- 1913-1917
  | .tableGet i => do
    let (_, t) ← theTable frame i
    let a ← popU32
    let b ← idx t.elem a
    push b
  -- 1918-1923
  | .tableSet i => do
    let (ta, t) ← theTable frame i
    let a ← pop
    assert (decide (a.ty = t.type.type))
    let b ← popU32
    let e ← lift (Py.setItem t.elem b a)
    setTable ta { t with elem := e }
  -- 1924-1965, 2794-2853, 3307-3316
  | .load op _ offset => do
    let b ← evaluateMemLoad offset op.size
    let v ← lift (op.make b)
    push v
  -- 1966-1983, 2854-2855
  | .store op _ offset => evaluateMemSave offset op.size
  -- 3255-3282
  | .loadLane w _ offset lane => do
    let a := (← pop).intoV128
    let b ← evaluateMemLoad offset w.bytes
    let v ← lift (Val.make .v128 (Py.sliceSet a (w.bytes * lane : Nat) (w.bytes * lane + w.bytes : Nat) b ++ Py.zeros 0))
    push v
  -- 3283-3306
  | .storeLane w _ offset lane => do
    let a := (← pop).intoV128
    let v ← lift (Val.fromV128 (Py.sliceSet a 0 w.bytes
      (Py.slice a (w.bytes * lane : Nat) (w.bytes * lane + w.bytes : Nat))))
    push v
    evaluateMemSave offset w.bytes
  -- 1984-1987
  | .memorySize _ => do
    let (_, mem) ← theMem frame
    let v ← lift (Val.fromI32 mem.size)
    push v
  -- 1988-1999
  | .memoryGrow _ => do
    let (a, mem) ← theMem frame
    let size := mem.size
    let incr ← popU32
    if size + incr ≤ 1024 ∧ (mem.limits.m = 0 ∨ size + incr ≤ mem.limits.m) then do
      let mem ← lift (mem.grow incr)
      setMem a mem
      let v ← lift (Val.fromI32 size)
      push v
    else do
      let v ← lift (Val.fromI32 (-1))
      push v
  -- 2000-2013
  | .i32Const n => do push (← lift (Val.fromI32 n))
  | .i64Const n => do push (← lift (Val.fromI64 n))
  | .f32Const n => do push { (← lift (Val.fromI32 n)) with ty := .f32 }
  | .f64Const n => do push { (← lift (Val.fromI64 n)) with ty := .f64 }
  -- 2856-2858
  | .v128Const b => do push (← lift (Val.fromV128 b))
  -- 2649-2651
  | .refNull b => do
    let t ← lift (ValType.ofCode b)
    push (Val.zero t)
  -- 2652-2657
  | .refIsNull => do
    let a ← pop
    assert a.ty.isRef
    let v ← lift (Val.fromI32 (if a.byte 4 = 0 then 1 else 0))
    push v
  -- 2658-2661
  | .refFunc f => do
    let a ← idx frame.module.func f
    let v ← lift (Val.fromRef .funcref a)
    push v
  -- 2718-2726
  | .memoryInit i => do
    let (a, mem) ← theMem frame
    let da ← idx frame.module.data i
    let buf ← idx (← get).store.data da
    let data ← idx (← get).store.bufs buf
    let n ← popU32
    let s ← popU32
    let d ← popU32
    assert (decide (s + n ≤ data.length))
    assert (decide (d + n ≤ mem.data.length))
    setMem a { mem with data := Py.sliceSet mem.data d (d + n : Nat) (Py.slice data s (s + n : Nat)) }
  -- 2727-2729
  | .dataDrop i => do
    let da ← idx frame.module.data i
    let buf ← idx (← get).store.data da
    modify fun m => { m with store := { m.store with bufs := m.store.bufs.set buf [] } }
  -- 2730-2737
  | .memoryCopy => do
    let (a, mem) ← theMem frame
    let n ← popU32
    let s ← popU32
    let d ← popU32
    assert (decide (s + n ≤ mem.data.length))
    assert (decide (d + n ≤ mem.data.length))
    setMem a { mem with data := Py.sliceSet mem.data d (d + n : Nat) (Py.slice mem.data s (s + n : Nat)) }
  -- 2738-2745
  | .memoryFill => do
    let (a, mem) ← theMem frame
    let n ← popU32
    let s := (← pop).byte 0
    let d ← popU32
    assert (decide (d + n ≤ mem.data.length))
    setMem a { mem with data := (List.range n).foldl (fun l i => l.set (d + i) s) mem.data }
  -- 2746-2754
  | .tableInit e t => do
    let (ta, tabl) ← theTable frame t
    let ea ← idx frame.module.elem e
    let elem ← idx (← get).store.elem ea
    let n ← popU32
    let s ← popU32
    let d ← popU32
    assert (decide (s + n ≤ elem.data.length))
    assert (decide (d + n ≤ tabl.elem.length))
    setTable ta { tabl with elem := Py.sliceSet tabl.elem d (d + n : Nat) (Py.slice elem.data s (s + n : Nat)) }
  -- 2755-2760
  | .elemDrop e => do
    let ea ← idx frame.module.elem e
    let elem ← idx (← get).store.elem ea
    modify fun m => { m with store := { m.store with elem := m.store.elem.set ea { elem with data := [] } } }
  -- 2761-2769
  | .tableCopy x y => do
    let (xa, tabx) ← theTable frame x
    let (_, taby) ← theTable frame y
    let n ← popU32
    let s ← popU32
    let d ← popU32
    assert (decide (s + n ≤ taby.elem.length))
    assert (decide (d + n ≤ tabx.elem.length))
    setTable xa { tabx with elem := Py.sliceSet tabx.elem d (d + n : Nat) (Py.slice taby.elem s (s + n : Nat)) }
  -- 2770-2781
  | .tableGrow t => do
    let (ta, tabl) ← theTable frame t
    let size := tabl.size
    let incr ← popU32
    let init ← pop
    if size + incr ≤ 1024 ∧ (tabl.type.limits.m = 0 ∨ size + incr ≤ tabl.type.limits.m) then do
      let tabl ← lift (tabl.grow incr init)
      setTable ta tabl
      let v ← lift (Val.fromI32 size)
      push v
    else do
      let v ← lift (Val.fromI32 (-1))
      push v
  -- 2782-2785
  | .tableSize t => do
    let (_, tabl) ← theTable frame t
    let v ← lift (Val.fromI32 tabl.size)
    push v
  -- 2786-2793
  | .tableFill t => do
    let (ta, tabl) ← theTable frame t
    let n ← popU32
    let s ← pop
    let d ← popU32
    assert (decide (d + n ≤ tabl.elem.length))
    setTable ta { tabl with elem := (List.range n).foldl (fun l i => l.set (d + i) s) tabl.elem }
  | .num op => vm (evalNum op)
where
  /-- `self.stack.frame[-1].locals.data[i] = a` -/
  setLocal (i : Nat) (a : Val) : M Unit := do
    let f ← topFrame
    let l ← lift (Py.setItem f.locals i a)
    modify fun m => { m with frame := { f with locals := l } :: m.frame.tail }

/-- One iteration of the loop of `evaluate` with at least one label, core.py:1799-1810. -/
def step (H : Host) : M Unit := do
  let label ← idx (← get).label 0
  let frame ← topFrame
  if label.index = label.instr.length then do
    modify fun m => { m with label := m.label.tail }
    if label.carry = .func then do
      assert (decide ((← get).value.length = frame.value + frame.arity))
      modify fun m => { m with frame := m.frame.tail }
    else pure ()
  else do
    let instr ← idx label.instr label.index
    modify fun m => { m with label := { label with index := label.index + 1 } :: m.label.tail }
    exec H { label with index := label.index + 1 } frame instr

/-- `evaluate`, core.py:1795-1810, with the number of loop iterations as a parameter (`1 << 32` in the code). When the
budget is used up the Python loop simply ends. -/
def evaluate (H : Host) : Nat → M Unit
  | 0 => pure ()
  | n + 1 => do
    if (← get).label.isEmpty then pure ()
    else do
      step H
      evaluate H n

/-- The literal of `for _ in range(1 << 32)`, core.py:1796. -/
def budget : Nat := 2 ^ 32

/-- `Machine.invocate`, core.py:1701-1721, with the budget of `evaluate` as a parameter.
`locals = LocalsInst(args)` extends the caller's list in place; the caller does not use it again
(core.py:4175-4177), so that effect is not modelled. -/
def invocate (H : Host) (N : Nat) (addr : Int) (args : List Val) : M (List Val) := do
  let func ← lift (Py.getItem (← get).store.func addr)
  match func with
  | .host _ _ => throw .assertion
  | .wasm type mod code => do
    assert ((type.args.zip args).all fun p => decide (p.1 = p.2.ty))
    modify fun m => { m with frame := ⟨{}, [], 0, 0, 0⟩ :: m.frame }
    let locals := args ++ zeroLocals code.locals
    let module ← idx (← get).store.mods mod
    modify fun m => { m with frame := ⟨module, locals, type.rets.length, 0, 0⟩ :: m.frame }
    modify fun m => { m with label := ⟨type.rets.length, 1, 0, .func, code.expr, 0⟩ :: m.label }
    evaluate H N
    let rets ← popN type.rets.length
    assert ((type.rets.zip rets).all fun p => decide (p.1 = p.2.ty))
    if (← get).frame.isEmpty then throw .index
    modify fun m => { m with frame := m.frame.tail }
    assert (← get).frame.isEmpty
    assert (← get).label.isEmpty
    assert (← get).value.isEmpty
    return rets

end Pywasm
