import Verif.Model.Leb128
import Verif.Model.Disasm
import Verif.Model.Module

/-!
# Model of the binary decoder, /repo/pywasm/core.py:325-334, 364-708, 725-733, 748-750, 778-785, 808-814, 834-837,
850-852, 943-945, 987-989, 1002-1004, 1029-1031, 1059-1073, 1116-1121, 1153-1209, 1245-1261, 1303-1394

A file is the list of its bytes (`Reader`).  Python's recursion limit is a parameter: `lim` is the number of nested
calls of `Inst.from_reader` that fit below it; one more raises `RecursionError`.  (The frames of the helper functions
called from the innermost `Inst.from_reader` are not counted.)  Logging (`debugln`, `into_disasm`) is not modelled.
-/

namespace Pywasm
open Reader

/-- `pywasm.leb128.u.decode_reader(r)[0]` -/
def Reader.uleb : Reader Nat := do
  let p ← Leb128.uDecodeReader
  pure p.1.toNat

/-- `pywasm.leb128.i.decode_reader(r)[0]` -/
def Reader.ileb : Reader Int := do
  let p ← Leb128.iDecodeReader
  pure p.1

/-- raise or go on with a value computed without the reader -/
def Reader.liftE {α} (x : Except Err α) : Reader α := fun s =>
  match x with
  | .ok a => .ok (a, s)
  | .error e => .error e

/-- `[rd(r) for _ in range(n)]` -/
def Reader.times {α} (rd : Reader α) : Nat → Reader (List α)
  | 0 => pure []
  | n + 1 => do
    let a ← rd
    let as ← times rd n
    pure (a :: as)

/-- `[rd(r) for _ in range(pywasm.leb128.u.decode_reader(r)[0])]` -/
def Reader.vec {α} (rd : Reader α) : Reader (List α) := do
  let n ← uleb
  times rd n

/-- `data.decode()`: strict UTF-8, `UnicodeDecodeError` is a `ValueError`. -/
def Py.decodeUtf8 (b : Bytes) : Except Err String :=
  match String.fromUTF8? ⟨b.toArray⟩ with
  | some s => .ok s
  | none => .error .value

/-- `r.read(pywasm.leb128.u.decode_reader(r)[0]).decode()`, core.py:1030-1031, 1062-1063, 1064-1065, 1118 -/
def Reader.name : Reader String := do
  let n ← uleb
  let b ← read n
  liftE (Py.decodeUtf8 b)

/-- `ValType.from_reader`, core.py:64-66. -/
def ValType.fromReader : Reader ValType := do
  let b ← ordByte
  liftE (ValType.ofCode b.toNat)

/-- `Bype.from_reader`, core.py:326-334; `r.seek(-1, 1)` is the reader before the byte was read. -/
def Bype.fromReader : Reader Bype := fun s =>
  match ordByte s with
  | .error e => .error e
  | .ok (n, s') =>
    if n = 0x40 then .ok (.empty, s')
    else match ValType.ofCode n.toNat with
      | .ok t => .ok (.val t, s')
      | .error _ => (do let i ← ileb; pure (Bype.idx i)) s

/-- The number of an opcode given its first byte, core.py:366-369; `int.from_bytes` is big-endian. -/
def opcodeNumber (b : UInt8) : Reader Nat :=
  if 0xfc ≤ b.toNat then do
    let n ← uleb
    let e := Leb128.uEncodeNat n
    pure ((b :: e).foldl (fun a x => a * 256 + x.toNat) 0)
  else pure b.toNat

/-- The bound on the alignment immediate of a load, core.py:430-486, 565-608, 702-707; `none`: not checked. -/
def LoadOp.alignBound : LoadOp → Option Nat
  | .i32_load => some 3 | .i64_load => some 4 | .f32_load => some 3 | .f64_load => some 4
  | .i32_load8_s => some 1 | .i32_load8_u => some 1 | .i32_load16_s => some 2 | .i32_load16_u => some 2
  | .i64_load8_s => some 1 | .i64_load8_u => some 1 | .i64_load16_s => some 2 | .i64_load16_u => some 2
  | .i64_load32_s => some 3 | .i64_load32_u => some 3
  | .v128_load => some 5
  | .v128_load8x8_s => some 4 | .v128_load8x8_u => some 4 | .v128_load16x4_s => some 4 | .v128_load16x4_u => some 4
  | .v128_load32x2_s => some 4 | .v128_load32x2_u => some 4
  | .v128_load8_splat => some 1 | .v128_load16_splat => some 2 | .v128_load32_splat => some 3
  | .v128_load64_splat => some 4
  | .v128_load32_zero => none | .v128_load64_zero => none

/-- The bound on the alignment immediate of a store, core.py:487-522, 609-612. -/
def StoreOp.alignBound : StoreOp → Nat
  | .i32_store => 3 | .i64_store => 4 | .f32_store => 3 | .f64_store => 4
  | .i32_store8 => 1 | .i32_store16 => 2 | .i64_store8 => 1 | .i64_store16 => 2 | .i64_store32 => 3
  | .v128_store => 5

/-- The bound on the lane immediate, core.py:620-661. -/
def LOp.laneBound : LOp → Nat
  | .i8x16_extract_lane_s => 16 | .i8x16_extract_lane_u => 16 | .i8x16_replace_lane => 16
  | .i16x8_extract_lane_s => 8 | .i16x8_extract_lane_u => 8 | .i16x8_replace_lane => 8
  | .i32x4_extract_lane => 4 | .i32x4_replace_lane => 4
  | .i64x2_extract_lane => 2 | .i64x2_replace_lane => 2
  | .f32x4_extract_lane => 4 | .f32x4_replace_lane => 4
  | .f64x2_extract_lane => 2 | .f64x2_replace_lane => 2

/-- The bound on the lane immediate of lane loads and stores, core.py:662-701. -/
def LaneW.laneBound : LaneW → Nat
  | .w8 => 16 | .w16 => 8 | .w32 => 4 | .w64 => 2

/-- The loop that reads instructions up to `end`, core.py:376-380, 384-388, 728-732; `n` turns are left. -/
def readBody (rd : Reader Inst) : Nat → Reader (List Inst)
  | 0 => pure []
  | n + 1 => do
    let i ← rd
    match i with
    | .endFi => pure []
    | i => do
      let is ← readBody rd n
      pure (i :: is)

/-- The loop of `if`, core.py:394-401; `e` says whether `argidx` is 2. -/
def readIf (rd : Reader Inst) : Nat → Bool → Reader (List Inst × List Inst)
  | 0, _ => pure ([], [])
  | n + 1, e => do
    let i ← rd
    match i with
    | .endFi => pure ([], [])
    | .elseFi => readIf rd n true
    | i => do
      let p ← readIf rd n e
      pure (if e then (p.1, i :: p.2) else (i :: p.1, p.2))

/-- `assert ord(r.read(1)) == 0x00` -/
def Reader.zeroByte : Reader Unit := do
  let b ← ordByte
  check (b == 0)

/-- two immediates, core.py:411-413 and others -/
def Reader.uleb2 {α} (f : Nat → Nat → α) : Reader α := do
  let a ← uleb
  let b ← uleb
  pure (f a b)

/-- The immediates of an instruction, core.py:372-707.  `rd` is the recursive call `Inst.from_reader(r)`. -/
def Inst.args (rd : Reader Inst) : Opc → Reader Inst
  | .block => do                                            -- 373-380
    let bt ← Bype.fromReader
    let body ← readBody rd (1 <<< 32)
    pure (.block bt body)
  | .loop => do                                             -- 381-388
    let bt ← Bype.fromReader
    let body ← readBody rd (1 <<< 32)
    pure (.loop bt body)
  | .if_then => do                                          -- 389-401
    let bt ← Bype.fromReader
    let p ← readIf rd (1 <<< 32) false
    pure (.ifThen bt p.1 p.2)
  | .br => do let a ← uleb; pure (.br a)                    -- 402-403
  | .br_if => do let a ← uleb; pure (.brIf a)               -- 404-405
  | .br_table => do                                         -- 406-408
    let l ← vec uleb
    let d ← uleb
    pure (.brTable l d)
  | .call => do let a ← uleb; pure (.call a)                -- 409-410
  | .call_indirect => uleb2 .callIndirect                   -- 411-413
  | .select_type => do let l ← vec uleb; pure (.selectType l) -- 414-415
  | .local_get => do let a ← uleb; pure (.localGet a)       -- 416-417
  | .local_set => do let a ← uleb; pure (.localSet a)       -- 418-419
  | .local_tee => do let a ← uleb; pure (.localTee a)       -- 420-421
  | .global_get => do let a ← uleb; pure (.globalGet a)     -- 422-423
  | .global_set => do let a ← uleb; pure (.globalSet a)     -- 424-425
  | .table_get => do let a ← uleb; pure (.tableGet a)       -- 426-427
  | .table_set => do let a ← uleb; pure (.tableSet a)       -- 428-429
  | .load op => do                                          -- 430-486, 565-608, 702-707
    let a ← uleb
    let o ← uleb
    match op.alignBound with
    | some k => do
      check (decide (a < k))
      pure (.load op a o)
    | none => pure (.load op a o)
  | .store op => do                                         -- 487-522, 609-612
    let a ← uleb
    let o ← uleb
    check (decide (a < op.alignBound))
    pure (.store op a o)
  | .memory_size => do let b ← ordByte; pure (.memorySize b.toNat)
  | .memory_grow => do let b ← ordByte; pure (.memoryGrow b.toNat)
  | .i32_const => do let n ← ileb; pure (.i32Const n)
  | .i64_const => do let n ← ileb; pure (.i64Const n)
  | .f32_const => do
    let b ← read 4
    let n ← liftE (Py.unpackS 4 b)
    pure (.f32Const n)
  | .f64_const => do
    let b ← read 8
    let n ← liftE (Py.unpackS 8 b)
    pure (.f64Const n)
  | .ref_null => do let b ← ordByte; pure (.refNull b.toNat)
  | .ref_func => do let a ← uleb; pure (.refFunc a)
  | .memory_init => do                                      -- 541-543
    let a ← uleb
    zeroByte
    pure (.memoryInit a)
  | .data_drop => do let a ← uleb; pure (.dataDrop a)
  | .memory_copy => do                                      -- 546-548
    zeroByte
    zeroByte
    pure .memoryCopy
  | .memory_fill => do                                      -- 549-550
    zeroByte
    pure .memoryFill
  | .table_init => uleb2 .tableInit
  | .elem_drop => do let a ← uleb; pure (.elemDrop a)
  | .table_copy => uleb2 .tableCopy
  | .table_grow => do let a ← uleb; pure (.tableGrow a)
  | .table_size => do let a ← uleb; pure (.tableSize a)
  | .table_fill => do let a ← uleb; pure (.tableFill a)
  | .v128_const => do let b ← read 16; pure (.v128Const b)  -- 613-614
  | .i8x16_shuffle => do                                    -- 615-619
    let l ← times uleb 16
    check (l.all fun e => decide (e < 32))
    pure (.num (.shuffle l))
  | .lane op => do                                          -- 620-661
    let a ← uleb
    check (decide (a < op.laneBound))
    pure (.num (.lane op a))
  | .load_lane w => do                                      -- 662-681
    let a ← uleb
    let o ← uleb
    let l ← uleb
    check (decide (l < w.laneBound))
    pure (.loadLane w a o l)
  | .store_lane w => do                                     -- 682-701
    let a ← uleb
    let o ← uleb
    let l ← uleb
    check (decide (l < w.laneBound))
    pure (.storeLane w a o l)
  -- no immediates
  | .unreachable => pure .unreachable
  | .nop => pure .nop
  | .else_fi => pure .elseFi
  | .end_fi => pure .endFi
  | .return_call => pure .ret
  | .drop => pure .drop
  | .select => pure .select
  | .ref_is_null => pure .refIsNull
  | .int op => pure (.num (.int op))
  | .flt op => pure (.num (.flt op))
  | .vec op => pure (.num (.vec op))

/-- `Inst.from_reader`, core.py:364-708. -/
def Inst.fromReader : Nat → Reader Inst
  | 0 => fail .recursion
  | lim + 1 => do
    let b ← ordByte
    let n ← opcodeNumber b
    match Opc.ofNum n with
    | none => fail .assertion
    | some o => Inst.args (Inst.fromReader lim) o

/-- `Expr.from_reader`, core.py:724-733. -/
def Expr.fromReader (lim : Nat) : Reader Expr := readBody (Inst.fromReader lim) (1 <<< 32)

/-- `LocalsDesc.from_reader`, core.py:748-750. -/
def localsFromReader : Reader (Nat × ValType) := do
  let n ← uleb
  let t ← ValType.fromReader
  pure (n, t)

/-- `FuncType.from_reader`, core.py:778-785. -/
def FuncType.fromReader : Reader FuncType := do
  let b ← ordByte
  check (b == 0x60)
  let args ← vec ValType.fromReader
  let rets ← vec ValType.fromReader
  pure ⟨args, rets⟩

/-- `FuncDesc.from_reader_type`, core.py:808-810. -/
def FuncDesc.fromReaderType : Reader FuncDesc := do
  let t ← uleb
  pure ⟨t, [], []⟩

/-- `FuncDesc.from_reader_code`, core.py:812-814. -/
def FuncDesc.fromReaderCode (lim : Nat) : Reader FuncDesc := do
  let ls ← vec localsFromReader
  let e ← Expr.fromReader lim
  pure ⟨0, ls, e⟩

/-- `Limits.from_reader`, core.py:834-837; also `MemType.from_reader`, core.py:850-852. -/
def Limits.fromReader : Reader Limits := do
  let flag ← ordByte
  let n ← uleb
  if flag ≠ 0 then do
    let m ← uleb
    pure ⟨n, m⟩
  else pure ⟨n, 0⟩

/-- `TableType.from_reader`, core.py:935-945: the constructor asserts a reference type. -/
def TableType.fromReader : Reader TableType := do
  let t ← ValType.fromReader
  let l ← Limits.fromReader
  check (t == .funcref || t == .externref)
  pure ⟨t, l⟩

/-- `GlobalType.from_reader`, core.py:978-989: the constructor asserts the flag is 0 or 1. -/
def GlobalType.fromReader : Reader GlobalType := do
  let t ← ValType.fromReader
  let b ← ordByte
  check (b == 0 || b == 1)
  pure ⟨t, b == 1⟩

/-- `GlobalDesc.from_reader`, core.py:1002-1004. -/
def GlobalDesc.fromReader (lim : Nat) : Reader GlobalDesc := do
  let t ← GlobalType.fromReader
  let e ← Expr.fromReader lim
  pure ⟨t, e⟩

/-- `Custom.from_reader`, core.py:1028-1031. -/
def customFromReader : Reader (String × Bytes) := do
  let n ← Reader.name
  let b ← readAll
  pure (n, b)

/-- The dictionary of readers by kind, core.py:1067-1072: `KeyError` on another kind. -/
def ImportDesc.fromReader (k : UInt8) : Reader ImportDesc :=
  if k = 0 then do let t ← uleb; pure (.func t)
  else if k = 1 then do let t ← TableType.fromReader; pure (.table t)
  else if k = 2 then do let t ← Limits.fromReader; pure (.mem t)
  else if k = 3 then do let t ← GlobalType.fromReader; pure (.glob t)
  else fail .key

/-- `Import.from_reader`, core.py:1060-1073. -/
def Import.fromReader : Reader Import := do
  let m ← Reader.name
  let n ← Reader.name
  let k ← ordByte
  let d ← ImportDesc.fromReader k
  pure ⟨m, n, d⟩

/-- `kind in [0, 1, 2, 3]`, core.py:1102 -/
def ExKind.ofByte (k : UInt8) : Except Err ExKind :=
  if k = 0 then .ok .func else if k = 1 then .ok .table else if k = 2 then .ok .mem else if k = 3 then .ok .glob
  else .error .assertion

/-- `ExportDesc.from_reader`, core.py:1116-1121: the kind is checked last. -/
def ExportDesc.fromReader : Reader ExportDesc := do
  let n ← Reader.name
  let k ← ordByte
  let d ← uleb
  let k ← liftE (ExKind.ofByte k)
  pure ⟨n, k, d⟩

/-- `Expr([Inst(pywasm.opcode.ref_func, [fidx])])`, core.py:1164-1166 and three more times. -/
def funcExprFromReader : Reader Expr := do
  let f ← uleb
  pure [.refFunc f]

/-- `ElemDesc.from_reader`, core.py:1153-1209; a kind above 7 reads nothing more and fails in the constructor. -/
def ElemDesc.fromReader (lim : Nat) : Reader ElemDesc := do
  let kind ← uleb
  if kind = 0 then do
    let o ← Expr.fromReader lim
    let i ← vec funcExprFromReader
    pure ⟨kind, .funcref, 0, o, i⟩
  else if kind = 1 then do
    zeroByte
    let i ← vec funcExprFromReader
    pure ⟨kind, .funcref, 0, [], i⟩
  else if kind = 2 then do
    let t ← uleb
    let o ← Expr.fromReader lim
    zeroByte
    let i ← vec funcExprFromReader
    pure ⟨kind, .funcref, t, o, i⟩
  else if kind = 3 then do
    zeroByte
    let i ← vec funcExprFromReader
    pure ⟨kind, .funcref, 0, [], i⟩
  else if kind = 4 then do
    let o ← Expr.fromReader lim
    let i ← vec (Expr.fromReader lim)
    pure ⟨kind, .funcref, 0, o, i⟩
  else if kind = 5 then do
    let ty ← ValType.fromReader
    let i ← vec (Expr.fromReader lim)
    pure ⟨kind, ty, 0, [], i⟩
  else if kind = 6 then do
    let t ← uleb
    let o ← Expr.fromReader lim
    let ty ← ValType.fromReader
    let i ← vec (Expr.fromReader lim)
    pure ⟨kind, ty, t, o, i⟩
  else if kind = 7 then do
    let ty ← ValType.fromReader
    let i ← vec (Expr.fromReader lim)
    pure ⟨kind, ty, 0, [], i⟩
  else fail .assertion

/-- `r.read(pywasm.leb128.u.decode_reader(r)[0])`: a short read is not detected. -/
def Reader.blob : Reader Bytes := do
  let n ← uleb
  read n

/-- `DataDesc.from_reader`, core.py:1245-1261 with the assertions of the constructor, 1234-1235; with another kind the
variables are unbound. -/
def DataDesc.fromReader (lim : Nat) : Reader DataDesc := do
  let kind ← uleb
  if kind = 0 then do
    let o ← Expr.fromReader lim
    let b ← blob
    pure ⟨kind, o, b⟩
  else if kind = 1 then do
    let b ← blob
    pure ⟨kind, [], b⟩
  else if kind = 2 then do
    let m ← uleb
    let o ← Expr.fromReader lim
    let b ← blob
    check (m == 0)
    pure ⟨kind, o, b⟩
  else fail .name

/-- One turn of the loop over the code section, core.py:1378-1384: `func[i].locals = …; func[i].expr = …`. The body is
read from its own `BytesIO` of at most `size` bytes. Its listing is made even if it is not printed, which raises if a
number has too many digits. What is printed is in `Model/LogDecode.lean`. -/
def codeEntry (lim : Nat) (func : List FuncDesc) (i : Nat) : Reader (List FuncDesc) := do
  let size ← uleb
  let b ← read size
  let d ← liftE ((FuncDesc.fromReaderCode lim).run b)
  match func[i]? with
  | none => fail .index
  | some f => do
    liftE (Expr.disasm 0 4 d.1.expr).2
    pure (func.set i ⟨f.type, d.1.locals, d.1.expr⟩)

/-- The loop over the code section, core.py:1377-1384: `n` entries are left, the next is for function `i`. -/
def codeEntries (lim : Nat) : Nat → Nat → List FuncDesc → Reader (List FuncDesc)
  | 0, _, func => pure func
  | n + 1, i, func => do
    let func ← codeEntry lim func i
    codeEntries lim n (i + 1) func

/-- The contents of a section, core.py:1329-1391; another id reads nothing. -/
def sectionBody (lim : Nat) (id : UInt8) (m : ModuleDesc) : Reader ModuleDesc :=
  if id = 0x00 then do let _ ← customFromReader; pure m
  else if id = 0x01 then do let l ← vec FuncType.fromReader; pure { m with type := m.type ++ l }
  else if id = 0x02 then do let l ← vec Import.fromReader; pure { m with imps := m.imps ++ l }
  else if id = 0x03 then do let l ← vec FuncDesc.fromReaderType; pure { m with func := m.func ++ l }
  else if id = 0x04 then do let l ← vec TableType.fromReader; pure { m with tabl := m.tabl ++ l }
  else if id = 0x05 then do let l ← vec Limits.fromReader; pure { m with mems := m.mems ++ l }
  else if id = 0x06 then do let l ← vec (GlobalDesc.fromReader lim); pure { m with glob := m.glob ++ l }
  else if id = 0x07 then do let l ← vec ExportDesc.fromReader; pure { m with exps := m.exps ++ l }
  else if id = 0x08 then do let n ← uleb; pure { m with star := some n }
  else if id = 0x09 then do let l ← vec (ElemDesc.fromReader lim); pure { m with elem := m.elem ++ l }
  else if id = 0x0a then do let n ← uleb; let f ← codeEntries lim n 0 m.func; pure { m with func := f }
  else if id = 0x0b then do let l ← vec (DataDesc.fromReader lim); pure { m with data := m.data ++ l }
  else if id = 0x0c then do let _ ← uleb; pure m
  else pure m

/-- The loop over the sections, core.py:1319-1391; `k` turns are left. -/
def sections (lim : Nat) : Nat → ModuleDesc → Reader ModuleDesc
  | 0, m => pure m
  | k + 1, m => fun s =>
    match s with
    | [] => .ok (m, [])                                     -- 1321-1322
    | id :: s =>
      (do
        let n ← uleb
        let d ← read n
        check (d.length == n)
        let r ← liftE ((sectionBody lim id m).run d)
        sections lim k r.1) s

/-- `ModuleDesc.from_reader`, core.py:1303-1394. -/
def ModuleDesc.fromReader (lim : Nat) : Reader ModuleDesc := do
  let magic ← read 4
  check (magic == [0x00, 0x61, 0x73, 0x6d])
  let version ← read 4
  check (version == [0x01, 0x00, 0x00, 0x00])
  sections lim 32 {}

end Pywasm
