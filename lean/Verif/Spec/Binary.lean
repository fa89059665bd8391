import Verif.Spec.Opcode
import Verif.Spec.Leb128
import Verif.Model.Module
import Mathlib.Data.List.Forall2

/-!
# The WebAssembly binary format

The grammar of chapter 5 of the WebAssembly core specification as relations between an object and the byte strings that
encode it.  They are relations because the format leaves freedom: integers may be padded, an `if` with an empty `else`
may omit it, empty sections may be omitted.  Side conditions that validation imposes on immediates (alignment, lane
indices) are part of the relation.
-/

namespace Pywasm.Spec.Bin
open Pywasm.Spec.Leb

/-- `uN`: any unsigned LEB128 byte string of the number (the specification only allows those of bounded length). -/
def U (n : Nat) (b : Bytes) : Prop := IsGroup b ∧ uval b = n

/-- `sN`: any signed LEB128 byte string of the number. -/
def S (n : Int) (b : Bytes) : Prop := IsGroup b ∧ sval b = n

/-- `vec(X)`: the length followed by the elements. -/
def Vec {α} (R : α → Bytes → Prop) (xs : List α) (b : Bytes) : Prop :=
  ∃ len bs, U xs.length len ∧ List.Forall₂ R xs bs ∧ b = len ++ bs.flatten

/-- `valtype` -/
def valByte : ValType → UInt8
  | .i32 => 0x7F | .i64 => 0x7E | .f32 => 0x7D | .f64 => 0x7C | .v128 => 0x7B | .funcref => 0x70 | .externref => 0x6F

/-- `valtype` as a relation -/
def EncVal (t : ValType) (b : Bytes) : Prop := b = [valByte t]

/-- `blocktype` -/
inductive EncBt : Bype → Bytes → Prop
  | empty : EncBt .empty [0x40]
  | val (t : ValType) : EncBt (.val t) [valByte t]
  | idx {i : Nat} {b : Bytes} : S i b → EncBt (.idx i) b

/-- The opcode of an instruction. -/
inductive EncOp (o : Opc) : Bytes → Prop
  | byte {b : UInt8} : code o = .byte b → EncOp o [b]
  | fc {n : Nat} {g : Bytes} : code o = .fc n → U n g → EncOp o (0xFC :: g)
  | fd {n : Nat} {g : Bytes} : code o = .fd n → U n g → EncOp o (0xFD :: g)

/-- `memarg`: alignment exponent and offset. -/
def EncMemarg (align offset : Nat) (b : Bytes) : Prop := ∃ a o, U align a ∧ U offset o ∧ b = a ++ o

/-- Number of bytes a load accesses. -/
def loadWidth : LoadOp → Nat
  | .i32_load => 4 | .i64_load => 8 | .f32_load => 4 | .f64_load => 8
  | .i32_load8_s => 1 | .i32_load8_u => 1 | .i32_load16_s => 2 | .i32_load16_u => 2
  | .i64_load8_s => 1 | .i64_load8_u => 1 | .i64_load16_s => 2 | .i64_load16_u => 2
  | .i64_load32_s => 4 | .i64_load32_u => 4
  | .v128_load => 16
  | .v128_load8x8_s => 8 | .v128_load8x8_u => 8 | .v128_load16x4_s => 8 | .v128_load16x4_u => 8
  | .v128_load32x2_s => 8 | .v128_load32x2_u => 8
  | .v128_load8_splat => 1 | .v128_load16_splat => 2 | .v128_load32_splat => 4 | .v128_load64_splat => 8
  | .v128_load32_zero => 4 | .v128_load64_zero => 8

/-- Number of bytes a store accesses. -/
def storeWidth : StoreOp → Nat
  | .i32_store => 4 | .i64_store => 8 | .f32_store => 4 | .f64_store => 8
  | .i32_store8 => 1 | .i32_store16 => 2 | .i64_store8 => 1 | .i64_store16 => 2 | .i64_store32 => 4
  | .v128_store => 16

/-- Number of lanes of the shape of a lane instruction. -/
def lanes : LOp → Nat
  | .i8x16_extract_lane_s => 16 | .i8x16_extract_lane_u => 16 | .i8x16_replace_lane => 16
  | .i16x8_extract_lane_s => 8 | .i16x8_extract_lane_u => 8 | .i16x8_replace_lane => 8
  | .i32x4_extract_lane => 4 | .i32x4_replace_lane => 4
  | .i64x2_extract_lane => 2 | .i64x2_replace_lane => 2
  | .f32x4_extract_lane => 4 | .f32x4_replace_lane => 4
  | .f64x2_extract_lane => 2 | .f64x2_replace_lane => 2

/-- Two's-complement reading of a little-endian bit pattern (float immediates are kept as signed integers). -/
def bitsOf (k : Nat) (b : Bytes) : Int :=
  let u : Nat := (b.zipIdx.map fun p => p.1.toNat * 256 ^ p.2).sum
  if 2 * u < 256 ^ k then (u : Int) else (u : Int) - 256 ^ k

/-- Instructions without nested instructions. -/
inductive EncLeaf : Inst → Bytes → Prop
  | unreachable {op} : EncOp .unreachable op → EncLeaf .unreachable op
  | nop {op} : EncOp .nop op → EncLeaf .nop op
  | ret {op} : EncOp .return_call op → EncLeaf .ret op
  | drop {op} : EncOp .drop op → EncLeaf .drop op
  | select {op} : EncOp .select op → EncLeaf .select op
  | refIsNull {op} : EncOp .ref_is_null op → EncLeaf .refIsNull op
  | int {o op} : EncOp (.int o) op → EncLeaf (.num (.int o)) op
  | flt {o op} : EncOp (.flt o) op → EncLeaf (.num (.flt o)) op
  | vec {o op} : EncOp (.vec o) op → EncLeaf (.num (.vec o)) op
  | br {a op x} : EncOp .br op → U a x → EncLeaf (.br a) (op ++ x)
  | brIf {a op x} : EncOp .br_if op → U a x → EncLeaf (.brIf a) (op ++ x)
  | brTable {l d op x y} : EncOp .br_table op → Vec U l x → U d y → EncLeaf (.brTable l d) (op ++ x ++ y)
  | call {a op x} : EncOp .call op → U a x → EncLeaf (.call a) (op ++ x)
  | callIndirect {a t op x y} : EncOp .call_indirect op → U a x → U t y → EncLeaf (.callIndirect a t) (op ++ x ++ y)
  | selectType {ts : List ValType} {op x} : EncOp .select_type op → Vec EncVal ts x →
      EncLeaf (.selectType (ts.map fun t => (valByte t).toNat)) (op ++ x)
  | localGet {a op x} : EncOp .local_get op → U a x → EncLeaf (.localGet a) (op ++ x)
  | localSet {a op x} : EncOp .local_set op → U a x → EncLeaf (.localSet a) (op ++ x)
  | localTee {a op x} : EncOp .local_tee op → U a x → EncLeaf (.localTee a) (op ++ x)
  | globalGet {a op x} : EncOp .global_get op → U a x → EncLeaf (.globalGet a) (op ++ x)
  | globalSet {a op x} : EncOp .global_set op → U a x → EncLeaf (.globalSet a) (op ++ x)
  | tableGet {a op x} : EncOp .table_get op → U a x → EncLeaf (.tableGet a) (op ++ x)
  | tableSet {a op x} : EncOp .table_set op → U a x → EncLeaf (.tableSet a) (op ++ x)
  /-- the alignment `2 ^ a` is at most the width of the access -/
  | load {o a f op x} : EncOp (.load o) op → EncMemarg a f x → 2 ^ a ≤ loadWidth o → EncLeaf (.load o a f) (op ++ x)
  | store {o a f op x} : EncOp (.store o) op → EncMemarg a f x → 2 ^ a ≤ storeWidth o → EncLeaf (.store o a f) (op ++ x)
  | loadLane {w a f op x} {l : UInt8} : EncOp (.load_lane w) op → EncMemarg a f x → 2 ^ a ≤ w.bytes →
      l.toNat < 16 / w.bytes → EncLeaf (.loadLane w a f l.toNat) (op ++ x ++ [l])
  | storeLane {w a f op x} {l : UInt8} : EncOp (.store_lane w) op → EncMemarg a f x → 2 ^ a ≤ w.bytes →
      l.toNat < 16 / w.bytes → EncLeaf (.storeLane w a f l.toNat) (op ++ x ++ [l])
  | memorySize {op} : EncOp .memory_size op → EncLeaf (.memorySize 0) (op ++ [0x00])
  | memoryGrow {op} : EncOp .memory_grow op → EncLeaf (.memoryGrow 0) (op ++ [0x00])
  | i32Const {n op x} : EncOp .i32_const op → S n x → EncLeaf (.i32Const n) (op ++ x)
  | i64Const {n op x} : EncOp .i64_const op → S n x → EncLeaf (.i64Const n) (op ++ x)
  | f32Const {op b} : EncOp .f32_const op → b.length = 4 → EncLeaf (.f32Const (bitsOf 4 b)) (op ++ b)
  | f64Const {op b} : EncOp .f64_const op → b.length = 8 → EncLeaf (.f64Const (bitsOf 8 b)) (op ++ b)
  | v128Const {op b} : EncOp .v128_const op → b.length = 16 → EncLeaf (.v128Const b) (op ++ b)
  | refNull {op} {t : ValType} : EncOp .ref_null op → t = .funcref ∨ t = .externref →
      EncLeaf (.refNull (valByte t).toNat) (op ++ [valByte t])
  | refFunc {a op x} : EncOp .ref_func op → U a x → EncLeaf (.refFunc a) (op ++ x)
  | memoryInit {a op x} : EncOp .memory_init op → U a x → EncLeaf (.memoryInit a) (op ++ x ++ [0x00])
  | dataDrop {a op x} : EncOp .data_drop op → U a x → EncLeaf (.dataDrop a) (op ++ x)
  | memoryCopy {op} : EncOp .memory_copy op → EncLeaf .memoryCopy (op ++ [0x00, 0x00])
  | memoryFill {op} : EncOp .memory_fill op → EncLeaf .memoryFill (op ++ [0x00])
  | tableInit {e t op x y} : EncOp .table_init op → U e x → U t y → EncLeaf (.tableInit e t) (op ++ x ++ y)
  | elemDrop {a op x} : EncOp .elem_drop op → U a x → EncLeaf (.elemDrop a) (op ++ x)
  | tableCopy {t s op x y} : EncOp .table_copy op → U t x → U s y → EncLeaf (.tableCopy t s) (op ++ x ++ y)
  | tableGrow {a op x} : EncOp .table_grow op → U a x → EncLeaf (.tableGrow a) (op ++ x)
  | tableSize {a op x} : EncOp .table_size op → U a x → EncLeaf (.tableSize a) (op ++ x)
  | tableFill {a op x} : EncOp .table_fill op → U a x → EncLeaf (.tableFill a) (op ++ x)
  | shuffle {op} {b : Bytes} : EncOp .i8x16_shuffle op → b.length = 16 → (∀ l ∈ b, l.toNat < 32) →
      EncLeaf (.num (.shuffle (b.map (·.toNat)))) (op ++ b)
  | lane {o op} {l : UInt8} : EncOp (.lane o) op → l.toNat < lanes o → EncLeaf (.num (.lane o l.toNat)) (op ++ [l])

mutual
/-- `instr` -/
inductive EncI : Inst → Bytes → Prop
  | leaf {i b} : EncLeaf i b → EncI i b
  | block {bt body op t b} : EncOp .block op → EncBt bt t → EncL body b → EncI (.block bt body) (op ++ t ++ b ++ [0x0B])
  | loop {bt body op t b} : EncOp .loop op → EncBt bt t → EncL body b → EncI (.loop bt body) (op ++ t ++ b ++ [0x0B])
  /-- without `else` -/
  | ifThen {bt thn op t b} : EncOp .if_then op → EncBt bt t → EncL thn b →
      EncI (.ifThen bt thn []) (op ++ t ++ b ++ [0x0B])
  | ifElse {bt thn els op t b c} : EncOp .if_then op → EncBt bt t → EncL thn b → EncL els c →
      EncI (.ifThen bt thn els) (op ++ t ++ b ++ [0x05] ++ c ++ [0x0B])
/-- `instr*` -/
inductive EncL : List Inst → Bytes → Prop
  | nil : EncL [] []
  | cons {i is a b} : EncI i a → EncL is b → EncL (i :: is) (a ++ b)
end

/-- `expr` -/
def EncE (e : Expr) (b : Bytes) : Prop := ∃ x, EncL e x ∧ b = x ++ [0x0B]

mutual
/-- How deep blocks are nested inside an instruction. -/
def nest : Inst → Nat
  | .block _ b => nestL b + 1
  | .loop _ b => nestL b + 1
  | .ifThen _ a b => max (nestL a) (nestL b) + 1
  | _ => 0
/-- How deep blocks are nested inside an instruction sequence. -/
def nestL : List Inst → Nat
  | [] => 0
  | i :: is => max (nest i) (nestL is)
end

/-- The numbers among the immediates of an instruction, without those of nested instructions. -/
def numbers : Inst → List Int
  | .block (.idx i) _ | .loop (.idx i) _ | .ifThen (.idx i) _ _ => [i]
  | .br a | .brIf a | .call a | .localGet a | .localSet a | .localTee a | .globalGet a | .globalSet a | .tableGet a
  | .tableSet a | .memorySize a | .memoryGrow a | .refNull a | .refFunc a | .memoryInit a | .dataDrop a | .elemDrop a
  | .tableGrow a | .tableSize a | .tableFill a | .num (.lane _ a) => [(a : Int)]
  | .callIndirect a b | .load _ a b | .store _ a b | .tableInit a b | .tableCopy a b => [(a : Int), (b : Int)]
  | .loadLane _ a b c | .storeLane _ a b c => [(a : Int), (b : Int), (c : Int)]
  | .brTable l d => l.map (fun n : Nat => (n : Int)) ++ [(d : Int)]
  | .selectType l | .num (.shuffle l) => l.map fun n : Nat => (n : Int)
  | .i32Const n | .i64Const n | .f32Const n | .f64Const n => [n]
  | _ => []

mutual
/-- All numbers inside an instruction are below `2 ^ 64` in absolute value, as those of the types `u32`, `s32`, `s33` and
`s64` of the specification are. -/
def inRangeI : Inst → Bool
  | .block bt b => (numbers (.block bt b)).all (fun n => decide (n.natAbs < 2 ^ 64)) && inRange b
  | .loop bt b => (numbers (.loop bt b)).all (fun n => decide (n.natAbs < 2 ^ 64)) && inRange b
  | .ifThen bt a b => (numbers (.ifThen bt a b)).all (fun n => decide (n.natAbs < 2 ^ 64)) && inRange a && inRange b
  | i => (numbers i).all fun n => decide (n.natAbs < 2 ^ 64)
/-- All numbers in an instruction sequence are below `2 ^ 64` in absolute value. -/
def inRange : List Inst → Bool
  | [] => true
  | i :: is => inRangeI i && inRange is
end

/-- `name` -/
def EncName (s : String) (b : Bytes) : Prop := ∃ len, U s.toUTF8.size len ∧ b = len ++ s.toUTF8.data.toList

/-- `functype` -/
def EncFuncType (t : FuncType) (b : Bytes) : Prop :=
  ∃ x y, Vec EncVal t.args x ∧ Vec EncVal t.rets y ∧ b = [0x60] ++ x ++ y

/-- `limits`; the decoder stores "no maximum" as the maximum 0. -/
inductive EncLimits : Limits → Bytes → Prop
  | min {n x} : U n x → EncLimits ⟨n, 0⟩ ([0x00] ++ x)
  | minmax {n m x y} : U n x → U m y → EncLimits ⟨n, m⟩ ([0x01] ++ x ++ y)

/-- `tabletype` -/
def EncTableType (t : TableType) (b : Bytes) : Prop :=
  (t.type = .funcref ∨ t.type = .externref) ∧ ∃ x, EncLimits t.limits x ∧ b = [valByte t.type] ++ x

/-- `globaltype` -/
def EncGlobalType (t : GlobalType) (b : Bytes) : Prop := b = [valByte t.type, if t.isMut then 0x01 else 0x00]

/-- `global` -/
def EncGlobal (g : GlobalDesc) (b : Bytes) : Prop := ∃ x y, EncGlobalType g.type x ∧ EncE g.init y ∧ b = x ++ y

/-- `importdesc` -/
inductive EncImportDesc : ImportDesc → Bytes → Prop
  | func {t x} : U t x → EncImportDesc (.func t) ([0x00] ++ x)
  | table {t x} : EncTableType t x → EncImportDesc (.table t) ([0x01] ++ x)
  | mem {l x} : EncLimits l x → EncImportDesc (.mem l) ([0x02] ++ x)
  | glob {t x} : EncGlobalType t x → EncImportDesc (.glob t) ([0x03] ++ x)

/-- `import` -/
def EncImport (i : Import) (b : Bytes) : Prop :=
  ∃ x y z, EncName i.module x ∧ EncName i.name y ∧ EncImportDesc i.desc z ∧ b = x ++ y ++ z

/-- first byte of an `exportdesc` -/
def exByte : ExKind → UInt8
  | .func => 0x00 | .table => 0x01 | .mem => 0x02 | .glob => 0x03

/-- `export` -/
def EncExport (e : ExportDesc) (b : Bytes) : Prop :=
  ∃ x y, EncName e.name x ∧ U e.desc y ∧ b = x ++ [exByte e.kind] ++ y

/-- the element expressions a vector of function indices stands for -/
def EncFuncRef (e : Expr) (b : Bytes) : Prop := ∃ f, e = [.refFunc f] ∧ U f b

/-- `elem`; the first number says which of the eight forms is used. -/
inductive EncElem : ElemDesc → Bytes → Prop
  | active0 {k o l x y} : U 0 k → EncE o x → Vec EncFuncRef l y → EncElem ⟨0, .funcref, 0, o, l⟩ (k ++ x ++ y)
  | passive1 {k l y} : U 1 k → Vec EncFuncRef l y → EncElem ⟨1, .funcref, 0, [], l⟩ (k ++ [0x00] ++ y)
  | active2 {k t o l w x y} : U 2 k → U t w → EncE o x → Vec EncFuncRef l y →
      EncElem ⟨2, .funcref, t, o, l⟩ (k ++ w ++ x ++ [0x00] ++ y)
  | declarative3 {k l y} : U 3 k → Vec EncFuncRef l y → EncElem ⟨3, .funcref, 0, [], l⟩ (k ++ [0x00] ++ y)
  | active4 {k o l x y} : U 4 k → EncE o x → Vec EncE l y → EncElem ⟨4, .funcref, 0, o, l⟩ (k ++ x ++ y)
  | passive5 {k t l y} : U 5 k → t = .funcref ∨ t = .externref → Vec EncE l y →
      EncElem ⟨5, t, 0, [], l⟩ (k ++ [valByte t] ++ y)
  | active6 {k i o t l w x y} : U 6 k → U i w → EncE o x → t = .funcref ∨ t = .externref → Vec EncE l y →
      EncElem ⟨6, t, i, o, l⟩ (k ++ w ++ x ++ [valByte t] ++ y)
  | declarative7 {k t l y} : U 7 k → t = .funcref ∨ t = .externref → Vec EncE l y →
      EncElem ⟨7, t, 0, [], l⟩ (k ++ [valByte t] ++ y)

/-- `vec(byte)` -/
def EncBlob (d b : Bytes) : Prop := ∃ len, U d.length len ∧ b = len ++ d

/-- `data`; the memory index of an active segment with explicit index is 0. -/
inductive EncData : DataDesc → Bytes → Prop
  | active {k o d x y} : U 0 k → EncE o x → EncBlob d y → EncData ⟨0, o, d⟩ (k ++ x ++ y)
  | passive {k d y} : U 1 k → EncBlob d y → EncData ⟨1, [], d⟩ (k ++ y)
  | active2 {k o d w x y} : U 2 k → U 0 w → EncE o x → EncBlob d y → EncData ⟨2, o, d⟩ (k ++ w ++ x ++ y)

/-- `locals` -/
def EncLocals (l : Nat × ValType) (b : Bytes) : Prop := ∃ x, U l.1 x ∧ b = x ++ [valByte l.2]

/-- `code`: the size in bytes, the locals and the body. -/
def EncCode (f : FuncDesc) (b : Bytes) : Prop :=
  inRange f.expr ∧ ∃ size x y, Vec EncLocals f.locals x ∧ EncE f.expr y ∧ U (x ++ y).length size ∧ b = size ++ (x ++ y)

/-- entry of the function section -/
def EncFuncIdx (f : FuncDesc) (b : Bytes) : Prop := U f.type b

/-- A section: its id, the size of its contents as a `u32`, its contents. -/
def Section (id : UInt8) (content b : Bytes) : Prop :=
  ∃ size, U content.length size ∧ content.length < 2 ^ 32 ∧ b = [id] ++ size ++ content

/-- The contents of the custom section: a name and arbitrary bytes. -/
def CustomBody (content : Bytes) : Prop := ∃ n x d, EncName n x ∧ content = x ++ d

/-- What the section with a given id must contain in an encoding of the module `m`. -/
def Content (m : ModuleDesc) (id : Nat) (c : Bytes) : Prop :=
  match id with
  | 1 => Vec EncFuncType m.type c
  | 2 => Vec EncImport m.imps c
  | 3 => Vec EncFuncIdx m.func c
  | 4 => Vec EncTableType m.tabl c
  | 5 => Vec EncLimits m.mems c
  | 6 => Vec EncGlobal m.glob c
  | 7 => Vec EncExport m.exps c
  | 8 => ∃ f, m.star = some f ∧ U f c
  | 9 => Vec EncElem m.elem c
  | 10 => Vec EncCode m.func c
  | 11 => Vec EncData m.data c
  | 12 => U m.data.length c
  | _ => False

/-- When the section with a given id may be left out. -/
def Omissible (m : ModuleDesc) (id : Nat) : Prop :=
  match id with
  | 1 => m.type = []
  | 2 => m.imps = []
  | 3 => m.func = []
  | 4 => m.tabl = []
  | 5 => m.mems = []
  | 6 => m.glob = []
  | 7 => m.exps = []
  | 8 => m.star = none
  | 9 => m.elem = []
  | 10 => m.func = []
  | 11 => m.data = []
  | 12 => True
  | _ => False

/-- The order in which the specification lists the non-custom sections. -/
def sectionOrder : List Nat := [1, 2, 3, 4, 5, 6, 7, 8, 9, 12, 10, 11]

/-- A sequence of sections encoding the part of `m` described by the sections `ids`, in that order, interspersed with
custom sections; `n` is the number of sections, with the custom ones. -/
inductive EncSections (m : ModuleDesc) : List Nat → Nat → Bytes → Prop
  | nil : EncSections m [] 0 []
  | custom {ids n c x b} : CustomBody c → Section 0 c x → EncSections m ids n b → EncSections m ids (n + 1) (x ++ b)
  | skip {id ids n b} : Omissible m id → EncSections m ids n b → EncSections m (id :: ids) n b
  | sect {id ids n c x b} : Content m id c → Section (UInt8.ofNat id) c x → EncSections m ids n b →
      EncSections m (id :: ids) (n + 1) (x ++ b)

/-- All expressions of a module. -/
def exprs (m : ModuleDesc) : List Expr :=
  m.glob.map (·.init) ++ m.elem.map (·.offset) ++ m.elem.flatMap (·.init) ++ m.data.map (·.offset) ++
    m.func.map (·.expr)

/-- `module`: magic, version, sections; `n` is the number of sections. -/
def EncModule (m : ModuleDesc) (n : Nat) (b : Bytes) : Prop :=
  ∃ x, EncSections m sectionOrder n x ∧ b = [0x00, 0x61, 0x73, 0x6D] ++ [0x01, 0x00, 0x00, 0x00] ++ x

end Pywasm.Spec.Bin
