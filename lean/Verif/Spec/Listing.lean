import Verif.Spec.Mnemonic
import Verif.Spec.Binary
import Verif.Spec.Log
import Verif.Model.Disasm

/-!
# What is printed of a module

The lines that are printed when a module is loaded with logging switched on, without the time stamp and `pywasm:`.
-/

namespace Pywasm.Spec.Listing
open Pywasm.Spec.Bin

/-- A number in decimal. -/
def num (n : Int) : Str := (toString n).toList

/-- `[a, b, c]` -/
def list (l : List Str) : Str := '[' :: List.intercalate ", ".toList l ++ [']']

/-- Words with blanks between them. -/
def words (l : List Str) : Str := List.intercalate " ".toList l

/-- A value type. -/
def valType : ValType → String
  | .i32 => "i32" | .i64 => "i64" | .f32 => "f32" | .f64 => "f64" | .v128 => "v128"
  | .funcref => "ref.func" | .externref => "ref.extern"

/-- A function type. -/
def funcType (t : FuncType) : Str :=
  list (t.args.map fun x => (valType x).toList) ++ " -> ".toList ++ list (t.rets.map fun x => (valType x).toList)

/-- Limits; a maximum of 0 stands for none. -/
def limits (l : Limits) : Str := list [num l.n, if l.m = 0 then "inf".toList else num l.m]

/-- A table type. -/
def tableType (t : TableType) : Str := words [(valType t.type).toList, limits t.limits]

/-- A global type. -/
def globalType (t : GlobalType) : Str := words [(if t.isMut then "var" else "const").toList, (valType t.type).toList]

/-- An import. -/
def importText (i : Import) : Str :=
  words [i.module.toList ++ '.' :: i.name.toList, match i.desc with
    | .func t => words ["func".toList, num t]
    | .table t => words ["table".toList, tableType t]
    | .mem l => words ["mem".toList, limits l]
    | .glob t => words ["global".toList, globalType t]]

/-- An export. -/
def exportText (e : ExportDesc) : Str :=
  words [e.name.toList, (match e.kind with
    | .func => "func" | .table => "table" | .mem => "mem" | .glob => "global").toList, num e.desc]

/-- The opcode of an instruction. -/
def opcode : Inst → Opc
  | .unreachable => .unreachable | .nop => .nop | .block _ _ => .block | .loop _ _ => .loop | .ifThen _ _ _ => .if_then
  | .elseFi => .else_fi | .endFi => .end_fi | .br _ => .br | .brIf _ => .br_if | .brTable _ _ => .br_table
  | .ret => .return_call | .call _ => .call | .callIndirect _ _ => .call_indirect | .drop => .drop | .select => .select
  | .selectType _ => .select_type | .localGet _ => .local_get | .localSet _ => .local_set | .localTee _ => .local_tee
  | .globalGet _ => .global_get | .globalSet _ => .global_set | .tableGet _ => .table_get | .tableSet _ => .table_set
  | .load op _ _ => .load op | .store op _ _ => .store op | .loadLane w _ _ _ => .load_lane w
  | .storeLane w _ _ _ => .store_lane w | .memorySize _ => .memory_size | .memoryGrow _ => .memory_grow
  | .i32Const _ => .i32_const | .i64Const _ => .i64_const | .f32Const _ => .f32_const | .f64Const _ => .f64_const
  | .v128Const _ => .v128_const | .refNull _ => .ref_null | .refIsNull => .ref_is_null | .refFunc _ => .ref_func
  | .memoryInit _ => .memory_init | .dataDrop _ => .data_drop | .memoryCopy => .memory_copy | .memoryFill => .memory_fill
  | .tableInit _ _ => .table_init | .elemDrop _ => .elem_drop | .tableCopy _ _ => .table_copy | .tableGrow _ => .table_grow
  | .tableSize _ => .table_size | .tableFill _ => .table_fill
  | .num (.int op) => .int op | .num (.flt op) => .flt op | .num (.vec op) => .vec op
  | .num (.shuffle _) => .i8x16_shuffle | .num (.lane op _) => .lane op

/-- A block type. -/
def blockType : Bype → Str
  | .empty => "empty".toList
  | .val t => (valType t).toList
  | .idx i => num i

/-- A byte in a Python bytes literal: printable ASCII stands for itself, single quotes and backslashes have a backslash before them, tabs,
line feeds and carriage returns have names, and the others are given by two hexadecimal digits. -/
def byteText (b : UInt8) : Str :=
  match b.toNat with
  | 9 => "\\t".toList
  | 10 => "\\n".toList
  | 13 => "\\r".toList
  | 39 => "\\'".toList
  | 92 => "\\\\".toList
  | n =>
    if 32 ≤ n ∧ n ≤ 126 then [Char.ofNat n]
    else "\\x".toList ++ ["0123456789abcdef".toList.getD (n / 16) ' ', "0123456789abcdef".toList.getD (n % 16) ' ']

/-- Bytes as Python prints a `bytearray`, with double quotes if there are only single quotes inside. -/
def bytesText (b : Bytes) : Str :=
  let quote := if 39 ∈ b ∧ 34 ∉ b then "\"".toList else "'".toList
  "bytearray(b".toList ++ quote ++ (b.map byteText).flatten ++ quote ++ ")".toList

/-- The immediates of an instruction as they are printed: of a block only its type; of a `v128.const` the bytes as Python
prints a `bytearray`; of a `br_table` and a `select` lists. -/
def immediates : Inst → List Str
  | .block bt _ => [blockType bt]
  | .loop bt _ => [blockType bt]
  | .ifThen bt _ _ => [blockType bt]
  | .brTable ls d => [list (ls.map fun l : Nat => num l), num d]
  | .selectType ts => [list (ts.map fun t : Nat => num t)]
  | .v128Const b => [bytesText b]
  | i => (numbers i).map num

/-- An instruction: its name in the specification and its immediates. -/
def instruction (i : Inst) : Str := words (((mnemonic (code (opcode i))).getD "").toList :: immediates i)

/-- The line printed of an instruction that is executed. -/
def traceLine (i : Inst) : Str := List.replicate 5 ' ' ++ instruction i

/-- A Python value; `fr` says how Python prints a float. -/
def hostValue (fr : F64 → Str) : HVal → Str
  | .int n => num n
  | .float x => fr x
  | .bytes b => b.flatMap fun x => [Nat.digitChar (x.toNat / 16), Nat.digitChar (x.toNat % 16)]

/-- The line printed when a function is called from Python: its address, and the types of the arguments with their values, as the
host sees them. -/
def callLine (fr : F64 → Str) (a : Nat) (args : List (ValType × HVal)) : Str :=
  words ["invocate".toList, num a, list (args.map fun p => words [(valType p.1).toList, hostValue fr p.2])]

mutual
/-- The lines of an instruction at a given depth.  Of an `if` only the first branch is printed. -/
def instLines (depth : Nat) : Inst → List Str
  | .block bt body => (List.replicate (4 * depth) ' ' ++ instruction (.block bt body)) :: exprLines (depth + 1) body
  | .loop bt body => (List.replicate (4 * depth) ' ' ++ instruction (.loop bt body)) :: exprLines (depth + 1) body
  | .ifThen bt a b => (List.replicate (4 * depth) ' ' ++ instruction (.ifThen bt a b)) :: exprLines (depth + 1) a
  | i => [List.replicate (4 * depth) ' ' ++ instruction i]
/-- The lines of an instruction sequence at a given depth. -/
def exprLines (depth : Nat) : List Inst → List Str
  | [] => []
  | i :: is => instLines depth i ++ exprLines depth is
end

/-- The lines of a function body; the type is always given as 0. -/
def codeLines (f : FuncDesc) : List Str :=
  ("section code 0 ".toList ++ list (f.locals.map fun l => num l.1 ++ 'x' :: (valType l.2).toList)) :: exprLines 1 f.expr

/-- The lines of a module. -/
def module (m : ModuleDesc) : List Str :=
  m.type.map (fun t => "section type ".toList ++ funcType t) ++
  m.imps.map (fun i => "section import ".toList ++ importText i) ++
  m.func.map (fun f => "section func ".toList ++ num f.type) ++
  m.tabl.map (fun t => "section table ".toList ++ tableType t) ++
  m.mems.map (fun l => "section memory ".toList ++ limits l) ++
  m.glob.map (fun g => "section global ".toList ++ globalType g.type) ++
  m.exps.map (fun e => "section export ".toList ++ exportText e) ++
  m.star.toList.map (fun f => "section start ".toList ++ num f) ++
  m.elem.map (fun e => "section elem ".toList ++ num e.tidx) ++
  m.func.flatMap codeLines ++
  m.data.map (fun _ => "section data 0".toList)

/-- The lines of custom sections and of the number of data segments. -/
def extra (l : Str) : Bool := "section custom ".toList.isPrefixOf l || "section data count ".toList.isPrefixOf l

/-- The numbers in the descriptions of a module. -/
def limitNums (l : Limits) : List Nat := [l.n, l.m]
/-- The numbers in an import. -/
def importNums (i : Import) : List Nat :=
  match i.desc with
  | .func t => [t]
  | .table t => limitNums t.limits
  | .mem l => limitNums l
  | .glob _ => []
/-- The numbers of a module that are printed, apart from those in function bodies. -/
def moduleNums (m : ModuleDesc) : List Nat :=
  m.imps.flatMap importNums ++ m.func.map (·.type) ++ m.tabl.flatMap (fun t => limitNums t.limits) ++ m.mems.flatMap limitNums ++
    m.exps.map (·.desc) ++ m.star.toList ++ m.elem.map (·.tidx) ++ m.func.flatMap (fun f => f.locals.map (·.1)) ++ [m.data.length]

end Pywasm.Spec.Listing
