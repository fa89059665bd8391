import Verif.Model.NumOps

/-!
# Model of `Bype` and `Inst`, /repo/pywasm/core.py:306-345, and of the static descriptions of functions

Python's `Inst` is an opcode number and a list of immediates.  Here every opcode is a constructor (or an element of one
of the enumerations `NumOp`, `LoadOp`, `StoreOp`) and its immediates are arguments; which number and which immediates
belong to which constructor is the subject of the decoder (`Verif/Model/Decode.lean`).
-/

namespace Pywasm

/-- `Bype`, core.py:306-313. The Python object is `(kind, data)`; kind 0 is `empty`, kind 1 `val`, kind 2 `idx` whose
data is a signed integer (core.py:334) used as a Python list index. -/
inductive Bype where
  | empty
  | val (t : ValType)
  | idx (i : Int)
  deriving DecidableEq, Repr

/-- Load instructions (core.py:1924-1965, 2794-2853, 3307-3316). -/
inductive LoadOp where
  | i32_load | i64_load | f32_load | f64_load
  | i32_load8_s | i32_load8_u | i32_load16_s | i32_load16_u
  | i64_load8_s | i64_load8_u | i64_load16_s | i64_load16_u | i64_load32_s | i64_load32_u
  | v128_load | v128_load8x8_s | v128_load8x8_u | v128_load16x4_s | v128_load16x4_u | v128_load32x2_s | v128_load32x2_u
  | v128_load8_splat | v128_load16_splat | v128_load32_splat | v128_load64_splat
  | v128_load32_zero | v128_load64_zero
  deriving DecidableEq, Repr

/-- Store instructions (core.py:1966-1983, 2854-2855). -/
inductive StoreOp where
  | i32_store | i64_store | f32_store | f64_store
  | i32_store8 | i32_store16 | i64_store8 | i64_store16 | i64_store32
  | v128_store
  deriving DecidableEq, Repr

/-- Width of the lane of `v128.loadN_lane` / `v128.storeN_lane` (core.py:3255-3306). -/
inductive LaneW where
  | w8 | w16 | w32 | w64
  deriving DecidableEq, Repr

/-- lane width in bytes -/
def LaneW.bytes : LaneW → Nat
  | w8 => 1 | w16 => 2 | w32 => 4 | w64 => 8

/-- `Inst`, core.py:338-345. -/
inductive Inst where
  | unreachable | nop
  | block (bt : Bype) (body : List Inst)
  | loop (bt : Bype) (body : List Inst)
  | ifThen (bt : Bype) (thn els : List Inst)
  /-- the markers `0x05` and `0x0b`; the decoder can leave an `else` inside a block body -/
  | elseFi | endFi
  | br (l : Nat) | brIf (l : Nat) | brTable (ls : List Nat) (d : Nat) | ret
  | call (f : Nat) | callIndirect (t : Nat) (tab : Nat)
  | drop | select | selectType (ts : List Nat)
  | localGet (i : Nat) | localSet (i : Nat) | localTee (i : Nat) | globalGet (i : Nat) | globalSet (i : Nat)
  | tableGet (i : Nat) | tableSet (i : Nat)
  | load (op : LoadOp) (align offset : Nat)
  | store (op : StoreOp) (align offset : Nat)
  | loadLane (w : LaneW) (align offset lane : Nat)
  | storeLane (w : LaneW) (align offset lane : Nat)
  /-- the immediate is the (reserved) memory index byte -/
  | memorySize (b : Nat) | memoryGrow (b : Nat)
  | i32Const (n : Int) | i64Const (n : Int)
  /-- the immediate is the bit pattern read as a signed integer (core.py:510-515) -/
  | f32Const (n : Int) | f64Const (n : Int)
  | v128Const (b : Bytes)
  | refNull (b : Nat) | refIsNull | refFunc (f : Nat)
  | memoryInit (i : Nat) | dataDrop (i : Nat) | memoryCopy | memoryFill
  | tableInit (e t : Nat) | elemDrop (e : Nat) | tableCopy (t s : Nat) | tableGrow (t : Nat) | tableSize (t : Nat)
  | tableFill (t : Nat)
  /-- all remaining opcodes: they only work on the operand stack -/
  | num (op : NumOp)
  deriving Repr

/-- `Expr`, core.py:711-718. -/
abbrev Expr := List Inst

/-- `FuncType`, core.py:763-773; Python `==` is structural. -/
structure FuncType where
  args : List ValType
  rets : List ValType
  deriving DecidableEq, Repr

/-- `FuncDesc`, core.py:788-803 with `LocalsDesc`, core.py:736-743, as pairs. -/
structure FuncDesc where
  type : Nat
  locals : List (Nat × ValType)
  expr : Expr

/-- `Limits`, core.py:817-822. `m = 0` stands for "no maximum" in the code. -/
structure Limits where
  n : Nat
  m : Nat
  deriving DecidableEq, Repr

/-- `Limits.suit`, core.py:828-832. -/
def Limits.suit (self value : Limits) : Bool :=
  let c1 := decide (self.n ≥ value.n)
  let c2 := decide (value.m = 0)
  let c3 := decide (self.m ≠ 0) && decide (value.m ≠ 0) && decide (self.m ≤ value.m)
  c1 && (c2 || c3)

/-- `TableType`, core.py:929-938. -/
structure TableType where
  type : ValType
  limits : Limits
  deriving DecidableEq, Repr

/-- `GlobalType`, core.py:975-981; `isMut` is `mut`, asserted to be 0 or 1. -/
structure GlobalType where
  type : ValType
  isMut : Bool
  deriving DecidableEq, Repr

end Pywasm
