import Verif.Model.Arith
import Verif.Model.PyFloat

/-!
# Model of `ValType` and `ValInst`, /repo/pywasm/core.py:12-303
-/

namespace Pywasm

/-- `ValType`, /repo/pywasm/core.py:12-66; the Python class holds the byte `code`. -/
inductive ValType where
  | i32 | i64 | f32 | f64 | v128 | funcref | externref
  deriving DecidableEq, Repr

namespace ValType
/-- The byte stored in `ValType.data` (lines 36-62). -/
def code : ValType → Nat
  | i32 => 0x7f | i64 => 0x7e | f32 => 0x7d | f64 => 0x7c | v128 => 0x7b | funcref => 0x70 | externref => 0x6f
/-- `ValType(data)`, line 15-17: asserts that the byte is one of the seven. -/
def ofCode (n : Nat) : Except Err ValType :=
  if n = 0x7f then .ok i32 else if n = 0x7e then .ok i64 else if n = 0x7d then .ok f32
  else if n = 0x7c then .ok f64 else if n = 0x7b then .ok v128 else if n = 0x70 then .ok funcref
  else if n = 0x6f then .ok externref else .error .assertion
/-- `type in [ValType.ref_func(), ValType.ref_extern()]` -/
def isRef : ValType → Bool
  | funcref | externref => true
  | _ => false
end ValType

/-- `ValInst`, /repo/pywasm/core.py:69-78: a type and exactly 16 bytes (the constructor asserts the length, so the
length is part of the type here).  No pywasm code mutates the bytes of a `ValInst` that is reachable from a stack, the
store or locals (all in-place edits are on copies), so instances are values. -/
structure Val where
  ty : ValType
  data : Bytes
  len : data.length = 16

theorem Val.ext' {a b : Val} (h1 : a.ty = b.ty) (h2 : a.data = b.data) : a = b := by
  cases a; cases b; simp_all

instance : DecidableEq Val := fun a b =>
  if h : a.ty = b.ty ∧ a.data = b.data then isTrue (Val.ext' h.1 h.2)
  else isFalse (fun e => h (by cases e; exact ⟨rfl, rfl⟩))

/-- A value of the host language crossing the API: Python `int`, `float`, `bytearray`. -/
inductive HVal where
  | int (n : Int)
  | float (x : F64)
  | bytes (b : Bytes)
  deriving DecidableEq

namespace Val

/-- `ValInst.__init__`, /repo/pywasm/core.py:74-77. -/
def make (ty : ValType) (data : Bytes) : Except Err Val :=
  if h : data.length = 16 then .ok ⟨ty, data, h⟩ else .error .assertion

/-- lines 101-103 -/
def fromI32 (n : Int) : Except Err Val := do
  let b ← Arith.I.intoBytearray 4 n
  make .i32 (b ++ Py.zeros 12)
/-- lines 105-107 -/
def fromI64 (n : Int) : Except Err Val := do
  let b ← Arith.I.intoBytearray 8 n
  make .i64 (b ++ Py.zeros 8)
/-- lines 109-111 -/
def fromU32 (n : Int) : Except Err Val := do
  let b ← Arith.U.intoBytearray 4 n
  make .i32 (b ++ Py.zeros 12)
/-- lines 113-115 -/
def fromU64 (n : Int) : Except Err Val := do
  let b ← Arith.U.intoBytearray 8 n
  make .i64 (b ++ Py.zeros 8)
/-- lines 117-120: `ctypes.c_float(n).value` rounds to single; packing the result as `'<f'` converts back (a second
conversion of an already converted value). -/
def fromF32 (x : F64) : Except Err Val := do
  let x := F32.toF64 (F32.ofF64 x)
  make .f32 (Py.leBytes 4 (F32.ofF64 x).toNat ++ Py.zeros 12)
/-- `from_f32_u32`, lines 122-126 -/
def fromF32U32 (n : Int) : Except Err Val := do
  let o ← fromU32 n
  return { o with ty := .f32 }
/-- lines 128-130 -/
def fromF64 (x : F64) : Except Err Val :=
  make .f64 (Py.leBytes 8 x.toNat ++ Py.zeros 8)
/-- `from_f64_u64`, lines 132-136 -/
def fromF64U64 (n : Int) : Except Err Val := do
  let o ← fromU64 n
  return { o with ty := .f64 }
/-- lines 138-141 -/
def fromV128 (n : Bytes) : Except Err Val := do
  Py.assert (n.length == 16)
  make .v128 (n ++ Py.zeros 0)

/-- `from_v128_i8/i16/i32/i64`, lines 143-147, 155-159, 167-171, 179-183; `blen` is the lane width in bytes. -/
def fromV128I (blen : Nat) (n : List Int) : Except Err Val := do
  Py.assert (n.length == 16 / blen)
  let l ← n.mapM (Arith.I.intoBytearray blen)
  make .v128 (l.flatten ++ Py.zeros 0)
/-- `from_v128_u8/u16/u32/u64`, lines 149-153, 161-165, 173-177, 185-189. -/
def fromV128U (blen : Nat) (n : List Int) : Except Err Val := do
  Py.assert (n.length == 16 / blen)
  let l ← n.mapM (Arith.U.intoBytearray blen)
  make .v128 (l.flatten ++ Py.zeros 0)
/-- `from_v128_f32`, lines 191-195 (`struct.pack('f', e)`, arith.py:155-156, converts each lane to single: the native
format `'f'` is a C cast, which gives infinity where `'<f'` would raise `OverflowError`). -/
def fromV128F32 (n : List F64) : Except Err Val := do
  Py.assert (n.length == 4)
  make .v128 ((n.map fun x => Py.leBytes 4 (F32.ofF64 x).toNat).flatten ++ Py.zeros 0)
/-- `from_v128_f64`, lines 197-201. -/
def fromV128F64 (n : List F64) : Except Err Val := do
  Py.assert (n.length == 2)
  make .v128 ((n.map fun x => Py.leBytes 8 x.toNat).flatten ++ Py.zeros 0)

/-- `from_ref`, lines 203-205 -/
def fromRef (ty : ValType) (n : Int) : Except Err Val := do
  let b ← Py.packS 4 n
  make ty (b ++ [0x01] ++ Py.zeros 11)

/-- `self.data[0:4]` as `'<i'`, lines 226-227. The slice always has length 4, so `struct.unpack` cannot fail. -/
def intoI32 (v : Val) : Int := Py.fromBytesS (v.data.take 4)
/-- lines 229-230 -/
def intoI64 (v : Val) : Int := Py.fromBytesS (v.data.take 8)
/-- lines 232-233 -/
def intoU32 (v : Val) : Int := Py.fromBytesU (v.data.take 4)
/-- lines 235-236 -/
def intoU64 (v : Val) : Int := Py.fromBytesU (v.data.take 8)
/-- lines 238-239 -/
def intoF32 (v : Val) : F64 := F32.toF64 (BitVec.ofNat 32 (Py.leNat (v.data.take 4)))
/-- lines 241-242 -/
def intoF64 (v : Val) : F64 := BitVec.ofNat 64 (Py.leNat (v.data.take 8))
/-- lines 244-245 -/
def intoV128 (v : Val) : Bytes := v.data.take 16

/-- The chunks `self.data[i:i+blen] for i in range(0, 16, blen)` of lines 253-275. -/
def chunks (blen : Nat) (v : Val) : List Bytes :=
  (List.range (16 / blen)).map fun i => (v.data.drop (i * blen)).take blen

/-- `into_v128_i8`, lines 247-248: `i8.fit(e)` of each byte. -/
def intoV128I8 (v : Val) : List Int := v.data.map fun e => Arith.I.fit 1 e.toNat
/-- `into_v128_u8`, lines 250-251. -/
def intoV128U8 (v : Val) : List Int := v.data.map fun e => Arith.U.fit 1 e.toNat
/-- `into_v128_i16/i32/i64`, lines 253-254, 259-260, 265-266 (the length assertion of `from_bytearray` always holds). -/
def intoV128I (blen : Nat) (v : Val) : List Int := (chunks blen v).map Py.fromBytesS
/-- `into_v128_u16/u32/u64`, lines 256-257, 262-263, 268-269. -/
def intoV128U (blen : Nat) (v : Val) : List Int := (chunks blen v).map Py.fromBytesU
/-- `into_v128_f32`, lines 271-272. -/
def intoV128F32 (v : Val) : List F64 := (chunks 4 v).map fun b => F32.toF64 (BitVec.ofNat 32 (Py.leNat b))
/-- `into_v128_f64`, lines 274-275. -/
def intoV128F64 (v : Val) : List F64 := (chunks 8 v).map fun b => BitVec.ofNat 64 (Py.leNat b)

/-- `self.data[i]` for `i < 16`. -/
def byte (v : Val) (i : Nat) : UInt8 := v.data.getD i 0

/-- lines 277-279: the byte at index 4 distinguishes null references. -/
def intoRef (v : Val) : Except Err Int := do
  Py.assert (v.byte 4 == 0x01)
  return v.intoI32

/-- `zero`, lines 301-303. -/
def zero (ty : ValType) : Val := ⟨ty, Py.zeros 16, by simp [Py.zeros]⟩

/-- `from_all`, lines 207-224. A host value of the wrong Python type raises `AttributeError`/`TypeError`/`struct.error`;
a Python int is accepted where a float is expected (`float(n)` semantics of `c_float`/`struct.pack`); one too large for
a double raises `OverflowError` in `c_float` and `struct.error` in `struct.pack('<d', n)`. -/
def fromAll (ty : ValType) (n : HVal) : Except Err Val :=
  match ty, n with
  | .i32, .int n => fromI32 n
  | .i64, .int n => fromI64 n
  | .i32, _ => .error .attribute
  | .i64, _ => .error .attribute
  | .f32, .float x => fromF32 x
  | .f32, .int n => do fromF32 (← F64.ofInt n)
  | .f32, .bytes _ => .error .type
  | .f64, .float x => fromF64 x
  | .f64, .int n => do fromF64 (← (F64.ofInt n).mapError fun _ => .struct)
  | .f64, .bytes _ => .error .struct
  | .v128, .bytes b => fromV128 b
  | .v128, _ => .error .type
  | .funcref, .int n => fromRef .funcref n
  | .externref, .int n => fromRef .externref n
  | .funcref, _ => .error .struct
  | .externref, _ => .error .struct

/-- `into_all`, lines 281-299. -/
def intoAll (v : Val) : Except Err HVal :=
  match v.ty with
  | .i32 => .ok (.int v.intoI32)
  | .i64 => .ok (.int v.intoI64)
  | .f32 => .ok (.float v.intoF32)
  | .f64 => .ok (.float v.intoF64)
  | .v128 => .ok (.bytes v.intoV128)
  | .funcref => v.intoRef.map .int
  | .externref => v.intoRef.map .int

end Val
end Pywasm
