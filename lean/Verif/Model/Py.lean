/-!
# Python primitives used by pywasm

The definitions of this file model the part of Python's built-in semantics that the code in `/repo/pywasm` relies on.
They do not model pywasm code; every pywasm definition elsewhere is written in terms of them.
-/

namespace Pywasm

/-- `bytes` / `bytearray` contents. -/
abbrev Bytes := List UInt8

/-- The Python exceptions the modelled code can raise.  The exact class is kept because some properties speak about
which failures are WebAssembly traps.  `host n` is an exception raised by host code (outside pywasm);
`exit n` is `Exception(SystemExit, n)` raised by `proc_exit` (/repo/pywasm/wasi.py:1446-1452). -/
inductive Err where
  | assertion | index | key | zeroDivision | overflow | struct | value | type | attribute | name | recursion
  | os (n : Nat)
  | host (n : Nat)
  | exit (n : Int)
  | sysExit (n : Int)
  deriving DecidableEq, Repr

namespace Py

/-- Python `a & b` on unbounded integers: two's complement with infinite sign extension. `Int.negSucc m` is `~m`. -/
def and : Int → Int → Int
  | .ofNat m, .ofNat n => ((m &&& n : Nat) : Int)
  | .ofNat m, .negSucc n => ((m - (m &&& n) : Nat) : Int)
  | .negSucc m, .ofNat n => ((n - (n &&& m) : Nat) : Int)
  | .negSucc m, .negSucc n => .negSucc (m ||| n)
/-- Python `a | b`. -/
def or : Int → Int → Int
  | .ofNat m, .ofNat n => ((m ||| n : Nat) : Int)
  | .ofNat m, .negSucc n => .negSucc (n - (n &&& m))
  | .negSucc m, .ofNat n => .negSucc (m - (m &&& n))
  | .negSucc m, .negSucc n => .negSucc (m &&& n)
/-- Python `a ^ b`. -/
def xor : Int → Int → Int
  | .ofNat m, .ofNat n => ((m ^^^ n : Nat) : Int)
  | .ofNat m, .negSucc n => .negSucc (m ^^^ n)
  | .negSucc m, .ofNat n => .negSucc (m ^^^ n)
  | .negSucc m, .negSucc n => ((m ^^^ n : Nat) : Int)
/-- Python `~a`. -/
def inv (a : Int) : Int := -a - 1
/-- Python `a << k` for a non-negative shift count. -/
def shl (a : Int) (k : Nat) : Int := a * 2 ^ k
/-- Python `a >> k` for a non-negative shift count (floor). -/
def shr (a : Int) (k : Nat) : Int := Int.fdiv a (2 ^ k)
/-- Python `a // b`: floor division, `ZeroDivisionError` on zero. -/
def floorDiv (a b : Int) : Except Err Int := if b = 0 then .error .zeroDivision else .ok (Int.fdiv a b)
/-- Python `a % b`: result has the sign of `b`, `ZeroDivisionError` on zero. -/
def mod (a b : Int) : Except Err Int := if b = 0 then .error .zeroDivision else .ok (Int.fmod a b)
/-- Python `assert c`. -/
def assert (c : Bool) : Except Err Unit := if c then .ok () else .error .assertion
/-- Python `bool` used as `int`. -/
def ofBool (b : Bool) : Int := if b then 1 else 0

/-- Value of a little-endian byte string (helper of `int.from_bytes` and `struct.unpack`). -/
def leNat : Bytes → Nat
  | [] => 0
  | b :: bs => b.toNat + 256 * leNat bs

/-- The `k` little-endian bytes of `n` modulo `256^k` (helper of `int.to_bytes` and `struct.pack`). -/
def leBytes : Nat → Nat → Bytes
  | 0, _ => []
  | k + 1, n => UInt8.ofNat n :: leBytes k (n / 256)

/-- `int.from_bytes(data, 'little', signed=False)`. -/
def fromBytesU (b : Bytes) : Int := leNat b
/-- `int.from_bytes(data, 'little', signed=True)`. -/
def fromBytesS (b : Bytes) : Int :=
  if 2 * leNat b < 256 ^ b.length then (leNat b : Int) else (leNat b : Int) - 256 ^ b.length
/-- `n.to_bytes(k, 'little', signed=False)`: `OverflowError` when `n` does not fit. -/
def toBytesU (k : Nat) (n : Int) : Except Err Bytes :=
  if 0 ≤ n ∧ n < 256 ^ k then .ok (leBytes k n.toNat) else .error .overflow
/-- `n.to_bytes(k, 'little', signed=True)`: `OverflowError` when `n` does not fit. -/
def toBytesS (k : Nat) (n : Int) : Except Err Bytes :=
  if -(256 ^ k : Int) ≤ 2 * n ∧ 2 * n < 256 ^ k then .ok (leBytes k (n % 256 ^ k).toNat) else .error .overflow

/-- `struct.pack('<B' | '<H' | '<I' | '<Q', n)` (`k` = 1, 2, 4, 8): `struct.error` when `n` does not fit. -/
def packU (k : Nat) (n : Int) : Except Err Bytes :=
  if 0 ≤ n ∧ n < 256 ^ k then .ok (leBytes k n.toNat) else .error .struct
/-- `struct.pack('<b' | '<h' | '<i' | '<q', n)`: `struct.error` when `n` does not fit. -/
def packS (k : Nat) (n : Int) : Except Err Bytes :=
  if -(256 ^ k : Int) ≤ 2 * n ∧ 2 * n < 256 ^ k then .ok (leBytes k (n % 256 ^ k).toNat) else .error .struct
/-- `struct.unpack('<B' | '<H' | '<I' | '<Q', data)[0]`: `struct.error` when the length is wrong. -/
def unpackU (k : Nat) (b : Bytes) : Except Err Int :=
  if b.length = k then .ok (fromBytesU b) else .error .struct
/-- `struct.unpack('<b' | '<h' | '<i' | '<q', data)[0]`: `struct.error` when the length is wrong. -/
def unpackS (k : Nat) (b : Bytes) : Except Err Int :=
  if b.length = k then .ok (fromBytesS b) else .error .struct

/-- The clamping Python applies to one bound of a slice of a sequence of length `n`. -/
def clamp (n : Nat) (i : Int) : Nat := if i < 0 then (i + n).toNat else min i.toNat n

/-- `l[a:b]`. -/
def slice {α} (l : List α) (a b : Int) : List α :=
  (l.take (clamp l.length b)).drop (clamp l.length a)

/-- `l[a:b] = v` (the assigned sequence may have another length: the list then shrinks or grows). -/
def sliceSet {α} (l : List α) (a b : Int) (v : List α) : List α :=
  let lo := clamp l.length a
  let hi := max lo (clamp l.length b)
  l.take lo ++ v ++ l.drop hi

/-- `l[i]` with Python's negative indices. -/
def getItem {α} (l : List α) (i : Int) : Except Err α :=
  let j := if i < 0 then i + l.length else i
  if j < 0 then .error .index else
    match l[j.toNat]? with
    | some x => .ok x
    | none => .error .index

/-- `l[i] = v` with Python's negative indices. -/
def setItem {α} (l : List α) (i : Int) (v : α) : Except Err (List α) :=
  let j := if i < 0 then i + l.length else i
  if j < 0 ∨ l.length ≤ j.toNat then .error .index else .ok (l.set j.toNat v)

/-- `bytearray(n)`. -/
def zeros (n : Nat) : Bytes := List.replicate n 0

end Py
end Pywasm
