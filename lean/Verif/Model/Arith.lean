import Verif.Model.Py

/-!
# Model of the integer part of /repo/pywasm/arith.py

`blen` is the constructor argument of the Python classes `I` and `U` (byte length 1, 2, 4 or 8).
-/

namespace Pywasm.Arith

/-! ### class I, /repo/pywasm/arith.py:6-60 -/
namespace I

/-- `self.bits_length`, line 8. -/
def bits (blen : Nat) : Nat := blen * 8
/-- `self.mask`, line 10. -/
def mask (blen : Nat) : Int := Py.shl 1 (bits blen) - 1
/-- `self.mask_sign`, line 11. -/
def maskSign (blen : Nat) : Int := Py.shl 1 (bits blen - 1)
/-- `self.max`, line 12. -/
def max (blen : Nat) : Int := Py.shl 1 (bits blen - 1) - 1
/-- `self.min`, line 13: `-1 << (self.bits_length - 1)`. -/
def min (blen : Nat) : Int := Py.shl (-1) (bits blen - 1)

/-- lines 15-17 -/
def fromBytearray (blen : Nat) (data : Bytes) : Except Err Int := do
  Py.assert (data.length == blen)
  return Py.fromBytesS data
/-- lines 19-20 -/
def intoBytearray (blen : Nat) (n : Int) : Except Err Bytes := Py.toBytesS blen n
/-- lines 22-25 -/
def fit (blen : Nat) (n : Int) : Int :=
  let n := Py.and n (mask blen)
  n - Py.shl (Py.and n (maskSign blen)) 1
/-- lines 27-28 -/
def sat (blen : Nat) (n : Int) : Int := Max.max (Min.min n (max blen)) (min blen)
/-- lines 30-31 -/
def add (blen : Nat) (a b : Int) : Int := fit blen (a + b)
/-- lines 33-34 -/
def addSat (blen : Nat) (a b : Int) : Int := sat blen (a + b)
/-- lines 36-37 -/
def sub (blen : Nat) (a b : Int) : Int := fit blen (a - b)
/-- lines 39-40 -/
def subSat (blen : Nat) (a b : Int) : Int := sat blen (a - b)
/-- lines 42-43 -/
def mul (blen : Nat) (a b : Int) : Int := fit blen (a * b)
/-- lines 45-51 -/
def div (blen : Nat) (a b : Int) : Except Err Int := do
  Py.assert (a ≠ min blen || b ≠ -1)
  if a * b > 0 then Py.floorDiv a b
  else do
    let r ← Py.mod (-a) b
    Py.floorDiv (a + r) b
/-- lines 53-54 -/
def rem (_blen : Nat) (a b : Int) : Except Err Int :=
  if a * b > 0 then Py.mod a b
  else do
    let r ← Py.mod (-a) b
    return -r
/-- lines 56-57 (the masked shift count is never negative) -/
def shl (blen : Nat) (a b : Int) : Int := fit blen (Py.shl a (Py.and b (bits blen - 1 : Int)).toNat)
/-- lines 59-60 -/
def shr (blen : Nat) (a b : Int) : Int := fit blen (Py.shr a (Py.and b (bits blen - 1 : Int)).toNat)

end I

/-! ### class U, /repo/pywasm/arith.py:63-144 -/
namespace U

/-- `self.bits_length`, line 65. -/
def bits (blen : Nat) : Nat := blen * 8
/-- `self.mask`, line 67. -/
def mask (blen : Nat) : Int := Py.shl 1 (bits blen) - 1
/-- `self.mask_sign`, line 68. -/
def maskSign (blen : Nat) : Int := Py.shl 1 (bits blen - 1)
/-- `self.max`, line 69. -/
def max (blen : Nat) : Int := mask blen
/-- `self.min`, line 70. -/
def min (_blen : Nat) : Int := 0

/-- lines 72-74 -/
def fromBytearray (blen : Nat) (data : Bytes) : Except Err Int := do
  Py.assert (data.length == blen)
  return Py.fromBytesU data
/-- lines 76-77 -/
def intoBytearray (blen : Nat) (n : Int) : Except Err Bytes := Py.toBytesU blen n
/-- lines 79-80 -/
def fit (blen : Nat) (n : Int) : Int := Py.and n (mask blen)
/-- lines 82-83 -/
def sat (blen : Nat) (n : Int) : Int := Max.max (Min.min n (max blen)) (min blen)
/-- lines 85-86 -/
def add (blen : Nat) (a b : Int) : Int := fit blen (a + b)
/-- lines 88-89 -/
def addSat (blen : Nat) (a b : Int) : Int := sat blen (a + b)
/-- lines 91-92 -/
def sub (blen : Nat) (a b : Int) : Int := fit blen (a - b)
/-- lines 94-95 -/
def subSat (blen : Nat) (a b : Int) : Int := sat blen (a - b)
/-- lines 97-98 -/
def mul (blen : Nat) (a b : Int) : Int := fit blen (a * b)
/-- lines 100-101 -/
def div (_blen : Nat) (a b : Int) : Except Err Int := Py.floorDiv a b
/-- lines 103-104 -/
def rem (_blen : Nat) (a b : Int) : Except Err Int := Py.mod a b
/-- lines 106-107 -/
def shl (blen : Nat) (a b : Int) : Int := fit blen (Py.shl a (Py.and b (bits blen - 1 : Int)).toNat)
/-- lines 109-110 -/
def shr (blen : Nat) (a b : Int) : Int := fit blen (Py.shr a (Py.and b (bits blen - 1 : Int)).toNat)
/-- lines 112-114; `b % self.bits_length` never raises because `bits_length > 0`. -/
def rotl (blen : Nat) (a b : Int) : Int :=
  let b := (Int.fmod b (bits blen)).toNat
  Py.or (Py.and (Py.shl a b) (mask blen)) (Py.shr a (bits blen - b))
/-- lines 116-118 -/
def rotr (blen : Nat) (a b : Int) : Int :=
  let b := (Int.fmod b (bits blen)).toNat
  Py.or (Py.shr a b) (Py.and (Py.shl a (bits blen - b)) (mask blen))

/-- The loop of `clz`, lines 122-127; `fuel` is the number of turns left, `b` the counter. -/
def clzLoop (blen : Nat) : Nat → Int → Int → Int
  | 0, _, b => b
  | fuel + 1, a, b => if Py.and a (maskSign blen) ≠ 0 then b else clzLoop blen fuel (Py.shl a 1) (b + 1)
/-- lines 120-127 -/
def clz (blen : Nat) (a : Int) : Int := clzLoop blen (bits blen) a 0
/-- The loop of `ctz`, lines 131-136. -/
def ctzLoop : Nat → Int → Int → Int
  | 0, _, b => b
  | fuel + 1, a, b => if Py.and a 1 ≠ 0 then b else ctzLoop fuel (Py.shr a 1) (b + 1)
/-- lines 129-136 -/
def ctz (blen : Nat) (a : Int) : Int := ctzLoop (bits blen) a 0
/-- The loop of `popcnt`, lines 140-144. -/
def popcntLoop : Nat → Int → Int → Int
  | 0, _, b => b
  | fuel + 1, a, b => popcntLoop fuel (Py.shr a 1) (if Py.and a 1 ≠ 0 then b + 1 else b)
/-- lines 138-144 -/
def popcnt (blen : Nat) (a : Int) : Int := popcntLoop (bits blen) a 0

end U
end Pywasm.Arith
