import Verif.Model.Py

/-!
# Python floats

A Python `float` is a C `double`; it is modelled by its 64-bit pattern and the operations by exact integer arithmetic
followed by IEEE 754 rounding to nearest, ties to even.  This is what CPython on a usual platform does; pywasm itself
relies on it.  NaN payloads follow x86-64 (a NaN operand is quieted and propagated, the first operand first); no theorem
about results "up to NaN payload" depends on this choice.
-/

namespace Pywasm

/-- Bit pattern of a C `double` (a Python `float`). -/
abbrev F64 := BitVec 64
/-- Bit pattern of a C `float`. -/
abbrev F32 := BitVec 32

namespace IEEE

/-- Magnitude bits of the float nearest (ties to even) to `num/den` units in the last place of the smallest subnormal,
for a format with `p` explicit significand bits and all-ones exponent field `emax`.  Overflow gives infinity.
With `e` the exponent shift, the encoding of the significand `m` is `e * 2^p + m`, also when `m` carries. -/
def roundMag (p emax num den : Nat) : Nat :=
  let q := num / den
  let e := if q < 2 ^ (p + 1) then 0 else Nat.log2 q - p
  let d := den * 2 ^ e
  let m := num / d
  let r := num % d
  let m' := if d < 2 * r ∨ (d = 2 * r ∧ m % 2 = 1) then m + 1 else m
  min (e * 2 ^ p + m') (emax * 2 ^ p)

end IEEE

namespace F64

def sign (x : F64) : Bool := x.getLsbD 63
def expo (x : F64) : Nat := x.toNat / 2 ^ 52 % 2048
def mant (x : F64) : Nat := x.toNat % 2 ^ 52
/-- `math.isnan` -/
def isNaN (x : F64) : Bool := x.expo == 2047 && x.mant != 0
/-- `math.isinf` -/
def isInf (x : F64) : Bool := x.expo == 2047 && x.mant == 0
def isFinite (x : F64) : Bool := x.expo != 2047
/-- The magnitude of a finite double in units of `2^-1074`. -/
def mag (x : F64) : Nat := if x.expo = 0 then x.mant else (2 ^ 52 + x.mant) * 2 ^ (x.expo - 1)
/-- The value of a finite double in units of `2^-1074`. -/
def val (x : F64) : Int := if x.sign then -(x.mag : Int) else x.mag

/-- Assemble sign and magnitude bits. -/
def ofMag (s : Bool) (m : Nat) : F64 := BitVec.ofNat 64 ((if s then 2 ^ 63 else 0) + m)
/-- `num/den` units of `2^-1074`, rounded. -/
def round (s : Bool) (num den : Nat) : F64 := ofMag s (IEEE.roundMag 52 2047 num den)
def inf (s : Bool) : F64 := ofMag s (2047 * 2 ^ 52)
/-- `math.nan` (and the default NaN of invalid operations up to sign). -/
def nan : F64 := ofMag false (2047 * 2 ^ 52 + 2 ^ 51)
/-- `0.0` -/
def zero : F64 := 0
/-- `1.0` -/
def one : F64 := ofMag false (1023 * 2 ^ 52)
def quiet (x : F64) : F64 := x ||| BitVec.ofNat 64 (2 ^ 51)

/-- `math.copysign(a, b)` -/
def copysign (a b : F64) : F64 := ofMag b.sign (a.toNat % 2 ^ 63)
/-- `-a` -/
def neg (a : F64) : F64 := ofMag (!a.sign) (a.toNat % 2 ^ 63)
/-- `abs(a)` -/
def abs (a : F64) : F64 := ofMag false (a.toNat % 2 ^ 63)

/-- `a == b` -/
def eq (a b : F64) : Bool :=
  if a.isNaN || b.isNaN then false
  else if a.isInf || b.isInf then a == b
  else a.val == b.val
/-- `a < b` -/
def lt (a b : F64) : Bool :=
  if a.isNaN || b.isNaN then false
  else if a.isInf then a.sign && !(b.isInf && b.sign)
  else if b.isInf then !b.sign
  else a.val < b.val
/-- `a <= b` -/
def le (a b : F64) : Bool := lt a b || eq a b

/-- `a + b` -/
def add (a b : F64) : F64 :=
  if a.isNaN then quiet a else if b.isNaN then quiet b
  else if a.isInf then (if b.isInf && a.sign != b.sign then ofMag true (2047 * 2 ^ 52 + 2 ^ 51) else a)
  else if b.isInf then b
  else
    let v := a.val + b.val
    if v = 0 then (if a.sign && b.sign then ofMag true 0 else zero)
    else round (v < 0) v.natAbs 1
/-- `a - b` -/
def sub (a b : F64) : F64 := if b.isNaN && !a.isNaN then quiet b else add a (neg b)
/-- `a * b` -/
def mul (a b : F64) : F64 :=
  let s := a.sign != b.sign
  if a.isNaN then quiet a else if b.isNaN then quiet b
  else if a.isInf || b.isInf then
    (if (a.isFinite && a.mag == 0) || (b.isFinite && b.mag == 0) then ofMag true (2047 * 2 ^ 52 + 2 ^ 51) else inf s)
  else round s (a.mag * b.mag) (2 ^ 1074)
/-- `a / b` for `b ≠ 0` (Python raises `ZeroDivisionError` on zero; pywasm never divides by zero, arith.py:185-194). -/
def div (a b : F64) : F64 :=
  let s := a.sign != b.sign
  if a.isNaN then quiet a else if b.isNaN then quiet b
  else if a.isInf then (if b.isInf then ofMag true (2047 * 2 ^ 52 + 2 ^ 51) else inf s)
  else if b.isInf then ofMag s 0
  else round s (a.mag * 2 ^ 1074) b.mag
/-- `math.sqrt(a)` for `a >= 0` (pywasm only calls it there). The `+ 1` is the sticky bit of an inexact root. -/
def sqrt (a : F64) : F64 :=
  if a.isNaN || a.isInf || a.mag = 0 then a
  else
    let n := a.mag * 2 ^ 1074
    let s := Nat.sqrt n
    round false (2 * s + (if s * s = n then 0 else 1)) 2

/-- `float(n)`: correctly rounded, `OverflowError` when it would be infinite. -/
def ofInt (n : Int) : Except Err F64 :=
  let m := IEEE.roundMag 52 2047 (n.natAbs * 2 ^ 1074) 1
  if m < 2047 * 2 ^ 52 then .ok (ofMag (n < 0) m) else .error .overflow
/-- `int(x)` and `math.trunc(x)`: `ValueError` on NaN, `OverflowError` on infinity. -/
def toInt (x : F64) : Except Err Int :=
  if x.isNaN then .error .value else if x.isInf then .error .overflow
  else .ok (Int.tdiv x.val (2 ^ 1074))
/-- `math.floor(x)` for finite `x`. -/
def floor (x : F64) : Int := Int.fdiv x.val (2 ^ 1074)
/-- `math.ceil(x)` for finite `x`. -/
def ceil (x : F64) : Int := -Int.fdiv (-x.val) (2 ^ 1074)
/-- `math.trunc(x)` for finite `x`. -/
def trunc (x : F64) : Int := Int.tdiv x.val (2 ^ 1074)
/-- `round(x)` for finite `x`: half to even. -/
def roundEven (x : F64) : Int :=
  let f := x.floor
  let r := 2 * (x.val - f * 2 ^ 1074)
  if r < 2 ^ 1074 then f else if 2 ^ 1074 < r then f + 1 else if f % 2 = 0 then f else f + 1

/-- exact comparison `n < x` of a Python int with a float -/
def intLt (n : Int) (x : F64) : Bool :=
  if x.isNaN then false else if x.isInf then !x.sign else n * 2 ^ 1074 < x.val
/-- exact comparison `x < n` -/
def ltInt (x : F64) (n : Int) : Bool :=
  if x.isNaN then false else if x.isInf then x.sign else x.val < n * 2 ^ 1074

end F64

namespace F32

def sign (x : F32) : Bool := x.getLsbD 31
def expo (x : F32) : Nat := x.toNat / 2 ^ 23 % 256
def mant (x : F32) : Nat := x.toNat % 2 ^ 23
def isNaN (x : F32) : Bool := x.expo == 255 && x.mant != 0
def isInf (x : F32) : Bool := x.expo == 255 && x.mant == 0
/-- The magnitude of a finite single in units of `2^-149`. -/
def mag (x : F32) : Nat := if x.expo = 0 then x.mant else (2 ^ 23 + x.mant) * 2 ^ (x.expo - 1)
def val (x : F32) : Int := if x.sign then -(x.mag : Int) else x.mag
def ofMag (s : Bool) (m : Nat) : F32 := BitVec.ofNat 32 ((if s then 2 ^ 31 else 0) + m)

/-- C conversion `(double) x` (`struct.unpack('<f', ...)`). Exact; signalling NaNs become quiet. -/
def toF64 (x : F32) : F64 :=
  if x.isNaN then F64.ofMag x.sign (2047 * 2 ^ 52 + 2 ^ 51 + (x.mant % 2 ^ 22) * 2 ^ 29)
  else if x.isInf then F64.inf x.sign
  else F64.round x.sign (x.mag * 2 ^ 925) 1

/-- C conversion `(float) x` (`ctypes.c_float(x).value`, `struct.pack('f', x)`): rounds to nearest even, overflows to
infinity, quiets NaNs and truncates their payload. -/
def ofF64 (x : F64) : F32 :=
  if x.isNaN then ofMag x.sign (255 * 2 ^ 23 + 2 ^ 22 + (x.mant / 2 ^ 29) % 2 ^ 22)
  else if x.isInf then ofMag x.sign (255 * 2 ^ 23)
  else ofMag x.sign (IEEE.roundMag 23 255 x.mag (2 ^ 925))

end F32


end Pywasm
