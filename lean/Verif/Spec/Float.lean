import Mathlib.Order.Lattice
import Mathlib.Algebra.Order.Ring.Int
import Verif.Spec.Cells

/-!
# Specification of floating-point numbers

A bit pattern of a format with `p` explicit significand bits is a sign and a `code` (all the other bits).  The finite
codes denote, in order, the magnitudes `magnitude p code` counted in units of the smallest positive (subnormal) number:
`2^-149` for f32, `2^-1074` for f64.
-/

namespace Pywasm.Spec

/-- The magnitude a finite code denotes: below `2^p` subnormal, then significands with an implicit leading one. -/
def magnitude (p c : Nat) : Nat := if c < 2 ^ p then c else (2 ^ p + c % 2 ^ p) * 2 ^ (c / 2 ^ p - 1)

/-- A number, NaN or infinity; `mag` is in units of the smallest positive number of the format. -/
inductive Num where
  | nan
  | inf (neg : Bool)
  | fin (neg : Bool) (mag : Nat)
  deriving DecidableEq, Repr

/-- The code of infinity: all-ones exponent, zero significand. -/
def inf32 : Nat := 255 * 2 ^ 23
def inf64 : Nat := 2047 * 2 ^ 52

def code32 (x : BitVec 32) : Nat := x.toNat % 2 ^ 31
def code64 (x : BitVec 64) : Nat := x.toNat % 2 ^ 63

def num32 (x : BitVec 32) : Num :=
  if inf32 < code32 x then .nan else if code32 x = inf32 then .inf x.msb else .fin x.msb (magnitude 23 (code32 x))
def num64 (x : BitVec 64) : Num :=
  if inf64 < code64 x then .nan else if code64 x = inf64 then .inf x.msb else .fin x.msb (magnitude 52 (code64 x))

/-- `c` is the code of the float nearest to `num/den` units, ties to even, where the code `top` of infinity counts as
the number that would come next if the exponent range went on (the IEEE 754 overflow rule). -/
def Nearest (p top num den c : Nat) : Prop :=
  c ≤ top ∧ ∀ c' ≤ top,
    |(magnitude p c * den : Int) - num| ≤ |(magnitude p c' * den : Int) - num| ∧
    (|(magnitude p c * den : Int) - num| = |(magnitude p c' * den : Int) - num| → c' ≠ c → c % 2 = 0)

/-- The signed value of a finite number, in units of the smallest positive one. -/
def Num.units : Num → Int
  | .fin s m => if s then -(m : Int) else m
  | _ => 0

/-- `x < y`; false when either is NaN; `-0` and `+0` are equal. -/
def Num.less : Num → Num → Bool
  | .nan, _ => false
  | _, .nan => false
  | .inf s, y => s && y != .inf true
  | .fin _ _, .inf s => !s
  | .fin s m, .fin s' m' => decide ((Num.fin s m).units < (Num.fin s' m').units)

/-- `x = y`; false when either is NaN; `-0` and `+0` are equal. -/
def Num.equal : Num → Num → Bool
  | .inf s, .inf s' => s == s'
  | .fin s m, .fin s' m' => decide ((Num.fin s m).units = (Num.fin s' m').units)
  | _, _ => false

def Num.isZero : Num → Bool
  | .fin _ 0 => true
  | _ => false
def Num.neg : Num → Bool
  | .inf s | .fin s _ => s
  | .nan => false

/-- The two formats. -/
inductive FW where
  | w32 | w64
  deriving DecidableEq, Repr

/-- The number a cell holds when read as a float. -/
def numAt : FW → Val → Num
  | .w32, v => num32 v.low32
  | .w64, v => num64 v.low64
/-- How many units make one. -/
def one : FW → Int
  | .w32 => 2 ^ 149
  | .w64 => 2 ^ 1074

/-! ## Rounding a number of units to a whole number; `den` units make one. -/

/-- `k` is the least integer not below `u / den`. -/
def IsCeil (den u k : Int) : Prop := u ≤ k * den ∧ (k - 1) * den < u
/-- `k` is the greatest integer not above `u / den`. -/
def IsFloor (den u k : Int) : Prop := k * den ≤ u ∧ u < (k + 1) * den
/-- `k` is `u / den` rounded towards zero. -/
def IsTrunc (den u k : Int) : Prop := if 0 ≤ u then IsFloor den u k else IsCeil den u k
/-- `k` is the integer nearest to `u / den`, ties to even. -/
def IsRound (den u k : Int) : Prop := 2 * |k * den - u| ≤ den ∧ (2 * |k * den - u| = den → k % 2 = 0)

/-! ## Arithmetic: the exact result, rounded once -/

/-- Explicit significand bits. -/
def FW.bits : FW → Nat
  | .w32 => 23
  | .w64 => 52
/-- The code of infinity. -/
def FW.top : FW → Nat
  | .w32 => inf32
  | .w64 => inf64
/-- How many units make one (as a natural number). -/
def FW.unit : FW → Nat
  | .w32 => 2 ^ 149
  | .w64 => 2 ^ 1074

/-- `r` has sign `s` and the magnitude nearest to `num/den` units (ties to even, overflow to infinity). -/
def RoundsTo (w : FW) (s : Bool) (num den : Nat) (r : Num) : Prop :=
  ∃ c, Nearest w.bits w.top num den c ∧ r = if c = w.top then .inf s else .fin s (magnitude w.bits c)

/-- `c` is the code nearest to the square root of `n` (in units whose squares `n` counts): for every other code, the root
is on `c`'s side of the midpoint of the two, or at the midpoint and `c` is even. -/
def NearestSqrt (p top n c : Nat) : Prop :=
  c < top ∧ ∀ c' ≤ top,
    (c < c' → 4 * n ≤ (magnitude p c + magnitude p c') ^ 2 ∧ (4 * n = (magnitude p c + magnitude p c') ^ 2 → c % 2 = 0)) ∧
    (c' < c → (magnitude p c + magnitude p c') ^ 2 ≤ 4 * n ∧ ((magnitude p c + magnitude p c') ^ 2 = 4 * n → c % 2 = 0))

/-- `x + y` -/
def AddSpec (w : FW) (x y r : Num) : Prop :=
  match x, y with
  | .nan, _ => r = .nan
  | _, .nan => r = .nan
  | .inf s, .inf s' => r = if s = s' then .inf s else .nan
  | .inf s, .fin _ _ => r = .inf s
  | .fin _ _, .inf s' => r = .inf s'
  | .fin s m, .fin s' m' =>
    let u := (Num.fin s m).units + (Num.fin s' m').units
    if u = 0 then r = .fin (s && s') 0 else RoundsTo w (decide (u < 0)) u.natAbs 1 r
/-- `-y` -/
def Num.flip : Num → Num
  | .nan => .nan
  | .inf s => .inf !s
  | .fin s m => .fin (!s) m
/-- `x - y` -/
def SubSpec (w : FW) (x y r : Num) : Prop := AddSpec w x y.flip r
/-- `x * y` -/
def MulSpec (w : FW) (x y r : Num) : Prop :=
  match x, y with
  | .nan, _ => r = .nan
  | _, .nan => r = .nan
  | .inf s, .inf s' => r = .inf (s != s')
  | .inf s, .fin s' m => r = if m = 0 then .nan else .inf (s != s')
  | .fin s m, .inf s' => r = if m = 0 then .nan else .inf (s != s')
  | .fin s m, .fin s' m' => RoundsTo w (s != s') (m * m') w.unit r
/-- `x / y` -/
def DivSpec (w : FW) (x y r : Num) : Prop :=
  match x, y with
  | .nan, _ => r = .nan
  | _, .nan => r = .nan
  | .inf _, .inf _ => r = .nan
  | .inf s, .fin s' _ => r = .inf (s != s')
  | .fin s _, .inf s' => r = .fin (s != s') 0
  | .fin s m, .fin s' m' =>
    if m' = 0 then (if m = 0 then r = .nan else r = .inf (s != s'))
    else RoundsTo w (s != s') (m * w.unit) m' r
/-- `sqrt x` -/
def SqrtSpec (w : FW) (x r : Num) : Prop :=
  match x with
  | .nan => r = .nan
  | .inf s => r = if s then .nan else .inf false
  | .fin s m =>
    if m = 0 then r = .fin s 0 else if s then r = .nan
    else ∃ c, NearestSqrt w.bits w.top (m * w.unit) c ∧ r = .fin false (magnitude w.bits c)

end Pywasm.Spec
