import Verif.Spec.Cells

/-!
# Lanes of a 128-bit vector
-/

namespace Pywasm.Spec

/-- Lane number `i` (from the least significant end) of `x` seen as lanes of `w` bits. -/
def lane (w : Nat) {n : Nat} (x : BitVec n) (i : Nat) : BitVec w := x.extractLsb' (w * i) w

/-- The vector whose lane number `i` is `f i`. -/
def ofLanes (w : Nat) (f : Nat → BitVec w) : BitVec 128 :=
  BitVec.ofNat 128 ((List.range (128 / w)).map fun i => (f i).toNat * 2 ^ (w * i)).sum

end Pywasm.Spec
