import Verif.Model.Value

/-!
# Specification of guest values

A guest value lives in a 16-byte cell.  An `iNN`/`fNN` value is the little-endian number in the first bytes; the cells
pywasm creates are zero above that.  This file says so without using the model's own conversion functions.
-/

namespace Pywasm.Spec

/-- `∑ l[i] * 256^i`. -/
def readLE (l : Bytes) : Nat := (l.mapIdx fun i b => b.toNat * 256 ^ i).sum

/-- Byte number `i` of `n`. -/
def byteAt (n i : Nat) : UInt8 := UInt8.ofNat (n / 256 ^ i)

/-- The `k` low bytes of `n`, least significant first. -/
def bytesLE (k n : Nat) : Bytes := (List.range k).map (byteAt n)

theorem bytesLE_length (k n : Nat) : (bytesLE k n).length = k := by simp [bytesLE]

/-- A cell of type `ty` holding the `k`-byte number `n`. -/
def cell (ty : ValType) (k n : Nat) (h : k ≤ 16) : Val :=
  ⟨ty, bytesLE k n ++ List.replicate (16 - k) 0, by simp [bytesLE_length]; omega⟩

/-- The cells pywasm builds for numeric values. -/
def i32 (x : BitVec 32) : Val := cell .i32 4 x.toNat (by decide)
def i64 (x : BitVec 64) : Val := cell .i64 8 x.toNat (by decide)
def f32 (x : BitVec 32) : Val := cell .f32 4 x.toNat (by decide)
def f64 (x : BitVec 64) : Val := cell .f64 8 x.toNat (by decide)
def v128 (x : BitVec 128) : Val := cell .v128 16 x.toNat (by decide)
/-- A boolean result. -/
def bool (b : Bool) : Val := i32 (if b then 1 else 0)

end Pywasm.Spec

namespace Pywasm.Val
open Pywasm.Spec

/-- The value seen by a 32-bit instruction. -/
def low32 (v : Val) : BitVec 32 := BitVec.ofNat 32 (readLE (v.data.take 4))
/-- The value seen by a 64-bit instruction. -/
def low64 (v : Val) : BitVec 64 := BitVec.ofNat 64 (readLE (v.data.take 8))
/-- The value seen by a vector instruction. -/
def low128 (v : Val) : BitVec 128 := BitVec.ofNat 128 (readLE v.data)

end Pywasm.Val
