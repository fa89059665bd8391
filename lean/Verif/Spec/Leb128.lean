import Verif.Model.Leb128

/-!
# Specification of LEB128

A *group* is a run of bytes with the top bit set followed by one byte with the top bit clear.
-/

namespace Pywasm.Spec.Leb

/-- A complete group: every byte but the last has its top bit set, the last has it clear. -/
def IsGroup (g : Bytes) : Prop := ∃ init last, g = init ++ [last] ∧ (∀ b ∈ init, 128 ≤ b.toNat) ∧ last.toNat < 128

/-- Unsigned value: `∑ (gᵢ mod 128) · 128^i`. -/
def uval (g : Bytes) : Nat := (g.mapIdx fun i b => (b.toNat % 128) * 128 ^ i).sum

/-- Signed value: bit 6 of the last byte is the sign of a two's-complement number of `7 * length` bits. -/
def sval (g : Bytes) : Int :=
  match g.getLast? with
  | some b => if b.toNat.testBit 6 then (uval g : Int) - 128 ^ g.length else uval g
  | none => 0

/-- A stream without a terminator. -/
def Unterminated (s : Bytes) : Prop := ∀ b ∈ s, 128 ≤ b.toNat

end Pywasm.Spec.Leb
