import Verif.Spec.Opcode

/-!
# The opcode table agrees with the specification: the table itself
-/

namespace Pywasm
open Spec.Bin

/-- the canonical LEB128 encoding of a number below 2^14 -/
def shortLeb (n : Nat) : Bytes := if n < 128 then [UInt8.ofNat n] else [UInt8.ofNat (128 + n % 128), UInt8.ofNat (n / 128)]

/-- big-endian number, as in `int.from_bytes` -/
def bigEndian (b : Bytes) : Nat := b.foldl (fun a x => a * 256 + x.toNat) 0

/-- the check of one line of the opcode table against the specification -/
def opcOk (o : Opc) : Bool :=
  match code o with
  | .byte b => decide (b.toNat < 0xfc) && decide (Opc.ofNum b.toNat = some o)
  | .fc n => decide (n < 16384) && decide (Opc.ofNum (bigEndian (0xfc :: shortLeb n)) = some o)
  | .fd n => decide (n < 16384) && decide (Opc.ofNum (bigEndian (0xfd :: shortLeb n)) = some o)

theorem opcOk_all : Opc.all.all opcOk = true := by decide +kernel

theorem mem_all (o : Opc) : o ∈ Opc.all := by
  rw [← List.contains_iff_mem]
  cases o with
  | load o => cases o <;> decide +kernel
  | store o => cases o <;> decide +kernel
  | load_lane o => cases o <;> decide +kernel
  | store_lane o => cases o <;> decide +kernel
  | int o => cases o <;> decide +kernel
  | flt o => cases o <;> decide +kernel
  | vec o => cases o <;> decide +kernel
  | lane o => cases o <;> decide +kernel
  | _ => decide +kernel

theorem opcOk_true (o : Opc) : opcOk o = true := List.all_eq_true.1 opcOk_all o (mem_all o)

end Pywasm
