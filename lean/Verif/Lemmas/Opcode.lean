import Verif.Lemmas.Decode
import Verif.Lemmas.OpcodeTable

/-!
# The opcode table agrees with the specification
-/

namespace Pywasm
open Reader Spec.Bin Spec.Leb

theorem uEncodeNat_short {n : Nat} (h : n < 16384) : Leb128.uEncodeNat n = shortLeb n := by
  rw [Leb128.uEncodeNat_unfold, shortLeb]
  split
  · rfl
  · rw [Leb128.uEncodeNat_unfold, if_pos (by omega), Leb128.or_80 _ (by omega)]

theorem reads_opcode {o : Opc} {b : Bytes} (h : EncOp o b) (lim : Nat) {c : Bytes} {i : Inst}
    (hi : Reads (Inst.args (Inst.fromReader lim) o) c i) : Reads (Inst.fromReader (lim + 1)) (b ++ c) i := by
  have hk := opcOk_true o
  unfold opcOk at hk
  cases h with
  | @byte b hb =>
    rw [hb] at hk
    simp only [Bool.and_eq_true, decide_eq_true_eq] at hk
    refine Reads.bind (.ordByte b) (Reads.bind1 (a := b.toNat) ?_ ?_)
    · unfold opcodeNumber; rw [if_neg (by omega)]; exact .pure _
    · simp only [hk.2]; exact hi
  | @fc n g hb hg =>
    rw [hb] at hk
    simp only [Bool.and_eq_true, decide_eq_true_eq] at hk
    refine Reads.bind (b := [0xFC]) (c := g ++ c) (.ordByte _) (Reads.bind (a := bigEndian (0xfc :: shortLeb n)) ?_ ?_)
    · unfold opcodeNumber; rw [if_pos (by decide)]
      refine .bind0 (.uleb hg) ?_
      rw [uEncodeNat_short hk.1]; exact .pure _
    · simp only [hk.2]; exact hi
  | @fd n g hb hg =>
    rw [hb] at hk
    simp only [Bool.and_eq_true, decide_eq_true_eq] at hk
    refine Reads.bind (b := [0xFD]) (c := g ++ c) (.ordByte _) (Reads.bind (a := bigEndian (0xfd :: shortLeb n)) ?_ ?_)
    · unfold opcodeNumber; rw [if_pos (by decide)]
      refine .bind0 (.uleb hg) ?_
      rw [uEncodeNat_short hk.1]; exact .pure _
    · simp only [hk.2]; exact hi

theorem reads_op {o : Opc} {b : Bytes} (h : EncOp o b) (lim : Nat) {i : Inst}
    (hi : Reads (Inst.args (Inst.fromReader lim) o) [] i) : Reads (Inst.fromReader (lim + 1)) b i := by
  simpa using reads_opcode h lim hi

end Pywasm
