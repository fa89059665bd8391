import Verif.Lemmas.FloatRun

/-!
# Sign-bit instructions
-/

namespace Pywasm
open Spec

theorem list_take4 (l : Bytes) (h : l.length = 16) : ∃ b0 b1 b2 b3 r, l = b0 :: b1 :: b2 :: b3 :: r := by
  match l, h with
  | b0 :: b1 :: b2 :: b3 :: r, _ => exact ⟨b0, b1, b2, b3, r, rfl⟩
theorem list_take8 (l : Bytes) (h : l.length = 16) :
    ∃ b0 b1 b2 b3 b4 b5 b6 b7 r, l = b0 :: b1 :: b2 :: b3 :: b4 :: b5 :: b6 :: b7 :: r := by
  match l, h with
  | b0 :: b1 :: b2 :: b3 :: b4 :: b5 :: b6 :: b7 :: r, _ => exact ⟨b0, b1, b2, b3, b4, b5, b6, b7, r, rfl⟩

theorem u8_and (b : UInt8) : (b &&& 0x7f).toNat = b.toNat % 128 := by
  rw [UInt8.toNat_and]; exact Nat.and_two_pow_sub_one_eq_mod b.toNat 7
theorem u8_xor (b : UInt8) : (b ^^^ 0x80).toNat = (b.toNat + 128) % 256 := by
  revert b
  have : ∀ i : Fin 256, ((UInt8.ofNat i.val) ^^^ 0x80).toNat = ((UInt8.ofNat i.val).toNat + 128) % 256 := by decide +kernel
  intro b
  have h := this ⟨b.toNat, b.toNat_lt⟩
  rw [UInt8.ofNat_toNat] at h
  exact h

/-- Replacing byte 3 by one that agrees with it modulo 128 changes at most the sign bit. -/
theorem setByte3 (a : Val) (b : UInt8) (h : b.toNat % 128 = (a.byte 3).toNat % 128) :
    code32 (a.setByte 3 b).low32 = code32 a.low32 ∧ (a.setByte 3 b).low32.msb = decide (128 ≤ b.toNat) ∧
    a.low32.msb = decide (128 ≤ (a.byte 3).toNat) ∧ (a.setByte 3 b).ty = a.ty ∧
    (a.setByte 3 b).data.drop 4 = a.data.drop 4 := by
  obtain ⟨b0, b1, b2, b3, r, e⟩ := list_take4 a.data a.len
  have e' : (a.setByte 3 b).data = b0 :: b1 :: b2 :: b :: r := by
    show a.data.set 3 b = _; rw [e]; rfl
  have eb : a.byte 3 = b3 := by
    show a.data.getD 3 0 = _; rw [e]; rfl
  rw [eb] at h ⊢
  have h0 := b0.toNat_lt
  have h1 := b1.toNat_lt
  have h2 := b2.toNat_lt
  have h3 := b3.toNat_lt
  have h4 := b.toNat_lt
  have n1 : a.low32.toNat = b0.toNat + 256 * (b1.toNat + 256 * (b2.toNat + 256 * b3.toNat)) := by
    rw [Val.low32, e]
    show (BitVec.ofNat 32 (readLE [b0, b1, b2, b3])).toNat = _
    simp only [readLE_cons, BitVec.toNat_ofNat, show readLE [] = 0 from rfl]
    omega
  have n2 : (a.setByte 3 b).low32.toNat = b0.toNat + 256 * (b1.toNat + 256 * (b2.toNat + 256 * b.toNat)) := by
    rw [Val.low32, e']
    show (BitVec.ofNat 32 (readLE [b0, b1, b2, b])).toNat = _
    simp only [readLE_cons, BitVec.toNat_ofNat, show readLE [] = 0 from rfl]
    omega
  refine ⟨?_, ?_, ?_, rfl, ?_⟩
  · unfold code32; rw [n1, n2]; omega
  · rw [msb32_iff, n2, decide_eq_decide]; omega
  · rw [msb32_iff, n1, decide_eq_decide]; omega
  · rw [e', e]; rfl

theorem setByte7 (a : Val) (b : UInt8) (h : b.toNat % 128 = (a.byte 7).toNat % 128) :
    code64 (a.setByte 7 b).low64 = code64 a.low64 ∧ (a.setByte 7 b).low64.msb = decide (128 ≤ b.toNat) ∧
    a.low64.msb = decide (128 ≤ (a.byte 7).toNat) ∧ (a.setByte 7 b).ty = a.ty ∧
    (a.setByte 7 b).data.drop 8 = a.data.drop 8 := by
  obtain ⟨b0, b1, b2, b3, b4, b5, b6, b7, r, e⟩ := list_take8 a.data a.len
  have e' : (a.setByte 7 b).data = b0 :: b1 :: b2 :: b3 :: b4 :: b5 :: b6 :: b :: r := by
    show a.data.set 7 b = _; rw [e]; rfl
  have eb : a.byte 7 = b7 := by
    show a.data.getD 7 0 = _; rw [e]; rfl
  rw [eb] at h ⊢
  have h0 := b0.toNat_lt
  have h1 := b1.toNat_lt
  have h2 := b2.toNat_lt
  have h3 := b3.toNat_lt
  have h4 := b4.toNat_lt
  have h5 := b5.toNat_lt
  have h6 := b6.toNat_lt
  have h7 := b7.toNat_lt
  have h8 := b.toNat_lt
  have n1 : a.low64.toNat = b0.toNat + 256 * (b1.toNat + 256 * (b2.toNat + 256 * (b3.toNat + 256 * (b4.toNat + 256 *
      (b5.toNat + 256 * (b6.toNat + 256 * b7.toNat)))))) := by
    rw [Val.low64, e]
    show (BitVec.ofNat 64 (readLE [b0, b1, b2, b3, b4, b5, b6, b7])).toNat = _
    simp only [readLE_cons, BitVec.toNat_ofNat, show readLE [] = 0 from rfl]
    omega
  have n2 : (a.setByte 7 b).low64.toNat = b0.toNat + 256 * (b1.toNat + 256 * (b2.toNat + 256 * (b3.toNat + 256 * (b4.toNat + 256 *
      (b5.toNat + 256 * (b6.toNat + 256 * b.toNat)))))) := by
    rw [Val.low64, e']
    show (BitVec.ofNat 64 (readLE [b0, b1, b2, b3, b4, b5, b6, b])).toNat = _
    simp only [readLE_cons, BitVec.toNat_ofNat, show readLE [] = 0 from rfl]
    omega
  refine ⟨?_, ?_, ?_, rfl, ?_⟩
  · unfold code64; rw [n1, n2]; omega
  · rw [msb64_iff, n2, decide_eq_decide]; omega
  · rw [msb64_iff, n1, decide_eq_decide]; omega
  · rw [e', e]; rfl

end Pywasm
