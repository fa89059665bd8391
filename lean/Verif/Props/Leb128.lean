import Verif.Lemmas.Leb128
import Verif.Spec.Returns

/-!
# C01 – C03: LEB128
-/

namespace Pywasm.Props
open Spec.Leb Leb128

/-- **C01** `decode(encode(n)) == n`; the reader returns `(n, len(encode(n)))` and leaves the rest of the stream. -/
theorem C01_unsigned_round_trip (n : Nat) (rest : Bytes) :
    ∃ e, uEncode n = .ok e ∧ uDecode e = n ∧ uDecodeReader (e ++ rest) = .ok ((n, e.length), rest) := by
  obtain ⟨h1, h2, -⟩ := uEncodeNat_spec n
  have hd : uDecode (uEncodeNat n) = n := by rw [uDecode_eq, uval_eq, h2]
  refine ⟨uEncodeNat n, by simp [uEncode], hd, ?_⟩
  simp only [uDecodeReader, readGroup_group h1, hd]

/-- **C01** `encode` raises for negative input. -/
theorem C01_negative_raises (n : Int) (h : n < 0) : uEncode n = .error .assertion := by
  simp [uEncode]; omega

example : ∃ e, uEncode 624485 = .ok e ∧ uDecodeReader (e ++ [7]) = .ok ((624485, e.length), [7]) :=
  (C01_unsigned_round_trip 624485 [7]).imp fun _ h => ⟨h.1, h.2.2⟩

/-- **C02** Signed round trip. -/
theorem C02_signed_round_trip (n : Int) (rest : Bytes) :
    iDecode (iEncode n) = .ok n ∧ iDecodeReader (iEncode n ++ rest) = .ok ((n, (iEncode n).length), rest) := by
  obtain ⟨h1, h2, -⟩ := iEncode_spec n
  have hne : iEncode n ≠ [] := by obtain ⟨i, l, he, -, -⟩ := h1; rw [he]; simp
  have hd : iDecode (iEncode n) = .ok n := by rw [iDecode_eq hne, h2]
  exact ⟨hd, by simp only [iDecodeReader, readGroup_group h1, hd]⟩

example : iDecodeReader (iEncode (-123456) ++ [1, 2]) = .ok ((-123456, (iEncode (-123456)).length), [1, 2]) :=
  (C02_signed_round_trip _ _).2

/-- **C03** The readers accept exactly the streams that start with a complete group, of any length, return its value and
leave the rest; they fail exactly on streams without a terminator. -/
theorem C03_readers_total (s : Bytes) :
    (∀ g rest, IsGroup g → s = g ++ rest →
      uDecodeReader s = .ok ((uval g, g.length), rest) ∧ iDecodeReader s = .ok ((sval g, g.length), rest)) ∧
    ((∃ e, uDecodeReader s = .error e) ↔ Unterminated s) ∧
    ((∃ e, iDecodeReader s = .error e) ↔ Unterminated s) := by
  refine ⟨fun g rest hg hs => ?_, ?_, ?_⟩
  · have hne : g ≠ [] := by obtain ⟨i, l, he, -, -⟩ := hg; rw [he]; simp
    subst hs
    simp only [uDecodeReader, iDecodeReader, readGroup_group hg, uDecode_eq, iDecode_eq hne, and_self]
  · rw [← readGroup_error]
    unfold uDecodeReader
    cases h : readGroup s <;> simp
  · rw [← readGroup_error]
    unfold iDecodeReader
    cases h : readGroup s with
    | error e => simp
    | ok p =>
      obtain ⟨-, hg⟩ := readGroup_ok (g := p.1) (r := p.2) h
      have hne : p.1 ≠ [] := by obtain ⟨i, l, he, -, -⟩ := hg; rw [he]; simp
      simp [iDecode_eq hne]

/-- Every stream either starts with a group or is unterminated, so the two cases above are exhaustive. -/
theorem C03_exhaustive (s : Bytes) : (∃ g rest, IsGroup g ∧ s = g ++ rest) ∨ Unterminated s := by
  cases h : readGroup s with
  | ok p => exact Or.inl ⟨p.1, p.2, (readGroup_ok h).2, (readGroup_ok h).1⟩
  | error e => exact Or.inr (readGroup_error.1 ⟨e, h⟩)

/-- **C03** The encoding is a complete group of minimal length. -/
theorem C03_encoding_minimal :
    (∀ n : Nat, ∃ e, uEncode n = .ok e ∧ IsGroup e ∧ ∀ g, IsGroup g → uval g = n → e.length ≤ g.length) ∧
    (∀ n : Int, IsGroup (iEncode n) ∧ ∀ g, IsGroup g → sval g = n → (iEncode n).length ≤ g.length) := by
  constructor
  · intro n
    obtain ⟨h1, h2, h3⟩ := uEncodeNat_spec n
    refine ⟨uEncodeNat n, by simp [uEncode], h1, fun g hg hv => ?_⟩
    by_contra hlt
    have hg1 : 0 < g.length := by obtain ⟨i, l, he, -, -⟩ := hg; rw [he]; simp
    have h4 := h3 (by omega)
    have h5 := dec_lt g
    rw [← uval_eq, hv] at h5
    have : 128 ^ g.length ≤ 128 ^ ((uEncodeNat n).length - 1) := Nat.pow_le_pow_right (by decide) (by omega)
    omega
  · intro n
    obtain ⟨h1, h2, h3⟩ := iEncode_spec n
    refine ⟨h1, fun g hg hv => ?_⟩
    by_contra hlt
    have hg1 : 0 < g.length := by obtain ⟨i, l, he, -, -⟩ := hg; rw [he]; simp
    have h4 := h3 (by omega)
    have h5 := sval_range g hg
    rw [hv] at h5
    have : (128:Int) ^ (g.length - 1) ≤ 128 ^ ((iEncode n).length - 2) := pow_le_pow_right₀ (by decide) (by omega)
    omega

/-- Non-vacuity: an over-long group is accepted, and the canonical encoding is shorter. -/
example : IsGroup [0xff, 0x80, 0x00] ∧ uval [0xff, 0x80, 0x00] = 127 ∧ sval [0xff, 0x7f] = -1 ∧
    Unterminated [0x80, 0xff] := by
  refine ⟨⟨[0xff, 0x80], 0, rfl, by decide, by decide⟩, by decide, by decide, ?_⟩
  intro b hb; revert b; decide

/-! ## The hypotheses are met -/

example : uEncode (-5) = .error .assertion := C01_negative_raises (-5) (by decide)
example : uDecodeReader [0xff, 0x80, 0x00, 9] = .ok ((127, 3), [9]) ∧ ∃ e, iDecodeReader [0x80, 0xff] = .error e :=
  ⟨((C03_readers_total [0xff, 0x80, 0x00, 9]).1 [0xff, 0x80, 0x00] [9] ⟨[0xff, 0x80], 0, rfl, by decide, by decide⟩ rfl).1,
    (C03_readers_total [0x80, 0xff]).2.2.mpr (by intro b hb; revert b; decide)⟩

end Pywasm.Props
