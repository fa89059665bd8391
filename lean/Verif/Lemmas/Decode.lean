import Verif.Model.Decode
import Verif.Spec.Binary
import Verif.Lemmas.Leb128
import Mathlib.Tactic.IntervalCases

/-!
# A small logic for readers

`Reads rd b a`: on any input that starts with `b`, the reader returns `a` and leaves what follows.
-/

namespace Pywasm
open Reader Spec.Bin Spec.Leb

/-- the reader consumes exactly `b` and returns `a`, whatever follows -/
def Reads {α} (rd : Reader α) (b : Bytes) (a : α) : Prop := ∀ rest, rd (b ++ rest) = .ok (a, rest)

namespace Reads
variable {α β : Type}

theorem pure (a : α) : Reads (Pure.pure a) [] a := fun _ => rfl

theorem bind {rd : Reader α} {f : α → Reader β} {b c : Bytes} {a : α} {y : β} (h1 : Reads rd b a)
    (h2 : Reads (f a) c y) : Reads (rd >>= f) (b ++ c) y := by
  intro rest
  show (rd (b ++ c ++ rest) >>= fun p => f p.1 p.2) = _
  rw [List.append_assoc, h1]
  exact h2 rest

/-- the last step of a `do` block consumes nothing -/
theorem bind0 {rd : Reader α} {f : α → Reader β} {b : Bytes} {a : α} {y : β} (h1 : Reads rd b a)
    (h2 : Reads (f a) [] y) : Reads (rd >>= f) b y := by
  simpa using bind h1 h2

/-- the first step of a `do` block consumes nothing -/
theorem bind1 {rd : Reader α} {f : α → Reader β} {c : Bytes} {a : α} {y : β} (h1 : Reads rd [] a)
    (h2 : Reads (f a) c y) : Reads (rd >>= f) c y := by
  simpa using bind h1 h2

theorem ordByte (x : UInt8) : Reads Reader.ordByte [x] x := fun _ => rfl

theorem check {c : Bool} (h : c = true) : Reads (Reader.check c) [] () := by
  intro rest; simp [Reader.check, h]

theorem read {n : Nat} {b : Bytes} (h : b.length = n) : Reads (Reader.read n) b b := by
  intro rest; subst h; simp [Reader.read]

theorem liftE {x : Except Err α} {a : α} (h : x = .ok a) : Reads (Reader.liftE x) [] a := by
  intro rest; subst h; rfl

theorem uleb {n : Nat} {b : Bytes} (h : U n b) : Reads Reader.uleb b n := by
  intro rest
  have : Leb128.uDecodeReader (b ++ rest) = .ok ((n, b.length), rest) := by
    simp only [Leb128.uDecodeReader, Leb128.readGroup_group h.1, Leb128.uDecode_eq, h.2]
  show (Leb128.uDecodeReader (b ++ rest) >>= fun p => Except.ok (p.1.1.toNat, p.2)) = _
  rw [this]; rfl

theorem isGroup_ne_nil {b : Bytes} (h : IsGroup b) : b ≠ [] := by
  obtain ⟨i, l, rfl, -⟩ := h; simp

theorem ileb {n : Int} {b : Bytes} (h : S n b) : Reads Reader.ileb b n := by
  intro rest
  have : Leb128.iDecodeReader (b ++ rest) = .ok ((n, b.length), rest) := by
    simp only [Leb128.iDecodeReader, Leb128.readGroup_group h.1, Leb128.iDecode_eq (isGroup_ne_nil h.1), h.2]
  show (Leb128.iDecodeReader (b ++ rest) >>= fun p => Except.ok (p.1.1, p.2)) = _
  rw [this]; rfl

/-- a byte below 128 is its own unsigned LEB128 encoding -/
theorem _root_.Pywasm.u_byte {b : UInt8} (h : b.toNat < 128) : U b.toNat [b] := by
  refine ⟨⟨[], b, rfl, by simp, h⟩, ?_⟩
  simp [uval]; omega

theorem times {rd : Reader α} {xs : List α} {bs : List Bytes} (h : List.Forall₂ (fun x b => Reads rd b x) xs bs) :
    Reads (Reader.times rd xs.length) bs.flatten xs := by
  induction h with
  | nil => exact pure _
  | cons h _ ih => exact bind h (bind0 ih (pure _))

theorem vec {R : α → Bytes → Prop} {rd : Reader α} {xs : List α} {b : Bytes} (h : Vec R xs b)
    (hr : ∀ x b, x ∈ xs → R x b → Reads rd b x) : Reads (Reader.vec rd) b xs := by
  obtain ⟨len, bs, hl, hf, rfl⟩ := h
  refine bind (uleb hl) (times ?_)
  clear hl
  induction hf with
  | nil => exact .nil
  | cons h _ ih => exact .cons (hr _ _ (by simp) h) (ih fun x b hx => hr x b (by simp [hx]))

theorem zeroByte : Reads Reader.zeroByte [0] () := bind0 (ordByte 0) (check (by decide))

theorem uleb2 {m n : Nat} {x y : Bytes} (f : Nat → Nat → α) (hx : U m x) (hy : U n y) :
    Reads (Reader.uleb2 f) (x ++ y) (f m n) := bind (uleb hx) (bind0 (uleb hy) (pure _))

/-- one unsigned immediate -/
theorem uleb1 {n : Nat} {x : Bytes} (f : Nat → α) (hx : U n x) :
    Reads (do let a ← Reader.uleb; Pure.pure (f a)) x (f n) := bind0 (uleb hx) (pure _)

end Reads

/-! ## Names, types -/

theorem ofCode_valByte (t : ValType) : ValType.ofCode (valByte t).toNat = .ok t := by cases t <;> rfl

theorem reads_val (t : ValType) : Reads ValType.fromReader [valByte t] t :=
  .bind0 (.ordByte _) (.liftE (ofCode_valByte t))

theorem decodeUtf8_toUTF8 (s : String) : Py.decodeUtf8 s.toUTF8.data.toList = .ok s := by
  have h1 : (⟨s.toUTF8.data.toList.toArray⟩ : ByteArray) = s.toUTF8 := by
    simp
  unfold Py.decodeUtf8
  rw [h1]
  have : String.fromUTF8? s.toUTF8 = some s := by
    unfold String.fromUTF8?
    rw [dif_pos]
    · rfl
  rw [this]

theorem reads_name {s : String} {b : Bytes} (h : EncName s b) : Reads Reader.name b s := by
  obtain ⟨len, hl, rfl⟩ := h
  exact .bind (.uleb hl) (.bind0 (.read (Array.length_toList)) (.liftE (decodeUtf8_toUTF8 s)))

/-- the first byte of a signed LEB128 encoding of a natural number is neither 0x40 nor a value type -/
theorem s_nat_head {i : Nat} {b : Bytes} (h : S (i : Int) b) :
    ∃ x t, b = x :: t ∧ (x.toNat < 64 ∨ 128 ≤ x.toNat) := by
  obtain ⟨⟨l, e, rfl, hi, hl⟩, hv⟩ := h
  cases l with
  | cons x t => exact ⟨x, t ++ [e], rfl, .inr (hi x (by simp))⟩
  | nil =>
    refine ⟨e, [], rfl, .inl ?_⟩
    by_contra hc
    have hb : e.toNat.testBit 6 = true := by
      revert hl hc
      generalize e.toNat = n
      intro hl hc
      interval_cases n <;> rfl
    simp [sval, hb, uval] at hv
    omega

theorem ofCode_error {n : Nat} (h : n < 64 ∨ 128 ≤ n) : ValType.ofCode n = .error .assertion := by
  unfold ValType.ofCode
  repeat rw [if_neg (by omega)]

theorem reads_bype {bt : Bype} {b : Bytes} (h : EncBt bt b) : Reads Bype.fromReader b bt := by
  intro rest
  cases h with
  | empty => rfl
  | val t => cases t <;> rfl
  | @idx i b h =>
    obtain ⟨x, t, rfl, hx⟩ := s_nat_head h
    have hne : x ≠ 0x40 := by rintro rfl; simp at hx
    have := Reads.bind0 (f := fun i => Pure.pure (Bype.idx i)) (.ileb h) (.pure _) rest
    simp only [Bype.fromReader, List.cons_append, Reader.ordByte, if_neg hne, ofCode_error hx]
    exact this

end Pywasm
