import Verif.Spec.Leb128
import Verif.Lemmas.Bits

/-!
# LEB128 lemmas
-/

namespace Pywasm.Leb128
open Spec.Leb

/-- recursive form of `uval` -/
def dec : Bytes → Nat
  | [] => 0
  | b :: bs => b.toNat % 128 + 128 * dec bs

theorem sum_mapIdx_mul (c : Nat) (l : Bytes) (f : Nat → UInt8 → Nat) :
    (l.mapIdx fun i b => c * f i b).sum = c * (l.mapIdx f).sum := by
  induction l generalizing f with
  | nil => simp
  | cons b l ih => simp only [List.mapIdx_cons, List.sum_cons, ih, Nat.mul_add]

theorem uval_eq (g : Bytes) : uval g = dec g := by
  induction g with
  | nil => rfl
  | cons b l ih =>
    rw [dec, ← ih, uval, uval, List.mapIdx_cons, List.sum_cons, ← sum_mapIdx_mul]
    simp only [Nat.pow_zero, Nat.mul_one]
    congr 3
    funext i b; ring

theorem and_7f (n : Nat) : n &&& 0x7f = n % 128 := Nat.and_two_pow_sub_one_eq_mod n 7

theorem decodeLoop_eq (l : Bytes) (i : Nat) (r : Int) : decodeLoop i r l = r + 128 ^ i * dec l := by
  induction l generalizing i r with
  | nil => simp [decodeLoop, dec]
  | cons b l ih =>
    rw [decodeLoop, ih, dec, and_7f, Nat.shiftLeft_eq, Nat.mul_comm i 7, Nat.pow_mul]
    push_cast
    ring

theorem uDecode_eq (g : Bytes) : uDecode g = (uval g : Int) := by
  rw [uDecode, decodeLoop_eq, uval_eq]; simp

theorem dec_lt (g : Bytes) : dec g < 128 ^ g.length := by
  induction g with
  | nil => simp [dec]
  | cons b l ih => simp only [dec, List.length_cons, Nat.pow_succ]; omega

theorem and_80 (b : UInt8) : b.toNat &&& 0x80 = 0 ↔ b.toNat < 128 := by
  have h := b.toNat_lt
  have := Nat.and_two_pow b.toNat 7
  simp only [show (2:Nat)^7 = 0x80 from rfl] at this
  rw [this]
  rcases Nat.lt_or_ge b.toNat 128 with h2 | h2
  · have : b.toNat.testBit 7 = false := Nat.testBit_lt_two_pow h2
    simp [this, h2]
  · have : b.toNat.testBit 7 = true := by
      rw [Nat.testBit_eq_decide_div_mod_eq]; simp; omega
    simp [this]; omega

theorem isGroup_cons_hi {b : UInt8} {g : Bytes} (hb : 128 ≤ b.toNat) (h : IsGroup g) : IsGroup (b :: g) := by
  obtain ⟨i, l, rfl, hi, hl⟩ := h
  exact ⟨b :: i, l, rfl, by simpa [hb] using hi, hl⟩

theorem readGroup_group {g : Bytes} (h : IsGroup g) (r : Bytes) : readGroup (g ++ r) = .ok (g, r) := by
  obtain ⟨i, l, rfl, hi, hl⟩ := h
  induction i with
  | nil => simp [readGroup, (and_80 l).2 hl]
  | cons b i ih =>
    have hb : ¬ b.toNat &&& 0x80 = 0 := fun h => by
      have := (and_80 b).1 h; have := hi b (by simp); omega
    have := ih fun b hb => hi b (by simp [hb])
    simp only [List.cons_append, readGroup, hb, if_false, this]

theorem readGroup_ok {s g r : Bytes} (h : readGroup s = .ok (g, r)) : s = g ++ r ∧ IsGroup g := by
  induction s generalizing g with
  | nil => simp [readGroup] at h
  | cons b s ih =>
    rw [readGroup] at h
    split at h
    · rename_i hb
      cases h
      exact ⟨rfl, [], b, rfl, by simp, (and_80 b).1 hb⟩
    · rename_i hb
      split at h
      · rename_i a r' hr
        cases h
        obtain ⟨h1, h2⟩ := ih hr
        refine ⟨by rw [h1]; rfl, isGroup_cons_hi ?_ h2⟩
        by_contra hlt
        exact hb ((and_80 b).2 (by omega))
      · cases h

theorem readGroup_error {s : Bytes} : (∃ e, readGroup s = .error e) ↔ Unterminated s := by
  induction s with
  | nil => simp [readGroup, Unterminated]
  | cons b s ih =>
    rw [readGroup]
    by_cases hb : b.toNat &&& 0x80 = 0
    · have := (and_80 b).1 hb
      simp [hb, Unterminated]; omega
    · have hge : 128 ≤ b.toNat := by by_contra hlt; exact hb ((and_80 b).2 (by omega))
      simp only [hb, if_false]
      rw [show Unterminated (b :: s) ↔ Unterminated s by simp [Unterminated, hge], ← ih]
      cases h : readGroup s with
      | ok p => simp
      | error e => simp

/-! ### unsigned encoding -/

theorem or_80 (n : Nat) (h : n < 128) : (0x80 ||| n) = 128 + n := by
  have := Nat.two_pow_add_eq_or_of_lt (i := 7) h 1
  norm_num at this
  omega

theorem toNat_or_80 (n : Nat) (h : n < 128) : (UInt8.ofNat (0x80 ||| n)).toNat = 128 + n := by
  rw [or_80 n h]; simp; omega

theorem uEncodeNat_unfold (n : Nat) :
    uEncodeNat n = if n < 128 then [UInt8.ofNat n] else UInt8.ofNat (0x80 ||| (n % 128)) :: uEncodeNat (n / 128) := by
  rw [uEncodeNat]
  simp only [and_7f, Nat.shiftRight_eq_div_pow, show (2:Nat)^7 = 128 from rfl]
  by_cases h : n < 128
  · have : n / 128 = 0 := by omega
    simp [this, h, Nat.mod_eq_of_lt h]
  · have : n / 128 ≠ 0 := by omega
    simp [this, h]

theorem uEncodeNat_spec (n : Nat) : IsGroup (uEncodeNat n) ∧ dec (uEncodeNat n) = n ∧
    (1 < (uEncodeNat n).length → 128 ^ ((uEncodeNat n).length - 1) ≤ n) := by
  induction n using Nat.strong_induction_on with
  | _ n ih =>
    rw [uEncodeNat_unfold]
    split
    · rename_i h
      refine ⟨⟨[], _, rfl, by simp, by simp; omega⟩, ?_, by simp⟩
      simp [dec]; omega
    · rename_i h
      obtain ⟨h1, h2, h3⟩ := ih (n / 128) (by omega)
      have hm := toNat_or_80 (n % 128) (by omega)
      refine ⟨isGroup_cons_hi (by rw [hm]; omega) h1, ?_, fun _ => ?_⟩
      · rw [dec, h2, hm]; omega
      · simp only [List.length_cons, Nat.add_sub_cancel]
        by_cases h4 : 1 < (uEncodeNat (n / 128)).length
        · have h5 := h3 h4
          have : 128 ^ (uEncodeNat (n / 128)).length = 128 ^ ((uEncodeNat (n / 128)).length - 1) * 128 := by
            rw [← Nat.pow_succ]; congr 1; omega
          omega
        · have : (uEncodeNat (n / 128)).length = 1 := by
            obtain ⟨i, l, he, -, -⟩ := h1
            rw [he] at h4 ⊢; simp at h4 ⊢; simpa using h4
          rw [this]; omega

/-! ### signed encoding -/

theorem or_neg_pow (r k : Nat) (h : r < 2 ^ k) : Py.or (r : Int) (-(2 ^ k : Int)) = (r : Int) - 2 ^ k := by
  have hp := Nat.two_pow_pos k
  have e : (-(2 ^ k : Int)) = Int.negSucc (2 ^ k - 1) := by
    rw [Int.negSucc_eq]; push_cast [hp]; omega
  rw [e]
  show Int.negSucc ((2 ^ k - 1) - ((2 ^ k - 1) &&& r)) = _
  rw [Nat.and_comm, Nat.and_two_pow_sub_one_eq_mod, Nat.mod_eq_of_lt h, Int.negSucc_eq]
  have h2 : ((2 ^ k : Nat) : Int) = 2 ^ k := by push_cast; rfl
  rw [← h2]; omega

theorem and_40 (b : UInt8) : (b.toNat &&& 0x40 ≠ 0) ↔ b.toNat.testBit 6 = true := by
  have := Nat.and_two_pow b.toNat 6
  simp only [show (2:Nat)^6 = 0x40 from rfl] at this
  rw [this]
  cases b.toNat.testBit 6 <;> simp

theorem iDecode_eq {g : Bytes} (h : g ≠ []) : iDecode g = .ok (sval g) := by
  unfold iDecode sval
  obtain ⟨l, hl⟩ : ∃ l, g.getLast? = some l := ⟨g.getLast h, List.getLast?_eq_some_getLast h⟩
  have hlen : g.length ≠ 0 := by simpa using h
  have hd : decodeLoop 0 0 g = (dec g : Int) := by rw [decodeLoop_eq]; simp
  have hlt : dec g < 2 ^ ((g.length - 1) * 7 + 7) := by
    have := dec_lt g
    rw [show (g.length - 1) * 7 + 7 = 7 * g.length by omega, Nat.pow_mul]; exact this
  simp only [hl, uval_eq, hd, and_40, or_neg_pow _ _ hlt]
  congr 1
  rw [show (g.length - 1) * 7 + 7 = 7 * g.length by omega, pow_mul]
  rfl

theorem and_7f_int (n : Int) : Py.and n 0x7f = n % 128 := Py.and_mask n 7
theorem shr_7_int (n : Int) : Py.shr n 7 = n / 128 := Py.shr_eq n 7
theorem and_40_int (n : Nat) (h : n < 128) : Py.and (n : Int) 0x40 = 0 ↔ n < 64 := by
  have e : Py.and (n : Int) 0x40 = ((n &&& 0x40 : Nat) : Int) := rfl
  have := Nat.and_two_pow n 6
  simp only [show (2:Nat)^6 = 0x40 from rfl] at this
  rw [e, this]
  have hb : n.testBit 6 = decide (64 ≤ n) := by
    rw [Nat.testBit_eq_decide_div_mod_eq]
    simp only [show (2:Nat)^6 = 64 from rfl, decide_eq_decide]; omega
  rw [hb]
  by_cases h64 : 64 ≤ n <;> simp [h64]
  omega
theorem or_80_int (n : Nat) (h : n < 128) : Py.or 0x80 (n : Int) = ((128 + n : Nat) : Int) := by
  have e : Py.or 0x80 (n : Int) = ((0x80 ||| n : Nat) : Int) := rfl
  rw [e, or_80 n h]

theorem iEncode_unfold (n : Int) :
    iEncode n = if -64 ≤ n ∧ n < 64 then [UInt8.ofNat (n % 128).toNat]
      else UInt8.ofNat (128 + (n % 128).toNat) :: iEncode (n / 128) := by
  rw [iEncode]
  simp only [and_7f_int, shr_7_int]
  obtain ⟨m, hm⟩ : ∃ m : Nat, n % 128 = m := ⟨(n % 128).toNat, by omega⟩
  have hlt : m < 128 := by omega
  rw [hm, or_80_int m hlt]
  have h40 := and_40_int m hlt
  by_cases h : -64 ≤ n ∧ n < 64
  · rw [if_pos h, if_pos]
    by_cases h0 : 0 ≤ n
    · exact Or.inl ⟨by omega, h40.2 (by omega)⟩
    · exact Or.inr ⟨by omega, fun hc => by have := h40.1 hc; omega⟩
  · rw [if_neg h, if_neg]
    · rw [Int.toNat_natCast, Int.toNat_natCast]
    · rintro (⟨h1, h2⟩ | ⟨h1, h2⟩)
      · have := h40.1 h2; omega
      · have : ¬ m < 64 := fun hc => h2 (h40.2 hc)
        omega

theorem sval_cons (b : UInt8) {g : Bytes} (h : g ≠ []) : sval (b :: g) = (b.toNat % 128 : Nat) + 128 * sval g := by
  obtain ⟨l, hl⟩ : ∃ l, g.getLast? = some l := ⟨g.getLast h, List.getLast?_eq_some_getLast h⟩
  have hl2 : (b :: g).getLast? = some l := by rw [List.getLast?_cons, hl]; rfl
  unfold sval
  simp only [hl, hl2, uval_eq, dec, List.length_cons, pow_succ]
  split <;> push_cast <;> ring

theorem sval_singleton (b : UInt8) (h : b.toNat < 128) :
    sval [b] = if b.toNat < 64 then (b.toNat : Int) else (b.toNat : Int) - 128 := by
  have hb : b.toNat.testBit 6 = decide (64 ≤ b.toNat) := by
    rw [Nat.testBit_eq_decide_div_mod_eq]
    simp only [show (2:Nat)^6 = 64 from rfl, decide_eq_decide]; omega
  simp only [sval, List.getLast?_singleton, uval_eq, dec, hb, List.length_singleton]
  by_cases h64 : 64 ≤ b.toNat
  · simp [h64, show ¬ b.toNat < 64 by omega]; omega
  · simp [h64, show b.toNat < 64 by omega]; omega

theorem iEncode_induct {P : Int → Prop} (base : ∀ n, -64 ≤ n ∧ n < 64 → P n)
    (step : ∀ n, ¬(-64 ≤ n ∧ n < 64) → P (n / 128) → P n) (n : Int) : P n := by
  induction h : n.natAbs using Nat.strong_induction_on generalizing n with
  | _ m ih =>
    by_cases hn : -64 ≤ n ∧ n < 64
    · exact base n hn
    · exact step n hn (ih (n / 128).natAbs (by omega) _ rfl)

theorem iEncode_spec (n : Int) : IsGroup (iEncode n) ∧ sval (iEncode n) = n ∧
    (1 < (iEncode n).length → ¬(-(64 * 128 ^ ((iEncode n).length - 2)) ≤ n ∧ n < 64 * 128 ^ ((iEncode n).length - 2))) := by
  induction n using iEncode_induct with
  | base n h =>
    have hlt : (UInt8.ofNat (n % 128).toNat).toNat = (n % 128).toNat := by simp; omega
    rw [iEncode_unfold, if_pos h]
    refine ⟨⟨[], _, rfl, by simp, by rw [hlt]; omega⟩, ?_, by simp⟩
    rw [sval_singleton _ (by rw [hlt]; omega), hlt]
    split <;> omega
  | step n h ih =>
    obtain ⟨h1, h2, h3⟩ := ih
    have hlt : (UInt8.ofNat (128 + (n % 128).toNat)).toNat = 128 + (n % 128).toNat := by simp; omega
    have hne : iEncode (n / 128) ≠ [] := by
      obtain ⟨i, l, he, -, -⟩ := h1; rw [he]; simp
    rw [iEncode_unfold, if_neg h]
    refine ⟨isGroup_cons_hi (by rw [hlt]; omega) h1, ?_, fun _ => ?_⟩
    · rw [sval_cons _ hne, h2, hlt]; omega
    · simp only [List.length_cons]
      by_cases h4 : 1 < (iEncode (n / 128)).length
      · have h5 := h3 h4
        have : (128:Int) ^ ((iEncode (n / 128)).length + 1 - 2) = 128 ^ ((iEncode (n / 128)).length - 2) * 128 := by
          rw [← pow_succ]; congr 1; omega
        rw [this]
        generalize (128:Int) ^ ((iEncode (n / 128)).length - 2) = p at *
        omega
      · have hl : (iEncode (n / 128)).length = 1 := by
          have : (iEncode (n / 128)).length ≠ 0 := by simpa using hne
          omega
        rw [hl]; norm_num; omega

theorem sval_range (g : Bytes) (h : IsGroup g) :
    -(64 * 128 ^ (g.length - 1)) ≤ sval g ∧ sval g < 64 * 128 ^ (g.length - 1) := by
  obtain ⟨i, l, rfl, hi, hl⟩ := h
  induction i with
  | nil =>
    rw [List.nil_append, sval_singleton l hl]
    simp only [List.length_singleton]
    split <;> norm_num <;> omega
  | cons b i ih =>
    have := ih fun b hb => hi b (by simp [hb])
    rw [List.cons_append, sval_cons b (by simp)]
    have hp : (128:Int) ^ ((b :: (i ++ [l])).length - 1) = 128 ^ ((i ++ [l]).length - 1) * 128 := by
      rw [← pow_succ]; congr 1; simp
    rw [hp]
    generalize (128:Int) ^ ((i ++ [l]).length - 1) = p at *
    omega

end Pywasm.Leb128
