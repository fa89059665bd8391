import Verif.Spec.Wasi
import Verif.Lemmas.Bits

/-!
# Bit sets as Python integers
-/

namespace Pywasm.Wasi
open WasiSpec

theorem has_nat (m k : Nat) : has (Int.ofNat m) k = m.testBit k := by
  unfold has
  rw [Nat.testBit_eq_decide_div_mod_eq]
  congr 1
  have : (Int.ofNat m / 2 ^ k % 2 : Int) = ((m / 2 ^ k % 2 : Nat) : Int) := by push_cast; rfl
  rw [this]; apply propext; omega
theorem has_negSucc (m k : Nat) : has (Int.negSucc m) k = !m.testBit k := by
  unfold has
  rw [Nat.testBit_eq_decide_div_mod_eq]
  have hp : (0 : Int) < 2 ^ k := by positivity
  have h1 : (Int.negSucc m / 2 ^ k : Int) = -((m / 2 ^ k : Nat) : Int) - 1 := by
    rw [Int.ediv_eq_iff_of_pos hp] 
    have h2 := Nat.div_add_mod m (2 ^ k)
    have h3 := Nat.mod_lt m (show 0 < 2 ^ k by positivity)
    generalize m / 2 ^ k = q at *
    generalize m % 2 ^ k = r at *
    have h4 : ((2 ^ k : Nat) : Int) = 2 ^ k := by push_cast; rfl
    rw [← h4]
    generalize (2 ^ k : Nat) = d at *
    subst h2
    rw [Int.negSucc_eq]
    constructor
    · push_cast; nlinarith
    · push_cast; nlinarith
  rw [h1]
  generalize m / 2 ^ k = q
  by_cases h : q % 2 = 1
  · simp [h]; omega
  · simp [h]; omega

theorem has_eq (r : Int) (k : Nat) : has r k = (BitVec.ofInt (k + 1) r).getLsbD k := by
  cases r with
  | ofNat m => rw [has_nat]; simp [-BitVec.getLsbD_eq_getElem, BitVec.getLsbD_ofNat]
  | negSucc m => rw [has_negSucc]; simp [BitVec.ofInt_negSucc_eq_not_ofNat, -BitVec.getLsbD_eq_getElem, BitVec.getLsbD_ofNat]

theorem has_and (a b : Int) (k : Nat) : has (Py.and a b) k = (has a k && has b k) := by
  simp [has_eq, Py.ofInt_and]
theorem has_or (a b : Int) (k : Nat) : has (Py.or a b) k = (has a k || has b k) := by
  simp [has_eq, Py.ofInt_or]
theorem has_xor (a b : Int) (k : Nat) : has (Py.xor a b) k = (has a k ^^ has b k) := by
  simp [has_eq, Py.ofInt_xor]
theorem has_inv (a : Int) (k : Nat) : has (Py.inv a) k = !has a k := by
  simp [has_eq, Py.ofInt_inv]
theorem has_zero (k : Nat) : has 0 k = false := by
  have := has_nat 0 k; simpa using this
theorem has_pow (j k : Nat) : has (2 ^ j) k = decide (j = k) := by
  have := has_nat (2 ^ j) k
  rw [Nat.testBit_two_pow] at this
  rw [← this]; congr 1
theorem has_ext {a b : Int} (h : ∀ k, has a k = has b k) : a = b := by
  cases a with
  | ofNat m => cases b with
    | ofNat n =>
      congr 1; apply Nat.eq_of_testBit_eq; intro i
      have := h i; rwa [has_nat, has_nat] at this
    | negSucc n =>
      exfalso
      have := h (m + n)
      rw [has_nat, has_negSucc, Nat.testBit_lt_two_pow (lt_of_lt_of_le Nat.lt_two_pow_self (Nat.pow_le_pow_right (by decide) (by omega))),
        Nat.testBit_lt_two_pow (lt_of_lt_of_le Nat.lt_two_pow_self (Nat.pow_le_pow_right (by decide) (by omega)))] at this
      cases this
  | negSucc m => cases b with
    | ofNat n =>
      exfalso
      have := h (m + n)
      rw [has_nat, has_negSucc, Nat.testBit_lt_two_pow (lt_of_lt_of_le Nat.lt_two_pow_self (Nat.pow_le_pow_right (by decide) (by omega))),
        Nat.testBit_lt_two_pow (lt_of_lt_of_le Nat.lt_two_pow_self (Nat.pow_le_pow_right (by decide) (by omega)))] at this
      cases this
    | negSucc n =>
      congr 1; apply Nat.eq_of_testBit_eq; intro i
      have := h i; rw [has_negSucc, has_negSucc] at this; simpa using this

/-- The test `r & (1 << k) == 0`. -/
theorem and_pow_eq_zero (r : Int) (k : Nat) : Py.and r (2 ^ k) = 0 ↔ has r k = false := by
  constructor
  · intro h
    have := has_and r (2 ^ k) k
    rw [h, has_zero, has_pow] at this
    simpa using this.symm
  · intro h
    apply has_ext
    intro j
    rw [has_and, has_pow, has_zero]
    by_cases hj : k = j
    · subst hj; simp [h]
    · simp [hj]

/-- The test `a & b == b`. -/
theorem and_eq_right (a b : Int) : Py.and a b = b ↔ ∀ k, has b k → has a k := by
  constructor
  · intro h k hk
    have := has_and a b k
    rw [h, hk] at this
    simpa using this.symm
  · intro h
    apply has_ext
    intro k
    rw [has_and]
    cases hb : has b k
    · simp
    · simp [h k hb]

theorem bit_two_pow (a : Int) (k : Nat) : bit a (2 ^ k) = has a k := by
  unfold bit
  cases h : has a k with
  | false => simp [(and_pow_eq_zero a k).mpr h]
  | true =>
    simp only [ne_eq, decide_not, Bool.not_eq_eq_eq_not, Bool.not_true, decide_eq_false_iff_not]
    intro h0
    rw [(and_pow_eq_zero a k).mp h0] at h
    cases h

end Pywasm.Wasi
