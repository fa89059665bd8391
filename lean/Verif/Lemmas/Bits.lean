import Verif.Model.Arith
import Mathlib.Data.Nat.Bitwise
import Mathlib.Tactic.Ring
import Mathlib.Tactic.NormNum
import Mathlib.Tactic.Linarith
import Mathlib.Tactic.Positivity
import Mathlib.Algebra.Order.Ring.Int

/-! Lemmas about the Python integer primitives and their relation to bit vectors. -/

namespace Pywasm
namespace Py

theorem leNat_lt (b : Bytes) : leNat b < 256 ^ b.length := by
  induction b with
  | nil => simp [leNat]
  | cons x xs ih =>
    have := x.toNat_lt
    simp only [leNat, List.length_cons, Nat.pow_succ]
    omega

@[simp] theorem leBytes_length (k n : Nat) : (leBytes k n).length = k := by
  induction k generalizing n with
  | zero => simp [leBytes]
  | succ k ih => simp [leBytes, ih]

theorem leNat_leBytes (k n : Nat) : leNat (leBytes k n) = n % 256 ^ k := by
  induction k generalizing n with
  | zero => simp [leBytes, leNat, Nat.mod_one]
  | succ k ih =>
    simp only [leBytes, leNat, ih]
    rw [Nat.pow_succ, Nat.mul_comm (256 ^ k) 256, Nat.mod_mul]
    simp

theorem leBytes_leNat (b : Bytes) : leBytes b.length (leNat b) = b := by
  induction b with
  | nil => simp [leBytes]
  | cons x xs ih =>
    have hx := x.toNat_lt
    simp only [List.length_cons, leBytes, leNat]
    rw [show (x.toNat + 256 * leNat xs) / 256 = leNat xs by omega, ih]
    congr 1
    apply UInt8.toNat_inj.mp
    simp

theorem leBytes_mod (k n : Nat) : leBytes k (n % 256 ^ k) = leBytes k n := by
  have h := leBytes_leNat (leBytes k n)
  rw [leBytes_length, leNat_leBytes] at h
  exact h

theorem leNat_append (a b : Bytes) : leNat (a ++ b) = leNat a + 256 ^ a.length * leNat b := by
  induction a with
  | nil => simp [leNat]
  | cons x xs ih => simp only [List.cons_append, leNat, ih, List.length_cons, Nat.pow_succ]; ring

theorem pow256 (k : Nat) : 256 ^ k = 2 ^ (8 * k) := by
  rw [Nat.pow_mul]

theorem pow256_int (k : Nat) : (256 : Int) ^ k = 2 ^ (8 * k) := by
  rw [pow_mul]; norm_num

/-- Signed reading of a byte string is the signed value of the bit vector. -/
theorem fromBytesS_eq (b : Bytes) : fromBytesS b = (BitVec.ofNat (8 * b.length) (leNat b)).toInt := by
  have h := leNat_lt b
  unfold fromBytesS
  rw [BitVec.toInt_eq_toNat_cond]
  simp only [BitVec.toNat_ofNat]
  rw [← pow256, Nat.mod_eq_of_lt h]
  push_cast
  rfl

theorem fromBytesU_eq (b : Bytes) : fromBytesU b = ((BitVec.ofNat (8 * b.length) (leNat b)).toNat : Int) := by
  have h := leNat_lt b
  unfold fromBytesU
  simp only [BitVec.toNat_ofNat]
  rw [← pow256, Nat.mod_eq_of_lt h]

/-! ### and, or, xor as bit vector operations -/

theorem bv_sub_and {w} (x y : BitVec w) : x - (x &&& y) = x &&& ~~~y := by
  have h : x = (x &&& ~~~y) + (x &&& y) := by
    rw [BitVec.add_eq_or_of_and_eq_zero]
    · ext i; simp; cases x[i] <;> cases y[i] <;> rfl
    · ext i; simp; intro h1 h2 h3; simp_all
  conv_lhs => lhs; rw [h]
  rw [BitVec.add_sub_cancel]

theorem ofNat_sub_and (w m n : Nat) :
    BitVec.ofNat w (m - (m &&& n)) = BitVec.ofNat w m &&& ~~~(BitVec.ofNat w n) := by
  have h : BitVec.ofNat w (m - (m &&& n)) + BitVec.ofNat w (m &&& n) = BitVec.ofNat w m := by
    rw [← BitVec.ofNat_add, Nat.sub_add_cancel Nat.and_le_left]
  rw [← bv_sub_and, ← BitVec.ofNat_and, ← h, BitVec.add_sub_cancel]

theorem ofInt_and (w : Nat) (a b : Int) : BitVec.ofInt w (and a b) = BitVec.ofInt w a &&& BitVec.ofInt w b := by
  cases a <;> cases b <;>
    simp [and, ofNat_sub_and, BitVec.ofNat_or, BitVec.ofNat_and]
  · ext i; simp [Bool.and_comm]
  · ext i; simp

theorem ofInt_or (w : Nat) (a b : Int) : BitVec.ofInt w (or a b) = BitVec.ofInt w a ||| BitVec.ofInt w b := by
  cases a <;> cases b <;>
    simp [or, ofNat_sub_and, BitVec.ofNat_or, BitVec.ofNat_and] <;> ext i <;> simp [Bool.or_comm]

theorem ofInt_xor (w : Nat) (a b : Int) : BitVec.ofInt w (xor a b) = BitVec.ofInt w a ^^^ BitVec.ofInt w b := by
  cases a <;> cases b <;> simp [xor, BitVec.ofNat_xor] <;> ext i <;> simp

theorem ofInt_inv (w : Nat) (a : Int) : BitVec.ofInt w (inv a) = ~~~ BitVec.ofInt w a := by
  cases a with
  | ofNat n => 
    rw [show inv (Int.ofNat n) = Int.negSucc n by simp [inv]; omega]; simp
  | negSucc n => rw [show inv (Int.negSucc n) = (n : Int) by simp [inv]]; simp

theorem negSucc_range {k n : Nat} : (-2 ^ k ≤ Int.negSucc n ∧ Int.negSucc n < 2 ^ k) ↔ n < 2 ^ k := by
  have h : (0 : Int) < 2 ^ k := by positivity
  have h2 : ((2 ^ k : Nat) : Int) = 2 ^ k := by push_cast; rfl
  rw [← h2] at h ⊢
  omega

theorem ofNat_range {k n : Nat} : (-2 ^ k ≤ (Int.ofNat n) ∧ Int.ofNat n < 2 ^ k) ↔ n < 2 ^ k := by
  have h : (0 : Int) < 2 ^ k := by positivity
  have h2 : ((2 ^ k : Nat) : Int) = 2 ^ k := by push_cast; rfl
  rw [← h2] at h ⊢
  simp only [Int.ofNat_eq_natCast]
  omega

/-- Ranges: `and`, `or`, `xor` of two `k+1`-bit signed numbers is a `k+1`-bit signed number. -/
theorem and_range {k : Nat} {a b : Int} (ha : -2 ^ k ≤ a ∧ a < 2 ^ k) (hb : -2 ^ k ≤ b ∧ b < 2 ^ k) :
    -2 ^ k ≤ and a b ∧ and a b < 2 ^ k := by
  cases a <;> cases b <;> simp only [negSucc_range, ofNat_range, and] at *
  · exact ofNat_range.2 (Nat.and_lt_two_pow _ hb)
  · exact ofNat_range.2 (lt_of_le_of_lt (Nat.sub_le _ _) ha)
  · exact ofNat_range.2 (lt_of_le_of_lt (Nat.sub_le _ _) hb)
  · exact Nat.or_lt_two_pow ha hb

theorem or_range {k : Nat} {a b : Int} (ha : -2 ^ k ≤ a ∧ a < 2 ^ k) (hb : -2 ^ k ≤ b ∧ b < 2 ^ k) :
    -2 ^ k ≤ or a b ∧ or a b < 2 ^ k := by
  cases a <;> cases b <;> simp only [negSucc_range, ofNat_range, or] at *
  · exact ofNat_range.2 (Nat.or_lt_two_pow ha hb)
  · exact (lt_of_le_of_lt (Nat.sub_le _ _) hb)
  · exact (lt_of_le_of_lt (Nat.sub_le _ _) ha)
  · exact Nat.and_lt_two_pow _ hb

theorem xor_range {k : Nat} {a b : Int} (ha : -2 ^ k ≤ a ∧ a < 2 ^ k) (hb : -2 ^ k ≤ b ∧ b < 2 ^ k) :
    -2 ^ k ≤ xor a b ∧ xor a b < 2 ^ k := by
  cases a <;> cases b <;> simp only [negSucc_range, ofNat_range, xor] at *
  · exact ofNat_range.2 (Nat.xor_lt_two_pow ha hb)
  · exact (Nat.xor_lt_two_pow ha hb)
  · exact (Nat.xor_lt_two_pow ha hb)
  · exact ofNat_range.2 (Nat.xor_lt_two_pow ha hb)

theorem toInt_range {k : Nat} (x : BitVec (k + 1)) : -2 ^ k ≤ x.toInt ∧ x.toInt < 2 ^ k := by
  have h1 := BitVec.le_toInt x
  have h2 := BitVec.toInt_lt (x := x)
  simpa using And.intro h1 h2

/-- A number in the signed range is recovered from its bit vector. -/
theorem toInt_ofInt_of_range {k : Nat} {n : Int} (h : -2 ^ k ≤ n ∧ n < 2 ^ k) :
    (BitVec.ofInt (k + 1) n).toInt = n := by
  rw [BitVec.toInt_ofInt]
  have h2 : ((2 ^ (k + 1) : Nat) : Int) = 2 * 2 ^ k := by push_cast; ring
  apply Int.bmod_eq_of_le_mul_two <;> omega

/-- The same with the width as a separate variable (so that literals unify syntactically). -/
theorem toInt_ofInt_range {w : Nat} (k : Nat) (hw : w = k + 1) {n : Int} (h : -2 ^ k ≤ n ∧ n < 2 ^ k) :
    (BitVec.ofInt w n).toInt = n := by subst hw; exact toInt_ofInt_of_range h

theorem and_toInt {k : Nat} (x y : BitVec (k + 1)) : and x.toInt y.toInt = (x &&& y).toInt := by
  rw [← toInt_ofInt_of_range (and_range (toInt_range x) (toInt_range y)), ofInt_and]; simp
theorem or_toInt {k : Nat} (x y : BitVec (k + 1)) : or x.toInt y.toInt = (x ||| y).toInt := by
  rw [← toInt_ofInt_of_range (or_range (toInt_range x) (toInt_range y)), ofInt_or]; simp
theorem xor_toInt {k : Nat} (x y : BitVec (k + 1)) : xor x.toInt y.toInt = (x ^^^ y).toInt := by
  rw [← toInt_ofInt_of_range (xor_range (toInt_range x) (toInt_range y)), ofInt_xor]; simp

theorem and_mask (n : Int) (k : Nat) : and n (2 ^ k - 1) = n % 2 ^ k := by
  have h1 : (2 ^ k - 1 : Int) = ((2 ^ k - 1 : Nat) : Int) := by
    have := Nat.one_le_two_pow (n := k); push_cast [this]; rfl
  rw [h1]
  cases n with
  | ofNat n =>
    show ((n &&& (2 ^ k - 1) : Nat) : Int) = _
    rw [Nat.and_two_pow_sub_one_eq_mod]; simp
  | negSucc n =>
    show (((2 ^ k - 1) - ((2 ^ k - 1) &&& n) : Nat) : Int) = _
    rw [Nat.and_comm, Nat.and_two_pow_sub_one_eq_mod]
    have := Nat.one_le_two_pow (n := k)
    have h2 := Nat.mod_lt n (Nat.two_pow_pos k)
    rw [Int.negSucc_emod _ (by positivity)]
    push_cast [Nat.le_sub_one_of_lt h2, this]
    ring


theorem shr_eq (a : Int) (k : Nat) : shr a k = a / 2 ^ k := by
  unfold shr; rw [Int.fdiv_eq_ediv_of_nonneg _ (by positivity)]

theorem shr_eq_shiftRight (a : Int) (k : Nat) : shr a k = a >>> k := by
  rw [shr_eq, Int.shiftRight_eq_div_pow]; simp

end Py

namespace Arith

theorem I.mask_eq (k : Nat) : I.mask k = 2 ^ (8 * k) - 1 := by
  simp [I.mask, I.bits, Py.shl, Nat.mul_comm]
theorem U.mask_eq (k : Nat) : U.mask k = 2 ^ (8 * k) - 1 := by
  simp [U.mask, U.bits, Py.shl, Nat.mul_comm]

theorem U.fit_emod (k : Nat) (n : Int) : U.fit k n = n % 2 ^ (8 * k) := by
  rw [U.fit, U.mask_eq, Py.and_mask]

theorem U.fit_eq (k : Nat) (n : Int) : U.fit k n = ((BitVec.ofInt (8 * k) n).toNat : Int) := by
  rw [U.fit_emod, BitVec.toNat_ofInt]
  have : (0:Int) ≤ n % 2 ^ (8 * k) := Int.emod_nonneg _ (by positivity)
  push_cast
  omega

theorem I.fit_bmod (k : Nat) (n : Int) (hk : 0 < k) : I.fit k n = n.bmod (2 ^ (8 * k)) := by
  obtain ⟨w, hw⟩ : ∃ w, 8 * k = w + 1 := ⟨8 * k - 1, by omega⟩
  unfold I.fit
  simp only [I.mask_eq, Py.and_mask]
  have h0 : (0:Int) ≤ n % 2 ^ (8 * k) := Int.emod_nonneg _ (by positivity)
  have h1 : n % 2 ^ (8 * k) < 2 ^ (8 * k) := Int.emod_lt_of_pos _ (by positivity)
  rw [Int.bmod_def]
  push_cast
  obtain ⟨m, hm⟩ := Int.eq_ofNat_of_zero_le h0
  rw [hm] at h1 ⊢
  have hs : I.maskSign k = ((2 ^ w : Nat) : Int) := by
    simp [I.maskSign, I.bits, Py.shl]; omega
  rw [hs]
  have hand : Py.and (m : Int) ((2 ^ w : Nat) : Int) = ((m &&& 2 ^ w : Nat) : Int) := rfl
  rw [hand, Nat.and_two_pow, hw]
  have hm2 : m < 2 ^ (w + 1) := by rw [hw] at h1; exact_mod_cast h1
  have hp : (2:Int) ^ (w+1) = 2 * 2 ^ w := by ring
  have hp' : (2:Nat) ^ (w+1) = 2 * 2 ^ w := by ring
  rw [Nat.testBit_eq_decide_div_mod_eq]
  by_cases hlt : m < 2 ^ w
  · have hd : m / 2 ^ w = 0 := Nat.div_eq_of_lt hlt
    have hlt' : (m : Int) < 2 ^ w := by exact_mod_cast hlt
    rw [hd, if_pos (by omega)]; simp [Py.shl]
  · have hd : m / 2 ^ w = 1 := by
      rw [Nat.div_eq_iff (by positivity)]; omega
    have hlt' : ¬ (m : Int) < 2 ^ w := by exact_mod_cast hlt
    rw [hd, if_neg (by omega)]; simp [Py.shl]; ring

theorem I.fit_eq (k : Nat) (n : Int) (hk : 0 < k) : I.fit k n = (BitVec.ofInt (8 * k) n).toInt := by
  rw [I.fit_bmod k n hk, BitVec.toInt_ofInt]

end Arith
end Pywasm
