import Verif.Lemmas.Cells
import Verif.Spec.IntOps

/-!
# The operations of `arith.I` and `arith.U` are the bit-vector operations

`w = 8 * k` throughout: `k` is the byte length the Python classes are built with.
-/

namespace Pywasm.Arith
open Pywasm.Spec

variable {w k : Nat}

theorem pow_nat_int (w : Nat) : ((2 ^ w : Nat) : Int) = 2 ^ w := by push_cast; rfl

theorem I.fit_w (hw : w = 8 * k) (hk : 0 < k) (n : Int) : I.fit k n = (BitVec.ofInt w n).toInt := by
  subst hw; exact I.fit_eq k n hk
theorem U.fit_w (hw : w = 8 * k) (n : Int) : U.fit k n = ((BitVec.ofInt w n).toNat : Int) := by
  subst hw; exact U.fit_eq k n

theorem I.add_w (hw : w = 8 * k) (hk : 0 < k) (x y : BitVec w) : I.add k x.toInt y.toInt = (x + y).toInt := by
  rw [I.add, I.fit_w hw hk, BitVec.ofInt_add, BitVec.ofInt_toInt, BitVec.ofInt_toInt]
theorem I.sub_w (hw : w = 8 * k) (hk : 0 < k) (x y : BitVec w) : I.sub k x.toInt y.toInt = (x - y).toInt := by
  rw [I.sub, I.fit_w hw hk, Int.sub_eq_add_neg, BitVec.ofInt_add, BitVec.ofInt_neg, BitVec.ofInt_toInt, BitVec.ofInt_toInt,
    BitVec.sub_eq_add_neg]
theorem I.mul_w (hw : w = 8 * k) (hk : 0 < k) (x y : BitVec w) : I.mul k x.toInt y.toInt = (x * y).toInt := by
  rw [I.mul, I.fit_w hw hk, BitVec.ofInt_mul, BitVec.ofInt_toInt, BitVec.ofInt_toInt]

/-! ### division -/

theorem fdiv_same_sign {a b : Int} (h : 0 ≤ a * b) : Int.fdiv a b = Int.tdiv a b := by
  rcases le_or_gt 0 b with hb | hb
  · rcases eq_or_lt_of_le hb with rfl | hb
    · simp
    · have ha : 0 ≤ a := nonneg_of_mul_nonneg_left h hb
      rw [Int.fdiv_eq_ediv_of_nonneg _ hb.le, Int.tdiv_eq_ediv_of_nonneg ha]
  · have ha : 0 ≤ -a := by
      have : 0 ≤ (-a) * (-b) := by simpa using h
      exact nonneg_of_mul_nonneg_left this (by omega)
    have e1 : Int.fdiv a b = Int.fdiv (-a) (-b) := by rw [Int.neg_fdiv_neg]
    have e2 : Int.tdiv a b = Int.tdiv (-a) (-b) := by rw [Int.neg_tdiv, Int.tdiv_neg]; simp
    rw [e1, e2, Int.fdiv_eq_ediv_of_nonneg _ (by omega), Int.tdiv_eq_ediv_of_nonneg ha]

theorem fmod_same_sign {a b : Int} (h : 0 ≤ a * b) : Int.fmod a b = Int.tmod a b := by
  have e1 := Int.mul_fdiv_add_fmod a b
  have e2 := Int.mul_tdiv_add_tmod a b
  rw [fdiv_same_sign h] at e1
  omega

theorem div_opposite {a b : Int} (hb : b ≠ 0) (h : a * b ≤ 0) :
    Int.fdiv (a + Int.fmod (-a) b) b = Int.tdiv a b := by
  have h' : 0 ≤ (-a) * b := by rw [Int.neg_mul]; omega
  have e1 := Int.mul_fdiv_add_fmod (-a) b
  have e : a + Int.fmod (-a) b = b * (-(Int.fdiv (-a) b)) := by rw [Int.mul_neg]; omega
  rw [e, Int.mul_fdiv_cancel_left _ hb, fdiv_same_sign h', Int.neg_tdiv]; simp

theorem rem_opposite {a b : Int} (h : a * b ≤ 0) : -Int.fmod (-a) b = Int.tmod a b := by
  have h' : 0 ≤ (-a) * b := by rw [Int.neg_mul]; omega
  rw [fmod_same_sign h', Int.neg_tmod]; simp

theorem I.min_eq (hw : w = 8 * k) : I.min k = -2 ^ (w - 1) := by
  subst hw; simp [I.min, I.bits, Py.shl, Nat.mul_comm]
theorem I.max_eq (hw : w = 8 * k) : I.max k = 2 ^ (w - 1) - 1 := by
  subst hw; simp [I.max, I.bits, Py.shl, Nat.mul_comm]

theorem toInt_eq_zero {x : BitVec w} : x.toInt = 0 ↔ x = 0 := by
  rw [← BitVec.toInt_inj]; simp

theorem toInt_eq_min (hw : w = 8 * k) (hk : 0 < k) {x : BitVec w} : x.toInt = I.min k ↔ x = BitVec.intMin w := by
  rw [← BitVec.toInt_inj, I.min_eq hw, BitVec.toInt_intMin_of_pos (by omega)]

theorem toInt_eq_neg_one (h : 0 < w) {x : BitVec w} : x.toInt = -1 ↔ x = -1 := by
  rw [← BitVec.toInt_inj]
  have : (-1 : BitVec w).toInt = -1 := by
    rw [show (-1 : BitVec w) = BitVec.allOnes w from BitVec.neg_one_eq_allOnes]
    rw [BitVec.toInt_allOnes]; simp [h]
  rw [this]

theorem tdiv_range {w : Nat} {a b : Int} (ha : -2 ^ w ≤ a ∧ a < 2 ^ w) (h : ¬(a = -2 ^ w ∧ b = -1)) :
    -2 ^ w ≤ a.tdiv b ∧ a.tdiv b < 2 ^ w := by
  have h1 : (a.tdiv b).natAbs = a.natAbs / b.natAbs := Int.natAbs_tdiv a b
  have h2 : a.natAbs / b.natAbs ≤ a.natAbs := Nat.div_le_self _ _
  rw [← h1] at h2
  have hp : (0:Int) < 2 ^ w := by positivity
  by_cases hmin : a = -2 ^ w
  · have hb : b ≠ -1 := fun e => h ⟨hmin, e⟩
    by_cases hb0 : b = 0
    · subst hb0; simp
    by_cases hb1 : b = 1
    · subst hb1; simp; omega
    · have h3 : a.natAbs / b.natAbs < a.natAbs := Nat.div_lt_self (by omega) (by omega)
      rw [← h1] at h3
      omega
  · rcases le_or_gt 0 (a.tdiv b) with h0 | h0 <;> omega

theorem I.div_w (hw : w = 8 * k) (hk : 0 < k) (x y : BitVec w) :
    (∀ z, divS x y = some z → I.div k x.toInt y.toInt = .ok z.toInt) ∧
    (divS x y = none → ∃ e, I.div k x.toInt y.toInt = .error e ∧ isIntTrap e) := by
  have hpos : 0 < w := by omega
  unfold divS I.div Py.floorDiv Py.mod Py.assert
  simp only [← toInt_eq_zero, ← toInt_eq_min hw hk, ← toInt_eq_neg_one hpos]
  by_cases hz : y.toInt = 0
  · simp [hz, isIntTrap, bind, Except.bind]
  by_cases hm : x.toInt = I.min k ∧ y.toInt = -1
  · simp [hm.1, hm.2, isIntTrap, bind, Except.bind]
  · simp only [hz, hm, or_self, if_false]
    have hm' : (decide (x.toInt ≠ I.min k) || decide (y.toInt ≠ -1)) = true := by
      simp only [not_and_or] at hm; simpa using hm
    simp only [hm', if_true, bind, Except.bind]
    have hr : (BitVec.ofInt w (x.toInt.tdiv y.toInt)).toInt = x.toInt.tdiv y.toInt := by
      apply Py.toInt_ofInt_range (w - 1) (by omega)
      obtain ⟨v, rfl⟩ : ∃ v, w = v + 1 := ⟨w - 1, by omega⟩
      rw [I.min_eq hw] at hm
      exact tdiv_range (Py.toInt_range x) hm
    refine ⟨fun z hzz => ?_, fun h => by simp at h⟩
    obtain rfl := Option.some.inj hzz
    rw [hr]
    split
    · rw [fdiv_same_sign (by omega)]
    · rw [div_opposite hz (by omega)]

theorem I.rem_w (hw : w = 8 * k) (hk : 0 < k) (x y : BitVec w) :
    (∀ z, remS x y = some z → I.rem k x.toInt y.toInt = .ok z.toInt) ∧
    (remS x y = none → ∃ e, I.rem k x.toInt y.toInt = .error e ∧ isIntTrap e) := by
  have hpos : 0 < w := by omega
  unfold remS I.rem Py.mod
  simp only [← toInt_eq_zero]
  by_cases hz : y.toInt = 0
  · simp [hz, isIntTrap, bind, Except.bind]
  · simp only [hz, if_false, bind, Except.bind, pure, Except.pure]
    have hr : (BitVec.ofInt w (x.toInt.tmod y.toInt)).toInt = x.toInt.tmod y.toInt := by
      obtain ⟨v, rfl⟩ : ∃ v, w = v + 1 := ⟨w - 1, by omega⟩
      apply Py.toInt_ofInt_range v rfl
      have hx := Py.toInt_range x
      have h1 := Int.natAbs_tmod x.toInt y.toInt
      have h2 : x.toInt.natAbs % y.toInt.natAbs ≤ x.toInt.natAbs := Nat.mod_le _ _
      have hs : 0 ≤ x.toInt → 0 ≤ x.toInt.tmod y.toInt := fun h => Int.tmod_nonneg _ h
      have hs2 : x.toInt ≤ 0 → x.toInt.tmod y.toInt ≤ 0 := fun h => by
        have := Int.tmod_nonneg y.toInt (a := -x.toInt) (by omega)
        rw [Int.neg_tmod] at this; omega
      omega
    refine ⟨fun z hzz => ?_, fun h => by simp at h⟩
    obtain rfl := Option.some.inj hzz
    rw [hr]
    split
    · rw [fmod_same_sign (by omega)]
    · rw [rem_opposite (by omega)]

theorem U.div_w (k : Nat) (x y : BitVec w) :
    (∀ z, divU x y = some z → U.div k x.toNat y.toNat = .ok (z.toNat : Int)) ∧
    (divU x y = none → ∃ e, U.div k x.toNat y.toNat = .error e ∧ isIntTrap e) := by
  unfold divU U.div Py.floorDiv
  by_cases hz : y = 0
  · subst hz; simp [isIntTrap]
  · have hz' : (y.toNat : Int) ≠ 0 := by
      intro h; apply hz; apply BitVec.eq_of_toNat_eq; simpa using h
    simp only [hz, hz', if_false]
    rw [Int.fdiv_eq_ediv_of_nonneg _ (by omega)]
    refine ⟨fun z hzz => ?_, fun h => by simp at h⟩
    obtain rfl := Option.some.inj hzz
    congr 1
    rw [BitVec.toNat_ofNat, Nat.mod_eq_of_lt (lt_of_le_of_lt (Nat.div_le_self _ _) x.isLt)]
    simp

theorem U.rem_w (k : Nat) (x y : BitVec w) :
    (∀ z, remU x y = some z → U.rem k x.toNat y.toNat = .ok (z.toNat : Int)) ∧
    (remU x y = none → ∃ e, U.rem k x.toNat y.toNat = .error e ∧ isIntTrap e) := by
  unfold remU U.rem Py.mod
  by_cases hz : y = 0
  · subst hz; simp [isIntTrap]
  · have hz' : (y.toNat : Int) ≠ 0 := by
      intro h; apply hz; apply BitVec.eq_of_toNat_eq; simpa using h
    simp only [hz, hz', if_false]
    rw [Int.fmod_eq_emod_of_nonneg _ (by omega)]
    refine ⟨fun z hzz => ?_, fun h => by simp at h⟩
    obtain rfl := Option.some.inj hzz
    congr 1
    rw [BitVec.toNat_ofNat, Nat.mod_eq_of_lt (lt_of_le_of_lt (Nat.mod_le _ _) x.isLt)]
    simp

/-! ### shifts and rotations -/

/-- the masked shift count, for an unsigned or signed right operand -/
theorem shift_count (j : Nat) (hw : w = 2 ^ j) (y : BitVec w) :
    (Py.and y.toInt (w - 1 : Int)).toNat = y.toNat % w ∧ (Py.and (y.toNat : Int) (w - 1 : Int)).toNat = y.toNat % w := by
  have h1 : ((w : Int) - 1) = 2 ^ j - 1 := by rw [hw]; push_cast; rfl
  have hpow : (2:Int)^j = (w:Int) := by rw [hw]; push_cast; rfl
  rw [h1, Py.and_mask, Py.and_mask, hpow]
  have h3 : y.toInt % (w : Int) = (y.toNat : Int) % w := by
    rw [BitVec.toInt_eq_toNat_bmod]
    have hd : (w : Int) ∣ ((2 ^ w : Nat) : Int) := by
      have : w ∣ 2 ^ w := by
        conv_lhs => rw [hw]
        exact Nat.pow_dvd_pow 2 (by rw [hw]; exact Nat.lt_two_pow_self.le)
      exact_mod_cast this
    rw [← Int.emod_emod_of_dvd _ hd, Int.bmod_emod, Int.emod_emod_of_dvd _ hd]
  rw [h3]
  constructor <;> omega

theorem ofNat_two_pow (w i : Nat) : BitVec.ofNat w (2 ^ i) = BitVec.twoPow w i := by
  apply BitVec.eq_of_toNat_eq; simp [BitVec.toNat_twoPow]

theorem I.shl_w (hw : w = 8 * k) (hk : 0 < k) (j : Nat) (hj : w = 2 ^ j) (x y : BitVec w) :
    I.shl k x.toInt y.toInt = (x <<< (y.toNat % w)).toInt := by
  rw [I.shl, I.fit_w hw hk, I.bits, show ((k * 8 : Nat) : Int) - 1 = (w : Int) - 1 by omega, (shift_count j hj y).1]
  congr 1
  rw [Py.shl, BitVec.ofInt_mul, BitVec.ofInt_toInt, BitVec.shiftLeft_eq_mul_twoPow]
  congr 1
  rw [← pow_nat_int, BitVec.ofInt_natCast, ofNat_two_pow]

theorem I.shr_w (hw : w = 8 * k) (hk : 0 < k) (j : Nat) (hj : w = 2 ^ j) (x y : BitVec w) :
    I.shr k x.toInt y.toInt = (x.sshiftRight (y.toNat % w)).toInt := by
  rw [I.shr, I.fit_w hw hk, I.bits, show ((k * 8 : Nat) : Int) - 1 = (w : Int) - 1 by omega, (shift_count j hj y).1]
  congr 1
  rw [Py.shr_eq_shiftRight]; rfl

theorem U.shr_w (hw : w = 8 * k) (j : Nat) (hj : w = 2 ^ j) (x y : BitVec w) :
    U.shr k x.toNat y.toNat = ((x >>> (y.toNat % w)).toNat : Int) := by
  rw [U.shr, U.fit_w hw, U.bits, show ((k * 8 : Nat) : Int) - 1 = (w : Int) - 1 by omega, (shift_count j hj y).2]
  congr 1
  rw [Py.shr_eq_shiftRight]
  have : ((x.toNat : Int) >>> (y.toNat % w)) = ((x.toNat >>> (y.toNat % w) : Nat) : Int) := rfl
  rw [this, BitVec.ofInt_natCast]
  simp
  exact Nat.mod_eq_of_lt (lt_of_le_of_lt (Nat.shiftRight_le _ _) x.isLt)

theorem U.shl_w (hw : w = 8 * k) (j : Nat) (hj : w = 2 ^ j) (x y : BitVec w) :
    U.shl k x.toNat y.toNat = ((x <<< (y.toNat % w)).toNat : Int) := by
  rw [U.shl, U.fit_w hw, U.bits, show ((k * 8 : Nat) : Int) - 1 = (w : Int) - 1 by omega, (shift_count j hj y).2]
  congr 2
  rw [Py.shl, BitVec.ofInt_mul, BitVec.ofInt_natCast, BitVec.ofNat_toNat, BitVec.setWidth_eq, BitVec.shiftLeft_eq_mul_twoPow]
  congr 1
  rw [← pow_nat_int, BitVec.ofInt_natCast, ofNat_two_pow]

theorem or_nat (a b : Nat) : Py.or (a : Int) (b : Int) = ((a ||| b : Nat) : Int) := rfl
theorem shl_nat (a b : Nat) : Py.shl (a : Int) b = ((a <<< b : Nat) : Int) := by
  rw [Py.shl, Nat.shiftLeft_eq]; push_cast; rfl
theorem shr_nat (a b : Nat) : Py.shr (a : Int) b = ((a >>> b : Nat) : Int) := by
  rw [Py.shr_eq_shiftRight]; rfl
theorem and_mask_nat (hw : w = 8 * k) (a : Nat) : Py.and (a : Int) (U.mask k) = ((a % 2 ^ w : Nat) : Int) := by
  subst hw
  rw [U.mask_eq, Py.and_mask]; push_cast; rfl

theorem U.rotl_w (hw : w = 8 * k) (x y : BitVec w) :
    U.rotl k x.toNat y.toNat = ((x.rotateLeft y.toNat).toNat : Int) := by
  have hb : (Int.fmod (y.toNat : Int) ((U.bits k : Nat) : Int)).toNat = y.toNat % w := by
    rw [Int.fmod_eq_emod_of_nonneg _ (by omega), U.bits, Nat.mul_comm, ← hw]; omega
  have hw2 : U.bits k = w := by rw [U.bits]; omega
  simp only [U.rotl]
  rw [hb]
  simp only [shl_nat, shr_nat, and_mask_nat hw, or_nat, hw2]
  rw [BitVec.rotateLeft_def]
  simp

theorem U.rotr_w (hw : w = 8 * k) (x y : BitVec w) :
    U.rotr k x.toNat y.toNat = ((x.rotateRight y.toNat).toNat : Int) := by
  have hb : (Int.fmod (y.toNat : Int) ((U.bits k : Nat) : Int)).toNat = y.toNat % w := by
    rw [Int.fmod_eq_emod_of_nonneg _ (by omega), U.bits, Nat.mul_comm, ← hw]; omega
  have hw2 : U.bits k = w := by rw [U.bits]; omega
  simp only [U.rotr]
  rw [hb]
  simp only [shl_nat, shr_nat, and_mask_nat hw, or_nat, hw2]
  rw [BitVec.rotateRight_def]
  simp

/-! ### bit counting -/

theorem and_one (a : Nat) : (Py.and (a : Int) 1 ≠ 0) ↔ a.testBit 0 = true := by
  have h : Py.and (a : Int) 1 = ((a &&& 1 : Nat) : Int) := rfl
  rw [h, Nat.and_one_is_mod, Nat.testBit_zero]
  simp only [ne_eq, Nat.cast_eq_zero, decide_eq_true_eq]; omega

theorem shr_one (a : Nat) : Py.shr (a : Int) 1 = ((a >>> 1 : Nat) : Int) := shr_nat a 1

theorem U.ctzLoop_eq (fuel a : Nat) (b : Int) :
    U.ctzLoop fuel a b = b + (((List.range fuel).find? fun i => a.testBit i).getD fuel : Nat) := by
  induction fuel generalizing a b with
  | zero => simp [U.ctzLoop]
  | succ n ih =>
    rw [U.ctzLoop, List.range_succ_eq_map, List.find?_cons]
    by_cases h : a.testBit 0
    · rw [if_pos ((and_one a).2 h), h]; simp
    · rw [if_neg (fun h' => h ((and_one a).1 h')), Bool.not_eq_true _ |>.mp h, shr_one, ih]
      simp only [List.find?_map]
      have : ((fun i => a.testBit i) ∘ Nat.succ) = fun i => (a >>> 1).testBit i := by
        funext i; simp [Nat.testBit_shiftRight, Nat.add_comm]
      rw [this]
      cases (List.find? (fun i => (a >>> 1).testBit i) (List.range n)) <;> simp <;> ring

theorem U.ctz_w (hw : w = 8 * k) (x : BitVec w) : U.ctz k x.toNat = (Spec.ctz x : Nat) := by
  rw [U.ctz, U.ctzLoop_eq, Spec.ctz, U.bits, Nat.mul_comm, ← hw]
  simp [BitVec.testBit_toNat]

theorem U.popcntLoop_eq (fuel a : Nat) (b : Int) :
    U.popcntLoop fuel a b = b + ((List.range fuel).countP (fun i => a.testBit i) : Nat) := by
  induction fuel generalizing a b with
  | zero => simp [U.popcntLoop]
  | succ n ih =>
    rw [U.popcntLoop, List.range_succ_eq_map, List.countP_cons, List.countP_map, shr_one, ih]
    have : ((fun i => a.testBit i) ∘ Nat.succ) = fun i => (a >>> 1).testBit i := by
      funext i; simp [Nat.testBit_shiftRight, Nat.add_comm]
    rw [this]
    by_cases h : a.testBit 0
    · rw [if_pos ((and_one a).2 h), if_pos h]; push_cast; ring
    · rw [if_neg (fun h' => h ((and_one a).1 h')), if_neg h]; push_cast; ring

theorem U.popcnt_w (hw : w = 8 * k) (x : BitVec w) : U.popcnt k x.toNat = (Spec.popcnt x : Nat) := by
  rw [U.popcnt, U.popcntLoop_eq, Spec.popcnt, U.bits, Nat.mul_comm, ← hw]
  simp [BitVec.testBit_toNat]

theorem U.maskSign_eq (hw : w = 8 * k) : U.maskSign k = ((2 ^ (w - 1) : Nat) : Int) := by
  subst hw; simp [U.maskSign, U.bits, Py.shl, Nat.mul_comm]

theorem and_sign (hw : w = 8 * k) (a : Nat) : (Py.and (a : Int) (U.maskSign k) ≠ 0) ↔ a.testBit (w - 1) = true := by
  rw [U.maskSign_eq hw]
  have h : Py.and (a : Int) ((2 ^ (w - 1) : Nat) : Int) = ((a &&& 2 ^ (w - 1) : Nat) : Int) := rfl
  rw [h, Nat.and_two_pow]
  have := Nat.two_pow_pos (w - 1)
  cases a.testBit (w - 1) <;> simp

theorem find_congr {α} {p q : α → Bool} {l : List α} (h : ∀ a ∈ l, p a = q a) : l.find? p = l.find? q := by
  induction l with
  | nil => rfl
  | cons a l ih =>
    rw [List.find?_cons, List.find?_cons, h a (by simp), ih fun b hb => h b (by simp [hb])]

/-- `fuel ≤ w` iterations look at bits `w-1, w-2, ...` -/
theorem U.clzLoop_eq (hw : w = 8 * k) (fuel a : Nat) (b : Int) (hf : fuel ≤ w) :
    U.clzLoop k fuel a b = b + (((List.range fuel).find? fun i => a.testBit (w - 1 - i)).getD fuel : Nat) := by
  induction fuel generalizing a b with
  | zero => simp [U.clzLoop]
  | succ n ih =>
    rw [U.clzLoop, List.range_succ_eq_map, List.find?_cons]
    by_cases h : a.testBit (w - 1)
    · rw [if_pos ((and_sign hw a).2 h)]; simp [h]
    · rw [if_neg (fun h' => h ((and_sign hw a).1 h')), shl_nat a 1, ih _ _ (by omega)]
      simp only [Nat.sub_zero, Bool.not_eq_true _ |>.mp h, List.find?_map]
      have : List.find? ((fun i => a.testBit (w - 1 - i)) ∘ Nat.succ) (List.range n)
          = List.find? (fun i => (a <<< 1).testBit (w - 1 - i)) (List.range n) := by
        apply find_congr
        intro i hi
        have hi := List.mem_range.1 hi
        simp only [Function.comp, Nat.testBit_shiftLeft]
        rw [show w - 1 - i.succ = w - 1 - i - 1 by omega]
        simp; omega
      rw [this]
      cases (List.find? (fun i => (a <<< 1).testBit (w - 1 - i)) (List.range n)) <;> simp <;> ring

theorem U.clz_w (hw : w = 8 * k) (x : BitVec w) : U.clz k x.toNat = (Spec.clz x : Nat) := by
  rw [U.clz, U.clzLoop_eq hw _ _ _ (by rw [U.bits]; omega), Spec.clz, U.bits, Nat.mul_comm, ← hw]
  simp [BitVec.testBit_toNat]

theorem find_le (n : Nat) (p : Nat → Bool) : ((List.range n).find? p).getD n ≤ n := by
  cases h : (List.range n).find? p with
  | none => simp
  | some i => simpa using (List.mem_range.1 (List.mem_of_find?_eq_some h)).le
theorem clz_le (x : BitVec w) : Spec.clz x ≤ w := find_le _ _
theorem ctz_le (x : BitVec w) : Spec.ctz x ≤ w := find_le _ _
theorem popcnt_le (x : BitVec w) : Spec.popcnt x ≤ w := by
  have := List.countP_le_length (p := fun i => x.getLsbD i) (l := List.range w)
  simpa [Spec.popcnt] using this

end Pywasm.Arith
