import Verif.Lemmas.Lanes
import Verif.Lemmas.IntOps
import Verif.Lemmas.VM
import Verif.Spec.SimdOps

/-!
# Reading and writing lanes, and the arithmetic of one lane
-/

namespace Pywasm
open Spec

/-- The signed values of the first `n` lanes. -/
def intsS (w n : Nat) (x : BitVec 128) : List Int := (List.range n).map fun i => (lane w x i).toInt
/-- The unsigned values of the first `n` lanes. -/
def intsU (w n : Nat) (x : BitVec 128) : List Int := (List.range n).map fun i => ((lane w x i).toNat : Int)

theorem range_map_at {α} [Inhabited α] {n i : Nat} (f : Nat → α) (h : i < n) : ((List.range n).map f).at i = f i := by
  simp [List.at, List.getD, h]
theorem intsS_at {w n i : Nat} (x : BitVec 128) (h : i < n) : (intsS w n x).at i = (lane w x i).toInt := range_map_at _ h
theorem intsU_at {w n i : Nat} (x : BitVec 128) (h : i < n) : (intsU w n x).at i = ((lane w x i).toNat : Int) :=
  range_map_at _ h

namespace VM
theorem popLanesI8_cons (v : Val) (s) : popLanesI8 (v :: s) = .ok (intsS 8 16 v.low128) s := by
  unfold popLanesI8; rw [bind_eq (pop_cons v s), intoV128I8_eq]; rfl
theorem popLanesU8_cons (v : Val) (s) : popLanesU8 (v :: s) = .ok (intsU 8 16 v.low128) s := by
  unfold popLanesU8; rw [bind_eq (pop_cons v s), intoV128U8_eq]; rfl
theorem popLanesI_cons {w n k : Nat} (hw : w = 8 * k) (hn : 16 / k = n) (v : Val) (s) :
    popLanesI k (v :: s) = .ok (intsS w n v.low128) s := by
  unfold popLanesI; rw [bind_eq (pop_cons v s), intoV128I_eq hw, hn]; rfl
theorem popLanesU_cons {w n k : Nat} (hw : w = 8 * k) (hn : 16 / k = n) (v : Val) (s) :
    popLanesU k (v :: s) = .ok (intsU w n v.low128) s := by
  unfold popLanesU; rw [bind_eq (pop_cons v s), intoV128U_eq hw, hn]; rfl
theorem _root_.Pywasm.Val.intoV128_eq (v : Val) : v.intoV128 = v.data := by
  unfold Val.intoV128; rw [List.take_of_length_le (by rw [v.len])]
theorem popV128_cons (v : Val) (s) : popV128 (v :: s) = .ok v.data s := by
  unfold popV128; rw [bind_eq (pop_cons v s), Val.intoV128_eq]; rfl
end VM

/-- A way to pop one operand. -/
structure Popper (α : Type) where
  m : VM α
  get : Val → α
  cons : ∀ v s, m (v :: s) = .ok (get v) s
  nil : m [] = .error .index []

namespace Popper
def i8 : Popper (List Int) := ⟨VM.popLanesI8, fun v => intsS 8 16 v.low128, VM.popLanesI8_cons, rfl⟩
def u8 : Popper (List Int) := ⟨VM.popLanesU8, fun v => intsU 8 16 v.low128, VM.popLanesU8_cons, rfl⟩
def i16 : Popper (List Int) := ⟨VM.popLanesI 2, fun v => intsS 16 8 v.low128, VM.popLanesI_cons rfl rfl, rfl⟩
def u16 : Popper (List Int) := ⟨VM.popLanesU 2, fun v => intsU 16 8 v.low128, VM.popLanesU_cons rfl rfl, rfl⟩
def i32 : Popper (List Int) := ⟨VM.popLanesI 4, fun v => intsS 32 4 v.low128, VM.popLanesI_cons rfl rfl, rfl⟩
def u32 : Popper (List Int) := ⟨VM.popLanesU 4, fun v => intsU 32 4 v.low128, VM.popLanesU_cons rfl rfl, rfl⟩
def i64 : Popper (List Int) := ⟨VM.popLanesI 8, fun v => intsS 64 2 v.low128, VM.popLanesI_cons rfl rfl, rfl⟩
def u64 : Popper (List Int) := ⟨VM.popLanesU 8, fun v => intsU 64 2 v.low128, VM.popLanesU_cons rfl rfl, rfl⟩
def bytes : Popper Bytes := ⟨VM.popV128, fun v => v.data, VM.popV128_cons, rfl⟩
def s32 : Popper Int := ⟨VM.popI32, fun v => v.low32.toInt, VM.popI32_cons, rfl⟩
def s64 : Popper Int := ⟨VM.popI64, fun v => v.low64.toInt, VM.popI64_cons, rfl⟩
def us32 : Popper Int := ⟨VM.popU32, fun v => v.low32.toNat, VM.popU32_cons, rfl⟩
def us64 : Popper Int := ⟨VM.popU64, fun v => v.low64.toNat, VM.popU64_cons, rfl⟩
def val : Popper Val := ⟨VM.pop, id, VM.pop_cons, rfl⟩
end Popper

/-- One operand, one result. -/
theorem shape1 {α} (p : Popper α) (body : α → Except Err Val) (F : Val → Val)
    (h : ∀ x, body (p.get x) = .ok (F x)) (s : List Val) :
    Implements (do let a ← p.m; let c ← VM.lift (body a); VM.push c) s
      (match s with | x :: s => .ok (F x :: s) | _ => .stuck) := by
  match s with
  | [] => exact ⟨_, VM.bind_error p.nil⟩
  | x :: s =>
    show _ = _
    rw [VM.bind_eq (p.cons x s), VM.bind_eq (VM.lift_ok (h x)), VM.push_eq]

theorem shape2 {α β} (pb : Popper β) (pa : Popper α) (body : α → β → Except Err Val) (F : Val → Val → Val)
    (h : ∀ x y, body (pa.get x) (pb.get y) = .ok (F x y)) (s : List Val) :
    Implements (do let b ← pb.m; let a ← pa.m; let c ← VM.lift (body a b); VM.push c) s
      (match s with | y :: x :: s => .ok (F x y :: s) | _ => .stuck) := by
  match s with
  | [] => exact ⟨_, VM.bind_error pb.nil⟩
  | [y] => exact ⟨_, by rw [VM.bind_eq (pb.cons y [])]; exact VM.bind_error pa.nil⟩
  | y :: x :: s =>
    show _ = _
    rw [VM.bind_eq (pb.cons y _), VM.bind_eq (pa.cons x s), VM.bind_eq (VM.lift_ok (h x y)), VM.push_eq]

theorem shape3 {α β γ} (pc : Popper γ) (pb : Popper β) (pa : Popper α) (body : α → β → γ → Except Err Val)
    (F : Val → Val → Val → Val) (h : ∀ x y z, body (pa.get x) (pb.get y) (pc.get z) = .ok (F x y z)) (s : List Val) :
    Implements (do let c ← pc.m; let b ← pb.m; let a ← pa.m; let d ← VM.lift (body a b c); VM.push d) s
      (match s with | z :: y :: x :: s => .ok (F x y z :: s) | _ => .stuck) := by
  match s with
  | [] => exact ⟨_, VM.bind_error pc.nil⟩
  | [z] => exact ⟨_, by rw [VM.bind_eq (pc.cons z [])]; exact VM.bind_error pb.nil⟩
  | [z, y] => exact ⟨_, by rw [VM.bind_eq (pc.cons z _), VM.bind_eq (pb.cons y [])]; exact VM.bind_error pa.nil⟩
  | z :: y :: x :: s =>
    show _ = _
    rw [VM.bind_eq (pc.cons z _), VM.bind_eq (pb.cons y _), VM.bind_eq (pa.cons x s),
      VM.bind_eq (VM.lift_ok (h x y z)), VM.push_eq]

/-! ### writing lanes -/

theorem fromI {w k n : Nat} (hw : w = 8 * k) (hk : 16 / k * k = 16) (hn : 16 / k = n) {F : Nat → Int} {G : Nat → BitVec w}
    (h : ∀ i < n, F i = (G i).toInt) : Val.fromV128I k ((List.range n).map F) = .ok (v128 (ofLanes w G)) := by
  rw [← fromV128I_eq hw hk G, hn]
  congr 1
  exact List.map_congr_left fun i hi => h i (List.mem_range.mp hi)

theorem fromU {w k n : Nat} (hw : w = 8 * k) (hk : 16 / k * k = 16) (hn : 16 / k = n) {F : Nat → Int} {G : Nat → BitVec w}
    (h : ∀ i < n, F i = ((G i).toNat : Int)) : Val.fromV128U k ((List.range n).map F) = .ok (v128 (ofLanes w G)) := by
  rw [← fromV128U_eq hw hk G, hn]
  congr 1
  exact List.map_congr_left fun i hi => h i (List.mem_range.mp hi)

theorem map_intsS {w n : Nat} (f : Int → Int) (x : BitVec 128) :
    (intsS w n x).map f = (List.range n).map fun i => f (lane w x i).toInt := by simp [intsS]
theorem map_intsU {w n : Nat} (f : Int → Int) (x : BitVec 128) :
    (intsU w n x).map f = (List.range n).map fun i => f ((lane w x i).toNat : Int) := by simp [intsU]

theorem replicate_eq_map {α} (n : Nat) (a : α) : List.replicate n a = (List.range n).map fun _ => a := by
  apply List.ext_getElem <;> simp

theorem range'_eq_map (a n s : Nat) (f : Nat → Int) : (List.range' a n s).map f = (List.range n).map fun i => f (a + s * i) := by
  apply List.ext_getElem
  · simp
  · intro i h1 h2; simp

theorem take_range_map {n m : Nat} (h : m ≤ n) (f : Nat → Int) : ((List.range n).map f).take m = (List.range m).map f := by
  rw [← List.map_take, List.take_range, Nat.min_eq_left h]
theorem drop_range_map {n m : Nat} (f : Nat → Int) :
    ((List.range (m + n)).map f).drop m = (List.range n).map fun i => f (i + m) := by
  apply List.ext_getElem
  · simp
  · intro i h1 h2; simp [Nat.add_comm]

theorem append_range_map (n m : Nat) (f g : Nat → Int) :
    (List.range n).map f ++ (List.range m).map g = (List.range (n + m)).map fun i => if i < n then f i else g (i - n) := by
  rw [List.range_add, List.map_append, List.map_map]
  congr 1
  · exact List.map_congr_left fun i hi => by simp [List.mem_range.mp hi]
  · exact List.map_congr_left fun i _ => by simp

/-! ### arithmetic of one lane -/

section lane
variable {w k : Nat}

theorem neg_one_toInt (hw : 0 < w) : (-1 : Int) = (BitVec.allOnes w).toInt := by
  rw [BitVec.toInt_allOnes, if_pos hw]

theorem mask_toInt (hw : 0 < w) {p q : Prop} [Decidable p] [Decidable q] (h : p ↔ q) :
    (if p then (-1 : Int) else 0) = (mask (w := w) q).toInt := by
  unfold mask
  by_cases hp : p
  · rw [if_pos hp, if_pos (h.mp hp)]; exact neg_one_toInt hw
  · rw [if_neg hp, if_neg (fun hq => hp (h.mpr hq))]; simp

theorem toInt_eq_iff (x y : BitVec w) : x.toInt = y.toInt ↔ x = y := BitVec.toInt_inj

theorem abs_w (hw : w = 8 * k) (hk : 0 < k) (x : BitVec w) :
    Arith.I.fit k (x.toInt.natAbs) = (if x.toInt < 0 then -x else x).toInt := by
  rw [Arith.I.fit_w hw hk]
  congr 1
  by_cases h : x.toInt < 0
  · rw [if_pos h, show (x.toInt.natAbs : Int) = -x.toInt by omega, BitVec.ofInt_neg, BitVec.ofInt_toInt]
  · rw [if_neg h, show (x.toInt.natAbs : Int) = x.toInt by omega, BitVec.ofInt_toInt]

theorem neg_w (hw : w = 8 * k) (hk : 0 < k) (x : BitVec w) : Arith.I.fit k (-x.toInt) = (-x).toInt := by
  rw [Arith.I.fit_w hw hk, BitVec.ofInt_neg, BitVec.ofInt_toInt]

theorem satS_w (hw : w = 8 * k) (hk : 0 < k) (n : Int) : Arith.I.sat k n = (satS w n).toInt := by
  unfold Arith.I.sat Arith.I.min Arith.I.max satS Arith.I.bits Py.shl
  rw [show k * 8 = w by omega]
  obtain ⟨j, hj⟩ : ∃ j, w = j + 1 := ⟨w - 1, by omega⟩
  have hp : (0:Int) < 2 ^ j := by positivity
  rw [show w - 1 = j by omega, Py.toInt_ofInt_range j hj]
  · split
    · omega
    · split <;> omega
  · constructor <;> split
    · omega
    · split <;> omega
    · omega
    · split <;> omega

theorem satU_w (hw : w = 8 * k) (n : Int) : Arith.U.sat k n = ((satU w n).toNat : Int) := by
  unfold Arith.U.sat Arith.U.min Arith.U.max satU
  rw [Arith.U.mask_eq, ← hw]
  have hp : (0:Int) < 2 ^ w := by positivity
  have key : ∀ m : Int, 0 ≤ m → m < 2 ^ w → ((BitVec.ofInt w m).toNat : Int) = m := by
    intro m h0 h1
    rw [BitVec.toNat_ofInt]
    have : (((2 ^ w : Nat)) : Int) = 2 ^ w := by push_cast; rfl
    rw [this, Int.emod_eq_of_lt h0 h1]; omega
  rw [key]
  · split
    · omega
    · split <;> omega
  · split
    · omega
    · split <;> omega
  · split
    · omega
    · split <;> omega

theorem min_toInt (x y : BitVec w) : min x.toInt y.toInt = (if x.toInt ≤ y.toInt then x else y).toInt := by
  split <;> omega
theorem max_toInt (x y : BitVec w) : max x.toInt y.toInt = (if x.toInt ≤ y.toInt then y else x).toInt := by
  split <;> omega
theorem min_toNat (x y : BitVec w) : min (x.toNat : Int) y.toNat = ((if x.toNat ≤ y.toNat then x else y).toNat : Int) := by
  split <;> omega
theorem max_toNat (x y : BitVec w) : max (x.toNat : Int) y.toNat = ((if x.toNat ≤ y.toNat then y else x).toNat : Int) := by
  split <;> omega

theorem avgr_w (x y : BitVec w) :
    Int.fdiv ((x.toNat : Int) + y.toNat + 1) 2 = ((BitVec.ofNat w ((x.toNat + y.toNat + 1) / 2)).toNat : Int) := by
  have hx := x.isLt
  have hy := y.isLt
  rw [Int.fdiv_eq_ediv_of_nonneg _ (by omega), BitVec.toNat_ofNat, Nat.mod_eq_of_lt (by omega)]
  omega

/-- signed values fit twice the width -/
theorem signExtend_toInt {w' : Nat} (h : w ≤ w') (x : BitVec w) : (x.signExtend w').toInt = x.toInt :=
  BitVec.toInt_signExtend_of_le h
theorem setWidth_toNat {w' : Nat} (h : w ≤ w') (x : BitVec w) : (x.setWidth w').toNat = x.toNat :=
  BitVec.toNat_setWidth_of_le h

theorem extadd_s {w' : Nat} (h : w < w') (hw : 0 < w) (x y : BitVec w) :
    x.toInt + y.toInt = (x.signExtend w' + y.signExtend w').toInt := by
  obtain ⟨j, rfl⟩ : ∃ j, w = j + 1 := ⟨w - 1, by omega⟩
  obtain ⟨j', rfl⟩ : ∃ j', w' = j' + 1 := ⟨w' - 1, by omega⟩
  have h1 := Py.toInt_range x
  have h2 := Py.toInt_range y
  have h3 : (2:Int) ^ (j + 1) ≤ 2 ^ j' := pow_le_pow_right₀ (by norm_num) (by omega)
  rw [pow_succ] at h3
  rw [← BitVec.ofInt_toInt (x := x.signExtend _), ← BitVec.ofInt_toInt (x := y.signExtend _), ← BitVec.ofInt_add,
    signExtend_toInt (by omega), signExtend_toInt (by omega), Py.toInt_ofInt_of_range (by constructor <;> omega)]

theorem extadd_u {w' : Nat} (h : w < w') (x y : BitVec w) :
    (x.toNat : Int) + y.toNat = ((x.setWidth w' + y.setWidth w').toNat : Int) := by
  have h1 := x.isLt
  have h2 := y.isLt
  have h3 : 2 ^ (w + 1) ≤ 2 ^ w' := Nat.pow_le_pow_right (by decide) h
  rw [pow_succ] at h3
  rw [BitVec.toNat_add, setWidth_toNat h.le, setWidth_toNat h.le, Nat.mod_eq_of_lt (by omega)]
  omega

theorem mul_range {j : Nat} {a b : Int} (h1 : -2 ^ j ≤ a ∧ a < 2 ^ j) (h2 : -2 ^ j ≤ b ∧ b < 2 ^ j) :
    -2 ^ (2 * j) ≤ a * b ∧ a * b ≤ 2 ^ (2 * j) := by
  rw [two_mul, pow_add]
  have hp : (0:Int) < 2 ^ j := by positivity
  constructor <;> nlinarith

theorem extmul_s {w' : Nat} (h : w' = 2 * w) (hw : 0 < w) (x y : BitVec w) :
    x.toInt * y.toInt = (x.signExtend w' * y.signExtend w').toInt := by
  obtain ⟨j, rfl⟩ : ∃ j, w = j + 1 := ⟨w - 1, by omega⟩
  obtain ⟨j', rfl⟩ : ∃ j', w' = j' + 1 := ⟨w' - 1, by omega⟩
  have h1 := mul_range (Py.toInt_range x) (Py.toInt_range y)
  have hj : j' = 2 * j + 1 := by omega
  subst hj
  have hp : (0:Int) < 2 ^ (2 * j) := by positivity
  rw [← BitVec.ofInt_toInt (x := x.signExtend _), ← BitVec.ofInt_toInt (x := y.signExtend _), ← BitVec.ofInt_mul,
    signExtend_toInt (by omega), signExtend_toInt (by omega), Py.toInt_ofInt_of_range]
  rw [pow_succ]
  constructor <;> linarith [h1.1, h1.2]

theorem extmul_u {w' : Nat} (h : w' = 2 * w) (x y : BitVec w) :
    (x.toNat : Int) * y.toNat = ((x.setWidth w' * y.setWidth w').toNat : Int) := by
  have h1 := x.isLt
  have h2 := y.isLt
  have h3 : x.toNat * y.toNat < 2 ^ w' := by
    rw [h, two_mul, pow_add]; exact Nat.mul_lt_mul'' h1 h2
  rw [BitVec.toNat_mul, setWidth_toNat (by omega), setWidth_toNat (by omega), Nat.mod_eq_of_lt h3]
  push_cast; rfl

/-- zero extension read as a signed number -/
theorem setWidth_toInt {w' : Nat} (h : w < w') (x : BitVec w) : (x.toNat : Int) = (x.setWidth w').toInt := by
  have h1 := x.isLt
  have h3 : 2 ^ (w + 1) ≤ 2 ^ w' := Nat.pow_le_pow_right (by decide) h
  rw [pow_succ] at h3
  rw [BitVec.toInt_eq_toNat_of_lt (by rw [setWidth_toNat h.le]; omega), setWidth_toNat h.le]

theorem dot_w (hw : w = 8 * k) (hk : 0 < k) {v : Nat} (hv : v ≤ w) (a b c d : BitVec v) :
    Arith.I.fit k (a.toInt * b.toInt + c.toInt * d.toInt) =
      (a.signExtend w * b.signExtend w + c.signExtend w * d.signExtend w).toInt := by
  rw [Arith.I.fit_w hw hk, BitVec.ofInt_add, BitVec.ofInt_mul, BitVec.ofInt_mul]
  simp only [← signExtend_toInt hv, BitVec.ofInt_toInt]

/-- A shift count of another width. -/
theorem shift_count32 {j : Nat} (hj : j ≤ 32) (hw : w = 2 ^ j) (y : BitVec 32) : (Py.and y.toInt (w - 1 : Int)).toNat = y.toNat % w := by
  have h1 : ((w : Int) - 1) = 2 ^ j - 1 := by rw [hw]; push_cast; rfl
  have hpow : (2:Int)^j = (w:Int) := by rw [hw]; push_cast; rfl
  rw [h1, Py.and_mask, hpow]
  have h3 : y.toInt % (w : Int) = (y.toNat : Int) % w := by
    rw [BitVec.toInt_eq_toNat_bmod]
    have hd : (w : Int) ∣ ((2 ^ 32 : Nat) : Int) := by
      have : w ∣ 2 ^ 32 := by rw [hw]; exact Nat.pow_dvd_pow 2 hj
      exact_mod_cast this
    rw [← Int.emod_emod_of_dvd _ hd, Int.bmod_emod, Int.emod_emod_of_dvd _ hd]
  rw [h3]
  omega

theorem vshl_w (hw : w = 8 * k) (hk : 0 < k) (j : Nat) (h32 : j ≤ 32) (hj : w = 2 ^ j) (x : BitVec w) (y : BitVec 32) :
    Arith.I.shl k x.toInt y.toInt = (x <<< (y.toNat % w)).toInt := by
  rw [Arith.I.shl, Arith.I.fit_w hw hk, Arith.I.bits, show ((k * 8 : Nat) : Int) - 1 = (w : Int) - 1 by omega,
    shift_count32 h32 hj y]
  congr 1
  rw [Py.shl, BitVec.ofInt_mul, BitVec.ofInt_toInt, BitVec.shiftLeft_eq_mul_twoPow]
  congr 1
  rw [← Arith.pow_nat_int, BitVec.ofInt_natCast, Arith.ofNat_two_pow]

theorem vshr_s_w (hw : w = 8 * k) (hk : 0 < k) (j : Nat) (h32 : j ≤ 32) (hj : w = 2 ^ j) (x : BitVec w) (y : BitVec 32) :
    Arith.I.shr k x.toInt y.toInt = (x.sshiftRight (y.toNat % w)).toInt := by
  rw [Arith.I.shr, Arith.I.fit_w hw hk, Arith.I.bits, show ((k * 8 : Nat) : Int) - 1 = (w : Int) - 1 by omega,
    shift_count32 h32 hj y]
  congr 1
  rw [Py.shr_eq_shiftRight]; rfl

theorem vshr_u_w (hw : w = 8 * k) (j : Nat) (h32 : j ≤ 32) (hj : w = 2 ^ j) (x : BitVec w) (y : BitVec 32) :
    Arith.U.shr k x.toNat y.toInt = ((x >>> (y.toNat % w)).toNat : Int) := by
  rw [Arith.U.shr, Arith.U.fit_w hw, Arith.U.bits, show ((k * 8 : Nat) : Int) - 1 = (w : Int) - 1 by omega,
    shift_count32 h32 hj y]
  congr 1
  rw [Py.shr_eq_shiftRight]
  have : ((x.toNat : Int) >>> (y.toNat % w)) = ((x.toNat >>> (y.toNat % w) : Nat) : Int) := rfl
  rw [this, BitVec.ofInt_natCast]
  simp
  exact Nat.mod_eq_of_lt (lt_of_le_of_lt (Nat.shiftRight_le _ _) x.isLt)

end lane
end Pywasm
