import Verif.Lemmas.Bits
import Verif.Spec.IntOps

/-! Conversions between cells, Python integers and bit vectors. -/

namespace Pywasm
open Spec

theorem bytesLE_succ (k n : Nat) : bytesLE (k + 1) n = UInt8.ofNat n :: bytesLE k (n / 256) := by
  simp only [bytesLE, List.range_succ_eq_map, List.map_cons, List.map_map, byteAt, Nat.pow_zero, Nat.div_one]
  congr 1
  apply List.map_congr_left
  intro i _
  simp [Function.comp, byteAt, Nat.pow_succ, Nat.div_div_eq_div_mul, Nat.mul_comm]

theorem bytesLE_eq (k n : Nat) : bytesLE k n = Py.leBytes k n := by
  induction k generalizing n with
  | zero => simp [bytesLE, Py.leBytes]
  | succ k ih => rw [bytesLE_succ, ih]; rfl

theorem sum_mapIdx_mul (c : Nat) (l : Bytes) (f : Nat → UInt8 → Nat) :
    (l.mapIdx fun i b => c * f i b).sum = c * (l.mapIdx f).sum := by
  induction l generalizing f with
  | nil => simp
  | cons b l ih => simp only [List.mapIdx_cons, List.sum_cons, ih, Nat.mul_add]

theorem readLE_cons (b : UInt8) (l : Bytes) : readLE (b :: l) = b.toNat + 256 * readLE l := by
  simp only [readLE, List.mapIdx_cons, List.sum_cons, Nat.pow_zero, Nat.mul_one]
  congr 1
  rw [← sum_mapIdx_mul]
  congr 1
  congr 1
  funext i b
  ring

theorem readLE_eq (l : Bytes) : readLE l = Py.leNat l := by
  induction l with
  | nil => rfl
  | cons b l ih => rw [readLE_cons, ih]; rfl

theorem Val.take_length (v : Val) {k : Nat} (h : k ≤ 16) : (v.data.take k).length = k := by
  simp [v.len, h]

theorem Val.intoI32_eq (v : Val) : v.intoI32 = v.low32.toInt := by
  have h := Py.fromBytesS_eq (v.data.take 4)
  rw [Val.take_length v (by decide)] at h
  rw [Val.intoI32, h, Val.low32, readLE_eq]
theorem Val.intoI64_eq (v : Val) : v.intoI64 = v.low64.toInt := by
  have h := Py.fromBytesS_eq (v.data.take 8)
  rw [Val.take_length v (by decide)] at h
  rw [Val.intoI64, h, Val.low64, readLE_eq]
theorem Val.intoU32_eq (v : Val) : v.intoU32 = (v.low32.toNat : Int) := by
  have h := Py.fromBytesU_eq (v.data.take 4)
  rw [Val.take_length v (by decide)] at h
  rw [Val.intoU32, h, Val.low32, readLE_eq]
theorem Val.intoU64_eq (v : Val) : v.intoU64 = (v.low64.toNat : Int) := by
  have h := Py.fromBytesU_eq (v.data.take 8)
  rw [Val.take_length v (by decide)] at h
  rw [Val.intoU64, h, Val.low64, readLE_eq]

theorem toInt_emod {w : Nat} (x : BitVec w) : (x.toInt % 2 ^ w).toNat = x.toNat := by
  rw [BitVec.toInt_eq_toNat_bmod, show (2:Int)^w = ((2^w : Nat) : Int) by push_cast; rfl, Int.bmod_emod]
  rw [← Int.natCast_emod, Int.toNat_natCast, Nat.mod_eq_of_lt x.isLt]

theorem toBytesS_toInt (k : Nat) (x : BitVec (8 * k)) :
    Py.toBytesS k x.toInt = .ok (bytesLE k x.toNat) := by
  have h1 := BitVec.le_two_mul_toInt (x := x)
  have h2 := BitVec.two_mul_toInt_lt (x := x)
  unfold Py.toBytesS
  rw [Py.pow256_int, if_pos ⟨by simpa using h1, by simpa using h2⟩, toInt_emod, bytesLE_eq]

theorem toBytesU_toNat (k : Nat) (x : BitVec (8 * k)) :
    Py.toBytesU k x.toNat = .ok (bytesLE k x.toNat) := by
  have h := x.isLt
  unfold Py.toBytesU
  rw [Py.pow256_int, if_pos ⟨by omega, by exact_mod_cast h⟩, bytesLE_eq]
  simp

theorem make_cell (ty : ValType) (k n : Nat) (h : k ≤ 16) :
    Val.make ty (bytesLE k n ++ Py.zeros (16 - k)) = .ok (cell ty k n h) := by
  have h2 : (bytesLE k n ++ Py.zeros (16 - k)).length = 16 := by simp [bytesLE_length, Py.zeros]; omega
  simp only [Val.make, h2, dif_pos]; rfl

theorem fromI32_toInt (x : BitVec 32) : Val.fromI32 x.toInt = .ok (i32 x) := by
  have h := toBytesS_toInt 4 x
  unfold Val.fromI32 Arith.I.intoBytearray
  rw [h]; exact make_cell _ 4 _ (by decide)
theorem fromI64_toInt (x : BitVec 64) : Val.fromI64 x.toInt = .ok (i64 x) := by
  have h := toBytesS_toInt 8 x
  unfold Val.fromI64 Arith.I.intoBytearray
  rw [h]; exact make_cell _ 8 _ (by decide)
theorem fromU32_toNat (x : BitVec 32) : Val.fromU32 x.toNat = .ok (i32 x) := by
  have h := toBytesU_toNat 4 x
  unfold Val.fromU32 Arith.U.intoBytearray
  rw [h]; exact make_cell _ 4 _ (by decide)
theorem fromU64_toNat (x : BitVec 64) : Val.fromU64 x.toNat = .ok (i64 x) := by
  have h := toBytesU_toNat 8 x
  unfold Val.fromU64 Arith.U.intoBytearray
  rw [h]; exact make_cell _ 8 _ (by decide)

theorem fromI32_of_range {n : Int} (h : -2 ^ 31 ≤ n ∧ n < 2 ^ 31) : Val.fromI32 n = .ok (i32 (BitVec.ofInt 32 n)) := by
  have e2 := fromI32_toInt (BitVec.ofInt 32 n)
  rwa [Py.toInt_ofInt_range 31 rfl h] at e2
theorem fromI64_of_range {n : Int} (h : -2 ^ 63 ≤ n ∧ n < 2 ^ 63) : Val.fromI64 n = .ok (i64 (BitVec.ofInt 64 n)) := by
  have e2 := fromI64_toInt (BitVec.ofInt 64 n)
  rwa [Py.toInt_ofInt_range 63 rfl h] at e2
theorem fromU32_of_range {n : Nat} (h : n < 2 ^ 32) : Val.fromU32 n = .ok (i32 (BitVec.ofNat 32 n)) := by
  rw [← fromU32_toNat, BitVec.toNat_ofNat, Nat.mod_eq_of_lt h]
theorem fromU64_of_range {n : Nat} (h : n < 2 ^ 64) : Val.fromU64 n = .ok (i64 (BitVec.ofNat 64 n)) := by
  rw [← fromU64_toNat, BitVec.toNat_ofNat, Nat.mod_eq_of_lt h]

theorem fromI32_bool (b : Bool) : Val.fromI32 (Py.ofBool b) = .ok (bool b) := by
  cases b <;> rw [fromI32_of_range (by decide)] <;> rfl

/-! Reading back a cell. -/

theorem leNat_cell (ty : ValType) (k n : Nat) (h : k ≤ 16) (j : Nat) (hj : k ≤ j) :
    Py.leNat ((cell ty k n h).data.take j) = n % 256 ^ k := by
  have h0 : ∀ m, Py.leNat (List.replicate m 0) = 0 := by
    intro m
    induction m with
    | zero => rfl
    | succ m ih => simp [List.replicate_succ, Py.leNat, ih]
  simp only [cell]
  rw [List.take_append, bytesLE_length, List.take_of_length_le (by rw [bytesLE_length]; exact hj),
    List.take_replicate, Py.leNat_append, h0, bytesLE_eq, Py.leNat_leBytes]
  simp

@[simp] theorem low32_i32 (x : BitVec 32) : (i32 x).low32 = x := by
  rw [Val.low32, readLE_eq, i32, leNat_cell _ _ _ _ _ (by decide)]
  apply BitVec.eq_of_toNat_eq; simp; omega
@[simp] theorem low64_i64 (x : BitVec 64) : (i64 x).low64 = x := by
  rw [Val.low64, readLE_eq, i64, leNat_cell _ _ _ _ _ (by decide)]
  apply BitVec.eq_of_toNat_eq; simp; omega
@[simp] theorem low32_f32 (x : BitVec 32) : (f32 x).low32 = x := by
  rw [Val.low32, readLE_eq, f32, leNat_cell _ _ _ _ _ (by decide)]
  apply BitVec.eq_of_toNat_eq; simp; omega
@[simp] theorem low64_f64 (x : BitVec 64) : (f64 x).low64 = x := by
  rw [Val.low64, readLE_eq, f64, leNat_cell _ _ _ _ _ (by decide)]
  apply BitVec.eq_of_toNat_eq; simp; omega
@[simp] theorem low128_v128 (x : BitVec 128) : (v128 x).low128 = x := by
  have := leNat_cell .v128 16 x.toNat (by decide) 16 (by decide)
  rw [List.take_of_length_le (by rw [Val.len])] at this
  rw [Val.low128, readLE_eq, v128, this]
  apply BitVec.eq_of_toNat_eq; simp; omega

/-- A 16-byte cell is determined by its type and its 128 bits. -/
theorem Val.ext_bits {a b : Val} (ht : a.ty = b.ty) (h : a.low128 = b.low128) : a = b := by
  apply Val.ext' ht
  have ha := Py.leNat_lt a.data
  have hb := Py.leNat_lt b.data
  rw [a.len] at ha; rw [b.len] at hb
  have h2 : Py.leNat a.data = Py.leNat b.data := by
    have := congrArg BitVec.toNat h
    simp only [Val.low128, readLE_eq, BitVec.toNat_ofNat] at this
    rwa [Nat.mod_eq_of_lt, Nat.mod_eq_of_lt] at this
    · simpa using hb
    · simpa using ha
  have e1 := Py.leBytes_leNat a.data
  have e2 := Py.leBytes_leNat b.data
  rw [a.len] at e1; rw [b.len] at e2
  rw [← e1, ← e2, h2]

end Pywasm
