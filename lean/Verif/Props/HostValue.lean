import Verif.Lemmas.IntOps

/-!
# C09: host values survive the trip through the guest representation

`Val.fromAll ty h` is `ValInst.from_all`, used for every argument of `Runtime.invocate` and every result of a host
function; `Val.intoAll` is `ValInst.into_all`, used for every result of `Runtime.invocate` and every argument of a host
function.
-/

namespace Pywasm.Props
open Spec

/-- The host integers a numeric or reference type can hold. -/
def inRange : ValType → Int → Prop
  | .i32, n | .funcref, n | .externref, n => -2 ^ 31 ≤ n ∧ n < 2 ^ 31
  | .i64, n => -2 ^ 63 ≤ n ∧ n < 2 ^ 63
  | _, _ => False

/-- The value types whose host representation is a Python integer. -/
def isIntLike (ty : ValType) : Prop := ty = .i32 ∨ ty = .i64 ∨ ty = .funcref ∨ ty = .externref

theorem toBytesS_iff (k : Nat) (n : Int) :
    (∃ b, Py.toBytesS k n = .ok b) ↔ -2 ^ (8 * k) ≤ 2 * n ∧ 2 * n < 2 ^ (8 * k) := by
  unfold Py.toBytesS
  rw [Py.pow256_int]
  split <;> simp_all

theorem fromI32_out {n : Int} (h : ¬(-2 ^ 31 ≤ n ∧ n < 2 ^ 31)) : Val.fromI32 n = .error .overflow := by
  unfold Val.fromI32 Arith.I.intoBytearray Py.toBytesS
  rw [if_neg (by rw [Py.pow256_int]; norm_num; omega)]; rfl
theorem fromI64_out {n : Int} (h : ¬(-2 ^ 63 ≤ n ∧ n < 2 ^ 63)) : Val.fromI64 n = .error .overflow := by
  unfold Val.fromI64 Arith.I.intoBytearray Py.toBytesS
  rw [if_neg (by rw [Py.pow256_int]; norm_num; omega)]; rfl
theorem fromRef_out (ty : ValType) {n : Int} (h : ¬(-2 ^ 31 ≤ n ∧ n < 2 ^ 31)) : Val.fromRef ty n = .error .struct := by
  unfold Val.fromRef Py.packS
  rw [if_neg (by rw [Py.pow256_int]; norm_num; omega)]; rfl

theorem fromRef_in (ty : ValType) {n : Int} (h : -2 ^ 31 ≤ n ∧ n < 2 ^ 31) :
    ∃ v, Val.fromRef ty n = .ok v ∧ v.ty = ty ∧ v.intoRef = .ok n := by
  have hb : Py.packS 4 n = .ok (Py.leBytes 4 (n % 256 ^ 4).toNat) := by
    unfold Py.packS; rw [if_pos (by rw [Py.pow256_int]; norm_num; omega)]
  have hl : (Py.leBytes 4 (n % 256 ^ 4).toNat ++ [0x01] ++ Py.zeros 11).length = 16 := by simp [Py.zeros]
  refine ⟨⟨ty, _, hl⟩, ?_, rfl, ?_⟩
  · unfold Val.fromRef
    rw [hb]
    simp only [bind, Except.bind]
    rw [Val.make, dif_pos hl]
  · have h1 : (⟨ty, _, hl⟩ : Val).byte 4 = 1 := by
      simp only [Val.byte, List.getD_eq_getElem?_getD]
      rw [List.append_assoc, List.getElem?_append_right (by simp), Py.leBytes_length]; rfl
    have h2 : (⟨ty, _, hl⟩ : Val).intoI32 = n := by
      unfold Val.intoI32
      simp only [List.append_assoc]
      rw [List.take_append_of_le_length (by simp), List.take_of_length_le (by simp)]
      unfold Py.fromBytesS
      rw [Py.leNat_leBytes, Py.leBytes_length]
      norm_num
      split <;> omega
    unfold Val.intoRef
    rw [h1, h2]; rfl

/-- **C09**, integers and references: an in-range host integer comes back unchanged, an out-of-range one raises. -/
theorem C09_host_int_round_trip (ty : ValType) (hty : isIntLike ty) (n : Int) :
    (inRange ty n → ∃ v, Val.fromAll ty (.int n) = .ok v ∧ v.ty = ty ∧ v.intoAll = .ok (.int n)) ∧
    (¬ inRange ty n → ∃ e, Val.fromAll ty (.int n) = .error e) := by
  rcases hty with rfl | rfl | rfl | rfl
  · refine ⟨fun h => ⟨_, fromI32_of_range h, rfl, ?_⟩, fun h => ⟨_, fromI32_out h⟩⟩
    show Except.ok (HVal.int (i32 _).intoI32) = _
    rw [Val.intoI32_eq, low32_i32, Py.toInt_ofInt_range 31 rfl h]
  · refine ⟨fun h => ⟨_, fromI64_of_range h, rfl, ?_⟩, fun h => ⟨_, fromI64_out h⟩⟩
    show Except.ok (HVal.int (i64 _).intoI64) = _
    rw [Val.intoI64_eq, low64_i64, Py.toInt_ofInt_range 63 rfl h]
  all_goals
    refine ⟨fun h => ?_, fun h => ⟨_, fromRef_out _ h⟩⟩
    obtain ⟨v, h1, h2, h3⟩ := fromRef_in _ h
    refine ⟨v, h1, h2, ?_⟩
    unfold Val.intoAll; rw [h2]; simp only [h3]; rfl

example : inRange .i32 (-2147483648) ∧ ¬ inRange .i32 2147483648 ∧ inRange .i64 2147483648 := by
  refine ⟨?_, ?_, ?_⟩ <;> simp [inRange]

/-- **C09**, vectors: exactly the 16-byte strings are accepted and come back unchanged. -/
theorem C09_host_v128_round_trip (b : Bytes) :
    (b.length = 16 → ∃ v, Val.fromAll .v128 (.bytes b) = .ok v ∧ v.ty = .v128 ∧ v.intoAll = .ok (.bytes b)) ∧
    (b.length ≠ 16 → ∃ e, Val.fromAll .v128 (.bytes b) = .error e) := by
  constructor
  · intro h
    refine ⟨⟨.v128, b, h⟩, ?_, rfl, ?_⟩
    · show Val.fromV128 b = _
      simp [Val.fromV128, Py.assert, h, bind, Except.bind, Val.make, Py.zeros]
    · simp [Val.intoAll, Val.intoV128, ← h]
  · intro h
    refine ⟨.assertion, ?_⟩
    show Val.fromV128 b = _
    simp [Val.fromV128, Py.assert, h, bind, Except.bind]

/-- **C09**, doubles: every bit pattern comes back unchanged. -/
theorem C09_host_f64_round_trip (x : F64) :
    ∃ v, Val.fromAll .f64 (.float x) = .ok v ∧ v.ty = .f64 ∧ v.intoAll = .ok (.float x) := by
  refine ⟨f64 x, ?_, rfl, ?_⟩
  · show Val.fromF64 x = _
    unfold Val.fromF64
    rw [← bytesLE_eq]; exact make_cell _ 8 _ (by decide)
  · show Except.ok (HVal.float (f64 x).intoF64) = _
    rw [Val.intoF64, ← readLE_eq]; exact congrArg (fun y => Except.ok (HVal.float y)) (low64_f64 x)

/-- **C09**, signed and unsigned views of any cell agree modulo the width. -/
theorem C09_signed_unsigned_views (v : Val) :
    v.intoU32 = v.intoI32 % 2 ^ 32 ∧ v.intoU64 = v.intoI64 % 2 ^ 64 ∧
    (-2 ^ 31 ≤ v.intoI32 ∧ v.intoI32 < 2 ^ 31) ∧ (-2 ^ 63 ≤ v.intoI64 ∧ v.intoI64 < 2 ^ 63) := by
  rw [Val.intoU32_eq, Val.intoU64_eq, Val.intoI32_eq, Val.intoI64_eq]
  have h32 := Py.toInt_range (k := 31) v.low32
  have h64 := Py.toInt_range (k := 63) v.low64
  have e32 := toInt_emod v.low32
  have e64 := toInt_emod v.low64
  refine ⟨?_, ?_, h32, h64⟩ <;> omega

/-! ## The hypotheses are met -/

example : ∃ v, Val.fromAll .i32 (.int (-2147483648)) = .ok v ∧ v.ty = .i32 ∧ v.intoAll = .ok (.int (-2147483648)) :=
  (C09_host_int_round_trip .i32 (.inl rfl) (-2147483648)).1 (by simp [inRange])
example : ∃ e, Val.fromAll .i32 (.int 4294967295) = .error e :=
  (C09_host_int_round_trip .i32 (.inl rfl) 4294967295).2 (by simp [inRange])
example := (C09_host_v128_round_trip [0, 1, 2, 3, 4, 5, 6, 7, 8, 9, 10, 11, 12, 13, 14, 255]).1 rfl
example := (C09_host_v128_round_trip [0, 1, 2]).2 (by decide)

end Pywasm.Props
