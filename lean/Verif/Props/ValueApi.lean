import Verif.Lemmas.SimdFloat
import Verif.Lemmas.FloatArith
import Verif.Props.HostValue

/-!
# The values of the API

C95: "A value made by a constructor of ValInst from a number, the bits of a float or a list of lanes has the type named and gives the
same back when it is read in the same way; what does not fit is refused.  A Python int given for a float is rounded to the nearest, and
refused if that is infinite; a float given for an f32 is rounded to the nearest single."
-/

namespace Pywasm.Props
open Spec

/-- **C95**, unsigned numbers: `from_u32` and `from_u64`. -/
theorem C95_unsigned (n : Int) :
    (0 ≤ n ∧ n < 2 ^ 32 → ∃ v, Val.fromU32 n = .ok v ∧ v.ty = .i32 ∧ v.intoU32 = n) ∧
    (¬(0 ≤ n ∧ n < 2 ^ 32) → ∃ e, Val.fromU32 n = .error e) ∧
    (0 ≤ n ∧ n < 2 ^ 64 → ∃ v, Val.fromU64 n = .ok v ∧ v.ty = .i64 ∧ v.intoU64 = n) ∧
    (¬(0 ≤ n ∧ n < 2 ^ 64) → ∃ e, Val.fromU64 n = .error e) := by
  refine ⟨fun h => ?_, fun h => ⟨_, fromU32_err (by omega)⟩, fun h => ?_, fun h => ⟨_, fromU64_err (by omega)⟩⟩
  · obtain ⟨m, rfl⟩ := Int.eq_ofNat_of_zero_le h.1
    refine ⟨_, fromU32_of_range (by omega), rfl, ?_⟩
    rw [Val.intoU32_eq, low32_i32, BitVec.toNat_ofNat, Nat.mod_eq_of_lt (by omega)]
  · obtain ⟨m, rfl⟩ := Int.eq_ofNat_of_zero_le h.1
    refine ⟨_, fromU64_of_range (by omega), rfl, ?_⟩
    rw [Val.intoU64_eq, low64_i64, BitVec.toNat_ofNat, Nat.mod_eq_of_lt (by omega)]

/-- **C95**, the bits of a float: `from_f32_u32` and `from_f64_u64` make the float with the bits of `n`. -/
theorem C95_float_bits (n : Int) :
    (0 ≤ n ∧ n < 2 ^ 32 → ∃ v, Val.fromF32U32 n = .ok v ∧ v.ty = .f32 ∧ v.intoU32 = n ∧ v.intoF32 = F32.toF64 (BitVec.ofInt 32 n)) ∧
    (¬(0 ≤ n ∧ n < 2 ^ 32) → ∃ e, Val.fromF32U32 n = .error e) ∧
    (0 ≤ n ∧ n < 2 ^ 64 → ∃ v, Val.fromF64U64 n = .ok v ∧ v.ty = .f64 ∧ v.intoU64 = n ∧ v.intoF64 = BitVec.ofInt 64 n) ∧
    (¬(0 ≤ n ∧ n < 2 ^ 64) → ∃ e, Val.fromF64U64 n = .error e) := by
  refine ⟨fun h => ?_, fun h => ⟨.overflow, ?_⟩, fun h => ?_, fun h => ⟨.overflow, ?_⟩⟩
  · obtain ⟨v, h1, _, h3⟩ := (C95_unsigned n).1 h
    refine ⟨{ v with ty := .f32 }, by unfold Val.fromF32U32; rw [h1]; rfl, rfl, h3, ?_⟩
    have : v.intoU32 = ((Py.leNat (v.data.take 4) : Nat) : Int) := rfl
    show F32.toF64 (BitVec.ofNat 32 (Py.leNat (v.data.take 4))) = _
    rw [← h3, this, BitVec.ofInt_natCast]
  · unfold Val.fromF32U32; rw [fromU32_err (by omega)]; rfl
  · obtain ⟨v, h1, _, h3⟩ := (C95_unsigned n).2.2.1 h
    refine ⟨{ v with ty := .f64 }, by unfold Val.fromF64U64; rw [h1]; rfl, rfl, h3, ?_⟩
    have : v.intoU64 = ((Py.leNat (v.data.take 8) : Nat) : Int) := rfl
    show BitVec.ofNat 64 (Py.leNat (v.data.take 8)) = _
    rw [← h3, this, BitVec.ofInt_natCast]
  · unfold Val.fromF64U64; rw [fromU64_err (by omega)]; rfl

/-- The width of a lane in bytes. -/
def Width (k : Nat) : Prop := k = 1 ∨ k = 2 ∨ k = 4 ∨ k = 8

/-- The signed lanes of `k` bytes: `into_v128_i8`, `into_v128_i16`, `into_v128_i32` and `into_v128_i64`. -/
def lanesI (k : Nat) (v : Val) : List Int := if k = 1 then v.intoV128I8 else v.intoV128I k
/-- The unsigned lanes of `k` bytes: `into_v128_u8`, `into_v128_u16`, `into_v128_u32` and `into_v128_u64`. -/
def lanesU (k : Nat) (v : Val) : List Int := if k = 1 then v.intoV128U8 else v.intoV128U k

theorem lanesI_eq {k : Nat} (hk : Width k) (v : Val) :
    lanesI k v = (List.range (16 / k)).map fun i => (lane (8 * k) v.low128 i).toInt := by
  unfold lanesI
  split
  · next h => subst h; exact intoV128I8_eq v
  · exact intoV128I_eq rfl v
theorem lanesU_eq {k : Nat} (hk : Width k) (v : Val) :
    lanesU k v = (List.range (16 / k)).map fun i => ((lane (8 * k) v.low128 i).toNat : Int) := by
  unfold lanesU
  split
  · next h => subst h; exact intoV128U8_eq v
  · exact intoV128U_eq rfl v

theorem list_range {α β} [Inhabited α] {l : List α} {n : Nat} (h : l.length = n) (g : α → β) :
    l.map g = (List.range n).map fun i => g (l.getD i default) := by
  subst h
  apply List.ext_getElem (by simp)
  intro i h1 h2
  simp at h1
  simp [List.getElem?_eq_getElem h1]

theorem mapM_err {α β} {f : α → Except Err β} {l : List α} {a : α} (ha : a ∈ l) (h : ∃ e, f a = .error e) : ∃ e, l.mapM f = .error e := by
  induction l with
  | nil => cases ha
  | cons b l ih =>
    rw [List.mapM_cons]
    cases hb : f b with
    | error e => exact ⟨e, rfl⟩
    | ok y =>
      rcases List.mem_cons.mp ha with rfl | ha
      · obtain ⟨e, he⟩ := h; rw [he] at hb; cases hb
      · obtain ⟨e, he⟩ := ih ha
        exact ⟨e, by rw [he]; rfl⟩

/-- **C95**, signed lanes: `from_v128_i8` to `from_v128_i64` make a vector of these lanes. -/
theorem C95_lanes_signed (k : Nat) (hk : Width k) (l : List Int) :
    (l.length = 16 / k ∧ (∀ x ∈ l, -2 ^ (8 * k - 1) ≤ x ∧ x < 2 ^ (8 * k - 1)) →
      ∃ v, Val.fromV128I k l = .ok v ∧ v.ty = .v128 ∧ lanesI k v = l) ∧
    (¬(l.length = 16 / k ∧ ∀ x ∈ l, -2 ^ (8 * k - 1) ≤ x ∧ x < 2 ^ (8 * k - 1)) → ∃ e, Val.fromV128I k l = .error e) := by
  have hk16 : 16 / k * k = 16 := by rcases hk with rfl | rfl | rfl | rfl <;> rfl
  have hk0 : 0 < k := by rcases hk with rfl | rfl | rfl | rfl <;> decide
  constructor
  · rintro ⟨hl, hr⟩
    have e : l = (List.range (16 / k)).map fun i => (BitVec.ofInt (8 * k) (l.getD i default)).toInt := by
      have := list_range hl fun x => (BitVec.ofInt (8 * k) x).toInt
      rw [← this]
      conv => lhs; rw [← List.map_id l]
      apply List.map_congr_left
      intro x hx
      exact (Py.toInt_ofInt_range (8 * k - 1) (by omega) (hr x hx)).symm
    refine ⟨_, (congrArg _ e).trans (fromV128I_eq rfl hk16 _), rfl, ?_⟩
    rw [lanesI_eq hk, low128_v128]
    conv => rhs; rw [e]
    apply List.map_congr_left
    intro i hi
    rw [lane_ofLanes rfl hk16 _ (List.mem_range.mp hi)]
  · intro h
    unfold Val.fromV128I
    by_cases hl : l.length = 16 / k
    · obtain ⟨x, hx, hn⟩ : ∃ x ∈ l, ¬(-2 ^ (8 * k - 1) ≤ x ∧ x < 2 ^ (8 * k - 1)) := by
        by_contra hc
        exact h ⟨hl, fun x hx => by by_contra hn; exact hc ⟨x, hx, hn⟩⟩
      obtain ⟨e, he⟩ := mapM_err (f := Arith.I.intoBytearray k) hx ⟨.overflow, by
        unfold Arith.I.intoBytearray Py.toBytesS
        have hp : (2 : Int) ^ (8 * k) = 2 * 2 ^ (8 * k - 1) := by
          conv => lhs; rw [show 8 * k = 8 * k - 1 + 1 by omega, pow_succ, mul_comm]
        rw [if_neg (by rw [Py.pow256_int, hp]; intro hh; exact hn (by omega))]⟩
      rw [show Py.assert (l.length == 16 / k) = .ok () by simp [Py.assert, hl]]
      exact ⟨e, by show (l.mapM (Arith.I.intoBytearray k) >>= _) = _; rw [he]; rfl⟩
    · rw [show Py.assert (l.length == 16 / k) = .error .assertion by simp [Py.assert, hl]]
      exact ⟨_, rfl⟩

/-- **C95**, unsigned lanes: `from_v128_u8` to `from_v128_u64` make a vector of these lanes. -/
theorem C95_lanes_unsigned (k : Nat) (hk : Width k) (l : List Int) :
    (l.length = 16 / k ∧ (∀ x ∈ l, 0 ≤ x ∧ x < 2 ^ (8 * k)) →
      ∃ v, Val.fromV128U k l = .ok v ∧ v.ty = .v128 ∧ lanesU k v = l) ∧
    (¬(l.length = 16 / k ∧ ∀ x ∈ l, 0 ≤ x ∧ x < 2 ^ (8 * k)) → ∃ e, Val.fromV128U k l = .error e) := by
  have hk16 : 16 / k * k = 16 := by rcases hk with rfl | rfl | rfl | rfl <;> rfl
  constructor
  · rintro ⟨hl, hr⟩
    have e : l = (List.range (16 / k)).map fun i => ((BitVec.ofInt (8 * k) (l.getD i default)).toNat : Int) := by
      have := list_range hl fun x => ((BitVec.ofInt (8 * k) x).toNat : Int)
      rw [← this]
      conv => lhs; rw [← List.map_id l]
      apply List.map_congr_left
      intro x hx
      obtain ⟨h0, h1⟩ := hr x hx
      obtain ⟨m, rfl⟩ := Int.eq_ofNat_of_zero_le h0
      rw [BitVec.ofInt_natCast, BitVec.toNat_ofNat, Nat.mod_eq_of_lt (by exact_mod_cast h1)]
      rfl
    refine ⟨_, (congrArg _ e).trans (fromV128U_eq rfl hk16 _), rfl, ?_⟩
    rw [lanesU_eq hk, low128_v128]
    conv => rhs; rw [e]
    apply List.map_congr_left
    intro i hi
    rw [lane_ofLanes rfl hk16 _ (List.mem_range.mp hi)]
  · intro h
    unfold Val.fromV128U
    by_cases hl : l.length = 16 / k
    · obtain ⟨x, hx, hn⟩ : ∃ x ∈ l, ¬(0 ≤ x ∧ x < 2 ^ (8 * k)) := by
        by_contra hc
        exact h ⟨hl, fun x hx => by by_contra hn; exact hc ⟨x, hx, hn⟩⟩
      obtain ⟨e, he⟩ := mapM_err (f := Arith.U.intoBytearray k) hx ⟨.overflow, by
        unfold Arith.U.intoBytearray Py.toBytesU
        rw [if_neg (by rw [Py.pow256_int]; exact hn)]⟩
      rw [show Py.assert (l.length == 16 / k) = .ok () by simp [Py.assert, hl]]
      exact ⟨e, by show (l.mapM (Arith.U.intoBytearray k) >>= _) = _; rw [he]; rfl⟩
    · rw [show Py.assert (l.length == 16 / k) = .error .assertion by simp [Py.assert, hl]]
      exact ⟨_, rfl⟩

/-- **C95**, lanes of floats: `from_v128_f64` keeps two doubles as they are; `from_v128_f32` makes each of four the nearest single (and a
NaN a NaN), which is the same number if it was a single. -/
theorem C95_lanes_float (l : List F64) :
    (l.length = 2 → ∃ v, Val.fromV128F64 l = .ok v ∧ v.ty = .v128 ∧ v.intoV128F64 = l) ∧
    (l.length ≠ 2 → ∃ e, Val.fromV128F64 l = .error e) ∧
    (l.length = 4 → ∃ v, Val.fromV128F32 l = .ok v ∧ v.ty = .v128 ∧ v.intoV128F32 = l.map fun x => F32.toF64 (F32.ofF64 x)) ∧
    (l.length ≠ 4 → ∃ e, Val.fromV128F32 l = .error e) := by
  refine ⟨fun h => ?_, fun h => ?_, fun h => ?_, fun h => ?_⟩
  · have e := list_range h id
    rw [List.map_id] at e
    refine ⟨_, (congrArg _ e).trans (fromV128F64_eq _), rfl, ?_⟩
    rw [intoV128F64_eq, low128_v128]
    conv => rhs; rw [e]
    apply List.map_congr_left
    intro i hi
    rw [lane_ofLanes (k := 8) rfl (by decide) _ (List.mem_range.mp hi)]
  · unfold Val.fromV128F64
    rw [show Py.assert (l.length == 2) = .error .assertion by simp [Py.assert, h]]
    exact ⟨_, rfl⟩
  · have e := list_range h id
    rw [List.map_id] at e
    refine ⟨_, (congrArg _ e).trans (fromV128F32_eq _), rfl, ?_⟩
    rw [intoV128F32_eq, low128_v128, list_range h]
    apply List.map_congr_left
    intro i hi
    rw [lane_ofLanes (k := 4) rfl (by decide) _ (List.mem_range.mp hi)]
    rfl
  · unfold Val.fromV128F32
    rw [show Py.assert (l.length == 4) = .error .assertion by simp [Py.assert, h]]
    exact ⟨_, rfl⟩

/-- **C95**, a Python int for an `f64`: it is rounded to the nearest double, ties to even, and refused if that is infinite. -/
theorem C95_int_as_f64 (n : Int) :
    (∃ v y, Val.fromAll .f64 (.int n) = .ok v ∧ v.ty = .f64 ∧ v.intoAll = .ok (.float y) ∧ y.msb = decide (n < 0) ∧ code64 y < inf64 ∧
      Nearest 52 inf64 (n.natAbs * 2 ^ 1074) 1 (code64 y)) ∨
    ((∃ e, Val.fromAll .f64 (.int n) = .error e) ∧ Nearest 52 inf64 (n.natAbs * 2 ^ 1074) 1 inf64) := by
  have hn := (roundMag_nearest 52 2047 (n.natAbs * 2 ^ 1074) 1 (by decide) (by decide)).1
  have hle := roundMag_le 52 2047 (n.natAbs * 2 ^ 1074) 1
  have hdef : F64.ofInt n = if IEEE.roundMag 52 2047 (n.natAbs * 2 ^ 1074) 1 < 2047 * 2 ^ 52 then
    .ok (F64.ofMag (n < 0) (IEEE.roundMag 52 2047 (n.natAbs * 2 ^ 1074) 1)) else .error .overflow := rfl
  generalize IEEE.roundMag 52 2047 (n.natAbs * 2 ^ 1074) 1 = R at *
  rcases Nat.lt_or_ge R (2047 * 2 ^ 52) with hR | hR
  · left
    rw [if_pos hR] at hdef
    have h63 : R < 2 ^ 63 := by omega
    obtain ⟨v, h1, h2, h3⟩ := C09_host_f64_round_trip (F64.ofMag (n < 0) R)
    refine ⟨v, _, ?_, h2, h3, F64.ofMag_msb h63, ?_, ?_⟩
    · show ((F64.ofInt n).mapError _ >>= Val.fromF64) = _
      rw [hdef]
      exact h1
    · rw [F64.ofMag_code h63]; exact hR
    · rw [F64.ofMag_code h63]; exact hn
  · right
    rw [if_neg (by omega)] at hdef
    refine ⟨⟨.struct, ?_⟩, ?_⟩
    · show ((F64.ofInt n).mapError _ >>= Val.fromF64) = _
      rw [hdef]
      rfl
    · have : R = inf64 := Nat.le_antisymm hle hR
      rw [this] at hn
      exact hn

/-- **C95**, a float for an `f32`: a number is rounded to the nearest single, ties to even; one that is a single comes back as it is. -/
theorem C95_float_as_f32 (x : F64) :
    ∃ v, Val.fromAll .f32 (.float x) = .ok v ∧ v.ty = .f32 ∧ v.intoAll = .ok (.float (F32.toF64 v.low32)) ∧
      (code64 x < inf64 → v.low32.msb = x.msb ∧ Nearest 23 inf32 (magnitude 52 (code64 x)) (2 ^ 925) (code32 v.low32)) ∧
      (∀ y : F32, ¬ sNaN32 y → x = F32.toF64 y → v.low32 = y ∧ v.intoAll = .ok (.float x)) := by
  have hinto : (f32 (F32.ofF64 x)).intoAll = .ok (.float (F32.toF64 (f32 (F32.ofF64 x)).low32)) := by
    show Except.ok (HVal.float (F32.toF64 (BitVec.ofNat 32 (Py.leNat ((f32 (F32.ofF64 x)).data.take 4))))) = _
    rw [Val.low32, readLE_eq]
  refine ⟨f32 (F32.ofF64 x), fromF32_eq x, rfl, hinto, fun h => ?_, fun y hy hx => ?_⟩
  · rw [low32_f32]
    have := F32.ofF64_spec h
    exact ⟨this.1, this.2.2⟩
  · have : F32.ofF64 x = y := by rw [hx]; exact F32.ofF64_toF64 hy
    rw [hinto, low32_f32, this]
    exact ⟨rfl, by rw [hx]⟩

/-- **C95**, a Python int for an `f32`: it is taken as the nearest double, as for an `f64`, and this float is what is given for the
`f32`; an int whose nearest double is infinite is refused. -/
theorem C95_int_as_f32 (n : Int) :
    (∃ y, Val.fromAll .f32 (.int n) = Val.fromAll .f32 (.float y) ∧ y.msb = decide (n < 0) ∧ code64 y < inf64 ∧
      Nearest 52 inf64 (n.natAbs * 2 ^ 1074) 1 (code64 y)) ∨
    ((∃ e, Val.fromAll .f32 (.int n) = .error e) ∧ Nearest 52 inf64 (n.natAbs * 2 ^ 1074) 1 inf64) := by
  have hn := (roundMag_nearest 52 2047 (n.natAbs * 2 ^ 1074) 1 (by decide) (by decide)).1
  have hle := roundMag_le 52 2047 (n.natAbs * 2 ^ 1074) 1
  have hdef : F64.ofInt n = if IEEE.roundMag 52 2047 (n.natAbs * 2 ^ 1074) 1 < 2047 * 2 ^ 52 then
    .ok (F64.ofMag (n < 0) (IEEE.roundMag 52 2047 (n.natAbs * 2 ^ 1074) 1)) else .error .overflow := rfl
  generalize IEEE.roundMag 52 2047 (n.natAbs * 2 ^ 1074) 1 = R at *
  rcases Nat.lt_or_ge R (2047 * 2 ^ 52) with hR | hR
  · left
    rw [if_pos hR] at hdef
    have h63 : R < 2 ^ 63 := by omega
    refine ⟨F64.ofMag (n < 0) R, ?_, F64.ofMag_msb h63, ?_, ?_⟩
    · show (F64.ofInt n >>= Val.fromF32) = _
      rw [hdef]
      rfl
    · rw [F64.ofMag_code h63]; exact hR
    · rw [F64.ofMag_code h63]; exact hn
  · right
    rw [if_neg (by omega)] at hdef
    refine ⟨⟨.overflow, ?_⟩, ?_⟩
    · show (F64.ofInt n >>= Val.fromF32) = _
      rw [hdef]
      rfl
    · have : R = inf64 := Nat.le_antisymm hle hR
      rw [this] at hn
      exact hn

/-! ## The hypotheses are met -/

example : ∃ v, Val.fromF64U64 0x3ff0000000000000 = .ok v ∧ v.ty = .f64 ∧ v.intoU64 = 0x3ff0000000000000 ∧ v.intoF64 = 0x3ff0000000000000#64 :=
  (C95_float_bits 0x3ff0000000000000).2.2.1 (by decide)
example := (C95_lanes_signed 2 (.inr (.inl rfl)) [-32768, 32767, 0, 1, -1, 2, -2, 3]).1 (by decide)
example := (C95_lanes_signed 2 (.inr (.inl rfl)) [-32769, 32767, 0, 1, -1, 2, -2, 3]).2 (by decide)
example := (C95_lanes_unsigned 8 (.inr (.inr (.inr rfl))) [18446744073709551615, 1]).1 (by decide)
example : F64.ofInt 3 = .ok 0x4008000000000000#64 := by decide +kernel

end Pywasm.Props
