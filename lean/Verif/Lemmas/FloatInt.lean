import Verif.Lemmas.FloatOps

/-!
# Floats and integers: rounding to an integral float, conversion both ways
-/

set_option exponentiation.threshold 3000

namespace Pywasm
open Spec

theorem rep_int {p t c : Nat} {k u : Int} (hu : u.natAbs = magnitude p c) (hk : |k * 2 ^ t - u| < 2 ^ t) :
    ∃ c', magnitude p c' = k.natAbs * 2 ^ t ∧ (c' = c ∨ k.natAbs ≤ 2 ^ (p + 1)) := by
  have ht : 0 < 2 ^ t := Nat.two_pow_pos t
  by_cases h : magnitude p c < 2 ^ (p + 1) * 2 ^ t
  · have hle : k.natAbs ≤ 2 ^ (p + 1) := by
      by_contra hx
      have h1 : (2 ^ (p + 1) + 1) * 2 ^ t ≤ k.natAbs * 2 ^ t := Nat.mul_le_mul_right _ (by omega)
      have h2 : (k * 2 ^ t).natAbs = k.natAbs * 2 ^ t := by rw [Int.natAbs_mul, Int.natAbs_pow]; rfl
      rw [Nat.add_mul, Nat.one_mul, ← h2] at h1
      have h3 : ((2 : Int) ^ t) = ((2 ^ t : Nat) : Int) := by push_cast; rfl
      rw [h3] at hk
      rw [h3] at h1
      rw [← hu] at h
      have := abs_lt.mp hk
      omega
    obtain ⟨c', h'⟩ := exists_code hle t
    exact ⟨c', h', .inr hle⟩
  · obtain ⟨a, j, ha, hm⟩ := magnitude_form p c
    have hj : t ≤ j := by
      by_contra hx
      have h1 : 2 ^ j ≤ 2 ^ t := Nat.pow_le_pow_right (by decide) (by omega)
      have : a * 2 ^ j < 2 ^ (p + 1) * 2 ^ t := Nat.mul_lt_mul_of_lt_of_le ha h1 ht
      omega
    have hd : (2 : Int) ^ t ∣ u := by
      rw [← Int.natAbs_dvd_natAbs, Int.natAbs_pow, hu, hm]
      exact Dvd.dvd.mul_left (pow_dvd_pow 2 hj) a
    obtain ⟨w, rfl⟩ := hd
    have : k = w := by
      have h3 : k * 2 ^ t - 2 ^ t * w = (k - w) * 2 ^ t := by ring
      rw [h3, abs_mul, abs_of_pos (by positivity : (0 : Int) < 2 ^ t)] at hk
      have h4 : |k - w| < 1 := by
        by_contra hx
        have h5 : (1 : Int) ≤ |k - w| := by omega
        have h6 : (1 : Int) * 2 ^ t ≤ |k - w| * 2 ^ t := Int.mul_le_mul_of_nonneg_right h5 (by positivity)
        omega
      have := abs_lt.mp h4
      omega
    subst this
    refine ⟨c, ?_, .inl rfl⟩
    rw [← hu, Int.natAbs_mul, Int.natAbs_pow, Nat.mul_comm]; rfl

theorem magnitude_inf32 : magnitude 23 inf32 = 2 ^ 277 := by
  have := magnitude_eq (p := 23) (e := 254) (m := 2 ^ 23) (by omega) (.inr le_rfl)
  rw [← pow_add] at this
  rw [← this]; rfl
theorem magnitude_inf64 : magnitude 52 inf64 = 2 ^ 2098 := by
  have := magnitude_eq (p := 52) (e := 2046) (m := 2 ^ 52) (by omega) (.inr le_rfl)
  rw [← pow_add] at this
  rw [← this]; rfl

theorem F64.ofInt_exact {k : Int} {c : Nat} (hc : c < inf64) (h : magnitude 52 c = k.natAbs * 2 ^ 1074) :
    F64.ofInt k = .ok (F64.ofMag (decide (k < 0)) c) := by
  unfold F64.ofInt
  have e : IEEE.roundMag 52 2047 (k.natAbs * 2 ^ 1074) 1 = c :=
    roundMag_exact (by decide) (by decide) hc.le (by rw [h, Nat.mul_one])
  simp only [e]
  exact if_pos hc

theorem units_natAbs (s : Bool) (m : Nat) : (Num.fin s m).units.natAbs = m := by
  unfold Num.units; cases s <;> simp

theorem code_of_int64 {k : Int} {c : Nat} (h : magnitude 52 c = k.natAbs * 2 ^ 1074) (hk : k.natAbs ≤ 2 ^ 64) : c < inf64 := by
  apply code_lt (p := 52)
  rw [h, magnitude_inf64]
  calc k.natAbs * 2 ^ 1074 ≤ 2 ^ 64 * 2 ^ 1074 := Nat.mul_le_mul_right _ hk
    _ = 2 ^ 1138 := by rw [← pow_add]
    _ < 2 ^ 2098 := Nat.pow_lt_pow_right (by decide) (by decide)
theorem code_of_int32 {k : Int} {c : Nat} (h : magnitude 23 c = k.natAbs * 2 ^ 149) (hk : k.natAbs ≤ 2 ^ 64) : c < inf32 := by
  apply code_lt (p := 23)
  rw [h, magnitude_inf32]
  calc k.natAbs * 2 ^ 149 ≤ 2 ^ 64 * 2 ^ 149 := Nat.mul_le_mul_right _ hk
    _ = 2 ^ 213 := by rw [← pow_add]
    _ < 2 ^ 277 := Nat.pow_lt_pow_right (by decide) (by decide)

/-- An integer within one of a finite double is a double. -/
theorem F64.ofInt_near {y : F64} (hy : code64 y < inf64) {k : Int} (hk : |k * 2 ^ 1074 - (num64 y).units| < 2 ^ 1074) :
    ∃ c, F64.ofInt k = .ok (F64.ofMag (decide (k < 0)) c) ∧ c < inf64 ∧ magnitude 52 c = k.natAbs * 2 ^ 1074 := by
  obtain ⟨c, h1, h2⟩ := rep_int (p := 52) (t := 1074) (c := code64 y) (by rw [F64.num_fin hy, units_natAbs]) hk
  have hc : c < inf64 := by
    rcases h2 with rfl | h2
    · exact hy
    · exact code_of_int64 h1 (by omega)
  exact ⟨c, F64.ofInt_exact hc h1, hc, h1⟩

/-- An integer within one of a finite single is a single; going through a double is exact. -/
theorem F32.ofInt_near {x : F32} (hx : code32 x < inf32) {k : Int} (hk : |k * 2 ^ 149 - (num32 x).units| < 2 ^ 149) :
    ∃ c y, F64.ofInt k = .ok y ∧ F32.ofF64 y = F32.ofMag (decide (k < 0)) c ∧ c < inf32 ∧
      magnitude 23 c = k.natAbs * 2 ^ 149 := by
  obtain ⟨c, h1, h2⟩ := rep_int (p := 23) (t := 149) (c := code32 x) (by rw [F32.num_fin hx, units_natAbs]) hk
  have hc : c < inf32 := by
    rcases h2 with rfl | h2
    · exact hx
    · exact code_of_int32 h1 (by omega)
  obtain ⟨c', hc', hm⟩ := exists_code64 hc
  have hm' : magnitude 52 c' = k.natAbs * 2 ^ 1074 := by
    rw [hm, h1, Nat.mul_assoc, ← pow_add]
  have h63 : c' < 2 ^ 63 := by unfold inf64 at hc'; omega
  refine ⟨c, _, F64.ofInt_exact hc' hm', F32.ofF64_exact ?_ ?_ hc.le ?_, hc, h1⟩
  · rw [F64.ofMag_code h63]; exact hc'
  · rw [F64.ofMag_msb h63]
  · rw [F64.ofMag_code h63, hm]

/-! ## The four roundings -/

theorem isCeil_near {d u k : Int} (h : IsCeil d u k) : |k * d - u| < d := by
  obtain ⟨h1, h2⟩ := h
  rw [Int.sub_mul, Int.one_mul] at h2
  rw [abs_lt]; constructor <;> omega
theorem isFloor_near {d u k : Int} (h : IsFloor d u k) : |k * d - u| < d := by
  obtain ⟨h1, h2⟩ := h
  rw [Int.add_mul, Int.one_mul] at h2
  rw [abs_lt]; constructor <;> omega
theorem isTrunc_near {d u k : Int} (h : IsTrunc d u k) : |k * d - u| < d := by
  unfold IsTrunc at h; split at h
  · exact isFloor_near h
  · exact isCeil_near h
theorem isRound_near {d u k : Int} (hd : 0 < d) (h : IsRound d u k) : |k * d - u| < d := by
  have := h.1; omega

theorem isFloor_fdiv {d : Int} (hd : 0 < d) (u : Int) : IsFloor d u (Int.fdiv u d) := by
  rw [Int.fdiv_eq_ediv_of_nonneg _ hd.le]
  constructor
  · exact Int.ediv_mul_le _ (by omega)
  · exact Int.lt_ediv_add_one_mul_self u hd
theorem isCeil_neg {d u k : Int} (h : IsFloor d (-u) k) : IsCeil d u (-k) := by
  obtain ⟨h1, h2⟩ := h
  have e : (-k - 1) * d = -((k + 1) * d) := by ring
  constructor
  · rw [Int.neg_mul]; omega
  · rw [e]; omega
theorem isTrunc_tdiv {d : Int} (hd : 0 < d) (u : Int) : IsTrunc d u (Int.tdiv u d) := by
  unfold IsTrunc
  split
  · rename_i h
    rw [Int.tdiv_eq_ediv_of_nonneg h, ← Int.fdiv_eq_ediv_of_nonneg _ hd.le]
    exact isFloor_fdiv hd u
  · rename_i h
    have e : Int.tdiv u d = -Int.fdiv (-u) d := by
      rw [Int.fdiv_eq_ediv_of_nonneg _ hd.le, ← Int.tdiv_eq_ediv_of_nonneg (by omega), Int.neg_tdiv, Int.neg_neg]
    rw [e]
    exact isCeil_neg (isFloor_fdiv hd _)

theorem F64.isFloor_floor {x : F64} : IsFloor (2 ^ 1074) x.val x.floor := isFloor_fdiv (by positivity) _
theorem F64.isCeil_ceil {x : F64} : IsCeil (2 ^ 1074) x.val x.ceil := isCeil_neg (isFloor_fdiv (by positivity) _)
theorem F64.isTrunc_trunc {x : F64} : IsTrunc (2 ^ 1074) x.val x.trunc := isTrunc_tdiv (by positivity) _
theorem F64.isRound_round {x : F64} : IsRound (2 ^ 1074) x.val x.roundEven := by
  obtain ⟨h1, h2⟩ := F64.isFloor_floor (x := x)
  unfold F64.roundEven IsRound
  generalize (2 : Int) ^ 1074 = d at *
  generalize x.floor = f at *
  generalize x.val = u at *
  rw [Int.add_mul, Int.one_mul] at h2
  simp only
  have e1 : |f * d - u| = u - f * d := by rw [abs_of_nonpos (by omega)]; omega
  have e2 : |(f + 1) * d - u| = f * d + d - u := by
    rw [Int.add_mul, Int.one_mul, abs_of_nonneg (by omega)]
  split
  · rw [e1]; constructor <;> omega
  · split
    · rw [e2]; constructor <;> omega
    · split
      · rw [e1]; constructor <;> omega
      · rw [e2]; constructor <;> omega

theorem isCeil_scale {d e u k : Int} (he : 0 < e) (h : IsCeil (d * e) (u * e) k) : IsCeil d u k := by
  obtain ⟨h1, h2⟩ := h
  rw [← Int.mul_assoc] at h1 h2
  exact ⟨Int.le_of_mul_le_mul_right h1 he, Int.lt_of_mul_lt_mul_right h2 he.le⟩
theorem isFloor_scale {d e u k : Int} (he : 0 < e) (h : IsFloor (d * e) (u * e) k) : IsFloor d u k := by
  obtain ⟨h1, h2⟩ := h
  rw [← Int.mul_assoc] at h1 h2
  exact ⟨Int.le_of_mul_le_mul_right h1 he, Int.lt_of_mul_lt_mul_right h2 he.le⟩
theorem isTrunc_scale {d e u k : Int} (he : 0 < e) (h : IsTrunc (d * e) (u * e) k) : IsTrunc d u k := by
  unfold IsTrunc at *
  by_cases hu : 0 ≤ u
  · rw [if_pos (by positivity)] at h
    rw [if_pos hu]; exact isFloor_scale he h
  · rw [if_neg] at h
    · rw [if_neg hu]; exact isCeil_scale he h
    · have : u * e < 0 := Int.mul_neg_of_neg_of_pos (by omega) he
      omega
theorem isRound_scale {d e u k : Int} (he : 0 < e) (h : IsRound (d * e) (u * e) k) : IsRound d u k := by
  obtain ⟨h1, h2⟩ := h
  have e1 : 2 * |k * (d * e) - u * e| = 2 * |k * d - u| * e := by
    rw [← Int.mul_assoc, ← Int.sub_mul, abs_mul, abs_of_pos he, Int.mul_assoc]
  rw [e1] at h1 h2
  exact ⟨Int.le_of_mul_le_mul_right h1 he, fun h => h2 (by rw [h])⟩

/-- The units of a widened single. -/
theorem F32.val_toF64 {x : F32} (hx : code32 x < inf32) : (F32.toF64 x).val = (num32 x).units * 2 ^ 925 := by
  obtain ⟨a, b, c⟩ := F32.toF64_fin hx
  rw [F64.val_eq b, F32.num_toF64, F32.num_fin hx]
  show (Num.fin _ (_ * 2 ^ 925)).units = _
  rw [Num.units_scale]
  push_cast; rfl

theorem den_split : (2 : Int) ^ 1074 = 2 ^ 149 * 2 ^ 925 := by rw [← pow_add]

end Pywasm

namespace Pywasm
open Spec

/-! ## Truncation -/

/-- `int(x)` of the operand. -/
def toIntAt : FW → Val → Except Err Int
  | .w32, v => (F32.toF64 v.low32).toInt
  | .w64, v => F64.toInt v.low64

theorem F64.toInt_spec (y : F64) :
    (num64 y = .nan ∧ y.toInt = .error .value) ∨ (num64 y = .inf y.msb ∧ y.toInt = .error .overflow) ∨
    (code64 y < inf64 ∧ y.toInt = .ok y.trunc) := by
  unfold F64.toInt
  rcases F64.num_cases y with ⟨h1, h2, h3⟩ | ⟨h1, h2, h3⟩ | ⟨h1, h2, h, h3⟩
  · exact .inl ⟨h3, by rw [if_pos h1]⟩
  · exact .inr (.inl ⟨h3, by rw [if_neg (by rw [h1]; decide), if_pos h2]⟩)
  · exact .inr (.inr ⟨h, by rw [if_neg (by rw [h1]; decide), if_neg (by rw [h2]; decide)]; rfl⟩)

theorem toIntAt_spec (w : FW) (v : Val) :
    (numAt w v = .nan ∧ toIntAt w v = .error .value) ∨ (∃ s, numAt w v = .inf s ∧ toIntAt w v = .error .overflow) ∨
    (∃ s m k, numAt w v = .fin s m ∧ IsTrunc (one w) (numAt w v).units k ∧ toIntAt w v = .ok k) := by
  cases w with
  | w64 =>
    rcases F64.toInt_spec v.low64 with ⟨h1, h2⟩ | ⟨h1, h2⟩ | ⟨h1, h2⟩
    · exact .inl ⟨h1, h2⟩
    · exact .inr (.inl ⟨_, h1, h2⟩)
    · refine .inr (.inr ⟨_, _, _, F64.num_fin h1, ?_, h2⟩)
      have := F64.isTrunc_trunc (x := v.low64)
      rw [F64.val_eq h1] at this
      exact this
  | w32 =>
    rcases F32.num_cases v.low32 with ⟨h, h2, h3⟩ | ⟨h, h2, h3⟩ | ⟨h, h2, h4, h3⟩
    · refine .inl ⟨h3, ?_⟩
      show F64.toInt _ = _
      unfold F64.toInt
      rw [F32.toF64_isNaN, if_pos h]
    · refine .inr (.inl ⟨_, h3, ?_⟩)
      show F64.toInt _ = _
      unfold F64.toInt
      rw [F32.toF64_isNaN, F32.toF64_isInf, if_neg (by rw [h]; decide), if_pos h2]
    · refine .inr (.inr ⟨_, _, (F32.toF64 v.low32).trunc, h3, ?_, ?_⟩)
      · have := F64.isTrunc_trunc (x := F32.toF64 v.low32)
        rw [F32.val_toF64 h4, den_split] at this
        exact isTrunc_scale (by positivity) this
      · show F64.toInt _ = _
        unfold F64.toInt
        rw [F32.toF64_isNaN, F32.toF64_isInf, if_neg (by rw [h]; decide), if_neg (by rw [h2]; decide)]; rfl

theorem isFloor_unique {d u k k' : Int} (hd : 0 < d) (h : IsFloor d u k) (h' : IsFloor d u k') : k = k' := by
  obtain ⟨a, b⟩ := h
  obtain ⟨a', b'⟩ := h'
  have h1 : k < k' + 1 := Int.lt_of_mul_lt_mul_right (a := d) (by omega) hd.le
  have h2 : k' < k + 1 := Int.lt_of_mul_lt_mul_right (a := d) (by omega) hd.le
  omega
theorem isCeil_unique {d u k k' : Int} (hd : 0 < d) (h : IsCeil d u k) (h' : IsCeil d u k') : k = k' := by
  obtain ⟨a, b⟩ := h
  obtain ⟨a', b'⟩ := h'
  have h1 : k - 1 < k' := Int.lt_of_mul_lt_mul_right (a := d) (by omega) hd.le
  have h2 : k' - 1 < k := Int.lt_of_mul_lt_mul_right (a := d) (by omega) hd.le
  omega
theorem isTrunc_unique {d u k k' : Int} (hd : 0 < d) (h : IsTrunc d u k) (h' : IsTrunc d u k') : k = k' := by
  unfold IsTrunc at *
  split at h
  · rename_i hu; rw [if_pos hu] at h'; exact isFloor_unique hd h h'
  · rename_i hu; rw [if_neg hu] at h'; exact isCeil_unique hd h h'

theorem one_pos (w : FW) : 0 < one w := by cases w <;> unfold one <;> positivity

theorem fromI32_err {n : Int} (h : ¬ (-2 ^ 31 ≤ n ∧ n ≤ 2 ^ 31 - 1)) : Val.fromI32 n = .error .overflow := by
  unfold Val.fromI32 Arith.I.intoBytearray Py.toBytesS
  rw [if_neg (by intro hx; apply h; have := hx.1; have := hx.2; norm_num at *; omega)]
  rfl
theorem fromI64_err {n : Int} (h : ¬ (-2 ^ 63 ≤ n ∧ n ≤ 2 ^ 63 - 1)) : Val.fromI64 n = .error .overflow := by
  unfold Val.fromI64 Arith.I.intoBytearray Py.toBytesS
  rw [if_neg (by intro hx; apply h; have := hx.1; have := hx.2; norm_num at *; omega)]
  rfl
theorem fromU32_err {n : Int} (h : ¬ (0 ≤ n ∧ n ≤ 2 ^ 32 - 1)) : Val.fromU32 n = .error .overflow := by
  unfold Val.fromU32 Arith.U.intoBytearray Py.toBytesU
  rw [if_neg (by intro hx; apply h; have := hx.1; have := hx.2; norm_num at *; omega)]
  rfl
theorem fromU64_err {n : Int} (h : ¬ (0 ≤ n ∧ n ≤ 2 ^ 64 - 1)) : Val.fromU64 n = .error .overflow := by
  unfold Val.fromU64 Arith.U.intoBytearray Py.toBytesU
  rw [if_neg (by intro hx; apply h; have := hx.1; have := hx.2; norm_num at *; omega)]
  rfl

theorem fromU32_ofInt {n : Int} (h : 0 ≤ n ∧ n ≤ 2 ^ 32 - 1) : Val.fromU32 n = .ok (i32 (BitVec.ofInt 32 n)) := by
  obtain ⟨m, rfl⟩ := Int.eq_ofNat_of_zero_le h.1
  rw [fromU32_of_range (by omega), BitVec.ofInt_natCast]
theorem fromU64_ofInt {n : Int} (h : 0 ≤ n ∧ n ≤ 2 ^ 64 - 1) : Val.fromU64 n = .ok (i64 (BitVec.ofInt 64 n)) := by
  obtain ⟨m, rfl⟩ := Int.eq_ofNat_of_zero_le h.1
  rw [fromU64_of_range (by omega), BitVec.ofInt_natCast]

/-- What the eight trunc instructions do: `conv` and `view` write and read the integer. -/
def truncCode (w : FW) (conv : Int → Except Err Val) (view : Val → Int) (v : Val) (s : List Val) : EStateM.Result Err (List Val) Unit :=
  match toIntAt w v with
  | .error e => .error e s
  | .ok k =>
    match conv k with
    | .error e => .error e s
    | .ok c => if view c == k then .ok () (c :: s) else .error .assertion s

theorem truncCode_spec {w : FW} {conv : Int → Except Err Val} {view : Val → Int} {lo hi : Int} {mk : Int → Val}
    (hok : ∀ n, lo ≤ n ∧ n ≤ hi → conv n = .ok (mk n) ∧ view (mk n) = n)
    (herr : ∀ n, ¬ (lo ≤ n ∧ n ≤ hi) → conv n = .error .overflow) (v : Val) (s : List Val) :
    (∀ k, (∃ sg m, numAt w v = .fin sg m) → IsTrunc (one w) (numAt w v).units k → lo ≤ k → k ≤ hi →
      truncCode w conv view v s = .ok () (mk k :: s)) ∧
    ((numAt w v = .nan ∨ (∃ sg, numAt w v = .inf sg) ∨
        ∃ sg m k, numAt w v = .fin sg m ∧ IsTrunc (one w) (numAt w v).units k ∧ ¬ (lo ≤ k ∧ k ≤ hi)) →
      ∃ e, truncCode w conv view v s = .error e s ∧ (e = .value ∨ e = .overflow)) := by
  unfold truncCode
  rcases toIntAt_spec w v with ⟨h1, h2⟩ | ⟨sg, h1, h2⟩ | ⟨sg, m, k, h1, h3, h2⟩
  · rw [h2]
    exact ⟨fun k ⟨_, _, h⟩ => by (rw [h1] at h; cases h), fun _ => ⟨_, rfl, .inl rfl⟩⟩
  · rw [h2]
    exact ⟨fun k ⟨_, _, h⟩ => by (rw [h1] at h; cases h), fun _ => ⟨_, rfl, .inr rfl⟩⟩
  · rw [h2]
    constructor
    · intro k' _ hk' hlo hhi
      have := isTrunc_unique (one_pos w) h3 hk'
      subst this
      obtain ⟨e1, e2⟩ := hok k ⟨hlo, hhi⟩
      simp only [e1, e2, beq_self_eq_true, if_true]
    · rintro (h | ⟨sg', h⟩ | ⟨sg', m', k', h, hk', hr⟩)
      · rw [h1] at h; cases h
      · rw [h1] at h; cases h
      · have := isTrunc_unique (one_pos w) h3 hk'
        subst this
        simp only [herr k hr]
        exact ⟨_, rfl, .inr rfl⟩

theorem run_trunc32 (conv : Int → Except Err Val) (view : Val → Int) (v : Val) (s : List Val) :
    (do let a ← VM.popF32
        let b ← VM.lift a.toInt
        let c ← VM.lift (conv b)
        VM.lift (Py.assert (view c == b))
        VM.push c : VM Unit) (v :: s) = truncCode .w32 conv view v s := by
  rw [VM.bind_eq (VM.popF32_cons _ _)]
  unfold truncCode
  simp only [toIntAt]
  generalize (F32.toF64 v.low32).toInt = t
  cases t with
  | error e => exact VM.bind_error (VM.lift_error rfl)
  | ok k =>
    rw [VM.bind_eq (VM.lift_ok rfl)]
    simp only
    generalize conv k = u
    cases u with
    | error e => exact VM.bind_error (VM.lift_error rfl)
    | ok c =>
      rw [VM.bind_eq (VM.lift_ok rfl)]
      simp only
      by_cases h : (view c == k) = true
      · rw [h, VM.bind_eq (VM.lift_ok (a := ()) (show Py.assert true = .ok () from rfl)), if_pos rfl, VM.push_eq]
      · rw [Bool.not_eq_true] at h
        rw [h, VM.bind_error (VM.lift_error (show Py.assert false = .error .assertion from rfl)), if_neg (by decide)]
theorem run_trunc64 (conv : Int → Except Err Val) (view : Val → Int) (v : Val) (s : List Val) :
    (do let a ← VM.popF64
        let b ← VM.lift a.toInt
        let c ← VM.lift (conv b)
        VM.lift (Py.assert (view c == b))
        VM.push c : VM Unit) (v :: s) = truncCode .w64 conv view v s := by
  rw [VM.bind_eq (VM.popF64_cons _ _)]
  unfold truncCode
  simp only [toIntAt]
  generalize F64.toInt v.low64 = t
  cases t with
  | error e => exact VM.bind_error (VM.lift_error rfl)
  | ok k =>
    rw [VM.bind_eq (VM.lift_ok rfl)]
    simp only
    generalize conv k = u
    cases u with
    | error e => exact VM.bind_error (VM.lift_error rfl)
    | ok c =>
      rw [VM.bind_eq (VM.lift_ok rfl)]
      simp only
      by_cases h : (view c == k) = true
      · rw [h, VM.bind_eq (VM.lift_ok (a := ()) (show Py.assert true = .ok () from rfl)), if_pos rfl, VM.push_eq]
      · rw [Bool.not_eq_true] at h
        rw [h, VM.bind_error (VM.lift_error (show Py.assert false = .error .assertion from rfl)), if_neg (by decide)]


end Pywasm
