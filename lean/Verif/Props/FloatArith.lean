import Verif.Lemmas.FloatArSpec

/-!
# C38: integer to float conversion, promotion and demotion; C58: float arithmetic

`RoundsTo w s num den r`: `r` has sign `s` and the magnitude of format `w` nearest to `num/den` units, ties to even,
overflowing to infinity.  `AddSpec` … `SqrtSpec` give the IEEE 754 result of each operation: the exact result rounded once.
-/

set_option exponentiation.threshold 3000

namespace Pywasm.Props
open Spec

/-! ## C58: arithmetic -/

/-- What each binary instruction computes. -/
def arithOps : List (FOp × FW × (FW → Num → Num → Num → Prop)) :=
  [(.f32_add, .w32, AddSpec), (.f32_sub, .w32, SubSpec), (.f32_mul, .w32, MulSpec), (.f32_div, .w32, DivSpec),
   (.f64_add, .w64, AddSpec), (.f64_sub, .w64, SubSpec), (.f64_mul, .w64, MulSpec), (.f64_div, .w64, DivSpec)]

/-- **C58** `add`, `sub`, `mul`, `div` never trap and give the exact result rounded once, also for `f32`, which pywasm
computes in double precision and rounds twice. -/
theorem C58_arith (op : FOp) (w : FW) (spec : FW → Num → Num → Num → Prop) (h : (op, w, spec) ∈ arithOps) (b a : Val)
    (s : List Val) :
    ∃ r, evalFlt op (b :: a :: s) = .ok () (r :: s) ∧ r.ty = tyAt w ∧ spec w (numAt w a) (numAt w b) (numAt w r) := by
  simp only [arithOps, List.mem_cons, Prod.mk.injEq, List.not_mem_nil, or_false] at h
  rcases h with ⟨rfl, rfl, rfl⟩ | ⟨rfl, rfl, rfl⟩ | ⟨rfl, rfl, rfl⟩ | ⟨rfl, rfl, rfl⟩ |
    ⟨rfl, rfl, rfl⟩ | ⟨rfl, rfl, rfl⟩ | ⟨rfl, rfl, rfl⟩ | ⟨rfl, rfl, rfl⟩
  iterate 4
    · rw [evalFlt, VM.bind_eq (VM.popF32_cons _ _), VM.bind_eq (VM.popF32_cons _ _)]
      rw [VM.bind_eq (VM.lift_ok (fromF32_eq _)), VM.push_eq]
      refine ⟨_, rfl, rfl, ?_⟩
      rw [numAt_f32]
      first
        | exact add32_spec _ _
        | exact sub32_spec _ _
        | exact mul32_spec _ _
        | exact div32_spec _ _
  iterate 4
    · rw [evalFlt, VM.bind_eq (VM.popF64_cons _ _), VM.bind_eq (VM.popF64_cons _ _)]
      rw [VM.bind_eq (VM.lift_ok (fromF64_eq _)), VM.push_eq]
      refine ⟨_, rfl, rfl, ?_⟩
      rw [numAt_f64]
      first
        | exact add64_spec _ _
        | exact sub64_spec _ _
        | exact mul64_spec _ _
        | exact div64_spec _ _

/-- **C58** `sqrt`. -/
theorem C58_sqrt (a : Val) (s : List Val) :
    (∃ r, evalFlt .f32_sqrt (a :: s) = .ok () (r :: s) ∧ r.ty = .f32 ∧ SqrtSpec .w32 (numAt .w32 a) (numAt .w32 r)) ∧
    (∃ r, evalFlt .f64_sqrt (a :: s) = .ok () (r :: s) ∧ r.ty = .f64 ∧ SqrtSpec .w64 (numAt .w64 a) (numAt .w64 r)) := by
  constructor
  · rw [evalFlt, VM.bind_eq (VM.popF32_cons _ _)]
    rw [VM.bind_eq (VM.lift_ok (fromF32_eq _)), VM.push_eq]
    refine ⟨_, rfl, rfl, ?_⟩
    rw [numAt_f32]
    exact sqrt32_spec _
  · rw [evalFlt, VM.bind_eq (VM.popF64_cons _ _)]
    rw [VM.bind_eq (VM.lift_ok (fromF64_eq _)), VM.push_eq]
    refine ⟨_, rfl, rfl, ?_⟩
    rw [numAt_f64]
    exact sqrt64_spec _

/-- 0.1 + 0.2 in double, 1/3 in single, 16777216 + 1 ties to even, overflow, sqrt 2, 1 divided by -0. -/
example :
    evalFlt .f64_add [f64 0x3fc999999999999a, f64 0x3fb999999999999a] = .ok () [f64 0x3fd3333333333334] ∧
    evalFlt .f32_div [f32 0x40400000, f32 0x3f800000] = .ok () [f32 0x3eaaaaab] ∧
    evalFlt .f32_add [f32 0x3f800000, f32 0x4b800000] = .ok () [f32 0x4b800000] ∧
    evalFlt .f32_mul [f32 0x7f000000, f32 0x7f000000] = .ok () [f32 0x7f800000] ∧
    evalFlt .f64_sqrt [f64 0x4000000000000000] = .ok () [f64 0x3ff6a09e667f3bcd] ∧
    evalFlt .f32_sqrt [f32 0x40000000] = .ok () [f32 0x3fb504f3] ∧
    evalFlt .f32_div [f32 0x80000000, f32 0x3f800000] = .ok () [f32 0xff800000] := by decide +kernel

/-- The specification of a rounded result determines it. -/
theorem roundsTo_unique {w : FW} {s : Bool} {num den : Nat} (hd : 0 < den) {r r' : Num} (h : RoundsTo w s num den r)
    (h' : RoundsTo w s num den r') : r = r' := by
  obtain ⟨c, hc, rfl⟩ := h
  obtain ⟨c', hc', rfl⟩ := h'
  have : c = c' := by
    cases w
    · rw [(roundMag_nearest 23 255 num den (by decide) hd).2 c hc, (roundMag_nearest 23 255 num den (by decide) hd).2 c' hc']
    · rw [(roundMag_nearest 52 2047 num den (by decide) hd).2 c hc, (roundMag_nearest 52 2047 num den (by decide) hd).2 c' hc']
  rw [this]

/-- So does the specification of a square root. -/
theorem nearestSqrt_unique {p top n c c' : Nat} (h : NearestSqrt p top n c) (h' : NearestSqrt p top n c') : c = c' := by
  by_contra hne
  rcases Nat.lt_or_gt_of_ne hne with hl | hl
  · have a := (h.2 c' h'.1.le).1 hl
    have b := (h'.2 c h.1.le).2 hl
    rw [Nat.add_comm] at b
    have e : 4 * n = (magnitude p c + magnitude p c') ^ 2 := le_antisymm a.1 b.1
    have x := a.2 e
    have y := b.2 e.symm
    -- both even: the code between them is strictly better than one of them
    have z := (h.2 (c + 1) (by have := h'.1; omega)).1 (by omega)
    have hm : magnitude p (c + 1) < magnitude p c' := magnitude_strictMono p (by omega)
    have hq : (magnitude p c + magnitude p (c + 1)) ^ 2 < (magnitude p c + magnitude p c') ^ 2 := Nat.pow_lt_pow_left (by omega) (by decide)
    omega
  · have a := (h'.2 c h.1.le).1 hl
    have b := (h.2 c' h'.1.le).2 hl
    rw [Nat.add_comm] at b
    have e : 4 * n = (magnitude p c' + magnitude p c) ^ 2 := le_antisymm a.1 b.1
    have x := a.2 e
    have y := b.2 e.symm
    have z := (h'.2 (c' + 1) (by have := h.1; omega)).1 (by omega)
    have hm : magnitude p (c' + 1) < magnitude p c := magnitude_strictMono p (by omega)
    have hq : (magnitude p c' + magnitude p (c' + 1)) ^ 2 < (magnitude p c' + magnitude p c) ^ 2 := Nat.pow_lt_pow_left (by omega) (by decide)
    omega

/-! ## C38: integer to float -/

/-- The integer each conversion instruction reads from its operand. -/
def convOps : List (FOp × FW × (Val → Int)) :=
  [(.f32_convert_i32_s, .w32, fun v => v.low32.toInt), (.f32_convert_i32_u, .w32, fun v => v.low32.toNat),
   (.f64_convert_i32_s, .w64, fun v => v.low32.toInt), (.f64_convert_i32_u, .w64, fun v => v.low32.toNat),
   (.f64_convert_i64_s, .w64, fun v => v.low64.toInt), (.f64_convert_i64_u, .w64, fun v => v.low64.toNat)]

theorem conv64 {k : Int} (hk : k.natAbs ≤ 2 ^ 64) {t : List Val} :
    ∃ r, VM.lift (do Val.fromF64 (← F64.ofInt k)) t = .ok r t ∧ r.ty = .f64 ∧
      RoundsTo .w64 (decide (k < 0)) (k.natAbs * FW.unit .w64) 1 (numAt .w64 r) := by
  obtain ⟨y, h1, h2, h3, h4⟩ := F64.ofInt_spec hk
  refine ⟨_, VM.lift_ok (by rw [lift_bind_ok h1]; exact fromF64_eq y), rfl, ?_⟩
  rw [numAt_f64]
  exact ⟨_, h4, by rw [F64.num_of_code h3.le, h2]; rfl⟩
theorem conv32 {k : Int} (hk : k.natAbs ≤ 2 ^ 53) {t : List Val} :
    ∃ r, VM.lift (do Val.fromF32 (← F64.ofInt k)) t = .ok r t ∧ r.ty = .f32 ∧
      RoundsTo .w32 (decide (k < 0)) (k.natAbs * FW.unit .w32) 1 (numAt .w32 r) := by
  obtain ⟨y, h1, h2, h3⟩ := F32.ofInt_small hk
  refine ⟨_, VM.lift_ok (by rw [lift_bind_ok h1]; exact fromF32_eq y), rfl, ?_⟩
  rw [numAt_f32]
  exact ⟨_, h3, by rw [F32.num_of_code h3.1, h2]; rfl⟩

theorem natAbs32 (x : BitVec 32) : x.toInt.natAbs ≤ 2 ^ 53 ∧ ((x.toNat : Int)).natAbs ≤ 2 ^ 53 := by
  have h1 := x.isLt
  have h2 := BitVec.toInt_lt (x := x)
  have h3 := BitVec.le_toInt (x := x)
  omega
theorem natAbs64 (x : BitVec 64) : x.toInt.natAbs ≤ 2 ^ 64 ∧ ((x.toNat : Int)).natAbs ≤ 2 ^ 64 := by
  have h1 := x.isLt
  have h2 := BitVec.toInt_lt (x := x)
  have h3 := BitVec.le_toInt (x := x)
  omega

/-- **C38** All conversions to `f64`, and those from `i32` to `f32`, give the float nearest to the integer. Missing:
`f32.convert_i64_*`, below. -/
theorem C38_convert_partial (op : FOp) (w : FW) (view : Val → Int) (h : (op, w, view) ∈ convOps) (v : Val) (s : List Val) :
    ∃ r, evalFlt op (v :: s) = .ok () (r :: s) ∧ r.ty = tyAt w ∧
      RoundsTo w (decide (view v < 0)) ((view v).natAbs * w.unit) 1 (numAt w r) := by
  simp only [convOps, List.mem_cons, Prod.mk.injEq, List.not_mem_nil, or_false] at h
  have a := natAbs32 v.low32
  have b := natAbs64 v.low64
  rcases h with ⟨rfl, rfl, rfl⟩ | ⟨rfl, rfl, rfl⟩ | ⟨rfl, rfl, rfl⟩ | ⟨rfl, rfl, rfl⟩ | ⟨rfl, rfl, rfl⟩ | ⟨rfl, rfl, rfl⟩
  · obtain ⟨r, h1, h2⟩ := conv32 a.1 (t := s)
    exact ⟨r, by rw [evalFlt, VM.bind_eq (VM.popI32_cons _ _), VM.bind_eq h1, VM.push_eq], h2⟩
  · obtain ⟨r, h1, h2⟩ := conv32 a.2 (t := s)
    exact ⟨r, by rw [evalFlt, VM.bind_eq (VM.popU32_cons _ _), VM.bind_eq h1, VM.push_eq], h2⟩
  · obtain ⟨r, h1, h2⟩ := conv64 (le_trans a.1 (by decide)) (t := s)
    exact ⟨r, by rw [evalFlt, VM.bind_eq (VM.popI32_cons _ _), VM.bind_eq h1, VM.push_eq], h2⟩
  · obtain ⟨r, h1, h2⟩ := conv64 (le_trans a.2 (by decide)) (t := s)
    exact ⟨r, by rw [evalFlt, VM.bind_eq (VM.popU32_cons _ _), VM.bind_eq h1, VM.push_eq], h2⟩
  · obtain ⟨r, h1, h2⟩ := conv64 b.1 (t := s)
    exact ⟨r, by rw [evalFlt, VM.bind_eq (VM.popI64_cons _ _), VM.bind_eq h1, VM.push_eq], h2⟩
  · obtain ⟨r, h1, h2⟩ := conv64 b.2 (t := s)
    exact ⟨r, by rw [evalFlt, VM.bind_eq (VM.popU64_cons _ _), VM.bind_eq h1, VM.push_eq], h2⟩

/-- -1; 2^53 + 1 ties to even; 2^24 + 1 ties to even in single. -/
example : evalFlt .f32_convert_i32_s [i32 0xffffffff] = .ok () [f32 0xbf800000] ∧
    evalFlt .f64_convert_i64_s [i64 0x20000000000001] = .ok () [f64 0x4340000000000000] ∧
    evalFlt .f32_convert_i32_u [i32 16777217] = .ok () [f32 0x4b800000] := by decide +kernel

theorem conv32' {k : Int} (hk : k.natAbs ≤ 2 ^ 64) {t : List Val} :
    ∃ r, VM.lift (do Val.fromF32 (← F64.ofInt k)) t = .ok r t ∧ r.ty = .f32 ∧
      (∃ d, Nearest 52 inf64 (k.natAbs * 2 ^ 1074) 1 d ∧ RoundsTo .w32 (decide (k < 0)) (magnitude 52 d) (2 ^ 925) (numAt .w32 r)) ∧
      (k.natAbs ≤ 2 ^ 53 → RoundsTo .w32 (decide (k < 0)) (k.natAbs * FW.unit .w32) 1 (numAt .w32 r)) := by
  obtain ⟨y, h1, h2, h3, h4⟩ := F64.ofInt_spec hk
  have he : (do Val.fromF32 (← F64.ofInt k)) = .ok (f32 (F32.ofF64 y)) := by rw [lift_bind_ok h1]; exact fromF32_eq y
  refine ⟨_, VM.lift_ok he, rfl, ⟨code64 y, h4, ?_⟩, fun hs => ?_⟩
  · obtain ⟨k1, _, k3⟩ := F32.ofF64_spec h3
    rw [numAt_f32]
    exact ⟨_, k3, by rw [F32.num_of_code k3.1, k1, h2]; rfl⟩
  · obtain ⟨r, g1, _, g3⟩ := conv32 hs (t := t)
    rw [VM.lift_ok he] at g1
    injection g1 with g1
    rw [g1]; exact g3

/-- **C38** for `f32.convert_i64_s` and `f32.convert_i64_u`: the result is the single nearest to the double nearest to the
integer, hence the nearest single when the integer has at most 53 bits.  Missing: larger integers, for which rounding
twice may differ from rounding once (`C38_rounds_twice`). -/
theorem C38_convert_i64_partial (v : Val) (s : List Val) :
    (∃ r, evalFlt .f32_convert_i64_s (v :: s) = .ok () (r :: s) ∧ r.ty = .f32 ∧
      (∃ d, Nearest 52 inf64 (v.low64.toInt.natAbs * 2 ^ 1074) 1 d ∧
        RoundsTo .w32 (decide (v.low64.toInt < 0)) (magnitude 52 d) (2 ^ 925) (numAt .w32 r)) ∧
      (v.low64.toInt.natAbs ≤ 2 ^ 53 → RoundsTo .w32 (decide (v.low64.toInt < 0)) (v.low64.toInt.natAbs * FW.unit .w32) 1 (numAt .w32 r))) ∧
    (∃ r, evalFlt .f32_convert_i64_u (v :: s) = .ok () (r :: s) ∧ r.ty = .f32 ∧
      (∃ d, Nearest 52 inf64 (v.low64.toNat * 2 ^ 1074) 1 d ∧ RoundsTo .w32 false (magnitude 52 d) (2 ^ 925) (numAt .w32 r)) ∧
      (v.low64.toNat ≤ 2 ^ 53 → RoundsTo .w32 false (v.low64.toNat * FW.unit .w32) 1 (numAt .w32 r))) := by
  have b := natAbs64 v.low64
  constructor
  · obtain ⟨r, h1, h2⟩ := conv32' b.1 (t := s)
    exact ⟨r, by rw [evalFlt, VM.bind_eq (VM.popI64_cons _ _), VM.bind_eq h1, VM.push_eq], h2⟩
  · obtain ⟨r, h1, h2⟩ := conv32' b.2 (t := s)
    rw [Int.natAbs_natCast, decide_eq_false (by omega)] at h2
    exact ⟨r, by rw [evalFlt, VM.bind_eq (VM.popU64_cons _ _), VM.bind_eq h1, VM.push_eq], h2⟩

/-- The full C38 is false: `f32.convert_i64_s` of `2^60 + 2^36 + 1` gives `2^60`, which is farther from it than
`2^60 + 2^37`: the specification does not hold of the result. -/
theorem C38_rounds_twice :
    evalFlt .f32_convert_i64_s [i64 0x1000001000000001] = .ok () [f32 0x5d800000] ∧
    ¬ RoundsTo .w32 false (0x1000001000000001 * FW.unit .w32) 1 (numAt .w32 (f32 0x5d800000)) := by
  constructor
  · decide +kernel
  · rintro ⟨c, hc, he⟩
    rw [numAt_f32, F32.num_fin (show code32 (0x5d800000 : BitVec 32) < inf32 by decide)] at he
    have hne : c ≠ FW.top .w32 := by
      intro h; rw [if_pos h] at he; cases he
    rw [if_neg hne] at he
    injection he with _ he
    have hcc : c = code32 (0x5d800000 : BitVec 32) := magnitude_inj he.symm
    have h2 := (hc.2 0x5d800001 (by decide)).1
    rw [hcc] at h2
    revert h2
    decide +kernel

/-! ## Promotion and demotion -/

/-- **C38** `f64.promote_f32` is exact (one f32 unit is `2^925` f64 units); `f32.demote_f64` rounds once. -/
theorem C38_promote_demote (v : Val) (s : List Val) :
    (∃ r, evalFlt .f64_promote_f32 (v :: s) = .ok () (r :: s) ∧ r.ty = .f64 ∧
      match numAt .w32 v with
      | .nan => numAt .w64 r = .nan
      | .inf sg => numAt .w64 r = .inf sg
      | .fin sg m => numAt .w64 r = .fin sg (m * 2 ^ 925)) ∧
    (∃ r, evalFlt .f32_demote_f64 (v :: s) = .ok () (r :: s) ∧ r.ty = .f32 ∧
      match numAt .w64 v with
      | .nan => numAt .w32 r = .nan
      | .inf sg => numAt .w32 r = .inf sg
      | .fin sg m => RoundsTo .w32 sg m (2 ^ 925) (numAt .w32 r)) := by
  constructor
  · rw [evalFlt, VM.bind_eq (VM.popF32_cons _ _), VM.bind_eq (VM.lift_ok (fromF64_eq _)), VM.push_eq]
    refine ⟨_, rfl, rfl, ?_⟩
    rw [numAt_f64, F32.num_toF64]
    show match num32 v.low32 with | .nan => _ | .inf sg => _ | .fin sg m => _
    cases num32 v.low32 <;> rfl
  · rw [evalFlt, VM.bind_eq (VM.popF64_cons _ _), VM.bind_eq (VM.lift_ok (fromF32_eq _)), VM.push_eq]
    refine ⟨_, rfl, rfl, ?_⟩
    rw [numAt_f32]
    show match num64 v.low64 with | .nan => _ | .inf sg => _ | .fin sg m => _
    rcases F64.num_cases v.low64 with ⟨h1, _, h3⟩ | ⟨_, h2, h3⟩ | ⟨_, _, h4, h3⟩
    · rw [h3]; exact num32_ofF64_nan h1
    · rw [h3]; exact num32_ofF64_inf h2
    · rw [h3]
      obtain ⟨k1, _, k3⟩ := F32.ofF64_spec h4
      refine ⟨_, ?_, by rw [F32.num_of_code k3.1, k1]; rfl⟩
      rw [F64.mag_eq]; exact k3

example : evalFlt .f32_demote_f64 [f64 0x3fb999999999999a] = .ok () [f32 0x3dcccccd] ∧
    evalFlt .f64_promote_f32 [f32 0x3dcccccd] = .ok () [f64 0x3fb99999a0000000] := by decide +kernel

/-! ## The hypotheses are met -/

example := C58_arith .f32_div .w32 DivSpec (by simp [arithOps]) (f32 0x40400000) (f32 0x3f800000) []
example := C38_convert_partial .f32_convert_i32_s .w32 _ (List.mem_cons_self ..) (i32 16777217) []

end Pywasm.Props
