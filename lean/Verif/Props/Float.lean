import Verif.Lemmas.FloatSign

/-!
# C34 – C38, C57, reinterpretation (C08): scalar float instructions

`numAt w v` is the number held by the cell `v` read in format `w` (f32 or f64), in units of the smallest positive number
of the format; `one w` units make 1.  Operand cells are arbitrary: their upper bytes may be anything.
-/

set_option exponentiation.threshold 3000

namespace Pywasm.Props
open Spec

/-! ## C34: sign-bit operations -/

/-- **C34** `f32.abs` and `f32.neg` keep every bit of the operand but the sign, for all patterns including NaNs. -/
theorem C34_f32_abs_neg (a : Val) (s : List Val) :
    (∃ r, evalFlt .f32_abs (a :: s) = .ok () (r :: s) ∧ r.ty = .f32 ∧ code32 r.low32 = code32 a.low32 ∧ r.low32.msb = false) ∧
    (∃ r, evalFlt .f32_neg (a :: s) = .ok () (r :: s) ∧ r.ty = .f32 ∧ code32 r.low32 = code32 a.low32 ∧
      r.low32.msb = !a.low32.msb) := by
  constructor
  · rw [evalFlt, VM.bind_eq (VM.pop_cons _ _), VM.push_eq]
    have hb : (({ a with ty := .f32 } : Val).byte 3 &&& 0x7f).toNat % 128 = (({ a with ty := .f32 } : Val).byte 3).toNat % 128 := by
      rw [u8_and]; omega
    obtain ⟨h1, h2, _, h4, _⟩ := setByte3 { a with ty := .f32 } _ hb
    refine ⟨_, rfl, h4, h1, ?_⟩
    rw [h2, u8_and, decide_eq_false_iff_not]; omega
  · rw [evalFlt, VM.bind_eq (VM.pop_cons _ _), VM.push_eq]
    have hb : (({ a with ty := .f32 } : Val).byte 3 ^^^ 0x80).toNat % 128 = (({ a with ty := .f32 } : Val).byte 3).toNat % 128 := by
      rw [u8_xor]; omega
    obtain ⟨h1, h2, h3, h4, _⟩ := setByte3 { a with ty := .f32 } _ hb
    refine ⟨_, rfl, h4, h1, ?_⟩
    have h3' : a.low32.msb = decide (128 ≤ (({ a with ty := .f32 } : Val).byte 3).toNat) := h3
    have := (({ a with ty := .f32 } : Val).byte 3).toNat_lt
    rw [h2, h3', u8_xor, ← decide_not, decide_eq_decide]; omega

/-- **C34** for `f64.abs` and `f64.neg`. -/
theorem C34_f64_abs_neg (a : Val) (s : List Val) :
    (∃ r, evalFlt .f64_abs (a :: s) = .ok () (r :: s) ∧ r.ty = .f64 ∧ code64 r.low64 = code64 a.low64 ∧ r.low64.msb = false) ∧
    (∃ r, evalFlt .f64_neg (a :: s) = .ok () (r :: s) ∧ r.ty = .f64 ∧ code64 r.low64 = code64 a.low64 ∧
      r.low64.msb = !a.low64.msb) := by
  constructor
  · rw [evalFlt, VM.bind_eq (VM.pop_cons _ _), VM.push_eq]
    have hb : (({ a with ty := .f64 } : Val).byte 7 &&& 0x7f).toNat % 128 = (({ a with ty := .f64 } : Val).byte 7).toNat % 128 := by
      rw [u8_and]; omega
    obtain ⟨h1, h2, _, h4, _⟩ := setByte7 { a with ty := .f64 } _ hb
    refine ⟨_, rfl, h4, h1, ?_⟩
    rw [h2, u8_and, decide_eq_false_iff_not]; omega
  · rw [evalFlt, VM.bind_eq (VM.pop_cons _ _), VM.push_eq]
    have hb : (({ a with ty := .f64 } : Val).byte 7 ^^^ 0x80).toNat % 128 = (({ a with ty := .f64 } : Val).byte 7).toNat % 128 := by
      rw [u8_xor]; omega
    obtain ⟨h1, h2, h3, h4, _⟩ := setByte7 { a with ty := .f64 } _ hb
    refine ⟨_, rfl, h4, h1, ?_⟩
    have h3' : a.low64.msb = decide (128 ≤ (({ a with ty := .f64 } : Val).byte 7).toNat) := h3
    have := (({ a with ty := .f64 } : Val).byte 7).toNat_lt
    rw [h2, h3', u8_xor, ← decide_not, decide_eq_decide]; omega

/-- A signalling NaN with a payload keeps it. -/
example : evalFlt .f32_neg [f32 0x7fa12345] = .ok () [f32 0xffa12345] := by decide
example : evalFlt .f64_abs [f64 0x8000000000000000] = .ok () [f64 0] := by decide

/-- **C34** `f64.copysign` takes the sign of the second operand and every other bit of the first. -/
theorem C34_f64_copysign (b a : Val) (s : List Val) :
    ∃ r, evalFlt .f64_copysign (b :: a :: s) = .ok () (f64 r :: s) ∧ code64 r = code64 a.low64 ∧ r.msb = b.low64.msb := by
  rw [evalFlt, VM.bind_eq (VM.popF64_cons _ _), VM.bind_eq (VM.popF64_cons _ _), VM.bind_eq (VM.lift_ok (fromF64_eq _)), VM.push_eq]
  refine ⟨_, rfl, ?_, ?_⟩
  · exact F64.ofMag_code (F64.code_lt a.low64)
  · exact (F64.ofMag_msb (F64.code_lt a.low64)).trans (F64.sign_eq _)

/-- **C34** `f32.copysign` does the same, except on a signalling NaN (quiet bit clear), see below. -/
theorem C34_f32_copysign_partial (b a : Val) (s : List Val) (h : ¬ sNaN32 a.low32) :
    ∃ r, evalFlt .f32_copysign (b :: a :: s) = .ok () (f32 r :: s) ∧ code32 r = code32 a.low32 ∧ r.msb = b.low32.msb := by
  rw [evalFlt, VM.bind_eq (VM.popF32_cons _ _), VM.bind_eq (VM.popF32_cons _ _), VM.bind_eq (VM.lift_ok (fromF32_eq _)), VM.push_eq]
  refine ⟨_, rfl, ?_, ?_⟩
  · have e : ∀ y s', code32 (F32.ofF64 (F64.ofMag s' (code64 y))) = code32 (F32.ofF64 y) := by
      intro y s'
      have hc := F64.ofMag_code (s := s') (F64.code_lt y)
      rcases F64.num_cases y with ⟨h1, h2, h3⟩ | ⟨h1, h2, h3⟩ | ⟨h1, h2, h4, h3⟩
      · rw [(F32.ofF64_nan (x := F64.ofMag s' (code64 y)) ((F64.isNaN_iff _).mpr (by rw [hc]; exact (F64.isNaN_iff y).mp h1))).2,
          (F32.ofF64_nan h1).2, hc]
      · rw [(F32.ofF64_inf (x := F64.ofMag s' (code64 y)) ((F64.isInf_iff _).mpr (by rw [hc]; exact (F64.isInf_iff y).mp h2))).2,
          (F32.ofF64_inf h2).2]
      · rw [(F32.ofF64_spec (x := F64.ofMag s' (code64 y)) (by rw [hc]; exact h4)).2.1, (F32.ofF64_spec h4).2.1, hc]
    have := e (F32.toF64 a.low32) (F64.sign (F32.toF64 b.low32))
    rw [F32.ofF64_toF64 h] at this
    exact this
  · rw [F32.ofF64_msb, ← F32.toF64_msb b.low32]
    exact (F64.ofMag_msb (F64.code_lt (F32.toF64 a.low32))).trans (F64.sign_eq _)

example : evalFlt .f32_copysign [f32 0x80000000, f32 0x7fc12345] = .ok () [f32 0xffc12345] := by decide +kernel

/-- The restriction is needed: `f32.copysign` of a signalling NaN sets the quiet bit, so the full C34 is false. -/
theorem C34_copysign_quiets :
    ¬ ∀ (b a : Val) (s : List Val), ∃ r, evalFlt .f32_copysign (b :: a :: s) = .ok () (f32 r :: s) ∧
      code32 r = code32 a.low32 := by
  intro h
  obtain ⟨r, h1, h2⟩ := h (f32 0) (f32 0x7fa00000) []
  have e : evalFlt .f32_copysign [f32 0, f32 0x7fa00000] = .ok () [f32 0x7fe00000] := by decide +kernel
  rw [e] at h1
  injection h1 with _ h1
  injection h1 with h1 _
  have := congrArg Val.low32 h1
  rw [low32_f32, low32_f32] at this
  subst this
  rw [low32_f32] at h2
  revert h2; decide

/-- **C34**, **C08** Reinterpretation keeps the bits. -/
theorem C08_reinterpret (a : Val) (s : List Val) :
    (∃ r, evalFlt .i32_reinterpret_f32 (a :: s) = .ok () (r :: s) ∧ r.ty = .i32 ∧ r.low32 = a.low32) ∧
    (∃ r, evalFlt .f32_reinterpret_i32 (a :: s) = .ok () (r :: s) ∧ r.ty = .f32 ∧ r.low32 = a.low32) ∧
    (∃ r, evalFlt .i64_reinterpret_f64 (a :: s) = .ok () (r :: s) ∧ r.ty = .i64 ∧ r.low64 = a.low64) ∧
    (∃ r, evalFlt .f64_reinterpret_i64 (a :: s) = .ok () (r :: s) ∧ r.ty = .f64 ∧ r.low64 = a.low64) := by
  refine ⟨?_, ?_, ?_, ?_⟩ <;> (rw [evalFlt, VM.bind_eq (VM.pop_cons _ _), VM.push_eq]; exact ⟨_, rfl, rfl, rfl⟩)

example : evalFlt .f32_reinterpret_i32 [i32 0x7fa00001] = .ok () [f32 0x7fa00001] := by decide

/-! ## C57: comparisons -/

/-- Which comparison each instruction makes (`less`, `equal` of the specification; `le` is `less` or `equal`). -/
def cmpOps : List (FOp × FW × (Num → Num → Bool)) :=
  [(.f32_eq, .w32, fun x y => x.equal y), (.f32_ne, .w32, fun x y => !x.equal y), (.f32_lt, .w32, fun x y => x.less y),
   (.f32_gt, .w32, fun x y => y.less x), (.f32_le, .w32, fun x y => x.less y || x.equal y),
   (.f32_ge, .w32, fun x y => y.less x || y.equal x),
   (.f64_eq, .w64, fun x y => x.equal y), (.f64_ne, .w64, fun x y => !x.equal y), (.f64_lt, .w64, fun x y => x.less y),
   (.f64_gt, .w64, fun x y => y.less x), (.f64_le, .w64, fun x y => x.less y || x.equal y),
   (.f64_ge, .w64, fun x y => y.less x || y.equal x)]

/-- **C57** Float comparisons are those of the numbers: any comparison with NaN but `ne` is false, the two zeros are
equal, infinities are at the ends, everything else compares exactly (the `f32` instructions too, although they compare
doubles). -/
theorem C57_compare (op : FOp) (w : FW) (f : Num → Num → Bool) (h : (op, w, f) ∈ cmpOps) (b a : Val) (s : List Val) :
    evalFlt op (b :: a :: s) = .ok () (bool (f (numAt w a) (numAt w b)) :: s) := by
  simp only [cmpOps, List.mem_cons, Prod.mk.injEq, List.not_mem_nil, or_false] at h
  rcases h with ⟨rfl, rfl, rfl⟩ | ⟨rfl, rfl, rfl⟩ | ⟨rfl, rfl, rfl⟩ | ⟨rfl, rfl, rfl⟩ | ⟨rfl, rfl, rfl⟩ | ⟨rfl, rfl, rfl⟩ |
    ⟨rfl, rfl, rfl⟩ | ⟨rfl, rfl, rfl⟩ | ⟨rfl, rfl, rfl⟩ | ⟨rfl, rfl, rfl⟩ | ⟨rfl, rfl, rfl⟩ | ⟨rfl, rfl, rfl⟩
  iterate 6
    · rw [evalFlt, VM.bind_eq (VM.popF32_cons _ _), VM.bind_eq (VM.popF32_cons _ _), VM.bind_eq (VM.lift_ok (fromI32_bool _)), VM.push_eq]
      first
        | rw [F32.eq_toF64]; rfl
        | rw [F32.lt_toF64]; rfl
        | rw [F64.le, F32.eq_toF64, F32.lt_toF64]; rfl
  iterate 6
    · rw [evalFlt, VM.bind_eq (VM.popF64_cons _ _), VM.bind_eq (VM.popF64_cons _ _), VM.bind_eq (VM.lift_ok (fromI32_bool _)), VM.push_eq]
      first
        | rw [F64.eq_eq]; rfl
        | rw [F64.lt_eq]; rfl
        | rw [F64.le, F64.eq_eq, F64.lt_eq]; rfl

/-- `-0 = +0`, a NaN differs from itself, `-inf < 1e-45`. -/
example : evalFlt .f32_eq [f32 0, f32 0x80000000] = .ok () [bool true] ∧
    evalFlt .f64_ne [f64 0x7ff8000000000000, f64 0x7ff8000000000000] = .ok () [bool true] ∧
    evalFlt .f32_lt [f32 1, f32 0xff800000] = .ok () [bool true] := by decide +kernel

/-! ## C35: min and max -/

/-- **C35** except on two zeros: NaN if either operand is NaN; otherwise one of the operands, bit for bit, and no operand
is smaller (larger, for `max`).  Missing: with two zeros of different sign the code returns the first operand, whatever
its sign. -/
theorem C35_f64_min_max_partial (b a : Val) (s : List Val) :
    ∃ mn mx, evalFlt .f64_min (b :: a :: s) = .ok () (f64 mn :: s) ∧ evalFlt .f64_max (b :: a :: s) = .ok () (f64 mx :: s) ∧
      (num64 a.low64 = .nan ∨ num64 b.low64 = .nan → num64 mn = .nan ∧ num64 mx = .nan) ∧
      (num64 a.low64 ≠ .nan → num64 b.low64 ≠ .nan →
        (mn = a.low64 ∨ mn = b.low64) ∧ (num64 a.low64).less (num64 mn) = false ∧ (num64 b.low64).less (num64 mn) = false ∧
        (mx = a.low64 ∨ mx = b.low64) ∧ (num64 mx).less (num64 a.low64) = false ∧ (num64 mx).less (num64 b.low64) = false) := by
  rw [evalFlt, evalFlt, VM.bind_eq (VM.popF64_cons _ _), VM.bind_eq (VM.popF64_cons _ _), VM.bind_eq (VM.popF64_cons _ _),
    VM.bind_eq (VM.popF64_cons _ _), VM.bind_eq (VM.lift_ok (fromF64_eq _)), VM.push_eq,
    VM.bind_eq (VM.lift_ok (fromF64_eq _)), VM.push_eq]
  refine ⟨_, _, rfl, rfl, ?_, ?_⟩
  · intro h
    have := min64_nan (a := a.low64) (b := b.low64) (h.imp (fun h => ?_) (fun h => ?_))
    · exact ⟨F64.num_nan this.1, F64.num_nan this.2⟩
    · rcases F64.num_cases a.low64 with ⟨c, _, _⟩ | ⟨_, _, c⟩ | ⟨_, _, _, c⟩
      · exact c
      · rw [h] at c; cases c
      · rw [h] at c; cases c
    · rcases F64.num_cases b.low64 with ⟨c, _, _⟩ | ⟨_, _, c⟩ | ⟨_, _, _, c⟩
      · exact c
      · rw [h] at c; cases c
      · rw [h] at c; cases c
  · intro ha hb
    have ha' : F64.isNaN a.low64 = false := by
      rw [← Bool.not_eq_true]; exact fun h => ha (F64.num_nan h)
    have hb' : F64.isNaN b.low64 = false := by
      rw [← Bool.not_eq_true]; exact fun h => hb (F64.num_nan h)
    obtain ⟨e1, e2⟩ := min64_num ha' hb'
    rw [e1, e2]
    refine ⟨?_, ?_, ?_, ?_, ?_, ?_⟩
    · split
      · exact .inr rfl
      · exact .inl rfl
    · split
      · rename_i h; exact Num.less_asymm h
      · exact Num.less_irrefl _
    · split
      · exact Num.less_irrefl _
      · rename_i h; rw [Bool.not_eq_true] at h; exact h
    · split
      · exact .inr rfl
      · exact .inl rfl
    · split
      · rename_i h; exact Num.less_asymm h
      · exact Num.less_irrefl _
    · split
      · exact Num.less_irrefl _
      · rename_i h; rw [Bool.not_eq_true] at h; exact h

/-- **C35** for `f32`, same exception. -/
theorem C35_f32_min_max_partial (b a : Val) (s : List Val) :
    ∃ mn mx, evalFlt .f32_min (b :: a :: s) = .ok () (f32 mn :: s) ∧ evalFlt .f32_max (b :: a :: s) = .ok () (f32 mx :: s) ∧
      (num32 a.low32 = .nan ∨ num32 b.low32 = .nan → num32 mn = .nan ∧ num32 mx = .nan) ∧
      (num32 a.low32 ≠ .nan → num32 b.low32 ≠ .nan →
        (mn = a.low32 ∨ mn = b.low32) ∧ (num32 a.low32).less (num32 mn) = false ∧ (num32 b.low32).less (num32 mn) = false ∧
        (mx = a.low32 ∨ mx = b.low32) ∧ (num32 mx).less (num32 a.low32) = false ∧ (num32 mx).less (num32 b.low32) = false) := by
  rw [evalFlt, evalFlt, VM.bind_eq (VM.popF32_cons _ _), VM.bind_eq (VM.popF32_cons _ _), VM.bind_eq (VM.popF32_cons _ _),
    VM.bind_eq (VM.popF32_cons _ _), VM.bind_eq (VM.lift_ok (fromF32_eq _)), VM.push_eq,
    VM.bind_eq (VM.lift_ok (fromF32_eq _)), VM.push_eq]
  refine ⟨_, _, rfl, rfl, ?_, ?_⟩
  · intro h
    have := min64_nan (a := F32.toF64 a.low32) (b := F32.toF64 b.low32) (h.imp (fun h => ?_) (fun h => ?_))
    · unfold Arith.F32.min Arith.F32.max Arith.F32.fit
      rw [F32.ofF64_idem, F32.ofF64_idem]
      exact ⟨num32_ofF64_nan this.1, num32_ofF64_nan this.2⟩
    · rw [F32.toF64_isNaN]
      rcases F32.num_cases a.low32 with ⟨c, _, _⟩ | ⟨_, _, c⟩ | ⟨_, _, _, c⟩
      · exact c
      · rw [h] at c; cases c
      · rw [h] at c; cases c
    · rw [F32.toF64_isNaN]
      rcases F32.num_cases b.low32 with ⟨c, _, _⟩ | ⟨_, _, c⟩ | ⟨_, _, _, c⟩
      · exact c
      · rw [h] at c; cases c
      · rw [h] at c; cases c
  · intro ha hb
    have ha' : F32.isNaN a.low32 = false := by
      rw [← Bool.not_eq_true]; exact fun h => ha (F32.num_nan h)
    have hb' : F32.isNaN b.low32 = false := by
      rw [← Bool.not_eq_true]; exact fun h => hb (F32.num_nan h)
    have hsa : ¬ sNaN32 a.low32 := fun h => by
      rw [F32.isNaN_false_iff] at ha'; have := h.1; omega
    have hsb : ¬ sNaN32 b.low32 := fun h => by
      rw [F32.isNaN_false_iff] at hb'; have := h.1; omega
    obtain ⟨e1, e2⟩ := min64_num (a := F32.toF64 a.low32) (b := F32.toF64 b.low32) (by rw [F32.toF64_isNaN, ha'])
      (by rw [F32.toF64_isNaN, hb'])
    rw [F32.num_toF64, F32.num_toF64, Num.less_scale (Nat.two_pow_pos 925)] at e1 e2
    have k1 : F32.ofF64 (Arith.F32.min (F32.toF64 a.low32) (F32.toF64 b.low32)) =
        if (num32 b.low32).less (num32 a.low32) then b.low32 else a.low32 := by
      unfold Arith.F32.min Arith.F32.fit
      rw [F32.ofF64_idem, e1]
      split
      · exact F32.ofF64_toF64 hsb
      · exact F32.ofF64_toF64 hsa
    have k2 : F32.ofF64 (Arith.F32.max (F32.toF64 a.low32) (F32.toF64 b.low32)) =
        if (num32 a.low32).less (num32 b.low32) then b.low32 else a.low32 := by
      unfold Arith.F32.max Arith.F32.fit
      rw [F32.ofF64_idem, e2]
      split
      · exact F32.ofF64_toF64 hsb
      · exact F32.ofF64_toF64 hsa
    rw [k1, k2]
    refine ⟨?_, ?_, ?_, ?_, ?_, ?_⟩
    · split
      · exact .inr rfl
      · exact .inl rfl
    · split
      · rename_i h; exact Num.less_asymm h
      · exact Num.less_irrefl _
    · split
      · exact Num.less_irrefl _
      · rename_i h; rw [Bool.not_eq_true] at h; exact h
    · split
      · exact .inr rfl
      · exact .inl rfl
    · split
      · rename_i h; exact Num.less_asymm h
      · exact Num.less_irrefl _
    · split
      · exact Num.less_irrefl _
      · rename_i h; rw [Bool.not_eq_true] at h; exact h

example : evalFlt .f32_min [f32 0x40000000, f32 0xbf800000] = .ok () [f32 0xbf800000] := by decide +kernel
example : evalFlt .f64_max [f64 0x7ff8000000000001, f64 0] = .ok () [f64 0x7ff8000000000001] := by decide +kernel

/-- The full C35 is false: `min(+0, -0)` is `+0` and `max(-0, +0)` is `-0`, in both formats. -/
theorem C35_zeros_wrong :
    evalFlt .f64_min [f64 0x8000000000000000, f64 0] = .ok () [f64 0] ∧
    evalFlt .f64_max [f64 0, f64 0x8000000000000000] = .ok () [f64 0x8000000000000000] ∧
    evalFlt .f32_min [f32 0x80000000, f32 0] = .ok () [f32 0] ∧
    evalFlt .f32_max [f32 0, f32 0x80000000] = .ok () [f32 0x80000000] := by decide +kernel

/-! ## C36: rounding to an integral float -/

def roundOps : List (FOp × FW × (Int → Int → Int → Prop)) :=
  [(.f32_ceil, .w32, IsCeil), (.f32_floor, .w32, IsFloor), (.f32_trunc, .w32, IsTrunc), (.f32_nearest, .w32, IsRound),
   (.f64_ceil, .w64, IsCeil), (.f64_floor, .w64, IsFloor), (.f64_trunc, .w64, IsTrunc), (.f64_nearest, .w64, IsRound)]

/-- **C36** but for the sign of zero results: NaN stays NaN, an infinity is kept, and a finite operand gives exactly the
integer the specification asks for, with the operand's sign when it is not zero.  Missing: a zero result is always `+0`. -/
theorem C36_rounding_partial (op : FOp) (w : FW) (rel : Int → Int → Int → Prop) (h : (op, w, rel) ∈ roundOps) (v : Val)
    (s : List Val) :
    ∃ r, evalFlt op (v :: s) = .ok () (r :: s) ∧ r.ty = tyAt w ∧
      (numAt w v = .nan → numAt w r = .nan) ∧
      (∀ sg, numAt w v = .inf sg → numAt w r = .inf sg) ∧
      (∀ sg m, numAt w v = .fin sg m → ∃ k, rel (one w) (numAt w v).units k ∧
        numAt w r = .fin (if k = 0 then false else sg) (k.natAbs * (one w).toNat)) := by
  simp only [roundOps, List.mem_cons, Prod.mk.injEq, List.not_mem_nil, or_false] at h
  rcases h with ⟨rfl, rfl, rfl⟩ | ⟨rfl, rfl, rfl⟩ | ⟨rfl, rfl, rfl⟩ | ⟨rfl, rfl, rfl⟩ |
    ⟨rfl, rfl, rfl⟩ | ⟨rfl, rfl, rfl⟩ | ⟨rfl, rfl, rfl⟩ | ⟨rfl, rfl, rfl⟩
  · exact rndCode_spec .w32 F64.ceil _ (fun _ => F64.isCeil_ceil) (fun _ _ _ _ he => isCeil_scale he) (fun _ _ _ _ => isCeil_near) v s
  · exact rndCode_spec .w32 F64.floor _ (fun _ => F64.isFloor_floor) (fun _ _ _ _ he => isFloor_scale he) (fun _ _ _ _ => isFloor_near) v s
  · exact rndCode_spec .w32 F64.trunc _ (fun _ => F64.isTrunc_trunc) (fun _ _ _ _ he => isTrunc_scale he) (fun _ _ _ _ => isTrunc_near) v s
  · exact rndCode_spec .w32 F64.roundEven _ (fun _ => F64.isRound_round) (fun _ _ _ _ he => isRound_scale he) (fun _ _ _ hd => isRound_near hd) v s
  · exact rndCode_spec .w64 F64.ceil _ (fun _ => F64.isCeil_ceil) (fun _ _ _ _ he => isCeil_scale he) (fun _ _ _ _ => isCeil_near) v s
  · exact rndCode_spec .w64 F64.floor _ (fun _ => F64.isFloor_floor) (fun _ _ _ _ he => isFloor_scale he) (fun _ _ _ _ => isFloor_near) v s
  · exact rndCode_spec .w64 F64.trunc _ (fun _ => F64.isTrunc_trunc) (fun _ _ _ _ he => isTrunc_scale he) (fun _ _ _ _ => isTrunc_near) v s
  · exact rndCode_spec .w64 F64.roundEven _ (fun _ => F64.isRound_round) (fun _ _ _ _ he => isRound_scale he) (fun _ _ _ hd => isRound_near hd) v s

/-- nearest(2.5) = 2, ceil(1.25) = 2. -/
example : evalFlt .f64_nearest [f64 0x4004000000000000] = .ok () [f64 0x4000000000000000] ∧
    evalFlt .f32_ceil [f32 0x3fa00000] = .ok () [f32 0x40000000] := by decide +kernel

/-- The full C36 is false: `ceil(-0.5)` and `trunc(-0.0)` give `+0`. -/
theorem C36_zero_sign_lost :
    evalFlt .f64_ceil [f64 0xbfe0000000000000] = .ok () [f64 0] ∧
    evalFlt .f32_trunc [f32 0x80000000] = .ok () [f32 0] ∧
    evalFlt .f32_nearest [f32 0xbf000000] = .ok () [f32 0] ∧
    evalFlt .f64_floor [f64 0x8000000000000000] = .ok () [f64 0] := by decide +kernel

/-! ## C37: float to integer -/

def truncOps : List (FOp × FW × Int × Int × (Int → Val)) :=
  [(.i32_trunc_f32_s, .w32, -2 ^ 31, 2 ^ 31 - 1, fun k => i32 (BitVec.ofInt 32 k)),
   (.i32_trunc_f32_u, .w32, 0, 2 ^ 32 - 1, fun k => i32 (BitVec.ofInt 32 k)),
   (.i32_trunc_f64_s, .w64, -2 ^ 31, 2 ^ 31 - 1, fun k => i32 (BitVec.ofInt 32 k)),
   (.i32_trunc_f64_u, .w64, 0, 2 ^ 32 - 1, fun k => i32 (BitVec.ofInt 32 k)),
   (.i64_trunc_f32_s, .w32, -2 ^ 63, 2 ^ 63 - 1, fun k => i64 (BitVec.ofInt 64 k)),
   (.i64_trunc_f32_u, .w32, 0, 2 ^ 64 - 1, fun k => i64 (BitVec.ofInt 64 k)),
   (.i64_trunc_f64_s, .w64, -2 ^ 63, 2 ^ 63 - 1, fun k => i64 (BitVec.ofInt 64 k)),
   (.i64_trunc_f64_u, .w64, 0, 2 ^ 64 - 1, fun k => i64 (BitVec.ofInt 64 k))]

theorem conv_s32 (n : Int) (h : -2 ^ 31 ≤ n ∧ n ≤ 2 ^ 31 - 1) :
    Val.fromI32 n = .ok (i32 (BitVec.ofInt 32 n)) ∧ Val.intoI32 (i32 (BitVec.ofInt 32 n)) = n := by
  refine ⟨fromI32_of_range ⟨h.1, by omega⟩, ?_⟩
  rw [Val.intoI32_eq, low32_i32]
  exact Py.toInt_ofInt_range 31 rfl ⟨h.1, by omega⟩
theorem conv_s64 (n : Int) (h : -2 ^ 63 ≤ n ∧ n ≤ 2 ^ 63 - 1) :
    Val.fromI64 n = .ok (i64 (BitVec.ofInt 64 n)) ∧ Val.intoI64 (i64 (BitVec.ofInt 64 n)) = n := by
  refine ⟨fromI64_of_range ⟨h.1, by omega⟩, ?_⟩
  rw [Val.intoI64_eq, low64_i64]
  exact Py.toInt_ofInt_range 63 rfl ⟨h.1, by omega⟩
theorem conv_u32 (n : Int) (h : 0 ≤ n ∧ n ≤ 2 ^ 32 - 1) :
    Val.fromU32 n = .ok (i32 (BitVec.ofInt 32 n)) ∧ Val.intoU32 (i32 (BitVec.ofInt 32 n)) = n := by
  refine ⟨fromU32_ofInt h, ?_⟩
  rw [Val.intoU32_eq, low32_i32, BitVec.toNat_ofInt]
  omega
theorem conv_u64 (n : Int) (h : 0 ≤ n ∧ n ≤ 2 ^ 64 - 1) :
    Val.fromU64 n = .ok (i64 (BitVec.ofInt 64 n)) ∧ Val.intoU64 (i64 (BitVec.ofInt 64 n)) = n := by
  refine ⟨fromU64_ofInt h, ?_⟩
  rw [Val.intoU64_eq, low64_i64, BitVec.toNat_ofInt]
  omega

/-- **C37** `iNN.trunc_fMM_s/u`: a finite operand whose truncation `k` lies in the target range gives exactly `k`; NaN,
infinity and truncations outside the range trap (Python raises `ValueError` or `OverflowError`). -/
theorem C37_trunc (op : FOp) (w : FW) (lo hi : Int) (mk : Int → Val) (h : (op, w, lo, hi, mk) ∈ truncOps) (v : Val) (s : List Val) :
    (∀ k, (∃ sg m, numAt w v = .fin sg m) → IsTrunc (one w) (numAt w v).units k → lo ≤ k → k ≤ hi →
      evalFlt op (v :: s) = .ok () (mk k :: s)) ∧
    ((numAt w v = .nan ∨ (∃ sg, numAt w v = .inf sg) ∨
        ∃ sg m k, numAt w v = .fin sg m ∧ IsTrunc (one w) (numAt w v).units k ∧ ¬ (lo ≤ k ∧ k ≤ hi)) →
      ∃ e, evalFlt op (v :: s) = .error e s ∧ (e = .value ∨ e = .overflow)) := by
  simp only [truncOps, List.mem_cons, Prod.mk.injEq, List.not_mem_nil, or_false] at h
  rcases h with ⟨rfl, rfl, rfl, rfl, rfl⟩ | ⟨rfl, rfl, rfl, rfl, rfl⟩ | ⟨rfl, rfl, rfl, rfl, rfl⟩ | ⟨rfl, rfl, rfl, rfl, rfl⟩ |
    ⟨rfl, rfl, rfl, rfl, rfl⟩ | ⟨rfl, rfl, rfl, rfl, rfl⟩ | ⟨rfl, rfl, rfl, rfl, rfl⟩ | ⟨rfl, rfl, rfl, rfl, rfl⟩
  · rw [evalFlt, run_trunc32]; exact truncCode_spec conv_s32 (fun _ => fromI32_err) v s
  · rw [evalFlt, run_trunc32]; exact truncCode_spec conv_u32 (fun _ => fromU32_err) v s
  · rw [evalFlt, run_trunc64]; exact truncCode_spec conv_s32 (fun _ => fromI32_err) v s
  · rw [evalFlt, run_trunc64]; exact truncCode_spec conv_u32 (fun _ => fromU32_err) v s
  · rw [evalFlt, run_trunc32]; exact truncCode_spec conv_s64 (fun _ => fromI64_err) v s
  · rw [evalFlt, run_trunc32]; exact truncCode_spec conv_u64 (fun _ => fromU64_err) v s
  · rw [evalFlt, run_trunc64]; exact truncCode_spec conv_s64 (fun _ => fromI64_err) v s
  · rw [evalFlt, run_trunc64]; exact truncCode_spec conv_u64 (fun _ => fromU64_err) v s

/-- -2.75 truncates to -2; 2^31 as f32 is out of the signed range but in the unsigned one. -/
example : evalFlt .i32_trunc_f32_s [f32 0xc0300000] = .ok () [i32 (-2)] ∧
    evalFlt .i32_trunc_f32_u [f32 0x4f000000] = .ok () [i32 0x80000000] := by decide +kernel
example : numAt .w32 (f32 0xc0300000) = .fin true (11 * 2 ^ 147) ∧ IsTrunc (one .w32) (-(11 * 2 ^ 147)) (-2) := by
  refine ⟨by decide +kernel, ?_⟩
  unfold IsTrunc IsCeil one
  norm_num

def satOps : List (FOp × FW × Int × Int × (Int → Val)) :=
  [(.i32_trunc_sat_f32_s, .w32, -2 ^ 31, 2 ^ 31 - 1, fun k => i32 (BitVec.ofInt 32 k)),
   (.i32_trunc_sat_f32_u, .w32, 0, 2 ^ 32 - 1, fun k => i32 (BitVec.ofInt 32 k)),
   (.i32_trunc_sat_f64_s, .w64, -2 ^ 31, 2 ^ 31 - 1, fun k => i32 (BitVec.ofInt 32 k)),
   (.i32_trunc_sat_f64_u, .w64, 0, 2 ^ 32 - 1, fun k => i32 (BitVec.ofInt 32 k)),
   (.i64_trunc_sat_f32_s, .w32, -2 ^ 63, 2 ^ 63 - 1, fun k => i64 (BitVec.ofInt 64 k)),
   (.i64_trunc_sat_f32_u, .w32, 0, 2 ^ 64 - 1, fun k => i64 (BitVec.ofInt 64 k)),
   (.i64_trunc_sat_f64_s, .w64, -2 ^ 63, 2 ^ 63 - 1, fun k => i64 (BitVec.ofInt 64 k)),
   (.i64_trunc_sat_f64_u, .w64, 0, 2 ^ 64 - 1, fun k => i64 (BitVec.ofInt 64 k))]

theorem run_sat32 {lo hi : Int} (h1 : lo ≤ 0) (h2 : 0 < hi) {conv : Int → Except Err Val} {mk : Int → Val}
    (hc : ∀ n, lo ≤ n ∧ n ≤ hi → conv n = .ok (mk n)) (v : Val) (s : List Val) :
    ∃ k, (do let a ← VM.popF32
             let a := if a.isNaN then F64.zero else a
             let b ← VM.lift (satInt lo hi a)
             let c ← VM.lift (conv b)
             VM.push c : VM Unit) (v :: s) = .ok () (mk k :: s) ∧
      (numAt .w32 v = .nan → k = 0) ∧ (numAt .w32 v = .inf true → k = lo) ∧ (numAt .w32 v = .inf false → k = hi) ∧
      (∀ sg m t, numAt .w32 v = .fin sg m → IsTrunc (one .w32) (numAt .w32 v).units t → k = max lo (min t hi)) := by
  rw [VM.bind_eq (VM.popF32_cons _ _)]
  obtain ⟨a1, a2, a3, a4⟩ := satAt_spec h1 h2 .w32 v
  have key : ∀ k, satAt .w32 lo hi v = .ok k → lo ≤ k ∧ k ≤ hi →
      (do let b ← VM.lift (satInt lo hi (if (F32.toF64 v.low32).isNaN then F64.zero else F32.toF64 v.low32))
          let c ← VM.lift (conv b)
          VM.push c : VM Unit) s = .ok () (mk k :: s) := by
    intro k hk hr
    rw [VM.bind_eq (VM.lift_ok (show satInt lo hi _ = .ok k from hk)), VM.bind_eq (VM.lift_ok (hc k hr)), VM.push_eq]
  have cs : numAt .w32 v = .nan ∨ (∃ sg, numAt .w32 v = .inf sg) ∨ ∃ sg m t, numAt .w32 v = .fin sg m ∧ IsTrunc (one .w32) (numAt .w32 v).units t := by
    rcases toIntAt_spec .w32 v with ⟨h, _⟩ | ⟨sg, h, _⟩ | ⟨sg, m, k, h, hk, _⟩
    · exact .inl h
    · exact .inr (.inl ⟨sg, h⟩)
    · exact .inr (.inr ⟨sg, m, k, h, hk⟩)
  rcases cs with h | ⟨sg, h⟩ | ⟨sg, m, t, h, ht⟩
  · refine ⟨0, key 0 (a1 h) ⟨h1, h2.le⟩, fun _ => rfl, ?_, ?_, ?_⟩ <;> rw [h] <;> intros <;> contradiction
  · cases sg
    · refine ⟨hi, key hi (a3 h) ⟨by omega, le_rfl⟩, ?_, ?_, fun _ => rfl, ?_⟩ <;> rw [h] <;> intros <;> contradiction
    · refine ⟨lo, key lo (a2 h) ⟨le_rfl, by omega⟩, ?_, fun _ => rfl, ?_, ?_⟩ <;> rw [h] <;> intros <;> contradiction
  · refine ⟨_, key _ (a4 sg m t h ht) ⟨by omega, by omega⟩, ?_, ?_, ?_, ?_⟩
    · rw [h]; intro x; cases x
    · rw [h]; intro x; cases x
    · rw [h]; intro x; cases x
    · intro sg' m' t' _ ht'
      rw [isTrunc_unique (one_pos _) ht ht']

theorem run_sat64 {lo hi : Int} (h1 : lo ≤ 0) (h2 : 0 < hi) {conv : Int → Except Err Val} {mk : Int → Val}
    (hc : ∀ n, lo ≤ n ∧ n ≤ hi → conv n = .ok (mk n)) (v : Val) (s : List Val) :
    ∃ k, (do let a ← VM.popF64
             let a := if a.isNaN then F64.zero else a
             let b ← VM.lift (satInt lo hi a)
             let c ← VM.lift (conv b)
             VM.push c : VM Unit) (v :: s) = .ok () (mk k :: s) ∧
      (numAt .w64 v = .nan → k = 0) ∧ (numAt .w64 v = .inf true → k = lo) ∧ (numAt .w64 v = .inf false → k = hi) ∧
      (∀ sg m t, numAt .w64 v = .fin sg m → IsTrunc (one .w64) (numAt .w64 v).units t → k = max lo (min t hi)) := by
  rw [VM.bind_eq (VM.popF64_cons _ _)]
  obtain ⟨a1, a2, a3, a4⟩ := satAt_spec h1 h2 .w64 v
  have key : ∀ k, satAt .w64 lo hi v = .ok k → lo ≤ k ∧ k ≤ hi →
      (do let b ← VM.lift (satInt lo hi (if F64.isNaN v.low64 then F64.zero else v.low64))
          let c ← VM.lift (conv b)
          VM.push c : VM Unit) s = .ok () (mk k :: s) := by
    intro k hk hr
    rw [VM.bind_eq (VM.lift_ok (show satInt lo hi _ = .ok k from hk)), VM.bind_eq (VM.lift_ok (hc k hr)), VM.push_eq]
  have cs : numAt .w64 v = .nan ∨ (∃ sg, numAt .w64 v = .inf sg) ∨ ∃ sg m t, numAt .w64 v = .fin sg m ∧ IsTrunc (one .w64) (numAt .w64 v).units t := by
    rcases toIntAt_spec .w64 v with ⟨h, _⟩ | ⟨sg, h, _⟩ | ⟨sg, m, k, h, hk, _⟩
    · exact .inl h
    · exact .inr (.inl ⟨sg, h⟩)
    · exact .inr (.inr ⟨sg, m, k, h, hk⟩)
  rcases cs with h | ⟨sg, h⟩ | ⟨sg, m, t, h, ht⟩
  · refine ⟨0, key 0 (a1 h) ⟨h1, h2.le⟩, fun _ => rfl, ?_, ?_, ?_⟩ <;> rw [h] <;> intros <;> contradiction
  · cases sg
    · refine ⟨hi, key hi (a3 h) ⟨by omega, le_rfl⟩, ?_, ?_, fun _ => rfl, ?_⟩ <;> rw [h] <;> intros <;> contradiction
    · refine ⟨lo, key lo (a2 h) ⟨le_rfl, by omega⟩, ?_, fun _ => rfl, ?_, ?_⟩ <;> rw [h] <;> intros <;> contradiction
  · refine ⟨_, key _ (a4 sg m t h ht) ⟨by omega, by omega⟩, ?_, ?_, ?_, ?_⟩
    · rw [h]; intro x; cases x
    · rw [h]; intro x; cases x
    · rw [h]; intro x; cases x
    · intro sg' m' t' _ ht'
      rw [isTrunc_unique (one_pos _) ht ht']

/-- **C37** `iNN.trunc_sat_fMM_s/u` never trap: NaN gives 0, infinities the bounds, and a finite operand its truncation
clamped to the target range. -/
theorem C37_trunc_sat (op : FOp) (w : FW) (lo hi : Int) (mk : Int → Val) (h : (op, w, lo, hi, mk) ∈ satOps) (v : Val) (s : List Val) :
    ∃ k, evalFlt op (v :: s) = .ok () (mk k :: s) ∧
      (numAt w v = .nan → k = 0) ∧ (numAt w v = .inf true → k = lo) ∧ (numAt w v = .inf false → k = hi) ∧
      (∀ sg m t, numAt w v = .fin sg m → IsTrunc (one w) (numAt w v).units t → k = max lo (min t hi)) := by
  simp only [satOps, List.mem_cons, Prod.mk.injEq, List.not_mem_nil, or_false] at h
  rcases h with ⟨rfl, rfl, rfl, rfl, rfl⟩ | ⟨rfl, rfl, rfl, rfl, rfl⟩ | ⟨rfl, rfl, rfl, rfl, rfl⟩ | ⟨rfl, rfl, rfl, rfl, rfl⟩ |
    ⟨rfl, rfl, rfl, rfl, rfl⟩ | ⟨rfl, rfl, rfl, rfl, rfl⟩ | ⟨rfl, rfl, rfl, rfl, rfl⟩ | ⟨rfl, rfl, rfl, rfl, rfl⟩
  · rw [evalFlt]; exact run_sat32 (by decide) (by decide) (fun n hn => (conv_s32 n hn).1) v s
  · rw [evalFlt]; exact run_sat32 (by decide) (by decide) (fun n hn => (conv_u32 n hn).1) v s
  · rw [evalFlt]; exact run_sat64 (by decide) (by decide) (fun n hn => (conv_s32 n hn).1) v s
  · rw [evalFlt]; exact run_sat64 (by decide) (by decide) (fun n hn => (conv_u32 n hn).1) v s
  · rw [evalFlt]; exact run_sat32 (by decide) (by decide) (fun n hn => (conv_s64 n hn).1) v s
  · rw [evalFlt]; exact run_sat32 (by decide) (by decide) (fun n hn => (conv_u64 n hn).1) v s
  · rw [evalFlt]; exact run_sat64 (by decide) (by decide) (fun n hn => (conv_s64 n hn).1) v s
  · rw [evalFlt]; exact run_sat64 (by decide) (by decide) (fun n hn => (conv_u64 n hn).1) v s

example : evalFlt .i32_trunc_sat_f32_s [f32 0x7f800000] = .ok () [i32 0x7fffffff] ∧
    evalFlt .i64_trunc_sat_f64_u [f64 0xc000000000000000] = .ok () [i64 0] ∧
    evalFlt .i32_trunc_sat_f64_s [f64 0x7ff8000000000000] = .ok () [i32 0] := by decide +kernel

/-! ## The hypotheses are met -/

example := C34_f32_copysign_partial (f32 0x80000000) (f32 0x7fc12345) [] (by rw [low32_f32]; unfold sNaN32; decide +kernel)
example := C57_compare .f32_ge .w32 _ (by simp only [cmpOps, List.mem_cons]; tauto) (f32 0x7fc00000) (f32 0) []
example := C36_rounding_partial .f64_nearest .w64 IsRound (by simp [roundOps]) (f64 0x4004000000000000) []
example := C37_trunc .i32_trunc_f32_s .w32 _ _ _ (List.mem_cons_self ..) (f32 0xc0300000) []
example := C37_trunc_sat .i32_trunc_sat_f32_s .w32 _ _ _ (List.mem_cons_self ..) (f32 0xc0300000) []

end Pywasm.Props
