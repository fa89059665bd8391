import Verif.Lemmas.IntOps

/-!
# C04 – C09: integer instructions and host values

`evalInt op` is the model of the Python code of the opcode; `Spec.intSem op` the WebAssembly meaning on bit vectors.
Both work on an arbitrary operand stack `s` (head = top) of arbitrary 16-byte cells: operands are not assumed to be
well-formed, their upper bytes may be anything.
-/

namespace Pywasm.Props
open Spec

/-- The instructions of C04. -/
def wrapping : List IOp :=
  [.i32_add, .i32_sub, .i32_mul, .i32_and, .i32_or, .i32_xor, .i32_shl, .i32_shr_s, .i32_shr_u, .i32_rotl, .i32_rotr,
   .i64_add, .i64_sub, .i64_mul, .i64_and, .i64_or, .i64_xor, .i64_shl, .i64_shr_s, .i64_shr_u, .i64_rotl, .i64_rotr]

/-- **C04** Add, sub, mul, bitwise, shift and rotate instructions compute the exact two's-complement result: on any stack
with two operands the Python code succeeds and replaces them with the value the specification defines. -/
theorem C04_wrapping_ops_exact (op : IOp) (h : op ∈ wrapping) (b a : Val) (s : List Val) :
    ∃ r, intSem op (b :: a :: s) = .ok (r :: s) ∧ evalInt op (b :: a :: s) = .ok () (r :: s) := by
  have hs := int_sound op (by rintro rfl; revert h; decide) (b :: a :: s)
  revert h
  cases op <;> intro h <;> first
    | exact absurd h (by decide)
    | exact ⟨_, rfl, hs⟩

/-- Non-vacuity and a check of the reading: `0xffffffff + 2 = 1`, `0x80000000 >> 33` arithmetic, garbage in the upper
bytes is ignored. -/
example : evalInt .i32_add [i64 0x1234500000002, i32 0xffffffff] = .ok () [i32 1] :=
  by decide
example : evalInt .i32_shr_s [i32 33, i32 0x80000000] = .ok () [i32 0xc0000000] := by decide

/-- **C05** (all division and remainder instructions but `i64.div_u`) The quotient or remainder is the specified one, and
the code raises `AssertionError`/`ZeroDivisionError` exactly when the specification traps (zero divisor, or signed
quotient out of range).  Missing: `i64.div_u`, for which the claim is false, see below. -/
theorem C05_division_partial (op : IOp) (f32 : BitVec 32 → BitVec 32 → Option (BitVec 32))
    (h : (op, f32) ∈ [(IOp.i32_div_s, divS), (.i32_div_u, divU), (.i32_rem_s, remS), (.i32_rem_u, remU)])
    (b a : Val) (s : List Val) :
    (∀ q, f32 a.low32 b.low32 = some q → evalInt op (b :: a :: s) = .ok () (i32 q :: s)) ∧
    (f32 a.low32 b.low32 = none → ∃ e s', evalInt op (b :: a :: s) = .error e s' ∧ isIntTrap e) := by
  have key : ∀ op (f : BitVec 32 → BitVec 32 → Option (BitVec 32)), intSem op = part32 f → op ≠ .i64_div_u →
      (∀ q, f a.low32 b.low32 = some q → evalInt op (b :: a :: s) = .ok () (i32 q :: s)) ∧
      (f a.low32 b.low32 = none → ∃ e s', evalInt op (b :: a :: s) = .error e s' ∧ isIntTrap e) := by
    intro op f hf hop
    have hs := int_sound op hop (b :: a :: s)
    rw [hf] at hs
    constructor
    · intro q hq; simp only [part32, hq] at hs; exact hs
    · intro hq; simp only [part32, hq] at hs; exact hs
  simp only [List.mem_cons, Prod.mk.injEq, List.not_mem_nil, or_false] at h
  rcases h with ⟨rfl, rfl⟩ | ⟨rfl, rfl⟩ | ⟨rfl, rfl⟩ | ⟨rfl, rfl⟩ <;> exact key _ _ rfl (by decide)

/-- **C05**, 64-bit instructions other than `i64.div_u`. -/
theorem C05_division64_partial (op : IOp) (f64 : BitVec 64 → BitVec 64 → Option (BitVec 64))
    (h : (op, f64) ∈ [(IOp.i64_div_s, divS), (.i64_rem_s, remS), (.i64_rem_u, remU)])
    (b a : Val) (s : List Val) :
    (∀ q, f64 a.low64 b.low64 = some q → evalInt op (b :: a :: s) = .ok () (i64 q :: s)) ∧
    (f64 a.low64 b.low64 = none → ∃ e s', evalInt op (b :: a :: s) = .error e s' ∧ isIntTrap e) := by
  have key : ∀ op (f : BitVec 64 → BitVec 64 → Option (BitVec 64)), intSem op = part64 f → op ≠ .i64_div_u →
      (∀ q, f a.low64 b.low64 = some q → evalInt op (b :: a :: s) = .ok () (i64 q :: s)) ∧
      (f a.low64 b.low64 = none → ∃ e s', evalInt op (b :: a :: s) = .error e s' ∧ isIntTrap e) := by
    intro op f hf hop
    have hs := int_sound op hop (b :: a :: s)
    rw [hf] at hs
    constructor
    · intro q hq; simp only [part64, hq] at hs; exact hs
    · intro hq; simp only [part64, hq] at hs; exact hs
  simp only [List.mem_cons, Prod.mk.injEq, List.not_mem_nil, or_false] at h
  rcases h with ⟨rfl, rfl⟩ | ⟨rfl, rfl⟩ | ⟨rfl, rfl⟩ <;> exact key _ _ rfl (by decide)

example : evalInt .i32_div_s [i32 2, i32 (-7)] = .ok () [i32 (-3)] := by decide
example : evalInt .i32_rem_s [i32 (-2), i32 7] = .ok () [i32 1] := by decide
example : divS (BitVec.intMin 32) (-1) = none := by decide

/-- **C05** for `i64.div_u`, exactly: below `2^63` the quotient is right, a zero divisor traps, and every quotient of at
least `2^63` (in particular any division by one of a value with the top bit set) raises `OverflowError` although
WebAssembly defines the result. -/
theorem C05_i64_div_u_partial (b a : Val) (s : List Val) :
    (∀ q, divU a.low64 b.low64 = some q → q.toNat < 2 ^ 63 → evalInt .i64_div_u (b :: a :: s) = .ok () (i64 q :: s)) ∧
    (∀ q, divU a.low64 b.low64 = some q → 2 ^ 63 ≤ q.toNat → evalInt .i64_div_u (b :: a :: s) = .error .overflow s) ∧
    (divU a.low64 b.low64 = none → ∃ e s', evalInt .i64_div_u (b :: a :: s) = .error e s' ∧ isIntTrap e) := by
  have h := Arith.U.div_w 8 a.low64 b.low64
  refine ⟨fun q hq hlt => ?_, fun q hq hge => ?_, fun hq => ?_⟩
  · have hr : Val.fromI64 (q.toNat : Int) = .ok (i64 q) := by
      rw [fromI64_of_range (by omega), BitVec.ofInt_natCast, BitVec.ofNat_toNat, BitVec.setWidth_eq]
    simp only [evalInt]
    rw [VM.bind_eq (VM.popU64_cons _ _), VM.bind_eq (VM.popU64_cons _ _), VM.bind_eq (VM.lift_ok (h.1 _ hq)),
      VM.bind_eq (VM.lift_ok hr), VM.push_eq]
  · have hr : Val.fromI64 (q.toNat : Int) = .error .overflow := by
      unfold Val.fromI64 Arith.I.intoBytearray Py.toBytesS
      rw [if_neg (by rw [Py.pow256_int]; rintro ⟨-, h2⟩; norm_num at h2; omega)]; rfl
    simp only [evalInt]
    rw [VM.bind_eq (VM.popU64_cons _ _), VM.bind_eq (VM.popU64_cons _ _), VM.bind_eq (VM.lift_ok (h.1 _ hq)),
      VM.bind_error (VM.lift_error hr)]
  · obtain ⟨e, h, he⟩ := h.2 hq
    refine ⟨e, s, ?_, he⟩
    simp only [evalInt]
    rw [VM.bind_eq (VM.popU64_cons _ _), VM.bind_eq (VM.popU64_cons _ _), VM.bind_error (VM.lift_error h)]

/-- **C05 is false for `i64.div_u`**: `2^63 /u 1` raises `OverflowError`, the specification says `2^63`. -/
theorem C05_i64_div_u_false :
    ¬ ∀ (b a : Val) (q : BitVec 64), divU a.low64 b.low64 = some q → evalInt .i64_div_u [b, a] = .ok () [i64 q] := by
  intro h
  have h1 := h (i64 1) (i64 (1 <<< 63)) (1 <<< 63) (by rw [low64_i64, low64_i64]; decide)
  have h2 := (C05_i64_div_u_partial (i64 1) (i64 (1 <<< 63)) []).2.1 (1 <<< 63) (by rw [low64_i64, low64_i64]; decide) (by decide)
  rw [h1] at h2; cases h2

/-- **C06** clz, ctz and popcnt. -/
theorem C06_bit_counts (a : Val) (s : List Val) :
    evalInt .i32_clz (a :: s) = .ok () (i32 (BitVec.ofNat 32 (clz a.low32)) :: s) ∧
    evalInt .i32_ctz (a :: s) = .ok () (i32 (BitVec.ofNat 32 (ctz a.low32)) :: s) ∧
    evalInt .i32_popcnt (a :: s) = .ok () (i32 (BitVec.ofNat 32 (popcnt a.low32)) :: s) ∧
    evalInt .i64_clz (a :: s) = .ok () (i64 (BitVec.ofNat 64 (clz a.low64)) :: s) ∧
    evalInt .i64_ctz (a :: s) = .ok () (i64 (BitVec.ofNat 64 (ctz a.low64)) :: s) ∧
    evalInt .i64_popcnt (a :: s) = .ok () (i64 (BitVec.ofNat 64 (popcnt a.low64)) :: s) :=
  ⟨i32_clz_sound (a :: s), i32_ctz_sound (a :: s), i32_popcnt_sound (a :: s), i64_clz_sound (a :: s), i64_ctz_sound (a :: s), i64_popcnt_sound (a :: s)⟩

example : clz (0x00010000 : BitVec 32) = 15 ∧ ctz (0x00010000 : BitVec 32) = 16 ∧ popcnt (0xf0f : BitVec 32) = 8 ∧
    clz (0 : BitVec 32) = 32 ∧ ctz (0 : BitVec 64) = 64 := by decide

/-- The order and equality tests of C07, on the integers the operands denote. -/
def cmp32 : List (IOp × (BitVec 32 → BitVec 32 → Bool)) :=
  [(.i32_eq, (· == ·)), (.i32_ne, (· != ·)),
   (.i32_lt_s, fun a b => a.toInt < b.toInt), (.i32_lt_u, fun a b => a.toNat < b.toNat),
   (.i32_gt_s, fun a b => b.toInt < a.toInt), (.i32_gt_u, fun a b => b.toNat < a.toNat),
   (.i32_le_s, fun a b => a.toInt ≤ b.toInt), (.i32_le_u, fun a b => a.toNat ≤ b.toNat),
   (.i32_ge_s, fun a b => b.toInt ≤ a.toInt), (.i32_ge_u, fun a b => b.toNat ≤ a.toNat)]
def cmp64 : List (IOp × (BitVec 64 → BitVec 64 → Bool)) :=
  [(.i64_eq, (· == ·)), (.i64_ne, (· != ·)),
   (.i64_lt_s, fun a b => a.toInt < b.toInt), (.i64_lt_u, fun a b => a.toNat < b.toNat),
   (.i64_gt_s, fun a b => b.toInt < a.toInt), (.i64_gt_u, fun a b => b.toNat < a.toNat),
   (.i64_le_s, fun a b => a.toInt ≤ b.toInt), (.i64_le_u, fun a b => a.toNat ≤ b.toNat),
   (.i64_ge_s, fun a b => b.toInt ≤ a.toInt), (.i64_ge_u, fun a b => b.toNat ≤ a.toNat)]

theorem beq_decide {w : Nat} (x y : BitVec w) : (x == y) = decide (x = y) := by
  rw [Bool.eq_iff_iff]; simp
theorem bne_decide {w : Nat} (x y : BitVec w) : (x != y) = decide (x ≠ y) := by
  rw [bne, beq_decide]; simp

/-- **C07** Comparisons push `i32` 1 or 0 according to the signed or unsigned order; eqz tests for zero. -/
theorem C07_comparisons (b a : Val) (s : List Val) :
    (∀ p ∈ cmp32, evalInt p.1 (b :: a :: s) = .ok () (i32 (if p.2 a.low32 b.low32 then 1 else 0) :: s)) ∧
    (∀ p ∈ cmp64, evalInt p.1 (b :: a :: s) = .ok () (i32 (if p.2 a.low64 b.low64 then 1 else 0) :: s)) ∧
    evalInt .i32_eqz (a :: s) = .ok () (i32 (if a.low32 = 0 then 1 else 0) :: s) ∧
    evalInt .i64_eqz (a :: s) = .ok () (i32 (if a.low64 = 0 then 1 else 0) :: s) := by
  refine ⟨fun p hp => ?_, fun p hp => ?_, ?_, ?_⟩
  · simp only [cmp32, List.mem_cons, List.not_mem_nil, or_false] at hp
    rcases hp with rfl | rfl | rfl | rfl | rfl | rfl | rfl | rfl | rfl | rfl
    · simpa only [Implements, intSem, rel32, Spec.bool, beq_decide, bne_decide] using i32_eq_sound (b :: a :: s)
    · simpa only [Implements, intSem, rel32, Spec.bool, beq_decide, bne_decide] using i32_ne_sound (b :: a :: s)
    · simpa only [Implements, intSem, rel32, Spec.bool, beq_decide, bne_decide] using i32_lt_s_sound (b :: a :: s)
    · simpa only [Implements, intSem, rel32, Spec.bool, beq_decide, bne_decide] using i32_lt_u_sound (b :: a :: s)
    · simpa only [Implements, intSem, rel32, Spec.bool, beq_decide, bne_decide] using i32_gt_s_sound (b :: a :: s)
    · simpa only [Implements, intSem, rel32, Spec.bool, beq_decide, bne_decide] using i32_gt_u_sound (b :: a :: s)
    · simpa only [Implements, intSem, rel32, Spec.bool, beq_decide, bne_decide] using i32_le_s_sound (b :: a :: s)
    · simpa only [Implements, intSem, rel32, Spec.bool, beq_decide, bne_decide] using i32_le_u_sound (b :: a :: s)
    · simpa only [Implements, intSem, rel32, Spec.bool, beq_decide, bne_decide] using i32_ge_s_sound (b :: a :: s)
    · simpa only [Implements, intSem, rel32, Spec.bool, beq_decide, bne_decide] using i32_ge_u_sound (b :: a :: s)
  · simp only [cmp64, List.mem_cons, List.not_mem_nil, or_false] at hp
    rcases hp with rfl | rfl | rfl | rfl | rfl | rfl | rfl | rfl | rfl | rfl
    · simpa only [Implements, intSem, rel64, Spec.bool, beq_decide, bne_decide] using i64_eq_sound (b :: a :: s)
    · simpa only [Implements, intSem, rel64, Spec.bool, beq_decide, bne_decide] using i64_ne_sound (b :: a :: s)
    · simpa only [Implements, intSem, rel64, Spec.bool, beq_decide, bne_decide] using i64_lt_s_sound (b :: a :: s)
    · simpa only [Implements, intSem, rel64, Spec.bool, beq_decide, bne_decide] using i64_lt_u_sound (b :: a :: s)
    · simpa only [Implements, intSem, rel64, Spec.bool, beq_decide, bne_decide] using i64_gt_s_sound (b :: a :: s)
    · simpa only [Implements, intSem, rel64, Spec.bool, beq_decide, bne_decide] using i64_gt_u_sound (b :: a :: s)
    · simpa only [Implements, intSem, rel64, Spec.bool, beq_decide, bne_decide] using i64_le_s_sound (b :: a :: s)
    · simpa only [Implements, intSem, rel64, Spec.bool, beq_decide, bne_decide] using i64_le_u_sound (b :: a :: s)
    · simpa only [Implements, intSem, rel64, Spec.bool, beq_decide, bne_decide] using i64_ge_s_sound (b :: a :: s)
    · simpa only [Implements, intSem, rel64, Spec.bool, beq_decide, bne_decide] using i64_ge_u_sound (b :: a :: s)
  · simpa only [Implements, intSem, test32, Spec.bool, decide_eq_true_eq] using i32_eqz_sound (a :: s)
  · simpa only [Implements, intSem, test64, Spec.bool, decide_eq_true_eq] using i64_eqz_sound (a :: s)

example : evalInt .i32_lt_s [i32 1, i32 (-1)] = .ok () [i32 1] ∧ evalInt .i32_lt_u [i32 1, i32 (-1)] = .ok () [i32 0] := by
  decide

/-- **C08** (integer part) Width conversions are the bit-vector truncations and extensions. -/
theorem C08_width_conversions (a : Val) (s : List Val) :
    evalInt .i32_wrap_i64 (a :: s) = .ok () (i32 (a.low64.truncate 32) :: s) ∧
    evalInt .i64_extend_i32_s (a :: s) = .ok () (i64 (a.low32.signExtend 64) :: s) ∧
    evalInt .i64_extend_i32_u (a :: s) = .ok () (i64 (a.low32.zeroExtend 64) :: s) ∧
    evalInt .i32_extend8_s (a :: s) = .ok () (i32 ((a.low32.truncate 8).signExtend 32) :: s) ∧
    evalInt .i32_extend16_s (a :: s) = .ok () (i32 ((a.low32.truncate 16).signExtend 32) :: s) ∧
    evalInt .i64_extend8_s (a :: s) = .ok () (i64 ((a.low64.truncate 8).signExtend 64) :: s) ∧
    evalInt .i64_extend16_s (a :: s) = .ok () (i64 ((a.low64.truncate 16).signExtend 64) :: s) ∧
    evalInt .i64_extend32_s (a :: s) = .ok () (i64 ((a.low64.truncate 32).signExtend 64) :: s) :=
  ⟨i32_wrap_i64_sound (a :: s), i64_extend_i32_s_sound (a :: s), i64_extend_i32_u_sound (a :: s), i32_extend8_s_sound (a :: s),
    i32_extend16_s_sound (a :: s), i64_extend8_s_sound (a :: s), i64_extend16_s_sound (a :: s), i64_extend32_s_sound (a :: s)⟩

example : evalInt .i64_extend8_s [i64 0x1280] = .ok () [i64 (-128)] := by decide

/-! ## The hypotheses are met -/

example := C04_wrapping_ops_exact .i32_rotl (by decide) (i32 33) (i64 0xabc80000001) [i32 5]
example : evalInt .i32_div_s [i32 2, i64 0xbad00000007] = .ok () [i32 3] :=
  (C05_division_partial .i32_div_s divS (by simp) (i32 2) (i64 0xbad00000007) []).1 3 (by decide)
example : ∃ e s', evalInt .i32_div_s [i32 (-1), i32 (BitVec.intMin 32)] = .error e s' ∧ isIntTrap e :=
  (C05_division_partial .i32_div_s divS (by simp) _ _ []).2 (by decide)
example : evalInt .i64_rem_s [i64 (-2), i64 7] = .ok () [i64 1] :=
  (C05_division64_partial .i64_rem_s remS (by simp) (i64 (-2)) (i64 7) []).1 1 (by decide)
example : ∃ e s', evalInt .i64_rem_u [i64 0, i64 7] = .error e s' ∧ isIntTrap e :=
  (C05_division64_partial .i64_rem_u remU (by simp) _ _ []).2 (by decide)
example : evalInt .i64_div_u [i64 2, i64 (-1)] = .ok () [i64 0x7fffffffffffffff] :=
  (C05_i64_div_u_partial (i64 2) (i64 (-1)) []).1 _ (by decide) (by decide)
example : evalInt .i64_div_u [i64 1, i64 (-1)] = .error .overflow [] :=
  (C05_i64_div_u_partial (i64 1) (i64 (-1)) []).2.1 0xffffffffffffffff (by decide) (by decide)
example : evalInt .i64_ge_u [i64 1, i64 (-1)] = .ok () [i32 1] :=
  (C07_comparisons (i64 1) (i64 (-1)) []).2.1 (.i64_ge_u, fun a b => b.toNat ≤ a.toNat) (by simp [cmp64])

end Pywasm.Props
