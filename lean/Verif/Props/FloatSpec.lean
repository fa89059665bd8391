import Verif.Lemmas.FloatExact2
import Verif.Props.SimdFloat

/-!
# C83: on which operands the float instructions do what the specification allows

`Spec/FloatOps.lean` says for every numeric instruction which outcomes the WebAssembly specification allows, with its rule for NaN
results; `Spec/FloatDev.lean` lists operands.  The theorems say that pywasm's outcome is allowed exactly when the operands are not
listed.
-/

set_option exponentiation.threshold 3000

namespace Pywasm.Props
open Spec Ref

/-- **C83** Scalar instructions. -/
theorem C83_float (op : FOp) (vs : List Val) : fltSpec op vs (fromModel (evalFlt op) vs) ↔ ¬ fltDev op vs :=
  match op with
  | .f32_eq => cmp_exact .f32_eq .w32 Num.equal (by simp [cmpOps]) (fun _ => ⟨_, rfl⟩) vs
  | .f32_ne => cmp_exact .f32_ne .w32 (fun x y => !x.equal y) (by simp [cmpOps]) (fun _ => ⟨_, rfl⟩) vs
  | .f32_lt => cmp_exact .f32_lt .w32 Num.less (by simp [cmpOps]) (fun _ => ⟨_, rfl⟩) vs
  | .f32_gt => cmp_exact .f32_gt .w32 (fun x y => y.less x) (by simp [cmpOps]) (fun _ => ⟨_, rfl⟩) vs
  | .f32_le => cmp_exact .f32_le .w32 (fun x y => x.less y || x.equal y) (by simp [cmpOps]) (fun _ => ⟨_, rfl⟩) vs
  | .f32_ge => cmp_exact .f32_ge .w32 (fun x y => y.less x || y.equal x) (by simp [cmpOps]) (fun _ => ⟨_, rfl⟩) vs
  | .f64_eq => cmp_exact .f64_eq .w64 Num.equal (by simp [cmpOps]) (fun _ => ⟨_, rfl⟩) vs
  | .f64_ne => cmp_exact .f64_ne .w64 (fun x y => !x.equal y) (by simp [cmpOps]) (fun _ => ⟨_, rfl⟩) vs
  | .f64_lt => cmp_exact .f64_lt .w64 Num.less (by simp [cmpOps]) (fun _ => ⟨_, rfl⟩) vs
  | .f64_gt => cmp_exact .f64_gt .w64 (fun x y => y.less x) (by simp [cmpOps]) (fun _ => ⟨_, rfl⟩) vs
  | .f64_le => cmp_exact .f64_le .w64 (fun x y => x.less y || x.equal y) (by simp [cmpOps]) (fun _ => ⟨_, rfl⟩) vs
  | .f64_ge => cmp_exact .f64_ge .w64 (fun x y => y.less x || y.equal x) (by simp [cmpOps]) (fun _ => ⟨_, rfl⟩) vs
  | .f32_abs => abs_exact32 vs
  | .f32_neg => neg_exact32 vs
  | .f32_ceil => round_exact32 .f32_ceil F64.ceil IsCeil (by simp [roundOps]) (fun _ => rfl) (fun _ _ _ => isCeil_unique (one_pos _)) id (fun _ _ => Iff.rfl) vs
  | .f32_floor => round_exact32 .f32_floor F64.floor IsFloor (by simp [roundOps]) (fun _ => rfl) (fun _ _ _ => isFloor_unique (one_pos _)) id (fun _ _ => Iff.rfl) vs
  | .f32_trunc => round_exact32 .f32_trunc F64.trunc IsTrunc (by simp [roundOps]) (fun _ => rfl) (fun _ _ _ => isTrunc_unique (one_pos _)) id (fun _ _ => Iff.rfl) vs
  | .f32_nearest => round_exact32 .f32_nearest F64.roundEven IsRound (by simp [roundOps]) (fun _ => rfl) (fun _ _ _ => isRound_unique (one_pos _)) id (fun _ _ => Iff.rfl) vs
  | .f32_sqrt => sqrt_exact32 vs
  | .f32_add => arith_exact32 .f32_add _ AddSpec (by simp [arithOps]) f32_add_run nanOf_add (fun _ => ⟨_, rfl⟩) vs
  | .f32_sub => arith_exact32 .f32_sub _ SubSpec (by simp [arithOps]) f32_sub_run nanOf_sub (fun _ => ⟨_, rfl⟩) vs
  | .f32_mul => arith_exact32 .f32_mul _ MulSpec (by simp [arithOps]) f32_mul_run nanOf_mul (fun _ => ⟨_, rfl⟩) vs
  | .f32_div => arith_exact32 .f32_div _ DivSpec (by simp [arithOps]) f32_div_run nanOf_div (fun _ => ⟨_, rfl⟩) vs
  | .f32_min => min_exact32 vs
  | .f32_max => max_exact32 vs
  | .f32_copysign => copysign_exact32 vs
  | .f64_abs => abs_exact64 vs
  | .f64_neg => neg_exact64 vs
  | .f64_ceil => round_exact64 .f64_ceil F64.ceil IsCeil (by simp [roundOps]) (fun _ => rfl) (fun _ _ _ => isCeil_unique (one_pos _)) id (fun _ _ => Iff.rfl) vs
  | .f64_floor => round_exact64 .f64_floor F64.floor IsFloor (by simp [roundOps]) (fun _ => rfl) (fun _ _ _ => isFloor_unique (one_pos _)) id (fun _ _ => Iff.rfl) vs
  | .f64_trunc => round_exact64 .f64_trunc F64.trunc IsTrunc (by simp [roundOps]) (fun _ => rfl) (fun _ _ _ => isTrunc_unique (one_pos _)) id (fun _ _ => Iff.rfl) vs
  | .f64_nearest => round_exact64 .f64_nearest F64.roundEven IsRound (by simp [roundOps]) (fun _ => rfl) (fun _ _ _ => isRound_unique (one_pos _)) id (fun _ _ => Iff.rfl) vs
  | .f64_sqrt => sqrt_exact64 vs
  | .f64_add => arith_exact64 .f64_add _ AddSpec (by simp [arithOps]) f64_add_run nanOf_add (fun _ => ⟨_, rfl⟩) vs
  | .f64_sub => arith_exact64 .f64_sub _ SubSpec (by simp [arithOps]) f64_sub_run nanOf_sub (fun _ => ⟨_, rfl⟩) vs
  | .f64_mul => arith_exact64 .f64_mul _ MulSpec (by simp [arithOps]) f64_mul_run nanOf_mul (fun _ => ⟨_, rfl⟩) vs
  | .f64_div => arith_exact64 .f64_div _ DivSpec (by simp [arithOps]) f64_div_run nanOf_div (fun _ => ⟨_, rfl⟩) vs
  | .f64_min => min_exact64 vs
  | .f64_max => max_exact64 vs
  | .f64_copysign => copysign_exact64 vs
  | .i32_trunc_f32_s => trunc_exact .i32_trunc_f32_s .w32 (-2 ^ 31) (2 ^ 31 - 1) (fun k => i32 (BitVec.ofInt 32 k)) (by simp [truncOps]) vs
  | .i32_trunc_f32_u => trunc_exact .i32_trunc_f32_u .w32 0 (2 ^ 32 - 1) (fun k => i32 (BitVec.ofInt 32 k)) (by simp [truncOps]) vs
  | .i32_trunc_f64_s => trunc_exact .i32_trunc_f64_s .w64 (-2 ^ 31) (2 ^ 31 - 1) (fun k => i32 (BitVec.ofInt 32 k)) (by simp [truncOps]) vs
  | .i32_trunc_f64_u => trunc_exact .i32_trunc_f64_u .w64 0 (2 ^ 32 - 1) (fun k => i32 (BitVec.ofInt 32 k)) (by simp [truncOps]) vs
  | .i64_trunc_f32_s => trunc_exact .i64_trunc_f32_s .w32 (-2 ^ 63) (2 ^ 63 - 1) (fun k => i64 (BitVec.ofInt 64 k)) (by simp [truncOps]) vs
  | .i64_trunc_f32_u => trunc_exact .i64_trunc_f32_u .w32 0 (2 ^ 64 - 1) (fun k => i64 (BitVec.ofInt 64 k)) (by simp [truncOps]) vs
  | .i64_trunc_f64_s => trunc_exact .i64_trunc_f64_s .w64 (-2 ^ 63) (2 ^ 63 - 1) (fun k => i64 (BitVec.ofInt 64 k)) (by simp [truncOps]) vs
  | .i64_trunc_f64_u => trunc_exact .i64_trunc_f64_u .w64 0 (2 ^ 64 - 1) (fun k => i64 (BitVec.ofInt 64 k)) (by simp [truncOps]) vs
  | .f32_convert_i32_s => conv_exact32 .f32_convert_i32_s (fun v => v.low32.toInt) (by simp [convOps]) vs
  | .f32_convert_i32_u => conv_exact32 .f32_convert_i32_u (fun v => (v.low32.toNat : Int)) (by simp [convOps]) vs
  | .f32_convert_i64_s => conv64_s_exact vs
  | .f32_convert_i64_u => conv64_u_exact vs
  | .f32_demote_f64 => demote_exact vs
  | .f64_convert_i32_s => conv_exact64 .f64_convert_i32_s (fun v => v.low32.toInt) (by simp [convOps]) vs
  | .f64_convert_i32_u => conv_exact64 .f64_convert_i32_u (fun v => (v.low32.toNat : Int)) (by simp [convOps]) vs
  | .f64_convert_i64_s => conv_exact64 .f64_convert_i64_s (fun v => v.low64.toInt) (by simp [convOps]) vs
  | .f64_convert_i64_u => conv_exact64 .f64_convert_i64_u (fun v => (v.low64.toNat : Int)) (by simp [convOps]) vs
  | .f64_promote_f32 => promote_exact vs
  | .i32_reinterpret_f32 => (reinterpret_exact vs).1
  | .i64_reinterpret_f64 => (reinterpret_exact vs).2.2.1
  | .f32_reinterpret_i32 => (reinterpret_exact vs).2.1
  | .f64_reinterpret_i64 => (reinterpret_exact vs).2.2.2
  | .i32_trunc_sat_f32_s => sat_exact .i32_trunc_sat_f32_s .w32 (-2 ^ 31) (2 ^ 31 - 1) (fun k => i32 (BitVec.ofInt 32 k)) (by simp [satOps]) vs
  | .i32_trunc_sat_f32_u => sat_exact .i32_trunc_sat_f32_u .w32 0 (2 ^ 32 - 1) (fun k => i32 (BitVec.ofInt 32 k)) (by simp [satOps]) vs
  | .i32_trunc_sat_f64_s => sat_exact .i32_trunc_sat_f64_s .w64 (-2 ^ 31) (2 ^ 31 - 1) (fun k => i32 (BitVec.ofInt 32 k)) (by simp [satOps]) vs
  | .i32_trunc_sat_f64_u => sat_exact .i32_trunc_sat_f64_u .w64 0 (2 ^ 32 - 1) (fun k => i32 (BitVec.ofInt 32 k)) (by simp [satOps]) vs
  | .i64_trunc_sat_f32_s => sat_exact .i64_trunc_sat_f32_s .w32 (-2 ^ 63) (2 ^ 63 - 1) (fun k => i64 (BitVec.ofInt 64 k)) (by simp [satOps]) vs
  | .i64_trunc_sat_f32_u => sat_exact .i64_trunc_sat_f32_u .w32 0 (2 ^ 64 - 1) (fun k => i64 (BitVec.ofInt 64 k)) (by simp [satOps]) vs
  | .i64_trunc_sat_f64_s => sat_exact .i64_trunc_sat_f64_s .w64 (-2 ^ 63) (2 ^ 63 - 1) (fun k => i64 (BitVec.ofInt 64 k)) (by simp [satOps]) vs
  | .i64_trunc_sat_f64_u => sat_exact .i64_trunc_sat_f64_u .w64 0 (2 ^ 64 - 1) (fun k => i64 (BitVec.ofInt 64 k)) (by simp [satOps]) vs

/-! ## Vectors -/

theorem evalVec_nil (op : VOp) : evalVec op [] = .error .index [] := by cases op <;> rfl

theorem v128_inj {x y : BitVec 128} (h : v128 x = v128 y) : x = y := by
  have := congrArg Val.low128 h
  rwa [low128_v128, low128_v128] at this

theorem out_inj {z z' : BitVec 128} {s : List Val} (h : Out.ok (v128 z :: s) = .ok (v128 z' :: s)) : z' = z := by
  injection h with h; injection h with h _
  exact (v128_inj h).symm

theorem lanes1_exact (op : VOp) (tin tout : LaneTy) (n : Nat) (fop : FOp) (h : (op, tin, tout, n, fop) ∈ unaryLanes) (vs : List Val) :
    lanes1 tin tout n fop vs (fromModel (evalVec op) vs) ↔ ¬ devLanes1 tin n fop vs := by
  cases vs with
  | nil =>
    rw [fm_stuck (evalVec_nil op)]
    exact iff_of_true rfl id
  | cons x s =>
    obtain ⟨z, e, h1, h2⟩ := C69_unary op tin tout n fop h x s
    have key : ∀ i < n, fltSpec fop [laneCell tin x.low128 i] (.ok [laneCell tout z i]) ↔ ¬ fltDev fop [laneCell tin x.low128 i] :=
      fun i hi => by rw [← C83_float, fm_ok (h1 i hi)]
    rw [fm_ok e]
    constructor
    · rintro ⟨z', e', h3, -⟩ ⟨i, hi, hd⟩
      obtain rfl := out_inj e'
      exact (key i hi).mp (h3 i hi) hd
    · exact fun hd => ⟨z, rfl, fun i hi => (key i hi).mpr fun h' => hd ⟨i, hi, h'⟩, h2⟩
theorem lanes1_exact_ok (op : VOp) (tin tout : LaneTy) (n : Nat) (fop : FOp) (h : (op, tin, tout, n, fop) ∈ unaryLanes)
    (hd : ∀ v, ¬ fltDev fop [v]) (vs : List Val) : lanes1 tin tout n fop vs (fromModel (evalVec op) vs) ↔ ¬ False := by
  rw [lanes1_exact op tin tout n fop h]
  refine iff_of_true ?_ id
  cases vs with
  | nil => exact id
  | cons x s => rintro ⟨i, _, h⟩; exact hd _ h

theorem lanes2_exact (op : VOp) (t : LaneTy) (fop : FOp) (h : (op, t, fop) ∈ binaryLanes) (h1 : ∀ b, ∃ s, evalVec op [b] = .error .index s)
    (vs : List Val) : lanesBin t fop vs (fromModel (evalVec op) vs) ↔ ¬ devLanes2 t fop vs := by
  match vs with
  | [] =>
    rw [fm_stuck (evalVec_nil op)]
    exact iff_of_true rfl id
  | [b] =>
    obtain ⟨s, h1⟩ := h1 b
    rw [fm_stuck h1]
    exact iff_of_true rfl id
  | y :: x :: s =>
    obtain ⟨z, e, h1⟩ := C69_binary op t fop h x y s
    have key : ∀ i < t.count, fltSpec fop [laneCell t y.low128 i, laneCell t x.low128 i] (.ok [laneCell t z i]) ↔
        ¬ fltDev fop [laneCell t y.low128 i, laneCell t x.low128 i] := fun i hi => by rw [← C83_float, fm_ok (h1 i hi)]
    rw [fm_ok e]
    constructor
    · rintro ⟨z', e', h3⟩ ⟨i, hi, hd⟩
      obtain rfl := out_inj e'
      exact (key i hi).mp (h3 i hi) hd
    · exact fun hd => ⟨z, rfl, fun i hi => (key i hi).mpr fun h' => hd ⟨i, hi, h'⟩⟩
theorem lanes2_exact_ok (op : VOp) (t : LaneTy) (fop : FOp) (h : (op, t, fop) ∈ binaryLanes) (h1 : ∀ b, ∃ s, evalVec op [b] = .error .index s)
    (hd : ∀ v w, ¬ fltDev fop [v, w]) (vs : List Val) : lanesBin t fop vs (fromModel (evalVec op) vs) ↔ ¬ False := by
  rw [lanes2_exact op t fop h h1]
  refine iff_of_true ?_ id
  match vs with
  | [] => exact id
  | [b] => exact id
  | y :: x :: s => rintro ⟨i, _, h⟩; exact hd _ _ h

theorem lanes2_iff {op : VOp} {n : Nat} {R : BitVec 128 → BitVec 128 → BitVec 128 → Nat → Prop} {D : List Val → Prop}
    (h1 : ∀ b, ∃ s, evalVec op [b] = .error .index s) (hD : ¬ D []) (hD1 : ∀ b, ¬ D [b])
    (h : ∀ x y s, ∃ z, evalVec op (y :: x :: s) = .ok () (v128 z :: s) ∧ ((∀ i < n, R x.low128 y.low128 z i) ↔ ¬ D (y :: x :: s)))
    (vs : List Val) : lanes2 n R vs (fromModel (evalVec op) vs) ↔ ¬ D vs := by
  match vs with
  | [] => rw [fm_stuck (evalVec_nil op)]; exact iff_of_true rfl hD
  | [b] => obtain ⟨s, h1⟩ := h1 b; rw [fm_stuck h1]; exact iff_of_true rfl (hD1 b)
  | y :: x :: s =>
    obtain ⟨z, e, hz⟩ := h x y s
    rw [fm_ok e, ← hz]
    constructor
    · rintro ⟨z', e', h3⟩
      obtain rfl := out_inj e'
      exact h3
    · exact fun h3 => ⟨z, rfl, h3⟩

theorem lanesCmp_exact (op : VOp) (w : FW) (q : Num → Num → Bool) (h : (op, w, q) ∈ compareLanes)
    (h1 : ∀ b, ∃ s, evalVec op [b] = .error .index s) (vs : List Val) : lanesCmp w q vs (fromModel (evalVec op) vs) ↔ ¬ False := by
  refine lanes2_iff (D := fun _ => False) h1 id (fun _ => id)
    (fun x y s => ?_) vs
  obtain ⟨z, e, h2⟩ := C69_compare op w q h x y s
  exact ⟨z, e, iff_of_true h2 id⟩

theorem f64x2_pmin_exact (vs : List Val) : lanesPmin .w64 vs (fromModel (evalVec .f64x2_pmin) vs) ↔ ¬ False := by
  refine lanes2_iff (D := fun _ => False) (fun _ => ⟨_, rfl⟩) id (fun _ => id) (fun x y s => ?_) vs
  obtain ⟨z, e, h2⟩ := (C69_f64_pmin_pmax x y s).1
  exact ⟨z, e, iff_of_true h2 id⟩
theorem f64x2_pmax_exact (vs : List Val) : lanesPmax .w64 vs (fromModel (evalVec .f64x2_pmax) vs) ↔ ¬ False := by
  refine lanes2_iff (D := fun _ => False) (fun _ => ⟨_, rfl⟩) id (fun _ => id) (fun x y s => ?_) vs
  obtain ⟨z, e, h2⟩ := (C69_f64_pmin_pmax x y s).2
  exact ⟨z, e, iff_of_true h2 id⟩

/-- A single that goes through a double is the same exactly if it is not a signalling NaN. -/
theorem through (c : F32) : F32.ofF64 (F32.toF64 c) = c ↔ ¬ sNaN32 c :=
  ⟨fun h => h ▸ F32.ofF64_not_sNaN _, F32.ofF64_toF64⟩

theorem f32x4_pmin_exact (vs : List Val) : lanesPmin .w32 vs (fromModel (evalVec .f32x4_pmin) vs) ↔ ¬ devQuiet2 (fun x y => y.less x) vs := by
  refine lanes2_iff (D := devQuiet2 _) (fun _ => ⟨_, rfl⟩) id (fun _ => id) (fun x y s => ?_) vs
  refine ⟨ofLanes 32 fun i => F32.ofF64 (F64.pyMin (F32.toF64 (lane 32 x.low128 i)) (F32.toF64 (lane 32 y.low128 i))), ?_, ?_⟩
  · rw [evalVec, VM.bind_eq (VM.popLanesF32_cons _ _), VM.bind_eq (VM.popLanesF32_cons _ _)]
    simp only [range_at]
    rw [VM.bind_eq (VM.lift_ok (fromV128F32_eq _)), VM.push_eq]
  · show (∀ i < 4, _) ↔ ¬ ∃ i < 4, _
    push Not
    refine forall_congr' fun i => forall_congr' fun hi => ?_
    rw [sNaN_iff]
    show lane 32 _ i = (if (num32 (lane 32 y.low128 i)).less (num32 (lane 32 x.low128 i)) then lane 32 y.low128 i else lane 32 x.low128 i) ↔
      ¬ sNaN32 (if (num32 (lane 32 y.low128 i)).less (num32 (lane 32 x.low128 i)) then f32 (lane 32 y.low128 i) else f32 (lane 32 x.low128 i)).low32
    rw [lane32 _ hi, F64.pyMin, F32.lt_toF64, ← apply_ite F32.toF64, ← apply_ite f32, low32_f32, through]
theorem f32x4_pmax_exact (vs : List Val) : lanesPmax .w32 vs (fromModel (evalVec .f32x4_pmax) vs) ↔ ¬ devQuiet2 (fun x y => x.less y) vs := by
  refine lanes2_iff (D := devQuiet2 _) (fun _ => ⟨_, rfl⟩) id (fun _ => id) (fun x y s => ?_) vs
  refine ⟨ofLanes 32 fun i => F32.ofF64 (F64.pyMax (F32.toF64 (lane 32 x.low128 i)) (F32.toF64 (lane 32 y.low128 i))), ?_, ?_⟩
  · rw [evalVec, VM.bind_eq (VM.popLanesF32_cons _ _), VM.bind_eq (VM.popLanesF32_cons _ _)]
    simp only [range_at]
    rw [VM.bind_eq (VM.lift_ok (fromV128F32_eq _)), VM.push_eq]
  · show (∀ i < 4, _) ↔ ¬ ∃ i < 4, _
    push Not
    refine forall_congr' fun i => forall_congr' fun hi => ?_
    rw [sNaN_iff]
    show lane 32 _ i = (if (num32 (lane 32 x.low128 i)).less (num32 (lane 32 y.low128 i)) then lane 32 y.low128 i else lane 32 x.low128 i) ↔
      ¬ sNaN32 (if (num32 (lane 32 x.low128 i)).less (num32 (lane 32 y.low128 i)) then f32 (lane 32 y.low128 i) else f32 (lane 32 x.low128 i)).low32
    rw [lane32 _ hi, F64.pyMax, F32.lt_toF64, ← apply_ite F32.toF64, ← apply_ite f32, low32_f32, through]

theorem spec_one {R : Val → Val → Prop} {a r : Val} : unary R [a] (.ok [r]) ↔ R a r := by
  constructor
  · rintro ⟨r', h, e⟩
    injection e with e; injection e with e _
    exact e ▸ h
  · exact fun h => ⟨r, h, rfl⟩

theorem spec_abs32 (a r : Val) : fltSpec .f32_abs [a] (.ok [r]) ↔ SameBits .w32 a false r := spec_one (R := fun a r => SameBits .w32 a false r)
theorem spec_abs64 (a r : Val) : fltSpec .f64_abs [a] (.ok [r]) ↔ SameBits .w64 a false r := spec_one (R := fun a r => SameBits .w64 a false r)
theorem spec_neg32 (a r : Val) : fltSpec .f32_neg [a] (.ok [r]) ↔ SameBits .w32 a (!negAt .w32 a) r :=
  spec_one (R := fun a r => SameBits .w32 a (!negAt .w32 a) r)
theorem spec_neg64 (a r : Val) : fltSpec .f64_neg [a] (.ok [r]) ↔ SameBits .w64 a (!negAt .w64 a) r :=
  spec_one (R := fun a r => SameBits .w64 a (!negAt .w64 a) r)

theorem lanes1_iff {op : VOp} {tin tout : LaneTy} {fop : FOp} {D : List Val → Prop} (hD : ¬ D [])
    (h : ∀ x s, ∃ z, evalVec op (x :: s) = .ok () (v128 z :: s) ∧
      ((∀ i < tout.count, fltSpec fop [laneCell tin x.low128 i] (.ok [laneCell tout z i])) ↔ ¬ D (x :: s)))
    (vs : List Val) : lanes1 tin tout tout.count fop vs (fromModel (evalVec op) vs) ↔ ¬ D vs := by
  match vs with
  | [] => rw [fm_stuck (evalVec_nil op)]; exact iff_of_true rfl hD
  | x :: s =>
    obtain ⟨z, e, hz⟩ := h x s
    rw [fm_ok e, ← hz]
    constructor
    · rintro ⟨z', e', h3, -⟩
      obtain rfl := out_inj e'
      exact h3
    · exact fun h3 => ⟨z, rfl, h3, fun i h4 h5 => absurd h5 (by omega)⟩

theorem same_f64 (x z : BitVec 64) (b : Bool) (h : code64 z = code64 x ∧ z.msb = b) : SameBits .w64 (f64 x) b (f64 z) := by
  refine ⟨rfl, ?_, ?_⟩
  · show code64 (f64 z).low64 = code64 (f64 x).low64; rw [low64_f64, low64_f64]; exact h.1
  · show (f64 z).low64.msb = b; rw [low64_f64]; exact h.2
theorem same_f32 (x z : BitVec 32) (b : Bool) : SameBits .w32 (f32 x) b (f32 z) ↔ code32 z = code32 x ∧ z.msb = b := by
  show _ ∧ code32 (f32 z).low32 = code32 (f32 x).low32 ∧ (f32 z).low32.msb = b ↔ _
  rw [low32_f32, low32_f32]
  exact and_iff_right rfl

theorem f64x2_abs_exact (vs : List Val) : lanes1 .f64 .f64 2 .f64_abs vs (fromModel (evalVec .f64x2_abs) vs) ↔ ¬ False := by
  refine lanes1_iff (tout := .f64) (D := fun _ => False) id (fun x s => ?_) vs
  obtain ⟨z, e, h⟩ := (C69_f64_abs_neg x s).1
  exact ⟨z, e, iff_of_true (fun i hi => (spec_abs64 _ _).mpr (same_f64 _ _ _ (h i hi))) id⟩
theorem f64x2_neg_exact (vs : List Val) : lanes1 .f64 .f64 2 .f64_neg vs (fromModel (evalVec .f64x2_neg) vs) ↔ ¬ False := by
  refine lanes1_iff (tout := .f64) (D := fun _ => False) id (fun x s => ?_) vs
  obtain ⟨z, e, h⟩ := (C69_f64_abs_neg x s).2
  refine ⟨z, e, iff_of_true (fun i hi => (spec_neg64 _ _).mpr ?_) id⟩
  show SameBits .w64 _ (!(f64 (lane 64 x.low128 i)).low64.msb) _
  rw [low64_f64]
  exact same_f64 _ _ _ (h i hi)

theorem setSign_iff (x : F32) (b : Bool) : (code32 (F32.ofF64 (F64.ofMag b (code64 (F32.toF64 x)))) = code32 x ∧
    (F32.ofF64 (F64.ofMag b (code64 (F32.toF64 x)))).msb = b) ↔ ¬ sNaN32 x := by
  obtain ⟨h1, h2, -⟩ := ofF64_setSign x b
  refine ⟨fun h hs => ?_, fun h => ⟨h2 h, h1⟩⟩
  have := F32.ofF64_not_sNaN (F64.ofMag b (code64 (F32.toF64 x)))
  unfold sNaN32 at this hs
  rw [h.1] at this
  exact this hs

theorem f32x4_abs_exact (vs : List Val) : lanes1 .f32 .f32 4 .f32_abs vs (fromModel (evalVec .f32x4_abs) vs) ↔ ¬ devQuiet1 vs := by
  refine lanes1_iff (tout := .f32) (D := devQuiet1) id (fun x s => ?_) vs
  refine ⟨ofLanes 32 fun i => F32.ofF64 (F64.abs (F32.toF64 (lane 32 x.low128 i))), ?_, ?_⟩
  · rw [evalVec, VM.bind_eq (VM.popLanesF32_cons _ _)]
    simp only [List.map_map]
    rw [VM.bind_eq (VM.lift_ok (fromV128F32_eq _)), VM.push_eq]; rfl
  · show (∀ i < 4, _) ↔ ¬ ∃ i < 4, _
    push Not
    refine forall_congr' fun i => forall_congr' fun hi => (spec_abs32 _ _).trans ?_
    rw [sNaN_iff]
    show SameBits .w32 (f32 _) false (f32 (lane 32 _ i)) ↔ ¬ sNaN32 (f32 _).low32
    rw [same_f32, lane32 _ hi, low32_f32]
    unfold F64.abs
    exact setSign_iff _ _
theorem f32x4_neg_exact (vs : List Val) : lanes1 .f32 .f32 4 .f32_neg vs (fromModel (evalVec .f32x4_neg) vs) ↔ ¬ devQuiet1 vs := by
  refine lanes1_iff (tout := .f32) (D := devQuiet1) id (fun x s => ?_) vs
  refine ⟨ofLanes 32 fun i => F32.ofF64 (F64.neg (F32.toF64 (lane 32 x.low128 i))), ?_, ?_⟩
  · rw [evalVec, VM.bind_eq (VM.popLanesF32_cons _ _)]
    simp only [List.map_map]
    rw [VM.bind_eq (VM.lift_ok (fromV128F32_eq _)), VM.push_eq]; rfl
  · show (∀ i < 4, _) ↔ ¬ ∃ i < 4, _
    push Not
    refine forall_congr' fun i => forall_congr' fun hi => (spec_neg32 _ _).trans ?_
    rw [sNaN_iff]
    show SameBits .w32 (f32 _) (!(f32 (lane 32 x.low128 i)).low32.msb) (f32 (lane 32 _ i)) ↔ ¬ sNaN32 (f32 _).low32
    rw [same_f32, lane32 _ hi, low32_f32, ← F32.toF64_msb (lane 32 x.low128 i), ← F64.sign_eq]
    unfold F64.neg
    exact setSign_iff _ _

/-- **C83** Vector instructions on float lanes. -/
theorem C83_vector (op : VOp) (h : op ∈ floatLanes) (vs : List Val) : fvecSpec op vs (fromModel (evalVec op) vs) ↔ ¬ fvecDev op vs :=
  match op, h with
  | .f32x4_ceil, _ => lanes1_exact .f32x4_ceil .f32 .f32 4 .f32_ceil (by decide) vs
  | .f32x4_floor, _ => lanes1_exact .f32x4_floor .f32 .f32 4 .f32_floor (by decide) vs
  | .f32x4_trunc, _ => lanes1_exact .f32x4_trunc .f32 .f32 4 .f32_trunc (by decide) vs
  | .f32x4_nearest, _ => lanes1_exact .f32x4_nearest .f32 .f32 4 .f32_nearest (by decide) vs
  | .f32x4_sqrt, _ => lanes1_exact_ok .f32x4_sqrt .f32 .f32 4 .f32_sqrt (by decide) (fun _ => id) vs
  | .f64x2_ceil, _ => lanes1_exact .f64x2_ceil .f64 .f64 2 .f64_ceil (by decide) vs
  | .f64x2_floor, _ => lanes1_exact .f64x2_floor .f64 .f64 2 .f64_floor (by decide) vs
  | .f64x2_trunc, _ => lanes1_exact .f64x2_trunc .f64 .f64 2 .f64_trunc (by decide) vs
  | .f64x2_nearest, _ => lanes1_exact .f64x2_nearest .f64 .f64 2 .f64_nearest (by decide) vs
  | .f64x2_sqrt, _ => lanes1_exact_ok .f64x2_sqrt .f64 .f64 2 .f64_sqrt (by decide) (fun _ => id) vs
  | .f32x4_demote_f64x2_zero, _ => lanes1_exact_ok .f32x4_demote_f64x2_zero .f64 .f32 2 .f32_demote_f64 (by decide) (fun _ => id) vs
  | .f64x2_promote_low_f32x4, _ => lanes1_exact_ok .f64x2_promote_low_f32x4 .f32 .f64 2 .f64_promote_f32 (by decide) (fun _ => id) vs
  | .i32x4_trunc_sat_f32x4_s, _ => lanes1_exact_ok .i32x4_trunc_sat_f32x4_s .f32 .i32 4 .i32_trunc_sat_f32_s (by decide) (fun _ => id) vs
  | .i32x4_trunc_sat_f32x4_u, _ => lanes1_exact_ok .i32x4_trunc_sat_f32x4_u .f32 .i32 4 .i32_trunc_sat_f32_u (by decide) (fun _ => id) vs
  | .i32x4_trunc_sat_f64x2_s_zero, _ => lanes1_exact_ok .i32x4_trunc_sat_f64x2_s_zero .f64 .i32 2 .i32_trunc_sat_f64_s (by decide) (fun _ => id) vs
  | .i32x4_trunc_sat_f64x2_u_zero, _ => lanes1_exact_ok .i32x4_trunc_sat_f64x2_u_zero .f64 .i32 2 .i32_trunc_sat_f64_u (by decide) (fun _ => id) vs
  | .f32x4_convert_i32x4_s, _ => lanes1_exact_ok .f32x4_convert_i32x4_s .i32 .f32 4 .f32_convert_i32_s (by decide) (fun _ => id) vs
  | .f32x4_convert_i32x4_u, _ => lanes1_exact_ok .f32x4_convert_i32x4_u .i32 .f32 4 .f32_convert_i32_u (by decide) (fun _ => id) vs
  | .f64x2_convert_low_i32x4_s, _ => lanes1_exact_ok .f64x2_convert_low_i32x4_s .i32 .f64 2 .f64_convert_i32_s (by decide) (fun _ => id) vs
  | .f64x2_convert_low_i32x4_u, _ => lanes1_exact_ok .f64x2_convert_low_i32x4_u .i32 .f64 2 .f64_convert_i32_u (by decide) (fun _ => id) vs
  | .f32x4_abs, _ => f32x4_abs_exact vs
  | .f32x4_neg, _ => f32x4_neg_exact vs
  | .f64x2_abs, _ => f64x2_abs_exact vs
  | .f64x2_neg, _ => f64x2_neg_exact vs
  | .f32x4_add, _ => lanes2_exact_ok .f32x4_add .f32 .f32_add (by decide) (fun _ => ⟨_, rfl⟩) (fun _ _ => id) vs
  | .f32x4_sub, _ => lanes2_exact_ok .f32x4_sub .f32 .f32_sub (by decide) (fun _ => ⟨_, rfl⟩) (fun _ _ => id) vs
  | .f32x4_mul, _ => lanes2_exact_ok .f32x4_mul .f32 .f32_mul (by decide) (fun _ => ⟨_, rfl⟩) (fun _ _ => id) vs
  | .f32x4_div, _ => lanes2_exact_ok .f32x4_div .f32 .f32_div (by decide) (fun _ => ⟨_, rfl⟩) (fun _ _ => id) vs
  | .f32x4_min, _ => lanes2_exact .f32x4_min .f32 .f32_min (by decide) (fun _ => ⟨_, rfl⟩) vs
  | .f32x4_max, _ => lanes2_exact .f32x4_max .f32 .f32_max (by decide) (fun _ => ⟨_, rfl⟩) vs
  | .f32x4_eq, _ => lanesCmp_exact .f32x4_eq .w32 Num.equal (by simp [compareLanes]) (fun _ => ⟨_, rfl⟩) vs
  | .f32x4_ne, _ => lanesCmp_exact .f32x4_ne .w32 (fun x y => !x.equal y) (by simp [compareLanes]) (fun _ => ⟨_, rfl⟩) vs
  | .f32x4_lt, _ => lanesCmp_exact .f32x4_lt .w32 Num.less (by simp [compareLanes]) (fun _ => ⟨_, rfl⟩) vs
  | .f32x4_gt, _ => lanesCmp_exact .f32x4_gt .w32 (fun x y => y.less x) (by simp [compareLanes]) (fun _ => ⟨_, rfl⟩) vs
  | .f32x4_le, _ => lanesCmp_exact .f32x4_le .w32 (fun x y => x.less y || x.equal y) (by simp [compareLanes]) (fun _ => ⟨_, rfl⟩) vs
  | .f32x4_ge, _ => lanesCmp_exact .f32x4_ge .w32 (fun x y => y.less x || y.equal x) (by simp [compareLanes]) (fun _ => ⟨_, rfl⟩) vs
  | .f32x4_pmin, _ => f32x4_pmin_exact vs
  | .f32x4_pmax, _ => f32x4_pmax_exact vs
  | .f64x2_add, _ => lanes2_exact_ok .f64x2_add .f64 .f64_add (by decide) (fun _ => ⟨_, rfl⟩) (fun _ _ => id) vs
  | .f64x2_sub, _ => lanes2_exact_ok .f64x2_sub .f64 .f64_sub (by decide) (fun _ => ⟨_, rfl⟩) (fun _ _ => id) vs
  | .f64x2_mul, _ => lanes2_exact_ok .f64x2_mul .f64 .f64_mul (by decide) (fun _ => ⟨_, rfl⟩) (fun _ _ => id) vs
  | .f64x2_div, _ => lanes2_exact_ok .f64x2_div .f64 .f64_div (by decide) (fun _ => ⟨_, rfl⟩) (fun _ _ => id) vs
  | .f64x2_min, _ => lanes2_exact .f64x2_min .f64 .f64_min (by decide) (fun _ => ⟨_, rfl⟩) vs
  | .f64x2_max, _ => lanes2_exact .f64x2_max .f64 .f64_max (by decide) (fun _ => ⟨_, rfl⟩) vs
  | .f64x2_eq, _ => lanesCmp_exact .f64x2_eq .w64 Num.equal (by simp [compareLanes]) (fun _ => ⟨_, rfl⟩) vs
  | .f64x2_ne, _ => lanesCmp_exact .f64x2_ne .w64 (fun x y => !x.equal y) (by simp [compareLanes]) (fun _ => ⟨_, rfl⟩) vs
  | .f64x2_lt, _ => lanesCmp_exact .f64x2_lt .w64 Num.less (by simp [compareLanes]) (fun _ => ⟨_, rfl⟩) vs
  | .f64x2_gt, _ => lanesCmp_exact .f64x2_gt .w64 (fun x y => y.less x) (by simp [compareLanes]) (fun _ => ⟨_, rfl⟩) vs
  | .f64x2_le, _ => lanesCmp_exact .f64x2_le .w64 (fun x y => x.less y || x.equal y) (by simp [compareLanes]) (fun _ => ⟨_, rfl⟩) vs
  | .f64x2_ge, _ => lanesCmp_exact .f64x2_ge .w64 (fun x y => y.less x || y.equal x) (by simp [compareLanes]) (fun _ => ⟨_, rfl⟩) vs
  | .f64x2_pmin, _ => f64x2_pmin_exact vs
  | .f64x2_pmax, _ => f64x2_pmax_exact vs

/-! ## All numeric instructions -/

theorem vecSem_isNone (op : VOp) : (vecSem op).isNone = floatLanes.elem op := by cases op <;> rfl
theorem vecSem_none (op : VOp) : vecSem op = none ↔ op ∈ floatLanes := by
  rw [← Option.isNone_iff_eq_none, vecSem_isNone, List.elem_iff]
theorem fvecDev_not (op : VOp) (h : floatLanes.elem op = false) (vs : List Val) : ¬ fvecDev op vs := by
  cases op <;> first | exact id | cases h

/-- **C83** The outcome of a numeric instruction (C24 shows that pywasm computes `numSem`) is one the specification allows exactly if
the operands are not listed. -/
theorem C83_numeric (op : NumOp) (vs : List Val) : NumSpec op vs (numSem op vs) ↔ ¬ NumDev op vs := by
  cases op with
  | int op => exact iff_of_true rfl id
  | flt op => exact C83_float op vs
  | vec op =>
    show (match vecSem op with | some f => (vecSem op).getD _ vs = f vs | none => fvecSpec op vs ((vecSem op).getD _ vs)) ↔ ¬ fvecDev op vs
    by_cases h : op ∈ floatLanes
    · rw [(vecSem_none op).mpr h]
      exact C83_vector op h vs
    · obtain ⟨f, hf⟩ := Option.ne_none_iff_exists'.mp (mt (vecSem_none op).mp h)
      rw [hf]
      exact iff_of_true rfl (fvecDev_not op (Bool.eq_false_iff.mpr (mt List.elem_iff.mp h)) vs)
  | lane op i =>
    refine iff_of_true ?_ id
    show (if i < laneCount op then laneSem op i else fun _ => .stuck) vs = if i < laneCount op then laneSem op i vs else .stuck
    split <;> rfl
  | shuffle sel =>
    refine iff_of_true ?_ id
    show (if sel.length = 16 ∧ ∀ j ∈ sel, j < 32 then bin128 (shuffle fun i => sel.getD i 0) else fun _ => .stuck) vs = _
    split <;> rfl

/-- Not every outcome is allowed: `f64.min` and `f64.ceil` return a signalling NaN as it is. -/
theorem C83_signalling_wrong :
    fromModel (evalFlt .f64_min) [f64 0, f64 0x7ff0000000000001] = .ok [f64 0x7ff0000000000001] ∧
    fromModel (evalFlt .f64_ceil) [f64 0x7ff0000000000001] = .ok [f64 0x7ff0000000000001] ∧
    ¬ NumSpec (.flt .f64_min) [f64 0, f64 0x7ff0000000000001] (.ok [f64 0x7ff0000000000001]) ∧
    ¬ NumSpec (.flt .f64_ceil) [f64 0x7ff0000000000001] (.ok [f64 0x7ff0000000000001]) := by
  have sig : SignallingNaN .w64 (f64 0x7ff0000000000001) := (sNaN_iff64 _).mpr (by decide +kernel)
  have h1 : fromModel (evalFlt .f64_min) [f64 0, f64 0x7ff0000000000001] = .ok [f64 0x7ff0000000000001] := fm_ok (by decide +kernel)
  have h2 : fromModel (evalFlt .f64_ceil) [f64 0x7ff0000000000001] = .ok [f64 0x7ff0000000000001] := fm_ok (by decide +kernel)
  refine ⟨h1, h2, ?_, ?_⟩
  · rw [← h1]
    refine fun h => (C83_numeric (.flt .f64_min) _).mp h (.inr (.inr ⟨?_, sig⟩))
    rw [numAt_f64]; decide +kernel
  · rw [← h2]
    exact fun h => (C83_numeric (.flt .f64_ceil) _).mp h (.inr sig)

/-- `0 / 0` in doubles: the result must be the canonical NaN, of either sign, and it is. -/
example : NumSpec (.flt .f64_div) [f64 0, f64 0] (numSem (.flt .f64_div) [f64 0, f64 0]) := (C83_numeric _ _).mpr id
example : fromModel (evalFlt .f64_div) [f64 0, f64 0] = .ok [f64 0x7ff8000000000000] := fm_ok (by decide +kernel)
/-- The specification excludes others. -/
example : ¬ NumSpec (.flt .f64_div) [f64 0, f64 0] (.ok [f64 0x7ff8000000000001]) := by
  rintro ⟨r, ⟨-, -, h⟩, e⟩
  injection e with e; injection e with e _
  subst e
  have hn : numAt .w64 (f64 0x7ff8000000000001) = .nan := by rw [numAt_f64]; decide +kernel
  have hc := (h hn).2 (fun o ho h' => by
    simp only [List.mem_cons, List.not_mem_nil, or_false] at ho
    rcases ho with rfl | rfl <;> (rw [numAt_f64] at h'; exact absurd h' (by decide +kernel)))
  exact absurd hc (by show ¬ code64 (f64 _).low64 = inf64 + 2 ^ 51; rw [low64_f64]; decide +kernel)
/-- `f32.min(-0, +0)` is not listed, `f32.min(+0, -0)` is. -/
example : ¬ NumDev (.flt .f32_min) [f32 0, f32 0x80000000] ∧ NumDev (.flt .f32_min) [f32 0x80000000, f32 0] := by
  constructor
  · rintro ⟨h, -⟩; rw [numAt_f32] at h; exact absurd h (by decide +kernel)
  · exact ⟨by rw [numAt_f32]; decide +kernel, by rw [numAt_f32]; decide +kernel⟩
/-- A vector with a lane that loses its sign. -/
example : NumDev (.vec .f32x4_trunc) [v128 0x3f800000800000003f8000003f800000] := by
  refine ⟨2, by decide, ?_⟩
  show LosesSign .w32 IsTrunc (f32 (lane 32 (v128 _).low128 2))
  rw [low128_v128]
  refine ⟨0, by rw [numAt_f32]; decide +kernel, ?_⟩
  unfold IsTrunc IsFloor one Num.units
  norm_num

end Pywasm.Props
