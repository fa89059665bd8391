import Verif.Lemmas.NaN
import Verif.Props.Float
import Verif.Props.FloatArith
import Verif.Spec.Ref

/-!
# The scalar float instructions against their specification, family by family
-/

set_option exponentiation.threshold 3000

namespace Pywasm.Props
open Spec Ref

theorem fm_ok {m : VM Unit} {s s' : List Val} (h : m s = .ok () s') : fromModel m s = .ok s' := by unfold fromModel; rw [h]
theorem fm_stuck {m : VM Unit} {s s' : List Val} (h : m s = .error .index s') : fromModel m s = .stuck := by unfold fromModel; rw [h]
theorem fm_trap {m : VM Unit} {s s' : List Val} {e : Err} (h : m s = .error e s') (he : e = .value ∨ e = .overflow) : fromModel m s = .trap := by
  unfold fromModel; rw [h]; rcases he with rfl | rfl <;> rfl

theorem unary_iff {m : VM Unit} {R : Val → Val → Prop} {D : List Val → Prop} (h0 : m [] = .error .index []) (hD : ¬ D [])
    (h : ∀ a s, ∃ r, m (a :: s) = .ok () (r :: s) ∧ (R a r ↔ ¬ D (a :: s))) (vs : List Val) : unary R vs (fromModel m vs) ↔ ¬ D vs := by
  cases vs with
  | nil => rw [fm_stuck h0]; exact iff_of_true rfl hD
  | cons a s =>
    obtain ⟨r, h1, h2⟩ := h a s
    rw [fm_ok h1, ← h2]
    constructor
    · rintro ⟨r', hr, e⟩
      injection e with e; injection e with e _
      exact e ▸ hr
    · exact fun hr => ⟨r, hr, rfl⟩

theorem binary_iff {m : VM Unit} {R : Val → Val → Val → Prop} {D : List Val → Prop} (h0 : m [] = .error .index [])
    (h1 : ∀ b, ∃ s, m [b] = .error .index s) (hD : ¬ D []) (hD1 : ∀ b, ¬ D [b])
    (h : ∀ a b s, ∃ r, m (b :: a :: s) = .ok () (r :: s) ∧ (R a b r ↔ ¬ D (b :: a :: s))) (vs : List Val) :
    binary R vs (fromModel m vs) ↔ ¬ D vs := by
  match vs with
  | [] => rw [fm_stuck h0]; exact iff_of_true rfl hD
  | [b] => obtain ⟨s, h1⟩ := h1 b; rw [fm_stuck h1]; exact iff_of_true rfl (hD1 b)
  | b :: a :: s =>
    obtain ⟨r, h1, h2⟩ := h a b s
    rw [fm_ok h1, ← h2]
    constructor
    · rintro ⟨r', hr, e⟩
      injection e with e; injection e with e _
      exact e ▸ hr
    · exact fun hr => ⟨r, hr, rfl⟩

theorem evalFlt_nil (op : FOp) : evalFlt op [] = .error .index [] := by cases op <;> rfl

/-! ## NaNs at the level of cells -/

theorem isNaN32_of_num {x : F32} (h : num32 x = .nan) : x.isNaN = true := by
  rcases F32.num_cases x with ⟨h1, _⟩ | ⟨_, _, h3⟩ | ⟨_, _, _, h3⟩
  · exact h1
  · rw [h3] at h; cases h
  · rw [h3] at h; cases h
theorem isNaN_ofF64 {y : F64} (h : (F32.ofF64 y).isNaN = true) : y.isNaN = true := by
  rcases F64.num_cases y with ⟨h1, _⟩ | ⟨_, h2, _⟩ | ⟨_, _, h3, _⟩
  · exact h1
  · rw [F32.isNaN_iff, (F32.ofF64_inf h2).2] at h; exact absurd h (lt_irrefl _)
  · rw [F32.isNaN_iff] at h
    have := (F32.ofF64_spec h3).2.2.1
    omega

theorem rule32 {ops : List (FW × Val)} {y : F64}
    (h : y.isNaN = true → (∀ o ∈ ops, numAt o.1 o.2 = .nan → CanonicalNaN o.1 o.2) → code64 y = inf64 + 2 ^ 51) :
    NaNRule ops .w32 (f32 (F32.ofF64 y)) := by
  intro hn
  rw [numAt_f32] at hn
  have hy := isNaN_ofF64 (isNaN32_of_num hn)
  show inf32 + 2 ^ 22 ≤ code32 (f32 _).low32 ∧ (_ → code32 (f32 _).low32 = inf32 + 2 ^ 22)
  rw [low32_f32, (F32.ofF64_nan hy).2]
  refine ⟨by unfold inf32; omega, fun hc => ?_⟩
  rw [h hy hc]
  rfl
theorem rule64 {ops : List (FW × Val)} {y : F64}
    (h : y.isNaN = true → inf64 + 2 ^ 51 ≤ code64 y ∧ ((∀ o ∈ ops, numAt o.1 o.2 = .nan → CanonicalNaN o.1 o.2) → code64 y = inf64 + 2 ^ 51)) :
    NaNRule ops .w64 (f64 y) := by
  intro hn
  rw [numAt_f64] at hn
  show inf64 + 2 ^ 51 ≤ code64 (f64 _).low64 ∧ (_ → code64 (f64 _).low64 = inf64 + 2 ^ 51)
  rw [low64_f64]
  exact h (isNaN_of_num hn)

theorem canon_toF64 {v : Val} (hn : (F32.toF64 v.low32).isNaN = true) (h : numAt .w32 v = .nan → CanonicalNaN .w32 v) :
    code64 (F32.toF64 v.low32) = inf64 + 2 ^ 51 := by
  rw [F32.toF64_isNaN] at hn
  have hc : code32 v.low32 = inf32 + 2 ^ 22 := h (F32.num_nan hn)
  rw [(F32.toF64_nan hn).2, hc]
  rfl

theorem nan32_1 {a : Val} {y : F64} (h : NanOf [F32.toF64 a.low32] y) : NaNRule [(.w32, a)] .w32 (f32 (F32.ofF64 y)) := by
  refine rule32 fun hy hc => ?_
  rcases h hy with ⟨x, hx, hn, rfl⟩ | h
  · simp only [List.mem_cons, List.not_mem_nil, or_false] at hx
    subst hx
    exact (quiet_arith hn).2 (canon_toF64 hn (hc (.w32, a) (by simp)))
  · exact h
theorem nan32_2 {a b : Val} {y : F64} (h : NanOf [F32.toF64 a.low32, F32.toF64 b.low32] y) :
    NaNRule [(.w32, a), (.w32, b)] .w32 (f32 (F32.ofF64 y)) := by
  refine rule32 fun hy hc => ?_
  rcases h hy with ⟨x, hx, hn, rfl⟩ | h
  · simp only [List.mem_cons, List.not_mem_nil, or_false] at hx
    rcases hx with rfl | rfl
    · exact (quiet_arith hn).2 (canon_toF64 hn (hc (.w32, a) (by simp)))
    · exact (quiet_arith hn).2 (canon_toF64 hn (hc (.w32, b) (by simp)))
  · exact h
theorem nan64_1 {a : Val} {y : F64} (h : NanOf [a.low64] y) : NaNRule [(.w64, a)] .w64 (f64 y) := by
  refine rule64 fun hy => ?_
  rcases h hy with ⟨x, hx, hn, rfl⟩ | h
  · simp only [List.mem_cons, List.not_mem_nil, or_false] at hx
    subst hx
    exact ⟨(quiet_arith hn).1, fun hc => (quiet_arith hn).2 (hc (.w64, a) (by simp) (F64.num_nan hn))⟩
  · exact ⟨h.ge, fun _ => h⟩
theorem nan64_2 {a b : Val} {y : F64} (h : NanOf [a.low64, b.low64] y) : NaNRule [(.w64, a), (.w64, b)] .w64 (f64 y) := by
  refine rule64 fun hy => ?_
  rcases h hy with ⟨x, hx, hn, rfl⟩ | h
  · simp only [List.mem_cons, List.not_mem_nil, or_false] at hx
    rcases hx with rfl | rfl
    · exact ⟨(quiet_arith hn).1, fun hc => (quiet_arith hn).2 (hc (.w64, a) (by simp) (F64.num_nan hn))⟩
    · exact ⟨(quiet_arith hn).1, fun hc => (quiet_arith hn).2 (hc (.w64, b) (by simp) (F64.num_nan hn))⟩
  · exact ⟨h.ge, fun _ => h⟩

/-! ## Comparisons -/

theorem cmp_exact (op : FOp) (w : FW) (f : Num → Num → Bool) (h : (op, w, f) ∈ cmpOps) (h1 : ∀ b, ∃ s, evalFlt op [b] = .error .index s)
    (vs : List Val) : compares w f vs (fromModel (evalFlt op) vs) ↔ ¬ False := by
  unfold compares
  exact binary_iff (R := fun a b r => r = bool (f (numAt w a) (numAt w b))) (D := fun _ => False) (evalFlt_nil op) h1 id (fun _ => id)
    (fun a b s => ⟨_, C57_compare op w f h b a s, iff_of_true rfl id⟩) vs

/-! ## Arithmetic -/

theorem arith_exact32 (op : FOp) (g : F64 → F64 → F64) (spec : FW → Num → Num → Num → Prop) (h : (op, .w32, spec) ∈ arithOps)
    (hr : ∀ a b s, evalFlt op (b :: a :: s) = .ok () (f32 (F32.ofF64 (g (F32.toF64 a.low32) (F32.toF64 b.low32))) :: s))
    (hn : ∀ x y : F64, NanOf [x, y] (g x y)) (h1 : ∀ b, ∃ s, evalFlt op [b] = .error .index s) (vs : List Val) :
    arith2 .w32 (spec .w32) vs (fromModel (evalFlt op) vs) ↔ ¬ False := by
  refine binary_iff (D := fun _ => False) (evalFlt_nil op) h1 id (fun _ => id) (fun a b s => ⟨_, hr a b s, iff_of_true ?_ id⟩) vs
  obtain ⟨r, e, h2, h3⟩ := C58_arith op .w32 spec h b a s
  rw [hr] at e
  injection e with _ e; injection e with e _
  rw [e]
  exact ⟨h2, h3, e ▸ nan32_2 (hn _ _)⟩
theorem arith_exact64 (op : FOp) (g : F64 → F64 → F64) (spec : FW → Num → Num → Num → Prop) (h : (op, .w64, spec) ∈ arithOps)
    (hr : ∀ a b s, evalFlt op (b :: a :: s) = .ok () (f64 (g a.low64 b.low64) :: s))
    (hn : ∀ x y : F64, NanOf [x, y] (g x y)) (h1 : ∀ b, ∃ s, evalFlt op [b] = .error .index s) (vs : List Val) :
    arith2 .w64 (spec .w64) vs (fromModel (evalFlt op) vs) ↔ ¬ False := by
  refine binary_iff (D := fun _ => False) (evalFlt_nil op) h1 id (fun _ => id) (fun a b s => ⟨_, hr a b s, iff_of_true ?_ id⟩) vs
  obtain ⟨r, e, h2, h3⟩ := C58_arith op .w64 spec h b a s
  rw [hr] at e
  injection e with _ e; injection e with e _
  rw [e]
  exact ⟨h2, h3, e ▸ nan64_2 (hn _ _)⟩

theorem f32_add_run (a b : Val) (s : List Val) :
    evalFlt .f32_add (b :: a :: s) = .ok () (f32 (F32.ofF64 (F64.add (F32.toF64 a.low32) (F32.toF64 b.low32))) :: s) := by
  rw [evalFlt, VM.bind_eq (VM.popF32_cons _ _), VM.bind_eq (VM.popF32_cons _ _), VM.bind_eq (VM.lift_ok (fromF32_eq _)), VM.push_eq]
theorem f32_sub_run (a b : Val) (s : List Val) :
    evalFlt .f32_sub (b :: a :: s) = .ok () (f32 (F32.ofF64 (F64.sub (F32.toF64 a.low32) (F32.toF64 b.low32))) :: s) := by
  rw [evalFlt, VM.bind_eq (VM.popF32_cons _ _), VM.bind_eq (VM.popF32_cons _ _), VM.bind_eq (VM.lift_ok (fromF32_eq _)), VM.push_eq]
theorem f32_mul_run (a b : Val) (s : List Val) :
    evalFlt .f32_mul (b :: a :: s) = .ok () (f32 (F32.ofF64 (F64.mul (F32.toF64 a.low32) (F32.toF64 b.low32))) :: s) := by
  rw [evalFlt, VM.bind_eq (VM.popF32_cons _ _), VM.bind_eq (VM.popF32_cons _ _), VM.bind_eq (VM.lift_ok (fromF32_eq _)), VM.push_eq]
theorem f32_div_run (a b : Val) (s : List Val) :
    evalFlt .f32_div (b :: a :: s) = .ok () (f32 (F32.ofF64 (Arith.F64.div (F32.toF64 a.low32) (F32.toF64 b.low32))) :: s) := by
  rw [evalFlt, VM.bind_eq (VM.popF32_cons _ _), VM.bind_eq (VM.popF32_cons _ _)]
  rw [VM.bind_eq (VM.lift_ok (fromF32_eq _)), VM.push_eq]
  unfold Arith.F32.div Arith.F32.fit
  rw [F32.ofF64_idem]
theorem f64_add_run (a b : Val) (s : List Val) :
    evalFlt .f64_add (b :: a :: s) = .ok () (f64 (F64.add a.low64 b.low64) :: s) := by
  rw [evalFlt, VM.bind_eq (VM.popF64_cons _ _), VM.bind_eq (VM.popF64_cons _ _), VM.bind_eq (VM.lift_ok (fromF64_eq _)), VM.push_eq]
theorem f64_sub_run (a b : Val) (s : List Val) :
    evalFlt .f64_sub (b :: a :: s) = .ok () (f64 (F64.sub a.low64 b.low64) :: s) := by
  rw [evalFlt, VM.bind_eq (VM.popF64_cons _ _), VM.bind_eq (VM.popF64_cons _ _), VM.bind_eq (VM.lift_ok (fromF64_eq _)), VM.push_eq]
theorem f64_mul_run (a b : Val) (s : List Val) :
    evalFlt .f64_mul (b :: a :: s) = .ok () (f64 (F64.mul a.low64 b.low64) :: s) := by
  rw [evalFlt, VM.bind_eq (VM.popF64_cons _ _), VM.bind_eq (VM.popF64_cons _ _), VM.bind_eq (VM.lift_ok (fromF64_eq _)), VM.push_eq]
theorem f64_div_run (a b : Val) (s : List Val) :
    evalFlt .f64_div (b :: a :: s) = .ok () (f64 (Arith.F64.div a.low64 b.low64) :: s) := by
  rw [evalFlt, VM.bind_eq (VM.popF64_cons _ _), VM.bind_eq (VM.popF64_cons _ _)]
  rw [VM.bind_eq (VM.lift_ok (fromF64_eq _)), VM.push_eq]

theorem sqrt_exact32 (vs : List Val) : arith1 .w32 .w32 (SqrtSpec .w32) vs (fromModel (evalFlt .f32_sqrt) vs) ↔ ¬ False := by
  refine unary_iff (D := fun _ => False) (evalFlt_nil _) id (fun a s => ?_) vs
  obtain ⟨r, e, h2, h3⟩ := (C58_sqrt a s).1
  refine ⟨r, e, iff_of_true ⟨h2, h3, ?_⟩ id⟩
  rw [evalFlt, VM.bind_eq (VM.popF32_cons _ _)] at e
  rw [VM.bind_eq (VM.lift_ok (fromF32_eq _)), VM.push_eq] at e
  injection e with _ e; injection e with e _
  rw [← e]
  exact nan32_1 (nanOf_sqrt _)
theorem sqrt_exact64 (vs : List Val) : arith1 .w64 .w64 (SqrtSpec .w64) vs (fromModel (evalFlt .f64_sqrt) vs) ↔ ¬ False := by
  refine unary_iff (D := fun _ => False) (evalFlt_nil _) id (fun a s => ?_) vs
  obtain ⟨r, e, h2, h3⟩ := (C58_sqrt a s).2
  refine ⟨r, e, iff_of_true ⟨h2, h3, ?_⟩ id⟩
  rw [evalFlt, VM.bind_eq (VM.popF64_cons _ _)] at e
  rw [VM.bind_eq (VM.lift_ok (fromF64_eq _)), VM.push_eq] at e
  injection e with _ e; injection e with e _
  rw [← e]
  exact nan64_1 (nanOf_sqrt _)

/-! ## Signs -/

theorem sNaN_iff (v : Val) : SignallingNaN .w32 v ↔ sNaN32 v.low32 := by
  unfold SignallingNaN ArithmeticNaN sNaN32
  show num32 v.low32 = .nan ∧ ¬ inf32 + 2 ^ 22 ≤ code32 v.low32 ↔ _
  rw [not_le]
  refine and_congr_left fun _ => ⟨fun h => (F32.isNaN_iff _).mp (isNaN32_of_num h), fun h => F32.num_nan ((F32.isNaN_iff _).mpr h)⟩
theorem sNaN_iff64 (v : Val) : SignallingNaN .w64 v ↔ inf64 < code64 v.low64 ∧ code64 v.low64 < inf64 + 2 ^ 51 := by
  unfold SignallingNaN ArithmeticNaN
  show num64 v.low64 = .nan ∧ ¬ inf64 + 2 ^ 51 ≤ code64 v.low64 ↔ _
  rw [not_le]
  refine and_congr_left fun _ => ⟨fun h => (F64.isNaN_iff _).mp (isNaN_of_num h), fun h => F64.num_nan ((F64.isNaN_iff _).mpr h)⟩

theorem abs_exact32 (vs : List Val) : unary (fun a r => SameBits .w32 a false r) vs (fromModel (evalFlt .f32_abs) vs) ↔ ¬ False := by
  refine unary_iff (D := fun _ => False) (evalFlt_nil _) id (fun a s => ?_) vs
  obtain ⟨r, e, h⟩ := (C34_f32_abs_neg a s).1
  exact ⟨r, e, iff_of_true h id⟩
theorem neg_exact32 (vs : List Val) : unary (fun a r => SameBits .w32 a (!negAt .w32 a) r) vs (fromModel (evalFlt .f32_neg) vs) ↔ ¬ False := by
  refine unary_iff (D := fun _ => False) (evalFlt_nil _) id (fun a s => ?_) vs
  obtain ⟨r, e, h⟩ := (C34_f32_abs_neg a s).2
  exact ⟨r, e, iff_of_true h id⟩
theorem abs_exact64 (vs : List Val) : unary (fun a r => SameBits .w64 a false r) vs (fromModel (evalFlt .f64_abs) vs) ↔ ¬ False := by
  refine unary_iff (D := fun _ => False) (evalFlt_nil _) id (fun a s => ?_) vs
  obtain ⟨r, e, h⟩ := (C34_f64_abs_neg a s).1
  exact ⟨r, e, iff_of_true h id⟩
theorem neg_exact64 (vs : List Val) : unary (fun a r => SameBits .w64 a (!negAt .w64 a) r) vs (fromModel (evalFlt .f64_neg) vs) ↔ ¬ False := by
  refine unary_iff (D := fun _ => False) (evalFlt_nil _) id (fun a s => ?_) vs
  obtain ⟨r, e, h⟩ := (C34_f64_abs_neg a s).2
  exact ⟨r, e, iff_of_true h id⟩
theorem copysign_exact64 (vs : List Val) :
    binary (fun a b r => SameBits .w64 a (negAt .w64 b) r) vs (fromModel (evalFlt .f64_copysign) vs) ↔ ¬ False := by
  refine binary_iff (D := fun _ => False) (evalFlt_nil _) (fun b => ⟨_, rfl⟩) id (fun _ => id) (fun a b s => ?_) vs
  obtain ⟨r, e, h1, h2⟩ := C34_f64_copysign b a s
  refine ⟨_, e, iff_of_true ⟨rfl, ?_, ?_⟩ id⟩
  · show code64 (f64 r).low64 = _; rw [low64_f64]; exact h1
  · show (f64 r).low64.msb = _; rw [low64_f64]; exact h2
theorem copysign_exact32 (vs : List Val) :
    binary (fun a b r => SameBits .w32 a (negAt .w32 b) r) vs (fromModel (evalFlt .f32_copysign) vs) ↔ ¬ fltDev .f32_copysign vs := by
  refine binary_iff (evalFlt_nil _) (fun b => ⟨_, rfl⟩) id (fun _ => id) (fun a b s => ?_) vs
  show ∃ r, _ ∧ (_ ↔ ¬ SignallingNaN .w32 a)
  rw [sNaN_iff]
  by_cases h : sNaN32 a.low32
  · refine ⟨f32 (F32.ofF64 (F64.copysign (F32.toF64 a.low32) (F32.toF64 b.low32))), ?_, iff_of_false ?_ (not_not.mpr h)⟩
    · rw [evalFlt, VM.bind_eq (VM.popF32_cons _ _), VM.bind_eq (VM.popF32_cons _ _), VM.bind_eq (VM.lift_ok (fromF32_eq _)), VM.push_eq]
    · rintro ⟨-, h2, -⟩
      change code32 (f32 _).low32 = code32 a.low32 at h2
      rw [low32_f32] at h2
      have := F32.ofF64_not_sNaN (F64.copysign (F32.toF64 a.low32) (F32.toF64 b.low32))
      unfold sNaN32 at this h
      rw [h2] at this
      exact this h
  · obtain ⟨r, e, h1, h2⟩ := C34_f32_copysign_partial b a s h
    refine ⟨_, e, iff_of_true ⟨rfl, ?_, ?_⟩ h⟩
    · show code32 (f32 r).low32 = _; rw [low32_f32]; exact h1
    · show (f32 r).low32.msb = _; rw [low32_f32]; exact h2

theorem reinterpret_exact (vs : List Val) :
    (unary (fun a r => r.ty = .i32 ∧ r.low32 = a.low32) vs (fromModel (evalFlt .i32_reinterpret_f32) vs) ↔ ¬ False) ∧
    (unary (fun a r => r.ty = .f32 ∧ r.low32 = a.low32) vs (fromModel (evalFlt .f32_reinterpret_i32) vs) ↔ ¬ False) ∧
    (unary (fun a r => r.ty = .i64 ∧ r.low64 = a.low64) vs (fromModel (evalFlt .i64_reinterpret_f64) vs) ↔ ¬ False) ∧
    (unary (fun a r => r.ty = .f64 ∧ r.low64 = a.low64) vs (fromModel (evalFlt .f64_reinterpret_i64) vs) ↔ ¬ False) := by
  refine ⟨?_, ?_, ?_, ?_⟩ <;> refine unary_iff (D := fun _ => False) (evalFlt_nil _) id (fun a s => ?_) vs
  · obtain ⟨r, e, h⟩ := (C08_reinterpret a s).1; exact ⟨r, e, iff_of_true h id⟩
  · obtain ⟨r, e, h⟩ := (C08_reinterpret a s).2.1; exact ⟨r, e, iff_of_true h id⟩
  · obtain ⟨r, e, h⟩ := (C08_reinterpret a s).2.2.1; exact ⟨r, e, iff_of_true h id⟩
  · obtain ⟨r, e, h⟩ := (C08_reinterpret a s).2.2.2; exact ⟨r, e, iff_of_true h id⟩

/-! ## Minimum and maximum -/

theorem Num.less_units {s s' : Bool} {m m' : Nat} (h1 : (Num.fin s m).less (.fin s' m') = false) (h2 : (Num.fin s' m').less (.fin s m) = false) :
    (s = s' ∧ m = m') ∨ (m = 0 ∧ m' = 0) := by
  change decide (Num.units (.fin s m) < Num.units (.fin s' m')) = false at h1
  change decide (Num.units (.fin s' m') < Num.units (.fin s m)) = false at h2
  rw [decide_eq_false_iff_not] at h1 h2
  unfold Num.units at h1 h2
  cases s <;> cases s' <;> simp only [Bool.false_eq_true, if_false, if_true] at h1 h2
  · left; exact ⟨rfl, by omega⟩
  · right; omega
  · right; omega
  · left; exact ⟨rfl, by omega⟩

theorem min_iff {x y : Num} (hx : x ≠ .nan) (hy : y ≠ .nan) :
    MinSpec x y (if y.less x then y else x) ↔ ¬ (x = .fin false 0 ∧ y = .fin true 0) := by
  unfold MinSpec
  rw [if_neg (by simp [hx, hy])]
  by_cases h1 : x.less y = true
  · have h2 : y.less x = false := Num.less_asymm h1
    rw [if_pos h1, h2]
    refine iff_of_true rfl ?_
    rintro ⟨rfl, rfl⟩; cases h1
  · rw [if_neg h1]
    by_cases h2 : y.less x = true
    · rw [if_pos h2, if_pos h2]
      refine iff_of_true rfl ?_
      rintro ⟨rfl, rfl⟩; cases h2
    · rw [if_neg h2, if_neg h2]
      rw [Bool.not_eq_true] at h1 h2
      match x, y with
      | .nan, _ => exact absurd rfl hx
      | .inf a, .inf b => cases a <;> cases b <;> first | cases h1; done | cases h2; done | simp
      | .inf a, .fin _ _ => cases a <;> first | (cases h1; done) | cases h2
      | .fin _ _, .inf a => cases a <;> first | (cases h1; done) | cases h2
      | .fin s m, .fin s' m' =>
        rcases Num.less_units h1 h2 with ⟨rfl, rfl⟩ | ⟨rfl, rfl⟩
        · cases s <;> simp [Num.neg]
        · cases s <;> cases s' <;> simp [Num.neg]
theorem max_iff {x y : Num} (hx : x ≠ .nan) (hy : y ≠ .nan) :
    MaxSpec x y (if x.less y then y else x) ↔ ¬ (x = .fin true 0 ∧ y = .fin false 0) := by
  unfold MaxSpec
  rw [if_neg (by simp [hx, hy])]
  by_cases h1 : x.less y = true
  · rw [if_pos h1, if_pos h1]
    refine iff_of_true rfl ?_
    rintro ⟨rfl, rfl⟩; cases h1
  · rw [if_neg h1, if_neg h1]
    by_cases h2 : y.less x = true
    · rw [if_pos h2]
      refine iff_of_true rfl ?_
      rintro ⟨rfl, rfl⟩; cases h2
    · rw [if_neg h2]
      rw [Bool.not_eq_true] at h1 h2
      match x, y with
      | .nan, _ => exact absurd rfl hx
      | .inf a, .inf b => cases a <;> cases b <;> first | cases h1; done | cases h2; done | simp
      | .inf a, .fin _ _ => cases a <;> first | (cases h1; done) | cases h2
      | .fin _ _, .inf a => cases a <;> first | (cases h1; done) | cases h2
      | .fin s m, .fin s' m' =>
        rcases Num.less_units h1 h2 with ⟨rfl, rfl⟩ | ⟨rfl, rfl⟩
        · cases s <;> simp [Num.neg]
        · cases s <;> cases s' <;> simp [Num.neg]

end Pywasm.Props
