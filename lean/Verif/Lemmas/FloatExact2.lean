import Verif.Lemmas.FloatExact
import Verif.Spec.FloatDev

/-!
# The scalar float instructions against their specification: selection, rounding and conversion
-/

set_option exponentiation.threshold 3000

namespace Pywasm.Props
open Spec Ref

/-! ## Minimum and maximum -/

theorem nan_same {w : FW} {ops : List (FW × Val)} {r v : Val} (hv : numAt w v = .nan) (hn : numAt w r = .nan)
    (hc : codeAt w r = codeAt w v) (hm : (w, v) ∈ ops) : NaNRule ops w r ↔ ¬ SignallingNaN w v := by
  unfold NaNRule SignallingNaN ArithmeticNaN CanonicalNaN
  rw [hc]
  refine ⟨fun h h' => h'.2 (h hn).1, fun h _ => ⟨not_not.mp fun h' => h ⟨hv, h'⟩, fun hall => hall _ hm hv⟩⟩
theorem nan_not {w : FW} {ops : List (FW × Val)} {r : Val} (hn : numAt w r ≠ .nan) : NaNRule ops w r := fun h => absurd h hn
theorem same64 (v : Val) : numAt .w64 (f64 v.low64) = numAt .w64 v ∧ codeAt .w64 (f64 v.low64) = codeAt .w64 v :=
  ⟨numAt_f64 _, by show code64 (f64 _).low64 = _; rw [low64_f64]; rfl⟩

theorem isNaN_ne {v : Val} (h : ¬ F64.isNaN v.low64 = true) : numAt .w64 v ≠ .nan := fun h' => h (isNaN_of_num h')
theorem isNaN_ne32 {v : Val} (h : ¬ F32.isNaN v.low32 = true) : numAt .w32 v ≠ .nan := fun h' => h (isNaN32_of_num h')

/-- The last of the NaN operands, or a choice between numbers, in doubles. -/
theorem pick64 {op : FOp} {g : F64 → F64 → F64} {S : Num → Num → Num → Prop} {c : Num → Num → Bool} {z1 z2 : Num}
    (hr : ∀ a b s, evalFlt op (b :: a :: s) = .ok () (f64 (g a.low64 b.low64) :: s))
    (h1 : ∀ b, ∃ s, evalFlt op [b] = .error .index s)
    (hb : ∀ a b : F64, b.isNaN = true → g a b = b) (ha : ∀ a b : F64, ¬ b.isNaN = true → a.isNaN = true → g a b = a)
    (hg : ∀ a b : F64, ¬ b.isNaN = true → ¬ a.isNaN = true → g a b = if c (num64 a) (num64 b) then b else a)
    (hS : ∀ x y, x = .nan ∨ y = .nan → S x y .nan)
    (hS' : ∀ x y, x ≠ .nan → y ≠ .nan → (S x y (if c x y then y else x) ↔ ¬ (x = z1 ∧ y = z2))) (hz1 : z1 ≠ .nan) (hz2 : z2 ≠ .nan)
    (hD : ¬ fltDev op []) (hD1 : ∀ b, ¬ fltDev op [b])
    (hDev : ∀ a b s, fltDev op (b :: a :: s) ↔ ((numAt .w64 a = z1 ∧ numAt .w64 b = z2) ∨
      SignallingNaN .w64 b ∨ (numAt .w64 b ≠ .nan ∧ SignallingNaN .w64 a))) (vs : List Val) :
    arith2 .w64 S vs (fromModel (evalFlt op) vs) ↔ ¬ fltDev op vs := by
  refine binary_iff (evalFlt_nil op) h1 hD hD1 (fun a b s => ⟨_, hr a b s, ?_⟩) vs
  rw [hDev]
  by_cases nb : F64.isNaN b.low64 = true
  · have nb' : numAt .w64 b = .nan := F64.num_nan nb
    rw [hb _ _ nb, (same64 b).1, nan_same nb' ((same64 b).1.trans nb') (same64 b).2 (by simp), nb']
    constructor
    · rintro ⟨-, -, h⟩ (⟨-, h'⟩ | h' | ⟨h', -⟩)
      · exact hz2 h'.symm
      · exact h h'
      · exact h' rfl
    · exact fun h => ⟨rfl, hS _ _ (.inr rfl), fun h' => h (.inr (.inl h'))⟩
  · have nb' := isNaN_ne nb
    by_cases na : F64.isNaN a.low64 = true
    · have na' : numAt .w64 a = .nan := F64.num_nan na
      rw [ha _ _ nb na, (same64 a).1, nan_same na' ((same64 a).1.trans na') (same64 a).2 (by simp), na']
      constructor
      · rintro ⟨-, -, h⟩ (⟨h', -⟩ | h' | ⟨-, h'⟩)
        · exact hz1 h'.symm
        · exact nb' h'.1
        · exact h h'
      · exact fun h => ⟨rfl, hS _ _ (.inl rfl), fun h' => h (.inr (.inr ⟨nb', h'⟩))⟩
    · have na' := isNaN_ne na
      have e : numAt .w64 (f64 (g a.low64 b.low64)) = if c (numAt .w64 a) (numAt .w64 b) then numAt .w64 b else numAt .w64 a := by
        rw [numAt_f64, hg _ _ nb na]
        show num64 (if c (num64 a.low64) (num64 b.low64) then _ else _) = if c (num64 a.low64) (num64 b.low64) then num64 b.low64 else num64 a.low64
        split <;> rfl
      rw [e, hS' _ _ na' nb']
      constructor
      · rintro ⟨-, h, -⟩ (h' | h' | ⟨-, h'⟩)
        · exact h h'
        · exact nb' h'.1
        · exact na' h'.1
      · refine fun h => ⟨rfl, fun h' => h (.inl h'), nan_not ?_⟩
        rw [e]; split
        · exact nb'
        · exact na'

theorem min64_b {a b : F64} (h : b.isNaN = true) : Arith.F64.min a b = b ∧ Arith.F64.max a b = b := by
  unfold Arith.F64.min Arith.F64.max
  simp only
  rw [if_pos h, if_pos h]; exact ⟨rfl, rfl⟩
theorem min64_a {a b : F64} (hb : ¬ b.isNaN = true) (h : a.isNaN = true) : Arith.F64.min a b = a ∧ Arith.F64.max a b = a := by
  unfold Arith.F64.min Arith.F64.max
  simp only
  rw [if_neg hb, if_neg hb, if_pos h, if_pos h]; exact ⟨rfl, rfl⟩

theorem min_exact64 (vs : List Val) : arith2 .w64 MinSpec vs (fromModel (evalFlt .f64_min) vs) ↔ ¬ fltDev .f64_min vs := by
  refine pick64 (g := Arith.F64.min) (c := fun x y => y.less x) (z1 := .fin false 0) (z2 := .fin true 0) (fun a b s => ?_) (fun b => ⟨_, rfl⟩)
    (fun _ _ h => (min64_b h).1) (fun _ _ h h' => (min64_a h h').1)
    (fun _ _ h h' => (min64_num (Bool.not_eq_true _ ▸ h') (Bool.not_eq_true _ ▸ h)).1) (fun x y h => ?_)
    (fun x y hx hy => min_iff hx hy) (by simp) (by simp) id (fun _ => id) (fun _ _ _ => Iff.rfl) vs
  · rw [evalFlt, VM.bind_eq (VM.popF64_cons _ _), VM.bind_eq (VM.popF64_cons _ _), VM.bind_eq (VM.lift_ok (fromF64_eq _)), VM.push_eq]
  · unfold MinSpec; rw [if_pos h]
theorem max_exact64 (vs : List Val) : arith2 .w64 MaxSpec vs (fromModel (evalFlt .f64_max) vs) ↔ ¬ fltDev .f64_max vs := by
  refine pick64 (g := Arith.F64.max) (c := fun x y => x.less y) (z1 := .fin true 0) (z2 := .fin false 0) (fun a b s => ?_) (fun b => ⟨_, rfl⟩)
    (fun _ _ h => (min64_b h).2) (fun _ _ h h' => (min64_a h h').2)
    (fun _ _ h h' => (min64_num (Bool.not_eq_true _ ▸ h') (Bool.not_eq_true _ ▸ h)).2) (fun x y h => ?_)
    (fun x y hx hy => max_iff hx hy) (by simp) (by simp) id (fun _ => id) (fun _ _ _ => Iff.rfl) vs
  · rw [evalFlt, VM.bind_eq (VM.popF64_cons _ _), VM.bind_eq (VM.popF64_cons _ _), VM.bind_eq (VM.lift_ok (fromF64_eq _)), VM.push_eq]
  · unfold MaxSpec; rw [if_pos h]

/-- The same in singles; the way through doubles makes the NaNs arithmetic. -/
theorem pick32 {op : FOp} {g : F64 → F64 → F64} {S : Num → Num → Num → Prop} {c : Num → Num → Bool} {z1 z2 : Num}
    (hr : ∀ a b s, evalFlt op (b :: a :: s) = .ok () (f32 (F32.ofF64 (g (F32.toF64 a.low32) (F32.toF64 b.low32))) :: s))
    (h1 : ∀ b, ∃ s, evalFlt op [b] = .error .index s)
    (hb : ∀ a b : F64, b.isNaN = true → g a b = b) (ha : ∀ a b : F64, ¬ b.isNaN = true → a.isNaN = true → g a b = a)
    (hg : ∀ a b : F64, ¬ b.isNaN = true → ¬ a.isNaN = true → g a b = if c (num64 a) (num64 b) then b else a)
    (hc : ∀ x y, c (x.scale (2 ^ 925)) (y.scale (2 ^ 925)) = c x y)
    (hS : ∀ x y, x = .nan ∨ y = .nan → S x y .nan)
    (hS' : ∀ x y, x ≠ .nan → y ≠ .nan → (S x y (if c x y then y else x) ↔ ¬ (x = z1 ∧ y = z2))) (hz1 : z1 ≠ .nan) (hz2 : z2 ≠ .nan)
    (hD : ¬ fltDev op []) (hD1 : ∀ b, ¬ fltDev op [b])
    (hDev : ∀ a b s, fltDev op (b :: a :: s) ↔ (numAt .w32 a = z1 ∧ numAt .w32 b = z2)) (vs : List Val) :
    arith2 .w32 S vs (fromModel (evalFlt op) vs) ↔ ¬ fltDev op vs := by
  refine binary_iff (evalFlt_nil op) h1 hD hD1 (fun a b s => ⟨_, hr a b s, ?_⟩) vs
  rw [hDev, numAt_f32]
  by_cases nb : F32.isNaN b.low32 = true
  · have nb' : numAt .w32 b = .nan := F32.num_nan nb
    have nd : (F32.toF64 b.low32).isNaN = true := by rw [F32.toF64_isNaN, nb]
    rw [hb _ _ nd, num32_ofF64_nan nd]
    refine iff_of_true ⟨rfl, hS _ _ (.inr nb'), rule32 fun h hc => ?_⟩ (fun h => hz2 (h.2.symm.trans nb'))
    exact canon_toF64 h (hc (.w32, b) (by simp))
  · have nb' := isNaN_ne32 nb
    have nd : ¬ (F32.toF64 b.low32).isNaN = true := by rw [F32.toF64_isNaN]; exact nb
    by_cases na : F32.isNaN a.low32 = true
    · have na' : numAt .w32 a = .nan := F32.num_nan na
      have ne : (F32.toF64 a.low32).isNaN = true := by rw [F32.toF64_isNaN, na]
      rw [ha _ _ nd ne, num32_ofF64_nan ne]
      refine iff_of_true ⟨rfl, hS _ _ (.inl na'), rule32 fun h hc => ?_⟩ (fun h => hz1 (h.1.symm.trans na'))
      exact canon_toF64 h (hc (.w32, a) (by simp))
    · have na' := isNaN_ne32 na
      have ne : ¬ (F32.toF64 a.low32).isNaN = true := by rw [F32.toF64_isNaN]; exact na
      have hsa : ¬ sNaN32 a.low32 := fun h => na ((F32.isNaN_iff _).mpr h.1)
      have hsb : ¬ sNaN32 b.low32 := fun h => nb ((F32.isNaN_iff _).mpr h.1)
      have e : num32 (F32.ofF64 (g (F32.toF64 a.low32) (F32.toF64 b.low32))) =
          if c (numAt .w32 a) (numAt .w32 b) then numAt .w32 b else numAt .w32 a := by
        rw [hg _ _ nd ne, F32.num_toF64, F32.num_toF64, hc]
        show num32 (F32.ofF64 (if c (num32 a.low32) (num32 b.low32) then _ else _)) =
          if c (num32 a.low32) (num32 b.low32) then num32 b.low32 else num32 a.low32
        split
        · rw [F32.ofF64_toF64 hsb]
        · rw [F32.ofF64_toF64 hsa]
      rw [e, hS' _ _ na' nb']
      refine ⟨fun h => h.2.1, fun h => ⟨rfl, h, nan_not ?_⟩⟩
      rw [numAt_f32, e]; split
      · exact nb'
      · exact na'

theorem min_exact32 (vs : List Val) : arith2 .w32 MinSpec vs (fromModel (evalFlt .f32_min) vs) ↔ ¬ fltDev .f32_min vs := by
  refine pick32 (g := Arith.F64.min) (c := fun x y => y.less x) (z1 := .fin false 0) (z2 := .fin true 0) (fun a b s => ?_) (fun b => ⟨_, rfl⟩)
    (fun _ _ h => (min64_b h).1) (fun _ _ h h' => (min64_a h h').1)
    (fun _ _ h h' => (min64_num (Bool.not_eq_true _ ▸ h') (Bool.not_eq_true _ ▸ h)).1) (fun x y => Num.less_scale (Nat.two_pow_pos 925) y x)
    (fun x y h => ?_)
    (fun x y hx hy => min_iff hx hy) (by simp) (by simp) id (fun _ => id) (fun _ _ _ => Iff.rfl) vs
  · rw [evalFlt, VM.bind_eq (VM.popF32_cons _ _), VM.bind_eq (VM.popF32_cons _ _), VM.bind_eq (VM.lift_ok (fromF32_eq _)), VM.push_eq]
    unfold Arith.F32.min Arith.F32.fit
    rw [F32.ofF64_idem]
  · unfold MinSpec; rw [if_pos h]
theorem max_exact32 (vs : List Val) : arith2 .w32 MaxSpec vs (fromModel (evalFlt .f32_max) vs) ↔ ¬ fltDev .f32_max vs := by
  refine pick32 (g := Arith.F64.max) (c := fun x y => x.less y) (z1 := .fin true 0) (z2 := .fin false 0) (fun a b s => ?_) (fun b => ⟨_, rfl⟩)
    (fun _ _ h => (min64_b h).2) (fun _ _ h h' => (min64_a h h').2)
    (fun _ _ h h' => (min64_num (Bool.not_eq_true _ ▸ h') (Bool.not_eq_true _ ▸ h)).2) (fun x y => Num.less_scale (Nat.two_pow_pos 925) x y)
    (fun x y h => ?_)
    (fun x y hx hy => max_iff hx hy) (by simp) (by simp) id (fun _ => id) (fun _ _ _ => Iff.rfl) vs
  · rw [evalFlt, VM.bind_eq (VM.popF32_cons _ _), VM.bind_eq (VM.popF32_cons _ _), VM.bind_eq (VM.lift_ok (fromF32_eq _)), VM.push_eq]
    unfold Arith.F32.max Arith.F32.fit
    rw [F32.ofF64_idem]
  · unfold MaxSpec; rw [if_pos h]

/-! ## Rounding -/

theorem isRound_unique {d u k k' : Int} (hd : 0 < d) (h : IsRound d u k) (h' : IsRound d u k') : k = k' := by
  obtain ⟨a, b⟩ := h
  obtain ⟨a', b'⟩ := h'
  have tri : |(k - k') * d| ≤ |k * d - u| + |k' * d - u| := by
    have : (k - k') * d = (k * d - u) - (k' * d - u) := by ring
    rw [this]; exact abs_sub _ _
  rw [abs_mul, abs_of_pos hd] at tri
  have h1 : |k - k'| ≤ 1 := by
    by_contra hc
    have h2 : 2 ≤ |k - k'| := by omega
    have h3 : 2 * d ≤ |k - k'| * d := Int.mul_le_mul_of_nonneg_right h2 hd.le
    omega
  by_contra hne
  have h2 : |k - k'| = 1 := le_antisymm h1 (Int.one_le_abs (sub_ne_zero.mpr hne))
  rw [h2, one_mul] at tri
  have e1 := b (by omega)
  have e2 := b' (by omega)
  rw [abs_eq (by norm_num)] at h2
  omega

theorem round_fin {w : FW} {rel : Int → Int → Int → Prop} (hu : ∀ u k k', rel (one w) u k → rel (one w) u k' → k = k')
    {v r : Val} {sg : Bool} {m : Nat} {k : Int} (hv : numAt w v = .fin sg m) (hk : rel (one w) (numAt w v).units k)
    (hr : numAt w r = .fin (if k = 0 then false else sg) (k.natAbs * (one w).toNat)) :
    RoundSpec w rel (numAt w v) (numAt w r) ↔ ¬ LosesSign w rel v := by
  have ho : (one w).toNat = w.unit := by cases w <;> rfl
  rw [hr, ho]
  unfold LosesSign RoundSpec
  rw [hv] at hk ⊢
  simp only
  constructor
  · rintro ⟨k', hk', e⟩ ⟨m', e', h0⟩
    obtain rfl := hu _ _ _ hk hk'
    injection e' with e1 e2
    subst e1 e2
    obtain rfl := hu _ _ _ hk h0
    injection e with e1 _
    cases e1
  · intro h
    refine ⟨k, hk, ?_⟩
    by_cases h0 : k = 0
    · subst h0
      rw [if_pos rfl]
      cases sg
      · rfl
      · exact absurd ⟨m, rfl, hk⟩ h
    · rw [if_neg h0]

theorem not_loses {w : FW} {rel : Int → Int → Int → Prop} {v : Val} (h : ∀ s m, numAt w v ≠ .fin s m) : ¬ LosesSign w rel v :=
  fun ⟨_, e, _⟩ => h _ _ e

theorem rnd_nan64 {g : F64 → Int} {v : Val} (h : F64.isNaN v.low64 = true) (s : List Val) : rndCode .w64 g (v :: s) = .ok () (f64 v.low64 :: s) := by
  unfold rndCode
  simp only
  rw [VM.bind_eq (VM.popF64_cons _ _), h, Bool.true_or, if_pos rfl, VM.bind_eq (VM.lift_ok rfl), VM.bind_eq (VM.lift_ok (fromF64_eq _)), VM.push_eq]
theorem rnd_nan32 {g : F64 → Int} {v : Val} (h : (F32.toF64 v.low32).isNaN = true) (s : List Val) :
    rndCode .w32 g (v :: s) = .ok () (f32 (F32.ofF64 (F32.toF64 v.low32)) :: s) := by
  unfold rndCode
  simp only
  rw [VM.bind_eq (VM.popF32_cons _ _), h, Bool.true_or, if_pos rfl, VM.bind_eq (VM.lift_ok rfl), VM.bind_eq (VM.lift_ok (fromF32_eq _)), VM.push_eq]

theorem round_exact64 (op : FOp) (g : F64 → Int) (rel : Int → Int → Int → Prop) (h : (op, .w64, rel) ∈ roundOps)
    (hev : ∀ s, evalFlt op s = rndCode .w64 g s) (hu : ∀ u k k', rel (one .w64) u k → rel (one .w64) u k' → k = k')
    (hD : ¬ fltDev op []) (hDev : ∀ v s, fltDev op (v :: s) ↔ (LosesSign .w64 rel v ∨ SignallingNaN .w64 v)) (vs : List Val) :
    arith1 .w64 .w64 (RoundSpec .w64 rel) vs (fromModel (evalFlt op) vs) ↔ ¬ fltDev op vs := by
  refine unary_iff (evalFlt_nil op) hD (fun v s => ?_) vs
  rw [hDev]
  by_cases nv : F64.isNaN v.low64 = true
  · have nv' : numAt .w64 v = .nan := F64.num_nan nv
    refine ⟨f64 v.low64, by rw [hev, rnd_nan64 nv], ?_⟩
    rw [(same64 v).1, nan_same nv' ((same64 v).1.trans nv') (same64 v).2 (by simp)]
    constructor
    · rintro ⟨-, -, h⟩ (h' | h')
      · exact not_loses (by rw [nv']; simp) h'
      · exact h h'
    · exact fun h => ⟨rfl, by rw [nv']; rfl, fun h' => h (.inr h')⟩
  · have nv' := isNaN_ne nv
    obtain ⟨r, e, ty, -, h2, h3⟩ := C36_rounding_partial op .w64 rel h v s
    refine ⟨r, e, ?_⟩
    have hns : ¬ SignallingNaN .w64 v := fun h => nv' h.1
    rw [or_iff_left hns]
    rcases hv : numAt .w64 v with _ | sg | ⟨sg, m⟩
    · exact absurd hv nv'
    · have hr := h2 sg hv
      refine iff_of_true ⟨ty, ?_, nan_not ?_⟩ (not_loses (by rw [hv]; simp))
      · rw [hr]; rfl
      · rw [hr]; simp
    · obtain ⟨k, hk, hr⟩ := h3 sg m hv
      rw [← hv, ← round_fin hu hv hk hr]
      refine ⟨fun h => h.2.1, fun h => ⟨ty, h, nan_not ?_⟩⟩
      rw [hr]; simp

theorem round_exact32 (op : FOp) (g : F64 → Int) (rel : Int → Int → Int → Prop) (h : (op, .w32, rel) ∈ roundOps)
    (hev : ∀ s, evalFlt op s = rndCode .w32 g s) (hu : ∀ u k k', rel (one .w32) u k → rel (one .w32) u k' → k = k')
    (hD : ¬ fltDev op []) (hDev : ∀ v s, fltDev op (v :: s) ↔ LosesSign .w32 rel v) (vs : List Val) :
    arith1 .w32 .w32 (RoundSpec .w32 rel) vs (fromModel (evalFlt op) vs) ↔ ¬ fltDev op vs := by
  refine unary_iff (evalFlt_nil op) hD (fun v s => ?_) vs
  rw [hDev]
  by_cases nv : F32.isNaN v.low32 = true
  · have nv' : numAt .w32 v = .nan := F32.num_nan nv
    have nd : (F32.toF64 v.low32).isNaN = true := by rw [F32.toF64_isNaN, nv]
    refine ⟨f32 (F32.ofF64 (F32.toF64 v.low32)), by rw [hev, rnd_nan32 nd], iff_of_true ⟨rfl, ?_, rule32 fun h hc => ?_⟩ (not_loses (by rw [nv']; simp))⟩
    · rw [nv', numAt_f32, num32_ofF64_nan nd]; rfl
    · exact canon_toF64 h (hc (.w32, v) (by simp))
  · have nv' := isNaN_ne32 nv
    obtain ⟨r, e, ty, -, h2, h3⟩ := C36_rounding_partial op .w32 rel h v s
    refine ⟨r, e, ?_⟩
    rcases hv : numAt .w32 v with _ | sg | ⟨sg, m⟩
    · exact absurd hv nv'
    · have hr := h2 sg hv
      refine iff_of_true ⟨ty, ?_, nan_not ?_⟩ (not_loses (by rw [hv]; simp))
      · rw [hr]; rfl
      · rw [hr]; simp
    · obtain ⟨k, hk, hr⟩ := h3 sg m hv
      rw [← hv, ← round_fin hu hv hk hr]
      refine ⟨fun h => h.2.1, fun h => ⟨ty, h, nan_not ?_⟩⟩
      rw [hr]; simp

/-! ## To integers -/

theorem exists_trunc {w : FW} {v : Val} {g : Bool} {m : Nat} (h : numAt w v = .fin g m) : ∃ k, IsTrunc (one w) (numAt w v).units k := by
  rcases toIntAt_spec w v with ⟨h1, _⟩ | ⟨_, h1, _⟩ | ⟨_, _, k, _, h2, _⟩
  · rw [h] at h1; cases h1
  · rw [h] at h1; cases h1
  · exact ⟨k, h2⟩

theorem trunc_exact (op : FOp) (w : FW) (lo hi : Int) (mk : Int → Val) (h : (op, w, lo, hi, mk) ∈ truncOps) (vs : List Val) :
    truncates w lo hi mk vs (fromModel (evalFlt op) vs) ↔ ¬ False := by
  refine iff_of_true ?_ id
  cases vs with
  | nil => rw [fm_stuck (evalFlt_nil op)]; rfl
  | cons v s =>
    obtain ⟨h1, h2⟩ := C37_trunc op w lo hi mk h v s
    unfold truncates
    simp only
    rcases hv : numAt w v with _ | sg | ⟨sg, m⟩
    · obtain ⟨e, he, he'⟩ := h2 (.inl hv); exact fm_trap he he'
    · obtain ⟨e, he, he'⟩ := h2 (.inr (.inl ⟨sg, hv⟩)); exact fm_trap he he'
    · obtain ⟨k, hk⟩ := exists_trunc hv
      refine ⟨k, hv ▸ hk, ?_⟩
      by_cases hr : lo ≤ k ∧ k ≤ hi
      · rw [if_pos hr]; exact fm_ok (h1 k ⟨sg, m, hv⟩ hk hr.1 hr.2)
      · rw [if_neg hr]
        obtain ⟨e, he, he'⟩ := h2 (.inr (.inr ⟨sg, m, k, hv, hk, hr⟩)); exact fm_trap he he'

theorem sat_exact (op : FOp) (w : FW) (lo hi : Int) (mk : Int → Val) (h : (op, w, lo, hi, mk) ∈ satOps) (vs : List Val) :
    saturates w lo hi mk vs (fromModel (evalFlt op) vs) ↔ ¬ False := by
  refine iff_of_true ?_ id
  cases vs with
  | nil => rw [fm_stuck (evalFlt_nil op)]; rfl
  | cons v s =>
    obtain ⟨k, e, h1, h2, h3, h4⟩ := C37_trunc_sat op w lo hi mk h v s
    rw [fm_ok e]
    unfold saturates
    simp only
    rcases hv : numAt w v with _ | sg | ⟨sg, m⟩
    · rw [h1 hv]
    · cases sg
      · rw [h3 hv]; rfl
      · rw [h2 hv]; rfl
    · obtain ⟨t, ht⟩ := exists_trunc hv
      refine ⟨t, hv ▸ ht, ?_⟩
      rw [h4 sg m t hv ht]

/-! ## From integers and between formats -/

theorem conv_exact32 (op : FOp) (view : Val → Int) (h : (op, .w32, view) ∈ convOps) (vs : List Val) :
    unary (fun v r => ConvertSpec .w32 (view v) r) vs (fromModel (evalFlt op) vs) ↔ ¬ False := by
  refine unary_iff (D := fun _ => False) (evalFlt_nil op) id (fun v s => ?_) vs
  obtain ⟨r, e, h⟩ := C38_convert_partial op .w32 view h v s
  exact ⟨r, e, iff_of_true h id⟩
theorem conv_exact64 (op : FOp) (view : Val → Int) (h : (op, .w64, view) ∈ convOps) (vs : List Val) :
    unary (fun v r => ConvertSpec .w64 (view v) r) vs (fromModel (evalFlt op) vs) ↔ ¬ False := by
  refine unary_iff (D := fun _ => False) (evalFlt_nil op) id (fun v s => ?_) vs
  obtain ⟨r, e, h⟩ := C38_convert_partial op .w64 view h v s
  exact ⟨r, e, iff_of_true h id⟩

theorem nearest_unique64 {n d c c' : Nat} (hd : 0 < d) (h : Nearest 52 inf64 n d c) (h' : Nearest 52 inf64 n d c') : c = c' :=
  ((roundMag_nearest 52 2047 n d (by decide) hd).2 c h).trans ((roundMag_nearest 52 2047 n d (by decide) hd).2 c' h').symm
theorem nearest_unique32 {n d c c' : Nat} (hd : 0 < d) (h : Nearest 23 inf32 n d c) (h' : Nearest 23 inf32 n d c') : c = c' :=
  ((roundMag_nearest 23 255 n d (by decide) hd).2 c h).trans ((roundMag_nearest 23 255 n d (by decide) hd).2 c' h').symm

theorem twice {n d : Nat} {sg : Bool} {r : Num} (h : Nearest 52 inf64 (n * 2 ^ 1074) 1 d) (h2 : RoundsTo .w32 sg (magnitude 52 d) (2 ^ 925) r) :
    RoundsTo .w32 sg (n * 2 ^ 149) 1 r ↔ ¬ RoundsTwice n := by
  obtain ⟨c, hc, hr⟩ := h2
  change Nearest 23 inf32 _ _ c at hc
  change r = if c = inf32 then Num.inf sg else .fin sg (magnitude 23 c) at hr
  have key : RoundsTwice n ↔ ¬ Nearest 23 inf32 (n * 2 ^ 149) 1 c := by
    constructor
    · rintro ⟨d', c', e1, e2, e3⟩
      obtain rfl := nearest_unique64 (by decide) h e1
      obtain rfl := nearest_unique32 (Nat.two_pow_pos 925) hc e2
      exact e3
    · exact fun e => ⟨d, c, h, hc, e⟩
  rw [key, not_not]
  constructor
  · rintro ⟨c', hc', hr'⟩
    change Nearest 23 inf32 _ _ c' at hc'
    change r = if c' = inf32 then Num.inf sg else .fin sg (magnitude 23 c') at hr'
    rw [hr] at hr'
    have : c = c' := by
      by_cases i1 : c = inf32 <;> by_cases i2 : c' = inf32
      · rw [i1, i2]
      · rw [if_pos i1, if_neg i2] at hr'; cases hr'
      · rw [if_neg i1, if_pos i2] at hr'; cases hr'
      · rw [if_neg i1, if_neg i2] at hr'
        injection hr' with _ e
        exact magnitude_inj e
    exact this ▸ hc'
  · exact fun e => ⟨c, e, hr⟩

theorem conv64_s_exact (vs : List Val) :
    unary (fun v r => ConvertSpec .w32 (v.low64.toInt) r) vs (fromModel (evalFlt .f32_convert_i64_s) vs) ↔ ¬ fltDev .f32_convert_i64_s vs := by
  refine unary_iff (evalFlt_nil _) id (fun v s => ?_) vs
  obtain ⟨r, e, ty, ⟨d, hd, h2⟩, -⟩ := (C38_convert_i64_partial v s).1
  refine ⟨r, e, ?_⟩
  show (_ ∧ RoundsTo .w32 _ (_ * 2 ^ 149) 1 _) ↔ ¬ RoundsTwice _
  rw [twice hd h2]
  exact and_iff_right ty
theorem conv64_u_exact (vs : List Val) :
    unary (fun v r => ConvertSpec .w32 (v.low64.toNat : Int) r) vs (fromModel (evalFlt .f32_convert_i64_u) vs) ↔ ¬ fltDev .f32_convert_i64_u vs := by
  refine unary_iff (evalFlt_nil _) id (fun v s => ?_) vs
  obtain ⟨r, e, ty, ⟨d, hd, h2⟩, -⟩ := (C38_convert_i64_partial v s).2
  refine ⟨r, e, ?_⟩
  show (_ ∧ RoundsTo .w32 (decide ((v.low64.toNat : Int) < 0)) ((v.low64.toNat : Int).natAbs * 2 ^ 149) 1 _) ↔ ¬ RoundsTwice _
  rw [Int.natAbs_natCast, decide_eq_false (by omega), twice hd h2]
  exact and_iff_right ty

theorem demote_exact (vs : List Val) : arith1 .w64 .w32 DemoteSpec vs (fromModel (evalFlt .f32_demote_f64) vs) ↔ ¬ False := by
  refine unary_iff (D := fun _ => False) (evalFlt_nil _) id (fun v s => ?_) vs
  obtain ⟨r, e, ty, h⟩ := (C38_promote_demote v s).2
  have e' : evalFlt .f32_demote_f64 (v :: s) = .ok () (f32 (F32.ofF64 v.low64) :: s) := by
    rw [evalFlt, VM.bind_eq (VM.popF64_cons _ _), VM.bind_eq (VM.lift_ok (fromF32_eq _)), VM.push_eq]
  obtain rfl : r = f32 (F32.ofF64 v.low64) := by
    rw [e'] at e; injection e with _ e; injection e with e _; exact e.symm
  refine ⟨_, e, iff_of_true ⟨ty, ?_, rule32 fun hn hc => hc (.w64, v) (by simp) (F64.num_nan hn)⟩ id⟩
  unfold DemoteSpec
  cases hv : numAt .w64 v <;> rw [hv] at h <;> exact h
theorem promote_exact (vs : List Val) : arith1 .w32 .w64 PromoteSpec vs (fromModel (evalFlt .f64_promote_f32) vs) ↔ ¬ False := by
  refine unary_iff (D := fun _ => False) (evalFlt_nil _) id (fun v s => ?_) vs
  obtain ⟨r, e, ty, h⟩ := (C38_promote_demote v s).1
  have e' : evalFlt .f64_promote_f32 (v :: s) = .ok () (f64 (F32.toF64 v.low32) :: s) := by
    rw [evalFlt, VM.bind_eq (VM.popF32_cons _ _), VM.bind_eq (VM.lift_ok (fromF64_eq _)), VM.push_eq]
  obtain rfl : r = f64 (F32.toF64 v.low32) := by
    rw [e'] at e; injection e with _ e; injection e with e _; exact e.symm
  refine ⟨_, e, iff_of_true ⟨ty, ?_, rule64 fun hn => ⟨?_, fun hc => canon_toF64 hn (hc (.w32, v) (by simp))⟩⟩ id⟩
  · unfold PromoteSpec
    cases hv : numAt .w32 v <;> rw [hv] at h <;> exact h
  · rw [F32.toF64_isNaN] at hn
    rw [(F32.toF64_nan hn).2]
    unfold inf64
    omega

end Pywasm.Props
