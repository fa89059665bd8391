import Verif.Props.FloatSpec

/-!
# The specification of numeric instructions allows an outcome for all operands
-/

namespace Pywasm.Props

open Spec

/-- The float with these bits. -/
def floatOf : FW → Bool → Nat → Val
  | .w32, s, c => f32 (F32.ofMag s c)
  | .w64, s, c => f64 (F64.ofMag s c)
/-- The cell with only the bits of the format. -/
def cell : FW → Val → Val
  | .w32, v => f32 v.low32
  | .w64, v => f64 v.low64

theorem floatOf_spec (w : FW) (s : Bool) (c : Nat) (h : c < w.top + 2 ^ w.bits) :
    (floatOf w s c).ty = w.ty ∧ codeAt w (floatOf w s c) = c ∧ negAt w (floatOf w s c) = s := by
  cases w
  · have h : c < 2 ^ 31 := by have : inf32 + 2 ^ 23 = 2 ^ 31 := by decide
                              exact this ▸ h
    refine ⟨rfl, ?_, ?_⟩
    · show code32 (f32 _).low32 = c
      rw [low32_f32, F32.ofMag_code h]
    · show (f32 _).low32.msb = s
      rw [low32_f32, F32.ofMag_msb h]
  · have h : c < 2 ^ 63 := by have : inf64 + 2 ^ 52 = 2 ^ 63 := by decide
                              exact this ▸ h
    refine ⟨rfl, ?_, ?_⟩
    · show code64 (f64 _).low64 = c
      rw [low64_f64, F64.ofMag_code h]
    · show (f64 _).low64.msb = s
      rw [low64_f64, F64.ofMag_msb h]
theorem cell_spec (w : FW) (v : Val) :
    (cell w v).ty = w.ty ∧ codeAt w (cell w v) = codeAt w v ∧ negAt w (cell w v) = negAt w v := by
  cases w
  · refine ⟨rfl, ?_, ?_⟩
    · show code32 (f32 _).low32 = _
      rw [low32_f32]; rfl
    · show (f32 _).low32.msb = _
      rw [low32_f32]; rfl
  · refine ⟨rfl, ?_, ?_⟩
    · show code64 (f64 _).low64 = _
      rw [low64_f64]; rfl
    · show (f64 _).low64.msb = _
      rw [low64_f64]; rfl
theorem numAt_eq (w : FW) (v : Val) : numAt w v = if w.top < codeAt w v then .nan else if codeAt w v = w.top then .inf (negAt w v)
    else .fin (negAt w v) (magnitude w.bits (codeAt w v)) := by cases w <;> rfl
theorem numAt_cell (w : FW) (v : Val) : numAt w (cell w v) = numAt w v := by
  rw [numAt_eq, numAt_eq w v, (cell_spec w v).2.1, (cell_spec w v).2.2]
theorem codeAt_lt (w : FW) (v : Val) : codeAt w v < w.top + 2 ^ w.bits := by
  cases w
  · exact (show inf32 + 2 ^ 23 = 2 ^ 31 by decide) ▸ F32.code_lt v.low32
  · exact (show inf64 + 2 ^ 52 = 2 ^ 63 by decide) ▸ F64.code_lt v.low64

/-- The canonical NaN meets the rule. -/
theorem exists_nan (w : FW) : ∃ r : Val, r.ty = w.ty ∧ numAt w r = .nan ∧ ∀ ops, NaNRule ops w r := by
  have hlt : w.top + 2 ^ (w.bits - 1) < w.top + 2 ^ w.bits := by cases w <;> decide
  obtain ⟨h1, h2, -⟩ := floatOf_spec w false _ hlt
  refine ⟨_, h1, ?_, fun ops _ => ⟨h2.ge, fun _ => h2⟩⟩
  rw [numAt_eq, h2, if_pos]
  have := Nat.two_pow_pos (w.bits - 1)
  omega
/-- A zero of either sign. -/
theorem exists_zero (w : FW) (s : Bool) : ∃ r : Val, r.ty = w.ty ∧ numAt w r = .fin s 0 := by
  obtain ⟨h1, h2, h3⟩ := floatOf_spec w s 0 (by cases w <;> decide)
  refine ⟨_, h1, ?_⟩
  rw [numAt_eq, h2, h3]
  cases w <;> rfl
theorem exists_bits (w : FW) (a : Val) (s : Bool) : ∃ r, SameBits w a s r := ⟨_, floatOf_spec w s _ (codeAt_lt w a)⟩
theorem exists_round (s : Bool) (n : Nat) : ∃ r : Val, r.ty = .f32 ∧ RoundsTo .w32 s n 1 (numAt .w32 r) := by
  have hn := (roundMag_nearest 23 255 n 1 (by decide) (by decide)).1
  have hle : IEEE.roundMag 23 255 n 1 ≤ inf32 := hn.1
  obtain ⟨h1, h2, h3⟩ := floatOf_spec .w32 s (IEEE.roundMag 23 255 n 1) (Nat.lt_of_le_of_lt hle (by decide))
  refine ⟨_, h1, _, hn, ?_⟩
  rw [numAt_eq, h2, h3]
  exact if_neg (Nat.not_lt.mpr hle)

theorem round_total (w : FW) (rel : Int → Int → Int → Prop) (v : Val) (s : List Val) (h : LosesSign w rel v ∨ SignallingNaN w v) :
    ∃ o, arith1 w w (RoundSpec w rel) (v :: s) o := by
  rcases h with ⟨m, hm, h⟩ | ⟨h, -⟩
  · obtain ⟨r, h1, h2⟩ := exists_zero w true
    refine ⟨_, r, ⟨h1, ?_, nan_not (by rw [h2]; simp)⟩, rfl⟩
    rw [hm, h2]
    exact ⟨0, h, by rw [Int.natAbs_zero, Nat.zero_mul]⟩
  · obtain ⟨r, h1, h2, h3⟩ := exists_nan w
    exact ⟨_, r, ⟨h1, by rw [h, h2]; rfl, h3 _⟩, rfl⟩
theorem pick_total {w : FW} {S : Num → Num → Num → Prop} (hn : ∀ x y, x = .nan ∨ y = .nan → S x y .nan)
    (hp : ∀ x y, x ≠ .nan → y ≠ .nan → S x y x ∨ S x y y) (a b : Val) (s : List Val) : ∃ o, arith2 w S (b :: a :: s) o := by
  by_cases h : numAt w a = .nan ∨ numAt w b = .nan
  · obtain ⟨r, h1, h2, h3⟩ := exists_nan w
    exact ⟨_, r, ⟨h1, by rw [h2]; exact hn _ _ h, h3 _⟩, rfl⟩
  · rw [not_or] at h
    rcases hp _ _ h.1 h.2 with e | e
    · exact ⟨_, cell w a, ⟨(cell_spec w a).1, by rw [numAt_cell]; exact e, nan_not (by rw [numAt_cell]; exact h.1)⟩, rfl⟩
    · exact ⟨_, cell w b, ⟨(cell_spec w b).1, by rw [numAt_cell]; exact e, nan_not (by rw [numAt_cell]; exact h.2)⟩, rfl⟩
theorem min_total (w : FW) (a b : Val) (s : List Val) : ∃ o, arith2 w MinSpec (b :: a :: s) o := by
  refine pick_total (fun x y h => by unfold MinSpec; rw [if_pos h]) (fun x y hx hy => ?_) a b s
  unfold MinSpec
  rw [if_neg (not_or.mpr ⟨hx, hy⟩), if_neg (not_or.mpr ⟨hx, hy⟩)]
  split
  · exact .inl rfl
  · split
    · exact .inr rfl
    · split
      · exact .inl rfl
      · exact .inr rfl
theorem max_total (w : FW) (a b : Val) (s : List Val) : ∃ o, arith2 w MaxSpec (b :: a :: s) o := by
  refine pick_total (fun x y h => by unfold MaxSpec; rw [if_pos h]) (fun x y hx hy => ?_) a b s
  unfold MaxSpec
  rw [if_neg (not_or.mpr ⟨hx, hy⟩), if_neg (not_or.mpr ⟨hx, hy⟩)]
  split
  · exact .inr rfl
  · split
    · exact .inl rfl
    · split
      · exact .inr rfl
      · exact .inl rfl

theorem fltSpec_dev (op : FOp) (vs : List Val) (h : fltDev op vs) : ∃ o, fltSpec op vs o :=
  match op, vs, h with
  | .f32_copysign, b :: a :: _, _ => (exists_bits .w32 a (negAt .w32 b)).elim fun r h => ⟨_, r, h, rfl⟩
  | .f32_min, b :: a :: s, _ => min_total .w32 a b s
  | .f32_max, b :: a :: s, _ => max_total .w32 a b s
  | .f64_min, b :: a :: s, _ => min_total .w64 a b s
  | .f64_max, b :: a :: s, _ => max_total .w64 a b s
  | .f32_ceil, v :: s, h => round_total .w32 IsCeil v s (.inl h)
  | .f32_floor, v :: s, h => round_total .w32 IsFloor v s (.inl h)
  | .f32_trunc, v :: s, h => round_total .w32 IsTrunc v s (.inl h)
  | .f32_nearest, v :: s, h => round_total .w32 IsRound v s (.inl h)
  | .f64_ceil, v :: s, h => round_total .w64 IsCeil v s h
  | .f64_floor, v :: s, h => round_total .w64 IsFloor v s h
  | .f64_trunc, v :: s, h => round_total .w64 IsTrunc v s h
  | .f64_nearest, v :: s, h => round_total .w64 IsRound v s h
  | .f32_convert_i64_s, _ :: _, _ => (exists_round _ _).elim fun r h => ⟨_, r, h, rfl⟩
  | .f32_convert_i64_u, _ :: _, _ => (exists_round _ _).elim fun r h => ⟨_, r, h, rfl⟩
theorem fltSpec_total (op : FOp) (vs : List Val) : ∃ o, fltSpec op vs o := by
  by_cases h : fltDev op vs
  · exact fltSpec_dev op vs h
  · exact ⟨_, (C83_float op vs).mpr h⟩

/-! ## Lanes -/

/-- A vector with these lanes. -/
theorem exists_lanes32 (f : Nat → BitVec 32) : ∃ z : BitVec 128, ∀ i < 4, lane 32 z i = f i :=
  ⟨ofLanes 32 f, fun i hi => lane_ofLanes (k := 4) rfl (by decide) f (by omega)⟩
theorem exists_lanes64 (f : Nat → BitVec 64) : ∃ z : BitVec 128, ∀ i < 2, lane 64 z i = f i :=
  ⟨ofLanes 64 f, fun i hi => lane_ofLanes (k := 8) rfl (by decide) f (by omega)⟩

theorem arith1_cell {w w' : FW} {R : Num → Num → Prop} (v : Val) (h : ∃ o, arith1 w w' R [v] o) : ∃ x, arith1 w w' R [v] (.ok [cell w' x]) := by
  obtain ⟨_, r, ⟨-, h2, h3⟩, -⟩ := h
  refine ⟨r, cell w' r, ⟨(cell_spec w' r).1, by rw [numAt_cell]; exact h2, ?_⟩, rfl⟩
  unfold NaNRule ArithmeticNaN CanonicalNaN at h3 ⊢
  rwa [numAt_cell, (cell_spec w' r).2.1]
theorem arith2_cell {w : FW} {R : Num → Num → Num → Prop} (a b : Val) (h : ∃ o, arith2 w R [b, a] o) : ∃ x, arith2 w R [b, a] (.ok [cell w x]) := by
  obtain ⟨_, r, ⟨-, h2, h3⟩, -⟩ := h
  refine ⟨r, cell w r, ⟨(cell_spec w r).1, by rw [numAt_cell]; exact h2, ?_⟩, rfl⟩
  unfold NaNRule ArithmeticNaN CanonicalNaN at h3 ⊢
  rwa [numAt_cell, (cell_spec w r).2.1]
theorem same_cell {w : FW} {a : Val} {s : Bool} : ∃ x, SameBits w a s (cell w x) := by
  obtain ⟨r, h⟩ := exists_bits w a s
  exact ⟨r, (cell_spec w r).1, (cell_spec w r).2.1.trans h.2.1, (cell_spec w r).2.2.trans h.2.2⟩

theorem lanes1_total32 {op : FOp} (h : ∀ v, ∃ x, fltSpec op [v] (.ok [cell .w32 x])) (vs : List Val) : ∃ o, lanes1 .f32 .f32 4 op vs o := by
  cases vs with
  | nil => exact ⟨_, rfl⟩
  | cons x s =>
    choose g hg using h
    obtain ⟨z, hz⟩ := exists_lanes32 fun i => (g (laneCell .f32 x.low128 i)).low32
    refine ⟨_, z, rfl, fun i hi => ?_, fun i h1 h2 => absurd h2 (Nat.not_lt.mpr h1)⟩
    show fltSpec op _ (.ok [f32 (lane 32 z i)])
    rw [hz i hi]
    exact hg _
theorem lanes1_total64 {op : FOp} (h : ∀ v, ∃ x, fltSpec op [v] (.ok [cell .w64 x])) (vs : List Val) : ∃ o, lanes1 .f64 .f64 2 op vs o := by
  cases vs with
  | nil => exact ⟨_, rfl⟩
  | cons x s =>
    choose g hg using h
    obtain ⟨z, hz⟩ := exists_lanes64 fun i => (g (laneCell .f64 x.low128 i)).low64
    refine ⟨_, z, rfl, fun i hi => ?_, fun i h1 h2 => absurd h2 (Nat.not_lt.mpr h1)⟩
    show fltSpec op _ (.ok [f64 (lane 64 z i)])
    rw [hz i hi]
    exact hg _
theorem lanes2_total {n : Nat} {R : BitVec 128 → BitVec 128 → BitVec 128 → Nat → Prop} (h : ∀ x y, ∃ z, ∀ i < n, R x y z i) (vs : List Val) :
    ∃ o, lanes2 n R vs o :=
  match vs with
  | [] => ⟨_, rfl⟩
  | [_] => ⟨_, rfl⟩
  | y :: x :: _ => (h x.low128 y.low128).elim fun z hz => ⟨_, z, rfl, hz⟩
theorem lanesBin_total32 {op : FOp} (h : ∀ a b, ∃ x, fltSpec op [b, a] (.ok [cell .w32 x])) (vs : List Val) : ∃ o, lanesBin .f32 op vs o := by
  refine lanes2_total (fun x y => ?_) vs
  choose g hg using h
  obtain ⟨z, hz⟩ := exists_lanes32 fun i => (g (laneCell .f32 x i) (laneCell .f32 y i)).low32
  refine ⟨z, fun i hi => ?_⟩
  show fltSpec op _ (.ok [f32 (lane 32 z i)])
  rw [hz i hi]
  exact hg _ _
theorem lanesBin_total64 {op : FOp} (h : ∀ a b, ∃ x, fltSpec op [b, a] (.ok [cell .w64 x])) (vs : List Val) : ∃ o, lanesBin .f64 op vs o := by
  refine lanes2_total (fun x y => ?_) vs
  choose g hg using h
  obtain ⟨z, hz⟩ := exists_lanes64 fun i => (g (laneCell .f64 x i) (laneCell .f64 y i)).low64
  refine ⟨z, fun i hi => ?_⟩
  show fltSpec op _ (.ok [f64 (lane 64 z i)])
  rw [hz i hi]
  exact hg _ _

theorem pmin_total (vs : List Val) : ∃ o, lanesPmin .w32 vs o := lanes2_total (fun x y =>
  exists_lanes32 fun i => if (laneNum .w32 y i).less (laneNum .w32 x i) then lane 32 y i else lane 32 x i) vs
theorem pmax_total (vs : List Val) : ∃ o, lanesPmax .w32 vs o := lanes2_total (fun x y =>
  exists_lanes32 fun i => if (laneNum .w32 x i).less (laneNum .w32 y i) then lane 32 y i else lane 32 x i) vs

theorem fvecSpec_dev (op : VOp) (vs : List Val) (h : fvecDev op vs) : ∃ o, fvecSpec op vs o :=
  match op, h with
  | .f32x4_ceil, _ => lanes1_total32 (op := .f32_ceil) (fun v => arith1_cell v (fltSpec_total .f32_ceil [v])) vs
  | .f32x4_floor, _ => lanes1_total32 (op := .f32_floor) (fun v => arith1_cell v (fltSpec_total .f32_floor [v])) vs
  | .f32x4_trunc, _ => lanes1_total32 (op := .f32_trunc) (fun v => arith1_cell v (fltSpec_total .f32_trunc [v])) vs
  | .f32x4_nearest, _ => lanes1_total32 (op := .f32_nearest) (fun v => arith1_cell v (fltSpec_total .f32_nearest [v])) vs
  | .f64x2_ceil, _ => lanes1_total64 (op := .f64_ceil) (fun v => arith1_cell v (fltSpec_total .f64_ceil [v])) vs
  | .f64x2_floor, _ => lanes1_total64 (op := .f64_floor) (fun v => arith1_cell v (fltSpec_total .f64_floor [v])) vs
  | .f64x2_trunc, _ => lanes1_total64 (op := .f64_trunc) (fun v => arith1_cell v (fltSpec_total .f64_trunc [v])) vs
  | .f64x2_nearest, _ => lanes1_total64 (op := .f64_nearest) (fun v => arith1_cell v (fltSpec_total .f64_nearest [v])) vs
  | .f32x4_min, _ => lanesBin_total32 (op := .f32_min) (fun a b => arith2_cell a b (min_total .w32 a b [])) vs
  | .f32x4_max, _ => lanesBin_total32 (op := .f32_max) (fun a b => arith2_cell a b (max_total .w32 a b [])) vs
  | .f64x2_min, _ => lanesBin_total64 (op := .f64_min) (fun a b => arith2_cell a b (min_total .w64 a b [])) vs
  | .f64x2_max, _ => lanesBin_total64 (op := .f64_max) (fun a b => arith2_cell a b (max_total .w64 a b [])) vs
  | .f32x4_abs, _ => lanes1_total32 (op := .f32_abs) (fun _ => same_cell.elim fun x h => ⟨x, _, h, rfl⟩) vs
  | .f32x4_neg, _ => lanes1_total32 (op := .f32_neg) (fun _ => same_cell.elim fun x h => ⟨x, _, h, rfl⟩) vs
  | .f32x4_pmin, _ => pmin_total vs
  | .f32x4_pmax, _ => pmax_total vs

/-- Where pywasm's outcome is not allowed, another is. -/
theorem NumSpec_total (op : NumOp) (vs : List Val) : ∃ o, NumSpec op vs o := by
  by_cases h : NumDev op vs
  · cases op with
    | flt op => exact fltSpec_total op vs
    | vec op =>
      show ∃ o, match vecSem op with | some f => o = f vs | none => fvecSpec op vs o
      cases vecSem op with
      | none => exact fvecSpec_dev op vs h
      | some f => exact ⟨_, rfl⟩
    | int _ => exact h.elim
    | lane _ _ => exact h.elim
    | shuffle _ => exact h.elim
  · exact ⟨_, (C83_numeric op vs).mpr h⟩

end Pywasm.Props
