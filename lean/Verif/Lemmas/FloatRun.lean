import Verif.Lemmas.FloatSat

/-!
# Running the float instructions
-/

set_option exponentiation.threshold 3000

namespace Pywasm
open Spec

/-! ## Cells -/

/-- A result cell of the format. -/
def mkAt : (w : FW) → Bool → Nat → Val
  | .w32, s, c => f32 (F32.ofMag s c)
  | .w64, s, c => f64 (F64.ofMag s c)

/-! ## ceil, floor, trunc, nearest -/

def rndCode (w : FW) (g : F64 → Int) : VM Unit :=
  match w with
  | .w32 => do
    let a ← VM.popF32
    let b ← VM.lift (if a.isNaN || a.isInf then .ok a else F64.ofInt (g a))
    let c ← VM.lift (Val.fromF32 b)
    VM.push c
  | .w64 => do
    let a ← VM.popF64
    let b ← VM.lift (if a.isNaN || a.isInf then .ok a else F64.ofInt (g a))
    let c ← VM.lift (Val.fromF64 b)
    VM.push c

theorem near_sign {d k u : Int} (hd : 0 < d) (h : |k * d - u| < d) {s : Bool} {m : Nat} (hu : u = (Num.fin s m).units)
    (hk : k ≠ 0) : decide (k < 0) = s := by
  have h' := abs_lt.mp h
  unfold Num.units at hu
  rcases lt_or_gt_of_ne hk with h0 | h0
  · have h2 : (k + 1) * d ≤ 0 := Int.mul_nonpos_of_nonpos_of_nonneg (by omega) hd.le
    rw [Int.add_mul, Int.one_mul] at h2
    cases s
    · simp only [Bool.false_eq_true, if_false] at hu; omega
    · simp [h0]
  · have h2 : 0 ≤ (k - 1) * d := Int.mul_nonneg (by omega) hd.le
    rw [Int.sub_mul, Int.one_mul] at h2
    cases s
    · simp; omega
    · simp only [if_true] at hu; omega

theorem numAt_f64 (x : BitVec 64) : numAt .w64 (f64 x) = num64 x := by
  show num64 (f64 x).low64 = _; rw [low64_f64]
theorem numAt_f32 (x : BitVec 32) : numAt .w32 (f32 x) = num32 x := by
  show num32 (f32 x).low32 = _; rw [low32_f32]

theorem num32_ofF64_nan {y : F64} (h : y.isNaN = true) : num32 (F32.ofF64 y) = .nan := by
  apply F32.num_nan
  rw [F32.isNaN_iff, (F32.ofF64_nan h).2]; unfold inf32; omega
theorem num32_ofF64_inf {y : F64} (h : y.isInf = true) : num32 (F32.ofF64 y) = .inf y.msb := by
  rw [← F32.ofF64_msb]
  apply F32.num_isInf
  rw [F32.isInf_iff, (F32.ofF64_inf h).2]

/-- The type of a float result. -/
def tyAt : FW → ValType
  | .w32 => .f32
  | .w64 => .f64

theorem rndCode_spec (w : FW) (g : F64 → Int) (rel : Int → Int → Int → Prop)
    (hrel : ∀ y : F64, rel (2 ^ 1074) y.val (g y))
    (hsc : ∀ d e u k, 0 < e → rel (d * e) (u * e) k → rel d u k)
    (hnear : ∀ d u k, 0 < d → rel d u k → |k * d - u| < d) (v : Val) (s : List Val) :
    ∃ r, rndCode w g (v :: s) = .ok () (r :: s) ∧ r.ty = tyAt w ∧
      (numAt w v = .nan → numAt w r = .nan) ∧
      (∀ sg, numAt w v = .inf sg → numAt w r = .inf sg) ∧
      (∀ sg m, numAt w v = .fin sg m → ∃ k, rel (one w) (numAt w v).units k ∧
        numAt w r = .fin (if k = 0 then false else sg) (k.natAbs * (one w).toNat)) := by
  cases w with
  | w64 =>
    unfold rndCode
    simp only
    rw [VM.bind_eq (VM.popF64_cons _ _)]
    rcases F64.num_cases v.low64 with ⟨h1, h2, h3⟩ | ⟨h1, h2, h3⟩ | ⟨h1, h2, h4, h3⟩
    · rw [if_pos (by rw [h1]; rfl), VM.bind_eq (VM.lift_ok rfl), VM.bind_eq (VM.lift_ok (fromF64_eq _)), VM.push_eq]
      refine ⟨_, rfl, rfl, fun _ => by rw [numAt_f64]; exact h3, fun sg h => ?_, fun sg m h => ?_⟩ <;>
        (change num64 v.low64 = _ at h; rw [h3] at h; cases h)
    · rw [if_pos (by rw [h2]; exact Bool.or_true _), VM.bind_eq (VM.lift_ok rfl), VM.bind_eq (VM.lift_ok (fromF64_eq _)), VM.push_eq]
      refine ⟨_, rfl, rfl, fun h => ?_, fun sg h => by rw [numAt_f64]; exact h, fun sg m h => ?_⟩ <;>
        (change num64 v.low64 = _ at h; rw [h3] at h; cases h)
    · have hr := hrel v.low64
      rw [F64.val_eq h4] at hr
      have hn := hnear _ _ _ (by positivity) hr
      obtain ⟨c, hc, hlt, hm⟩ := F64.ofInt_near h4 hn
      rw [if_neg (by rw [h1, h2]; decide), VM.bind_eq (VM.lift_ok hc), VM.bind_eq (VM.lift_ok (fromF64_eq _)), VM.push_eq]
      refine ⟨_, rfl, rfl, fun h => ?_, fun sg h => ?_, fun sg m h => ⟨_, hr, ?_⟩⟩
      · change num64 v.low64 = _ at h; rw [h3] at h; cases h
      · change num64 v.low64 = _ at h; rw [h3] at h; cases h
      · change num64 v.low64 = _ at h
        rw [numAt_f64, F64.num_ofMag_lt hlt, hm]
        have e1 : (one .w64).toNat = 2 ^ 1074 := by
          show ((2 : Int) ^ 1074).toNat = _
          have : (2 : Int) ^ 1074 = ((2 ^ 1074 : Nat) : Int) := by push_cast
          rw [this, Int.toNat_natCast]
        rw [e1]
        congr 1
        split
        · rename_i hk; rw [hk]; rfl
        · rename_i hk
          exact near_sign (by positivity) hn (by rw [h]) hk
  | w32 =>
    unfold rndCode
    simp only
    rw [VM.bind_eq (VM.popF32_cons _ _), F32.toF64_isNaN, F32.toF64_isInf]
    rcases F32.num_cases v.low32 with ⟨h1, h2, h3⟩ | ⟨h1, h2, h3⟩ | ⟨h1, h2, h4, h3⟩
    · rw [if_pos (by rw [h1]; rfl), VM.bind_eq (VM.lift_ok rfl), VM.bind_eq (VM.lift_ok (fromF32_eq _)), VM.push_eq]
      refine ⟨_, rfl, rfl, fun _ => by rw [numAt_f32]; exact num32_ofF64_nan (by rw [F32.toF64_isNaN, h1]), fun sg h => ?_, fun sg m h => ?_⟩ <;>
        (change num32 v.low32 = _ at h; rw [h3] at h; cases h)
    · rw [if_pos (by rw [h2]; exact Bool.or_true _), VM.bind_eq (VM.lift_ok rfl), VM.bind_eq (VM.lift_ok (fromF32_eq _)), VM.push_eq]
      refine ⟨_, rfl, rfl, fun h => ?_, fun sg h => ?_, fun sg m h => ?_⟩
      · change num32 v.low32 = _ at h; rw [h3] at h; cases h
      · rw [numAt_f32, num32_ofF64_inf (by rw [F32.toF64_isInf, h2]), F32.toF64_msb, ← h3]; exact h
      · change num32 v.low32 = _ at h; rw [h3] at h; cases h
    · have hr := hrel (F32.toF64 v.low32)
      rw [F32.val_toF64 h4, den_split] at hr
      have hr := hsc _ _ _ _ (by positivity) hr
      have hn := hnear _ _ _ (by positivity) hr
      obtain ⟨c, y, hy, hc, hlt, hm⟩ := F32.ofInt_near h4 hn
      rw [if_neg (by rw [h1, h2]; decide), VM.bind_eq (VM.lift_ok hy), VM.bind_eq (VM.lift_ok (fromF32_eq _)), VM.push_eq]
      refine ⟨_, rfl, rfl, fun h => ?_, fun sg h => ?_, fun sg m h => ⟨_, hr, ?_⟩⟩
      · change num32 v.low32 = _ at h; rw [h3] at h; cases h
      · change num32 v.low32 = _ at h; rw [h3] at h; cases h
      · change num32 v.low32 = _ at h
        rw [numAt_f32, hc, F32.num_ofMag_lt hlt, hm]
        have e1 : (one .w32).toNat = 2 ^ 149 := by
          show ((2 : Int) ^ 149).toNat = _
          have : (2 : Int) ^ 149 = ((2 ^ 149 : Nat) : Int) := by push_cast
          rw [this, Int.toNat_natCast]
        rw [e1]
        congr 1
        split
        · rename_i hk; rw [hk]; rfl
        · rename_i hk
          exact near_sign (by positivity) hn (by rw [h]) hk

/-! ## min and max -/

theorem Spec.Num.less_irrefl (x : Num) : x.less x = false := by
  cases x with
  | nan => rfl
  | inf s => cases s <;> rfl
  | fin s m => show decide _ = false; simp
theorem Spec.Num.less_asymm {x y : Num} (h : x.less y = true) : y.less x = false := by
  cases x with
  | nan => cases y <;> rfl
  | inf s =>
    cases y with
    | nan => rfl
    | inf s' => cases s <;> cases s' <;> first | rfl | exact (Bool.false_ne_true h).elim
    | fin s' m => cases s <;> first | rfl | exact (Bool.false_ne_true h).elim
  | fin s m =>
    cases y with
    | nan => rfl
    | inf s' => cases s' <;> first | rfl | exact (Bool.false_ne_true h).elim
    | fin s' m' =>
      change decide ((Num.fin s m).units < (Num.fin s' m').units) = true at h
      show decide ((Num.fin s' m').units < (Num.fin s m).units) = false
      rw [decide_eq_true_eq] at h
      rw [decide_eq_false_iff_not]; omega

theorem min64_nan {a b : F64} (h : a.isNaN = true ∨ b.isNaN = true) : (Arith.F64.min a b).isNaN = true ∧ (Arith.F64.max a b).isNaN = true := by
  unfold Arith.F64.min Arith.F64.max
  simp only
  by_cases hb : b.isNaN = true
  · rw [if_pos hb, if_pos hb]; exact ⟨hb, hb⟩
  · rw [if_neg hb, if_neg hb]
    have ha : a.isNaN = true := h.resolve_right hb
    rw [if_pos ha, if_pos ha]; exact ⟨ha, ha⟩
theorem min64_num {a b : F64} (ha : a.isNaN = false) (hb : b.isNaN = false) :
    Arith.F64.min a b = (if (num64 b).less (num64 a) then b else a) ∧
    Arith.F64.max a b = (if (num64 a).less (num64 b) then b else a) := by
  unfold Arith.F64.min Arith.F64.max F64.pyMin F64.pyMax
  simp only
  rw [ha, hb, F64.lt_eq, F64.lt_eq]
  exact ⟨rfl, rfl⟩

end Pywasm
