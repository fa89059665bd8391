import Verif.Lemmas.FloatSqrt
import Verif.Lemmas.FloatRun

/-!
# The double operations, and the single operations computed with them, meet the arithmetic specification
-/

set_option exponentiation.threshold 3000

namespace Pywasm
open Spec

theorem F64.num_of_code {x : F64} (h : code64 x ≤ inf64) :
    num64 x = if code64 x = inf64 then .inf x.msb else .fin x.msb (magnitude 52 (code64 x)) := by
  unfold num64; rw [if_neg (by omega)]
theorem F32.num_of_code {x : F32} (h : code32 x ≤ inf32) :
    num32 x = if code32 x = inf32 then .inf x.msb else .fin x.msb (magnitude 23 (code32 x)) := by
  unfold num32; rw [if_neg (by omega)]

theorem round64 (s : Bool) (N D : Nat) (hD : 0 < D) : RoundsTo .w64 s N D (num64 (F64.round s N D)) := by
  obtain ⟨h1, h2⟩ := F64.round_spec s N D hD
  exact ⟨_, h2, by rw [F64.num_of_code h2.1, h1]; rfl⟩

theorem infDouble {x : F64} (h : code64 x = inf64) : magnitude 52 (code64 x) = 2 ^ 2098 := by rw [h, magnitude_inf64]

/-- Rounding to double and again to single, clear of midpoints. -/
theorem round32 (s : Bool) (N D : Nat) (hD : 0 < D) (hM : ∀ c, c < inf32 → Clear N D (magnitude 23 c + magnitude 23 (c + 1))) :
    (F32.ofF64 (F64.round s N D)).msb = s ∧ Nearest 23 inf32 N (D * 2 ^ 925) (code32 (F32.ofF64 (F64.round s N D))) := by
  obtain ⟨h1, h2⟩ := F64.round_spec s N D hD
  have hE : 0 < D * 2 ^ 925 := Nat.mul_pos hD (Nat.two_pow_pos 925)
  have hdr := double_round hD h2 hM
  have hn := (roundMag_nearest 23 255 N (D * 2 ^ 925) (by decide) hE).1
  refine ⟨by rw [F32.ofF64_msb, h1], ?_⟩
  rcases Nat.lt_or_eq_of_le h2.1 with hl | he
  · rw [(F32.ofF64_spec hl).2.1, hdr]; exact hn
  · rw [(F32.ofF64_inf ((F64.isInf_iff _).mpr he)).2]
    have : IEEE.roundMag 23 255 N (D * 2 ^ 925) = inf32 := by
      rw [← hdr, he, magnitude_inf64]
      have hn' := (roundMag_nearest 23 255 (2 ^ 2098) (2 ^ 925) (by decide) (Nat.two_pow_pos 925)).1
      have a := nearest_ge (Nat.two_pow_pos 925) hn' (c' := inf32) le_rfl (by
        rw [magnitude_inf32, ← pow_add]; exact Nat.pow_le_pow_right (by decide) (by decide))
      have b := roundMag_le 23 255 (2 ^ 2098) (2 ^ 925)
      exact le_antisymm b a
    rw [this] at hn; exact hn

theorem round32' (s : Bool) (N D N' D' : Nat) (hD : 0 < D)
    (hM : ∀ c, c < inf32 → Clear N D (magnitude 23 c + magnitude 23 (c + 1))) (k : Nat) (hk : 0 < k)
    (h1 : N * k = N' * (2 ^ 925 * k') ) (h2 : D * k = D' * k') (hk' : 0 < k') :
    RoundsTo .w32 s N' D' (num32 (F32.ofF64 (F64.round s N D))) := by
  obtain ⟨a, b⟩ := round32 s N D hD hM
  refine ⟨code32 (F32.ofF64 (F64.round s N D)), ?_, by rw [F32.num_of_code b.1, a]; rfl⟩
  have e1 : N * k = N' * (2 ^ 925 * k') := h1
  have e2 : D * 2 ^ 925 * k = D' * (2 ^ 925 * k') := by
    calc D * 2 ^ 925 * k = D * k * 2 ^ 925 := by ring
      _ = D' * (2 ^ 925 * k') := by rw [h2]; ring
  rw [← nearest_scale hk, e1, e2, nearest_scale (Nat.mul_pos (Nat.two_pow_pos 925) hk')] at b
  exact b

theorem num64_quiet {x : F64} (h : x.isNaN = true) : num64 x.quiet = .nan := by
  apply F64.num_nan
  rw [F64.isNaN_iff] at h ⊢
  unfold code64 F64.quiet at *
  rw [BitVec.toNat_or, BitVec.toNat_ofNat, Nat.mod_eq_of_lt (by decide : 2 ^ 51 < 2 ^ 64), Nat.or_mod_two_pow,
    Nat.mod_eq_of_lt (by decide : 2 ^ 51 < 2 ^ 63)]
  exact lt_of_lt_of_le h Nat.left_le_or

theorem num64_nanC (s : Bool) : num64 (F64.ofMag s (2047 * 2 ^ 52 + 2 ^ 51)) = .nan := by
  have h : 2047 * 2 ^ 52 + 2 ^ 51 < 2 ^ 63 := by decide
  apply F64.num_nan
  rw [F64.isNaN_iff, F64.ofMag_code h]; decide

theorem num64_zero (s : Bool) : num64 (F64.ofMag s 0) = .fin s 0 := by
  rw [F64.num_ofMag_lt (by decide)]; rfl

theorem isNaN_of_num {x : F64} (h : num64 x = .nan) : x.isNaN = true := by
  rcases F64.num_cases x with ⟨h1, _⟩ | ⟨_, _, h3⟩ | ⟨_, _, _, h3⟩
  · exact h1
  · rw [h3] at h; cases h
  · rw [h3] at h; cases h
theorem isInf_of_num {x : F64} {s} (h : num64 x = .inf s) : x.isInf = true ∧ x.msb = s := by
  rcases F64.num_cases x with ⟨_, _, h3⟩ | ⟨_, h2, h3⟩ | ⟨_, _, _, h3⟩
  · rw [h3] at h; cases h
  · rw [h3] at h; injection h with h; exact ⟨h2, h⟩
  · rw [h3] at h; cases h

/-- How a double result becomes a single result. -/
theorem num32_of64_nan {y : F64} (h : num64 y = .nan) : num32 (F32.ofF64 y) = .nan := num32_ofF64_nan (isNaN_of_num h)
theorem num32_of64_inf {y : F64} {s} (h : num64 y = .inf s) : num32 (F32.ofF64 y) = .inf s := by
  obtain ⟨a, b⟩ := isInf_of_num h
  rw [num32_ofF64_inf a, b]
theorem num32_of64_zero (s : Bool) : num32 (F32.ofF64 (F64.ofMag s 0)) = .fin s 0 := by
  have hc : code64 (F64.ofMag s 0) = 0 := F64.ofMag_code (by decide)
  have hm : (F64.ofMag s 0).msb = s := F64.ofMag_msb (by decide)
  rw [F32.ofF64_exact (y := F64.ofMag s 0) (s := s) (c := 0) (by rw [hc]; decide) hm (by decide) (by
    rw [hc, show magnitude 52 0 = 0 from rfl, show magnitude 23 0 = 0 from rfl, Nat.zero_mul])]
  rw [F32.num_ofMag_lt (by decide)]; rfl

/-! ## Addition -/

theorem F64.add_cases (a b : F64) :
    (num64 a = .nan ∨ num64 b = .nan → num64 (F64.add a b) = .nan) ∧
    (∀ s s', num64 a = .inf s → num64 b = .inf s' → num64 (F64.add a b) = if s = s' then .inf s else .nan) ∧
    (∀ s s' m, num64 a = .inf s → num64 b = .fin s' m → num64 (F64.add a b) = .inf s) ∧
    (∀ s s' m, num64 a = .fin s' m → num64 b = .inf s → num64 (F64.add a b) = .inf s) ∧
    (∀ s m s' m', num64 a = .fin s m → num64 b = .fin s' m' → 
      F64.add a b = let u := (Num.fin s m).units + (Num.fin s' m').units
        if u = 0 then F64.ofMag (s && s') 0 else F64.round (u < 0) u.natAbs 1) := by
  unfold F64.add
  rcases F64.num_cases a with ⟨a1, a2, a3⟩ | ⟨a1, a2, a3⟩ | ⟨a1, a2, a4, a3⟩
  · rw [a1, if_pos rfl, a3]
    exact ⟨fun _ => num64_quiet a1, by simp, by simp, by simp, by simp⟩
  all_goals
    rw [a1, if_neg (by decide)]
    rcases F64.num_cases b with ⟨b1, b2, b3⟩ | ⟨b1, b2, b3⟩ | ⟨b1, b2, b4, b3⟩
  · rw [b1, if_pos rfl, b3]
    exact ⟨fun _ => num64_quiet b1, by simp, by simp, by simp, by simp⟩
  · rw [b1, a2, b2, if_neg (by decide), if_pos rfl, Bool.true_and, F64.sign_eq, F64.sign_eq, a3, b3]
    refine ⟨by simp, fun s s' h h' => ?_, by simp, by simp, by simp⟩
    injection h with h; injection h' with h'
    rw [h, h']
    cases s <;> cases s'
    · exact a3.trans (by rw [h]; rfl)
    · exact num64_nanC _
    · exact num64_nanC _
    · exact a3.trans (by rw [h]; rfl)
  · rw [b1, a2, b2, if_neg (by decide), if_pos rfl, Bool.false_and, if_neg (by decide), a3, b3]
    refine ⟨by simp, by simp, fun s s' m h h' => h, by simp, by simp⟩
  · rw [b1, if_pos rfl, b3]
    exact ⟨fun _ => num64_quiet b1, by simp, by simp, by simp, by simp⟩
  · rw [b1, a2, b2, if_neg (by decide), if_neg (by decide), if_pos rfl, a3, b3]
    refine ⟨by simp, by simp, by simp, fun s s' m h h' => h', by simp⟩
  · rw [b1, a2, b2, if_neg (by decide), if_neg (by decide), if_neg (by decide), F64.sign_eq, F64.sign_eq, F64.val_eq a4, F64.val_eq b4, a3, b3]
    refine ⟨by simp, by simp, by simp, by simp, fun s m s' m' h h' => ?_⟩
    rw [← h, ← h']
    injection h with h1 h2; injection h' with h1' h2'
    simp only [h1, h1']
    refine if_congr Iff.rfl ?_ rfl
    cases s <;> cases s' <;> rfl

theorem add64_spec (a b : F64) : AddSpec .w64 (num64 a) (num64 b) (num64 (F64.add a b)) := by
  obtain ⟨h1, h2, h3, h4, h5⟩ := F64.add_cases a b
  unfold AddSpec
  rcases ha : num64 a with _ | s | ⟨s, m⟩
  · exact h1 (.inl ha)
  all_goals rcases hb : num64 b with _ | s' | ⟨s', m'⟩
  · exact h1 (.inr hb)
  · exact h2 _ _ ha hb
  · exact h3 _ _ _ ha hb
  · exact h1 (.inr hb)
  · exact h4 _ _ _ ha hb
  · simp only
    rw [h5 _ _ _ _ ha hb]
    simp only
    split
    · exact num64_zero _
    · exact round64 _ _ _ (by decide)

theorem scale_nan {k : Nat} {x : Num} : x.scale k = .nan ↔ x = .nan := by cases x <;> simp [Num.scale]
theorem scale_inf {k : Nat} {x : Num} {s} : x.scale k = .inf s ↔ x = .inf s := by cases x <;> simp [Num.scale]

/-- The code of a finite single. -/
theorem code_of_fin32 {x : F32} {s m} (h : num32 x = .fin s m) : code32 x < inf32 ∧ m = magnitude 23 (code32 x) ∧ s = x.msb := by
  rcases F32.num_cases x with ⟨_, _, h3⟩ | ⟨_, _, h3⟩ | ⟨_, _, h4, h3⟩
  · rw [h3] at h; cases h
  · rw [h3] at h; cases h
  · rw [h3] at h; injection h with a b; exact ⟨h4, by rw [← b, F32.mag_eq], a.symm⟩

theorem add32_spec (a b : F32) :
    AddSpec .w32 (num32 a) (num32 b) (num32 (F32.ofF64 (F64.add (F32.toF64 a) (F32.toF64 b)))) := by
  obtain ⟨h1, h2, h3, h4, h5⟩ := F64.add_cases (F32.toF64 a) (F32.toF64 b)
  rw [F32.num_toF64, F32.num_toF64] at *
  unfold AddSpec
  rcases ha : num32 a with _ | s | ⟨s, m⟩
  · exact num32_of64_nan (h1 (.inl (by rw [ha]; rfl)))
  all_goals rcases hb : num32 b with _ | s' | ⟨s', m'⟩
  · exact num32_of64_nan (h1 (.inr (by rw [hb]; rfl)))
  · have := h2 s s' (by rw [ha]; rfl) (by rw [hb]; rfl)
    simp only
    split
    · rename_i h; rw [if_pos h] at this; exact num32_of64_inf this
    · rename_i h; rw [if_neg h] at this; exact num32_of64_nan this
  · exact num32_of64_inf (h3 s s' _ (by rw [ha]; rfl) (by rw [hb]; rfl))
  · exact num32_of64_nan (h1 (.inr (by rw [hb]; rfl)))
  · exact num32_of64_inf (h4 s' s _ (by rw [ha]; rfl) (by rw [hb]; rfl))
  · simp only
    rw [h5 s (m * 2 ^ 925) s' (m' * 2 ^ 925) (by rw [ha]; rfl) (by rw [hb]; rfl)]
    have e : (Num.fin s (m * 2 ^ 925)).units + (Num.fin s' (m' * 2 ^ 925)).units =
        ((Num.fin s m).units + (Num.fin s' m').units) * ((2 ^ 925 : Nat) : Int) := by
      rw [Spec.Num.units_scale, Spec.Num.units_scale]; ring
    have hE : (0 : Int) < ((2 ^ 925 : Nat) : Int) := by exact_mod_cast Nat.two_pow_pos 925
    obtain ⟨ca, hm, _⟩ := code_of_fin32 ha
    obtain ⟨cb, hm', _⟩ := code_of_fin32 hb
    have hu : ((((Num.fin s m).units + (Num.fin s' m').units).natAbs : Nat) : Int) = |(m : Int) - m'| ∨
        ((Num.fin s m).units + (Num.fin s' m').units).natAbs = m + m' := by
      cases s <;> cases s' <;> simp only [Num.units, if_true, Bool.false_eq_true, if_false]
      · right; omega
      · left; rw [Int.natCast_natAbs]; rfl
      · left; rw [Int.natCast_natAbs, abs_sub_comm]; congr 1; ring
      · right; omega
    simp only [e]
    generalize (Num.fin s m).units + (Num.fin s' m').units = u at *
    by_cases hu0 : u = 0
    · rw [if_pos hu0, if_pos (by rw [hu0]; exact Int.zero_mul _)]
      exact num32_of64_zero _
    · rw [if_neg hu0, if_neg (by rw [mul_eq_zero]; omega)]
      have e1 : decide (u * ((2 ^ 925 : Nat) : Int) < 0) = decide (u < 0) := by
        rw [decide_eq_decide]
        constructor
        · intro h; by_contra hh; have := mul_nonneg (not_lt.mp hh) hE.le; omega
        · intro h; exact mul_neg_of_neg_of_pos h hE
      have e2 : (u * ((2 ^ 925 : Nat) : Int)).natAbs = u.natAbs * 2 ^ 925 := by rw [Int.natAbs_mul, Int.natAbs_natCast]
      rw [e1, e2]
      apply round32' (k' := 1) _ _ _ _ _ (by decide) _ 1 (by decide) (by ring) rfl (by decide)
      intro c _
      subst hm hm'
      exact clear_add c _ _ hu

/-! ## Subtraction -/

theorem F64.num_neg (x : F64) : num64 (F64.neg x) = (num64 x).flip := by
  have hc : x.toNat % 2 ^ 63 < 2 ^ 63 := Nat.mod_lt _ (by decide)
  have h1 : code64 (F64.neg x) = code64 x := F64.ofMag_code hc
  have h2 : (F64.neg x).msb = !x.msb := by unfold F64.neg; rw [F64.ofMag_msb hc, F64.sign_eq]
  unfold num64
  rw [h1, h2]
  split
  · rfl
  · split <;> rfl

theorem F64.sub_num (a b : F64) : num64 a ≠ .nan → num64 b ≠ .nan → F64.sub a b = F64.add a (F64.neg b) := by
  intro ha hb
  unfold F64.sub
  rcases F64.num_cases b with ⟨b1, b2, b3⟩ | ⟨b1, b2, b3⟩ | ⟨b1, b2, b4, b3⟩
  · exact absurd b3 hb
  · rw [b1, Bool.false_and, if_neg (by decide)]
  · rw [b1, Bool.false_and, if_neg (by decide)]

theorem F64.sub_nan {a b : F64} (h : num64 a = .nan ∨ num64 b = .nan) : num64 (F64.sub a b) = .nan := by
  unfold F64.sub
  rcases F64.num_cases a with ⟨a1, a2, a3⟩ | ⟨a1, a2, a3⟩ | ⟨a1, a2, a4, a3⟩
  · rw [a1, Bool.not_true, Bool.and_false, if_neg (by decide)]
    exact (F64.add_cases _ _).1 (.inl a3)
  all_goals
    rcases h with h | h
    · rw [a3] at h; cases h
    · rw [a1, isNaN_of_num h, Bool.not_false, Bool.and_true, if_pos rfl]; exact num64_quiet (isNaN_of_num h)

theorem addSpec_nan {w : FW} {x y r : Num} (h : x = .nan ∨ y = .nan) : AddSpec w x y r ↔ r = .nan := by
  unfold AddSpec
  rcases h with rfl | rfl
  · rfl
  · cases x <;> rfl

theorem flip_nan {x : Num} : x.flip = .nan ↔ x = .nan := by cases x <;> simp [Num.flip]

theorem sub64_spec (a b : F64) : SubSpec .w64 (num64 a) (num64 b) (num64 (F64.sub a b)) := by
  unfold SubSpec
  by_cases h : num64 a = .nan ∨ num64 b = .nan
  · rw [addSpec_nan (by rw [flip_nan]; exact h)]
    exact F64.sub_nan h
  · rw [F64.sub_num a b (fun e => h (.inl e)) (fun e => h (.inr e)), ← F64.num_neg]
    exact add64_spec _ _

/-- Negating a single. -/
def F32.flip (x : F32) : F32 := F32.ofMag (!x.sign) (code32 x)
theorem F32.num_flip (x : F32) : num32 (F32.flip x) = (num32 x).flip := by
  have hc := F32.code_lt x
  have h1 : code32 (F32.flip x) = code32 x := F32.ofMag_code hc
  have h2 : (F32.flip x).msb = !x.msb := by unfold F32.flip; rw [F32.ofMag_msb hc, F32.sign_eq]
  unfold num32
  rw [h1, h2]
  split
  · rfl
  · split <;> rfl
theorem F32.toF64_flip {x : F32} (h : num32 x ≠ .nan) : F32.toF64 (F32.flip x) = F64.neg (F32.toF64 x) := by
  have hc := F32.code_lt x
  have h1 : code32 (F32.flip x) = code32 x := F32.ofMag_code hc
  have h2 : (F32.flip x).msb = !x.msb := by unfold F32.flip; rw [F32.ofMag_msb hc, F32.sign_eq]
  have hn : ∀ y : F64, code64 (F64.neg y) = code64 y ∧ (F64.neg y).msb = !y.msb := by
    intro y
    have hc : y.toNat % 2 ^ 63 < 2 ^ 63 := Nat.mod_lt _ (by decide)
    exact ⟨F64.ofMag_code hc, by unfold F64.neg; rw [F64.ofMag_msb hc, F64.sign_eq]⟩
  apply F64.code_ext
  · rw [F32.toF64_msb, h2, (hn _).2, F32.toF64_msb]
  · rw [(hn _).1]
    rcases F32.num_cases x with ⟨_, _, h3⟩ | ⟨a1, a2, h3⟩ | ⟨_, _, a4, h3⟩
    · exact absurd h3 h
    · rw [(F32.toF64_inf a2).2, (F32.toF64_inf (by rw [F32.isInf_iff, h1]; exact (F32.isInf_iff x).mp a2)).2]
    · have p := F32.toF64_fin a4
      have q := F32.toF64_fin (x := F32.flip x) (by rw [h1]; exact a4)
      apply magnitude_inj (p := 52)
      rw [p.2.2, q.2.2, h1]

theorem sub32_spec (a b : F32) :
    SubSpec .w32 (num32 a) (num32 b) (num32 (F32.ofF64 (F64.sub (F32.toF64 a) (F32.toF64 b)))) := by
  unfold SubSpec
  have hs : ∀ x : F32, num64 (F32.toF64 x) = .nan ↔ num32 x = .nan := fun x => by rw [F32.num_toF64, scale_nan]
  by_cases h : num32 a = .nan ∨ num32 b = .nan
  · rw [addSpec_nan (by rw [flip_nan]; exact h)]
    exact num32_of64_nan (F64.sub_nan (by rw [hs, hs]; exact h))
  · have hb : num32 b ≠ .nan := fun e => h (.inr e)
    rw [F64.sub_num _ _ (by rw [ne_eq, hs]; exact fun e => h (.inl e)) (by rw [ne_eq, hs]; exact hb), ← F32.num_flip, ← F32.toF64_flip hb]
    exact add32_spec _ _

/-! ## Multiplication -/

theorem F64.fin_mag {x : F64} {s m} (h : num64 x = .fin s m) : x.isNaN = false ∧ x.isInf = false ∧ x.isFinite = true ∧ x.mag = m ∧ x.msb = s := by
  rcases F64.num_cases x with ⟨_, _, h3⟩ | ⟨_, _, h3⟩ | ⟨h1, h2, h4, h3⟩
  · rw [h3] at h; cases h
  · rw [h3] at h; cases h
  · rw [h3] at h; injection h with a b
    refine ⟨h1, h2, ?_, b, a⟩
    unfold F64.isFinite F64.expo
    unfold F64.isNaN F64.isInf F64.expo F64.mant at *
    unfold code64 inf64 at h4
    have : x.toNat / 2 ^ 52 % 2048 ≠ 2047 := by omega
    simpa using this
theorem F64.inf_facts {x : F64} {s} (h : num64 x = .inf s) : x.isNaN = false ∧ x.isInf = true ∧ x.isFinite = false ∧ x.msb = s := by
  obtain ⟨a, b⟩ := isInf_of_num h
  have hc := (F64.isInf_iff x).mp a
  refine ⟨by rw [F64.isNaN_false_iff, hc], a, ?_, b⟩
  unfold F64.isFinite F64.expo
  unfold code64 inf64 at hc
  have : x.toNat / 2 ^ 52 % 2048 = 2047 := by omega
  rw [this]; rfl

theorem F64.mul_nan {a b : F64} (h : num64 a = .nan ∨ num64 b = .nan) : num64 (F64.mul a b) = .nan := by
  unfold F64.mul
  by_cases ha : a.isNaN = true
  · simp only [ha, if_true]; exact num64_quiet ha
  · have hb : b.isNaN = true := by
      rcases h with h | h
      · exact absurd (isNaN_of_num h) ha
      · exact isNaN_of_num h
    simp only [hb, if_true, if_neg ha]; exact num64_quiet hb

theorem F64.mul_inf_inf {a b : F64} {s s'} (ha : num64 a = .inf s) (hb : num64 b = .inf s') : num64 (F64.mul a b) = .inf (s != s') := by
  obtain ⟨a1, a2, a3, a4⟩ := F64.inf_facts ha
  obtain ⟨b1, b2, b3, b4⟩ := F64.inf_facts hb
  unfold F64.mul
  simp only [F64.sign_eq, a1, a2, a3, a4, b1, b2, b3, b4, Bool.false_eq_true, if_false, Bool.or_self, if_true, Bool.false_and]
  exact F64.num_inf
theorem F64.mul_inf_fin {a b : F64} {s s' m} (ha : num64 a = .inf s) (hb : num64 b = .fin s' m) :
    num64 (F64.mul a b) = if m = 0 then .nan else .inf (s != s') := by
  obtain ⟨a1, a2, a3, a4⟩ := F64.inf_facts ha
  obtain ⟨b1, b2, b3, b4, b5⟩ := F64.fin_mag hb
  unfold F64.mul
  simp only [F64.sign_eq, a1, a2, a3, a4, b1, b2, b3, b4, b5, Bool.false_eq_true, if_false, Bool.true_or, if_true, Bool.false_and, Bool.false_or, Bool.true_and, beq_iff_eq]
  by_cases hm : m = 0
  · rw [if_pos hm, if_pos hm]; exact num64_nanC _
  · rw [if_neg hm, if_neg hm]; exact F64.num_inf
theorem F64.mul_fin_inf {a b : F64} {s s' m} (ha : num64 a = .fin s m) (hb : num64 b = .inf s') :
    num64 (F64.mul a b) = if m = 0 then .nan else .inf (s != s') := by
  obtain ⟨a1, a2, a3, a4⟩ := F64.inf_facts hb
  obtain ⟨b1, b2, b3, b4, b5⟩ := F64.fin_mag ha
  unfold F64.mul
  simp only [F64.sign_eq, a1, a2, a3, a4, b1, b2, b3, b4, b5, Bool.false_eq_true, if_false, Bool.or_true, if_true, Bool.false_and, Bool.or_false, Bool.true_and, beq_iff_eq]
  by_cases hm : m = 0
  · rw [if_pos hm, if_pos hm]; exact num64_nanC _
  · rw [if_neg hm, if_neg hm]; exact F64.num_inf
theorem F64.mul_fin {a b : F64} {s s' m m'} (ha : num64 a = .fin s m) (hb : num64 b = .fin s' m') :
    F64.mul a b = F64.round (s != s') (m * m') (2 ^ 1074) := by
  obtain ⟨a1, a2, a3, a4, a5⟩ := F64.fin_mag ha
  obtain ⟨b1, b2, b3, b4, b5⟩ := F64.fin_mag hb
  unfold F64.mul
  rw [a1, b1, a2, b2, F64.sign_eq, F64.sign_eq, a5, b5, a4, b4, if_neg (by decide), if_neg (by decide), if_neg (by decide)]

theorem mul64_spec (a b : F64) : MulSpec .w64 (num64 a) (num64 b) (num64 (F64.mul a b)) := by
  unfold MulSpec
  rcases ha : num64 a with _ | s | ⟨s, m⟩
  · exact F64.mul_nan (.inl ha)
  all_goals rcases hb : num64 b with _ | s' | ⟨s', m'⟩
  · exact F64.mul_nan (.inr hb)
  · exact F64.mul_inf_inf ha hb
  · exact F64.mul_inf_fin ha hb
  · exact F64.mul_nan (.inr hb)
  · exact F64.mul_fin_inf ha hb
  · simp only; rw [F64.mul_fin ha hb]; exact round64 _ _ _ (Nat.two_pow_pos 1074)

theorem scale_fin {x : F32} {s m} (h : num32 x = .fin s m) : num64 (F32.toF64 x) = .fin s (m * 2 ^ 925) := by
  rw [F32.num_toF64, h]; rfl
theorem scale_inf' {x : F32} {s} (h : num32 x = .inf s) : num64 (F32.toF64 x) = .inf s := by
  rw [F32.num_toF64, h]; rfl
theorem scale_nan' {x : F32} (h : num32 x = .nan) : num64 (F32.toF64 x) = .nan := by
  rw [F32.num_toF64, h]; rfl
theorem scaled_zero {m : Nat} : m * 2 ^ 925 = 0 ↔ m = 0 := by
  rw [Nat.mul_eq_zero]
  exact ⟨fun h => h.resolve_right (Nat.two_pow_pos 925).ne', .inl⟩

theorem mul32_spec (a b : F32) :
    MulSpec .w32 (num32 a) (num32 b) (num32 (F32.ofF64 (F64.mul (F32.toF64 a) (F32.toF64 b)))) := by
  unfold MulSpec
  rcases ha : num32 a with _ | s | ⟨s, m⟩
  · exact num32_of64_nan (F64.mul_nan (.inl (scale_nan' ha)))
  all_goals rcases hb : num32 b with _ | s' | ⟨s', m'⟩
  · exact num32_of64_nan (F64.mul_nan (.inr (scale_nan' hb)))
  · exact num32_of64_inf (F64.mul_inf_inf (scale_inf' ha) (scale_inf' hb))
  · have := F64.mul_inf_fin (scale_inf' ha) (scale_fin hb)
    simp only
    by_cases h : m' = 0
    · rw [if_pos (scaled_zero.mpr h)] at this; rw [if_pos h]; exact num32_of64_nan this
    · rw [if_neg (fun e => h (scaled_zero.mp e))] at this; rw [if_neg h]; exact num32_of64_inf this
  · exact num32_of64_nan (F64.mul_nan (.inr (scale_nan' hb)))
  · have := F64.mul_fin_inf (scale_fin ha) (scale_inf' hb)
    simp only
    by_cases h : m = 0
    · rw [if_pos (scaled_zero.mpr h)] at this; rw [if_pos h]; exact num32_of64_nan this
    · rw [if_neg (fun e => h (scaled_zero.mp e))] at this; rw [if_neg h]; exact num32_of64_inf this
  · simp only
    rw [F64.mul_fin (scale_fin ha) (scale_fin hb)]
    obtain ⟨_, hm, _⟩ := code_of_fin32 ha
    obtain ⟨_, hm', _⟩ := code_of_fin32 hb
    refine round32' (k' := 2 ^ 925) _ _ _ _ _ (Nat.two_pow_pos 1074) (fun c _ => clear_mul c _ _ hm hm') 1 (by decide) ?_ ?_ (Nat.two_pow_pos 925)
    · ring
    · show 2 ^ 1074 * 1 = 2 ^ 149 * 2 ^ 925
      rw [Nat.mul_one, ← pow_add]

/-! ## Division -/

theorem eq_zero64 (x : F64) : F64.eq x F64.zero = (num64 x).isZero := by
  rw [F64.eq_eq, show num64 F64.zero = .fin false 0 from num64_zero false]
  rcases num64 x with _ | s | ⟨s, m⟩
  · rfl
  · rfl
  · cases m with
    | zero => cases s <;> rfl
    | succ n => cases s <;> simp [Num.equal, Num.isZero, Num.units] <;> omega

theorem num64_copysign_inf (x : F64) : num64 (F64.copysign (F64.inf false) x) = .inf x.msb := by
  have h : code64 (F64.inf false) = inf64 := F64.ofMag_code (by decide)
  unfold F64.copysign
  rw [show (F64.inf false).toNat % 2 ^ 63 = 2047 * 2 ^ 52 from h, F64.sign_eq]
  exact F64.num_inf
theorem num64_copysign_nan (x : F64) : num64 (F64.copysign F64.nan x) = .nan := by
  have h : code64 F64.nan = 2047 * 2 ^ 52 + 2 ^ 51 := F64.ofMag_code (by decide)
  unfold F64.copysign
  rw [show F64.nan.toNat % 2 ^ 63 = 2047 * 2 ^ 52 + 2 ^ 51 from h]
  exact num64_nanC _
theorem one_msb : F64.one.msb = false ∧ (F64.neg F64.one).msb = true := by decide +kernel

theorem div_nan {a b : F64} (h : num64 a = .nan ∨ num64 b = .nan) : num64 (Arith.F64.div a b) = .nan := by
  unfold Arith.F64.div
  rw [eq_zero64]
  by_cases hb : (num64 b).isZero = true
  · rw [if_pos hb]
    have ha : a.isNaN = true := by
      rcases h with h | h
      · exact isNaN_of_num h
      · rw [h] at hb; cases hb
    simp only [ha, Bool.or_true, if_true]
    exact num64_copysign_nan _
  · rw [if_neg hb]
    unfold F64.div
    by_cases ha : a.isNaN = true
    · simp only [ha, if_true]; exact num64_quiet ha
    · have hb : b.isNaN = true := by
        rcases h with h | h
        · exact absurd (isNaN_of_num h) ha
        · exact isNaN_of_num h
      simp only [hb, if_true, if_neg ha]; exact num64_quiet hb

theorem msb_pick (s s' : Bool) : (if s = s' then F64.one else F64.neg F64.one).msb = (s != s') := by
  obtain ⟨h1, h2⟩ := one_msb
  cases s <;> cases s'
  · exact h1
  · exact h2
  · exact h2
  · exact h1

theorem div_zero {a b : F64} {s'} (hb : num64 b = .fin s' 0) (ha : num64 a ≠ .nan) :
    num64 (Arith.F64.div a b) = if (num64 a).isZero then .nan else .inf (a.msb != s') := by
  have hm := (F64.fin_mag hb).2.2.2.2
  have ha' : a.isNaN = false := by
    rcases F64.num_cases a with ⟨_, _, h3⟩ | ⟨h1, _⟩ | ⟨h1, _⟩
    · exact absurd h3 ha
    · exact h1
    · exact h1
  unfold Arith.F64.div
  rw [eq_zero64, eq_zero64, hb, if_pos (show (Num.fin s' 0).isZero = true from rfl), ha', Bool.or_false, F64.sign_eq, F64.sign_eq, hm]
  simp only
  split
  · exact num64_copysign_nan _
  · rw [num64_copysign_inf, msb_pick]

theorem div_nz {a b : F64} (hb : (num64 b).isZero = false) : Arith.F64.div a b = F64.div a b := by
  unfold Arith.F64.div
  rw [eq_zero64, hb, if_neg (by decide)]

theorem div_inf_inf {a b : F64} {s s'} (ha : num64 a = .inf s) (hb : num64 b = .inf s') : num64 (Arith.F64.div a b) = .nan := by
  obtain ⟨a1, a2, a3, a4⟩ := F64.inf_facts ha
  obtain ⟨b1, b2, b3, b4⟩ := F64.inf_facts hb
  rw [div_nz (by rw [hb]; rfl)]
  unfold F64.div
  simp only [a1, a2, b1, b2, Bool.false_eq_true, if_false, if_true]
  exact num64_nanC _
theorem div_inf_fin {a b : F64} {s s' m} (ha : num64 a = .inf s) (hb : num64 b = .fin s' m) :
    num64 (Arith.F64.div a b) = .inf (s != s') := by
  obtain ⟨a1, a2, a3, a4⟩ := F64.inf_facts ha
  obtain ⟨b1, b2, b3, b4, b5⟩ := F64.fin_mag hb
  by_cases hm : m = 0
  · subst hm
    rw [div_zero hb (by rw [ha]; simp), ha, a4]; rfl
  · rw [div_nz (by rw [hb]; unfold Num.isZero; split <;> simp_all)]
    unfold F64.div
    simp only [F64.sign_eq, a1, a2, a4, b1, b2, b5, Bool.false_eq_true, if_false, if_true]
    exact F64.num_inf
theorem div_fin_inf {a b : F64} {s s' m} (ha : num64 a = .fin s m) (hb : num64 b = .inf s') :
    Arith.F64.div a b = F64.ofMag (s != s') 0 := by
  obtain ⟨b1, b2, b3, b4⟩ := F64.inf_facts hb
  obtain ⟨a1, a2, a3, a4, a5⟩ := F64.fin_mag ha
  rw [div_nz (by rw [hb]; rfl)]
  unfold F64.div
  simp only [F64.sign_eq, a1, a2, a5, b1, b2, b4, Bool.false_eq_true, if_false, if_true]
theorem div_fin {a b : F64} {s s' m m'} (ha : num64 a = .fin s m) (hb : num64 b = .fin s' m') (hm : m' ≠ 0) :
    Arith.F64.div a b = F64.round (s != s') (m * 2 ^ 1074) m' := by
  obtain ⟨b1, b2, b3, b4, b5⟩ := F64.fin_mag hb
  obtain ⟨a1, a2, a3, a4, a5⟩ := F64.fin_mag ha
  rw [div_nz (by rw [hb]; unfold Num.isZero; split <;> simp_all)]
  unfold F64.div
  rw [a1, b1, a2, b2, F64.sign_eq, F64.sign_eq, a5, b5, a4, b4, if_neg (by decide), if_neg (by decide), if_neg (by decide), if_neg (by decide)]

theorem fin_zero_iff {s m} : (Num.fin s m).isZero = decide (m = 0) := by
  cases m with
  | zero => rfl
  | succ n => simp [Num.isZero]

theorem div64_spec (a b : F64) : DivSpec .w64 (num64 a) (num64 b) (num64 (Arith.F64.div a b)) := by
  unfold DivSpec
  rcases ha : num64 a with _ | s | ⟨s, m⟩
  · exact div_nan (.inl ha)
  all_goals rcases hb : num64 b with _ | s' | ⟨s', m'⟩
  · exact div_nan (.inr hb)
  · exact div_inf_inf ha hb
  · exact div_inf_fin ha hb
  · exact div_nan (.inr hb)
  · simp only; rw [div_fin_inf ha hb]; exact num64_zero _
  · simp only
    by_cases hm : m' = 0
    · subst hm
      have h := div_zero hb (a := a) (by rw [ha]; simp)
      rw [ha, fin_zero_iff, (F64.fin_mag ha).2.2.2.2] at h
      rw [if_pos rfl, h]
      by_cases h0 : m = 0
      · simp [h0]
      · simp [h0]
    · rw [if_neg hm, div_fin ha hb hm]
      exact round64 _ _ _ (by omega)

theorem div32_spec (a b : F32) :
    DivSpec .w32 (num32 a) (num32 b) (num32 (F32.ofF64 (Arith.F32.div (F32.toF64 a) (F32.toF64 b)))) := by
  unfold Arith.F32.div Arith.F32.fit
  rw [F32.ofF64_idem]
  unfold DivSpec
  rcases ha : num32 a with _ | s | ⟨s, m⟩
  · exact num32_of64_nan (div_nan (.inl (scale_nan' ha)))
  all_goals rcases hb : num32 b with _ | s' | ⟨s', m'⟩
  · exact num32_of64_nan (div_nan (.inr (scale_nan' hb)))
  · exact num32_of64_nan (div_inf_inf (scale_inf' ha) (scale_inf' hb))
  · exact num32_of64_inf (div_inf_fin (scale_inf' ha) (scale_fin hb))
  · exact num32_of64_nan (div_nan (.inr (scale_nan' hb)))
  · simp only; rw [div_fin_inf (scale_fin ha) (scale_inf' hb)]; exact num32_of64_zero _
  · simp only
    by_cases hm : m' = 0
    · subst hm
      have hb' := scale_fin hb
      rw [Nat.zero_mul] at hb'
      have h := div_zero hb' (a := F32.toF64 a) (by rw [scale_fin ha]; simp)
      rw [scale_fin ha, fin_zero_iff, (F64.fin_mag (scale_fin ha)).2.2.2.2] at h
      rw [if_pos rfl]
      by_cases h0 : m = 0
      · rw [if_pos h0]; rw [h0, Nat.zero_mul] at h; exact num32_of64_nan h
      · rw [if_neg h0]
        rw [decide_eq_false (by rw [scaled_zero]; exact h0), if_neg (by decide)] at h
        exact num32_of64_inf h
    · rw [if_neg hm, div_fin (scale_fin ha) (scale_fin hb) (by rw [ne_eq, scaled_zero]; exact hm)]
      obtain ⟨_, e, _⟩ := code_of_fin32 ha
      obtain ⟨_, e', _⟩ := code_of_fin32 hb
      refine round32' (k' := 2 ^ 925) _ _ _ _ _ (Nat.mul_pos (by omega) (Nat.two_pow_pos 925)) (fun c _ => clear_div c _ _ e e' hm) 1 (by decide) ?_ ?_ (Nat.two_pow_pos 925)
      · show m * 2 ^ 925 * 2 ^ 1074 * 1 = m * 2 ^ 149 * (2 ^ 925 * 2 ^ 925)
        rw [show (2 : Nat) ^ 1074 = 2 ^ 149 * 2 ^ 925 by rw [← pow_add]]; ring
      · ring

/-! ## Square root -/

/-- core.py:2391-2396, 2464-2469 -/
def sqrtCode (a : F64) : F64 := if F64.le F64.zero a then F64.sqrt a else F64.nan

theorem le_zero64 (a : F64) : F64.le F64.zero a = match num64 a with
    | .nan => false
    | .inf s => !s
    | .fin s m => !s || decide (m = 0) := by
  unfold F64.le
  rw [F64.lt_eq, F64.eq_eq, show num64 F64.zero = .fin false 0 from num64_zero false]
  rcases num64 a with _ | s | ⟨s, m⟩
  · rfl
  · cases s <;> rfl
  · cases s
    · simp only [Num.less, Num.equal, Num.units, Bool.false_eq_true, if_false, Bool.not_false, Bool.true_or]
      rw [Bool.or_eq_true, decide_eq_true_eq, decide_eq_true_eq]; omega
    · simp only [Num.less, Num.equal, Num.units, Bool.false_eq_true, if_false, if_true, Bool.not_true, Bool.false_or]
      rw [Bool.eq_iff_iff, Bool.or_eq_true, decide_eq_true_eq, decide_eq_true_eq, decide_eq_true_eq]; omega

theorem sqrt_cases (a : F64) :
    (num64 a = .nan → num64 (sqrtCode a) = .nan) ∧
    (∀ s, num64 a = .inf s → num64 (sqrtCode a) = if s then .nan else .inf false) ∧
    (∀ s, num64 a = .fin s 0 → sqrtCode a = F64.ofMag s 0) ∧
    (∀ m, num64 a = .fin true m → m ≠ 0 → num64 (sqrtCode a) = .nan) ∧
    (∀ m, num64 a = .fin false m → m ≠ 0 → sqrtCode a = F64.round false (root2 (m * 2 ^ 1074)) 2) := by
  have hnan : num64 F64.nan = .nan := num64_nanC false
  refine ⟨fun h => ?_, fun s h => ?_, fun s h => ?_, fun m h hm => ?_, fun m h hm => ?_⟩
  · unfold sqrtCode; rw [le_zero64, h]; exact hnan
  · unfold sqrtCode; rw [le_zero64, h]
    cases s
    · obtain ⟨a1, a2, a3, a4⟩ := F64.inf_facts h
      simp only [Bool.not_false, if_true, Bool.false_eq_true, if_false]
      unfold F64.sqrt
      rw [a2, Bool.or_true]
      simp only [if_true, Bool.true_or]
      exact h
    · exact hnan
  · unfold sqrtCode; rw [le_zero64, h]
    obtain ⟨a1, a2, a3, a4, a5⟩ := F64.fin_mag h
    simp only [decide_true, Bool.or_true, if_true]
    unfold F64.sqrt
    rw [a4, a1, a2]
    rw [if_pos (by decide)]
    apply F64.code_ext
    · rw [F64.ofMag_msb (by decide), a5]
    · rw [F64.ofMag_code (by decide)]
      rw [F64.mag_eq] at a4
      exact magnitude_inj (p := 52) (by rw [a4]; rfl)
  · unfold sqrtCode; rw [le_zero64, h]
    simp only [Bool.not_true, Bool.false_or, decide_eq_true_eq, if_neg hm]
    exact hnan
  · unfold sqrtCode; rw [le_zero64, h]
    obtain ⟨a1, a2, a3, a4, a5⟩ := F64.fin_mag h
    simp only [Bool.not_false, Bool.true_or, if_true]
    unfold F64.sqrt root2
    rw [a4, a1, a2, if_neg (by simp [hm])]

theorem fin_lt64 {x : F64} {s m} (h : num64 x = .fin s m) : m < 2 ^ 2098 := by
  rcases F64.num_cases x with ⟨_, _, h3⟩ | ⟨_, _, h3⟩ | ⟨_, _, h4, h3⟩
  · rw [h3] at h; cases h
  · rw [h3] at h; cases h
  · rw [h3] at h; injection h with _ b
    rw [← b, F64.mag_eq, ← magnitude_inf64]
    exact magnitude_strictMono 52 h4

theorem sqrt64_spec (a : F64) : SqrtSpec .w64 (num64 a) (num64 (sqrtCode a)) := by
  obtain ⟨h1, h2, h3, h4, h5⟩ := sqrt_cases a
  unfold SqrtSpec
  rcases ha : num64 a with _ | s | ⟨s, m⟩
  · exact h1 ha
  · exact h2 s ha
  · simp only
    by_cases hm : m = 0
    · subst hm; rw [if_pos rfl, h3 s ha]; exact num64_zero s
    · rw [if_neg hm]
      cases s
      · rw [if_neg (by decide), h5 m ha hm]
        obtain ⟨k1, k2⟩ := F64.round_spec false (root2 (m * 2 ^ 1074)) 2 (by decide)
        have k3 := sqrt64_nearest (Nat.pos_of_ne_zero hm) (fin_lt64 ha) k2
        exact ⟨_, k3, by rw [F64.num_of_code k2.1, if_neg (ne_of_lt k3.1), k1]; rfl⟩
      · rw [if_pos rfl]; exact h4 m ha hm

theorem sqrt32_spec (a : F32) : SqrtSpec .w32 (num32 a) (num32 (F32.ofF64 (sqrtCode (F32.toF64 a)))) := by
  obtain ⟨h1, h2, h3, h4, h5⟩ := sqrt_cases (F32.toF64 a)
  unfold SqrtSpec
  rcases ha : num32 a with _ | s | ⟨s, m⟩
  · exact num32_of64_nan (h1 (scale_nan' ha))
  · have := h2 s (scale_inf' ha)
    cases s
    · exact num32_of64_inf this
    · exact num32_of64_nan this
  · simp only
    have hs := scale_fin ha
    by_cases hm : m = 0
    · subst hm
      rw [Nat.zero_mul] at hs
      rw [if_pos rfl, h3 s hs]; exact num32_of64_zero s
    · rw [if_neg hm]
      have hm' : m * 2 ^ 925 ≠ 0 := by rw [ne_eq, scaled_zero]; exact hm
      cases s
      · rw [if_neg (by decide), h5 _ hs hm']
        obtain ⟨hc, e, _⟩ := code_of_fin32 ha
        obtain ⟨k1, k2⟩ := round32 false (root2 (m * 2 ^ 925 * 2 ^ 1074)) 2 (by decide) (fun c _ => clear_sqrt _ c e)
        have hN : m * 2 ^ 925 * 2 ^ 1074 = m * 2 ^ 149 * (2 ^ 925 * 2 ^ 925) := by
          rw [show (2 : Nat) ^ 1074 = 2 ^ 149 * 2 ^ 925 by rw [← pow_add]]; ring
        have hlt : m < 2 ^ 277 := by rw [e, ← magnitude_inf32]; exact magnitude_strictMono 23 hc
        have hcode : code32 (F32.ofF64 (F64.round false (root2 (m * 2 ^ 925 * 2 ^ 1074)) 2)) < inf32 := by
          obtain ⟨ch, hh⟩ := exists_code (p := 23) (a := 1) (by decide) 213
          have l : ch < inf32 := by
            apply Pywasm.code_lt (p := 23); rw [hh, magnitude_inf32]; decide
          refine lt_of_le_of_lt (nearest_le (Nat.mul_pos (by decide) (Nat.two_pow_pos 925)) k2 l.le ?_) l
          rw [hh, Nat.one_mul, show 2 ^ 213 * (2 * 2 ^ 925) = 2 * (2 ^ 213 * 2 ^ 925) by ring]
          apply (root2_cmp _ _).1.mpr
          rw [hN]
          calc m * 2 ^ 149 * (2 ^ 925 * 2 ^ 925) ≤ 2 ^ 277 * 2 ^ 149 * (2 ^ 925 * 2 ^ 925) :=
                Nat.mul_le_mul_right _ (Nat.mul_le_mul_right _ hlt.le)
            _ = 2 ^ 213 * 2 ^ 925 * (2 ^ 213 * 2 ^ 925) := by
                rw [show (2 : Nat) ^ 277 * 2 ^ 149 = 2 ^ 213 * 2 ^ 213 by rw [← pow_add, ← pow_add]]; ring
        refine ⟨_, ?_, by rw [F32.num_of_code k2.1, if_neg (ne_of_lt hcode), k1]; rfl⟩
        refine nearest_root (D := 2 ^ 925) (Nat.two_pow_pos 925) ?_ hcode ?_
        · rw [hN] at k2 ⊢; exact k2
        · intro c' _
          rw [show (925 : Nat) = 924 + 1 from rfl, pow_succ, ← Nat.mul_assoc, Nat.mul_mod_left]
      · rw [if_pos rfl]; exact num32_of64_nan (h4 _ hs hm')

end Pywasm
