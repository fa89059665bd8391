import Verif.Props.ValueApi

/-!
# Results given as arguments

C96: "What an invocation returns can be given as an argument of the same type to another, and the guest then has the value it returned,
bit for bit."

False of the code in two cases: a null reference cannot be returned at all (an exception is raised), and an `f32` that is a signalling NaN
comes back quiet.  Proved for all other values.
-/

namespace Pywasm.Props
open Spec

/-- The number of bytes of a value that an instruction for its type looks at: a reference has four for its number and one that says it is
not null. -/
def typeBytes : ValType → Nat
  | .i32 | .f32 => 4
  | .i64 | .f64 => 8
  | .v128 => 16
  | .funcref | .externref => 5

/-- The same value of the same type. -/
def SameValue (v w : Val) : Prop := w.ty = v.ty ∧ w.data.take (typeBytes v.ty) = v.data.take (typeBytes v.ty)

theorem take_of_leNat {v w : Val} {k : Nat} (hk : k ≤ 16) (h : Py.leNat (w.data.take k) = Py.leNat (v.data.take k)) :
    w.data.take k = v.data.take k := by
  have lv : (v.data.take k).length = k := by rw [List.length_take, v.len]; omega
  have lw : (w.data.take k).length = k := by rw [List.length_take, w.len]; omega
  rw [← Py.leBytes_leNat (w.data.take k), ← Py.leBytes_leNat (v.data.take k), h, lv, lw]

theorem take_of_low32 {v w : Val} (h : w.low32 = v.low32) : w.data.take 4 = v.data.take 4 := by
  apply take_of_leNat (by decide)
  have e := congrArg BitVec.toNat h
  simp only [Val.low32, BitVec.toNat_ofNat, readLE_eq] at e
  have a := Py.leNat_lt (w.data.take 4)
  have b := Py.leNat_lt (v.data.take 4)
  rw [List.length_take, w.len] at a
  rw [List.length_take, v.len] at b
  rwa [Nat.mod_eq_of_lt (by simpa using a), Nat.mod_eq_of_lt (by simpa using b)] at e
theorem take_of_low64 {v w : Val} (h : w.low64 = v.low64) : w.data.take 8 = v.data.take 8 := by
  apply take_of_leNat (by decide)
  have e := congrArg BitVec.toNat h
  simp only [Val.low64, BitVec.toNat_ofNat, readLE_eq] at e
  have a := Py.leNat_lt (w.data.take 8)
  have b := Py.leNat_lt (v.data.take 8)
  rw [List.length_take, w.len] at a
  rw [List.length_take, v.len] at b
  rwa [Nat.mod_eq_of_lt (by simpa using a), Nat.mod_eq_of_lt (by simpa using b)] at e

theorem low32_of_intoI32 {v w : Val} (h : w.intoI32 = v.intoI32) : w.low32 = v.low32 := by
  rw [Val.intoI32_eq, Val.intoI32_eq] at h
  exact BitVec.eq_of_toInt_eq h

theorem intoRef_ok {v : Val} {n : Int} (h : v.intoRef = .ok n) : v.data[4]? = some 1 ∧ v.intoI32 = n := by
  unfold Val.intoRef Py.assert at h
  split at h
  · next hb =>
    have hl : 4 < v.data.length := by rw [v.len]; decide
    have : v.byte 4 = 1 := by simpa using hb
    unfold Val.byte at this
    rw [List.getD_eq_getElem?_getD, List.getElem?_eq_getElem hl] at this
    rw [List.getElem?_eq_getElem hl]
    exact ⟨congrArg some this, by injection h⟩
  · cases h

theorem take_of_ref {v w : Val} {n : Int} (hv : v.intoRef = .ok n) (hw : w.intoRef = .ok n) : w.data.take 5 = v.data.take 5 := by
  obtain ⟨v4, vn⟩ := intoRef_ok hv
  obtain ⟨w4, wn⟩ := intoRef_ok hw
  rw [List.take_add_one (i := 4), List.take_add_one (i := 4), take_of_low32 (low32_of_intoI32 (wn.trans vn.symm)), v4, w4]

theorem refs_pass {v : Val} {x : HVal} (ty : ValType) (hty : v.ty = ty) (hr : ty = .funcref ∨ ty = .externref) (h : v.intoAll = .ok x) :
    ∃ w, Val.fromAll ty x = .ok w ∧ w.ty = ty ∧ w.data.take 5 = v.data.take 5 := by
  have hm : ∀ u : Val, u.ty = ty → u.intoAll = u.intoRef.map .int := by
    intro u hu
    unfold Val.intoAll
    rcases hr with rfl | rfl <;> rw [hu]
  rw [hm v hty] at h
  cases hv : v.intoRef with
  | error e => rw [hv] at h; cases h
  | ok n =>
    rw [hv] at h
    injection h with h
    subst h
    have hin : inRange ty n := by
      have := (C09_signed_unsigned_views v).2.2.1
      rw [(intoRef_ok hv).2] at this
      rcases hr with rfl | rfl <;> exact this
    obtain ⟨w, h1, h2, h3⟩ := (C09_host_int_round_trip ty (by rcases hr with rfl | rfl <;> simp [isIntLike]) n).1 hin
    refine ⟨w, h1, h2, take_of_ref hv ?_⟩
    rw [hm w h2] at h3
    cases hw : w.intoRef with
    | error e => rw [hw] at h3; cases h3
    | ok m => rw [hw] at h3; injection h3 with h3; injection h3 with h3; rw [h3]

/-- **C96**.  Missing: `f32` values that are signalling NaNs (`C96_refuted`) and null references, which cannot be returned
(`C96_returnable`). -/
theorem C96_pass_on_partial (v : Val) (x : HVal) (h : v.intoAll = .ok x) (hs : ¬(v.ty = .f32 ∧ sNaN32 v.low32)) :
    ∃ w, Val.fromAll v.ty x = .ok w ∧ SameValue v w := by
  have int_pass : ∀ n, isIntLike v.ty → inRange v.ty n → ∃ w, Val.fromAll v.ty (.int n) = .ok w ∧ w.ty = v.ty ∧ w.intoAll = .ok (.int n) :=
    fun n h1 h2 => (C09_host_int_round_trip v.ty h1 n).1 h2
  have hviews := (C09_signed_unsigned_views v).2.2
  unfold SameValue
  unfold Val.intoAll at h int_pass
  cases hv : v.ty <;> rw [hv] at h int_pass
  · injection h with h
    subst h
    obtain ⟨w, h1, h2, h3⟩ := int_pass v.intoI32 (by simp [isIntLike]) hviews.1
    rw [h2] at h3
    refine ⟨w, h1, h2, take_of_low32 (low32_of_intoI32 ?_)⟩
    injection h3 with h3
    injection h3
  · injection h with h
    subst h
    obtain ⟨w, h1, h2, h3⟩ := int_pass v.intoI64 (by simp [isIntLike]) hviews.2
    rw [h2] at h3
    refine ⟨w, h1, h2, take_of_low64 ?_⟩
    injection h3 with h3
    injection h3 with h3
    rw [Val.intoI64_eq, Val.intoI64_eq] at h3
    exact BitVec.eq_of_toInt_eq h3
  · injection h with h
    subst h
    have hx : v.intoF32 = F32.toF64 v.low32 := by rw [Val.intoF32, Val.low32, readLE_eq]
    refine ⟨f32 (F32.ofF64 v.intoF32), fromF32_eq _, rfl, take_of_low32 ?_⟩
    rw [low32_f32, hx]
    exact F32.ofF64_toF64 fun hn => hs ⟨hv, hn⟩
  · injection h with h
    subst h
    have hx : v.intoF64 = v.low64 := by rw [Val.intoF64, Val.low64, readLE_eq]
    refine ⟨f64 v.intoF64, fromF64_eq _, rfl, take_of_low64 ?_⟩
    rw [low64_f64, hx]
  · injection h with h
    subst h
    have hl : v.intoV128 = v.data := by rw [Val.intoV128, List.take_of_length_le (by rw [v.len])]
    obtain ⟨w, h1, h2, h3⟩ := (C09_host_v128_round_trip v.intoV128).1 (by rw [hl, v.len])
    unfold Val.intoAll at h3
    rw [h2] at h3
    injection h3 with h3
    injection h3 with h3
    exact ⟨w, h1, h2, h3⟩
  · exact refs_pass .funcref hv (.inl rfl) (by unfold Val.intoAll; rw [hv]; exact h)
  · exact refs_pass .externref hv (.inr rfl) (by unfold Val.intoAll; rw [hv]; exact h)

/-- A value can be returned exactly if it is not a null reference. -/
theorem C96_returnable (v : Val) :
    (∃ x, v.intoAll = .ok x) ↔ ¬((v.ty = .funcref ∨ v.ty = .externref) ∧ v.data[4]? ≠ some 1) := by
  have href : (∃ x, v.intoRef.map HVal.int = .ok x) ↔ v.data[4]? = some 1 := by
    constructor
    · rintro ⟨x, hx⟩
      cases hv : v.intoRef with
      | error e => rw [hv] at hx; cases hx
      | ok n => exact (intoRef_ok hv).1
    · intro hb
      have : v.byte 4 = 1 := by unfold Val.byte; rw [List.getD_eq_getElem?_getD, hb]; rfl
      refine ⟨.int v.intoI32, ?_⟩
      unfold Val.intoRef
      rw [show Py.assert (v.byte 4 == 0x01) = .ok () by rw [this]; rfl]
      rfl
  unfold Val.intoAll
  cases hv : v.ty <;> simp only [href] <;> simp

/-- The signalling NaN with the bits `0x7f800001` is returned as a quiet one: what is passed on is another value. -/
theorem C96_refuted : ∃ v x w, v.intoAll = .ok x ∧ Val.fromAll v.ty x = .ok w ∧ ¬ SameValue v w := by
  refine ⟨f32 0x7f800001#32, _, _, rfl, fromF32_eq _, fun h => ?_⟩
  have h2 := h.2
  revert h2
  decide +kernel

/-! ## The hypotheses are met -/

theorem passZero : (Val.zero .i32).intoAll = .ok (.int 0) := by decide +kernel
example : ∃ w, Val.fromAll .i32 (.int 0) = .ok w ∧ SameValue (Val.zero .i32) w :=
  C96_pass_on_partial (Val.zero .i32) _ passZero (fun h => by cases h.1)
theorem passNaN : (f32 0x7fc00001#32).intoAll = .ok (.float 0x7ff8000020000000#64) := by decide +kernel
example : ∃ w, Val.fromAll .f32 (.float 0x7ff8000020000000#64) = .ok w ∧ SameValue (f32 0x7fc00001#32) w :=
  C96_pass_on_partial (f32 0x7fc00001#32) _ passNaN (by rw [low32_f32]; unfold sNaN32; decide +kernel)
example : ¬ ∃ x, (Val.zero .funcref).intoAll = .ok x := by
  rw [C96_returnable]; exact fun h => h ⟨.inl rfl, by decide⟩

end Pywasm.Props
