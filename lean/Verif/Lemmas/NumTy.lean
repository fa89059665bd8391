import Verif.Lemmas.NumLocal
import Verif.Lemmas.FloatSat
import Verif.Lemmas.FloatArith
import Verif.Lemmas.Ty
import Verif.Spec.Typing

/-!
# Numeric instructions: operands, result types and which of them can fail
-/

set_option exponentiation.threshold 3000

namespace Pywasm
open Spec Spec.Typing

/-- `x` succeeds with a result that satisfies `P`. -/
def Good {α} (P : α → Prop) (x : Except Err α) : Prop := ∃ a, x = .ok a ∧ P a

namespace Good
theorem ok {α} {P : α → Prop} {a : α} (h : P a) : Good P (.ok a) := ⟨a, rfl, h⟩
theorem bind {α β} {P : α → Prop} {Q : β → Prop} {x : Except Err α} {f : α → Except Err β} (hx : Good P x)
    (hf : ∀ a, P a → Good Q (f a)) : Good Q (x >>= f) := by
  obtain ⟨a, rfl, h⟩ := hx
  exact hf a h
theorem mono {α} {P Q : α → Prop} {x : Except Err α} (hx : Good P x) (h : ∀ a, P a → Q a) : Good Q x := by
  obtain ⟨a, rfl, h'⟩ := hx
  exact ⟨a, rfl, h a h'⟩
theorem mapM {α β} {P : β → Prop} {l : List α} {f : α → Except Err β} (hf : ∀ a ∈ l, Good P (f a)) :
    Good (fun r => r.length = l.length ∧ ∀ b ∈ r, P b) (l.mapM f) := by
  induction l with
  | nil => exact ⟨[], rfl, rfl, by simp⟩
  | cons a l ih =>
    rw [List.mapM_cons]
    obtain ⟨b, hb, hP⟩ := hf a (by simp)
    obtain ⟨r, hr, hl, hr'⟩ := ih fun a ha => hf a (by simp [ha])
    rw [hb, hr]
    refine ⟨b :: r, rfl, by simp [hl], ?_⟩
    intro c hc
    rcases List.mem_cons.mp hc with rfl | hc
    · exact hP
    · exact hr' c hc
end Good

/-- Takes `n` operands, never fails and leaves one value of type `t`. -/
def VM.Tot (m : VM Unit) (n : Nat) (t : ValType) : Prop :=
  ∀ a s : List Val, a.length = n → ∃ v, m (a ++ s) = .ok () (v :: s) ∧ v.ty = t

/-- Takes `n` operands and leaves one value of type `t` or fails. -/
def VM.Par (m : VM Unit) (n : Nat) (t : ValType) : Prop :=
  ∀ a s : List Val, a.length = n → (∃ v, m (a ++ s) = .ok () (v :: s) ∧ v.ty = t) ∨ ∃ e s', m (a ++ s) = .error e s' ∧ e ≠ .index

namespace VM.Tot
variable {α : Type}
theorem pop {f : Val → VM Unit} {n t} (h : ∀ v, VM.Tot (f v) n t) : VM.Tot (VM.pop >>= f) (n + 1) t := by
  intro a s ha
  rcases a with _ | ⟨v, a⟩
  · simp at ha
  · exact h v a s (by simpa using ha)
theorem push {v : Val} {t} (h : v.ty = t) : VM.Tot (VM.push v) 0 t := by
  intro a s ha
  rw [List.eq_nil_of_length_eq_zero ha]
  exact ⟨v, rfl, h⟩
theorem lift {e : Except Err α} {f : α → VM Unit} {n t} {P : α → Prop} (he : Good P e) (h : ∀ a, P a → VM.Tot (f a) n t) :
    VM.Tot (VM.lift e >>= f) n t := by
  obtain ⟨a, rfl, ha⟩ := he
  exact h a ha
theorem map {g : Val → α} {m : VM α} (hm : m = VM.pop >>= fun v => pure (g v)) {f : α → VM Unit} {n t}
    (h : ∀ v, VM.Tot (f (g v)) n t) : VM.Tot (m >>= f) (n + 1) t := by
  subst hm
  intro a s ha
  rcases a with _ | ⟨v, a⟩
  · simp at ha
  · exact h v a s (by simpa using ha)
theorem popI32 {f : Int → VM Unit} {n t} (h : ∀ v : Val, VM.Tot (f v.intoI32) n t) : VM.Tot (VM.popI32 >>= f) (n + 1) t := map rfl h
theorem popI64 {f : Int → VM Unit} {n t} (h : ∀ v : Val, VM.Tot (f v.intoI64) n t) : VM.Tot (VM.popI64 >>= f) (n + 1) t := map rfl h
theorem popU32 {f : Int → VM Unit} {n t} (h : ∀ v : Val, VM.Tot (f v.intoU32) n t) : VM.Tot (VM.popU32 >>= f) (n + 1) t := map rfl h
theorem popU64 {f : Int → VM Unit} {n t} (h : ∀ v : Val, VM.Tot (f v.intoU64) n t) : VM.Tot (VM.popU64 >>= f) (n + 1) t := map rfl h
theorem popF32 {f : F64 → VM Unit} {n t} (h : ∀ v : F64, VM.Tot (f v) n t) : VM.Tot (VM.popF32 >>= f) (n + 1) t :=
  map rfl fun _ => h _
theorem popF64 {f : F64 → VM Unit} {n t} (h : ∀ v : F64, VM.Tot (f v) n t) : VM.Tot (VM.popF64 >>= f) (n + 1) t :=
  map rfl fun _ => h _
theorem popLanesF32 {f : List F64 → VM Unit} {n t} (h : ∀ l : List F64, l.length = 4 → VM.Tot (f l) n t) :
    VM.Tot (VM.popLanesF32 >>= f) (n + 1) t :=
  map rfl fun v => h _ (by simp [Val.intoV128F32, Val.chunks])
theorem popLanesF64 {f : List F64 → VM Unit} {n t} (h : ∀ l : List F64, l.length = 2 → VM.Tot (f l) n t) :
    VM.Tot (VM.popLanesF64 >>= f) (n + 1) t :=
  map rfl fun v => h _ (by simp [Val.intoV128F64, Val.chunks])
theorem popLanesI {k : Nat} {f : List Int → VM Unit} {n t} (h : ∀ v : Val, VM.Tot (f (v.intoV128I k)) n t) :
    VM.Tot (VM.popLanesI k >>= f) (n + 1) t := map rfl h
theorem popLanesU {k : Nat} {f : List Int → VM Unit} {n t} (h : ∀ v : Val, VM.Tot (f (v.intoV128U k)) n t) :
    VM.Tot (VM.popLanesU k >>= f) (n + 1) t := map rfl h
end VM.Tot

theorem VM.Tot.par {m : VM Unit} {n t} (h : VM.Tot m n t) : VM.Par m n t := fun a s ha => .inl (h a s ha)

/-! ### conversions -/
theorem good_make {ty : ValType} {d : Bytes} (h : d.length = 16) : Good (fun v : Val => v.ty = ty) (Val.make ty d) := by
  unfold Val.make
  rw [dif_pos h]
  exact ⟨_, rfl, rfl⟩
theorem good_fromBool (b : Bool) : Good (fun v : Val => v.ty = .i32) (Val.fromI32 (Py.ofBool b)) := ⟨_, fromI32_bool b, rfl⟩
theorem good_fromF32 (x : F64) : Good (fun v : Val => v.ty = .f32) (Val.fromF32 x) := ⟨_, fromF32_eq x, rfl⟩
theorem good_fromF64 (x : F64) : Good (fun v : Val => v.ty = .f64) (Val.fromF64 x) := ⟨_, fromF64_eq x, rfl⟩
theorem good_fromI32 {n : Int} (h : -2 ^ 31 ≤ n ∧ n < 2 ^ 31) : Good (fun v : Val => v.ty = .i32) (Val.fromI32 n) :=
  ⟨_, fromI32_of_range h, rfl⟩
theorem good_fromI64 {n : Int} (h : -2 ^ 63 ≤ n ∧ n < 2 ^ 63) : Good (fun v : Val => v.ty = .i64) (Val.fromI64 n) :=
  ⟨_, fromI64_of_range h, rfl⟩
theorem good_fromU32 {n : Int} (h : 0 ≤ n ∧ n ≤ 2 ^ 32 - 1) : Good (fun v : Val => v.ty = .i32) (Val.fromU32 n) :=
  ⟨_, fromU32_ofInt h, rfl⟩
theorem good_fromU64 {n : Int} (h : 0 ≤ n ∧ n ≤ 2 ^ 64 - 1) : Good (fun v : Val => v.ty = .i64) (Val.fromU64 n) :=
  ⟨_, fromU64_ofInt h, rfl⟩
theorem good_v128F32 {l : List F64} (h : l.length = 4) : Good (fun v : Val => v.ty = .v128) (Val.fromV128F32 l) := by
  unfold Val.fromV128F32 Py.assert
  rw [h]
  refine good_make ?_
  rcases l with _ | ⟨a, _ | ⟨b, _ | ⟨c, _ | ⟨d, _ | ⟨e, l⟩⟩⟩⟩⟩ <;> simp at h
  simp [Py.leBytes, Py.zeros]
theorem good_v128F64 {l : List F64} (h : l.length = 2) : Good (fun v : Val => v.ty = .v128) (Val.fromV128F64 l) := by
  unfold Val.fromV128F64 Py.assert
  rw [h]
  refine good_make ?_
  rcases l with _ | ⟨a, _ | ⟨b, _ | ⟨e, l⟩⟩⟩ <;> simp at h
  simp [Py.leBytes, Py.zeros]
theorem good_iBytes {k : Nat} {n : Int} (h : -(256 ^ k : Int) ≤ 2 * n ∧ 2 * n < 256 ^ k) :
    Good (fun b : Bytes => b.length = k) (Arith.I.intoBytearray k n) := by
  unfold Arith.I.intoBytearray Py.toBytesS
  rw [if_pos h]
  exact ⟨_, rfl, Py.leBytes_length _ _⟩
theorem good_uBytes {k : Nat} {n : Int} (h : 0 ≤ n ∧ n < 256 ^ k) :
    Good (fun b : Bytes => b.length = k) (Arith.U.intoBytearray k n) := by
  unfold Arith.U.intoBytearray Py.toBytesU
  rw [if_pos h]
  exact ⟨_, rfl, Py.leBytes_length _ _⟩
theorem flatten_len {k n : Nat} {l : List Bytes} (h : l.length = n ∧ ∀ b ∈ l, b.length = k) : (l.flatten ++ Py.zeros 0).length = n * k := by
  obtain ⟨h1, h2⟩ := h
  subst h1
  rw [List.length_append, show (Py.zeros 0).length = 0 from rfl, Nat.add_zero, List.length_flatten]
  induction l with
  | nil => simp
  | cons a l ih => simp [ih fun b hb => h2 b (by simp [hb]), h2 a (by simp), Nat.add_mul, Nat.add_comm]
theorem good_v128I {k : Nat} (hk : 16 / k * k = 16) {l : List Int} (h : l.length = 16 / k)
    (hr : ∀ n ∈ l, -(256 ^ k : Int) ≤ 2 * n ∧ 2 * n < 256 ^ k) : Good (fun v : Val => v.ty = .v128) (Val.fromV128I k l) := by
  unfold Val.fromV128I Py.assert
  rw [h]
  simp only [beq_self_eq_true, if_true]
  refine Good.bind (P := fun _ => True) (.ok trivial) fun _ _ => ?_
  refine Good.bind (Good.mapM fun n hn => good_iBytes (hr n hn)) fun b hb => good_make ?_
  rw [flatten_len hb, h, hk]
theorem good_v128U {k : Nat} (hk : 16 / k * k = 16) {l : List Int} (h : l.length = 16 / k)
    (hr : ∀ n ∈ l, 0 ≤ n ∧ n < 256 ^ k) : Good (fun v : Val => v.ty = .v128) (Val.fromV128U k l) := by
  unfold Val.fromV128U Py.assert
  rw [h]
  simp only [beq_self_eq_true, if_true]
  refine Good.bind (P := fun _ => True) (.ok trivial) fun _ _ => ?_
  refine Good.bind (Good.mapM fun n hn => good_uBytes (hr n hn)) fun b hb => good_make ?_
  rw [flatten_len hb, h, hk]
theorem good_v128 {l : Bytes} (h : l.length = 16) : Good (fun v : Val => v.ty = .v128) (Val.fromV128 l) := by
  unfold Val.fromV128 Py.assert
  rw [h]
  simp only [beq_self_eq_true, if_true]
  refine Good.bind (P := fun _ => True) (.ok trivial) fun _ _ => good_make ?_
  simp [Py.zeros, h]

/-! ### floats and integers -/
theorem good_near {x : F64} {k : Int} (h : ¬ (x.isNaN || x.isInf) = true) (hk : |k * 2 ^ 1074 - x.val| < 2 ^ 1074) :
    Good (fun _ => True) (F64.ofInt k) := by
  have hx : x.isNaN = false ∧ x.isInf = false := by simpa using h
  have hc := F64.finite_iff.mp hx
  rw [F64.val_eq hc] at hk
  obtain ⟨c, hc, _⟩ := F64.ofInt_near (y := x) ‹_› hk
  exact ⟨_, hc, trivial⟩
theorem good_round (f : F64 → Int) (hf : ∀ x, |f x * 2 ^ 1074 - x.val| < 2 ^ 1074) (x : F64) :
    Good (fun _ => True) (if x.isNaN || x.isInf then .ok x else F64.ofInt (f x)) := by
  split
  · exact .ok trivial
  · exact good_near ‹_› (hf x)
theorem good_ceil (x : F64) : Good (fun _ => True) (if x.isNaN || x.isInf then .ok x else F64.ofInt (F64.ceil x)) :=
  good_round _ (fun _ => isCeil_near F64.isCeil_ceil) x
theorem good_floor (x : F64) : Good (fun _ => True) (if x.isNaN || x.isInf then .ok x else F64.ofInt (F64.floor x)) :=
  good_round _ (fun _ => isFloor_near F64.isFloor_floor) x
theorem good_trunc (x : F64) : Good (fun _ => True) (if x.isNaN || x.isInf then .ok x else F64.ofInt (F64.trunc x)) :=
  good_round _ (fun _ => isTrunc_near F64.isTrunc_trunc) x
theorem good_nearest (x : F64) : Good (fun _ => True) (if x.isNaN || x.isInf then .ok x else F64.ofInt (F64.roundEven x)) :=
  good_round _ (fun _ => isRound_near (by positivity) F64.isRound_round) x
theorem good_ofInt {k : Int} (h : k.natAbs ≤ 2 ^ 64) : Good (fun _ => True) (F64.ofInt k) := by
  obtain ⟨y, hy, _⟩ := F64.ofInt_spec h
  exact ⟨y, hy, trivial⟩
theorem good_sat {lo hi : Int} (h1 : lo ≤ 0) (h2 : 0 < hi) (x : F64) :
    Good (fun n => lo ≤ n ∧ n ≤ hi) (satInt lo hi (if x.isNaN then F64.zero else x)) := by
  rcases F64.num_cases x with ⟨a1, _, _⟩ | ⟨a1, _, a3⟩ | ⟨a1, _, h, _⟩
  · rw [a1, if_pos rfl, satInt_zero h1 h2]
    exact .ok ⟨h1, h2.le⟩
  · rw [if_neg (by rw [a1]; decide)]
    obtain ⟨b1, b2, _⟩ := satInt_spec h1 h2 x
    cases hs : x.msb
    · rw [hs] at a3; rw [b2 a3]; exact .ok ⟨by omega, le_rfl⟩
    · rw [hs] at a3; rw [b1 a3]; exact .ok ⟨le_rfl, by omega⟩
  · rw [if_neg (by rw [a1]; decide), (satInt_spec h1 h2 x).2.2 h]
    exact .ok ⟨by omega, by omega⟩

theorem abs_i32 (v : Val) : v.intoI32.natAbs ≤ 2 ^ 64 := by
  rw [Val.intoI32_eq]
  have := v.low32.toInt_lt; have := v.low32.le_toInt
  norm_num at *; omega
theorem abs_i64 (v : Val) : v.intoI64.natAbs ≤ 2 ^ 64 := by
  rw [Val.intoI64_eq]
  have := v.low64.toInt_lt; have := v.low64.le_toInt
  norm_num at *; omega
theorem abs_u32 (v : Val) : v.intoU32.natAbs ≤ 2 ^ 64 := by
  rw [Val.intoU32_eq]
  have := v.low32.isLt
  norm_num at *; omega
theorem abs_u64 (v : Val) : v.intoU64.natAbs ≤ 2 ^ 64 := by
  rw [Val.intoU64_eq]
  have := v.low64.isLt
  norm_num at *; omega

theorem good_satI32 (x : F64) :
    Good (fun n => -2 ^ 31 ≤ n ∧ n < 2 ^ 31) (satInt (Arith.I.min 4) (Arith.I.max 4) (if x.isNaN then F64.zero else x)) := by
  rw [show Arith.I.min 4 = -2 ^ 31 by decide, show Arith.I.max 4 = 2 ^ 31 - 1 by decide]
  exact (good_sat (by decide) (by decide) x).mono fun n h => by omega
theorem good_satU32 (x : F64) :
    Good (fun n => 0 ≤ n ∧ n ≤ 2 ^ 32 - 1) (satInt (Arith.U.min 4) (Arith.U.max 4) (if x.isNaN then F64.zero else x)) := by
  rw [show Arith.U.min 4 = 0 by decide, show Arith.U.max 4 = 2 ^ 32 - 1 by decide]
  exact good_sat (by decide) (by decide) x
theorem good_satI64 (x : F64) :
    Good (fun n => -2 ^ 63 ≤ n ∧ n < 2 ^ 63) (satInt (Arith.I.min 8) (Arith.I.max 8) (if x.isNaN then F64.zero else x)) := by
  rw [show Arith.I.min 8 = -2 ^ 63 by decide, show Arith.I.max 8 = 2 ^ 63 - 1 by decide]
  exact (good_sat (by decide) (by decide) x).mono fun n h => by omega
theorem good_satU64 (x : F64) :
    Good (fun n => 0 ≤ n ∧ n ≤ 2 ^ 64 - 1) (satInt (Arith.U.min 8) (Arith.U.max 8) (if x.isNaN then F64.zero else x)) := by
  rw [show Arith.U.min 8 = 0 by decide, show Arith.U.max 8 = 2 ^ 64 - 1 by decide]
  exact good_sat (by decide) (by decide) x

theorem setByte_ty (v : Val) (i : Nat) (b : UInt8) : (v.setByte i b).ty = v.ty := rfl

/-- apply the rules -/
macro "tot" : tactic => `(tactic| with_reducible repeat' first
  | exact VM.Tot.push (by assumption)
  | exact VM.Tot.push (setByte_ty _ _ _)
  | exact VM.Tot.push rfl
  | refine VM.Tot.popI32 fun _ => ?_ | refine VM.Tot.popI64 fun _ => ?_ | refine VM.Tot.popU32 fun _ => ?_
  | refine VM.Tot.popU64 fun _ => ?_ | refine VM.Tot.popF32 fun _ => ?_ | refine VM.Tot.popF64 fun _ => ?_
  | refine VM.Tot.popLanesF32 fun _ _ => ?_ | refine VM.Tot.popLanesF64 fun _ _ => ?_
  | refine VM.Tot.pop fun _ => ?_
  | refine VM.Tot.lift (good_fromBool _) fun _ _ => ?_
  | refine VM.Tot.lift (good_fromF32 _) fun _ _ => ?_
  | refine VM.Tot.lift (good_fromF64 _) fun _ _ => ?_
  | refine VM.Tot.lift (good_ceil _) fun _ _ => ?_
  | refine VM.Tot.lift (good_floor _) fun _ _ => ?_
  | refine VM.Tot.lift (good_trunc _) fun _ _ => ?_
  | refine VM.Tot.lift (good_nearest _) fun _ _ => ?_
  | refine VM.Tot.lift (Good.bind (good_ofInt (abs_i32 _)) fun _ _ => good_fromF32 _) fun _ _ => ?_
  | refine VM.Tot.lift (Good.bind (good_ofInt (abs_u32 _)) fun _ _ => good_fromF32 _) fun _ _ => ?_
  | refine VM.Tot.lift (Good.bind (good_ofInt (abs_i64 _)) fun _ _ => good_fromF32 _) fun _ _ => ?_
  | refine VM.Tot.lift (Good.bind (good_ofInt (abs_u64 _)) fun _ _ => good_fromF32 _) fun _ _ => ?_
  | refine VM.Tot.lift (Good.bind (good_ofInt (abs_i32 _)) fun _ _ => good_fromF64 _) fun _ _ => ?_
  | refine VM.Tot.lift (Good.bind (good_ofInt (abs_u32 _)) fun _ _ => good_fromF64 _) fun _ _ => ?_
  | refine VM.Tot.lift (Good.bind (good_ofInt (abs_i64 _)) fun _ _ => good_fromF64 _) fun _ _ => ?_
  | refine VM.Tot.lift (Good.bind (good_ofInt (abs_u64 _)) fun _ _ => good_fromF64 _) fun _ _ => ?_)

/-- The conversions of floats to integers that trap. -/
def truncOps' : List FOp := [.i32_trunc_f32_s, .i32_trunc_f32_u, .i32_trunc_f64_s, .i32_trunc_f64_u, .i64_trunc_f32_s,
  .i64_trunc_f32_u, .i64_trunc_f64_s, .i64_trunc_f64_u]

/-- What is known about an operator. -/
def FltTot (op : FOp) : Prop := ∃ t, (fltSig op).2 = [t] ∧ VM.Tot (evalFlt op) (fltSig op).1.length t
theorem FltTot.mk {op : FOp} {n : Nat} {t : ValType} {m : VM Unit} (h1 : (fltSig op).2 = [t]) (h2 : (fltSig op).1.length = n)
    (h3 : evalFlt op = m) (h : VM.Tot m n t) : FltTot op := ⟨t, h1, by rw [h2, h3]; exact h⟩

/-- decide one operator -/
macro "flt_op" : tactic => `(tactic| first
  | (refine FltTot.mk (n := 2) rfl rfl (by rw [evalFlt]) ?_
     try dsimp only
     tot; done)
  | (refine FltTot.mk (n := 1) rfl rfl (by rw [evalFlt]) ?_
     try dsimp only
     tot; done))

theorem flt_sat_32_32_s : FltTot .i32_trunc_sat_f32_s :=
  .mk (n := 1) rfl rfl (by rw [evalFlt]) (VM.Tot.popF32 fun x => VM.Tot.lift (good_satI32 x) fun _ hk =>
    VM.Tot.lift (good_fromI32 hk) fun _ hv => .push hv)
theorem flt_sat_32_32_u : FltTot .i32_trunc_sat_f32_u :=
  .mk (n := 1) rfl rfl (by rw [evalFlt]) (VM.Tot.popF32 fun x => VM.Tot.lift (good_satU32 x) fun _ hk =>
    VM.Tot.lift (good_fromU32 hk) fun _ hv => .push hv)
theorem flt_sat_32_64_s : FltTot .i32_trunc_sat_f64_s :=
  .mk (n := 1) rfl rfl (by rw [evalFlt]) (VM.Tot.popF64 fun x => VM.Tot.lift (good_satI32 x) fun _ hk =>
    VM.Tot.lift (good_fromI32 hk) fun _ hv => .push hv)
theorem flt_sat_32_64_u : FltTot .i32_trunc_sat_f64_u :=
  .mk (n := 1) rfl rfl (by rw [evalFlt]) (VM.Tot.popF64 fun x => VM.Tot.lift (good_satU32 x) fun _ hk =>
    VM.Tot.lift (good_fromU32 hk) fun _ hv => .push hv)
theorem flt_sat_64_32_s : FltTot .i64_trunc_sat_f32_s :=
  .mk (n := 1) rfl rfl (by rw [evalFlt]) (VM.Tot.popF32 fun x => VM.Tot.lift (good_satI64 x) fun _ hk =>
    VM.Tot.lift (good_fromI64 hk) fun _ hv => .push hv)
theorem flt_sat_64_32_u : FltTot .i64_trunc_sat_f32_u :=
  .mk (n := 1) rfl rfl (by rw [evalFlt]) (VM.Tot.popF32 fun x => VM.Tot.lift (good_satU64 x) fun _ hk =>
    VM.Tot.lift (good_fromU64 hk) fun _ hv => .push hv)
theorem flt_sat_64_64_s : FltTot .i64_trunc_sat_f64_s :=
  .mk (n := 1) rfl rfl (by rw [evalFlt]) (VM.Tot.popF64 fun x => VM.Tot.lift (good_satI64 x) fun _ hk =>
    VM.Tot.lift (good_fromI64 hk) fun _ hv => .push hv)
theorem flt_sat_64_64_u : FltTot .i64_trunc_sat_f64_u :=
  .mk (n := 1) rfl rfl (by rw [evalFlt]) (VM.Tot.popF64 fun x => VM.Tot.lift (good_satU64 x) fun _ hk =>
    VM.Tot.lift (good_fromU64 hk) fun _ hv => .push hv)


section
attribute [local irreducible] Val.fromF32 Val.fromF64 Val.fromI32 Val.fromI64 Val.fromU32 Val.fromU64 F64.ofInt satInt
  F64.ceil F64.floor F64.trunc F64.roundEven FltTot

set_option maxHeartbeats 1000000 in
theorem flt_tot (op : FOp) (h : op ∉ truncOps') : FltTot op := by
  cases op
  all_goals first
    | (exfalso; revert h; decide)
    | exact flt_sat_32_32_s | exact flt_sat_32_32_u | exact flt_sat_32_64_s | exact flt_sat_32_64_u
    | exact flt_sat_64_32_s | exact flt_sat_64_32_u | exact flt_sat_64_64_s | exact flt_sat_64_64_u
    | flt_op
end

/-! ### float vectors -/
/-- What is known about an operator. -/
def VecTot (op : VOp) : Prop := ∃ t, (vecSig op).2 = [t] ∧ VM.Tot (evalVec op) (vecSig op).1.length t
theorem VecTot.mk {op : VOp} {n : Nat} {t : ValType} {m : VM Unit} (h1 : (vecSig op).2 = [t]) (h2 : (vecSig op).1.length = n)
    (h3 : evalVec op = m) (h : VM.Tot m n t) : VecTot op := ⟨t, h1, by rw [h2, h3]; exact h⟩

theorem good_mask4 {p : Nat → Bool} : Good (fun v : Val => v.ty = .v128)
    (Val.fromV128I 4 ((List.range 4).map fun i => if p i then -1 else 0)) := by
  refine good_v128I (by decide) (by simp) fun n hn => ?_
  obtain ⟨i, _, rfl⟩ := List.mem_map.mp hn
  split <;> decide
theorem good_mask8 {p : Nat → Bool} : Good (fun v : Val => v.ty = .v128)
    (Val.fromV128I 8 ((List.range 2).map fun i => if p i then -1 else 0)) := by
  refine good_v128I (by decide) (by simp) fun n hn => ?_
  obtain ⟨i, _, rfl⟩ := List.mem_map.mp hn
  split <;> decide

/-- apply the rules -/
macro "vtot" : tactic => `(tactic| with_reducible repeat' first
  | exact VM.Tot.push (by assumption)
  | refine VM.Tot.popLanesF32 fun _ _ => ?_ | refine VM.Tot.popLanesF64 fun _ _ => ?_
  | refine VM.Tot.lift good_mask4 fun _ _ => ?_
  | refine VM.Tot.lift good_mask8 fun _ _ => ?_
  | refine VM.Tot.lift (good_v128F32 (by first | (simp; done) | (simp; assumption))) fun _ _ => ?_
  | refine VM.Tot.lift (good_v128F64 (by first | (simp; done) | (simp; assumption))) fun _ _ => ?_)
macro "vec_op" : tactic => `(tactic| first
  | (refine VecTot.mk (n := 2) rfl rfl (by rw [evalVec]) ?_
     try dsimp only
     vtot; done)
  | (refine VecTot.mk (n := 1) rfl rfl (by rw [evalVec]) ?_
     try dsimp only
     vtot; done))

theorem flatten_replicate_len {n k : Nat} {b : Bytes} (h : b.length = k) : (List.replicate n b).flatten.length = n * k := by
  rw [List.length_flatten, List.map_replicate, List.sum_replicate, h]; simp
theorem vec_splat32 : VecTot .f32x4_splat := by
  refine VecTot.mk (n := 1) rfl rfl (by rw [evalVec]) (VM.Tot.pop fun v => VM.Tot.lift (good_v128 ?_) fun _ h => .push h)
  exact flatten_replicate_len (k := 4) (by simp [v.len])
theorem vec_splat64 : VecTot .f64x2_splat := by
  refine VecTot.mk (n := 1) rfl rfl (by rw [evalVec]) (VM.Tot.pop fun v => VM.Tot.lift (good_v128 ?_) fun _ h => .push h)
  exact flatten_replicate_len (k := 8) (by simp [v.len])
theorem vec_promote : VecTot .f64x2_promote_low_f32x4 :=
  VecTot.mk (n := 1) rfl rfl (by rw [evalVec]) (VM.Tot.popLanesF32 fun l hl =>
    VM.Tot.lift (good_v128F64 (by simp [hl])) fun _ h => .push h)
theorem vec_ceil32 : VecTot .f32x4_ceil :=
  VecTot.mk (n := 1) rfl rfl (by rw [evalVec]) (VM.Tot.popLanesF32 fun _ hl =>
    VM.Tot.lift (Good.mapM fun x _ => good_ceil x) fun _ hb => VM.Tot.lift (good_v128F32 (hb.1.trans hl)) fun _ h => .push h)
theorem vec_floor32 : VecTot .f32x4_floor :=
  VecTot.mk (n := 1) rfl rfl (by rw [evalVec]) (VM.Tot.popLanesF32 fun _ hl =>
    VM.Tot.lift (Good.mapM fun x _ => good_floor x) fun _ hb => VM.Tot.lift (good_v128F32 (hb.1.trans hl)) fun _ h => .push h)
theorem vec_trunc32 : VecTot .f32x4_trunc :=
  VecTot.mk (n := 1) rfl rfl (by rw [evalVec]) (VM.Tot.popLanesF32 fun _ hl =>
    VM.Tot.lift (Good.mapM fun x _ => good_trunc x) fun _ hb => VM.Tot.lift (good_v128F32 (hb.1.trans hl)) fun _ h => .push h)
theorem vec_nearest32 : VecTot .f32x4_nearest :=
  VecTot.mk (n := 1) rfl rfl (by rw [evalVec]) (VM.Tot.popLanesF32 fun _ hl =>
    VM.Tot.lift (Good.mapM fun x _ => good_nearest x) fun _ hb => VM.Tot.lift (good_v128F32 (hb.1.trans hl)) fun _ h => .push h)
theorem vec_ceil64 : VecTot .f64x2_ceil :=
  VecTot.mk (n := 1) rfl rfl (by rw [evalVec]) (VM.Tot.popLanesF64 fun _ hl =>
    VM.Tot.lift (Good.mapM fun x _ => good_ceil x) fun _ hb => VM.Tot.lift (good_v128F64 (hb.1.trans hl)) fun _ h => .push h)
theorem vec_floor64 : VecTot .f64x2_floor :=
  VecTot.mk (n := 1) rfl rfl (by rw [evalVec]) (VM.Tot.popLanesF64 fun _ hl =>
    VM.Tot.lift (Good.mapM fun x _ => good_floor x) fun _ hb => VM.Tot.lift (good_v128F64 (hb.1.trans hl)) fun _ h => .push h)
theorem vec_trunc64 : VecTot .f64x2_trunc :=
  VecTot.mk (n := 1) rfl rfl (by rw [evalVec]) (VM.Tot.popLanesF64 fun _ hl =>
    VM.Tot.lift (Good.mapM fun x _ => good_trunc x) fun _ hb => VM.Tot.lift (good_v128F64 (hb.1.trans hl)) fun _ h => .push h)
theorem vec_nearest64 : VecTot .f64x2_nearest :=
  VecTot.mk (n := 1) rfl rfl (by rw [evalVec]) (VM.Tot.popLanesF64 fun _ hl =>
    VM.Tot.lift (Good.mapM fun x _ => good_nearest x) fun _ hb => VM.Tot.lift (good_v128F64 (hb.1.trans hl)) fun _ h => .push h)
theorem vec_sat32s : VecTot .i32x4_trunc_sat_f32x4_s := by
  refine VecTot.mk (n := 1) rfl rfl (by rw [evalVec]) (VM.Tot.popLanesF32 fun l hl => ?_)
  refine VM.Tot.lift (Good.mapM (P := fun n => -2 ^ 31 ≤ n ∧ n < 2 ^ 31) fun x hx => ?_) fun k hk => VM.Tot.lift (good_v128I (by decide) ?_ fun n hn => ?_) fun _ h => .push h
  · obtain ⟨y, _, rfl⟩ := List.mem_map.mp hx
    exact good_satI32 y
  · rw [hk.1, List.length_map, hl]
  · have := hk.2 n hn
    norm_num; omega
theorem vec_sat64s : VecTot .i32x4_trunc_sat_f64x2_s_zero := by
  refine VecTot.mk (n := 1) rfl rfl (by rw [evalVec]) (VM.Tot.popLanesF64 fun l hl => ?_)
  refine VM.Tot.lift (Good.mapM (P := fun n => -2 ^ 31 ≤ n ∧ n < 2 ^ 31) fun x hx => ?_) fun k hk => VM.Tot.lift (good_v128I (by decide) ?_ fun n hn => ?_) fun _ h => .push h
  · obtain ⟨y, _, rfl⟩ := List.mem_map.mp hx
    exact good_satI32 y
  · rw [List.length_append, hk.1, List.length_map, hl]; rfl
  · rcases List.mem_append.mp hn with hn | hn
    · have := hk.2 n hn
      norm_num; omega
    · simp at hn
      subst hn; decide
theorem bytesU_abs {b : Bytes} (h : b.length ≤ 4) : (Py.fromBytesU b).natAbs ≤ 2 ^ 64 := by
  have := Py.leNat_lt b
  have : 256 ^ b.length ≤ 256 ^ 4 := Nat.pow_le_pow_right (by decide) h
  unfold Py.fromBytesU
  norm_num at *; omega
theorem bytesI_abs {b : Bytes} (h : b.length ≤ 4) : (Py.fromBytesS b).natAbs ≤ 2 ^ 64 := by
  have := Py.leNat_lt b
  have : 256 ^ b.length ≤ 256 ^ 4 := Nat.pow_le_pow_right (by decide) h
  have e : ((256 : Int) ^ b.length) = ((256 ^ b.length : Nat) : Int) := by push_cast; rfl
  unfold Py.fromBytesS
  rw [e]
  generalize 256 ^ b.length = c at *
  split <;> norm_num at * <;> omega
theorem lanesI_abs {v : Val} {n : Int} (h : n ∈ v.intoV128I 4) : n.natAbs ≤ 2 ^ 64 := by
  unfold Val.intoV128I at h
  obtain ⟨b, hb, rfl⟩ := List.mem_map.mp h
  obtain ⟨i, hi, rfl⟩ := List.mem_map.mp hb
  exact bytesI_abs (by simp [v.len])
theorem vec_conv32s : VecTot .f32x4_convert_i32x4_s :=
  VecTot.mk (n := 1) rfl rfl (by rw [evalVec]) (VM.Tot.popLanesI fun v => VM.Tot.lift
    (Good.bind (Good.mapM fun x hx => good_ofInt (lanesI_abs hx)) fun _ hb =>
      good_v128F32 (hb.1.trans (by simp [Val.intoV128I, Val.chunks]))) fun _ h => .push h)
theorem vec_conv64s : VecTot .f64x2_convert_low_i32x4_s :=
  VecTot.mk (n := 1) rfl rfl (by rw [evalVec]) (VM.Tot.popLanesI fun v => VM.Tot.lift
    (Good.bind (Good.mapM fun x hx => good_ofInt (lanesI_abs (List.mem_of_mem_take (i := 2) hx))) fun _ hb =>
      good_v128F64 (hb.1.trans (by simp [Val.intoV128I, Val.chunks]))) fun _ h => .push h)
theorem vec_sat32u : VecTot .i32x4_trunc_sat_f32x4_u := by
  refine VecTot.mk (n := 1) rfl rfl (by rw [evalVec]) (VM.Tot.popLanesF32 fun l hl => ?_)
  refine VM.Tot.lift (Good.mapM (P := fun n => 0 ≤ n ∧ n ≤ 2 ^ 32 - 1) fun x hx => ?_) fun k hk => VM.Tot.lift (good_v128U (by decide) ?_ fun n hn => ?_) fun _ h => .push h
  · obtain ⟨y, _, rfl⟩ := List.mem_map.mp hx
    exact good_satU32 y
  · rw [hk.1, List.length_map, hl]
  · have := hk.2 n hn
    norm_num; omega
theorem vec_sat64u : VecTot .i32x4_trunc_sat_f64x2_u_zero := by
  refine VecTot.mk (n := 1) rfl rfl (by rw [evalVec]) (VM.Tot.popLanesF64 fun l hl => ?_)
  refine VM.Tot.lift (Good.mapM (P := fun n => 0 ≤ n ∧ n ≤ 2 ^ 32 - 1) fun x hx => ?_) fun k hk => VM.Tot.lift (good_v128U (by decide) ?_ fun n hn => ?_) fun _ h => .push h
  · obtain ⟨y, _, rfl⟩ := List.mem_map.mp hx
    exact good_satU32 y
  · rw [List.length_append, hk.1, List.length_map, hl]; rfl
  · rcases List.mem_append.mp hn with hn | hn
    · have := hk.2 n hn
      norm_num; omega
    · simp at hn
      subst hn; decide
theorem lanesU_abs {v : Val} {n : Int} (h : n ∈ v.intoV128U 4) : n.natAbs ≤ 2 ^ 64 := by
  unfold Val.intoV128U at h
  obtain ⟨b, hb, rfl⟩ := List.mem_map.mp h
  obtain ⟨i, hi, rfl⟩ := List.mem_map.mp hb
  exact bytesU_abs (by simp [v.len])
theorem vec_conv32u : VecTot .f32x4_convert_i32x4_u :=
  VecTot.mk (n := 1) rfl rfl (by rw [evalVec]) (VM.Tot.popLanesU fun v => VM.Tot.lift
    (Good.bind (Good.mapM fun x hx => good_ofInt (lanesU_abs hx)) fun _ hb =>
      good_v128F32 (hb.1.trans (by simp [Val.intoV128U, Val.chunks]))) fun _ h => .push h)
theorem vec_conv64u : VecTot .f64x2_convert_low_i32x4_u :=
  VecTot.mk (n := 1) rfl rfl (by rw [evalVec]) (VM.Tot.popLanesU fun v => VM.Tot.lift
    (Good.bind (Good.mapM fun x hx => good_ofInt (lanesU_abs (List.mem_of_mem_take (i := 2) hx))) fun _ hb =>
      good_v128F64 (hb.1.trans (by simp [Val.intoV128U, Val.chunks]))) fun _ h => .push h)

section
attribute [local irreducible] Val.fromV128F32 Val.fromV128F64 Val.fromV128I F64.ofInt satInt VecTot
set_option maxHeartbeats 2000000 in
theorem vec_tot (op : VOp) (h : vecSem op = none) : VecTot op := by
  cases op
  all_goals first
    | (cases h; done)
    | with_reducible first
      | exact vec_splat32 | exact vec_splat64 | exact vec_promote
      | exact vec_ceil32 | exact vec_floor32 | exact vec_trunc32 | exact vec_nearest32
      | exact vec_ceil64 | exact vec_floor64 | exact vec_trunc64 | exact vec_nearest64
      | exact vec_sat32s | exact vec_sat32u | exact vec_sat64s | exact vec_sat64u
      | exact vec_conv32s | exact vec_conv32u | exact vec_conv64s | exact vec_conv64u
    | vec_op
end

/-! ### all numeric operators -/

/-- The result of an operator on the right number of operands. -/
def NumOk (op : NumOp) (f : List Val → Out) : Prop := ∀ a s : List Val, a.length = (numSig op).1.length →
  (∃ v, f (a ++ s) = .ok (v :: s) ∧ (numSig op).2 = [v.ty] ∧ v.ty.isRef = false) ∨ (f (a ++ s) = .trap ∧ numTraps op = true)

theorem numOk_un {op : NumOp} {f : List Val → Out} (hn : (numSig op).1.length = 1)
    (h : ∀ a s, ∃ v, f (a :: s) = .ok (v :: s) ∧ (numSig op).2 = [v.ty] ∧ v.ty.isRef = false) : NumOk op f := by
  intro a s ha
  rw [hn] at ha
  rcases a with _ | ⟨x, _ | ⟨y, a⟩⟩ <;> simp at ha
  exact .inl (h x s)
theorem numOk_bin {op : NumOp} {f : List Val → Out} (hn : (numSig op).1.length = 2)
    (h : ∀ a b s, ∃ v, f (a :: b :: s) = .ok (v :: s) ∧ (numSig op).2 = [v.ty] ∧ v.ty.isRef = false) : NumOk op f := by
  intro a s ha
  rw [hn] at ha
  rcases a with _ | ⟨x, _ | ⟨y, _ | ⟨z, a⟩⟩⟩ <;> simp at ha
  exact .inl (h x y s)
theorem numOk_ter {op : NumOp} {f : List Val → Out} (hn : (numSig op).1.length = 3)
    (h : ∀ a b c s, ∃ v, f (a :: b :: c :: s) = .ok (v :: s) ∧ (numSig op).2 = [v.ty] ∧ v.ty.isRef = false) : NumOk op f := by
  intro a s ha
  rw [hn] at ha
  rcases a with _ | ⟨x, _ | ⟨y, _ | ⟨z, _ | ⟨w, a⟩⟩⟩⟩ <;> simp at ha
  exact .inl (h x y z s)
theorem numOk_part32 {op : NumOp} {g} (hn : (numSig op).1.length = 2) (ht : (numSig op).2 = [.i32]) (hm : numTraps op = true) :
    NumOk op (part32 g) := by
  intro a s ha
  rw [hn] at ha
  rcases a with _ | ⟨x, _ | ⟨y, _ | ⟨z, a⟩⟩⟩ <;> simp at ha
  simp only [List.cons_append, List.nil_append, part32]
  cases g y.low32 x.low32 with
  | none => exact .inr ⟨rfl, hm⟩
  | some c => exact .inl ⟨_, rfl, ht, rfl⟩
theorem numOk_part64 {op : NumOp} {g} (hn : (numSig op).1.length = 2) (ht : (numSig op).2 = [.i64]) (hm : numTraps op = true) :
    NumOk op (part64 g) := by
  intro a s ha
  rw [hn] at ha
  rcases a with _ | ⟨x, _ | ⟨y, _ | ⟨z, a⟩⟩⟩ <;> simp at ha
  simp only [List.cons_append, List.nil_append, part64]
  cases g y.low64 x.low64 with
  | none => exact .inr ⟨rfl, hm⟩
  | some c => exact .inl ⟨_, rfl, ht, rfl⟩
theorem numOk_tot {op : NumOp} {m : VM Unit} {t : ValType} (ht : (numSig op).2 = [t]) (hr : t.isRef = false)
    (h : VM.Tot m (numSig op).1.length t) : NumOk op (Ref.fromModel m) := by
  intro a s ha
  obtain ⟨v, hv, rfl⟩ := h a s ha
  unfold Ref.fromModel
  rw [hv]
  exact .inl ⟨v, rfl, ht, hr⟩

theorem numOk_int (op : IOp) : NumOk (.int op) (intSem op) := by
  cases op <;> unfold intSem <;> simp only <;> first
    | exact numOk_part32 rfl rfl rfl
    | exact numOk_part64 rfl rfl rfl
    | exact numOk_bin rfl (fun _ _ _ => ⟨_, rfl, rfl, rfl⟩)
    | exact numOk_un rfl (fun _ _ => ⟨_, rfl, rfl, rfl⟩)

theorem numOk_vec (op : VOp) : NumOk (.vec op) ((vecSem op).getD (Ref.fromModel (evalVec op))) := by
  cases e : vecSem op with
  | none =>
    obtain ⟨t, h1, h2⟩ := vec_tot op e
    refine numOk_tot h1 ?_ h2
    have : ∀ t, (vecSig op).2 = [t] → t.isRef = false := by
      cases op <;> intro t ht <;> cases ht <;> rfl
    exact this t h1
  | some f =>
    show NumOk (.vec op) f
    cases op <;> first
      | (cases e; done)
      | (injection e with e; subst e; first
          | exact numOk_un rfl (fun _ _ => ⟨_, rfl, rfl, rfl⟩)
          | exact numOk_bin rfl (fun _ _ _ => ⟨_, rfl, rfl, rfl⟩)
          | exact numOk_ter rfl (fun _ _ _ _ => ⟨_, rfl, rfl, rfl⟩))
theorem numOk_lane (op : LOp) (i : Nat) : NumOk (.lane op i) (laneSem op i) := by
  cases op <;> unfold laneSem <;> simp only <;> first
    | exact numOk_un rfl (fun _ _ => ⟨_, rfl, rfl, rfl⟩)
    | exact numOk_bin rfl (fun _ _ _ => ⟨_, rfl, rfl, rfl⟩)

/-! ### truncation -/
/-- Fails with something else than `IndexError`, if it fails. -/
def NoIdx {α} (P : α → Prop) (x : Except Err α) : Prop := Good P x ∨ ∃ e, x = .error e ∧ e ≠ .index

theorem VM.Par.lift {α} {e : Except Err α} {f : α → VM Unit} {n t} {P : α → Prop} (he : NoIdx P e)
    (h : ∀ a, P a → VM.Par (f a) n t) : VM.Par (VM.lift e >>= f) n t := by
  rcases he with ⟨a, rfl, ha⟩ | ⟨x, rfl, hx⟩
  · exact h a ha
  · intro a s _
    exact .inr ⟨x, a ++ s, rfl, hx⟩
theorem VM.Par.map {α} {g : Val → α} {m : VM α} (hm : m = VM.pop >>= fun v => pure (g v)) {f : α → VM Unit} {n t}
    (h : ∀ v, VM.Par (f (g v)) n t) : VM.Par (m >>= f) (n + 1) t := by
  subst hm
  intro a s ha
  rcases a with _ | ⟨v, a⟩
  · simp at ha
  · exact h v a s (by simpa using ha)
theorem noIdx_toInt (x : F64) : NoIdx (fun _ => True) x.toInt := by
  unfold F64.toInt
  split
  · exact .inr ⟨_, rfl, by decide⟩
  · split
    · exact .inr ⟨_, rfl, by decide⟩
    · exact .inl ⟨_, rfl, trivial⟩
theorem noIdx_assert (c : Bool) : NoIdx (fun _ => True) (Py.assert c) := by
  unfold Py.assert
  split
  · exact .inl ⟨_, rfl, trivial⟩
  · exact .inr ⟨_, rfl, by decide⟩
theorem noIdx_I32 (n : Int) : NoIdx (fun v : Val => v.ty = .i32) (Val.fromI32 n) := by
  by_cases h : -2 ^ 31 ≤ n ∧ n ≤ 2 ^ 31 - 1
  · exact .inl (good_fromI32 (by omega))
  · exact .inr ⟨_, fromI32_err h, by decide⟩
theorem noIdx_I64 (n : Int) : NoIdx (fun v : Val => v.ty = .i64) (Val.fromI64 n) := by
  by_cases h : -2 ^ 63 ≤ n ∧ n ≤ 2 ^ 63 - 1
  · exact .inl (good_fromI64 (by omega))
  · exact .inr ⟨_, fromI64_err h, by decide⟩
theorem noIdx_U32 (n : Int) : NoIdx (fun v : Val => v.ty = .i32) (Val.fromU32 n) := by
  by_cases h : 0 ≤ n ∧ n ≤ 2 ^ 32 - 1
  · exact .inl (good_fromU32 h)
  · exact .inr ⟨_, fromU32_err h, by decide⟩
theorem noIdx_U64 (n : Int) : NoIdx (fun v : Val => v.ty = .i64) (Val.fromU64 n) := by
  by_cases h : 0 ≤ n ∧ n ≤ 2 ^ 64 - 1
  · exact .inl (good_fromU64 h)
  · exact .inr ⟨_, fromU64_err h, by decide⟩
theorem numOk_par {op : NumOp} {m : VM Unit} {t : ValType} (ht : (numSig op).2 = [t]) (hr : t.isRef = false)
    (hm : numTraps op = true) (h : VM.Par m (numSig op).1.length t) : NumOk op (Ref.fromModel m) := by
  intro a s ha
  unfold Ref.fromModel
  rcases h a s ha with ⟨v, hv, rfl⟩ | ⟨e, s', he, hi⟩
  · rw [hv]
    exact .inl ⟨v, rfl, ht, hr⟩
  · rw [he]
    cases e <;> first | exact absurd rfl hi | exact .inr ⟨rfl, hm⟩
theorem trunc_par {F : Val → F64} {p : VM F64} (hp : p = VM.pop >>= fun v => pure (F v)) {conv : Int → Except Err Val} {t : ValType}
    (hc : ∀ n, NoIdx (fun v : Val => v.ty = t) (conv n)) (view : Val → Int) :
    VM.Par (do let a ← p
               let b ← VM.lift a.toInt
               let c ← VM.lift (conv b)
               VM.lift (Py.assert (view c == b))
               VM.push c) 1 t :=
  VM.Par.map hp fun _ => VM.Par.lift (noIdx_toInt _) fun _ _ => VM.Par.lift (hc _) fun _ hv =>
    VM.Par.lift (noIdx_assert _) fun _ _ => (VM.Tot.push hv).par

theorem numOk_flt (op : FOp) : NumOk (.flt op) (Ref.fromModel (evalFlt op)) := by
  by_cases h : op ∈ truncOps'
  · simp only [truncOps', List.mem_cons, List.not_mem_nil, or_false] at h
    rcases h with rfl | rfl | rfl | rfl | rfl | rfl | rfl | rfl
    · rw [evalFlt]; exact numOk_par rfl rfl rfl (trunc_par (F := Val.intoF32) rfl noIdx_I32 _)
    · rw [evalFlt]; exact numOk_par rfl rfl rfl (trunc_par (F := Val.intoF32) rfl noIdx_U32 _)
    · rw [evalFlt]; exact numOk_par rfl rfl rfl (trunc_par (F := Val.intoF64) rfl noIdx_I32 _)
    · rw [evalFlt]; exact numOk_par rfl rfl rfl (trunc_par (F := Val.intoF64) rfl noIdx_U32 _)
    · rw [evalFlt]; exact numOk_par rfl rfl rfl (trunc_par (F := Val.intoF32) rfl noIdx_I64 _)
    · rw [evalFlt]; exact numOk_par rfl rfl rfl (trunc_par (F := Val.intoF32) rfl noIdx_U64 _)
    · rw [evalFlt]; exact numOk_par rfl rfl rfl (trunc_par (F := Val.intoF64) rfl noIdx_I64 _)
    · rw [evalFlt]; exact numOk_par rfl rfl rfl (trunc_par (F := Val.intoF64) rfl noIdx_U64 _)
  · obtain ⟨t, h1, h2⟩ := flt_tot op h
    refine numOk_tot h1 ?_ h2
    have : ∀ t, (fltSig op).2 = [t] → t.isRef = false := by
      cases op <;> intro t ht <;> cases ht <;> rfl
    exact this t h1

theorem numOk (op : NumOp) (h : numImm op) : NumOk op (Ref.numSem op) := by
  cases op with
  | int op => exact numOk_int op
  | flt op => exact numOk_flt op
  | vec op => exact numOk_vec op
  | lane op i =>
    rw [numSem_lane, if_pos (show i < laneCount op from h)]
    exact numOk_lane op i
  | shuffle sel =>
    rw [numSem_shuffle, if_pos (show sel.length = 16 ∧ ∀ j ∈ sel, j < 32 from h)]
    exact numOk_bin rfl (fun _ _ _ => ⟨_, rfl, rfl, rfl⟩)
end Pywasm
