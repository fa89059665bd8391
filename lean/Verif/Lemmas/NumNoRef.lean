import Verif.Model.Machine
import Verif.Lemmas.VM

/-!
# Numeric instructions never make references

Whatever is on the operand stack (also when the code is not valid), the values a numeric instruction or a load puts there
have a number or vector type.
-/

namespace Pywasm

/-- an expression whose value is not a reference -/
def NumE (x : Except Err Val) : Prop := ∀ v, x = .ok v → v.ty.isRef = false

/-- the stack when stack code ends, normally or by an exception -/
def leaves {α} : EStateM.Result Err (List Val) α → List Val
  | .ok _ s => s
  | .error _ s => s

/-- stack code that puts only numbers and vectors on the stack -/
def NR {α} (c : VM α) : Prop := ∀ s, ∀ v ∈ leaves (c s), v ∈ s ∨ v.ty.isRef = false

theorem ex_bind_ok {α β} {x : Except Err α} {f : α → Except Err β} {b : β} (h : (x >>= f) = .ok b) :
    ∃ a, x = .ok a ∧ f a = .ok b := by
  cases x with
  | ok a => exact ⟨a, rfl, h⟩
  | error e => cases h

namespace NumE
theorem make {t : ValType} (ht : t.isRef = false) (b : Bytes) : NumE (Val.make t b) := by
  intro v h
  unfold Val.make at h
  split at h
  · cases h; exact ht
  · cases h
theorem bind {α} {x : Except Err α} {f : α → Except Err Val} (hf : ∀ a, NumE (f a)) : NumE (x >>= f) := by
  intro v h
  obtain ⟨a, _, h⟩ := ex_bind_ok h
  exact hf a v h
theorem retag {x : Val} {t : ValType} (ht : t.isRef = false) : NumE (pure { x with ty := t }) := by
  intro v h; cases h; exact ht
macro "num_e" : tactic => `(tactic| repeat' first
  | exact NumE.make rfl _ | exact NumE.retag rfl | refine NumE.bind (fun _ => ?_))
theorem fromI32 (n : Int) : NumE (Val.fromI32 n) := by unfold Val.fromI32; num_e
theorem fromI64 (n : Int) : NumE (Val.fromI64 n) := by unfold Val.fromI64; num_e
theorem fromU32 (n : Int) : NumE (Val.fromU32 n) := by unfold Val.fromU32; num_e
theorem fromU64 (n : Int) : NumE (Val.fromU64 n) := by unfold Val.fromU64; num_e
theorem fromF32 (n : F64) : NumE (Val.fromF32 n) := by unfold Val.fromF32; num_e
theorem fromF64 (n : F64) : NumE (Val.fromF64 n) := by unfold Val.fromF64; num_e
theorem fromF32U32 (n : Int) : NumE (Val.fromF32U32 n) := by unfold Val.fromF32U32; num_e
theorem fromF64U64 (n : Int) : NumE (Val.fromF64U64 n) := by unfold Val.fromF64U64; num_e
theorem fromV128 (n : Bytes) : NumE (Val.fromV128 n) := by unfold Val.fromV128; num_e
theorem fromV128I (k : Nat) (n : List Int) : NumE (Val.fromV128I k n) := by unfold Val.fromV128I; num_e
theorem fromV128U (k : Nat) (n : List Int) : NumE (Val.fromV128U k n) := by unfold Val.fromV128U; num_e
theorem fromV128F32 (n : List F64) : NumE (Val.fromV128F32 n) := by unfold Val.fromV128F32; num_e
theorem fromV128F64 (n : List F64) : NumE (Val.fromV128F64 n) := by unfold Val.fromV128F64; num_e
end NumE

macro "num_val" : tactic => `(tactic| with_reducible repeat' first
  | exact NumE.make rfl _ | exact NumE.fromI32 _ | exact NumE.fromI64 _ | exact NumE.fromU32 _ | exact NumE.fromU64 _
  | exact NumE.fromF32 _ | exact NumE.fromF64 _ | exact NumE.fromF32U32 _ | exact NumE.fromF64U64 _
  | exact NumE.fromV128 _ | exact NumE.fromV128I _ _ | exact NumE.fromV128U _ _ | exact NumE.fromV128F32 _
  | exact NumE.fromV128F64 _ | refine NumE.bind (fun _ => ?_))

theorem NumE.load (op : LoadOp) (b : Bytes) : NumE (op.make b) := by
  cases op <;> simp only [LoadOp.make] <;> num_val

namespace NR
theorem pop : NR VM.pop := by
  intro s v hv
  cases s with
  | nil => cases hv
  | cons x s => exact .inl (List.mem_cons_of_mem _ hv)
theorem push {v : Val} (hv : v.ty.isRef = false) : NR (VM.push v) := by
  intro s w hw
  rcases List.mem_cons.mp hw with rfl | hw
  · exact .inr hv
  · exact .inl hw
theorem lift {α} (e : Except Err α) : NR (VM.lift e) := by
  intro s v hv
  cases e <;> exact .inl hv
theorem pure {α} (a : α) : NR (Pure.pure a : VM α) := fun _ _ hv => .inl hv
theorem bind {α β} {c : VM α} {f : α → VM β} (h : NR c) (hf : ∀ a, NR (f a)) : NR (c >>= f) := by
  intro s v hv
  have h0 := h s
  cases e : c s with
  | ok a s1 =>
    rw [VM.bind_eq e] at hv
    rw [e] at h0
    rcases hf a _ v hv with h1 | h1
    · exact h0 v h1
    · exact .inr h1
  | error x s1 =>
    rw [VM.bind_error e] at hv
    rw [e] at h0
    exact h0 v hv
theorem bindVal {β} {e : Except Err Val} {f : Val → VM β} (h : NumE e) (hf : ∀ a, a.ty.isRef = false → NR (f a)) :
    NR (VM.lift e >>= f) := by
  cases e with
  | ok a =>
    intro s
    rw [VM.bind_eq (m := VM.lift (.ok a)) (a := a) (s' := s) rfl]
    exact hf a (h a rfl) _
  | error x =>
    intro s
    rw [VM.bind_error (m := VM.lift (.error x)) (e := x) (s' := s) rfl]
    exact fun v hv => .inl hv
theorem ite {α} {c : Prop} [Decidable c] {x y : VM α} (hx : NR x) (hy : NR y) : NR (if c then x else y) := by
  split <;> assumption
end NR

section
attribute [local irreducible] VM.lift VM.push VM.pop
macro "nr0" : tactic => `(tactic| with_reducible repeat' first
  | exact NR.pop | exact NR.lift _ | exact NR.pure _ | refine NR.bind ?_ (fun _ => ?_))
theorem nr_i32 : NR VM.popI32 := by unfold VM.popI32; nr0
theorem nr_i64 : NR VM.popI64 := by unfold VM.popI64; nr0
theorem nr_u32 : NR VM.popU32 := by unfold VM.popU32; nr0
theorem nr_u64 : NR VM.popU64 := by unfold VM.popU64; nr0
theorem nr_f32 : NR VM.popF32 := by unfold VM.popF32; nr0
theorem nr_f64 : NR VM.popF64 := by unfold VM.popF64; nr0
theorem nr_v128 : NR VM.popV128 := by unfold VM.popV128; nr0
theorem nr_li8 : NR VM.popLanesI8 := by unfold VM.popLanesI8; nr0
theorem nr_lu8 : NR VM.popLanesU8 := by unfold VM.popLanesU8; nr0
theorem nr_li (k) : NR (VM.popLanesI k) := by unfold VM.popLanesI; nr0
theorem nr_lu (k) : NR (VM.popLanesU k) := by unfold VM.popLanesU; nr0
theorem nr_lf32 : NR VM.popLanesF32 := by unfold VM.popLanesF32; nr0
theorem nr_lf64 : NR VM.popLanesF64 := by unfold VM.popLanesF64; nr0
end

macro "nr" : tactic => `(tactic| with_reducible repeat' first
  | exact NR.pop | exact NR.pure _ | exact NR.push (by assumption) | exact NR.push (by rfl)
  | exact nr_i32 | exact nr_i64 | exact nr_u32 | exact nr_u64 | exact nr_f32 | exact nr_f64 | exact nr_v128
  | exact nr_li8 | exact nr_lu8 | exact nr_li _ | exact nr_lu _ | exact nr_lf32 | exact nr_lf64
  | (refine NR.bindVal (by num_val; done) (fun _ _ => ?_))
  | exact NR.lift _ | refine NR.bind ?_ (fun _ => ?_) | refine NR.ite ?_ ?_)

theorem evalInt_nr (op : IOp) : NR (evalInt op) := by cases op <;> simp only [evalInt] <;> nr
theorem evalFlt_nr (op : FOp) : NR (evalFlt op) := by cases op <;> simp only [evalFlt] <;> nr <;> exact NR.push rfl
set_option maxHeartbeats 1000000 in
theorem evalVec_nr (op : VOp) : NR (evalVec op) := by cases op <;> simp only [evalVec] <;> nr
theorem evalLane_nr (op : LOp) (i : Nat) : NR (evalLane op i) := by cases op <;> simp only [evalLane] <;> nr
theorem evalShuffle_nr (sel : List Nat) : NR (evalShuffle sel) := by unfold evalShuffle; nr
theorem evalNum_nr (op : NumOp) : NR (evalNum op) := by
  cases op with
  | int op => exact evalInt_nr op
  | flt op => exact evalFlt_nr op
  | vec op => exact evalVec_nr op
  | lane op i => exact evalLane_nr op i
  | shuffle s => exact evalShuffle_nr s

end Pywasm
