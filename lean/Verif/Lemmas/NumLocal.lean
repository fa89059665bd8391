import Verif.Lemmas.SimdLane
import Verif.Spec.Ref

/-!
# Operators only look at the top of the operand stack
-/

namespace Pywasm
open Spec

/-- `f` only looks at the top of the operand stack. -/
def Local (f : List Val → Out) : Prop := ∀ s rest : List Val,
  match f s with
  | .ok s' => f (s ++ rest) = .ok (s' ++ rest)
  | .trap => f (s ++ rest) = .trap
  | .stuck => True

theorem local_un {f : List Val → Out} (g : Val → Val) (h0 : f [] = .stuck) (h : ∀ a s, f (a :: s) = .ok (g a :: s)) :
    Local f := by
  intro s rest
  rcases s with _ | ⟨a, s⟩
  · rw [h0]; trivial
  · rw [h]; exact h _ _
theorem local_bin {f : List Val → Out} (g : Val → Val → Val) (h0 : f [] = .stuck) (h1 : ∀ a, f [a] = .stuck)
    (h : ∀ b a s, f (b :: a :: s) = .ok (g a b :: s)) : Local f := by
  intro s rest
  rcases s with _ | ⟨b, _ | ⟨a, s⟩⟩
  · rw [h0]; trivial
  · rw [h1]; trivial
  · rw [h]; exact h _ _ _
theorem local_part32 (g) : Local (part32 g) := by
  intro s rest
  rcases s with _ | ⟨b, _ | ⟨a, s⟩⟩
  · trivial
  · trivial
  · unfold part32
    simp only [List.cons_append]
    cases g a.low32 b.low32 <;> rfl
theorem local_part64 (g) : Local (part64 g) := by
  intro s rest
  rcases s with _ | ⟨b, _ | ⟨a, s⟩⟩
  · trivial
  · trivial
  · unfold part64
    simp only [List.cons_append]
    cases g a.low64 b.low64 <;> rfl

theorem local_intSem (op : IOp) : Local (intSem op) := by
  cases op <;> unfold intSem <;> simp only <;> first
    | exact local_part32 _
    | exact local_part64 _
    | exact local_bin _ rfl (fun _ => rfl) (fun _ _ _ => rfl)
    | exact local_un _ rfl (fun _ _ => rfl)

/-! ### locality of pieces of the model -/

/-- A stack program that only looks at what it pops. -/
def VM.Loc {α} (m : VM α) : Prop := ∀ s rest : List Val,
  match m s with
  | .ok a s' => m (s ++ rest) = .ok a (s' ++ rest)
  | .error e _ => e = .index ∨ ∃ s'', m (s ++ rest) = .error e s''

namespace VM.Loc
theorem pop : VM.Loc VM.pop := by
  intro s rest
  cases s with
  | nil => exact .inl rfl
  | cons v s => rfl
theorem push (v : Val) : VM.Loc (VM.push v) := fun _ _ => rfl
theorem lift {α} (e : Except Err α) : VM.Loc (VM.lift e) := by
  intro s rest
  cases e with
  | ok a => rfl
  | error e => exact .inr ⟨_, rfl⟩
theorem pure {α} (a : α) : VM.Loc (Pure.pure a : VM α) := fun _ _ => rfl
theorem bind {α β} {m : VM α} {f : α → VM β} (h : VM.Loc m) (hf : ∀ a, VM.Loc (f a)) : VM.Loc (m >>= f) := by
  intro s rest
  have h1 := h s rest
  cases e : m s with
  | ok a s' =>
    rw [e] at h1
    rw [VM.bind_eq e, VM.bind_eq h1]
    exact hf a s' rest
  | error x s' =>
    rw [e] at h1
    rw [VM.bind_error e]
    rcases h1 with h1 | ⟨s'', h1⟩
    · exact .inl h1
    · exact .inr ⟨s'', VM.bind_error h1⟩
end VM.Loc

theorem local_fromModel {m : VM Unit} (h : VM.Loc m) : Local (Ref.fromModel m) := by
  intro s rest
  have h1 := h s rest
  unfold Ref.fromModel
  cases e : m s with
  | ok a s' =>
    rw [e] at h1
    simp only
    rw [h1]
  | error x s' =>
    rw [e] at h1
    cases x <;> simp only
    all_goals
      rcases h1 with h1 | ⟨s'', h1⟩
      · cases h1
      · rw [h1]

section
attribute [local irreducible] VM.lift VM.push VM.pop
macro "loc" : tactic => `(tactic| repeat' first
  | exact VM.Loc.pop | exact VM.Loc.push _ | exact VM.Loc.lift _ | exact VM.Loc.pure _
  | refine VM.Loc.bind ?_ (fun _ => ?_))
theorem popI32_loc : VM.Loc VM.popI32 := by unfold VM.popI32; loc
theorem popI64_loc : VM.Loc VM.popI64 := by unfold VM.popI64; loc
theorem popU32_loc : VM.Loc VM.popU32 := by unfold VM.popU32; loc
theorem popU64_loc : VM.Loc VM.popU64 := by unfold VM.popU64; loc
theorem popF32_loc : VM.Loc VM.popF32 := by unfold VM.popF32; loc
theorem popF64_loc : VM.Loc VM.popF64 := by unfold VM.popF64; loc
theorem popV128_loc : VM.Loc VM.popV128 := by unfold VM.popV128; loc
theorem popLanesI8_loc : VM.Loc VM.popLanesI8 := by unfold VM.popLanesI8; loc
theorem popLanesU8_loc : VM.Loc VM.popLanesU8 := by unfold VM.popLanesU8; loc
theorem popLanesI_loc (k) : VM.Loc (VM.popLanesI k) := by unfold VM.popLanesI; loc
theorem popLanesU_loc (k) : VM.Loc (VM.popLanesU k) := by unfold VM.popLanesU; loc
theorem popLanesF32_loc : VM.Loc VM.popLanesF32 := by unfold VM.popLanesF32; loc
theorem popLanesF64_loc : VM.Loc VM.popLanesF64 := by unfold VM.popLanesF64; loc
attribute [local irreducible] VM.popI32 VM.popI64 VM.popU32 VM.popU64 VM.popF32 VM.popF64 VM.popV128 VM.popLanesI8
  VM.popLanesU8 VM.popLanesI VM.popLanesU VM.popLanesF32 VM.popLanesF64
macro "loc2" : tactic => `(tactic| repeat' first
  | exact VM.Loc.pop | exact VM.Loc.push _ | exact VM.Loc.lift _ | exact VM.Loc.pure _
  | exact popI32_loc | exact popI64_loc | exact popU32_loc | exact popU64_loc | exact popF32_loc | exact popF64_loc
  | exact popV128_loc | exact popLanesI8_loc | exact popLanesU8_loc | exact popLanesI_loc _ | exact popLanesU_loc _
  | exact popLanesF32_loc | exact popLanesF64_loc
  | refine VM.Loc.bind ?_ (fun _ => ?_))

theorem evalFlt_loc (op : FOp) : VM.Loc (evalFlt op) := by
  cases op <;> simp only [evalFlt] <;> loc2
theorem evalVec_loc (op : VOp) : VM.Loc (evalVec op) := by
  cases op <;> simp only [evalVec] <;> loc2
end

theorem local_shape2 {f : List Val → Out} {F : Val → Val → Val}
    (h : f = fun s => match s with | y :: x :: s => .ok (F x y :: s) | _ => .stuck) : Local f := by
  subst h
  exact local_bin F rfl (fun _ => rfl) (fun _ _ _ => rfl)
theorem local_laneSem (op : LOp) (i : Nat) : Local (laneSem op i) := by
  cases op <;> unfold laneSem <;> simp only <;> first
    | exact local_un _ rfl (fun _ _ => rfl)
    | exact local_bin _ rfl (fun _ => rfl) (fun _ _ _ => rfl)
theorem local_ter {f : List Val → Out} (g : Val → Val → Val → Val) (h0 : f [] = .stuck) (h1 : ∀ a, f [a] = .stuck)
    (h2 : ∀ a b, f [a, b] = .stuck) (h : ∀ c b a s, f (c :: b :: a :: s) = .ok (g a b c :: s)) : Local f := by
  intro s rest
  rcases s with _ | ⟨c, _ | ⟨b, _ | ⟨a, s⟩⟩⟩
  · rw [h0]; trivial
  · rw [h1]; trivial
  · rw [h2]; trivial
  · rw [h]; exact h _ _ _ _

theorem numSem_lane (op : LOp) (i : Nat) :
    Ref.numSem (.lane op i) = if i < laneCount op then laneSem op i else fun _ => .stuck := rfl
theorem numSem_shuffle (sel : List Nat) : Ref.numSem (.shuffle sel) =
    if sel.length = 16 ∧ ∀ j ∈ sel, j < 32 then bin128 (shuffle fun i => sel.getD i 0) else fun _ => .stuck := rfl
theorem local_stuck : Local fun _ => .stuck := by
  intro s rest; trivial

theorem local_numSem (op : NumOp) : Local (Ref.numSem op) := by
  cases op with
  | int op => exact local_intSem op
  | flt op => exact local_fromModel (evalFlt_loc op)
  | lane op i =>
    rw [numSem_lane]
    split
    · exact local_laneSem op i
    · exact local_stuck
  | shuffle sel =>
    rw [numSem_shuffle]
    split
    · exact local_bin _ rfl (fun _ => rfl) (fun _ _ _ => rfl)
    · exact local_stuck
  | vec op =>
    show Local ((vecSem op).getD _)
    cases e : vecSem op with
    | none => exact local_fromModel (evalVec_loc op)
    | some f =>
      show Local f
      cases op <;> first
        | (cases e; done)
        | (injection e with e; subst e; first
            | exact local_un _ rfl (fun _ _ => rfl)
            | exact local_bin _ rfl (fun _ => rfl) (fun _ _ _ => rfl)
            | exact local_ter _ rfl (fun _ => rfl) (fun _ _ => rfl) (fun _ _ _ _ => rfl))

/-- What pywasm does on an operator, with any exception counting as a trap. -/
def Spec.Runs (m : VM Unit) (s : List Val) (o : Out) : Prop :=
  match o with
  | .ok s' => m s = .ok () s'
  | .trap => ∃ e s', m s = .error e s'
  | .stuck => True

theorem runs_of_implements {m s o} (h : Implements m s o) : Spec.Runs m s o := by
  cases o with
  | ok s' => exact h
  | trap => obtain ⟨e, s', h, _⟩ := h; exact ⟨e, s', h⟩
  | stuck => trivial
theorem runs_fromModel (m s) : Spec.Runs m s (Ref.fromModel m s) := by
  unfold Ref.fromModel
  cases h : m s with
  | ok a s' => exact h
  | error e s' => cases e <;> first | trivial | exact ⟨_, _, h⟩

theorem num_sound (op : NumOp) (hg : op ≠ .int .i64_div_u) (s : List Val) : Spec.Runs (evalNum op) s (Ref.numSem op s) := by
  cases op with
  | int op => exact runs_of_implements (int_sound op (fun h => hg (by rw [h])) s)
  | flt op => exact runs_fromModel _ _
  | lane op i =>
    rw [numSem_lane]
    split
    · rename_i h
      exact runs_of_implements (lane_sound op i h s)
    · trivial
  | shuffle sel =>
    rw [numSem_shuffle]
    split
    · rename_i h
      exact runs_of_implements (shuffle_sound sel h.1 h.2 s)
    · trivial
  | vec op =>
    show Spec.Runs (evalVec op) s ((vecSem op).getD _ s)
    cases e : vecSem op with
    | none => exact runs_fromModel _ _
    | some f => exact runs_of_implements (vec_sound op f e s)

end Pywasm
