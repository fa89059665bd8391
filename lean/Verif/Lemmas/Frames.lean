import Verif.Lemmas.Wp
import Verif.Spec.History

/-! No instruction pushes a frame beyond the 1024th. -/

namespace Pywasm
open Spec M

variable {H : Host}

theorem keep_length_le {α} (k : Nat) (l : List α) : (keep k l).length ≤ l.length := by
  unfold keep; simp

/-- running `x` keeps at most 1024 frames -/
def Shallow {α} (x : M α) : Prop :=
  ∀ m : Machine, m.frame.length ≤ 1024 → Wp x (fun _ m' => m'.frame.length ≤ 1024) (fun m' => m'.frame.length ≤ 1024) m

theorem Shallow.bind {α β} {x : M α} {f : α → M β} (hx : Shallow x) (hf : ∀ a, Shallow (f a)) : Shallow (x >>= f) :=
  fun m h => wp_bind (wp_mono (hx m h) (fun a m' h' => hf a m' h') (fun _ h' => h'))

theorem shallow_evaluateBr (l : Nat) : Shallow (evaluateBr l) := by
  intro m h
  unfold evaluateBr
  wp_run
  all_goals try exact h
  split <;> wp_run <;> exact (keep_length_le _ _).trans h

theorem shallow_evaluateBype (b : Bype) : Shallow (evaluateBype b) := by
  intro m h
  cases b <;> unfold evaluateBype <;> wp_run <;> exact h

theorem shallow_evaluateCall (addr : Int) : Shallow (evaluateCall H addr) := by
  intro m h
  unfold evaluateCall
  wp_run
  all_goals try exact h
  split
  · wp_run
    all_goals try exact h
    rename_i h1 _ _
    simp at h1
    simp; omega
  · wp_run
    all_goals exact h

theorem shallow_memLoad (off k : Nat) : Shallow (evaluateMemLoad off k) := by
  intro m h
  unfold evaluateMemLoad
  wp_run <;> exact h

theorem shallow_memSave (off k : Nat) : Shallow (evaluateMemSave off k) := by
  intro m h
  unfold evaluateMemSave
  wp_run <;> exact h

theorem shallow_pushBlock (lab : Label) (bt : FuncType) (body : List Inst) : Shallow (pushBlock lab bt body) := by
  intro m h
  unfold pushBlock
  wp_run <;> exact h

theorem shallow_setLocal (i : Nat) (a : Val) : Shallow (exec.setLocal i a) := by
  intro m h
  unfold exec.setLocal
  wp_run
  all_goals try exact h
  rename_i hf _ _
  simpa [hf] using h

theorem shallow_exec (lab : Label) (f : Frame) (i : Inst) : Shallow (exec H lab f i) := by
  cases i with
  | block bt body =>
    simp only [exec]
    exact (shallow_evaluateBype bt).bind fun bt => shallow_pushBlock lab bt body
  | loop bt body =>
    simp only [exec]
    refine (shallow_evaluateBype bt).bind fun bt m h => ?_
    wp_run <;> exact h
  | ifThen bt thn els =>
    simp only [exec]
    refine (shallow_evaluateBype bt).bind fun bt m h => ?_
    wp_run
    · exact shallow_pushBlock lab bt _ _ h
    · exact h
  | br l => exact shallow_evaluateBr l
  | brIf l =>
    intro m h
    simp only [exec]
    wp_run
    · exact shallow_evaluateBr l _ h
    all_goals exact h
  | brTable ls d =>
    intro m h
    simp only [exec]
    wp_run
    · exact shallow_evaluateBr _ _ h
    all_goals exact h
  | ret =>
    intro m h
    simp only [exec]
    wp_run
    all_goals try exact h
    simp; omega
  | call k =>
    intro m h
    simp only [exec]
    wp_run
    · exact shallow_evaluateCall _ _ h
    all_goals exact h
  | callIndirect t tab =>
    intro m h
    simp only [exec]
    wp_run
    · exact shallow_evaluateCall _ _ h
    all_goals exact h
  | localSet i =>
    intro m h
    simp only [exec]
    wp_run
    · exact shallow_setLocal _ _ _ h
    all_goals exact h
  | localTee i =>
    intro m h
    simp only [exec]
    wp_run
    · exact shallow_setLocal _ _ _ h
    all_goals exact h
  | load op al off =>
    simp only [exec]
    refine (shallow_memLoad off _).bind fun b m h => ?_
    wp_run <;> exact h
  | store op al off =>
    simp only [exec]
    exact shallow_memSave off _
  | loadLane w al off l =>
    intro m h
    simp only [exec]
    wp_run
    · refine wp_mono (shallow_memLoad off _ _ h) (fun b m' h' => ?_) (fun _ h' => h')
      wp_run <;> exact h'
    · exact h
  | storeLane w al off l =>
    intro m h
    simp only [exec]
    wp_run
    · exact shallow_memSave off _ _ h
    all_goals exact h
  | _ =>
    intro m h
    simp only [exec]
    wp_run <;> exact h

theorem shallow_step : Shallow (step H) := by
  intro m h
  unfold step
  wp_run
  all_goals try exact h
  · simp; omega
  · exact shallow_exec _ _ _ _ h

end Pywasm
