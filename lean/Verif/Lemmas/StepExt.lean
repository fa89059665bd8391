import Verif.Lemmas.StoreExt

namespace Pywasm
open Spec M

variable {H : Host} {n : Nat} {s0 : Store}

/-- running `x` keeps the store an extension of any store it extends -/
def KeepsExt {α} (n : Nat) (s0 : Store) (x : M α) : Prop :=
  ∀ m : Machine, ExtendsUpTo n s0 m.store →
    Wp x (fun _ m' => ExtendsUpTo n s0 m'.store) (fun m' => ExtendsUpTo n s0 m'.store) m

theorem KeepsExt.bind {α β} {x : M α} {f : α → M β} (hx : KeepsExt n s0 x) (hf : ∀ a, KeepsExt n s0 (f a)) :
    KeepsExt n s0 (x >>= f) := fun m h =>
  wp_bind (wp_mono (hx m h) (fun a m' h' => hf a m' h') (fun _ h' => h'))
theorem KeepsExt.wp {α β} {x : M α} {f : α → M β} {m : Machine} {Q : β → Machine → Prop} {E : Machine → Prop}
    (hx : KeepsExt n s0 x) (h : ExtendsUpTo n s0 m.store)
    (hf : ∀ a m', ExtendsUpTo n s0 m'.store → Wp (f a) Q E m') (hE : ∀ m', ExtendsUpTo n s0 m'.store → E m') :
    Wp (x >>= f) Q E m :=
  wp_bind (wp_mono (hx m h) hf hE)

theorem keeps_evaluateBr (l : Nat) : KeepsExt n s0 (evaluateBr l) := by
  intro m h
  unfold evaluateBr
  wp_run
  all_goals try exact h
  split <;> wp_run <;> exact h

theorem keeps_evaluateBype (b : Bype) : KeepsExt n s0 (evaluateBype b) := by
  intro m h
  cases b <;> unfold evaluateBype <;> wp_run <;> exact h

theorem keeps_evaluateCall (hH : HostExtends H) (addr : Int) : KeepsExt n s0 (evaluateCall H addr) := by
  intro m h
  unfold evaluateCall
  wp_run
  all_goals try exact h
  split
  · wp_run
    all_goals exact h
  · wp_run
    all_goals try exact h
    all_goals first
      | exact h.trans ((hH _ _ _ _).1 _ _ (by assumption) n)
      | exact h.trans ((hH _ _ _ _).2 _ _ (by assumption) n)

theorem keeps_memLoad (off k : Nat) : KeepsExt n s0 (evaluateMemLoad off k) := by
  intro m h
  unfold evaluateMemLoad
  wp_run <;> exact h

theorem keeps_memSave (off k : Nat) (hk : k ≤ 16) : KeepsExt n s0 (evaluateMemSave off k) := by
  intro m h
  unfold evaluateMemSave
  wp_run
  all_goals try exact h
  rename_i h1 v s hv v' s' hv' h2
  refine h.trans (.memData (by assumption) ?_)
  exact Py.sliceSet_length (by simp [v.len, hk]) (by simpa using h2)

theorem keeps_pushBlock (lab : Label) (bt : FuncType) (body : List Inst) : KeepsExt n s0 (pushBlock lab bt body) := by
  intro m h
  unfold pushBlock
  wp_run <;> exact h

theorem keeps_setLocal (i : Nat) (a : Val) : KeepsExt n s0 (exec.setLocal i a) := by
  intro m h
  unfold exec.setLocal
  wp_run <;> exact h

theorem Py.setItem_length {α} {l l' : List α} {i : Int} {v : α} (h : Py.setItem l i v = .ok l') : l'.length = l.length := by
  simp only [Py.setItem] at h
  generalize (if i < 0 then i + (l.length : Int) else i) = j at h
  split at h
  · simp at h
  · simp only [Except.ok.injEq] at h; rw [← h, List.length_set]

theorem keeps_exec (hH : HostExtends H) (lab : Label) (f : Frame) (i : Inst) : KeepsExt n s0 (exec H lab f i) := by
  cases i with
  | block bt body =>
    simp only [exec]
    exact (keeps_evaluateBype bt).bind fun bt => keeps_pushBlock lab bt body
  | loop bt body =>
    simp only [exec]
    refine (keeps_evaluateBype bt).bind fun bt m h => ?_
    wp_run <;> exact h
  | ifThen bt thn els =>
    simp only [exec]
    refine (keeps_evaluateBype bt).bind fun bt m h => ?_
    wp_run
    · exact keeps_pushBlock lab bt _ _ h
    · exact h
  | br l => exact keeps_evaluateBr l
  | brIf l =>
    intro m h
    simp only [exec]
    wp_run
    · exact keeps_evaluateBr l _ h
    all_goals exact h
  | brTable ls d =>
    intro m h
    simp only [exec]
    wp_run
    · exact keeps_evaluateBr _ _ h
    all_goals exact h
  | call k =>
    intro m h
    simp only [exec]
    wp_run
    · exact keeps_evaluateCall hH _ _ h
    all_goals exact h
  | callIndirect t tab =>
    intro m h
    simp only [exec]
    wp_run
    · exact keeps_evaluateCall hH _ _ h
    all_goals exact h
  | localSet i =>
    intro m h
    simp only [exec]
    wp_run
    · exact keeps_setLocal _ _ _ h
    all_goals exact h
  | localTee i =>
    intro m h
    simp only [exec]
    wp_run
    · exact keeps_setLocal _ _ _ h
    all_goals exact h
  | globalSet i =>
    intro m h
    simp only [exec]
    wp_run
    all_goals try exact h
    rename_i hg hm v s hv
    exact h.trans (.setGlobal v hg hm)
  | tableSet i =>
    intro m h
    simp only [exec]
    wp_run
    all_goals try exact h
    rename_i h1 h2 h3 h4 h5 h6 h7 h8 h9 e he
    refine h.trans (.tableElem (by assumption) ?_)
    exact Py.setItem_length he
  | load op al off =>
    simp only [exec]
    refine (keeps_memLoad off _).bind fun b m h => ?_
    wp_run <;> exact h
  | store op al off =>
    simp only [exec]
    exact keeps_memSave off _ (by cases op <;> decide)
  | loadLane w al off l =>
    intro m h
    simp only [exec]
    wp_run
    · refine wp_mono (keeps_memLoad (n := n) (s0 := s0) off _ _ h) (fun b m' h' => ?_) (fun _ h' => h')
      wp_run <;> exact h'
    · exact h
  | storeLane w al off l =>
    intro m h
    simp only [exec]
    wp_run
    · exact keeps_memSave off _ (by cases w <;> decide) _ h
    all_goals exact h
  | memoryGrow b =>
    intro m h
    simp only [exec]
    wp_run
    all_goals try exact h
    · rename_i hg v hv
      clear hv
      exact h.trans (.memGrow (by assumption) hg)
    · rename_i hg
      exact h.trans (.memGrow (by assumption) hg)
  | memoryInit i =>
    intro m h
    simp only [exec]
    wp_run
    all_goals try exact h
    rename_i h1 h2
    refine h.trans (.memData (by assumption) ?_)
    exact Py.sliceSet_length (Py.slice_length (by simpa using h1)) (by simpa using h2)
  | dataDrop i =>
    intro m h
    simp only [exec]
    wp_run
    all_goals try exact h
    exact h.trans (.dropData _)
  | memoryCopy =>
    intro m h
    simp only [exec]
    wp_run
    all_goals try exact h
    rename_i h1 h2
    refine h.trans (.memData (by assumption) ?_)
    exact Py.sliceSet_length (Py.slice_length (by simpa using h1)) (by simpa using h2)
  | memoryFill =>
    intro m h
    simp only [exec]
    wp_run
    all_goals try exact h
    refine h.trans (.memData (by assumption) ?_)
    exact foldl_set_length _ _ _ _
  | tableInit e t =>
    intro m h
    simp only [exec]
    wp_run
    all_goals try exact h
    rename_i h1 h2
    refine h.trans (.tableElem (by assumption) ?_)
    exact Py.sliceSet_length (Py.slice_length (by simpa using h1)) (by simpa using h2)
  | elemDrop e =>
    intro m h
    simp only [exec]
    wp_run
    all_goals try exact h
    exact h.trans (.dropElem (by assumption))
  | tableCopy x y =>
    intro m h
    simp only [exec]
    wp_run
    all_goals try exact h
    rename_i h1 h2
    refine h.trans (.tableElem (by assumption) ?_)
    exact Py.sliceSet_length (Py.slice_length (by simpa using h1)) (by simpa using h2)
  | tableGrow t =>
    intro m h
    simp only [exec]
    wp_run
    all_goals try exact h
    · rename_i hg v hv
      clear hv
      exact h.trans (.tableGrow (by assumption) hg)
    · rename_i hg
      exact h.trans (.tableGrow (by assumption) hg)
  | tableFill t =>
    intro m h
    simp only [exec]
    wp_run
    all_goals try exact h
    refine h.trans (.tableElem (by assumption) ?_)
    exact foldl_set_length _ _ _ _
  | _ =>
    intro m h
    simp only [exec]
    wp_run <;> exact h

theorem keeps_step (hH : HostExtends H) : KeepsExt n s0 (step H) := by
  intro m h
  unfold step
  wp_run
  all_goals try exact h
  exact keeps_exec hH _ _ _ _ h

theorem keeps_evaluate (hH : HostExtends H) (N : Nat) : KeepsExt n s0 (evaluate H N) := by
  induction N with
  | zero => intro m h; exact wp_pure h
  | succ N ih =>
    intro m h
    unfold evaluate
    wp_run
    · exact h
    · exact wp_mono (keeps_step hH m h) (fun _ m' h' => ih m' h') (fun _ h' => h')

theorem keeps_invocate (hH : HostExtends H) (N : Nat) (addr : Int) (args : List Val) :
    KeepsExt n s0 (invocate H N addr args) := by
  intro m h
  unfold invocate
  wp_run
  · split
    · wp_run; exact h
    · wp_run
      · refine wp_mono (keeps_evaluate (n := n) (s0 := s0) hH N _ h) (fun _ m' h' => ?_) (fun _ h' => h')
        wp_run <;> exact h'
      all_goals exact h
  · exact h

end Pywasm
