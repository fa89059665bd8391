import Verif.Model.LogRun
import Verif.Lemmas.Disasm
import Verif.Lemmas.Frames
import Verif.Spec.Log

/-!
# Printing changes nothing else
-/

namespace Pywasm
open Spec Spec.Bin Spec.Log M

/-! ## Short code -/

theorem short_mem {l : List Inst} (h : short l = true) {i : Inst} (hi : i ∈ l) : shortI i = true := by
  induction l with
  | nil => cases hi
  | cons j l ih =>
    unfold short at h
    rw [Bool.and_eq_true] at h
    rcases List.mem_cons.mp hi with rfl | hi
    · exact h.1
    · exact ih h.2 hi

theorem short_append {a b : List Inst} (ha : short a = true) (hb : short b = true) : short (a ++ b) = true := by
  induction a with
  | nil => exact hb
  | cons i a ih =>
    unfold short at ha
    rw [Bool.and_eq_true] at ha
    rw [List.cons_append]
    unfold short
    rw [Bool.and_eq_true]
    exact ⟨ha.1, ih ha.2⟩

theorem shortI_numbers {i : Inst} (h : shortI i = true) : smallNums (numbers i) = true := by
  cases i with
  | block bt b => unfold shortI at h; rw [Bool.and_eq_true] at h; exact h.1
  | loop bt b => unfold shortI at h; rw [Bool.and_eq_true] at h; exact h.1
  | ifThen bt a b => unfold shortI at h; rw [Bool.and_eq_true, Bool.and_eq_true] at h; exact h.1.1
  | _ => unfold shortI at h; exact h

theorem single_short {i : Inst} (h : shortI i = true) : ∃ s, i.single = .ok s := by
  have := okIff_single i
  unfold OkIff at this
  rwa [shortI_numbers h] at this

theorem single_value (i : Inst) : (∃ s, i.single = .ok s) ∨ i.single = .error .value := by
  have := okIff_single i
  unfold OkIff at this
  split at this
  · exact .inl this
  · exact .inr this

set_option exponentiation.threshold 5000 in
theorem long_pos : 0 < long := by unfold long; exact Nat.pow_pos (by decide)

set_option exponentiation.threshold 5000 in
theorem long_big : 2 ^ 64 < long := by
  unfold long
  exact Nat.lt_of_lt_of_le (m := 10 ^ 64) (by decide) (Nat.pow_le_pow_right (by decide) (by decide))

/-- the code of the labels and of the functions is short -/
structure Codes (L : List Label) (fs : List FuncInst) (bs : List Bytes) : Prop where
  label : ∀ lab ∈ L, short lab.instr = true
  store : ∀ t k code, FuncInst.wasm t k code ∈ fs → short code.expr = true
  bufs : ∀ b ∈ bs, b.length < long

theorem Codes.cons {L : List Label} {s : List FuncInst} {bs : List Bytes} (h : Codes L s bs) {l : Label} (hl : short l.instr = true) : Codes (l :: L) s bs :=
  ⟨fun x hx => by rcases List.mem_cons.mp hx with rfl | hx; exacts [hl, h.1 x hx], h.2, h.3⟩
theorem Codes.sub {L L' : List Label} {s : List FuncInst} {bs : List Bytes} (h : Codes L s bs) (hs : L' ⊆ L) : Codes L' s bs := ⟨fun x hx => h.1 x (hs hx), h.2, h.3⟩

/-- the code that is running and that can be called is short -/
def Plain (m : Machine) : Prop := Codes m.label m.store.func m.store.bufs

def PlainM {α} (x : M α) : Prop := ∀ m : Machine, Plain m → Wp x (fun _ m' => Plain m') (fun _ => True) m

theorem PlainM.bind {α β} {x : M α} {f : α → M β} (hx : PlainM x) (hf : ∀ a, PlainM (f a)) : PlainM (x >>= f) :=
  fun m h => wp_bind (wp_mono (hx m h) (fun a m' h' => hf a m' h') (fun _ h' => h'))

theorem Py.getItem_mem {α} {l : List α} {i : Int} {a : α} (h : Py.getItem l i = .ok a) : a ∈ l := by
  unfold Py.getItem at h
  simp only at h
  split at h
  all_goals repeat' (split at h)
  all_goals first
    | cases h; done
    | (injection h with h; subst h; exact List.mem_of_getElem? (by assumption))

variable {H : Host}

theorem plain_evaluateBr (l : Nat) : PlainM (evaluateBr l) := by
  intro m h
  unfold evaluateBr
  wp_run
  all_goals try trivial
  rename_i lab hlab _ _ _ _ _
  have hs : (m.label.drop l).tail ⊆ m.label := fun _ hx => List.drop_subset _ _ (List.tail_subset _ hx)
  split <;> wp_run
  · exact Codes.cons (h.sub hs) (h.1 lab (List.mem_of_getElem? hlab))
  · exact h.sub hs

theorem plain_evaluateBype (b : Bype) : PlainM (evaluateBype b) := by
  intro m h
  cases b <;> unfold evaluateBype <;> wp_run <;> first | exact h | trivial

theorem plain_evaluateCall (hH : ShortHost H) (addr : Int) : PlainM (evaluateCall H addr) := by
  intro m h
  unfold evaluateCall
  wp_run
  all_goals try trivial
  split
  · wp_run
    all_goals try trivial
    rename_i hf _ _ _ _
    exact h.cons (h.2 _ _ _ (Py.getItem_mem hf))
  · wp_run
    all_goals try trivial
    rename_i hh _ _
    have := hH _ _ _ _ _ _ hh ⟨h.2, h.3⟩
    exact ⟨h.1, this.1, this.2⟩

theorem plain_memLoad (off k : Nat) : PlainM (evaluateMemLoad off k) := by
  intro m h
  unfold evaluateMemLoad
  wp_run <;> first | exact h | trivial

theorem plain_memSave (off k : Nat) : PlainM (evaluateMemSave off k) := by
  intro m h
  unfold evaluateMemSave
  wp_run <;> first | exact h | trivial

theorem plain_pushBlock (lab : Label) (bt : FuncType) (body : List Inst) (hb : short body = true) : PlainM (pushBlock lab bt body) := by
  intro m h
  unfold pushBlock
  wp_run <;> first | exact h.cons hb | trivial

theorem plain_setLocal (i : Nat) (a : Val) : PlainM (exec.setLocal i a) := by
  intro m h
  unfold exec.setLocal
  wp_run
  all_goals first | exact h | trivial

theorem plain_exec (hH : ShortHost H) (lab : Label) (f : Frame) (i : Inst) (hi : shortI i = true) : PlainM (exec H lab f i) := by
  cases i with
  | block bt body =>
    unfold shortI at hi
    rw [Bool.and_eq_true] at hi
    simp only [exec]
    exact (plain_evaluateBype bt).bind fun bt => plain_pushBlock lab bt body hi.2
  | loop bt body =>
    unfold shortI at hi
    rw [Bool.and_eq_true] at hi
    simp only [exec]
    refine (plain_evaluateBype bt).bind fun bt m h => ?_
    wp_run <;> first | exact h.cons hi.2 | trivial
  | ifThen bt thn els =>
    unfold shortI at hi
    rw [Bool.and_eq_true, Bool.and_eq_true] at hi
    simp only [exec]
    refine (plain_evaluateBype bt).bind fun bt m h => ?_
    wp_run
    · refine plain_pushBlock lab bt _ ?_ _ h
      split
      exacts [hi.1.2, hi.2]
    · trivial
  | br l => exact plain_evaluateBr l
  | brIf l =>
    intro m h
    simp only [exec]
    wp_run
    · exact plain_evaluateBr l _ h
    all_goals first | exact h | trivial
  | brTable ls d =>
    intro m h
    simp only [exec]
    wp_run
    · exact plain_evaluateBr _ _ h
    all_goals first | exact h | trivial
  | ret =>
    intro m h
    simp only [exec]
    wp_run
    all_goals first | exact h.sub (List.drop_subset _ _) | trivial
  | call k =>
    intro m h
    simp only [exec]
    wp_run
    · exact plain_evaluateCall hH _ _ h
    all_goals first | exact h | trivial
  | callIndirect t tab =>
    intro m h
    simp only [exec]
    wp_run
    · exact plain_evaluateCall hH _ _ h
    all_goals first | exact h | trivial
  | localSet i =>
    intro m h
    simp only [exec]
    wp_run
    · exact plain_setLocal _ _ _ h
    all_goals first | exact h | trivial
  | localTee i =>
    intro m h
    simp only [exec]
    wp_run
    · exact plain_setLocal _ _ _ h
    all_goals first | exact h | trivial
  | load op al off =>
    simp only [exec]
    refine (plain_memLoad off _).bind fun b m h => ?_
    wp_run <;> first | exact h | trivial
  | store op al off =>
    simp only [exec]
    exact plain_memSave off _
  | dataDrop i =>
    intro m h
    simp only [exec]
    wp_run
    · refine ⟨h.1, h.2, fun b hb => ?_⟩
      rcases List.mem_or_eq_of_mem_set hb with hb | rfl
      exacts [h.3 b hb, long_pos]
    all_goals trivial
  | loadLane w al off l =>
    intro m h
    simp only [exec]
    wp_run
    · refine wp_mono (plain_memLoad off _ _ h) (fun b m' h' => ?_) (fun _ h' => h')
      wp_run <;> first | exact h' | trivial
    · trivial
  | storeLane w al off l =>
    intro m h
    simp only [exec]
    wp_run
    · exact plain_memSave off _ _ h
    all_goals first | exact h | trivial
  | _ =>
    intro m h
    simp only [exec]
    wp_run <;> first | exact h | trivial

/-! ## Machine code with and without printing -/

/-- From states with `P`, `x` does what `y` does, and prints; at a level of at most 0 it prints nothing.  If `bad`, it may raise a
`ValueError` instead.  Afterwards `Q` holds. -/
def Tracks {α} (lvl : Int) (bad : Prop) (P : Machine → Prop) (x : LM α) (y : M α) (Q : α → Machine → Prop) : Prop :=
  ∀ t : Talk, P t.m →
    (∃ l, (lvl ≤ 0 → l = []) ∧
      ((∃ a m, y t.m = .ok a m ∧ x t = .ok a ⟨m, t.out ++ l⟩ ∧ Q a m) ∨
        ∃ e m, y t.m = .error e m ∧ x t = .error e ⟨m, t.out ++ l⟩)) ∨
    (bad ∧ ∃ m l, x t = .error .value ⟨m, t.out ++ l⟩)

namespace Tracks
variable {α β : Type} {lvl : Int} {bad : Prop} {P : Machine → Prop}

theorem quiet {y : M α} {Q : α → Machine → Prop} (h : ∀ m, P m → Wp y Q (fun _ => True) m) : Tracks lvl bad P (LM.quiet y) y Q := by
  intro t ht
  have := h t.m ht
  unfold Wp at this
  refine .inl ⟨[], fun _ => rfl, ?_⟩
  cases hy : y t.m with
  | ok a m => rw [hy] at this; exact .inl ⟨a, m, rfl, by simp [LM.quiet, hy], this⟩
  | error e m => exact .inr ⟨e, m, rfl, by simp [LM.quiet, hy]⟩

theorem pure {a : α} {Q : α → Machine → Prop} (h : ∀ m, P m → Q a m) : Tracks lvl bad P (Pure.pure a) (Pure.pure a) Q := by
  intro t ht
  exact .inl ⟨[], fun _ => rfl, .inl ⟨a, t.m, rfl, by rw [List.append_nil]; rfl, h _ ht⟩⟩

theorem bind {x : LM α} {y : M α} {f : α → LM β} {g : α → M β} {Q : α → Machine → Prop} {R : β → Machine → Prop}
    (hx : Tracks lvl bad P x y Q) (hf : ∀ a, Tracks lvl bad (Q a) (f a) (g a) R) : Tracks lvl bad P (x >>= f) (y >>= g) R := by
  intro t ht
  rcases hx t ht with ⟨l, hl, ⟨a, m, h1, h2, h3⟩ | ⟨e, m, h1, h2⟩⟩ | ⟨hb, m, l, h⟩
  · have ex : (x >>= f) t = f a ⟨m, t.out ++ l⟩ := by show EStateM.bind x f t = _; unfold EStateM.bind; rw [h2]
    have ey : (y >>= g) t.m = g a m := by show EStateM.bind y g t.m = _; unfold EStateM.bind; rw [h1]
    rw [ex, ey]
    rcases hf a ⟨m, t.out ++ l⟩ h3 with ⟨l', hl', h⟩ | ⟨hb, m', l', h⟩
    · refine .inl ⟨l ++ l', fun h => by rw [hl h, hl' h]; rfl, ?_⟩
      rw [← List.append_assoc]
      exact h
    · exact .inr ⟨hb, m', l ++ l', by rw [← List.append_assoc]; exact h⟩
  · refine .inl ⟨l, hl, .inr ⟨e, m, ?_, ?_⟩⟩
    · show EStateM.bind y g t.m = _; unfold EStateM.bind; rw [h1]
    · show EStateM.bind x f t = _; unfold EStateM.bind; rw [h2]
  · exact .inr ⟨hb, m, l, by show EStateM.bind x f t = _; unfold EStateM.bind; rw [h]⟩

/-- a line is printed in between -/
theorem say {k : String} {s : Except Err Str} {f : Unit → LM β} {y : M β} {R : β → Machine → Prop}
    (hs : ∀ m, P m → lvl ≤ 0 ∨ (∃ a, s = .ok a) ∨ (bad ∧ s = .error .value)) (h : Tracks lvl bad P (f ()) y R) :
    Tracks lvl bad P (LM.say (logLine lvl k s) >>= f) y R := by
  intro t ht
  by_cases hlv : 0 < lvl
  · rcases hs t.m ht with h0 | ⟨a, rfl⟩ | ⟨hb, rfl⟩
    · omega
    · have e : LM.say (logLine lvl k (.ok a)) t = .ok () ⟨t.m, t.out ++ [k.toList ++ ' ' :: a]⟩ := by
        simp [LM.say, logLine, debugObj, hlv, Except.map]
      have ex : (LM.say (logLine lvl k (.ok a)) >>= f) t = f () ⟨t.m, t.out ++ [k.toList ++ ' ' :: a]⟩ := by
        show EStateM.bind _ f t = _; unfold EStateM.bind; rw [e]
      rw [ex]
      rcases h ⟨t.m, t.out ++ [k.toList ++ ' ' :: a]⟩ ht with ⟨l', hl', h⟩ | ⟨hb, m', l', h⟩
      · refine .inl ⟨[k.toList ++ ' ' :: a] ++ l', fun h => by omega, ?_⟩
        rw [← List.append_assoc]
        exact h
      · exact .inr ⟨hb, m', [k.toList ++ ' ' :: a] ++ l', by rw [← List.append_assoc]; exact h⟩
    · refine .inr ⟨hb, t.m, [], ?_⟩
      show EStateM.bind _ f t = _
      unfold EStateM.bind
      have : LM.say (logLine lvl k (.error .value)) t = .error .value ⟨t.m, t.out ++ []⟩ := by
        simp [LM.say, logLine, debugObj, hlv, Except.map]
      rw [this]
  · have e : LM.say (logLine lvl k s) t = .ok () t := by
      simp [LM.say, logLine, debugObj, hlv]
    have ex : (LM.say (logLine lvl k s) >>= f) t = f () t := by
      show EStateM.bind _ f t = _; unfold EStateM.bind; rw [e]
    rw [ex]
    exact h t ht

theorem mono {x : LM α} {y : M α} {P' : Machine → Prop} {Q Q' : α → Machine → Prop} (h : Tracks lvl bad P x y Q)
    (hp : ∀ m, P' m → P m) (hq : ∀ a m, Q a m → Q' a m) : Tracks lvl bad P' x y Q' := by
  intro t ht
  rcases h t (hp _ ht) with ⟨l, hl, ⟨a, m, h1, h2, h3⟩ | h⟩ | h
  · exact .inl ⟨l, hl, .inl ⟨a, m, h1, h2, hq _ _ h3⟩⟩
  · exact .inl ⟨l, hl, .inr h⟩
  · exact .inr h

theorem mapM {f : α → LM β} {g : α → M β} {l : List α} (h : ∀ a ∈ l, Tracks lvl bad P (f a) (g a) fun _ => P) :
    Tracks lvl bad P (l.mapM f) (l.mapM g) fun _ => P := by
  induction l with
  | nil => exact .pure fun _ h => h
  | cons a l ih =>
    rw [List.mapM_cons, List.mapM_cons]
    exact (h a (by simp)).bind fun _ => (ih fun b hb => h b (by simp [hb])).bind fun _ => .pure fun _ h => h

theorem forIn {f : α → PUnit → LM (ForInStep PUnit)} {g : α → PUnit → M (ForInStep PUnit)} {l : List α}
    (h : ∀ a ∈ l, ∀ u, Tracks lvl bad P (f a u) (g a u) fun r m => r = ForInStep.yield PUnit.unit ∧ P m) :
    Tracks lvl bad P (forIn l PUnit.unit f) (forIn l PUnit.unit g) fun _ => P := by
  induction l with
  | nil => exact .pure fun _ h => h
  | cons a l ih =>
    rw [List.forIn_cons, List.forIn_cons]
    refine (h a (by simp) PUnit.unit).bind fun r => ?_
    cases r with
    | done u => exact fun t ht => absurd ht.1 (by simp)
    | yield u => exact (ih fun b hb => h b (by simp [hb])).mono (fun m h => h.2) fun _ _ h => h

end Tracks


/-- nothing is assumed about the code if nothing is printed or if a `ValueError` is allowed for -/
def Free (lvl : Int) (bad : Prop) : Prop := lvl ≤ 0 ∨ bad

/-- the invariant -/
def Inv (lvl : Int) (bad : Prop) (m : Machine) : Prop := Free lvl bad ∨ Plain m

section
variable {lvl : Int} {bad : Prop} {α : Type}

theorem wp_true {y : M α} {m : Machine} : Wp y (fun _ _ => True) (fun _ => True) m := by unfold Wp; split <;> trivial

theorem inv_wp {y : M α} (h : ¬ Free lvl bad → PlainM y) : ∀ m, Inv lvl bad m → Wp y (fun _ => Inv lvl bad) (fun _ => True) m := by
  intro m hm
  by_cases hf : Free lvl bad
  · exact wp_mono wp_true (fun _ _ _ => .inl hf) fun _ _ => trivial
  · exact wp_mono (h hf m (hm.resolve_left hf)) (fun _ _ h => .inr h) fun _ _ => trivial

/-- when a line can be printed -/
theorem say_free {x : Except Err Str} (hx : (∃ s, x = .ok s) ∨ x = .error .value) (h : Free lvl bad ∨ ∃ s, x = .ok s) :
    lvl ≤ 0 ∨ (∃ a, x = .ok a) ∨ (bad ∧ x = .error .value) := by
  rcases h with (h | h) | h
  · exact .inl h
  · rcases hx with hx | hx
    · exact .inr (.inl hx)
    · exact .inr (.inr ⟨h, hx⟩)
  · exact .inr (.inl h)

theorem tracks_step (hH : Free lvl bad ∨ ShortHost H) :
    Tracks lvl bad (Inv lvl bad) (Logged.step lvl H) (step H) fun _ => Inv lvl bad := by
  unfold Logged.step step
  refine .bind (Q := fun m0 m => Inv lvl bad m ∧ m0 = m) (.quiet fun m h => ?_) fun m0 => ?_
  · wp_run; exact ⟨h, rfl⟩
  refine .bind (Q := fun lab m => Inv lvl bad m ∧ lab ∈ m.label) (.quiet fun m h => ?_) fun lab => ?_
  · wp_run
    · rename_i hl; exact ⟨h.1, List.mem_of_getElem? (h.2 ▸ hl)⟩
    · trivial
  refine .bind (Q := fun _ m => Inv lvl bad m ∧ lab ∈ m.label) (.quiet fun m h => ?_) fun fr => ?_
  · wp_run
    · exact h
    · trivial
  split
  · refine .quiet fun m h => ?_
    rcases h.1 with hf | hp
    · exact wp_mono wp_true (fun _ _ _ => .inl hf) fun _ _ => trivial
    · have hs : Codes m.label.tail m.store.func m.store.bufs := hp.sub (List.tail_subset _)
      wp_run
      all_goals first | trivial | exact .inr hs
  · refine .bind (Q := fun i m => Inv lvl bad m ∧ lab ∈ m.label ∧ i ∈ lab.instr) (.quiet fun m h => ?_) fun i => ?_
    · wp_run
      · rename_i hl; exact ⟨h.1, h.2, List.mem_of_getElem? hl⟩
      · trivial
    refine .bind (Q := fun _ m => Inv lvl bad m ∧ (Free lvl bad ∨ shortI i = true)) (.quiet fun m h => ?_) fun _ => ?_
    · rcases h.1 with hf | hp
      · exact wp_mono wp_true (fun _ _ _ => ⟨.inl hf, .inl hf⟩) fun _ _ => trivial
      · wp_run
        have hl := hp.label lab h.2.1
        exact ⟨.inr (Codes.cons (hp.sub (List.tail_subset _)) hl), .inr (short_mem hl h.2.2)⟩
    refine .say (fun m h => say_free (single_value i) (h.2.imp_right single_short)) (.quiet fun m h => ?_)
    rcases h.2 with hf | hi
    · exact wp_mono wp_true (fun _ _ _ => .inl hf) fun _ _ => trivial
    · rcases hH with hf | hH
      · exact wp_mono wp_true (fun _ _ _ => .inl hf) fun _ _ => trivial
      · exact inv_wp (fun _ => plain_exec hH _ _ _ hi) m h.1

theorem tracks_evaluate (hH : Free lvl bad ∨ ShortHost H) (n : Nat) :
    Tracks lvl bad (Inv lvl bad) (Logged.evaluate lvl H n) (evaluate H n) fun _ => Inv lvl bad := by
  induction n with
  | zero => exact .pure fun _ h => h
  | succ n ih =>
    unfold Logged.evaluate evaluate
    refine .bind (Q := fun _ => Inv lvl bad) (.quiet fun m h => ?_) fun m0 => ?_
    · wp_run; exact h
    split
    · exact .pure fun _ h => h
    · exact (tracks_step hH).bind fun _ => ih

theorem tracks_runInit (hH : Free lvl bad ∨ ShortHost H) (N : Nat) (e : Expr) (nval : Nat) (he : Free lvl bad ∨ short e = true) :
    Tracks lvl bad (Inv lvl bad) (Logged.runInit lvl H N e nval) (runInit H N e nval) fun _ => Inv lvl bad := by
  unfold Logged.runInit runInit
  refine .bind (Q := fun _ => Inv lvl bad) (.quiet fun m h => ?_) fun _ => ?_
  · rcases he with he | he
    · exact wp_mono wp_true (fun _ _ _ => .inl he) fun _ _ => trivial
    · wp_run
      exact h.imp_right fun h => Codes.cons h he
  refine (tracks_evaluate hH N).bind fun _ => .quiet fun m h => ?_
  wp_run
  all_goals trivial

theorem tracks_runConst (hH : Free lvl bad ∨ ShortHost H) (N : Nat) (e : Expr) (he : Free lvl bad ∨ short e = true) :
    Tracks lvl bad (Inv lvl bad) (Logged.runConst lvl H N e) (runConst H N e) fun _ => Inv lvl bad := by
  unfold Logged.runConst runConst
  refine (tracks_runInit hH N e 1 he).bind fun _ => .quiet fun m h => ?_
  wp_run
  all_goals trivial

end

end Pywasm
