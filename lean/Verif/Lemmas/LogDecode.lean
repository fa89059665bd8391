import Verif.Model.LogRun
import Verif.Lemmas.DecodeModule
import Verif.Lemmas.LogInit

/-!
# The decoder with and without printing
-/

namespace Pywasm
open Reader Spec.Bin

/-- `x` does what `rd` does, and prints; at a level of at most 0 it prints nothing, at others it may raise a `ValueError` instead. -/
def RTracks {α} (lvl : Int) (x : LReader α) (rd : Reader α) : Prop :=
  ∀ s, (∃ l, (lvl ≤ 0 → l = []) ∧ x s = (l, rd s)) ∨ (0 < lvl ∧ ∃ l, x s = (l, .error .value))

namespace RTracks
variable {α β : Type} {lvl : Int}

theorem quiet (rd : Reader α) : RTracks lvl (LReader.quiet rd) rd := fun _ => .inl ⟨[], fun _ => rfl, rfl⟩

theorem pure (a : α) : RTracks lvl (Pure.pure a) (Pure.pure a) := fun _ => .inl ⟨[], fun _ => rfl, rfl⟩

theorem bind {x : LReader α} {rd : Reader α} {f : α → LReader β} {g : α → Reader β} (hx : RTracks lvl x rd)
    (hf : ∀ a, RTracks lvl (f a) (g a)) : RTracks lvl (x >>= f) (rd >>= g) := by
  intro s
  have ex : (x >>= f) s = Log.bind (x s) fun p => f p.1 p.2 := rfl
  have er : (rd >>= g) s = (rd s >>= fun p => g p.1 p.2) := rfl
  rw [ex, er]
  rcases hx s with ⟨l, hl, h⟩ | ⟨hp, l, h⟩
  · rw [h]
    cases hr : rd s with
    | error e => exact .inl ⟨l, hl, rfl⟩
    | ok p =>
      rcases hf p.1 p.2 with ⟨l', hl', h'⟩ | ⟨hp, l', h'⟩
      · refine .inl ⟨l ++ l', fun h => by rw [hl h, hl' h]; rfl, ?_⟩
        show (l ++ (f p.1 p.2).1, (f p.1 p.2).2) = _
        rw [h']; rfl
      · refine .inr ⟨hp, l ++ l', ?_⟩
        show (l ++ (f p.1 p.2).1, (f p.1 p.2).2) = _
        rw [h']
  · rw [h]
    exact .inr ⟨hp, l, rfl⟩

/-- a line is printed in between -/
theorem say {k : String} {x : Except Err Str} {f : Unit → LReader β} {rd : Reader β}
    (hx : (∃ a, x = .ok a) ∨ x = .error .value) (h : RTracks lvl (f ()) rd) :
    RTracks lvl (LReader.say (logLine lvl k x) >>= f) rd := by
  intro s
  have ex : (LReader.say (logLine lvl k x) >>= f) s = Log.bind (LReader.say (logLine lvl k x) s) fun p => f p.1 p.2 := rfl
  rw [ex]
  by_cases hlv : 0 < lvl
  · rcases hx with ⟨a, rfl⟩ | rfl
    · have e : LReader.say (logLine lvl k (.ok a)) s = ([k.toList ++ ' ' :: a], .ok ((), s)) := by
        simp [LReader.say, logLine, debugObj, hlv, Except.map, Log.bind]; rfl
      rw [e]
      rcases h s with ⟨l', hl', h'⟩ | ⟨hp, l', h'⟩
      · refine .inl ⟨[k.toList ++ ' ' :: a] ++ l', fun h => by omega, ?_⟩
        show ([k.toList ++ ' ' :: a] ++ (f () s).1, (f () s).2) = _
        rw [h']
      · refine .inr ⟨hp, [k.toList ++ ' ' :: a] ++ l', ?_⟩
        show ([k.toList ++ ' ' :: a] ++ (f () s).1, (f () s).2) = _
        rw [h']
    · refine .inr ⟨hlv, [], ?_⟩
      have e : LReader.say (logLine lvl k (.error .value)) s = ([], .error .value) := by
        simp [LReader.say, logLine, debugObj, hlv, Except.map, Log.bind]; rfl
      rw [e]; rfl
  · have e : LReader.say (logLine lvl k x) s = ([], .ok ((), s)) := by
      simp [LReader.say, logLine, debugObj, hlv, Log.bind]; rfl
    rw [e]
    rcases h s with ⟨l', hl', h'⟩ | ⟨hp, l', h'⟩
    · refine .inl ⟨l', hl', ?_⟩
      show ([] ++ (f () s).1, (f () s).2) = _
      rw [h']; rfl
    · omega

theorem times {rd : Reader α} {k : String} {p : α → Except Err Str} (hp : ∀ a, (∃ s, p a = .ok s) ∨ p a = .error .value) (n : Nat) :
    RTracks lvl (LReader.times rd (fun a => logLine lvl k (p a)) n) (Reader.times rd n) := by
  induction n with
  | zero => exact .pure _
  | succ n ih => exact (quiet rd).bind fun a => .say (hp a) (ih.bind fun _ => .pure _)

theorem vec {rd : Reader α} {k : String} {p : α → Except Err Str} (hp : ∀ a, (∃ s, p a = .ok s) ∨ p a = .error .value) :
    RTracks lvl (LReader.vec rd fun a => logLine lvl k (p a)) (Reader.vec rd) := (quiet _).bind fun n => times hp n

theorem lift {x : LReader α} {rd : Reader α} (h : RTracks lvl x rd) (d : Bytes) :
    RTracks lvl (LReader.say (x d)) (liftE (rd.run d)) := by
  intro s
  rcases h d with ⟨l, hl, h'⟩ | ⟨hp, l, h'⟩
  · refine .inl ⟨l, hl, ?_⟩
    unfold LReader.say
    rw [h']
    show Log.bind (l, rd d) _ = (l, liftE (rd d) s)
    cases rd d <;> simp [Log.bind, liftE] <;> rfl
  · refine .inr ⟨hp, l, ?_⟩
    unfold LReader.say
    rw [h']; rfl

end RTracks

/-! ## The text of descriptions can be made or raises `ValueError` -/

/-- What can be done, or raises `ValueError`. -/
def Tries {α} (x : Except Err α) : Prop := (∃ a, x = .ok a) ∨ x = .error .value

theorem Tries.pure {α} (a : α) : Tries (Pure.pure a : Except Err α) := .inl ⟨a, rfl⟩
theorem Tries.bind {α β} {x : Except Err α} {f : α → Except Err β} (hx : Tries x) (hf : ∀ a, Tries (f a)) : Tries (x >>= f) := by
  rcases hx with ⟨a, rfl⟩ | rfl
  · exact hf a
  · exact .inr rfl
theorem Tries.mapM {α β} {f : α → Except Err β} (h : ∀ a, Tries (f a)) (l : List α) : Tries (l.mapM f) := by
  induction l with
  | nil => exact .pure _
  | cons a l ih => rw [List.mapM_cons]; exact (h a).bind fun _ => ih.bind fun _ => .pure _

theorem tries_int (n : Int) : Tries (Py.reprInt n) := reprInt_value n
theorem tries_limits (l : Limits) : Tries l.repr := by
  unfold Limits.repr
  split
  · exact (Tries.pure _).bind fun _ => (tries_int _).bind fun _ => .pure _
  · exact (tries_int _).bind fun _ => (tries_int _).bind fun _ => .pure _
theorem tries_table (t : TableType) : Tries t.repr := (tries_limits _).bind fun _ => .pure _
theorem tries_import (i : Import) : Tries i.repr := by
  obtain ⟨m, n, d⟩ := i
  cases d with
  | func t => exact (tries_int _).bind fun _ => (Tries.pure _).bind fun _ => .pure _
  | table t => exact (tries_table _).bind fun _ => (Tries.pure _).bind fun _ => .pure _
  | mem l => exact (tries_limits _).bind fun _ => (Tries.pure _).bind fun _ => .pure _
  | glob t => exact (Tries.pure _).bind fun _ => .pure _
theorem tries_export (e : ExportDesc) : Tries e.repr := (tries_int _).bind fun _ => .pure _
theorem tries_func (f : FuncDesc) : Tries f.repr :=
  (tries_int _).bind fun _ => (Tries.mapM (fun _ => (tries_int _).bind fun _ => .pure _) _).bind fun _ => .pure _

/-! ## The listing -/

mutual
theorem inst_quiet {lvl : Int} (h : lvl ≤ 0) (k : Nat) (i : Inst) : (i.disasm lvl k).1 = [] := by
  have h1 : ∀ j : Inst, (j.disasm1 lvl k).1 = [] := by
    intro j
    unfold Inst.disasm1
    split
    · simp [debugln, show ¬ 0 < lvl by omega]
    · rfl
  have h2 : ∀ (j : Inst) (e : List Inst), (Expr.disasm lvl (k + 4) e).1 = [] →
      (Log.bind (j.disasm1 lvl k) fun _ => Expr.disasm lvl (k + 4) e).1 = [] := by
    intro j e he
    have := h1 j
    revert this
    cases j.disasm1 lvl k with
    | mk l x => cases x with
      | ok a => intro h; simp only at h; subst h; simpa [Log.bind] using he
      | error e => intro h; exact h
  cases i with
  | block bt b => rw [Inst.disasm]; exact h2 _ _ (disasm_quiet h (k + 4) b)
  | loop bt b => rw [Inst.disasm]; exact h2 _ _ (disasm_quiet h (k + 4) b)
  | ifThen bt a b => rw [Inst.disasm]; exact h2 _ _ (disasm_quiet h (k + 4) a)
  | _ => rw [Inst.disasm] <;> first | exact h1 _ | (intros; exact Inst.noConfusion ‹_›)
theorem disasm_quiet {lvl : Int} (h : lvl ≤ 0) (k : Nat) (e : List Inst) : (Expr.disasm lvl k e).1 = [] := by
  cases e with
  | nil => rw [Expr.disasm]
  | cons i is =>
    rw [Expr.disasm]
    have h1 := inst_quiet h k i
    have h2 := disasm_quiet h k is
    revert h1
    cases i.disasm lvl k with
    | mk l x => cases x with
      | ok a => intro h; simp only at h; subst h; simpa [Log.bind] using h2
      | error e => intro h; exact h
end

theorem disasm_same (lvl : Int) (k : Nat) (e : List Inst) : (Expr.disasm lvl k e).2 = (Expr.disasm 0 k e).2 := by
  have h := okIff_disasm lvl k e
  have h0 := okIff_disasm 0 k e
  unfold OkIff at h h0
  split at h
  · rename_i hc
    rw [if_pos hc] at h0
    obtain ⟨⟨⟩, h⟩ := h
    obtain ⟨⟨⟩, h0⟩ := h0
    rw [h, h0]
  · rename_i hc
    rw [if_neg hc] at h0
    rw [h, h0]

theorem tracks_disasm (lvl : Int) (k : Nat) (e : List Inst) :
    RTracks lvl (LReader.say (Expr.disasm lvl k e)) (liftE (Expr.disasm 0 k e).2) := by
  intro s
  refine .inl ⟨(Expr.disasm lvl k e).1, fun h => disasm_quiet h k e, ?_⟩
  rw [← disasm_same lvl k e]
  unfold LReader.say
  cases Expr.disasm lvl k e with
  | mk l x => cases x <;> simp [Log.bind, liftE] <;> rfl

/-! ## Sections -/

theorem tracks_codeEntry (lvl : Int) (lim : Nat) (func : List FuncDesc) (i : Nat) :
    RTracks lvl (Logged.codeEntry lvl lim func i) (codeEntry lim func i) := by
  unfold Logged.codeEntry codeEntry
  refine (RTracks.quiet _).bind fun size => (RTracks.quiet _).bind fun b => (RTracks.quiet _).bind fun d => ?_
  cases func[i]? with
  | none => exact .quiet _
  | some f => exact .say (tries_func _) ((tracks_disasm lvl 4 d.1.expr).bind fun _ => .pure _)

theorem tracks_codeEntries (lvl : Int) (lim n i : Nat) (func : List FuncDesc) :
    RTracks lvl (Logged.codeEntries lvl lim n i func) (codeEntries lim n i func) := by
  induction n generalizing i func with
  | zero => exact .pure _
  | succ n ih => exact (tracks_codeEntry lvl lim func i).bind fun f => ih (i + 1) f

theorem tracks_sectionBody (lvl : Int) (lim : Nat) (id : UInt8) (m : ModuleDesc) :
    RTracks lvl (Logged.sectionBody lvl lim id m) (sectionBody lim id m) := by
  unfold Logged.sectionBody sectionBody
  by_cases h : id = 0
  · rw [if_pos h, if_pos h]; exact (RTracks.quiet _).bind fun c => .say (.inl ⟨_, rfl⟩) (.pure _)
  rw [if_neg h, if_neg h]; clear h
  by_cases h : id = 1
  · rw [if_pos h, if_pos h]; exact (RTracks.vec fun _ => .inl ⟨_, rfl⟩).bind fun _ => .pure _
  rw [if_neg h, if_neg h]; clear h
  by_cases h : id = 2
  · rw [if_pos h, if_pos h]; exact (RTracks.vec tries_import).bind fun _ => .pure _
  rw [if_neg h, if_neg h]; clear h
  by_cases h : id = 3
  · rw [if_pos h, if_pos h]; exact (RTracks.vec (p := fun x : FuncDesc => Py.reprInt x.type) fun x => tries_int x.type).bind fun _ => .pure _
  rw [if_neg h, if_neg h]; clear h
  by_cases h : id = 4
  · rw [if_pos h, if_pos h]; exact (RTracks.vec tries_table).bind fun _ => .pure _
  rw [if_neg h, if_neg h]; clear h
  by_cases h : id = 5
  · rw [if_pos h, if_pos h]; exact (RTracks.vec tries_limits).bind fun _ => .pure _
  rw [if_neg h, if_neg h]; clear h
  by_cases h : id = 6
  · rw [if_pos h, if_pos h]; exact (RTracks.vec fun _ => .inl ⟨_, rfl⟩).bind fun _ => .pure _
  rw [if_neg h, if_neg h]; clear h
  by_cases h : id = 7
  · rw [if_pos h, if_pos h]; exact (RTracks.vec tries_export).bind fun _ => .pure _
  rw [if_neg h, if_neg h]; clear h
  by_cases h : id = 8
  · rw [if_pos h, if_pos h]; exact (RTracks.quiet _).bind fun n => .say (tries_int _) (.pure _)
  rw [if_neg h, if_neg h]; clear h
  by_cases h : id = 9
  · rw [if_pos h, if_pos h]; exact (RTracks.vec (p := fun x : ElemDesc => Py.reprInt x.tidx) fun x => tries_int x.tidx).bind fun _ => .pure _
  rw [if_neg h, if_neg h]; clear h
  by_cases h : id = 10
  · rw [if_pos h, if_pos h]; exact (RTracks.quiet _).bind fun n => (tracks_codeEntries lvl lim n 0 _).bind fun _ => .pure _
  rw [if_neg h, if_neg h]; clear h
  by_cases h : id = 11
  · rw [if_pos h, if_pos h]; exact (RTracks.vec (p := fun _ : DataDesc => Py.reprInt 0) fun x => tries_int 0).bind fun _ => .pure _
  rw [if_neg h, if_neg h]; clear h
  by_cases h : id = 12
  · rw [if_pos h, if_pos h]; exact (RTracks.quiet _).bind fun n => .say (tries_int _) (.pure _)
  rw [if_neg h, if_neg h]
  exact .pure _

theorem tracks_sections (lvl : Int) (lim k : Nat) (m : ModuleDesc) : RTracks lvl (Logged.sections lvl lim k m) (sections lim k m) := by
  induction k generalizing m with
  | zero => exact .pure _
  | succ k ih =>
    intro s
    cases s with
    | nil => exact .inl ⟨[], fun _ => rfl, rfl⟩
    | cons id s =>
      unfold Logged.sections sections
      simp only
      exact (RTracks.quiet _).bind (fun n => (RTracks.quiet _).bind fun d => (RTracks.quiet _).bind fun _ =>
        ((tracks_sectionBody lvl lim id m).lift d).bind fun r => ih r.1) s

theorem tracks_fromReader (lvl : Int) (lim : Nat) : RTracks lvl (Logged.fromReader lvl lim) (ModuleDesc.fromReader lim) :=
  (RTracks.quiet _).bind fun _ => (RTracks.quiet _).bind fun _ => (RTracks.quiet _).bind fun _ => (RTracks.quiet _).bind fun _ =>
    tracks_sections lvl lim 32 {}

end Pywasm
