import Verif.Spec.Conforming

/-!
# The reference interpreter with fewer numeric results
-/

namespace Pywasm.Spec.Ref

/-- `A` has the results of `B` where it has any. -/
def Below (A B : Numerics) : Prop := ∀ op vs, A.sem op vs = .stuck ∨ A.sem op vs = B.sem op vs

/-- Stuck, or the same. -/
abbrev LeRes (x y : Res) : Prop := x = .stuck ∨ x = y

theorem strict_cases (op : NumOp) (vs : List Val) : (NumDev op vs ∧ strict.sem op vs = .stuck) ∨ (¬ NumDev op vs ∧ strict.sem op vs = numSem op vs) := by
  by_cases h : NumDev op vs
  · exact .inl ⟨h, if_pos h⟩
  · exact .inr ⟨h, if_neg h⟩

section
variable {A B : Numerics} (h : Below A B)
include h

theorem plain_below (mod : ModuleInst) (st : St) (i : Inst) : @plain A mod st i = .stuck ∨ @plain A mod st i = @plain B mod st i := by
  cases i
  case num op =>
    show (match A.sem op st.vs with | .ok s => Plain.ok { st with vs := s } | .trap => .trap | .stuck => .stuck) = _ ∨
      (match A.sem op st.vs with | .ok s => Plain.ok { st with vs := s } | .trap => .trap | .stuck => .stuck) =
      (match B.sem op st.vs with | .ok s => Plain.ok { st with vs := s } | .trap => .trap | .stuck => .stuck)
    rcases h op st.vs with e | e
    · rw [e]; exact .inl rfl
    · rw [e]; exact .inr rfl
  all_goals exact .inr rfl

omit h in
theorem inBlock_below {X Y : St → Res} (h : ∀ st, LeRes (X st) (Y st)) (n m : Nat) (st : St) :
    LeRes (inBlock X n m st) (inBlock Y n m st) := by
  unfold inBlock
  split
  · exact .inl rfl
  · simp only
    rcases h { st with vs := st.vs.take n } with e | e
    · rw [e]; exact .inl rfl
    · rw [e]; exact .inr rfl

omit h in
theorem call_below {X Y : Nat → ModuleInst → List Inst → St → Res} (h : ∀ d mod is st, LeRes (X d mod is st) (Y d mod is st)) (H : Host)
    (c : Option ModuleInst) (d a : Nat) (st : St) : LeRes (call H X c d a st) (call H Y c d a st) := by
  unfold call
  split
  · exact .inl rfl
  · split
    · exact .inl rfl
    · simp only
      split
      · exact .inr rfl
      · split
        · exact .inl rfl
        · rcases h (d + 1) _ _ _ with e | e
          · rw [e]; exact .inl rfl
          · rw [e]; exact .inr rfl
  · exact .inr rfl

theorem below_all (H : Host) : ∀ f : Nat,
    (∀ d mod is st, LeRes (@run A H f d mod is st) (@run B H f d mod is st)) ∧
    (∀ d mod i st, LeRes (@instr A H f d mod i st) (@instr B H f d mod i st)) ∧
    (∀ d mod is n st, LeRes (@iter A H f d mod is n st) (@iter B H f d mod is n st)) := by
  intro f
  induction f with
  | zero => exact ⟨fun _ _ _ _ => .inr rfl, fun _ _ _ _ => .inr rfl, fun _ _ _ _ _ => .inr rfl⟩
  | succ f ih =>
    obtain ⟨h1, h2, h3⟩ := ih
    refine ⟨fun d mod is st => ?_, fun d mod i st => ?_, fun d mod is n st => ?_⟩
    · cases is with
      | nil => exact .inr rfl
      | cons i is =>
        unfold run
        rcases h2 d mod i st with e | e
        · rw [e]; exact .inl rfl
        · rw [e]
          split
          · exact h1 _ _ _ _
          · exact .inr rfl
    · have hp : LeRes (match @plain A mod st i with | .ok st' => .norm st' | .trap => .trap st.store | .stuck => .stuck)
          (match @plain B mod st i with | .ok st' => .norm st' | .trap => .trap st.store | .stuck => .stuck) := by
        rcases plain_below h mod st i with e | e
        · rw [e]; exact .inl rfl
        · rw [e]; exact .inr rfl
      cases i
      case block bt body =>
        unfold instr
        simp only
        split
        · exact .inl rfl
        · exact inBlock_below (h1 _ _ _) _ _ _
      case loop bt body =>
        unfold instr
        simp only
        split
        · exact .inl rfl
        · exact inBlock_below (h3 _ _ _ _) _ _ _
      case ifThen bt a b =>
        unfold instr
        simp only
        split
        · exact inBlock_below (h1 _ _ _) _ _ _
        · exact .inl rfl
      case call a =>
        unfold instr
        simp only
        split
        · exact .inl rfl
        · exact call_below h1 _ _ _ _ _
      case callIndirect a b =>
        unfold instr
        simp only
        split
        · exact .inl rfl
        · exact .inr rfl
        · exact call_below h1 _ _ _ _ _
      all_goals first | exact hp | exact .inr rfl
    · unfold iter
      rcases h1 d mod is st with e | e
      · rw [e]; exact .inl rfl
      · rw [e]
        split
        · split
          · exact .inl rfl
          · exact h3 _ _ _ _ _
        · exact .inr rfl

/-- **Fewer numeric results**: stuck, or the same outcome. -/
theorem invoke_below (H : Host) (fuel a : Nat) (args : List Val) (s : Store) :
    LeRes (@invoke A H fuel a args s) (@invoke B H fuel a args s) := call_below (below_all h H fuel).1 _ _ _ _ _

end

end Pywasm.Spec.Ref
