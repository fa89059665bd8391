import Verif.Lemmas.RefMain
import Verif.Spec.Conforming

/-!
# Numeric semantics that agree on the instructions that occur
-/

namespace Pywasm.Spec.Ref

/-- The store of the outcome has only numeric instructions among `Q`. -/
def NumRes (Q : NumOp → Bool) : Res → Prop
  | .norm st | .br _ st | .ret st => NumericStore Q st.store
  | .trap s => NumericStore Q s
  | .stuck | .timeout => True

/-- The same outcome. -/
abbrev Same (Q : NumOp → Bool) (x y : Res) : Prop := x = y ∧ NumRes Q y

section
variable {Q : NumOp → Bool} {A B : Numerics} {H : Host} (hQ : ∀ op, Q op = true → A.sem op = B.sem op) (hH : NumericHost Q H)

include hQ in
theorem plain_agree (mod : ModuleInst) (st : St) (i : Inst) (hi : numericAll Q i = true) : @plain A mod st i = @plain B mod st i := by
  cases i
  case num op =>
    show (match A.sem op st.vs with | .ok s => Plain.ok { st with vs := s } | .trap => .trap | .stuck => .stuck) =
      (match B.sem op st.vs with | .ok s => Plain.ok { st with vs := s } | .trap => .trap | .stuck => .stuck)
    rw [hQ op (by simpa only [numericAll] using hi)]
  all_goals rfl

theorem inBlock_agree {X Y : St → Res} (h : ∀ st, NumericStore Q st.store → Same Q (X st) (Y st)) (n m : Nat) (st : St) (hs : NumericStore Q st.store) :
    Same Q (inBlock X n m st) (inBlock Y n m st) := by
  unfold inBlock
  split
  · exact ⟨rfl, trivial⟩
  · simp only
    obtain ⟨e, h'⟩ := h { st with vs := st.vs.take n } hs
    rw [e]
    refine ⟨rfl, ?_⟩
    generalize Y { st with vs := st.vs.take n } = r at h'
    cases r with
    | br k st' =>
      cases k with
      | zero => simp only; split; exacts [trivial, h']
      | succ k => exact h'
    | _ => exact h'

include hH in
theorem call_agree {X Y : Nat → ModuleInst → List Inst → St → Res}
    (h : ∀ d mod is st, NumericStore Q st.store → numericList Q is = true → Same Q (X d mod is st) (Y d mod is st))
    (c : Option ModuleInst) (d a : Nat) (st : St) (hs : NumericStore Q st.store) : Same Q (call H X c d a st) (call H Y c d a st) := by
  unfold call
  cases hf : st.store.func[a]? with
  | none => exact ⟨rfl, trivial⟩
  | some f =>
    cases f with
    | wasm t m code =>
      simp only
      split
      · exact ⟨rfl, trivial⟩
      split
      · exact ⟨rfl, hs⟩
      cases hm : st.store.mods[m]? with
      | none => exact ⟨rfl, trivial⟩
      | some mod =>
        simp only
        obtain ⟨e, hb⟩ := h (d + 1) mod code.expr ⟨st.store, (st.vs.take t.args.length).reverse ++
          code.locals.flatMap fun e => List.replicate e.1 (Val.zero e.2), []⟩ hs (hs a t m code hf)
        rw [e]
        refine ⟨rfl, ?_⟩
        generalize Y (d + 1) mod code.expr _ = r at hb
        cases r with
        | norm st' => simp only; split; exacts [hb, trivial]
        | br n st' =>
          cases n with
          | zero => simp only; split; exacts [trivial, hb]
          | succ n => trivial
        | ret st' => simp only; split; exacts [trivial, hb]
        | trap s => exact hb
        | stuck => trivial
        | timeout => trivial
    | host t n =>
      simp only
      refine ⟨rfl, ?_⟩
      split
      · trivial
      cases (List.mapM Val.intoAll (st.vs.take t.args.length).reverse : Except Err (List HVal)) with
      | error => exact hs
      | ok xs =>
        simp only
        have hh := hH n c xs st.store hs
        cases hx : H n c xs st.store with
        | error e s => exact hh.2 _ _ hx
        | ok ys s =>
          have hy := hh.1 _ _ hx
          simp only
          split
          · trivial
          split
          exacts [hy, hy]

include hQ hH in
theorem agree_all : ∀ f : Nat,
    (∀ d mod is st, NumericStore Q st.store → numericList Q is = true → Same Q (@run A H f d mod is st) (@run B H f d mod is st)) ∧
    (∀ d mod i st, NumericStore Q st.store → numericAll Q i = true → Same Q (@instr A H f d mod i st) (@instr B H f d mod i st)) ∧
    (∀ d mod is n st, NumericStore Q st.store → numericList Q is = true → Same Q (@iter A H f d mod is n st) (@iter B H f d mod is n st)) := by
  intro f
  induction f with
  | zero => exact ⟨fun _ _ _ _ _ _ => ⟨rfl, trivial⟩, fun _ _ _ _ _ _ => ⟨rfl, trivial⟩, fun _ _ _ _ _ _ _ => ⟨rfl, trivial⟩⟩
  | succ f ih =>
    obtain ⟨h1, h2, h3⟩ := ih
    refine ⟨fun d mod is st hs hi => ?_, fun d mod i st hs hi => ?_, fun d mod is n st hs hi => ?_⟩
    · cases is with
      | nil => exact ⟨rfl, hs⟩
      | cons i is =>
        rw [numericList, Bool.and_eq_true] at hi
        unfold run
        obtain ⟨e, h'⟩ := h2 d mod i st hs hi.1
        rw [e]
        generalize @instr B H f d mod i st = r at h'
        cases r with
        | norm st' => exact h1 _ _ _ _ h' hi.2
        | _ => exact ⟨rfl, h'⟩
    · have hp : Same Q (match @plain A mod st i with | .ok st' => .norm st' | .trap => .trap st.store | .stuck => .stuck)
          (match @plain B mod st i with | .ok st' => .norm st' | .trap => .trap st.store | .stuck => .stuck) := by
        rw [plain_agree hQ mod st i hi]
        refine ⟨rfl, ?_⟩
        cases hx : @plain B mod st i with
        | ok st' =>
          intro a t k code ha
          have := @plain_func B mod st st' i hx
          rw [this] at ha
          exact hs a t k code ha
        | trap => exact hs
        | stuck => trivial
      cases i
      case block bt body =>
        rw [numericAll] at hi
        unfold instr
        simp only
        split
        · exact ⟨rfl, trivial⟩
        · exact inBlock_agree (fun st hs => h1 _ _ _ st hs hi) _ _ _ hs
      case loop bt body =>
        rw [numericAll] at hi
        unfold instr
        simp only
        split
        · exact ⟨rfl, trivial⟩
        · exact inBlock_agree (fun st hs => h3 _ _ _ _ st hs hi) _ _ _ hs
      case ifThen bt a b =>
        rw [numericAll, Bool.and_eq_true] at hi
        unfold instr
        simp only
        split
        · exact inBlock_agree (fun st hs => h1 _ _ _ st hs (by split; exacts [hi.2, hi.1])) _ _ _ hs
        · exact ⟨rfl, trivial⟩
      case call a =>
        unfold instr
        simp only
        split
        · exact ⟨rfl, trivial⟩
        · exact call_agree hH h1 _ _ _ _ hs
      case callIndirect a b =>
        unfold instr
        simp only
        split
        · exact ⟨rfl, trivial⟩
        · exact ⟨rfl, hs⟩
        · exact call_agree hH h1 _ _ _ _ hs
      case br l => exact ⟨rfl, hs⟩
      case ret => exact ⟨rfl, hs⟩
      case brIf l =>
        refine ⟨rfl, ?_⟩
        unfold instr
        simp only
        split
        · split <;> exact hs
        · trivial
      case brTable ls l =>
        refine ⟨rfl, ?_⟩
        unfold instr
        simp only
        split
        · exact hs
        · trivial
      all_goals exact hp
    · unfold iter
      obtain ⟨e, h'⟩ := h1 d mod is st hs hi
      rw [e]
      generalize @run B H f d mod is st = r at h'
      cases r with
      | br k st' =>
        cases k with
        | zero =>
          simp only
          split
          · exact ⟨rfl, trivial⟩
          · exact h3 _ _ _ _ _ h' hi
        | succ k => exact ⟨rfl, h'⟩
      | _ => exact ⟨rfl, h'⟩

include hQ hH in
/-- **Semantics that agree on the instructions that occur** give the same outcome. -/
theorem invoke_agree (fuel a : Nat) (args : List Val) (s : Store) (hs : NumericStore Q s) :
    @invoke A H fuel a args s = @invoke B H fuel a args s := (call_agree hH (agree_all hQ hH fuel).1 _ _ _ _ hs).1

end

end Pywasm.Spec.Ref
