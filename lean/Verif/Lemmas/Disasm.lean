import Verif.Model.Disasm
import Verif.Spec.Accepted

/-!
# When the listing of a function can be made
-/

namespace Pywasm
open Spec.Bin

/-- the numbers can be written -/
def smallNums (l : List Int) : Bool := l.all fun n => decide (n.natAbs < long)

theorem digitLimit_eq : Py.digitLimit = long := by unfold Py.digitLimit long; rfl

/-- what succeeds when `c` and raises `ValueError` otherwise -/
def OkIff {α} (x : Except Err α) (c : Bool) : Prop := if c then ∃ a, x = .ok a else x = .error .value

theorem okIff_int (n : Int) : OkIff (Py.reprInt n) (smallNums [n]) := by
  unfold OkIff smallNums Py.reprInt
  rw [digitLimit_eq]
  by_cases h : n.natAbs < long <;> simp [h]

theorem OkIff.pair {α β γ} {x : Except Err α} {y : Except Err β} {f : α → β → γ} {c d : Bool} (hx : OkIff x c) (hy : OkIff y d) :
    OkIff (do let a ← x; let b ← y; return f a b) (c && d) := by
  unfold OkIff at *
  cases c with
  | false => simp only [Bool.false_eq_true, if_false, Bool.false_and] at *; rw [hx]; rfl
  | true =>
    simp only [if_true, Bool.true_and] at *
    obtain ⟨a, rfl⟩ := hx
    cases d with
    | false => simp only [Bool.false_eq_true, if_false] at *; rw [hy]; rfl
    | true => simp only [if_true] at *; obtain ⟨b, rfl⟩ := hy; exact ⟨_, rfl⟩

theorem OkIff.map {α β} {x : Except Err α} {f : α → β} {c : Bool} (hx : OkIff x c) : OkIff (do let a ← x; return f a) c := by
  unfold OkIff at *
  cases c with
  | false => simp only [Bool.false_eq_true, if_false] at *; rw [hx]; rfl
  | true => simp only [if_true] at *; obtain ⟨a, rfl⟩ := hx; exact ⟨_, rfl⟩

theorem okIff_mapM {α β} {f : α → Except Err β} {g : α → Bool} (h : ∀ a, OkIff (f a) (g a)) (l : List α) :
    OkIff (l.mapM f) (l.all g) := by
  induction l with
  | nil => exact ⟨[], rfl⟩
  | cons a l ih => rw [List.mapM_cons, List.all_cons]; exact (h a).pair ih

/-- the numbers in an immediate -/
def Imm.nums : Imm → List Int
  | .int n => [n]
  | .ints l => l.map fun n : Nat => (n : Int)
  | .bytes _ => []
  | .type (.idx i) => [i]
  | .type _ => []

theorem okIff_imm (x : Imm) : OkIff x.repr (smallNums x.nums) := by
  cases x with
  | int n => exact okIff_int n
  | ints l =>
    have := okIff_mapM (f := fun n : Nat => Py.reprInt n) (fun n : Nat => okIff_int (n : Int)) l
    have e : (l.all fun n : Nat => smallNums [(n : Int)]) = smallNums (Imm.ints l).nums := by
      simp [smallNums, Imm.nums, List.all_map, Function.comp_def]
    rw [← e]; exact this.map
  | bytes b => exact ⟨_, rfl⟩
  | type bt => cases bt with
    | empty => exact ⟨_, rfl⟩
    | val t => exact ⟨_, rfl⟩
    | idx i => exact okIff_int i

theorem numbers_imms (i : Inst) : numbers i = i.imms.flatMap Imm.nums := by
  cases i with
  | block bt b => cases bt <;> rfl
  | loop bt b => cases bt <;> rfl
  | ifThen bt a b => cases bt <;> rfl
  | num op => cases op with
    | shuffle l => simp [numbers, Inst.imms, Imm.nums, List.flatMap_map, ← List.map_eq_flatMap]
    | _ => rfl
  | brTable l d => rfl
  | selectType l => simp [numbers, Inst.imms, Imm.nums]
  | _ => rfl

theorem okIff_single (i : Inst) : OkIff i.single (smallNums (numbers i)) := by
  have h := okIff_mapM okIff_imm i.imms
  have e : (i.imms.all fun x => smallNums x.nums) = smallNums (numbers i) := by
    rw [numbers_imms]; simp only [smallNums, List.all_flatMap]
  rw [← e]
  exact h.map

theorem okIff_disasm1 (lvl : Int) (k : Nat) (i : Inst) : OkIff (i.disasm1 lvl k).2 (smallNums (numbers i)) := by
  have h := okIff_single i
  unfold Inst.disasm1 OkIff at *
  cases hb : smallNums (numbers i) <;> rw [hb] at h
  · simp only [Bool.false_eq_true, if_false] at h ⊢; rw [h]
  · simp only [if_true] at h ⊢; obtain ⟨s, hs⟩ := h; rw [hs]; exact ⟨_, rfl⟩

theorem OkIff.bind {α β} {x : Log α} {f : α → Log β} {c d : Bool} (hx : OkIff x.2 c) (hf : ∀ a, OkIff (f a).2 d) :
    OkIff (Log.bind x f).2 (c && d) := by
  obtain ⟨l, x⟩ := x
  unfold OkIff at *
  cases c with
  | false => simp only [Bool.false_eq_true, if_false, Bool.false_and] at *; subst hx; rfl
  | true =>
    simp only [if_true, Bool.true_and] at *
    obtain ⟨a, rfl⟩ := hx
    exact hf a

mutual
theorem okIff_inst (lvl : Int) (k : Nat) (i : Inst) : OkIff (i.disasm lvl k).2 (listableI i) := by
  cases i with
  | block bt b => rw [Inst.disasm, listableI]; exact (okIff_disasm1 lvl k _).bind fun _ => okIff_disasm lvl (k + 4) b
  | loop bt b => rw [Inst.disasm, listableI]; exact (okIff_disasm1 lvl k _).bind fun _ => okIff_disasm lvl (k + 4) b
  | ifThen bt a b => rw [Inst.disasm, listableI]; exact (okIff_disasm1 lvl k _).bind fun _ => okIff_disasm lvl (k + 4) a
  | _ => rw [Inst.disasm, listableI] <;> first | exact okIff_disasm1 lvl k _ | (intros; exact Inst.noConfusion ‹_›)
theorem okIff_disasm (lvl : Int) (k : Nat) (e : List Inst) : OkIff (Expr.disasm lvl k e).2 (listable e) := by
  cases e with
  | nil => rw [Expr.disasm, listable]; exact ⟨_, rfl⟩
  | cons i is => rw [Expr.disasm, listable]; exact (okIff_inst lvl k i).bind fun _ => okIff_disasm lvl k is
end

theorem disasm_ok_iff {lvl : Int} {k : Nat} {e : List Inst} : (Expr.disasm lvl k e).2 = .ok () ↔ listable e = true := by
  have h := okIff_disasm lvl k e
  unfold OkIff at h
  cases hb : listable e <;> rw [hb] at h
  · simp only [Bool.false_eq_true, if_false] at h; rw [h]; simp
  · simp only [if_true] at h; obtain ⟨⟨⟩, ha⟩ := h; rw [ha]; simp

set_option exponentiation.threshold 5000 in
theorem small_of_range {l : List Int} (h : (l.all fun n => decide (n.natAbs < 2 ^ 64)) = true) : smallNums l = true := by
  unfold smallNums
  rw [List.all_eq_true] at *
  intro n hn
  have := of_decide_eq_true (h n hn)
  have h64 : (2 : Nat) ^ 64 < long := by
    unfold long
    exact Nat.lt_of_lt_of_le (m := 10 ^ 64) (by decide) (Nat.pow_le_pow_right (by decide) (by decide))
  exact decide_eq_true (Nat.lt_trans this h64)

mutual
theorem listable_of_rangeI {i : Inst} (h : inRangeI i = true) : listableI i = true := by
  cases i with
  | block bt b =>
    rw [inRangeI, Bool.and_eq_true] at h; rw [listableI, Bool.and_eq_true]
    exact ⟨small_of_range h.1, listable_of_range h.2⟩
  | loop bt b =>
    rw [inRangeI, Bool.and_eq_true] at h; rw [listableI, Bool.and_eq_true]
    exact ⟨small_of_range h.1, listable_of_range h.2⟩
  | ifThen bt a b =>
    rw [inRangeI, Bool.and_eq_true, Bool.and_eq_true] at h; rw [listableI, Bool.and_eq_true]
    exact ⟨small_of_range h.1.1, listable_of_range h.1.2⟩
  | _ =>
    rw [inRangeI] at h <;> first
      | (rw [listableI] <;> first | exact small_of_range h | (intros; exact Inst.noConfusion ‹_›))
      | (intros; exact Inst.noConfusion ‹_›)
theorem listable_of_range {e : List Inst} (h : inRange e = true) : listable e = true := by
  cases e with
  | nil => rfl
  | cons i is =>
    rw [inRange, Bool.and_eq_true] at h; rw [listable, Bool.and_eq_true]
    exact ⟨listable_of_rangeI h.1, listable_of_range h.2⟩
end

end Pywasm
