import Verif.Lemmas.Step
import Verif.Props.Grow
import Verif.Spec.Demo

/-!
# C14: table instructions

As in `Props/Memory.lean`: one interpreter step on an arbitrary machine.  `t` is the table with index `i` of the running
module and `a` its store address.
-/

namespace Pywasm.Props
open Spec M

variable {H : Host} {m : Machine} {i a : Nat} {t : TableInst}

/-- **C14** `table.get` pushes the entry, or traps exactly when the index is out of bounds. -/
theorem C14_table_get {v : Val} {s : List Val} (hi : next m = some (.tableGet i)) (ht : HasTable m i a t)
    (hv : m.value = v :: s) :
    (∀ r, t.elem[v.low32.toNat]? = some r → step H m = .ok () { advance m with value := r :: s }) ∧
    (t.elem.length ≤ v.low32.toNat → Traps H m) := by
  obtain ⟨lab, ls, f, fs, hl, hf, hs, ha⟩ := step_next (H := H) hi
  obtain ⟨h1, h2⟩ := ht.frame hf
  have hv' : (advance m).value = v :: s := by simpa using hv
  refine ⟨fun r hr => ?_, fun hb => ?_⟩
  · rw [hs]; simp only [exec]
    rw [bind_theTable h1 h2]; simp only
    rw [bind_popU32 hv', bind_idx_some hr]; rfl
  · refine ⟨.index, { advance m with value := s }, ?_, by simp⟩
    rw [hs]; simp only [exec]
    rw [bind_theTable h1 h2]; simp only
    rw [bind_popU32 hv', bind_idx_none (List.getElem?_eq_none hb)]

example : stackAfter (demo [.tableGet 0] [i32 0]) = some [ref0] := by decide
example : stackAfter (demo [.tableGet 0] [i32 3]) = none := by decide

/-- **C14** `table.set` of a reference of the table's type replaces exactly that entry, or traps exactly when the index is
out of bounds, changing nothing. -/
theorem C14_table_set {r v : Val} {s : List Val} (hi : next m = some (.tableSet i)) (ht : HasTable m i a t)
    (hv : m.value = r :: v :: s) (hty : r.ty = t.type.type) :
    (v.low32.toNat < t.elem.length → step H m = .ok () (withTable { advance m with value := s } a
      { t with elem := t.elem.set v.low32.toNat r })) ∧
    (t.elem.length ≤ v.low32.toNat → Traps H m) := by
  obtain ⟨lab, ls, f, fs, hl, hf, hs, ha⟩ := step_next (H := H) hi
  obtain ⟨h1, h2⟩ := ht.frame hf
  have hv' : (advance m).value = r :: v :: s := by simpa using hv
  refine ⟨fun hb => ?_, fun hb => ?_⟩
  · rw [hs]; simp only [exec]
    rw [bind_theTable h1 h2]; simp only
    have : Py.setItem t.elem (v.low32.toNat : Int) r = .ok (t.elem.set v.low32.toNat r) :=
      Py.setItem_ok _ hb
    rw [bind_pop hv', bind_assert_pos hty, bind_popU32 rfl, this, bind_lift_ok]; rfl
  · refine ⟨.index, { advance m with value := s }, ?_, by simp⟩
    rw [hs]; simp only [exec]
    rw [bind_theTable h1 h2]; simp only
    have : Py.setItem t.elem (v.low32.toNat : Int) r = .error .index :=
      Py.setItem_err _ hb
    rw [bind_pop hv', bind_assert_pos hty, bind_popU32 rfl, this, bind_lift_err]

example : tableAfter (demo [.tableSet 0] [ref0, i32 2]) = some [ref0, refNull, ref0] := by decide

/-- **C14** `table.size` pushes the size. -/
theorem C14_table_size (hi : next m = some (.tableSize i)) (ht : HasTable m i a t) (hsz : t.size < 2 ^ 31) :
    step H m = .ok () { advance m with value := i32 (BitVec.ofNat 32 t.size) :: m.value } := by
  obtain ⟨lab, ls, f, fs, hl, hf, hs, ha⟩ := step_next (H := H) hi
  obtain ⟨h1, h2⟩ := ht.frame hf
  rw [hs]; simp only [exec]
  rw [bind_theTable h1 h2]; simp only
  rw [fromI32_nat hsz, bind_lift_ok, push_eq, advance_value]

/-- **C14** `table.grow` by `n` entries with a reference `r` of the table's type never raises: when the new size is at most
1024 and within the recorded maximum (0 stands for none) it pushes the old size and appends `n` copies of `r`; otherwise
it pushes -1 and changes nothing. -/
theorem C14_table_grow {v r : Val} {s : List Val} (hi : next m = some (.tableGrow i)) (ht : HasTable m i a t)
    (hv : m.value = v :: r :: s) (hty : r.ty = t.type.type) :
    let n := v.low32.toNat
    let fits := t.size + n ≤ 1024 ∧ (t.type.limits.m ≠ 0 → t.size + n ≤ t.type.limits.m)
    (fits → step H m = .ok () (withTable { advance m with value := i32 (BitVec.ofNat 32 t.size) :: s } a
        { t with elem := t.elem ++ List.replicate n r, size := t.size + n })) ∧
    (¬ fits → step H m = .ok () { advance m with value := i32 (-1) :: s }) := by
  obtain ⟨lab, ls, f, fs, hl, hf, hs, ha⟩ := step_next (H := H) hi
  obtain ⟨h1, h2⟩ := ht.frame hf
  have hv' : (advance m).value = v :: r :: s := by simpa using hv
  intro n fits
  have hiff : fits ↔ t.size + v.low32.toNat ≤ 1024 ∧
      (t.type.limits.m = 0 ∨ t.size + v.low32.toNat ≤ t.type.limits.m) := by
    show (_ ∧ (_ → _)) ↔ _
    rw [← or_iff_not_imp_left]
  refine ⟨fun hc => ?_, fun hc => ?_⟩
  · rw [hs]; simp only [exec]
    rw [bind_theTable h1 h2]; simp only
    rw [bind_popU32 hv', bind_pop rfl, if_pos (hiff.mp hc)]
    have hg : t.grow v.low32.toNat r =
        .ok { t with elem := t.elem ++ List.replicate n r, size := t.size + n } := by
      unfold TableInst.grow
      rw [decide_eq_true hty]
      by_cases h0 : t.type.limits.m = 0
      · rw [if_neg (by simp [h0])]; rfl
      · rw [if_pos h0, decide_eq_true (hc.2 h0)]; rfl
    have h3 := hc.1
    rw [hg, bind_lift_ok, bind_ok (setTable_run _ _ _), fromI32_nat (by omega), bind_lift_ok]; rfl
  · rw [hs]; simp only [exec]
    rw [bind_theTable h1 h2]; simp only
    rw [bind_popU32 hv', bind_pop rfl, if_neg (fun h => hc (hiff.mpr h)), fromI32_of_range (by decide), bind_lift_ok]; rfl

example : tableAfter (demo [.tableGrow 0] [i32 2, ref0]) = some [ref0, refNull, refNull, ref0, ref0] := by decide
example : stackAfter (demo [.tableGrow 0] [i32 3, ref0]) = some [i32 (-1)] := by decide

/-- **C14** `table.fill` of `n` entries at `d`. -/
theorem C14_table_fill {n r d : Val} {st : List Val} (hi : next m = some (.tableFill i)) (ht : HasTable m i a t)
    (hv : m.value = n :: r :: d :: st) :
    let n := n.low32.toNat; let d := d.low32.toNat
    (d + n ≤ t.elem.length →
      step H m = .ok () (withTable { advance m with value := st } a
        { t with elem := patch t.elem d (List.replicate n r) })) ∧
    (t.elem.length < d + n → Traps H m) := by
  obtain ⟨lab, ls, f, fs, hl, hf, hs, ha⟩ := step_next (H := H) hi
  obtain ⟨h1, h2⟩ := ht.frame hf
  have hv' : (advance m).value = n :: r :: d :: st := by simpa using hv
  refine ⟨fun hb => ?_, fun hb => ?_⟩
  · rw [hs]; simp only [exec]
    rw [bind_theTable h1 h2]; simp only
    rw [bind_popU32 hv', bind_pop rfl, bind_popU32 rfl, bind_assert_pos hb, Py.patch_fill _ _ _ _ hb]; rfl
  · refine ⟨.assertion, { advance m with value := st }, ?_, by simp⟩
    rw [hs]; simp only [exec]
    rw [bind_theTable h1 h2]; simp only
    rw [bind_popU32 hv', bind_pop rfl, bind_popU32 rfl, bind_assert_neg (by omega)]

example : tableAfter (demo [.tableFill 0] [i32 2, ref0, i32 1]) = some [ref0, ref0, ref0] := by decide

/-- **C14** `table.copy` from table `j` to table `i` (possibly the same table, overlapping or not) as if through a
buffer. -/
theorem C14_table_copy {j b : Nat} {u : TableInst} {n s d : Val} {st : List Val} (hi : next m = some (.tableCopy i j))
    (ht : HasTable m i a t) (hu : HasTable m j b u) (hv : m.value = n :: s :: d :: st) :
    let n := n.low32.toNat; let s := s.low32.toNat; let d := d.low32.toNat
    (s + n ≤ u.elem.length ∧ d + n ≤ t.elem.length →
      step H m = .ok () (withTable { advance m with value := st } a
        { t with elem := patch t.elem d (Spec.range u.elem s n) })) ∧
    (u.elem.length < s + n ∨ t.elem.length < d + n → Traps H m) := by
  obtain ⟨lab, ls, f, fs, hl, hf, hs, ha⟩ := step_next (H := H) hi
  obtain ⟨h1, h2⟩ := ht.frame hf
  obtain ⟨h3, h4⟩ := hu.frame hf
  have hv' : (advance m).value = n :: s :: d :: st := by simpa using hv
  refine ⟨fun hb => ?_, fun hb => ?_⟩
  · rw [hs]; simp only [exec]
    rw [bind_theTable h1 h2]; simp only
    rw [bind_theTable h3 h4]; simp only
    rw [bind_popU32 hv', bind_popU32 rfl, bind_popU32 rfl, bind_assert_pos hb.1, bind_assert_pos hb.2,
      Py.slice_nat _ _ _ hb.1, Py.sliceSet_nat _ _ _ _ (Py.range_length _ _ _ hb.1) hb.2]; rfl
  · refine ⟨.assertion, { advance m with value := st }, ?_, by simp⟩
    rw [hs]; simp only [exec]
    rw [bind_theTable h1 h2]; simp only
    rw [bind_theTable h3 h4]; simp only
    rw [bind_popU32 hv', bind_popU32 rfl, bind_popU32 rfl]
    by_cases h3 : s.low32.toNat + n.low32.toNat ≤ u.elem.length
    · rw [bind_assert_pos h3, bind_assert_neg (by omega)]
    · rw [bind_assert_neg h3]

example : tableAfter (demo [.tableCopy 0 0] [i32 2, i32 0, i32 1]) = some [ref0, ref0, refNull] := by decide

/-- **C14** `table.init` from element segment `k`. -/
theorem C14_table_init {k b : Nat} {e : ElemInst} {n s d : Val} {st : List Val} (hi : next m = some (.tableInit k i))
    (ht : HasTable m i a t) (he : HasElem m k b e) (hv : m.value = n :: s :: d :: st) :
    let n := n.low32.toNat; let s := s.low32.toNat; let d := d.low32.toNat
    (s + n ≤ e.data.length ∧ d + n ≤ t.elem.length →
      step H m = .ok () (withTable { advance m with value := st } a
        { t with elem := patch t.elem d (Spec.range e.data s n) })) ∧
    (e.data.length < s + n ∨ t.elem.length < d + n → Traps H m) := by
  obtain ⟨lab, ls, f, fs, hl, hf, hs, ha⟩ := step_next (H := H) hi
  obtain ⟨h1, h2⟩ := ht.frame hf
  obtain ⟨h3, h4⟩ := he.frame hf
  have hv' : (advance m).value = n :: s :: d :: st := by simpa using hv
  refine ⟨fun hb => ?_, fun hb => ?_⟩
  · rw [hs]; simp only [exec]
    rw [bind_theTable h1 h2]; simp only
    rw [bind_idx_some h3, bind_get_run, bind_idx_some h4]
    rw [bind_popU32 hv', bind_popU32 rfl, bind_popU32 rfl, bind_assert_pos hb.1, bind_assert_pos hb.2,
      Py.slice_nat _ _ _ hb.1, Py.sliceSet_nat _ _ _ _ (Py.range_length _ _ _ hb.1) hb.2]; rfl
  · refine ⟨.assertion, { advance m with value := st }, ?_, by simp⟩
    rw [hs]; simp only [exec]
    rw [bind_theTable h1 h2]; simp only
    rw [bind_idx_some h3, bind_get_run, bind_idx_some h4]
    rw [bind_popU32 hv', bind_popU32 rfl, bind_popU32 rfl]
    by_cases h3 : s.low32.toNat + n.low32.toNat ≤ e.data.length
    · rw [bind_assert_pos h3, bind_assert_neg (by omega)]
    · rw [bind_assert_neg h3]

example : tableAfter (demo [.tableInit 0 0] [i32 1, i32 1, i32 2]) = some [ref0, refNull, ref0] := by decide
example : tableAfter (demo [.tableInit 0 0] [i32 2, i32 1, i32 0]) = none := by decide

/-- **C14** `elem.drop` empties the segment and changes nothing else. -/
theorem C14_elem_drop {k b : Nat} {e : ElemInst} (hi : next m = some (.elemDrop k)) (he : HasElem m k b e) :
    ∃ m', step H m = .ok () m' ∧
      m' = { advance m with store := { m.store with elem := m.store.elem.set b { e with data := [] } } } ∧
      HasElem m' k b { e with data := [] } := by
  obtain ⟨lab, ls, f, fs, hl, hf, hs, ha⟩ := step_next (H := H) hi
  obtain ⟨h3, h4⟩ := he.frame hf
  refine ⟨_, ?_, rfl, ?_⟩
  · rw [hs]; simp only [exec]
    rw [bind_idx_some h3, bind_get_run, bind_idx_some h4, modify_run]; simp
  · obtain ⟨mod, e1, e2, e3⟩ := he
    have := (List.getElem?_eq_some_iff.mp e3).1
    exact ⟨mod, by simpa [curModule] using e1, e2, by simp [this]⟩

/-! ## The hypotheses are met -/

example := C14_table_get (H := noHost) (m := demo [.tableGet 0] [i32 1]) rfl (demo_table _ _) rfl
example := C14_table_set (H := noHost) (m := demo [.tableSet 0] [ref0, i32 1]) rfl (demo_table _ _) rfl rfl
example := C14_table_size (H := noHost) (m := demo [.tableSize 0] []) rfl (demo_table _ _) (by decide)
example := C14_table_grow (H := noHost) (m := demo [.tableGrow 0] [i32 2, ref0]) rfl (demo_table _ _) rfl rfl
example := C14_table_fill (H := noHost) (m := demo [.tableFill 0] [i32 2, ref0, i32 1]) rfl (demo_table _ _) rfl
example := C14_table_copy (H := noHost) (m := demo [.tableCopy 0 0] [i32 2, i32 0, i32 1]) rfl (demo_table _ _) (demo_table _ _) rfl
example := C14_table_init (H := noHost) (m := demo [.tableInit 0 0] [i32 2, i32 0, i32 1]) rfl (demo_table _ _) (demo_elem _ _) rfl
example := C14_elem_drop (H := noHost) (m := demo [.elemDrop 0] []) rfl (demo_elem _ _)

end Pywasm.Props
