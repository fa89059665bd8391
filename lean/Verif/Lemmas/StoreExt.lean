import Verif.Lemmas.Wp
import Verif.Lemmas.Mem
import Verif.Spec.StoreExt

namespace Pywasm
open Spec M

variable {n : Nat} {s s' s'' : Store}

theorem Spec.ExtendsUpTo.refl (n : Nat) (s : Store) : ExtendsUpTo n s s where
  func _ _ h := h
  mods _ _ _ h := h
  mems _ x h := ⟨x, h, rfl, le_refl _, le_refl _, id⟩
  tabl _ x h := ⟨x, h, rfl, le_refl _, le_refl _, id⟩
  glob _ x h := ⟨x, h, rfl, fun _ => rfl⟩
  elem _ x h := ⟨x, h, rfl, .inl rfl⟩
  data _ _ h := h
  bufs _ _ h := .inl h
  newMem i y hi h := by rw [List.getElem?_eq_none hi] at h; cases h
  newTable i y hi h := by rw [List.getElem?_eq_none hi] at h; cases h

theorem Spec.ExtendsUpTo.trans (h1 : ExtendsUpTo n s s') (h2 : ExtendsUpTo n s' s'') : ExtendsUpTo n s s'' where
  func i f h := h2.func i f (h1.func i f h)
  mods i x hi h := h2.mods i x hi (h1.mods i x hi h)
  mems i x h := by
    obtain ⟨y, hy, a1, a2, a3, a4⟩ := h1.mems i x h
    obtain ⟨z, hz, b1, b2, b3, b4⟩ := h2.mems i y hy
    exact ⟨z, hz, b1.trans a1, a2.trans b2, a3.trans b3, b4 ∘ a4⟩
  tabl i x h := by
    obtain ⟨y, hy, a1, a2, a3, a4⟩ := h1.tabl i x h
    obtain ⟨z, hz, b1, b2, b3, b4⟩ := h2.tabl i y hy
    exact ⟨z, hz, b1.trans a1, a2.trans b2, a3.trans b3, b4 ∘ a4⟩
  glob i x h := by
    obtain ⟨y, hy, a1, a2⟩ := h1.glob i x h
    obtain ⟨z, hz, b1, b2⟩ := h2.glob i y hy
    exact ⟨z, hz, b1.trans a1, fun hx => (b2 (a1.trans hx)).trans (a2 hx)⟩
  elem i x h := by
    obtain ⟨y, hy, a1, a2⟩ := h1.elem i x h
    obtain ⟨z, hz, b1, b2⟩ := h2.elem i y hy
    refine ⟨z, hz, b1.trans a1, ?_⟩
    rcases b2 with rfl | b2
    · exact a2
    · exact .inr b2
  data i x h := h2.data i x (h1.data i x h)
  bufs i x h := by
    rcases h1.bufs i x h with h | h
    · exact h2.bufs i x h
    · rcases h2.bufs i [] h with h | h <;> exact .inr h
  newMem i y hi h := by
    by_cases hi' : s'.mems.length ≤ i
    · exact h2.newMem i y hi' h
    · obtain ⟨x, hx⟩ : ∃ x, s'.mems[i]? = some x := ⟨_, List.getElem?_eq_getElem (by omega)⟩
      obtain ⟨z, hz, _, _, _, b4⟩ := h2.mems i x hx
      rw [h] at hz; cases hz
      exact b4 (h1.newMem i x hi hx)
  newTable i y hi h := by
    by_cases hi' : s'.tabl.length ≤ i
    · exact h2.newTable i y hi' h
    · obtain ⟨x, hx⟩ : ∃ x, s'.tabl[i]? = some x := ⟨_, List.getElem?_eq_getElem (by omega)⟩
      obtain ⟨z, hz, _, _, _, b4⟩ := h2.tabl i x hx
      rw [h] at hz; cases hz
      exact b4 (h1.newTable i x hi hx)

theorem set_getElem? {α} {l : List α} {a i : Nat} {x y z : α} (hz : l[a]? = some z) (h : l[i]? = some x) :
    (i = a ∧ x = z ∧ (l.set a y)[i]? = some y) ∨ (i ≠ a ∧ (l.set a y)[i]? = some x) := by
  by_cases hi : i = a
  · subst hi
    left
    rw [h] at hz; cases hz
    exact ⟨rfl, rfl, by simp [(List.getElem?_eq_some_iff.mp h).1]⟩
  · right
    exact ⟨hi, by rw [List.getElem?_set_ne (Ne.symm hi)]; exact h⟩

/-- Writing inside a memory. -/
theorem Spec.ExtendsUpTo.setMem {a : Nat} {x y : MemInst} (h : s.mems[a]? = some x) (h1 : y.limits = x.limits)
    (h2 : x.size ≤ y.size) (h3 : x.data.length ≤ y.data.length) (h4 : MemOk x → MemOk y) :
    ExtendsUpTo n s { s with mems := s.mems.set a y } :=
  { ExtendsUpTo.refl n s with
    mems := fun i z hz => by
      rcases set_getElem? (y := y) h hz with ⟨rfl, rfl, e⟩ | ⟨_, e⟩
      · exact ⟨y, e, h1, h2, h3, h4⟩
      · exact ⟨z, e, rfl, le_refl _, le_refl _, id⟩
    newMem := fun i y hi h => by rw [List.getElem?_eq_none (by simpa using hi)] at h; cases h }

theorem Spec.ExtendsUpTo.setTable {a : Nat} {x y : TableInst} (h : s.tabl[a]? = some x) (h1 : y.type = x.type)
    (h2 : x.size ≤ y.size) (h3 : x.elem.length ≤ y.elem.length) (h4 : TableOk x → TableOk y) :
    ExtendsUpTo n s { s with tabl := s.tabl.set a y } :=
  { ExtendsUpTo.refl n s with
    tabl := fun i z hz => by
      rcases set_getElem? (y := y) h hz with ⟨rfl, rfl, e⟩ | ⟨_, e⟩
      · exact ⟨y, e, h1, h2, h3, h4⟩
      · exact ⟨z, e, rfl, le_refl _, le_refl _, id⟩
    newTable := fun i y hi h => by rw [List.getElem?_eq_none (by simpa using hi)] at h; cases h }

theorem Spec.ExtendsUpTo.setGlobal {a : Nat} {x : GlobalInst} (v : Val) (h : s.glob[a]? = some x) (hm : x.isMut = true) :
    ExtendsUpTo n s { s with glob := s.glob.set a { x with data := v } } :=
  { ExtendsUpTo.refl n s with
    glob := fun i z hz => by
      rcases set_getElem? (y := { x with data := v }) h hz with ⟨rfl, rfl, e⟩ | ⟨_, e⟩
      · exact ⟨_, e, rfl, fun h' => by rw [hm] at h'; cases h'⟩
      · exact ⟨z, e, rfl, fun _ => rfl⟩ }

theorem Spec.ExtendsUpTo.dropElem {a : Nat} {x : ElemInst} (h : s.elem[a]? = some x) :
    ExtendsUpTo n s { s with elem := s.elem.set a { x with data := [] } } :=
  { ExtendsUpTo.refl n s with
    elem := fun i z hz => by
      rcases set_getElem? (y := { x with data := [] }) h hz with ⟨rfl, rfl, e⟩ | ⟨_, e⟩
      · exact ⟨_, e, rfl, .inr rfl⟩
      · exact ⟨z, e, rfl, .inl rfl⟩ }

theorem Spec.ExtendsUpTo.dropData (a : Nat) : ExtendsUpTo n s { s with bufs := s.bufs.set a [] } :=
  { ExtendsUpTo.refl n s with
    bufs := fun i z hz => by
      by_cases hi : i = a
      · subst hi
        right; simp [(List.getElem?_eq_some_iff.mp hz).1]
      · left; rw [List.getElem?_set_ne (Ne.symm hi)]; exact hz }

/-- Overwriting bytes of a memory in place. -/
theorem Spec.ExtendsUpTo.memData {a : Nat} {x : MemInst} {d : Bytes} (h : s.mems[a]? = some x) (hd : d.length = x.data.length) :
    ExtendsUpTo n s { s with mems := s.mems.set a { x with data := d } } :=
  .setMem h rfl (le_refl _) (by simp [hd]) (fun hx => by simpa [MemOk, hd] using hx)
theorem Spec.ExtendsUpTo.tableElem {a : Nat} {x : TableInst} {d : List Val} (h : s.tabl[a]? = some x)
    (hd : d.length = x.elem.length) : ExtendsUpTo n s { s with tabl := s.tabl.set a { x with elem := d } } :=
  .setTable h rfl (le_refl _) (by simp [hd]) (fun hx => by simpa [TableOk, hd] using hx)

theorem MemInst.grow_ok {x y : MemInst} {k : Nat} (h : x.grow k = .ok y) :
    y = { x with data := x.data ++ Py.zeros (k * pageSize), size := x.size + k } ∧ x.size + k ≤ 65536 ∧
      (x.limits.m ≠ 0 → x.size + k ≤ x.limits.m) := by
  unfold MemInst.grow at h
  by_cases h1 : x.size + k ≤ 65536
  · by_cases h0 : x.limits.m = 0
    · simp [h0, h1, Py.assert, bind, Except.bind, pure, Except.pure] at h
      exact ⟨h.symm, h1, fun h' => absurd h0 h'⟩
    · by_cases h2 : x.size + k ≤ x.limits.m
      · simp [h0, h1, h2, Py.assert, bind, Except.bind, pure, Except.pure] at h
        exact ⟨h.symm, h1, fun _ => h2⟩
      · simp [h0, h1, h2, Py.assert, bind, Except.bind] at h
  · by_cases h0 : x.limits.m = 0
    · simp [h0, h1, Py.assert, bind, Except.bind] at h
    · by_cases h2 : x.size + k ≤ x.limits.m
      · simp [h0, h1, h2, Py.assert, bind, Except.bind] at h
      · simp [h0, h2, Py.assert, bind, Except.bind] at h

theorem TableInst.grow_ok {x y : TableInst} {k : Nat} {v : Val} (h : x.grow k v = .ok y) :
    y = { x with elem := x.elem ++ List.replicate k v, size := x.size + k } ∧
      (x.type.limits.m ≠ 0 → x.size + k ≤ x.type.limits.m) := by
  unfold TableInst.grow at h
  by_cases h1 : v.ty = x.type.type
  · by_cases h0 : x.type.limits.m = 0
    · simp [h0, h1, Py.assert, bind, Except.bind, pure, Except.pure] at h
      exact ⟨h.symm, fun h' => absurd h0 h'⟩
    · by_cases h2 : x.size + k ≤ x.type.limits.m
      · simp [h0, h1, h2, Py.assert, bind, Except.bind, pure, Except.pure] at h
        exact ⟨h.symm, fun _ => h2⟩
      · simp [h0, h2, Py.assert, bind, Except.bind] at h
  · by_cases h0 : x.type.limits.m = 0
    · simp [h0, h1, Py.assert, bind, Except.bind] at h
    · by_cases h2 : x.size + k ≤ x.type.limits.m
      · simp [h0, h1, h2, Py.assert, bind, Except.bind] at h
      · simp [h0, h2, Py.assert, bind, Except.bind] at h

theorem Spec.ExtendsUpTo.memGrow {a : Nat} {x y : MemInst} {k : Nat} (h : s.mems[a]? = some x) (hg : x.grow k = .ok y) :
    ExtendsUpTo n s { s with mems := s.mems.set a y } := by
  obtain ⟨rfl, h1, h2⟩ := MemInst.grow_ok hg
  refine .setMem h rfl (by simp) (by simp) (fun hx => ⟨?_, h1, h2⟩)
  have := hx.1
  simp [Py.zeros, pageSize, this]; omega
theorem Spec.ExtendsUpTo.tableGrow {a : Nat} {x y : TableInst} {k : Nat} {v : Val} (h : s.tabl[a]? = some x)
    (hg : x.grow k v = .ok y) : ExtendsUpTo n s { s with tabl := s.tabl.set a y } := by
  obtain ⟨rfl, h2⟩ := TableInst.grow_ok hg
  refine .setTable h rfl (by simp) (by simp) (fun hx => ⟨?_, h2⟩)
  have := hx.1
  simp [this]

theorem Py.sliceSet_length {α} {l new : List α} {p k : Nat} (hn : new.length = k) (h : p + k ≤ l.length) :
    (Py.sliceSet l p (p + k : Nat) new).length = l.length := by
  rw [Py.sliceSet_nat _ _ _ _ hn h, Py.patch_length]
theorem Py.slice_length {α} {l : List α} {p k : Nat} (h : p + k ≤ l.length) : (Py.slice l p (p + k : Nat)).length = k := by
  rw [Py.slice_nat _ _ _ h, Py.range_length _ _ _ h]
theorem foldl_set_length {α} (x : α) (l : List α) (d k : Nat) :
    ((List.range k).foldl (fun l i => l.set (d + i) x) l).length = l.length := by
  induction k with
  | zero => rfl
  | succ k ih => rw [List.range_succ, List.foldl_append]; simp [ih]

theorem append_getElem? {α} {l : List α} {i : Nat} {x : α} (r : List α) (h : l[i]? = some x) : (l ++ r)[i]? = some x := by
  rw [List.getElem?_append_left (List.getElem?_eq_some_iff.mp h).1, h]

/-! Allocation only appends. -/
theorem Spec.ExtendsUpTo.addFunc (f : List FuncInst) : ExtendsUpTo n s { s with func := s.func ++ f } :=
  { ExtendsUpTo.refl n s with func := fun _ _ h => append_getElem? _ h }
theorem Spec.ExtendsUpTo.addMod (f : List ModuleInst) : ExtendsUpTo n s { s with mods := s.mods ++ f } :=
  { ExtendsUpTo.refl n s with mods := fun _ _ _ h => append_getElem? _ h }
theorem Spec.ExtendsUpTo.editMod {k : Nat} (hk : n ≤ k) (f : ModuleInst → ModuleInst) :
    ExtendsUpTo n s { s with mods := s.mods.modify k f } :=
  { ExtendsUpTo.refl n s with
    mods := fun i x hi h => by
      rw [show ({ s with mods := s.mods.modify k f } : Store).mods[i]? = (s.mods.modify k f)[i]? from rfl,
        List.getElem?_modify, h]
      simp [show k ≠ i by omega] }
theorem Spec.ExtendsUpTo.addGlob (f : List GlobalInst) : ExtendsUpTo n s { s with glob := s.glob ++ f } :=
  { ExtendsUpTo.refl n s with glob := fun _ x h => ⟨x, append_getElem? _ h, rfl, fun _ => rfl⟩ }
theorem Spec.ExtendsUpTo.addElem (f : List ElemInst) : ExtendsUpTo n s { s with elem := s.elem ++ f } :=
  { ExtendsUpTo.refl n s with elem := fun _ x h => ⟨x, append_getElem? _ h, rfl, .inl rfl⟩ }
theorem Spec.ExtendsUpTo.addData (f : List Nat) : ExtendsUpTo n s { s with data := s.data ++ f } :=
  { ExtendsUpTo.refl n s with data := fun _ _ h => append_getElem? _ h }
theorem Spec.ExtendsUpTo.addBufs (f : List Bytes) : ExtendsUpTo n s { s with bufs := s.bufs ++ f } :=
  { ExtendsUpTo.refl n s with bufs := fun _ _ h => .inl (append_getElem? _ h) }
theorem MemInst.make_ok {l : Limits} {x : MemInst} (h : MemInst.make l = .ok x) :
    x.limits = l ∧ x.size = l.n ∧ x.data = Py.zeros (65536 * l.n) ∧ MemOk x := by
  obtain ⟨rfl, h1, h2⟩ := MemInst.grow_ok h
  refine ⟨rfl, by simp, by simp [pageSize, Nat.mul_comm], ?_, by simpa using h1, by simpa using h2⟩
  simp [pageSize, Py.zeros, Nat.mul_comm]
theorem TableInst.make_ok {l : TableType} {x : TableInst} (h : TableInst.make l = .ok x) :
    x.type = l ∧ x.elem = List.replicate l.limits.n (Val.zero l.type) ∧ TableOk x := by
  obtain ⟨rfl, h2⟩ := TableInst.grow_ok h
  exact ⟨rfl, by simp, by simp, by simpa using h2⟩
theorem Spec.ExtendsUpTo.addMem {l : Limits} {x : MemInst} (h : MemInst.make l = .ok x) :
    ExtendsUpTo n s { s with mems := s.mems ++ [x] } :=
  { ExtendsUpTo.refl n s with
    mems := fun _ x h => ⟨x, append_getElem? _ h, rfl, le_refl _, le_refl _, id⟩
    newMem := fun i y hi h' => by
      rw [List.getElem?_append_right hi] at h'
      obtain rfl := List.mem_singleton.mp (List.mem_of_getElem? h')
      exact (MemInst.make_ok h).2.2.2 }
theorem Spec.ExtendsUpTo.addTable {l : TableType} {x : TableInst} (h : TableInst.make l = .ok x) :
    ExtendsUpTo n s { s with tabl := s.tabl ++ [x] } :=
  { ExtendsUpTo.refl n s with
    tabl := fun _ x h => ⟨x, append_getElem? _ h, rfl, le_refl _, le_refl _, id⟩
    newTable := fun i y hi h' => by
      rw [List.getElem?_append_right hi] at h'
      obtain rfl := List.mem_singleton.mp (List.mem_of_getElem? h')
      exact (TableInst.make_ok h).2.2 }

end Pywasm
