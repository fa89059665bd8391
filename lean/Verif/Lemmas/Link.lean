import Verif.Spec.Link
import Verif.Lemmas.InstExt
import Verif.Lemmas.RefPlain
import Verif.Props.Control

namespace Pywasm
open Spec M Props

variable {H : Host} {m : Machine}

theorem suit_iff {a b : Limits} : a.suit b = true ↔ LimitsMatch a.n (maxOf a) b.n (maxOf b) := by
  unfold Limits.suit LimitsMatch maxOf
  simp only [Bool.and_eq_true, Bool.or_eq_true, decide_eq_true_eq]
  by_cases h1 : b.m = 0 <;> by_cases h2 : a.m = 0 <;> simp [h1, h2]

theorem M.assert_decide {p : Prop} [Decidable p] (m : Machine) :
    assert (decide p) m = if p then .ok () m else .error .assertion m := by
  by_cases h : p
  · rw [if_pos h, decide_eq_true h]; rfl
  · rw [if_neg h, decide_eq_false h]; rfl

theorem checkImport_run {d : ModuleDesc} {i : Import} {x : Extern} :
    (ImportMatches m.store d i.desc x → checkImport d i x m = .ok () m) ∧
    (¬ ImportMatches m.store d i.desc x → ∃ e, checkImport d i x m = .error e m) := by
  obtain ⟨_, _, desc⟩ := i
  unfold checkImport
  constructor
  · intro h
    simp only at h ⊢
    cases h with
    | func h1 h2 h3 =>
      simp only
      rw [bind_get_run, bind_idx_some h1, bind_idx_some h2, assert_decide, if_pos h3]
    | @table a y t h1 h2 h3 =>
      simp only
      rw [bind_get_run, bind_idx_some h1, bind_assert_pos h2,
        show y.suit t.limits = true from suit_iff.mpr (by simpa [maxOf] using h3)]; rfl
    | @mem a y l h1 h3 =>
      simp only
      rw [bind_get_run, bind_idx_some h1, show y.suit l = true from suit_iff.mpr (by simpa [maxOf] using h3)]; rfl
    | glob h1 h2 h3 =>
      simp only
      rw [bind_get_run, bind_idx_some h1, bind_assert_pos h2, assert_decide, if_pos h3]
  · intro h
    simp only at h ⊢
    cases desc with
    | func t => cases x with
      | func a =>
        simp only
        rw [bind_get_run]
        cases h1 : m.store.func[a]? with
        | none => exact ⟨_, bind_idx_none h1 _ _⟩
        | some f =>
          rw [bind_idx_some h1]
          cases h2 : d.type[t]? with
          | none => exact ⟨_, bind_idx_none h2 _ _⟩
          | some ft =>
            rw [bind_idx_some h2, assert_decide, if_neg (fun h3 => h (.func h1 h2 h3))]
            exact ⟨_, rfl⟩
      | _ => exact ⟨_, rfl⟩
    | table t => cases x with
      | table a =>
        simp only
        rw [bind_get_run]
        cases h1 : m.store.tabl[a]? with
        | none => exact ⟨_, bind_idx_none h1 _ _⟩
        | some y =>
          rw [bind_idx_some h1]
          by_cases h2 : y.type.type = t.type
          · rw [bind_assert_pos h2]
            cases h3 : y.suit t.limits with
            | false => exact ⟨_, rfl⟩
            | true => exact absurd (.table h1 h2 (by simpa [maxOf] using suit_iff.mp h3)) h
          · rw [bind_assert_neg h2]; exact ⟨_, rfl⟩
      | _ => exact ⟨_, rfl⟩
    | mem l => cases x with
      | mem a =>
        simp only
        rw [bind_get_run]
        cases h1 : m.store.mems[a]? with
        | none => exact ⟨_, bind_idx_none h1 _ _⟩
        | some y =>
          rw [bind_idx_some h1]
          cases h3 : y.suit l with
          | false => exact ⟨_, rfl⟩
          | true => exact absurd (.mem h1 (by simpa [maxOf] using suit_iff.mp h3)) h
      | _ => exact ⟨_, rfl⟩
    | glob t => cases x with
      | glob a =>
        simp only
        rw [bind_get_run]
        cases h1 : m.store.glob[a]? with
        | none => exact ⟨_, bind_idx_none h1 _ _⟩
        | some y =>
          rw [bind_idx_some h1]
          by_cases h2 : y.data.ty = t.type
          · rw [bind_assert_pos h2, assert_decide, if_neg (fun h3 => h (.glob h1 h2 h3))]
            exact ⟨_, rfl⟩
          · rw [bind_assert_neg h2]; exact ⟨_, rfl⟩
      | _ => exact ⟨_, rfl⟩

theorem linkImports_run {d : ModuleDesc} {extern : List Extern} :
    (Linked m.store d extern → linkImports d extern m = .ok () m) ∧
    (¬ Linked m.store d extern → ∃ e, linkImports d extern m = .error e m) := by
  unfold linkImports Linked
  by_cases hl : d.imps.length = extern.length
  · have key : ∀ (is : List Import) (xs : List Extern), is.length = xs.length →
        (List.Forall₂ (fun i x => ImportMatches m.store d i.desc x) is xs →
          (forIn (is.zip xs) PUnit.unit fun (p : Import × Extern) (_ : PUnit) =>
            (match p with | (a, b) => do checkImport d a b; pure (ForInStep.yield PUnit.unit) : M (ForInStep PUnit))) m =
              .ok PUnit.unit m) ∧
        (¬ List.Forall₂ (fun i x => ImportMatches m.store d i.desc x) is xs →
          ∃ e, (forIn (is.zip xs) PUnit.unit fun (p : Import × Extern) (_ : PUnit) =>
            (match p with | (a, b) => do checkImport d a b; pure (ForInStep.yield PUnit.unit) : M (ForInStep PUnit))) m =
              .error e m) := by
      intro is
      induction is with
      | nil =>
        intro xs hxs
        cases xs with
        | nil => exact ⟨fun _ => rfl, fun h => absurd .nil h⟩
        | cons _ _ => cases hxs
      | cons i is ih =>
        intro xs hxs
        cases xs with
        | nil => cases hxs
        | cons x xs =>
          simp only [List.length_cons, Nat.add_right_cancel_iff] at hxs
          rw [List.zip_cons_cons, List.forIn_cons, bind_assoc_run]
          constructor
          · intro h
            cases h with
            | cons h1 h2 =>
              rw [bind_ok (checkImport_run.1 h1), bind_pure_run]
              exact (ih xs hxs).1 h2
          · intro h
            by_cases h1 : ImportMatches m.store d i.desc x
            · rw [bind_ok (checkImport_run.1 h1), bind_pure_run]
              exact (ih xs hxs).2 (fun h2 => h (.cons h1 h2))
            · obtain ⟨e, he⟩ := checkImport_run.2 h1
              exact ⟨e, bind_err he⟩
    rw [bind_assert_pos hl]
    constructor
    · intro h
      rw [bind_ok ((key _ _ hl).1 h)]; rfl
    · intro h
      obtain ⟨e, he⟩ := (key _ _ hl).2 h
      exact ⟨e, bind_err he⟩
  · rw [bind_assert_neg hl]
    exact ⟨fun h => absurd h.length_eq hl, fun _ => ⟨_, rfl⟩⟩

section
variable {α β : Type} {E : Machine → Prop}

/-- Rules that tell the failing branch why it failed. -/
theorem wp_idx_or {l : List α} {i : Nat} {Q : α → Machine → Prop} (h : ∀ a, l[i]? = some a → Q a m) (hE : l[i]? = none → E m) :
    Wp (idx l i) Q E m := by
  unfold Wp
  cases hx : l[i]? with
  | none => rw [idx_none hx]; exact hE hx
  | some a => rw [idx_some hx]; exact h a hx
theorem wp_lift_or {e : Except Err α} {Q : α → Machine → Prop} (h : ∀ a, e = .ok a → Q a m) (hE : (¬ ∃ a, e = .ok a) → E m) :
    Wp (lift e) Q E m := by
  unfold Wp
  cases e with
  | ok a => exact h a rfl
  | error e => exact hE (by rintro ⟨_, h⟩; cases h)
theorem wp_assert_or {c : Bool} {Q : Unit → Machine → Prop} (h : c = true → Q () m) (hE : c ≠ true → E m) : Wp (assert c) Q E m := by
  unfold Wp
  cases c with
  | true => exact h rfl
  | false => exact hE Bool.noConfusion

/-- Loop invariants. -/
theorem wp_forIn {l : List α} {f : α → PUnit → M (ForInStep PUnit)} {Q : PUnit → Machine → Prop} (I : List α → Machine → Prop)
    (h0 : I [] m)
    (hf : ∀ pre a m, pre ++ [a] <+: l → I pre m → Wp (f a ⟨⟩) (fun r m' => r = .yield ⟨⟩ ∧ I (pre ++ [a]) m') E m)
    (hQ : ∀ m, I l m → Q ⟨⟩ m) : Wp (forIn l ⟨⟩ f) Q E m := by
  suffices key : ∀ post pre m, pre ++ post = l → I pre m → Wp (forIn post ⟨⟩ f) Q E m from key l [] m rfl h0
  intro post
  induction post with
  | nil =>
    intro pre m hl hI
    rw [List.forIn_nil]
    rw [List.append_nil] at hl
    exact wp_pure (hQ m (hl ▸ hI))
  | cons a post ih =>
    intro pre m hl hI
    rw [List.forIn_cons]
    apply wp_bind
    refine wp_mono (hf pre a m ⟨post, by rw [← hl]; simp⟩ hI) (fun r m' h => ?_) (fun _ h => h)
    obtain ⟨rfl, h⟩ := h
    exact ih _ _ (by rw [← hl]; simp) h

theorem wp_mapM {l : List α} {f : α → M β} {Q : List β → Machine → Prop} (I : Machine → Prop) (R : α → β → Prop)
    (h0 : I m) (hf : ∀ a m, a ∈ l → I m → Wp (f a) (fun b m' => R a b ∧ I m') E m)
    (hQ : ∀ bs m, List.Forall₂ R l bs → I m → Q bs m) : Wp (l.mapM f) Q E m := by
  induction l generalizing m Q with
  | nil => rw [List.mapM_nil]; exact wp_pure (hQ [] m .nil h0)
  | cons a l ih =>
    rw [List.mapM_cons]
    apply wp_bind
    refine wp_mono (hf a m (by simp) h0) (fun b m' h => ?_) (fun _ h => h)
    apply wp_bind
    refine ih h.2 (fun a m ha => hf a m (by simp [ha])) fun bs m'' hbs hm'' => ?_
    exact wp_pure (hQ _ _ (.cons h.1 hbs) hm'')
end

theorem addresses_snoc (b n : Nat) : addresses b (n + 1) = addresses b n ++ [b + n] := by
  unfold addresses; rw [List.range'_concat]; simp

/-- The machine in the middle of `allocate`. -/
def stage (m : Machine) (i : ModuleInst) (fs : List FuncInst) (ts : List TableInst) (ms : List MemInst)
    (gs : List GlobalInst) (es : List ElemInst) (ds : List Nat) : Machine :=
  { m with store := { m.store with
      func := m.store.func ++ fs, tabl := m.store.tabl ++ ts, mems := m.store.mems ++ ms, glob := m.store.glob ++ gs,
      elem := m.store.elem ++ es, data := m.store.data ++ ds, mods := m.store.mods ++ [i] } }

section
variable {i : ModuleInst} {fs : List FuncInst} {ts : List TableInst} {ms : List MemInst} {gs : List GlobalInst}
  {es : List ElemInst} {ds : List Nat} {Q : Unit → Machine → Prop} {E : Machine → Prop}

theorem wp_editMod_stage {f : ModuleInst → ModuleInst} {m' : Machine} (hm : m' = stage m i fs ts ms gs es ds)
    (h : Q () (stage m (f i) fs ts ms gs es ds)) : Wp (editMod m.store.mods.length f) Q E m' := by
  subst hm
  unfold editMod
  apply wp_modify
  have : (m.store.mods ++ [i]).modify m.store.mods.length f = m.store.mods ++ [f i] := by
    rw [List.modify_eq_take_drop]; simp
  simpa [stage, this] using h

theorem stage_func (x : FuncInst) : { stage m i fs ts ms gs es ds with store := { (stage m i fs ts ms gs es ds).store with
    func := (stage m i fs ts ms gs es ds).store.func ++ [x] } } = stage m i (fs ++ [x]) ts ms gs es ds := by simp [stage]
theorem stage_tabl (x : TableInst) : { stage m i fs ts ms gs es ds with store := { (stage m i fs ts ms gs es ds).store with
    tabl := (stage m i fs ts ms gs es ds).store.tabl ++ [x] } } = stage m i fs (ts ++ [x]) ms gs es ds := by simp [stage]
theorem stage_mems (x : MemInst) : { stage m i fs ts ms gs es ds with store := { (stage m i fs ts ms gs es ds).store with
    mems := (stage m i fs ts ms gs es ds).store.mems ++ [x] } } = stage m i fs ts (ms ++ [x]) gs es ds := by simp [stage]
theorem stage_glob (x : GlobalInst) : { stage m i fs ts ms gs es ds with store := { (stage m i fs ts ms gs es ds).store with
    glob := (stage m i fs ts ms gs es ds).store.glob ++ [x] } } = stage m i fs ts ms (gs ++ [x]) es ds := by simp [stage]
theorem stage_elem (x : ElemInst) : { stage m i fs ts ms gs es ds with store := { (stage m i fs ts ms gs es ds).store with
    elem := (stage m i fs ts ms gs es ds).store.elem ++ [x] } } = stage m i fs ts ms gs (es ++ [x]) ds := by simp [stage]
theorem stage_data (x : Nat) : { stage m i fs ts ms gs es ds with store := { (stage m i fs ts ms gs es ds).store with
    data := (stage m i fs ts ms gs es ds).store.data ++ [x] } } = stage m i fs ts ms gs es (ds ++ [x]) := by simp [stage]

theorem stage_mod : (stage m i fs ts ms gs es ds).store.mods[m.store.mods.length]? = some i := by simp [stage]

theorem foldl_addExtern (l : List Extern) : ∀ i : ModuleInst, l.foldl addExtern i =
    { i with func := i.func ++ importedFuncs l, tabl := i.tabl ++ importedTables l, mems := i.mems ++ importedMems l,
             glob := i.glob ++ importedGlobs l } := by
  induction l with
  | nil => intro i; simp [importedFuncs, importedTables, importedMems, importedGlobs]
  | cons x l ih =>
    intro i
    rw [List.foldl_cons, ih]
    cases x <;> simp [addExtern, importedFuncs, importedTables, importedMems, importedGlobs]

/-- The new module instance. -/
def newModule (s : Store) (d : ModuleDesc) (extern : List Extern) (xs : List ExportInst) : ModuleInst where
  type := d.type
  func := importedFuncs extern ++ addresses s.func.length d.func.length
  tabl := importedTables extern ++ addresses s.tabl.length d.tabl.length
  mems := importedMems extern ++ addresses s.mems.length d.mems.length
  glob := importedGlobs extern ++ addresses s.glob.length d.glob.length
  elem := addresses s.elem.length d.elem.length
  data := addresses s.data.length d.data.length
  exps := xs

theorem exported_newModule (s : Store) (d : ModuleDesc) (extern : List Extern) (xs ys : List ExportInst) (e : ExportDesc) :
    exported (newModule s d extern xs) e = exported (newModule s d extern ys) e := rfl

theorem prefix_zipIdx {α} {l : List α} {pre : List (α × Nat)} {a : α} {k : Nat} (h : pre ++ [(a, k)] <+: l.zipIdx) :
    k = pre.length ∧ l[k]? = some a := by
  obtain ⟨t, ht⟩ := h
  have h1 : l.zipIdx[pre.length]? = some (a, k) := by rw [← ht]; simp
  rw [List.getElem?_zipIdx] at h1
  cases h2 : l[pre.length]? with
  | none => simp [h2] at h1
  | some b =>
    simp only [h2, Option.map_some, Option.some.injEq, Prod.mk.injEq, Nat.zero_add] at h1
    exact ⟨h1.2.symm, by rw [← h1.2, h2, h1.1]⟩

theorem resolveExport_wp {i : ModuleInst} {e : ExportDesc} {Q : Extern → Machine → Prop}
    (h : ∀ x, exported i e = some x → Q x m) (hE : exported i e = none → E m) : Wp (resolveExport i e) Q E m := by
  unfold resolveExport
  unfold exported at h hE
  cases hk : e.kind <;> simp only [hk] at h hE ⊢ <;>
  · apply wp_bind
    refine wp_idx_or (fun a ha => ?_) (fun ha => hE (by simp [ha]))
    exact wp_pure (h _ (by simp [ha]))

theorem forall₂_snoc {α β} {R : α → β → Prop} {l : List α} {r : List β} {a : α} {b : β} (h : List.Forall₂ R l r) (hab : R a b) :
    List.Forall₂ R (l ++ [a]) (r ++ [b]) := by
  induction h with
  | nil => exact .cons hab .nil
  | cons h _ ih => exact .cons h ih

/-- Nothing prevents `Machine.allocate` from allocating the instance. -/
structure AllocOk (s : Store) (d : ModuleDesc) (bufs : List Nat) (extern : List Extern) (globin : List Val) (elemin : List (List Val)) : Prop where
  func : ∀ f ∈ d.func, f.type < d.type.length
  tabl : ∀ t ∈ d.tabl, ∃ x, TableInst.make t = .ok x
  mems : ∀ t ∈ d.mems, ∃ x, MemInst.make t = .ok x
  glob : d.glob.length ≤ globin.length
  elem : d.elem.length ≤ elemin.length
  refs : ∀ e ∈ d.elem, e.type.isRef = true
  data : d.data.length ≤ bufs.length
  exps : ∀ e ∈ d.exps, ∃ x, exported (newModule s d extern []) e = some x

/-- What `Machine.allocate` does; it raises only if something prevents it. -/
theorem allocate_wp (d : ModuleDesc) (bufs : List Nat) (extern : List Extern) (globin : List Val) (elemin : List (List Val)) :
    Wp (allocate d bufs extern globin elemin) (fun mod m' => ∃ fs ts ms gs es ds xs,
      List.Forall₂ (fun (f : FuncDesc) x => ∃ t, d.type[f.type]? = some t ∧ x = FuncInst.wasm t m.store.mods.length f) d.func fs ∧
      List.Forall₂ (fun t x => TableInst.make t = .ok x) d.tabl ts ∧
      List.Forall₂ (fun t x => MemInst.make t = .ok x) d.mems ms ∧
      List.Forall₂ (fun (p : GlobalDesc × Nat) x => ∃ v, globin[p.2]? = some v ∧ x = GlobalInst.mk v p.1.type.isMut) d.glob.zipIdx gs ∧
      List.Forall₂ (fun (p : ElemDesc × Nat) x => ∃ v, elemin[p.2]? = some v ∧ x = ElemInst.mk p.1.type v) d.elem.zipIdx es ∧
      List.Forall₂ (fun (p : DataDesc × Nat) x => bufs[p.2]? = some x) d.data.zipIdx ds ∧
      List.Forall₂ (fun (e : ExportDesc) (x : ExportInst) => x.name = e.name ∧ exported mod e = some x.data) d.exps xs ∧
      mod = newModule m.store d extern xs ∧ m' = stage m mod fs ts ms gs es ds) (fun _ => ¬ AllocOk m.store d bufs extern globin elemin) m := by
  unfold allocate
  apply wp_bind; apply wp_get; apply wp_bind; apply wp_modify
  have h0 : { m with store := { m.store with mods := m.store.mods ++ [{ type := d.type }] } } =
      stage m { type := d.type } [] [] [] [] [] [] := by simp [stage]
  simp only [h0]
  apply wp_bind
  refine wp_forIn (fun pre m' => m' = stage m (pre.foldl addExtern { type := d.type }) [] [] [] [] [] []) rfl ?_ ?_
  · rintro pre a _ _ rfl
    apply wp_bind; apply wp_editMod_stage rfl
    refine wp_pure ⟨rfl, ?_⟩
    rw [List.foldl_append]; rfl
  rintro _ rfl
  rw [foldl_addExtern]
  simp only [List.nil_append]
  apply wp_bind
  refine wp_forIn (fun pre m' => ∃ fs, List.Forall₂ (fun (f : FuncDesc) x =>
      ∃ t, d.type[f.type]? = some t ∧ x = FuncInst.wasm t m.store.mods.length f) pre fs ∧
    m' = stage m ⟨d.type, importedFuncs extern ++ addresses m.store.func.length pre.length, importedTables extern, importedMems extern, importedGlobs extern, [], [], []⟩
      fs [] [] [] [] [])
    ⟨[], .nil, by simp [addresses]⟩ ?_ ?_
  · rintro pre a _ hpre ⟨fs, h1, rfl⟩
    apply wp_bind
    unfold allocateFuncWasm
    apply wp_bind; apply wp_get; apply wp_bind; apply wp_get; apply wp_bind
    refine wp_idx_or (fun x hx => ?_) (fun hx => by rw [stage_mod] at hx; cases hx)
    rw [stage_mod] at hx
    cases hx
    apply wp_bind
    refine wp_idx_or (fun t ht => ?_) (fun ht hg => ?_)
    swap
    · have := hg.func a (hpre.subset (by simp))
      rw [List.getElem?_eq_none_iff] at ht
      simp only at ht
      omega
    apply wp_bind; apply wp_modify; apply wp_pure; apply wp_bind
    apply wp_editMod_stage (stage_func _)
    refine wp_pure ⟨rfl, _, forall₂_snoc h1 ⟨t, ht, rfl⟩, ?_⟩
    simp [stage, addresses_snoc, h1.length_eq]
  rintro _ ⟨fs, hfs, rfl⟩
  apply wp_bind
  refine wp_forIn (fun pre m' => ∃ ts, List.Forall₂ (fun t x => TableInst.make t = .ok x) pre ts ∧
    m' = stage m ⟨d.type, importedFuncs extern ++ addresses m.store.func.length d.func.length, importedTables extern ++ addresses m.store.tabl.length pre.length, importedMems extern, importedGlobs extern, [], [], []⟩
      fs ts [] [] [] [])
    ⟨[], .nil, by simp [addresses]⟩ ?_ ?_
  · rintro pre a _ hpre ⟨ts, h1, rfl⟩
    apply wp_bind
    unfold allocateTable
    apply wp_bind; apply wp_get; apply wp_bind
    refine wp_lift_or (fun x hx => ?_) (fun hx hg => hx (hg.tabl a (hpre.subset (by simp))))
    apply wp_bind; apply wp_modify; apply wp_pure; apply wp_bind
    apply wp_editMod_stage (stage_tabl _)
    refine wp_pure ⟨rfl, _, forall₂_snoc h1 hx, ?_⟩
    simp [stage, addresses_snoc, h1.length_eq]
  rintro _ ⟨ts, hts, rfl⟩
  apply wp_bind
  refine wp_forIn (fun pre m' => ∃ ms, List.Forall₂ (fun t x => MemInst.make t = .ok x) pre ms ∧
    m' = stage m ⟨d.type, importedFuncs extern ++ addresses m.store.func.length d.func.length, importedTables extern ++ addresses m.store.tabl.length d.tabl.length, importedMems extern ++ addresses m.store.mems.length pre.length, importedGlobs extern, [], [], []⟩
      fs ts ms [] [] [])
    ⟨[], .nil, by simp [addresses]⟩ ?_ ?_
  · rintro pre a _ hpre ⟨ms, h1, rfl⟩
    apply wp_bind
    unfold allocateMemory
    apply wp_bind; apply wp_get; apply wp_bind
    refine wp_lift_or (fun x hx => ?_) (fun hx hg => hx (hg.mems a (hpre.subset (by simp))))
    apply wp_bind; apply wp_modify; apply wp_pure; apply wp_bind
    apply wp_editMod_stage (stage_mems _)
    refine wp_pure ⟨rfl, _, forall₂_snoc h1 hx, ?_⟩
    simp [stage, addresses_snoc, h1.length_eq]
  rintro _ ⟨ms, hms, rfl⟩
  apply wp_bind
  refine wp_forIn (fun pre m' => ∃ gs,
    List.Forall₂ (fun (p : GlobalDesc × Nat) x => ∃ v, globin[p.2]? = some v ∧ x = GlobalInst.mk v p.1.type.isMut) pre gs ∧
    m' = stage m ⟨d.type, importedFuncs extern ++ addresses m.store.func.length d.func.length, importedTables extern ++ addresses m.store.tabl.length d.tabl.length, importedMems extern ++ addresses m.store.mems.length d.mems.length, importedGlobs extern ++ addresses m.store.glob.length pre.length, [], [], []⟩
      fs ts ms gs [] [])
    ⟨[], .nil, by simp [addresses]⟩ ?_ ?_
  · rintro pre ⟨a, k⟩ _ hpre ⟨gs, h1, rfl⟩
    apply wp_bind
    have hk := (List.getElem?_eq_some_iff.mp (prefix_zipIdx hpre).2).1
    refine wp_idx_or (fun v hv => ?_) (fun hv hg => ?_)
    swap
    · have := hg.glob
      rw [List.getElem?_eq_none_iff] at hv
      simp only at hv
      omega
    apply wp_bind
    unfold allocateGlobal
    apply wp_bind; apply wp_get; apply wp_bind
    apply wp_modify; apply wp_pure; apply wp_bind
    apply wp_editMod_stage (stage_glob _)
    refine wp_pure ⟨rfl, _, forall₂_snoc h1 ⟨v, hv, rfl⟩, ?_⟩
    simp [stage, addresses_snoc, h1.length_eq]
  rintro _ ⟨gs, hgs, rfl⟩
  apply wp_bind
  refine wp_forIn (fun pre m' => ∃ es,
    List.Forall₂ (fun (p : ElemDesc × Nat) x => ∃ v, elemin[p.2]? = some v ∧ x = ElemInst.mk p.1.type v) pre es ∧
    m' = stage m ⟨d.type, importedFuncs extern ++ addresses m.store.func.length d.func.length, importedTables extern ++ addresses m.store.tabl.length d.tabl.length, importedMems extern ++ addresses m.store.mems.length d.mems.length, importedGlobs extern ++ addresses m.store.glob.length d.glob.length, addresses m.store.elem.length pre.length, [], []⟩
      fs ts ms gs es [])
    ⟨[], .nil, by simp [addresses]⟩ ?_ ?_
  · rintro pre ⟨a, k⟩ _ hpre ⟨es, h1, rfl⟩
    apply wp_bind
    have hk := (List.getElem?_eq_some_iff.mp (prefix_zipIdx hpre).2).1
    refine wp_idx_or (fun v hv => ?_) (fun hv hg => ?_)
    swap
    · have := hg.elem
      rw [List.getElem?_eq_none_iff] at hv
      simp only at hv
      omega
    apply wp_bind
    unfold allocateElem
    apply wp_bind; apply wp_get; apply wp_bind
    refine wp_assert_or (fun _ => ?_) (fun hx hg => hx (hg.refs a (List.mem_of_getElem? (prefix_zipIdx hpre).2)))
    apply wp_bind
    apply wp_modify; apply wp_pure; apply wp_bind
    apply wp_editMod_stage (stage_elem _)
    refine wp_pure ⟨rfl, _, forall₂_snoc h1 ⟨v, hv, rfl⟩, ?_⟩
    simp [stage, addresses_snoc, h1.length_eq]
  rintro _ ⟨es, hes, rfl⟩
  apply wp_bind
  refine wp_forIn (fun pre m' => ∃ ds,
    List.Forall₂ (fun (p : DataDesc × Nat) x => bufs[p.2]? = some x) pre ds ∧
    m' = stage m ⟨d.type, importedFuncs extern ++ addresses m.store.func.length d.func.length, importedTables extern ++ addresses m.store.tabl.length d.tabl.length, importedMems extern ++ addresses m.store.mems.length d.mems.length, importedGlobs extern ++ addresses m.store.glob.length d.glob.length, addresses m.store.elem.length d.elem.length, addresses m.store.data.length pre.length, []⟩
      fs ts ms gs es ds)
    ⟨[], .nil, by simp [addresses]⟩ ?_ ?_
  · rintro pre ⟨a, k⟩ _ hpre ⟨ds, h1, rfl⟩
    apply wp_bind
    have hk := (List.getElem?_eq_some_iff.mp (prefix_zipIdx hpre).2).1
    refine wp_idx_or (fun v hv => ?_) (fun hv hg => ?_)
    swap
    · have := hg.data
      rw [List.getElem?_eq_none_iff] at hv
      simp only at hv
      omega
    apply wp_bind
    unfold allocateData
    apply wp_bind; apply wp_get; apply wp_bind
    apply wp_modify; apply wp_pure; apply wp_bind
    apply wp_editMod_stage (stage_data _)
    refine wp_pure ⟨rfl, _, forall₂_snoc h1 hv, ?_⟩
    simp [stage, addresses_snoc, h1.length_eq]
  rintro _ ⟨ds, hds, rfl⟩
  apply wp_bind
  refine wp_forIn (fun pre m' => ∃ xs,
    List.Forall₂ (fun (e : ExportDesc) (x : ExportInst) => x.name = e.name ∧
      exported (newModule m.store d extern []) e = some x.data) pre xs ∧
    m' = stage m (newModule m.store d extern xs) fs ts ms gs es ds)
    ⟨[], .nil, by simp [newModule]⟩ ?_ ?_
  · rintro pre e _ hpre ⟨xs, h1, rfl⟩
    apply wp_bind; apply wp_get; apply wp_bind
    refine wp_idx_or (fun x hx => ?_) (fun hx => by rw [stage_mod] at hx; cases hx)
    rw [stage_mod] at hx
    cases hx
    apply wp_bind
    refine resolveExport_wp (fun x hx => ?_) (fun hx hg => ?_)
    swap
    · obtain ⟨x, h2⟩ := hg.exps e (hpre.subset (by simp))
      rw [exported_newModule m.store d extern xs []] at hx
      rw [hx] at h2
      cases h2
    apply wp_bind
    apply wp_editMod_stage rfl
    have h2 : (⟨e.name, x⟩ : ExportInst).name = e.name ∧
        exported (newModule m.store d extern []) e = some (⟨e.name, x⟩ : ExportInst).data := ⟨rfl, hx⟩
    exact wp_pure ⟨rfl, xs ++ [⟨e.name, x⟩], forall₂_snoc h1 h2, rfl⟩
  rintro _ ⟨xs, hxs, rfl⟩
  apply wp_bind; apply wp_get
  refine wp_idx_or (fun x hx => ?_) (fun hx => by rw [stage_mod] at hx; cases hx)
  rw [stage_mod] at hx
  cases hx
  exact ⟨fs, ts, ms, gs, es, ds, xs, hfs, hts, hms, by simpa using hgs, by simpa using hes, by simpa using hds, hxs, rfl, rfl⟩

end
end Pywasm
