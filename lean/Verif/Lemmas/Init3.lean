import Verif.Lemmas.Init2

namespace Pywasm
open Spec M Props

variable {H : Host} {m m' : Machine} {N : Nat}

theorem externFuncs_eq (l : List Extern) : externFuncs l = importedFuncs l := rfl
theorem externGlobs_eq (l : List Extern) : externGlobs l = importedGlobs l := rfl
theorem addresses_eq (b n : Nat) : (List.range n).map (b + ·) = addresses b n := by
  unfold addresses; rw [List.range'_eq_map_range]

theorem table_make_eq {t : TableType} {x : TableInst} (h : TableInst.make t = .ok x) : x = freshTable t := by
  unfold TableInst.make TableInst.grow at h
  by_cases h1 : t.limits.m = 0
  · by_cases h2 : (Val.zero t.type).ty = t.type
    · simp [h1, h2, Py.assert, bind, Except.bind, pure, Except.pure] at h
      simp [← h, freshTable]
    · simp [h1, h2, Py.assert, bind, Except.bind] at h
  · by_cases h2 : (Val.zero t.type).ty = t.type <;> by_cases h3 : t.limits.n ≤ t.limits.m <;>
      simp [h1, h2, h3, Py.assert, bind, Except.bind, pure, Except.pure] at h
    simp [← h, freshTable]

theorem mem_make_eq {l : Limits} {x : MemInst} (h : MemInst.make l = .ok x) : x = freshMem l := by
  unfold MemInst.make MemInst.grow at h
  by_cases h1 : l.m = 0 <;> by_cases h2 : l.n ≤ 65536 <;> by_cases h3 : l.n ≤ l.m <;>
    simp [h1, h2, h3, Py.assert, bind, Except.bind, pure, Except.pure] at h
  all_goals
    rw [← h]; simp [freshMem, Py.zeros, pageSize, Nat.mul_comm]

theorem forall₂_eq_map {α β} {f : α → β} {l : List α} {r : List β} (h : List.Forall₂ (fun a b => b = f a) l r) : r = l.map f := by
  induction h with
  | nil => rfl
  | cons h _ ih => rw [List.map_cons, h, ih]

theorem forall₂_imp' {α β} {R S : α → β → Prop} {l : List α} {r : List β} (h : List.Forall₂ R l r) (hi : ∀ a b, R a b → S a b) :
    List.Forall₂ S l r := h.imp hi

/-- The functions of a new instance. -/
def newFuncs (s : Store) (d : ModuleDesc) (fs : List FuncInst) : Prop :=
  List.Forall₂ (fun (f : FuncDesc) x => ∃ t, d.type[f.type]? = some t ∧ x = FuncInst.wasm t s.mods.length f) d.func fs

theorem forall₂_zipIdx {α β γ} {R : α → γ → Prop} {S : α → β → γ → Prop} {l : List α} {bs : List γ} {r : List β}
    (h : List.Forall₂ (fun (p : α × Nat) x => ∃ v, bs[p.2]? = some v ∧ S p.1 x v) l.zipIdx r) (h2 : List.Forall₂ R l bs) :
    List.Forall₂ (fun a x => ∃ v, R a v ∧ S a x v) l r := by
  rw [List.forall₂_iff_get] at h h2 ⊢
  obtain ⟨h1, h⟩ := h
  obtain ⟨h3, h2⟩ := h2
  refine ⟨by simpa using h1, fun i hi hi' => ?_⟩
  obtain ⟨v, hv, hs⟩ := h i (by simpa using hi) hi'
  simp only [List.get_eq_getElem, List.getElem_zipIdx, Nat.zero_add] at hv hs
  have := h2 i hi (by omega)
  simp only [List.get_eq_getElem] at this ⊢
  rw [List.getElem?_eq_getElem (by omega), Option.some.injEq] at hv
  exact ⟨v, hv ▸ this, hs⟩

theorem forall₂_left {α β} {R : α → β → Prop} {l : List α} {r : List β} (h : List.Forall₂ R l r) : ∀ a ∈ l, ∃ b, R a b := by
  induction h with
  | nil => nofun
  | cons h _ ih =>
    intro a ha
    rcases List.mem_cons.mp ha with rfl | ha
    · exact ⟨_, h⟩
    · exact ih a ha

/-- What building an instance does. -/
structure Built (m : Machine) (d : ModuleDesc) (bufs : List Nat) (extern : List Extern) (mod : ModuleInst) (m' : Machine) : Prop where
  frame : m'.frame = m.frame
  label : m'.label = m.label
  value : m'.value = m.value
  inst : ∃ xs, List.Forall₂ (fun (e : ExportDesc) (x : ExportInst) => x.name = e.name ∧ exported mod e = some x.data) d.exps xs ∧
    mod = newModule m.store d extern xs
  mods : m'.store.mods = m.store.mods ++ [mod]
  func : ∃ fs, newFuncs m.store d fs ∧ m'.store.func = m.store.func ++ fs
  tabl : m'.store.tabl = m.store.tabl ++ d.tabl.map freshTable
  mems : m'.store.mems = m.store.mems ++ d.mems.map freshMem
  glob : ∃ gs, List.Forall₂ (fun (g : GlobalDesc) x => ∃ v, constVal m.store mod.func (importedGlobs extern) g.init = some v ∧
    x = GlobalInst.mk v g.type.isMut) d.glob gs ∧ m'.store.glob = m.store.glob ++ gs
  elem : ∃ es, List.Forall₂ (fun (e : ElemDesc) x => ∃ vs, List.Forall₂ (fun x v =>
      constVal m.store mod.func (importedGlobs extern) x = some v) e.init vs ∧ x = ElemInst.mk e.type vs) d.elem es ∧
    m'.store.elem = m.store.elem ++ es
  data : ∃ ds, List.Forall₂ (fun (p : DataDesc × Nat) x => bufs[p.2]? = some x) d.data.zipIdx ds ∧
    m'.store.data = m.store.data ++ ds
  bufs : m'.store.bufs = m.store.bufs
  made : (∀ t ∈ d.tabl, ∃ x, TableInst.make t = .ok x) ∧ ∀ l ∈ d.mems, ∃ x, MemInst.make l = .ok x
  rest : m'.store = { m.store with func := m'.store.func, tabl := m'.store.tabl, mems := m'.store.mems, glob := m'.store.glob, elem := m'.store.elem, data := m'.store.data, mods := m'.store.mods }

/-- Nothing prevents the building of an instance. -/
structure BuildOk (N : Nat) (s : Store) (d : ModuleDesc) (bufs : List Nat) (extern : List Extern) : Prop where
  steps : 1 < N
  func : ∀ f ∈ d.func, f.type < d.type.length
  tabl : ∀ t ∈ d.tabl, ∃ x, TableInst.make t = .ok x
  mems : ∀ t ∈ d.mems, ∃ x, MemInst.make t = .ok x
  refs : ∀ e ∈ d.elem, e.type.isRef = true
  data : d.data.length ≤ bufs.length
  exps : ∀ e ∈ d.exps, ∃ x, exported (newModule s d extern []) e = some x

theorem buildInstance_wp {d : ModuleDesc} {bufs : List Nat} {extern : List Extern} (hc : Clean m) (hd : ValidInit m.store d extern) :
    Wp (buildInstance H N d bufs extern) (Built m d bufs extern) (fun _ => ¬ BuildOk N m.store d bufs extern) m := by
  obtain ⟨hfr, hl, hv⟩ := hc
  unfold buildInstance
  apply wp_bind; apply wp_get; apply wp_bind; apply wp_modify
  simp only [externFuncs_eq, externGlobs_eq, addresses_eq]
  apply wp_bind
  set F := importedFuncs extern ++ addresses m.store.func.length d.func.length with hF
  set aux : Machine := { m with frame := ⟨{ func := F, glob := importedGlobs extern }, [], 1, 0, 0⟩ :: m.frame } with haux
  refine wp_mapM (fun m' => m' = aux)
    (fun g v => constVal m.store F (importedGlobs extern) g.init = some v) rfl ?_ ?_
  · rintro g _ hg rfl
    obtain ⟨v, hgv⟩ := hd.glob g hg
    refine wp_mono (runConst_wp (f := ⟨{ func := F, glob := importedGlobs extern }, [], 1, 0, 0⟩) (v := v)
      (by simp [haux, hfr]) hl hv hgv) (fun b m' h => ?_) (fun _ h hg => h hg.steps)
    exact ⟨h.1 ▸ hgv, h.2⟩
  rintro gv _ hgv rfl
  apply wp_bind
  refine wp_mapM (fun m' => m' = aux)
    (fun e vs => List.Forall₂ (fun x v => constVal m.store F (importedGlobs extern) x = some v) e.init vs) rfl ?_ ?_
  · rintro e _ he rfl
    refine wp_mapM (fun m' => m' = aux)
      (fun x v => constVal m.store F (importedGlobs extern) x = some v) rfl ?_ ?_
    · rintro x _ hx rfl
      obtain ⟨v, hgv⟩ := (hd.elem e he).2 x hx
      refine wp_mono (runConst_wp (f := ⟨{ func := F, glob := importedGlobs extern }, [], 1, 0, 0⟩) (v := v)
        (by simp [haux, hfr]) hl hv hgv) (fun b m' h => ?_) (fun _ h hg => h hg.steps)
      exact ⟨h.1 ▸ hgv, h.2⟩
    · rintro bs _ hbs rfl
      exact ⟨hbs, rfl⟩
  rintro ev _ hev rfl
  apply wp_bind; apply wp_modify
  have hm : { aux with frame := aux.frame.tail } = m := by simp [haux]
  simp only [hm]
  apply wp_bind
  refine wp_mono (allocate_wp d bufs extern gv ev) (fun mod m' h => ?_)
    (fun _ h hg => h ⟨hg.func, hg.tabl, hg.mems, by rw [hgv.length_eq], by rw [hev.length_eq], hg.refs, hg.data, hg.exps⟩)
  obtain ⟨fs, ts, ms, gs, es, ds, xs, h1, h2, h3, h4, h5, h6, h7, rfl, rfl⟩ := h
  apply wp_bind
  refine wp_assert_or (fun _ => ?_) (fun h => absurd (by simp [newModule, hF]) h)
  refine wp_pure ?_
  have e2 := forall₂_eq_map (forall₂_imp' h2 fun _ _ h => table_make_eq h)
  have e3 := forall₂_eq_map (forall₂_imp' h3 fun _ _ h => mem_make_eq h)
  refine ⟨rfl, rfl, rfl, ⟨xs, h7, rfl⟩, rfl, ⟨fs, h1, rfl⟩, by rw [← e2]; rfl, by rw [← e3]; rfl,
    ⟨gs, forall₂_zipIdx h4 hgv, rfl⟩, ⟨es, forall₂_zipIdx h5 hev, rfl⟩, ⟨ds, h6, rfl⟩, rfl, ⟨forall₂_left h2, forall₂_left h3⟩, rfl⟩

/-! ### The segments -/

/-- Copy one active element segment. -/
def elemStep (s : Store) (mod : ModuleInst) (tabl : List TableInst) (e : ElemDesc) : Option (List TableInst) :=
  (constVal s mod.func mod.glob e.offset).bind fun off =>
    (e.init.mapM (constVal s mod.func mod.glob)).bind fun refs => copyElem mod e.tidx off.low32.toNat refs tabl

theorem mapM_some {α β} {f : α → Option β} {l : List α} {r : List β} (h : List.Forall₂ (fun a b => f a = some b) l r) :
    l.mapM f = some r := by
  induction h with
  | nil => rfl
  | cons h _ ih => rw [List.mapM_cons, h, ih]; rfl

theorem copyElem_length {mod : ModuleInst} {k off : Nat} {l : List Val} {T T' : List TableInst} (h : copyElem mod k off l T = some T') :
    T'.length = T.length := by
  unfold copyElem at h
  rw [Option.bind_eq_some_iff] at h
  obtain ⟨a, _, h⟩ := h
  rw [Option.bind_eq_some_iff] at h
  obtain ⟨t, _, h⟩ := h
  split at h
  · cases h; simp
  · cases h

theorem copyData_length {mod : ModuleInst} {off : Nat} {l : Bytes} {T T' : List MemInst} (h : copyData mod off l T = some T') :
    T'.length = T.length := by
  unfold copyData at h
  rw [Option.bind_eq_some_iff] at h
  obtain ⟨a, _, h⟩ := h
  rw [Option.bind_eq_some_iff] at h
  obtain ⟨t, _, h⟩ := h
  split at h
  · cases h; simp
  · cases h

/-- Entries have been dropped from the segments. -/
def Shrunk (E E' : List ElemInst) : Prop := List.Forall₂ (fun x y => ∀ v ∈ y.data, v ∈ x.data) E E'

theorem Shrunk.refl (E : List ElemInst) : Shrunk E E := List.forall₂_same.mpr fun _ _ _ h => h
theorem Shrunk.trans {E E' E'' : List ElemInst} (h : Shrunk E E') (h' : Shrunk E' E'') : Shrunk E E'' := by
  unfold Shrunk at *
  induction h generalizing E'' with
  | nil => exact h'
  | cons h _ ih =>
    cases h' with
    | cons h1 h2 => exact .cons (fun v hv => h v (h1 v hv)) (ih h2)
theorem Shrunk.drop (E : List ElemInst) (i : Nat) (x : ElemInst) : Shrunk E (E.set i { x with data := [] }) := by
  unfold Shrunk
  induction E generalizing i with
  | nil => exact .nil
  | cons e E ih =>
    cases i with
    | zero => exact .cons nofun (Shrunk.refl E)
    | succ i => exact .cons (fun _ h => h) (ih i)

/-- Drop one segment. -/
def dropStep (b : Nat) (c : ElemDesc → Bool) (E : List ElemInst) (p : ElemDesc × Nat) : List ElemInst :=
  if c p.1 then E.modify (b + p.2) (fun x => { x with data := [] }) else E

theorem modify_set {α} {l : List α} {i : Nat} {x : α} {f : α → α} (h : l[i]? = some x) : l.modify i f = l.set i (f x) := by
  apply List.ext_getElem?
  intro j
  rw [List.getElem?_modify, List.getElem?_set]
  by_cases hj : i = j
  · subst hj
    obtain ⟨h1, h2⟩ := List.getElem?_eq_some_iff.mp h
    simp [h1, h2]
  · simp [hj]

theorem foldl_dropStep {c : ElemDesc → Bool} {b : Nat} : ∀ (l : List ElemDesc) (n : Nat) (A es : List ElemInst), A.length = b + n → l.length = es.length →
    (l.zipIdx n).foldl (dropStep b c) (A ++ es) = A ++ List.zipWith (fun e x => if c e then { x with data := [] } else x) l es := by
  intro l
  induction l with
  | nil => intro n A es _ h; cases es with
    | nil => rfl
    | cons => cases h
  | cons a l ih =>
    intro n A es hA h
    cases es with
    | nil => cases h
    | cons x es =>
      rw [List.zipIdx_cons, List.foldl_cons]
      have : dropStep b c (A ++ x :: es) (a, n) = (A ++ [if c a then { x with data := [] } else x]) ++ es := by
        unfold dropStep
        split
        · rw [modify_set (x := x) (by simp [← hA])]
          simp [← hA]
        · simp
      rw [this, ih (n + 1) _ _ (by simp; omega) (by simpa using h)]
      simp

theorem zip_snoc {α β} {l : List α} {r : List β} {e : α} {x : β} (h : r[l.length]? = some x) : (l ++ [e]).zip r = l.zip r ++ [(e, x)] := by
  induction l generalizing r with
  | nil => cases r with
    | nil => simp at h
    | cons y r => simp at h; simp [h]
  | cons a l ih => cases r with
    | nil => simp at h
    | cons y r => simp at h; simp [ih h]

/-- When copying all segments goes through, so does copying each. -/
theorem fold_prefix {α β} {p : α → Bool} {f : β → α → Option β} {l : List α} {pre : List (α × Nat)} {a : α} {k : Nat} {b b' c : β}
    (hp : pre ++ [(a, k)] <+: l.zipIdx) (ha : p a = true) (h : (l.filter p).foldlM f b = some c)
    (h1 : ((pre.map Prod.fst).filter p).foldlM f b = some b') : ∃ b'', f b' a = some b'' := by
  obtain ⟨post, hp⟩ := hp
  have := congrArg (List.map Prod.fst) hp
  rw [List.zipIdx_map_fst] at this
  rw [← this] at h
  simp only [List.map_append, List.filter_append, List.foldlM_append, List.map_cons, List.map_nil, h1] at h
  rw [List.filter_cons_of_pos (by simpa using ha)] at h
  cases h2 : f b' a with
  | none => simp [h2] at h
  | some b'' => exact ⟨b'', rfl⟩

/-- The active element segments are copied in order. -/
theorem elemLoop_wp {d : ModuleDesc} {f : Frame} {b : Nat} {s0 : Store}
    (hf : m.frame = [f]) (hl : m.label = []) (hv : m.value = [])
    (hglob : ∀ e v, constVal s0 f.module.func f.module.glob e = some v → constVal m.store f.module.func f.module.glob e = some v)
    (hact : ∀ e ∈ d.elem, e.kind % 2 = 0 → (∃ v, constVal s0 f.module.func f.module.glob e.offset = some v) ∧
      ∃ a, f.module.tabl[e.tidx]? = some a ∧ a < m.store.tabl.length)
    (hsm : ∀ e ∈ d.elem, e.init.length < 2 ^ 31)
    (hseg : ∀ (k : Nat) e, d.elem[k]? = some e → f.module.elem[k]? = some (b + k) ∧ ∃ el, m.store.elem[b + k]? = some el ∧
      List.Forall₂ (fun x v => constVal s0 f.module.func f.module.glob x = some v) e.init el.data) :
    Wp (forIn d.elem.zipIdx PUnit.unit fun (p : ElemDesc × Nat) (_ : PUnit) =>
        (match p with
          | (e, i) => if e.kind % 2 = 0 then (do runInit H N (elemInitExpr i e) 0; pure (ForInStep.yield PUnit.unit))
            else pure (ForInStep.yield PUnit.unit) : M (ForInStep PUnit)))
      (fun _ m' => ∃ T E, (d.elem.filter (·.kind % 2 = 0)).foldlM (elemStep s0 f.module) m.store.tabl = some T ∧
        T.length = m.store.tabl.length ∧ Shrunk m.store.elem E ∧ E = d.elem.zipIdx.foldl (dropStep b (·.kind % 2 = 0)) m.store.elem ∧
        m' = { m with store := { m.store with tabl := T, elem := E } })
      (fun _ => ¬ (5 < N ∧ ∃ T, (d.elem.filter (·.kind % 2 = 0)).foldlM (elemStep s0 f.module) m.store.tabl = some T)) m := by
  refine wp_forIn (fun pre m' => ∃ T E, ((pre.map Prod.fst).filter (·.kind % 2 = 0)).foldlM (elemStep s0 f.module) m.store.tabl = some T ∧
    T.length = m.store.tabl.length ∧ Shrunk m.store.elem E ∧ E = pre.foldl (dropStep b (·.kind % 2 = 0)) m.store.elem ∧
    (∀ k, pre.length ≤ k → E[b + k]? = m.store.elem[b + k]?) ∧
    m' = { m with store := { m.store with tabl := T, elem := E } }) ⟨_, _, rfl, rfl, .refl _, rfl, fun _ _ => rfl, rfl⟩ ?_ ?_
  · rintro pre ⟨e, k⟩ _ hpre ⟨T, E, hT, hTl, hEl, hEq, hE, rfl⟩
    obtain ⟨rfl, hk⟩ := prefix_zipIdx hpre
    simp only
    refine wp_ite (fun h2 => ?_) (fun h2 => ?_)
    · obtain ⟨⟨off, hoff⟩, a, ha, hal⟩ := hact e (List.mem_of_getElem? hk) h2
      obtain ⟨h3, el, h4, h5⟩ := hseg _ e hk
      apply wp_bind
      refine wp_mono (elemInit_wp (H := H) (N := N) (i := pre.length) (e := e) (f := f) (off := off) (a := a) (ea := b + pre.length)
        (t := T[a]'(by omega)) (el := el) hf hl hv (hglob _ _ hoff) ha (List.getElem?_eq_getElem (by show a < T.length; omega)) h3
        (by rw [← h4]; exact hE _ (le_refl _)) h5.length_eq.symm (hsm e (List.mem_of_getElem? hk)))
        (fun _ m' h => ?_) (fun _ h hg => h ⟨hg.1, ?_⟩)
      swap
      · obtain ⟨_, _, hg⟩ := hg
        obtain ⟨T'', h8⟩ := fold_prefix hpre (by simpa using h2) hg hT
        rw [elemStep, hoff, mapM_some h5] at h8
        exact ⟨T'', h8⟩
      obtain ⟨T', h6, rfl⟩ := h
      simp only at h6
      refine wp_pure ⟨rfl, T', _, ?_, (copyElem_length h6).trans hTl, ?_, ?_, ?_, rfl⟩
      · rw [List.map_append, List.filter_append, List.foldlM_append, hT]
        simp [h2, elemStep, hoff, mapM_some h5, h6]
      · exact hEl.trans (.drop _ _ _)
      · rw [List.foldl_append, ← hEq, List.foldl_cons, List.foldl_nil, dropStep, if_pos (by simpa using h2),
          modify_set (x := el) (by rw [← h4]; exact hE _ (le_refl _))]
      · intro k hk2
        simp only [List.length_append, List.length_singleton] at hk2
        simp only
        rw [List.getElem?_set_ne (by omega)]
        exact hE k (by omega)
    · refine wp_pure ⟨rfl, T, E, ?_, hTl, hEl, by rw [List.foldl_append, ← hEq]; simp [dropStep, h2],
        fun k hk2 => hE k (by simp at hk2; omega), rfl⟩
      rw [List.map_append, List.filter_append, List.foldlM_append, hT]
      simp [h2]
  · rintro _ ⟨T, E, h1, h2, h3, h4, _, rfl⟩
    simp only [List.zipIdx_map_fst] at h1
    exact ⟨T, E, h1, h2, h3, h4, rfl⟩

/-- Declarative element segments are dropped. -/
theorem dropLoop_wp {d : ModuleDesc} {f : Frame} {b : Nat}
    (hf : m.frame = [f]) (hl : m.label = []) (hv : m.value = [])
    (hseg : ∀ (k : Nat) e, d.elem[k]? = some e → f.module.elem[k]? = some (b + k) ∧ b + k < m.store.elem.length) :
    Wp (forIn d.elem.zipIdx PUnit.unit fun (p : ElemDesc × Nat) (_ : PUnit) =>
        (match p with
          | (e, i) => if e.kind % 4 = 3 then (do runInit H N [.elemDrop i] 0; pure (ForInStep.yield PUnit.unit))
            else pure (ForInStep.yield PUnit.unit) : M (ForInStep PUnit)))
      (fun _ m' => ∃ E, Shrunk m.store.elem E ∧ E = d.elem.zipIdx.foldl (dropStep b (·.kind % 4 = 3)) m.store.elem ∧
        m' = { m with store := { m.store with elem := E } }) (fun _ => ¬ 5 < N) m := by
  refine wp_forIn (fun pre m' => ∃ E, Shrunk m.store.elem E ∧ E = pre.foldl (dropStep b (·.kind % 4 = 3)) m.store.elem ∧
    m' = { m with store := { m.store with elem := E } }) ⟨_, .refl _, rfl, rfl⟩ ?_ ?_
  · rintro pre ⟨e, k⟩ _ hpre ⟨E, hEl, hEq, rfl⟩
    obtain ⟨rfl, hk⟩ := prefix_zipIdx hpre
    simp only
    refine wp_ite (fun h2 => ?_) (fun h2 => ?_)
    · obtain ⟨h3, h4⟩ := hseg _ e hk
      apply wp_bind
      refine wp_mono (elemDrop_wp (H := H) (N := N) (i := pre.length) (f := f) (ea := b + pre.length)
        (el := E[b + pre.length]'(by have := hEl.length_eq; omega)) hf hl hv h3
        (List.getElem?_eq_getElem (by have := hEl.length_eq; show _ < E.length; omega)))
        (fun _ m' h => ?_) (fun _ h => h)
      subst h
      refine wp_pure ⟨rfl, _, hEl.trans (.drop _ _ _), ?_, rfl⟩
      rw [List.foldl_append, ← hEq, List.foldl_cons, List.foldl_nil, dropStep, if_pos (by simpa using h2),
        modify_set (List.getElem?_eq_getElem (by have := hEl.length_eq; show _ < E.length; omega))]
    · exact wp_pure ⟨rfl, E, hEl, by rw [List.foldl_append, ← hEq]; simp [dropStep, h2], rfl⟩
  · rintro _ ⟨E, h, h', rfl⟩
    exact ⟨E, h, h', rfl⟩

/-- Copy one active data segment. -/
def dataStep (s : Store) (mod : ModuleInst) (mems : List MemInst) (e : DataDesc) : Option (List MemInst) :=
  (constVal s mod.func mod.glob e.offset).bind fun off => copyData mod off.low32.toNat e.init mems

/-- The active data segments are copied in order. -/
theorem dataLoop_wp {d : ModuleDesc} {f : Frame} {bufs : List Nat} {b : Nat} {s0 : Store}
    (hf : m.frame = [f]) (hl : m.label = []) (hv : m.value = [])
    (hglob : ∀ e v, constVal s0 f.module.func f.module.glob e = some v → constVal m.store f.module.func f.module.glob e = some v)
    (hact : ∀ e ∈ d.data, e.kind % 2 = 0 → e.init.length < 2 ^ 31 ∧ (∃ v, constVal s0 f.module.func f.module.glob e.offset = some v) ∧
      ∃ a, f.module.mems[0]? = some a ∧ a < m.store.mems.length)
    (hnd : bufs.Nodup)
    (hseg : ∀ (k : Nat) e, d.data[k]? = some e → f.module.data[k]? = some (b + k) ∧ ∃ x, bufs[k]? = some x ∧
      m.store.data[b + k]? = some x ∧ m.store.bufs[x]? = some e.init) :
    Wp (forIn d.data.zipIdx PUnit.unit fun (p : DataDesc × Nat) (_ : PUnit) =>
        (match p with
          | (e, i) => if e.kind % 2 = 0 then (do
              let b ← idx bufs i
              let init ← idx (← get).store.bufs b
              runInit H N (dataInitExpr i e init.length) 0; pure (ForInStep.yield PUnit.unit))
            else pure (ForInStep.yield PUnit.unit) : M (ForInStep PUnit)))
      (fun _ m' => ∃ T B, (d.data.filter (·.kind % 2 = 0)).foldlM (dataStep s0 f.module) m.store.mems = some T ∧
        (∀ (k x : Nat) e, d.data[k]? = some e → bufs[k]? = some x → B[x]? = some (if e.kind % 2 = 0 then [] else e.init)) ∧
        (∀ x, x ∉ bufs → B[x]? = m.store.bufs[x]?) ∧ B.length = m.store.bufs.length ∧
        B = (d.data.zip bufs).foldl (fun B p => if p.1.kind % 2 = 0 then B.set p.2 [] else B) m.store.bufs ∧
        m' = { m with store := { m.store with mems := T, bufs := B } })
      (fun _ => ¬ (5 < N ∧ ∃ T, (d.data.filter (·.kind % 2 = 0)).foldlM (dataStep s0 f.module) m.store.mems = some T)) m := by
  refine wp_forIn (fun pre m' => ∃ T B, ((pre.map Prod.fst).filter (·.kind % 2 = 0)).foldlM (dataStep s0 f.module) m.store.mems = some T ∧
    T.length = m.store.mems.length ∧
    (∀ (k x : Nat), pre.length ≤ k → bufs[k]? = some x → B[x]? = m.store.bufs[x]?) ∧
    (∀ (k x : Nat) e, k < pre.length → d.data[k]? = some e → bufs[k]? = some x → B[x]? = some (if e.kind % 2 = 0 then [] else e.init)) ∧
    (∀ x, x ∉ bufs → B[x]? = m.store.bufs[x]?) ∧ B.length = m.store.bufs.length ∧
    B = ((pre.map Prod.fst).zip bufs).foldl (fun B p => if p.1.kind % 2 = 0 then B.set p.2 [] else B) m.store.bufs ∧
    m' = { m with store := { m.store with mems := T, bufs := B } })
    ⟨_, _, rfl, rfl, fun _ _ _ _ => rfl, fun k _ _ h => absurd h (Nat.not_lt_zero k), fun _ _ => rfl, rfl, rfl, rfl⟩ ?_ ?_
  · rintro pre ⟨e, k⟩ _ hpre ⟨T, B, hT, hTl, hB, hB1, hB2, hBl, hBq, rfl⟩
    obtain ⟨rfl, hk⟩ := prefix_zipIdx hpre
    obtain ⟨h3, x, hx, h4, h5⟩ := hseg _ e hk
    have hinj : ∀ (k y : Nat), k ≠ pre.length → bufs[k]? = some y → y ≠ x := by
      rintro k y hne hy rfl
      have := (List.getElem?_eq_some_iff.mp hy)
      have h' := (List.getElem?_eq_some_iff.mp hx)
      obtain ⟨l1, e1⟩ := this
      obtain ⟨l2, e2⟩ := h'
      exact hne ((hnd.getElem_inj_iff).mp (e1.trans e2.symm))
    simp only
    refine wp_ite (fun h2 => ?_) (fun h2 => ?_)
    · obtain ⟨hsm, ⟨off, hoff⟩, a, ha, hal⟩ := hact e (List.mem_of_getElem? hk) h2
      apply wp_bind
      refine wp_idx_or (fun x' hx' => ?_) (fun hx' => by rw [hx] at hx'; cases hx')
      rw [hx] at hx'; cases hx'
      apply wp_bind; apply wp_get; apply wp_bind
      have hbx : B[x]? = some e.init := by rw [hB _ _ (le_refl _) hx, h5]
      refine wp_idx_or (fun i' hi' => ?_) (fun hi' => by simp only at hi'; rw [hbx] at hi'; cases hi')
      simp only at hi'
      rw [hbx] at hi'; cases hi'
      apply wp_bind
      refine wp_mono (dataInit_wp (H := H) (N := N) (i := pre.length) (e := e) (f := f) (off := off) (a := a) (da := b + pre.length)
        (b := x) (t := T[a]'(by omega)) hf hl hv (hglob _ _ hoff) ha (List.getElem?_eq_getElem (by show a < T.length; omega)) h3
        h4 hbx hsm) (fun _ m' h => ?_) (fun _ h hg => h ⟨hg.1, ?_⟩)
      swap
      · obtain ⟨_, _, hg⟩ := hg
        obtain ⟨T'', h8⟩ := fold_prefix hpre (by simpa using h2) hg hT
        rw [dataStep, hoff] at h8
        exact ⟨T'', h8⟩
      obtain ⟨T', h6, rfl⟩ := h
      simp only at h6
      refine wp_pure ⟨rfl, T', _, ?_, (copyData_length h6).trans hTl, ?_, ?_, ?_, by simpa using hBl, ?_, rfl⟩
      · rw [List.map_append, List.filter_append, List.foldlM_append, hT]
        simp [h2, dataStep, hoff, h6]
      · intro k y hk2 hy
        simp only [List.length_append, List.length_singleton] at hk2
        simp only
        rw [List.getElem?_set_ne (hinj k y (by omega) hy).symm]
        exact hB k y (by omega) hy
      · intro k y e' hk2 he' hy
        simp only [List.length_append, List.length_singleton] at hk2
        simp only
        by_cases hkk : k = pre.length
        · subst hkk
          rw [hk] at he'; cases he'
          rw [hx] at hy; cases hy
          rw [List.getElem?_set_self (List.getElem?_eq_some_iff.mp hbx).1, if_pos h2]
        · rw [List.getElem?_set_ne (hinj k y hkk hy).symm]
          exact hB1 k y e' (by omega) he' hy
      · intro y hy
        simp only
        rw [List.getElem?_set_ne (by rintro rfl; exact hy (List.mem_of_getElem? hx))]
        exact hB2 y hy
      · rw [List.map_append, List.map_cons, List.map_nil, zip_snoc (by simpa using hx), List.foldl_append, ← hBq]
        simp [h2]
    · refine wp_pure ⟨rfl, T, B, ?_, hTl, fun k y hk2 => hB k y (by simp at hk2; omega), ?_, hB2, hBl, ?_, rfl⟩
      · rw [List.map_append, List.filter_append, List.foldlM_append, hT]
        simp [h2]
      · intro k y e' hk2 he' hy
        simp only [List.length_append, List.length_singleton] at hk2
        by_cases hkk : k = pre.length
        · subst hkk
          rw [hk] at he'; cases he'
          rw [hx] at hy; cases hy
          rw [if_neg h2, hB _ _ (le_refl _) hx, h5]
        · exact hB1 k y e' (by omega) he' hy
      · rw [List.map_append, List.map_cons, List.map_nil, zip_snoc (by simpa using hx), List.foldl_append, ← hBq]
        simp [h2]
  · rintro _ ⟨T, B, h1, _, _, h2, h3, h4, h5, rfl⟩
    simp only [List.zipIdx_map_fst] at h1 h5
    refine ⟨T, B, h1, fun k x e he hx => h2 k x e ?_ he hx, h3, h4, h5, rfl⟩
    simpa using (List.getElem?_eq_some_iff.mp he).1

end Pywasm
