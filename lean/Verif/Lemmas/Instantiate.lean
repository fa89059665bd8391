import Verif.Spec.Instantiate
import Verif.Lemmas.Init4

/-! # `Machine.instance` computes `Spec.prepared` -/

namespace Pywasm
open Spec M Props

variable {H : Host} {m m' : Machine} {N : Nat} {d : ModuleDesc} {bufs : List Nat} {extern : List Extern} {mod : ModuleInst} {s' : Store}

theorem table_make_iff {t : TableType} : (∃ x, TableInst.make t = .ok x) ↔ sensible t.limits = true := by
  have hz : (Val.zero t.type).ty = t.type := by cases t.type <;> rfl
  unfold TableInst.make TableInst.grow sensible
  by_cases h1 : t.limits.m = 0 <;> by_cases h3 : t.limits.n ≤ t.limits.m <;>
    simp [h1, hz, h3, Py.assert, bind, Except.bind, pure, Except.pure]

theorem mem_make_iff {l : Limits} : (∃ x, MemInst.make l = .ok x) ↔ (sensible l && decide (l.n ≤ 65536)) = true := by
  unfold MemInst.make MemInst.grow sensible
  by_cases h1 : l.m = 0 <;> by_cases h2 : l.n ≤ 65536 <;> by_cases h3 : l.n ≤ l.m <;>
    simp [h1, h2, h3, Py.assert, bind, Except.bind, pure, Except.pure]

theorem mapM_some_iff {α β} {f : α → Option β} {l : List α} {r : List β} : l.mapM f = some r ↔ List.Forall₂ (fun a b => f a = some b) l r := by
  refine ⟨fun h => ?_, mapM_some⟩
  induction l generalizing r with
  | nil => rw [List.mapM_nil] at h; cases h; exact .nil
  | cons a l ih =>
    rw [List.mapM_cons] at h
    cases h1 : f a with
    | none => rw [h1] at h; cases h
    | some b =>
      cases h2 : l.mapM f with
      | none => rw [h1, h2] at h; cases h
      | some bs =>
        rw [h1, h2] at h
        cases h
        exact .cons h1 (ih h2)

theorem instanceOf_some : instanceOf m.store d extern = some mod ↔ ∃ xs,
    List.Forall₂ (fun (e : ExportDesc) (x : ExportInst) => x.name = e.name ∧ exported mod e = some x.data) d.exps xs ∧
      mod = newModule m.store d extern xs := by
  unfold instanceOf
  simp only [Option.map_eq_some_iff, mapM_some_iff]
  constructor
  · rintro ⟨xs, h1, rfl⟩
    refine ⟨xs, forall₂_imp' h1 ?_, rfl⟩
    rintro e x ⟨y, h2, rfl⟩
    exact ⟨rfl, h2⟩
  · rintro ⟨xs, h1, rfl⟩
    refine ⟨xs, forall₂_imp' h1 ?_, rfl⟩
    rintro e ⟨_, y⟩ ⟨rfl, h3⟩
    exact ⟨y, h3, rfl⟩

theorem zipWith_drop {es : List ElemInst} {R : ElemDesc → ElemInst → Prop} (h : List.Forall₂ R d.elem es) :
    m.store.elem ++ List.zipWith (fun e x => if droppedElem e then { x with data := [] } else x) d.elem es =
      d.elem.zipIdx.foldl (dropStep m.store.elem.length (·.kind % 4 = 3))
        (d.elem.zipIdx.foldl (dropStep m.store.elem.length (·.kind % 2 = 0)) (m.store.elem ++ es)) := by
  rw [foldl_dropStep _ _ _ _ (by simp) h.length_eq, foldl_dropStep _ _ _ _ (by simp) (by simp [h.length_eq])]
  congr 1
  generalize d.elem = l at h
  induction h with
  | nil => rfl
  | @cons e x l es _ _ ih =>
    rw [List.zipWith_cons_cons, List.zipWith_cons_cons, List.zipWith_cons_cons, ih]
    congr 1
    unfold droppedElem
    by_cases h1 : e.kind % 2 = 0 <;> by_cases h2 : e.kind % 4 = 3 <;> simp [h1, h2]

theorem forall₂_zip {α β γ} {R : α → β → Prop} {f : α → β → γ} {S : α → γ → Prop} {l : List α} {r : List β} (h : List.Forall₂ R l r)
    (hi : ∀ a b, R a b → S a (f a b)) : List.Forall₂ S l (List.zipWith f l r) := by
  induction h with
  | nil => exact .nil
  | cons h _ ih => exact .cons (hi _ _ h) ih

theorem bufs_all {ds : List Nat} (hb : FreshBuffers m.store d bufs)
    (h : List.Forall₂ (fun (p : DataDesc × Nat) x => bufs[p.2]? = some x) d.data.zipIdx ds) : ds = bufs := by
  have h1 := hb.2.length_eq
  have h2 := h.length_eq
  simp only [List.length_zipIdx] at h2
  refine List.ext_getElem (by omega) fun i hi hi' => ?_
  have := (List.forall₂_iff_get.mp h).2 i (by simp; omega) hi
  simp only [List.get_eq_getElem, List.getElem_zipIdx, Nat.zero_add] at this
  rw [List.getElem?_eq_getElem hi', Option.some.injEq] at this
  exact this.symm

/-- A machine that went through building and segments is in the prepared state. -/
theorem prepared_of {m1 m2 : Machine} (hb : FreshBuffers m.store d bufs) (h1 : Built m d bufs extern mod m1)
    (h2 : Segments m d bufs mod { m1 with frame := ⟨mod, [], 0, 0, 0⟩ :: m1.frame } m2) :
    prepared m.store d bufs extern = some (mod, m2.store) := by
  obtain ⟨fs, hfs, hfunc⟩ := h1.func
  obtain ⟨gs, hgs, hglob⟩ := h1.glob
  obtain ⟨es, hes, helem⟩ := h1.elem
  obtain ⟨ds, hds, hdata⟩ := h1.data
  obtain ⟨ht, hm⟩ := h1.made
  have e1 : d.tabl.all (fun t => sensible t.limits) = true := by
    rw [List.all_eq_true]; exact fun t h => table_make_iff.mp (ht t h)
  have e2 : d.mems.all (fun l => sensible l && l.n ≤ 65536) = true := by
    rw [List.all_eq_true]; exact fun t h => mem_make_iff.mp (hm t h)
  have e3 := instanceOf_some.mpr h1.inst
  have e4 : d.func.mapM (fun f => d.type[f.type]?.map fun t => FuncInst.wasm t m.store.mods.length f) = some fs := by
    refine mapM_some (forall₂_imp' hfs ?_)
    rintro f _ ⟨t, h3, rfl⟩
    rw [h3]; rfl
  have e5 : d.glob.mapM (fun g => (constVal m.store mod.func (importedGlobs extern) g.init).map fun v => GlobalInst.mk v g.type.isMut) =
      some gs := by
    refine mapM_some (forall₂_imp' hgs ?_)
    rintro f _ ⟨t, h3, rfl⟩
    rw [h3]; rfl
  have e6 : d.elem.mapM (fun e => (e.init.mapM (constVal m.store mod.func (importedGlobs extern))).map fun vs =>
      ElemInst.mk e.type (if droppedElem e then [] else vs)) =
      some (List.zipWith (fun e x => if droppedElem e then { x with data := [] } else x) d.elem es) := by
    refine mapM_some (forall₂_zip hes ?_)
    rintro f _ ⟨t, h3, rfl⟩
    rw [mapM_some h3]
    simp only [Option.map_some]
    split <;> rfl
  have e7 := h2.tabl
  have e8 := h2.mems
  simp only [h1.tabl] at e7
  simp only [h1.mems] at e8
  unfold prepared
  simp only [e1, e2, e3, e4, e5, e6, e7, e8, Bool.and_self, guard_true, Option.bind_eq_bind, Option.bind_some, pure, Option.some.injEq, Prod.mk.injEq, true_and]
  rw [h2.other]
  simp only
  rw [h1.rest]
  simp only [hfunc, hglob, h1.mods, hdata, bufs_all hb hds, h2.elemEq, helem, zipWith_drop hes, h2.bufsEq, h1.bufs, droppedData]

/-- Instances differ from `newModule` in their exports only. -/
theorem prepared_parts (h : prepared m.store d bufs extern = some (mod, s')) :
    (∀ f ∈ d.func, f.type < d.type.length) ∧ (∀ t ∈ d.tabl, ∃ x, TableInst.make t = .ok x) ∧
    (∀ l ∈ d.mems, ∃ x, MemInst.make l = .ok x) ∧
    (∃ xs, List.Forall₂ (fun (e : ExportDesc) (x : ExportInst) => x.name = e.name ∧ exported mod e = some x.data) d.exps xs ∧
      mod = newModule m.store d extern xs) ∧
    (∃ T, initElems m.store mod d (m.store.tabl ++ d.tabl.map freshTable) = some T) ∧
    (∃ T, initDatas m.store mod d (m.store.mems ++ d.mems.map freshMem) = some T) := by
  unfold prepared at h
  rw [Option.bind_eq_bind, Option.bind_eq_some_iff] at h
  obtain ⟨_, h0, h⟩ := h
  unfold guard at h0
  split at h0
  swap
  · cases h0
  rename_i h00
  simp only [Bool.and_eq_true, List.all_eq_true] at h00
  obtain ⟨h1, h2⟩ := h00
  simp only [Option.bind_eq_bind, Option.bind_eq_some_iff] at h
  obtain ⟨mod', h3, fs, h4, gs, h5, es, h6, T, h7, M, h8, h9⟩ := h
  cases h9
  refine ⟨fun f hf => ?_, fun t ht => table_make_iff.mpr (h1 t ht), fun l hl => mem_make_iff.mpr (by simpa using h2 l hl), instanceOf_some.mp h3,
    ⟨T, h7⟩, ⟨M, h8⟩⟩
  rw [mapM_some_iff] at h4
  obtain ⟨i, hi⟩ := List.getElem?_of_mem hf
  have hi' := (List.getElem?_eq_some_iff.mp hi).1
  have := (List.forall₂_iff_get.mp h4).2 i hi' (by rw [← h4.length_eq]; exact hi')
  simp only [List.get_eq_getElem, (List.getElem?_eq_some_iff.mp hi).2, Option.map_eq_some_iff] at this
  obtain ⟨t, ht, _⟩ := this
  exact (List.getElem?_eq_some_iff.mp ht).1

theorem initElems_exps (s : Store) (xs ys : List ExportInst) (T : List TableInst) :
    initElems s (newModule m.store d extern xs) d T = initElems s (newModule m.store d extern ys) d T := rfl
theorem initDatas_exps (s : Store) (xs ys : List ExportInst) (T : List MemInst) :
    initDatas s (newModule m.store d extern xs) d T = initDatas s (newModule m.store d extern ys) d T := rfl

/-- Up to the start function nothing goes wrong if the imports match and the state can be prepared. -/
theorem instantiate_parts (hc : Clean m) (hd : ValidInit m.store d extern) (hb : FreshBuffers m.store d bufs) (hl : Linked m.store d extern)
    (hr : ∀ e ∈ d.elem, e.type.isRef = true) (hN : 5 < N) (hp : prepared m.store d bufs extern = some (mod, s')) :
    (∃ m1, Built m d bufs extern mod m1 ∧
      Segments m d bufs mod { m1 with frame := ⟨mod, [], 0, 0, 0⟩ :: m1.frame } ⟨s', [], [], [⟨mod, [], 0, 0, 0⟩]⟩) ∧
    instantiate H N d bufs extern m =
      (runStart H N d >>= fun _ => modify (fun m => { m with frame := m.frame.tail }) >>= fun _ => pure mod)
        ⟨s', [], [], [⟨mod, [], 0, 0, 0⟩]⟩ := by
  obtain ⟨p1, p2, p3, ⟨xs, p4, p5⟩, p6, p7⟩ := prepared_parts hp
  have hb1 := buildInstance_wp (H := H) (N := N) (bufs := bufs) hc hd
  unfold instantiate
  rw [bind_ok (linkImports_run.1 hl)]
  unfold Wp at hb1
  cases hx : buildInstance H N d bufs extern m with
  | error e m1 =>
    rw [hx] at hb1
    refine absurd ⟨by omega, p1, p2, p3, hr, by rw [hb.2.length_eq], fun e he => ?_⟩ hb1
    obtain ⟨x, h1, h2⟩ := forall₂_left p4 e he
    rw [p5, exported_newModule m.store d extern xs []] at h2
    exact ⟨_, h2⟩
  | ok mod1 m1 =>
    rw [hx] at hb1
    rw [bind_ok hx, bind_modify_run]
    have hs1 := initSegments_wp (H := H) (N := N) hc hl hd hb hb1
    obtain ⟨ys, _, q2⟩ := hb1.inst
    unfold Wp at hs1
    cases hy : initSegments H N d bufs { m1 with frame := ⟨mod1, [], 0, 0, 0⟩ :: m1.frame } with
    | error e m2 =>
      rw [hy] at hs1
      refine absurd ⟨hN, ?_, ?_⟩ hs1
      · rw [hb1.tabl, q2, initElems_exps _ _ xs, ← p5]; exact p6
      · rw [hb1.mems, q2, initDatas_exps _ _ xs, ← p5]; exact p7
    | ok u m2 =>
      rw [hy] at hs1
      have h1 := prepared_of hb hb1 hs1
      rw [hp] at h1
      injection h1 with h1
      injection h1 with h1 h2
      subst h1
      have : m2 = ⟨s', [], [], [⟨mod, [], 0, 0, 0⟩]⟩ := by
        have a1 := hs1.frame
        simp only [hb1.frame, hc.1] at a1
        have a2 := hs1.label
        have a3 := hs1.value
        obtain ⟨s, v, l, f⟩ := m2
        simp only at a1 a2 a3 h2 ⊢
        rw [a1, a2, a3, h2]
      subst this
      exact ⟨⟨m1, hb1, hs1⟩, by rw [bind_ok hy]⟩

theorem instantiate_run (hc : Clean m) (hd : ValidInit m.store d extern) (hb : FreshBuffers m.store d bufs) (hl : Linked m.store d extern)
    (hr : ∀ e ∈ d.elem, e.type.isRef = true) (hN : 5 < N) (hp : prepared m.store d bufs extern = some (mod, s')) :
    instantiate H N d bufs extern m =
      (runStart H N d >>= fun _ => modify (fun m => { m with frame := m.frame.tail }) >>= fun _ => pure mod)
        ⟨s', [], [], [⟨mod, [], 0, 0, 0⟩]⟩ := (instantiate_parts hc hd hb hl hr hN hp).2

/-- If it succeeds then the imports match and the state could be prepared. -/
theorem instantiate_prepared (hc : Clean m) (hd : ValidInit m.store d extern) (hb : FreshBuffers m.store d bufs)
    (h : instantiate H N d bufs extern m = .ok mod m') : Linked m.store d extern ∧ ∃ s, prepared m.store d bufs extern = some (mod, s) := by
  have hw := instantiate_wp (H := H) (N := N) hc hd hb
  unfold Wp at hw
  rw [h] at hw
  obtain ⟨hl, m1, m2, h1, h2, _⟩ := hw
  exact ⟨hl, _, prepared_of hb h1 h2⟩

end Pywasm
