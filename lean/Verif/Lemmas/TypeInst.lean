import Verif.Spec.ValidModule
import Verif.Lemmas.TypeSound
import Verif.Lemmas.Init4

/-!
# Instantiating a valid module keeps the store well typed
-/

namespace Pywasm
open Spec Spec.Typing

section link
variable {S : StoreType} {s : Store} {d : ModuleDesc} {extern : List Extern}

theorem linked_funcs (hS : StoreOk S s) (h : Linked s d extern) :
    List.Forall₂ (fun a i => ∃ t, d.type[i]? = some t ∧ S.funcs[a]? = some t) (importedFuncs extern) (importFuncs d) := by
  unfold Linked at h
  unfold importedFuncs importFuncs
  generalize d.imps = l at h
  induction h with
  | nil => exact .nil
  | cons h1 _ ih =>
    generalize hx : Import.desc _ = x at h1
    cases h1 with
    | func h1 h2 h3 =>
      simp only [List.filterMap_cons, hx]
      exact .cons ⟨_, h2, by rw [← hS.funcs, List.getElem?_map, h1, ← h3]; rfl⟩ ih
    | table | mem | glob => simp only [List.filterMap_cons, hx]; exact ih

theorem linked_tables (hS : StoreOk S s) (h : Linked s d extern) :
    List.Forall₂ (fun a t => S.tables[a]? = some t) (importedTables extern) (Typing.importTables d) := by
  unfold Linked at h
  unfold importedTables Typing.importTables
  generalize d.imps = l at h
  induction h with
  | nil => exact .nil
  | cons h1 _ ih =>
    generalize hx : Import.desc _ = x at h1
    cases h1 with
    | table h1 h2 h3 =>
      simp only [List.filterMap_cons, hx]
      refine .cons ?_ ih
      obtain ⟨ty, h4, h5, _⟩ := f2_get' hS.tables h1
      rw [h4, ← h5, h2]
    | func | mem | glob => simp only [List.filterMap_cons, hx]; exact ih

theorem linked_mems (hS : StoreOk S s) (h : Linked s d extern) :
    (importedMems extern).length = (importMems d).length ∧ ∀ a ∈ importedMems extern, a < S.mems := by
  refine ⟨?_, fun a ha => hS.mems.1 ▸ imported_mem h ha⟩
  unfold Linked at h
  unfold importedMems importMems
  generalize d.imps = l at h
  induction h with
  | nil => rfl
  | cons h1 _ ih =>
    generalize hx : Import.desc _ = x at h1
    cases h1 with
    | mem h1 h2 => simp only [List.filterMap_cons, hx, List.length_cons, ih]
    | func | table | glob => simp only [List.filterMap_cons, hx]; exact ih

theorem linked_globs (hS : StoreOk S s) (h : Linked s d extern) :
    List.Forall₂ (fun a t => S.globals[a]? = some t) (importedGlobs extern) (importGlobals d) := by
  unfold Linked at h
  unfold importedGlobs importGlobals
  generalize d.imps = l at h
  induction h with
  | nil => exact .nil
  | cons h1 _ ih =>
    generalize hx : Import.desc _ = x at h1
    cases h1 with
    | glob h1 h2 h3 =>
      simp only [List.filterMap_cons, hx]
      refine .cons ?_ ih
      obtain ⟨ty, h4, h5, h6, _⟩ := f2_get' hS.globals h1
      rw [h4]
      obtain ⟨ty1, ty2⟩ := ty
      rename_i t _
      obtain ⟨t1, t2⟩ := t
      simp_all
    | func | mem | table => simp only [List.filterMap_cons, hx]; exact ih
end link

/-- The type of the store after the module `d` has been allocated, whose functions have the types `fts`. -/
def grown (S : StoreType) (d : ModuleDesc) (fts : List FuncType) : StoreType where
  funcs := S.funcs ++ fts
  tables := S.tables ++ d.tabl.map (·.type)
  mems := S.mems + d.mems.length
  globals := S.globals ++ d.glob.map (·.type)
  elems := S.elems ++ d.elem.map (·.type)
  datas := S.datas + d.data.length
  hosts := S.hosts

theorem grown_le (S : StoreType) (d : ModuleDesc) (fts : List FuncType) : S.Le (grown S d fts) :=
  ⟨List.prefix_append _ _, List.prefix_append _ _, Nat.le_add_right _ _, List.prefix_append _ _, List.prefix_append _ _, Nat.le_add_right _ _, rfl⟩

/-- Consecutive addresses of the entries `l'` appended to `l`. -/
theorem f2_addresses {α : Type} (l l' : List α) : List.Forall₂ (fun a t => (l ++ l')[a]? = some t) (addresses l.length l'.length) l' := by
  rw [List.forall₂_iff_get]
  refine ⟨by simp [addresses], fun i h1 h2 => ?_⟩
  simp [addresses, h2]

theorem f2_addresses' {α : Type} {l l' : List α} {b n : Nat} (hb : b = l.length) (hn : n = l'.length) :
    List.Forall₂ (fun a t => (l ++ l')[a]? = some t) (addresses b n) l' := by
  subst hb hn; exact f2_addresses l l'

/-- Constant expressions have values of their types. -/
theorem const_ok {S T : StoreType} {C : Typing.Ctx} {s : Store} {F G : List Nat} {e : Expr} {t : ValType} (hS : StoreOk S s) (hT : S.Le T)
    (hF : List.Forall₂ (fun a t => T.funcs[a]? = some t) F C.funcs) (hfew : T.funcs.length ≤ 2 ^ 31)
    (hG : List.Forall₂ (fun a t => S.globals[a]? = some t) G C.globals) (h : ConstExpr C e t) :
    ∃ v, constVal s F G e = some v ∧ ValOk T v t := by
  obtain ⟨i, rfl, hc, hi⟩ := h
  cases hc with
  | i32 n => cases hi with | i32Const h => exact ⟨_, by simp only [constVal, Ref.const]; rw [if_pos h], valOk_num rfl rfl⟩
  | i64 n => cases hi with | i64Const h => exact ⟨_, by simp only [constVal, Ref.const]; rw [if_pos h], valOk_num rfl rfl⟩
  | f32 n => cases hi with | f32Const h => exact ⟨_, by simp only [constVal, Ref.const]; rw [if_pos h], valOk_num rfl rfl⟩
  | f64 n => cases hi with | f64Const h => exact ⟨_, by simp only [constVal, Ref.const]; rw [if_pos h], valOk_num rfl rfl⟩
  | v128 b => cases hi with | v128Const h => exact ⟨_, by simp only [constVal, Ref.const]; rw [if_pos h], valOk_num rfl rfl⟩
  | null t' =>
    generalize hx : Inst.refNull t' = i at hi
    generalize hb : [t] = b at hi
    generalize ha : ([] : List ValType) = a at hi
    cases hi <;> try cases hx
    cases hb
    refine ⟨Val.zero t, ?_, valOk_zero T t⟩
    simp only [constVal, Ref.const]
    cases t <;> rfl
  | func f =>
    cases hi with
    | refFunc h =>
      obtain ⟨a, ha, h1⟩ := f2_get hF h
      have hlt := (List.getElem?_eq_some_iff.mp h1).1
      refine ⟨Ref.refTo .funcref a, ?_, valOk_refTo hlt (by omega)⟩
      simp only [constVal, ha, Option.bind_some]
      rw [if_pos (by omega)]
  | global h hm =>
    cases hi with
    | globalGet h' =>
      rw [h] at h'; cases h'
      obtain ⟨a, ha, h1⟩ := f2_get hG h
      obtain ⟨gi, h2, h3, h4⟩ := f2_get hS.globals h1
      exact ⟨gi.data, by simp [constVal, ha, h2], h4.mono hT⟩

section built
variable {S : StoreType} {C : Typing.Ctx} {m m1 : Machine} {d : ModuleDesc} {extern : List Extern} {bufs : List Nat} {mod : ModuleInst}

theorem grown_funcs (hV : ValidModule C d) (hS : StoreOk S m.store) (hL : Linked m.store d extern) :
    ∃ fts, List.Forall₂ (fun (f : FuncDesc) t => d.type[f.type]? = some t) d.func fts ∧
      List.Forall₂ (fun a t => (grown S d fts).funcs[a]? = some t)
        (importedFuncs extern ++ addresses m.store.func.length d.func.length) C.funcs := by
  have h := hV.funcs
  obtain ⟨x, y, h1, h2, h3⟩ := f2_split (List.Forall₂.flip h)
  refine ⟨y, List.forall₂_map_left_iff.mp (List.Forall₂.flip h3), ?_⟩
  rw [h1]
  refine f2_append ?_ ?_
  · have h4 := linked_funcs hS hL
    have h5 : List.Forall₂ (fun a t => S.funcs[a]? = some t) (importedFuncs extern) x := by
      generalize importFuncs d = l at h2 h4
      generalize importedFuncs extern = r at h4
      clear h1 h3
      induction h4 generalizing x with
      | nil => cases h2; exact .nil
      | cons ha _ ih =>
        cases h2 with
        | cons hb h2 =>
          obtain ⟨t, ht, hs⟩ := ha
          rw [ht] at hb
          cases hb
          exact .cons hs (ih _ h2)
    exact f2_mono h5 fun _ _ => prefix_get (List.prefix_append _ _)
  · refine f2_addresses' (by rw [← hS.funcs]; simp) ?_
    rw [← h3.length_eq.symm]
    simp

/-- A valid module's initialisers have values. -/
theorem validInit (hV : ValidModule C d) (hS : StoreOk S m.store) (hL : Linked m.store d extern)
    (hfew : m.store.func.length + d.func.length ≤ 2 ^ 31) : ValidInit m.store d extern := by
  obtain ⟨fts, h1, h2⟩ := grown_funcs hV hS hL
  have hn : (grown S d fts).funcs.length ≤ 2 ^ 31 := by
    have := h1.length_eq
    simp only [grown, List.length_append, ← hS.funcs, List.length_map]
    omega
  have key : ∀ e t, ConstExpr { C with globals := importGlobals d } e t → ∃ v, constVal m.store
      (importedFuncs extern ++ addresses m.store.func.length d.func.length) (importedGlobs extern) e = some v := by
    intro e t he
    obtain ⟨v, h, _⟩ := const_ok (C := { C with globals := importGlobals d }) hS (grown_le S d fts) h2 hn (linked_globs hS hL) he
    exact ⟨v, h⟩
  refine ⟨fun g hg => key _ _ (hV.glob g hg), fun e he => ⟨(hV.elem e he).1, fun x hx => key _ _ ((hV.elem e he).2 x hx)⟩,
    fun e he hk => ⟨?_, key _ _ (hV.activeElem e he hk).2⟩, fun e he hk => ⟨(hV.activeData e he hk).1, ?_, key _ _ (hV.activeData e he hk).2.2⟩⟩
  · have := (List.getElem?_eq_some_iff.mp (hV.activeElem e he hk).1).1
    rw [hV.tables, List.length_append, List.length_map, ← (linked_tables hS hL).length_eq] at this
    exact this
  · have := (hV.activeData e he hk).2.1
    rw [hV.mems, ← (linked_mems hS hL).1] at this
    exact this

/-- The allocated instance is well typed, and so is the store. -/
theorem built_ok (hV : ValidModule C d) (hS : StoreOk S m.store) (hL : Linked m.store d extern)
    (hfew : m.store.func.length + d.func.length ≤ 2 ^ 31) (hb : FreshBuffers m.store d bufs) (h : Built m d bufs extern mod m1) :
    ∃ T, S.Le T ∧ StoreOk T m1.store ∧ ModOk T C mod ∧ ∀ e t v, ConstExpr { C with globals := importGlobals d } e t →
      constVal m.store mod.func mod.glob e = some v → ValOk T v t := by
  obtain ⟨fts, h1, h2⟩ := grown_funcs hV hS hL
  have hle := grown_le S d fts
  have hlf : S.funcs.length = m.store.func.length := by rw [← hS.funcs]; simp
  have hn : (grown S d fts).funcs.length ≤ 2 ^ 31 := by
    have := h1.length_eq
    simp only [grown, List.length_append]
    omega
  obtain ⟨xs, _, hmod⟩ := h.inst
  obtain ⟨fs, hfs, hfunc⟩ := h.func
  obtain ⟨gs, hgs, hglob⟩ := h.glob
  obtain ⟨es, hes, helem⟩ := h.elem
  obtain ⟨ds, hds, hdata⟩ := h.data
  have hmf : mod.func = importedFuncs extern ++ addresses m.store.func.length d.func.length := by rw [hmod]; rfl
  have key : ∀ e t v, ConstExpr { C with globals := importGlobals d } e t →
      constVal m.store mod.func (importedGlobs extern) e = some v → ValOk (grown S d fts) v t := by
    intro e t v he hv
    obtain ⟨v', h, hok⟩ := const_ok (C := { C with globals := importGlobals d }) hS hle h2 hn (linked_globs hS hL) he
    rw [hmf, h] at hv
    cases hv
    exact hok
  have hdl : ds.length = d.data.length := by have := hds.length_eq; simpa using this.symm
  have hM : ModOk (grown S d fts) C mod := by
    subst hmod
    refine ⟨hV.types.symm, h2, ?_, ⟨?_, ?_⟩, ?_, ?_, ⟨?_, ?_⟩⟩
    · rw [hV.tables]
      refine f2_append (f2_mono (linked_tables hS hL) fun _ _ => prefix_get hle.tables) ?_
      exact f2_addresses' hS.tables.length_eq (by simp)
    · rw [hV.mems, ← (linked_mems hS hL).1]
      simp [newModule, addresses]
    · intro a ha
      rcases List.mem_append.mp ha with ha | ha
      · exact Nat.lt_of_lt_of_le ((linked_mems hS hL).2 a ha) hle.mems
      · have := List.mem_range'_1.mp ha
        have := hS.mems.1
        simp only [grown]
        omega
    · rw [hV.globals]
      refine f2_append (f2_mono (linked_globs hS hL) fun _ _ => prefix_get hle.globals) ?_
      exact f2_addresses' hS.globals.length_eq (by simp)
    · rw [hV.elems]
      exact f2_addresses' hS.elems.length_eq (by simp)
    · rw [hV.datas]; simp [newModule, addresses]
    · intro a ha
      have := List.mem_range'_1.mp ha
      have := hS.datas.1
      simp only [grown]
      omega
  refine ⟨_, hle, ?_, hM, fun e t v he hv => ?_⟩
  rotate_left
  · obtain ⟨v', h3, hok⟩ := const_ok (C := { C with globals := importGlobals d }) hS hle h2 hn (linked_globs hS hL) he
    have h4 : constVal m.store mod.func mod.glob e = some v' := by
      rw [hmf, hmod]
      exact constVal_mono h3 fun _ _ h => h
    rw [hv] at h4
    cases h4
    exact hok
  refine ⟨?_, ?_, ?_, ?_, ⟨?_, ?_⟩, ?_, ?_, ?_, ?_⟩
  · rw [hfunc, List.map_append, hS.funcs]
    show _ = S.funcs ++ fts
    congr 1
    unfold newFuncs at hfs
    clear h2 hle hn hfunc key hM
    generalize d.func = l at h1 hfs
    induction h1 generalizing fs with
    | nil => cases hfs; rfl
    | cons ha _ ih =>
      cases hfs with
      | cons hb hfs =>
        obtain ⟨t, ht, rfl⟩ := hb
        rw [ha] at ht
        cases ht
        rw [List.map_cons, ih _ hfs]
        rfl
  · intro f hf
    rw [hfunc] at hf
    rcases List.mem_append.mp hf with hf | hf
    · have := hS.code f hf
      cases f with
      | host => exact this
      | wasm t k code =>
        obtain ⟨mod', C', h1, h2, h3⟩ := this
        exact ⟨mod', C', by rw [h.mods]; exact append_getElem? _ h1, h2.mono hle, h3⟩
    · obtain ⟨i, hi⟩ := List.getElem?_of_mem hf
      obtain ⟨fd, h3, t, h4, rfl⟩ := f2_get hfs hi
      exact ⟨mod, C, by rw [h.mods]; simp, hM, hV.code fd (List.mem_of_getElem? h3) t h4⟩
  · rw [hfunc, List.length_append, ← hfs.length_eq]
    exact hfew
  · rw [h.tabl]
    refine f2_append (f2_mono hS.tables fun t ty ht => ⟨ht.1, ht.2.1, fun v hv => (ht.2.2 v hv).mono hle⟩) ?_
    rw [List.forall₂_map_left_iff, List.forall₂_map_right_iff, List.forall₂_same]
    intro t ht
    refine ⟨rfl, hV.table t ht, fun v hv => ?_⟩
    rw [List.eq_of_mem_replicate hv]
    exact valOk_zero _ _
  · rw [h.mems, List.length_append, List.length_map, hS.mems.1]
    rfl
  · intro x hx
    rw [h.mems] at hx
    rcases List.mem_append.mp hx with hx | hx
    · exact hS.mems.2 x hx
    · obtain ⟨l, hl, rfl⟩ := List.mem_map.mp hx
      exact hV.mem l hl
  · rw [hglob]
    refine f2_append (f2_mono hS.globals fun g ty hg => ⟨hg.1, hg.2.mono hle⟩) ?_
    rw [List.forall₂_map_right_iff]
    rw [List.forall₂_iff_get] at hgs ⊢
    refine ⟨hgs.1.symm, fun i hi hi' => ?_⟩
    obtain ⟨v, h3, h4⟩ := hgs.2 i hi' hi
    simp only [List.get_eq_getElem] at h3 h4 ⊢
    rw [h4]
    exact ⟨rfl, key _ _ _ (hV.glob _ (List.getElem_mem _)) h3⟩
  · rw [helem]
    refine f2_append (f2_mono hS.elems fun g ty hg v hv => (hg v hv).mono hle) ?_
    rw [List.forall₂_map_right_iff]
    rw [List.forall₂_iff_get] at hes ⊢
    refine ⟨hes.1.symm, fun i hi hi' v hv => ?_⟩
    obtain ⟨vs, h3, h4⟩ := hes.2 i hi' hi
    simp only [List.get_eq_getElem] at h3 h4 hv ⊢
    rw [h4] at hv
    obtain ⟨j, hj⟩ := List.getElem?_of_mem hv
    obtain ⟨x, h5, h6⟩ := f2_get h3 hj
    exact key _ _ _ ((hV.elem _ (List.getElem_mem _)).2 x (List.mem_of_getElem? h5)) h6
  · rw [hdata, List.length_append, hS.datas.1, hdl]
    rfl
  · intro b hb'
    rw [h.bufs]
    rw [hdata] at hb'
    rcases List.mem_append.mp hb' with hb' | hb'
    · exact hS.datas.2 b hb'
    · obtain ⟨i, hi⟩ := List.getElem?_of_mem hb'
      obtain ⟨p, _, h3⟩ := f2_get hds hi
      obtain ⟨e, _, h4⟩ := f2_get hb.2 h3
      exact (List.getElem?_eq_some_iff.mp h4).1

theorem foldlM_inv {α β : Type} {f : β → α → Option β} {P : β → Prop} {l : List α} {b b' : β} (h : l.foldlM f b = some b') (h0 : P b)
    (hs : ∀ x ∈ l, ∀ b b', P b → f b x = some b' → P b') : P b' := by
  induction l generalizing b with
  | nil => cases h; exact h0
  | cons x l ih =>
    rw [List.foldlM_cons] at h
    obtain ⟨b1, h1, h2⟩ := Option.bind_eq_some_iff.mp h
    exact ih h2 (hs x (by simp) _ _ h0 h1) fun y hy => hs y (by simp [hy])

theorem mapM_mem {α β : Type} {f : α → Option β} {l : List α} {r : List β} (h : l.mapM f = some r) {y : β} (hy : y ∈ r) :
    ∃ x ∈ l, f x = some y := by
  induction l generalizing r with
  | nil => cases h; cases hy
  | cons x l ih =>
    rw [List.mapM_cons] at h
    obtain ⟨b, h1, h2⟩ := Option.bind_eq_some_iff.mp h
    obtain ⟨bs, h3, h4⟩ := Option.bind_eq_some_iff.mp h2
    cases h4
    rcases List.mem_cons.mp hy with rfl | hy
    · exact ⟨x, by simp, h1⟩
    · obtain ⟨x', hx, h5⟩ := ih h3 hy
      exact ⟨x', by simp [hx], h5⟩

theorem segments_ok {T : StoreType} {m0 m2 : Machine} (hV : ValidModule C d) (hT : StoreOk T m1.store) (hM : ModOk T C mod)
    (hc : ∀ e t v, ConstExpr { C with globals := importGlobals d } e t → constVal m0.store mod.func mod.glob e = some v → ValOk T v t)
    (h : Segments m0 d bufs mod m1 m2) : StoreOk T m2.store := by
  have htab : StoreOk T { m1.store with tabl := m2.store.tabl } := by
    refine foldlM_inv (P := fun tabl => StoreOk T { m1.store with tabl := tabl }) h.tabl hT ?_
    intro e he tabl tabl' hP h1
    obtain ⟨he, hk⟩ := List.mem_filter.mp he
    obtain ⟨off, h2, h1⟩ := Option.bind_eq_some_iff.mp h1
    obtain ⟨refs, h3, h1⟩ := Option.bind_eq_some_iff.mp h1
    unfold copyElem at h1
    obtain ⟨a, h4, h1⟩ := Option.bind_eq_some_iff.mp h1
    obtain ⟨t, h5, h1⟩ := Option.bind_eq_some_iff.mp h1
    split at h1
    swap
    · cases h1
    cases h1
    obtain ⟨a', h6, h7⟩ := f2_get hM.tables (hV.activeElem e he (by simpa using hk)).1
    rw [h4] at h6; cases h6
    obtain ⟨ti, h8, h9, h10, h11⟩ := f2_get hP.tables h7
    dsimp only at h8
    rw [h5] at h8; cases h8
    refine hP.setTable (t := { t with elem := patch t.elem off.low32.toNat refs }) h7 h9 h10 fun v hv => ?_
    rcases mem_patch hv with hv | hv
    · exact h11 v hv
    · obtain ⟨x, hx, hv⟩ := mapM_mem h3 hv
      exact hc _ _ _ ((hV.elem e he).2 x hx) hv
  have hmem : m2.store.mems.length = T.mems ∧ ∀ x ∈ m2.store.mems, x.size ≤ 65536 := by
    refine foldlM_inv (P := fun mems => mems.length = T.mems ∧ ∀ x ∈ mems, x.size ≤ 65536) h.mems hT.mems ?_
    intro e he mems mems' hP h1
    obtain ⟨off, h2, h1⟩ := Option.bind_eq_some_iff.mp h1
    unfold copyData at h1
    obtain ⟨a, h4, h1⟩ := Option.bind_eq_some_iff.mp h1
    obtain ⟨t, h5, h1⟩ := Option.bind_eq_some_iff.mp h1
    split at h1
    swap
    · cases h1
    cases h1
    refine ⟨by simpa using hP.1, fun x hx => ?_⟩
    rcases List.mem_or_eq_of_mem_set hx with hx | rfl
    · exact hP.2 x hx
    · exact hP.2 t (List.mem_of_getElem? h5)
  obtain ⟨r1, r2, r3, r4⟩ := h.rest
  refine ⟨by rw [r1]; exact hT.funcs, ?_, by rw [r1]; exact hT.few, htab.tables, hmem, by rw [r2]; exact hT.globals, ?_, by rw [r4]; exact hT.datas.1, ?_⟩
  · intro f hf
    rw [r1] at hf
    have := hT.code f hf
    cases f with
    | host => exact this
    | wasm t k code =>
      obtain ⟨mod', C', h1, h2⟩ := this
      exact ⟨mod', C', by rw [r3]; exact h1, h2⟩
  · have h1 := hT.elems
    have h2 := h.elem
    unfold Shrunk at h2
    generalize m2.store.elem = E at h2 ⊢
    generalize m1.store.elem = E1 at h1 h2
    generalize T.elems = l at h1
    induction h1 generalizing E with
    | nil => cases h2; exact .nil
    | cons ha _ ih =>
      cases h2 with
      | cons hb h2 => exact .cons (fun v hv => ha v (hb v hv)) (ih _ h2)
  · rw [r4, h.bufs]
    exact hT.datas.2

end built

end Pywasm
