import Verif.Lemmas.Init4
import Verif.Spec.Returns

/-!
# C25-C28: linking and instantiation
-/

namespace Pywasm.Props
open Spec M

variable {H : Host} {N : Nat} {m m' : Machine} {d : ModuleDesc} {bufs : List Nat} {extern : List Extern} {mod : ModuleInst}

/-! ### C25 -/

/-- **C25** (Partial: a declared maximum of 0 is recorded as "no maximum", see `C25_max_zero_false`.)
The import check accepts exactly the externs that supply the imports with matching kinds and types. -/
theorem C25_check_partial : linkImports d extern m = .ok () m ↔ Linked m.store d extern := by
  constructor
  · intro h
    by_contra hn
    obtain ⟨e, he⟩ := linkImports_run.2 hn
    rw [h] at he; cases he
  · exact linkImports_run.1

/-- **C25** (Partial in the same way.) When the externs do not match, instantiation raises and nothing has changed. -/
theorem C25_reject_partial (h : ¬ Linked m.store d extern) : ∃ e, instantiate H N d bufs extern m = .error e m := by
  obtain ⟨e, he⟩ := linkImports_run.2 h
  exact ⟨e, by unfold instantiate; exact bind_err he⟩

/-- **C25** An import that the embedder does not supply makes `Runtime.instance` raise with nothing changed. -/
theorem C25_missing {imports : Imports} {i : Import} (hi : i ∈ d.imps)
    (h : (List.lookup i.module imports).bind (List.lookup i.name) = none) :
    ∃ e, Runtime.instance H N imports d bufs m = .error e m := by
  have hlk : ∃ e, (do lookup (← lookup imports i.module) i.name : Except Err Extern) = .error e := by
    unfold lookup
    cases h1 : List.lookup i.module imports with
    | none => exact ⟨_, rfl⟩
    | some x =>
      rw [h1, Option.bind_some] at h
      exact ⟨.key, by simp [bind, Except.bind, h]⟩
  obtain ⟨e, he⟩ := hlk
  have key : ∀ l : List Import, i ∈ l →
      ∃ e, (l.mapM fun e => lift (do lookup (← lookup imports e.module) e.name) : M (List Extern)) m = .error e m := by
    intro l
    induction l with
    | nil => intro h; cases h
    | cons a l ih =>
      intro hmem
      rw [List.mapM_cons]
      cases ha : (do lookup (← lookup imports a.module) a.name : Except Err Extern) with
      | error e => exact ⟨e, rfl⟩
      | ok x =>
        rw [bind_ok (show lift (.ok x : Except Err Extern) m = .ok x m from rfl)]
        rcases List.mem_cons.mp hmem with rfl | hl
        · rw [ha] at he; cases he
        · obtain ⟨e', he'⟩ := ih hl
          exact ⟨e', bind_err he'⟩
  obtain ⟨e', he'⟩ := key _ hi
  exact ⟨e', by unfold Runtime.instance; exact bind_err he'⟩

/-- What `Limits.from_reader` (core.py:834-837) records of a declared minimum and maximum. -/
def recorded (n : Nat) (max : Option Nat) : Limits := ⟨n, max.getD 0⟩

/-- Away from 0, what is recorded is what is declared. -/
theorem maxOf_recorded {n : Nat} {max : Option Nat} (h : max ≠ some 0) : maxOf (recorded n max) = max := by
  cases max with
  | none => rfl
  | some k => unfold maxOf recorded; exact if_neg (by simpa using h)

/-- **C25** is false for a declared maximum of 0: an import declared `(memory 0 0)` is satisfied by a memory of five
pages without a maximum. -/
theorem C25_max_zero_false : ∃ (m : Machine) (x : MemInst), m.store.mems[0]? = some x ∧ x.size = 5 ∧ x.limits = recorded 5 none ∧
    linkImports { imps := [⟨"env", "memory", .mem (recorded 0 (some 0))⟩] } [.mem 0] m = .ok () m ∧
    ¬ LimitsMatch 5 none 0 (some 0) := by
  refine ⟨{ store := { mems := [⟨recorded 5 none, [], 5⟩] } }, ⟨recorded 5 none, [], 5⟩, rfl, rfl, rfl, ?_, ?_⟩
  · exact C25_check_partial.mpr (.cons (.mem rfl ⟨by decide, by intro M' h; simp [maxOf, recorded] at h⟩) .nil)
  · rintro ⟨_, h⟩
    obtain ⟨M, h1, _⟩ := h 0 rfl
    cases h1

/-- A module with one import of each kind. -/
def importer : ModuleDesc where
  type := [⟨[.i32], [.i32]⟩]
  imps := [⟨"env", "f", .func 0⟩, ⟨"env", "t", .table ⟨.funcref, ⟨2, 6⟩⟩⟩, ⟨"env", "m", .mem ⟨1, 3⟩⟩, ⟨"env", "g", .glob ⟨.i32, true⟩⟩]

example : Linked demoStore importer [.func 0, .table 0, .mem 0, .glob 0] :=
  .cons (.func rfl rfl rfl) <| .cons (.table rfl rfl ⟨by decide, fun M' h => by simp [maxOf] at h; subst h; exact ⟨5, rfl, by decide⟩⟩) <|
    .cons (.mem rfl ⟨by decide, fun M' h => by simp [maxOf] at h; subst h; exact ⟨2, rfl, by decide⟩⟩) <| .cons (.glob rfl rfl rfl) .nil
/-- global 1 is not mutable -/
example : ¬ Linked demoStore importer [.func 0, .table 0, .mem 0, .glob 1] := by
  intro h
  unfold Linked importer at h
  cases h with | cons _ h => cases h with | cons _ h => cases h with | cons _ h => cases h with | cons h _ =>
    cases h with | glob h1 _ h3 => cases h1; cases h3

/-! ### C26 -/

/-- Everything `Machine.allocate` did is still there at the end of `Machine.instance`. -/
theorem instantiate_allocated (hH : HostExtends H) : Wp (instantiate H N d bufs extern) (fun mod m' => ∃ m1 : Machine, ∃ fs ts ms gs es ds xs,
      ExtendsUpTo m.store.mods.length m.store m1.store ∧
      List.Forall₂ (fun (f : FuncDesc) x => ∃ t, d.type[f.type]? = some t ∧ x = FuncInst.wasm t m1.store.mods.length f) d.func fs ∧
      List.Forall₂ (fun t x => TableInst.make t = .ok x) d.tabl ts ∧
      List.Forall₂ (fun t x => MemInst.make t = .ok x) d.mems ms ∧
      List.Forall₂ (fun (p : GlobalDesc × Nat) x => ∃ v, x = GlobalInst.mk v p.1.type.isMut) d.glob.zipIdx gs ∧
      List.Forall₂ (fun (e : ExportDesc) (x : ExportInst) => x.name = e.name ∧ exported mod e = some x.data) d.exps xs ∧
      mod = newModule m1.store d extern xs ∧ Extends (stage m1 mod fs ts ms gs es ds).store m'.store) (fun _ => True) m := by
  unfold instantiate
  refine (keeps_linkImports _ _).wp (.refl m.store.mods.length m.store) (fun _ m0 h0 => ?_) (fun _ _ => trivial)
  apply wp_bind
  unfold buildInstance
  apply wp_bind; apply wp_get; apply wp_bind; apply wp_modify
  refine (keeps_mapM _ _ fun _ => keeps_runConst hH _ _).wp (n := m.store.mods.length) (s0 := m.store) h0 (fun gv m1 h1 => ?_) (fun _ _ => trivial)
  refine (keeps_mapM _ _ fun _ => keeps_mapM _ _ fun _ => keeps_runConst hH _ _).wp h1 (fun ev m2 h2 => ?_) (fun _ _ => trivial)
  apply wp_bind; apply wp_modify; apply wp_bind
  refine wp_mono (allocate_wp d bufs extern gv ev) (fun mod m3 h3 => ?_) (fun _ _ => trivial)
  obtain ⟨fs, ts, ms, gs, es, ds, xs, e1, e2, e3, e4, e5, e6, e7, e8, e9⟩ := h3
  apply wp_bind; refine wp_assert (fun _ => ?_) trivial; apply wp_pure
  apply wp_bind; apply wp_modify
  apply wp_bind
  have hall : ∀ {α} {x : M α} {m0 : Machine}, (∀ n, KeepsExt n m3.store x) → (∀ n, ExtendsUpTo n m3.store m0.store) →
      Wp x (fun _ m' => ∀ n, ExtendsUpTo n m3.store m'.store) (fun _ => True) m0 := by
    intro α x m0 hx h0
    have h := fun n => hx n m0 (h0 n)
    unfold Wp at *
    cases hr : x m0 with
    | error e m' => trivial
    | ok a m' => intro n; have := h n; rw [hr] at this; exact this
  refine wp_mono (hall (fun n => keeps_initSegments hH N d bufs) (fun n => .refl _ _)) (fun _ m4 h4 => ?_) (fun _ h => h)
  apply wp_bind
  refine wp_mono (hall (fun n => keeps_runStart hH N d) h4) (fun _ m5 h5 => ?_) (fun _ h => h)
  apply wp_bind; apply wp_modify; apply wp_pure
  refine ⟨{ m2 with frame := m2.frame.tail }, fs, ts, ms, gs, es, ds, xs, h2, e1, e2, e3, forall₂_imp' e4 fun _ _ ⟨v, _, h⟩ => ⟨v, h⟩, e7, e8, ?_⟩
  intro n
  rw [← e9]
  exact h5 n

/-- **C26** After a successful instantiation each index space consists of the imports, in order, followed by the module's
own definitions at consecutive new store addresses, and these addresses hold what the module declared. -/
theorem C26_index_spaces (hH : HostExtends H) (h : instantiate H N d bufs extern m = .ok mod m') :
    ∃ s : Store, ExtendsUpTo m.store.mods.length m.store s ∧ mod.type = d.type ∧
      mod.func = importedFuncs extern ++ addresses s.func.length d.func.length ∧
      mod.tabl = importedTables extern ++ addresses s.tabl.length d.tabl.length ∧
      mod.mems = importedMems extern ++ addresses s.mems.length d.mems.length ∧
      mod.glob = importedGlobs extern ++ addresses s.glob.length d.glob.length ∧
      (∀ (i : Nat) f, d.func[i]? = some f → ∃ t k, d.type[f.type]? = some t ∧
        m'.store.func[s.func.length + i]? = some (.wasm t k f) ∧ m'.store.mods[k]? = some mod) ∧
      (∀ (i : Nat) t, d.tabl[i]? = some t → ∃ x, m'.store.tabl[s.tabl.length + i]? = some x ∧ x.type = t) ∧
      (∀ (i : Nat) l, d.mems[i]? = some l → ∃ x, m'.store.mems[s.mems.length + i]? = some x ∧ x.limits = l) ∧
      (∀ (i : Nat) g, d.glob[i]? = some g → ∃ x, m'.store.glob[s.glob.length + i]? = some x ∧ x.isMut = g.type.isMut) := by
  have hw := instantiate_allocated (m := m) (N := N) (d := d) (bufs := bufs) (extern := extern) hH
  unfold Wp at hw
  rw [h] at hw
  obtain ⟨m1, fs, ts, ms, gs, es, ds, xs, h0, h1, h2, h3, h4, h5, h6, h7⟩ := hw
  have nth : ∀ {α β} {R : α → β → Prop} {l : List α} {r s : List β}, List.Forall₂ R l r → ∀ (i : Nat) a, l[i]? = some a →
      ∃ b, (s ++ r)[s.length + i]? = some b ∧ R a b := by
    intro α β R l r s hlr i a ha
    obtain ⟨hi, rfl⟩ := List.getElem?_eq_some_iff.mp ha
    have hlen := hlr.length_eq
    refine ⟨r[i], ?_, ?_⟩
    · rw [List.getElem?_append_right (by omega), Nat.add_sub_cancel_left, List.getElem?_eq_getElem]
    · exact (List.forall₂_iff_get.mp hlr).2 i hi (by omega)
  refine ⟨m1.store, h0, by rw [h6]; rfl, by rw [h6]; rfl, by rw [h6]; rfl, by rw [h6]; rfl, by rw [h6]; rfl, ?_, ?_, ?_, ?_⟩
  · intro i f hf
    obtain ⟨x, hx, t, ht, rfl⟩ := nth (s := m1.store.func) h1 i f hf
    refine ⟨t, m1.store.mods.length, ht, (h7 0).func _ _ hx, ?_⟩
    exact (h7 (m1.store.mods.length + 1)).mods _ _ (Nat.lt_succ_self _) (by simp [stage])
  · intro i t ht
    obtain ⟨x, hx, hxt⟩ := nth (s := m1.store.tabl) h2 i t ht
    obtain ⟨y, hy, hy2, _⟩ := (h7 0).tabl _ _ hx
    exact ⟨y, hy, by rw [hy2, table_make_eq hxt]; rfl⟩
  · intro i t ht
    obtain ⟨x, hx, hxt⟩ := nth (s := m1.store.mems) h3 i t ht
    obtain ⟨y, hy, hy2, _⟩ := (h7 0).mems _ _ hx
    exact ⟨y, hy, by rw [hy2, mem_make_eq hxt]; rfl⟩
  · intro i g hg
    obtain ⟨x, hx, v, rfl⟩ := nth (s := m1.store.glob) h4 i (g, i) (by simp [List.getElem?_zipIdx, hg])
    obtain ⟨y, hy, hy2, _⟩ := (h7 0).glob _ _ hx
    exact ⟨y, hy, hy2⟩

/-- **C26** The exports of the instance are the declared ones, in order, each denoting the entity at the declared index. -/
theorem C26_exports (hH : HostExtends H) (h : instantiate H N d bufs extern m = .ok mod m') :
    List.Forall₂ (fun (e : ExportDesc) (x : ExportInst) => x.name = e.name ∧ exported mod e = some x.data) d.exps mod.exps := by
  have hw := instantiate_allocated (m := m) (N := N) (d := d) (bufs := bufs) (extern := extern) hH
  unfold Wp at hw
  rw [h] at hw
  obtain ⟨m1, fs, ts, ms, gs, es, ds, xs, _, _, _, _, _, h5, h6, _⟩ := hw
  rw [show mod.exps = xs by rw [h6]; rfl]
  exact h5

/-- **C26** Looking up a name finds the first export declared with it, and fails if there is none. -/
theorem C26_lookup (hH : HostExtends H) (h : instantiate H N d bufs extern m = .ok mod m') (name : String) :
    match d.exps.find? (fun e => e.name = name) with
    | some e => ∃ x, exported mod e = some x ∧ findExport mod name = .ok x
    | none => ∃ e, findExport mod name = .error e := by
  have hx := C26_exports hH h
  unfold findExport
  generalize mod.exps = xs at hx
  generalize d.exps = es at hx
  induction hx with
  | nil => exact ⟨_, rfl⟩
  | @cons e x es xs h1 _ ih =>
    by_cases hn : e.name = name
    · rw [List.find?_cons_of_pos (by simpa using hn), List.filter_cons_of_pos (by simpa [h1.1] using hn)]
      exact ⟨_, h1.2, rfl⟩
    · rw [List.find?_cons_of_neg (by simpa using hn), List.filter_cons_of_neg (by simpa [h1.1] using hn)]
      exact ih

/-! ### C27 -/

/-- The initial state of an instance. -/
structure Initialised (s : Store) (d : ModuleDesc) (extern : List Extern) (mod : ModuleInst) (s' : Store) : Prop where
  /-- globals have the value of their initialiser -/
  glob : ∃ gs, s'.glob = s.glob ++ gs ∧ List.Forall₂ (fun (g : GlobalDesc) x =>
    constVal s mod.func (importedGlobs extern) g.init = some x.data ∧ x.isMut = g.type.isMut) d.glob gs
  /-- tables and memories are new ones with the active segments copied in order -/
  tabl : initElems s mod d (s.tabl ++ d.tabl.map freshTable) = some s'.tabl
  mems : initDatas s mod d (s.mems ++ d.mems.map freshMem) = some s'.mems

/-- **C27** If instantiation of a validated module succeeds then the machine went through a state in which globals hold the
value of their initialiser and the active segments have been copied, in order, to their evaluated offsets within bounds;
without a start function this is the final state, otherwise the start function ran from it, last. -/
theorem C27_initialised (hc : Clean m) (hd : ValidInit m.store d extern) (hb : FreshBuffers m.store d bufs)
    (h : instantiate H N d bufs extern m = .ok mod m') :
    ∃ s, Initialised m.store d extern mod s ∧
      match d.star with
      | none => m' = ⟨s, [], [], []⟩
      | some f => ∃ m2, evaluate H N ⟨s, [], [⟨1, 1, 0, .block, [.call f], 0⟩], [⟨mod, [], 0, 0, 0⟩]⟩ = .ok () m2 ∧
          m2.label = [] ∧ m2.value = [] ∧ m2.frame.length = 1 ∧ m' = ⟨m2.store, [], [], []⟩ := by
  have hw := instantiate_wp (H := H) (N := N) hc hd hb
  unfold Wp at hw
  rw [h] at hw
  obtain ⟨_, m1, m2, h1, h2, m3, h3, rfl⟩ := hw
  refine ⟨m2.store, ⟨?_, ?_, ?_⟩, ?_⟩
  · obtain ⟨gs, hg1, hg2⟩ := h1.glob
    refine ⟨gs, by rw [h2.rest.2.1]; exact hg2, forall₂_imp' hg1 ?_⟩
    rintro g x ⟨v, h4, rfl⟩
    exact ⟨h4, rfl⟩
  · have := h2.tabl; simp only [h1.tabl] at this; exact this
  · have := h2.mems; simp only [h1.mems] at this; exact this
  · have hm2 : m2 = ⟨m2.store, [], [], [⟨mod, [], 0, 0, 0⟩]⟩ := by
      have a1 := h2.frame
      simp only [h1.frame, hc.1] at a1
      have a2 := h2.label
      have a3 := h2.value
      obtain ⟨s, v, l, f⟩ := m2
      simp only at a1 a2 a3 ⊢
      rw [a1, a2, a3]
    cases hs : d.star with
    | none =>
      simp only [runStart, hs] at h3
      cases h3
      simp only
      rw [hm2]; rfl
    | some f =>
      simp only [runStart, hs] at h3
      unfold runInit at h3
      rw [bind_modify_run] at h3
      have hm3 : { m2 with label := ⟨1, 1, 0, .block, [Inst.call f], 0⟩ :: m2.label } =
          ⟨m2.store, [], [⟨1, 1, 0, .block, [.call f], 0⟩], [⟨mod, [], 0, 0, 0⟩]⟩ := by rw [hm2]
      rw [hm3] at h3
      simp only
      cases he : evaluate H N ⟨m2.store, [], [⟨1, 1, 0, .block, [.call f], 0⟩], [⟨mod, [], 0, 0, 0⟩]⟩ with
      | error e m4 => rw [bind_err he] at h3; cases h3
      | ok _ m4 =>
        rw [bind_ok he, bind_get_run] at h3
        by_cases hf : m4.frame.length = 1
        · rw [bind_assert_pos hf, bind_get_run] at h3
          cases hl : m4.label with
          | cons _ _ => rw [hl] at h3; cases h3
          | nil =>
            rw [hl] at h3
            have h5 : (if m4.value.length = 0 then (.ok () m4 : EStateM.Result Err Machine Unit) else .error .assertion m4) = .ok () m3 := by
              rw [← assert_decide]; exact h3
            by_cases hv : m4.value.length = 0
            · rw [if_pos hv] at h5
              injection h5 with _ h5
              subst h5
              have hv' := List.eq_nil_of_length_eq_zero hv
              refine ⟨m4, rfl, hl, hv', hf, ?_⟩
              obtain ⟨s, v, l, f⟩ := m4
              simp only at hl hv' hf ⊢
              subst hl hv'
              obtain ⟨f0, rfl⟩ := List.length_eq_one_iff.mp hf
              rfl
            · rw [if_neg hv] at h5; cases h5
        · rw [bind_assert_neg hf] at h3; cases h3

/-- **C27** A data segment that does not fit makes instantiation raise. -/
theorem C27_data_misfit (hc : Clean m) (hd : ValidInit m.store d extern) (hb : FreshBuffers m.store d bufs)
    (h : ∀ mod, mod.mems = importedMems extern ++ addresses m.store.mems.length d.mems.length →
      mod.func = importedFuncs extern ++ addresses m.store.func.length d.func.length →
      mod.glob = importedGlobs extern ++ addresses m.store.glob.length d.glob.length →
      initDatas m.store mod d (m.store.mems ++ d.mems.map freshMem) = none) :
    ∃ e m', instantiate H N d bufs extern m = .error e m' := by
  cases hi : instantiate H N d bufs extern m with
  | error e m' => exact ⟨e, m', rfl⟩
  | ok mod m' =>
    have hw := instantiate_wp (H := H) (N := N) hc hd hb
    unfold Wp at hw
    rw [hi] at hw
    obtain ⟨_, m1, m2, h1, h2, _⟩ := hw
    obtain ⟨xs, _, hmod⟩ := h1.inst
    have h3 := h mod (by rw [hmod]; rfl) (by rw [hmod]; rfl) (by rw [hmod]; rfl)
    have h4 := h2.mems
    simp only [h1.mems] at h4
    rw [h3] at h4; cases h4

/-- **C27** An element segment that does not fit makes instantiation raise. -/
theorem C27_elem_misfit (hc : Clean m) (hd : ValidInit m.store d extern) (hb : FreshBuffers m.store d bufs)
    (h : ∀ mod, mod.tabl = importedTables extern ++ addresses m.store.tabl.length d.tabl.length →
      mod.func = importedFuncs extern ++ addresses m.store.func.length d.func.length →
      mod.glob = importedGlobs extern ++ addresses m.store.glob.length d.glob.length →
      initElems m.store mod d (m.store.tabl ++ d.tabl.map freshTable) = none) :
    ∃ e m', instantiate H N d bufs extern m = .error e m' := by
  cases hi : instantiate H N d bufs extern m with
  | error e m' => exact ⟨e, m', rfl⟩
  | ok mod m' =>
    have hw := instantiate_wp (H := H) (N := N) hc hd hb
    unfold Wp at hw
    rw [hi] at hw
    obtain ⟨_, m1, m2, h1, h2, _⟩ := hw
    obtain ⟨xs, _, hmod⟩ := h1.inst
    have h3 := h mod (by rw [hmod]; rfl) (by rw [hmod]; rfl) (by rw [hmod]; rfl)
    have h4 := h2.tabl
    simp only [h1.tabl] at h4
    rw [h3] at h4; cases h4

/-! ### Examples -/

/-- The buffers of a module that has just been decoded are fresh. -/
theorem fresh_loadBuffers {m0 : Machine} (h : loadBuffers d m = .ok bufs m0) : FreshBuffers m0.store d bufs := by
  unfold loadBuffers at h
  cases h
  refine ⟨?_, ?_⟩
  · exact List.nodup_range.map fun _ _ h => Nat.add_left_cancel h
  · rw [List.forall₂_iff_get]
    refine ⟨by simp, fun i h1 h2 => ?_⟩
    simp [List.getElem?_append_right, List.getElem?_map, List.getElem?_eq_getElem h1]

/-- A module with a table, an element segment, a global and a start function that sets it. -/
def initDemo : ModuleDesc where
  type := [⟨[], []⟩]
  func := [⟨0, [], [.i32Const 8, .globalSet 0]⟩]
  tabl := [⟨.funcref, ⟨2, 3⟩⟩]
  glob := [⟨⟨.i32, true⟩, [.i32Const 7]⟩]
  elem := [⟨0, .funcref, 0, [.i32Const 1], [[.refFunc 0]]⟩, ⟨0, .funcref, 0, [.i32Const 0], [[.refNull 0x70]]⟩]
  data := [⟨1, [], [1]⟩]
  mems := [⟨0, 0⟩]
  exps := [⟨"g", .glob, 0⟩, ⟨"t", .table, 0⟩]

/-- Decode and instantiate on an empty machine. -/
def runDemo (d : ModuleDesc) : Option (ModuleInst × Store) :=
  match (do let b ← loadBuffers d; instantiate noHost 1000 d b [] : M ModuleInst) {} with
  | .ok mod m => some (mod, m.store)
  | .error _ _ => none

example : ValidInit {} initDemo [] := by
  refine ⟨?_, ?_, ?_, ?_⟩
  · intro g hg; simp [initDemo] at hg; subst hg; exact ⟨_, rfl⟩
  · intro e he; simp [initDemo] at he; rcases he with rfl | rfl
    · exact ⟨by decide, fun x hx => by simp at hx; subst hx; exact ⟨_, rfl⟩⟩
    · exact ⟨by decide, fun x hx => by simp at hx; subst hx; exact ⟨_, rfl⟩⟩
  · intro e he _; simp [initDemo] at he; rcases he with rfl | rfl <;> exact ⟨by decide, _, rfl⟩
  · intro e he h; simp [initDemo] at he; subst he; simp at h
example : (runDemo initDemo).map (fun p => (p.2.glob.map (·.data), p.2.tabl.map (·.elem))) =
    some ([i32 7], [[Val.zero .funcref, ref0]]) := by decide +kernel
example : (runDemo { initDemo with star := some 0 }).map (fun p => p.2.glob.map (·.data)) = some [i32 8] := by decide +kernel
/-- The second segment does not fit. -/
example : (runDemo { initDemo with elem := initDemo.elem ++ [⟨0, .funcref, 0, [.i32Const 2], [[.refFunc 0]]⟩] }).isNone = true := by
  decide +kernel

/-- A module with a memory and two overlapping active data segments. -/
def dataDemo : ModuleDesc where
  mems := [⟨1, 0⟩]
  data := [⟨0, [.i32Const 3], [97, 98, 99]⟩, ⟨0, [.i32Const 4], [100]⟩]

theorem dataDemo_valid (s : Store) : ValidInit s dataDemo [] := by
  refine ⟨by simp [dataDemo], by simp [dataDemo], by simp [dataDemo], ?_⟩
  intro e he _; simp [dataDemo] at he; rcases he with rfl | rfl <;> exact ⟨by decide, by decide, _, rfl⟩

/-- The later segment wins where the two overlap. -/
example (hc : Clean m) (h1 : loadBuffers dataDemo m = .ok bufs m') {m2 : Machine} (h : instantiate H N dataDemo bufs [] m' = .ok mod m2) :
    m2.store.mems = m'.store.mems ++ [⟨⟨1, 0⟩, [0, 0, 0, 97, 100, 99] ++ List.replicate (65536 - 6) 0, 1⟩] := by
  have hc' : Clean m' := by unfold loadBuffers at h1; cases h1; exact hc
  have hw := instantiate_wp (H := H) (N := N) hc' (dataDemo_valid _) (fresh_loadBuffers h1)
  unfold Wp at hw
  rw [h] at hw
  obtain ⟨_, m3, m4, h3, h4, m5, h5, rfl⟩ := hw
  obtain ⟨xs, _, hmod⟩ := h3.inst
  have h6 := h4.mems
  simp only [h3.mems] at h6
  have e1 : mod.mems[0]? = some m'.store.mems.length := by rw [hmod]; rfl
  have e2 : ∀ x : MemInst, (m'.store.mems ++ [x])[m'.store.mems.length]? = some x := fun x => by simp
  have e3 : ∀ x y : MemInst, (m'.store.mems ++ [x]).set m'.store.mems.length y = m'.store.mems ++ [y] := fun x y => by simp
  have c3 : constVal m'.store mod.func mod.glob [.i32Const 3] = some (i32 3) := rfl
  have c4 : constVal m'.store mod.func mod.glob [.i32Const 4] = some (i32 4) := rfl
  have z3 : (i32 3).low32.toNat = 3 := by decide
  have z4 : (i32 4).low32.toNat = 4 := by decide
  obtain ⟨z, hz⟩ : ∃ z, z = List.replicate 65530 (0 : UInt8) := ⟨_, rfl⟩
  rw [show List.replicate (65536 - 6) (0 : UInt8) = z from hz.symm]
  have hr : List.replicate 65536 (0 : UInt8) = [0, 0, 0, 0, 0, 0] ++ z := by
    rw [hz, show (65536 : Nat) = 6 + 65530 from rfl, ← List.replicate_append_replicate]
    rfl
  simp only [initDatas, dataDemo, List.filter_cons, List.filter_nil, Nat.zero_mod, decide_true, if_true, List.foldlM_cons, List.foldlM_nil,
    List.map_cons, List.map_nil, freshMem, Nat.mul_one, hr, c3, c4, Option.bind_some, z3, z4, copyData, e1, e2] at h6
  rw [if_pos (by simp)] at h6
  simp only [Option.bind_eq_bind, Option.bind_some, e3, e2] at h6
  rw [if_pos (by simp [patch])] at h6
  simp only [Option.bind_some, Option.pure_def, Option.some.injEq] at h6
  cases h5
  simp only
  rw [← h6]
  simp [patch]
  apply List.ext_getElem <;> simp

/-! ### C28 -/

/-- A loop that looks at its elements only through `φ`. -/
theorem forIn_map' {α β} (φ : α → β) (g : β → PUnit → M (ForInStep PUnit)) (l : List α) :
    forIn l PUnit.unit (fun a r => g (φ a) r) = forIn (l.map φ) PUnit.unit g := by
  induction l with
  | nil => rfl
  | cons a l ih =>
    rw [List.map_cons, List.forIn_cons, List.forIn_cons]
    refine bind_congr fun x => ?_
    cases x with
    | done b => rfl
    | yield b => exact ih

/-- The instantiation only looks at the buffers of the data segments, not at the decoded contents. -/
theorem instantiate_data {data' : List DataDesc} (h : data'.map (fun e => (e.kind, e.offset)) = d.data.map (fun e => (e.kind, e.offset))) :
    instantiate H N d bufs extern = instantiate H N { d with data := data' } bufs extern := by
  have hz : d.data.zipIdx.map (fun p => ((p.1.kind, p.1.offset), p.2)) = data'.zipIdx.map (fun p => ((p.1.kind, p.1.offset), p.2)) := by
    have e : ∀ l : List DataDesc, l.zipIdx.map (fun p => ((p.1.kind, p.1.offset), p.2)) = (l.map (fun e => (e.kind, e.offset))).zipIdx := by
      intro l
      rw [List.zipIdx_map]; rfl
    rw [e, e, h]
  have hseg : initSegments H N d bufs = initSegments H N { d with data := data' } bufs := by
    unfold initSegments
    simp only
    congr 1; funext _; congr 1; funext _; congr 1
    have := forIn_map' (fun (p : DataDesc × Nat) => ((p.1.kind, p.1.offset), p.2))
      (fun (p : (Nat × Expr) × Nat) (_ : PUnit) => (if p.1.1 % 2 = 0 then (do
              let b ← idx bufs p.2
              let init ← idx (← get).store.bufs b
              runInit H N (p.1.2 ++ [.i32Const 0, .i32Const init.length, .memoryInit p.2, .dataDrop p.2]) 0; pure (ForInStep.yield PUnit.unit))
            else pure (ForInStep.yield PUnit.unit) : M (ForInStep PUnit)))
    refine ((this d.data.zipIdx).trans ?_).trans (this data'.zipIdx).symm
    rw [hz]
  have hall : ∀ a b, allocate d bufs extern a b = allocate { d with data := data' } bufs extern a b := by
    intro a b
    unfold allocate
    simp only
    congr 1; funext _; congr 1; funext _; congr 1; funext _; congr 1; funext _; congr 1; funext _; congr 1; funext _
    congr 1; funext _; congr 1; funext _; congr 1
    rename_i k _ _ _ _ _ _ _
    have := forIn_map' (fun (p : DataDesc × Nat) => ((p.1.kind, p.1.offset), p.2))
      (fun (p : (Nat × Expr) × Nat) (_ : PUnit) => (do
              let addr ← allocateData (← idx bufs p.2)
              editMod k.store.mods.length (fun i => { i with data := i.data ++ [addr] }); pure (ForInStep.yield PUnit.unit) : M (ForInStep PUnit)))
    refine ((this d.data.zipIdx).trans ?_).trans (this data'.zipIdx).symm
    rw [hz]
  have hbuild : buildInstance H N d bufs extern = buildInstance H N { d with data := data' } bufs extern := by
    unfold buildInstance
    simp only [hall]
  unfold instantiate
  rw [hseg, hbuild]
  rfl

theorem set_same {α} {l : List α} {a : Nat} {t : α} (h : l[a]? = some t) : l.set a t = l := by
  obtain ⟨h1, rfl⟩ := List.getElem?_eq_some_iff.mp h
  exact List.set_getElem_self h1

theorem patch_nil {α} (l : List α) (k : Nat) : patch l k [] = l := by
  apply List.ext_getElem <;> simp [patch]

/-- **C28** is false.  Instantiating a decoded module empties the buffers of its active data segments (`data.drop` clears
the `bytearray` that the instance shares with the `ModuleDesc`), so a second instance of the same decoded module gets
none of its data: no active segment writes anything. -/
theorem C28_second_instance_false {mod1 mod2 : ModuleInst} {m1 m2 : Machine} (hc : Clean m) (hd : ValidInit m.store d extern)
    (hb : FreshBuffers m.store d bufs) (hs : d.star = none)
    (h1 : instantiate H N d bufs extern m = .ok mod1 m1) {extern2 : List Extern} (hd2 : ValidInit m1.store d extern2)
    (h2 : instantiate H N d bufs extern2 m1 = .ok mod2 m2) :
    m2.store.mems = m1.store.mems ++ d.mems.map freshMem := by
  have hw := instantiate_wp (H := H) (N := N) hc hd hb
  unfold Wp at hw
  rw [h1] at hw
  obtain ⟨_, n1, n2, e1, e2, n3, e3, rfl⟩ := hw
  simp only [runStart, hs] at e3
  cases e3
  -- the second instantiation is that of a module with empty active segments
  have hdata : (d.data.map fun e => { e with init := if e.kind % 2 = 0 then [] else e.init }).map (fun e => (e.kind, e.offset)) =
      d.data.map (fun e => (e.kind, e.offset)) := by
    rw [List.map_map]; rfl
  rw [instantiate_data hdata] at h2
  set d' : ModuleDesc := { d with data := d.data.map fun e => { e with init := if e.kind % 2 = 0 then [] else e.init } } with hd'
  have hc' : Clean { n2 with frame := n2.frame.tail } := by
    refine ⟨?_, e2.label, e2.value⟩
    simp only [e2.frame, e1.frame, hc.1, List.tail_cons]
  have hb' : FreshBuffers n2.store d' bufs := by
    refine ⟨hb.1, ?_⟩
    have hlen := hb.2.length_eq
    rw [List.forall₂_iff_get]
    refine ⟨by simpa [hd'] using hlen, fun i a b => ?_⟩
    simp only [hd', List.length_map] at a
    have := e2.dropped i (bufs[i]'b) (d.data[i]'a) (List.getElem?_eq_getElem a) (List.getElem?_eq_getElem b)
    simp only [hd', List.get_eq_getElem, List.getElem_map]
    exact this
  have hv' : ValidInit n2.store d' extern2 := by
    refine ⟨hd2.glob, hd2.elem, hd2.active, ?_⟩
    intro e he hk
    simp only [hd', List.mem_map] at he
    obtain ⟨e0, he0, rfl⟩ := he
    have := hd2.data e0 he0 hk
    refine ⟨?_, this.2⟩
    simp only at hk ⊢
    rw [if_pos hk]; decide
  have hw := instantiate_wp (H := H) (N := N) hc' hv' hb'
  unfold Wp at hw
  rw [h2] at hw
  obtain ⟨_, p1, p2, f1, f2, p3, f3, rfl⟩ := hw
  have hs' : d'.star = none := hs
  simp only [runStart, hs'] at f3
  cases f3
  have hm := f2.mems
  simp only [f1.mems] at hm
  have hz : ∀ (l : List DataDesc) (M M' : List MemInst), (∀ e ∈ l, e.init = []) →
      l.foldlM (dataStep n2.store mod2) M = some M' → M' = M := by
    intro l
    induction l with
    | nil => intro M M' _ h; simp at h; exact h.symm
    | cons e l ih =>
      intro M M' hl h
      rw [List.foldlM_cons] at h
      cases hst : dataStep n2.store mod2 M e with
      | none => rw [hst] at h; cases h
      | some M1 =>
        rw [hst] at h
        have := ih M1 M' (fun e he => hl e (by simp [he])) h
        rw [this]
        unfold dataStep copyData at hst
        rw [hl e (by simp)] at hst
        simp only [Option.bind_eq_some_iff] at hst
        obtain ⟨off, _, a, ha, t, ht, hst⟩ := hst
        split at hst
        · simp only [Option.some.injEq, patch_nil] at hst
          rw [← hst]
          exact set_same ht
        · cases hst
  refine hz _ _ _ ?_ hm
  intro e he
  rw [List.mem_filter] at he
  simp only [hd', List.mem_map] at he
  obtain ⟨⟨e0, _, rfl⟩, hk⟩ := he
  simp only at hk ⊢
  rw [if_pos (by simpa using hk)]

/-- **C28** (Partial: for modules without active data segments and without a start function.)  Then the decoded module is not touched by
instantiation, so a second instance of the same decoded module starts from the initial state that the module describes as well. -/
theorem C28_passive_partial {mod1 : ModuleInst} {m1 : Machine} (hc : Clean m) (hd : ValidInit m.store d extern)
    (hb : FreshBuffers m.store d bufs) (hs : d.star = none) (hp : ∀ e ∈ d.data, e.kind % 2 ≠ 0)
    (h1 : instantiate H N d bufs extern m = .ok mod1 m1) :
    Clean m1 ∧ FreshBuffers m1.store d bufs ∧
      ∀ N extern2 mod2 m2, ValidInit m1.store d extern2 → instantiate H N d bufs extern2 m1 = .ok mod2 m2 →
        Initialised m1.store d extern2 mod2 m2.store := by
  have hw := instantiate_wp (H := H) (N := N) hc hd hb
  unfold Wp at hw
  rw [h1] at hw
  obtain ⟨_, n1, n2, e1, e2, n3, e3, rfl⟩ := hw
  simp only [runStart, hs] at e3
  cases e3
  have hc' : Clean { n2 with frame := n2.frame.tail } := by
    refine ⟨?_, e2.label, e2.value⟩
    simp only [e2.frame, e1.frame, hc.1, List.tail_cons]
  have hb' : FreshBuffers n2.store d bufs := by
    refine ⟨hb.1, ?_⟩
    rw [List.forall₂_iff_get]
    refine ⟨hb.2.length_eq, fun i a b => ?_⟩
    have := e2.dropped i (bufs[i]'b) (d.data[i]'a) (List.getElem?_eq_getElem a) (List.getElem?_eq_getElem b)
    rw [if_neg (hp _ (List.getElem_mem a))] at this
    exact this
  refine ⟨hc', hb', fun N extern2 mod2 m2 hd2 h2 => ?_⟩
  obtain ⟨s, h3, h4⟩ := C27_initialised hc' hd2 hb' h2
  rw [hs] at h4
  subst h4
  exact h3

/-- A module with a passive data segment, a function that drops it and one that reads it. -/
def passiveDemo : ModuleDesc where
  type := [⟨[], []⟩]
  func := [⟨0, [], [.dataDrop 0]⟩, ⟨0, [], [.i32Const 0, .i32Const 1, .i32Const 0, .memoryInit 0]⟩]
  mems := [⟨0, 0⟩]
  data := [⟨1, [], [1]⟩]
  exps := [⟨"drop", .func, 0⟩, ⟨"read", .func, 1⟩]

/-- Make two instances of one decoded module; call `drop` on the first if `b`; then `read` on the second. -/
def twoInstances (b : Bool) : M (List HVal) := do
  let bufs ← loadBuffers passiveDemo
  let i1 ← instantiate noHost 100 passiveDemo bufs []
  let i2 ← instantiate noHost 100 passiveDemo bufs []
  if b then let _ ← Runtime.invocate noHost 100 i1 "drop" []
  Runtime.invocate noHost 100 i2 "read" []

/-- **C28** is false for passive segments too: `data.drop` in one instance drops the segment of the other. -/
theorem C28_passive_false : (∃ m, twoInstances false {} = .ok [] m) ∧ (∃ e m, twoInstances true {} = .error e m) := by
  have h1 : (match twoInstances false {} with | .ok l _ => decide (l = []) | .error _ _ => false) = true := by decide +kernel
  have h2 : (match twoInstances true {} with | .ok _ _ => false | .error _ _ => true) = true := by decide +kernel
  constructor
  · cases hx : twoInstances false {} with
    | ok l m => rw [hx] at h1; simp only [decide_eq_true_eq] at h1; exact ⟨m, by rw [h1]⟩
    | error e m => rw [hx] at h1; cases h1
  · cases hx : twoInstances true {} with
    | ok l m => rw [hx] at h2; cases h2
    | error e m => exact ⟨e, m, rfl⟩

/-- **C28** (Partial: only when the module is decoded again for each instance.)  Then each instance starts from the
initial state the module describes, and its passive segments hold their decoded contents, whatever the machine has been
used for before. -/
theorem C28_decoded_again_partial {m0 : Machine} (hc : Clean m) (h0 : loadBuffers d m = .ok bufs m0)
    (hd : ValidInit m0.store d extern) (hs : d.star = none) (h : instantiate H N d bufs extern m0 = .ok mod m') :
    Initialised m0.store d extern mod m'.store ∧
      ∀ (k : Nat) e, d.data[k]? = some e → e.kind % 2 ≠ 0 → ∃ a b, mod.data[k]? = some a ∧ m'.store.data[a]? = some b ∧
        m'.store.bufs[b]? = some e.init := by
  have hc0 : Clean m0 := by unfold loadBuffers at h0; cases h0; exact hc
  have hb := fresh_loadBuffers h0
  obtain ⟨s, h1, h2⟩ := C27_initialised hc0 hd hb h
  rw [hs] at h2
  subst h2
  refine ⟨h1, fun k e hk hp => ?_⟩
  have hw := instantiate_wp (H := H) (N := N) hc0 hd hb
  unfold Wp at hw
  rw [h] at hw
  obtain ⟨_, m1, m2, e1, e2, m3, e3, e4⟩ := hw
  simp only [runStart, hs] at e3
  cases e3
  obtain ⟨xs, _, hmod⟩ := e1.inst
  obtain ⟨ds, hds, hdata⟩ := e1.data
  have hk' : k < d.data.length := (List.getElem?_eq_some_iff.mp hk).1
  have hlen := hds.length_eq
  simp only [List.length_zipIdx] at hlen
  have h3 := (List.forall₂_iff_get.mp hds).2 k (by simpa using hk') (by omega)
  simp only [List.get_eq_getElem, List.getElem_zipIdx, Nat.zero_add] at h3
  have es : s = m2.store := by injection e4
  subst es
  refine ⟨m0.store.data.length + k, ds[k], ?_, ?_, ?_⟩
  · rw [hmod]; exact addresses_get hk'
  · rw [e2.rest.2.2.2]
    simp [hdata, List.getElem?_append_right, List.getElem?_eq_getElem (show k < ds.length by omega)]
  · have := e2.dropped k _ e hk h3
    rw [if_neg hp] at this
    exact this

/-! ## The hypotheses are met -/

theorem noHost_grows : HostExtends noHost := by
  refine fun c mod args s => ⟨fun r s' h => ?_, fun e s' h n => ?_⟩
  · cases h
  · cases h; exact .refl _ _
example := C25_reject_partial (H := noHost) (N := 9) (m := { store := demoStore }) (d := importer) (bufs := [])
  (extern := [.func 0, .table 0, .mem 0, .glob 1]) (by
    intro h
    unfold Linked importer at h
    cases h with | cons _ h => cases h with | cons _ h => cases h with | cons _ h => cases h with | cons h _ =>
      cases h with | glob h1 _ h3 => cases h1; cases h3)
example := C25_missing (H := noHost) (N := 9) (m := { store := demoStore }) (d := importer) (bufs := [])
  (imports := [("env", [("f", .func 0)])]) (i := ⟨"env", "t", .table ⟨.funcref, ⟨2, 6⟩⟩⟩) (by simp [importer]) rfl
/-- `initDemo` is instantiated on the empty machine with its one data segment in buffer 0. -/
def initRun : EStateM.Result Err Machine ModuleInst := instantiate noHost 1000 initDemo [0] [] { store := { bufs := [[1]] } }
theorem initRun_ok : ∃ mod m', initRun = .ok mod m' :=
  returns (x := instantiate noHost 1000 initDemo [0] []) (m := { store := { bufs := [[1]] } }) (by decide +kernel)
theorem initDemo_valid : ValidInit { bufs := [[1]] } initDemo [] := by
  refine ⟨?_, ?_, ?_, ?_⟩
  · intro g hg; simp [initDemo] at hg; subst hg; exact ⟨_, rfl⟩
  · intro e he; simp [initDemo] at he; rcases he with rfl | rfl
    · exact ⟨by decide, fun x hx => by simp at hx; subst hx; exact ⟨_, rfl⟩⟩
    · exact ⟨by decide, fun x hx => by simp at hx; subst hx; exact ⟨_, rfl⟩⟩
  · intro e he _; simp [initDemo] at he; rcases he with rfl | rfl <;> exact ⟨by decide, _, rfl⟩
  · intro e he h; simp [initDemo] at he; subst he; simp at h
theorem initDemo_fresh : FreshBuffers { bufs := [[1]] } initDemo [0] := ⟨by simp, .cons rfl .nil⟩
example := initRun_ok.imp fun _ => Exists.imp fun _ h => C26_index_spaces noHost_grows h
example := initRun_ok.imp fun _ => Exists.imp fun _ h => C26_exports noHost_grows h
example := initRun_ok.imp fun _ => Exists.imp fun _ h => C26_lookup noHost_grows h "t"
example := initRun_ok.imp fun _ => Exists.imp fun _ h =>
  C27_initialised (m := { store := { bufs := [[1]] } }) ⟨rfl, rfl, rfl⟩ initDemo_valid initDemo_fresh h
/-- A module whose data segment does not fit into its memory and whose element segment does not fit into its table. -/
def misfitDemo : ModuleDesc where
  tabl := [⟨.funcref, ⟨2, 0⟩⟩]
  mems := [⟨0, 0⟩]
  elem := [⟨0, .funcref, 0, [.i32Const 2], [[.refNull 0x70]]⟩]
  data := [⟨0, [.i32Const 3], [97]⟩]
theorem misfitDemo_valid : ValidInit { bufs := [[97]] } misfitDemo [] := by
  refine ⟨by simp [misfitDemo], ?_, ?_, ?_⟩
  · intro e he; simp [misfitDemo] at he; subst he; exact ⟨by decide, fun x hx => by simp at hx; subst hx; exact ⟨_, rfl⟩⟩
  · intro e he _; simp [misfitDemo] at he; subst he; exact ⟨by decide, _, rfl⟩
  · intro e he _; simp [misfitDemo] at he; subst he; exact ⟨by decide, by decide, _, rfl⟩
example := C27_data_misfit (H := noHost) (N := 1000) (m := { store := { bufs := [[97]] } }) (d := misfitDemo) (bufs := [0]) (extern := [])
  ⟨rfl, rfl, rfl⟩ misfitDemo_valid ⟨by simp, .cons rfl .nil⟩ (by
    intro mod h1 h2 h3
    have h4 : mod.mems = [0] := h1
    simp [initDatas, misfitDemo, copyData, h4, constVal, freshMem])
example := C27_elem_misfit (H := noHost) (N := 1000) (m := { store := { bufs := [[97]] } }) (d := misfitDemo) (bufs := [0]) (extern := [])
  ⟨rfl, rfl, rfl⟩ misfitDemo_valid ⟨by simp, .cons rfl .nil⟩ (by
    intro mod h1 h2 h3
    have h4 : mod.tabl = [0] := h1
    have e1 : Ref.const (.i32Const 2) = some (i32 2) := rfl
    have e2 : Ref.const (.refNull 0x70) = some (Val.zero .funcref) := rfl
    simp [initElems, misfitDemo, copyElem, h4, constVal, freshTable, e1, e2])
/-- `dataDemo` is decoded and instantiated twice. -/
theorem dataDemo_twice : ∃ m0 mod1 m1 mod2 m2, loadBuffers dataDemo {} = .ok [0, 1] m0 ∧
    instantiate noHost 1000 dataDemo [0, 1] [] m0 = .ok mod1 m1 ∧ instantiate noHost 1000 dataDemo [0, 1] [] m1 = .ok mod2 m2 := by
  obtain ⟨mod2, m2, h⟩ := returns (m := {}) (x := (do
    let _ ← loadBuffers dataDemo
    let _ ← instantiate noHost 1000 dataDemo [0, 1] []
    instantiate noHost 1000 dataDemo [0, 1] [] : M ModuleInst)) (by decide +kernel)
  rw [bind_ok (show loadBuffers dataDemo {} = .ok [0, 1] { store := { bufs := [[97, 98, 99], [100]] } } from rfl)] at h
  obtain ⟨mod1, m1, h1⟩ := returns (m := { store := { bufs := [[97, 98, 99], [100]] } })
    (x := instantiate noHost 1000 dataDemo [0, 1] []) (by decide +kernel)
  rw [bind_ok h1] at h
  exact ⟨_, mod1, m1, mod2, m2, rfl, h1, h⟩
example := dataDemo_twice.imp fun m0 => Exists.imp fun _ => Exists.imp fun _ => Exists.imp fun _ => Exists.imp fun _ h =>
  C28_second_instance_false (by rw [← (show _ = m0 from (by injection h.1))]; exact ⟨rfl, rfl, rfl⟩) (dataDemo_valid _)
    (fresh_loadBuffers h.1) rfl h.2.1 (dataDemo_valid _) h.2.2
example := dataDemo_twice.imp fun _ => Exists.imp fun _ => Exists.imp fun _ => Exists.imp fun _ => Exists.imp fun _ h =>
  C28_decoded_again_partial ⟨rfl, rfl, rfl⟩ h.1 (dataDemo_valid _) rfl h.2.1

theorem passiveDemo_valid (s : Store) : ValidInit s passiveDemo [] :=
  ⟨by simp [passiveDemo], by simp [passiveDemo], by simp [passiveDemo], by
    intro e he h; simp [passiveDemo] at he; subst he; simp at h⟩
example : ∃ mod1 m1 mod2 m2, instantiate noHost 1000 passiveDemo [0] [] { store := { bufs := [[1]] } } = .ok mod1 m1 ∧
    instantiate noHost 1000 passiveDemo [0] [] m1 = .ok mod2 m2 ∧ Initialised m1.store passiveDemo [] mod2 m2.store := by
  obtain ⟨mod1, m1, h1⟩ := returns (m := { store := { bufs := [[1]] } }) (x := instantiate noHost 1000 passiveDemo [0] []) (by decide +kernel)
  obtain ⟨mod2, m2, h⟩ := returns (m := { store := { bufs := [[1]] } }) (x := (do
    let _ ← instantiate noHost 1000 passiveDemo [0] []
    instantiate noHost 1000 passiveDemo [0] [] : M ModuleInst)) (by decide +kernel)
  rw [bind_ok h1] at h
  exact ⟨mod1, m1, mod2, m2, h1, h, (C28_passive_partial (m := { store := { bufs := [[1]] } }) ⟨rfl, rfl, rfl⟩ (passiveDemo_valid _)
    ⟨by simp, .cons rfl .nil⟩ rfl (by intro e he; simp [passiveDemo] at he; subst he; simp) h1).2.2 1000 [] mod2 m2 (passiveDemo_valid _) h⟩

end Pywasm.Props
