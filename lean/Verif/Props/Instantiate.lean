import Verif.Props.TypeInstance

/-!
# C78: instantiation computes what the specification says, and nothing else stops it

`Spec/Instantiate.lean` says what instantiation computes before the start function runs (`prepared`).
-/

namespace Pywasm.Props
open Spec Spec.Typing M

variable {P : Option Bool} {B : Nat → FuncType → Prop} {H : Host} {m m' : Machine} {N a : Nat} {S : StoreType} {C : Typing.Ctx} {d : ModuleDesc} {bufs : List Nat}
  {extern : List Extern} {mod : ModuleInst} {s' : Store}

/-- **C78** A freshly decoded module without a start function whose imports match and whose state can be prepared is
instantiated: the result and the whole store are those of the specification. -/
theorem C78_instantiates (hc : Clean m) (hd : ValidInit m.store d extern) (hr : ∀ e ∈ d.elem, e.type.isRef = true)
    (hb : FreshBuffers m.store d bufs) (hl : Linked m.store d extern) (hp : prepared m.store d bufs extern = some (mod, s'))
    (hs : d.star = none) (hN : 6 ≤ N) : instantiate H N d bufs extern m = .ok mod { store := s' } := by
  rw [instantiate_run hc hd hb hl hr hN hp]
  unfold runStart
  rw [hs]
  rfl

/-- **C78** With a start function, that function is called in the prepared store, with no operands, from a frame of the new
instance, and `Machine.instance` returns the instance if the call leaves no operands. -/
theorem C78_start_called {f : Nat} (hc : Clean m) (hd : ValidInit m.store d extern) (hr : ∀ e ∈ d.elem, e.type.isRef = true)
    (hb : FreshBuffers m.store d bufs) (hl : Linked m.store d extern) (hp : prepared m.store d bufs extern = some (mod, s'))
    (hs : d.star = some f) (hN : 6 ≤ N) {m2 : Machine}
    (h : evaluate H N ⟨s', [], [⟨1, 1, 0, .block, [.call f], 0⟩], [⟨mod, [], 0, 0, 0⟩]⟩ = .ok () m2)
    (hm : m2.label = [] ∧ m2.value = [] ∧ m2.frame.length = 1) :
    instantiate H N d bufs extern m = .ok mod { store := m2.store } := by
  rw [instantiate_run hc hd hb hl hr hN hp]
  unfold runStart
  rw [hs]
  simp only
  unfold runInit
  obtain ⟨h1, h2, h3⟩ := hm
  obtain ⟨x, h3⟩ := List.length_eq_one_iff.mp h3
  rw [bind_assoc_run, bind_modify_run, bind_assoc_run]
  simp only
  rw [bind_ok h, bind_assoc_run, bind_get_run, bind_assoc_run, bind_assert, if_pos (by simp [h3]), bind_assoc_run, bind_get_run,
    bind_assoc_run, bind_assert, if_pos (by simp [h1]), bind_assoc_run, bind_get_run, bind_assert, if_pos (by simp [h2]), bind_modify_run]
  cases m2
  simp_all
  rfl

/-- **C78** If the imports do not match or the state cannot be prepared then it raises. -/
theorem C78_raises (hc : Clean m) (hd : ValidInit m.store d extern) (hb : FreshBuffers m.store d bufs)
    (h : ¬ Linked m.store d extern ∨ prepared m.store d bufs extern = none) :
    ∃ e m', instantiate H N d bufs extern m = .error e m' := by
  cases hx : instantiate H N d bufs extern m with
  | error e m' => exact ⟨e, m', rfl⟩
  | ok mod m' =>
    obtain ⟨h1, s, h2⟩ := instantiate_prepared hc hd hb hx
    rcases h with h | h
    · exact absurd h1 h
    · rw [h] at h2; cases h2

/-! ## Valid modules -/

/-- In a valid module whose imports match, every export names something and the limits make sense: what prevents the state from
being prepared is an active segment that does not fit. -/
theorem C78_misfit (hS : StoreOk S m.store) (hV : ValidModule C d) (hfew : m.store.func.length + d.func.length ≤ 2 ^ 31)
    (hl : Linked m.store d extern) : ∃ mod, instanceOf m.store d extern = some mod ∧
      (prepared m.store d bufs extern = none ↔
        initElems m.store mod d (m.store.tabl ++ d.tabl.map freshTable) = none ∨
        initDatas m.store mod d (m.store.mems ++ d.mems.map freshMem) = none) := by
  obtain ⟨fts, h1, h2⟩ := grown_funcs hV hS hl
  have hI := validInit hV hS hl hfew
  have hexp : ∀ e ∈ d.exps, ∃ x, exported (newModule m.store d extern []) e = some x := by
    intro e he
    have hv := hV.exps e he
    unfold ExportValid at hv
    unfold exported
    have key : ∀ {l : List Nat} {n : Nat} {c : Nat → Extern}, n < l.length → ∃ x, l[n]?.map c = some x := by
      intro l n c hn
      exact ⟨c l[n], by rw [List.getElem?_eq_getElem hn]; rfl⟩
    cases hk : e.kind <;> simp only [hk] at hv ⊢ <;> refine key ?_
    · rw [← h2.length_eq] at hv; exact hv
    · rw [hV.tables, List.length_append, List.length_map, ← (linked_tables hS hl).length_eq] at hv
      simpa [newModule, addresses] using hv
    · rw [hV.mems, ← (linked_mems hS hl).1] at hv
      simpa [newModule, addresses] using hv
    · rw [hV.globals, List.length_append, List.length_map, ← (linked_globs hS hl).length_eq] at hv
      simpa [newModule, addresses] using hv
  have hmap : ∀ {α β : Type} {f : α → Option β} {l : List α}, (∀ a ∈ l, ∃ b, f a = some b) → ∃ r, l.mapM f = some r := by
    intro α β f l
    induction l with
    | nil => exact fun _ => ⟨[], rfl⟩
    | cons a l ih =>
      intro h
      obtain ⟨b, hb⟩ := h a (by simp)
      obtain ⟨r, hr⟩ := ih fun a ha => h a (by simp [ha])
      exact ⟨b :: r, by rw [List.mapM_cons, hb, hr]; rfl⟩
  obtain ⟨xs, hxs⟩ : ∃ xs, (d.exps.mapM fun e => (exported (newModule m.store d extern []) e).map fun x => ExportInst.mk e.name x) = some xs := by
    refine hmap fun e he => ?_
    obtain ⟨x, hx⟩ := hexp e he
    exact ⟨_, by rw [hx]; rfl⟩
  have hinst : instanceOf m.store d extern = some (newModule m.store d extern xs) := by
    unfold instanceOf newModule at *
    simp only [hxs, Option.map_some]
  refine ⟨_, hinst, ?_⟩
  have g1 : d.tabl.all (fun t => sensible t.limits) = true := by
    rw [List.all_eq_true]
    intro t ht
    simpa [sensible] using hV.limits.1 t ht
  have g2 : d.mems.all (fun l => sensible l && l.n ≤ 65536) = true := by
    rw [List.all_eq_true]
    intro t ht
    simpa [sensible] using ⟨hV.limits.2 t ht, hV.mem t ht⟩
  obtain ⟨fs, e1⟩ : ∃ fs, d.func.mapM (fun f => d.type[f.type]?.map fun t => FuncInst.wasm t m.store.mods.length f) = some fs := by
    refine hmap fun f hf => ?_
    obtain ⟨t, ht⟩ := forall₂_left h1 f hf
    exact ⟨_, by rw [ht]; rfl⟩
  obtain ⟨gs, e2⟩ : ∃ gs, d.glob.mapM (fun g => (constVal m.store (newModule m.store d extern xs).func (importedGlobs extern) g.init).map
      fun v => GlobalInst.mk v g.type.isMut) = some gs := by
    refine hmap fun g hg => ?_
    obtain ⟨v, hv⟩ := hI.glob g hg
    exact ⟨_, by rw [show constVal m.store (newModule m.store d extern xs).func (importedGlobs extern) g.init = some v from hv]; rfl⟩
  obtain ⟨es, e3⟩ : ∃ es, d.elem.mapM (fun e => (e.init.mapM (constVal m.store (newModule m.store d extern xs).func (importedGlobs extern))).map
      fun vs => ElemInst.mk e.type (if droppedElem e then [] else vs)) = some es := by
    refine hmap fun e he => ?_
    obtain ⟨vs, hvs⟩ : ∃ vs, e.init.mapM (constVal m.store (newModule m.store d extern xs).func (importedGlobs extern)) = some vs :=
      hmap fun x hx => (hI.elem e he).2 x hx
    exact ⟨_, by rw [hvs]; rfl⟩
  unfold prepared
  simp only [g1, g2, hinst, e1, e2, e3, Bool.and_self, guard_true, Option.bind_eq_bind, Option.bind_some, pure]
  cases initElems m.store (newModule m.store d extern xs) d (m.store.tabl ++ d.tabl.map freshTable) <;>
    cases initDatas m.store (newModule m.store d extern xs) d (m.store.mems ++ d.mems.map freshMem) <;> simp

/-- The machine when the start function is about to be called. -/
def startState (s : Store) (mod : ModuleInst) (f : Nat) : Machine :=
  ⟨s, [], [⟨1, 1, 0, .block, [.call f], 0⟩], [⟨mod, [], 0, 0, 0⟩]⟩

theorem call_not_ret {body : Nat → ModuleInst → List Inst → Ref.St → Ref.Res} {c : Option ModuleInst} {k a : Nat} {st st' : Ref.St} :
    Ref.call H body c k a st ≠ .ret st' := by
  intro h
  unfold Ref.call at h
  split at h
  · cases h
  · split at h
    · cases h
    try simp only at h
    split at h
    · cases h
    try simp only at h
    split at h
    · cases h
    try simp only at h
    split at h
    · split at h <;> cases h
    · split at h <;> cases h
    · split at h <;> cases h
    · cases h
    · rename_i hx _
      exact hx _ h
  · split at h
    · cases h
    try simp only at h
    split at h
    · cases h
    try simp only at h
    split at h
    · cases h
    try simp only at h
    split at h
    · cases h
    split at h <;> cases h

theorem start_not_ret (fuel : Nat) {k f : Nat} {st st' : Ref.St} : Ref.run H fuel k mod [.call f] st ≠ .ret st' := by
  intro h
  cases fuel with
  | zero => simp [Ref.run] at h
  | succ fuel =>
    rw [Ref.run] at h
    cases fuel with
    | zero => simp [Ref.instr] at h
    | succ fuel =>
      rw [Ref.instr] at h
      split at h
      · rw [Ref.run] at h; cases h
      · split at h
        · cases h
        · exact call_not_ret h

/-- The start function follows the reference interpreter. -/
theorem start_gen {P : Option Bool} {T : StoreType} {f : Nat} {s : Store} (hO : HostOk T.hosts H) (hH : ∀ nd, P = some nd → HostCovered nd H)
    (hcov : Cov P s) (hS : StoreOk T s) (hM : ModOk T C mod) (hf : C.funcs[f]? = some ⟨[], []⟩) :
    Meets H (Dev P) (startState s mod f) ∨
    (∃ fuel st U n, Ref.run H fuel 1 mod [.call f] ⟨s, [], []⟩ = .norm st ∧ T.Le U ∧ StoreOk U st.store ∧ Cov P st.store ∧
      StepsN H n (startState s mod f) ⟨st.store, [], [], [⟨mod, [], 0, 0, 0⟩]⟩) ∨
    (∃ fuel n m1 e m2 U, Ref.run H fuel 1 mod [.call f] ⟨s, [], []⟩ = .trap m2.store ∧ T.Le U ∧ StoreOk U m2.store ∧
      StepsN H n (startState s mod f) m1 ∧ m1.label ≠ [] ∧ step H m1 = .error e m2) ∨
    (∀ N, ∃ m1, StepsN H N (startState s mod f) m1) := by
  by_cases hdev : Meets H (Dev P) (startState s mod f)
  · exact .inl hdev
  right
  have hs := fun fuel => ((all_sim (S := P) hH fuel).1 (d := 1) (k := 1) (is := [.call f]) (st := ⟨s, [], []⟩) (rest := [])
    (lab := ⟨1, 1, 0, .block, [.call f], 0⟩) (L := []) (fr := ⟨mod, [], 0, 0, 0⟩) (F := [])
    ⟨rfl, le_refl _, le_refl _, le_refl _, fun j hj => by
      obtain rfl : j = 0 := by omega
      exact ⟨_, rfl, rfl, by simp, le_refl _⟩, nofun⟩ (Nat.zero_le _) rfl (fun _ _ => rfl) hcov).resolve_left hdev
  have hcode : Code { C with locals := [], labels := [], ret := [] } [.call f] [] [] :=
    .cons (a := []) (b := []) [] (.call (C := { C with locals := [], labels := [], ret := [] }) (t := ⟨[], []⟩) hf) (.nil _)
  have ht := fun fuel => (Sound.sound fuel).1 T _ mod 1 [.call f] [] [] ⟨s, [], []⟩ hO hcode (hM.ctx [] [] []) ⟨hS, .nil, .nil⟩
  by_cases hx : ∀ fuel, Ref.run H fuel 1 mod [.call f] ⟨s, [], []⟩ = .timeout
  · refine .inr (.inr fun N => ?_)
    have h := hs (3 * N + 1)
    rw [hx] at h
    obtain ⟨n, m1, h1, h2⟩ := h
    obtain ⟨c, rfl⟩ := Nat.exists_eq_add_of_le (show N ≤ n by omega)
    obtain ⟨m2, h3, _⟩ := StepsN.split h2
    exact ⟨m2, h3⟩
  obtain ⟨fuel, hx⟩ := Classical.not_forall.mp hx
  have hs := hs fuel
  have ht := ht fuel
  cases hr : Ref.run H fuel 1 mod [.call f] ⟨s, [], []⟩ with
  | norm st =>
    rw [hr] at hs ht
    obtain ⟨h1, n, _, h2⟩ := hs
    obtain ⟨U, h3, h4⟩ := ht
    obtain ⟨s', ls, vs⟩ := st
    have h5 : ls = [] := List.forall₂_nil_right_iff.mp h4.locals
    have h6 : vs = [] := List.forall₂_nil_right_iff.mp h4.vs
    subst h5 h6
    refine .inl ⟨fuel, _, U, n + 1, hr, h3, h4.store, h1, h2.trans (StepsN.one ?_)⟩
    unfold step
    rw [bind_get_run, bind_idx_some (a := ⟨1, 1, 0, .block, [.call f], [Inst.call f].length⟩) rfl, bind_topFrame rfl, if_pos rfl,
      bind_modify_run, if_neg (by simp)]
    rfl
  | br j st =>
    rw [hr] at ht
    obtain ⟨_, ts, _, _, h1, _⟩ := ht
    simp at h1
  | ret st =>
    exact absurd hr (start_not_ret fuel)
  | trap s' =>
    rw [hr] at hs ht
    obtain ⟨n, m1, e, m2, h1, h2, h3, rfl⟩ := hs
    obtain ⟨U, h4, h5⟩ := ht
    exact .inr (.inl ⟨fuel, n, m1, e, m2, U, hr, h4, h5, h1, h2, h3⟩)
  | stuck => rw [hr] at ht; exact ht.elim
  | timeout => exact absurd hr hx

theorem runStart_run {f : Nat} {s : Store} {e : Err} {m2 : Machine} (hd : d.star = some f)
    (he : evaluate H N (startState s mod f) = .error e m2) :
    (runStart H N d >>= fun _ => modify (fun m => { m with frame := m.frame.tail }) >>= fun _ => pure mod)
      ⟨s, [], [], [⟨mod, [], 0, 0, 0⟩]⟩ = .error e m2 := by
  unfold runStart
  rw [hd]
  simp only
  unfold runInit
  rw [bind_assoc_run, bind_modify_run, bind_assoc_run]
  exact bind_err he

/-- What an attempt to instantiate a module can come to once the state `s` and the instance `mod` have been prepared.  `run N` is the
attempt with at most `N` instructions for each expression.
* It returns the instance.  The store is `s` if there is no start function and the one the start function leaves otherwise.
* The start function traps, and the attempt raises with the store at that point.
* The start function does not end.
* The start function meets one of the two deviations: an `i64.div_u` with a quotient of `2^63` or more, where the attempt raises
  `OverflowError`, and, unless the modules are known to have none, a branch to a function's own label. -/
def StartOutcomes (P : Option Bool) (H : Host) (run : Nat → EStateM.Result Err Machine ModuleInst) (d : ModuleDesc) (mod : ModuleInst) (s : Store)
    (Good : Store → Prop) : Prop :=
  (∃ s' N₀, (d.star = none ∧ s' = s ∨
      ∃ f fuel st, d.star = some f ∧ Ref.run H fuel 1 mod [.call f] ⟨s, [], []⟩ = .norm st ∧ s' = st.store) ∧
    (∀ N, N₀ ≤ N → run N = .ok mod { store := s' }) ∧ Good s') ∨
  ∃ f, d.star = some f ∧
    ((∃ fuel N₀ e m', Ref.run H fuel 1 mod [.call f] ⟨s, [], []⟩ = .trap m'.store ∧ ∀ N, N₀ ≤ N → run N = .error e m') ∨
     (∀ N, ∃ m1, StepsN H N (startState s mod f) m1) ∨
     (Meets H (Dev P) (startState s mod f) ∧ (P ≠ none → ∃ N₀ m', ∀ N, N₀ ≤ N → run N = .error .overflow m')))

/-- **C78** What instantiating a valid, freshly decoded module can come to, when its imports match: an active segment does not fit
(`C78_misfit`), and it raises; or the state of the specification is reached and the start function decides.
Missing: stores with more than 2^31 functions. -/
theorem C78_outcomes_partial (hO : HostOk S.hosts H) (hH : ∀ nd, P = some nd → HostCovered nd H) (hc : Clean m) (hcov : Cov P m.store)
    (hS : StoreOk S m.store) (hV : ValidModule C d) (hd : CoveredBy P d) (hfew : m.store.func.length + d.func.length ≤ 2 ^ 31)
    (hb : FreshBuffers m.store d bufs) (hl : Linked m.store d extern) :
    (prepared m.store d bufs extern = none ∧ ∀ N, ∃ e m', instantiate H N d bufs extern m = .error e m') ∨
    ∃ mod s, prepared m.store d bufs extern = some (mod, s) ∧
      StartOutcomes P H (fun N => instantiate H N d bufs extern m) d mod s
        (fun s' => ∃ T, S.Le T ∧ StoreOk T s' ∧ ModOk T C mod ∧ Cov P s') := by
  have hI := validInit hV hS hl hfew
  cases hp : prepared m.store d bufs extern with
  | none => exact .inl ⟨rfl, fun N => C78_raises hc hI hb (.inr hp)⟩
  | some r =>
    obtain ⟨mod, s⟩ := r
    refine .inr ⟨mod, s, rfl, ?_⟩
    obtain ⟨⟨m1, h1, h2⟩, _⟩ := instantiate_parts (H := H) (N := 6) hc hI hb hl hV.refs (by omega) hp
    have hrun := fun N (hN : 5 < N) => instantiate_run (H := H) hc hI hb hl hV.refs hN hp
    obtain ⟨T, hT, hT1, hM, hcv⟩ := built_ok hV hS hl hfew hb h1
    have hT2 : StoreOk T s := segments_ok (m1 := { m1 with frame := ⟨mod, [], 0, 0, 0⟩ :: m1.frame }) hV hT1 hM hcv h2
    have hcov2 : Cov P s := by
      obtain ⟨fs, hfs, hfunc⟩ := h1.func
      intro nd hP a t k code ha
      have hx := h2.rest.1
      simp only at hx
      rw [hx, hfunc] at ha
      rcases List.mem_append.mp (List.mem_of_getElem? ha) with hx | hx
      · obtain ⟨i, hi⟩ := List.getElem?_of_mem hx
        exact hcov nd hP i t k code hi
      · obtain ⟨i, hi⟩ := List.getElem?_of_mem hx
        obtain ⟨fd, h4, t', _, h5⟩ := f2_get hfs hi
        cases h5
        exact hd nd hP _ (List.mem_of_getElem? h4)
    cases hf : d.star with
    | none =>
      exact .inl ⟨s, 6, .inl ⟨hf, rfl⟩, fun N hN => C78_instantiates hc hI hV.refs hb hl hp hf hN, T, hT, hT2, hM, hcov2⟩
    | some f =>
      rcases start_gen (hT.hosts ▸ hO) hH hcov2 hT2 hM (hV.start f hf) with
        h3 | ⟨fuel, st, U, n, h3, h4, h5, h6, h7⟩ | ⟨fuel, n, m1, e, m2, U, h3, h4, h5, h6, h7, h8⟩ | h3
      · refine .inr ⟨f, hf, .inr (.inr ⟨h3, fun hP => ?_⟩)⟩
        obtain ⟨nd, rfl⟩ := Option.ne_none_iff_exists'.mp hP
        obtain ⟨n, m1, m2, h4, h5, h6⟩ := meets_bad_div (Meets.imp h3 fun _ => dev_some)
        refine ⟨n + 6, m2, fun N hN => ?_⟩
        simp only [hrun N (by omega)]
        obtain ⟨c, rfl⟩ := Nat.exists_eq_add_of_le hN
        refine runStart_run hf ?_
        rw [show n + 6 + c = n + (5 + c + 1) by omega, evaluate_stepsN h4, evaluate_err h5 h6]
      · refine .inl ⟨st.store, n + 6, .inr ⟨f, fuel, st, hf, h3, rfl⟩, fun N hN => ?_, U, hT.trans h4, h5, hM.mono h4, h6⟩
        refine C78_start_called hc hI hV.refs hb hl hp hf (by omega) (m2 := ⟨st.store, [], [], [⟨mod, [], 0, 0, 0⟩]⟩) ?_ ⟨rfl, rfl, rfl⟩
        obtain ⟨c, rfl⟩ := Nat.exists_eq_add_of_le hN
        have := evaluate_stepsN (N := 6 + c) h7
        rw [← Nat.add_assoc, evaluate_done (m := ⟨st.store, [], [], [⟨mod, [], 0, 0, 0⟩]⟩) rfl] at this
        exact this
      · refine .inr ⟨f, hf, .inl ⟨fuel, n + 6, e, m2, h3, fun N hN => ?_⟩⟩
        simp only [hrun N (by omega)]
        obtain ⟨c, rfl⟩ := Nat.exists_eq_add_of_le hN
        refine runStart_run hf ?_
        rw [show n + 6 + c = n + (5 + c + 1) by omega, evaluate_stepsN h6, evaluate_err h7 h8]
      · exact .inr ⟨f, hf, .inr (.inl h3)⟩

/-- **C78** (`Runtime.instance`) In a session of an embedder who checks modules and arguments, load a valid module and instantiate it.
It raises because an import is missing or does not match or because an active segment does not fit; or the state of the
specification is reached and the start function decides, and if it returns then that is a session again.
Missing: as in `C78_outcomes_partial`. -/
theorem C78_session_partial (hO : HostOk B H) (hH : ∀ nd, P = some nd → HostCovered nd H) (h : Session P B H m) (hV : ValidModule C d) (hd : CoveredBy P d)
    (hfew : m.store.func.length + d.func.length ≤ 2 ^ 31) {imports : Imports} {m0 : Machine} (h0 : loadBuffers d m = .ok bufs m0) :
    ((∀ extern, supplied imports d = some extern → Linked m0.store d extern → prepared m0.store d bufs extern = none) ∧
      ∀ N, ∃ e m', Runtime.instance H N imports d bufs m0 = .error e m') ∨
    ∃ extern mod s, supplied imports d = some extern ∧ Linked m0.store d extern ∧ prepared m0.store d bufs extern = some (mod, s) ∧
      StartOutcomes P H (fun N => Runtime.instance H N imports d bufs m0) d mod s (fun s' => Session P B H { store := s' }) := by
  obtain ⟨hc, hcov, S, rfl, hS⟩ := C24_session_partial hO hH h
  have hb := fresh_loadBuffers h0
  have h0' := h0
  cases h0
  rcases hs : supplied imports d with _ | extern
  · refine .inl ⟨nofun, fun N => ?_⟩
    rcases instance_supplied (H := H) (N := N) (d := d) (imports := imports) with ⟨_, e, he⟩ | ⟨x, hx, _⟩
    · exact ⟨e, _, he⟩
    · rw [hs] at hx; cases hx
  have heq : ∀ N, Runtime.instance H N imports d ((List.range d.data.length).map (m.store.bufs.length + ·))
      { m with store := { m.store with bufs := m.store.bufs ++ d.data.map (·.init) } } =
      instantiate H N d ((List.range d.data.length).map (m.store.bufs.length + ·)) extern
        { m with store := { m.store with bufs := m.store.bufs ++ d.data.map (·.init) } } := by
    intro N
    rcases instance_supplied (H := H) (N := N) (d := d) (imports := imports) with ⟨hx, _⟩ | ⟨x, hx, h⟩
    · rw [hs] at hx; cases hx
    · rw [hs] at hx; cases hx; exact h
  simp only [heq]
  by_cases hl : Linked { m.store with bufs := m.store.bufs ++ d.data.map (·.init) } d extern
  swap
  · refine .inl ⟨fun x hx hlx => ?_, fun N => ?_⟩
    · cases hx; exact absurd hlx hl
    · obtain ⟨e, he⟩ := C25_reject_partial (H := H) (N := N) (bufs := (List.range d.data.length).map (m.store.bufs.length + ·))
        (m := { m with store := { m.store with bufs := m.store.bufs ++ d.data.map (·.init) } }) hl
      exact ⟨e, _, he⟩
  have hS0 : StoreOk S { m.store with bufs := m.store.bufs ++ d.data.map (·.init) } :=
    ⟨hS.funcs, hS.code, hS.few, hS.tables, hS.mems, hS.globals, hS.elems, hS.datas.1, fun b hb => by
      have := hS.datas.2 b hb
      simp only [List.length_append]
      omega⟩
  rcases C78_outcomes_partial (m := { m with store := { m.store with bufs := m.store.bufs ++ d.data.map (·.init) } })
    hO hH hc hcov hS0 hV hd hfew hb hl with ⟨h1, h2⟩ | ⟨mod, s, h1, h2⟩
  · exact .inl ⟨fun x hx _ => by cases hx; exact h1, h2⟩
  · refine .inr ⟨extern, mod, s, rfl, hl, h1, ?_⟩
    rcases h2 with ⟨s', N₀, h2, h3, _⟩ | h2
    · refine .inl ⟨s', N₀, h2, h3, .instance (N := N₀) (imports := imports) h hV hd hfew h0' (by rw [heq]; exact h3 N₀ (Nat.le_refl _))
        fun _ => ⟨extern, hs, fun f hf => ?_⟩⟩
      rcases h2 with ⟨h2, _⟩ | ⟨f', fuel, st, h2, h4, rfl⟩
      · rw [hf] at h2; cases h2
      · rw [hf] at h2
        cases h2
        exact ⟨s, fuel, st, h1, h4, rfl⟩
    · exact .inr h2

/-! ## Non-vacuity -/

/-- A store with the host function, and the buffers of the module's data segments. -/
def typedStart : Store := { func := [.host ⟨[.i32], [.i32]⟩ 0], bufs := [[], [97, 98, 99]] }

theorem typedStart_session : Session (some false) doublerType doubler { store := { func := [.host ⟨[.i32], [.i32]⟩ 0] } } :=
  .hostFunc (m := {}) (t := ⟨[.i32], [.i32]⟩) (c := 0) (a := 0) .new ⟨rfl, rfl⟩ rfl (by decide)

/-- `C78_session_partial` applies to it. -/
example := C78_session_partial (imports := [("env", [("f", .func 0)])]) doubler_ok (by rintro _ ⟨⟩; exact doubler_covered) typedStart_session typedDemo_valid
  typedDemo_covered.by (by decide) rfl

/-- The imports are supplied and match, and the state can be prepared: the table has been filled, the element segment dropped. -/
example : supplied [("env", [("f", .func 0)])] typedDemo = some [.func 0] := by decide +kernel
theorem typedStart_linked : Linked typedStart typedDemo [.func 0] := .cons (.func rfl rfl rfl) .nil
example : (prepared typedStart typedDemo [0, 1] [.func 0]).map (fun p => (p.1.func, p.1.exps.map (·.data), p.2.glob.map (·.data))) =
    some ([0, 1, 2, 3], [.func 1, .func 2], [i32 7]) := by decide +kernel
example : (prepared typedStart typedDemo [0, 1] [.func 0]).map (fun p => (p.2.tabl.map (·.elem), p.2.elem.map (·.data), p.2.bufs)) =
    some ([[Ref.refTo .funcref 1, Val.zero .funcref]], [[]], [[], [97, 98, 99]]) := by decide +kernel

theorem typedStart_ok : ∃ S : StoreType, S.hosts = doublerType ∧ StoreOk S typedStart := by
  obtain ⟨_, _, S, h, hS⟩ := C24_session_partial doubler_ok (by rintro _ ⟨⟩; exact doubler_covered) typedStart_session
  exact ⟨S, h, hS.funcs, hS.code, hS.few, hS.tables, hS.mems, hS.globals, hS.elems, hS.datas.1, fun b hb => absurd (hS.datas.2 b hb) (by simp)⟩

theorem typedStart_init : ValidInit typedStart typedDemo [.func 0] := by
  obtain ⟨S, _, hS⟩ := typedStart_ok
  exact validInit (m := { store := typedStart }) typedDemo_valid hS typedStart_linked (by decide)
theorem typedStart_init_quiet : ValidInit typedStart { typedDemo with star := none } [.func 0] :=
  ⟨typedStart_init.1, typedStart_init.2, typedStart_init.3, typedStart_init.4⟩
theorem typedStart_fresh : FreshBuffers typedStart typedDemo [0, 1] :=
  fresh_loadBuffers (m := { store := { func := [.host ⟨[.i32], [.i32]⟩ 0] } }) (m0 := { store := typedStart }) rfl
theorem typedStart_linked_quiet : Linked typedStart { typedDemo with star := none } [.func 0] := .cons (.func rfl rfl rfl) .nil

/-- Without the start function, `C78_instantiates` applies. -/
example : ∃ mod s, instantiate doubler 6 { typedDemo with star := none } [0, 1] [.func 0] { store := typedStart } = .ok mod { store := s } := by
  have h : (prepared typedStart { typedDemo with star := none } [0, 1] [.func 0]).isSome := by decide +kernel
  obtain ⟨p, hp⟩ := Option.isSome_iff_exists.mp h
  exact ⟨p.1, p.2, C78_instantiates (m := { store := typedStart }) ⟨rfl, rfl, rfl⟩ typedStart_init_quiet (by decide) typedStart_fresh typedStart_linked_quiet hp rfl (Nat.le_refl _)⟩

/-- With it, `C78_start_called`. -/
example : ∃ mod m2, instantiate doubler 100 typedDemo [0, 1] [.func 0] { store := typedStart } = .ok mod { store := m2 } := by
  have h : (prepared typedStart typedDemo [0, 1] [.func 0]).isSome := by decide +kernel
  obtain ⟨p, hp⟩ := Option.isSome_iff_exists.mp h
  have hrun : ((prepared typedStart typedDemo [0, 1] [.func 0]).bind fun p =>
      match evaluate doubler 100 ⟨p.2, [], [⟨1, 1, 0, .block, [.call (typedDemo.star.getD 0)], 0⟩], [⟨p.1, [], 0, 0, 0⟩]⟩ with
      | .ok _ m2 => some (m2.label.isEmpty, m2.value.isEmpty, m2.frame.length) | .error _ _ => none) = some (true, true, 1) := by decide +kernel
  rw [hp] at hrun
  simp only [Option.bind_some] at hrun
  split at hrun
  · rename_i m2 h2
    injection hrun with hrun
    injection hrun with h3 h4
    injection h4 with h4 h5
    exact ⟨p.1, m2.store, C78_start_called (m := { store := typedStart }) ⟨rfl, rfl, rfl⟩ typedStart_init (by decide) typedStart_fresh typedStart_linked hp rfl
      (by decide) h2 ⟨List.isEmpty_iff.mp h3, List.isEmpty_iff.mp h4, h5⟩⟩
  · cases hrun

example := fun (S : StoreType) (hS : StoreOk S typedStart) => C78_misfit (m := { store := typedStart }) (bufs := [0, 1]) hS typedDemo_valid (by decide) typedStart_linked

example := fun (S : StoreType) (h : S.hosts = doublerType) (hS : StoreOk S typedStart) => C78_outcomes_partial (m := { store := typedStart }) (S := S) (P := some false) (h ▸ doubler_ok)
  (by rintro _ ⟨⟩; exact doubler_covered) ⟨rfl, rfl, rfl⟩ (by intro nd _ a t k code ha; rcases a with _ | a <;> cases ha) hS typedDemo_valid typedDemo_covered.by (by decide)
  typedStart_fresh typedStart_linked

/-- With an element segment at offset 1 of the table of size 2, nothing can be prepared, and `C78_raises` applies. -/
def segmentDemo : ModuleDesc := { typedDemo with elem := [⟨0, .funcref, 0, [.i32Const 1], [[.refFunc 1], [.refNull 0x70]]⟩] }
theorem segmentDemo_init : ValidInit typedStart segmentDemo [.func 0] := by
  refine ⟨typedStart_init.1, fun e he => ?_, fun e he _ => ?_, typedStart_init.4⟩
  · rw [List.mem_singleton.mp he]
    exact typedStart_init.2 ⟨0, .funcref, 0, [.i32Const 0], [[.refFunc 1], [.refNull 0x70]]⟩ (List.mem_singleton.mpr rfl)
  · rw [List.mem_singleton.mp he]
    exact ⟨by decide, _, rfl⟩

example : ∃ e m', instantiate doubler 100 segmentDemo [0, 1] [.func 0] { store := typedStart } = .error e m' :=
  C78_raises (m := { store := typedStart }) ⟨rfl, rfl, rfl⟩ segmentDemo_init typedStart_fresh (.inr (by decide +kernel))

end Pywasm.Props
