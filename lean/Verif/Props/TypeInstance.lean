import Verif.Lemmas.TypeStart
import Verif.Lemmas.RefCov
import Verif.Props.Typing
import Verif.Props.Instance
import Verif.Lemmas.Instantiate

/-!
# C24: instantiating valid modules, and whole sessions

`Spec/ValidModule.lean` says when a module is valid.
-/

namespace Pywasm.Props
open Spec Spec.Typing M

variable {P : Option Bool} {B : Nat → FuncType → Prop} {H : Host} {m m' : Machine} {N a : Nat} {S : StoreType} {C : Typing.Ctx} {d : ModuleDesc} {bufs : List Nat}
  {extern : List Extern} {mod : ModuleInst}

/-- The start function, if there is one, does what the reference interpreter does: it is called with the state that the
specification prepares, and it returns with the store `s'`. -/
def StartReturns (H : Host) (s0 : Store) (d : ModuleDesc) (bufs : List Nat) (extern : List Extern) (mod : ModuleInst) (s' : Store) : Prop :=
  ∀ f, d.star = some f → ∃ s fuel st, prepared s0 d bufs extern = some (mod, s) ∧
    Ref.run H fuel 1 mod [.call f] ⟨s, [], []⟩ = .norm st ∧ st.store = s'

/-- **C24** Instantiating a valid module in a well-typed store: when it succeeds, the store is well typed again, the new
instance provides what the module's context promises, and the machine is clean.
Missing: start functions that run into one of the deviations of `Spec/Deviation.lean` (for modules without branches to a function's own
label, none); stores with more than 2^31 functions, and descriptions that have been instantiated before (`C28_second_instance_false`). -/
theorem C24_instance_partial {P : Option Bool} (hO : HostOk S.hosts H) (hH : ∀ nd, P = some nd → HostCovered nd H) (hc : Clean m)
    (hcov : Cov P m.store) (hS : StoreOk S m.store) (hV : ValidModule C d) (hd : CoveredBy P d)
    (hfew : m.store.func.length + d.func.length ≤ 2 ^ 31) (hb : FreshBuffers m.store d bufs)
    (h : instantiate H N d bufs extern m = .ok mod m') (hr : P = none → StartReturns H m.store d bufs extern mod m'.store) :
    Clean m' ∧ Cov P m'.store ∧ ∃ T, S.Le T ∧ StoreOk T m'.store ∧ ModOk T C mod := by
  have hL : Linked m.store d extern := by
    by_contra hn
    obtain ⟨e, he⟩ := C25_reject_partial (H := H) (N := N) (bufs := bufs) hn
    rw [h] at he
    cases he
  have hw := instantiate_wp (H := H) (N := N) hc (validInit hV hS hL hfew) hb
  unfold Wp at hw
  rw [h] at hw
  obtain ⟨_, m1, m2, h1, h2, m3, h3, rfl⟩ := hw
  obtain ⟨T, hT, hT1, hM, hcv⟩ := built_ok hV hS hL hfew hb h1
  have hT2 : StoreOk T m2.store := segments_ok (m1 := { m1 with frame := ⟨mod, [], 0, 0, 0⟩ :: m1.frame }) hV hT1 hM hcv h2
  have e2 : m2 = ⟨m2.store, [], [], [⟨mod, [], 0, 0, 0⟩]⟩ := by
    have f1 := h2.frame
    simp only [h1.frame, hc.1] at f1
    have f2 := h2.label
    have f3 := h2.value
    cases m2
    simp_all
  cases P with
  | none =>
    have hp := prepared_of hb h1 h2
    rw [e2] at h3
    obtain ⟨U, hU, hU1, hU2⟩ := runStart_ref (hT.hosts ▸ hO) hT2 hM hV h3 (fun f hf => by
      obtain ⟨s, fuel, st, h4, h5, h6⟩ := hr rfl f hf
      rw [hp] at h4
      obtain rfl := (Prod.mk.inj (Option.some.inj h4)).2
      exact ⟨fuel, st, h5, h6⟩)
    exact ⟨hU2, nofun, U, hT.trans hU, hU1, hM.mono hU⟩
  | some nd =>
    have hcov2 : Ref.CoveredStore nd m2.store := by
      obtain ⟨fs, hfs, hfunc⟩ := h1.func
      intro a t k code ha
      rw [h2.rest.1] at ha
      simp only at ha
      rw [hfunc] at ha
      rcases List.mem_append.mp (List.mem_of_getElem? ha) with hx | hx
      · obtain ⟨i, hi⟩ := List.getElem?_of_mem hx
        exact hcov nd rfl i t k code hi
      · obtain ⟨i, hi⟩ := List.getElem?_of_mem hx
        obtain ⟨fd, h4, t', _, h5⟩ := f2_get hfs hi
        cases h5
        exact hd nd rfl _ (List.mem_of_getElem? h4)
    rw [e2] at h3
    obtain ⟨U, s', hU, hU1, hU2, rfl⟩ := runStart_typed (hT.hosts ▸ hO) (hH nd rfl) hcov2 hT2 hM hV h3
    exact ⟨⟨rfl, rfl, rfl⟩, by rintro _ ⟨⟩; exact hU2, U, hT.trans hU, hU1, hM.mono hU⟩

theorem instance_supplied {imports : Imports} :
    (supplied imports d = none ∧ ∃ e, Runtime.instance H N imports d bufs m = .error e m) ∨
    ∃ extern, supplied imports d = some extern ∧ Runtime.instance H N imports d bufs m = instantiate H N d bufs extern m := by
  by_cases h : ∃ i ∈ d.imps, (List.lookup i.module imports).bind (List.lookup i.name) = none
  · obtain ⟨i, hi, hx⟩ := h
    refine .inl ⟨?_, C25_missing hi hx⟩
    unfold supplied
    generalize d.imps = l at hi
    induction l with
    | nil => cases hi
    | cons a l ih =>
      rw [List.mapM_cons]
      rcases List.mem_cons.mp hi with rfl | hi
      · rw [hx]; rfl
      · rw [ih hi]
        cases (List.lookup a.module imports).bind (List.lookup a.name) <;> rfl
  · right
    have key : ∀ l : List Import, (∀ i ∈ l, (List.lookup i.module imports).bind (List.lookup i.name) ≠ none) →
        ∃ xs, (l.mapM fun i => (List.lookup i.module imports).bind (List.lookup i.name)) = some xs ∧
          (l.mapM fun e => lift (do lookup (← lookup imports e.module) e.name) : M (List Extern)) m = .ok xs m := by
      intro l
      induction l with
      | nil => exact fun _ => ⟨[], rfl, rfl⟩
      | cons a l ih =>
        intro hl
        obtain ⟨xs, h1, h2⟩ := ih fun i hi => hl i (by simp [hi])
        obtain ⟨x, hx⟩ := Option.ne_none_iff_exists'.mp (hl a (by simp))
        refine ⟨x :: xs, by rw [List.mapM_cons, hx, h1]; rfl, ?_⟩
        have hk : (do lookup (← lookup imports a.module) a.name : Except Err Extern) = .ok x := by
          unfold lookup
          obtain ⟨y, hy, hz⟩ := Option.bind_eq_some_iff.mp hx
          simp [hy, hz, bind, Except.bind]
        rw [List.mapM_cons, hk, bind_lift_ok, bind_ok h2]
        rfl
    obtain ⟨xs, h1, h2⟩ := key d.imps fun i hi hx => h ⟨i, hi, hx⟩
    exact ⟨xs, h1, by unfold Runtime.instance; exact bind_ok h2⟩

/-- What the embedder may do to a memory instance: write bytes and numbers, at any address, and add pages. -/
inductive Poke (x : MemInst) : MemInst → Prop
  | put (p : Int) (d : Bytes) : Poke x (x.put p d)
  | putU {k : Nat} {p v : Int} {y : MemInst} (h : x.putU k p v = .ok y) : Poke x y
  | putI {k : Nat} {p v : Int} {y : MemInst} (h : x.putI k p v = .ok y) : Poke x y
  | putU8 {p v : Int} {y : MemInst} (h : x.putU8 p v = .ok y) : Poke x y
  | grow {n : Nat} {y : MemInst} (h : x.grow n = .ok y) : Poke x y

theorem Poke.few {x y : MemInst} (h : Poke x y) (hx : x.size ≤ 65536) : y.size ≤ 65536 := by
  cases h with
  | put => exact hx
  | putU h =>
    unfold MemInst.putU at h
    cases hp : Py.packU _ _ <;> rw [hp] at h <;> cases h
    exact hx
  | putI h =>
    unfold MemInst.putI at h
    cases hp : Py.packS _ _ <;> rw [hp] at h <;> cases h
    exact hx
  | @putU8 p v _ h =>
    unfold MemInst.putU8 at h
    cases hp : Py.setItem x.data p (UInt8.ofNat v.toNat) with
    | error e => rw [hp] at h; cases h
    | ok d =>
      rw [hp] at h
      change (if _ then _ else _) = _ at h
      split at h
      · cases h; exact hx
      · cases h
  | grow h =>
    obtain ⟨rfl, h, -⟩ := MemInst.grow_ok h
    exact h

/-- What an embedder does who checks modules and arguments: start with a new runtime, bind host functions, create
memories, tables and globals, write to memories, make a `Preview1` object, instantiate valid modules, and call functions with arguments of their parameter types.
After a call that traps the embedder empties the three stacks, as `Preview1.main` does.  `B` says which host functions may be bound with which types.
`P` says what is assumed about the code of the modules.  If nothing is assumed (`P = none`), then every call and every start function so
far has done what the reference interpreter does. -/
inductive Session (P : Option Bool) (B : Nat → FuncType → Prop) (H : Host) : Machine → Prop
  | new : Session P B H {}
  | hostFunc {m m' : Machine} {t : FuncType} {c a : Nat} (h : Session P B H m) (hB : B c t)
      (hx : allocateFuncHost t c m = .ok a m') (hfew : m'.store.func.length ≤ 2 ^ 31) : Session P B H m'
  | memory {m m' : Machine} {l : Limits} {a : Nat} (h : Session P B H m) (hx : allocateMemory l m = .ok a m')
      (hn : l.n ≤ 65536) : Session P B H m'
  | table {m m' : Machine} {t : TableType} {a : Nat} (h : Session P B H m) (hx : allocateTable t m = .ok a m')
      (hn : t.limits.n < 2 ^ 31) : Session P B H m'
  | global {m m' : Machine} {t : GlobalType} {v : Val} {a : Nat} (h : Session P B H m) (hx : allocateGlobal t v m = .ok a m')
      (hv : ∀ S, StoreOk S m.store → ValOk S v t.type) : Session P B H m'
  | instance {m m0 m' : Machine} {imports : Imports} {C : Typing.Ctx} {d : ModuleDesc} {bufs : List Nat} {mod : ModuleInst} {N : Nat}
      (h : Session P B H m) (hV : ValidModule C d) (hd : CoveredBy P d) (hfew : m.store.func.length + d.func.length ≤ 2 ^ 31)
      (h0 : loadBuffers d m = .ok bufs m0) (hx : Runtime.instance H N imports d bufs m0 = .ok mod m')
      (hr : P = none → ∃ extern, supplied imports d = some extern ∧ StartReturns H m0.store d bufs extern mod m'.store) : Session P B H m'
  | call {m m' : Machine} {a k N : Nat} {t : FuncType} {code : FuncDesc} {args rets : List Val} (h : Session P B H m)
      (hf : m.store.func[a]? = some (.wasm t k code)) (hargs : ∀ S, StoreOk S m.store → ValsOk S args t.args)
      (hx : Pywasm.invocate H N a args m = .ok rets m')
      (hr : P = none → ∃ fuel st, Ref.invoke H fuel a args m.store = .norm st ∧ st.store = m'.store) : Session P B H m'
  | trap {m m' : Machine} {a k N fuel : Nat} {t : FuncType} {code : FuncDesc} {args : List Val} {e : Err} (h : Session P B H m)
      (hf : m.store.func[a]? = some (.wasm t k code)) (hargs : ∀ S, StoreOk S m.store → ValsOk S args t.args)
      (hx : Pywasm.invocate H N a args m = .error e m') (hr : Ref.invoke H fuel a args m.store = .trap m'.store) :
      Session P B H { store := m'.store }
  | poke {m : Machine} {a : Nat} {x y : MemInst} (h : Session P B H m) (hx : m.store.mems[a]? = some x) (hy : Poke x y) :
      Session P B H { m with store := { m.store with mems := m.store.mems.set a y } }
  | preview1 {m : Machine} (w : Wasi.World) (h : Session P B H m) : Session P B H { m with store := { m.store with wasi := w } }

theorem storeOk_empty (B : Nat → FuncType → Prop) : StoreOk ⟨[], [], 0, [], [], 0, B⟩ {} :=
  ⟨rfl, nofun, Nat.zero_le _, .nil, ⟨rfl, nofun⟩, .nil, .nil, rfl, nofun⟩

theorem storeOk_le {T : StoreType} {s s' : Store} (hle : S.Le T) (hS : StoreOk S s) (hf : s'.func = s.func) (hm : s'.mods = s.mods) :
    ∀ f ∈ s'.func, FuncOk T s' f := by
  intro f hx
  rw [hf] at hx
  have := hS.code f hx
  cases f with
  | host t c =>
    show T.hosts c t
    rw [hle.hosts]
    exact this
  | wasm t k code =>
    obtain ⟨mod, C, h1, h2, h3⟩ := this
    exact ⟨mod, C, by rw [hm]; exact h1, h2.mono hle, h3⟩

theorem instance_instantiate {imports : Imports} (h : Runtime.instance H N imports d bufs m = .ok mod m') :
    ∃ extern, supplied imports d = some extern ∧ instantiate H N d bufs extern m = .ok mod m' := by
  rcases instance_supplied (H := H) (N := N) (d := d) (bufs := bufs) (m := m) (imports := imports) with ⟨_, e, he⟩ | ⟨x, hx, heq⟩
  · rw [h] at he; cases he
  · exact ⟨x, hx, heq ▸ h⟩

/-- **C24** At every point of such a session the machine is clean and its store well typed. -/
theorem C24_session_partial (hO : HostOk B H) (hH : ∀ nd, P = some nd → HostCovered nd H) (h : Session P B H m) :
    Clean m ∧ Cov P m.store ∧ ∃ S, S.hosts = B ∧ StoreOk S m.store := by
  induction h with
  | new => exact ⟨⟨rfl, rfl, rfl⟩, nofun, _, rfl, storeOk_empty B⟩
  | @hostFunc m m' t c a _ hB hx hfew ih =>
    obtain ⟨hc, hcov, S, rfl, hS⟩ := ih
    cases hx
    refine ⟨hc, ?_, ⟨S.funcs ++ [t], S.tables, S.mems, S.globals, S.elems, S.datas, S.hosts⟩, rfl, ?_⟩
    · intro nd hP a t' k code ha
      rcases List.mem_append.mp (List.mem_of_getElem? ha) with hx | hx
      · obtain ⟨i, hi⟩ := List.getElem?_of_mem hx
        exact hcov nd hP i t' k code hi
      · simp at hx
    · have hle : S.Le ⟨S.funcs ++ [t], S.tables, S.mems, S.globals, S.elems, S.datas, S.hosts⟩ :=
        ⟨List.prefix_append _ _, List.prefix_rfl, Nat.le_refl _, List.prefix_rfl, List.prefix_rfl, Nat.le_refl _, rfl⟩
      refine ⟨by simp [hS.funcs, FuncInst.type], ?_, hfew, f2_mono hS.tables fun _ _ h => ⟨h.1, h.2.1, fun v hv => (h.2.2 v hv).mono hle⟩,
        hS.mems, f2_mono hS.globals fun _ _ h => ⟨h.1, h.2.mono hle⟩, f2_mono hS.elems fun _ _ h v hv => (h v hv).mono hle, hS.datas⟩
      intro f hf
      rcases List.mem_append.mp hf with hf | hf
      · exact storeOk_le hle hS (s' := { m.store with func := m.store.func }) rfl rfl f hf
      · simp only [List.mem_singleton] at hf
        subst hf
        exact hB
  | @memory m m' l a _ hx hn ih =>
    obtain ⟨hc, hcov, S, rfl, hS⟩ := ih
    unfold allocateMemory at hx
    rw [bind_get_run] at hx
    cases h1 : MemInst.make l with
    | error e => rw [h1, bind_lift_err] at hx; cases hx
    | ok x =>
      rw [h1, bind_lift_ok, bind_modify_run] at hx
      cases hx
      have := mem_make_eq h1
      subst this
      refine ⟨hc, hcov, ⟨S.funcs, S.tables, S.mems + 1, S.globals, S.elems, S.datas, S.hosts⟩, rfl, hS.funcs, ?_, hS.few, hS.tables, ?_, hS.globals, hS.elems, hS.datas⟩
      · exact storeOk_le (S := S) (T := ⟨S.funcs, S.tables, S.mems + 1, S.globals, S.elems, S.datas, S.hosts⟩)
          ⟨List.prefix_rfl, List.prefix_rfl, Nat.le_succ _, List.prefix_rfl, List.prefix_rfl, Nat.le_refl _, rfl⟩ hS rfl rfl
      · refine ⟨by simp [hS.mems.1], fun y hy => ?_⟩
        rcases List.mem_append.mp hy with hy | hy
        · exact hS.mems.2 y hy
        · simp only [List.mem_singleton] at hy
          subst hy
          exact hn
  | @table m m' t a _ hx hn ih =>
    obtain ⟨hc, hcov, S, rfl, hS⟩ := ih
    unfold allocateTable at hx
    rw [bind_get_run] at hx
    cases h1 : TableInst.make t with
    | error e => rw [h1, bind_lift_err] at hx; cases hx
    | ok x =>
      rw [h1, bind_lift_ok, bind_modify_run] at hx
      cases hx
      have := table_make_eq h1
      subst this
      refine ⟨hc, hcov, ⟨S.funcs, S.tables ++ [t.type], S.mems, S.globals, S.elems, S.datas, S.hosts⟩, rfl, hS.funcs, ?_, hS.few, ?_, hS.mems, hS.globals, hS.elems, hS.datas⟩
      · exact storeOk_le (S := S) (T := ⟨S.funcs, S.tables ++ [t.type], S.mems, S.globals, S.elems, S.datas, S.hosts⟩)
          ⟨List.prefix_rfl, List.prefix_append _ _, Nat.le_refl _, List.prefix_rfl, List.prefix_rfl, Nat.le_refl _, rfl⟩ hS rfl rfl
      · refine f2_append hS.tables (.cons ⟨rfl, hn, fun v hv => ?_⟩ .nil)
        rw [List.eq_of_mem_replicate hv]
        exact valOk_zero _ _
  | @global m m' t v a _ hx hv ih =>
    obtain ⟨hc, hcov, S, rfl, hS⟩ := ih
    cases hx
    refine ⟨hc, hcov, ⟨S.funcs, S.tables, S.mems, S.globals ++ [t], S.elems, S.datas, S.hosts⟩, rfl, hS.funcs, ?_, hS.few, hS.tables, hS.mems, ?_, hS.elems, hS.datas⟩
    · exact storeOk_le (S := S) (T := ⟨S.funcs, S.tables, S.mems, S.globals ++ [t], S.elems, S.datas, S.hosts⟩)
        ⟨List.prefix_rfl, List.prefix_rfl, Nat.le_refl _, List.prefix_append _ _, List.prefix_rfl, Nat.le_refl _, rfl⟩ hS rfl rfl
    · exact f2_append hS.globals (.cons ⟨rfl, hv S hS⟩ .nil)
  | @«instance» m m0 m' imports C d bufs mod N _ hV hd hfew h0 hx hr ih =>
    obtain ⟨hc, hcov, S, rfl, hS⟩ := ih
    have hb := fresh_loadBuffers h0
    cases h0
    obtain ⟨extern, hsup, hx⟩ := instance_instantiate hx
    have hS0 : StoreOk S { m.store with bufs := m.store.bufs ++ d.data.map (·.init) } :=
      ⟨hS.funcs, hS.code, hS.few, hS.tables, hS.mems, hS.globals, hS.elems, hS.datas.1, fun b hb => by
        have := hS.datas.2 b hb
        simp only [List.length_append]
        omega⟩
    obtain ⟨h1, h2, T, hT, h3, _⟩ := C24_instance_partial (m := { m with store := { m.store with bufs := m.store.bufs ++ d.data.map (·.init) } })
      hO hH hc hcov hS0 hV hd hfew hb hx (fun hP => by
        obtain ⟨x, h4, h5⟩ := hr hP
        rw [hsup] at h4
        cases h4
        exact h5)
    exact ⟨h1, h2, T, hT.hosts, h3⟩
  | @call m m' a k N t code args rets _ hf hargs hx hr ih =>
    obtain ⟨hc, hcov, S, rfl, hS⟩ := ih
    have hcl : Clean m' := by
      have hw := invocate_wp (H := H) (N := N) (addr := a) (args := args) (m := m)
      unfold Wp at hw
      rw [hx] at hw
      exact hw.1
    obtain ⟨fuel, st, h1, h2⟩ : ∃ fuel st, Ref.invoke H fuel a args m.store = .norm st ∧ st.store = m'.store := by
      cases P with
      | none => exact hr rfl
      | some nd =>
        obtain ⟨ha, mod, hm⟩ := invoke_typed hS hf
        have hg := C24_reference (fuel := 3 * N + 2) hO hS ha (hargs S hS)
        rcases complete_gen (S := some nd) hH hc hcov hf hm (valsOk_ty (hargs S hS)) hx (fuel := 3 * N + 2) (by omega) with ⟨st, h1, _, h2⟩ | h | h
        · exact ⟨_, st, h1, h2⟩
        · rw [h] at hg; exact hg.elim
        · obtain ⟨n, m1, m2, h1, h2, h3⟩ := meets_bad_div (Meets.imp h fun _ => dev_some)
          rw [invocate_eq hf hm (valsOk_ty (hargs S hS))] at hx
          exact absurd hx (no_ok h1 h2 h3 _ _)
    have hg := C24_reference (fuel := fuel) hO hS (invoke_typed hS hf).1 (hargs S hS)
    rw [h1] at hg
    obtain ⟨T, hT, h3, _⟩ := hg
    refine ⟨hcl, fun nd hP => ?_, T, hT.hosts, h2 ▸ h3⟩
    have hv := cov_invoke (fuel := fuel) (a := a) (args := args) (hH nd hP) (hcov nd hP)
    rw [h1] at hv
    exact h2 ▸ hv
  | @trap m m' a k N fuel t code args e _ hf hargs hx hr ih =>
    obtain ⟨hc, hcov, S, rfl, hS⟩ := ih
    have hg := C24_reference (fuel := fuel) hO hS (invoke_typed hS hf).1 (hargs S hS)
    rw [hr] at hg
    obtain ⟨T, hT, h1⟩ := hg
    refine ⟨⟨rfl, rfl, rfl⟩, fun nd hP => ?_, T, hT.hosts, h1⟩
    have hv := cov_invoke (fuel := fuel) (a := a) (args := args) (hH nd hP) (hcov nd hP)
    rw [hr] at hv
    exact hv
  | @poke m a x y _ hx hy ih =>
    obtain ⟨hc, hcov, S, rfl, hS⟩ := ih
    refine ⟨hc, hcov, S, rfl, hS.funcs, storeOk_le (.refl S) hS rfl rfl, hS.few, hS.tables, ⟨(List.length_set ..).trans hS.mems.1, ?_⟩,
      hS.globals, hS.elems, hS.datas⟩
    intro z hz
    rcases List.mem_or_eq_of_mem_set hz with hz | rfl
    · exact hS.mems.2 z hz
    · exact hy.few (hS.mems.2 x (List.mem_of_getElem? hx))
  | preview1 w _ ih =>
    obtain ⟨hc, hcov, S, rfl, hS⟩ := ih
    exact ⟨hc, hcov, S, rfl, hS.funcs, storeOk_le (.refl S) hS rfl rfl, hS.few, hS.tables, hS.mems, hS.globals, hS.elems, hS.datas⟩

theorem valid_dev {t : FuncType} {k : Nat} {code : FuncDesc} {args : List Val} (hO : HostOk S.hosts H)
    (hH : ∀ nd, P = some nd → HostCovered nd H) (hc : Clean m)
    (hcov : Cov P m.store) (hS : StoreOk S m.store) (hf : m.store.func[a]? = some (.wasm t k code)) (hargs : ValsOk S args t.args) :
    WellBehaved S H m a t k code args ∨
      ∃ mod, m.store.mods[k]? = some mod ∧ Meets H (Dev P) (started m t mod code args) ∧
        (P ≠ none → ∃ N₀ m', ∀ N ≥ N₀, Pywasm.invocate H N a args m = .error .overflow m') := by
  rcases valid_gen hO hH hc hcov hS hf hargs with h | ⟨mod, h1, h2⟩
  · exact .inl h
  · refine .inr ⟨mod, h1, h2, fun hP => ?_⟩
    cases P with
    | none => exact absurd rfl hP
    | some nd => exact C17_bad_div_raises hf h1 (valsOk_ty hargs) (Meets.imp h2 fun _ => dev_some)

/-- **C24** A call at any point of such a session returns the results of the reference interpreter, which have the declared types, or raises exactly where the
reference interpreter traps, or runs forever, or its run meets one of the two deviations: an `i64.div_u` with a quotient of `2^63` or
more, where it raises `OverflowError`, and, unless the modules are known to have none, a branch to a function's own label. -/
theorem C24_session_call_partial (hO : HostOk B H) (hH : ∀ nd, P = some nd → HostCovered nd H) (h : Session P B H m) {t : FuncType} {k : Nat} {code : FuncDesc}
    {args : List Val} (hf : m.store.func[a]? = some (.wasm t k code)) (hargs : ∀ S, StoreOk S m.store → ValsOk S args t.args) :
    (∃ N₀ fuel st, (∀ N ≥ N₀, Pywasm.invocate H N a args m = .ok st.vs.reverse { store := st.store }) ∧
      Ref.invoke H fuel a args m.store = .norm st ∧ st.vs.reverse.map Val.ty = t.rets) ∨
    (∃ N₀ e m' fuel, (∀ N ≥ N₀, Pywasm.invocate H N a args m = .error e m') ∧
      Ref.invoke H fuel a args m.store = .trap m'.store) ∨
    (∀ N, ∃ mod m1, m.store.mods[k]? = some mod ∧ StepsN H N (started m t mod code args) m1) ∨
    (∃ mod, m.store.mods[k]? = some mod ∧ Meets H (Dev P) (started m t mod code args) ∧
      (P ≠ none → ∃ N₀ m', ∀ N ≥ N₀, Pywasm.invocate H N a args m = .error .overflow m')) := by
  obtain ⟨hc, hcov, S, rfl, hS⟩ := C24_session_partial hO hH h
  rcases valid_dev hO hH hc hcov hS hf (hargs S hS) with (h1 | h1 | h1) | h1
  · obtain ⟨N₀, fuel, st, T, h2, h4, _, _, h3⟩ := h1
    refine .inl ⟨N₀, fuel, st, h2, h4, ?_⟩
    have := valsOk_ty h3
    clear h2 h3 h4
    generalize t.rets = ts at this
    generalize st.vs.reverse = rets at this ⊢
    induction this with
    | nil => rfl
    | cons h _ ih => rw [List.map_cons, ih, h]
  · obtain ⟨N₀, e, m', fuel, T, h2, h3, _⟩ := h1
    exact .inr (.inl ⟨N₀, e, m', fuel, h2, h3⟩)
  · exact .inr (.inr (.inl h1))
  · exact .inr (.inr (.inr h1))

/-- **C21** In such a session, let a call trap and let the embedder empty the stacks.  The next call does what the reference
interpreter does in the store that the trap left.
Missing: what happens if the stacks are not emptied, where the claim is false (`C21_trap_poisons_false`,
`C21_trapped_code_goes_on_false`). -/
theorem C21_cleared_partial (hO : HostOk B H) (hH : ∀ nd, P = some nd → HostCovered nd H) (h : Session P B H m) {fuel : Nat} {t : FuncType} {k : Nat} {code : FuncDesc}
    {args : List Val} {e : Err} (hf : m.store.func[a]? = some (.wasm t k code)) (hargs : ∀ S, StoreOk S m.store → ValsOk S args t.args)
    (hx : Pywasm.invocate H N a args m = .error e m') (hr : Ref.invoke H fuel a args m.store = .trap m'.store)
    {a' : Nat} {t' : FuncType} {k' : Nat} {code' : FuncDesc} {args' : List Val} (hf' : m'.store.func[a']? = some (.wasm t' k' code'))
    (hargs' : ∀ S, StoreOk S m'.store → ValsOk S args' t'.args) :
    (∃ N₀ fuel st, (∀ N ≥ N₀, Pywasm.invocate H N a' args' { store := m'.store } = .ok st.vs.reverse { store := st.store }) ∧
      Ref.invoke H fuel a' args' m'.store = .norm st ∧ st.vs.reverse.map Val.ty = t'.rets) ∨
    (∃ N₀ e m1 fuel, (∀ N ≥ N₀, Pywasm.invocate H N a' args' { store := m'.store } = .error e m1) ∧
      Ref.invoke H fuel a' args' m'.store = .trap m1.store) ∨
    (∀ N, ∃ mod m1, m'.store.mods[k']? = some mod ∧ StepsN H N (started { store := m'.store } t' mod code' args') m1) ∨
    (∃ mod, m'.store.mods[k']? = some mod ∧ Meets H (Dev P) (started { store := m'.store } t' mod code' args') ∧
      (P ≠ none → ∃ N₀ m1, ∀ N ≥ N₀, Pywasm.invocate H N a' args' { store := m'.store } = .error .overflow m1)) :=
  C24_session_call_partial (m := { store := m'.store }) hO hH (.trap h hf hargs hx hr) hf' hargs'

/-- The Python type of a result: `int`, `float` or `bytearray`. -/
def pyKind : ValType → HVal → Prop
  | .i32, .int _ | .i64, .int _ | .f32, .float _ | .f64, .float _ | .v128, .bytes _ => True
  | _, _ => False

theorem intoAll_kind {v : Val} (h : v.ty.isRef = false) : ∃ x, v.intoAll = .ok x ∧ pyKind v.ty x := by
  unfold Val.intoAll
  revert h
  cases v.ty <;> intro h <;> first | exact ⟨_, rfl, trivial⟩ | exact absurd h Bool.noConfusion

theorem mapM_intoAll {vs : List Val} (h : ∀ v ∈ vs, v.ty.isRef = false) :
    ∃ ys, vs.mapM Val.intoAll = .ok ys ∧ List.Forall₂ (fun v y => pyKind v.ty y) vs ys := by
  induction vs with
  | nil => exact ⟨[], rfl, .nil⟩
  | cons v vs ih =>
    obtain ⟨y, h1, h2⟩ := intoAll_kind (h v (by simp))
    obtain ⟨ys, h3, h4⟩ := ih fun v hv => h v (by simp [hv])
    exact ⟨y :: ys, by rw [List.mapM_cons, h1, h3]; rfl, .cons h2 h4⟩

/-- What `Runtime.invocate` does once the arguments have been converted. -/
theorem runtime_invocate_eq {name : String} {t : FuncType} {k : Nat} {code : FuncDesc} {xs : List HVal} {args : List Val}
    (he : findExport mod name = .ok (.func a)) (hf : m.store.func[a]? = some (.wasm t k code)) (hlen : xs.length = t.args.length)
    (hconv : ((t.args.zip xs).mapM fun p => Val.fromAll p.1 p.2) = .ok args) :
    Runtime.invocate H N mod name xs m = (Pywasm.invocate H N a args >>= fun rets => lift (rets.mapM Val.intoAll)) m := by
  unfold Runtime.invocate
  rw [he, bind_lift_ok, bind_get_run]
  show (M.idx m.store.func a >>= _) m = _
  rw [bind_idx_some hf, bind_assert, if_pos (by simp [FuncInst.type, hlen])]
  show (lift ((t.args.zip xs).mapM fun p => Val.fromAll p.1 p.2) >>= _) m = _
  rw [hconv, bind_lift_ok]
  rfl

/-- **C24** (`Runtime.invocate`) In such a session, call an exported function whose parameters and results are numbers or vectors,
with Python values that can be converted.  It returns what the reference interpreter computes, converted to one Python value of the
right type for every result; or it raises exactly
where the reference interpreter traps; or it runs forever; or its run meets one of the two deviations: an `i64.div_u` with a quotient
of `2^63` or more, where it raises `OverflowError`, and, unless the modules are known to have none, a branch to a function's own label. -/
theorem C24_exported_call_partial (hO : HostOk B H) (hH : ∀ nd, P = some nd → HostCovered nd H) (h : Session P B H m) {name : String} {t : FuncType} {k : Nat}
    {code : FuncDesc} {xs : List HVal} {args : List Val} (he : findExport mod name = .ok (.func a))
    (hf : m.store.func[a]? = some (.wasm t k code)) (hnum : ∀ ty ∈ t.args ++ t.rets, ty.isRef = false) (hlen : xs.length = t.args.length)
    (hconv : ((t.args.zip xs).mapM fun p => Val.fromAll p.1 p.2) = .ok args) :
    (∃ N₀ fuel st ys, (∀ N ≥ N₀, Runtime.invocate H N mod name xs m = .ok ys { store := st.store }) ∧
      Ref.invoke H fuel a args m.store = .norm st ∧ st.vs.reverse.mapM Val.intoAll = .ok ys ∧ List.Forall₂ pyKind t.rets ys) ∨
    (∃ N₀ e m' fuel, (∀ N ≥ N₀, Runtime.invocate H N mod name xs m = .error e m') ∧
      Ref.invoke H fuel a args m.store = .trap m'.store) ∨
    (∀ N, ∃ mod m1, m.store.mods[k]? = some mod ∧ StepsN H N (started m t mod code args) m1) ∨
    (∃ mo, m.store.mods[k]? = some mo ∧ Meets H (Dev P) (started m t mo code args) ∧
      (P ≠ none → ∃ N₀ m', ∀ N ≥ N₀, Runtime.invocate H N mod name xs m = .error .overflow m')) := by
  have hargs : ∀ S, StoreOk S m.store → ValsOk S args t.args := by
    intro S _
    refine Sound.mapM_fromAll_ok hlen (fun p hp v hv => valOk_num (Makes.fromAll _ _ v hv) (hnum _ ?_)) hconv
    exact List.mem_append_left _ (List.of_mem_zip hp).1
  have heq := fun N => runtime_invocate_eq (H := H) (N := N) he hf hlen hconv
  rcases C24_session_call_partial hO hH h hf hargs with ⟨N₀, fuel, st, h1, h5, h2⟩ | ⟨N₀, e, m', fuel, h1, h2⟩ | h1 | ⟨mo, h0, h1, h2⟩
  · obtain ⟨ys, h3, h4⟩ := mapM_intoAll (vs := st.vs.reverse) (by
      intro v hv
      exact hnum _ (List.mem_append_right _ (h2 ▸ List.mem_map_of_mem hv)))
    refine .inl ⟨N₀, fuel, st, ys, fun N hN => ?_, h5, h3, ?_⟩
    · rw [heq, bind_ok (h1 N hN), h3]
      rfl
    · rw [← h2, List.forall₂_map_left_iff]
      exact h4
  · exact .inr (.inl ⟨N₀, e, m', fuel, fun N hN => by rw [heq, bind_err (h1 N hN)], h2⟩)
  · exact .inr (.inr (.inl h1))
  · refine .inr (.inr (.inr ⟨mo, h0, h1, fun hP => ?_⟩))
    obtain ⟨N₀, m', h3⟩ := h2 hP
    exact ⟨N₀, m', fun N hN => by rw [heq, bind_err (h3 N hN)]⟩

/-! ## Non-vacuity -/

/-- A module with a memory and a data segment, a table and an element segment, a global, an imported function and a start
function.  Function 1 loads from memory, 2 calls through the table, 3 sets the global and is the start function. -/
def typedDemo : ModuleDesc where
  type := [⟨[.i32], [.i32]⟩, ⟨[], []⟩]
  imps := [⟨"env", "f", .func 0⟩]
  func := [⟨0, [], [.localGet 0, .load .i32_load 2 0]⟩,
    ⟨0, [(1, .i64)], [.localGet 0, .localGet 0, .callIndirect 0 0]⟩,
    ⟨1, [], [.i32Const 8, .call 0, .globalSet 0]⟩]
  tabl := [⟨.funcref, ⟨2, 3⟩⟩]
  mems := [⟨0, 1⟩]
  glob := [⟨⟨.i32, true⟩, [.i32Const 7]⟩]
  elem := [⟨0, .funcref, 0, [.i32Const 0], [[.refFunc 1], [.refNull 0x70]]⟩]
  data := [⟨0, [.i32Const 0], []⟩, ⟨1, [], [97, 98, 99]⟩]
  exps := [⟨"load", .func, 1⟩, ⟨"via", .func, 2⟩]
  star := some 3

def typedCtx : Typing.Ctx where
  types := [⟨[.i32], [.i32]⟩, ⟨[], []⟩]
  funcs := [⟨[.i32], [.i32]⟩, ⟨[.i32], [.i32]⟩, ⟨[.i32], [.i32]⟩, ⟨[], []⟩]
  tables := [.funcref]
  mems := 1
  globals := [⟨.i32, true⟩]
  elems := [.funcref]
  datas := 2

theorem typedDemo_valid : ValidModule typedCtx typedDemo where
  types := rfl
  funcs := .cons rfl (.cons rfl (.cons rfl (.cons rfl .nil)))
  tables := rfl
  mems := rfl
  globals := rfl
  elems := rfl
  datas := rfl
  code := by
    intro f hf t ht
    simp only [typedDemo, List.mem_cons, List.not_mem_nil, or_false] at hf
    rcases hf with rfl | rfl | rfl <;> cases ht
    · refine .cons [] (.localGet (t := .i32) rfl) ?_
      exact .cons (a := [.i32]) (b := [.i32]) [] (.load (op := .i32_load) (by decide) (by decide)) (.nil _)
    · refine .cons [] (.localGet (t := .i32) rfl) ?_
      refine .cons [.i32] (.localGet (t := .i32) rfl) ?_
      exact .cons (a := [.i32, .i32]) (b := [.i32]) [] (.callIndirect (t := ⟨[.i32], [.i32]⟩) rfl rfl) (.nil _)
    · refine .cons [] (.i32Const (by decide)) ?_
      refine .cons (a := [.i32]) (b := [.i32]) [] (.call (t := ⟨[.i32], [.i32]⟩) rfl) ?_
      exact .cons (a := [.i32]) (b := []) [] (.globalSet (g := ⟨.i32, true⟩) rfl rfl) (.nil _)
  table := by intro t ht; simp [typedDemo] at ht; subst ht; decide
  mem := by intro t ht; simp [typedDemo] at ht; subst ht; decide
  glob := by
    intro g hg; simp [typedDemo] at hg; subst hg
    exact ⟨_, rfl, .i32 _, .i32Const (by decide)⟩
  elem := by
    intro e he; simp [typedDemo] at he; subst he
    refine ⟨by decide, fun x hx => ?_⟩
    simp at hx
    rcases hx with rfl | rfl
    · exact ⟨_, rfl, .func _, .refFunc (t := ⟨[.i32], [.i32]⟩) rfl⟩
    · exact ⟨_, rfl, .null _, .refNull (t := .funcref) rfl⟩
  activeElem := by
    intro e he _; simp [typedDemo] at he; subst he
    exact ⟨rfl, _, rfl, .i32 _, .i32Const (by decide)⟩
  activeData := by
    intro e he h; simp [typedDemo] at he
    rcases he with rfl | rfl
    · exact ⟨by decide, by decide, _, rfl, .i32 _, .i32Const (by decide)⟩
    · cases h
  limits := by refine ⟨?_, ?_⟩ <;> (intro t ht; simp [typedDemo] at ht; subst ht; decide)
  refs := by intro e he; simp [typedDemo] at he; subst he; rfl
  exps := by
    intro e he; simp [typedDemo] at he
    rcases he with rfl | rfl <;> (show _ < 4; decide)
  start := by intro f hf; simp [typedDemo] at hf; subst hf; rfl

theorem typedDemo_covered : CoveredModule typedDemo := by unfold CoveredModule; decide

/-- A host function that doubles its argument, to be bound with type `[i32] → [i32]`. -/
def doubler : Host := fun _ _ xs s => match xs with
  | [.int n] => .ok [.int (2 * n)] s
  | _ => .error .type s
def doublerType (c : Nat) (t : FuncType) : Prop := c = 0 ∧ t = ⟨[.i32], [.i32]⟩

theorem doubler_ok : HostOk doublerType doubler := by
  rintro S s _ _ caller args xs _ hS ⟨rfl, rfl⟩ hargs hxs
  rcases hargs with _ | ⟨h1, _ | _⟩
  rename_i v
  have : xs = [.int v.intoI32] := by
    have h2 : Val.intoAll v = .ok (.int v.intoI32) := by unfold Val.intoAll; rw [h1.1]
    rw [List.mapM_cons, h2] at hxs
    cases hxs
    rfl
  subst this
  refine ⟨S, .refl S, hS, rfl, fun p hp w hw => ?_⟩
  simp only [List.zip_cons_cons, List.zip_nil_right, List.mem_singleton] at hp
  subst hp
  exact valOk_num (Makes.fromAll _ _ w hw) rfl

theorem doubler_covered : HostCovered false doubler := by
  intro c mod xs s hs
  unfold doubler
  refine ⟨fun ys s' h => ?_, fun e s' h => ?_⟩ <;> (split at h <;> cases h <;> exact hs)

/-- Bind the host function and instantiate the module. -/
def typedRun : M ModuleInst := do
  let a ← allocateFuncHost ⟨[.i32], [.i32]⟩ 0
  let b ← loadBuffers typedDemo
  Runtime.instance doubler 1000 [("env", [("f", .func a)])] typedDemo b

/-- It succeeds, and the start function has set the global to 16. -/
example : (match typedRun {} with | .ok mod m => some (mod.func, m.store.glob.map (·.data), m.store.tabl.map (·.elem)) | .error _ _ => none) =
    some ([0, 1, 2, 3], [i32 16], [[Ref.refTo .funcref 1, Val.zero .funcref]]) := by decide +kernel

/-- That is a session. -/
example {m : Machine} {mod : ModuleInst} (h : typedRun {} = .ok mod m) :
    Session (some false) doublerType doubler m := by
  unfold typedRun at h
  have h1 : allocateFuncHost ⟨[.i32], [.i32]⟩ 0 {} = .ok 0 { store := { func := [.host ⟨[.i32], [.i32]⟩ 0] } } := rfl
  rw [bind_ok h1] at h
  have h2 : loadBuffers typedDemo { store := { func := [.host ⟨[.i32], [.i32]⟩ 0] } } = .ok [0, 1]
    { store := { func := [.host ⟨[.i32], [.i32]⟩ 0], bufs := [[], [97, 98, 99]] } } := rfl
  rw [bind_ok h2] at h
  exact .instance (.hostFunc .new ⟨rfl, rfl⟩ h1 (by decide)) typedDemo_valid typedDemo_covered.by (by decide) h2 h nofun

/-- `(module (func unreachable) (func (result i32) i32.const 1))` -/
def trapDesc : ModuleDesc where
  type := [⟨[], []⟩, ⟨[], [.i32]⟩]
  func := [⟨0, [], [.unreachable]⟩, ⟨1, [], [.i32Const 1]⟩]
def trapInst : ModuleInst where
  type := [⟨[], []⟩, ⟨[], [.i32]⟩]
  func := [0, 1]
def trapped : Store where
  func := [.wasm ⟨[], []⟩ 0 ⟨0, [], [.unreachable]⟩, .wasm ⟨[], [.i32]⟩ 0 ⟨1, [], [.i32Const 1]⟩]
  mods := [trapInst]

theorem trapped_session : Session (some false) (fun _ _ => False) noHost { store := trapped } := by
  refine .instance (m := {}) (m0 := {}) (imports := []) (d := trapDesc) (bufs := []) (mod := trapInst) (N := 6)
    (C := ⟨trapDesc.type, trapDesc.type, [], 0, [], [], 0, [], [], []⟩) .new ?_ (CoveredModule.by (by unfold CoveredModule; decide)) (by decide) rfl rfl nofun
  exact
    { types := rfl, funcs := .cons rfl (.cons rfl .nil), tables := rfl, mems := rfl, globals := rfl, elems := rfl, datas := rfl,
      code := by
        intro f hf t ht
        simp only [trapDesc, List.mem_cons, List.not_mem_nil, or_false] at hf
        rcases hf with rfl | rfl <;> cases ht
        · exact .cons (a := []) (b := []) [] (.unreachable _ _) (.nil _)
        · exact .cons (a := []) (b := [.i32]) [] (.i32Const (by decide)) (.nil _)
      table := nofun, mem := nofun, glob := nofun, elem := nofun, activeElem := nofun, activeData := nofun, limits := ⟨nofun, nofun⟩,
      refs := nofun, exps := nofun, start := nofun }

/-- `C21_cleared_partial` applies: function 0 traps, then function 1 is called. -/
example : ∃ e m', Pywasm.invocate noHost 100 0 [] { store := trapped } = .error e m' ∧
    Ref.invoke noHost 100 0 [] trapped = .trap m'.store ∧ m'.store.func[1]? = some (.wasm ⟨[], [.i32]⟩ 0 ⟨1, [], [.i32Const 1]⟩) :=
  ⟨_, _, rfl, rfl, rfl⟩

/-- `(module (func (param i32) local.get 0 br_if 0))`: a function that may branch to its own label. -/
def mayBranch : ModuleDesc where
  type := [⟨[.i32], []⟩]
  func := [⟨0, [], [.localGet 0, .brIf 0]⟩]
def mayBranchInst : ModuleInst where
  type := [⟨[.i32], []⟩]
  func := [0]
def mayBranchStore : Store where
  func := [.wasm ⟨[.i32], []⟩ 0 ⟨0, [], [.localGet 0, .brIf 0]⟩]
  mods := [mayBranchInst]

theorem mayBranch_valid : ValidModule ⟨mayBranch.type, mayBranch.type, [], 0, [], [], 0, [], [], []⟩ mayBranch where
  types := rfl
  funcs := .cons rfl .nil
  tables := rfl
  mems := rfl
  globals := rfl
  elems := rfl
  datas := rfl
  code := by
    intro f hf t ht
    simp only [mayBranch, List.mem_cons, List.not_mem_nil, or_false] at hf
    subst hf
    cases ht
    refine .cons [] (.localGet (t := .i32) rfl) ?_
    exact .cons (a := [.i32]) (b := []) [] (.brIf (ts := []) rfl) (.nil _)
  table := nofun
  mem := nofun
  glob := nofun
  elem := nofun
  activeElem := nofun
  activeData := nofun
  limits := ⟨nofun, nofun⟩
  refs := nofun
  exps := nofun
  start := nofun

/-- Such a module is part of a session about whose code nothing is assumed, and so is a call that does not take the branch. -/
example : Session none (fun _ _ => False) noHost { store := mayBranchStore } := by
  have h : Session none (fun _ _ => False) noHost { store := mayBranchStore } :=
    .instance (m := {}) (m0 := {}) (imports := []) (d := mayBranch) (bufs := []) (mod := mayBranchInst) (N := 6)
      .new mayBranch_valid (coveredBy_none _) (by decide) rfl rfl fun _ => ⟨[], rfl, nofun⟩
  exact .call (a := 0) (N := 100) (args := [i32 0]) (rets := []) h rfl (fun S _ => .cons ⟨rfl, nofun⟩ .nil) rfl fun _ => ⟨100, ⟨mayBranchStore, [], []⟩, rfl, rfl⟩

/-! ## The hypotheses are met -/

example := C24_session_partial (P := some false) (noHost_ok _) (fun _ _ => noHost_covered _) trapped_session
example := C24_session_call_partial (P := some false) (a := 1) (args := []) (noHost_ok _) (fun _ _ => noHost_covered _) trapped_session rfl
  fun _ _ => .nil
example := C21_cleared_partial (P := some false) (N := 100) (fuel := 100) (a := 0) (args := []) (a' := 1) (args' := []) (noHost_ok _)
  (fun _ _ => noHost_covered _) trapped_session rfl (fun _ _ => .nil) rfl rfl rfl fun _ _ => .nil
example := C24_exported_call_partial (P := some false) (a := 1) (name := "one") (xs := []) (args := [])
  (mod := { trapInst with exps := [⟨"one", .func 1⟩] }) (noHost_ok _) (fun _ _ => noHost_covered _) trapped_session rfl rfl (by decide) rfl rfl
example :=
  have hS := (C24_session_partial (P := some false) (noHost_ok _) (fun _ _ => noHost_covered _) trapped_session).2.2
  hS.imp fun S h => C24_instance_partial (P := none) (S := S) (m := { store := trapped }) (d := mayBranch) (bufs := [])
    (extern := []) (mod := { mayBranchInst with func := [2] }) (N := 6) (by rw [h.1]; exact noHost_ok _) nofun ⟨rfl, rfl, rfl⟩ (by unfold Cov; nofun) h.2
    mayBranch_valid (coveredBy_none _) (by decide) ⟨.nil, .nil⟩ rfl nofun

/-- A session that makes a memory and writes to it. -/
example : Session (some false) (fun _ _ => False) noHost { store := { mems := [(⟨⟨0, 3⟩, [], 0⟩ : MemInst).put 0 [1, 2]] } } := by
  have h : Session (some false) (fun _ _ => False) noHost { store := { mems := [⟨⟨0, 3⟩, [], 0⟩] } } :=
    .memory (l := ⟨0, 3⟩) (a := 0) .new rfl (by decide)
  exact .poke (a := 0) h rfl (.put 0 [1, 2])

end Pywasm.Props
