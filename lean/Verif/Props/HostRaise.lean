import Verif.Lemmas.OwnStep
import Verif.Props.Invocate
import Verif.Props.Control
import Verif.Lemmas.Ty
import Verif.Spec.Returns

/-!
# C65: exceptions of host functions
-/

namespace Pywasm.Props
open Spec M

variable {H : Host} {N : Nat} {m m' : Machine}

/-- **C65** A host function called by `call` or `call_indirect` that raises: the very same exception comes out of the
instruction, and what the function did to the store stays. -/
theorem C65_step_raises {c : Nat} {xs : List HVal} {e : Err} {s' : Store} (h : CallsHost m c xs)
    (hH : H c (curModule m) xs m.store = .error e s') : ∃ m', step H m = .error e m' ∧ m'.store = s' := by
  obtain ⟨a, vs, t, args, rest, hn, hf, hvs, hl, hx⟩ := h
  cases hn with
  | @call k a cur hi hc ha =>
    obtain ⟨lab, _, f, fs, _, hfr, hs, _⟩ := step_next (H := H) hi
    simp only [curModule, hfr, List.head?_cons, Option.map_some, Option.some.injEq] at hc
    subst hc
    rw [hs]; simp only [exec]; rw [bind_idx_some ha]
    refine ⟨_, evaluateCall_host_raises (H := H) (s' := s') (by simpa using hf) (by simpa using hvs) hl hx ?_, rfl⟩
    rw [advance_curModule, advance_store]; exact hH
  | @indirect ti tab ta a tb cur v r vs fn hi hc ht hv hr href hfn hty =>
    obtain ⟨lab, _, f, fs, _, hfr, hs, _⟩ := step_next (H := H) hi
    obtain ⟨h1, h2⟩ := ht.frame hfr
    simp only [curModule, hfr, List.head?_cons, Option.map_some, Option.some.injEq] at hc
    subst hc
    subst hvs
    have hv' : (advance m).value = v :: (args.reverse ++ rest) := by simpa using hv
    rw [hf] at hfn; cases hfn
    rw [hs]; simp only [exec]; rw [bind_theTable h1 (by simpa using h2)]; simp only
    rw [bind_idx_some hty, bind_popU32 hv', bind_idx_some hr, intoRef_some href, bind_lift_ok, bind_get_run]
    have hf' : Py.getItem (advance m).store.func a = .ok (.host t c) := by simpa using hf
    dsimp only
    rw [hf', bind_lift_ok, bind_assert_pos rfl]
    refine ⟨_, evaluateCall_host_raises (H := H) (s' := s') (m := { advance m with value := args.reverse ++ rest }) hf' rfl hl hx ?_, rfl⟩
    have : curModule { advance m with value := args.reverse ++ rest } = curModule m := by rw [← advance_curModule m]; rfl
    rw [this]
    change H c (curModule m) xs (advance m).store = _
    rw [advance_store]; exact hH

/-- **C65** Conversely, an instruction that raises an exception of a kind pywasm itself does not raise called a host
function, and that function raised it. -/
theorem C65_only_hosts_raise {e : Err} (he : e.own = false) (h : step H m = .error e m') :
    ∃ c xs, CallsHost m c xs ∧ H c (curModule m) xs m.store = .error e m'.store := step_raises he h

theorem evaluate_raises : ∀ {k N : Nat} {m m1 : Machine} {e : Err} {m2 : Machine}, StepsN H k m m1 → k < N →
    step H m1 = .error e m2 → m1.label ≠ [] → evaluate H N m = .error e m2 := by
  intro k N m m1 e m2 hs
  induction hs generalizing N with
  | refl m =>
    intro hk h hne
    obtain ⟨N, rfl⟩ := Nat.exists_eq_succ_of_ne_zero (by omega : N ≠ 0)
    unfold evaluate
    rw [bind_get_run, if_neg (by simpa using hne), bind_err h]
  | @head n m m' m'' hs _ ih =>
    intro hk h hne
    obtain ⟨N, rfl⟩ := Nat.exists_eq_succ_of_ne_zero (by omega : N ≠ 0)
    unfold evaluate
    have hl : m.label ≠ [] := by
      intro hl
      unfold step at hs
      rw [bind_get_run, bind_idx_none (by simp [hl])] at hs
      cases hs
    rw [bind_get_run, if_neg (by simpa using hl), bind_ok hs]
    exact ih (by omega) h hne

theorem evaluate_error : ∀ {N : Nat} {m : Machine} {e : Err} {m2 : Machine}, evaluate H N m = .error e m2 →
    ∃ k m1, k < N ∧ StepsN H k m m1 ∧ step H m1 = .error e m2 := by
  intro N
  induction N with
  | zero => intro m e m2 h; cases h
  | succ N ih =>
    intro m e m2 h
    unfold evaluate at h
    rw [bind_get_run] at h
    split at h
    · cases h
    · rw [bind_run] at h
      cases hs : step H m with
      | error e1 m1 => rw [hs] at h; cases h; exact ⟨0, m, by omega, .refl m, hs⟩
      | ok a m1 =>
        rw [hs] at h
        obtain ⟨k, m3, hk, h1, h2⟩ := ih h
        exact ⟨k + 1, m3, by omega, .head hs h1, h2⟩

theorem CallsHost.label {c : Nat} {xs : List HVal} (h : CallsHost m c xs) : m.label ≠ [] := by
  obtain ⟨a, vs, t, args, rest, hn, -⟩ := h
  intro hl
  cases hn with
  | call hi => simp [next, hl] at hi
  | indirect hi => simp [next, hl] at hi

/-- **C65** An exception raised by a host function that the code of an invoked export calls, within the instruction
budget, comes out of `Runtime.invocate` unchanged. -/
theorem C65_invocate_raises {mod cur : ModuleInst} {name : String} {xs ys : List HVal} {a k n c : Nat} {t : FuncType}
    {code : FuncDesc} {args : List Val} {m1 : Machine} {e : Err} {s' : Store}
    (hx : ExportsFunc mod name a) (hf : m.store.func[a]? = some (.wasm t k code)) (hm : m.store.mods[k]? = some cur)
    (hl : xs.length = t.args.length) (ha : (t.args.zip xs).mapM (fun p => Val.fromAll p.1 p.2) = .ok args)
    (hs : StepsN H n (started m t cur code args) m1) (hn : n < N) (hc : CallsHost m1 c ys)
    (hH : H c (curModule m1) ys m1.store = .error e s') :
    ∃ m', Runtime.invocate H N mod name xs m = .error e m' ∧ m'.store = s' := by
  obtain ⟨m', h1, h2⟩ := C65_step_raises hc hH
  refine ⟨m', ?_, h2⟩
  unfold Runtime.invocate
  rw [findExport_func hx, bind_lift_ok, bind_get_run, bind_idx_some (show m.store.func[(Extern.func a).addr]? = some _ from hf),
    bind_assert_pos (show (FuncInst.wasm t k code).type.args.length = xs.length from hl.symm)]
  change ((M.lift ((t.args.zip xs).mapM fun p => Val.fromAll p.1 p.2)) >>= _) m = _
  rw [ha, bind_lift_ok]
  apply bind_err
  unfold Pywasm.invocate
  rw [bind_get_run, Py.getItem_some (show m.store.func[(Extern.func a).addr]? = some _ from hf), bind_lift_ok]
  dsimp only
  have hty : ((t.args.zip args).all fun p => decide (p.1 = p.2.ty)) = true := zip_all_ty (Makes.all ha hl.symm)
  rw [hty, bind_assert, if_pos rfl, bind_modify_run, bind_get_run]
  dsimp only
  rw [bind_idx_some hm, bind_modify_run, bind_modify_run]
  exact bind_err (evaluate_raises hs hn h1 (CallsHost.label hc))

theorem bind_error_inv {α β} {x : M α} {f : α → M β} {m m' : Machine} {e : Err} (h : (x >>= f) m = .error e m') :
    x m = .error e m' ∨ ∃ a m1, x m = .ok a m1 ∧ f a m1 = .error e m' := by
  rw [M.bind_run] at h
  cases hx : x m with
  | ok a m1 => rw [hx] at h; exact .inr ⟨a, m1, rfl, h⟩
  | error e1 m1 => rw [hx] at h; cases h; exact .inl rfl

theorem findExport_own (mod : ModuleInst) (name : String) : OwnE (findExport mod name) := by
  unfold findExport
  split
  · exact .ok _
  · exact .err rfl

/-- **C65** Conversely an exception of a kind pywasm does not raise itself that comes out of `Runtime.invocate` was raised
by a host function that the code of the export called. -/
theorem C65_invocate_only_hosts {mod : ModuleInst} {name : String} {xs : List HVal} {e : Err} (he : e.own = false)
    (h : Runtime.invocate H N mod name xs m = .error e m') :
    ∃ (ex : Extern) (t : FuncType) (k : Nat) (cur : ModuleInst) (code : FuncDesc) (args : List Val) (n : Nat)
      (m1 : Machine) (c : Nat) (ys : List HVal),
      mod.exps.find? (fun e => e.name = name) = some ⟨name, ex⟩ ∧
      m.store.func[ex.addr]? = some (.wasm t k code) ∧ m.store.mods[k]? = some cur ∧ n < N ∧
      StepsN H n (started m t cur code args) m1 ∧ CallsHost m1 c ys ∧
      H c (curModule m1) ys m1.store = .error e m'.store := by
  unfold Runtime.invocate at h
  obtain ⟨ex, _, h1, h⟩ := (Own.lift (findExport_own _ _)).bind_inv he h
  obtain ⟨h1', rfl⟩ := lift_inv h1
  rw [bind_get_run] at h
  obtain ⟨fn, _, h2, h⟩ := (Own.idx _ _).bind_inv he h
  obtain ⟨h2', rfl⟩ := idx_inv h2
  obtain ⟨_, _, h3, h⟩ := (Own.assert _).bind_inv he h
  obtain ⟨h3', rfl⟩ := assert_inv h3
  obtain ⟨args, _, h4, h⟩ := (Own.lift (OwnE.mapM _ fun (p : ValType × HVal) => OwnE.fromAll p.1 p.2)).bind_inv he h
  obtain ⟨h4', rfl⟩ := lift_inv h4
  rw [M.bind_run] at h
  have hex : mod.exps.find? (fun e => e.name = name) = some ⟨name, ex⟩ := by
    unfold findExport at h1'
    rw [← List.head?_filter]
    cases hl : mod.exps.filter (fun e => e.name = name) with
    | nil => rw [hl] at h1'; cases h1'
    | cons x l =>
      rw [hl] at h1'; cases h1'
      have : x ∈ mod.exps.filter (fun e => e.name = name) := by rw [hl]; exact List.mem_cons_self
      have hname : x.name = name := by simpa using (List.mem_filter.mp this).2
      cases x; cases hname; rfl
  cases hr : Pywasm.invocate H N ex.addr args m with
  | ok rets m1 =>
    rw [hr] at h
    have := Own.lift (OwnE.mapM rets OwnE.intoAll) _ _ _ h
    rw [he] at this; cases this
  | error e1 m1 =>
    rw [hr] at h; cases h
    unfold Pywasm.invocate at hr
    rw [bind_get_run, Py.getItem_some h2', bind_lift_ok] at hr
    cases fn with
    | host t c => cases hr; cases he
    | wasm t k code =>
      dsimp only at hr
      obtain ⟨_, _, h5, hr⟩ := (Own.assert _).bind_inv he hr
      obtain ⟨h5', rfl⟩ := assert_inv h5
      rw [bind_modify_run, bind_get_run] at hr
      obtain ⟨cur, _, h6, hr⟩ := (Own.idx _ _).bind_inv he hr
      obtain ⟨h6', rfl⟩ := idx_inv h6
      rw [bind_modify_run, bind_modify_run] at hr
      rcases bind_error_inv hr with hev | ⟨u, m2, hev, hr⟩
      · change evaluate H N (started m t cur code args) = _ at hev
        obtain ⟨n, m1, hn, hs, hst⟩ := evaluate_error hev
        obtain ⟨c, ys, hc, hH⟩ := step_raises he hst
        exact ⟨ex, t, k, cur, code, args, n, m1, c, ys, hex, h2', h6', hn, hs, hc, hH⟩
      · exfalso
        have hown : Own (do
          let rets ← popN t.rets.length
          assert ((t.rets.zip rets).all fun p => decide (p.1 = p.2.ty))
          if (← get).frame.isEmpty then throw .index
          modify fun m => { m with frame := m.frame.tail }
          assert (← get).frame.isEmpty
          assert (← get).label.isEmpty
          assert (← get).value.isEmpty
          return rets : M (List Val)) := by own
        have := hown _ _ _ hr
        rw [he] at this; cases this

/-! A concrete case: `f` is `(call $h (local.get 0))` and `$h` is a host function that raises `Exception(7)`. -/

/-- A host function that notes something down and raises. -/
def raisingHost : Host := fun _ _ _ s => .error (.host 7) { s with priv := 5 :: s.priv }
def raisingModule : ModuleInst := { type := [⟨[.i32], []⟩], func := [0, 1], exps := [⟨"f", .func 0⟩] }
def raisingMachine : Machine where
  store := { func := [.wasm ⟨[.i32], []⟩ 0 ⟨0, [], [.localGet 0, .call 1]⟩, .host ⟨[.i32], []⟩ 3], mods := [raisingModule] }


example : ExportsFunc raisingModule "f" 0 := by unfold ExportsFunc; decide
/-- The machine about to call the host function. -/
def raisingAt : Machine :=
  { started raisingMachine ⟨[.i32], []⟩ raisingModule ⟨0, [], [.localGet 0, .call 1]⟩ [i32 9] with
    value := [i32 9], label := [⟨0, 1, 0, .func, [.localGet 0, .call 1], 1⟩] }
example : StepsN raisingHost 1 (started raisingMachine ⟨[.i32], []⟩ raisingModule ⟨0, [], [.localGet 0, .call 1]⟩ [i32 9]) raisingAt :=
  .head (by rfl) (.refl _)
example : CallsHost raisingAt 3 [.int 9] :=
  ⟨1, _, ⟨[.i32], []⟩, [i32 9], [], .call (k := 1) (cur := raisingModule) rfl rfl rfl, rfl, rfl, rfl, by rfl⟩
example : ∃ m', Runtime.invocate raisingHost 100 raisingModule "f" [.int 9] raisingMachine = .error (.host 7) m' ∧
    m'.store.priv = [5] := by
  have h := C65_invocate_raises (H := raisingHost) (N := 100) (m := raisingMachine) (mod := raisingModule) (name := "f")
    (xs := [.int 9]) (ys := [.int 9]) (a := 0) (k := 0) (n := 1) (c := 3) (t := ⟨[.i32], []⟩) (cur := raisingModule)
    (code := ⟨0, [], [.localGet 0, .call 1]⟩) (args := [i32 9]) (m1 := raisingAt) (e := .host 7)
    (s' := { raisingAt.store with priv := [5] })
    (by unfold ExportsFunc; decide) rfl rfl rfl (by rfl) (.head (by rfl) (.refl _)) (by decide)
    ⟨1, _, ⟨[.i32], []⟩, [i32 9], [], .call (k := 1) (cur := raisingModule) rfl rfl rfl, rfl, rfl, rfl, by rfl⟩ rfl
  obtain ⟨m', h1, h2⟩ := h
  exact ⟨m', h1, by rw [h2]⟩

/-! ## The hypotheses are met -/

theorem raisingAt_calls : CallsHost raisingAt 3 [.int 9] :=
  ⟨1, _, ⟨[.i32], []⟩, [i32 9], [], .call (k := 1) (cur := raisingModule) rfl rfl rfl, rfl, rfl, rfl, by rfl⟩
example := C65_step_raises (H := raisingHost) raisingAt_calls rfl
example : ∃ c xs, CallsHost raisingAt c xs ∧ ∃ s, raisingHost c (curModule raisingAt) xs raisingAt.store = .error (.host 7) s := by
  obtain ⟨m', h, -⟩ := C65_step_raises (H := raisingHost) raisingAt_calls rfl
  obtain ⟨c, xs, h1, h2⟩ := C65_only_hosts_raise (by rfl) h
  exact ⟨c, xs, h1, _, h2⟩
example : ∃ (n : Nat) (m1 : Machine) (c : Nat) (ys : List HVal), n < 100 ∧ CallsHost m1 c ys := by
  obtain ⟨m', h, -⟩ := C65_invocate_raises (H := raisingHost) (N := 100) (m := raisingMachine) (mod := raisingModule) (name := "f")
    (xs := [.int 9]) (ys := [.int 9]) (a := 0) (k := 0) (n := 1) (c := 3) (t := ⟨[.i32], []⟩) (cur := raisingModule)
    (code := ⟨0, [], [.localGet 0, .call 1]⟩) (args := [i32 9]) (m1 := raisingAt) (e := .host 7)
    (s' := { raisingAt.store with priv := [5] })
    (by unfold ExportsFunc; decide) rfl rfl rfl (by rfl) (.head (by rfl) (.refl _)) (by decide) raisingAt_calls rfl
  obtain ⟨_, _, _, _, _, _, n, m1, c, ys, -, -, -, h1, -, h2, -⟩ := C65_invocate_only_hosts (by rfl) h
  exact ⟨n, m1, c, ys, h1, h2⟩

end Pywasm.Props
