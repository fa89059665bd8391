import Verif.Lemmas.IsolationNew
import Verif.Spec.ValidModule
import Verif.Spec.Demo

/-!
# C88: instances that share nothing do not affect each other

`Spec/Isolation.lean` says what a part of a store is, and when nothing leads out of it.
-/

namespace Pywasm.Props
open Spec Spec.Typing M

variable {W : Part} {H : Host} {m m' n : Machine} {N a : Nat} {args : List Val} {d : ModuleDesc} {bufs : List Nat} {extern : List Extern}

/-- The state a run ends in, whether it returns or raises. -/
def Reaches {α : Type} (x : M α) (m m' : Machine) : Prop := (∃ v, x m = .ok v m') ∨ ∃ e, x m = .error e m'

/-- **C88** A call of a function of a part that nothing leads out of, whether it returns or raises, changes nothing outside
the part; afterwards nothing leads out of it either, and the results do not.  Missing: parts with `table.fill` or with tables
of `externref` (`C88_refuted`). -/
theorem C88_untouched_partial (hH : W.HostKeeps true H) (hr : W.Runs true m) (ha : W.func a) (hargs : ∀ v ∈ args, W.Holds v)
    (h : Reaches (invocate H N a args) m m') :
    W.Untouched m.store m'.store ∧ W.Runs true m' ∧ ∀ rets, invocate H N a args m = .ok rets m' → ∀ v ∈ rets, W.Holds v := by
  have hw := Iso.inv_invocate (c := ⟨W, true, m.store, m.store⟩) (N := N) hH rfl ⟨Iso.Part.Untouched.refl _ _, hr⟩ ha hargs
  unfold Wp at hw
  rcases h with ⟨v, h⟩ | ⟨e, h⟩
  · rw [h] at hw
    refine ⟨hw.1.1, hw.1.2, fun rets hx => ?_⟩
    rw [h] at hx
    injection hx with h1
    exact h1 ▸ hw.2
  · rw [h] at hw
    refine ⟨hw.1, hw.2, fun rets hx => ?_⟩
    rw [h] at hx
    cases hx

/-- The two runs end in the same way, in stores that are the same in the part. -/
def SameRun {α : Type} (W : Part) (x : M α) (m n : Machine) : Prop :=
  match x m, x n with
  | .ok a m', .ok b n' => b = a ∧ n'.value = m'.value ∧ n'.label = m'.label ∧ n'.frame = m'.frame ∧ W.Agree m'.store n'.store
  | .error e m', .error e' n' => e' = e ∧ n'.value = m'.value ∧ n'.label = m'.label ∧ n'.frame = m'.frame ∧ W.Agree m'.store n'.store
  | _, _ => False

/-- **C88** What such a call does in the part, its results and the exception it raises do not depend on what is outside.
Missing: as for `C88_untouched_partial`. -/
theorem C88_unobserved_partial (hH : W.HostKeeps true H) (hr : W.Runs true m) (ha : W.func a) (hargs : ∀ v ∈ args, W.Holds v)
    (hs : n.value = m.value ∧ n.label = m.label ∧ n.frame = m.frame) (hag : W.Agree m.store n.store) :
    SameRun W (invocate H N a args) m n := by
  have hrel : Iso.Rel ⟨W, true, m.store, n.store⟩ m n :=
    ⟨hs.1, hs.2.1, hs.2.2, hag, Iso.Part.Untouched.refl _ _, Iso.Part.Untouched.refl _ _, hr⟩
  have h := Iso.two_invocate (c := ⟨W, true, m.store, n.store⟩) hH rfl N hrel ha hargs
  unfold Iso.Two at h
  unfold SameRun
  generalize invocate H N a args m = x at h ⊢
  generalize invocate H N a args n = y at h ⊢
  match x, y, h with
  | .ok _ _, .ok _ _, h => exact ⟨h.1, h.2.1.value, h.2.1.label, h.2.1.frame, h.2.1.agree⟩
  | .error _ _, .error _ _, h => exact ⟨h.1, h.2.value, h.2.label, h.2.frame, h.2.agree⟩

/-- **C88** For code of any kind: it stays in the part, and changes nothing outside, as long as no `call_indirect` finds
something in its table that is not a function reference.  Missing: that this happens only in code that uses `table.fill` after
the deviation of `C22_called_function_false` (the other theorems of C88 rule it out by excluding `table.fill`). -/
theorem C88_steps_partial {k : Nat} (hH : W.HostKeeps false H) (hr : W.Runs false m) (h : StepsN H k m m')
    (hF : ∀ j mj, j < k → StepsN H j m mj → ¬ Forged mj) : W.Untouched m.store m'.store ∧ W.Runs false m' := by
  induction h with
  | refl m => exact ⟨Iso.Part.Untouched.refl _ _, hr⟩
  | @head k m m1 m2 hs _ ih =>
    have h1 := Iso.wp_of_two (c := ⟨W, false, m.store, m.store⟩) (Iso.two_step (c := ⟨W, false, m.store, m.store⟩) hH (Iso.Inv.rel (c := ⟨W, false, m.store, m.store⟩) ⟨Iso.Part.Untouched.refl _ _, hr⟩)
      (fun _ => hF 0 m (by omega) (.refl m)))
    unfold Wp at h1
    rw [hs] at h1
    have h2 := ih h1.run fun j mj hj hst => hF (j + 1) mj (by omega) (.head hs hst)
    exact ⟨h1.left.trans h2.1, h2.2⟩

/-! ## New instances -/

theorem holds_grow {s : Store} {v : Val} (h : W.Holds v) : (W.grow s d bufs).Holds v := fun ht k hk =>
  let ⟨a, ha, e⟩ := h ht k hk
  ⟨a, .inl ha, e⟩

theorem closed_grow {s : Store} (h : W.Closed true s) : (W.grow s d bufs).Closed true s := by
  have old : ∀ {α : Type} {P : Nat → Prop} {l : List α} {a k : Nat} {x : α}, (P a ∨ l.length ≤ a ∧ a < k) → l[a]? = some x → P a := by
    intro α P l a k x h hx
    rcases h with h | h
    · exact h
    · rw [List.getElem?_eq_none h.1] at hx; cases hx
  refine ⟨fun a t c ha hg => h.host a t c (old ha hg) hg, fun a t k code ha hg => ?_, fun k mod hk hg => ?_, fun a t ha hg => ?_,
    fun a g ha hg => ?_, fun a e ha hg => ?_, fun a b ha hg => ?_⟩
  · have := h.func a t k code (old ha hg) hg
    exact ⟨.inl this.1, this.2⟩
  · rcases hk with hk | rfl
    · have := h.mods k mod hk hg
      exact ⟨fun a ha => .inl (this.func a ha), fun a ha => .inl (this.tabl a ha), fun a ha => .inl (this.mems a ha),
        fun a ha => .inl (this.glob a ha), fun a ha => .inl (this.elem a ha), fun a ha => .inl (this.data a ha)⟩
    · rw [List.getElem?_eq_none (Nat.le_refl _)] at hg; cases hg
  · have := h.tabl a t (old ha hg) hg
    exact ⟨this.1, fun v hv => ⟨holds_grow (this.2 v hv).1, (this.2 v hv).2⟩⟩
  · exact holds_grow (h.glob a g (old ha hg) hg)
  · exact fun v hv => ⟨holds_grow (h.elem a e (old ha hg) hg v hv).1, (h.elem a e (old ha hg) hg v hv).2⟩
  · exact .inl (h.data a b (old ha hg) hg)

/-- **C88** Instantiating a module that imports only from a part nothing leads out of, whether it succeeds or raises, and
whatever its start function does: outside the part nothing that was there has changed, and the part together with the new
instance is again a part that nothing leads out of.  Missing: as for `C88_untouched_partial`. -/
theorem C88_instantiate_partial (hH : (W.grow m.store d bufs).HostKeeps true H) (hc : Clean m) (hw : W.Closed true m.store)
    (hp : PlainModule d) (hx : W.Supplies extern) (h : Reaches (instantiate H N d bufs extern) m m') :
    (W.grow m.store d bufs).Untouched m.store m'.store ∧ (W.grow m.store d bufs).Runs true m' ∧
    ∀ mod, instantiate H N d bufs extern m = .ok mod m' → Clean m' ∧ (W.grow m.store d bufs).Owns mod ∧
      ∀ name b, ExportsFunc mod name b → (W.grow m.store d bufs).func b := by
  obtain ⟨c1, c2, c3⟩ := hc
  have hw := Iso.instantiate_inv (c := ⟨W.grow m.store d bufs, true, m.store, m.store⟩) (N := N) (m := m) (d := d) (bufs := bufs)
    (extern := extern) hH rfl hp
    ⟨.inr rfl, fun i hi => .inr ⟨by simp, by simpa using hi⟩, fun i hi => .inr ⟨by simp, by simpa using hi⟩,
      fun i hi => .inr ⟨by simp, by simpa using hi⟩, fun i hi => .inr ⟨by simp, by simpa using hi⟩,
      fun i hi => .inr ⟨by simp, by simpa using hi⟩, fun i hi => .inr ⟨by simp, by simpa using hi⟩, fun b hb => .inr hb⟩
    (fun x hx' => by
      have := hx x hx'
      cases x <;> exact .inl this)
    ⟨Iso.Part.Untouched.refl _ _, closed_grow hw, by simp [c3], by simp [c2], by simp [c1]⟩ ⟨c1, c2, c3⟩ rfl
  unfold Wp at hw
  rcases h with ⟨v, h⟩ | ⟨e, h⟩
  · rw [h] at hw
    refine ⟨hw.1.1, hw.1.2, fun rets hx => ?_⟩
    rw [h] at hx
    injection hx with h1
    subst h1
    refine ⟨hw.2.1, hw.2.2.1, fun name b hb => ?_⟩
    exact hw.2.2.2 _ (List.mem_of_find?_eq_some hb) b rfl
  · rw [h] at hw
    refine ⟨hw.1, hw.2, fun rets hx => ?_⟩
    rw [h] at hx
    cases hx

/-! ## Modules without imports -/

/-- Calls of functions of the part, one after the other, each in the state that the one before has left, whether it
returned or raised. -/
inductive Calls (W : Part) (H : Host) (N : Nat) : Machine → Machine → Prop
  | done (m : Machine) : Calls W H N m m
  | call {m m1 m2 : Machine} {a : Nat} {args : List Val} (ha : W.func a) (hargs : ∀ v ∈ args, W.Holds v)
      (h : Reaches (invocate H N a args) m m1) (hs : Calls W H N m1 m2) : Calls W H N m m2

/-- **C88** Any number of calls. -/
theorem C88_calls_partial (hH : W.HostKeeps true H) (hr : W.Runs true m) (h : Calls W H N m m') :
    W.Untouched m.store m'.store ∧ W.Runs true m' := by
  induction h with
  | done m => exact ⟨Iso.Part.Untouched.refl _ _, hr⟩
  | call ha hargs h hs ih =>
    have h1 := C88_untouched_partial hH hr ha hargs h
    have h2 := ih h1.2.1
    exact ⟨h1.1.trans h2.1, h2.2⟩

/-- Everything that was in the store is as it was. -/
structure StillThere (bufs : List Nat) (s s' : Store) : Prop where
  func : s.func <+: s'.func
  tabl : s.tabl <+: s'.tabl
  mems : s.mems <+: s'.mems
  glob : s.glob <+: s'.glob
  elem : s.elem <+: s'.elem
  data : s.data <+: s'.data
  mods : s.mods <+: s'.mods
  bufs : ∀ b, b ∉ bufs → s'.bufs[b]? = s.bufs[b]?

theorem prefix_of_get {α : Type} {l k : List α} (h : ∀ i, i < l.length → k[i]? = l[i]?) : l <+: k := by
  rw [List.prefix_iff_getElem?]
  intro i hi
  rw [h i hi, List.getElem?_eq_getElem hi]

theorem stillThere {s s' : Store} (h : (Part.none.grow s d bufs).Untouched s s') : StillThere bufs s s' := by
  refine ⟨prefix_of_get fun i hi => h.func i ?_, prefix_of_get fun i hi => h.tabl i ?_, prefix_of_get fun i hi => h.mems i ?_,
    prefix_of_get fun i hi => h.glob i ?_, prefix_of_get fun i hi => h.elem i ?_, prefix_of_get fun i hi => h.data i ?_,
    prefix_of_get fun i hi => h.mods i ?_, fun b hb => h.bufs b ?_⟩
  all_goals
    intro hx
    rcases hx with hx | hx
    · exact hx
    · first
      | exact hb hx
      | omega

/-- **C88** A module without imports, whatever was in the machine before and whatever the module does: instantiating it and
then calling its functions any number of times, with any of these raising, leaves everything that was there before as it
was: functions, tables, memories, globals, segments and instances.  Missing: as for `C88_untouched_partial`. -/
theorem C88_alone_partial {m1 m2 : Machine} (hc : Clean m) (hp : PlainModule d) (hi : Reaches (instantiate H N d bufs []) m m1)
    (h : Calls (Part.none.grow m.store d bufs) H N m1 m2) : StillThere bufs m.store m2.store := by
  have hH : (Part.none.grow m.store d bufs).HostKeeps true H := by
    intro a ty c caller args xs s t _ _ hc
    exact hc.elim
  have hcl : Part.none.Closed true m.store := ⟨nofun, nofun, nofun, nofun, nofun, nofun, nofun⟩
  have h1 := C88_instantiate_partial hH hc hcl hp (by intro x hx; cases hx) hi
  exact stillThere (h1.1.trans (C88_calls_partial hH h1.2.1 h).1)

/-- A valid module without `table.fill` whose tables and element segments are of function references, none of these from a
global, is one that these theorems are about. -/
theorem C88_plain_of_valid {C : Typing.Ctx} (hV : ValidModule C d) (hn : ∀ f ∈ d.func, noFill f.expr = true)
    (ht : ∀ t ∈ d.tabl, t.type = .funcref) (he : ∀ e ∈ d.elem, e.type = .funcref ∧ ∀ x ∈ e.init, ∀ i, x ≠ [.globalGet i]) : PlainModule d := by
  have hconst : ∀ {C : Typing.Ctx} {e : Expr} {t : ValType}, ConstExpr C e t → e.all constInst = true := by
    rintro C e t ⟨i, rfl, h, _⟩
    cases h <;> rfl
  refine ⟨hn, ht, fun g hg => hconst (hV.glob g hg), fun e h => ⟨fun hk => hconst (hV.activeElem e h hk).2, fun x hx => ?_⟩,
    fun e h hk => hconst (hV.activeData e h hk).2.2⟩
  obtain ⟨i, rfl, hc, hi⟩ := (hV.elem e h).2 x hx
  rw [(he e h).1] at hi
  cases hc with
  | null t => cases hi; exact .inr rfl
  | func f => exact .inl ⟨_, rfl⟩
  | global => exact absurd rfl ((he e h).2 _ hx _)
  | _ => cases hi

/-! ## Code can leave its part -/

/-- A module with a global and a function that sets it. -/
def isoVictim : ModuleDesc where
  type := [⟨[], []⟩]
  func := [⟨0, [], [.i32Const 7, .globalSet 0]⟩]
  glob := [⟨⟨.i32, true⟩, [.i32Const 0]⟩]

/-- A module without imports and exporting one function.  It calls a function that branches to its own label, after which it
finds that function's `i64` parameter in place of its own `funcref` local. -/
def isoForger : ModuleDesc where
  type := [⟨[.i64], []⟩, ⟨[], []⟩]
  func := [⟨0, [], [.br 0]⟩,
    ⟨1, [(1, .funcref)], [.i64Const 0x100000000, .call 0, .i32Const 0, .localGet 0, .i32Const 1, .tableFill 0, .i32Const 0,
      .callIndirect 1 0]⟩]
  tabl := [⟨.funcref, ⟨1, 0⟩⟩]
  exps := [⟨"go", .func, 1⟩]

/-- Instantiate both and call `go` of the second; the first global before and after the call. -/
def isoAttack : M (Option Val × Option Val) := do
  let _ ← instantiate noHost 100 isoVictim [] []
  let mod ← instantiate noHost 100 isoForger [] []
  let before := (← get).store.glob[0]?.map (·.data)
  match mod.exps.find? (fun e => e.name = "go") with
  | some ⟨_, .func a⟩ =>
    let m ← get
    match invocate noHost 100 a [] m with
    | .ok _ m' | .error _ m' => return (before, m'.store.glob[0]?.map (·.data))
  | _ => throw .key

theorem isoVictim_valid : ValidModule ⟨isoVictim.type, isoVictim.type, [], 0, [⟨.i32, true⟩], [], 0, [], [], []⟩ isoVictim where
  types := rfl
  funcs := .cons rfl .nil
  tables := rfl
  mems := rfl
  globals := rfl
  elems := rfl
  datas := rfl
  code := by
    intro f hf t ht
    simp only [isoVictim, List.mem_cons, List.not_mem_nil, or_false] at hf
    subst hf
    cases ht
    refine .cons [] (.i32Const (by decide)) ?_
    exact .cons (a := [.i32]) (b := []) [] (.globalSet (g := ⟨.i32, true⟩) rfl rfl) (.nil _)
  table := nofun
  mem := nofun
  glob := by
    intro g hg
    simp only [isoVictim, List.mem_cons, List.not_mem_nil, or_false] at hg
    subst hg
    exact ⟨_, rfl, .i32 _, .i32Const (by decide)⟩
  elem := nofun
  activeElem := nofun
  activeData := nofun
  limits := ⟨nofun, nofun⟩
  refs := nofun
  exps := nofun
  start := nofun

theorem isoForger_valid : ValidModule ⟨isoForger.type, isoForger.type, [.funcref], 0, [], [], 0, [], [], []⟩ isoForger where
  types := rfl
  funcs := .cons rfl (.cons rfl .nil)
  tables := rfl
  mems := rfl
  globals := rfl
  elems := rfl
  datas := rfl
  code := by
    intro f hf t ht
    simp only [isoForger, List.mem_cons, List.not_mem_nil, or_false] at hf
    rcases hf with rfl | rfl <;> cases ht
    · exact .cons (a := []) (b := []) [] (.br (ts := []) [] [] rfl) (.nil _)
    · refine .cons [] (.i64Const (by decide)) ?_
      refine .cons (a := [.i64]) (b := []) [] (.call (t := ⟨[.i64], []⟩) rfl) ?_
      refine .cons (a := []) (b := [.i32]) [] (.i32Const (by decide)) ?_
      refine .cons (a := []) (b := [.funcref]) [.i32] (.localGet (t := .funcref) rfl) ?_
      refine .cons (a := []) (b := [.i32]) [.funcref, .i32] (.i32Const (by decide)) ?_
      refine .cons (a := [.i32, .funcref, .i32]) (b := []) [] (.tableFill (t := .funcref) rfl) ?_
      refine .cons (a := []) (b := [.i32]) [] (.i32Const (by decide)) ?_
      exact .cons (a := [.i32]) (b := []) [] (.callIndirect (t := ⟨[], []⟩) rfl rfl) (.nil _)
  table := by decide
  mem := nofun
  glob := nofun
  elem := nofun
  activeElem := nofun
  activeData := nofun
  limits := ⟨by decide, nofun⟩
  refs := nofun
  exps := by
    intro e he
    simp only [isoForger, List.mem_cons, List.not_mem_nil, or_false] at he
    subst he
    show 1 < 2
    decide
  start := nofun

/-- The result of a run, if it returns. -/
def isoGot {α : Type} (r : EStateM.Result Err Machine α) : Option α :=
  match r with
  | .ok x _ => some x
  | .error _ _ => none

theorem isoGot_some {α : Type} {r : EStateM.Result Err Machine α} {x : α} (h : isoGot r = some x) : ∃ m, r = .ok x m := by
  cases r with
  | ok y m => cases h; exact ⟨m, rfl⟩
  | error e m => cases h

/-- **C88** Without the conditions it is false: two valid modules that import nothing, and calling an export of the second sets
the global of the first. -/
theorem C88_refuted : (∃ C, ValidModule C isoVictim) ∧ (∃ C, ValidModule C isoForger) ∧ isoVictim.imps = [] ∧ isoForger.imps = [] ∧
    ∃ m, isoAttack {} = .ok (some (i32 0), some (i32 7)) m :=
  ⟨⟨_, isoVictim_valid⟩, ⟨_, isoForger_valid⟩, rfl, rfl, isoGot_some (by decide +kernel)⟩

/-! ## The hypotheses can be met -/

/-- The machine after `isoVictim` has been instantiated. -/
def isoFirst : Machine where
  store :=
    { func := [.wasm ⟨[], []⟩ 0 ⟨0, [], [.i32Const 7, .globalSet 0]⟩], glob := [⟨i32 0, true⟩]
      mods := [{ type := [⟨[], []⟩], func := [0], glob := [0] }] }
example : instantiate noHost 100 isoVictim [] [] {} = .ok { type := [⟨[], []⟩], func := [0], glob := [0] } isoFirst := by rfl

theorem isoVictim_plain : PlainModule isoVictim := by
  refine ⟨?_, nofun, ?_, nofun, nofun⟩
  · intro f hf
    simp only [isoVictim, List.mem_cons, List.not_mem_nil, or_false] at hf
    subst hf; rfl
  · intro f hf
    simp only [isoVictim, List.mem_cons, List.not_mem_nil, or_false] at hf
    subst hf; rfl

/-- Instantiate it a second time and call the function of the second instance, twice: the globals of both. -/
def isoTwice : M (List Val) := do
  let mod ← instantiate noHost 100 isoVictim [] []
  match mod.func with
  | [a] => let _ ← invocate noHost 100 a []; let _ ← invocate noHost 100 a []; return (← get).store.glob.map (·.data)
  | _ => throw .key
example : isoGot (isoTwice isoFirst) = some [i32 0, i32 7] := by decide +kernel

theorem reaches_some {α : Type} (x : M α) (m : Machine) : ∃ m', Reaches x m m' := by
  cases h : x m with
  | ok v m' => exact ⟨m', .inl ⟨v, h⟩⟩
  | error e m' => exact ⟨m', .inr ⟨e, h⟩⟩

example : ∃ m1 m2, Reaches (instantiate noHost 100 isoVictim [] []) isoFirst m1 ∧
    Calls (Part.none.grow isoFirst.store isoVictim []) noHost 100 m1 m2 ∧ StillThere [] isoFirst.store m2.store := by
  obtain ⟨m1, h1⟩ := reaches_some (instantiate noHost 100 isoVictim [] []) isoFirst
  obtain ⟨m2, h2⟩ := reaches_some (invocate noHost 100 1 []) m1
  obtain ⟨m3, h3⟩ := reaches_some (invocate noHost 100 1 []) m2
  have hf : (Part.none.grow isoFirst.store isoVictim []).func 1 := .inr ⟨by decide, by decide⟩
  have hc : Calls (Part.none.grow isoFirst.store isoVictim []) noHost 100 m1 m3 :=
    .call hf (by simp) h2 (.call hf (by simp) h3 (.done _))
  exact ⟨m1, m3, h1, hc, C88_alone_partial ⟨rfl, rfl, rfl⟩ isoVictim_plain h1 hc⟩

/-- A part with a host function that counts its calls. -/
def isoCounter : Host := fun _ _ _ s => .ok [] { s with priv := s.priv.map (· + 1) }
/-- `(func (import) ...)` and a function that calls it, with a table that has both. -/
def isoHosted : Machine where
  store :=
    { func := [.host ⟨[], []⟩ 0, .wasm ⟨[], []⟩ 0 ⟨0, [], [.call 0, .i32Const 0, .callIndirect 0 0]⟩, .host ⟨[], []⟩ 9]
      tabl := [⟨⟨.funcref, ⟨2, 0⟩⟩, [Ref.refTo .funcref 0, Ref.refTo .funcref 1], 2⟩]
      mods := [{ type := [⟨[], []⟩], func := [0, 1], tabl := [0] }], glob := [⟨i32 0, true⟩], priv := [0] }
/-- Everything except host function 9 and the global. -/
def isoPart : Part :=
  { Part.none with host := fun c t => c = 0 ∧ t = ⟨[], []⟩, func := (· < 2), tabl := (· = 0), mods := (· = 0) }

theorem isoPart_closed : isoPart.Closed true isoHosted.store := by
  refine ⟨?_, ?_, ?_, ?_, nofun, nofun, nofun⟩
  · intro a t c ha hg
    match a, ha with
    | 0, _ => cases hg; exact ⟨rfl, rfl⟩
    | 1, _ => cases hg
  · intro a t k code ha hg
    match a, ha with
    | 0, _ => cases hg
    | 1, _ => cases hg; exact ⟨rfl, fun _ => rfl⟩
  · intro k mod hk hg
    cases hk
    cases hg
    exact ⟨by simp [isoPart], by simp [isoPart], by simp, by simp, by simp, by simp⟩
  · intro a t ha hg
    cases ha
    cases hg
    refine ⟨fun _ => rfl, fun v hv => ?_⟩
    simp only [List.mem_cons, List.not_mem_nil, or_false] at hv
    rcases hv with rfl | rfl
    · exact ⟨Iso.holds_ref (a := 0) (show 0 < 2 by decide) (by rfl), fun _ => rfl⟩
    · exact ⟨Iso.holds_ref (a := 1) (show 1 < 2 by decide) (by rfl), fun _ => rfl⟩

theorem isoCounter_keeps : isoPart.HostKeeps true isoCounter := by
  intro a ty c caller args xs s t hc hag _ _ _ _ _ _
  refine ⟨rfl, ⟨⟨hag.func, hag.tabl, hag.mems, hag.glob, hag.elem, hag.data, hag.mods, hag.bufs, hag.wasi, ?_⟩,
    ⟨fun _ _ => rfl, fun _ _ => rfl, fun _ _ => rfl, fun _ _ => rfl, fun _ _ => rfl, fun _ _ => rfl, fun _ _ => rfl, fun _ _ => rfl⟩,
    ⟨fun _ _ => rfl, fun _ _ => rfl, fun _ _ => rfl, fun _ _ => rfl, fun _ _ => rfl, fun _ _ => rfl, fun _ _ => rfl, fun _ _ => rfl⟩,
    hc.host, hc.func, hc.mods, hc.tabl, hc.glob, hc.elem, hc.data⟩, ?_⟩
  · show t.priv.map _ = s.priv.map _
    rw [hag.priv]
  · intro p hp
    rw [List.zip_nil_right] at hp
    cases hp

theorem isoHosted_runs : isoPart.Runs true isoHosted := ⟨isoPart_closed, nofun, nofun, nofun⟩

example : ∃ m', Reaches (invocate isoCounter 100 1 []) isoHosted m' ∧ isoPart.Untouched isoHosted.store m'.store := by
  obtain ⟨m', h⟩ := reaches_some (invocate isoCounter 100 1 []) isoHosted
  exact ⟨m', h, (C88_untouched_partial isoCounter_keeps isoHosted_runs (show 1 < 2 by decide) (by simp) h).1⟩
example : isoGot ((do let _ ← invocate isoCounter 100 1 []; return (← get).store.priv) isoHosted) = some [2] := by decide +kernel

/-- The same with another value in the global. -/
def isoOther : Machine := { isoHosted with store := { isoHosted.store with glob := [⟨i32 5, true⟩] } }
example : SameRun isoPart (invocate isoCounter 100 1 []) isoHosted isoOther :=
  C88_unobserved_partial isoCounter_keeps isoHosted_runs (show 1 < 2 by decide) (by simp) ⟨rfl, rfl, rfl⟩
    ⟨fun _ _ => rfl, fun _ _ => rfl, fun _ _ => rfl, nofun, fun _ _ => rfl, fun _ _ => rfl, fun _ _ => rfl, fun _ _ => rfl, rfl, rfl⟩

/-- About to run the function of `isoHosted`. -/
def isoCalling : Machine :=
  { isoHosted with
    label := [⟨0, 1, 0, .func, [.call 0, .i32Const 0, .callIndirect 0 0], 0⟩]
    frame := [⟨{ type := [⟨[], []⟩], func := [0, 1], tabl := [0] }, [], 0, 0, 0⟩] }

example : ∃ m', StepsN isoCounter 1 isoCalling m' ∧ m'.store.priv = [1] ∧ isoPart.Untouched isoCalling.store m'.store := by
  have hcl : isoPart.Closed false isoHosted.store := by
    have h := isoPart_closed
    exact ⟨h.host, fun a t k code ha hg => ⟨(h.func a t k code ha hg).1, nofun⟩, h.mods,
      fun a t ha hg => ⟨nofun, fun v hv => ⟨((h.tabl a t ha hg).2 v hv).1, nofun⟩⟩, h.glob,
      fun a e ha hg v hv => ⟨(h.elem a e ha hg v hv).1, nofun⟩, h.data⟩
  have hH : isoPart.HostKeeps false isoCounter := by
    intro a ty c caller args xs s t hc hag _ _ _ _ _ _
    refine ⟨rfl, ⟨⟨hag.func, hag.tabl, hag.mems, hag.glob, hag.elem, hag.data, hag.mods, hag.bufs, hag.wasi, ?_⟩,
      ⟨fun _ _ => rfl, fun _ _ => rfl, fun _ _ => rfl, fun _ _ => rfl, fun _ _ => rfl, fun _ _ => rfl, fun _ _ => rfl, fun _ _ => rfl⟩,
      ⟨fun _ _ => rfl, fun _ _ => rfl, fun _ _ => rfl, fun _ _ => rfl, fun _ _ => rfl, fun _ _ => rfl, fun _ _ => rfl, fun _ _ => rfl⟩,
      hc.host, hc.func, hc.mods, hc.tabl, hc.glob, hc.elem, hc.data⟩, ?_⟩
    · show t.priv.map _ = s.priv.map _
      rw [hag.priv]
    · intro p hp
      rw [List.zip_nil_right] at hp
      cases hp
  have hr : isoPart.Runs false isoCalling := by
    refine ⟨hcl, nofun, nofun, fun f hf => ?_⟩
    rw [List.mem_singleton.mp hf]
    exact ⟨⟨by simp [isoPart], by simp [isoPart], by simp, by simp, by simp, by simp⟩, nofun⟩
  obtain ⟨m', h1, h2⟩ : ∃ m', step isoCounter isoCalling = .ok () m' ∧ m'.store.priv = [1] := ⟨_, rfl, rfl⟩
  refine ⟨m', .head h1 (.refl _), h2, (C88_steps_partial hH hr (.head h1 (.refl _)) fun j mj hj hs => ?_).1⟩
  have : j = 0 := by omega
  subst this
  cases hs
  rintro ⟨lab, L, f, F, t, tab, ta, table, v, rest, e, e1, e2, e3, _⟩
  cases e1
  cases e3

example := C88_plain_of_valid isoVictim_valid (by decide) nofun nofun
example (m' : Machine) (h : Reaches (instantiate isoCounter 100 isoVictim [] []) isoHosted m') :=
  C88_instantiate_partial (W := Part.none) (H := isoCounter) (by intro a ty c caller args xs s t _ _ hc; exact hc.elim) ⟨rfl, rfl, rfl⟩
    ⟨nofun, nofun, nofun, nofun, nofun, nofun, nofun⟩ isoVictim_plain (by intro x hx; cases hx) h
example : ∃ m1 m2, Reaches (invocate isoCounter 100 1 []) isoHosted m1 ∧ Reaches (invocate isoCounter 100 0 []) m1 m2 ∧ isoPart.Untouched isoHosted.store m2.store := by
  obtain ⟨m1, h1⟩ := reaches_some (invocate isoCounter 100 1 []) isoHosted
  obtain ⟨m2, h2⟩ := reaches_some (invocate isoCounter 100 0 []) m1
  exact ⟨m1, m2, h1, h2, (C88_calls_partial isoCounter_keeps isoHosted_runs
    (.call (show 1 < 2 by decide) (by simp) h1 (.call (show 0 < 2 by decide) (by simp) h2 (.done _)))).1⟩

end Pywasm.Props
