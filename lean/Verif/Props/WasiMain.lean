import Verif.Props.HostRaise
import Verif.Props.WasiTable
import Verif.Lemmas.WasiQuit
import Verif.Lemmas.WasiConfig
import Verif.Lemmas.WorldKeep
import Verif.Spec.Returns

/-!
# C48, C66, C67: WASI guests from `Preview1.bind` to `Preview1.main`
-/

namespace Pywasm.Props
open Spec M WasiSpec Wasi

variable {os : Os} {H : Host} {N : Nat} {m m' : Machine} {mod : ModuleInst}

/-! ## The table of `bind` -/

theorem intArgs_map : ∀ l : List Int, intArgs (l.map .int) = some l
  | [] => rfl
  | n :: l => by simp [intArgs, intArgs_map l]
theorem intArgs_inv : ∀ {xs : List HVal} {l : List Int}, intArgs xs = some l → xs = l.map .int
  | [], l, h => by cases h; rfl
  | .int n :: xs, l, h => by
    unfold intArgs at h
    cases hx : intArgs xs with
    | none => rw [hx] at h; cases h
    | some l' => rw [hx] at h; cases h; rw [intArgs_inv hx]; rfl
  | .float _ :: _, _, h => by cases h
  | .bytes _ :: _, _, h => by cases h

theorem rows_agree : List.Forall₂ (fun (p : String × FuncType) f => ∀ xs c, f xs = some c →
    xs = callArgs c ∧ p.1 = callName c ∧ p.2 = callType c ∧ p.2.args.length = xs.length) table methods := by
  unfold table methods
  repeat' constructor
  all_goals
    intro xs c h
    first
      | unfold take0 at h | unfold take1 at h | unfold take2 at h | unfold take3 at h | unfold take4 at h
      | unfold take5 at h | unfold take6 at h | unfold take7 at h | unfold take9 at h
    split at h
    · injection h with h; subst h; exact ⟨rfl, rfl, rfl, rfl⟩
    · cases h

/-- Row `k` of the table names the function its number stands for. -/
theorem callOf_name {k : Nat} {xs : List Int} {c : Call} (h : callOf k xs = some c) :
    xs = callArgs c ∧ ∃ t, table[k]? = some (callName c, t) ∧ t = callType c ∧ t.args.length = xs.length := by
  unfold callOf at h
  cases hf : methods[k]? with
  | none => rw [hf] at h; cases h
  | some f =>
    rw [hf] at h
    have hl := rows_agree.length_eq
    obtain ⟨hk, hf'⟩ := List.getElem?_eq_some_iff.mp hf
    have := (List.forall₂_iff_get.mp rows_agree).2 k (hl ▸ hk) hk xs c (by rw [List.get_eq_getElem, hf']; exact h)
    rw [List.get_eq_getElem] at this
    refine ⟨this.1, table[k].2, ?_, this.2.2⟩
    rw [List.getElem?_eq_getElem (hl ▸ hk), ← this.2.1]; rfl
/-- Every function has a row. -/
theorem callOf_all (c : Call) : ∃ k, callOf k (callArgs c) = some c := by
  cases c
  all_goals first
    | exact ⟨0, rfl⟩ | exact ⟨1, rfl⟩ | exact ⟨2, rfl⟩ | exact ⟨3, rfl⟩ | exact ⟨4, rfl⟩ | exact ⟨5, rfl⟩
    | exact ⟨6, rfl⟩ | exact ⟨7, rfl⟩ | exact ⟨8, rfl⟩ | exact ⟨9, rfl⟩ | exact ⟨10, rfl⟩ | exact ⟨11, rfl⟩
    | exact ⟨12, rfl⟩ | exact ⟨13, rfl⟩ | exact ⟨14, rfl⟩ | exact ⟨15, rfl⟩ | exact ⟨16, rfl⟩ | exact ⟨17, rfl⟩
    | exact ⟨18, rfl⟩ | exact ⟨19, rfl⟩ | exact ⟨20, rfl⟩ | exact ⟨21, rfl⟩ | exact ⟨22, rfl⟩ | exact ⟨23, rfl⟩
    | exact ⟨24, rfl⟩ | exact ⟨25, rfl⟩ | exact ⟨26, rfl⟩ | exact ⟨27, rfl⟩ | exact ⟨28, rfl⟩ | exact ⟨29, rfl⟩
    | exact ⟨30, rfl⟩ | exact ⟨31, rfl⟩ | exact ⟨32, rfl⟩ | exact ⟨33, rfl⟩ | exact ⟨34, rfl⟩ | exact ⟨35, rfl⟩
    | exact ⟨36, rfl⟩ | exact ⟨37, rfl⟩ | exact ⟨38, rfl⟩ | exact ⟨39, rfl⟩ | exact ⟨40, rfl⟩ | exact ⟨41, rfl⟩
    | exact ⟨42, rfl⟩ | exact ⟨43, rfl⟩ | exact ⟨44, rfl⟩ | exact ⟨45, rfl⟩
theorem table_nodup : (table.map Prod.fst).Nodup := by decide +kernel
theorem table_row {j k : Nat} {n : String} {t u : FuncType} (h : table[j]? = some (n, t)) (h' : table[k]? = some (n, u)) :
    j = k := by
  have hl : j < (table.map Prod.fst).length := by
    rw [List.length_map]; exact (List.getElem?_eq_some_iff.mp h).1
  refine (List.getElem?_inj hl table_nodup).mp ?_
  rw [List.getElem?_map, List.getElem?_map, h, h']; rfl

theorem host_row {k : Nat} {c : Call} {t : FuncType} (h : table[k]? = some (callName c, t)) (mod : Option ModuleInst) :
    host os H k mod ((callArgs c).map .int) = runCall os mod c := by
  obtain ⟨j, hj⟩ := callOf_all c
  obtain ⟨-, u, hu, -⟩ := callOf_name hj
  obtain rfl := table_row h hu
  unfold host
  have : k < 46 := (List.getElem?_eq_some_iff.mp h).1
  rw [if_pos this, intArgs_map]
  change (match callOf k (callArgs c) with | some call => runCall os mod call | none => throw Err.index) = _
  rw [hj]

/-- What `host` does: a WASI call, an embedder's function, or an argument list of the wrong shape. -/
theorem host_cases (k : Nat) (mod : Option ModuleInst) (xs : List HVal) :
    (∃ c t, table[k]? = some (callName c, t) ∧ xs = (callArgs c).map .int ∧ host os H k mod xs = runCall os mod c) ∨
    (∃ j, host os H k mod xs = H j mod xs) ∨ host os H k mod xs = throw .index := by
  unfold host
  split
  · cases hi : intArgs xs with
    | none => exact .inr (.inr rfl)
    | some l =>
      cases hc : callOf k l with
      | none =>
        refine .inr (.inr ?_)
        change (match callOf k l with | some call => runCall os mod call | none => throw Err.index) = _
        rw [hc]
      | some c =>
        obtain ⟨hl, t, ht, -⟩ := callOf_name hc
        refine .inl ⟨c, t, ht, by rw [intArgs_inv hi, hl], ?_⟩
        change (match callOf k l with | some call => runCall os mod call | none => throw Err.index) = _
        rw [hc]
  · exact .inr (.inl ⟨_, rfl⟩)

theorem bindRows_run : ∀ (l : List (String × FuncType)) (i : Nat) (m : Machine),
    bindRows l i m = .ok ((List.range l.length).zipWith (fun j p => (p.1, .func (m.store.func.length + j))) l)
      { m with store := { m.store with func := m.store.func ++ (List.range l.length).zipWith (fun j p => .host p.2 (i + j)) l } } := by
  intro l
  induction l with
  | nil => intro i m; simp [bindRows, pure, EStateM.pure]
  | cons p l ih =>
    intro i m
    obtain ⟨n, t⟩ := p
    unfold bindRows allocateFuncHost
    simp only [Bind.bind, EStateM.bind, get, getThe, MonadStateOf.get, EStateM.get, modify, modifyGet, MonadStateOf.modifyGet,
      EStateM.modifyGet, pure, EStateM.pure]
    rw [ih]
    simp only [List.length_cons, List.range_succ_eq_map, List.zipWith_cons_cons, List.zipWith_map_left, List.length_append,
      List.length_nil, List.append_assoc, List.singleton_append, Nat.add_zero]
    congr 4 <;> (try congr) <;> (funext j q; congr 1; first | omega | (congr 1; omega))

theorem lookup_of_nodup {α : Type} : ∀ {d : List (String × α)} {k : String} {v : α}, (d.map Prod.fst).Nodup → (k, v) ∈ d →
    List.lookup k d = some v := by
  intro d
  induction d with
  | nil => intro k v _ h; cases h
  | cons p d ih =>
    intro k v hn h
    obtain ⟨k', v'⟩ := p
    rw [List.map_cons, List.nodup_cons] at hn
    rcases List.mem_cons.mp h with h | h
    · cases h; simp [List.lookup]
    · have hk : k ≠ k' := fun e => hn.1 (e ▸ List.mem_map.mpr ⟨(k, v), h, rfl⟩)
      have : (k == k') = false := by simpa using hk
      rw [List.lookup, this]; exact ih hn.2 h

theorem lookup_map_ne {α : Type} {k k' : String} {v : α} (h : k' ≠ k) : ∀ d : List (String × α),
    List.lookup k' (d.map fun p => if p.1 = k then (k, v) else p) = List.lookup k' d
  | [] => rfl
  | (a, b) :: d => by
    have ih := lookup_map_ne (v := v) h d
    rw [List.map_cons]
    by_cases ha : a = k
    · subst ha
      have : (k' == a) = false := by simpa using h
      simp [List.lookup, this, ih]
    · rw [if_neg ha]; simp only [List.lookup, ih]
theorem lookup_map_self {α : Type} {k : String} {v : α} : ∀ d : List (String × α), (d.any fun p => p.1 = k) = true →
    List.lookup k (d.map fun p => if p.1 = k then (k, v) else p) = some v
  | [], h => by cases h
  | (a, b) :: d, h => by
    rw [List.map_cons]
    by_cases ha : a = k
    · simp [ha, List.lookup]
    · have hk : (k == a) = false := by simpa using fun e => ha e.symm
      rw [if_neg ha, List.lookup, hk]
      refine lookup_map_self d ?_
      simpa [ha] using h
theorem lookup_append_none {α : Type} {k : String} : ∀ (d e : List (String × α)), (d.any fun p => p.1 = k) = false →
    List.lookup k (d ++ e) = List.lookup k e
  | [], _, _ => rfl
  | (a, b) :: d, e, h => by
    simp only [List.any_cons, Bool.or_eq_false_iff, decide_eq_false_iff_not] at h
    have hk : (k == a) = false := by simpa using fun e => h.1 e.symm
    rw [List.cons_append, List.lookup, hk]
    exact lookup_append_none d e h.2
theorem lookup_append_ne {α : Type} {k k' : String} {v : α} (h : k' ≠ k) : ∀ d : List (String × α),
    List.lookup k' (d ++ [(k, v)]) = List.lookup k' d
  | [] => by
    have : (k' == k) = false := by simpa using h
    simp [List.lookup, this]
  | (a, b) :: d => by rw [List.cons_append]; simp only [List.lookup, lookup_append_ne h d]

theorem lookup_assocSet {α : Type} (d : List (String × α)) (k : String) (v : α) : List.lookup k (assocSet d k v) = some v := by
  unfold assocSet
  split
  · rename_i h; exact lookup_map_self d h
  · rename_i h
    rw [lookup_append_none d _ (by rw [Bool.not_eq_true] at h; exact h)]; simp [List.lookup]
theorem lookup_assocSet_ne {α : Type} (d : List (String × α)) {k k' : String} (v : α) (h : k' ≠ k) :
    List.lookup k' (assocSet d k v) = List.lookup k' d := by
  unfold assocSet
  split
  · exact lookup_map_ne h d
  · exact lookup_append_ne h d

/-- **C66** After `Preview1.bind` the import `wasi_snapshot_preview1.NAME` is, for every WASI function, a host function
with the type WASI gives that function, and calling it runs that function.  The functions the store had keep their
addresses, nothing else of the machine changes, and other import modules are unchanged. -/
theorem C66_bind {imports imports' : Imports} (h : Wasi.bind imports m = .ok imports' m') :
    (∀ c : Call, ∃ rows a k, List.lookup "wasi_snapshot_preview1" imports' = some rows ∧
      List.lookup (callName c) rows = some (.func a) ∧ m'.store.func[a]? = some (.host (callType c) k) ∧
      ∀ os H mod, host os H k mod ((callArgs c).map .int) = runCall os mod c) ∧
    (∀ k, k ≠ "wasi_snapshot_preview1" → List.lookup k imports' = List.lookup k imports) ∧
    (∃ l, m' = { m with store := { m.store with func := m.store.func ++ l } }) := by
  unfold Wasi.bind at h
  rw [bind_ok (bindRows_run table 0 m)] at h
  injection h with h1 h2
  subst h1 h2
  refine ⟨?_, ?_, _, rfl⟩
  · intro c
    obtain ⟨k, hk⟩ := callOf_all c
    obtain ⟨-, t, ht, rfl, -⟩ := callOf_name hk
    have hlt : k < table.length := (List.getElem?_eq_some_iff.mp ht).1
    refine ⟨_, m.store.func.length + k, k, lookup_assocSet .., ?_, ?_, fun os H mod => host_row ht mod⟩
    · refine lookup_of_nodup ?_ (List.mem_of_getElem? (i := k) ?_)
      · have : List.map Prod.fst ((List.range table.length).zipWith
            (fun j (p : String × FuncType) => (p.1, Extern.func (m.store.func.length + j))) table) = table.map Prod.fst := by
          rw [List.map_zipWith]
          apply List.ext_getElem?
          intro i
          rw [List.getElem?_zipWith, List.getElem?_map]
          by_cases hi : i < table.length
          · rw [List.getElem?_range hi, List.getElem?_eq_getElem hi]; rfl
          · rw [List.getElem?_eq_none (by omega : table.length ≤ i)]; cases (List.range table.length)[i]? <;> rfl
        rw [this]; exact table_nodup
      · rw [List.getElem?_zipWith, List.getElem?_range hlt, ht]
    · simp only
      rw [List.getElem?_append_right (by omega), Nat.add_sub_cancel_left, List.getElem?_zipWith, List.getElem?_range hlt, ht]
      simp
  · intro k hk
    exact lookup_assocSet_ne imports _ hk

/-! ## Guests act on the host only through WASI calls -/

theorem after_ok {c : Call} {s t : St} {r : Int} (h : c.run os s = .ok r t) : after (c.run os) s = t := by
  unfold after; rw [h]
theorem after_err {c : Call} {s t : St} {e : Err} (h : c.run os s = .error e t) : after (c.run os) s = t := by
  unfold after; rw [h]

theorem hostW (hH : Apart H) (s0 : St) : HostW (fun w => Reach os s0 (w.st none)) (host os H) := by
  intro k mod xs s hs
  have key : ∀ c : Call, Reach os s0 ((after (c.run os) (s.wasi.st (callerMem mod s))).world.st none) := fun c =>
    .step (.step (.step hs (.guest _ (callerMem mod s))) (.call c _)) (.guest _ none)
  rcases host_cases (os := os) (H := H) k mod xs with ⟨c, t, -, -, h⟩ | ⟨j, h⟩ | h
  · rw [h]
    unfold runCall
    constructor
    · intro r s' hr
      cases hc : c.run os (s.wasi.st (callerMem mod s)) with
      | ok r' t => rw [hc] at hr; cases hr; have := key c; rw [after_ok hc] at this; exact this
      | error e t => rw [hc] at hr; cases hr
    · intro e s' hr
      cases hc : c.run os (s.wasi.st (callerMem mod s)) with
      | ok r' t => rw [hc] at hr; cases hr
      | error e t => rw [hc] at hr; cases hr; have := key c; rw [after_err hc] at this; exact this
  · rw [h]
    exact ⟨fun r s' hr => by rw [hH.ok _ _ _ _ _ _ hr]; exact hs, fun e s' hr => by rw [(hH.err _ _ _ _ _ _ hr).1]; exact hs⟩
  · rw [h]
    exact ⟨fun r s' hr => (by cases hr), fun e s' hr => by cases hr; exact hs⟩

/-- **C67** Whatever the embedder does with a runtime — decoding and instantiating modules, allocating, invoking exports —
the `Preview1` object is in a state that some sequence of WASI calls produces. -/
theorem C67_guests_only_call (hH : Apart H) (acts : List Action) (m : Machine) :
    Reach os (m.store.wasi.st none) ((history (host os H) N acts m).store.wasi.st none) :=
  KeepsW.history (P := fun w => Reach os (m.store.wasi.st none) (w.st none)) (hostW hH _) N acts m (.refl _)

theorem start_reach (hH : Apart H) (mod : ModuleInst) (m : Machine) :
    Reach os (m.store.wasi.st none) ((final (start (host os H) N mod) m).store.wasi.st none) := by
  have := KeepsW.final (P := fun w => Reach os (m.store.wasi.st none) (w.st none))
    (KeepsW.runtimeInvocate (hostW hH _) N mod "_start" []) m (.refl _)
  unfold final at this ⊢
  unfold start
  cases h : Runtime.invocate (host os H) N mod "_start" [] m with
  | ok r m1 => rw [h] at this; exact this
  | error e m1 => rw [h] at this; cases e <;> exact this

theorem main_eq (mod : ModuleInst) (m : Machine) :
    main os H N mod m = match start (host os H) N mod m, Wasi.finish os ((final (start (host os H) N mod) m).store.wasi.st none) with
      | .ok n m1, .ok _ t => .ok n { m1 with store := { m1.store with wasi := t.world } }
      | .error e m1, .ok _ t => .error e { m1 with store := { m1.store with wasi := t.world } }
      | .ok _ m1, .error e t | .error _ m1, .error e t => .error e { m1 with store := { m1.store with wasi := t.world } } := by
  unfold main final
  cases h : start (host os H) N mod m with
  | ok n m1 =>
    dsimp only; rw [M.bind_run]; unfold onWorld; dsimp only
    cases h2 : Wasi.finish os (m1.store.wasi.st none) <;> rfl
  | error e m1 =>
    dsimp only; rw [M.bind_run]; unfold onWorld; dsimp only
    cases h2 : Wasi.finish os (m1.store.wasi.st none) <;> rfl

theorem main_world (mod : ModuleInst) (m : Machine) : (final (main os H N mod) m).store.wasi =
    (after (Wasi.finish os) ((final (start (host os H) N mod) m).store.wasi.st none)).world := by
  unfold final
  rw [main_eq]
  unfold after final
  cases start (host os H) N mod m with
  | ok n m1 => simp only; cases Wasi.finish os (m1.store.wasi.st none) <;> rfl
  | error e m1 => simp only; cases Wasi.finish os (m1.store.wasi.st none) <;> rfl

/-- **C67** Over the whole life of a runtime — a `Preview1` object is made, modules are instantiated and invoked in any
way, and `main` runs a module — every `os.close` closes a host descriptor that WASI had opened and not closed before. -/
theorem C67_closed_once (hos : Fresh os) (hH : Apart H) (hm : Made os m) (acts : List Action) (mod : ModuleInst) :
    ClosesOpen (final (main os H N mod) (history (host os H) N acts m)).store.wasi.log := by
  obtain ⟨args, dirs, envs, fds, names, s, hi, hw⟩ := hm
  have h1 := C67_guests_only_call (os := os) (N := N) hH acts m
  have h2 := start_reach (os := os) (N := N) hH mod (history (host os H) N acts m)
  have hinit : (Wasi.init os args dirs envs fds names).2 = s := by rw [hi]
  have r : Reach os (m.store.wasi.st none) ((final (start (host os H) N mod) (history (host os H) N acts m)).store.wasi.st none) := by
    have trans : ∀ {a b c : St}, Reach os a b → Reach os b c → Reach os a c := by
      intro a b c h k
      induction k with
      | refl => exact h
      | step _ c ih => exact .step ih c
    exact trans h1 h2
  rw [main_world]
  have hs : TableInv (m.store.wasi.st none) := by
    have := TableInv.init hos args dirs envs fds names
    rw [hinit] at this
    rw [hw]
    exact (this.reach hos (.step (.refl _) (.guest _ none)))
  exact (hs.reach hos r).finish os

/-! ## `main` -/

theorem invocate_clean {name : String} {xs ys : List HVal} (h : Runtime.invocate H N mod name xs m = .ok ys m') : Clean m' := by
  obtain ⟨ex, args, rets, he, hi, hr, _⟩ := invocate_ok h
  have := invocate_wp (H := H) (N := N) (m := m) ex.addr args
  unfold Wp at this
  rw [hi] at this
  exact this.1

/-- **C48** When `main` returns or raises, the three stacks are empty, unless the guest left by `SystemExit`. -/
theorem C48_clean_stacks (h : ∀ k m', Runtime.invocate (host os H) N mod "_start" [] m ≠ .error (.sysExit k) m') :
    Clean (final (main os H N mod) m) := by
  have hs : Clean (final (start (host os H) N mod) m) := by
    unfold final start
    cases hr : Runtime.invocate (host os H) N mod "_start" [] m with
    | ok r m1 => exact invocate_clean hr
    | error e m1 =>
      cases e
      case sysExit k => exact absurd hr (h k m1)
      all_goals exact ⟨rfl, rfl, rfl⟩
  unfold final at hs ⊢
  rw [main_eq]
  cases hst : start (host os H) N mod m with
  | ok n m1 => rw [hst] at hs; simp only; cases Wasi.finish os _ <;> exact hs
  | error e m1 => rw [hst] at hs; simp only; cases Wasi.finish os _ <;> exact hs

theorem KeepsW.stepsN {P : World → Prop} {n : Nat} (hH : HostW P H) (h : StepsN H n m m') (hm : P m.store.wasi) : P m'.store.wasi := by
  induction h with
  | refl => exact hm
  | head hs _ ih =>
    refine ih ?_
    have := KeepsW.step hH _ hm
    unfold Wp at this
    rw [hs] at this
    exact this

theorem stepsN_exit {n : Nat} (hH : Apart H) (h : StepsN (host os H) n m m') :
    m'.store.wasi.returnOnExit = m.store.wasi.returnOnExit :=
  (SameConfig.reach (KeepsW.stepsN (P := fun w => Reach os (m.store.wasi.st none) (w.st none)) (hostW hH _) h (.refl _))).exit

theorem runCall_procExit (mod : Option ModuleInst) (n : Int) (s : Store) :
    runCall os mod (.procExit n) s = .error (if s.wasi.returnOnExit then .exit n else .sysExit n)
      (putBack mod s (s.wasi.st (callerMem mod s))) := by
  unfold runCall
  have : Call.run os (.procExit n) (s.wasi.st (callerMem mod s)) =
      .error (if s.wasi.returnOnExit then .exit n else .sysExit n) (s.wasi.st (callerMem mod s)) := by
    simp only [Call.run]
    unfold procExit
    cases h : s.wasi.returnOnExit <;> simp [World.st, h, Bind.bind, EStateM.bind, get, getThe, MonadStateOf.get, EStateM.get, throw,
      throwThe, MonadExceptOf.throw, EStateM.throw]
  rw [this]

/-- A program that a host function ended had called `proc_exit`. -/
theorem host_quits (ho : Proper os) (hH : Apart H) {k : Nat} {mod : Option ModuleInst} {xs : List HVal} {s s' : Store} {e : Err}
    (he : e.quits = true) (h : host os H k mod xs s = .error e s') :
    ∃ n t, table[k]? = some ("proc_exit", t) ∧ xs = [.int n] ∧ e = if s.wasi.returnOnExit then .exit n else .sysExit n := by
  rcases host_cases (os := os) (H := H) k mod xs with ⟨c, t, ht, hx, h'⟩ | ⟨j, h'⟩ | h'
  · rw [h'] at h
    by_cases hc : ∃ n, c = .procExit n
    · obtain ⟨n, rfl⟩ := hc
      rw [runCall_procExit] at h
      injection h with h1 h2
      exact ⟨n, t, ht, hx, h1.symm⟩
    · have hq := NoQuit.call ho c (fun n hn => hc ⟨n, hn⟩)
      unfold runCall at h
      cases hr : c.run os (s.wasi.st (callerMem mod s)) with
      | ok r t => rw [hr] at h; cases h
      | error e' t =>
        rw [hr] at h
        injection h with h1 h2
        subst h1
        rw [hq.run _ _ _ hr] at he; cases he
  · rw [h'] at h
    rw [(hH.err _ _ _ _ _ _ h).2] at he; cases he
  · rw [h'] at h; cases h; cases he

theorem quits_not_own {e : Err} (h : e.quits = true) : e.own = false := by cases e <;> first | rfl | cases h

/-- What ends a program other than by returning: a call of `proc_exit`. -/
theorem invocate_quits (ho : Proper os) (hH : Apart H) {e : Err} (he : e.quits = true)
    (h : Runtime.invocate (host os H) N mod "_start" [] m = .error e m') :
    ∃ (ex : Extern) (t : FuncType) (k : Nat) (cur : ModuleInst) (code : FuncDesc) (args : List Val) (n : Nat) (m1 : Machine)
      (z : Int), mod.exps.find? (fun e => e.name = "_start") = some ⟨"_start", ex⟩ ∧
      m.store.func[ex.addr]? = some (.wasm t k code) ∧ m.store.mods[k]? = some cur ∧ n < N ∧
      StepsN (host os H) n (started m t cur code args) m1 ∧ CallsWasi m1 (.procExit z) ∧
      e = if m.store.wasi.returnOnExit then .exit z else .sysExit z := by
  obtain ⟨ex, t, k, cur, code, args, n, m1, c, ys, hex, hf, hk, hn, hs, hc, hr⟩ := C65_invocate_only_hosts (quits_not_own he) h
  obtain ⟨z, u, hz, rfl, hv⟩ := host_quits ho hH he hr
  refine ⟨ex, t, k, cur, code, args, n, m1, z, hex, hf, hk, hn, hs, ⟨c, u, hz, hc⟩, ?_⟩
  rw [hv, stepsN_exit hH hs]; rfl

/-- **C48** With `return_on_exit` (the default) the stacks are empty whenever `main` returns or raises, at whatever point
the guest trapped or left. -/
theorem C48_clean (ho : Proper os) (hH : Apart H) (hr : m.store.wasi.returnOnExit = true) :
    Clean (final (main os H N mod) m) := by
  refine C48_clean_stacks ?_
  intro k m1 h
  obtain ⟨_, _, _, _, _, _, _, _, z, -, -, -, -, -, -, hv⟩ := invocate_quits ho hH rfl h
  rw [hr] at hv; cases hv

/-! The `finally` clause of `main` does not raise if the host closes and rewinds without errors. -/

theorem sys_fine {x : Sys} {a : x.Ans} (h : ∀ l, os.run l x = .ok a) (s : St) : ∃ t, sys os x s = .ok a t ∧ t.fd = s.fd := by
  rw [sys_run, h]; exact ⟨_, rfl, rfl⟩

theorem rewind_fine (h : ClosesFine os) : ∀ (l : List File) (s : St), ∃ t, rewind os l s = .ok () t ∧ t.fd = s.fd := by
  intro l
  induction l with
  | nil => intro s; exact ⟨s, rfl, rfl⟩
  | cons f l ih =>
    intro s
    unfold rewind
    cases f.pipe with
    | none => exact ih s
    | some p =>
      obtain ⟨t, ht, hfd⟩ := sys_fine (os := os) (fun l => (h l).2 p) s
      obtain ⟨t', ht', hfd'⟩ := ih t
      refine ⟨t', ?_, by rw [hfd', hfd]⟩
      simp only [Wasi.bind_run]
      rw [ht]; exact ht'

theorem closeAll_fine (h : ClosesFine os) : ∀ (n i : Nat) (s : St), i + n ≤ s.fd.length → ∃ t, closeAll os n i s = .ok () t := by
  intro n
  induction n with
  | zero => intro i s _; exact ⟨s, rfl⟩
  | succ n ih =>
    intro i s hl
    unfold closeAll
    have hi : i < s.fd.length := by omega
    rw [Wasi.bind_run, file_nat (List.getElem?_eq_getElem hi)]
    dsimp only
    by_cases hc : s.fd[i].wasmType = FILETYPE_CHARACTER_DEVICE
    · rw [if_pos hc]; exact ih (i + 1) s (by omega)
    · rw [if_neg hc]
      by_cases ho : s.fd[i].hostOpen = true
      · rw [if_pos ho]
        obtain ⟨t, ht, hfd⟩ := sys_fine (os := os) (fun l => (h l).1 s.fd[i].hostFd) s
        simp only [Wasi.bind_run]
        rw [ht]
        dsimp only
        rw [setFile_nat _ (by rw [hfd]; exact hi)]
        exact ih (i + 1) _ (by simp only [List.length_set, hfd]; omega)
      · rw [if_neg ho]; exact ih (i + 1) s (by omega)

theorem finish_fine (h : ClosesFine os) (s : St) : ∃ t, Wasi.finish os s = .ok () t := by
  unfold Wasi.finish
  rw [Wasi.bind_run, Wasi.get_run]
  dsimp only
  obtain ⟨t, ht, hfd⟩ := rewind_fine h (Py.slice s.fd 1 3) s
  rw [Wasi.bind_run, ht]
  dsimp only
  rw [Wasi.bind_run, Wasi.get_run]
  dsimp only
  by_cases h3 : 3 ≤ t.fd.length
  · exact closeAll_fine h _ 3 t (by omega)
  · rw [show t.fd.length - 3 = 0 by omega]; exact ⟨t, rfl⟩

theorem main_ok (hc : ClosesFine os) {z : Int} {m1 : Machine} (hs : start (host os H) N mod m = .ok z m1) :
    ∃ m', main os H N mod m = .ok z m' := by
  obtain ⟨t, ht⟩ := finish_fine hc (m1.store.wasi.st none)
  unfold main
  rw [hs]
  dsimp only
  rw [M.bind_run]
  unfold onWorld
  dsimp only
  rw [ht]
  exact ⟨_, rfl⟩

/-- **C48** `main` returns 0 when `_start` returns. -/
theorem C48_returns_zero (hc : ClosesFine os) {ys : List HVal} {m1 : Machine}
    (h : Runtime.invocate (host os H) N mod "_start" [] m = .ok ys m1) : ∃ m', main os H N mod m = .ok 0 m' := by
  have hs : start (host os H) N mod m = .ok 0 m1 := by unfold start; rw [h]
  exact main_ok hc hs

/-- **C48** `main` returns the code the guest passed to `proc_exit`, at whatever depth of its execution. -/
theorem C48_returns_code (hc : ClosesFine os) (hH : Apart H) (hr : m.store.wasi.returnOnExit = true) {a k n : Nat}
    {t : FuncType} {code : FuncDesc} {cur : ModuleInst} {m1 : Machine} {z : Int}
    (hx : ExportsFunc mod "_start" a) (hf : m.store.func[a]? = some (.wasm t k code)) (ht : t.args = [])
    (hm : m.store.mods[k]? = some cur) (hs : StepsN (host os H) n (started m t cur code []) m1) (hn : n < N)
    (hz : CallsWasi m1 (.procExit z)) : ∃ m', main os H N mod m = .ok z m' := by
  obtain ⟨c, u, hu, hcall⟩ := hz
  have hH1 : host os H c (curModule m1) ((callArgs (.procExit z)).map .int) m1.store =
      .error (.exit z) (putBack (curModule m1) m1.store (m1.store.wasi.st (callerMem (curModule m1) m1.store))) := by
    rw [host_row hu, runCall_procExit]
    have : m1.store.wasi.returnOnExit = true := by rw [stepsN_exit hH hs]; exact hr
    rw [this]; rfl
  obtain ⟨m2, h2, -⟩ := C65_invocate_raises (xs := []) (args := []) hx hf hm (by rw [ht]; rfl) (by rw [ht]; rfl) hs hn hcall hH1
  have hs : start (host os H) N mod m = .ok z (clearStacks m2) := by unfold start; rw [h2]
  exact main_ok hc hs

/-- **C48** Conversely, a code that `main` returns is 0 after `_start` returned, or the guest passed it to `proc_exit`. -/
theorem C48_only_codes (ho : Proper os) (hH : Apart H) {z : Int} (h : main os H N mod m = .ok z m') :
    (z = 0 ∧ ∃ ys m1, Runtime.invocate (host os H) N mod "_start" [] m = .ok ys m1) ∨
    ∃ (ex : Extern) (t : FuncType) (k : Nat) (cur : ModuleInst) (code : FuncDesc) (args : List Val) (n : Nat) (m1 : Machine),
      mod.exps.find? (fun e => e.name = "_start") = some ⟨"_start", ex⟩ ∧
      m.store.func[ex.addr]? = some (.wasm t k code) ∧ m.store.mods[k]? = some cur ∧ n < N ∧
      StepsN (host os H) n (started m t cur code args) m1 ∧ CallsWasi m1 (.procExit z) := by
  have hs : ∃ m1, start (host os H) N mod m = .ok z m1 := by
    rw [main_eq] at h
    cases hs : start (host os H) N mod m with
    | ok n m1 =>
      rw [hs] at h
      cases hf : Wasi.finish os ((final (start (host os H) N mod) m).store.wasi.st none) with
      | ok u t => rw [hf] at h; injection h with h1 h2; subst h1; exact ⟨_, rfl⟩
      | error e t => rw [hf] at h; cases h
    | error e m1 =>
      rw [hs] at h
      cases hf : Wasi.finish os ((final (start (host os H) N mod) m).store.wasi.st none) with
      | ok u t => rw [hf] at h; cases h
      | error e t => rw [hf] at h; cases h
  obtain ⟨m1, hs⟩ := hs
  unfold start at hs
  cases hi : Runtime.invocate (host os H) N mod "_start" [] m with
  | ok ys m2 => rw [hi] at hs; injection hs with h1 h2; exact .inl ⟨h1.symm, ys, m2, rfl⟩
  | error e m2 =>
    rw [hi] at hs
    cases e
    case exit n =>
      injection hs with h1 h2
      subst h1
      obtain ⟨ex, t, k, cur, code, args, j, m3, z, h1, h2, h3, h4, h5, h6, h7⟩ := invocate_quits ho hH rfl hi
      have : n = z := by
        split at h7
        · injection h7
        · cases h7
      subst this
      exact .inr ⟨ex, t, k, cur, code, args, j, m3, h1, h2, h3, h4, h5, h6⟩
    all_goals cases hs

/-- **C48** Any other exception of the guest comes out of `main` unchanged. -/
theorem C48_raises (hc : ClosesFine os) {e : Err} {m1 : Machine} (he : e.quits = false)
    (h : Runtime.invocate (host os H) N mod "_start" [] m = .error e m1) : ∃ m', main os H N mod m = .error e m' ∧ Clean m' := by
  have hs : start (host os H) N mod m = .error e (clearStacks m1) := by
    unfold start; rw [h]
    cases e <;> first | rfl | cases he
  obtain ⟨t, ht⟩ := finish_fine hc ((clearStacks m1).store.wasi.st none)
  unfold main
  rw [hs]
  dsimp only
  rw [M.bind_run]
  unfold onWorld
  dsimp only
  rw [ht]
  exact ⟨_, rfl, rfl, rfl, rfl⟩

/-! A concrete case: `_start` calls a function that calls `proc_exit(7)`, while operands are on the stack. -/

/-- An embedder without host functions of its own. -/
def noOwn : Host := fun _ _ _ => throw .index
theorem noOwn_apart : Apart noOwn := ⟨fun _ _ _ _ _ _ h => (by cases h), fun _ _ _ _ _ _ h => (by cases h; exact ⟨rfl, rfl⟩)⟩
theorem demo_proper (kind : Kind) : Proper (demoOs kind) := by
  intro log x e h
  cases x <;> simp only [demoOs] at h <;> cases h
  all_goals rfl
theorem demo_fine (kind : Kind) : ClosesFine (demoOs kind) := fun _ => ⟨fun _ => rfl, fun _ => rfl⟩

def exitBody : FuncDesc := ⟨0, [], [.i32Const 3, .call 1]⟩
def exitModule : ModuleInst := { type := [⟨[], []⟩, ⟨[.i32], []⟩], func := [0, 1, 2], exps := [⟨"_start", .func 0⟩] }
def exitMachine (b : Bool) : Machine where
  store :=
    { func := [.wasm ⟨[], []⟩ 0 exitBody, .wasm ⟨[], []⟩ 0 ⟨0, [], [.i32Const 7, .call 2]⟩, .host ⟨[.i32], []⟩ 38]
      mods := [exitModule]
      wasi := { (Wasi.init (demoOs .dir) [] [(['/'], ['/', 's'])] [] (0, 1, 2) (['i'], ['o'], ['e'])).2.world with returnOnExit := b } }

/-- The machine after four instructions. -/
def exitAt (b : Bool) : Machine :=
  { started (exitMachine b) ⟨[], []⟩ exitModule exitBody [] with
    value := [i32 7, i32 3]
    label := [⟨0, 3, 1, .func, [.i32Const 7, .call 2], 1⟩, ⟨0, 1, 0, .func, exitBody.expr, 2⟩]
    frame := [⟨exitModule, [], 0, 1, 1⟩, ⟨exitModule, [], 0, 0, 0⟩, ⟨{}, [], 0, 0, 0⟩] }

example : ExportsFunc exitModule "_start" 0 := by unfold ExportsFunc; decide
theorem exit_steps (b : Bool) : StepsN (host (demoOs .dir) noOwn) 3 (started (exitMachine b) ⟨[], []⟩ exitModule exitBody []) (exitAt b) :=
  .head (by rfl) (.head (by rfl) (.head (by rfl) (.refl _)))
theorem exit_calls (b : Bool) : CallsWasi (exitAt b) (.procExit 7) :=
  ⟨38, ⟨[.i32], []⟩, rfl, 2, _, ⟨[.i32], []⟩, [i32 7], [i32 3], .call (k := 2) (cur := exitModule) rfl rfl rfl, rfl, rfl, rfl, by rfl⟩
example : ∃ m', main (demoOs .dir) noOwn 100 exitModule (exitMachine true) = .ok 7 m' :=
  C48_returns_code (demo_fine _) noOwn_apart rfl (a := 0) (k := 0) (n := 3) (t := ⟨[], []⟩) (code := exitBody) (cur := exitModule)
    (by unfold ExportsFunc; decide) rfl rfl rfl (exit_steps true) (by decide) (exit_calls true)
example : Clean (final (main (demoOs .dir) noOwn 100 exitModule) (exitMachine true)) :=
  C48_clean (demo_proper _) noOwn_apart rfl
theorem exit_made : Made (demoOs .dir) (exitMachine true) := by
  have h : (match (Wasi.init (demoOs .dir) [] [(['/'], ['/', 's'])] [] (0, 1, 2) (['i'], ['o'], ['e'])) with
    | (.ok _, s) => s.returnOnExit | _ => false) = true := by decide +kernel
  cases hi : Wasi.init (demoOs .dir) [] [(['/'], ['/', 's'])] [] (0, 1, 2) (['i'], ['o'], ['e']) with
  | mk r s =>
    rw [hi] at h
    cases r with
    | error e => cases h
    | ok u =>
      refine ⟨_, _, _, _, _, s, hi, ?_⟩
      unfold exitMachine
      rw [hi]
      simp only [St.world] at h ⊢
      rw [h]
/-- The preopened directory is closed by `main`, once. -/
example : ClosesOpen (final (main (demoOs .dir) noOwn 100 exitModule) (exitMachine true)).store.wasi.log :=
  C67_closed_once (N := 100) (demo_fresh _) noOwn_apart exit_made [] exitModule

theorem exit_raises : ∃ m', Runtime.invocate (host os noOwn) 100 exitModule "_start" [] (exitMachine false) = .error (.sysExit 7) m' ∧
    m'.value ≠ [] := by
  have h : (match Runtime.invocate (host os noOwn) 100 exitModule "_start" [] (exitMachine false) with
    | .error (.sysExit n) m' => some (n, m'.value)
    | _ => none) = some (7, [i32 3]) := by rfl
  cases hi : Runtime.invocate (host os noOwn) 100 exitModule "_start" [] (exitMachine false) with
  | ok r m' => rw [hi] at h; cases h
  | error e m' =>
    rw [hi] at h
    cases e <;> try cases h
    simp only [Option.some.injEq, Prod.mk.injEq] at h
    exact ⟨m', by rw [h.1], by rw [h.2]; simp⟩

/-- **C48**, without `return_on_exit`: `proc_exit` raises `SystemExit`, which `except Exception` does not catch, so the
stacks keep what the guest left there … -/
theorem C48_system_exit_refuted : ∃ (os : Os) (mod : ModuleInst) (m : Machine), ClosesFine os ∧ Proper os ∧
    ∃ z m', main os noOwn 100 mod m = .error (.sysExit z) m' ∧ ¬Clean m' := by
  refine ⟨demoOs .dir, exitModule, exitMachine false, demo_fine _, demo_proper _, 7, ?_⟩
  obtain ⟨m1, h1, h2⟩ := exit_raises (os := demoOs .dir)
  obtain ⟨t, ht⟩ := finish_fine (demo_fine .dir) (m1.store.wasi.st none)
  have hs : start (host (demoOs .dir) noOwn) 100 exitModule (exitMachine false) = .error (.sysExit 7) m1 := by unfold start; rw [h1]
  unfold main
  rw [hs]
  dsimp only
  rw [M.bind_run]
  unfold onWorld
  dsimp only
  rw [ht]
  exact ⟨_, rfl, fun h => h2 h.2.2⟩

/-- A host whose `close` fails. -/
def stuckOs : Os :=
  { demoOs .dir with run := fun l x => match x with | .close _ => .error (.os 5) | x => (demoOs .dir).run l x }

/-- … even when `main` then raises an `Exception`, because closing a descriptor fails. -/
theorem C48_close_error_refuted : ∃ (os : Os) (mod : ModuleInst) (m : Machine) (m' : Machine),
    main os noOwn 100 mod m = .error (.os 5) m' ∧ ¬Clean m' := by
  refine ⟨stuckOs, exitModule, exitMachine false, ?_⟩
  have h : (match main stuckOs noOwn 100 exitModule (exitMachine false) with
    | .error (.os n) m' => some (n, m'.value.length)
    | _ => none) = some (5, 1) := by decide +kernel
  cases hi : main stuckOs noOwn 100 exitModule (exitMachine false) with
  | ok r m' => rw [hi] at h; cases h
  | error e m' =>
    rw [hi] at h
    cases e <;> try cases h
    simp only [Option.some.injEq, Prod.mk.injEq] at h
    exact ⟨m', by rw [h.1], fun hc => by rw [hc.2.2] at h; cases h.2⟩

/-! ## The hypotheses are met -/

example := returns (x := Wasi.bind []) (m := exitMachine true) (by decide +kernel) |>.imp fun _ => Exists.imp fun _ h => C66_bind h
example (acts : List Action) := C67_guests_only_call (os := demoOs .dir) (N := 100) noOwn_apart acts (exitMachine true)

/-- A machine whose `_start` runs one instruction. -/
def shortMachine (i : Inst) : Machine where
  store :=
    { func := [.wasm ⟨[], []⟩ 0 ⟨0, [], [i]⟩]
      mods := [{ type := [⟨[], []⟩], func := [0], exps := [⟨"_start", .func 0⟩] }]
      wasi := (exitMachine true).store.wasi }
def shortModule : ModuleInst := { type := [⟨[], []⟩], func := [0], exps := [⟨"_start", .func 0⟩] }
theorem short_returns : ∃ ys m1, Runtime.invocate (host (demoOs .dir) noOwn) 100 shortModule "_start" [] (shortMachine .nop) = .ok ys m1 :=
  returns (by decide +kernel)
example : ∃ m', main (demoOs .dir) noOwn 100 shortModule (shortMachine .nop) = .ok 0 m' := by
  obtain ⟨ys, m1, h⟩ := short_returns
  exact C48_returns_zero (demo_fine _) h
example : Clean (final (main (demoOs .dir) noOwn 100 shortModule) (shortMachine .nop)) := by
  obtain ⟨ys, m1, h⟩ := short_returns
  exact C48_clean_stacks (by rw [h]; intro _ _ e; cases e)
example : ∃ e m', main (demoOs .dir) noOwn 100 shortModule (shortMachine .unreachable) = .error e m' ∧ Clean m' := by
  cases hi : Runtime.invocate (host (demoOs .dir) noOwn) 100 shortModule "_start" [] (shortMachine .unreachable) with
  | ok _ _ =>
    have h : Spec.returned (Runtime.invocate (host (demoOs .dir) noOwn) 100 shortModule "_start" [] (shortMachine .unreachable)) = false := by
      decide +kernel
    rw [hi] at h; cases h
  | error e m1 =>
    have h : (match Runtime.invocate (host (demoOs .dir) noOwn) 100 shortModule "_start" [] (shortMachine .unreachable) with
      | .ok _ _ => true | .error e _ => e.quits) = false := by decide +kernel
    rw [hi] at h
    exact ⟨e, C48_raises (demo_fine _) h hi⟩
example : ∃ z m', main (demoOs .dir) noOwn 100 exitModule (exitMachine true) = .ok z m' ∧
    (z = 0 ∨ ∃ n m1, n < 100 ∧ CallsWasi m1 (.procExit z)) := by
  obtain ⟨m', h⟩ := C48_returns_code (N := 100) (demo_fine .dir) noOwn_apart (m := exitMachine true) rfl (mod := exitModule) (a := 0)
    (by unfold ExportsFunc; decide) rfl rfl rfl (exit_steps true) (by decide) (exit_calls true)
  refine ⟨7, m', h, ?_⟩
  rcases C48_only_codes (demo_proper _) noOwn_apart h with ⟨h, -⟩ | ⟨_, _, _, _, _, _, n, m1, -, -, -, h1, -, h2⟩
  · exact .inl h
  · exact .inr ⟨n, m1, h1, h2⟩

end Pywasm.Props
