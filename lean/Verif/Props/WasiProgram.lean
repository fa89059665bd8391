import Verif.Lemmas.WasiShape
import Verif.Props.WasiMain
import Verif.Props.File

/-!
# C81: valid programs that use WASI
-/

namespace Pywasm.Props
open Spec Spec.Typing M Wasi WasiSpec

variable {P : Option Bool} {os : Os} {H : Host} {B : Nat → FuncType → Prop} {m m' : Machine} {N : Nat} {mod : ModuleInst}

/-- The types with which `bind` binds the WASI functions. -/
def WasiTypes (c : Nat) (t : FuncType) : Prop := ∃ n, table[c]? = some (n, t)
/-- The embedder's own host functions. -/
def own (H : Host) : Host := fun c mod xs => if c < 46 then throw .index else H (c - 46) mod xs

theorem shape_callerMem {caller : Option ModuleInst} {s : Store} {t : St} (h : shape t.mem = shape (callerMem caller s)) :
    (putBack caller s t).mems.length = s.mems.length ∧ ∀ x ∈ (putBack caller s t).mems, ∃ y ∈ s.mems, y.size = x.size ∧ y.limits = x.limits := by
  unfold putBack
  dsimp only
  split
  · rename_i a mem ha hm
    refine ⟨List.length_set, fun x hx => ?_⟩
    rcases List.mem_or_eq_of_mem_set hx with hx | rfl
    · exact ⟨x, hx, rfl, rfl⟩
    · rw [hm] at h
      unfold callerMem at h
      cases caller with
      | none => cases ha
      | some mo =>
        simp only [Option.bind_some] at ha h
        rw [ha, Option.bind_some] at h
        cases hs : s.mems[a]? with
        | none => rw [hs] at h; cases h
        | some y =>
          rw [hs] at h
          simp only [shape, Option.map_some, Option.some.injEq, Prod.mk.injEq] at h
          exact ⟨y, List.mem_of_getElem? hs, h.2.symm, h.1.symm⟩
  · exact ⟨rfl, fun x hx => ⟨x, hx, rfl, rfl⟩⟩

/-- **C66** A WASI function works on the first memory of the module that calls it: it runs with that memory and the `Preview1` object, and
all it changes in the store is that memory and that object. -/
theorem C66_memory {c : Call} {k : Nat} {t : FuncType} (hk : table[k]? = some (callName c, t)) {mo : ModuleInst} {a : Nat} {mem : MemInst}
    {s : Store} (ha : mo.mems[0]? = some a) (hm : s.mems[a]? = some mem) :
    ∃ w mem', after (c.run os) (s.wasi.st (some mem)) = w ∧ w.mem = some mem' ∧
      (∀ r, c.run os (s.wasi.st (some mem)) = .ok r w →
        host os H k (some mo) ((callArgs c).map .int) s = .ok [.int r] { s with wasi := w.world, mems := s.mems.set a mem' }) ∧
      (∀ e, c.run os (s.wasi.st (some mem)) = .error e w →
        host os H k (some mo) ((callArgs c).map .int) s = .error e { s with wasi := w.world, mems := s.mems.set a mem' }) := by
  have hc : callerMem (some mo) s = some mem := by
    show mo.mems[0]?.bind (fun a => s.mems[a]?) = _
    rw [ha]; exact hm
  have hsh := (Shaped.call os c).run (s.wasi.st (some mem))
  cases hw : (after (c.run os) (s.wasi.st (some mem))).mem with
  | none =>
    rw [hw] at hsh
    change shape none = shape (some mem) at hsh
    cases hsh
  | some mem' =>
    refine ⟨_, mem', rfl, hw, ?_, ?_⟩
    · intro r hr
      rw [host_row hk, runCall, hc, hr]
      dsimp only
      unfold putBack
      rw [hw]
      show EStateM.Result.ok _ { s with wasi := _, mems := (match mo.mems[0]?, some mem' with | some a, some mem => s.mems.set a mem | _, _ => s.mems) } = _
      rw [ha]
    · intro e hr
      rw [host_row hk, runCall, hc, hr]
      dsimp only
      unfold putBack
      rw [hw]
      show EStateM.Result.error _ { s with wasi := _, mems := (match mo.mems[0]?, some mem' with | some a, some mem => s.mems.set a mem | _, _ => s.mems) } = _
      rw [ha]

/-- `args_sizes_get` called by a module whose memory is the second one of the store. -/
example := C66_memory (os := demoOs .dir) (H := noOwn) (c := .argsSizesGet 0 4) (k := 1) rfl (mo := { mems := [1] }) (a := 1)
  (mem := ⟨⟨1, 0⟩, Py.zeros 65536, 1⟩) (s := { mems := [⟨⟨0, 0⟩, [], 0⟩, ⟨⟨1, 0⟩, Py.zeros 65536, 1⟩] }) rfl rfl

theorem storeOk_putBack {S : StoreType} {caller : Option ModuleInst} {s : Store} {t : St} (hS : StoreOk S s)
    (h : shape t.mem = shape (callerMem caller s)) : StoreOk S (putBack caller s t) := by
  obtain ⟨h1, h2⟩ := shape_callerMem h
  refine ⟨hS.funcs, storeOk_le (.refl S) hS rfl rfl, hS.few, hS.tables, ⟨h1.trans hS.mems.1, fun x hx => ?_⟩, hS.globals, hS.elems, hS.datas⟩
  obtain ⟨y, hy, h3, -⟩ := h2 x hx
  rw [← h3]
  exact hS.mems.2 y hy

theorem table_rets : ∀ p ∈ table, p.2.rets = [.i32] ∨ p.1 = "proc_exit" := by decide +kernel
theorem callName_exit {c : Call} (h : callName c = "proc_exit") : ∃ z, c = .procExit z := by
  cases c
  case procExit z => exact ⟨z, rfl⟩
  all_goals (simp only [callName] at h; exact absurd h (by decide))

/-- **C81** The WASI functions, bound by `Preview1.bind`, are host functions as a valid module expects them: whatever the host system
answers, they return one number if they return, and they leave every memory with its size. -/
theorem wasi_host_ok (hB : ∀ c t, c < 46 → B c t → WasiTypes c t) (hO : HostOk B (own H)) : HostOk B (host os H) := by
  intro S s t k caller args xs hSB hS hk hargs hxs
  by_cases hc : k < 46
  · obtain ⟨n, hn⟩ := hB k t hc hk
    unfold host
    rw [if_pos hc]
    cases hi : (intArgs xs).bind (callOf k) with
    | none => exact ⟨S, .refl S, hS⟩
    | some c =>
      show (match runCall os caller c s with | .ok ys s' => _ | .error _ s' => _)
      obtain ⟨l, -, hl⟩ := Option.bind_eq_some_iff.mp hi
      obtain ⟨-, t', ht', -⟩ := callOf_name hl
      rw [hn] at ht'
      injection ht' with ht'
      injection ht' with ht1 ht2
      subst ht1 ht2
      have hsh := (Shaped.call os c).run (s.wasi.st (callerMem caller s))
      unfold after at hsh
      unfold runCall
      cases hr : c.run os (s.wasi.st (callerMem caller s)) with
      | error e u =>
        rw [hr] at hsh
        exact ⟨S, .refl S, storeOk_putBack hS hsh⟩
      | ok r u =>
        rw [hr] at hsh
        refine ⟨S, .refl S, storeOk_putBack hS hsh, ?_⟩
        rcases table_rets _ (List.mem_of_getElem? hn) with h | h
        · dsimp only at h
          rw [h]
          refine ⟨rfl, ?_⟩
          intro p hp v hv
          simp only [List.zip_cons_cons, List.zip_nil_right, List.mem_singleton] at hp
          subst hp
          exact valOk_num (Makes.fromAll _ _ v hv) rfl
        · obtain ⟨z, rfl⟩ := callName_exit h
          change procExit z _ = _ at hr
          unfold procExit at hr
          rw [Wasi.bind_get] at hr
          split at hr <;> cases hr
  · have := hO S s t k caller args xs hSB hS hk hargs hxs
    unfold own at this
    unfold host
    rw [if_neg hc] at this ⊢
    exact this

theorem wasi_host_covered {nd : Bool} (hH : HostCovered nd H) : HostCovered nd (host os H) := by
  intro k caller xs s hs
  rcases host_cases (os := os) (H := H) k caller xs with ⟨c, t, -, -, h⟩ | ⟨j, h⟩ | h
  · rw [h]
    unfold runCall
    cases c.run os (s.wasi.st (callerMem caller s)) with
    | ok r u => exact ⟨fun ys s' h => by cases h; exact hs, nofun⟩
    | error e u => exact ⟨nofun, fun ys s' h => by cases h; exact hs⟩
  · rw [h]; exact hH j caller xs s hs
  · rw [h]; exact ⟨nofun, fun e s' h => by cases h; exact hs⟩

theorem session_bindRows : ∀ (l : List (String × FuncType)) (i : Nat) (m : Machine) (r : List (String × Extern)), Session P B H m →
    bindRows l i m = .ok r m' → (∀ j p, l[j]? = some p → B (i + j) p.2) → m.store.func.length + l.length ≤ 2 ^ 31 → Session P B H m'
  | [], _, m, r, hm, h, _, _ => by cases h; exact hm
  | (n, t) :: l, i, m, r, hm, h, hB, hl => by
    unfold bindRows at h
    have h1 : allocateFuncHost t i m = .ok m.store.func.length { m with store := { m.store with func := m.store.func ++ [.host t i] } } := rfl
    rw [M.bind_ok h1] at h
    have hs : Session P B H { m with store := { m.store with func := m.store.func ++ [.host t i] } } :=
      .hostFunc hm (by simpa using hB 0 (n, t) rfl) h1 (by
        show (m.store.func ++ [FuncInst.host t i]).length ≤ _
        simp only [List.length_cons, List.length_append, List.length_nil] at hl ⊢
        omega)
    rw [M.bind_run] at h
    split at h
    · rename_i r' m1 h2
      cases h
      refine session_bindRows l (i + 1) _ r' hs h2 (fun j p hp => ?_) ?_
      · have := hB (j + 1) p hp
        rwa [show i + (j + 1) = i + 1 + j by omega] at this
      · simp only [List.length_cons, List.length_append, List.length_nil] at hl ⊢
        omega
    · cases h

/-- After `Preview1.bind` the embedder is still in a session. -/
theorem session_bind {imports imports' : Imports} (hB : ∀ c t, WasiTypes c t → B c t) (hm : Session P B H m) (hl : m.store.func.length + 46 ≤ 2 ^ 31)
    (h : Wasi.bind imports m = .ok imports' m') : Session P B H m' := by
  unfold Wasi.bind at h
  rw [M.bind_run] at h
  split at h
  · rename_i r m1 h1
    cases h
    refine session_bindRows table 0 m r hm h1 (fun j p hp => hB _ _ ⟨p.1, ?_⟩) hl
    rw [Nat.zero_add]
    exact hp
  · cases h

/-- The exit code with which an exception leaves `Preview1.main`, if any. -/
def exitCode : Err → Option Int
  | .exit z => some z
  | _ => none

/-- `m` is the machine with the store `s`, up to what `main` does to the `Preview1` object when it closes the descriptors. -/
def Left (s : Store) (m : Machine) : Prop := { m with store := { m.store with wasi := s.wasi } } = { store := s }

/-- The host raises `e` when a descriptor is closed or a pipe is rewound. -/
def EndsBadly (os : Os) (e : Err) : Prop := ∃ log, (∃ h, os.run log (.close h) = .error e) ∨ ∃ p, os.run log (.pipeSeek p) = .error e

/-- `main` comes to `want`, unless the host raises when a descriptor is closed or a pipe is rewound: then it raises that exception. -/
def Gives (os : Os) (m' : Machine) (want r : EStateM.Result Err Machine Int) : Prop :=
  r = want ∨ ∃ e, EndsBadly os e ∧ r = .error e m'

/-- What `main` does, given what the reference interpreter does with `_start`. -/
inductive MainOutcome (P : Option Bool) (os : Os) (H : Host) (mod : ModuleInst) (m : Machine) (a k : Nat) (code : FuncDesc) : Prop
  /-- `_start` returns, and `main` returns 0. -/
  | returns (N₀ fuel : Nat) (st : Ref.St) (href : Ref.invoke (host os H) fuel a [] m.store = .norm st)
      (h : ∀ N ≥ N₀, ∃ m', Gives os m' (.ok 0 m') (main os H N mod m) ∧ Left st.store m')
  /-- `_start` ends with an exception; if it is the one of `proc_exit`, `main` returns its code. -/
  | ends (N₀ fuel : Nat) (s : Store) (e : Err) (href : Ref.invoke (host os H) fuel a [] m.store = .trap s)
      (h : ∀ N ≥ N₀, ∃ m', Gives os m' (match exitCode e with | some z => .ok z m' | none => .error e m') (main os H N mod m) ∧ m'.store = { s with wasi := m'.store.wasi })
  /-- `_start` never ends. -/
  | forever (h : ∀ N, ∃ mo m1, m.store.mods[k]? = some mo ∧ StepsN (host os H) N (started m ⟨[], []⟩ mo code []) m1)
  /-- The run meets one of the two deviations: a division that raises `OverflowError`, and, unless the modules are known to have none, a
  branch to a function's own label. -/
  | deviates (mo : ModuleInst) (hk : m.store.mods[k]? = some mo) (hd : Meets (host os H) (Dev P) (started m ⟨[], []⟩ mo code []))
      (h : P ≠ none → ∃ N₀, ∀ N ≥ N₀, ∃ m', Gives os m' (.error .overflow m') (main os H N mod m))

/-- If the host closes and rewinds without errors, there is no such exception. -/
theorem gives_fine (hc : ClosesFine os) {m' : Machine} {want r : EStateM.Result Err Machine Int} (h : Gives os m' want r) : r = want := by
  rcases h with h | ⟨e, ⟨log, ⟨x, h⟩ | ⟨x, h⟩⟩, -⟩
  · exact h
  · rw [(hc log).1 x] at h; cases h
  · rw [(hc log).2 x] at h; cases h

theorem rewind_any : ∀ (l : List File) (s : St), ∃ t, t.fd = s.fd ∧ (rewind os l s = .ok () t ∨ ∃ e, EndsBadly os e ∧ rewind os l s = .error e t)
  | [], s => ⟨s, rfl, .inl rfl⟩
  | f :: l, s => by
    unfold rewind
    cases hp : f.pipe with
    | none => exact rewind_any l s
    | some p =>
      simp only [Wasi.bind_run]
      rw [sys_run]
      cases hr : os.run s.log (.pipeSeek p) with
      | error e => exact ⟨s.event (.pipeSeek p) (.error e), rfl, .inr ⟨e, ⟨_, .inr ⟨p, hr⟩⟩, rfl⟩⟩
      | ok a =>
        obtain ⟨t, h1, h2⟩ := rewind_any l (s.event (.pipeSeek p) (.ok a))
        exact ⟨t, h1, h2⟩

theorem closeAll_any : ∀ (n i : Nat) (s : St), i + n ≤ s.fd.length →
    ∃ t, closeAll os n i s = .ok () t ∨ ∃ e, EndsBadly os e ∧ closeAll os n i s = .error e t
  | 0, _, s, _ => ⟨s, .inl rfl⟩
  | n + 1, i, s, hl => by
    unfold closeAll
    have hi : i < s.fd.length := by omega
    rw [Wasi.bind_run, file_nat (List.getElem?_eq_getElem hi)]
    dsimp only
    by_cases hc : s.fd[i].wasmType = FILETYPE_CHARACTER_DEVICE
    · rw [if_pos hc]; exact closeAll_any n (i + 1) s (by omega)
    · rw [if_neg hc]
      by_cases ho : s.fd[i].hostOpen = true
      · rw [if_pos ho]
        simp only [Wasi.bind_run]
        rw [sys_run]
        cases hr : os.run s.log (.close s.fd[i].hostFd) with
        | error e => exact ⟨_, .inr ⟨e, ⟨_, .inl ⟨_, hr⟩⟩, rfl⟩⟩
        | ok a =>
          dsimp only
          rw [setFile_nat _ (by exact hi)]
          exact closeAll_any n (i + 1) _ (by simp only [List.length_set]; exact (by omega : i + 1 + n ≤ s.fd.length))
      · rw [if_neg ho]; exact closeAll_any n (i + 1) s (by omega)

theorem finish_any (s : St) : ∃ t, Wasi.finish os s = .ok () t ∨ ∃ e, EndsBadly os e ∧ Wasi.finish os s = .error e t := by
  unfold Wasi.finish
  rw [Wasi.bind_run, Wasi.get_run]
  dsimp only
  obtain ⟨t, hfd, ht | ⟨e, he, ht⟩⟩ := rewind_any (os := os) (Py.slice s.fd 1 3) s
  · rw [Wasi.bind_run, ht]
    dsimp only
    rw [Wasi.bind_run, Wasi.get_run]
    dsimp only
    by_cases h3 : 3 ≤ t.fd.length
    · exact closeAll_any _ 3 t (by omega)
    · rw [show t.fd.length - 3 = 0 by omega]; exact ⟨t, .inl rfl⟩
  · rw [Wasi.bind_run, ht]
    exact ⟨t, .inr ⟨e, he, rfl⟩⟩

theorem main_of_ok {ys : List HVal} {s : Store} (h : Runtime.invocate (host os H) N mod "_start" [] m = .ok ys { store := s }) :
    ∃ m', Gives os m' (.ok 0 m') (main os H N mod m) ∧ Left s m' := by
  obtain ⟨t, ht⟩ := finish_any (os := os) (s.wasi.st none)
  have hs : start (host os H) N mod m = .ok 0 { store := s } := by unfold start; rw [h]
  rw [main_eq, hs]
  unfold final
  rw [hs]
  dsimp only
  rcases ht with ht | ⟨e, he, ht⟩
  · rw [ht]
    exact ⟨_, .inl rfl, rfl⟩
  · rw [ht]
    exact ⟨_, .inr ⟨e, he, rfl⟩, rfl⟩

theorem main_of_error {e : Err} {m1 : Machine} (h : Runtime.invocate (host os H) N mod "_start" [] m = .error e m1) :
    ∃ m', Gives os m' (match exitCode e with | some z => .ok z m' | none => .error e m') (main os H N mod m) ∧
      m'.store = { m1.store with wasi := m'.store.wasi } := by
  obtain ⟨t, ht⟩ := finish_any (os := os) (m1.store.wasi.st none)
  rw [main_eq]
  unfold final start
  rw [h]
  rcases ht with ht | ⟨e', he, ht⟩
  · cases e <;> (dsimp only [exitCode, clearStacks]; rw [ht]; exact ⟨_, .inl rfl, rfl⟩)
  · cases e <;> (dsimp only [exitCode, clearStacks]; rw [ht]; exact ⟨_, .inr ⟨e', he, rfl⟩, rfl⟩)

/-- **C81** An embedder who uses WASI and checks modules runs the `_start` of a module with `Preview1.main`.  It returns 0 if the reference
interpreter returns, with the store the reference interpreter leaves; if the reference interpreter traps (or a host function raises), it
raises the exception, or returns the code the exception of `proc_exit` carries; or it runs forever; or it meets one of the two deviations:
an `i64.div_u` with a quotient of `2^63` or more and, unless the modules are known to have none, a branch to a function's own label.
If the host raises when `main` closes the descriptors in the end, that exception takes the place of what `main` would have returned or
raised.  Missing: runs that meet a deviation, where the claim is false of the code. -/
theorem C81_main_partial (hB : ∀ c t, c < 46 → B c t → WasiTypes c t) (hO : HostOk B (own H)) (hH : ∀ nd, P = some nd → HostCovered nd H)
    (h : Session P B (host os H) m) {a k : Nat} {code : FuncDesc} (he : findExport mod "_start" = .ok (.func a))
    (hf : m.store.func[a]? = some (.wasm ⟨[], []⟩ k code)) : MainOutcome P os H mod m a k code := by
  have heq := fun N => runtime_invocate_eq (H := host os H) (N := N) (xs := []) (args := []) he hf rfl rfl
  rcases C24_session_call_partial (wasi_host_ok hB hO) (fun nd hP => wasi_host_covered (hH nd hP)) h hf (args := []) (fun S _ => .nil) with
    ⟨N₀, fuel, st, h1, h2, h3⟩ | ⟨N₀, e, m1, fuel, h1, h2⟩ | h1 | ⟨mo, h0, h1, h2⟩
  · refine .returns N₀ fuel st h2 fun N hN => main_of_ok (ys := []) ?_
    have h4 : st.vs.reverse = [] := List.map_eq_nil_iff.mp h3
    rw [heq, M.bind_ok (h1 N hN), h4]
    rfl
  · refine .ends N₀ fuel m1.store e h2 fun N hN => main_of_error ?_
    rw [heq, M.bind_err (h1 N hN)]
  · exact .forever h1
  · refine .deviates mo h0 h1 fun hP => ?_
    obtain ⟨N₀, m1, h2⟩ := h2 hP
    refine ⟨N₀, fun N hN => ?_⟩
    obtain ⟨m', h3, -⟩ := main_of_error (os := os) (mod := mod) (m := m) (by rw [heq, M.bind_err (h2 N hN)])
    exact ⟨m', h3⟩

end Pywasm.Props
