import Verif.Props.WasiMain
import Verif.Spec.Returns
import Verif.Spec.WasiNamed

/-!
# C68: `main` closes what WASI opened
-/

namespace Pywasm.WasiSpec
open Wasi

/-- A host that answers questions about open descriptors without errors, and opens no character devices. -/
structure Steady (os : Os) : Prop where
  isdir : ∀ l h e, os.run l (.isdir h) ≠ .error e
  isfile : ∀ l h e, os.run l (.isfile h) ≠ .error e
  stat : ∀ l h e, os.run l (.stat h) ≠ .error e
  plain : ∀ l h (i : Stat), os.run l (.stat h) = .ok i → i.kind ≠ .chr

end Pywasm.WasiSpec

namespace Pywasm.Props
open Spec M WasiSpec Wasi

/-- Every open host descriptor belongs to an entry of the table that satisfies `P`. -/
def Owned (P : Nat → Prop) (s : St) : Prop :=
  ∀ x, isOpen s.log x = true → ∃ n f, P n ∧ s.fd[n]? = some f ∧ f.hostOpen = true ∧ ¬isChar f ∧ f.hostFd = x

theorem Owned.mono {P Q : Nat → Prop} {s : St} (h : Owned P s) (hpq : ∀ n, P n → Q n) : Owned Q s := by
  intro x hx
  obtain ⟨n, f, hn, h⟩ := h x hx
  exact ⟨n, f, hpq n hn, h⟩
theorem Owned.quiet {P : Nat → Prop} {s s' : St} (h : Owned P s) (q : Quiet s s') : Owned P s' := by
  obtain ⟨l, hl, hl'⟩ := q.log
  intro x hx
  rw [hl, isOpen_quiet hl'] at hx
  rw [q.fd]; exact h x hx

theorem Owned.open {P : Nat → Prop} {s : St} (h : Owned P s) (name : Str) (fl mo : Int) (d : Option Int) (new : File) {s1 s' : St}
    (hq : Quiet (s.event (.open name fl mo d) (.ok new.hostFd)) s1) (hp : P s.fd.length) (ho : new.hostOpen = true)
    (hc : ¬isChar new) (hq' : Quiet { s1 with fd := s1.fd ++ [new] } s') : Owned P s' := by
  refine Owned.quiet ?_ hq'
  intro x hx
  obtain ⟨l, hl, hl'⟩ := hq.log
  change isOpen s1.log x = true at hx
  rw [hl, isOpen_quiet hl'] at hx
  change isOpen (s.log ++ [_]) x = true at hx
  rw [isOpen_open] at hx
  have hfd : s1.fd = s.fd := hq.fd
  change ∃ n f, P n ∧ (s1.fd ++ [new])[n]? = some f ∧ _
  rw [hfd]
  rcases (Bool.or_eq_true _ _ ▸ hx : isOpen s.log x = true ∨ decide (new.hostFd = x) = true) with hx | hx
  · obtain ⟨n, f, hn, hf, r⟩ := h x hx
    refine ⟨n, f, hn, ?_, r⟩
    rw [List.getElem?_append_left (List.getElem?_eq_some_iff.mp hf).1]; exact hf
  · exact ⟨s.fd.length, new, hp, by simp, ho, hc, by simpa using hx⟩

theorem Owned.change {os : Os} (hst : Steady os) {cl : Call} {s s' : St} (h : Owned (fun _ => True) s) (c : Change os cl s s') :
    Owned (fun _ => True) s' := by
  cases c with
  | quiet q => exact h.quiet q
  | edit n f f' hn ho hf hr hq =>
    refine Owned.quiet ?_ hq
    intro x hx
    obtain ⟨k, g, -, hg, h1, h2, h3⟩ := h x hx
    by_cases hk : k = n
    · subst hk
      rw [hn] at hg; cases hg
      refine ⟨k, f', trivial, by simp [(List.getElem?_eq_some_iff.mp hn).1], ?_, ?_, ?_⟩
      · rw [hf]; exact h1
      · rw [hf]; exact h2
      · rw [hf]; exact h3
    · exact ⟨k, g, trivial, by simpa [List.getElem?_set_ne (Ne.symm hk)] using hg, h1, h2, h3⟩
  | drop n f hn ho ht =>
    intro x hx
    change isOpen (s.log ++ [_]) x = true at hx
    rw [isOpen_close] at hx
    simp only [Bool.and_eq_true, decide_eq_true_eq] at hx
    obtain ⟨k, g, -, hg, h1, h2, h3⟩ := h x hx.1
    have hk : k ≠ n := by rintro rfl; rw [hn] at hg; cases hg; exact hx.2 h3
    exact ⟨k, g, trivial, by simpa [List.getElem?_set_ne (Ne.symm hk)] using hg, h1, h2, h3⟩
  | dropErr n f e hn ho ht =>
    intro x hx
    change isOpen (s.log ++ [_]) x = true at hx
    rw [isOpen_closeErr] at hx
    exact h x hx
  | dropChr n f hn ho ht =>
    intro x hx
    obtain ⟨k, g, -, hg, h1, h2, h3⟩ := h x hx
    have hk : k ≠ n := by rintro rfl; rw [hn] at hg; cases hg; exact h2 ht
    exact ⟨k, g, trivial, by simpa [List.getElem?_set_ne (Ne.symm hk)] using hg, h1, h2, h3⟩
  | move m n f g hc hm hn hf hg ht =>
    intro x hx
    change isOpen (s.log ++ [_]) x = true at hx
    rw [isOpen_close] at hx
    simp only [Bool.and_eq_true, decide_eq_true_eq] at hx
    obtain ⟨k, e, -, he, h1, h2, h3⟩ := h x hx.1
    have hk : k ≠ n := by rintro rfl; rw [hn] at he; cases he; exact hx.2 h3
    by_cases hkm : k = m
    · subst hkm
      rw [hm] at he; cases he
      refine ⟨n, f, trivial, ?_, h1, h2, h3⟩
      change ((s.fd.set n f).set k f.shut)[n]? = some f
      rw [List.getElem?_set_ne hk]
      simp [(List.getElem?_eq_some_iff.mp hn).1]
    · refine ⟨k, e, trivial, ?_, h1, h2, h3⟩
      change ((s.fd.set n f).set m f.shut)[k]? = some e
      rw [List.getElem?_set_ne (Ne.symm hkm), List.getElem?_set_ne (Ne.symm hk)]; exact he
  | moveChr m n f g hc hm hn hf hg ht =>
    intro x hx
    obtain ⟨k, e, -, he, h1, h2, h3⟩ := h x hx
    have hk : k ≠ n := by rintro rfl; rw [hn] at he; cases he; exact h2 ht
    by_cases hkm : k = m
    · subst hkm
      rw [hm] at he; cases he
      refine ⟨n, f, trivial, ?_, h1, h2, h3⟩
      change ((s.fd.set n f).set k f.shut)[n]? = some f
      rw [List.getElem?_set_ne hk]
      simp [(List.getElem?_eq_some_iff.mp hn).1]
    · refine ⟨k, e, trivial, ?_, h1, h2, h3⟩
      change ((s.fd.set n f).set m f.shut)[k]? = some e
      rw [List.getElem?_set_ne (Ne.symm hkm), List.getElem?_set_ne (Ne.symm hk)]; exact he
  | openErr name fl mo d e =>
    intro x hx
    change isOpen (s.log ++ [_]) x = true at hx
    rw [isOpen_openErr] at hx
    exact h x hx
  | openLeak name fl mo d x hx hq hl =>
    obtain ⟨l, e, hl⟩ := hl
    rcases hl with hl | hl | hl
    · exact absurd hl (hst.isdir _ _ _)
    · exact absurd hl (hst.isfile _ _ _)
    · exact absurd hl (hst.stat _ _ _)
  | opened name fl mo d x new hx hq hh ho hw hp hn ht hd hq' =>
    subst hh
    refine h.open name fl mo d new hq trivial ho ?_ hq'
    obtain ⟨l, i, hi, ht⟩ := ht
    unfold isChar
    rw [ht]
    have := hst.plain l _ i hi
    unfold helpWasmType
    cases hk : i.kind <;> simp only <;> first | decide | exact absurd hk this

theorem Owned.step {os : Os} (hst : Steady os) {s s' : St} (h : Owned (fun _ => True) s) (c : Step os s s') : Owned (fun _ => True) s' := by
  cases c with
  | call c _ => exact h.change hst (change_call os c s)
  | guest _ m => exact h
  | pipe _ n p =>
    intro x hx
    obtain ⟨k, g, -, hg, h1, h2, h3⟩ := h x hx
    refine ⟨k, if n = k then { g with pipe := p } else g, trivial, ?_, ?_⟩
    · change (s.fd.modify n _)[k]? = _
      rw [List.getElem?_modify, hg]; rfl
    · split <;> exact ⟨h1, h2, h3⟩
theorem Owned.reach {os : Os} (hst : Steady os) {s s' : St} (h : Owned (fun _ => True) s) (r : Reach os s s') : Owned (fun _ => True) s' := by
  induction r with
  | refl => exact h
  | step _ c ih => exact ih.step hst c

theorem Owned.preopens {os : Os} (l : List (Str × Str)) {s : St} (h : Owned (fun _ => True) s) :
    Owned (fun _ => True) (after (Wasi.preopens os l) s) := by
  induction l generalizing s with
  | nil => exact h
  | cons p l ih =>
    obtain ⟨k, v⟩ := p
    unfold Wasi.preopens
    rw [after_bind]
    have key : Owned (fun _ => True) (after (Wasi.preopen os k v) s) := by
      unfold Wasi.preopen
      rw [after_bind, sys_run]
      have q : ∀ r, Quiet s (s.event .getcwd r) := fun r => ⟨rfl, rfl, rfl, rfl, rfl, [_], rfl, by simp [opensOrCloses]⟩
      cases h1 : os.run s.log .getcwd with
      | error e => exact h.quiet (q _)
      | ok cwd =>
        simp only
        have h' := h.quiet (q (.ok cwd))
        generalize s.event .getcwd (.ok cwd) = t at h' ⊢
        generalize Py.abspath cwd (Py.normpath v) = v
        generalize Py.or os.c.oRdonly os.c.oDirectory = fl
        rw [after_bind, sys_run]
        cases h2 : os.run t.log (.open v fl 511 none) with
        | error e =>
          intro x hx
          change isOpen (t.log ++ [_]) x = true at hx
          rw [isOpen_openErr] at hx
          exact h' x hx
        | ok x =>
          simp only
          rw [Wasi.after_ok (Wasi.get_run _)]
          exact h'.open v fl 511 none
            ⟨x, fl, v, true, none, (t.event (.open v fl 511 none) (.ok x)).fd.length, 0, Py.normpath k,
              0b00000111101111111111111000000000, 0b00001111111111111111111111111111, true, FILETYPE_DIRECTORY⟩
            (Quiet.refl _) trivial rfl (fun h => absurd (show (3 : Int) = 2 from h) (by decide)) (Quiet.refl _)
    unfold after at key
    cases hr : Wasi.preopen os k v s with
    | ok a s' => rw [hr] at key; exact ih key
    | error e s' => rw [hr] at key; exact key

theorem Owned.init (os : Os) (args : List Str) (dirs envs : List (Str × Str))
    (fds : Int × Int × Int) (names : Str × Str × Str) : Owned (fun _ => True) (Wasi.init os args dirs envs fds names).2 := by
  unfold Wasi.init
  dsimp only
  have := Owned.preopens (os := os) (sortPairs (normDirs dirs))
    (s := { args := args, ndirs := (normDirs dirs).length, envs := (sortPairs envs).map fun p => Py.joinEq p.1 p.2,
            fd := stdio fds names, mem := none, log := [] }) (fun x hx => by cases hx)
  unfold after at this
  split
  · rename_i hr; rw [hr] at this; exact this
  · rename_i hr; rw [hr] at this; exact this

theorem Owned.closeAll {os : Os} : ∀ (n i : Nat) {s t : St} {u : Unit}, i + n = s.fd.length → Owned (fun k => k < 3 ∨ i ≤ k) s →
    Wasi.closeAll os n i s = .ok u t → Owned (fun k => k < 3 ∨ s.fd.length ≤ k) t ∧ t.fd.length = s.fd.length := by
  intro n
  induction n with
  | zero =>
    intro i s t u hl h hr
    injection hr with _ hr
    subst hr
    rw [Nat.add_zero] at hl
    subst hl
    exact ⟨h, rfl⟩
  | succ n ih =>
    intro i s t u hl h hr
    have hi : i < s.fd.length := by omega
    have he : s.fd[i]? = some s.fd[i] := List.getElem?_eq_getElem hi
    unfold Wasi.closeAll at hr
    rw [Wasi.bind_run, file_nat he] at hr
    dsimp only at hr
    by_cases hc : s.fd[i].wasmType = FILETYPE_CHARACTER_DEVICE
    · rw [if_pos hc] at hr
      refine ih (i + 1) (by omega) ?_ hr
      intro x hx
      obtain ⟨k, g, hk, hg, h1, h2, h3⟩ := h x hx
      refine ⟨k, g, ?_, hg, h1, h2, h3⟩
      have : k ≠ i := by rintro rfl; rw [he] at hg; cases hg; exact h2 hc
      omega
    · rw [if_neg hc] at hr
      by_cases ho : s.fd[i].hostOpen = true
      · rw [if_pos ho] at hr
        simp only [Wasi.bind_run] at hr
        rw [sys_run] at hr
        cases hos : os.run s.log (.close s.fd[i].hostFd) with
        | error e => rw [hos] at hr; cases hr
        | ok a =>
          rw [hos] at hr
          dsimp only at hr
          rw [setFile_nat _ (by exact hi)] at hr
          dsimp only at hr
          have := ih (i + 1) (s := { s.event (.close s.fd[i].hostFd) (.ok a) with fd := s.fd.set i { s.fd[i] with hostOpen := false } })
            (by simp; omega) ?_ hr
          · simpa using this
          · intro x hx
            change isOpen (s.log ++ [_]) x = true at hx
            rw [isOpen_close] at hx
            simp only [Bool.and_eq_true, decide_eq_true_eq] at hx
            obtain ⟨k, g, hk, hg, h1, h2, h3⟩ := h x hx.1
            have hki : k ≠ i := by rintro rfl; rw [he] at hg; cases hg; exact hx.2 h3
            refine ⟨k, g, by omega, ?_, h1, h2, h3⟩
            change (s.fd.set i _)[k]? = _
            rw [List.getElem?_set_ne (Ne.symm hki)]; exact hg
      · rw [if_neg ho] at hr
        refine ih (i + 1) (by omega) ?_ hr
        intro x hx
        obtain ⟨k, g, hk, hg, h1, h2, h3⟩ := h x hx
        refine ⟨k, g, ?_, hg, h1, h2, h3⟩
        have : k ≠ i := by rintro rfl; rw [he] at hg; cases hg; exact ho h1
        omega

theorem Owned.finish {os : Os} {s t : St} {u : Unit} (h : Owned (fun _ => True) s) (hr : Wasi.finish os s = .ok u t) :
    Owned (fun k => k < 3) t := by
  unfold Wasi.finish at hr
  rw [Wasi.bind_run, Wasi.get_run] at hr
  dsimp only at hr
  rw [Wasi.bind_run] at hr
  have hq := (Calm.rewind os (Py.slice s.fd 1 3)).run s
  unfold after at hq
  cases hw : Wasi.rewind os (Py.slice s.fd 1 3) s with
  | error e s' => rw [hw] at hr; cases hr
  | ok a s' =>
    rw [hw] at hr hq
    dsimp only at hr hq
    rw [Wasi.bind_run, Wasi.get_run] at hr
    dsimp only at hr
    have h' : Owned (fun k => k < 3 ∨ 3 ≤ k) s' := (h.quiet hq).mono fun n _ => by omega
    by_cases h3 : 3 ≤ s'.fd.length
    · obtain ⟨h4, h5⟩ := Owned.closeAll _ 3 (by omega) h' hr
      intro x hx
      obtain ⟨k, g, hk, hg, r⟩ := h4 x hx
      have := (List.getElem?_eq_some_iff.mp hg).1
      exact ⟨k, g, by omega, hg, r⟩
    · rw [show s'.fd.length - 3 = 0 by omega] at hr
      injection hr with _ hr
      subst hr
      intro x hx
      obtain ⟨k, g, hk, hg, r⟩ := h' x hx
      have := (List.getElem?_eq_some_iff.mp hg).1
      exact ⟨k, g, by omega, hg, r⟩

/-- **C68** (partial) When `main` ends normally, the host descriptors that WASI opened and that are still open are held by
the descriptors 0, 1 and 2, onto which the guest renumbered them — on a host without character devices and without errors
of `stat` on open descriptors. -/
theorem wasi_closes_all_partial {os : Os} {H : Host} {N : Nat} {m m' : Machine} {z : Int} (hst : Steady os) (hH : Apart H)
    (hm : Made os m) (acts : List Action) (mod : ModuleInst)
    (h : main os H N mod (history (host os H) N acts m) = .ok z m') (x : Int) (hx : isOpen m'.store.wasi.log x = true) :
    ∃ (n : Nat) (f : File), n < 3 ∧ m'.store.wasi.fd[n]? = some f ∧ f.wasmType ≠ 2 ∧ f.hostFd = x := by
  obtain ⟨args, dirs, envs, fds, names, s, hi, hw⟩ := hm
  have h1 := C67_guests_only_call (os := os) (N := N) hH acts m
  have h2 := start_reach (os := os) (N := N) hH mod (history (host os H) N acts m)
  have hs : Owned (fun _ => True) (m.store.wasi.st none) := by
    have := Owned.init os args dirs envs fds names
    rw [hi] at this
    rw [hw]
    exact this
  have h3 := (hs.reach hst h1).reach hst h2
  rw [main_eq] at h
  unfold final at h h3
  cases hst : start (host os H) N mod (history (host os H) N acts m) with
  | error e m1 => rw [hst] at h; dsimp only at h; cases hf : Wasi.finish os (m1.store.wasi.st none) <;> rw [hf] at h <;> cases h
  | ok n m1 =>
    rw [hst] at h h3
    dsimp only at h h3
    cases hf : Wasi.finish os (m1.store.wasi.st none) with
    | error e t => rw [hf] at h; cases h
    | ok u t =>
      rw [hf] at h
      injection h with _ h
      subst h
      obtain ⟨k, f, hk, hg, -, h5, h6⟩ := h3.finish hf x hx
      exact ⟨k, f, hk, hg, h5, h6⟩


/-- A guest descriptor that is open holds its host descriptor. -/
def Holds (s : St) : Prop := ∀ (n : Nat) (f : File), s.fd[n]? = some f → f.wasmOpen = true → ¬isChar f → f.hostOpen = true

theorem Holds.quiet {s s' : St} (h : Holds s) (q : Quiet s s') : Holds s' := by
  unfold Holds
  rw [q.fd]; exact h
theorem Holds.append {s : St} (h : Holds s) (new : File) (ho : new.hostOpen = true) : Holds { s with fd := s.fd ++ [new] } := by
  intro k g hg hgo hgc
  rcases get_snoc_cases hg with ⟨rfl, rfl⟩ | ⟨-, hg⟩
  · exact ho
  · exact h k g hg hgo hgc
theorem Holds.move {s : St} (h : Holds s) {m n : Nat} {f : File} (hm : s.fd[m]? = some f) (k : Nat) (x : File)
    (hx : ((s.fd.set n f).set m f.shut)[k]? = some x) (ho : x.wasmOpen = true) (hc : ¬isChar x) : x.hostOpen = true := by
  rcases get_set_cases hx with ⟨rfl, rfl⟩ | ⟨hk, hx⟩
  · exact absurd ho (by simp [File.shut])
  · rcases get_set_cases hx with ⟨rfl, rfl⟩ | ⟨hk', hx⟩
    · exact h m x hm ho hc
    · exact h k x hx ho hc

theorem Holds.change {os : Os} {cl : Call} {s s' : St} (h : Holds s) (c : Change os cl s s') : Holds s' := by
  cases c with
  | quiet q => exact h.quiet q
  | edit n f f' hn ho hf hr hq =>
    have e2 : f'.wasmOpen = f.wasmOpen := by rw [hf]
    have e3 : f'.hostOpen = f.hostOpen := by rw [hf]
    have e4 : isChar f' ↔ isChar f := by unfold isChar; rw [hf]
    refine Holds.quiet ?_ hq
    intro k g hg
    rcases get_set_cases hg with ⟨rfl, rfl⟩ | ⟨-, hg⟩
    · rw [e2, e3, e4]; exact h k f hn
    · exact h k g hg
  | drop n f hn ho ht =>
    intro k g hg hgo hgc
    rcases get_set_cases hg with ⟨rfl, rfl⟩ | ⟨hk, hg⟩
    · exact absurd hgo (by simp [File.shut])
    · exact h k g hg hgo hgc
  | dropErr n f e hn ho ht => exact h
  | dropChr n f hn ho ht =>
    intro k g hg hgo hgc
    rcases get_set_cases hg with ⟨rfl, rfl⟩ | ⟨hk, hg⟩
    · exact absurd ht hgc
    · exact h k g hg hgo hgc
  | move m n f g _ hm hn hf hg ht => exact h.move hm
  | moveChr m n f g _ hm hn hf hg ht => exact h.move hm
  | openErr name fl mo d e => exact h
  | openLeak name fl mo d x hx hq _ => exact Holds.quiet (s := s.event (.open name fl mo d) (.ok x)) h hq
  | opened name fl mo d x new hx hq hh ho hw hp hn ht hd hq' =>
    exact ((Holds.quiet (s := s.event (.open name fl mo d) (.ok x)) h hq).append new ho).quiet hq'

theorem Holds.step {os : Os} {s s' : St} (h : Holds s) (c : Step os s s') : Holds s' := by
  cases c with
  | call c _ => exact h.change (change_call os c s)
  | guest _ m => exact h
  | pipe _ n p =>
    intro k x hx
    rw [List.getElem?_modify] at hx
    cases hy : s.fd[k]? with
    | none => rw [hy] at hx; cases hx
    | some y =>
      rw [hy] at hx
      have := h k y hy
      simp only [Option.map_eq_map, Option.map_some, Option.some.injEq] at hx
      split at hx <;> subst hx <;> exact this
theorem Holds.reach {os : Os} {s s' : St} (h : Holds s) (r : Reach os s s') : Holds s' := by
  induction r with
  | refl => exact h
  | step _ c ih => exact ih.step c

theorem Holds.preopens {os : Os} (l : List (Str × Str)) {s : St} (h : Holds s) : Holds (after (Wasi.preopens os l) s) := by
  induction l generalizing s with
  | nil => exact h
  | cons p l ih =>
    obtain ⟨k, v⟩ := p
    unfold Wasi.preopens
    rw [after_bind]
    have : Holds (after (Wasi.preopen os k v) s) := by
      unfold Wasi.preopen
      rw [after_bind, sys_run]
      cases h1 : os.run s.log .getcwd with
      | error e => exact h
      | ok cwd =>
        simp only
        have h' : Holds (s.event .getcwd (.ok cwd)) := h
        generalize s.event .getcwd (.ok cwd) = t at h' ⊢
        generalize Py.abspath cwd (Py.normpath v) = v
        generalize Py.or os.c.oRdonly os.c.oDirectory = fl
        rw [after_bind, sys_run]
        cases h2 : os.run t.log (.open v fl 511 none) with
        | error e => exact h'
        | ok x =>
          simp only
          rw [Wasi.after_ok (Wasi.get_run _)]
          exact Holds.append (s := t.event (.open v fl 511 none) (.ok x)) h' _ rfl
    unfold after at this
    cases hr : Wasi.preopen os k v s with
    | ok a s' => rw [hr] at this; exact ih this
    | error e s' => rw [hr] at this; exact this

theorem Holds.init (os : Os) (args : List Str) (dirs envs : List (Str × Str))
    (fds : Int × Int × Int) (names : Str × Str × Str) : Holds (Wasi.init os args dirs envs fds names).2 := by
  have h0 : Holds { args := args, ndirs := (normDirs dirs).length, envs := (sortPairs envs).map (fun p : Str × Str => Py.joinEq p.1 p.2), fd := Wasi.stdio fds names, mem := none, log := [] } := by
    intro n f h _ hn
    have := List.mem_of_getElem? h
    simp only [Wasi.stdio, List.mem_cons, List.not_mem_nil, or_false] at this
    rcases this with rfl | rfl | rfl <;> exact absurd rfl hn
  have := Holds.preopens (os := os) (sortPairs (normDirs dirs)) h0
  unfold Wasi.init
  unfold after at this
  simp only
  split
  · rename_i hr; rw [hr] at this; exact this
  · rename_i hr; rw [hr] at this; exact this

/-- While `main` closes what is left, it has come to `i`. -/
structure Closing (s : St) (i : Nat) : Prop where
  backed : ∀ (n : Nat) (f : File), s.fd[n]? = some f → f.wasmOpen = true → ¬isChar f →
    (isOpen s.log f.hostFd = true ↔ n < 3 ∨ i ≤ n) ∧ (n < 3 ∨ i ≤ n → f.hostOpen = true)
  inj : ∀ (m n : Nat) (f g : File), s.fd[m]? = some f → s.fd[n]? = some g → m ≠ n → f.wasmOpen = true → g.wasmOpen = true →
    ¬isChar f → ¬isChar g → f.hostFd ≠ g.hostFd
  host : ∀ (n : Nat) (f : File), s.fd[n]? = some f → f.hostOpen = true → ¬isChar f → f.wasmOpen = true

theorem Closing.closeAll {os : Os} : ∀ (n i : Nat) {s t : St} {u : Unit}, 3 ≤ i → i + n = s.fd.length → Closing s i →
    Wasi.closeAll os n i s = .ok u t → Closing t s.fd.length ∧ t.fd.length = s.fd.length := by
  intro n
  induction n with
  | zero =>
    intro i s t u h3 hl h hr
    injection hr with _ hr
    subst hr
    rw [Nat.add_zero] at hl
    subst hl
    exact ⟨h, rfl⟩
  | succ n ih =>
    intro i s t u h3 hl h hr
    have hi : i < s.fd.length := by omega
    have he : s.fd[i]? = some s.fd[i] := List.getElem?_eq_getElem hi
    unfold Wasi.closeAll at hr
    rw [Wasi.bind_run, file_nat he] at hr
    dsimp only at hr
    have skip : (s.fd[i].wasmOpen = true → ¬isChar s.fd[i] → False) → Closing s (i + 1) := by
      intro hn
      refine ⟨fun k f hf hw hc => ?_, h.inj, h.host⟩
      have : k ≠ i := by rintro rfl; rw [he] at hf; cases hf; exact hn hw hc
      have := h.backed k f hf hw hc
      rw [show (k < 3 ∨ i + 1 ≤ k) ↔ (k < 3 ∨ i ≤ k) by omega]
      exact this
    by_cases hc : s.fd[i].wasmType = FILETYPE_CHARACTER_DEVICE
    · rw [if_pos hc] at hr
      exact ih (i + 1) (by omega) (by omega) (skip fun _ h => h hc) hr
    · rw [if_neg hc] at hr
      by_cases ho : s.fd[i].hostOpen = true
      · rw [if_pos ho] at hr
        simp only [Wasi.bind_run] at hr
        rw [sys_run] at hr
        cases hos : os.run s.log (.close s.fd[i].hostFd) with
        | error e => rw [hos] at hr; cases hr
        | ok a =>
          rw [hos] at hr
          dsimp only at hr
          rw [setFile_nat _ (by exact hi)] at hr
          dsimp only at hr
          have hw := h.host i _ he ho hc
          have look : ∀ (k : Nat) (f : File), (s.fd.set i { s.fd[i] with hostOpen := false })[k]? = some f →
              ∃ g, s.fd[k]? = some g ∧ f.hostFd = g.hostFd ∧ f.wasmOpen = g.wasmOpen ∧ (isChar f ↔ isChar g) ∧
                (k ≠ i → f = g) ∧ (k = i → f.hostOpen = false) := by
            intro k f hf
            rcases get_set_cases hf with ⟨rfl, rfl⟩ | ⟨hk, hf⟩
            · exact ⟨_, he, rfl, rfl, Iff.rfl, fun h => absurd rfl h, fun _ => rfl⟩
            · exact ⟨_, hf, rfl, rfl, Iff.rfl, fun _ => rfl, fun h => absurd h hk⟩
          have := ih (i + 1) (s := { s.event (.close s.fd[i].hostFd) (.ok a) with fd := s.fd.set i { s.fd[i] with hostOpen := false } })
            (by omega) (by simp; omega) ?_ hr
          · simpa using this
          · refine ⟨fun k f hf hfw hfc => ?_, fun k l f g hf hg hne hfw hgw hfc hgc => ?_, fun k f hf hfo hfc => ?_⟩
            · obtain ⟨g, hg, e1, e2, e3, e4, e5⟩ := look k f hf
              rw [e2] at hfw
              rw [e3] at hfc
              have hb := h.backed k g hg hfw hfc
              change (isOpen (s.log ++ [_]) f.hostFd = true ↔ _) ∧ _
              rw [isOpen_close, e1]
              by_cases hk : k = i
              · subst hk
                rw [he] at hg; cases hg
                simp
                omega
              · have hd := h.inj i k _ g he hg (Ne.symm hk) hw hfw hc hfc
                rw [e4 hk]
                simp only [Bool.and_eq_true, decide_eq_true_eq]
                rw [show (k < 3 ∨ i + 1 ≤ k) ↔ (k < 3 ∨ i ≤ k) by omega]
                exact ⟨⟨fun h => hb.1.mp h.1, fun h => ⟨hb.1.mpr h, hd⟩⟩, hb.2⟩
            · obtain ⟨f', hf', e1, e2, e3, -, -⟩ := look k f hf
              obtain ⟨g', hg', e1', e2', e3', -, -⟩ := look l g hg
              rw [e1, e1']
              exact h.inj k l f' g' hf' hg' hne (e2 ▸ hfw) (e2' ▸ hgw) (fun h => hfc (e3.mpr h)) (fun h => hgc (e3'.mpr h))
            · obtain ⟨g, hg, e1, e2, e3, e4, e5⟩ := look k f hf
              have hk : k ≠ i := fun e => by rw [e5 e] at hfo; cases hfo
              cases e4 hk
              exact h.host k f hg hfo hfc
      · rw [if_neg ho] at hr
        refine ih (i + 1) (by omega) (by omega) (skip fun hw hc => ?_) hr
        exact ho ((h.backed i _ he hw hc).2 (.inr (le_refl _)))

theorem Closing.finish {os : Os} {s t : St} {u : Unit} (inv : TableInv s) (hold : Holds s) (hf : Wasi.finish os s = .ok u t) (fd : Int) (f : File)
    (h : openFile t fd = some f) (hc : ¬isChar f) : isOpen t.log f.hostFd = true ↔ fd < 3 := by
  obtain ⟨n, rfl, hn, ho⟩ := openFile_nat h
  unfold Wasi.finish at hf
  rw [Wasi.bind_run, Wasi.get_run] at hf
  dsimp only at hf
  rw [Wasi.bind_run] at hf
  have hq := (Calm.rewind os (Py.slice s.fd 1 3)).run s
  unfold after at hq
  cases hw : Wasi.rewind os (Py.slice s.fd 1 3) s with
  | error e s' => rw [hw] at hf; cases hf
  | ok a s' =>
    rw [hw] at hf hq
    dsimp only at hf hq
    rw [Wasi.bind_run, Wasi.get_run] at hf
    dsimp only at hf
    have inv' := inv.quiet hq
    have hold' := hold.quiet hq
    have hcl : Closing s' 3 := by
      refine ⟨fun k f hf hw hc => ⟨?_, fun _ => hold' k f hf hw hc⟩, inv'.inj, inv'.host⟩
      have := inv'.live k f hf hw hc
      exact ⟨fun _ => by omega, fun _ => this⟩
    by_cases h3 : 3 ≤ s'.fd.length
    · obtain ⟨h4, h5⟩ := Closing.closeAll _ 3 (le_refl _) (by omega) hcl hf
      have := (List.getElem?_eq_some_iff.mp hn).1
      rw [(h4.backed n f hn ho hc).1]
      omega
    · rw [show s'.fd.length - 3 = 0 by omega] at hf
      injection hf with _ hf
      subst hf
      have := (List.getElem?_eq_some_iff.mp hn).1
      rw [(hcl.backed n f hn ho hc).1]
      omega
/-- **C61** (partial) Whatever was done before: after `main` has ended normally, a descriptor that the guest can still use and that is not a character
device is backed by an open host descriptor exactly if it is 0, 1 or 2.  (The claim says: always.) -/
theorem wasi_after_main_partial {os : Os} {H : Host} {N : Nat} {m m' : Machine} {z : Int} (hos : Fresh os) (hH : Apart H)
    (hm : Made os m) (acts : List Action) (mod : ModuleInst)
    (h : main os H N mod (history (host os H) N acts m) = .ok z m') (fd : Int) (f : File)
    (hf : openFile (m'.store.wasi.st none) fd = some f) (hc : f.wasmType ≠ 2) : isOpen m'.store.wasi.log f.hostFd = true ↔ fd < 3 := by
  obtain ⟨args, dirs, envs, fds, names, s, hi, hw⟩ := hm
  have h1 := C67_guests_only_call (os := os) (N := N) hH acts m
  have h2 := start_reach (os := os) (N := N) hH mod (history (host os H) N acts m)
  have hs : TableInv (m.store.wasi.st none) ∧ Holds (m.store.wasi.st none) := by
    have a1 := TableInv.init hos args dirs envs fds names
    have a2 := Holds.init os args dirs envs fds names
    rw [hi] at a1 a2
    rw [hw]
    exact ⟨a1.reach hos (.step (.refl _) (.guest _ none)), a2⟩
  have h3 := (hs.1.reach hos h1).reach hos h2
  have h4 := (hs.2.reach h1).reach h2
  rw [main_eq] at h
  unfold final at h h3 h4
  cases hst : start (host os H) N mod (history (host os H) N acts m) with
  | error e m1 => rw [hst] at h; dsimp only at h; cases hf : Wasi.finish os (m1.store.wasi.st none) <;> rw [hf] at h <;> cases h
  | ok n m1 =>
    rw [hst] at h h3 h4
    dsimp only at h h3 h4
    cases hx : Wasi.finish os (m1.store.wasi.st none) with
    | error e t => rw [hx] at h; cases h
    | ok u t =>
      rw [hx] at h
      injection h with _ h
      subst h
      exact Closing.finish h3 h4 hx fd f hf hc

theorem demo_steady : Steady (demoOs .reg) where
  isdir l h e := by simp [demoOs]
  isfile l h e := by simp [demoOs]
  stat l h e := by simp [demoOs]
  plain l h i hi := by
    simp only [demoOs] at hi
    injection hi with hi
    rw [← hi]; simp

/-- A concrete run: one directory is preopened (host descriptor 3), the guest opens a file in it (4) and closes
neither; `main` closes both. -/
example : let t := runs (demoOs .reg) [.pathOpen 3 0 0 0 0 2 0 0 8] (demoSt .reg)
    isOpen t.log 3 = true ∧ isOpen t.log 4 = true ∧
    isOpen (after (Wasi.finish (demoOs .reg)) t).log 3 = false ∧ isOpen (after (Wasi.finish (demoOs .reg)) t).log 4 = false := by
  decide +kernel

/-- **C68** is false of the code for character devices: a guest opens one and closes it again, and the host descriptor is
never closed. -/
theorem wasi_leak_device_refuted : ∃ (os : Os) (s t : St) (h : Int), Fresh os ∧ ClosesFine os ∧ Reach os s t ∧
    isOpen s.log h = false ∧ (∀ fd, 3 < fd → openFile t fd = none) ∧
    isOpen t.log h = true ∧ isOpen (after (Wasi.finish os) t).log h = true := by
  refine ⟨demoOs .chr, demoInit .chr, _, 4, demo_fresh _, demo_fine _,
    demo_reach .chr [.pathOpen 3 0 0 0 0 2 0 0 8, .fdClose 4], by decide +kernel, ?_, by decide +kernel, by decide +kernel⟩
  intro fd hfd
  have hl : (runs (demoOs .chr) [.pathOpen 3 0 0 0 0 2 0 0 8, .fdClose 4] (demoSt .chr)).fd.length = 5 := by decide +kernel
  by_cases h4 : fd = 4
  · subst h4; decide +kernel
  · unfold openFile
    rw [if_neg (by omega), List.getElem?_eq_none (by omega)]; rfl

/-- **C68** is false of the code for files renumbered onto a standard stream: `main` closes from descriptor 3 on. -/
theorem wasi_leak_renumber_refuted : ∃ (os : Os) (s t : St) (h : Int), Fresh os ∧ ClosesFine os ∧ Steady os ∧ Reach os s t ∧
    isOpen t.log h = true ∧ isOpen (after (Wasi.finish os) t).log h = true :=
  ⟨demoOs .reg, demoInit .reg, _, 3, demo_fresh _, demo_fine _, demo_steady, demo_reach .reg [.fdRenumber 3 1], by decide +kernel,
    by decide +kernel⟩

/-! ## The hypotheses are met -/

/-- A machine with the start state of the examples whose `_start` does nothing. -/
def leakMachine : Machine := { shortMachine .nop with store := { (shortMachine .nop).store with wasi := (demoInit .reg).world } }
theorem leakMachine_made : Made (demoOs .reg) leakMachine := ⟨_, _, _, _, _, _, demo_init_ok, rfl⟩
example : ∃ z m', main (demoOs .reg) noOwn 100 shortModule leakMachine = .ok z m' ∧ ∀ x, isOpen m'.store.wasi.log x = true →
    ∃ (n : Nat) (f : File), n < 3 ∧ m'.store.wasi.fd[n]? = some f ∧ f.wasmType ≠ 2 ∧ f.hostFd = x := by
  obtain ⟨ys, m1, h⟩ := Spec.returns (x := Runtime.invocate (host (demoOs .reg) noOwn) 100 shortModule "_start" []) (m := leakMachine)
    (by decide +kernel)
  obtain ⟨m', h⟩ := C48_returns_zero (demo_fine .reg) h
  exact ⟨0, m', h, wasi_closes_all_partial demo_steady noOwn_apart leakMachine_made [] shortModule h⟩
/-- After `main` the guest could still use descriptor 3, a directory, if it were run again. -/
example : (match main (demoOs .reg) noOwn 100 shortModule leakMachine with
    | .ok _ m' => (openFile (m'.store.wasi.st none) 3).any fun f => f.wasmType ≠ 2
    | .error _ _ => false) = true := by decide +kernel
example : ∃ z m', main (demoOs .reg) noOwn 100 shortModule leakMachine = .ok z m' ∧ ∀ f, openFile (m'.store.wasi.st none) 3 = some f →
    f.wasmType ≠ 2 → ¬ isOpen m'.store.wasi.log f.hostFd = true := by
  obtain ⟨ys, m1, h⟩ := Spec.returns (x := Runtime.invocate (host (demoOs .reg) noOwn) 100 shortModule "_start" []) (m := leakMachine)
    (by decide +kernel)
  obtain ⟨m', h⟩ := C48_returns_zero (demo_fine .reg) h
  exact ⟨0, m', h, fun f hf hc hx => absurd ((wasi_after_main_partial (demo_fresh .reg) noOwn_apart leakMachine_made [] shortModule h 3 f hf hc).mp hx) (by decide)⟩

end Pywasm.Props
