import Verif.Lemmas.WasiTable

/-!
# Host descriptors over a history of WASI calls
-/

namespace Pywasm.Wasi
open WasiSpec

/-! ## Which host descriptors are open -/

theorem isOpen_quiet {l : List Event} (h : ∀ e ∈ l, opensOrCloses e.call = false) (k : List Event) (x : Int) :
    isOpen (k ++ l) x = isOpen k x := by
  unfold isOpen
  rw [List.foldl_append]
  generalize List.foldl _ false k = b
  induction l generalizing b with
  | nil => rfl
  | cons e l ih =>
    rw [List.foldl_cons, ih (fun e he => h e (List.mem_cons_of_mem _ he))]
    have := h e (List.mem_cons_self ..)
    obtain ⟨c, a⟩ := e
    cases c <;> first | rfl | (simp [opensOrCloses] at this)

theorem isOpen_open (l : List Event) (name : Str) (fl mo : Int) (d : Option Int) (h x : Int) :
    isOpen (l ++ [⟨.open name fl mo d, .ok h⟩]) x = (isOpen l x || decide (h = x)) := by
  unfold isOpen; rw [List.foldl_append]; rfl
theorem isOpen_openErr (l : List Event) (name : Str) (fl mo : Int) (d : Option Int) (e : Err) (x : Int) :
    isOpen (l ++ [⟨.open name fl mo d, .error e⟩]) x = isOpen l x := by
  unfold isOpen; rw [List.foldl_append]; rfl
theorem isOpen_close (l : List Event) (h : Int) (u : Unit) (x : Int) :
    isOpen (l ++ [⟨.close h, .ok u⟩]) x = (isOpen l x && decide (h ≠ x)) := by
  unfold isOpen; rw [List.foldl_append]; rfl
theorem isOpen_closeErr (l : List Event) (h : Int) (e : Err) (x : Int) :
    isOpen (l ++ [⟨.close h, .error e⟩]) x = isOpen l x := by
  unfold isOpen; rw [List.foldl_append]; rfl

theorem ClosesOpen.nil : ClosesOpen [] := by
  intro l1 h r l2 e
  simp at e

theorem ClosesOpen.snoc {l : List Event} (h : ClosesOpen l) (e : Event)
    (he : ∀ x r, e = ⟨.close x, r⟩ → isOpen l x = true) : ClosesOpen (l ++ [e]) := by
  intro l1 x r l2 hl
  rcases List.eq_nil_or_concat l2 with rfl | ⟨l3, y, rfl⟩
  · have := List.append_inj' hl rfl
    rw [← this.1]
    exact he x r (by simpa using this.2)
  · have : l ++ [e] = (l1 ++ ⟨.close x, r⟩ :: l3) ++ [y] := by rw [hl]; simp
    exact h l1 x r l3 (List.append_inj' this rfl).1

theorem ClosesOpen.quiet {k l : List Event} (hk : ClosesOpen k) (h : ∀ e ∈ l, opensOrCloses e.call = false) :
    ClosesOpen (k ++ l) := by
  induction l using List.reverseRecOn with
  | nil => simpa using hk
  | append_singleton l e ih =>
    rw [← List.append_assoc]
    refine ClosesOpen.snoc (ih fun e he => h e (by simp [he])) e ?_
    intro x r hx
    have := h e (by simp)
    rw [hx] at this
    simp [opensOrCloses] at this

/-! ## The invariant -/

/-- The table and the host agree. -/
structure TableInv (s : St) : Prop where
  live : ∀ (n : Nat) (f : File), s.fd[n]? = some f → f.wasmOpen = true → ¬isChar f → isOpen s.log f.hostFd = true
  inj : ∀ (m n : Nat) (f g : File), s.fd[m]? = some f → s.fd[n]? = some g → m ≠ n → f.wasmOpen = true → g.wasmOpen = true →
    ¬isChar f → ¬isChar g → f.hostFd ≠ g.hostFd
  host : ∀ (n : Nat) (f : File), s.fd[n]? = some f → f.hostOpen = true → ¬isChar f → f.wasmOpen = true
  once : ClosesOpen s.log

theorem TableInv.quiet {s s' : St} (h : TableInv s) (q : Quiet s s') : TableInv s' := by
  obtain ⟨l, hl, hl'⟩ := q.log
  refine ⟨?_, ?_, ?_, ?_⟩
  · rw [q.fd, hl]; intro n f hn ho hc; rw [isOpen_quiet hl']; exact h.live n f hn ho hc
  · rw [q.fd]; exact h.inj
  · rw [q.fd]; exact h.host
  · rw [hl]; exact ClosesOpen.quiet h.once hl'

/-- An entry of an updated table. -/
theorem get_set_cases {l : List File} {n k : Nat} {f g : File} (h : (l.set n f)[k]? = some g) :
    (k = n ∧ g = f) ∨ (k ≠ n ∧ l[k]? = some g) := by
  by_cases e : n = k
  · subst e
    left
    rw [List.getElem?_set] at h
    simp only [if_pos] at h
    split at h
    · exact ⟨rfl, (Option.some.inj h).symm⟩
    · simp at h
  · right
    rw [List.getElem?_set_ne e] at h
    exact ⟨fun x => e x.symm, h⟩

theorem TableInv.opened {s : St} (h : TableInv s) (name : Str) (fl mo : Int) (d : Option Int) (x : Int) :
    TableInv (s.event (.open name fl mo d) (.ok x)) := by
  refine ⟨?_, h.inj, h.host, ?_⟩
  · intro k g hg hgo hgc
    show isOpen (s.log ++ [_]) _ = _
    rw [isOpen_open, h.live k g hg hgo hgc]; rfl
  · refine ClosesOpen.snoc h.once _ ?_
    intro x r hx
    injection hx with hx; cases hx

theorem get_snoc_cases {l : List File} {k : Nat} {f g : File} (h : (l ++ [f])[k]? = some g) :
    (k = l.length ∧ g = f) ∨ (k ≠ l.length ∧ l[k]? = some g) := by
  rcases Nat.lt_trichotomy k l.length with hk | hk | hk
  · rw [List.getElem?_append_left hk] at h; exact .inr ⟨by omega, h⟩
  · subst hk; left; simpa using h.symm
  · rw [List.getElem?_eq_none (by simp; omega)] at h; cases h

/-- Appending the descriptor the host just opened. -/
theorem TableInv.append {s : St} (h : TableInv s) (new : File) (hn : isOpen s.log new.hostFd = true)
    (hd : ∀ (n : Nat) (f : File), s.fd[n]? = some f → f.wasmOpen = true → ¬isChar f → f.hostFd ≠ new.hostFd)
    (hw : new.wasmOpen = true) : TableInv { s with fd := s.fd ++ [new] } := by
  refine ⟨?_, ?_, ?_, h.once⟩
  · intro k g hg hgo hgc
    rcases get_snoc_cases hg with ⟨rfl, rfl⟩ | ⟨-, hg⟩
    · exact hn
    · exact h.live k g hg hgo hgc
  · intro k k' x y hx hy hne hxo hyo hxc hyc
    rcases get_snoc_cases hx with ⟨rfl, rfl⟩ | ⟨-, hx1⟩ <;> rcases get_snoc_cases hy with ⟨rfl, rfl⟩ | ⟨-, hy1⟩
    · exact absurd rfl hne
    · exact fun e => hd k' y hy1 hyo hyc e.symm
    · exact hd k x hx1 hxo hxc
    · exact h.inj k k' x y hx1 hy1 hne hxo hyo hxc hyc
  · intro k g hg hgo hgc
    rcases get_snoc_cases hg with ⟨rfl, rfl⟩ | ⟨-, hg⟩
    · exact hw
    · exact h.host k g hg hgo hgc

theorem TableInv.change {os : Os} (hos : Fresh os) {cl : Call} {s s' : St} (h : TableInv s) (c : Change os cl s s') :
    TableInv s' := by
  cases c with
  | quiet q => exact h.quiet q
  | edit n f f' hn ho hf hr hq =>
    have e1 : f'.hostFd = f.hostFd := by rw [hf]
    have e2 : f'.wasmOpen = f.wasmOpen := by rw [hf]
    have e3 : f'.hostOpen = f.hostOpen := by rw [hf]
    have e4 : isChar f' ↔ isChar f := by unfold isChar; rw [hf]
    refine TableInv.quiet ?_ hq
    refine ⟨?_, ?_, ?_, h.once⟩
    · intro k g hg
      rcases get_set_cases hg with ⟨rfl, rfl⟩ | ⟨-, hg⟩
      · rw [e1, e2, e4]; exact h.live k f hn
      · exact h.live k g hg
    · intro k k' g g' hg hg' hne
      rcases get_set_cases hg with ⟨rfl, rfl⟩ | ⟨n1, hg1⟩ <;> rcases get_set_cases hg' with ⟨rfl, rfl⟩ | ⟨n2, hg2⟩
      · exact absurd rfl hne
      · rw [e1, e2, e4]; exact h.inj _ _ _ _ hn hg2 hne
      · rw [e1, e2, e4]; exact h.inj _ _ _ _ hg1 hn hne
      · exact h.inj _ _ _ _ hg1 hg2 hne
    · intro k g hg
      rcases get_set_cases hg with ⟨rfl, rfl⟩ | ⟨-, hg⟩
      · rw [e2, e3, e4]; exact h.host k f hn
      · exact h.host k g hg
  | drop n f hn ho ht =>
    refine ⟨?_, ?_, ?_, ?_⟩
    · intro k g hg hgo hgc
      rcases get_set_cases hg with ⟨rfl, rfl⟩ | ⟨hk, hg⟩
      · exact absurd hgo (by simp [File.shut])
      · show isOpen (s.log ++ [_]) _ = _
        rw [isOpen_close, h.live k g hg hgo hgc]
        simpa using h.inj n k f g hn hg (fun e => hk e.symm) ho hgo ht hgc
    · intro k k' g g' hg hg' hne hgo hgo' hgc hgc'
      rcases get_set_cases hg with ⟨rfl, rfl⟩ | ⟨-, hg⟩
      · exact absurd hgo (by simp [File.shut])
      · rcases get_set_cases hg' with ⟨rfl, rfl⟩ | ⟨-, hg'⟩
        · exact absurd hgo' (by simp [File.shut])
        · exact h.inj _ _ _ _ hg hg' hne hgo hgo' hgc hgc'
    · intro k g hg hgo hgc
      rcases get_set_cases hg with ⟨rfl, rfl⟩ | ⟨-, hg⟩
      · exact absurd hgo (by simp [File.shut])
      · exact h.host k g hg hgo hgc
    · refine ClosesOpen.snoc h.once _ ?_
      intro x r hx
      injection hx with hx; injection hx with hx
      rw [← hx]; exact h.live n f hn ho ht
  | dropErr n f e hn ho ht =>
    refine ⟨?_, h.inj, h.host, ?_⟩
    · intro k g hg hgo hgc
      show isOpen (s.log ++ [_]) _ = _
      rw [isOpen_closeErr]; exact h.live k g hg hgo hgc
    · refine ClosesOpen.snoc h.once _ ?_
      intro x r hx
      injection hx with hx; injection hx with hx
      rw [← hx]; exact h.live n f hn ho ht
  | dropChr n f hn ho ht =>
    refine ⟨?_, ?_, ?_, h.once⟩
    · intro k g hg hgo hgc
      rcases get_set_cases hg with ⟨rfl, rfl⟩ | ⟨hk, hg⟩
      · exact absurd ht hgc
      · exact h.live k g hg hgo hgc
    · intro k k' g g' hg hg' hne hgo hgo' hgc hgc'
      rcases get_set_cases hg with ⟨rfl, rfl⟩ | ⟨-, hg⟩
      · exact absurd ht hgc
      · rcases get_set_cases hg' with ⟨rfl, rfl⟩ | ⟨-, hg'⟩
        · exact absurd ht hgc'
        · exact h.inj _ _ _ _ hg hg' hne hgo hgo' hgc hgc'
    · intro k g hg hgo hgc
      rcases get_set_cases hg with ⟨rfl, rfl⟩ | ⟨-, hg⟩
      · exact absurd ht hgc
      · exact h.host k g hg hgo hgc
  | move m n f g _ hm hn hf hg ht =>
    have look : ∀ k x, ((s.fd.set n f).set m f.shut)[k]? = some x → x.wasmOpen = true →
        (k = n ∧ m ≠ n ∧ x = f) ∨ (k ≠ m ∧ k ≠ n ∧ s.fd[k]? = some x) := by
      intro k x hx hxo
      rcases get_set_cases hx with ⟨rfl, rfl⟩ | ⟨hk, hx⟩
      · exact absurd hxo (by simp [File.shut])
      · rcases get_set_cases hx with ⟨rfl, rfl⟩ | ⟨hk', hx⟩
        · exact .inl ⟨rfl, fun e => hk e.symm, rfl⟩
        · exact .inr ⟨hk, hk', hx⟩
    refine ⟨?_, ?_, ?_, ?_⟩
    · intro k x hx hxo hxc
      show isOpen (s.log ++ [_]) _ = _
      rw [isOpen_close]
      rcases look k x hx hxo with ⟨rfl, hne, rfl⟩ | ⟨-, hk, hx⟩
      · rw [h.live m x hm hxo hxc]
        simpa using h.inj k m g x hn hm (fun e => hne e.symm) hg hxo ht hxc
      · rw [h.live k x hx hxo hxc]
        simpa using h.inj n k g x hn hx (fun e => hk e.symm) hg hxo ht hxc
    · intro k k' x y hx hy hne hxo hyo hxc hyc
      rcases look k x hx hxo with ⟨rfl, h1, rfl⟩ | ⟨hk, hk', hx1⟩ <;>
        rcases look k' y hy hyo with ⟨rfl, h2, rfl⟩ | ⟨hl, hl', hy1⟩
      · exact absurd rfl hne
      · exact h.inj m k' x y hm hy1 (fun e => hl e.symm) hxo hyo hxc hyc
      · exact h.inj k m x y hx1 hm hk hxo hyo hxc hyc
      · exact h.inj k k' x y hx1 hy1 hne hxo hyo hxc hyc
    · intro k x hx hxo hxc
      rcases get_set_cases hx with ⟨rfl, rfl⟩ | ⟨hk, hx⟩
      · exact absurd hxo (by simp [File.shut])
      · rcases get_set_cases hx with ⟨rfl, rfl⟩ | ⟨hk', hx⟩
        · exact hf
        · exact h.host k x hx hxo hxc
    · refine ClosesOpen.snoc h.once _ ?_
      intro x r hx
      injection hx with hx; injection hx with hx
      rw [← hx]; exact h.live n g hn hg ht
  | moveChr m n f g _ hm hn hf hg ht =>
    have look : ∀ k x, ((s.fd.set n f).set m f.shut)[k]? = some x → x.wasmOpen = true →
        (k = n ∧ m ≠ n ∧ x = f) ∨ (k ≠ m ∧ k ≠ n ∧ s.fd[k]? = some x) := by
      intro k x hx hxo
      rcases get_set_cases hx with ⟨rfl, rfl⟩ | ⟨hk, hx⟩
      · exact absurd hxo (by simp [File.shut])
      · rcases get_set_cases hx with ⟨rfl, rfl⟩ | ⟨hk', hx⟩
        · exact .inl ⟨rfl, fun e => hk e.symm, rfl⟩
        · exact .inr ⟨hk, hk', hx⟩
    refine ⟨?_, ?_, ?_, h.once⟩
    · intro k x hx hxo hxc
      rcases look k x hx hxo with ⟨rfl, hne, rfl⟩ | ⟨-, hk, hx⟩
      · exact h.live m x hm hxo hxc
      · exact h.live k x hx hxo hxc
    · intro k k' x y hx hy hne hxo hyo hxc hyc
      rcases look k x hx hxo with ⟨rfl, h1, rfl⟩ | ⟨hk, hk', hx1⟩ <;>
        rcases look k' y hy hyo with ⟨rfl, h2, rfl⟩ | ⟨hl, hl', hy1⟩
      · exact absurd rfl hne
      · exact h.inj m k' x y hm hy1 (fun e => hl e.symm) hxo hyo hxc hyc
      · exact h.inj k m x y hx1 hm hk hxo hyo hxc hyc
      · exact h.inj k k' x y hx1 hy1 hne hxo hyo hxc hyc
    · intro k x hx hxo hxc
      rcases get_set_cases hx with ⟨rfl, rfl⟩ | ⟨hk, hx⟩
      · exact absurd hxo (by simp [File.shut])
      · rcases get_set_cases hx with ⟨rfl, rfl⟩ | ⟨hk', hx⟩
        · exact hf
        · exact h.host k x hx hxo hxc
  | openErr name fl mo d e =>
    refine ⟨?_, h.inj, h.host, ?_⟩
    · intro k g hg hgo hgc
      show isOpen (s.log ++ [_]) _ = _
      rw [isOpen_openErr]; exact h.live k g hg hgo hgc
    · refine ClosesOpen.snoc h.once _ ?_
      intro x r hx
      injection hx with hx; cases hx
  | openLeak name fl mo d x hx hq _ => exact (h.opened name fl mo d x).quiet hq
  | opened name fl mo d x new hx hq hh ho hw hp hn ht hd hq' =>
    have h2 := (h.opened name fl mo d x).quiet hq
    refine (h2.append new ?_ ?_ hw).quiet hq'
    · obtain ⟨l, hl, hl'⟩ := hq.log
      rw [hl, isOpen_quiet hl']
      show isOpen (s.log ++ [_]) _ = _
      rw [isOpen_open, hh]; simp
    · rw [hq.fd, hh]
      intro n f hn hfo hfc e
      have := h.live n f hn hfo hfc
      rw [e, hos _ _ _ _ _ _ hx] at this
      exact absurd this (by simp)

theorem TableInv.step {os : Os} (hos : Fresh os) {s s' : St} (h : TableInv s) (c : Step os s s') : TableInv s' := by
  cases c with
  | call c _ => exact h.change hos (change_call os c s)
  | guest _ m => exact ⟨h.live, h.inj, h.host, h.once⟩
  | pipe _ n p =>
    have look : ∀ (k : Nat) (x : File), (s.fd.modify n fun f => { f with pipe := p })[k]? = some x →
        ∃ y, s.fd[k]? = some y ∧ x.hostFd = y.hostFd ∧ x.wasmOpen = y.wasmOpen ∧ x.hostOpen = y.hostOpen ∧
          (isChar x ↔ isChar y) := by
      intro k x hx
      rw [List.getElem?_modify] at hx
      cases hy : s.fd[k]? with
      | none => rw [hy] at hx; cases hx
      | some y =>
        rw [hy] at hx
        refine ⟨y, rfl, ?_⟩
        simp only [Option.map_eq_map, Option.map_some, Option.some.injEq] at hx
        split at hx <;> subst hx <;> exact ⟨rfl, rfl, rfl, Iff.rfl⟩
    refine ⟨?_, ?_, ?_, h.once⟩
    · intro k x hx
      obtain ⟨y, hy, e1, e2, -, e4⟩ := look k x hx
      rw [e1, e2, e4]; exact h.live k y hy
    · intro k k' x x' hx hx' hne
      obtain ⟨y, hy, e1, e2, -, e4⟩ := look k x hx
      obtain ⟨y', hy', e1', e2', -, e4'⟩ := look k' x' hx'
      rw [e1, e2, e4, e1', e2', e4']; exact h.inj k k' y y' hy hy' hne
    · intro k x hx
      obtain ⟨y, hy, -, e2, e3, e4⟩ := look k x hx
      rw [e2, e3, e4]; exact h.host k y hy

theorem TableInv.reach {os : Os} (hos : Fresh os) {s s' : St} (h : TableInv s) (r : Reach os s s') : TableInv s' := by
  induction r with
  | refl => exact h
  | step _ c ih => exact ih.step hos c

/-! ## Construction -/

theorem TableInv.stdio (args : List Str) (n : Nat) (envs : List Str) (fds : Int × Int × Int) (names : Str × Str × Str) :
    TableInv { args := args, ndirs := n, envs := envs, fd := Wasi.stdio fds names, mem := none, log := [] } := by
  have hc : ∀ (n : Nat) (f : File), (Wasi.stdio fds names)[n]? = some f → isChar f := by
    intro n f h
    have := List.mem_of_getElem? h
    simp only [Wasi.stdio, List.mem_cons, List.not_mem_nil, or_false] at this
    rcases this with rfl | rfl | rfl <;> rfl
  exact ⟨fun n f h _ hn => absurd (hc n f h) hn, fun m n f g h _ _ _ _ hn => absurd (hc m f h) hn,
    fun n f h _ hn => absurd (hc n f h) hn, ClosesOpen.nil⟩

theorem TableInv.preopen {os : Os} (hos : Fresh os) {s : St} (h : TableInv s) (k v : Str) :
    TableInv (after (Wasi.preopen os k v) s) := by
  unfold Wasi.preopen
  rw [after_bind, sys_run]
  have q : ∀ r, Quiet s (s.event .getcwd r) := fun r => ⟨rfl, rfl, rfl, rfl, rfl, [_], rfl, by simp [opensOrCloses]⟩
  cases h1 : os.run s.log .getcwd with
  | error e => exact h.quiet (q _)
  | ok cwd =>
    simp only
    have h' := h.quiet (q (.ok cwd))
    generalize s.event .getcwd (.ok cwd) = t at h' ⊢
    generalize Py.abspath cwd (Py.normpath v) = v
    generalize Py.or os.c.oRdonly os.c.oDirectory = fl
    rw [after_bind, sys_run]
    cases h2 : os.run t.log (.open v fl 511 none) with
    | error e => exact h'.change hos (cl := .schedYield) (.openErr v fl 511 none e)
    | ok x =>
      simp only
      rw [after_ok (get_run _)]
      refine (h'.opened v fl 511 none x).append _ ?_ ?_ rfl
      · show isOpen (t.log ++ [_]) x = _
        rw [isOpen_open]; simp
      · intro n f hn hfo hfc e
        have := h'.live n f hn hfo hfc
        rw [e, hos _ _ _ _ _ _ h2] at this
        exact absurd this (by simp)

theorem TableInv.preopens {os : Os} (hos : Fresh os) (l : List (Str × Str)) {s : St} (h : TableInv s) :
    TableInv (after (Wasi.preopens os l) s) := by
  induction l generalizing s with
  | nil => exact h
  | cons p l ih =>
    obtain ⟨k, v⟩ := p
    unfold Wasi.preopens
    rw [after_bind]
    have := h.preopen hos k v
    unfold after at this
    cases hr : Wasi.preopen os k v s with
    | ok a s' => rw [hr] at this; exact ih this
    | error e s' => rw [hr] at this; exact this

theorem TableInv.init {os : Os} (hos : Fresh os) (args : List Str) (dirs envs : List (Str × Str))
    (fds : Int × Int × Int) (names : Str × Str × Str) : TableInv (Wasi.init os args dirs envs fds names).2 := by
  have := TableInv.preopens hos (sortPairs (normDirs dirs))
    (TableInv.stdio args (normDirs dirs).length ((sortPairs envs).map fun p => Py.joinEq p.1 p.2) fds names)
  unfold Wasi.init
  unfold after at this
  simp only
  split
  · rename_i hr; rw [hr] at this; exact this
  · rename_i hr; rw [hr] at this; exact this

/-! ## The end of `main` -/

theorem Calm.rewind (os : Os) (l : List File) : Calm (Wasi.rewind os l) := by
  induction l with
  | nil => exact Calm.pure ()
  | cons f l ih =>
    unfold Wasi.rewind
    cases f.pipe with
    | none => exact ih
    | some p => exact (Calm.sys (x := .pipeSeek p) rfl).bind fun _ => ih

/-- While `main` closes what is left: the entries it has not reached still hold their host descriptors. -/
structure CloseInv (s : St) (i : Nat) : Prop where
  live : ∀ (n : Nat) (f : File), i ≤ n → s.fd[n]? = some f → f.hostOpen = true → ¬isChar f →
    isOpen s.log f.hostFd = true
  inj : ∀ (m n : Nat) (f g : File), i ≤ m → i ≤ n → s.fd[m]? = some f → s.fd[n]? = some g → m ≠ n →
    f.hostOpen = true → g.hostOpen = true → ¬isChar f → ¬isChar g → f.hostFd ≠ g.hostFd
  once : ClosesOpen s.log

theorem CloseInv.closeAll (os : Os) (n i : Nat) (s : St) (h : CloseInv s i) :
    ClosesOpen (after (Wasi.closeAll os n i) s).log := by
  induction n generalizing i s with
  | zero => exact h.once
  | succ n ih =>
    have next : CloseInv s (i + 1) :=
      ⟨fun n f hn => h.live n f (by omega), fun m n f g hm hn => h.inj m n f g (by omega) (by omega), h.once⟩
    unfold Wasi.closeAll
    cases he : s.fd[i]? with
    | none =>
      rw [after_err (s' := s) (e := .index)]
      · exact h.once
      · unfold file
        rw [bind_get, Py.getItem_none (by simpa using he)]; rfl
    | some e =>
      rw [after_ok (file_nat he)]
      have hl : i < s.fd.length := (List.getElem?_eq_some_iff.mp he).1
      by_cases hc : e.wasmType = FILETYPE_CHARACTER_DEVICE
      · rw [if_pos hc]; exact ih (i + 1) s next
      · rw [if_neg hc]
        by_cases ho : e.hostOpen = true
        · rw [if_pos ho]
          have hev : ∀ r, ClosesOpen (s.log ++ [⟨.close e.hostFd, r⟩]) := by
            intro r
            refine ClosesOpen.snoc h.once _ ?_
            intro x r' hx
            injection hx with hx; injection hx with hx
            rw [← hx]; exact h.live i e (Nat.le_refl i) he ho hc
          cases hr : os.run s.log (.close e.hostFd) with
          | error er => rw [after_err (sys_err hr)]; exact hev _
          | ok u =>
            rw [after_ok (sys_ok hr), after_ok (setFile_nat _ (by exact hl))]
            apply ih
            refine ⟨?_, ?_, hev _⟩
            · intro k g hk hg hgo hgc
              rcases get_set_cases hg with ⟨rfl, rfl⟩ | ⟨hne, hg⟩
              · omega
              · show isOpen (s.log ++ [_]) _ = _
                rw [isOpen_close, h.live k g (by omega) hg hgo hgc]
                simpa using h.inj i k e g (Nat.le_refl i) (by omega) he hg (by omega) ho hgo hc hgc
            · intro k k' g g' hk hk' hg hg' hne
              rcases get_set_cases hg with ⟨rfl, rfl⟩ | ⟨-, hg⟩
              · omega
              · rcases get_set_cases hg' with ⟨rfl, rfl⟩ | ⟨-, hg'⟩
                · omega
                · exact h.inj k k' g g' (by omega) (by omega) hg hg' hne
        · rw [if_neg ho]; exact ih (i + 1) s next

theorem TableInv.finish (os : Os) {s : St} (h : TableInv s) : ClosesOpen (after (Wasi.finish os) s).log := by
  unfold Wasi.finish
  rw [after_ok (get_run _), after_bind]
  have hq := (Calm.rewind os (Py.slice s.fd 1 3)).run s
  unfold after at hq
  cases hr : Wasi.rewind os (Py.slice s.fd 1 3) s with
  | error e t => rw [hr] at hq; exact (h.quiet hq).once
  | ok a t =>
    rw [hr] at hq
    have h' : TableInv t := h.quiet hq
    simp only
    rw [after_ok (get_run _)]
    refine CloseInv.closeAll os _ 3 t ⟨?_, ?_, h'.once⟩
    · intro n f _ hn ho hc; exact h'.live n f hn (h'.host n f hn ho hc) hc
    · intro m n f g _ _ hm hn hne ho ho' hc hc'
      exact h'.inj m n f g hm hn hne (h'.host m f hm ho hc) (h'.host n g hn ho' hc') hc hc'

end Pywasm.Wasi
