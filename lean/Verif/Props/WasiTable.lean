import Verif.Lemmas.WasiLive
import Verif.Lemmas.WasiOpen
import Verif.Lemmas.WasiConfig
import Verif.Spec.WasiDemo
import Verif.Spec.Returns
import Verif.Spec.WasiNamed

/-!
# WASI: the descriptor table

C39 (descriptor numbers are never reused, closed descriptors stay closed), C45 (host descriptors are closed at most
once), C47 (`fd_renumber`), C50 (`fd_prestat_*`), C61 (descriptors after `main`).

`os` is an arbitrary host; `Reach os s t` says that `t` results from `s` by any sequence of WASI calls (returning or
raising), arbitrary changes of the guest memory, and pipe attachments by the embedder.
-/

namespace Pywasm.Props
open Wasi WasiSpec

/-! ## C39 -/

/-- The table never gets shorter. -/
theorem wasi_table_grows {os : Os} {s t : St} (r : Reach os s t) : s.fd.length ≤ t.fd.length := by
  induction r with
  | refl => exact Nat.le_refl _
  | @step u v _ c ih =>
    refine Nat.le_trans ih ?_
    cases c with
    | guest => exact Nat.le_refl _
    | pipe => simp
    | call c =>
      have hch := change_call os c u
      generalize after (c.run os) u = v at hch
      cases hch with
      | quiet q => rw [q.fd]
      | edit n f f' h ho hf hr hq => rw [hq.fd]; simp
      | drop => simp
      | dropErr => exact Nat.le_refl _
      | dropChr => simp
      | move => simp
      | moveChr => simp
      | openErr => exact Nat.le_refl _
      | openLeak name fl mo d h hos hq _ => rw [hq.fd]; exact Nat.le_refl _
      | opened name fl mo d h new hos hq hh ho hw hp hn ht hd hq' => rw [hq'.fd]; simp [hq.fd, St.event]

/-- A descriptor number that was handed out and is not open never becomes open again. -/
theorem wasi_closed_stays_closed {os : Os} {s t : St} (r : Reach os s t) (fd : Int) (hl : fd < s.fd.length)
    (hc : openFile s fd = none) : openFile t fd = none := by
  rcases (by omega : fd < 0 ∨ 0 ≤ fd) with h0 | h0
  · simp [openFile, h0]
  obtain ⟨n, rfl⟩ : ∃ n : Nat, fd = n := ⟨fd.toNat, by omega⟩
  have hn : n < s.fd.length := by omega
  -- in terms of the entry
  have entry : ∀ u : St, n < u.fd.length → (openFile u (n : Int) = none ↔ ∀ f, u.fd[n]? = some f → f.wasmOpen = false) := by
    intro u hu
    constructor
    · intro h f hf
      cases ho : f.wasmOpen with
      | false => rfl
      | true => rw [openFile_of hf ho] at h; cases h
    · intro h
      cases ho : openFile u (n : Int) with
      | none => rfl
      | some f =>
        obtain ⟨m, hm, hf, hfo⟩ := openFile_nat ho
        have : m = n := by omega
        subst this
        rw [h f hf] at hfo; cases hfo
  have grow : ∀ u, Reach os s u → n < u.fd.length := fun u hu => Nat.lt_of_lt_of_le hn (wasi_table_grows hu)
  induction r with
  | refl => exact hc
  | @step u v r c ih =>
    have hu := (entry u (grow u r)).mp ih
    refine (entry v (grow v (r.step c))).mpr ?_
    have set1 : ∀ (k : Nat) (f g : File), u.fd[k]? = some f → f.wasmOpen = true → ∀ x, (u.fd.set k g)[n]? = some x →
        x.wasmOpen = false := by
      intro k f g hk hko x hx
      rcases get_set_cases hx with ⟨rfl, rfl⟩ | ⟨-, hx1⟩
      · rw [hu f hk] at hko; cases hko
      · exact hu x hx1
    have set2 : ∀ (k m : Nat) (f f' g g' : File), u.fd[k]? = some f → f.wasmOpen = true → u.fd[m]? = some f' →
        f'.wasmOpen = true → ∀ x, ((u.fd.set k g).set m g')[n]? = some x → x.wasmOpen = false := by
      intro k m f f' g g' hk hko hm hmo x hx
      rcases get_set_cases hx with ⟨rfl, rfl⟩ | ⟨-, hx1⟩
      · rw [hu f' hm] at hmo; cases hmo
      · exact set1 k f g hk hko x hx1
    cases c with
    | guest => exact hu
    | pipe _ k p =>
      intro x hx
      rw [List.getElem?_modify] at hx
      cases hy : u.fd[n]? with
      | none => rw [hy] at hx; cases hx
      | some y =>
        rw [hy] at hx
        simp only [Option.map_eq_map, Option.map_some, Option.some.injEq] at hx
        split at hx <;> subst hx <;> exact hu y hy
    | call c =>
      have hch := change_call os c u
      generalize after (c.run os) u = v at hch
      cases hch with
      | quiet q => rw [q.fd]; exact hu
      | edit k f f' h ho hf hr hq => rw [hq.fd]; exact set1 k f f' h ho
      | drop k f h ho ht => exact set1 k f _ h ho
      | dropErr => exact hu
      | dropChr k f h ho ht => exact set1 k f _ h ho
      | move k m f g _ hk hm hf hg ht => exact set2 m k g f _ _ hm hg hk hf
      | moveChr k m f g _ hk hm hf hg ht => exact set2 m k g f _ _ hm hg hk hf
      | openErr => exact hu
      | openLeak name fl mo d h hos hq _ => rw [hq.fd]; exact hu
      | opened name fl mo d h new hos hq hh ho hw hp hn' ht hd hq' =>
        rw [hq'.fd]
        intro x hx
        rcases get_snoc_cases hx with ⟨h1, rfl⟩ | ⟨-, hx1⟩
        · have h2 := grow u r
          rw [hq.fd] at h1
          exact absurd h1 (by show ¬ n = u.fd.length; omega)
        · rw [hq.fd] at hx1; exact hu x hx1

/-- C39: once `fd_close(fd)` has succeeded, every later call that takes `fd` returns `BADF` (8) and changes nothing,
whatever happened in between. -/
theorem wasi_closed_for_ever {os : Os} {s s' t : St} {fd : Int} (h : Call.run os (.fdClose fd) s = .ok 0 s')
    (r : Reach os s' t) (c : Call) (hc : fd ∈ fds c) : c.run os t = .ok 8 t := by
  refine bad_fd os c t ⟨fd, hc, ?_⟩
  cases ho : openFile s fd with
  | none =>
    have := bad_fd os (.fdClose fd) s ⟨fd, by simp [fds], ho⟩
    rw [this] at h
    injection h with h; exact absurd h (by decide)
  | some f =>
    obtain ⟨n, rfl, hn, hno⟩ := openFile_nat ho
    have hl : n < s.fd.length := (List.getElem?_eq_some_iff.mp hn).1
    have hs : s'.fd.length = s.fd.length ∧ openFile s' n = none := by
      have done : ∀ g : File, g.wasmOpen = false → s'.fd = s.fd.set n g →
          s'.fd.length = s.fd.length ∧ openFile s' n = none := by
        intro g hg he
        refine ⟨by rw [he]; simp, ?_⟩
        unfold openFile
        rw [if_neg (by omega), he]
        simp [hl, hg]
      simp only [Call.run] at h
      unfold fdClose at h
      rw [gate_open ho, if_neg Bool.false_ne_true, bind_ok (file_open ho)] at h
      by_cases ht : f.wasmType = FILETYPE_CHARACTER_DEVICE
      · rw [if_neg (by simpa using ht), bind_ok (setFile_nat _ hl)] at h
        injection h with _ h
        exact done { f with wasmOpen := false } rfl (by rw [← h])
      · rw [if_pos ht] at h
        cases hr : os.run s.log (.close f.hostFd) with
        | error er => rw [bind_err (sys_err hr)] at h; cases h
        | ok u =>
          rw [bind_ok (sys_ok hr), bind_ok (setFile_nat _ (by exact hl))] at h
          injection h with _ h
          exact done { f with hostOpen := false, wasmOpen := false } rfl (by rw [← h]; rfl)
    exact wasi_closed_stays_closed r n (by rw [hs.1]; omega) hs.2

/-- C39: the descriptor a successful `path_open` returns is the length of the table.  It was not open before, it is
open afterwards, and it is the number stored at the result pointer. -/
theorem wasi_open_number {os : Os} {s s' : St} {a0 a1 a2 a3 a4 a5 a6 a7 : Int} {a8 : Nat}
    (h : Call.run os (.pathOpen a0 a1 a2 a3 a4 a5 a6 a7 a8) s = .ok 0 s') (hp : InMem s a8 4) :
    numAt s' a8 4 = s.fd.length ∧ openFile s s.fd.length = none ∧ openFile s' s.fd.length ≠ none ∧
      s'.fd.length = s.fd.length + 1 := by
  obtain ⟨o⟩ := pathOpen_ok h
  have hm : InMem o.mid a8 4 := ⟨by rw [o.mem]; exact hp.1, by simp only [bytes, o.mem]; exact hp.2⟩
  have hfd : s'.fd = o.mid.fd := by
    have := (Calm.putU 4 a8 s.fd.length).run o.mid
    unfold after at this
    rw [o.store] at this
    exact this.fd
  refine ⟨?_, ?_, ?_, ?_⟩
  · obtain ⟨-, hlt, hw⟩ := putU_inv hm o.store
    rw [hw]
    exact numAt_write_self hm (by exact_mod_cast hlt)
  · unfold openFile; rw [if_neg (by omega)]; simp
  · rw [openFile_of (f := _) (by rw [hfd, o.fd]; exact List.getElem?_concat_length) rfl]; simp
  · rw [hfd, o.fd]; simp

/-- C39: two successful `path_open` calls of one history return different descriptors. -/
theorem wasi_open_distinct {os : Os} {s s' t t' : St} {a0 a1 a2 a3 a4 a5 a6 a7 b0 b1 b2 b3 b4 b5 b6 b7 : Int} {a8 b8 : Nat}
    (h : Call.run os (.pathOpen a0 a1 a2 a3 a4 a5 a6 a7 a8) s = .ok 0 s') (hp : InMem s a8 4)
    (r : Reach os s' t) (h' : Call.run os (.pathOpen b0 b1 b2 b3 b4 b5 b6 b7 b8) t = .ok 0 t') (hp' : InMem t b8 4) :
    numAt s' a8 4 < numAt t' b8 4 := by
  have h1 := wasi_open_number h hp
  have h2 := wasi_open_number h' hp'
  have := wasi_table_grows r
  omega

-- Two opens and a close: descriptors 4 and 5 (3 is the preopened directory), then 4 is closed and stays closed.
example : results (demoOs .reg) [.pathOpen 3 0 0 1 0 2 0 0 8, .pathOpen 3 0 0 1 0 2 0 0 12, .fdClose 4, .fdClose 4, .fdRead 4 0 0 0]
    { demoSt .reg with mem := some ⟨⟨1, 0⟩, 97 :: List.replicate 63 0, 1⟩ } =
    ([some 0, some 0, some 0, some 8, some 8], [true, true, true, true, false, true]) := by decide +kernel

/-! ## C45 -/

/-- C45: in any history of calls, from the construction of `Preview1` to the end of `main` (its `finally` clause),
whether or not the calls raise, every host `close` is of a descriptor that `Preview1` opened and has not closed yet. -/
theorem wasi_closed_once {os : Os} (hos : Fresh os) (args : List Str) (dirs envs : List (Str × Str))
    (std : Int × Int × Int) (names : Str × Str × Str) {t : St}
    (r : Reach os (init os args dirs envs std names).2 t) :
    ClosesOpen t.log ∧ ClosesOpen (after (finish os) t).log := by
  have := (TableInv.init hos args dirs envs std names).reach hos r
  exact ⟨this.once, this.finish os⟩

/-- C45: as long as `main` has not ended, the host descriptor behind every open guest descriptor (other than a
character device) is open, and no two guest descriptors share one: so no host descriptor is closed while a guest
descriptor still uses it. -/
theorem wasi_open_is_live {os : Os} (hos : Fresh os) (args : List Str) (dirs envs : List (Str × Str))
    (std : Int × Int × Int) (names : Str × Str × Str) {t : St}
    (r : Reach os (init os args dirs envs std names).2 t) (fd fd' : Int) (f f' : File) (h : openFile t fd = some f)
    (h' : openFile t fd' = some f') (hc : ¬isChar f) (hc' : ¬isChar f') :
    isOpen t.log f.hostFd = true ∧ (fd ≠ fd' → f.hostFd ≠ f'.hostFd) := by
  have inv := (TableInv.init hos args dirs envs std names).reach hos r
  obtain ⟨n, rfl, hn, ho⟩ := openFile_nat h
  obtain ⟨n', rfl, hn', ho'⟩ := openFile_nat h'
  exact ⟨inv.live n f hn ho hc, fun e => inv.inj n n' f f' hn hn' (fun e' => e (by rw [e'])) ho ho' hc hc'⟩

example : Fresh (demoOs .reg) := demo_fresh .reg
-- Open two files, close one, move the other onto the directory, end `main`: three opens, three closes.
example : ((after (finish (demoOs .reg)) (after (Call.run (demoOs .reg) (.fdRenumber 5 3))
    (after (Call.run (demoOs .reg) (.fdClose 4)) (after (Call.run (demoOs .reg) (.pathOpen 3 0 0 1 0 2 0 0 12))
    (after (Call.run (demoOs .reg) (.pathOpen 3 0 0 1 0 2 0 0 8))
    { demoSt .reg with mem := some ⟨⟨1, 0⟩, 97 :: List.replicate 63 0, 1⟩ }))))).log.filter
      (fun e => opensOrCloses e.call)).map (fun e => match e with
        | ⟨.open .., .ok h⟩ => (true, h) | ⟨.close h, _⟩ => (false, h) | _ => (true, 0)) =
    [(true, 3), (true, 4), (true, 5), (false, 4), (false, 3), (false, 5)] := by decide +kernel

/-! ## C47 -/

/-- C47 (for two different descriptors): after a successful `fd_renumber(from, to)`, `to` denotes what `from` denoted,
`from` is closed, and every other descriptor denotes what it denoted. -/
theorem wasi_renumber_partial {os : Os} {s s' : St} {a b : Int} (hne : a ≠ b)
    (h : Call.run os (.fdRenumber a b) s = .ok 0 s') :
    openFile s' b = openFile s a ∧ openFile s a ≠ none ∧ openFile s' a = none ∧
      ∀ fd, fd ≠ a → fd ≠ b → openFile s' fd = openFile s fd := by
  simp only [Call.run] at h
  unfold fdRenumber at h
  cases ha : openFile s a with
  | none => rw [gate_bad ha _ (by simp)] at h; injection h with h; exact absurd h (by decide)
  | some f =>
    rw [gate_open ha, if_neg Bool.false_ne_true] at h
    cases hb : openFile s b with
    | none => rw [gate_bad hb _ (by simp)] at h; injection h with h; exact absurd h (by decide)
    | some g =>
      rw [gate_open hb, if_neg Bool.false_ne_true, bind_ok (file_open ha), bind_ok (file_open hb)] at h
      obtain ⟨m, rfl, hm, ho⟩ := openFile_nat ha
      obtain ⟨n, rfl, hn, ho'⟩ := openFile_nat hb
      have hmn : n ≠ m := fun e => hne (by rw [e])
      have hl : n < s.fd.length := (List.getElem?_eq_some_iff.mp hn).1
      have hl' : m < s.fd.length := (List.getElem?_eq_some_iff.mp hm).1
      have hmm : (s.fd.set n f)[m]? = some f := by rw [List.getElem?_set_ne hmn]; exact hm
      have done : s'.fd = (s.fd.set n f).set m f.shut → openFile s' n = some f ∧ some f ≠ none ∧ openFile s' m = none ∧
          ∀ fd, fd ≠ (m : Int) → fd ≠ (n : Int) → openFile s' fd = openFile s fd := by
        intro e
        refine ⟨?_, by simp, ?_, ?_⟩
        · apply openFile_of _ ho
          rw [e, List.getElem?_set_ne (fun h => hmn h.symm)]; simp [hl]
        · unfold openFile; rw [if_neg (by omega), e]; simp [hl', File.shut]
        · intro fd h1 h2
          unfold openFile
          split
          · rfl
          · rw [e, List.getElem?_set_ne (by omega), List.getElem?_set_ne (by omega)]
      by_cases ht : g.wasmType = FILETYPE_CHARACTER_DEVICE
      · rw [if_neg (by simpa using ht)] at h
        beta_reduce at h
        rw [bind_ok (setFile_nat _ hl), bind_ok (file_nat (by exact hmm)),
          bind_ok (setFile_nat _ (by simpa using hl'))] at h
        injection h with _ h
        exact done (by rw [← h]; rfl)
      · rw [if_pos ht] at h
        cases hr : os.run s.log (.close g.hostFd) with
        | error er => rw [bind_err (sys_err hr)] at h; cases h
        | ok u =>
          rw [bind_ok (sys_ok hr)] at h
          beta_reduce at h
          rw [bind_ok (setFile_nat _ (by exact hl)), bind_ok (file_nat (by exact hmm)),
            bind_ok (setFile_nat _ (by rw [List.length_set]; exact hl'))] at h
          injection h with _ h
          exact done (by rw [← h]; rfl)

/-- Both descriptors open and the host able to close the target: the call succeeds. -/
theorem wasi_renumber_succeeds {os : Os} {s : St} {a b : Int} {f g : File} (ha : openFile s a = some f)
    (hb : openFile s b = some g) (hc : ∀ l, os.run l (.close g.hostFd) = .ok ()) :
    ∃ s', Call.run os (.fdRenumber a b) s = .ok 0 s' := by
  obtain ⟨m, rfl, hm, ho⟩ := openFile_nat ha
  obtain ⟨n, rfl, hn, ho'⟩ := openFile_nat hb
  have hl : n < s.fd.length := (List.getElem?_eq_some_iff.mp hn).1
  have hl' : m < s.fd.length := (List.getElem?_eq_some_iff.mp hm).1
  have hmm : (s.fd.set n f)[m]? = some f := by
    by_cases hnm : n = m
    · subst hnm; simp [hl]
    · rw [List.getElem?_set_ne hnm]; exact hm
  simp only [Call.run]
  unfold fdRenumber
  rw [gate_open ha, if_neg Bool.false_ne_true, gate_open hb, if_neg Bool.false_ne_true, bind_ok (file_open ha),
    bind_ok (file_open hb)]
  by_cases ht : g.wasmType = FILETYPE_CHARACTER_DEVICE
  · rw [if_neg (by simpa using ht)]
    beta_reduce
    rw [bind_ok (setFile_nat _ hl), bind_ok (file_nat (by exact hmm)), bind_ok (setFile_nat _ (by simpa using hl'))]
    exact ⟨_, rfl⟩
  · rw [if_pos ht, bind_ok (sys_ok (hc _))]
    beta_reduce
    rw [bind_ok (setFile_nat _ (by exact hl)), bind_ok (file_nat (by exact hmm)),
      bind_ok (setFile_nat _ (by rw [List.length_set]; exact hl'))]
    exact ⟨_, rfl⟩

/-- C47 fails for a descriptor renumbered onto itself: whenever that succeeds, the descriptor is closed. -/
theorem wasi_renumber_self_closes {os : Os} {s s' : St} {a : Int} (h : Call.run os (.fdRenumber a a) s = .ok 0 s') :
    openFile s a ≠ none ∧ openFile s' a = none := by
  simp only [Call.run] at h
  unfold fdRenumber at h
  cases ha : openFile s a with
  | none => rw [gate_bad ha _ (by simp)] at h; injection h with h; exact absurd h (by decide)
  | some f =>
    rw [gate_open ha, if_neg Bool.false_ne_true, gate_open ha, if_neg Bool.false_ne_true, bind_ok (file_open ha),
      bind_ok (file_open ha)] at h
    obtain ⟨m, rfl, hm, ho⟩ := openFile_nat ha
    have hl : m < s.fd.length := (List.getElem?_eq_some_iff.mp hm).1
    have hmm : (s.fd.set m f)[m]? = some f := by simp [hl]
    refine ⟨by simp, ?_⟩
    have done : s'.fd = (s.fd.set m f).set m f.shut → openFile s' m = none := by
      intro e
      unfold openFile; rw [if_neg (by omega), e]; simp [hl, File.shut]
    by_cases ht : f.wasmType = FILETYPE_CHARACTER_DEVICE
    · rw [if_neg (by simpa using ht)] at h
      beta_reduce at h
      rw [bind_ok (setFile_nat _ hl), bind_ok (file_nat (by exact hmm)),
        bind_ok (setFile_nat _ (by simpa using hl))] at h
      injection h with _ h
      exact done (by rw [← h]; rfl)
    · rw [if_pos ht] at h
      cases hr : os.run s.log (.close f.hostFd) with
      | error er => rw [bind_err (sys_err hr)] at h; cases h
      | ok u =>
        rw [bind_ok (sys_ok hr)] at h
        beta_reduce at h
        rw [bind_ok (setFile_nat _ (by exact hl)), bind_ok (file_nat (by exact hmm)),
          bind_ok (setFile_nat _ (by rw [List.length_set]; exact hl))] at h
        injection h with _ h
        exact done (by rw [← h]; rfl)

example : results (demoOs .reg) [.fdRenumber 3 1] (demoSt .reg) = ([some 0], [true, true, true, false]) := by
  decide +kernel
example : results (demoOs .reg) [.fdRenumber 3 3] (demoSt .reg) = ([some 0], [true, true, true, false]) := by
  decide +kernel

/-! ## C50 -/

/-- C50, one direction for numbers from 3 on: `fd_prestat_get` and `fd_prestat_dir_name` on a number beyond the
preopened directories return `BADF` and change nothing. -/
theorem wasi_prestat_others_partial (os : Os) (s : St) (fd p n : Int) (h : 3 + s.ndirs ≤ fd ∨ openFile s fd = none) :
    Call.run os (.fdPrestatGet fd p) s = .ok 8 s ∧ Call.run os (.fdPrestatDirName fd p n) s = .ok 8 s := by
  cases hf : openFile s fd with
  | none => exact ⟨bad_fd os _ s ⟨fd, by simp [fds], hf⟩, bad_fd os _ s ⟨fd, by simp [fds], hf⟩⟩
  | some f =>
    have h' : 3 + (s.ndirs : Int) ≤ fd := by rcases h with h | h; exact h; rw [h] at hf; cases hf
    constructor
    · simp only [Call.run]
      unfold fdPrestatGet
      rw [gate_open hf, if_neg Bool.false_ne_true, bind_get, if_pos (by omega)]; rfl
    · simp only [Call.run]
      unfold fdPrestatDirName
      rw [gate_open hf, if_neg Bool.false_ne_true, bind_get, if_pos (by omega)]; rfl

/-- `fd_prestat_get` on an open number up to `2 + ndirs` stores the tag 0 and the length of the guest name. -/
theorem wasi_prestat_get (os : Os) (s : St) (fd : Int) (p : Nat) (f : File) (hf : openFile s fd = some f)
    (hn : fd < 3 + s.ndirs) (hp : InMem s p 8) (hl : (Py.encodeUtf8 f.wasmName).length < 256 ^ 4) :
    Call.run os (.fdPrestatGet fd p) s =
      .ok 0 (write (write s p [0]) (p + 4) (Spec.bytesLE 4 (Py.encodeUtf8 f.wasmName).length)) := by
  have h1 : InMem s p 1 := ⟨hp.1, by have := hp.2; omega⟩
  have h2 : InMem s (p + 4) 4 := ⟨hp.1, by have := hp.2; omega⟩
  obtain ⟨m, hm, -, -⟩ := hp.some
  simp only [Call.run]
  unfold fdPrestatGet
  rw [gate_open hf, if_neg Bool.false_ne_true, bind_get, if_neg (by omega), bind_ok (mems_run hm), bind_ok (file_open hf)]
  rw [bind_ok (show putU8 p 0 s = .ok () (write s p [0]) from putU8_run (v := 0) h1 (by decide)),
    show (p : Int) + 4 = ((p + 4 : Nat) : Int) by push_cast; rfl, bind_ok (putU_run (h2.write _ _) hl)]
  rfl

/-- `fd_prestat_dir_name` stores the guest name if the buffer is large enough and refuses otherwise. -/
theorem wasi_prestat_dir_name (os : Os) (s : St) (fd : Int) (p n : Nat) (f : File) (hf : openFile s fd = some f)
    (hn : fd < 3 + s.ndirs) (hp : InMem s p n) :
    Call.run os (.fdPrestatDirName fd p n) s =
      if (Py.encodeUtf8 f.wasmName).length ≤ n then .ok 0 (write s p (Py.encodeUtf8 f.wasmName)) else .ok 37 s := by
  obtain ⟨m, hm, -, -⟩ := hp.some
  simp only [Call.run]
  unfold fdPrestatDirName
  rw [gate_open hf, if_neg Bool.false_ne_true, bind_get, if_neg (by omega), bind_ok (mems_run hm), bind_ok (file_open hf)]
  by_cases hle : (Py.encodeUtf8 f.wasmName).length ≤ n
  · rw [if_neg (by omega), if_pos hle, bind_ok (put_run ⟨hp.1, by have := hp.2; omega⟩)]; rfl
  · rw [if_pos (by omega), if_neg hle]; rfl

/-- C50: once the embedder's directories are open, the numbers from 3 on, as many as there are directories, are open and
are these directories under the names the embedder gave (names in normal form), and each directory is among them. -/
theorem wasi_preopens (os : Os) (args : List Str) (dirs envs : List (Str × Str)) (fds : Int × Int × Int)
    (names : Str × Str × Str) (hn : ∀ p ∈ dirs, Py.normpath p.1 = p.1) (s : St)
    (h : init os args dirs envs fds names = (.ok (), s)) :
    s.fd.length = 3 + s.ndirs ∧
    (∀ p ∈ dirs, ∃ fd f, 3 ≤ fd ∧ fd < 3 + (s.ndirs : Int) ∧ openFile s fd = some f ∧ f.wasmType = 3 ∧ f.wasmName = p.1) ∧
    ∀ fd, 3 ≤ fd → fd < 3 + (s.ndirs : Int) →
      ∃ f, openFile s fd = some f ∧ f.wasmType = 3 ∧ ∃ p ∈ dirs, f.wasmName = p.1 := by
  have hc := init_config os args dirs envs fds names
  rw [h] at hc
  have hnd : s.ndirs = (normDirs dirs).length := hc.2.1
  have hk := keys_normDirs dirs
  have hperm : (sortPairs (normDirs dirs)).Perm (normDirs dirs) := List.mergeSort_perm _ _
  have hrun : ∃ new : List File, s.fd = stdio fds names ++ new ∧
      new.map (·.wasmName) = (sortPairs (normDirs dirs)).map (fun p => Py.normpath p.1) ∧
      (∀ f ∈ new, f.wasmOpen = true ∧ f.wasmType = FILETYPE_DIRECTORY) := by
    unfold init at h
    dsimp only at h
    split at h
    · next hr =>
      obtain ⟨new, h1, h2, h3, -⟩ := preopens_ok hr
      injection h with _ h
      subst h
      exact ⟨new, h1, h2, h3⟩
    · injection h with h _
      cases h
  obtain ⟨new, h1, h2, h3⟩ := hrun
  have hlen : new.length = (normDirs dirs).length := by
    have := congrArg List.length h2
    rw [List.length_map, List.length_map, hperm.length_eq] at this
    exact this
  have hstd : (stdio fds names).length = 3 := rfl
  have hname : ∀ k : Str, k ∈ new.map (·.wasmName) ↔ ∃ p ∈ dirs, k = p.1 := by
    intro k
    rw [h2]
    constructor
    · intro hk'
      obtain ⟨q, hq, rfl⟩ := List.mem_map.mp hk'
      obtain ⟨p, hp, e⟩ := (hk q.1).mp (List.mem_map.mpr ⟨q, hperm.mem_iff.mp hq, rfl⟩)
      exact ⟨p, hp, by rw [e, hn p hp, hn p hp]⟩
    · rintro ⟨p, hp, rfl⟩
      obtain ⟨q, hq, e⟩ := List.mem_map.mp ((hk p.1).mpr ⟨p, hp, (hn p hp).symm⟩)
      exact List.mem_map.mpr ⟨q, hperm.mem_iff.mpr hq, by rw [e, hn p hp]⟩
  have hget : ∀ i f, new[i]? = some f → openFile s ((3 + i : Nat) : Int) = some f := by
    intro i f hi
    have hm := List.mem_of_getElem? hi
    refine openFile_of ?_ (h3 f hm).1
    rw [h1, List.getElem?_append_right (by omega), hstd, Nat.add_sub_cancel_left, hi]
  refine ⟨by rw [h1, List.length_append, hstd, hlen, hnd], ?_, ?_⟩
  · intro p hp
    obtain ⟨f, hf, e⟩ := List.mem_map.mp ((hname p.1).mpr ⟨p, hp, rfl⟩)
    obtain ⟨i, hi, e'⟩ := List.mem_iff_getElem.mp hf
    exact ⟨((3 + i : Nat) : Int), f, by omega, by omega, hget i f (by rw [← e']; exact List.getElem?_eq_getElem hi),
      (h3 f hf).2, e⟩
  · intro fd hge hlt
    obtain ⟨i, rfl⟩ : ∃ i : Nat, fd = ((3 + i : Nat) : Int) := ⟨(fd - 3).toNat, by omega⟩
    have hi : i < new.length := by omega
    have hm : new[i] ∈ new := List.getElem_mem hi
    obtain ⟨p, hp, e⟩ := (hname _).mp (List.mem_map.mpr ⟨_, hm, rfl⟩)
    exact ⟨new[i], hget i _ (List.getElem?_eq_getElem hi), (h3 _ hm).2, p, hp, e⟩

example : (demoInit .dir).fd.map (·.wasmName) = [['i'], ['o'], ['e'], ['/']] ∧ (demoInit .dir).ndirs = 1 := by
  decide +kernel
example : Py.normpath ['/', 'b'] = ['/', 'b'] := by decide +kernel

/-- C50 fails: standard input is described as a preopened directory. -/
theorem wasi_prestat_refuted :
    ∃ (os : Os) (s : St), Reach os (init os [] [] [] (0, 1, 2) (['i'], ['o'], ['e'])).2 s ∧
      ∃ s', Call.run os (.fdPrestatGet 0 0) s = .ok 0 s' := by
  refine ⟨demoOs .reg, _, .step (.refl _) (.guest _ (some (zeroMem 64))), ?_⟩
  exact ⟨_, wasi_prestat_get _ _ 0 0 ⟨0, 0, ['i'], true, none, 0, 0, ['i'], 2 ^ 27 + 2, 0, true, 2⟩ (by decide +kernel)
    (by decide +kernel) ⟨by simp, by simp [bytes, zeroMem]⟩ (by decide +kernel)⟩

-- The preopened directory `/` is number 3: tag 0, one byte long, the byte `/` (47).
example : (Spec.range (bytes (after (Call.run (demoOs .reg) (.fdPrestatGet 3 0)) (demoSt .reg))) 0 8,
    Spec.range (bytes (after (Call.run (demoOs .reg) (.fdPrestatDirName 3 8 1)) (demoSt .reg))) 8 1) =
    ([0, 0, 0, 0, 1, 0, 0, 0], [47]) := by decide +kernel

/-! ## C61 -/

/-- A check of `ClosesOpen` that can be evaluated. -/
def checkCloses (l : List Event) : Bool :=
  (List.range l.length).all fun i => match l[i]? with
    | some ⟨.close h, _⟩ => isOpen (l.take i) h
    | _ => true

theorem _root_.Pywasm.WasiSpec.ClosesOpen.check {l : List Event} (h : ClosesOpen l) : checkCloses l = true := by
  unfold checkCloses
  rw [List.all_eq_true]
  intro i hi
  split
  · rename_i x r he
    obtain ⟨hl, hg⟩ := List.getElem?_eq_some_iff.mp he
    refine h (l.take i) x r (l.drop (i + 1)) ?_
    rw [← hg, List.cons_getElem_drop_succ, List.take_append_drop]
  · rfl

/-- C61 fails: `main` closes the host descriptors of the preopened directories but leaves the guest descriptors
open, so a second run of a guest on the same `Preview1` can close the same host descriptor again. -/
theorem wasi_after_main_refuted :
    ∃ (os : Os) (dirs : List (Str × Str)), Fresh os ∧
      ¬ClosesOpen (after (Call.run os (.fdClose 3))
        (after (finish os) (init os [] dirs [] (0, 1, 2) (['i'], ['o'], ['e'])).2)).log := by
  refine ⟨demoOs .reg, [(['/'], ['/', 's'])], demo_fresh _, ?_⟩
  intro h
  exact absurd h.check (by decide +kernel)

/-! ## The hypotheses are met -/

theorem named_open : Call.run (demoOs .reg) (.pathOpen 3 0 0 1 0 2 0 0 8) (memSt .reg [97]) =
    .ok 0 (runs (demoOs .reg) [.pathOpen 3 0 0 1 0 2 0 0 8] (memSt .reg [97])) := of_returns (by decide +kernel)
example := wasi_table_grows (Reach.runs (demoOs .reg) [.pathOpen 3 0 0 1 0 2 0 0 8, .fdClose 4] (memSt .reg [97]))
/-- Descriptor 4 is closed, another is opened, and 4 stays closed. -/
example := wasi_closed_stays_closed (s := runs (demoOs .reg) [.pathOpen 3 0 0 1 0 2 0 0 8, .fdClose 4] (memSt .reg [97]))
  (Reach.runs (demoOs .reg) [.pathOpen 3 0 0 1 0 2 0 0 8] _) 4 (by decide +kernel) (by decide +kernel)
example := wasi_closed_for_ever (s := (memSt .reg [97])) (fd := 3) (s' := runs (demoOs .reg) [.fdClose 3] (memSt .reg [97]))
  (of_returns (by decide +kernel)) (Reach.runs (demoOs .reg) [.fdSeek 0 0 0 0] _) (.fdRead 3 0 1 8) (by decide)
example := wasi_open_number named_open (inMem _ 8 4)
example := wasi_open_distinct named_open (inMem _ 8 4) (Reach.runs (demoOs .reg) [.fdClose 4] _)
  (b0 := 3) (b1 := 0) (b2 := 0) (b3 := 1) (b4 := 0) (b5 := 2) (b6 := 0) (b7 := 0) (b8 := 16) (of_returns (by decide +kernel))
  (inMem _ 16 4)
example := wasi_closed_once (demo_fresh .reg) [['a']] [(['/'], ['/', 's', 'r', 'v'])] [] (0, 1, 2) (['i'], ['o'], ['e'])
  (Reach.runs (demoOs .reg) [.fdClose 3] _)
example := wasi_renumber_partial (s := (memSt .reg [97])) (a := 3) (b := 1) (s' := runs (demoOs .reg) [.fdRenumber 3 1] (memSt .reg [97])) (by decide)
  (of_returns (by decide +kernel))
example := wasi_renumber_succeeds (os := demoOs .reg) (fileAt_eq (memSt .reg [97]) 3) (fileAt_eq (memSt .reg [97]) 1) fun _ => rfl
example := wasi_renumber_self_closes (s := (memSt .reg [97])) (a := 3) (s' := runs (demoOs .reg) [.fdRenumber 3 3] (memSt .reg [97]))
  (of_returns (by decide +kernel))
example := wasi_prestat_others_partial (demoOs .reg) (memSt .reg [97]) 4 8 8 (.inl (by decide +kernel))
example := wasi_prestat_get (demoOs .reg) (memSt .reg [97]) 3 8 _ (fileAt_eq (memSt .reg [97]) 3) (by decide +kernel) (inMem _ 8 8) (by decide +kernel)
example := wasi_prestat_dir_name (demoOs .reg) (memSt .reg [97]) 3 8 1 _ (fileAt_eq (memSt .reg [97]) 3) (by decide +kernel) (inMem _ 8 1)
example := wasi_open_is_live (demo_fresh .reg) [['a'], ['b', 'c']] [(['/'], ['/', 's', 'r', 'v'])] [(['k'], ['v'])] (0, 1, 2) (['i'], ['o'], ['e'])
  (t := runs (demoOs .reg) [.pathOpen 3 0 0 1 0 2 0 0 8] (memSt .reg [97]))
  (memSt_reach .reg [97] _) 3 4
  _ _ (fileAt_eq (runs (demoOs .reg) [.pathOpen 3 0 0 1 0 2 0 0 8] (memSt .reg [97])) 3)
  (fileAt_eq (runs (demoOs .reg) [.pathOpen 3 0 0 1 0 2 0 0 8] (memSt .reg [97])) 4) (by unfold isChar; decide +kernel) (by unfold isChar; decide +kernel)
example := wasi_preopens (demoOs .dir) [] [(['/', 'b'], ['/', 'b'])] [] (0, 1, 2) (['i'], ['o'], ['e'])
  (by decide +kernel) _ (Prod.ext (by decide +kernel) rfl)

end Pywasm.Props
