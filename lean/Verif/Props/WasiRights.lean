import Verif.Lemmas.WasiOpen
import Verif.Lemmas.WasiLive
import Verif.Spec.WasiDemo
import Verif.Spec.Returns
import Verif.Spec.WasiNamed

/-!
# WASI: rights

C40 (rights gate every operation) and C41 (opening cannot amplify rights).
-/

namespace Pywasm.Props
open Wasi WasiSpec

/-! ## C40 -/

/-- C40: a call on a descriptor that lacks the right the call needs (or is not open) returns `BADF` (8), `ISDIR` (31),
`NOTSOCK` (57) or `NOTCAPABLE` (76), and changes nothing at all: not the table, not guest memory, and the host is not
called.

Not covered: `path_open` with `CREAT` (it should need `PATH_CREATE_FILE`) and `fd_pread`/`fd_pwrite` (they should also
need `FD_SEEK`), where the code checks less than the documentation asks (`wasi_create_right_refuted`,
`wasi_pread_right_refuted`). -/
theorem wasi_rights_partial (os : Os) (c : Call) (s : St) (fd : Int) (k : Nat) (h : (fd, k) ∈ needs c)
    (hn : ¬Holds s fd k) : ∃ e ∈ [(8 : Int), 31, 57, 76], c.run os s = .ok e s := by
  by_cases hb : ∃ x ∈ fds c, openFile s x = none
  · exact ⟨8, by simp, bad_fd os c s hb⟩
  have open1 : ∀ x ∈ fds c, ∃ f, openFile s x = some f := by
    intro x hx
    cases ho : openFile s x with
    | none => exact absurd ⟨x, hx, ho⟩ hb
    | some f => exact ⟨f, rfl⟩
  have lack : ∀ f, openFile s fd = some f → has f.base k = false := by
    intro f hf
    cases hh : has f.base k with
    | false => rfl
    | true => exact absurd ⟨f, hf, hh⟩ hn
  -- the three gates
  have perm : ∀ (x : Int) (f : File) (j : Nat) (g : Bool → W Int), openFile s x = some f → has f.base j = false →
      g true = pure ERRNO_NOTCAPABLE → (helpPerm x (2 ^ j) >>= g) s = .ok 76 s := by
    intro x f j g hf hh hg
    rw [gate_perm hf, decide_eq_true ((and_pow_eq_zero _ _).mpr hh), hg]; rfl
  have idir : ∀ (x : Int) (g : Bool → W Int) (f : File), openFile s x = some f → g true = pure ERRNO_ISDIR →
      g false s = .ok 76 s → ∃ e ∈ [(8 : Int), 31, 57, 76], (helpIdir x >>= g) s = .ok e s := by
    intro x g f hf h1 h2
    rw [gate_idir hf]
    by_cases hd : f.wasmType = FILETYPE_DIRECTORY
    · rw [decide_eq_true hd, h1]; exact ⟨31, by simp, rfl⟩
    · rw [decide_eq_false hd, h2]; exact ⟨76, by simp, rfl⟩
  have sock : ∀ (x : Int) (g : Bool → W Int) (f : File), openFile s x = some f → g true = pure ERRNO_NOTSOCK →
      g false s = .ok 76 s → ∃ e ∈ [(8 : Int), 31, 57, 76], (helpSock x >>= g) s = .ok e s := by
    intro x g f hf h1 h2
    rw [gate_sock hf]
    by_cases hd : f.wasmType ≠ FILETYPE_SOCKET_DGRAM ∧ f.wasmType ≠ FILETYPE_SOCKET_STREAM
    · rw [decide_eq_true hd, h1]; exact ⟨57, by simp, rfl⟩
    · rw [decide_eq_false hd, h2]; exact ⟨76, by simp, rfl⟩
  cases c
  case pathLink a _ _ _ b _ _ =>
    obtain ⟨f, hf⟩ := open1 a (by simp [fds])
    obtain ⟨g, hg⟩ := open1 b (by simp [fds])
    simp only [Call.run]
    unfold pathLink
    rw [gate_open hf, if_neg Bool.false_ne_true, gate_open hg, if_neg Bool.false_ne_true]
    simp only [needs, List.mem_cons, List.not_mem_nil, or_false, Prod.mk.injEq] at h
    rcases h with ⟨rfl, rfl⟩ | ⟨rfl, rfl⟩
    · exact ⟨76, by simp, perm _ f 11 _ hf (lack f hf) rfl⟩
    · rw [gate_perm hf]
      split
      · exact ⟨76, by simp, rfl⟩
      · exact ⟨76, by simp, perm _ g 12 _ hg (lack g hg) rfl⟩
  case pathRename a _ _ b _ _ =>
    obtain ⟨f, hf⟩ := open1 a (by simp [fds])
    obtain ⟨g, hg⟩ := open1 b (by simp [fds])
    simp only [Call.run]
    unfold pathRename
    rw [gate_open hf, if_neg Bool.false_ne_true, gate_open hg, if_neg Bool.false_ne_true]
    simp only [needs, List.mem_cons, List.not_mem_nil, or_false, Prod.mk.injEq] at h
    rcases h with ⟨rfl, rfl⟩ | ⟨rfl, rfl⟩
    · exact ⟨76, by simp, perm _ f 16 _ hf (lack f hf) rfl⟩
    · rw [gate_perm hf]
      split
      · exact ⟨76, by simp, rfl⟩
      · exact ⟨76, by simp, perm _ g 17 _ hg (lack g hg) rfl⟩
  all_goals simp only [needs, List.mem_cons, List.not_mem_nil, or_false, Prod.mk.injEq] at h
  all_goals
    obtain ⟨rfl, rfl⟩ := h
    obtain ⟨f, hf⟩ := open1 fd (by simp [fds])
    have hl := lack f hf
    simp only [Call.run]
    first
      | unfold Wasi.fdAdvise | unfold Wasi.fdAllocate | unfold Wasi.fdDatasync | unfold Wasi.fdFdstatSetFlags
      | unfold Wasi.fdFilestatGet | unfold Wasi.fdFilestatSetSize | unfold Wasi.fdFilestatSetTimes | unfold Wasi.fdPread
      | unfold Wasi.fdPwrite | unfold Wasi.fdRead | unfold Wasi.fdReaddir | unfold Wasi.fdSeek | unfold Wasi.fdSync
      | unfold Wasi.fdTell | unfold Wasi.fdWrite | unfold Wasi.pathCreateDirectory | unfold Wasi.pathFilestatGet
      | unfold Wasi.pathFilestatSetTimes | unfold Wasi.pathOpen | unfold Wasi.pathReadlink
      | unfold Wasi.pathRemoveDirectory | unfold Wasi.pathSymlink | unfold Wasi.pathUnlinkFile | unfold Wasi.sockAccept
      | unfold Wasi.sockRecv | unfold Wasi.sockSend | unfold Wasi.sockShutdown
    rw [gate_open hf, if_neg Bool.false_ne_true]
    first
      | exact ⟨76, by simp, perm _ f _ _ hf hl rfl⟩
      | exact idir _ _ f hf rfl (perm _ f _ _ hf hl rfl)
      | exact sock _ _ f hf rfl (perm _ f _ _ hf hl rfl)

-- Standard output has no FD_READ, standard input no FD_WRITE: NOTCAPABLE.
example : ¬Holds (demoSt .reg) 1 1 ∧ (1, 1) ∈ needs (.fdRead 1 0 1 8) := by
  refine ⟨?_, by decide⟩
  rintro ⟨f, hf, hh⟩
  rw [show openFile (demoSt .reg) 1 = some ⟨1, 0, ['o'], true, none, 1, 0, ['o'], 2 ^ 27 + 2 ^ 6, 0, true, 2⟩ by decide +kernel] at hf
  obtain rfl := Option.some.inj hf
  exact absurd hh (by decide +kernel)
example : (results (demoOs .reg) [.fdRead 1 0 1 8, .fdWrite 0 0 1 8, .pathUnlinkFile 1 0 1, .fdSeek 1 0 0 0] (demoSt .reg)).1 =
    [some 76, some 76, some 76, some 76] := by decide +kernel

theorem bit_pow (a : Int) (k : Nat) : bit a (2 ^ k) = has a k := by
  unfold bit
  cases h : has a k with
  | false => simp [(and_pow_eq_zero a k).mpr h]
  | true =>
    have : ¬Py.and a (2 ^ k) = 0 := fun e => by rw [(and_pow_eq_zero a k).mp e] at h; cases h
    simp [this]

/-- C40: `path_open` with `TRUNC` (bit 3 of the open flags) on a directory without `PATH_FILESTAT_SET_SIZE` (bit 19)
does not succeed and changes nothing. -/
theorem wasi_trunc_right (os : Os) (s : St) (a0 a1 a2 a3 a4 a5 a6 a7 a8 : Int) (ht : has a4 3 = true)
    (hn : ¬Holds s a0 19) :
    after (Call.run os (.pathOpen a0 a1 a2 a3 a4 a5 a6 a7 a8)) s = s ∧
      ∀ s', Call.run os (.pathOpen a0 a1 a2 a3 a4 a5 a6 a7 a8) s ≠ .ok 0 s' := by
  constructor
  · cases h : openFile s a0 with
    | none => exact after_bad ⟨a0, by simp [fds], h⟩
    | some f =>
      have hb : has f.base 19 = false := by
        cases hh : has f.base 19 with
        | false => rfl
        | true => exact absurd ⟨f, h, hh⟩ hn
      simp only [Call.run]
      unfold pathOpen
      rw [after_gate h, if_neg Bool.false_ne_true, after_ok (helpPerm_run h _)]
      split
      · rfl
      · cases hm : s.mem with
        | none => 
          rw [after_err (s' := s) (e := .index)]
          unfold mems; simp only [hm]
        | some m =>
          rw [after_ok (mems_run hm), after_ok (file_open h)]
          cases hg : getName a2 a3 s with
          | error e t =>
            rw [after_err hg]
            have := (getName_read a2 a3).run s
            unfold after at this; rw [hg] at this; exact this
          | ok name t =>
            obtain rfl := getName_state hg
            rw [after_ok hg]
            simp only
            split
            · rfl
            · split
              · rfl
              · rw [if_pos]
                · rfl
                · rw [show OFLAGS_TRUNC = 2 ^ 3 from rfl, bit_pow, ht,
                    decide_eq_true (show Py.and f.base RIGHTS_PATH_FILESTAT_SET_SIZE = 0 from (and_pow_eq_zero _ 19).mpr hb)]
                  rfl
  · intro s' h
    obtain ⟨o⟩ := pathOpen_ok h
    have := o.trunc
    rw [show OFLAGS_TRUNC = 2 ^ 3 from rfl, bit_pow, ht] at this
    simp only [Bool.true_and, decide_eq_false_iff_not] at this
    refine hn ⟨o.dir, o.open0, ?_⟩
    cases hh : has o.dir.base 19 with
    | true => rfl
    | false => exact absurd ((and_pow_eq_zero _ 19).mpr hh) this

/-- C40: `fd_fdstat_set_rights` on an open descriptor sets both sets of rights if they are subsets of the present ones
and otherwise returns `NOTCAPABLE` and changes nothing. -/
theorem wasi_set_rights (os : Os) (s : St) (n : Nat) (f : File) (b r : Int) (h : openFile s n = some f) :
    ((∀ k, has b k = true → has f.base k = true) ∧ (∀ k, has r k = true → has f.root k = true) →
      Call.run os (.fdFdstatSetRights n b r) s = .ok 0 { s with fd := s.fd.set n { f with base := b, root := r } }) ∧
    (¬((∀ k, has b k = true → has f.base k = true) ∧ (∀ k, has r k = true → has f.root k = true)) →
      Call.run os (.fdFdstatSetRights n b r) s = .ok 76 s) := by
  have e1 := and_eq_right f.base b
  have e2 := and_eq_right f.root r
  obtain ⟨m, hm, hn, ho⟩ := openFile_nat h
  obtain rfl : n = m := by omega
  have hl : n < s.fd.length := (List.getElem?_eq_some_iff.mp hn).1
  simp only [Call.run]
  unfold fdFdstatSetRights
  rw [gate_open h, if_neg Bool.false_ne_true, bind_ok (file_open h), ← e1, ← e2]
  constructor
  · rintro ⟨h1, h2⟩
    rw [if_neg (by simpa using h1), if_neg (by simpa using h2), bind_ok (setFile_nat _ hl)]; rfl
  · intro hh
    by_cases h1 : Py.and f.base b = b
    · rw [if_neg (by simpa using h1), if_pos (fun h2 => hh ⟨h1, h2⟩)]; rfl
    · rw [if_pos h1]; rfl

/-- C40: no call gives a descriptor more rights than it had; the one exception is `fd_renumber` onto that descriptor,
which gives it another file's (`wasi_renumber_partial`). -/
theorem wasi_rights_never_grow (os : Os) (c : Call) (s : St) (fd : Int) (f f' : File) (h : openFile s fd = some f)
    (h' : openFile (after (c.run os) s) fd = some f') (hc : ∀ a, c ≠ .fdRenumber a fd) (k : Nat) :
    (has f'.base k = true → has f.base k = true) ∧ (has f'.root k = true → has f.root k = true) := by
  obtain ⟨n, rfl, hn, ho⟩ := openFile_nat h
  obtain ⟨n', hnn, hn', ho'⟩ := openFile_nat h'
  obtain rfl : n = n' := by omega
  have hch := change_call os c s
  generalize after (c.run os) s = t at hch hn' h'
  have same : s.fd[n]? = some f' → (has f'.base k = true → has f.base k = true) ∧
      (has f'.root k = true → has f.root k = true) := by
    intro e
    rw [hn] at e
    obtain rfl := Option.some.inj e
    exact ⟨id, id⟩
  cases hch with
  | quiet q => rw [q.fd] at hn'; exact same hn'
  | edit m g g' hm hmo hf hr hq =>
    rw [hq.fd] at hn'
    rcases get_set_cases hn' with ⟨rfl, rfl⟩ | ⟨-, hx⟩
    · rw [hn] at hm; obtain rfl := Option.some.inj hm
      exact hr k
    · exact same hx
  | drop m g hm hmo ht =>
    rcases get_set_cases hn' with ⟨rfl, rfl⟩ | ⟨-, hx⟩
    · exact absurd ho' (by simp [File.shut])
    · exact same hx
  | dropErr m g e hm hmo ht => exact same hn'
  | dropChr m g hm hmo ht =>
    rcases get_set_cases hn' with ⟨rfl, rfl⟩ | ⟨-, hx⟩
    · exact absurd ho' (by simp)
    · exact same hx
  | move m m' g g' hc' =>
    rcases get_set_cases hn' with ⟨rfl, rfl⟩ | ⟨-, hx⟩
    · exact absurd ho' (by simp [File.shut])
    · rcases get_set_cases hx with ⟨rfl, rfl⟩ | ⟨-, hx⟩
      · exact absurd hc' (hc _)
      · exact same hx
  | moveChr m m' g g' hc' =>
    rcases get_set_cases hn' with ⟨rfl, rfl⟩ | ⟨-, hx⟩
    · exact absurd ho' (by simp [File.shut])
    · rcases get_set_cases hx with ⟨rfl, rfl⟩ | ⟨-, hx⟩
      · exact absurd hc' (hc _)
      · exact same hx
  | openErr => exact same hn'
  | openLeak name fl mo d x hx hq _ => rw [hq.fd] at hn'; exact same hn'
  | opened name fl mo d x new hx hq hh ho1 hw hp hnn' ht hd hq' =>
    rw [hq'.fd] at hn'
    rcases get_snoc_cases hn' with ⟨h1, rfl⟩ | ⟨-, hx⟩
    · rw [hq.fd] at h1
      have := (List.getElem?_eq_some_iff.mp hn).1
      exact absurd h1 (by show ¬n = s.fd.length; omega)
    · rw [hq.fd] at hx; exact same hx

-- Dropping every inheriting right and `PATH_CREATE_FILE` succeeds, asking for one of them again does not.
example : (results (demoOs .reg) [.fdFdstatSetRights 3 (2 ^ 13 + 2 ^ 9) 0, .fdFdstatSetRights 3 (2 ^ 13 + 2 ^ 10) 0,
    .pathOpen 3 0 0 0 8 2 0 0 16] (demoSt .reg)).1 = [some 0, some 76, some 63] := by decide +kernel

/-- C40: `poll_oneoff` with a read or write subscription (event type 1 or 2 at offset 8 of a 48-byte record, descriptor
at offset 16) on a descriptor without `POLL_FD_READWRITE` (bit 27), or not open, does not succeed: it returns `BADF` or
`NOTCAPABLE`, or raises because a clock of the host did.  The table and guest memory are unchanged, and the only calls
of the host are reads of clocks. -/
theorem wasi_poll_right (os : Os) (s : St) (p n i : Nat) (a1 a3 : Int) (hi : i < n) (hm : InMem s p (48 * n))
    (ht : numAt s (p + 48 * i + 8) 1 = 1 ∨ numAt s (p + 48 * i + 8) 1 = 2)
    (hn : ¬Holds s (numAt s (p + 48 * i + 16) 4) 27) :
    (∀ r s', Call.run os (.pollOneoff p a1 n a3) s = .ok r s' → r = 8 ∨ r = 76) ∧
      ∃ t : List Event, (∀ e ∈ t, ∃ c, e.call = .time c) ∧
        after (Call.run os (.pollOneoff p a1 n a3)) s = { s with log := s.log ++ t } := by
  simp only [Call.run]
  unfold pollOneoff
  obtain ⟨m, hm', -, -⟩ := hm.some
  have key := readSubs_lack os i n p s hi hm ht hn
  rcases key with ⟨e, s', he, hr, ht⟩ | ⟨e, s', hr, ht⟩
  · rw [bind_ok (mems_run hm'), after_ok (mems_run hm'), Int.toNat_natCast, bind_ok hr, after_ok hr]
    refine ⟨?_, ht⟩
    rintro r s'' ⟨⟩
    exact he
  · rw [bind_ok (mems_run hm'), after_ok (mems_run hm'), Int.toNat_natCast, bind_err hr, after_err hr]
    exact ⟨fun r s'' h => (by cases h), ht⟩

-- Standard input may be polled for reading until the right is dropped.
example : (results (demoOs .reg) [.pollOneoff 0 64 1 128, .fdFdstatSetRights 0 2 0, .pollOneoff 0 64 1 128]
    (write (demoSt .reg) 8 [1])).1 = [some 0, some 0, some 76] := by decide +kernel
example : numAt (write (demoSt .reg) 8 [1]) (0 + 48 * 0 + 8) 1 = 1 := by decide +kernel

/-- C40 fails for `CREAT`: there is a reachable state in which the directory lacks `PATH_CREATE_FILE` (bit 10) and
`path_open` with `CREAT` (bit 0 of the open flags) succeeds, having called the host's `open` with `O_CREAT`. -/
theorem wasi_create_right_refuted :
    ∃ (os : Os) (s0 s : St), s0 = (init os [['a'], ['b', 'c']] [(['/'], ['/', 's', 'r', 'v'])] [(['k'], ['v'])]
        (0, 1, 2) (['i'], ['o'], ['e'])).2 ∧ Reach os s0 s ∧ (∃ f, openFile s 3 = some f ∧ has f.base 10 = false) ∧
      ∃ s', Call.run os (.pathOpen 3 0 0 0 1 2 0 0 16) s = .ok 0 s' ∧
        ∃ name h r, (⟨.open name (Py.or os.c.oNofollow os.c.oCreat) 0o644 (some h), .ok r⟩ : Event) ∈ s'.log := by
  refine ⟨demoOs .reg, _, runs (demoOs .reg) [.fdFdstatSetRights 3 (2 ^ 13) 0] (demoSt .reg), rfl,
    demo_reach .reg _, ?_, ?_⟩
  · exact ⟨⟨3, 0o200000, ['/', 's', 'r', 'v'], true, none, 3, 0, ['/'], 2 ^ 13, 0, true, 3⟩, by decide +kernel, by decide +kernel⟩
  · have hs := of_returns (os := demoOs .reg) (c := .pathOpen 3 0 0 0 1 2 0 0 16)
      (s := runs (demoOs .reg) [.fdFdstatSetRights 3 (2 ^ 13) 0] (demoSt .reg)) (e := 0) (by decide +kernel)
    have hlen : (bytes (runs (demoOs .reg) [.fdFdstatSetRights 3 (2 ^ 13) 0] (demoSt .reg))).length = 256 := by
      decide +kernel
    have hsome : (runs (demoOs .reg) [.fdFdstatSetRights 3 (2 ^ 13) 0] (demoSt .reg)).mem.isSome = true := by
      decide +kernel
    revert hs hlen hsome
    generalize runs (demoOs .reg) [.fdFdstatSetRights 3 (2 ^ 13) 0] (demoSt .reg) = s
    intro hs hlen hsome
    refine ⟨_, hs, ?_⟩
    obtain ⟨o⟩ := pathOpen_ok hs
    obtain ⟨-, -, hw⟩ := putU_inv (p := 16) ⟨(by rw [o.mem]; intro h; rw [h] at hsome; cases hsome), (by
      unfold bytes at hlen ⊢; rw [o.mem, hlen]; decide)⟩ o.store
    refine ⟨o.name, o.dir.hostFd, o.host, ?_⟩
    rw [(congrArg St.log hw).trans o.log]
    simp [show openFlags (demoOs .reg).c 0 1 2 0 = Py.or (demoOs .reg).c.oNofollow (demoOs .reg).c.oCreat by decide +kernel]

/-- C40 fails for `fd_pread`: it succeeds on a descriptor without `FD_SEEK` (bit 2). -/
theorem wasi_pread_right_refuted :
    ∃ (os : Os) (s0 s : St), s0 = (init os [['a'], ['b', 'c']] [(['/'], ['/', 's', 'r', 'v'])] [(['k'], ['v'])]
        (0, 1, 2) (['i'], ['o'], ['e'])).2 ∧ Reach os s0 s ∧ (∃ f, openFile s 4 = some f ∧ has f.base 2 = false) ∧
      ∃ s', Call.run os (.fdPread 4 0 1 0 16) s = .ok 0 s' := by
  refine ⟨demoOs .reg, _, runs (demoOs .reg) [.pathOpen 3 0 0 0 0 2 0 0 16] (demoSt .reg), rfl,
    demo_reach .reg _, ?_, ?_⟩
  · exact ⟨⟨4, 0o400000, ['/', 's', 'r', 'v'], true, none, 4, 0, ['/'], 2, 0, true, 4⟩, by decide +kernel, by decide +kernel⟩
  · exact ⟨_, of_returns (by decide +kernel)⟩

/-! ## C41 -/

/-- C41, in part: the descriptor `path_open` returns has at most the rights that were asked for (`a5`, `a6`), without
`FD_SEEK` (bit 2) when the host says it is a directory and without the path rights when it says it is a regular file.
The full description: exactly one entry is added to the table, at the end; its number is stored at the result pointer;
the host was asked to open exactly the name in guest memory, relative to the directory behind the descriptor.

Missing: the rights are not cut down to the inheriting rights of the directory (`wasi_open_amplifies_refuted`). -/
theorem wasi_open_rights_partial (os : Os) (s s' : St) (a0 a1 a2 a3 a4 a5 a6 a7 : Int) (p : Nat) (hp : InMem s p 4)
    (h : Call.run os (.pathOpen a0 a1 a2 a3 a4 a5 a6 a7 p) s = .ok 0 s') :
    ∃ (dir new : File) (name : Str) (flags host : Int) (isd isf : Bool) (info : Stat),
      openFile s a0 = some dir ∧ s'.fd = s.fd ++ [new] ∧ new.wasmOpen = true ∧ new.hostFd = host ∧
      numAt s' p 4 = s.fd.length ∧
      (∀ k, has new.base k = (has a5 k && !(isd && decide (k = 2)) &&
        !(isf && decide (k ∈ [9, 10, 11, 12, 13, 15, 16, 17, 18, 19, 20, 24, 25, 26])))) ∧
      (∀ k, has new.root k = (has a6 k && !(isd && decide (k = 2)) &&
        !(isf && decide (k ∈ [9, 10, 11, 12, 13, 15, 16, 17, 18, 19, 20, 24, 25, 26])))) ∧
      s'.log = s.log ++ [⟨.open name flags 0o644 (some dir.hostFd), .ok host⟩,
        ⟨.isdir host, .ok isd⟩, ⟨.isfile host, .ok isf⟩, ⟨.stat host, .ok info⟩] := by
  obtain ⟨o⟩ := pathOpen_ok h
  have hbits : ∀ k, has pathRights k = decide (k ∈ [9, 10, 11, 12, 13, 15, 16, 17, 18, 19, 20, 24, 25, 26]) := by
    intro k
    by_cases hk : k < 27
    · have : ∀ k : Fin 27, has pathRights k = decide ((k : Nat) ∈ [9, 10, 11, 12, 13, 15, 16, 17, 18, 19, 20, 24, 25, 26]) := by
        decide +kernel
      exact this ⟨k, hk⟩
    · rw [decide_eq_false (by simp; omega)]
      unfold has
      rw [decide_eq_false]
      have : pathRights / 2 ^ k = 0 := by
        refine Int.ediv_eq_zero_of_lt (by decide) ?_
        refine Int.lt_of_lt_of_le (b := 2 ^ 27) (by decide) ?_
        exact_mod_cast Nat.pow_le_pow_right (by decide : 0 < 2) (by omega : 27 ≤ k)
      rw [this]; decide
  have hg : ∀ (w : Int) (isd isf : Bool) (k : Nat), has (granted w isd isf) k = (has w k && !(isd && decide (k = 2)) &&
        !(isf && decide (k ∈ [9, 10, 11, 12, 13, 15, 16, 17, 18, 19, 20, 24, 25, 26]))) := by
    intro w isd isf k
    unfold granted
    rw [has_and, has_and, has_inv, has_inv]
    congr 2
    · cases isd
      · simp [has_zero]
      · simp only [if_true, Bool.true_and]
        rw [show RIGHTS_FD_SEEK = 2 ^ 2 from rfl, has_pow]
        congr 1
        exact decide_eq_decide.mpr eq_comm
    · cases isf
      · simp [has_zero]
      · simp only [if_true, Bool.true_and, hbits]
  have hmm : InMem o.mid p 4 := by
    obtain ⟨h1, h2⟩ := hp
    refine ⟨by rw [o.mem]; exact h1, ?_⟩
    unfold bytes at h2 ⊢
    rw [o.mem]; exact h2
  obtain ⟨hv0, hv, hs⟩ := putU_inv hmm o.store
  obtain ⟨new, hfd, h1, h2, h3, h4⟩ : ∃ new : File, o.mid.fd = s.fd ++ [new] ∧ new.wasmOpen = true ∧
      new.hostFd = o.host ∧ new.base = granted a5 o.isd o.isf ∧ new.root = granted a6 o.isd o.isf :=
    ⟨_, o.fd, rfl, rfl, rfl, rfl⟩
  refine ⟨o.dir, new, o.name, openFlags os.c a1 a4 a5 a7, o.host, o.isd, o.isf, o.info, o.open0, ?_, h1, h2, ?_, ?_, ?_, ?_⟩
  · exact (congrArg St.fd hs).trans hfd
  · rw [hs, numAt_write_self hmm (by exact_mod_cast hv)]; rfl
  · intro k; rw [h3]; exact hg a5 o.isd o.isf k
  · intro k; rw [h4]; exact hg a6 o.isd o.isf k
  · exact (congrArg St.log hs).trans o.log

/-- C41 fails: there is a reachable state in which a directory has no inheriting rights at all, and a descriptor opened
through it nevertheless has `FD_READ` (bit 1) and `FD_WRITE` (bit 6). -/
theorem wasi_open_amplifies_refuted :
    ∃ (os : Os) (s0 s : St), s0 = (init os [['a'], ['b', 'c']] [(['/'], ['/', 's', 'r', 'v'])] [(['k'], ['v'])]
        (0, 1, 2) (['i'], ['o'], ['e'])).2 ∧ Reach os s0 s ∧ (∃ f, openFile s 3 = some f ∧ f.root = 0) ∧
      ∃ s' g, Call.run os (.pathOpen 3 0 0 0 0 (2 ^ 1 + 2 ^ 6) 0 0 16) s = .ok 0 s' ∧ openFile s' 4 = some g ∧
        has g.base 1 = true ∧ has g.base 6 = true := by
  refine ⟨demoOs .reg, _, runs (demoOs .reg) [.fdFdstatSetRights 3 (2 ^ 13) 0] (demoSt .reg), rfl,
    demo_reach .reg _, ?_, _, ⟨4, 0o400002, ['/', 's', 'r', 'v'], true, none, 4, 0, ['/'], 2 ^ 1 + 2 ^ 6, 0, true, 4⟩,
    of_returns (by decide +kernel), by decide +kernel, by decide +kernel, by decide +kernel⟩
  exact ⟨⟨3, 0o200000, ['/', 's', 'r', 'v'], true, none, 3, 0, ['/'], 2 ^ 13, 0, true, 3⟩, by decide +kernel, by decide +kernel⟩

/-! ## The hypotheses are met -/

example := wasi_rights_partial (demoOs .reg) (.fdRead 1 0 1 8) (demoSt .reg) 1 1 (by decide) (lacks _ _ _)
/-- Standard output has no right to truncate files. -/
example := wasi_trunc_right (demoOs .reg) (demoSt .reg) 1 0 0 1 8 2 0 0 16 (by decide +kernel) (lacks _ _ _)
example := wasi_set_rights (demoOs .reg) (demoSt .reg) 3 _ (2 ^ 13) 0 (fileAt_eq (demoSt .reg) 3)
example := wasi_rights_never_grow (demoOs .reg) (.fdFdstatSetRights 3 (2 ^ 13) 0) (demoSt .reg) 3 _ _ (fileAt_eq (demoSt .reg) 3)
  (fileAt_eq (after (Call.run (demoOs .reg) (.fdFdstatSetRights 3 (2 ^ 13) 0)) (demoSt .reg)) 3) (by intro a h; cases h)
example := wasi_poll_right (demoOs .reg) (runs (demoOs .reg) [.fdFdstatSetRights 0 2 0] (memSt .reg [0, 0, 0, 0, 0, 0, 0, 0, 1])) 0 1 0 64 128
  (by decide) (inMem _ _ _) (.inl (by decide +kernel)) (lacks _ _ _)
example := wasi_open_rights_partial (demoOs .reg) (memSt .reg [97]) _ 3 0 0 1 0 2 0 0 8 (inMem _ 8 4) (of_returns (by decide +kernel))

end Pywasm.Props
