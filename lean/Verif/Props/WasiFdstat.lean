import Verif.Props.WasiIo
import Verif.Lemmas.WasiOpen
import Verif.Lemmas.WasiLive
import Verif.Spec.Returns
import Verif.Spec.WasiNamed

/-!
# WASI: offsets, times and flags of descriptors

C46 (a failing fd_seek leaves the offset alone), C54 (fd_filestat_set_times and fd_fdstat_set_flags honour their flags)
and C63 (fd_fdstat_get reports what the descriptor is).
-/

namespace Pywasm.Props
open Wasi WasiSpec

/-! ## C46 -/

/-- `fd_seek` on a file: the host is asked for the position `whence` names, then to move; the new offset is stored at
`r` and nothing else changes. -/
theorem wasi_seek_moves (os : Os) (s : St) (fd : Int) (f : File) (hf : openFile s fd = some f) (ht : f.wasmType ≠ 3)
    (hr : has f.base 2 = true) (off wh b : Int) (k r : Nat) (hm : InMem s r 8) (hk : k < 2 ^ 64)
    (h1 : os.run s.log (.lseek f.hostFd 0 wh) = .ok b) (hb : 0 ≤ b + off)
    (h2 : os.run (s.log ++ [⟨.lseek f.hostFd 0 wh, .ok b⟩]) (.lseek f.hostFd off wh) = .ok (k : Int)) :
    (Call.fdSeek fd off wh r).run os s = .ok 0 (write { s with log :=
      s.log ++ [⟨.lseek f.hostFd 0 wh, .ok b⟩] ++ [⟨.lseek f.hostFd off wh, .ok (k : Int)⟩] } r (Spec.bytesLE 8 k)) := by
  obtain ⟨m, hm', -⟩ := hm.some
  show fdSeek os fd off wh r s = _
  unfold fdSeek
  rw [show RIGHTS_FD_SEEK = 2 ^ 2 from rfl, gate_io hf ht hr, bind_ok (mems_run hm'), bind_ok (file_open hf),
    bind_ok (sys_ok h1), if_neg (by omega), bind_ok (sys_ok (s := s.event _ _) h2),
    bind_ok (putU_run (s := (s.event _ _).event _ _) hm hk)]
  rfl

/-- C46, what the code does instead: if the position that `off` and `whence` name lies before the start of the file, `fd_seek` returns
`INVAL`, nothing is written for the guest, and the host has been asked for one thing only, `lseek(fd, 0, whence)`.  That call
moves the offset unless `whence` is `CUR`: to the start for `SET`, to the end for `END`. -/
theorem wasi_seek_before_start (os : Os) (s : St) (fd : Int) (f : File) (hf : openFile s fd = some f) (ht : f.wasmType ≠ 3)
    (hr : has f.base 2 = true) (hs : s.mem.isSome) (off wh b r : Int) (h1 : os.run s.log (.lseek f.hostFd 0 wh) = .ok b)
    (hb : b + off < 0) :
    (Call.fdSeek fd off wh r).run os s = .ok 28 { s with log := s.log ++ [⟨.lseek f.hostFd 0 wh, .ok b⟩] } := by
  obtain ⟨m, hm⟩ := Option.isSome_iff_exists.1 hs
  show fdSeek os fd off wh r s = _
  unfold fdSeek
  rw [show RIGHTS_FD_SEEK = 2 ^ 2 from rfl, gate_io hf ht hr, bind_ok (mems_run hm), bind_ok (file_open hf),
    bind_ok (sys_ok h1), if_pos hb]
  rfl

/-- C46, in part: `fd_seek` returns an error.  Then the guest sees no change, and if `whence` is `CUR` (1) or the error is
not `INVAL` (28), the file's offset is what it was.  `pos` is any account of the offset of a host file in terms of the
host's history in which asking for the current position moves nothing.

What is missing, and false: `whence` `SET` or `END` and the error `INVAL` (`wasi_seek_refuted`). -/
theorem wasi_seek_partial (os : Os) (s s' : St) (fd off wh r e : Int) (he : e ≠ 0)
    (h : (Call.fdSeek fd off wh r).run os s = .ok e s') (pos : List Event → Int → Int)
    (hpos : ∀ l x y, pos (l ++ [⟨.lseek x 0 1, os.run l (.lseek x 0 1)⟩]) y = pos l y) :
    s' = { s with log := s'.log } ∧ (wh = 1 ∨ e ≠ 28 → ∀ x, pos s'.log x = pos s.log x) := by
  have triv : ∀ {e' : Int} {t : St}, (pure e' : W Int) s = .ok e t →
      t = { s with log := t.log } ∧ (wh = 1 ∨ e ≠ 28 → ∀ x, pos t.log x = pos s.log x) := by
    intro e' t ht
    injection ht with _ ht
    subst ht
    exact ⟨rfl, fun _ _ => rfl⟩
  replace h : fdSeek os fd off wh r s = .ok e s' := h
  unfold fdSeek at h
  rw [bind_ok (helpBadf_run s fd)] at h
  cases hf : openFile s fd with
  | none => rw [hf] at h; exact triv h
  | some f =>
    rw [hf, if_neg (by simp), gate_idir hf] at h
    split at h
    · exact triv h
    rw [gate_perm hf] at h
    split at h
    · exact triv h
    obtain ⟨m, t, hm, h4⟩ := bind_inv h
    clear h
    obtain ⟨rfl, -⟩ := mems_state hm
    rw [bind_ok (file_open hf)] at h4
    obtain ⟨b, t', h1, h⟩ := bind_inv h4
    clear h4
    obtain ⟨hb, rfl⟩ := sys_inv h1
    split at h
    · injection h with h h'
      subst h'
      subst h
      refine ⟨rfl, ?_⟩
      rintro (rfl | h28)
      · intro x
        have := hpos t.log f.hostFd x
        rw [hb] at this
        exact this
      · exact absurd rfl h28
    · obtain ⟨o, t, h2, h⟩ := bind_inv h
      obtain ⟨_, t, h3, h⟩ := bind_inv h
      injection h with h _
      exact absurd h.symm he

/-- The offset of a host file, by the host's history of `lseek` (for the host below, whose files nobody reads). -/
def lastSeek (l : List Event) (h : Int) : Int :=
  l.foldl (fun o e => match e with | ⟨.lseek x .., .ok y⟩ => if x = h then y else o | _ => o) 0

/-- A host whose files are 100 bytes long, with a POSIX `lseek`. -/
def seekOs : Os where
  plat := .linux
  c := linux
  run l x :=
    match x with
    | .lseek h o w =>
      let b := if w = 0 then 0 else if w = 1 then lastSeek l h else 100
      if b + o < 0 then .error (.os 22) else .ok (b + o)
    | x => (demoOs .reg).run l x

/-- Descriptor 4 is a file with the rights to seek and tell, whose offset was set to 10. -/
def seekSt : St :=
  runs seekOs [.pathOpen 3 0 0 1 0 36 36 0 100, .fdSeek 4 10 0 120] (write (demoSt .dir) 0 [120])

/-- What `fd_tell` reports. -/
def tells (os : Os) (s : St) (fd : Int) : Nat := numAt (after ((Call.fdTell fd 128).run os) s) 128 8

/-- C46 fails: with the offset 10, `fd_seek` by -5 from the start returns `INVAL` and leaves the offset at 0; by -200 from
the end it returns `INVAL` and leaves the offset at the end.  wasi.py:913-917 moves the offset to look at it. -/
theorem wasi_seek_refuted :
    tells seekOs seekSt 4 = 10 ∧ returns seekOs (.fdSeek 4 (-5) 0 120) seekSt 28 = true ∧
      tells seekOs (after ((Call.fdSeek 4 (-5) 0 120).run seekOs) seekSt) 4 = 0 ∧
      returns seekOs (.fdSeek 4 (-200) 2 120) seekSt 28 = true ∧
      tells seekOs (after ((Call.fdSeek 4 (-200) 2 120).run seekOs) seekSt) 4 = 100 := by
  refine ⟨?_, ?_, ?_, ?_, ?_⟩ <;> decide +kernel

-- For this host a failing relative seek leaves the offset alone, and a good one moves it.
example : ∀ l x y, lastSeek (l ++ [⟨.lseek x 0 1, seekOs.run l (.lseek x 0 1)⟩]) y = lastSeek l y := by
  intro l x y
  have h : seekOs.run l (.lseek x 0 1) = if lastSeek l x + 0 < 0 then .error (.os 22) else .ok (lastSeek l x + 0) := rfl
  rw [h]
  unfold lastSeek
  rw [List.foldl_append]
  split
  · rfl
  · show (if x = y then _ else _) = _
    split
    · next hxy => subst hxy; exact Int.add_zero _
    · rfl
example : returns seekOs (.fdSeek 4 (-11) 1 120) seekSt 28 = true ∧
    tells seekOs (after ((Call.fdSeek 4 (-11) 1 120).run seekOs) seekSt) 4 = 10 := by
  refine ⟨?_, ?_⟩ <;> decide +kernel
example : (match openFile seekSt 4 with
    | some f => decide (f.wasmType ≠ 3) && has f.base 2 && seekSt.mem.isSome &&
        (match seekOs.run seekSt.log (.lseek f.hostFd 0 2) with | .ok (b : Int) => decide (b = 100 ∧ b + -200 < 0) | .error _ => false)
    | none => false) = true := by decide +kernel
example : returns seekOs (.fdSeek 4 (-9) 1 120) seekSt 0 = true ∧
    tells seekOs (after ((Call.fdSeek 4 (-9) 1 120).run seekOs) seekSt) 4 = 1 := by
  refine ⟨?_, ?_⟩ <;> decide +kernel

/-! ## C54 -/

/-- The access time that the flags ask for. -/
def newAtime (fl given now old : Int) : Int := if has fl 1 then now else if has fl 0 then given else old
/-- The modification time that the flags ask for. -/
def newMtime (fl given now old : Int) : Int := if has fl 3 then now else if has fl 2 then given else old

/-- C54, the times: `fd_filestat_set_times` without the flag `MTIM_NOW` (8) sets the times the flags ask for: the given
time, the current time (access time), or the time the file had.  The host is asked for the times the file has, for the
current time if the flag `ATIM_NOW` (2) is given, and told the new times.

What is missing, and false: the flag `MTIM_NOW` (`wasi_mtime_now_refuted`). -/
theorem wasi_set_times_partial (os : Os) (s : St) (fd : Int) (f : File) (hf : openFile s fd = some f)
    (hr : has f.base 23 = true) (at_ mt fl now : Int) (h01 : ¬(has fl 0 = true ∧ has fl 1 = true)) (h3 : has fl 3 = false)
    (i : Stat) (h1 : os.run s.log (.stat f.hostFd) = .ok i)
    (h2 : has fl 1 = true → os.run (s.log ++ [⟨.stat f.hostFd, .ok i⟩]) (.time .real) = .ok now)
    (l : List Event) (hl : l = s.log ++ [⟨.stat f.hostFd, .ok i⟩] ++ (if has fl 1 then [⟨.time .real, .ok now⟩] else []))
    (h4 : os.run l (.utime f.hostFd (newAtime fl at_ now i.atime) (newMtime fl mt now i.mtime)) = .ok ()) :
    (Call.fdFilestatSetTimes fd at_ mt fl).run os s = .ok 0 { s with log := l ++
      [⟨.utime f.hostFd (newAtime fl at_ now i.atime) (newMtime fl mt now i.mtime), .ok ()⟩] } := by
  show fdFilestatSetTimes os fd at_ mt fl s = _
  unfold fdFilestatSetTimes
  rw [gate_open hf, if_neg Bool.false_ne_true, show RIGHTS_FD_FILESTAT_SET_TIMES = 2 ^ 23 from rfl, gate_perm hf,
    if_neg (by rw [decide_eq_true_iff, and_pow_eq_zero, hr]; decide)]
  rw [show FSTFLAGS_ATIM = 2 ^ 0 from rfl, show FSTFLAGS_ATIM_NOW = 2 ^ 1 from rfl, show FSTFLAGS_MTIM = 2 ^ 2 from rfl,
    show FSTFLAGS_MTIM_NOW = 2 ^ 3 from rfl]
  simp only [bit_two_pow]
  rw [if_neg (by simpa using h01), if_neg (by rw [h3]; simp), bind_ok (file_open hf), bind_ok (sys_ok h1)]
  have em : newMtime fl mt now i.mtime = if has fl 3 then mt else if has fl 2 then mt else i.mtime := by
    unfold newMtime
    rw [h3, if_neg Bool.false_ne_true, if_neg Bool.false_ne_true]
  rw [bit_two_pow fl 3, bit_two_pow fl 2]
  generalize newMtime fl mt now i.mtime = mtime at h4 em ⊢
  rw [← em]
  cases hn : has fl 1 with
  | false =>
    have ea : newAtime fl at_ now i.atime = if has fl 0 then at_ else i.atime := by
      unfold newAtime
      rw [hn, if_neg Bool.false_ne_true]
    generalize newAtime fl at_ now i.atime = atime at h4 ea ⊢
    rw [hn, if_neg Bool.false_ne_true, List.append_nil] at hl
    subst hl
    rw [if_neg Bool.false_ne_true, bind_pure, ← ea]
    exact bind_ok (sys_ok (s := s.event _ _) h4)
  | true =>
    have ea : newAtime fl at_ now i.atime = now := by
      unfold newAtime
      rw [hn, if_pos rfl]
    generalize newAtime fl at_ now i.atime = atime at h4 ea ⊢
    subst ea
    rw [hn, if_pos rfl] at hl
    subst hl
    rw [if_pos rfl, bind_ok (sys_ok (s := s.event _ _) (h2 hn))]
    exact bind_ok (sys_ok (s := (s.event _ _).event _ _) h4)

/-- C54: contradictory flags are refused, and nothing happens. -/
theorem wasi_set_times_contradiction (os : Os) (s : St) (fd : Int) (f : File) (hf : openFile s fd = some f)
    (hr : has f.base 23 = true) (at_ mt fl : Int)
    (h : has fl 0 = true ∧ has fl 1 = true ∨ has fl 2 = true ∧ has fl 3 = true) :
    (Call.fdFilestatSetTimes fd at_ mt fl).run os s = .ok 28 s := by
  show fdFilestatSetTimes os fd at_ mt fl s = _
  unfold fdFilestatSetTimes
  rw [gate_open hf, if_neg Bool.false_ne_true, show RIGHTS_FD_FILESTAT_SET_TIMES = 2 ^ 23 from rfl, gate_perm hf,
    if_neg (by rw [decide_eq_true_iff, and_pow_eq_zero, hr]; decide)]
  rw [show FSTFLAGS_ATIM = 2 ^ 0 from rfl, show FSTFLAGS_ATIM_NOW = 2 ^ 1 from rfl, show FSTFLAGS_MTIM = 2 ^ 2 from rfl,
    show FSTFLAGS_MTIM_NOW = 2 ^ 3 from rfl]
  simp only [bit_two_pow]
  by_cases h01 : has fl 0 = true ∧ has fl 1 = true
  · rw [if_pos (by simpa using h01)]; rfl
  · rw [if_neg (by simpa using h01), if_pos (by simpa using h.resolve_left h01)]; rfl

/-- The last thing the host was told, if it was to set the times of a file. -/
def lastTimes (s : St) : Option (Int × Int) :=
  match s.log.getLast? with
  | some ⟨.utime _ a m, _⟩ => some (a, m)
  | _ => none

/-- Descriptor 4 is a file with all rights. -/
def timesSt : St := runs (demoOs .reg) [.pathOpen 3 0 0 1 0 (2 ^ 28 - 1) 0 0 100] (write (demoSt .dir) 0 [120])

/-- C54 fails for `MTIM_NOW`: at time 1000, for a file last modified at 20, the host is told to set the modification time
to the argument 77 instead of the current time.  wasi.py:739-740 uses `args[2]`. -/
theorem wasi_mtime_now_refuted :
    returns (demoOs .reg) (.fdFilestatSetTimes 4 55 77 8) timesSt 0 = true ∧
      lastTimes (after ((Call.fdFilestatSetTimes 4 55 77 8).run (demoOs .reg)) timesSt) = some (10, 77) ∧
      (10, newMtime 8 77 1000 20) ≠ ((10, 77) : Int × Int) := by
  refine ⟨?_, ?_, ?_⟩ <;> decide +kernel

example : ((openFile timesSt 4).map fun f => (has f.base 23, has f.base 3, f.wasmFlag)) = some (true, true, 0) := by
  decide +kernel
-- the given access time, the current access time, the given modification time
example : lastTimes (after ((Call.fdFilestatSetTimes 4 55 77 1).run (demoOs .reg)) timesSt) = some (55, 20) ∧
    lastTimes (after ((Call.fdFilestatSetTimes 4 55 77 2).run (demoOs .reg)) timesSt) = some (1000, 20) ∧
    lastTimes (after ((Call.fdFilestatSetTimes 4 55 77 6).run (demoOs .reg)) timesSt) = some (1000, 77) ∧
    returns (demoOs .reg) (.fdFilestatSetTimes 4 55 77 12) timesSt 28 = true := by
  refine ⟨?_, ?_, ?_, ?_⟩ <;> decide +kernel

/-- C54, the flags: `fd_fdstat_set_flags` with flags that differ from the current ones in `APPEND` (bit 0) only sets them:
the host is told flags with its own append bit `i` as asked, its non-blocking bit `j` as the guest's (bit 2), and all
others unchanged; the guest's flags become the new ones.

What is missing, and false: a change of `NONBLOCK` is refused (`wasi_nonblock_refuted`). -/
theorem wasi_set_flags_partial (os : Os) (s : St) (fd : Nat) (f : File) (hf : openFile s fd = some f)
    (hr : has f.base 3 = true) (fl : Int) (hfl : ∀ k, k ≠ 0 → has fl k = has f.wasmFlag k)
    (i j : Nat) (hij : i ≠ j) (hi : os.c.oAppend = 2 ^ i) (hj : os.c.oNonblock = 2 ^ j)
    (hos : ∀ l h g, os.run l (.setfl h g) = .ok ()) :
    ∃ g : Int, has g i = has fl 0 ∧ has g j = has fl 2 ∧ (∀ k, k ≠ i → k ≠ j → has g k = has f.hostFlag k) ∧
      (Call.fdFdstatSetFlags fd fl).run os s = .ok 0 { s with
        fd := s.fd.set fd { f with hostFlag := g, wasmFlag := fl }
        log := s.log ++ [⟨.setfl f.hostFd g, .ok ()⟩] } := by
  have hnew : newFlags os.c fl f = { f with hostFlag := (newFlags os.c fl f).hostFlag, wasmFlag := fl } ∧
      has (newFlags os.c fl f).hostFlag i = has fl 0 ∧ has (newFlags os.c fl f).hostFlag j = has fl 2 ∧
      ∀ k, k ≠ i → k ≠ j → has (newFlags os.c fl f).hostFlag k = has f.hostFlag k := by
    unfold newFlags
    rw [show FDFLAGS_APPEND = 2 ^ 0 from rfl, show FDFLAGS_NONBLOCK = 2 ^ 2 from rfl, hi, hj]
    simp only [bit_two_pow]
    have hji := hij.symm
    refine ⟨?_, ?_, ?_, ?_⟩
    · have : ∀ a b : Int, (∀ k, has a k = has b k) → a = b := fun a b h => has_ext h
      cases h0 : has fl 0 <;> cases h2 : has fl 2 <;> simp only [Bool.false_eq_true, if_false, if_true] <;> congr 1 <;>
        refine this _ _ fun k => ?_
      all_goals
        simp only [has_and, has_or, has_inv, has_pow]
        by_cases k0 : k = 0
        · subst k0; simp [h0]
        · by_cases k2 : k = 2
          · subst k2; simp [h2]
          · rw [hfl k k0]; simp [Ne.symm k0, Ne.symm k2]
    · cases h0 : has fl 0 <;> cases h2 : has fl 2 <;>
        simp [has_and, has_or, has_inv, has_pow, hji]
    · cases h0 : has fl 0 <;> cases h2 : has fl 2 <;>
        simp [has_and, has_or, has_inv, has_pow, hij]
    · intro k ki kj
      have ki' := ki.symm
      have kj' := kj.symm
      cases h0 : has fl 0 <;> cases h2 : has fl 2 <;>
        simp [has_and, has_or, has_inv, has_pow, ki', kj']
  obtain ⟨h1, h2, h3, h4⟩ := hnew
  refine ⟨_, h2, h3, h4, ?_⟩
  obtain ⟨n, hn, hfn, -⟩ := openFile_nat hf
  have hn' : n = fd := by omega
  subst hn'
  show fdFdstatSetFlags os n fl s = _
  unfold fdFdstatSetFlags
  rw [gate_open hf, if_neg Bool.false_ne_true, show RIGHTS_FD_FDSTAT_SET_FLAGS = 2 ^ 3 from rfl, gate_perm hf,
    if_neg (by rw [decide_eq_true_iff, and_pow_eq_zero, hr]; decide), bind_ok (file_open hf)]
  rw [if_neg]
  · rw [bind_ok (setFile_nat _ (List.getElem?_eq_some_iff.mp hfn).1)]
    rw [bind_ok (sys_ok (hos _ _ _))]
    rw [pure_run, ← h1]
    rfl
  · rw [not_not, show fyes = 2 ^ 0 by decide]
    apply has_ext
    intro k
    rw [has_or, has_xor, has_pow]
    by_cases hk : k = 0
    · subst hk; simp
    · rw [hfl k hk]; simp

/-- C54 fails for `NONBLOCK`: the file has the right to change its flags, which are 0; setting `NONBLOCK` (4) is refused
with `INVAL`.  wasi.py:658 names `APPEND` twice. -/
theorem wasi_nonblock_refuted :
    ((openFile timesSt 4).map fun f => (has f.base 3, f.wasmFlag)) = some (true, 0) ∧
      returns (demoOs .reg) (.fdFdstatSetFlags 4 4) timesSt 28 = true := by
  refine ⟨?_, ?_⟩ <;> decide +kernel

-- APPEND can be set; the Linux constants are powers of two.
example : returns (demoOs .reg) (.fdFdstatSetFlags 4 1) timesSt 0 = true := by decide +kernel
example : linux.oAppend = 2 ^ 10 ∧ linux.oNonblock = 2 ^ 11 := by decide

/-! ## C63 -/

/-- C63: `fd_fdstat_get` stores the type, the flags and both sets of rights of the descriptor, and changes nothing else.
This holds if each fits its field; rights given to `path_open` as a negative number do not
(`wasi_fdstat_get_refuted`). -/
theorem wasi_fdstat_get_partial (os : Os) (s : St) (fd : Int) (f : File) (hf : openFile s fd = some f) (p : Nat)
    (hp : InMem s p 24) (t fl b r : Nat) (ht : f.wasmType = t) (hfl : f.wasmFlag = fl) (hb : f.base = b) (hr : f.root = r)
    (ht8 : t < 2 ^ 8) (hf16 : fl < 2 ^ 16) (hb64 : b < 2 ^ 64) (hr64 : r < 2 ^ 64) :
    (Call.fdFdstatGet fd p).run os s = .ok 0 (write (write (write (write s p [UInt8.ofNat t])
      (p + 2) (Spec.bytesLE 2 fl)) (p + 8) (Spec.bytesLE 8 b)) (p + 16) (Spec.bytesLE 8 r)) := by
  obtain ⟨m, hm, -⟩ := hp.some
  have hp2 := hp.2
  show fdFdstatGet fd p s = _
  unfold fdFdstatGet
  rw [gate_open hf, if_neg Bool.false_ne_true, bind_ok (mems_run hm), bind_ok (file_open hf), ht, hfl, hb, hr]
  have i1 : InMem s p 1 := ⟨hp.1, by omega⟩
  have i2 : InMem s (p + 2) 2 := ⟨hp.1, by omega⟩
  have i3 : InMem s (p + 8) 8 := ⟨hp.1, by omega⟩
  have i4 : InMem s (p + 16) 8 := ⟨hp.1, by omega⟩
  rw [bind_ok (putU8_run i1 ht8)]
  rw [show (p : Int) + 2 = ((p + 2 : Nat) : Int) from rfl, bind_ok (putU_run (i2.write _ _) hf16)]
  rw [show (p : Int) + 8 = ((p + 8 : Nat) : Int) from rfl, bind_ok (putU_run ((i3.write _ _).write _ _) hb64)]
  rw [show (p : Int) + 16 = ((p + 16 : Nat) : Int) from rfl,
    bind_ok (putU_run (((i4.write _ _).write _ _).write _ _) hr64)]
  rfl

/-- C63 fails for a file opened with all rights (the 64-bit number -1): `fd_fdstat_get` raises a Python exception. -/
theorem wasi_fdstat_get_refuted :
    let s := runs (demoOs .reg) [.pathOpen 3 0 0 1 0 (-1) (-1) 0 100] (write (demoSt .dir) 0 [120])
    (openFile s 4).isSome = true ∧ (results (demoOs .reg) [.fdFdstatGet 4 128] s).1 = [none] := by
  refine ⟨?_, ?_⟩ <;> decide +kernel

example : Spec.range (bytes (after ((Call.fdFdstatGet 3 128).run (demoOs .dir)) (demoSt .dir))) 128 24 =
    [3, 0, 0, 0, 0, 0, 0, 0, 0, 0xfe, 0xbf, 0x07, 0, 0, 0, 0, 0xff, 0xff, 0xff, 0x0f, 0, 0, 0, 0] := by decide +kernel

/-! ## The hypotheses are met -/

example := wasi_seek_moves seekOs seekSt 4 _ (fileAt_eq seekSt 4) (by decide +kernel) (by decide +kernel) (-9) 1 10 1 120 (inMem _ _ _) (by decide)
  (by decide +kernel) (by decide) (by decide +kernel)
theorem lastSeek_query : ∀ l x y, lastSeek (l ++ [⟨.lseek x 0 1, seekOs.run l (.lseek x 0 1)⟩]) y = lastSeek l y := by
  intro l x y
  have h : seekOs.run l (.lseek x 0 1) = if lastSeek l x + 0 < 0 then .error (.os 22) else .ok (lastSeek l x + 0) := rfl
  rw [h]
  unfold lastSeek
  rw [List.foldl_append]
  split
  · rfl
  · simp only [List.foldl_cons, List.foldl_nil]
    split <;> simp_all
example := wasi_seek_partial seekOs seekSt _ 4 (-11) 1 120 28 (by decide) (of_returns (by decide +kernel)) lastSeek lastSeek_query
example := wasi_set_times_contradiction (demoOs .reg) timesSt 4 _ (fileAt_eq timesSt 4) (by decide +kernel) 55 77 12 (.inr (by decide))
example := wasi_set_times_partial (demoOs .reg) timesSt 4 _ (fileAt_eq timesSt 4) (by decide +kernel) 55 77 6 1000 (by decide) (by decide)
  ⟨.reg, 9, 1, 100, 10, 20, 30⟩ rfl (fun _ => rfl) _ rfl rfl
example := wasi_set_flags_partial (demoOs .reg) timesSt 4 _ (fileAt_eq timesSt 4) (by decide +kernel) 1
  (by intro k hk; rw [show (fileAt timesSt 4).wasmFlag = 0 by decide +kernel]; unfold has; rw [Int.zero_ediv, Int.ediv_eq_zero_of_lt (by decide) (by exact_mod_cast Nat.one_lt_two_pow hk)]) 10 11 (by decide) (by decide) (by decide)
  fun _ _ _ => rfl
example := wasi_fdstat_get_partial (demoOs .dir) (demoSt .dir) 3 _ (fileAt_eq (demoSt .dir) 3) 128 (inMem _ _ _) 3 0 0x07bffe00 0x0fffffff
  (by decide +kernel) (by decide +kernel) (by decide +kernel) (by decide +kernel) (by decide) (by decide) (by decide) (by decide)

end Pywasm.Props
