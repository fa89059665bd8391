import Verif.Props.WasiFs
import Verif.Lemmas.WasiIov
import Verif.Lemmas.WasiConfig
import Verif.Spec.WasiNamed

/-!
# WASI: attributes, clocks, randomness, offsets and sizes, sockets

C74 (fd_filestat_get reports the attributes of the open file), C75 (clocks and random numbers), C76 (offset, size and
durability of files), C77 (socket calls).
-/

namespace Pywasm.Props
open Wasi WasiSpec

/-! ## C74 -/

/-- C74, in part: `fd_filestat_get` stores the attributes of the file the host has *now* under the name the descriptor was
opened with, and the type the descriptor had when it was opened.

What is missing, and false: the attributes of the open file itself, after it was renamed, removed or replaced
(`C74_removed_refuted`). -/
theorem C74_filestat_partial (os : Os) (s : St) (fd : Int) (f : File) (hf : openFile s fd = some f) (hr : has f.base 21 = true)
    (p : Nat) (hp : InMem s p 64) (i : Stat) (hi : Fits i) (ht : 0 ≤ f.wasmType ∧ f.wasmType < 256)
    (h : os.run s.log (.statName f.hostName) = .ok i) :
    ∃ s', (Call.fdFilestatGet fd p).run os s = .ok 0 s' ∧
      StatRecord (answered s (.statName f.hostName) (.ok i)) s' p f.wasmType i := by
  obtain ⟨m, hm, -⟩ := hp.some
  have hp' : InMem (answered s (.statName f.hostName) (.ok i)) p 64 := hp
  obtain ⟨s', h1, h2⟩ := putStat_record hp' ht hi
  refine ⟨s', ?_, h2⟩
  show fdFilestatGet os fd p s = _
  unfold fdFilestatGet
  rw [gate_open hf, if_neg Bool.false_ne_true, show RIGHTS_FD_FILESTAT_GET = 2 ^ 21 from rfl, gate_perm hf, not_zero hr,
    if_neg Bool.false_ne_true, bind_ok (mems_run hm), bind_ok (file_open hf), bind_ok (sys_ok h)]
  exact (bind_ok h1).trans rfl

/-- A host with POSIX removal: once a name has been removed it is gone, but an open file keeps its attributes. -/
def removeOs : Os where
  plat := .linux
  c := linux
  run l x :=
    match x with
    | .statName _ =>
      if l.any (fun e => match e with | ⟨.unlink .., .ok _⟩ => true | _ => false) then .error (.os 2)
      else .ok ⟨.reg, 9, 1, 100, 10, 20, 30⟩
    | x => (demoOs .reg).run l x

/-- Descriptor 4 is an open file with all rights. -/
def statSt : St := runs removeOs [.pathOpen 3 0 0 1 0 (2 ^ 28 - 1) 0 0 100] fsSt

/-- C74 fails for removed files: descriptor 4 is open and `fd_filestat_get` works; once the guest has removed the name of the
file it raises `FileNotFoundError`, although the descriptor is still open and the host still knows its attributes.
wasi.py:696 asks for the attributes by name. -/
theorem C74_removed_refuted :
    let s := after ((Call.pathUnlinkFile 3 0 1).run removeOs) statSt
    returns removeOs (.fdFilestatGet 4 128) statSt 0 = true ∧
      returns removeOs (.pathUnlinkFile 3 0 1) statSt 0 = true ∧
      ((openFile s 4).map fun f => (has f.base 21, (removeOs.run s.log (.stat f.hostFd)).toOption.map (·.size))) =
        some (true, some 100) ∧
      (results removeOs [.fdFilestatGet 4 128] s).1 = [none] := by
  refine ⟨?_, ?_, ?_, ?_⟩ <;> decide +kernel

example : numAt (after ((Call.fdFilestatGet 4 128).run removeOs) statSt) 160 8 = 100 ∧
    numAt (after ((Call.fdFilestatGet 4 128).run removeOs) statSt) 144 1 = 4 := by
  refine ⟨?_, ?_⟩ <;> decide +kernel

/-! ## C75 -/

/-- C75, the time: `clock_time_get` stores the time of the clock that was asked for.

What is missing, and false: other clocks do not exist, but the call succeeds (`C75_unknown_clock_refuted`). -/
theorem C75_time_partial (os : Os) (s : St) (id : Nat) (c : Clock) (hc : clockOf id = some c) (prec : Int) (p t : Nat)
    (hp : InMem s p 8) (ht : t < 2 ^ 64) (h : os.run s.log (.time c) = .ok (t : Int)) :
    (Call.clockTimeGet id prec p).run os s = .ok 0 (write (answered s (.time c) (.ok (t : Int))) p (Spec.bytesLE 8 t)) := by
  obtain ⟨m, hm, -⟩ := hp.some
  have hp' : InMem (answered s (.time c) (.ok (t : Int))) p 8 := hp
  have hh : helpTime os id = sys os (.time c) := by
    unfold clockOf at hc
    split at hc <;> first | (injection hc with hc; subst hc; rfl) | cases hc
  show clockTimeGet os id prec p s = _
  unfold clockTimeGet
  rw [bind_ok (mems_run hm), hh]
  refine (bind_ok (sys_ok h)).trans ?_
  exact (bind_ok (putU_run hp' ht)).trans rfl

/-- C75, randomness: `random_get` fills the buffer with the bytes it got from the host, and nothing else changes. -/
theorem C75_random (os : Os) (s : St) (p n : Nat) (hp : InMem s p n) (d : Bytes) (hd : d.length = n)
    (h : os.run s.log (.random n) = .ok d) :
    (Call.randomGet p n).run os s = .ok 0 (write (answered s (.random n) (.ok d)) p d) := by
  obtain ⟨m, hm, -⟩ := hp.some
  have hp' : InMem (answered s (.random n) (.ok d)) p d.length := hd ▸ hp
  show randomGet os p n s = _
  unfold randomGet
  rw [bind_ok (mems_run hm)]
  refine (bind_ok (sys_ok h)).trans ?_
  exact (bind_ok (put_run hp')).trans rfl

/-- C75 fails for clocks that do not exist: for every clock number above 3, `clock_time_get` returns success and stores the
time 0, and `clock_res_get` success and the resolution 1, instead of `INVAL`. -/
theorem C75_unknown_clock_refuted (os : Os) (s : St) (id prec : Int) (hid : 3 < id) (p : Nat) (hp : InMem s p 8) :
    (Call.clockTimeGet id prec p).run os s = .ok 0 (write s p (Spec.bytesLE 8 0)) ∧
      (Call.clockResGet id p).run os s = .ok 0 (write s p (Spec.bytesLE 8 1)) := by
  obtain ⟨m, hm, -⟩ := hp.some
  have e0 : putU 8 p 0 s = .ok () (write s p (Spec.bytesLE 8 0)) := putU_run (v := 0) hp (by decide)
  have e1 : putU 8 p 1 s = .ok () (write s p (Spec.bytesLE 8 1)) := putU_run (v := 1) hp (by decide)
  constructor
  · show clockTimeGet os id prec p s = _
    unfold clockTimeGet helpTime
    rw [bind_ok (mems_run hm), if_neg (by omega), if_neg (by omega), if_neg (by omega), if_neg (by omega), bind_pure, bind_ok e0]
    rfl
  · show clockResGet id p s = _
    unfold clockResGet
    rw [bind_ok (mems_run hm), bind_ok e1]
    rfl

example : InMem fsSt 128 8 := by unfold InMem; decide +kernel
example : numAt (after ((Call.clockTimeGet 1 0 128).run (demoOs .dir)) fsSt) 128 8 = 1000 := by decide +kernel

/-! ## C76 -/

/-- C76, the offset: `fd_tell` stores the current offset of the file and moves nothing. -/
theorem C76_tell (os : Os) (s : St) (fd : Int) (f : File) (hf : openFile s fd = some f) (ht : f.wasmType ≠ 3)
    (hr : has f.base 5 = true) (p k : Nat) (hp : InMem s p 8) (hk : k < 2 ^ 64)
    (h : os.run s.log (.lseek f.hostFd 0 1) = .ok (k : Int)) :
    (Call.fdTell fd p).run os s =
      .ok 0 (write (answered s (.lseek f.hostFd 0 1) (.ok (k : Int))) p (Spec.bytesLE 8 k)) := by
  obtain ⟨m, hm, -⟩ := hp.some
  have hp' : InMem (answered s (.lseek f.hostFd 0 1) (.ok (k : Int))) p 8 := hp
  show fdTell os fd p s = _
  unfold fdTell
  rw [show RIGHTS_FD_TELL = 2 ^ 5 from rfl, gate_io hf ht hr, bind_ok (mems_run hm), bind_ok (file_open hf)]
  refine (bind_ok (sys_ok h)).trans ?_
  exact (bind_ok (putU_run hp' hk)).trans rfl

/-- C76, durability: `fd_sync` returns success only after the host has flushed the file. -/
theorem C76_sync (os : Os) (s : St) (fd : Int) (f : File) (hf : openFile s fd = some f) (ht : f.wasmType ≠ 3)
    (hr : has f.base 4 = true) :
    (∀ u, os.run s.log (.fsync f.hostFd) = .ok u → (Call.fdSync fd).run os s = .ok 0 (answered s (.fsync f.hostFd) (.ok u))) ∧
    (∀ e, os.run s.log (.fsync f.hostFd) = .error e →
      (Call.fdSync fd).run os s = .error e (answered s (.fsync f.hostFd) (.error e))) := by
  constructor
  all_goals
    intro u h
    show fdSync os fd s = _
    unfold fdSync
    rw [show RIGHTS_FD_SYNC = 2 ^ 4 from rfl, gate_io hf ht hr, bind_ok (file_open hf)]
  · exact (bind_ok (sys_ok h)).trans rfl
  · exact bind_err (sys_err h)

/-- C76, the size: `fd_filestat_set_size` returns success only after the host has set the size that was asked for. -/
theorem C76_set_size (os : Os) (s : St) (fd size : Int) (f : File) (hf : openFile s fd = some f) (ht : f.wasmType ≠ 3)
    (hr : has f.base 22 = true) :
    (∀ u, os.run s.log (.ftruncate f.hostFd size) = .ok u →
      (Call.fdFilestatSetSize fd size).run os s = .ok 0 (answered s (.ftruncate f.hostFd size) (.ok u))) ∧
    (∀ e, os.run s.log (.ftruncate f.hostFd size) = .error e →
      (Call.fdFilestatSetSize fd size).run os s = .error e (answered s (.ftruncate f.hostFd size) (.error e))) := by
  constructor
  all_goals
    intro u h
    show fdFilestatSetSize os fd size s = _
    unfold fdFilestatSetSize
    rw [show RIGHTS_FD_FILESTAT_SET_SIZE = 2 ^ 22 from rfl, gate_io hf ht hr, bind_ok (file_open hf)]
  · exact (bind_ok (sys_ok h)).trans rfl
  · exact bind_err (sys_err h)

/-- C76: `fd_advise` changes nothing and asks the host for nothing. -/
theorem C76_advise (os : Os) (s : St) (fd off len adv : Int) (f : File) (hf : openFile s fd = some f)
    (hr : has f.base 7 = true) : (Call.fdAdvise fd off len adv).run os s = .ok 0 s := by
  show fdAdvise fd off len adv s = _
  unfold fdAdvise
  rw [gate_open hf, if_neg Bool.false_ne_true, show RIGHTS_FD_ADVISE = 2 ^ 7 from rfl, gate_perm hf, not_zero hr,
    if_neg Bool.false_ne_true]
  rfl

/-- C76, `fd_allocate` of a range the file already has: nothing changes. -/
theorem C76_allocate_inside (os : Os) (s : St) (fd : Int) (f : File) (hf : openFile s fd = some f) (ht : f.wasmType ≠ 3)
    (hr : has f.base 8 = true) (off len : Int) (i : Stat) (h : os.run s.log (.stat f.hostFd) = .ok i)
    (hle : off + len ≤ i.size) :
    (Call.fdAllocate fd off len).run os s = .ok 0 (answered s (.stat f.hostFd) (.ok i)) := by
  show fdAllocate os fd off len s = _
  unfold fdAllocate
  rw [show RIGHTS_FD_ALLOCATE = 2 ^ 8 from rfl, gate_io hf ht hr, bind_ok (file_open hf)]
  refine (bind_ok (sys_ok h)).trans ?_
  rw [if_pos (by omega)]
  rfl

/-- C76, `fd_allocate` of a range that ends `n` bytes behind the end of the file, in part: `n` zero bytes are written at the
end, and the offset is put back.

What is missing, and false: that the file has the size that was asked for when the call returns success
(`C76_allocate_refuted`: the number of bytes the host wrote is not looked at). -/
theorem C76_allocate_partial (os : Os) (s : St) (fd : Int) (f : File) (hf : openFile s fd = some f) (ht : f.wasmType ≠ 3)
    (hr : has f.base 8 = true) (off len : Int) (i : Stat) (n : Nat) (hn : off + len = i.size + n) (hn0 : 0 < n)
    (pos stop wrote back : Int) (h0 : os.run s.log (.stat f.hostFd) = .ok i)
    (h1 : os.run (s.log ++ [⟨.stat f.hostFd, .ok i⟩]) (.lseek f.hostFd 0 1) = .ok pos)
    (h2 : os.run (s.log ++ [⟨.stat f.hostFd, .ok i⟩, ⟨.lseek f.hostFd 0 1, .ok pos⟩]) (.lseek f.hostFd 0 2) = .ok stop)
    (h3 : os.run (s.log ++ [⟨.stat f.hostFd, .ok i⟩, ⟨.lseek f.hostFd 0 1, .ok pos⟩, ⟨.lseek f.hostFd 0 2, .ok stop⟩])
      (.write f.hostFd (List.replicate n 0)) = .ok wrote)
    (h4 : os.run (s.log ++ [⟨.stat f.hostFd, .ok i⟩, ⟨.lseek f.hostFd 0 1, .ok pos⟩, ⟨.lseek f.hostFd 0 2, .ok stop⟩,
      ⟨.write f.hostFd (List.replicate n 0), .ok wrote⟩]) (.lseek f.hostFd pos 0) = .ok back) :
    (Call.fdAllocate fd off len).run os s = .ok 0 { s with log := s.log ++
      [⟨.stat f.hostFd, .ok i⟩, ⟨.lseek f.hostFd 0 1, .ok pos⟩, ⟨.lseek f.hostFd 0 2, .ok stop⟩,
        ⟨.write f.hostFd (List.replicate n 0), .ok wrote⟩, ⟨.lseek f.hostFd pos 0, .ok back⟩] } := by
  show fdAllocate os fd off len s = _
  unfold fdAllocate
  rw [show RIGHTS_FD_ALLOCATE = 2 ^ 8 from rfl, gate_io hf ht hr, bind_ok (file_open hf)]
  have hz : Py.zeros (off + len - i.size).toNat = List.replicate n 0 := by
    rw [show (off + len - i.size).toNat = n by omega]; rfl
  have e : ∀ (t : St) (l : List Event) (x : Sys) (r : Except Err x.Ans), ({ t with log := t.log ++ l } : St).event x r =
      { t with log := t.log ++ (l ++ [⟨x, r⟩]) } := by
    intro t l x r
    simp only [St.event, List.append_assoc]
  refine (bind_ok (sys_ok h0)).trans ?_
  rw [if_neg (by omega), hz]
  refine (bind_ok (sys_ok (s := { s with log := s.log ++ _ }) h1)).trans ?_
  rw [e]
  refine (bind_ok (sys_ok (s := { s with log := s.log ++ _ }) h2)).trans ?_
  rw [e]
  refine (bind_ok (sys_ok (s := { s with log := s.log ++ _ }) h3)).trans ?_
  rw [e]
  refine (bind_ok (sys_ok (s := { s with log := s.log ++ _ }) h4)).trans ?_
  rw [e]
  rfl

/-- A host whose disk takes 10 bytes in one `write`: the files have 100 bytes and what was written. -/
def shortOs : Os where
  plat := .linux
  c := linux
  run l x :=
    match x with
    | .stat _ => .ok ⟨.reg, 9, 1, 100 + (l.map fun e => match e with | ⟨.write .., .ok k⟩ => k | _ => 0).sum, 10, 20, 30⟩
    | .write _ d => .ok (min 10 d.length : Nat)
    | x => (demoOs .reg).run l x

/-- C76 fails for `fd_allocate` when the host writes less than it was asked to: the call returns success, but the file has 110
bytes instead of 200. -/
theorem C76_allocate_refuted :
    let s := after ((Call.fdAllocate 4 0 200).run shortOs) statSt
    returns shortOs (.fdAllocate 4 0 200) statSt 0 = true ∧
      ((openFile s 4).bind fun f => (shortOs.run s.log (.stat f.hostFd)).toOption.map (·.size)) = some 110 := by
  refine ⟨?_, ?_⟩ <;> decide +kernel

/-- C76 fails for `fd_datasync`: it returns success without asking the host for anything, whatever was written before. -/
theorem C76_datasync_refuted (os : Os) (s : St) (fd : Int) (f : File) (hf : openFile s fd = some f)
    (hr : has f.base 0 = true) : (Call.fdDatasync fd).run os s = .ok 0 s := by
  show fdDatasync fd s = _
  unfold fdDatasync
  rw [gate_open hf, if_neg Bool.false_ne_true, show RIGHTS_FD_DATASYNC = 2 ^ 0 from rfl, gate_perm hf, not_zero hr,
    if_neg Bool.false_ne_true]
  rfl

-- Descriptor 4 is a regular file with all these rights.
example : ((openFile statSt 4).map fun f => decide (f.wasmType = 4) && [0, 4, 5, 7, 8, 22].all (has f.base ·)) = some true := by
  decide +kernel
example : returns (demoOs .reg) (.fdTell 4 128) statSt 0 = true ∧ returns (demoOs .reg) (.fdAllocate 4 0 100) statSt 0 = true ∧
    returns (demoOs .reg) (.fdAllocate 4 0 101) statSt 0 = true := by
  refine ⟨?_, ?_, ?_⟩ <;> decide +kernel

/-! ## C77 -/

/-- No descriptor has the type of a socket. -/
def NoSock (l : List File) : Prop := ∀ f ∈ l, f.wasmType ≠ 5 ∧ f.wasmType ≠ 6

theorem NoSock.set {l : List File} (h : NoSock l) (n : Nat) {f : File} (hf : f.wasmType ≠ 5 ∧ f.wasmType ≠ 6) :
    NoSock (l.set n f) := by
  intro g hg
  rcases List.mem_or_eq_of_mem_set hg with hg | rfl
  · exact h g hg
  · exact hf

theorem NoSock.at {l : List File} (h : NoSock l) {n : Nat} {f : File} (hf : l[n]? = some f) :
    f.wasmType ≠ 5 ∧ f.wasmType ≠ 6 := h f (List.mem_of_getElem? hf)

theorem NoSock.append {l l' : List File} (h : NoSock l) (h' : NoSock l') : NoSock (l ++ l') := by
  intro g hg
  rcases List.mem_append.mp hg with hg | hg
  · exact h g hg
  · exact h' g hg

theorem NoSock.change {os : Os} {c : Call} {s s' : St} (h : NoSock s.fd) (hc : Change os c s s') : NoSock s'.fd := by
  cases hc with
  | quiet hq => rw [hq.fd]; exact h
  | edit n f f' hn ho hf hr hq =>
    rw [hq.fd]
    refine h.set n ?_
    rw [hf]
    have := h.at hn
    exact this
  | drop n f hn ho ht => have e := h.at hn; exact h.set n (f := f.shut) e
  | dropErr => exact h
  | dropChr n f hn ho ht => have e := h.at hn; exact h.set n e
  | move m n f g hc hm hn hf hg ht => have e := h.at hm; exact (h.set n e).set m (f := f.shut) e
  | moveChr m n f g hc hm hn hf hg ht => have e := h.at hm; exact (h.set n e).set m (f := f.shut) e
  | openErr => exact h
  | openLeak name fl mo d hd hos hq hl => rw [hq.fd]; exact h
  | opened name fl mo d hd new hos hq hh ho hw hp hn ht hdir hq' =>
    rw [hq'.fd]
    show NoSock (_ ++ [new])
    rw [hq.fd]
    refine NoSock.append h ?_
    intro g hg
    rw [List.mem_singleton] at hg
    subst hg
    obtain ⟨l, i, -, ht⟩ := ht
    rw [ht]
    unfold helpWasmType
    split <;> exact ⟨by decide, by decide⟩

theorem NoSock.step {os : Os} {s s' : St} (h : NoSock s.fd) (hs : Step os s s') : NoSock s'.fd := by
  cases hs with
  | call c => exact h.change (change_call os c s)
  | guest m => exact h
  | pipe n p =>
    intro g hg
    obtain ⟨i, hi⟩ := List.getElem?_of_mem hg
    rw [List.getElem?_modify] at hi
    obtain ⟨g', hg', rfl⟩ := Option.map_eq_some_iff.mp hi
    have := h.at hg'
    split <;> exact this

/-- C77, in part: from a `Preview1` that was constructed successfully, whatever the guest and the host do, a socket call never
reaches the host: it returns `BADF` for a descriptor that is not open and `NOTSOCK` for one that is, and changes nothing.  Not
even the sockets the host has are sockets for the guest (wasi.py:979-994 gives them the type `UNKNOWN`). -/
theorem C77_no_sockets (os : Os) (args : List Str) (dirs envs : List (Str × Str)) (fds' : Int × Int × Int)
    (names : Str × Str × Str) (s0 s : St) (h0 : init os args dirs envs fds' names = (.ok (), s0)) (hr : Reach os s0 s)
    (c : Call) (hc : sockCall c = true) :
    c.run os s = .ok (if (fds c).all (fun fd => (openFile s fd).isSome) then 57 else 8) s := by
  have inv : NoSock s.fd := by
    induction hr with
    | refl =>
      unfold init at h0
      dsimp only at h0
      split at h0
      · rename_i hp
        obtain ⟨new, e1, -, e3, -⟩ := preopens_ok hp
        injection h0 with _ h0
        subst h0
        rw [e1]
        refine NoSock.append ?_ ?_
        · intro g hg
          simp only [stdio, List.mem_cons, List.not_mem_nil, or_false] at hg
          have hc : g.wasmType = 2 := by rcases hg with rfl | rfl | rfl <;> rfl
          rw [hc]
          exact ⟨by decide, by decide⟩
        · intro g hg
          rw [(e3 g hg).2]
          exact ⟨by decide, by decide⟩
      · injection h0 with h0 _; cases h0
    | step _ hs ih => exact ih.step hs
  have key : ∀ (fd : Int) (x : W Int),
      (do
        if ← helpBadf fd then return ERRNO_BADF
        if ← helpSock fd then return ERRNO_NOTSOCK
        x) s = .ok (if (openFile s fd).isSome then 57 else 8) s := by
    intro fd x
    cases hf : openFile s fd with
    | none => rw [gate_bad hf _ (by simp)]; rfl
    | some f =>
      obtain ⟨n, rfl, hn, -⟩ := openFile_nat hf
      have ht := inv.at hn
      rw [gate_open hf, if_neg Bool.false_ne_true]
      have : helpSock n s = .ok true s := by
        unfold helpSock
        rw [bind_ok (file_open hf)]
        show EStateM.Result.ok (decide (f.wasmType ≠ 5 ∧ f.wasmType ≠ 6)) s = _
        rw [decide_eq_true ht]
      rw [bind_ok this, if_pos rfl]
      rfl
  cases c
  all_goals first | (exact absurd hc Bool.false_ne_true) | skip
  all_goals
    refine (key _ _).trans ?_
    simp only [fds, List.all_cons, List.all_nil, Bool.and_true]

/-! ## The hypotheses are met -/

example := C74_filestat_partial removeOs statSt 4 _ (fileAt_eq statSt 4) (by decide +kernel) 128 (inMem _ _ _)
  ⟨.reg, 9, 1, 100, 10, 20, 30⟩ (by constructor <;> decide) (by decide +kernel) (by decide +kernel)
example := C75_time_partial (demoOs .dir) fsSt 1 .mono rfl 0 128 1000 (inMem _ _ _) (by decide) rfl
example := C76_tell (demoOs .reg) statSt 4 _ (fileAt_eq statSt 4) (by decide +kernel) (by decide +kernel) 128 0 (inMem _ _ _)
  (by decide) rfl
example := (C76_sync (demoOs .reg) statSt 4 _ (fileAt_eq statSt 4) (by decide +kernel) (by decide +kernel)).2 _ rfl
example := (C76_set_size (demoOs .reg) statSt 4 7 _ (fileAt_eq statSt 4) (by decide +kernel) (by decide +kernel)).2 _ rfl
example := C76_advise (demoOs .reg) statSt 4 0 10 0 _ (fileAt_eq statSt 4) (by decide +kernel)
example := C76_allocate_inside (demoOs .reg) statSt 4 _ (fileAt_eq statSt 4) (by decide +kernel) (by decide +kernel) 0 100 _ rfl
  (by decide)
example := C76_allocate_partial (demoOs .reg) statSt 4 _ (fileAt_eq statSt 4) (by decide +kernel) (by decide +kernel) 0 102
  ⟨.reg, 9, 1, 100, 10, 20, 30⟩ 2 (by decide) (by decide) 0 0 2 0 rfl rfl rfl rfl rfl
/-- The host of the examples with a source of random bytes. -/
def randomOs : Os where
  plat := .linux
  c := linux
  run l x :=
    match x with
    | .random n => .ok (List.replicate n.toNat 9)
    | x => (demoOs .dir).run l x
example := C75_random randomOs fsSt 128 3 (inMem _ _ _) [9, 9, 9] rfl rfl
example (c : Call) (hc : sockCall c = true) := C77_no_sockets (demoOs .reg) [['a'], ['b', 'c']] [(['/'], ['/', 's', 'r', 'v'])]
  [(['k'], ['v'])] (0, 1, 2) (['i'], ['o'], ['e']) (demoInit .reg) _ demo_init_ok (demo_reach .reg [.pathOpen 3 0 0 0 0 2 0 0 8]) c hc

end Pywasm.Props
