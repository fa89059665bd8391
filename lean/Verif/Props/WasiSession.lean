import Verif.Props.WasiFile
import Verif.Props.WasiStat

/-!
# WASI: a descriptor of a regular file is a file with an offset

C94: "Whatever sequence of successful fd_read, fd_pread, fd_write, fd_pwrite, fd_seek and fd_tell calls a guest makes on a descriptor of a
regular file, with buffers that are not empty, changing its memory and making other calls meanwhile that do not touch the file: what it
reads, and the counts and offsets it is told, are those of a file with an offset on which the operations are done one after the other."

The file with an offset is `WasiSpec.FileState` with `FileOp.Run`; `WasiSpec.RegularFile` says what is expected of the host.
-/

namespace Pywasm.Props
open WasiSpec Wasi

/-- The buffers of a writing call: the `n` iovecs at `p`, the buffers and the place `r` of the result lie in memory. -/
structure Sources (s : St) (p n r : Nat) : Prop where
  iovs : InMem s p (8 * n)
  inside : ∀ b ∈ iovecs s p n, b.1 + b.2 ≤ (bytes s).length
  result : InMem s r 4
  size : (gathered s (iovecs s p n)).length < 2 ^ 32

/-- The number of bytes that the `n` buffers named at `p` have. -/
def room (s : St) (p n : Nat) : Nat := ((iovecs s p n).map (·.2)).sum

variable (os : Os) (fd : Int) (f : File)

/-- A successful call on the descriptor `fd`, which is the file `f`, from one state to another, and what the guest learns from it: the bytes
are those found in the buffers after a reading call, as many as the call reported, and in the buffers before a writing call. -/
inductive FileCall (s t : St) : FileOp → Prop
  | read (p n r : Nat) (hr : has f.base 1 = true) (hB : Buffers s p n r (2 ^ 32 - 1)) (h : (Call.fdRead fd p n r).run os s = .ok 0 t) :
      FileCall s t (.read (room s p n) ((gathered t (iovecs s p n)).take (numAt t r 4)))
  | pread (p n o r : Nat) (hr : has f.base 1 = true) (hB : Buffers s p n r (2 ^ 32 - 1)) (h : (Call.fdPread fd p n o r).run os s = .ok 0 t) :
      FileCall s t (.pread (room s p n) o ((gathered t (iovecs s p n)).take (numAt t r 4)))
  | write (p n r : Nat) (hr : has f.base 6 = true) (hB : Sources s p n r) (h : (Call.fdWrite fd p n r).run os s = .ok 0 t) :
      FileCall s t (.write (gathered s (iovecs s p n)) (numAt t r 4))
  | pwrite (p n o r : Nat) (hr : has f.base 6 = true) (hB : Sources s p n r) (h : (Call.fdPwrite fd p n o r).run os s = .ok 0 t) :
      FileCall s t (.pwrite (gathered s (iovecs s p n)) o (numAt t r 4))
  | seek (x w : Int) (r : Nat) (hw : w = 0 ∨ w = 1 ∨ w = 2) (hr : has f.base 2 = true) (hm : InMem s r 8)
      (h : (Call.fdSeek fd x w r).run os s = .ok 0 t) : FileCall s t (.seek x w (numAt t r 8))
  | tell (r : Nat) (hr : has f.base 5 = true) (hm : InMem s r 8) (h : (Call.fdTell fd r).run os s = .ok 0 t) :
      FileCall s t (.tell (numAt t r 8))

/-- A history of such calls.  Between them the guest changes its memory as it likes, and makes other calls that leave the descriptor and
the file as they are. -/
inductive FileHistory (content : List Event → Bytes) (offset : List Event → Nat) : St → List FileOp → St → Prop
  | nil (s : St) : FileHistory content offset s [] s
  | op {s t u : St} {op : FileOp} {ops : List FileOp} (h : FileCall os fd f s t op) (tl : FileHistory content offset t ops u) :
      FileHistory content offset s (op :: ops) u
  | guest {s u : St} (m : Option MemInst) {ops : List FileOp} (tl : FileHistory content offset { s with mem := m } ops u) :
      FileHistory content offset s ops u
  | other {s t u : St} (c : Call) (e : Int) {ops : List FileOp} (h : c.run os s = .ok e t) (hf : openFile t fd = openFile s fd)
      (hc : content t.log = content s.log) (ho : offset t.log = offset s.log) (tl : FileHistory content offset t ops u) :
      FileHistory content offset s ops u

variable {os fd f} {content : List Event → Bytes} {offset : List Event → Nat}

/-- What the guest finds after a reading call. -/
theorem read_seen {s t : St} {p n r k : Nat} (hB : Buffers s p n r k) (hk : k < 2 ^ 32) {ds : List Bytes} {log : List Event}
    (hp : Pieces (iovecs s p n) ds) (hds : ds.flatten.length ≤ room s p n)
    (ht : t = write (stored { s with log := log } (iovecs s p n) ds) r (Spec.bytesLE 4 ds.flatten.length)) :
    (gathered t (iovecs s p n)).take (numAt t r 4) = ds.flatten := by
  subst ht
  have hs := hB.size
  unfold room at hds
  rw [numAt_write_self (stored_inMem hB.result _ _ _) (by show _ < 4294967296; omega)]
  refine gathered_pieces hp fun i d hi => ?_
  obtain ⟨b, h1, h2, h3⟩ := (wasi_stored { s with log := log } hB.iovs.1 _ _ hp (fun b h => (hB.inside b h).1) hB.apart).1 i d hi
  refine ⟨b, h1, h2, ?_⟩
  have ha := hB.away b (List.mem_of_getElem? h1)
  have hm : (stored { s with log := log } (iovecs s p n) ds).mem ≠ none := (stored_mem { s with log := log } _ _).mpr hB.iovs.1
  rw [bytes_write hm, range_patch_other (by rw [Spec.bytesLE_length]; omega)]
  exact h3

/-- A number that is too large is not stored. -/
theorem putU_large {s : St} {k p v : Nat} (h : InMem s p k) (hv : ¬ v < 256 ^ k) : putU k p v s = .error .struct s := by
  obtain ⟨m, hm, -, hl⟩ := h.some
  unfold putU
  rw [bind_ok (mems_run hm)]
  have : m.putU k (p : Int) (v : Int) = .error .struct := by
    unfold MemInst.putU Py.packU
    rw [if_neg fun h => hv (by exact_mod_cast h.2)]
    rfl
  rw [this]
  rfl

/-- One call. -/
theorem C94_call (hfile : RegularFile os f.hostFd content offset) (ht : f.wasmType ≠ 3) (hpipe : fd < 3 → f.pipe = none) {s t : St}
    {op : FileOp} (hg : Genuine os s.log) (hf : openFile s fd = some f) (h : FileCall os fd f s t op) :
    op.Does ⟨content s.log, offset s.log⟩ ⟨content t.log, offset t.log⟩ ∧ t.fd = s.fd := by
  cases h with
  | read p n r hr hB h =>
    obtain ⟨ds, log, hds, hfl, hcl, hol, hrd⟩ := C93_read_partial hg hf ht hr hpipe hfile p n r hB.iovs hB.inside hB.result
      (Nat.lt_of_le_of_lt hB.size (by decide)) hB.nonempty
    rw [h] at hrd
    injection hrd with _ e
    have hlog : t.log = log := by rw [e]; exact stored_log _ _ _
    have hfd : t.fd = s.fd := by rw [e]; exact stored_fd _ _ _
    refine ⟨?_, hfd⟩
    rw [read_seen hB (by decide) hds (by rw [hfl, List.length_take]; exact Nat.min_le_left _ _) e, hlog, hcl, hol, hfl]
    exact .read _ _ _
  | pread p n o r hr hB h =>
    obtain ⟨ds, log, hds, hfl, hcl, hol, hrd⟩ := C93_pread_partial hg hf ht hr hfile p n r o hB.iovs hB.inside hB.result
      (Nat.lt_of_le_of_lt hB.size (by decide)) hB.nonempty
    rw [h] at hrd
    injection hrd with _ e
    have hlog : t.log = log := by rw [e]; exact stored_log _ _ _
    have hfd : t.fd = s.fd := by rw [e]; exact stored_fd _ _ _
    refine ⟨?_, hfd⟩
    rw [read_seen hB (by decide) hds (by rw [hfl, List.length_take]; exact Nat.min_le_left _ _) e, hlog, hcl, hol, hfl]
    exact .pread _ _ _ _
  | write p n r hr hB h =>
    obtain ⟨k, hk, hos⟩ := hfile.write s.log (gathered s (iovecs s p n))
    have hz := hB.size
    have hrun := wasi_fd_write os s fd f hf ht hr hpipe p n r hB.iovs hB.inside hB.result k (by omega) hos
    have ha := hfile.after_write s.log (gathered s (iovecs s p n)) k
    rw [h] at hrun
    injection hrun with _ e
    have hlog : t.log = s.log ++ [⟨.write f.hostFd (gathered s (iovecs s p n)), .ok (k : Int)⟩] := by rw [e]; rfl
    have hfd : t.fd = s.fd := by rw [e]; rfl
    have hnum : numAt t r 4 = k := by
      rw [e]; exact numAt_write_self (s := { s with log := _ }) hB.result (by show _ < 4294967296; omega)
    rw [← hlog] at ha
    refine ⟨?_, hfd⟩
    rw [hnum, ha.1, ha.2]
    exact .write _ _ _ _ hk
  | pwrite p n o r hr hB h =>
    obtain ⟨k, hk, hos⟩ := hfile.pwrite s.log (gathered s (iovecs s p n)) o
    have hz := hB.size
    have hrun := wasi_fd_pwrite os s fd f hf ht hr p n r o hB.iovs hB.inside hB.result k (by omega) hos
    have ha := hfile.after_pwrite s.log (gathered s (iovecs s p n)) o k
    rw [h] at hrun
    injection hrun with _ e
    have hlog : t.log = s.log ++ [⟨.pwrite f.hostFd (gathered s (iovecs s p n)) o, .ok (k : Int)⟩] := by rw [e]; rfl
    have hfd : t.fd = s.fd := by rw [e]; rfl
    have hnum : numAt t r 4 = k := by
      rw [e]; exact numAt_write_self (s := { s with log := _ }) hB.result (by show _ < 4294967296; omega)
    rw [← hlog] at ha
    refine ⟨?_, hfd⟩
    rw [hnum, ha.1, ha.2]
    exact .pwrite _ _ _ _ _ hk
  | seek x w r hw hr hm h =>
    obtain ⟨b, hb⟩ : ∃ b, whenceBase (content s.log) (offset s.log) w = some b := by
      rcases hw with rfl | rfl | rfl <;> exact ⟨_, rfl⟩
    have hos := hfile.seek s.log w 0 b b hb (by omega)
    have ha := hfile.after_seek s.log 0 w b
    have hb' : whenceBase (content (s.log ++ [⟨.lseek f.hostFd 0 w, .ok (b : Int)⟩]))
        (offset (s.log ++ [⟨.lseek f.hostFd 0 w, .ok (b : Int)⟩])) w = some b := by
      rw [ha.1, ha.2]
      rcases hw with rfl | rfl | rfl
      · exact hb
      · rfl
      · exact hb
    rcases Int.lt_or_le (b + x) 0 with hneg | hpos
    · obtain ⟨m, hm', -⟩ := hm.some
      rw [wasi_seek_before_start os s fd f hf ht hr (by rw [hm']; rfl) x w b r hos hneg] at h
      injection h with h _
      exact absurd h (by decide)
    obtain ⟨k, hk⟩ : ∃ k : Nat, (b : Int) + x = k := ⟨((b : Int) + x).toNat, by omega⟩
    have hos2 := hfile.seek _ w x b k hb' hk
    have ha2 := hfile.after_seek (s.log ++ [⟨.lseek f.hostFd 0 w, .ok (b : Int)⟩]) x w k
    rw [ha.1] at ha2
    have hlt : k < 2 ^ 64 := by
      by_contra hge
      obtain ⟨m, hm', -⟩ := hm.some
      have hbad : (Call.fdSeek fd x w r).run os s = .error .struct { s with log :=
          s.log ++ [⟨.lseek f.hostFd 0 w, .ok (b : Int)⟩] ++ [⟨.lseek f.hostFd x w, .ok (k : Int)⟩] } := by
        show fdSeek os fd x w r s = _
        unfold fdSeek
        rw [show RIGHTS_FD_SEEK = 2 ^ 2 from rfl, gate_io hf ht hr, bind_ok (mems_run hm'), bind_ok (file_open hf),
          bind_ok (sys_ok hos), if_neg (by omega), bind_ok (sys_ok (s := s.event _ _) hos2)]
        exact bind_err (putU_large (s := (s.event _ _).event _ _) hm hge)
      rw [hbad] at h
      injection h
    have hrun := wasi_seek_moves os s fd f hf ht hr x w b k r hm hlt hos hpos hos2
    rw [h] at hrun
    injection hrun with _ e
    have hlog : t.log = s.log ++ [⟨.lseek f.hostFd 0 w, .ok (b : Int)⟩] ++ [⟨.lseek f.hostFd x w, .ok (k : Int)⟩] := by rw [e]; rfl
    have hfd : t.fd = s.fd := by rw [e]; rfl
    have hnum : numAt t r 8 = k := by
      rw [e]; exact numAt_write_self (s := { s with log := _ }) hm hlt
    rw [← hlog] at ha2
    refine ⟨?_, hfd⟩
    rw [hnum, ha2.1, ha2.2]
    exact .seek _ _ _ _ b k hb hk
  | tell r hr hm h =>
    have hos := hfile.seek s.log 1 0 (offset s.log) (offset s.log) rfl (by omega)
    have hlt : offset s.log < 2 ^ 64 := by
      by_contra hge
      obtain ⟨m, hm', -⟩ := hm.some
      have hbad : (Call.fdTell fd r).run os s = .error .struct (answered s (.lseek f.hostFd 0 1) (.ok (offset s.log : Int))) := by
        show fdTell os fd r s = _
        unfold fdTell
        rw [show RIGHTS_FD_TELL = 2 ^ 5 from rfl, gate_io hf ht hr, bind_ok (mems_run hm'), bind_ok (file_open hf)]
        refine (bind_ok (sys_ok hos)).trans ?_
        exact bind_err (putU_large (s := answered s (.lseek f.hostFd 0 1) (.ok (offset s.log : Int))) hm hge)
      rw [hbad] at h
      injection h
    have hrun := C76_tell os s fd f hf ht hr r (offset s.log) hm hlt hos
    have ha := hfile.after_seek s.log 0 1 (offset s.log)
    rw [h] at hrun
    injection hrun with _ e
    have hlog : t.log = s.log ++ [⟨.lseek f.hostFd 0 1, .ok (offset s.log : Int)⟩] := by rw [e]; rfl
    have hfd : t.fd = s.fd := by rw [e]; rfl
    have hnum : numAt t r 8 = offset s.log := by
      rw [e]; exact numAt_write_self (s := { s with log := _ }) hm hlt
    rw [← hlog] at ha
    refine ⟨?_, hfd⟩
    rw [hnum, ha.1, ha.2]
    exact .tell _ _

/-- **C94** A descriptor of a regular file is a file with an offset: everything the guest reads and is told in a history of successful calls
is what it would be if the operations were done on such a file one after the other. -/
theorem C94_history (hfile : RegularFile os f.hostFd content offset) (ht : f.wasmType ≠ 3) (hpipe : fd < 3 → f.pipe = none) {s t : St}
    {ops : List FileOp} (h : FileHistory os fd f content offset s ops t) (hg : Genuine os s.log) (hf : openFile s fd = some f) :
    FileOp.Run ops ⟨content s.log, offset s.log⟩ ⟨content t.log, offset t.log⟩ := by
  induction h with
  | nil s => exact .nil _
  | op h _ ih =>
    obtain ⟨hd, hfd⟩ := C94_call hfile ht hpipe hg hf h
    refine .cons hd (ih ?_ ((openFile_fd hfd fd).trans hf))
    cases h with
    | read _ _ _ _ _ h => exact genuine_ok h hg
    | pread _ _ _ _ _ _ h => exact genuine_ok h hg
    | write _ _ _ _ _ h => exact genuine_ok h hg
    | pwrite _ _ _ _ _ _ h => exact genuine_ok h hg
    | seek _ _ _ _ _ _ h => exact genuine_ok h hg
    | tell _ _ _ h => exact genuine_ok h hg
  | guest m _ ih => exact ih hg hf
  | other c e h hf' hc ho _ ih =>
    have := ih (genuine_ok h hg) (hf'.trans hf)
    rw [hc, ho] at this
    exact this

/-! ## Example

The guest of `Props/WasiFile.lean` writes two buffers, of which the host takes six bytes, goes back by four from there, and reads. -/

/-- After the write, after the seek, and after the read. -/
def sess1 : St := after ((Call.fdWrite 4 16 2 140).run fileOs) fileSt
def sess2 : St := after ((Call.fdSeek 4 (-4) 1 144).run fileOs) sess1
def sess3 : St := after ((Call.fdRead 4 32 1 152).run fileOs) sess2
theorem sess2_iovecs : iovecs sess2 32 1 = [(96, 6)] := by decide +kernel
theorem sess2_length : (bytes sess2).length = 256 := by decide +kernel

theorem sess0_gathered : gathered fileSt (iovecs fileSt 16 2) = [1, 2, 3, 4, 5, 6, 7, 8] := by decide +kernel
theorem sess1_count : numAt sess1 140 4 = 6 := by decide +kernel
theorem sess2_offset : numAt sess2 144 8 = 2 := by decide +kernel
theorem sess3_count : numAt sess3 152 4 = 4 := by decide +kernel
theorem sess3_gathered : (gathered sess3 [(96, 6)]).take 4 = [3, 4, 5, 6] := by decide +kernel
theorem sess1_run : (Call.fdWrite 4 16 2 140).run fileOs fileSt = .ok 0 sess1 := of_returns (by decide +kernel)
theorem sess2_run : (Call.fdSeek 4 (-4) 1 144).run fileOs sess1 = .ok 0 sess2 := of_returns (by decide +kernel)
theorem sess3_run : (Call.fdRead 4 32 1 152).run fileOs sess2 = .ok 0 sess3 := of_returns (by decide +kernel)
theorem sess1_in : InMem sess1 144 8 := inMem _ _ _
theorem sess0_sources : Sources fileSt 16 2 140 := ⟨inMem _ _ _, by decide +kernel, inMem _ _ _, by rw [sess0_gathered]; decide⟩
theorem sess2_buffers : Buffers sess2 32 1 152 (2 ^ 32 - 1) := by
  refine ⟨inMem _ _ _, inMem _ _ _, ?_, ?_, ?_, ?_, ?_⟩ <;> rw [sess2_iovecs] <;> simp [sess2_length]

theorem sess_history (f : File) (h1 : has f.base 1 = true) (h2 : has f.base 2 = true) (h6 : has f.base 6 = true)
    (content : List Event → Bytes) (offset : List Event → Nat) :
    FileHistory fileOs 4 f content offset fileSt [.write [1, 2, 3, 4, 5, 6, 7, 8] 6, .seek (-4) 1 2, .read 6 [3, 4, 5, 6]] sess3 := by
  have a := FileCall.write (f := f) 16 2 140 h6 sess0_sources sess1_run
  have b := FileCall.seek (f := f) (-4) 1 144 (.inr (.inl rfl)) h2 sess1_in sess2_run
  have c := FileCall.read (f := f) 32 1 152 h1 sess2_buffers sess3_run
  rw [sess0_gathered, sess1_count] at a
  rw [sess2_offset] at b
  unfold room at c
  rw [sess2_iovecs, sess3_count, sess3_gathered] at c
  exact .op a (.op b (.op c (.nil _)))

example : ∃ x y, FileOp.Run [.write [1, 2, 3, 4, 5, 6, 7, 8] 6, .seek (-4) 1 2, .read 6 [3, 4, 5, 6]] x y := by
  obtain ⟨f, hf, ht, h6, h1, h2⟩ := fileSt_file
  exact ⟨_, _, C94_history (fileOs_regular f.hostFd) ht (fun h => absurd h (by decide)) (sess_history f h1 h2 h6 _ _) fileSt_genuine hf⟩

end Pywasm.Props
