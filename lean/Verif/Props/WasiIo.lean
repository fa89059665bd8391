import Verif.Lemmas.WasiIov
import Verif.Spec.WasiDemo
import Verif.Spec.WasiNamed

/-!
# WASI: reading and writing

C44: scatter and gather.
-/

namespace Pywasm.Wasi
open WasiSpec

theorem helpPipe_run {s : St} {fd : Int} {f : File} (h : openFile s fd = some f) : helpPipe fd s = .ok (if fd < 3 then f.pipe else none) s := by
  unfold helpPipe
  split
  · rw [bind_ok (file_open h)]; rfl
  · rfl

/-- The three checks at the start of the calls below. -/
theorem gate_io {s : St} {fd : Int} {f : File} {k : Nat} (h : openFile s fd = some f) (ht : f.wasmType ≠ 3)
    (hr : has f.base k = true) (x : W Int) :
    (do
      if ← helpBadf fd then return ERRNO_BADF
      if ← helpIdir fd then return ERRNO_ISDIR
      if ← helpPerm fd (2 ^ k) then return ERRNO_NOTCAPABLE
      x) s = x s := by
  rw [gate_open h, if_neg Bool.false_ne_true, gate_idir h, if_neg, gate_perm h, if_neg]
  · rw [decide_eq_true_iff, and_pow_eq_zero, hr]; decide
  · rw [decide_eq_true_iff]; exact ht

theorem stored_inMem {s : St} {r k : Nat} (h : InMem s r k) (log : List Event) (l : List (Nat × Nat)) (ds : List Bytes) :
    InMem (stored { s with log := log } l ds) r k :=
  ⟨(stored_mem _ _ _).mpr h.1, by rw [stored_length]; exact h.2⟩

theorem putCount {t : St} {r k : Nat} (h : InMem t r 4) (hk : k < 2 ^ 32) :
    (do putU 4 r k; return ERRNO_SUCCESS : W Int) t = .ok 0 (write t r (Spec.bytesLE 4 k)) := by
  rw [bind_ok (putU_run h hk)]; rfl

theorem _root_.Pywasm.WasiSpec.Pieces.length {l : List (Nat × Nat)} {ds : List Bytes} (h : Pieces l ds) :
    ds.flatten.length ≤ (l.map (·.2)).sum := by
  induction h with
  | none => simp
  | short b l d h =>
    simp only [List.flatten_cons, List.flatten_nil, List.append_nil, List.map_cons, List.sum_cons]
    rcases h with h | ⟨h, rfl⟩
    · omega
    · simp
  | full b l d ds h h' t ih =>
    simp only [List.flatten_cons, List.length_append, List.map_cons, List.sum_cons]
    omega

end Pywasm.Wasi

namespace Pywasm.Props
open Wasi WasiSpec

/-- C44: `fd_write` of `n` iovecs at `p` to a host file hands the host, in one `write`, exactly the concatenation of the
buffers in order, and stores the number of bytes the host says it wrote at `r`; it changes nothing else.  The iovecs and
the buffers must lie in memory. -/
theorem wasi_fd_write (os : Os) (s : St) (fd : Int) (f : File) (hf : openFile s fd = some f) (ht : f.wasmType ≠ 3)
    (hr : has f.base 6 = true) (hpipe : fd < 3 → f.pipe = none) (p n r : Nat) (hp : InMem s p (8 * n))
    (hb : ∀ b ∈ iovecs s p n, b.1 + b.2 ≤ (bytes s).length) (hr4 : InMem s r 4) (k : Nat) (hk : k < 2 ^ 32)
    (hos : os.run s.log (.write f.hostFd (gathered s (iovecs s p n))) = .ok (k : Int)) :
    (Call.fdWrite fd p n r).run os s =
      .ok 0 (write { s with log := s.log ++ [⟨.write f.hostFd (gathered s (iovecs s p n)), .ok (k : Int)⟩] } r
        (Spec.bytesLE 4 k)) := by
  obtain ⟨m, hm, -⟩ := hr4.some
  show fdWrite os fd p n r s = _
  unfold fdWrite
  rw [show RIGHTS_FD_WRITE = 2 ^ 6 from rfl, gate_io hf ht hr, bind_ok (mems_run hm), bind_ok (file_open hf),
    Int.toNat_natCast, bind_ok (gather_run n p [] s hp hb), List.nil_append, bind_ok (helpPipe_run hf),
    show (if fd < 3 then f.pipe else none) = none from (by split <;> [exact hpipe ‹_›; rfl])]
  dsimp only
  rw [bind_ok (sys_ok hos)]
  rw [bind_ok (putU_run (s := s.event _ _) hr4 hk)]
  rfl

/-- C44: the same for a descriptor with a pipe object. -/
theorem wasi_fd_write_pipe (os : Os) (s : St) (fd : Int) (f : File) (hf : openFile s fd = some f) (ht : f.wasmType ≠ 3)
    (hr : has f.base 6 = true) (pid : Nat) (h3 : fd < 3) (hpipe : f.pipe = some pid) (p n r : Nat) (hp : InMem s p (8 * n))
    (hb : ∀ b ∈ iovecs s p n, b.1 + b.2 ≤ (bytes s).length) (hr4 : InMem s r 4) (k : Nat) (hk : k < 2 ^ 32)
    (hos : os.run s.log (.pipeWrite pid (gathered s (iovecs s p n))) = .ok (k : Int)) :
    (Call.fdWrite fd p n r).run os s =
      .ok 0 (write { s with log := s.log ++ [⟨.pipeWrite pid (gathered s (iovecs s p n)), .ok (k : Int)⟩] } r
        (Spec.bytesLE 4 k)) := by
  obtain ⟨m, hm, -⟩ := hr4.some
  show fdWrite os fd p n r s = _
  unfold fdWrite
  rw [show RIGHTS_FD_WRITE = 2 ^ 6 from rfl, gate_io hf ht hr, bind_ok (mems_run hm), bind_ok (file_open hf),
    Int.toNat_natCast, bind_ok (gather_run n p [] s hp hb), List.nil_append, bind_ok (helpPipe_run hf), if_pos h3, hpipe]
  dsimp only
  rw [bind_ok (sys_ok hos)]
  rw [bind_ok (putU_run (s := s.event _ _) hr4 hk)]
  rfl

/-- C44: the same for `fd_pwrite`, at the offset the guest gave. -/
theorem wasi_fd_pwrite (os : Os) (s : St) (fd : Int) (f : File) (hf : openFile s fd = some f) (ht : f.wasmType ≠ 3)
    (hr : has f.base 6 = true) (p n r : Nat) (off : Int) (hp : InMem s p (8 * n))
    (hb : ∀ b ∈ iovecs s p n, b.1 + b.2 ≤ (bytes s).length) (hr4 : InMem s r 4) (k : Nat) (hk : k < 2 ^ 32)
    (hos : os.run s.log (.pwrite f.hostFd (gathered s (iovecs s p n)) off) = .ok (k : Int)) :
    (Call.fdPwrite fd p n off r).run os s =
      .ok 0 (write { s with log := s.log ++ [⟨.pwrite f.hostFd (gathered s (iovecs s p n)) off, .ok (k : Int)⟩] } r
        (Spec.bytesLE 4 k)) := by
  obtain ⟨m, hm, -⟩ := hr4.some
  show fdPwrite os fd p n off r s = _
  unfold fdPwrite
  rw [show RIGHTS_FD_WRITE = 2 ^ 6 from rfl, gate_io hf ht hr, bind_ok (mems_run hm), bind_ok (file_open hf),
    Int.toNat_natCast, bind_ok (gather_run n p [] s hp hb), List.nil_append]
  rw [bind_ok (sys_ok hos)]
  rw [bind_ok (putU_run (s := s.event _ _) hr4 hk)]
  rfl

/-- C44: `fd_read` into the buffers of `n` iovecs at `p` from a host file that can be read.  The host is asked for one
piece for each buffer, in order, until a piece does not fill its buffer (`Pieces`); each piece is stored at the start of
its buffer, the total number of bytes is stored at `r`, and nothing else changes.  The iovecs and the buffers must lie in
memory, and no buffer may overlap the iovecs. -/
theorem wasi_fd_read (os : Os) (s : St) (fd : Int) (f : File) (hf : openFile s fd = some f) (ht : f.wasmType ≠ 3)
    (hr : has f.base 1 = true) (hpipe : fd < 3 → f.pipe = none) (p n r : Nat) (hp : InMem s p (8 * n))
    (hb : ∀ b ∈ iovecs s p n, b.1 + b.2 ≤ (bytes s).length ∧ (b.1 + b.2 ≤ p ∨ p + 8 * n ≤ b.1)) (hr4 : InMem s r 4)
    (hz : ((iovecs s p n).map (·.2)).sum < 2 ^ 32)
    (hos : ∀ l (k : Nat), ∃ d : Bytes, os.run l (.read f.hostFd k) = .ok d ∧ d.length ≤ k) :
    ∃ ds, Pieces (iovecs s p n) ds ∧
      (Call.fdRead fd p n r).run os s = .ok 0 (write (stored
        { s with log := s.log ++ pieceEvents (fun len _ d => ⟨.read f.hostFd len, .ok d⟩) 0 (iovecs s p n) ds }
        (iovecs s p n) ds) r (Spec.bytesLE 4 ds.flatten.length)) := by
  obtain ⟨m, hm, -⟩ := hr4.some
  choose ans h1 h2 using hos
  obtain ⟨ds, hds, hrun⟩ := readLoop_run
    (fun n _ => do
      match ← helpPipe fd with
      | none => sys os (.read f.hostFd n)
      | some p => sys os (.pipeRead p n))
    (fun l k _ => ans l k) (fun len _ d => ⟨.read f.hostFd len, .ok d⟩) s.fd (fun l k _ => h2 l k)
    (by
      intro t len k htf
      have hf' : openFile t fd = some f := by unfold openFile at hf ⊢; rw [htf]; exact hf
      rw [bind_ok (helpPipe_run hf'), show (if fd < 3 then f.pipe else none) = none by
        split
        · exact hpipe ‹_›
        · rfl]
      exact sys_ok (h1 _ _)) n p 0 s rfl hp hb
  refine ⟨ds, hds, ?_⟩
  show fdRead os fd p n r s = _
  unfold fdRead
  rw [show RIGHTS_FD_READ = 2 ^ 1 from rfl, gate_io hf ht hr, bind_ok (mems_run hm), bind_ok (file_open hf),
    Int.toNat_natCast]
  rw [show ((0 : Nat) : Int) = 0 from rfl] at hrun
  rw [Nat.zero_add] at hrun
  refine (bind_ok hrun).trans ?_
  exact putCount (stored_inMem hr4 _ _ _) (Nat.lt_of_le_of_lt hds.length hz)

/-- C44: the same for a descriptor with a pipe object. -/
theorem wasi_fd_read_pipe (os : Os) (s : St) (fd : Int) (f : File) (hf : openFile s fd = some f) (ht : f.wasmType ≠ 3)
    (hr : has f.base 1 = true) (pid : Nat) (h3 : fd < 3) (hpipe : f.pipe = some pid) (p n r : Nat)
    (hp : InMem s p (8 * n))
    (hb : ∀ b ∈ iovecs s p n, b.1 + b.2 ≤ (bytes s).length ∧ (b.1 + b.2 ≤ p ∨ p + 8 * n ≤ b.1)) (hr4 : InMem s r 4)
    (hz : ((iovecs s p n).map (·.2)).sum < 2 ^ 32)
    (hos : ∀ l (k : Nat), ∃ d : Bytes, os.run l (.pipeRead pid k) = .ok d ∧ d.length ≤ k) :
    ∃ ds, Pieces (iovecs s p n) ds ∧
      (Call.fdRead fd p n r).run os s = .ok 0 (write (stored
        { s with log := s.log ++ pieceEvents (fun len _ d => ⟨.pipeRead pid len, .ok d⟩) 0 (iovecs s p n) ds }
        (iovecs s p n) ds) r (Spec.bytesLE 4 ds.flatten.length)) := by
  obtain ⟨m, hm, -⟩ := hr4.some
  choose ans h1 h2 using hos
  obtain ⟨ds, hds, hrun⟩ := readLoop_run
    (fun n _ => do
      match ← helpPipe fd with
      | none => sys os (.read f.hostFd n)
      | some p => sys os (.pipeRead p n))
    (fun l k _ => ans l k) (fun len _ d => ⟨.pipeRead pid len, .ok d⟩) s.fd (fun l k _ => h2 l k)
    (by
      intro t len k htf
      have hf' : openFile t fd = some f := by unfold openFile at hf ⊢; rw [htf]; exact hf
      rw [bind_ok (helpPipe_run hf'), if_pos h3, hpipe]
      exact sys_ok (h1 _ _)) n p 0 s rfl hp hb
  refine ⟨ds, hds, ?_⟩
  show fdRead os fd p n r s = _
  unfold fdRead
  rw [show RIGHTS_FD_READ = 2 ^ 1 from rfl, gate_io hf ht hr, bind_ok (mems_run hm), bind_ok (file_open hf),
    Int.toNat_natCast]
  rw [show ((0 : Nat) : Int) = 0 from rfl] at hrun
  rw [Nat.zero_add] at hrun
  refine (bind_ok hrun).trans ?_
  exact putCount (stored_inMem hr4 _ _ _) (Nat.lt_of_le_of_lt hds.length hz)

/-- C44: the same for `fd_pread`: each piece is asked for at the offset the guest gave plus the number of bytes before
it. -/
theorem wasi_fd_pread (os : Os) (s : St) (fd : Int) (f : File) (hf : openFile s fd = some f) (ht : f.wasmType ≠ 3)
    (hr : has f.base 1 = true) (p n r : Nat) (off : Int) (hp : InMem s p (8 * n))
    (hb : ∀ b ∈ iovecs s p n, b.1 + b.2 ≤ (bytes s).length ∧ (b.1 + b.2 ≤ p ∨ p + 8 * n ≤ b.1)) (hr4 : InMem s r 4)
    (hz : ((iovecs s p n).map (·.2)).sum < 2 ^ 32)
    (hos : ∀ l (k j : Nat), ∃ d : Bytes, os.run l (.pread f.hostFd k (off + j)) = .ok d ∧ d.length ≤ k) :
    ∃ ds, Pieces (iovecs s p n) ds ∧
      (Call.fdPread fd p n off r).run os s = .ok 0 (write (stored
        { s with log := s.log ++ pieceEvents (fun len k d => ⟨.pread f.hostFd len (off + k), .ok d⟩) 0 (iovecs s p n) ds }
        (iovecs s p n) ds) r (Spec.bytesLE 4 ds.flatten.length)) := by
  obtain ⟨m, hm, -⟩ := hr4.some
  choose ans h1 h2 using hos
  obtain ⟨ds, hds, hrun⟩ := readLoop_run (fun n d => sys os (.pread f.hostFd n (off + d)))
    ans (fun len k d => ⟨.pread f.hostFd len (off + k), .ok d⟩) s.fd h2
    (fun t len k htf => sys_ok (h1 _ _ _)) n p 0 s rfl hp hb
  refine ⟨ds, hds, ?_⟩
  show fdPread os fd p n off r s = _
  unfold fdPread
  rw [show RIGHTS_FD_READ = 2 ^ 1 from rfl, gate_io hf ht hr, bind_ok (mems_run hm), bind_ok (file_open hf),
    Int.toNat_natCast]
  rw [show ((0 : Nat) : Int) = 0 from rfl] at hrun
  rw [Nat.zero_add] at hrun
  refine (bind_ok hrun).trans ?_
  exact putCount (stored_inMem hr4 _ _ _) (Nat.lt_of_le_of_lt hds.length hz)

/-- The pieces stored can be found again: if the buffers do not overlap, after storing the pieces each buffer starts with
its piece, and every byte that is in no buffer is what it was. -/
theorem wasi_stored (s : St) (hs : s.mem ≠ none) (l : List (Nat × Nat)) (ds : List Bytes) (hp : Pieces l ds)
    (hb : ∀ b ∈ l, b.1 + b.2 ≤ (bytes s).length) (hd : l.Pairwise fun a b => a.1 + a.2 ≤ b.1 ∨ b.1 + b.2 ≤ a.1) :
    (∀ (i : Nat) (d : Bytes), ds[i]? = some d → ∃ b, l[i]? = some b ∧ d.length ≤ b.2 ∧
      Spec.range (bytes (stored s l ds)) b.1 d.length = d) ∧
    ∀ a, (∀ b ∈ l, a < b.1 ∨ b.1 + b.2 ≤ a) → (bytes (stored s l ds))[a]? = (bytes s)[a]? := by
  have other : ∀ (l : List (Nat × Nat)) (ds : List Bytes) (s : St), Pieces l ds → s.mem ≠ none →
      ∀ a, (∀ b ∈ l, a < b.1 ∨ b.1 + b.2 ≤ a) → (bytes (stored s l ds))[a]? = (bytes s)[a]? := by
    intro l ds s hp
    induction hp generalizing s with
    | none => intro _ a _; rfl
    | short b l d h =>
      intro hs a ha
      have := ha b List.mem_cons_self
      unfold stored
      have e : stored (write s b.1 d) l [] = write s b.1 d := by cases l <;> rfl
      rw [e, bytes_write hs, getElem?_patch, if_neg (by rcases h with h | ⟨h, rfl⟩ <;> simp at * <;> omega)]
    | full b l d ds h h' t ih =>
      intro hs a ha
      have := ha b List.mem_cons_self
      unfold stored
      rw [ih _ ((write_mem _ _).mpr hs) a fun c hc => ha c (List.mem_cons_of_mem _ hc), bytes_write hs, getElem?_patch,
        if_neg (by omega)]
  refine ⟨?_, other l ds s hp hs⟩
  induction hp generalizing s with
  | none => intro i d h; simp at h
  | short b l d h =>
    intro i e he
    have e0 : stored s (b :: l) [d] = write s b.1 d := by unfold stored; cases l <;> rfl
    cases i with
    | succ i => simp at he
    | zero =>
      simp only [List.getElem?_cons_zero, Option.some.injEq] at he
      subst he
      have hl : d.length ≤ b.2 := by rcases h with h | ⟨h, rfl⟩ <;> simp at *; omega
      have := hb b List.mem_cons_self
      exact ⟨b, rfl, hl, by rw [e0, bytes_write hs, range_patch_self (by omega)]⟩
  | full b l d ds h h' t ih =>
    rw [List.pairwise_cons] at hd
    have hb0 := hb b List.mem_cons_self
    intro i e he
    cases i with
    | succ i =>
      exact ih (write s b.1 d) ((write_mem _ _).mpr hs) (fun c hc => by rw [length_write]; exact hb c (List.mem_cons_of_mem _ hc))
        hd.2 i e he
    | zero =>
      simp only [List.getElem?_cons_zero, Option.some.injEq] at he
      subst he
      refine ⟨b, rfl, by omega, ?_⟩
      unfold stored
      rw [show Spec.range (bytes (stored (write s b.1 d) l ds)) b.1 d.length
        = Spec.range (bytes (write s b.1 d)) b.1 d.length from ?_, bytes_write hs, range_patch_self (by omega)]
      apply List.ext_getElem?
      intro j
      unfold Spec.range
      simp only [List.getElem?_take, List.getElem?_drop]
      split
      · refine other l ds _ t ((write_mem _ _).mpr hs) _ fun c hc => ?_
        have := hd.1 c hc
        omega
      · rfl

/-! ## Example

Descriptor 4 is a regular file opened for reading and writing; two iovecs at 16 name the buffers 64..67 and 80..85.
The host's file consists of the byte 7. -/

/-- The demo instance after opening `x`, with a memory that holds the name and the iovecs. -/
def ioSt : St :=
  let s := demoSt .dir
  let s := write s 0 [120]
  let s := write s 16 (Spec.bytesLE 4 64 ++ Spec.bytesLE 4 3 ++ Spec.bytesLE 4 80 ++ Spec.bytesLE 4 5)
  let s := write s 64 [1, 2, 3]
  let s := write s 80 [4, 5, 6, 7, 8]
  runs (demoOs .reg) [.pathOpen 3 0 0 1 0 66 66 0 100] s

example : ((openFile ioSt 4).map fun f => (f.wasmType, has f.base 6, has f.base 1, f.pipe, f.hostFd)) =
    some (4, true, true, none, 4) := by decide +kernel
example : iovecs ioSt 16 2 = [(64, 3), (80, 5)] := by decide +kernel
example : gathered ioSt (iovecs ioSt 16 2) = [1, 2, 3, 4, 5, 6, 7, 8] := by decide +kernel
example : numAt (after ((Call.fdWrite 4 16 2 120).run (demoOs .reg)) ioSt) 120 4 = 8 := by decide +kernel
example : let s := after ((Call.fdRead 4 16 2 120).run (demoOs .reg)) ioSt
    Spec.range (bytes s) 64 24 = [7, 7, 7] ++ List.replicate 13 0 ++ [7, 7, 7, 7, 7, 0, 0, 0] ∧ numAt s 120 4 = 8 := by
  decide +kernel
example : ∀ l (k : Nat), ∃ d : Bytes, (demoOs .reg).run l (.read 4 k) = .ok d ∧ d.length ≤ k :=
  fun l k => ⟨List.replicate k 7, rfl, by simp⟩
example : Pieces [(64, 3), (80, 5)] [[7, 7, 7], [7, 7, 7, 7, 7]] :=
  .full _ _ _ _ rfl (by simp) (.full _ _ _ _ rfl (by simp) .none)

/-! ## The hypotheses are met -/

theorem ioVecs_fit : ∀ b ∈ iovecs ioSt 16 2, b.1 + b.2 ≤ (bytes ioSt).length ∧ (b.1 + b.2 ≤ 16 ∨ 16 + 8 * 2 ≤ b.1) := by decide +kernel
theorem ioFile : ∃ f, openFile ioSt 4 = some f ∧ f.wasmType ≠ 3 ∧ has f.base 6 = true ∧ has f.base 1 = true :=
  ⟨_, fileAt_eq ioSt 4, by decide +kernel, by decide +kernel, by decide +kernel⟩
theorem ioGathered : (gathered ioSt (iovecs ioSt 16 2)).length = 8 := by decide +kernel
theorem demo_write (l : List Event) (h : Int) (d : Bytes) : (demoOs .reg).run l (.write h d) = .ok (d.length : Int) := rfl
theorem demo_pwrite (l : List Event) (h o : Int) (d : Bytes) : (demoOs .reg).run l (.pwrite h d o) = .ok (d.length : Int) := rfl
example := ioFile.imp fun f h => wasi_fd_write (demoOs .reg) ioSt 4 f h.1 h.2.1 h.2.2.1 (fun h => absurd h (by decide)) 16 2 120 (inMem _ _ _)
  (fun b h => (ioVecs_fit b h).1) (inMem _ _ _) 8 (by decide) (by rw [demo_write, ioGathered])
example := ioFile.imp fun f h => wasi_fd_pwrite (demoOs .reg) ioSt 4 f h.1 h.2.1 h.2.2.1 16 2 120 5 (inMem _ _ _)
  (fun b h => (ioVecs_fit b h).1) (inMem _ _ _) 8 (by decide) (by rw [demo_pwrite, ioGathered])
example := ioFile.imp fun f h => wasi_fd_read (demoOs .reg) ioSt 4 f h.1 h.2.1 h.2.2.2 (fun h => absurd h (by decide)) 16 2 120 (inMem _ _ _)
  ioVecs_fit (inMem _ _ _) (by decide +kernel) fun l k => ⟨List.replicate k 7, rfl, by simp⟩
example := ioFile.imp fun f h => wasi_fd_pread (demoOs .reg) ioSt 4 f h.1 h.2.1 h.2.2.2 16 2 120 5 (inMem _ _ _)
  ioVecs_fit (inMem _ _ _) (by decide +kernel) fun l k o => ⟨List.replicate k 7, rfl, by simp⟩
/-- The host with pipes that take and give everything. -/
def pipeOs : Os where
  plat := .linux
  c := linux
  run l x :=
    match x with
    | .pipeWrite _ d => .ok d.length
    | .pipeRead _ n => .ok (List.replicate n.toNat 7)
    | x => (demoOs .reg).run l x
/-- Standard input and output are given pipes. -/
def pipeSt : St := { ioSt with fd := (ioSt.fd.modify 0 fun f => { f with pipe := some 0 }).modify 1 fun f => { f with pipe := some 1 } }
theorem pipeVecs_fit : ∀ b ∈ iovecs pipeSt 16 2, b.1 + b.2 ≤ (bytes pipeSt).length ∧ (b.1 + b.2 ≤ 16 ∨ 16 + 8 * 2 ≤ b.1) := by
  decide +kernel
theorem pipeGathered : (gathered pipeSt (iovecs pipeSt 16 2)).length = 8 := by decide +kernel
theorem pipeOut : ∃ f, openFile pipeSt 1 = some f ∧ f.wasmType ≠ 3 ∧ has f.base 6 = true ∧ f.pipe = some 1 :=
  ⟨_, fileAt_eq pipeSt 1, by decide +kernel, by decide +kernel, by decide +kernel⟩
theorem pipeIn : ∃ f, openFile pipeSt 0 = some f ∧ f.wasmType ≠ 3 ∧ has f.base 1 = true ∧ f.pipe = some 0 :=
  ⟨_, fileAt_eq pipeSt 0, by decide +kernel, by decide +kernel, by decide +kernel⟩
theorem pipe_write (l : List Event) (h : Nat) (d : Bytes) : pipeOs.run l (.pipeWrite h d) = .ok (d.length : Int) := rfl
example := pipeOut.imp fun f h => wasi_fd_write_pipe pipeOs pipeSt 1 f h.1 h.2.1 h.2.2.1 1 (by decide) h.2.2.2 16 2 120
  (inMem _ _ _) (fun b h => (pipeVecs_fit b h).1) (inMem _ _ _) 8 (by decide) (by rw [pipe_write, pipeGathered])
example := pipeIn.imp fun f h => wasi_fd_read_pipe pipeOs pipeSt 0 f h.1 h.2.1 h.2.2.1 0 (by decide) h.2.2.2 16 2 120
  (inMem _ _ _) pipeVecs_fit (inMem _ _ _) (by decide +kernel) fun l k => ⟨List.replicate k 7, rfl, by simp⟩
example := wasi_stored ioSt (by decide +kernel) [(64, 3), (80, 5)] [[7, 7, 7], [7, 7, 7, 7, 7]]
  (.full _ _ _ _ rfl (by simp) (.full _ _ _ _ rfl (by simp) .none)) (by decide +kernel) (by decide)

end Pywasm.Props
