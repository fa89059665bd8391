import Verif.Lemmas.WasiFile
import Verif.Props.WasiFdstat
import Verif.Props.WasiDir

/-!
# WASI: files keep what the guest writes

C93: "On a host with regular files a guest reads back what it wrote: after fd_pwrite, or fd_write and fd_seek, has reported a
number of bytes, fd_pread, or fd_read, from there gets those bytes, whatever buffers they are split into on either side."

`WasiSpec.RegularFile` says what is expected of the host.

This is false if one of the buffers read into is empty: reading stops there, and if it is the first, the call reports 0 bytes, which means
the end of the file (`C93_empty_buffer`, `C93_refuted`).  The theorems named `_partial` are about buffers that are not empty.
-/

namespace Pywasm.Props
open WasiSpec Wasi

/-- The recorded history is what really happened: whatever the guest does, every answer in it is the one the host gave. -/
theorem C93_genuine {os : Os} {s t : St} (h : Reach os s t) (hg : Genuine os s.log) : Genuine os t.log := by
  induction h with
  | refl => exact hg
  | step _ h ih =>
    cases h with
    | call c => exact (Keeps.call os c).run _ ih
    | guest => exact ih
    | pipe => exact ih

theorem stored_log (t : St) (l : List (Nat × Nat)) (ds : List Bytes) : (stored t l ds).log = t.log := by
  induction l generalizing t ds with
  | nil => rfl
  | cons b l ih => cases ds with
    | nil => rfl
    | cons d ds => exact ih _ _

/-- A call that returned has kept the history genuine. -/
theorem genuine_ok {os : Os} {c : Call} {s t : St} {e : Int} (h : c.run os s = .ok e t) (hg : Genuine os s.log) : Genuine os t.log := by
  have hk := (Keeps.call os c).run s hg
  unfold after at hk
  rw [h] at hk
  exact hk

variable {os : Os} {s : St} {fd : Int} {f : File} {content : List Event → Bytes} {offset : List Event → Nat}

/-- **C93** `fd_pread` of a regular file gets the bytes at the offset given, as many as the buffers take and the file has, in the order of
the buffers. -/
theorem C93_pread_partial (hg : Genuine os s.log) (hf : openFile s fd = some f) (ht : f.wasmType ≠ 3) (hr : has f.base 1 = true)
    (hfile : RegularFile os f.hostFd content offset) (p n r off : Nat) (hp : InMem s p (8 * n))
    (hb : ∀ b ∈ iovecs s p n, b.1 + b.2 ≤ (bytes s).length ∧ (b.1 + b.2 ≤ p ∨ p + 8 * n ≤ b.1)) (hr4 : InMem s r 4)
    (hz : ((iovecs s p n).map (·.2)).sum < 2 ^ 32) (h0 : ∀ b ∈ iovecs s p n, b.2 ≠ 0) :
    ∃ ds log, Pieces (iovecs s p n) ds ∧ ds.flatten = ((content s.log).drop off).take ((iovecs s p n).map (·.2)).sum ∧
      content log = content s.log ∧ offset log = offset s.log ∧
      (Call.fdPread fd p n off r).run os s =
        .ok 0 (write (stored { s with log := log } (iovecs s p n) ds) r (Spec.bytesLE 4 ds.flatten.length)) := by
  obtain ⟨ds, hds, hrun⟩ := wasi_fd_pread os s fd f hf ht hr p n r off hp hb hr4 hz
    fun l k j => ⟨_, hfile.pread l k (off + j), by simp⟩
  have ha := pieces_pread_after hfile off hds 0 s.log
  refine ⟨ds, _, hds, ?_, ha.1, ha.2, hrun⟩
  have hk := genuine_ok hrun hg
  change Genuine os (stored _ _ _).log at hk
  rw [stored_log] at hk
  exact pieces_pread hfile off hds h0 0 s.log hk

/-- **C93** `fd_read` of a regular file gets the bytes at the offset of the descriptor, as many as the buffers take and the file has, in
the order of the buffers. -/
theorem C93_read_partial (hg : Genuine os s.log) (hf : openFile s fd = some f) (ht : f.wasmType ≠ 3) (hr : has f.base 1 = true)
    (hpipe : fd < 3 → f.pipe = none) (hfile : RegularFile os f.hostFd content offset) (p n r : Nat) (hp : InMem s p (8 * n))
    (hb : ∀ b ∈ iovecs s p n, b.1 + b.2 ≤ (bytes s).length ∧ (b.1 + b.2 ≤ p ∨ p + 8 * n ≤ b.1)) (hr4 : InMem s r 4)
    (hz : ((iovecs s p n).map (·.2)).sum < 2 ^ 32) (h0 : ∀ b ∈ iovecs s p n, b.2 ≠ 0) :
    ∃ ds log, Pieces (iovecs s p n) ds ∧
      ds.flatten = ((content s.log).drop (offset s.log)).take ((iovecs s p n).map (·.2)).sum ∧
      content log = content s.log ∧ offset log = offset s.log + ds.flatten.length ∧
      (Call.fdRead fd p n r).run os s =
        .ok 0 (write (stored { s with log := log } (iovecs s p n) ds) r (Spec.bytesLE 4 ds.flatten.length)) := by
  obtain ⟨ds, hds, hrun⟩ := wasi_fd_read os s fd f hf ht hr hpipe p n r hp hb hr4 hz
    fun l k => ⟨_, hfile.read l k, by simp⟩
  have ha := pieces_read_after hfile hds 0 s.log
  refine ⟨ds, _, hds, ?_, ha.1, ha.2, hrun⟩
  have hk := genuine_ok hrun hg
  change Genuine os (stored _ _ _).log at hk
  rw [stored_log] at hk
  exact pieces_read hfile hds h0 0 s.log hk

/-- C93, what the code does with an empty buffer: if the first buffer is empty, `fd_read` reports that it read nothing, whatever the file
and the other buffers are. -/
theorem C93_empty_buffer (hf : openFile s fd = some f) (ht : f.wasmType ≠ 3) (hr : has f.base 1 = true)
    (hpipe : fd < 3 → f.pipe = none) (hfile : RegularFile os f.hostFd content offset) (p n r : Nat) (hp : InMem s p (8 * n))
    (hb : ∀ b ∈ iovecs s p n, b.1 + b.2 ≤ (bytes s).length ∧ (b.1 + b.2 ≤ p ∨ p + 8 * n ≤ b.1)) (hr4 : InMem s r 4)
    (hz : ((iovecs s p n).map (·.2)).sum < 2 ^ 32) (a : Nat) (l : List (Nat × Nat)) (h0 : iovecs s p n = (a, 0) :: l) :
    ∃ t, (Call.fdRead fd p n r).run os s = .ok 0 t ∧ numAt t r 4 = 0 := by
  obtain ⟨ds, hds, hrun⟩ := wasi_fd_read os s fd f hf ht hr hpipe p n r hp hb hr4 hz
    fun l k => ⟨_, hfile.read l k, by simp⟩
  have hl : ds.flatten.length = 0 := by
    rw [h0] at hds
    cases hds with
    | short _ _ d h => rcases h with h | ⟨_, rfl⟩ <;> simp at *
    | full _ _ d ds h h' _ => simp at h; subst h; exact absurd rfl h'
  refine ⟨_, hrun, ?_⟩
  rw [hl]
  exact numAt_write_self (stored_inMem hr4 _ _ _) (by decide)

/-- The buffers of a reading call: the `c` iovecs at `q` and the place `r` of the result lie in memory, no buffer is empty or overlaps
another, the iovecs or the result, and together they have at most `k` bytes. -/
structure Buffers (u : St) (q c r k : Nat) : Prop where
  iovs : InMem u q (8 * c)
  result : InMem u r 4
  inside : ∀ b ∈ iovecs u q c, b.1 + b.2 ≤ (bytes u).length ∧ (b.1 + b.2 ≤ q ∨ q + 8 * c ≤ b.1)
  nonempty : ∀ b ∈ iovecs u q c, b.2 ≠ 0
  apart : (iovecs u q c).Pairwise fun a b => a.1 + a.2 ≤ b.1 ∨ b.1 + b.2 ≤ a.1
  away : ∀ b ∈ iovecs u q c, b.1 + b.2 ≤ r ∨ r + 4 ≤ b.1
  size : ((iovecs u q c).map (·.2)).sum ≤ k

/-- The last step of both theorems: the buffers of `u` were filled from the bytes `d`. -/
theorem filled {u v : St} {q c r k : Nat} (hB : Buffers u q c r k) (hk : k < 2 ^ 32) {d : Bytes} (hd : k ≤ d.length) {ds : List Bytes}
    {log : List Event} (hp : Pieces (iovecs u q c) ds) (hds : ds.flatten = d.take ((iovecs u q c).map (·.2)).sum)
    (hv : v = write (stored { u with log := log } (iovecs u q c) ds) r (Spec.bytesLE 4 ds.flatten.length)) :
    gathered v (iovecs u q c) = d.take ((iovecs u q c).map (·.2)).sum ∧ numAt v r 4 = ((iovecs u q c).map (·.2)).sum := by
  subst hv
  have hlen : ds.flatten.length = ((iovecs u q c).map (·.2)).sum := by
    rw [hds, List.length_take]
    have := hB.size
    omega
  constructor
  · rw [← hds]
    exact gathered_stored (s := { u with log := log }) hB.iovs.1 hp hB.nonempty (fun b h => (hB.inside b h).1) hB.apart hlen
      (by rw [Spec.bytesLE_length]; exact hB.away)
  · rw [numAt_write_self (stored_inMem hB.result _ _ _) (by rw [hlen]; have := hB.size; show _ < 4294967296; omega), hlen]

/-- **C93** Reading back with offsets: after `fd_pwrite` of some buffers has reported `k` bytes, `fd_pread` at the same offset into any
buffers with at most `k` bytes (and whatever the guest did to its memory meanwhile) fills them with the bytes that were written. -/
theorem C93_pwrite_pread_partial (hg : Genuine os s.log) (hf : openFile s fd = some f) (ht : f.wasmType ≠ 3) (hw : has f.base 6 = true)
    (hr : has f.base 1 = true) (hfile : RegularFile os f.hostFd content offset) (p n r off : Nat) (hp : InMem s p (8 * n))
    (hb : ∀ b ∈ iovecs s p n, b.1 + b.2 ≤ (bytes s).length) (hr4 : InMem s r 4)
    (hz : (gathered s (iovecs s p n)).length < 2 ^ 32) :
    ∃ k t, (Call.fdPwrite fd p n off r).run os s = .ok 0 t ∧ numAt t r 4 = k ∧ k ≤ (gathered s (iovecs s p n)).length ∧
      content t.log = overwrite (content s.log) off ((gathered s (iovecs s p n)).take k) ∧
      ∀ m q c r', Buffers { t with mem := m } q c r' k →
        ∃ v, (Call.fdPread fd q c off r').run os { t with mem := m } = .ok 0 v ∧
          gathered v (iovecs { t with mem := m } q c) =
            (gathered s (iovecs s p n)).take ((iovecs { t with mem := m } q c).map (·.2)).sum ∧
          numAt v r' 4 = ((iovecs { t with mem := m } q c).map (·.2)).sum := by
  obtain ⟨k, hk, hos⟩ := hfile.pwrite s.log (gathered s (iovecs s p n)) off
  have hrun := wasi_fd_pwrite os s fd f hf ht hw p n r off hp hb hr4 k (by omega) hos
  have hc := hfile.after_pwrite s.log (gathered s (iovecs s p n)) off k
  obtain ⟨t, hrun, hlog, hfd, hnum⟩ : ∃ t, (Call.fdPwrite fd p n off r).run os s = .ok 0 t ∧
      t.log = s.log ++ [⟨.pwrite f.hostFd (gathered s (iovecs s p n)) off, .ok (k : Int)⟩] ∧ t.fd = s.fd ∧ numAt t r 4 = k :=
    ⟨_, hrun, rfl, rfl, numAt_write_self (s := { s with log := _ }) hr4 (by show _ < 4294967296; omega)⟩
  rw [← hlog] at hc
  replace hc := hc.1
  refine ⟨k, t, hrun, hnum, hk, hc, ?_⟩
  have hgt := genuine_ok hrun hg
  intro m q c r' hB
  obtain ⟨ds, log, hds, hfl, -, -, hrd⟩ := C93_pread_partial (s := { t with mem := m }) hgt ((openFile_fd hfd fd).trans hf) ht hr hfile q c r' off hB.iovs hB.inside
    hB.result (Nat.lt_of_le_of_lt hB.size (by omega)) hB.nonempty
  refine ⟨_, hrd, filled hB (by omega) hk hds (hfl.trans ?_) rfl⟩
  dsimp only
  rw [hc]
  have ho := overwrite_drop (content s.log) off ((gathered s (iovecs s p n)).take k)
  rw [List.length_take, Nat.min_eq_left hk] at ho
  have hs := hB.size
  rw [show ∀ (X : Bytes) (a : Nat), a ≤ k → X.take a = (X.take k).take a from
    fun X a h => by rw [List.take_take, Nat.min_eq_left h], ho, List.take_take, Nat.min_eq_left hs]
  exact hs

/-- **C93** Reading back with the descriptor's offset: after `fd_write` of some buffers has reported `k` bytes, `fd_seek` to where the
offset was before and `fd_read` into any buffers with at most `k` bytes fill them with the bytes that were written. -/
theorem C93_write_seek_read_partial (hg : Genuine os s.log) (hf : openFile s fd = some f) (ht : f.wasmType ≠ 3) (hw : has f.base 6 = true)
    (hr : has f.base 1 = true) (hk2 : has f.base 2 = true) (hpipe : fd < 3 → f.pipe = none)
    (hfile : RegularFile os f.hostFd content offset) (ho : offset s.log < 2 ^ 64) (p n r : Nat) (hp : InMem s p (8 * n))
    (hb : ∀ b ∈ iovecs s p n, b.1 + b.2 ≤ (bytes s).length) (hr4 : InMem s r 4)
    (hz : (gathered s (iovecs s p n)).length < 2 ^ 32) :
    ∃ k t, (Call.fdWrite fd p n r).run os s = .ok 0 t ∧ numAt t r 4 = k ∧ k ≤ (gathered s (iovecs s p n)).length ∧
      ∀ m r1, InMem { t with mem := m } r1 8 →
        ∃ w, (Call.fdSeek fd (offset s.log) 0 r1).run os { t with mem := m } = .ok 0 w ∧
          ∀ m q c r', Buffers { w with mem := m } q c r' k →
            ∃ v, (Call.fdRead fd q c r').run os { w with mem := m } = .ok 0 v ∧
              gathered v (iovecs { w with mem := m } q c) =
                (gathered s (iovecs s p n)).take ((iovecs { w with mem := m } q c).map (·.2)).sum ∧
              numAt v r' 4 = ((iovecs { w with mem := m } q c).map (·.2)).sum := by
  obtain ⟨k, hk, hos⟩ := hfile.write s.log (gathered s (iovecs s p n))
  have hrun := wasi_fd_write os s fd f hf ht hw hpipe p n r hp hb hr4 k (by omega) hos
  have hc := hfile.after_write s.log (gathered s (iovecs s p n)) k
  obtain ⟨t, hrun, hlog, hfd, hnum⟩ : ∃ t, (Call.fdWrite fd p n r).run os s = .ok 0 t ∧
      t.log = s.log ++ [⟨.write f.hostFd (gathered s (iovecs s p n)), .ok (k : Int)⟩] ∧ t.fd = s.fd ∧ numAt t r 4 = k :=
    ⟨_, hrun, rfl, rfl, numAt_write_self (s := { s with log := _ }) hr4 (by show _ < 4294967296; omega)⟩
  rw [← hlog] at hc
  refine ⟨k, t, hrun, hnum, hk, ?_⟩
  have hgt := genuine_ok hrun hg
  intro m r1 hr1
  have hsk := wasi_seek_moves os { t with mem := m } fd f ((openFile_fd hfd fd).trans hf) ht hk2 (offset s.log) 0 0 (offset s.log) r1 hr1 ho
    (hfile.seek t.log 0 0 0 0 rfl rfl) (by omega) (hfile.seek _ 0 _ 0 _ rfl (by omega))
  have e1 := hfile.after_seek t.log 0 0 0
  have e2 := hfile.after_seek (t.log ++ [⟨.lseek f.hostFd 0 0, .ok ((0 : Nat) : Int)⟩]) (offset s.log) 0 (offset s.log)
  obtain ⟨w, hsk, hfw, hcw, how⟩ : ∃ w, (Call.fdSeek fd (offset s.log) 0 r1).run os { t with mem := m } = .ok 0 w ∧ w.fd = t.fd ∧
      content w.log = overwrite (content s.log) (offset s.log) ((gathered s (iovecs s p n)).take k) ∧ offset w.log = offset s.log :=
    ⟨_, hsk, rfl, e2.1.trans (e1.1.trans hc.1), e2.2⟩
  refine ⟨w, hsk, ?_⟩
  have hgs := genuine_ok hsk hgt
  intro m q c r' hB
  obtain ⟨ds, log, hds, hfl, -, -, hrd⟩ := C93_read_partial (s := { w with mem := m }) hgs ((openFile_fd (hfw.trans hfd) fd).trans hf) ht hr hpipe hfile q c r' hB.iovs hB.inside
    hB.result (Nat.lt_of_le_of_lt hB.size (by omega)) hB.nonempty
  refine ⟨_, hrd, filled hB (by omega) hk hds (hfl.trans ?_) rfl⟩
  dsimp only
  rw [hcw, how]
  have ho := overwrite_drop (content s.log) (offset s.log) ((gathered s (iovecs s p n)).take k)
  rw [List.length_take, Nat.min_eq_left hk] at ho
  have hs := hB.size
  rw [show ∀ (X : Bytes) (a : Nat), a ≤ k → X.take a = (X.take k).take a from
    fun X a h => by rw [List.take_take, Nat.min_eq_left h], ho, List.take_take, Nat.min_eq_left hs]
  exact hs

/-! ## Example

A host whose files are what has been written to them, and a guest with such a file as descriptor 4. -/

/-- Bytes and offset of the file behind a descriptor, after a history. -/
def fileView (h : Int) (l : List Event) : Bytes × Nat :=
  l.foldl (fun v e => match e with
    | ⟨.pwrite x d p, .ok k⟩ => if x = h then (overwrite v.1 p.toNat (d.take k.toNat), v.2) else v
    | ⟨.write x d, .ok k⟩ => if x = h then (overwrite v.1 v.2 (d.take k.toNat), v.2 + k.toNat) else v
    | ⟨.read x _, .ok d⟩ => if x = h then (v.1, v.2 + d.length) else v
    | ⟨.lseek x .., .ok k⟩ => if x = h then (v.1, k.toNat) else v
    | _ => v) ([], 0)

/-- The host; it writes at most 6 bytes at a time. -/
def fileOs : Os where
  plat := .linux
  c := linux
  run l x :=
    match x with
    | .pread h n o => .ok (((fileView h l).1.drop o.toNat).take n.toNat)
    | .read h n => .ok (((fileView h l).1.drop (fileView h l).2).take n.toNat)
    | .pwrite _ d _ => .ok (min 6 d.length : Nat)
    | .write _ d => .ok (min 6 d.length : Nat)
    | .lseek h o w => .ok ((if w = 0 then 0 else if w = 1 then (fileView h l).2 else (fileView h l).1.length) + o)
    | x => (demoOs .reg).run l x

theorem fileOs_regular (h : Int) : RegularFile fileOs h (fun l => (fileView h l).1) (fun l => (fileView h l).2) where
  pread l n o := by simp [fileOs]
  after_pread l n o r := by
    unfold fileView
    rw [List.foldl_append]
    exact ⟨rfl, rfl⟩
  pwrite l d o := ⟨min 6 d.length, Nat.min_le_right _ _, rfl⟩
  after_pwrite l d o k := by
    unfold fileView
    rw [List.foldl_append]
    simp
  read l n := by simp [fileOs]
  after_read l n d := by
    unfold fileView
    rw [List.foldl_append]
    simp
  write l d := ⟨min 6 d.length, Nat.min_le_right _ _, rfl⟩
  after_write l d k := by
    unfold fileView
    rw [List.foldl_append]
    simp
  seek l w o b k hb hk := by
    unfold whenceBase at hb
    have e : fileOs.run l (.lseek h o w) =
      .ok ((if w = 0 then 0 else if w = 1 then (fileView h l).2 else (fileView h l).1.length) + o) := rfl
    rw [e]
    repeat' split at hb
    · cases hb; subst_vars; simp_all
    · cases hb; subst_vars; simp_all
    · cases hb; subst_vars; simp_all
    · cases hb
  after_seek l o w k := by
    unfold fileView
    rw [List.foldl_append]
    simp

/-- Descriptor 4 with the rights to read, seek and write; two iovecs at 16 name 3 bytes at 64 and 5 bytes at 80, and one at 32 names 6
bytes at 96. -/
def fileSt : St :=
  let s := demoSt .dir
  let s := write s 0 [120]
  let s := write s 16 (Spec.bytesLE 4 64 ++ Spec.bytesLE 4 3 ++ Spec.bytesLE 4 80 ++ Spec.bytesLE 4 5 ++ Spec.bytesLE 4 96 ++ Spec.bytesLE 4 6)
  let s := write s 64 [1, 2, 3]
  let s := write s 80 [4, 5, 6, 7, 8]
  { runs (demoOs .reg) [.pathOpen 3 0 0 1 0 70 70 0 128] s with log := [] }

theorem fileSt_genuine : Genuine fileOs fileSt.log := by
  intro l1 e l2 h
  have h : ([] : List Event) = l1 ++ e :: l2 := h
  simp at h
theorem fileSt_file : ∃ f, openFile fileSt 4 = some f ∧ f.wasmType ≠ 3 ∧ has f.base 6 = true ∧ has f.base 1 = true ∧ has f.base 2 = true :=
  ⟨_, fileAt_eq fileSt 4, by decide +kernel, by decide +kernel, by decide +kernel, by decide +kernel⟩
-- both ways of writing and reading back: six of the eight bytes are written, and found in the other buffer
example : Spec.range (bytes (runs fileOs [.fdPwrite 4 16 2 10 140, .fdPread 4 32 1 10 144] fileSt)) 96 6 = [1, 2, 3, 4, 5, 6] := by
  decide +kernel
example : Spec.range (bytes (runs fileOs [.fdWrite 4 16 2 140, .fdSeek 4 0 0 144, .fdRead 4 32 1 152] fileSt)) 96 6 = [1, 2, 3, 4, 5, 6] := by
  decide +kernel
example := fileSt_file.imp fun f h => C93_pread_partial fileSt_genuine h.1 h.2.1 h.2.2.2.1 (fileOs_regular f.hostFd) 16 2 140 10 (inMem _ _ _)
  (by decide +kernel) (inMem _ _ _) (by decide +kernel) (by decide +kernel)
example := fileSt_file.imp fun f h => C93_read_partial fileSt_genuine h.1 h.2.1 h.2.2.2.1 (fun h => absurd h (by decide)) (fileOs_regular f.hostFd) 16 2 140 (inMem _ _ _)
  (by decide +kernel) (inMem _ _ _) (by decide +kernel) (by decide +kernel)
example := fileSt_file.imp fun f h => C93_pwrite_pread_partial fileSt_genuine h.1 h.2.1 h.2.2.1 h.2.2.2.1 (fileOs_regular f.hostFd) 16 2 140 10
  (inMem _ _ _) (by decide +kernel) (inMem _ _ _) (by decide +kernel)
example := fileSt_file.imp fun f h => C93_write_seek_read_partial fileSt_genuine h.1 h.2.1 h.2.2.1 h.2.2.2.1 h.2.2.2.2 (fun h => absurd h (by decide))
  (fileOs_regular f.hostFd) (show (0 : Nat) < 2 ^ 64 by decide) 16 2 140 (inMem _ _ _) (by decide +kernel) (inMem _ _ _) (by decide +kernel)
/-- After the write. -/
def writtenSt : St := runs fileOs [.fdPwrite 4 16 2 10 140] fileSt
theorem writtenSt_iovecs : iovecs writtenSt 32 1 = [(96, 6)] := by decide +kernel
theorem writtenSt_length : (bytes writtenSt).length = 256 := by decide +kernel
example : Buffers writtenSt 32 1 144 6 := by
  refine ⟨inMem _ _ _, inMem _ _ _, ?_, ?_, ?_, ?_, ?_⟩ <;> rw [writtenSt_iovecs] <;> simp [writtenSt_length]
example : Genuine fileOs (runs fileOs [.fdWrite 4 16 2 140] fileSt).log :=
  C93_genuine (.step (.refl _) (.call (.fdWrite 4 16 2 140) _)) fileSt_genuine


/-- Six bytes were written and the offset is back at the start; two iovecs at 32 name no byte and 6 bytes. -/
def emptySt : St :=
  write (runs fileOs [.fdWrite 4 16 2 140, .fdSeek 4 0 0 144] fileSt) 32
    (Spec.bytesLE 4 96 ++ Spec.bytesLE 4 0 ++ Spec.bytesLE 4 96 ++ Spec.bytesLE 4 6)
theorem emptySt_iovecs : iovecs emptySt 32 2 = [(96, 0), (96, 6)] := by decide +kernel
theorem emptySt_length : (bytes emptySt).length = 256 := by decide +kernel
theorem emptySt_genuine : Genuine fileOs emptySt.log :=
  C93_genuine (s := fileSt) (t := emptySt) (.step (.step (.step (.refl _) (.call (.fdWrite 4 16 2 140) _)) (.call (.fdSeek 4 0 0 144) _)) (.guest _ _)) fileSt_genuine
theorem emptySt_file : ∃ f, openFile emptySt 4 = some f ∧ f.wasmType ≠ 3 ∧ has f.base 1 = true ∧
    (((fileView f.hostFd emptySt.log).1.drop (fileView f.hostFd emptySt.log).2).take 6).length = 6 :=
  ⟨_, fileAt_eq emptySt 4, by decide +kernel, by decide +kernel, by decide +kernel⟩

/-- **C93 is false of the code** if a buffer is empty: it is not so that `fd_read` of a regular file gets as many bytes as the buffers take
and the file has. -/
theorem C93_refuted : ¬ ∀ (os : Os) (s : St) (fd : Int) (f : File) (content : List Event → Bytes) (offset : List Event → Nat),
    Genuine os s.log → openFile s fd = some f → f.wasmType ≠ 3 → has f.base 1 = true → (fd < 3 → f.pipe = none) →
    RegularFile os f.hostFd content offset → ∀ p n r, InMem s p (8 * n) →
    (∀ b ∈ iovecs s p n, b.1 + b.2 ≤ (bytes s).length ∧ (b.1 + b.2 ≤ p ∨ p + 8 * n ≤ b.1)) → InMem s r 4 →
    ((iovecs s p n).map (·.2)).sum < 2 ^ 32 →
    ∃ t, (Call.fdRead fd p n r).run os s = .ok 0 t ∧
      numAt t r 4 = (((content s.log).drop (offset s.log)).take ((iovecs s p n).map (·.2)).sum).length := by
  intro H
  obtain ⟨f, hf, ht, hr, hl⟩ := emptySt_file
  have hin : ∀ b ∈ iovecs emptySt 32 2, b.1 + b.2 ≤ (bytes emptySt).length ∧ (b.1 + b.2 ≤ 32 ∨ 32 + 8 * 2 ≤ b.1) := by
    rw [emptySt_iovecs, emptySt_length]; simp
  have hsum : ((iovecs emptySt 32 2).map (·.2)).sum = 6 := by rw [emptySt_iovecs]; rfl
  obtain ⟨t, h1, h2⟩ := H fileOs emptySt 4 f _ _ emptySt_genuine hf ht hr (fun h => absurd h (by decide)) (fileOs_regular _) 32 2 144
    (inMem _ _ _) hin (inMem _ _ _) (by rw [hsum]; decide)
  obtain ⟨u, h3, h4⟩ := C93_empty_buffer hf ht hr (fun h => absurd h (by decide)) (fileOs_regular _) 32 2 144
    (inMem _ _ _) hin (inMem _ _ _) (by rw [hsum]; decide) 96 [(96, 6)] emptySt_iovecs
  rw [h1] at h3
  injection h3 with _ h3
  subst h3
  rw [h4, hsum, hl] at h2
  exact absurd h2 (by decide)

end Pywasm.Props
