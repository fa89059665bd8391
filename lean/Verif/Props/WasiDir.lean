import Verif.Lemmas.WasiDir
import Verif.Spec.WasiDemo
import Verif.Spec.WasiNamed

/-!
# WASI: reading directories

C56.  The host must list the same names each time and answer `stat` for each of them.
-/

namespace Pywasm.Wasi
open WasiSpec

theorem dirents_eq {s : St} {p n : Nat} {l : List Dirent} (h : EntriesAt s p l)
    (hfit : (l.map fun x => 24 + x.name.length).sum ≤ n)
    (hend : (l.map fun x => 24 + x.name.length).sum + 24 ≤ n →
      n < (l.map fun x => 24 + x.name.length).sum + 24 +
        numAt s (p + (l.map fun x => 24 + x.name.length).sum + 16) 4) : dirents s p n = l := by
  have hlen : l.length * 24 ≤ (l.map fun x => 24 + x.name.length).sum := by
    clear h hfit hend
    induction l with
    | nil => simp
    | cons x l ih => simp only [List.length_cons, List.map_cons, List.sum_cons]; omega
  unfold dirents
  rcases Nat.eq_zero_or_pos n with h0 | h0
  · subst h0
    have : l = [] := List.length_eq_zero_iff.mp (by omega)
    subst this
    rfl
  · exact direntsTo_eq h (by omega) (by omega) n (by omega)

end Pywasm.Wasi

namespace Pywasm.Props
open Wasi WasiSpec

/-- The host's answers about one directory: its names in some order, and what each of them is. -/
structure Lists (os : Os) (f : File) (l : List Str) (stat : Str → Stat) : Prop where
  names : ∀ log, os.run log (.listdir f.hostFd) = .ok l
  stats : ∀ x, x ∈ ['.'] :: ['.', '.'] :: l → ∀ log, os.run log (.statName (Py.normpath (Py.join f.hostName x))) = .ok (stat x)
  inos : ∀ x, x ∈ ['.'] :: ['.', '.'] :: l → 0 ≤ (stat x).ino ∧ (stat x).ino < 2 ^ 64
  short : ∀ x ∈ l, x.length < 2 ^ 32

/-- What the code does for any names, which is not C56: each name is found cut to as many bytes as it has characters, the
size of an entry is counted in characters, and the last name may go over the end of the buffer, by the number `X` of bytes by which names are
longer than their characters. -/
theorem wasi_readdir_any (os : Os) (s : St) (fd : Int) (f : File) (hf : openFile s fd = some f)
    (hr : has f.base 14 = true) (l : List Str) (stat : Str → Stat) (hl : Lists os f l stat)
    (X : Nat) (hX : ∀ x ∈ l, (x.flatMap String.utf8EncodeChar).length ≤ x.length + X)
    (p n r c : Nat) (hp : InMem s p (n + X)) (hr4 : InMem s r 4) (hd : p + n + X ≤ r ∨ r + 4 ≤ p) (hn : n < 2 ^ 32) (hc : c < 2 ^ 63) :
    ∃ k t, (Call.fdReaddir fd p n c r).run os s = .ok 0 t ∧
      dirents t p (numAt t r 4) = cutEntries stat c (((listing l).drop c).take k) ∧
      (((listing l).length ≤ c + k ∧ numAt t r 4 = cutSize ((listing l).drop c) ∧ cutSize ((listing l).drop c) ≤ n) ∨
        (c + k < (listing l).length ∧ numAt t r 4 = n ∧ cutSize (((listing l).drop c).take k) ≤ n ∧
          n < cutSize (((listing l).drop c).take (k + 1)))) ∧
      t.fd = s.fd ∧ t.mem.isSome ∧ (bytes t).length = (bytes s).length ∧
      ∀ q m, (q + m ≤ p ∨ p + n + X ≤ q) → (q + m ≤ r ∨ r + 4 ≤ q) → Spec.range (bytes t) q m = Spec.range (bytes s) q m := by
  have hperm : (listing l).Perm (['.'] :: ['.', '.'] :: l) := ((List.mergeSort_perm _ _).cons _).cons _
  obtain ⟨m, hm, -⟩ := hr4.some
  have hrest : ∀ x ∈ (listing l).drop c, x ∈ ['.'] :: ['.', '.'] :: l := fun x hx =>
    hperm.mem_iff.mp (List.mem_of_mem_drop hx)
  have hascii : ∀ x, x ∈ ['.'] :: ['.', '.'] :: l → (x.flatMap String.utf8EncodeChar).length ≤ x.length + X ∧ x.length < 2 ^ 32 := by
    intro x hx
    rcases List.mem_cons.mp hx with rfl | hx
    · exact ⟨Nat.le_add_right _ _, by decide⟩
    rcases List.mem_cons.mp hx with rfl | hx
    · exact ⟨Nat.le_add_right _ _, by decide⟩
    exact ⟨hX x hx, hl.short x hx⟩
  have hp2 := hp.2
  obtain ⟨k, d', t, hrun, hk, hsz, hfr, hent, hend⟩ := readdirLoop_any os f.hostName stat (p + n) X ((listing l).drop c)
    (fun x hx => ⟨hl.stats x (hrest x hx), hl.inos x (hrest x hx)⟩) (fun x hx => hascii x (hrest x hx)) p c
    (s.event (.listdir f.hostFd) (.ok l)) (by omega) ⟨hp.1, by show _ ≤ (bytes s).length; omega⟩ (by omega)
  have hslice : Py.slice (listing l) (c : Int) (listing l).length = (listing l).drop c := by
    unfold Py.slice
    rw [Py.clamp_nat, Py.clamp_nat, Nat.min_self, List.take_length]
    rcases Nat.le_total c (listing l).length with h | h
    · rw [Nat.min_eq_left h]
    · rw [Nat.min_eq_right h, List.drop_eq_nil_of_le (Nat.le_refl _), List.drop_eq_nil_of_le h]
  have htail : fdReaddir os fd p n c r s =
      (do putU 4 r (if ((listing l).length : Int) ≤ ((c + k : Nat) : Int) then (d' : Int) - p else (n : Int)); return ERRNO_SUCCESS : W Int) t := by
    unfold fdReaddir
    rw [show RIGHTS_FD_READDIR = 2 ^ 14 from rfl, gate_open hf, if_neg Bool.false_ne_true, gate_perm hf, if_neg (by
      rw [decide_eq_true_iff, and_pow_eq_zero, hr]; decide), bind_ok (mems_run hm), bind_ok (file_open hf),
      bind_ok (sys_ok (hl.names s.log)), show dirResult l = listing l from rfl, hslice]
    refine (bind_ok hrun).trans ?_
    rfl
  have hsz' : cutSize (((listing l).drop c).take k) ≤ n := by omega
  have hlenk : (((listing l).drop c).take k).length = k := by rw [List.length_take]; omega
  have hdl : ((listing l).drop c).length = (listing l).length - c := List.length_drop
  have hr4t : InMem t r 4 := hfr.inMem (s := s.event (.listdir f.hostFd) (.ok l)) hr4
  have hout : ∀ v : Nat, v < 2 ^ 32 → ∀ u, u = write t r (Spec.bytesLE 4 v) →
      numAt u r 4 = v ∧ EntriesAt u p (cutEntries stat c (((listing l).drop c).take k)) ∧
      (∀ q, q + 4 ≤ r ∨ r + 4 ≤ q → numAt u q 4 = numAt t q 4) ∧
      u.fd = s.fd ∧ u.mem.isSome ∧ (bytes u).length = (bytes s).length ∧
      ∀ q m, (q + m ≤ p ∨ p + n + X ≤ q) → (q + m ≤ r ∨ r + 4 ≤ q) → Spec.range (bytes u) q m = Spec.range (bytes s) q m := by
    rintro v hv u rfl
    have hfw : Wasi.Frame t (write t r (Spec.bytesLE 4 v)) r (r + 4) := .write hr4t.1 _ _ (by rw [Spec.bytesLE_length])
    refine ⟨numAt_write_self hr4t hv, ?_, fun q hq => hfw.num hq, hfw.fd.trans hfr.fd, ?_, hfw.length.trans hfr.length, ?_⟩
    · rcases hd with hd | hd
      · refine hent.frame hfw ?_
        rw [cutEntries_sizes]; omega
      · exact hent.frame' hfw hd
    · rw [Option.isSome_iff_ne_none]; exact hfw.mem.mpr hr4t.1
    · intro q m h1 h2
      rw [hfw.range q m h2, hfr.range q m h1]
      rfl
  have hrunu : ∀ v : Nat, v < 2 ^ 32 →
      (if ((listing l).length : Int) ≤ ((c + k : Nat) : Int) then (d' : Int) - p else (n : Int)) = (v : Int) →
      (Call.fdReaddir fd p n c r).run os s = .ok 0 (write t r (Spec.bytesLE 4 v)) := by
    intro v hv e
    refine htail.trans ?_
    rw [e, bind_ok (putU_run hr4t hv)]
    rfl
  rcases hend with ⟨rfl, rfl⟩ | ⟨hlt, h1, h2⟩
  · have hall : ((listing l).drop c).take ((listing l).drop c).length = (listing l).drop c := List.take_length
    rw [hall] at hsz' 
    obtain ⟨g1, g2, g3, g4⟩ := hout (cutSize ((listing l).drop c)) (by omega) _ rfl
    refine ⟨((listing l).drop c).length, _, hrunu _ (by omega) ?_, ?_, ?_, g4⟩
    · rw [if_pos (by omega)]; omega
    · rw [g1]
      refine dirents_eq g2 (by rw [hall, cutEntries_sizes]) ?_
      rw [hall, cutEntries_sizes]; omega
    · exact .inl ⟨by omega, g1, hsz'⟩
  · obtain ⟨g1, g2, g3, g4⟩ := hout n hn _ rfl
    refine ⟨k, _, hrunu n hn ?_, ?_, ?_, g4⟩
    · rw [if_neg (by omega)]
    · rw [g1]
      refine dirents_eq g2 (by rw [cutEntries_sizes]; exact hsz') ?_
      rw [cutEntries_sizes]
      intro h
      rw [g3 _ (by omega), h2 (by omega)]
      omega
    · refine .inr ⟨by omega, g1, hsz', ?_⟩
      rw [List.take_succ_eq_append_getElem hlt]
      unfold cutSize at h1 ⊢
      rw [List.map_append, List.sum_append]
      simp only [List.map_cons, List.map_nil, List.sum_cons, List.sum_nil]
      omega

/-- What `listing` lists: the two special names and the host's names, each as often as the host named it. -/
theorem wasi_listing (l : List Str) : (listing l).Perm (['.'] :: ['.', '.'] :: l) :=
  ((List.mergeSort_perm _ _).cons _).cons _

theorem cutEntries_append (stat : Str → Stat) (c : Nat) (a b : List Str) :
    cutEntries stat c (a ++ b) = cutEntries stat c a ++ cutEntries stat (c + a.length) b := by
  induction a generalizing c with
  | nil => rfl
  | cons x a ih => rw [List.cons_append, cutEntries, ih, cutEntries, List.cons_append, List.length_cons,
      show c + (a.length + 1) = c + 1 + a.length by omega]

theorem cutEntries_last (stat : Str → Stat) (c : Nat) (a : List Str) :
    (((cutEntries stat c a).getLast?.map (·.next)).getD c) = c + a.length := by
  induction a using List.reverseRecOn with
  | nil => rfl
  | append_singleton a x _ =>
    rw [cutEntries_append]
    simp only [cutEntries, List.getLast?_append, List.getLast?_singleton, Option.some_or, Option.map_some, Option.getD_some,
      List.length_append, List.length_singleton]
    omega

theorem openFile_fd {s t : St} (h : t.fd = s.fd) (fd : Int) : openFile t fd = openFile s fd := by
  unfold openFile; rw [h]

/-- Read page by page, every entry comes exactly once and in order, whatever the names are; but the names are cut to as many bytes as they
have characters. -/
theorem wasi_readdir_pages_any (os : Os) (fd : Int) (f : File) (hr : has f.base 14 = true) (l : List Str)
    (stat : Str → Stat) (hl : Lists os f l stat) (X : Nat)
    (hX : ∀ x ∈ l, (x.flatMap String.utf8EncodeChar).length ≤ x.length + X) (p n r : Nat) (hd : p + n + X ≤ r ∨ r + 4 ≤ p) (hn : n < 2 ^ 32)
    (hlen : (listing l).length < 2 ^ 63)
    (hfit : ∀ x ∈ listing l, 24 + x.length ≤ n) (k : Nat) (hk : (listing l).length < k)
    (s : St) (hf : openFile s fd = some f) (hp : InMem s p (n + X)) (hr4 : InMem s r 4) :
    readDir os fd p n r k 0 s = cutEntries stat 0 (listing l) := by
  have key : ∀ k c s, c ≤ (listing l).length → (listing l).length - c < k → openFile s fd = some f → InMem s p (n + X) → InMem s r 4 →
      readDir os fd p n r k c s = cutEntries stat c ((listing l).drop c) := by
    intro k
    induction k with
    | zero => intro c s _ h; omega
    | succ k ih =>
      intro c s hc hk hf hp hr4
      obtain ⟨j, t, hrun, hde, hend, htfd, htm, htl, -⟩ := wasi_readdir_any os s fd f hf hr l stat hl X hX p n r c hp hr4 hd hn
        (by omega)
      have hin : ∀ q m, InMem s q m → InMem t q m := fun q m h =>
        ⟨Option.isSome_iff_ne_none.mp htm, by rw [htl]; exact h.2⟩
      have hdl : ((listing l).drop c).length = (listing l).length - c := List.length_drop
      unfold readDir
      rw [hrun]
      dsimp only
      rw [hde, if_neg (by decide)]
      rcases hend with ⟨h1, h2, h3⟩ | ⟨h1, h2, h3, h4⟩
      · have htake : ((listing l).drop c).take j = (listing l).drop c := List.take_of_length_le (by omega)
        rw [htake]
        split
        · rfl
        · rw [cutEntries_last, hdl, show c + ((listing l).length - c) = (listing l).length by omega]
          rcases Nat.lt_or_ge c (listing l).length with hlt | hge
          · rw [ih _ t (Nat.le_refl _) (by omega) (by rw [openFile_fd htfd]; exact hf) (hin _ _ hp) (hin _ _ hr4),
              List.drop_length]
            exact List.append_nil _
          · exfalso
            have : n = 0 := by
              have h0 : (listing l).drop c = [] := List.drop_eq_nil_of_le hge
              rw [h0] at h2
              have : cutSize [] = 0 := rfl
              omega
            have := hfit ['.'] (List.mem_cons_self)
            omega
      · have hj : 0 < j := by
          rcases Nat.eq_zero_or_pos j with h0 | h0
          · exfalso
            subst h0
            have hlt : 0 < ((listing l).drop c).length := by omega
            have hx := hfit _ (List.mem_of_mem_drop (List.getElem_mem hlt))
            rw [List.take_succ_eq_append_getElem hlt] at h4
            simp only [List.take_zero, List.nil_append, cutSize, List.map_cons, List.map_nil, List.sum_cons, List.sum_nil] at h4
            omega
          · exact h0
        rw [if_neg (by omega), cutEntries_last]
        have htl' : (((listing l).drop c).take j).length = j := by rw [List.length_take]; omega
        rw [htl', ih (c + j) t (by omega) (by omega) (by rw [openFile_fd htfd]; exact hf) (hin _ _ hp) (hin _ _ hr4)]
        conv => rhs; rw [← List.take_append_drop j ((listing l).drop c)]
        rw [cutEntries_append, htl', List.drop_drop]
  exact key k 0 s (Nat.zero_le _) (by omega) hf hp hr4

/-- C56, for names in ASCII: a call of `fd_readdir` with cookie `c` and a buffer of `n` bytes at `p` stores the entries
of as many names from number `c` on (`.` and `..` first, then the names in order) as fit, with the cookie, inode and type
of each, and says at `r` how many bytes it used: all of the buffer when there are more names than fit.  It writes only
into the buffer and at `r`. -/
theorem wasi_readdir_partial (os : Os) (s : St) (fd : Int) (f : File) (hf : openFile s fd = some f)
    (hr : has f.base 14 = true) (l : List Str) (stat : Str → Stat) (hl : Lists os f l stat)
    (ha : ∀ x ∈ l, Ascii x)
    (p n r c : Nat) (hp : InMem s p n) (hr4 : InMem s r 4) (hd : p + n ≤ r ∨ r + 4 ≤ p) (hn : n < 2 ^ 32) (hc : c < 2 ^ 63) :
    ∃ k t, (Call.fdReaddir fd p n c r).run os s = .ok 0 t ∧
      dirents t p (numAt t r 4) = entries stat c (((listing l).drop c).take k) ∧
      (((listing l).length ≤ c + k ∧ numAt t r 4 = entriesSize ((listing l).drop c) ∧ entriesSize ((listing l).drop c) ≤ n) ∨
        (c + k < (listing l).length ∧ numAt t r 4 = n ∧ entriesSize (((listing l).drop c).take k) ≤ n ∧
          n < entriesSize (((listing l).drop c).take (k + 1)))) ∧
      t.fd = s.fd ∧ t.mem.isSome ∧ (bytes t).length = (bytes s).length ∧
      ∀ q m, (q + m ≤ p ∨ p + n ≤ q) → (q + m ≤ r ∨ r + 4 ≤ q) → Spec.range (bytes t) q m = Spec.range (bytes s) q m := by
  have hall : ∀ x ∈ listing l, Ascii x := by
    intro x hx
    rcases List.mem_cons.mp ((wasi_listing l).mem_iff.mp hx) with rfl | hx
    · unfold Ascii; decide
    rcases List.mem_cons.mp hx with rfl | hx
    · unfold Ascii; decide
    exact ha x hx
  have hd' : ∀ x ∈ (listing l).drop c, Ascii x := fun x hx => hall x (List.mem_of_mem_drop hx)
  have ht : ∀ k, ∀ x ∈ ((listing l).drop c).take k, Ascii x := fun k x hx => hd' x (List.mem_of_mem_take hx)
  obtain ⟨k, t, h⟩ := wasi_readdir_any os s fd f hf hr l stat hl 0
    (fun x hx => Nat.le_of_eq (ascii_length (ha x hx))) p n r c hp hr4 hd hn hc
  rw [cutEntries_ascii _ _ _ (ht k), cutSize_ascii _ hd', cutSize_ascii _ (ht k), cutSize_ascii _ (ht (k + 1))] at h
  exact ⟨k, t, h⟩

/-- C56, for names in ASCII: a guest that reads a directory page by page, each time going on after the last complete
entry, sees every entry exactly once and in order, whatever the size of its buffer, as long as every single entry fits
into it. -/
theorem wasi_readdir_pages_partial (os : Os) (fd : Int) (f : File) (hr : has f.base 14 = true) (l : List Str)
    (stat : Str → Stat) (hl : Lists os f l stat) (ha : ∀ x ∈ l, Ascii x) (p n r : Nat) (hd : p + n ≤ r ∨ r + 4 ≤ p) (hn : n < 2 ^ 32)
    (hlen : (listing l).length < 2 ^ 63)
    (hfit : ∀ x ∈ listing l, 24 + (x.flatMap String.utf8EncodeChar).length ≤ n) (k : Nat) (hk : (listing l).length < k)
    (s : St) (hf : openFile s fd = some f) (hp : InMem s p n) (hr4 : InMem s r 4) :
    readDir os fd p n r k 0 s = entries stat 0 (listing l) := by
  have hall : ∀ x ∈ listing l, Ascii x := by
    intro x hx
    rcases List.mem_cons.mp ((wasi_listing l).mem_iff.mp hx) with rfl | hx
    · unfold Ascii; decide
    rcases List.mem_cons.mp hx with rfl | hx
    · unfold Ascii; decide
    exact ha x hx
  rw [wasi_readdir_pages_any os fd f hr l stat hl 0 (fun x hx => Nat.le_of_eq (ascii_length (ha x hx))) p n r hd hn hlen
    (fun x hx => Nat.le_trans (Nat.add_le_add_left (utf8_longer x) 24) (hfit x hx)) k hk s hf hp hr4, cutEntries_ascii _ _ _ hall]

/-- The demonstration host lists `b` and `a`. -/
theorem demo_lists (f : File) : Lists (demoOs .dir) f [['b'], ['a']] (fun _ => ⟨.dir, 9, 1, 100, 10, 20, 30⟩) where
  names _ := rfl
  stats _ _ _ := rfl
  inos _ _ := ⟨by decide, by decide⟩
  short := by decide

/-- A guest with a buffer of 30 bytes reads four entries, one each time, and an empty page. -/
example : ∃ f, openFile (demoSt .dir) 3 = some f ∧ has f.base 14 = true ∧
    readDir (demoOs .dir) 3 0 30 100 5 0 (demoSt .dir) = entries (fun _ => ⟨.dir, 9, 1, 100, 10, 20, 30⟩) 0
      (listing [['b'], ['a']]) := by
  have h : ∃ f, openFile (demoSt .dir) 3 = some f ∧ has f.base 14 = true := by
    have : (openFile (demoSt .dir) 3).any (fun f => has f.base 14) = true := by decide +kernel
    cases hf : openFile (demoSt .dir) 3 with
    | none => rw [hf] at this; cases this
    | some f => rw [hf] at this; exact ⟨f, rfl, this⟩
  obtain ⟨f, hf, hr⟩ := h
  have hlen : ∀ l : List Str, (listing l).length = l.length + 2 := fun l => (wasi_listing l).length_eq
  refine ⟨f, hf, hr, wasi_readdir_pages_partial _ 3 f hr _ _ (demo_lists f) (by unfold Ascii; decide) 0 30 100 (by decide) (by decide) ?_ ?_ 5 ?_ _ hf ?_ ?_⟩
  · rw [hlen]; decide
  · intro x hx
    have := (wasi_listing _).mem_iff.mp hx
    clear hx
    revert x
    decide +kernel
  · rw [hlen]; decide
  · exact ⟨by decide +kernel, by decide +kernel⟩
  · exact ⟨by decide +kernel, by decide +kernel⟩

/-- The demonstration host with one file `é` in its directories. -/
def accentOs : Os where
  plat := .linux
  c := linux
  run l x :=
    match x with
    | .listdir _ => .ok [['é']]
    | x => (demoOs .dir).run l x

/-- C56 fails for other names: the length given for `é` is 1 and a guest sees half of the name. -/
theorem wasi_readdir_name_refuted :
    (readDir accentOs 3 0 60 100 5 0 (demoSt .dir)).map (·.name) ≠ (listing [['é']]).map (·.flatMap String.utf8EncodeChar) := by
  decide +kernel

/-- C56 fails for other names: the bytes of the last name go over the end of a buffer they should not fit into. -/
theorem wasi_readdir_buffer_refuted :
    returns accentOs (.fdReaddir 3 0 76 0 100) (demoSt .dir) 0 = true ∧
    (bytes (demoSt .dir))[76]? = some 0 ∧ (bytes (after ((Call.fdReaddir 3 0 76 0 100).run accentOs) (demoSt .dir)))[76]? = some 0xA9 := by
  decide +kernel

/-! ## The hypotheses are met -/

example := wasi_readdir_partial (demoOs .dir) (demoSt .dir) 3 _ (fileAt_eq (demoSt .dir) 3) (by decide +kernel) [['b'], ['a']] _ (demo_lists _) (by unfold Ascii; decide)
  0 30 100 1 (inMem _ _ _) (inMem _ _ _) (by decide) (by decide) (by decide)

theorem accent_lists (f : File) : Lists accentOs f [['é']] (fun _ => ⟨.dir, 9, 1, 100, 10, 20, 30⟩) where
  names _ := rfl
  stats _ _ _ := rfl
  inos _ _ := ⟨by decide, by decide⟩
  short := by decide
example := wasi_readdir_any accentOs (demoSt .dir) 3 _ (fileAt_eq (demoSt .dir) 3) (by decide +kernel) [['é']] _ (accent_lists _) 1 (by decide)
  0 30 100 1 (inMem _ _ _) (inMem _ _ _) (by decide) (by decide) (by decide)
example := wasi_readdir_pages_any accentOs 3 (fileAt (demoSt .dir) 3) (by decide +kernel) [['é']] _ (accent_lists _) 1 (by decide) 0 30 100 (by decide) (by decide)
  (by rw [(wasi_listing _).length_eq]; decide) (fun x hx => by
    have := (wasi_listing _).mem_iff.mp hx
    clear hx
    revert x
    decide +kernel) 4 (by rw [(wasi_listing _).length_eq]; decide) (demoSt .dir) (fileAt_eq (demoSt .dir) 3) (inMem _ _ _) (inMem _ _ _)

end Pywasm.Props
