import Verif.Lemmas.WasiStrs
import Verif.Lemmas.WasiTable
import Verif.Spec.WasiDir

/-!
# The loop of `fd_readdir`
-/

namespace Pywasm.Wasi
open WasiSpec Spec

/-- Entries lie one after the other from `d` on. -/
def EntriesAt (s : St) : Nat → List Dirent → Prop
  | _, [] => True
  | d, e :: l => numAt s d 8 = e.next ∧ numAt s (d + 8) 8 = e.ino ∧ numAt s (d + 16) 4 = e.name.length ∧
      numAt s (d + 20) 1 = e.type ∧ range (bytes s) (d + 24) e.name.length = e.name ∧
      EntriesAt s (d + 24 + e.name.length) l

/-- The same bytes outside `[d, e)`. -/
structure Frame (s t : St) (d e : Nat) : Prop where
  fd : t.fd = s.fd
  mem : t.mem ≠ none ↔ s.mem ≠ none
  length : (bytes t).length = (bytes s).length
  range : ∀ q m, q + m ≤ d ∨ e ≤ q → Spec.range (bytes t) q m = Spec.range (bytes s) q m

theorem Frame.refl (s : St) (d e : Nat) : Frame s s d e := ⟨rfl, Iff.rfl, rfl, fun _ _ _ => rfl⟩
theorem Frame.trans {s t u : St} {d e d' e' : Nat} (h : Frame s t d' e') (h' : Frame t u d e) (hd : d ≤ d') (he : e' ≤ e) :
    Frame s u d e :=
  ⟨h'.fd.trans h.fd, h'.mem.trans h.mem, h'.length.trans h.length, fun q m hq =>
    (h'.range q m hq).trans (h.range q m (by omega))⟩
theorem Frame.mono {s t : St} {d e d' e' : Nat} (h : Frame s t d' e') (hd : d ≤ d') (he : e' ≤ e) : Frame s t d e :=
  h.trans (Frame.refl t d e) hd he
theorem Frame.write {s : St} (hs : s.mem ≠ none) (p : Nat) (b : Bytes) {e : Nat} (he : e = p + b.length) :
    Frame s (WasiSpec.write s p b) p e := by
  subst he
  refine ⟨rfl, write_mem _ _, length_write _ _ _, fun q m hq => ?_⟩
  rw [bytes_write hs, range_patch_other hq]
theorem Frame.event (s : St) (x : Sys) (a : Except Err x.Ans) (d e : Nat) : Frame s (s.event x a) d e :=
  ⟨rfl, Iff.rfl, rfl, fun _ _ _ => rfl⟩
theorem Frame.inMem {s t : St} {d e p n : Nat} (h : Frame s t d e) (hp : InMem s p n) : InMem t p n :=
  ⟨h.mem.mpr hp.1, by rw [h.length]; exact hp.2⟩
theorem Frame.num {s t : St} {d e q m : Nat} (h : Frame s t d e) (hq : q + m ≤ d ∨ e ≤ q) : numAt t q m = numAt s q m := by
  unfold numAt; rw [h.range q m hq]

theorem numAt_byte {s : St} {p v : Nat} (h : InMem s p 1) (hv : v < 256) : numAt (write s p [UInt8.ofNat v]) p 1 = v := by
  have := numAt_write_self (k := 1) (v := v) h (by omega)
  have e : bytesLE 1 v = [UInt8.ofNat v] := by simp [bytesLE, byteAt]
  rwa [e] at this

theorem helpWasmType_code (i : Stat) : helpWasmType i = (kindCode i.kind : Int) := by
  unfold helpWasmType
  cases i.kind <;> rfl
theorem kindCode_lt (k : Kind) : kindCode k < 256 := by cases k <;> decide

theorem entriesSize_cons (x : Str) (l : List Str) :
    entriesSize (x :: l) = 24 + (x.flatMap String.utf8EncodeChar).length + entriesSize l := by
  simp [entriesSize]

/-- Writing one header. -/
theorem header_run {s : St} {d c ino len ty : Nat} (h : InMem s d 24) (hc : c < 2 ^ 64) (hi : ino < 2 ^ 64)
    (hl : len < 2 ^ 32) (ht : ty < 256) (x : W α) :
    ∃ t, Frame s t d (d + 24) ∧ t.log = s.log ∧ numAt t d 8 = c ∧ numAt t (d + 8) 8 = ino ∧ numAt t (d + 16) 4 = len ∧
      numAt t (d + 20) 1 = ty ∧
      (do
        putU 8 d c
        putU 8 ((d : Int) + 8) ino
        putU 4 ((d : Int) + 16) len
        putU8 ((d : Int) + 20) ty
        x) s = x t := by
  have h2 := h.2
  have a1 : InMem s d 8 := ⟨h.1, by omega⟩
  have a2 : InMem s (d + 8) 8 := ⟨h.1, by omega⟩
  have a3 : InMem s (d + 16) 4 := ⟨h.1, by omega⟩
  have a4 : InMem s (d + 20) 1 := ⟨h.1, by omega⟩
  let s1 := write s d (bytesLE 8 c)
  let s2 := write s1 (d + 8) (bytesLE 8 ino)
  let s3 := write s2 (d + 16) (bytesLE 4 len)
  let s4 := write s3 (d + 20) [UInt8.ofNat ty]
  have b2 : InMem s1 (d + 8) 8 := a2.write _ _
  have b3 : InMem s2 (d + 16) 4 := (a3.write _ _).write _ _
  have b4 : InMem s3 (d + 20) 1 := ((a4.write _ _).write _ _).write _ _
  have f1 : Frame s s1 d (d + 8) := .write h.1 _ _ (by rw [bytesLE_length])
  have f2 : Frame s1 s2 (d + 8) (d + 16) := .write b2.1 _ _ (by rw [bytesLE_length])
  have f3 : Frame s2 s3 (d + 16) (d + 20) := .write b3.1 _ _ (by rw [bytesLE_length])
  have f4 : Frame s3 s4 (d + 20) (d + 21) := .write b4.1 _ _ rfl
  have r1 := putU_run (v := c) a1 hc
  have r2 := putU_run (v := ino) b2 hi
  have r3 := putU_run (v := len) b3 hl
  have r4 := putU8_run (v := ty) b4 ht
  refine ⟨s4, ?_, rfl, ?_, ?_, ?_, ?_, ?_⟩
  · exact (((f1.trans (f2.mono (by omega : d ≤ _) (Nat.le_refl _)) (Nat.le_refl _) (by omega)).trans
      (f3.mono (by omega : d ≤ _) (Nat.le_refl _)) (Nat.le_refl _) (by omega)).trans
      (f4.mono (by omega : d ≤ _) (by omega : _ ≤ d + 24)) (Nat.le_refl _) (by omega))
  · rw [f4.num (by omega), f3.num (by omega), f2.num (by omega)]
    exact numAt_write_self a1 hc
  · rw [f4.num (by omega), f3.num (by omega)]
    exact numAt_write_self b2 hi
  · rw [f4.num (by omega)]
    exact numAt_write_self b3 hl
  · exact numAt_byte b4 ht
  · rw [bind_ok r1]
    refine (bind_ok r2).trans ?_
    refine (bind_ok r3).trans ?_
    exact bind_ok r4

theorem EntriesAt.frame {s t : St} {d q e : Nat} {l : List Dirent} (f : Frame s t q e)
    (hq : d + (l.map fun x => 24 + x.name.length).sum ≤ q) (h : EntriesAt s d l) : EntriesAt t d l := by
  induction l generalizing d with
  | nil => trivial
  | cons x l ih =>
    obtain ⟨h1, h2, h3, h4, h5, h6⟩ := h
    simp only [List.map_cons, List.sum_cons] at hq
    refine ⟨?_, ?_, ?_, ?_, ?_, ih (by omega) h6⟩
    · rw [f.num (by omega)]; exact h1
    · rw [f.num (by omega)]; exact h2
    · rw [f.num (by omega)]; exact h3
    · rw [f.num (by omega)]; exact h4
    · rw [f.range _ _ (by omega)]; exact h5

theorem EntriesAt.frame' {s t : St} {d q e : Nat} {l : List Dirent} (f : Frame s t q e) (hq : e ≤ d) (h : EntriesAt s d l) :
    EntriesAt t d l := by
  induction l generalizing d with
  | nil => trivial
  | cons x l ih =>
    obtain ⟨h1, h2, h3, h4, h5, h6⟩ := h
    refine ⟨?_, ?_, ?_, ?_, ?_, ih (by omega) h6⟩
    · rw [f.num (by omega)]; exact h1
    · rw [f.num (by omega)]; exact h2
    · rw [f.num (by omega)]; exact h3
    · rw [f.num (by omega)]; exact h4
    · rw [f.range _ _ (by omega)]; exact h5

theorem utf8_longer (x : Str) : x.length ≤ (x.flatMap String.utf8EncodeChar).length := by
  induction x with
  | nil => exact Nat.le_refl _
  | cons c x ih =>
    have h1 : 1 ≤ (String.utf8EncodeChar c).length := by
      rw [String.length_utf8EncodeChar]; exact Char.utf8Size_pos c
    rw [List.flatMap_cons, List.length_append, List.length_cons]
    omega

theorem cutSize_cons (x : Str) (l : List Str) : cutSize (x :: l) = 24 + x.length + cutSize l := rfl

/-- The loop of `fd_readdir` for any names; the bytes of a name may exceed its characters by `X`. -/
theorem readdirLoop_any (os : Os) (host : Str) (stat : Str → Stat) (e X : Nat) (rest : List Str)
    (hst : ∀ x ∈ rest, (∀ log, os.run log (.statName (Py.normpath (Py.join host x))) = .ok (stat x)) ∧
      0 ≤ (stat x).ino ∧ (stat x).ino < 2 ^ 64)
    (ha : ∀ x ∈ rest, (x.flatMap String.utf8EncodeChar).length ≤ x.length + X ∧ x.length < 2 ^ 32)
    (d c : Nat) (s : St) (hd : d ≤ e) (he : InMem s d (e + X - d)) (hc : c + (e - d) + 1 < 2 ^ 64) :
    ∃ (k d' : Nat) (t : St), readdirLoop os host e rest d c s = .ok ((d' : Int), ((c + k : Nat) : Int)) t ∧ k ≤ rest.length ∧
      d + cutSize (rest.take k) ≤ e ∧ Frame s t d (e + X) ∧ EntriesAt t d (cutEntries stat c (rest.take k)) ∧
      ((k = rest.length ∧ d' = d + cutSize rest) ∨
       ∃ h : k < rest.length, e < d + cutSize (rest.take k) + 24 + rest[k].length ∧
        (d + cutSize (rest.take k) + 24 ≤ e →
          numAt t (d + cutSize (rest.take k) + 16) 4 = rest[k].length)) := by
  induction rest generalizing d c s with
  | nil =>
    refine ⟨0, d, s, rfl, Nat.le_refl _, hd, Frame.refl _ _ _, trivial, .inl ⟨rfl, rfl⟩⟩
  | cons x rest ih =>
    obtain ⟨hs1, hs2, hs3⟩ := hst x List.mem_cons_self
    obtain ⟨hx1, hx2⟩ := ha x List.mem_cons_self
    have hlong := utf8_longer x
    have he2 := he.2
    unfold readdirLoop
    by_cases h24 : (e : Int) < (d : Int) + 24
    · rw [if_pos h24]
      refine ⟨0, d, s, rfl, Nat.zero_le _, hd, Frame.refl _ _ _, trivial, .inr ⟨Nat.zero_lt_succ _, ?_, ?_⟩⟩
      · show e < d + 0 + 24 + _; omega
      · intro h; change d + 0 + 24 ≤ e at h; omega
    · rw [if_neg h24]
      obtain ⟨ino, hino⟩ : ∃ n : Nat, (stat x).ino = n := ⟨(stat x).ino.toNat, by omega⟩
      rw [bind_ok (sys_ok (hs1 s.log))]
      obtain ⟨t1, hf1, hlog, hn1, hn2, hn3, hn4, hr1⟩ := header_run (α := Int × Int)
        (s := s.event (.statName (Py.normpath (Py.join host x))) (.ok (stat x))) (d := d) (c := c + 1) (ino := ino)
        (len := x.length) (ty := kindCode (stat x).kind) ⟨he.1, Nat.le_trans (by omega : d + 24 ≤ d + (e + X - d)) he2⟩
        (by omega) (by omega) hx2 (kindCode_lt _)
        (if (e : Int) < (d : Int) + 24 + x.length then return ((d : Int) + 24, (c : Int))
         else do
          put ((d : Int) + 24) (Py.encodeUtf8 x)
          readdirLoop os host e rest ((d : Int) + 24 + x.length) ((c : Int) + 1))
      rw [hino, helpWasmType_code]
      have hf1' : Frame s t1 d (e + X) := (Frame.event s _ _ d (e + X)).trans (hf1.mono (Nat.le_refl _) (by omega)) (Nat.le_refl _) (Nat.le_refl _)
      by_cases hfit : (e : Int) < (d : Int) + 24 + x.length
      · refine ⟨0, d + 24, t1, ?_, Nat.zero_le _, hd, hf1', trivial, .inr ⟨Nat.zero_lt_succ _, ?_, ?_⟩⟩
        · refine hr1.trans ?_
          rw [if_pos hfit]
          rfl
        · show e < d + 0 + 24 + x.length
          omega
        · intro _
          show numAt t1 (d + 0 + 16) 4 = x.length
          rw [Nat.add_zero]; exact hn3
      · have hq : d + 24 + x.length ≤ e := by omega
        have hm1 : InMem t1 d (e + X - d) := hf1'.inMem he
        have hm1' := hm1.2
        have hxl : (Py.encodeUtf8 x).length ≤ x.length + X := hx1
        have hxl' : x.length ≤ (Py.encodeUtf8 x).length := hlong
        have hput := put_run (s := t1) (p := d + 24) (d := Py.encodeUtf8 x) ⟨hm1.1, by omega⟩
        have hf2 : Frame t1 (write t1 (d + 24) (Py.encodeUtf8 x)) (d + 24) (e + X) :=
          (Frame.write hm1.1 _ _ rfl).mono (Nat.le_refl _) (by omega)
        have hname : range (bytes (write t1 (d + 24) (Py.encodeUtf8 x))) (d + 24) x.length = (Py.encodeUtf8 x).take x.length := by
          rw [bytes_write hm1.1]
          have := range_patch_sub (d := bytes t1) (T := Py.encodeUtf8 x) (p := d + 24) (k := 0) (n := x.length) (by omega) (by omega)
          simpa [Spec.range] using this
        generalize write t1 (d + 24) (Py.encodeUtf8 x) = t2 at hput hf2 hname
        have hm2 := hf2.inMem hm1
        obtain ⟨k, d', t, hrun, hk, hsz, hf3, hent, hend⟩ := ih (fun y hy => hst y (List.mem_cons_of_mem _ hy))
          (fun y hy => ha y (List.mem_cons_of_mem _ hy)) (d + 24 + x.length) (c + 1) t2 hq
          ⟨hm2.1, by have := hm2.2; omega⟩ (by omega)
        refine ⟨k + 1, d', t, ?_, by simpa using hk, ?_, ?_, ?_, ?_⟩
        · refine hr1.trans ?_
          rw [if_neg hfit]
          refine (bind_ok hput).trans ?_
          rw [show c + (k + 1) = c + 1 + k by omega]
          exact hrun
        · rw [List.take_succ_cons, cutSize_cons]; omega
        · exact (hf1'.trans (hf2.mono (by omega : d ≤ _) (Nat.le_refl _)) (Nat.le_refl _) (Nat.le_refl _)).trans
            (hf3.mono (by omega : d ≤ _) (Nat.le_refl _)) (Nat.le_refl _) (Nat.le_refl _)
        · rw [List.take_succ_cons]
          unfold cutEntries EntriesAt
          dsimp only
          rw [show ((x.flatMap String.utf8EncodeChar).take x.length).length = x.length by rw [List.length_take]; omega]
          refine ⟨?_, ?_, ?_, ?_, ?_, hent⟩
          · rw [hf3.num (by omega), hf2.num (by omega)]; exact hn1
          · rw [hf3.num (by omega), hf2.num (by omega), hino]; exact hn2
          · rw [hf3.num (by omega), hf2.num (by omega)]; exact hn3
          · rw [hf3.num (by omega), hf2.num (by omega)]; exact hn4
          · rw [hf3.range _ _ (by omega)]; exact hname
        · rcases hend with ⟨rfl, rfl⟩ | ⟨h, h1, h2⟩
          · left
            exact ⟨rfl, by rw [cutSize_cons]; omega⟩
          · right
            refine ⟨by simpa using h, ?_, ?_⟩
            · rw [List.take_succ_cons, cutSize_cons, List.getElem_cons_succ]; omega
            · rw [List.take_succ_cons, cutSize_cons, List.getElem_cons_succ,
                show d + (24 + x.length + cutSize (List.take k rest)) = d + 24 + x.length + cutSize (List.take k rest) by omega]
              exact h2

theorem cutEntries_sizes (stat : Str → Stat) (c : Nat) (l : List Str) :
    ((cutEntries stat c l).map fun x => 24 + x.name.length).sum = cutSize l := by
  induction l generalizing c with
  | nil => rfl
  | cons x l ih =>
    have := utf8_longer x
    rw [cutEntries, List.map_cons, List.sum_cons, ih, cutSize_cons, List.length_take, Nat.min_eq_left this]

theorem cutEntries_ascii (stat : Str → Stat) (c : Nat) (l : List Str) (h : ∀ x ∈ l, Ascii x) : cutEntries stat c l = entries stat c l := by
  induction l generalizing c with
  | nil => rfl
  | cons x l ih =>
    have hx : (x.flatMap String.utf8EncodeChar).length = x.length := ascii_length (h x List.mem_cons_self)
    rw [cutEntries, entries, ih _ fun y hy => h y (List.mem_cons_of_mem _ hy), ← hx, List.take_length]
theorem cutSize_ascii (l : List Str) (h : ∀ x ∈ l, Ascii x) : cutSize l = entriesSize l := by
  induction l with
  | nil => rfl
  | cons x l ih =>
    have hx : (x.flatMap String.utf8EncodeChar).length = x.length := ascii_length (h x List.mem_cons_self)
    rw [cutSize_cons, entriesSize_cons, ih fun y hy => h y (List.mem_cons_of_mem _ hy), hx]

theorem entries_sizes (stat : Str → Stat) (c : Nat) (l : List Str) :
    ((entries stat c l).map fun x => 24 + x.name.length).sum = entriesSize l := by
  induction l generalizing c with
  | nil => rfl
  | cons x l ih => rw [entries, List.map_cons, List.sum_cons, ih, entriesSize_cons]

theorem entries_length (stat : Str → Stat) (c : Nat) (l : List Str) : (entries stat c l).length = l.length := by
  induction l generalizing c with
  | nil => rfl
  | cons x l ih => rw [entries, List.length_cons, ih, List.length_cons]

/-- A guest finds the entries that are there, and stops when the next does not fit. -/
theorem direntsTo_eq {s : St} {e : Nat} {l : List Dirent} {d : Nat} (h : EntriesAt s d l)
    (hfit : d + (l.map fun x => 24 + x.name.length).sum ≤ e)
    (hend : d + (l.map fun x => 24 + x.name.length).sum + 24 ≤ e →
      e < d + (l.map fun x => 24 + x.name.length).sum + 24 +
        numAt s (d + (l.map fun x => 24 + x.name.length).sum + 16) 4)
    (k : Nat) (hk : l.length < k) : direntsTo s e k d = l := by
  induction l generalizing d k with
  | nil =>
    obtain ⟨k, rfl⟩ : ∃ j, k = j + 1 := ⟨k - 1, by simp at hk; omega⟩
    simp only [List.map_nil, List.sum_nil, Nat.add_zero] at hend
    unfold direntsTo
    rw [if_neg (by omega)]
  | cons x l ih =>
    obtain ⟨k, rfl⟩ : ∃ j, k = j + 1 := ⟨k - 1, by simp at hk; omega⟩
    obtain ⟨h1, h2, h3, h4, h5, h6⟩ := h
    simp only [List.map_cons, List.sum_cons, ← Nat.add_assoc] at hfit hend
    unfold direntsTo
    rw [h3, if_pos (by omega), h1, h2, h4, h5, ih h6 hfit hend k (by simpa using hk)]

end Pywasm.Wasi
