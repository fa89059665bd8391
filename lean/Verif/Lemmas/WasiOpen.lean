import Verif.Lemmas.WasiTable
import Verif.Lemmas.WasiMem

/-!
# A successful `path_open`
-/

namespace Pywasm.Wasi
open WasiSpec

/-- A run that returned: the first part returned. -/
theorem bind_inv {α β} {x : W α} {f : α → W β} {s s' : St} {b : β} (h : (x >>= f) s = .ok b s') :
    ∃ a t, x s = .ok a t ∧ f a t = .ok b s' := by
  rw [bind_run] at h
  cases hx : x s with
  | ok a t => rw [hx] at h; exact ⟨a, t, rfl, h⟩
  | error e t => rw [hx] at h; cases h

theorem sys_inv {os : Os} {x : Sys} {s s' : St} {a} (h : sys os x s = .ok a s') :
    os.run s.log x = .ok a ∧ s' = s.event x (.ok a) := by
  rw [sys_run] at h
  cases hr : os.run s.log x with
  | error e => rw [hr] at h; cases h
  | ok b =>
    rw [hr] at h
    injection h with h1 h2
    subst h1; exact ⟨rfl, h2.symm⟩

theorem lookup_mem {n : Nat} {x : Int} {t : List (Nat × Int)} (h : t.lookup n = some x) : (n, x) ∈ t := by
  induction t with
  | nil => cases h
  | cons p t ih =>
    obtain ⟨a, b⟩ := p
    rw [List.lookup_cons] at h
    by_cases e : n = a
    · subst e; simp at h; subst h; exact List.mem_cons_self ..
    · have : (n == a) = false := by simpa using e
      rw [this] at h; exact List.mem_cons_of_mem _ (ih h)

/-- When the host call failed, the result is one of the listed errnos. -/
theorem onErr_err {α} {e : Err} {t : List (Nat × Int)} {k : α → W Int} {s s' : St} {v : Int}
    (h : onErr (.error e) t k s = .ok v s') : v ∈ t.map Prod.snd ∧ s' = s := by
  unfold onErr at h
  cases e
  case os n =>
    simp only at h
    cases hl : t.lookup n with
    | none => rw [hl] at h; cases h
    | some x =>
      rw [hl] at h
      injection h with h1 h2
      subst h1
      exact ⟨List.mem_map.mpr ⟨(n, x), lookup_mem hl, rfl⟩, h2.symm⟩
  all_goals cases h

/-- The rights of a new descriptor: those asked for, except `FD_SEEK` on a directory and the path rights on a file. -/
def granted (want : Int) (isd isf : Bool) : Int :=
  Py.and (Py.and want (Py.inv (if isd then RIGHTS_FD_SEEK else 0))) (Py.inv (if isf then pathRights else 0))

/-- Everything a successful `path_open` did. -/
structure OpenOk (os : Os) (a0 a1 a2 a3 a4 a5 a6 a7 a8 : Int) (s s' : St) where
  dir : File
  name : Str
  host : Int
  isd : Bool
  isf : Bool
  info : Stat
  mid : St
  open0 : openFile s a0 = some dir
  perm : ¬Py.and dir.base RIGHTS_PATH_OPEN = 0
  nameAt : getName a2 a3 s = .ok name s
  nonul : name.contains (Char.ofNat 0) = false
  inside : helpEscp dir.hostName name = false
  trunc : (bit a4 OFLAGS_TRUNC && decide (Py.and dir.base RIGHTS_PATH_FILESTAT_SET_SIZE = 0)) = false
  hopen : os.run s.log (.open name (openFlags os.c a1 a4 a5 a7) 0o644 (some dir.hostFd)) = .ok host
  mem : mid.mem = s.mem
  log : mid.log = s.log ++ [⟨.open name (openFlags os.c a1 a4 a5 a7) 0o644 (some dir.hostFd), .ok host⟩,
    ⟨.isdir host, .ok isd⟩, ⟨.isfile host, .ok isf⟩, ⟨.stat host, .ok info⟩]
  fd : mid.fd = s.fd ++ [⟨host, openFlags os.c a1 a4 a5 a7, Py.normpath (Py.join dir.hostName name), true, none,
    s.fd.length, a7, Py.normpath (Py.join dir.wasmName name), granted a5 isd isf, granted a6 isd isf, true,
    helpWasmType info⟩]
  store : putU 4 a8 s.fd.length mid = .ok () s'

theorem pathOpen_ok {os : Os} {a0 a1 a2 a3 a4 a5 a6 a7 a8 : Int} {s s' : St}
    (h : pathOpen os a0 a1 a2 a3 a4 a5 a6 a7 a8 s = .ok 0 s') :
    Nonempty (OpenOk os a0 a1 a2 a3 a4 a5 a6 a7 a8 s s') := by
  have no : ∀ {e : Int} {t : St}, e ≠ 0 → (Pure.pure e : W Int) t = .ok 0 s' → False := by
    intro e t he hh
    injection hh with hh; exact he hh
  unfold pathOpen at h
  cases hf : openFile s a0 with
  | none => rw [gate_bad hf _ (by simp)] at h; injection h with h; exact absurd h (by decide)
  | some f =>
    rw [gate_open hf, if_neg Bool.false_ne_true, gate_perm hf] at h
    split at h
    · exact (no (by decide) h).elim
    · rename_i hp
      replace h := bind_inv h
      obtain ⟨m, t, hm, h⟩ := h
      obtain ⟨rfl, -⟩ := mems_state hm
      rw [bind_ok (file_open hf)] at h
      replace h := bind_inv h
      obtain ⟨name, t2, hn, h⟩ := h
      obtain rfl := getName_state hn
      simp only at h
      split at h
      · exact (no (by decide) h).elim
      rename_i h1
      split at h
      · exact (no (by decide) h).elim
      rename_i h2
      split at h
      · exact (no (by decide) h).elim
      rename_i h3
      rw [bind_get] at h
      replace h := bind_inv h
      obtain ⟨r, t3, hr, h⟩ := h
      injection hr with hr1 hr2
      subst hr1
      cases ho : os.run t2.log (.open name (openFlags os.c a1 a4 a5 a7) 0o644 (some f.hostFd)) with
      | error e =>
        rw [ho] at h
        have := (onErr_err h).1
        cases hpl : os.plat <;> rw [hpl] at this <;> exact absurd this (by decide)
      | ok hfd =>
        rw [ho] at h hr2
        simp only [onErr] at h
        unfold opened at h
        replace h := bind_inv h
        obtain ⟨isd, t4, hs, h⟩ := h
        obtain ⟨-, rfl⟩ := sys_inv hs
        replace h := bind_inv h
        obtain ⟨isf, t5, hs, h⟩ := h
        obtain ⟨-, rfl⟩ := sys_inv hs
        replace h := bind_inv h
        obtain ⟨info, t6, hs, h⟩ := h
        obtain ⟨-, rfl⟩ := sys_inv hs
        replace h := bind_inv h
        obtain ⟨u, mid, hs, h⟩ := h
        injection hs with _ hs
        replace h := bind_inv h
        obtain ⟨u, t7, hs2, h⟩ := h
        injection h with _ h
        subst h
        refine ⟨⟨f, name, hfd, isd, isf, info, mid, hf, by simpa using hp, hn, by simpa using h1, by simpa using h2, by simpa using h3, ho,
          ?_, ?_, ?_, hs2⟩⟩
        · rw [← hs, ← hr2]; rfl
        · rw [← hs, ← hr2]
          simp [St.event]
        · rw [← hs, ← hr2]; rfl

/-! ## Reading only -/

/-- A computation that changes nothing. -/
structure Reads {α} (c : W α) : Prop where
  run : ∀ s, after c s = s

theorem Reads.bind {α β} {x : W α} {f : α → W β} (hx : Reads x) (hf : ∀ a, Reads (f a)) : Reads (x >>= f) := by
  constructor
  intro s
  rw [after_bind]
  have := hx.run s
  unfold after at this
  cases h : x s with
  | ok a s' => rw [h] at this; dsimp only at this ⊢; rw [this]; exact (hf a).run s
  | error e s' => rw [h] at this; exact this
theorem Reads.pure {α} (a : α) : Reads (pure a : W α) := ⟨fun _ => rfl⟩
theorem Reads.lift {α} (e : Except Err α) : Reads (lift e) := ⟨fun s => by cases e <;> rfl⟩
theorem Reads.mems : Reads mems := ⟨fun s => by unfold Wasi.mems after; dsimp only; cases h : s.mem <;> rfl⟩
theorem Reads.get : Reads (get : W St) := ⟨fun _ => rfl⟩
theorem getName_read (a n : Int) : Reads (getName a n) :=
  (Reads.mems.bind fun _ => Reads.pure _).bind fun _ => (Reads.lift _).bind fun _ => Reads.pure _
theorem getU_read (k : Nat) (a : Int) : Reads (getU k a) := Reads.mems.bind fun _ => Reads.lift _
theorem getU8_read (a : Int) : Reads (getU8 a) := Reads.mems.bind fun _ => Reads.lift _
theorem getB_read (a n : Int) : Reads (getB a n) := Reads.mems.bind fun _ => Reads.pure _
theorem file_read (a : Int) : Reads (file a) := Reads.get.bind fun _ => Reads.lift _

/-! ## The subscriptions of `poll_oneoff` -/

/-- Nothing happened but reads of clocks. -/
def Ticks (s s' : St) : Prop :=
  ∃ t : List Event, (∀ e ∈ t, ∃ c, e.call = .time c) ∧ s' = { s with log := s.log ++ t }

theorem Ticks.refl (s : St) : Ticks s s := ⟨[], by simp, by simp⟩
theorem Ticks.trans {s t u : St} (h : Ticks s t) (h' : Ticks t u) : Ticks s u := by
  obtain ⟨a, ha, rfl⟩ := h
  obtain ⟨b, hb, rfl⟩ := h'
  refine ⟨a ++ b, ?_, by simp⟩
  intro e he
  rcases List.mem_append.mp he with h | h
  · exact ha e h
  · exact hb e h
theorem Ticks.time (os : Os) (id : Int) (s : St) : Ticks s (after (helpTime os id) s) := by
  have one : ∀ c, Ticks s (after (sys os (.time c)) s) := by
    intro c
    unfold after
    rw [sys_run]
    cases h : os.run s.log (.time c) with
    | ok a => exact ⟨[_], by simp, rfl⟩
    | error e => exact ⟨[_], by simp, rfl⟩
  unfold helpTime
  split
  · exact one _
  · split
    · exact one _
    · split
      · exact one _
      · split
        · exact one _
        · exact .refl s

theorem Ticks.bind {α β} {x : W α} {f : α → W β} {s : St} (h : Ticks s (after x s))
    (hf : ∀ a s', Ticks s' (after (f a) s')) : Ticks s (after (x >>= f) s) := by
  rw [after_bind]
  unfold after at h
  cases hx : x s with
  | ok a t => rw [hx] at h; exact h.trans (hf a t)
  | error e t => rw [hx] at h; exact h
theorem Reads.ticks {α} {x : W α} (h : Reads x) (s : St) : Ticks s (after x s) := by rw [h.run]; exact .refl s

theorem helpBadf_read (a : Int) : Reads (helpBadf a) := by
  constructor
  intro s
  unfold after
  rw [helpBadf_run]
theorem helpPerm_read (a b : Int) : Reads (helpPerm a b) := (file_read a).bind fun _ => Reads.pure _

theorem Ticks.readSub (os : Os) (a : Int) (s : St) : Ticks s (after (readSub os a) s) := by
  unfold Wasi.readSub
  refine ((getU_read _ _).ticks s).bind fun user s => ?_
  refine ((getU8_read _).ticks s).bind fun ty s => ?_
  split
  · refine ((getU_read _ _).ticks s).bind fun _ s => ?_
    refine ((getU_read _ _).ticks s).bind fun _ s => ?_
    refine ((getU_read _ _).ticks s).bind fun _ s => ?_
    refine (Ticks.time _ _ s).bind fun _ s => ?_
    exact (Reads.pure _).ticks s
  · have fdc : ∀ (k : Int → Sub) s, Ticks s (after (do
        let f ← getU 4 (a + 16)
        if ← helpBadf f then return Except.error ERRNO_BADF
        if ← helpPerm f RIGHTS_POLL_FD_READWRITE then return Except.error ERRNO_NOTCAPABLE
        return Except.ok (some (k f))) s) := by
      intro k s
      refine ((getU_read _ _).ticks s).bind fun _ s => ?_
      refine ((helpBadf_read _).ticks s).bind fun _ s => ?_
      split
      · exact (Reads.pure _).ticks s
      · refine ((helpPerm_read _ _).ticks s).bind fun _ s => ?_
        split
        · exact (Reads.pure _).ticks s
        · exact (Reads.pure _).ticks s
    split
    · exact fdc _ s
    · split
      · exact fdc _ s
      · exact (Reads.pure _).ticks s

theorem getU8_run {s : St} {p : Nat} (h : InMem s p 1) : getU8 p s = .ok (numAt s p 1 : Int) s := by
  obtain ⟨m, hm, hb, hl⟩ := h.some
  unfold getU8
  rw [bind_ok (mems_run hm)]
  have h1 : m.data[p]? = some m.data[p] := List.getElem?_eq_getElem (by omega)
  have : m.getU8 (p : Int) = .ok ((m.data[p].toNat : Nat) : Int) := by
    unfold MemInst.getU8
    rw [Py.getItem_some h1]; rfl
  rw [this]
  show EStateM.Result.ok _ _ = _
  congr 1
  unfold numAt Spec.range
  rw [hb, List.drop_eq_getElem_cons (show p < m.data.length by omega), List.take_succ_cons, List.take_zero]
  simp [Spec.readLE]

theorem Ticks.mem {s s' : St} (h : Ticks s s') : s'.mem = s.mem := by obtain ⟨t, -, rfl⟩ := h; rfl
theorem Ticks.inMem {s s' : St} (h : Ticks s s') {p n : Nat} (hm : InMem s p n) : InMem s' p n := by
  obtain ⟨t, -, rfl⟩ := h; exact hm

/-- A read or write subscription on a descriptor without the right. -/
theorem readSub_lack (os : Os) (p : Nat) (s : St) (hm : InMem s p 48)
    (ht : numAt s (p + 8) 1 = 1 ∨ numAt s (p + 8) 1 = 2) (hn : ¬Holds s (numAt s (p + 16) 4) 27) :
    ∃ e, (e = 8 ∨ e = 76) ∧ readSub os p s = .ok (.error e) s := by
  have in1 : ∀ k j, k + j ≤ 48 → InMem s (p + k) j := fun k j h => ⟨hm.1, by have := hm.2; omega⟩
  unfold readSub
  rw [bind_ok (getU_run (show InMem s p 8 from in1 0 8 (by decide)))]
  have h8 := getU8_run (in1 8 1 (by decide))
  rw [show ((p + 8 : Nat) : Int) = (p : Int) + 8 from rfl] at h8
  have h16 := getU_run (in1 16 4 (by decide))
  rw [show ((p + 16 : Nat) : Int) = (p : Int) + 16 from rfl] at h16
  rw [bind_ok h8]
  have fdc : ∀ (k : Int → Sub), ∃ e, (e = 8 ∨ e = 76) ∧ ((do
        let f ← getU 4 ((p : Int) + 16)
        if ← helpBadf f then return Except.error ERRNO_BADF
        if ← helpPerm f RIGHTS_POLL_FD_READWRITE then return Except.error ERRNO_NOTCAPABLE
        return Except.ok (some (k f))) : W (Except Int (Option Sub))) s = .ok (.error e) s := by
    intro k
    rw [bind_ok h16]
    cases ho : openFile s (numAt s (p + 16) 4 : Int) with
    | none =>
      refine ⟨8, .inl rfl, ?_⟩
      rw [bind_ok (helpBadf_run s _), ho]; rfl
    | some f =>
      refine ⟨76, .inr rfl, ?_⟩
      rw [bind_ok (helpBadf_run s _), ho]
      have hh : has f.base 27 = false := by
        cases hh : has f.base 27 with
        | false => rfl
        | true => exact absurd ⟨f, ho, hh⟩ hn
      show (helpPerm _ _ >>= _) s = _
      rw [bind_ok (helpPerm_run ho _)]
      rw [show RIGHTS_POLL_FD_READWRITE = 2 ^ 27 from rfl, decide_eq_true ((and_pow_eq_zero _ _).mpr hh)]
      rfl
  rcases ht with ht | ht
  · rw [ht, if_neg (by decide), if_pos (by decide)]
    exact fdc _
  · rw [ht, if_neg (by decide), if_neg (by decide), if_pos (by decide)]
    exact fdc _

theorem readSub_err {os : Os} {a : Int} {s s' : St} {e : Int} (h : readSub os a s = .ok (.error e) s') :
    e = 8 ∨ e = 76 := by
  unfold readSub at h
  obtain ⟨_, _, -, h⟩ := bind_inv h
  obtain ⟨_, _, -, h⟩ := bind_inv h
  have fdc : ∀ (k : Int → Sub) (t : St), ((do
        let f ← getU 4 (a + 16)
        if ← helpBadf f then return Except.error ERRNO_BADF
        if ← helpPerm f RIGHTS_POLL_FD_READWRITE then return Except.error ERRNO_NOTCAPABLE
        return Except.ok (some (k f))) : W (Except Int (Option Sub))) t = .ok (.error e) s' → e = 8 ∨ e = 76 := by
    intro k t h
    obtain ⟨_, _, -, h⟩ := bind_inv h
    obtain ⟨_, _, -, h⟩ := bind_inv h
    split at h
    · injection h with h _; injection h with h; exact .inl h.symm
    · obtain ⟨_, _, -, h⟩ := bind_inv h
      split at h
      · injection h with h _; injection h with h; exact .inr h.symm
      · injection h with h _; cases h
  split at h
  · obtain ⟨_, _, -, h⟩ := bind_inv h
    obtain ⟨_, _, -, h⟩ := bind_inv h
    obtain ⟨_, _, -, h⟩ := bind_inv h
    obtain ⟨_, _, -, h⟩ := bind_inv h
    injection h with h _; cases h
  · split at h
    · exact fdc _ _ h
    · split at h
      · exact fdc _ _ h
      · injection h with h _; cases h

theorem readSubs_lack (os : Os) (i n p : Nat) (s : St) (hi : i < n) (hm : InMem s p (48 * n))
    (ht : numAt s (p + 48 * i + 8) 1 = 1 ∨ numAt s (p + 48 * i + 8) 1 = 2)
    (hn : ¬Holds s (numAt s (p + 48 * i + 16) 4) 27) :
    (∃ e s', (e = 8 ∨ e = 76) ∧ readSubs os n p s = .ok (.error e) s' ∧ Ticks s s') ∨
    (∃ e s', readSubs os n p s = .error e s' ∧ Ticks s s') := by
  induction i generalizing n p s with
  | zero =>
    obtain ⟨n, rfl⟩ : ∃ k, n = k + 1 := ⟨n - 1, by omega⟩
    obtain ⟨e, he, hr⟩ := readSub_lack os p s ⟨hm.1, by have := hm.2; omega⟩ ht hn
    refine .inl ⟨e, s, he, ?_, .refl s⟩
    unfold readSubs
    rw [bind_ok hr]; rfl
  | succ i ih =>
    obtain ⟨n, rfl⟩ : ∃ k, n = k + 1 := ⟨n - 1, by omega⟩
    unfold readSubs
    have hk := Ticks.readSub os p s
    unfold after at hk
    cases hr : readSub os p s with
    | error e s' => rw [hr] at hk; rw [bind_err hr]; exact .inr ⟨e, s', rfl, hk⟩
    | ok r s' =>
      rw [hr] at hk
      rw [bind_ok hr]
      cases r with
      | error e => exact .inl ⟨e, s', readSub_err hr, rfl, hk⟩
      | ok r =>
        have hk' := hk
        obtain ⟨t, htt, rfl⟩ := hk'
        have e48 : ∀ k, p + 48 * (i + 1) + k = p + 48 + 48 * i + k := fun k => by omega
        rw [e48] at ht hn
        have := ih n (p + 48) { s with log := s.log ++ t } (by omega) ⟨hm.1, by have := hm.2; show p + 48 + 48 * n ≤ (bytes s).length; omega⟩ ht hn
        rw [show ((p + 48 : Nat) : Int) = (p : Int) + 48 from rfl] at this
        rcases this with ⟨e, s', he, hr', ht'⟩ | ⟨e, s', hr', ht'⟩
        · refine .inl ⟨e, s', he, ?_, hk.trans ht'⟩
          show (readSubs os n (p + 48) >>= _) _ = _
          rw [bind_ok hr']; rfl
        · refine .inr ⟨e, s', ?_, hk.trans ht'⟩
          show (readSubs os n (p + 48) >>= _) _ = _
          rw [bind_err hr']

end Pywasm.Wasi
