import Verif.Lemmas.WasiDir
import Verif.Lemmas.WasiStay
import Verif.Lemmas.WasiOpen
import Verif.Spec.WasiPoll

/-!
# `poll_oneoff`
-/

namespace Pywasm.Wasi
open WasiSpec Spec

theorem numAt_succ {s : St} {p : Nat} (k : Nat) (h : InMem s p 1) :
    numAt s p (k + 1) = ((bytes s)[p]'(by have := h.2; omega)).toNat + 256 * numAt s (p + 1) k := by
  have := h.2
  unfold numAt Spec.range
  rw [List.drop_eq_getElem_cons (by omega), List.take_succ_cons, readLE_cons]

theorem numAt_one {s : St} {p : Nat} (h : InMem s p 1) : numAt s p 1 = ((bytes s)[p]'(by have := h.2; omega)).toNat := by
  rw [numAt_succ 0 h]
  simp [numAt, Spec.range, readLE]

theorem numAt_odd (s : St) (p k : Nat) (h : InMem s p 1) : numAt s p (k + 1) % 2 = numAt s p 1 % 2 := by
  rw [numAt_succ k h, numAt_one h]
  omega

theorem bit_one (n : Nat) : bit n 1 = decide (n % 2 = 1) := by
  rw [show (1 : Int) = 2 ^ 0 from rfl, bit_two_pow]
  have := has_nat n 0
  rw [Nat.testBit_zero] at this
  exact this

theorem helpTime_inv {os : Os} {i : Nat} (hi : i ≤ 3) {s s' : St} {c : Int} (h : helpTime os i s = .ok c s') :
    s' = s.event (.time (hostClock i)) (.ok c) := by
  have key : ∀ k, sys os (.time k) s = .ok c s' → s' = s.event (.time k) (.ok c) := by
    intro k h
    rw [sys_run] at h
    cases hr : os.run s.log (.time k) with
    | ok a => rw [hr] at h; injection h with h1 h2; subst h1; exact h2.symm
    | error e => rw [hr] at h; cases h
  have : i = 0 ∨ i = 1 ∨ i = 2 ∨ i = 3 := by omega
  rcases this with rfl | rfl | rfl | rfl <;> exact key _ h

/-- The subscriptions as the code keeps them. -/
def built : List PollSub → List Int → List Sub
  | .clock u i t a :: l, c :: cs =>
    .clock u i (if a then c - t else t) (if a then t else c + t) :: built l cs
  | .read u f :: l, cs => .read u f :: built l cs
  | .write u f :: l, cs => .write u f :: built l cs
  | _, _ => []

/-- What reading one subscription does. -/
def ReadAs (s s' : St) (o : Option Sub) : PollSub → Prop
  | .clock u i t a => ∃ c, s' = s.event (.time (hostClock i)) (.ok c) ∧
      o = some (.clock u i (if a then c - t else t) (if a then t else c + t))
  | .read u f => s' = s ∧ o = some (.read u f) ∧ (openFile s f).isSome
  | .write u f => s' = s ∧ o = some (.write u f) ∧ (openFile s f).isSome

theorem readSub_inv {os : Os} {p : Nat} {s s' : St} {o : Option Sub} {x : PollSub} (hm : InMem s p 48)
    (hx : subAt s p = some x) (hc : ∀ u i t a, x = .clock u i t a → i ≤ 3 ∧ numAt s (p + 16) 8 = i)
    (h : readSub os p s = .ok (.ok o) s') :
    ReadAs s s' o x := by
  have h0 := hm.2
  have m1 : InMem s p 8 := ⟨hm.1, by omega⟩
  have m2 : InMem s (p + 8) 1 := ⟨hm.1, by omega⟩
  have m3 : InMem s (p + 16) 8 := ⟨hm.1, by omega⟩
  have m3' : InMem s (p + 16) 4 := ⟨hm.1, by omega⟩
  have m4 : InMem s (p + 24) 8 := ⟨hm.1, by omega⟩
  have m5 : InMem s (p + 40) 4 := ⟨hm.1, by omega⟩
  have m6 : InMem s (p + 40) 1 := ⟨hm.1, by omega⟩
  have r1 := getU_run m1
  have r2 := getU8_run m2
  have r3 := getU_run m3
  have r3' := getU_run m3'
  have r4 := getU_run m4
  have r5 := getU_run m5
  rw [show ((p + 8 : Nat) : Int) = (p : Int) + 8 from rfl] at r2
  rw [show ((p + 16 : Nat) : Int) = (p : Int) + 16 from rfl] at r3 r3'
  rw [show ((p + 24 : Nat) : Int) = (p : Int) + 24 from rfl] at r4
  rw [show ((p + 40 : Nat) : Int) = (p : Int) + 40 from rfl] at r5
  unfold readSub at h
  rw [bind_ok r1, bind_ok r2] at h
  have fdcase : ∀ (g : Int → Int → Sub), (do
      let f ← getU 4 ((p : Int) + 16)
      if ← helpBadf f then return .error ERRNO_BADF
      if ← helpPerm f RIGHTS_POLL_FD_READWRITE then return .error ERRNO_NOTCAPABLE
      return .ok (some (g (numAt s p 8) f)) : W (Except Int (Option Sub))) s = .ok (.ok o) s' →
      s' = s ∧ o = some (g (numAt s p 8) (numAt s (p + 16) 4)) ∧ (openFile s (numAt s (p + 16) 4)).isSome := by
    intro g h
    rw [bind_ok r3', bind_ok (helpBadf_run _ _)] at h
    cases ho : openFile s (numAt s (p + 16) 4) with
    | none => rw [ho] at h; cases h
    | some f =>
      rw [ho] at h
      dsimp only [Option.isNone] at h
      rw [if_neg (by simp), bind_ok (helpPerm_run ho _)] at h
      split at h
      · cases h
      · injection h with h1 h2
        injection h1 with h1
        exact ⟨h2.symm, h1.symm, rfl⟩
  unfold subAt at hx
  split at hx
  · rename_i ht
    injection hx with hx
    subst hx
    obtain ⟨hi, hi'⟩ := hc _ _ _ _ rfl
    rw [ht, if_pos (by rfl), bind_ok r3, bind_ok r4, bind_ok r5, hi'] at h
    obtain ⟨c, s1, h1, h⟩ := bind_inv' h
    have := helpTime_inv hi h1
    subst this
    have hodd : bit (numAt s (p + 40) 4) 1 = decide (numAt s (p + 40) 2 % 2 = 1) := by
      rw [bit_one, numAt_odd s (p + 40) 3 m6, numAt_odd s (p + 40) 1 m6]
    simp only [hodd] at h
    injection h with h1 h2
    injection h1 with h1
    exact ⟨c, h2.symm, h1.symm⟩
  · rename_i ht
    injection hx with hx
    subst hx
    rw [ht, if_neg (by decide), if_pos (by rfl)] at h
    exact fdcase _ h
  · rename_i ht
    injection hx with hx
    subst hx
    rw [ht, if_neg (by decide), if_neg (by decide), if_pos (by rfl)] at h
    exact fdcase _ h
  · cases hx

theorem subAt_mem {s t : St} (h : t.mem = s.mem) (p : Nat) : subAt t p = subAt s p := by
  unfold subAt
  simp only [numAt_mem h]
theorem subsAt_mem {s t : St} (h : t.mem = s.mem) : ∀ (p : Nat) (l : List PollSub), SubsAt s p l → SubsAt t p l
  | _, [], _ => trivial
  | p, x :: l, hx => by
    refine ⟨by rw [subAt_mem h]; exact hx.1, ?_, subsAt_mem h _ l hx.2.2⟩
    rw [numAt_mem h]
    exact hx.2.1

/-- The descriptors of the subscriptions are open. -/
def Opens (s : St) : List PollSub → Prop
  | [] => True
  | .clock .. :: l => Opens s l
  | .read _ f :: l | .write _ f :: l => (openFile s f).isSome ∧ Opens s l
theorem opens_fd {s t : St} (h : t.fd = s.fd) : ∀ l, Opens s l → Opens t l
  | [], _ => trivial
  | .clock .. :: l, hl => opens_fd (s := s) h l hl
  | .read _ f :: l, hl => ⟨by unfold openFile; rw [h]; exact hl.1, opens_fd h l hl.2⟩
  | .write _ f :: l, hl => ⟨by unfold openFile; rw [h]; exact hl.1, opens_fd h l hl.2⟩

theorem readSubs_inv {os : Os} : ∀ (l : List PollSub) (p : Nat) (s s' : St) (r : List Sub), InMem s p (48 * l.length) →
    SubsAt s p l → readSubs os l.length p s = .ok (.ok r) s' →
    ∃ cs, Enough l cs ∧ r = built l cs ∧ s' = { s with log := s.log ++ readings l cs } ∧ Opens s l
  | [], p, s, s', r, hm, hs, h => by
    injection h with h1 h2
    injection h1 with h1
    subst h1 h2
    refine ⟨[], rfl, rfl, ?_, trivial⟩
    simp [readings]
  | x :: l, p, s, s', r, hm, hs, h => by
    rw [List.length_cons] at hm h
    have hm2 := hm.2
    unfold readSubs at h
    obtain ⟨o, s1, h1, h⟩ := bind_inv' h
    cases o with
    | error e => injection h with h; cases h
    | ok o =>
      dsimp only at h
      obtain ⟨r', s2, h2, h⟩ := bind_inv' h
      cases r' with
      | error e => injection h with h; cases h
      | ok r' =>
        injection h with h3 h4
        injection h3 with h3
        subst h3 h4
        have ha := readSub_inv ⟨hm.1, by omega⟩ hs.1 hs.2.1 h1
        rw [show (p : Int) + 48 = ((p + 48 : Nat) : Int) from rfl] at h2
        cases x with
        | clock u i t a =>
          obtain ⟨c, rfl, rfl⟩ := ha
          obtain ⟨cs, g1, g2, g3, g4⟩ := readSubs_inv l (p + 48) (s.event _ _) _ _ ⟨hm.1, by
            show p + 48 + 48 * l.length ≤ (bytes s).length; omega⟩ (subsAt_mem (s := s) (t := s.event _ _) rfl _ _ hs.2.2) h2
          refine ⟨c :: cs, g1, by rw [g2]; rfl, ?_, opens_fd (s := s.event _ _) (t := s) rfl l g4⟩
          rw [g3]
          simp [St.event, readings]
        | read u f =>
          obtain ⟨rfl, rfl, ho⟩ := ha
          obtain ⟨cs, g1, g2, g3, g4⟩ := readSubs_inv l (p + 48) _ _ _ ⟨hm.1, by omega⟩ hs.2.2 h2
          exact ⟨cs, g1, by rw [g2]; rfl, g3, ho, g4⟩
        | write u f =>
          obtain ⟨rfl, rfl, ho⟩ := ha
          obtain ⟨cs, g1, g2, g3, g4⟩ := readSubs_inv l (p + 48) _ _ _ ⟨hm.1, by omega⟩ hs.2.2 h2
          exact ⟨cs, g1, by rw [g2]; rfl, g3, ho, g4⟩

/-! ## Descriptors -/

/-- User data and descriptor of the subscriptions to read, and to write. -/
def rsubs (l : List PollSub) : List (Nat × Nat) := l.filterMap fun | .read u f => some (u, f) | _ => none
def wsubs (l : List PollSub) : List (Nat × Nat) := l.filterMap fun | .write u f => some (u, f) | _ => none
def ints (l : List (Nat × Nat)) : List (Int × Int) := l.map fun x => ((x.1 : Int), (x.2 : Int))

theorem readsOf_built : ∀ (l : List PollSub) (cs : List Int), Enough l cs → readsOf (built l cs) = ints (rsubs l)
  | [], _, _ => rfl
  | .clock .. :: l, _ :: cs, h => readsOf_built l cs h
  | .clock .. :: _, [], h => absurd h id
  | .read u f :: l, cs, h => by
    have := readsOf_built l cs h
    show (_ :: readsOf (built l cs) : List _) = (_ :: ints (rsubs l) : List _)
    rw [this]
  | .write .. :: l, cs, h => readsOf_built l cs h
theorem writesOf_built : ∀ (l : List PollSub) (cs : List Int), Enough l cs → writesOf (built l cs) = ints (wsubs l)
  | [], _, _ => rfl
  | .clock .. :: l, _ :: cs, h => writesOf_built l cs h
  | .clock .. :: _, [], h => absurd h id
  | .write u f :: l, cs, h => by
    have := writesOf_built l cs h
    show (_ :: writesOf (built l cs) : List _) = (_ :: ints (wsubs l) : List _)
    rw [this]
  | .read .. :: l, cs, h => writesOf_built l cs h

theorem Opens.reads {s : St} : ∀ (l : List PollSub), Opens s l → ∀ x ∈ rsubs l, (openFile s x.2).isSome
  | [], _, _, hx => by cases hx
  | .clock .. :: l, h, x, hx => Opens.reads (s := s) l h x hx
  | .read u f :: l, h, x, hx => by
    rcases List.mem_cons.mp hx with rfl | hx
    · exact h.1
    · exact Opens.reads l h.2 x hx
  | .write .. :: l, h, x, hx => Opens.reads l h.2 x hx
theorem Opens.writes {s : St} : ∀ (l : List PollSub), Opens s l → ∀ x ∈ wsubs l, (openFile s x.2).isSome
  | [], _, _, hx => by cases hx
  | .clock .. :: l, h, x, hx => Opens.writes (s := s) l h x hx
  | .write u f :: l, h, x, hx => by
    rcases List.mem_cons.mp hx with rfl | hx
    · exact h.1
    · exact Opens.writes l h.2 x hx
  | .read .. :: l, h, x, hx => Opens.writes l h.2 x hx

theorem file_host {s : St} {f : Nat} (h : (openFile s f).isSome) : ∃ x, file f s = .ok x s ∧ x.hostFd = host s f := by
  obtain ⟨x, hx⟩ := Option.isSome_iff_exists.mp h
  exact ⟨x, file_open hx, by unfold host; rw [hx]; rfl⟩

theorem hostFds_run {s : St} : ∀ (l : List (Nat × Nat)), (∀ x ∈ l, (openFile s x.2).isSome) →
    hostFds (ints l) s = .ok (l.map fun x => host s x.2) s
  | [], _ => rfl
  | x :: l, h => by
    obtain ⟨y, h1, h2⟩ := file_host (h x List.mem_cons_self)
    have ih := hostFds_run l fun z hz => h z (List.mem_cons_of_mem _ hz)
    show hostFds (((x.1 : Int), (x.2 : Int)) :: ints l) s = _
    unfold hostFds
    rw [bind_ok h1, bind_ok ih, h2]
    rfl

theorem readFds_eq (s : St) (l : List PollSub) : (rsubs l).map (fun x => host s x.2) = readFds s l := by
  unfold rsubs readFds
  rw [List.map_filterMap]
  congr 1
  funext x; cases x <;> rfl
theorem writeFds_eq (s : St) (l : List PollSub) : (wsubs l).map (fun x => host s x.2) = writeFds s l := by
  unfold wsubs writeFds
  rw [List.map_filterMap]
  congr 1
  funext x; cases x <;> rfl

/-! ## Events -/

theorem eventsAt_frame {s t : St} {d e : Nat} (f : Frame s t d e) : ∀ (n q : Nat), q + 32 * n ≤ d ∨ e ≤ q →
    eventsAt t q n = eventsAt s q n
  | 0, _, _ => rfl
  | n + 1, q, h => by
    unfold eventsAt
    rw [f.num (by omega), f.num (by omega), f.num (by omega), eventsAt_frame f n (q + 32) (by omega)]

theorem eventsAt_add (s : St) : ∀ (n m q : Nat), eventsAt s q (n + m) = eventsAt s q n ++ eventsAt s (q + 32 * n) m
  | 0, m, q => by simp [eventsAt]
  | n + 1, m, q => by
    rw [show n + 1 + m = (n + m) + 1 by omega]
    show _ :: eventsAt s (q + 32) (n + m) = _ :: eventsAt s (q + 32) n ++ _
    rw [eventsAt_add s n m (q + 32), List.cons_append]
    rw [show q + 32 + 32 * n = q + 32 * (n + 1) by omega]

theorem putEvent_run {s : St} {q u ty : Nat} (h : InMem s q 32) (hu : u < 256 ^ 8) (ht : ty < 256) :
    ∃ t, putEvent q u ty s = .ok () t ∧ Frame s t q (q + 32) ∧ t.log = s.log ∧ eventsAt t q 1 = [⟨u, 0, ty⟩] := by
  have h2 := h.2
  have a1 : InMem s q 8 := ⟨h.1, by omega⟩
  have a2 : InMem s (q + 8) 2 := ⟨h.1, by omega⟩
  have a3 : InMem s (q + 10) 1 := ⟨h.1, by omega⟩
  let s1 := write s q (bytesLE 8 u)
  let s2 := write s1 (q + 8) (bytesLE 2 0)
  let s3 := write s2 (q + 10) [UInt8.ofNat ty]
  have b2 : InMem s1 (q + 8) 2 := a2.write _ _
  have b3 : InMem s2 (q + 10) 1 := (a3.write _ _).write _ _
  have f1 : Frame s s1 q (q + 8) := .write h.1 _ _ (by rw [bytesLE_length])
  have f2 : Frame s1 s2 (q + 8) (q + 10) := .write b2.1 _ _ (by rw [bytesLE_length])
  have f3 : Frame s2 s3 (q + 10) (q + 11) := .write b3.1 _ _ rfl
  have r1 := putU_run (v := u) a1 hu
  have r2 := putU_run (v := 0) b2 (by decide)
  have r3 := putU8_run (v := ty) b3 ht
  refine ⟨s3, ?_, ?_, rfl, ?_⟩
  · unfold putEvent
    rw [bind_ok r1]
    refine (bind_ok r2).trans ?_
    exact r3
  · exact (f1.trans (f2.mono (by omega : q ≤ _) (Nat.le_refl _)) (Nat.le_refl _) (by omega)).trans
      (f3.mono (by omega : q ≤ _) (by omega : _ ≤ q + 32)) (Nat.le_refl _) (by omega)
  · simp only [eventsAt]
    congr 2
    · rw [f3.num (by omega), f2.num (by omega)]
      exact numAt_write_self a1 hu
    · rw [f3.num (by omega)]
      exact numAt_write_self b2 (by decide)
    · exact numAt_byte b3 ht

/-- Events of a kind for the descriptors that are ready. -/
def fdEvents (s : St) (ty : Nat) (yes : List Int) (l : List (Nat × Nat)) : List PollEvent :=
  l.filterMap fun x => if host s x.2 ∈ yes then some ⟨x.1, 0, ty⟩ else none

theorem host_fd {s t : St} (h : t.fd = s.fd) (f : Nat) : host t f = host s f := by
  unfold host openFile; rw [h]
theorem fdEvents_fd {s t : St} (h : t.fd = s.fd) (ty : Nat) (yes : List Int) (l : List (Nat × Nat)) :
    fdEvents t ty yes l = fdEvents s ty yes l := by
  unfold fdEvents
  simp only [host_fd h]

theorem putFds_run (ty : Nat) (ht : ty < 256) (yes : List Int) : ∀ (l : List (Nat × Nat)) (q k : Nat) (s : St),
    InMem s q (32 * l.length) → (∀ x ∈ l, x.1 < 256 ^ 8) → (∀ x ∈ l, (openFile s x.2).isSome) →
    ∃ t, putFds ty yes (ints l) q k s =
        .ok (((q + 32 * (fdEvents s ty yes l).length : Nat) : Int), ((k + (fdEvents s ty yes l).length : Nat) : Int)) t ∧
      Frame s t q (q + 32 * (fdEvents s ty yes l).length) ∧ t.log = s.log ∧
      eventsAt t q (fdEvents s ty yes l).length = fdEvents s ty yes l
  | [], q, k, s, _, _, _ => ⟨s, rfl, Frame.refl _ _ _, rfl, rfl⟩
  | x :: l, q, k, s, hm, hu, ho => by
    rw [List.length_cons] at hm
    have hm2 := hm.2
    obtain ⟨y, h1, h2⟩ := file_host (ho x List.mem_cons_self)
    have hu' := fun z hz => hu z (List.mem_cons_of_mem _ hz)
    have ho' := fun z hz => ho z (List.mem_cons_of_mem _ hz)
    show ∃ t, putFds ty yes (((x.1 : Int), (x.2 : Int)) :: ints l) q k s = _ ∧ _
    unfold putFds
    rw [bind_ok h1, h2]
    by_cases hy : host s x.2 ∈ yes
    · have he : fdEvents s ty yes (x :: l) = ⟨x.1, 0, ty⟩ :: fdEvents s ty yes l := by
        simp [fdEvents, hy]
      obtain ⟨t1, g1, g2, g3, g4⟩ := putEvent_run (s := s) (q := q) ⟨hm.1, by omega⟩ (hu x List.mem_cons_self) ht
      obtain ⟨t, i1, i2, i3, i4⟩ := putFds_run ty ht yes l (q + 32) (k + 1) t1
        (g2.inMem ⟨hm.1, by omega⟩) hu' (fun z hz => by
          have := ho' z hz
          unfold openFile at this ⊢; rw [g2.fd]; exact this)
      rw [fdEvents_fd g2.fd] at i1 i2 i4
      rw [he, if_pos hy, bind_ok g1, List.length_cons]
      refine ⟨t, ?_, ?_, i3.trans g3, ?_⟩
      · refine i1.trans ?_
        congr 2 <;> omega
      · exact (g2.mono (Nat.le_refl q) (by omega)).trans (i2.mono (by omega : q ≤ _) (by omega)) (Nat.le_refl _) (Nat.le_refl _)
      · rw [show (fdEvents s ty yes l).length + 1 = 1 + (fdEvents s ty yes l).length by omega, eventsAt_add, i4,
          eventsAt_frame i2 1 q (by omega), g4]
        rfl
    · have he : fdEvents s ty yes (x :: l) = fdEvents s ty yes l := by
        simp [fdEvents, hy]
      rw [he, if_neg hy]
      exact putFds_run ty ht yes l q k s ⟨hm.1, by omega⟩ hu' ho'

theorem readable_eq (s : St) (yes : List Int) (l : List PollSub) : fdEvents s 1 yes (rsubs l) = readable s yes l := by
  unfold fdEvents rsubs readable
  rw [List.filterMap_filterMap]
  congr 1
  funext x; cases x <;> rfl
theorem writable_eq (s : St) (yes : List Int) (l : List PollSub) : fdEvents s 2 yes (wsubs l) = writable s yes l := by
  unfold fdEvents wsubs writable
  rw [List.filterMap_filterMap]
  congr 1
  funext x; cases x <;> rfl

/-- User data that fits into 8 bytes, and defined clocks. -/
def Fits : List PollSub → Prop
  | [] => True
  | .clock u i _ _ :: l => u < 256 ^ 8 ∧ i ≤ 3 ∧ Fits l
  | .read u _ :: l | .write u _ :: l => u < 256 ^ 8 ∧ Fits l

theorem putClocks_inv {os : Os} : ∀ (l : List PollSub) (bs : List Int) (q k : Nat) (s s' : St) (r : Int × Int),
    Enough l bs → Fits l → InMem s q (32 * (clocksOf (built l bs)).length) →
    putClocks os (clocksOf (built l bs)) q k s = .ok r s' →
    ∃ cs, Enough l cs ∧ s'.log = s.log ++ readings l cs ∧
      r = (((q + 32 * (due l bs cs).length : Nat) : Int), ((k + (due l bs cs).length : Nat) : Int)) ∧
      Frame s s' q (q + 32 * (due l bs cs).length) ∧ eventsAt s' q (due l bs cs).length = due l bs cs ∧
      (due l bs cs).length ≤ (clocksOf (built l bs)).length
  | [], bs, q, k, s, s', r, _, _, _, h => by
    injection h with h1 h2
    subst h1 h2
    refine ⟨[], rfl, ?_, rfl, Frame.refl _ _ _, rfl, Nat.le_refl _⟩
    simp [readings]
  | .clock u i t a :: l, b :: bs, q, k, s, s', r, he, hf, hm, h => by
    obtain ⟨f1, f2, f3⟩ := hf
    have hb : clocksOf (built (.clock u i t a :: l) (b :: bs)) =
        ((u : Int), (i : Int), (if a then (t : Int) else b + t)) :: clocksOf (built l bs) := rfl
    rw [hb, List.length_cons] at hm
    rw [hb] at h ⊢
    have hm2 := hm.2
    unfold putClocks at h
    obtain ⟨c, s1, h1, h⟩ := bind_inv' h
    have := helpTime_inv f2 h1
    subst this
    have hdue : ∀ cs, due (.clock u i t a :: l) (b :: bs) (c :: cs) =
      (if (if a then (t : Int) else b + t) ≤ c then [⟨u, 0, 0⟩] else []) ++ due l bs cs := fun _ => rfl
    generalize (if a then (t : Int) else b + t) = en at h hdue
    split at h
    · rename_i hlt
      obtain ⟨cs, g1, g2, g3, g4, g5, g6⟩ := putClocks_inv l bs q k (s.event _ _) _ _ he f3 ⟨hm.1, by
        show q + _ ≤ (bytes s).length; omega⟩ h
      have hd : due (.clock u i t a :: l) (b :: bs) (c :: cs) = due l bs cs := by
        rw [hdue, if_neg (by omega)]; rfl
      refine ⟨c :: cs, g1, ?_, ?_, ?_, ?_, ?_⟩
      · rw [g2]; simp [St.event, readings]
      · rw [hd]; exact g3
      · rw [hd]; exact (Frame.event s _ _ _ _).trans g4 (Nat.le_refl _) (Nat.le_refl _)
      · rw [hd]; exact g5
      · rw [hd, List.length_cons]; omega
    · rename_i hlt
      obtain ⟨t1, e1, e2, e3, e4⟩ := putEvent_run (s := s.event (.time (hostClock i)) (.ok c)) (q := q) (ty := 0)
        ⟨hm.1, by show q + _ ≤ (bytes s).length; omega⟩ f1 (by decide)
      rw [show ((0 : Nat) : Int) = 0 from rfl] at e1
      rw [bind_ok e1] at h
      rw [show (q : Int) + 32 = ((q + 32 : Nat) : Int) from rfl, show (k : Int) + 1 = ((k + 1 : Nat) : Int) from rfl] at h
      have e0 : Frame s t1 q (q + 32) := (Frame.event s _ _ _ _).trans e2 (Nat.le_refl _) (Nat.le_refl _)
      obtain ⟨cs, g1, g2, g3, g4, g5, g6⟩ := putClocks_inv l bs (q + 32) (k + 1) _ _ _ he f3
        (e0.inMem ⟨hm.1, by omega⟩) h
      have hd : due (.clock u i t a :: l) (b :: bs) (c :: cs) = ⟨u, 0, 0⟩ :: due l bs cs := by
        rw [hdue, if_pos (by omega)]; rfl
      refine ⟨c :: cs, g1, ?_, ?_, ?_, ?_, ?_⟩
      · rw [g2, e3]; simp [St.event, readings]
      · rw [hd, g3, List.length_cons]; congr 2 <;> omega
      · rw [hd, List.length_cons]
        exact (e0.mono (Nat.le_refl q) (by omega)).trans (g4.mono (by omega : q ≤ _) (by omega)) (Nat.le_refl _) (Nat.le_refl _)
      · rw [hd, List.length_cons, show (due l bs cs).length + 1 = 1 + (due l bs cs).length by omega, eventsAt_add, g5,
          eventsAt_frame g4 1 q (by omega), e4]
        rfl
      · rw [hd, List.length_cons, List.length_cons]; omega
  | .clock .. :: _, [], _, _, _, _, _, h, _, _, _ => absurd h id
  | .read u f :: l, bs, q, k, s, s', r, he, hf, hm, h => putClocks_inv l bs q k s s' r he hf.2 hm h
  | .write u f :: l, bs, q, k, s, s', r, he, hf, hm, h => putClocks_inv l bs q k s s' r he hf.2 hm h

end Pywasm.Wasi
