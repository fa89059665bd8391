import Verif.Lemmas.WasiPoll
import Verif.Spec.WasiDemo
import Verif.Spec.Returns
import Verif.Spec.WasiNamed

/-!
# WASI: polling

C64: "`poll_oneoff` reports exactly the subscriptions that are ready."
C62: "A clock subscription with the absolute-time flag waits until the named clock shows the given time, and not at all
when that time has passed."  This is false of the code; proved is how long relative subscriptions wait.
-/

namespace Pywasm.Wasi
open WasiSpec Spec

theorem readSubs_err {os : Os} : ∀ (n : Nat) (a : Int) (s s' : St) (e : Int), readSubs os n a s = .ok (.error e) s' →
    e = 8 ∨ e = 76
  | 0, _, _, _, _, h => by injection h with h; cases h
  | n + 1, a, s, s', e, h => by
    unfold readSubs at h
    obtain ⟨o, s1, h1, h⟩ := bind_inv' h
    cases o with
    | error e' =>
      injection h with h _
      injection h with h
      subst h
      exact readSub_err h1
    | ok o =>
      dsimp only at h
      obtain ⟨r', s2, h2, h⟩ := bind_inv' h
      cases r' with
      | error e' =>
        injection h with h _
        injection h with h
        subst h
        exact readSubs_err n _ _ _ _ h2
      | ok r' => injection h with h; cases h

theorem subsAt_fits {s : St} : ∀ (l : List PollSub) (p : Nat), SubsAt s p l → Fits l
  | [], _, _ => trivial
  | x :: l, p, h => by
    have ih := subsAt_fits l (p + 48) h.2.2
    have h1 := h.1
    have hb : numAt s p 8 < 256 ^ 8 := by
      unfold numAt
      rw [readLE_eq]
      refine Nat.lt_of_lt_of_le (Py.leNat_lt _) (Nat.pow_le_pow_right (by decide) ?_)
      unfold Spec.range
      rw [List.length_take]
      omega
    unfold subAt at h1
    split at h1
    · injection h1 with h1; subst h1
      exact ⟨hb, (h.2.1 _ _ _ _ rfl).1, ih⟩
    · injection h1 with h1; subst h1
      exact ⟨hb, ih⟩
    · injection h1 with h1; subst h1
      exact ⟨hb, ih⟩
    · cases h1

theorem Fits.reads : ∀ (l : List PollSub), Fits l → ∀ x ∈ rsubs l, x.1 < 256 ^ 8
  | [], _, _, hx => by cases hx
  | .clock .. :: l, h, x, hx => Fits.reads l h.2.2 x hx
  | .read u f :: l, h, x, hx => by
    rcases List.mem_cons.mp hx with rfl | hx
    · exact h.1
    · exact Fits.reads l h.2 x hx
  | .write .. :: l, h, x, hx => Fits.reads l h.2 x hx
theorem Fits.writes : ∀ (l : List PollSub), Fits l → ∀ x ∈ wsubs l, x.1 < 256 ^ 8
  | [], _, _, hx => by cases hx
  | .clock .. :: l, h, x, hx => Fits.writes l h.2.2 x hx
  | .write u f :: l, h, x, hx => by
    rcases List.mem_cons.mp hx with rfl | hx
    · exact h.1
    · exact Fits.writes l h.2 x hx
  | .read .. :: l, h, x, hx => Fits.writes l h.2 x hx

/-- How long the code waits for each clock. -/
def codeWaits : List PollSub → List Int → List Int
  | .clock _ _ t a :: l, b :: bs => (if a then b - t else t) :: codeWaits l bs
  | .read .. :: l, bs | .write .. :: l, bs => codeWaits l bs
  | _, _ => []
theorem deltsOf_built : ∀ (l : List PollSub) (bs : List Int), Enough l bs → deltsOf (built l bs) = codeWaits l bs
  | [], _, _ => rfl
  | .clock u i t a :: l, b :: bs, h => by
    have := deltsOf_built l bs h
    show (_ :: deltsOf (built l bs) : List _) = _ :: codeWaits l bs
    rw [this]
  | .clock .. :: _, [], h => absurd h id
  | .read .. :: l, bs, h => deltsOf_built l bs h
  | .write .. :: l, bs, h => deltsOf_built l bs h

theorem poll_inv {os : Os} {l : List PollSub} {s s' : St} {p q r : Nat} (hm : InMem s p (48 * l.length)) (hs : SubsAt s p l)
    (hq : InMem s q (32 * l.length)) (hr : InMem s r 4) (ha : r + 4 ≤ q ∨ q + 32 * l.length ≤ r)
    (h : pollOneoff os p q l.length r s = .ok 0 s') :
    ∃ bs cs ry wy, Enough l bs ∧ Enough l cs ∧
      s'.log = s.log ++ readings l bs ++
        ⟨.select (readFds s l) (writeFds s l) (((codeWaits l bs).min?).getD 8000000000), .ok (ry, wy)⟩ :: readings l cs ∧
      eventsAt s' q (numAt s' r 4) = due l bs cs ++ readable s ry l ++ writable s wy l := by
  have hq2 := hq.2
  obtain ⟨m, hm', -, -⟩ := hm.some
  have hf := subsAt_fits l p hs
  unfold pollOneoff at h
  rw [bind_ok (mems_run hm'), Int.toNat_natCast] at h
  obtain ⟨o, s1, h1, h⟩ := bind_inv' h
  cases o with
  | error e =>
    injection h with h _
    subst h
    have := readSubs_err _ _ _ _ _ h1
    omega
  | ok subs =>
    obtain ⟨bs, e1, rfl, e3, e4⟩ := readSubs_inv l p s s1 subs hm hs h1
    dsimp only at h
    have o1 : Opens s1 l := opens_fd (s := s) (by rw [e3]) l e4
    have hl := subs_lengths (built l bs)
    have hbl : (built l bs).length ≤ l.length := readSubs_length _ _ _ _ _ _ h1
    rw [readsOf_built l bs e1, writesOf_built l bs e1] at h hl
    have hfd1 : s1.fd = s.fd := by rw [e3]
    have hr1 := hostFds_run (s := s1) (rsubs l) (o1.reads l)
    have hw1 := hostFds_run (s := s1) (wsubs l) (o1.writes l)
    have hh : ∀ l : List (Nat × Nat), (l.map fun x => host s1 x.2) = l.map fun x => host s x.2 := fun l => by
      simp only [host_fd hfd1]
    rw [hh, readFds_eq] at hr1
    rw [hh, writeFds_eq] at hw1
    rw [bind_ok hr1, bind_ok hw1] at h
    unfold timeout at h
    rw [deltsOf_built l bs e1] at h
    generalize hT : ((codeWaits l bs).min?).getD 8000000000 = T at h
    obtain ⟨yes, s2, h2, h⟩ := bind_inv' h
    have hs2 : s2 = s1.event (.select (readFds s l) (writeFds s l) T) (.ok yes) := by
      rw [sys_run] at h2
      cases hx : os.run s1.log (.select (readFds s l) (writeFds s l) T) with
      | ok a => rw [hx] at h2; injection h2 with g1 g2; subst g1; exact g2.symm
      | error e => rw [hx] at h2; cases h2
    obtain ⟨r1, s3, h3, h⟩ := bind_inv' h
    have hl2 : (ints (rsubs l)).length = (rsubs l).length := by simp [ints]
    have hl3 : (ints (wsubs l)).length = (wsubs l).length := by simp [ints]
    rw [hl2, hl3] at hl
    have f02 : Frame s s2 q q := by
      rw [hs2, e3]
      exact ⟨rfl, Iff.rfl, rfl, fun _ _ _ => rfl⟩
    obtain ⟨cs, c1, c2, c3, c4, c5, c6⟩ := putClocks_inv l bs q 0 s2 s3 r1 e1 hf
      (f02.inMem ⟨hq.1, by omega⟩) h3
    subst c3
    dsimp only at h
    rw [Nat.zero_add] at h
    have f03 : Frame s s3 q (q + 32 * (due l bs cs).length) := f02.trans c4 (Nat.le_refl _) (by omega)
    obtain ⟨s4, d1, d2, d3, d4⟩ := putFds_run 1 (by decide) yes.1 (rsubs l) (q + 32 * (due l bs cs).length)
      (due l bs cs).length s3 (f03.inMem ⟨hq.1, by omega⟩) (hf.reads l)
      (fun x hx => by
        have := e4.reads l x hx
        unfold openFile at this ⊢; rw [f03.fd]; exact this)
    rw [fdEvents_fd f03.fd, readable_eq] at d1 d2 d4
    have d1' := bind_ok (f := fun x : Int × Int => (do
        let y ← putFds 2 yes.2 (ints (wsubs l)) x.1 x.2
        putU 4 r y.2
        return ERRNO_SUCCESS : W Int)) d1
    replace h := d1'.symm.trans h
    have hrl : (readable s yes.1 l).length ≤ (rsubs l).length := by
      rw [← readable_eq]; exact List.length_filterMap_le _ _
    have hwl : (writable s yes.2 l).length ≤ (wsubs l).length := by
      rw [← writable_eq]; exact List.length_filterMap_le _ _
    have f04 : Frame s s4 q (q + 32 * (due l bs cs).length + 32 * (readable s yes.1 l).length) :=
      (f03.mono (Nat.le_refl _) (by omega)).trans (d2.mono (by omega : q ≤ _) (Nat.le_refl _)) (Nat.le_refl _) (Nat.le_refl _)
    obtain ⟨s5, g1, g2, g3, g4⟩ := putFds_run 2 (by decide) yes.2 (wsubs l)
      (q + 32 * (due l bs cs).length + 32 * (readable s yes.1 l).length)
      ((due l bs cs).length + (readable s yes.1 l).length) s4 (f04.inMem ⟨hq.1, by omega⟩) (hf.writes l)
      (fun x hx => by
        have := e4.writes l x hx
        unfold openFile at this ⊢; rw [f04.fd]; exact this)
    rw [fdEvents_fd f04.fd, writable_eq] at g1 g2 g4
    have g1' := bind_ok (f := fun y : Int × Int => (do
        putU 4 r y.2
        return ERRNO_SUCCESS : W Int)) g1
    replace h := g1'.symm.trans h
    have f05 : Frame s s5 q (q + 32 * l.length) :=
      (f04.mono (Nat.le_refl _) (by omega)).trans (g2.mono (by omega : q ≤ _) (by omega)) (Nat.le_refl _) (Nat.le_refl _)
    obtain ⟨_, s6, h6, h⟩ := bind_inv' h
    injection h with _ h
    subst h
    obtain ⟨k1, k2, k3⟩ := putU_inv (f05.inMem hr) h6
    have hn : numAt s6 r 4 = (due l bs cs).length + (readable s yes.1 l).length + (writable s yes.2 l).length := by
      rw [k3, numAt_write_self (f05.inMem hr) (by omega)]
      omega
    have f56 : Frame s5 s6 r (r + 4) := by
      rw [k3]; exact .write (f05.inMem hr).1 _ _ (by rw [bytesLE_length])
    refine ⟨bs, cs, yes.1, yes.2, e1, c1, ?_, ?_⟩
    · rw [k3]
      show s5.log = _
      rw [g3, d3, c2, hs2, e3]
      show s.log ++ readings l bs ++ [_] ++ readings l cs = _
      rw [List.append_assoc, hT]
      rfl
    · rw [hn, eventsAt_frame f56 _ _ (by omega), eventsAt_add, eventsAt_add]
      rw [show q + 32 * ((due l bs cs).length + (readable s yes.1 l).length) =
        q + 32 * (due l bs cs).length + 32 * (readable s yes.1 l).length by omega, g4]
      rw [eventsAt_frame g2 _ _ (by omega), eventsAt_frame g2 _ _ (by omega), d4, eventsAt_frame d2 _ _ (by omega), c5]

end Pywasm.Wasi

namespace Pywasm.Props
open Wasi WasiSpec Spec

/-- C64: a poll that returns 0 reads the clocks of its clock subscriptions, asks the host which of the descriptors are
ready, and reads the clocks again (`bs`, `ry`, `wy` and `cs` are the answers).  Then the number of events is stored at `r`
and at `q` there is exactly one event, with the user data of its subscription, for each clock subscription whose time has
come and for each descriptor subscription that the host reported ready, and no other. -/
theorem wasi_poll_events (os : Os) (l : List PollSub) (s s' : St) (p q r : Nat) (hm : InMem s p (48 * l.length))
    (hs : SubsAt s p l) (hq : InMem s q (32 * l.length)) (hr : InMem s r 4) (ha : r + 4 ≤ q ∨ q + 32 * l.length ≤ r)
    (h : (Call.pollOneoff p q l.length r).run os s = .ok 0 s') :
    ∃ bs cs ry wy T, Enough l bs ∧ Enough l cs ∧
      s'.log = s.log ++ readings l bs ++ ⟨.select (readFds s l) (writeFds s l) T, .ok (ry, wy)⟩ :: readings l cs ∧
      eventsAt s' q (numAt s' r 4) = due l bs cs ++ readable s ry l ++ writable s wy l := by
  obtain ⟨bs, cs, ry, wy, h1, h2, h3, h4⟩ := poll_inv hm hs hq hr ha h
  exact ⟨bs, cs, ry, wy, _, h1, h2, h3, h4⟩

/-- The timeout is relative. -/
def Relative (l : List PollSub) : Prop := ∀ u i t a, PollSub.clock u i t a ∈ l → a = false

theorem codeWaits_relative : ∀ (l : List PollSub) (bs : List Int), Relative l → codeWaits l bs = waits l bs
  | [], _, _ => rfl
  | .clock u i t a :: l, b :: bs, h => by
    have ha := h u i t a List.mem_cons_self
    subst ha
    show (t : Int) :: codeWaits l bs = (t : Int) :: waits l bs
    rw [codeWaits_relative l bs fun u i t a hx => h u i t a (List.mem_cons_of_mem _ hx)]
  | .clock .. :: _, [], _ => rfl
  | .read .. :: l, bs, h => codeWaits_relative l bs fun u i t a hx => h u i t a (List.mem_cons_of_mem _ hx)
  | .write .. :: l, bs, h => codeWaits_relative l bs fun u i t a hx => h u i t a (List.mem_cons_of_mem _ hx)

/-- C62 (partial): a poll all of whose clock subscriptions are relative waits, at most, for the shortest of their
timeouts (8 seconds when there is none); the host is asked exactly once.  Missing: absolute times, where the code is
wrong (`wasi_poll_absolute_refuted`). -/
theorem wasi_poll_timeout_partial (os : Os) (l : List PollSub) (s s' : St) (p q r : Nat) (hm : InMem s p (48 * l.length))
    (hs : SubsAt s p l) (hq : InMem s q (32 * l.length)) (hr : InMem s r 4) (ha : r + 4 ≤ q ∨ q + 32 * l.length ≤ r)
    (hrel : Relative l) (h : (Call.pollOneoff p q l.length r).run os s = .ok 0 s') :
    ∃ bs cs ans, Enough l bs ∧ Enough l cs ∧ s'.log = s.log ++ readings l bs ++
      ⟨.select (readFds s l) (writeFds s l) (((waits l bs).min?).getD 8000000000), .ok ans⟩ :: readings l cs := by
  obtain ⟨bs, cs, ry, wy, h1, h2, h3, -⟩ := poll_inv hm hs hq hr ha h
  rw [codeWaits_relative l bs hrel] at h3
  exact ⟨bs, cs, _, h1, h2, h3⟩

/-- C62 fails: whatever the clock showed (`b`), a poll for one absolute time asks the host to wait for `b` minus that
time, so it is right only at the very moment; for a time in the future the wait is negative (an exception in Python), for
a time in the past it waits as long as it has passed. -/
theorem wasi_poll_absolute_refuted (os : Os) (u i t : Nat) (s s' : St) (p q r : Nat) (hm : InMem s p 48)
    (hs : SubsAt s p [.clock u i t true]) (hq : InMem s q 32) (hr : InMem s r 4) (ha : r + 4 ≤ q ∨ q + 32 ≤ r)
    (h : (Call.pollOneoff p q 1 r).run os s = .ok 0 s') :
    ∃ (b c : Int) (ans : List Int × List Int), s'.log = s.log ++ [⟨.time (hostClock i), .ok b⟩, ⟨.select [] [] (b - t), .ok ans⟩, ⟨.time (hostClock i), .ok c⟩] ∧
      (b ≠ t → waits [.clock u i t true] [b] ≠ [b - t]) := by
  obtain ⟨bs, cs, ry, wy, h1, h2, h3, -⟩ := poll_inv (l := [.clock u i t true]) hm hs hq hr ha h
  match bs, cs, h1, h2 with
  | [b], [c], _, _ =>
    refine ⟨b, c, (ry, wy), ?_, fun hb => ?_⟩
    · rw [h3]; simp [readings, codeWaits, readFds, writeFds]
    · simp only [waits, if_true, ne_eq, List.cons.injEq, and_true]
      omega

/-- A memory with three subscriptions at 0: after 500 ns of the monotonic clock (user data 1), at time 900 of the
real-time clock (user data 2), and standard input readable (user data 3). -/
def pollSt : St :=
  { demoSt .reg with mem := some { zeroMem 256 with data :=
      ([1, 0, 0, 0, 0, 0, 0, 0, 0] ++ List.replicate 7 0 ++ [1, 0, 0, 0, 0, 0, 0, 0, 0xF4, 1] ++ List.replicate 22 0) ++
      ([2, 0, 0, 0, 0, 0, 0, 0, 0] ++ List.replicate 7 0 ++ [0, 0, 0, 0, 0, 0, 0, 0, 0x84, 3] ++ List.replicate 14 0 ++ [1] ++
        List.replicate 7 0) ++
      ([3, 0, 0, 0, 0, 0, 0, 0, 1] ++ List.replicate 39 0) ++ List.replicate 112 0 } }
def pollSubs : List PollSub := [.clock 1 1 500 false, .clock 2 0 900 true, .read 3 0]
theorem poll_subs : SubsAt pollSt 0 pollSubs := by
  refine ⟨by decide +kernel, ?_, by decide +kernel, ?_, by decide +kernel, ?_, trivial⟩
  · rintro u i t a h
    injection h with _ h
    subst h
    decide +kernel
  · rintro u i t a h
    injection h with _ h
    subst h
    decide +kernel
  · rintro u i t a h
    cases h
example : (bytes pollSt).length = 256 ∧ pollSt.mem.isSome = true := by decide +kernel
/-- The poll returns 0 and reports the second (time 900 has passed, the clocks show 1000) and the third. -/
example : let s' := after ((Call.pollOneoff 0 144 3 248).run (demoOs .reg)) pollSt
    returns (demoOs .reg) (.pollOneoff 0 144 3 248) pollSt 0 = true ∧
    eventsAt s' 144 (numAt s' 248 4) = [⟨2, 0, 0⟩, ⟨3, 0, 1⟩] := by decide +kernel
/-- A relative and an absolute subscription on their own. -/
example : Relative [pollSubs[0], pollSubs[2]] ∧ returns (demoOs .reg) (.pollOneoff 0 144 1 248) pollSt 0 = true ∧
    returns (demoOs .reg) (.pollOneoff 48 144 1 248) pollSt 0 = true := by
  refine ⟨?_, by decide +kernel, by decide +kernel⟩
  intro u i t a h
  simp [pollSubs] at h
  exact h.2.2.2

/-- The number of a clock is read together with its padding: a clock subscription that has come due is not reported when
the guest left other bytes in the padding. -/
theorem wasi_poll_padding_refuted :
    let s := write pollSt (48 + 20) [1]
    subAt s 48 = some (.clock 2 0 900 true) ∧
    eventsAt (after ((Call.pollOneoff 48 144 1 248).run (demoOs .reg)) s) 144
      (numAt (after ((Call.pollOneoff 48 144 1 248).run (demoOs .reg)) s) 248 4) = [] := by
  decide +kernel

/-! ## The hypotheses are met -/

example := wasi_poll_events (demoOs .reg) pollSubs pollSt _ 0 144 248 (inMem _ _ _) poll_subs (inMem _ _ _) (inMem _ _ _)
  (by decide) (of_returns (by decide +kernel))
example := wasi_poll_timeout_partial (demoOs .reg) [pollSubs[0]] pollSt _ 0 144 248 (inMem _ _ _) ⟨poll_subs.1, poll_subs.2.1, trivial⟩
  (inMem _ _ _) (inMem _ _ _) (by decide)
  (by intro u i t a h; simp [pollSubs] at h; exact h.2.2.2) (of_returns (by decide +kernel))

end Pywasm.Props
