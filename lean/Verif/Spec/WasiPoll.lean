import Verif.Spec.Wasi

/-!
# Subscriptions and events of `poll_oneoff`

The records of the WASI preview 1 interface, and which subscriptions a poll should report.
-/

namespace Pywasm.WasiSpec
open Wasi

/-- A subscription: to a clock (with its timeout, and whether that is an absolute time), or to a descriptor getting
readable or writable.  `user` comes back in the event. -/
inductive PollSub where
  | clock (user id timeout : Nat) (abs : Bool)
  | read (user fd : Nat)
  | write (user fd : Nat)
  deriving DecidableEq, Repr

/-- The subscription in the 48 bytes at `p`. -/
def subAt (s : St) (p : Nat) : Option PollSub :=
  match numAt s (p + 8) 1 with
  | 0 => some (.clock (numAt s p 8) (numAt s (p + 16) 4) (numAt s (p + 24) 8) (decide (numAt s (p + 40) 2 % 2 = 1)))
  | 1 => some (.read (numAt s p 8) (numAt s (p + 16) 4))
  | 2 => some (.write (numAt s p 8) (numAt s (p + 16) 4))
  | _ => none

/-- The `n` subscriptions at `p` are `l`, and name only defined clocks; the four bytes of padding behind a clock number
are zero. -/
def SubsAt (s : St) (p : Nat) : List PollSub → Prop
  | [] => True
  | x :: l => subAt s p = some x ∧
      (∀ u i t a, x = .clock u i t a → i ≤ 3 ∧ numAt s (p + 16) 8 = i) ∧ SubsAt s (p + 48) l

/-- An event: the user data of its subscription, an errno, and the type of event (0 clock, 1 readable, 2 writable). -/
structure PollEvent where
  user : Nat
  errno : Nat
  type : Nat
  deriving DecidableEq, Repr
/-- The `n` events at `q`, 32 bytes each. -/
def eventsAt (s : St) (q : Nat) : Nat → List PollEvent
  | 0 => []
  | n + 1 => ⟨numAt s q 8, numAt s (q + 8) 2, numAt s (q + 10) 1⟩ :: eventsAt s (q + 32) n

/-- The clock of the host for a clock number. -/
def hostClock : Nat → Clock
  | 0 => .real
  | 1 => .mono
  | 2 => .process
  | _ => .thread

/-- One reading for each clock subscription. -/
def Enough : List PollSub → List Int → Prop
  | .clock .. :: l, _ :: cs => Enough l cs
  | .clock .. :: _, [] => False
  | .read .. :: l, cs | .write .. :: l, cs => Enough l cs
  | [], cs => cs = []

/-- Reading the clock of each clock subscription once, with these answers. -/
def readings : List PollSub → List Int → List Event
  | .clock _ i _ _ :: l, c :: cs => ⟨.time (hostClock i), .ok c⟩ :: readings l cs
  | .read .. :: l, cs | .write .. :: l, cs => readings l cs
  | _, _ => []

/-- The clock subscriptions whose time has come: `bs` are the readings when the poll began, `cs` those after waiting. -/
def due : List PollSub → List Int → List Int → List PollEvent
  | .clock u _ t a :: l, b :: bs, c :: cs =>
    (if (if a then (t : Int) else b + t) ≤ c then [⟨u, 0, 0⟩] else []) ++ due l bs cs
  | .read .. :: l, bs, cs | .write .. :: l, bs, cs => due l bs cs
  | _, _, _ => []

/-- The host descriptor behind a descriptor. -/
def host (s : St) (fd : Nat) : Int := ((openFile s fd).map (·.hostFd)).getD 0
/-- The host descriptors a poll is about. -/
def readFds (s : St) (l : List PollSub) : List Int := l.filterMap fun | .read _ f => some (host s f) | _ => none
def writeFds (s : St) (l : List PollSub) : List Int := l.filterMap fun | .write _ f => some (host s f) | _ => none
/-- The subscriptions to descriptors the host reports as ready. -/
def readable (s : St) (ready : List Int) (l : List PollSub) : List PollEvent :=
  l.filterMap fun | .read u f => if host s f ∈ ready then some ⟨u, 0, 1⟩ else none | _ => none
def writable (s : St) (ready : List Int) (l : List PollSub) : List PollEvent :=
  l.filterMap fun | .write u f => if host s f ∈ ready then some ⟨u, 0, 2⟩ else none | _ => none

/-- How long each clock subscription should wait, given the readings when the poll began. -/
def waits : List PollSub → List Int → List Int
  | .clock _ _ t a :: l, b :: bs => (if a then max 0 ((t : Int) - b) else t) :: waits l bs
  | .read .. :: l, bs | .write .. :: l, bs => waits l bs
  | _, _ => []

end Pywasm.WasiSpec
