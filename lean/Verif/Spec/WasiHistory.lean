import Verif.Spec.Wasi

/-!
# Specification: genuine host histories, and a host with regular files
-/

namespace Pywasm.WasiSpec
open Wasi

/-- Every answer in a history is what the host gave to that request, after the part of the history before it. -/
def Genuine (os : Os) (l : List Event) : Prop :=
  ∀ l1 e l2, l = l1 ++ e :: l2 → e.ans = os.run l1 e.call

/-- The bytes of a file after `d` was written at offset `o`: a gap behind the old end is filled with zeros. -/
def overwrite (c : Bytes) (o : Nat) (d : Bytes) : Bytes :=
  if d = [] then c else c.take o ++ List.replicate (o - c.length) 0 ++ d ++ c.drop (o + d.length)

/-- The position that the `whence` of a seek names, in a file of bytes `c` with the offset at `o`: its start (0), the offset (1) or its
end (2). -/
def whenceBase (c : Bytes) (o : Nat) (w : Int) : Option Nat :=
  if w = 0 then some 0 else if w = 1 then some o else if w = 2 then some c.length else none

/-- Behind the host descriptor `h` is a regular file.  Its bytes and the offset of the descriptor depend on what has happened so
far (`content`, `offset`): reading gives the bytes that are there, writing replaces bytes and may write less than it is given,
and seeking moves the offset, which may go past the end but not before the start. -/
structure RegularFile (os : Os) (h : Int) (content : List Event → Bytes) (offset : List Event → Nat) : Prop where
  pread : ∀ l (n o : Nat), os.run l (.pread h n o) = .ok (((content l).drop o).take n)
  after_pread : ∀ l (n o : Nat) r, content (l ++ [⟨.pread h n o, r⟩]) = content l ∧ offset (l ++ [⟨.pread h n o, r⟩]) = offset l
  pwrite : ∀ l d (o : Nat), ∃ k : Nat, k ≤ d.length ∧ os.run l (.pwrite h d o) = .ok (k : Int)
  after_pwrite : ∀ l d (o k : Nat), content (l ++ [⟨.pwrite h d o, .ok (k : Int)⟩]) = overwrite (content l) o (d.take k) ∧
    offset (l ++ [⟨.pwrite h d o, .ok (k : Int)⟩]) = offset l
  read : ∀ l (n : Nat), os.run l (.read h n) = .ok (((content l).drop (offset l)).take n)
  after_read : ∀ l (n : Nat) (d : Bytes), content (l ++ [⟨.read h n, .ok d⟩]) = content l ∧
    offset (l ++ [⟨.read h n, .ok d⟩]) = offset l + d.length
  write : ∀ l d, ∃ k : Nat, k ≤ d.length ∧ os.run l (.write h d) = .ok (k : Int)
  after_write : ∀ l d (k : Nat), content (l ++ [⟨.write h d, .ok (k : Int)⟩]) = overwrite (content l) (offset l) (d.take k) ∧
    offset (l ++ [⟨.write h d, .ok (k : Int)⟩]) = offset l + k
  seek : ∀ l (w o : Int) (b k : Nat), whenceBase (content l) (offset l) w = some b → (b : Int) + o = k →
    os.run l (.lseek h o w) = .ok (k : Int)
  after_seek : ∀ l (o w : Int) (k : Nat), content (l ++ [⟨.lseek h o w, .ok (k : Int)⟩]) = content l ∧
    offset (l ++ [⟨.lseek h o w, .ok (k : Int)⟩]) = k

/-! ## A file with an offset -/

/-- The bytes of a file, and an offset. -/
structure FileState where
  content : Bytes
  offset : Nat

/-- What a program does to an open file, with what it learns: reading into room for `n` bytes got `d`; `k` bytes of `d` were written; the
offset was moved to `k`, which is `o` from where `w` says; the offset is `k`. -/
inductive FileOp where
  | read (n : Nat) (d : Bytes)
  | pread (n o : Nat) (d : Bytes)
  | write (d : Bytes) (k : Nat)
  | pwrite (d : Bytes) (o k : Nat)
  | seek (o w : Int) (k : Nat)
  | tell (k : Nat)

/-- How an open file behaves. -/
inductive FileOp.Does : FileOp → FileState → FileState → Prop
  | read (c : Bytes) (o n : Nat) : Does (.read n ((c.drop o).take n)) ⟨c, o⟩ ⟨c, o + ((c.drop o).take n).length⟩
  | pread (c : Bytes) (o n p : Nat) : Does (.pread n p ((c.drop p).take n)) ⟨c, o⟩ ⟨c, o⟩
  | write (c : Bytes) (o : Nat) (d : Bytes) (k : Nat) (h : k ≤ d.length) : Does (.write d k) ⟨c, o⟩ ⟨overwrite c o (d.take k), o + k⟩
  | pwrite (c : Bytes) (o : Nat) (d : Bytes) (p k : Nat) (h : k ≤ d.length) : Does (.pwrite d p k) ⟨c, o⟩ ⟨overwrite c p (d.take k), o⟩
  | seek (c : Bytes) (o : Nat) (x w : Int) (b k : Nat) (hb : whenceBase c o w = some b) (h : (b : Int) + x = k) : Does (.seek x w k) ⟨c, o⟩ ⟨c, k⟩
  | tell (c : Bytes) (o : Nat) : Does (.tell o) ⟨c, o⟩ ⟨c, o⟩

/-- One operation after the other. -/
inductive FileOp.Run : List FileOp → FileState → FileState → Prop
  | nil (x : FileState) : Run [] x x
  | cons {op : FileOp} {ops : List FileOp} {x y z : FileState} (h : Does op x y) (t : Run ops y z) : Run (op :: ops) x z

end Pywasm.WasiSpec
