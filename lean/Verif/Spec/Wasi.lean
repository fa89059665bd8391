import Verif.Model.Wasi
import Verif.Spec.Exec

/-!
# Vocabulary for the WASI properties

What a guest descriptor denotes, what a call needs according to the WASI preview 1 documentation, histories of calls,
and which host descriptors a host history leaves open.
-/

namespace Pywasm.WasiSpec
open Wasi

/-- The open file a guest descriptor denotes, if any. -/
def openFile (s : St) (fd : Int) : Option File :=
  if fd < 0 then none else (s.fd[fd.toNat]?).filter (·.wasmOpen)

/-- Whether bit `k` of a set of rights (or flags) is in the set, for a number of any sign and size. -/
def has (r : Int) (k : Nat) : Bool := decide (r / 2 ^ k % 2 = 1)

/-- The state after running something, whether it returned or raised. -/
def after {α} (c : W α) (s : St) : St :=
  match c s with
  | .ok _ s' => s'
  | .error _ s' => s'

/-- The descriptors a call is given as arguments (`poll_oneoff` finds its descriptors in memory). -/
def fds : Call → List Int
  | .fdAdvise a .. | .fdAllocate a .. | .fdClose a | .fdDatasync a | .fdFdstatGet a .. | .fdFdstatSetFlags a ..
  | .fdFdstatSetRights a .. | .fdFilestatGet a .. | .fdFilestatSetSize a .. | .fdFilestatSetTimes a .. | .fdPread a ..
  | .fdPrestatDirName a .. | .fdPrestatGet a .. | .fdPwrite a .. | .fdRead a .. | .fdReaddir a .. | .fdSeek a ..
  | .fdSync a | .fdTell a .. | .fdWrite a .. | .pathCreateDirectory a .. | .pathFilestatGet a ..
  | .pathFilestatSetTimes a .. | .pathOpen a .. | .pathReadlink a .. | .pathRemoveDirectory a .. | .pathUnlinkFile a ..
  | .sockAccept a .. | .sockRecv a .. | .sockSend a .. | .sockShutdown a .. => [a]
  | .fdRenumber a b => [a, b]
  | .pathLink a _ _ _ b .. => [a, b]
  | .pathRename a _ _ b .. => [a, b]
  | .pathSymlink _ _ a .. => [a]
  | _ => []

/-- A host call that creates or destroys a host descriptor. -/
def opensOrCloses : Sys → Bool
  | .open .. | .close _ => true
  | _ => false

/-- One thing that can happen between two observations: the guest calls an imported function, guest code changes its
memory in any way, or the embedder attaches a pipe object to a descriptor. -/
inductive Step (os : Os) : St → St → Prop
  | call (c : Call) (s : St) : Step os s (after (c.run os) s)
  | guest (s : St) (m : Option MemInst) : Step os s { s with mem := m }
  | pipe (s : St) (n : Nat) (p : Option Nat) : Step os s { s with fd := s.fd.modify n fun f => { f with pipe := p } }

/-- All histories of calls and guest memory changes. -/
inductive Reach (os : Os) : St → St → Prop
  | refl (s : St) : Reach os s s
  | step {s t u : St} : Reach os s t → Step os t u → Reach os s u

/-- Which host descriptors are open after a host history: a successful `open` opens its answer, a successful `close`
closes its argument.  Descriptors the embedder opened otherwise (standard streams) are not counted. -/
def isOpen (l : List Event) (h : Int) : Bool :=
  l.foldl (fun b e => match e with
    | ⟨.open .., .ok x⟩ => b || decide (x = h)
    | ⟨.close x, .ok _⟩ => b && decide (x ≠ h)
    | _ => b) false

/-- The host never hands out a descriptor that is open (POSIX `open`). -/
def Fresh (os : Os) : Prop :=
  ∀ l name fl mo d h, os.run l (.open name fl mo d) = .ok h → isOpen l h = false

/-- Every `close` of a host history was of a descriptor that was open at that moment: nothing is closed twice, and
nothing is closed that this history did not open. -/
def ClosesOpen (l : List Event) : Prop :=
  ∀ l1 h r l2, l = l1 ++ ⟨.close h, r⟩ :: l2 → isOpen l1 h = true

/-- The file type of a character device (terminals): the host descriptors of these are never closed. -/
def isChar (f : File) : Prop := f.wasmType = 2

/-! ## Guest memory -/

/-- The bytes of the guest memory. -/
def bytes (s : St) : Bytes := (s.mem.map (·.data)).getD []
/-- The guest has a memory, and the `n` bytes from `p` on are inside it. -/
def InMem (s : St) (p n : Nat) : Prop := s.mem ≠ none ∧ p + n ≤ (bytes s).length
/-- The state with the bytes from `p` on replaced. -/
def write (s : St) (p : Nat) (d : Bytes) : St :=
  { s with mem := s.mem.map fun m => { m with data := Spec.patch m.data p d } }
/-- The little-endian number in the `k` bytes at `p`. -/
def numAt (s : St) (p k : Nat) : Nat := Spec.readLE (Spec.range (bytes s) p k)

/-! ## Rights -/

/-- The descriptors a call uses and the right (its bit number) it needs on each, from the WASI preview 1
documentation of `rights`.  Where the documentation asks for more than this list, the theorem that uses it says so. -/
def needs : Call → List (Int × Nat)
  | .fdDatasync a => [(a, 0)]
  | .fdRead a .. | .sockRecv a .. | .fdPread a .. => [(a, 1)]
  | .fdSeek a .. => [(a, 2)]
  | .fdFdstatSetFlags a .. => [(a, 3)]
  | .fdSync a => [(a, 4)]
  | .fdTell a .. => [(a, 5)]
  | .fdWrite a .. | .sockSend a .. | .fdPwrite a .. => [(a, 6)]
  | .fdAdvise a .. => [(a, 7)]
  | .fdAllocate a .. => [(a, 8)]
  | .pathCreateDirectory a .. => [(a, 9)]
  | .pathLink a _ _ _ b .. => [(a, 11), (b, 12)]
  | .pathOpen a .. => [(a, 13)]
  | .fdReaddir a .. => [(a, 14)]
  | .pathReadlink a .. => [(a, 15)]
  | .pathRename a _ _ b .. => [(a, 16), (b, 17)]
  | .pathFilestatGet a .. => [(a, 18)]
  | .pathFilestatSetTimes a .. => [(a, 20)]
  | .fdFilestatGet a .. => [(a, 21)]
  | .fdFilestatSetSize a .. => [(a, 22)]
  | .fdFilestatSetTimes a .. => [(a, 23)]
  | .pathSymlink _ _ a .. => [(a, 24)]
  | .pathRemoveDirectory a .. => [(a, 25)]
  | .pathUnlinkFile a .. => [(a, 26)]
  | .sockShutdown a .. => [(a, 28)]
  | .sockAccept a .. => [(a, 29)]
  | _ => []

/-- The descriptor is open and has the right. -/
def Holds (s : St) (fd : Int) (k : Nat) : Prop := ∃ f, openFile s fd = some f ∧ has f.base k = true

/-! ## Strings -/

/-- All characters are in the ASCII range. -/
def Ascii (e : Str) : Prop := ∀ c ∈ e, c.toNat < 128
/-- A string as a NUL-terminated C string: its UTF-8 bytes and a zero. -/
def cStr (e : Str) : Bytes := e.flatMap String.utf8EncodeChar ++ [0]
/-- C strings one after the other. -/
def cStrs (l : List Str) : Bytes := l.flatMap cStr
/-- The table of pointers to C strings that lie one after the other from address `q` on. -/
def strTable (q : Nat) (l : List Str) : Bytes :=
  (List.range l.length).flatMap fun i => Spec.bytesLE 4 (q + (cStrs (l.take i)).length)

/-! ## Scatter and gather -/

/-- The `n` iovecs at `p`: the address and the length of each buffer. -/
def iovecs (s : St) (p n : Nat) : List (Nat × Nat) :=
  (List.range n).map fun i => (numAt s (p + 8 * i) 4, numAt s (p + 8 * i + 4) 4)
/-- The bytes in some buffers, one buffer after the other. -/
def gathered (s : St) (l : List (Nat × Nat)) : Bytes := l.flatMap fun b => Spec.range (bytes s) b.1 b.2
/-- The pieces read into a list of buffers: every piece fills its buffer, except that the last may be shorter or empty;
after one that is, no more is read. -/
inductive Pieces : List (Nat × Nat) → List Bytes → Prop
  | none : Pieces [] []
  | short (b : Nat × Nat) (l : List (Nat × Nat)) (d : Bytes) (h : d.length < b.2 ∨ b.2 = 0 ∧ d = []) : Pieces (b :: l) [d]
  | full (b : Nat × Nat) (l : List (Nat × Nat)) (d : Bytes) (ds : List Bytes) (h : d.length = b.2) (h' : d ≠ [])
      (t : Pieces l ds) : Pieces (b :: l) (d :: ds)
/-- The state with pieces stored at the start of their buffers, in order. -/
def stored (s : St) : List (Nat × Nat) → List Bytes → St
  | b :: l, d :: ds => stored (write s b.1 d) l ds
  | _, _ => s
/-- One event for each piece; `ev` is given the length of the buffer, the number of bytes before it, and the piece. -/
def pieceEvents (ev : Nat → Nat → Bytes → Event) : Nat → List (Nat × Nat) → List Bytes → List Event
  | k, b :: l, d :: ds => ev b.2 k d :: pieceEvents ev (k + d.length) l ds
  | _, _, _ => []

/-! ## Where a call may write -/

/-- The ranges of guest memory (address and length) the arguments of a call give it to write to, from the WASI preview 1
interface; for calls with iovecs these are the buffers.  (`sock_recv` stores its 2 bytes of flags as 4.) -/
def outs (s : St) : Call → List (Int × Int)
  | .argsGet p q => [(p, 4 * s.args.length), (q, (cStrs s.args).length)]
  | .environGet p q => [(p, 4 * s.envs.length), (q, (cStrs s.envs).length)]
  | .argsSizesGet p q | .environSizesGet p q => [(p, 4), (q, 4)]
  | .clockResGet _ p | .clockTimeGet _ _ p => [(p, 8)]
  | .fdFdstatGet _ p => [(p, 24)]
  | .fdFilestatGet _ p | .pathFilestatGet _ _ _ _ p => [(p, 64)]
  | .fdPread _ p n _ r | .fdRead _ p n r => (r, 4) :: (iovecs s p.toNat n.toNat).map fun b => ((b.1 : Int), (b.2 : Int))
  | .fdPrestatDirName _ p n => [(p, n)]
  | .fdPrestatGet _ p => [(p, 8)]
  | .fdPwrite _ _ _ _ r | .fdWrite _ _ _ r => [(r, 4)]
  | .fdReaddir _ p n _ r => [(p, n), (r, 4)]
  | .fdSeek _ _ _ r | .fdTell _ r => [(r, 8)]
  | .pathOpen _ _ _ _ _ _ _ _ r => [(r, 4)]
  | .pathReadlink _ _ _ p n r => [(p, n), (r, 4)]
  | .pollOneoff _ p n r => [(p, 32 * n.toNat), (r, 4)]
  | .randomGet p n => [(p, n)]
  | .sockAccept _ _ r => [(r, 4)]
  | .sockRecv _ p n _ q r => (q, 4) :: (r, 4) :: (iovecs s p.toNat n.toNat).map fun b => ((b.1 : Int), (b.2 : Int))
  | .sockSend _ _ _ _ r => [(r, 4)]
  | _ => []
/-- The arrays of iovecs (address and number) that name buffers to write to. -/
def outIovs : Call → List (Int × Int)
  | .fdPread _ p n _ _ | .fdRead _ p n _ | .sockRecv _ p n .. => [(p, n)]
  | _ => []

/-- A host that gives at most as many bytes as it is asked for. -/
structure Bounded (os : Os) : Prop where
  read : ∀ l fd n d, os.run l (.read fd n) = .ok d → d.length ≤ n.toNat
  pread : ∀ l fd n o d, os.run l (.pread fd n o) = .ok d → d.length ≤ n.toNat
  pipeRead : ∀ l p n d, os.run l (.pipeRead p n) = .ok d → d.length ≤ n.toNat
  random : ∀ l n d, os.run l (.random n) = .ok d → d.length ≤ n.toNat

/-- A host whose file names and link targets are ASCII, as far as the call asks for them. -/
structure AsciiNames (os : Os) (c : Call) : Prop where
  listdir : (∃ a b n k e, c = .fdReaddir a b n k e) → ∀ l fd x, os.run l (.listdir fd) = .ok x → ∀ e ∈ x, Ascii e
  readlink : (∃ a b n d e f, c = .pathReadlink a b n d e f) → ∀ l name fd x, os.run l (.readlink name fd) = .ok x → Ascii x

end Pywasm.WasiSpec
