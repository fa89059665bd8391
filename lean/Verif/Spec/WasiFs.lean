import Verif.Spec.WasiPath

/-!
# What the file system calls stand for

The host operation named by a WASI call that works on paths, and the WASI number of a POSIX error.
-/

namespace Pywasm.WasiSpec
open Wasi

/-- The `n` bytes at `p` in guest memory are the UTF-8 form of the name, the name is relative, and it leads to something
inside the directory `root` (nothing leaves `/`). -/
structure Names (s : St) (root : Str) (p n : Nat) (name : Str) : Prop where
  mem : InMem s p n
  utf8 : Spec.range (bytes s) p n = name.flatMap String.utf8EncodeChar
  relative : name.head? ≠ some '/'
  inside : ∃ dir, (∀ x ∈ dir, IsEntry x) ∧ Inside dir name ∧ root = (if dir = [] then ['/'] else absPath dir)

/-- A set of lookup flags asks for symbolic links to be followed: the truth value given to the host. -/
def follow (fl : Int) : Int := if has fl 0 then 1 else 0

/-- The flags `path_open` hands to the host: `O_NOFOLLOW` unless links are to be followed (`fl`), `O_CREAT`, `O_DIRECTORY`,
`O_EXCL` and `O_TRUNC` as asked for (`ofl`), reading and writing according to the rights asked for (`rights`), and `O_APPEND`
according to the descriptor flags (`fdfl`). -/
def hostFlags (c : Consts) (fl ofl rights fdfl : Int) : Int :=
  List.foldl Py.or 0 <|
    (if has fl 0 then [] else [c.oNofollow]) ++ (if has ofl 0 then [c.oCreat] else []) ++
    (if has ofl 1 then [c.oDirectory] else []) ++ (if has ofl 2 then [c.oExcl] else []) ++
    (if has ofl 3 then [c.oTrunc] else []) ++
    access c rights ++
    (if has fdfl 0 then [c.oAppend] else [])
where
  access (c : Consts) (rights : Int) : List Int :=
    match has rights 1, has rights 6 with
    | true, true => [c.oRdwr]
    | true, false => [c.oRdonly]
    | false, true => [c.oWronly]
    | false, false => []

/-- Which bits of the flags of Linux's `open` say what `path_open` was asked for: `O_WRONLY` 0, `O_RDWR` 1, `O_CREAT` 6,
`O_EXCL` 7, `O_TRUNC` 9, `O_APPEND` 10, `O_NONBLOCK` 11, `O_DSYNC` 12, `O_DIRECTORY` 16, `O_NOFOLLOW` 17 and `O_SYNC` (12 and
20; also for `RSYNC`). -/
def linuxOpen (fl ofl rights fdfl : Int) : Nat → Bool
  | 0 => has rights 6 && !has rights 1
  | 1 => has rights 6 && has rights 1
  | 6 => has ofl 0
  | 7 => has ofl 2
  | 9 => has ofl 3
  | 10 => has fdfl 0
  | 11 => has fdfl 2
  | 12 => has fdfl 1 || has fdfl 3 || has fdfl 4
  | 16 => has ofl 1
  | 17 => !has fl 0
  | 20 => has fdfl 3 || has fdfl 4
  | _ => false

/-- `Asks k s c x`: in the state `s` the call `c` is well formed (the descriptors are open and have the rights, the names are
good) and stands for the host operation `x`.  `k` are the constants of the host. -/
inductive Asks (k : Consts) (s : St) : Call → Sys → Prop
  | createDirectory {fd : Int} {p n : Nat} {f : File} {name : Str} (hf : openFile s fd = some f) (hr : has f.base 9 = true)
      (hn : Names s f.wasmName p n name) : Asks k s (.pathCreateDirectory fd p n) (.mkdir name f.hostFd)
  | removeDirectory {fd : Int} {p n : Nat} {f : File} {name : Str} (hf : openFile s fd = some f) (hr : has f.base 25 = true)
      (hn : Names s f.wasmName p n name) : Asks k s (.pathRemoveDirectory fd p n) (.rmdir name f.hostFd)
  | unlinkFile {fd : Int} {p n : Nat} {f : File} {name : Str} (hf : openFile s fd = some f) (hr : has f.base 26 = true)
      (hn : Names s f.wasmName p n name) : Asks k s (.pathUnlinkFile fd p n) (.unlink name f.hostFd)
  | symlink {fd : Int} {p n q m : Nat} {f : File} {old new : Str} (hf : openFile s fd = some f) (hr : has f.base 24 = true)
      (ho : Names s f.wasmName p n old) (hn : Names s f.wasmName q m new) : Asks k s (.pathSymlink p n fd q m) (.symlink old new f.hostFd)
  | rename {fd fd' : Int} {p n q m : Nat} {f g : File} {old new : Str} (hf : openFile s fd = some f)
      (hr : has f.base 16 = true) (ho : Names s f.wasmName p n old) (hg : openFile s fd' = some g) (hr' : has g.base 17 = true)
      (hn : Names s g.wasmName q m new) : Asks k s (.pathRename fd p n fd' q m) (.rename old new f.hostFd g.hostFd)
  | link {fd fd' fl : Int} {p n q m : Nat} {f g : File} {old new : Str} (hf : openFile s fd = some f)
      (hr : has f.base 11 = true) (ho : Names s f.wasmName p n old) (hg : openFile s fd' = some g) (hr' : has g.base 12 = true)
      (hn : Names s g.wasmName q m new) : Asks k s (.pathLink fd fl p n fd' q m) (.link old new f.hostFd g.hostFd (follow fl))
  | readlink {fd : Int} {p n q m r : Nat} {f : File} {name : Str} (hf : openFile s fd = some f) (hr : has f.base 15 = true)
      (hn : Names s f.wasmName p n name) : Asks k s (.pathReadlink fd p n q m r) (.readlink name f.hostFd)
  | filestatGet {fd fl : Int} {p n q : Nat} {f : File} {name : Str} (hf : openFile s fd = some f) (hr : has f.base 18 = true)
      (hn : Names s f.wasmName p n name) : Asks k s (.pathFilestatGet fd fl p n q) (.statAt name f.hostFd (follow fl))
  | open {fd fl ofl base inh fdfl : Int} {p n q : Nat} {f : File} {name : Str} (hf : openFile s fd = some f)
      (hr : has f.base 13 = true) (ht : has ofl 3 = true → has f.base 19 = true) (hn : Names s f.hostName p n name)
      (hz : Char.ofNat 0 ∉ name) :
      Asks k s (.pathOpen fd fl p n ofl base inh fdfl q) (.open name (hostFlags k fl ofl base fdfl) 0o644 (some f.hostFd))

/-- The state after the host has answered. -/
def answered (s : St) (x : Sys) (r : Except Err x.Ans) : St := { s with log := s.log ++ [⟨x, r⟩] }

/-! ## File attributes -/

/-- The WASI file type of each kind of host file (the type of a socket depends on the kind of socket, 5 or 6). -/
def fileType : Kind → Option Nat
  | .blk => some 1
  | .chr => some 2
  | .dir => some 3
  | .reg => some 4
  | .sock => none
  | .lnk => some 7
  | .other => some 0

/-- The attributes fit the 64-bit fields of the record. -/
structure Fits (i : Stat) : Prop where
  ino : 0 ≤ i.ino ∧ i.ino < 2 ^ 64
  nlink : 0 ≤ i.nlink ∧ i.nlink < 2 ^ 64
  size : 0 ≤ i.size ∧ i.size < 2 ^ 64
  atime : 0 ≤ i.atime ∧ i.atime < 2 ^ 64
  mtime : 0 ≤ i.mtime ∧ i.mtime < 2 ^ 64
  ctime : 0 ≤ i.ctime ∧ i.ctime < 2 ^ 64

/-- Going from `s` to `s'` stored the record `filestat` of WASI for a file with type `type` and attributes `i` at address `p`,
and changed nothing else. -/
structure StatRecord (s s' : St) (p : Nat) (type : Int) (i : Stat) : Prop where
  rest : s' = { s with mem := s'.mem }
  length : (bytes s').length = (bytes s).length
  outside : ∀ a, a < p ∨ p + 64 ≤ a → (bytes s')[a]? = (bytes s)[a]?
  ino : (numAt s' (p + 8) 8 : Int) = i.ino
  type : (numAt s' (p + 16) 1 : Int) = type
  nlink : (numAt s' (p + 24) 8 : Int) = i.nlink
  size : (numAt s' (p + 32) 8 : Int) = i.size
  atime : (numAt s' (p + 40) 8 : Int) = i.atime
  mtime : (numAt s' (p + 48) 8 : Int) = i.mtime
  ctime : (numAt s' (p + 56) 8 : Int) = i.ctime

/-! ## Error numbers -/

/-- The number WASI gives to the errors of POSIX systems that the file system operations have (`errno` of WASI preview 1
and the `errno.h` of Linux and Darwin). -/
def wasiErrno (plat : Plat) (n : Nat) : Option Int :=
  match n with
  | 1 => some 63    -- EPERM
  | 2 => some 44    -- ENOENT
  | 5 => some 29    -- EIO
  | 9 => some 8     -- EBADF
  | 13 => some 2    -- EACCES
  | 17 => some 20   -- EEXIST
  | 18 => some 75   -- EXDEV
  | 20 => some 54   -- ENOTDIR
  | 21 => some 31   -- EISDIR
  | 22 => some 28   -- EINVAL
  | 28 => some 51   -- ENOSPC
  | 29 => some 70   -- ESPIPE
  | 30 => some 69   -- EROFS
  | 32 => some 64   -- EPIPE
  | _ => match plat, n with
    | .linux, 36 => some 37   -- ENAMETOOLONG
    | .linux, 39 => some 55   -- ENOTEMPTY
    | .linux, 40 => some 32   -- ELOOP
    | .darwin, 63 => some 37
    | .darwin, 66 => some 55
    | .darwin, 62 => some 32
    | _, _ => none

/-- The errors of each operation that the calls report: the others reach the embedder as exceptions. -/
def reported (plat : Plat) : Sys → List Nat
  | .mkdir .. => [17]
  | .rmdir .. => 20 :: notEmpty
  | .unlink .. => [21, 20, 1]
  | .symlink .. => [17, 2, 20]
  | .rename .. => [17, 2, 21, 20] ++ notEmpty
  | .link .. => [17, 2, 1]
  | .readlink .. | .statAt .. => [2]
  | .open .. => [17, 2, 21, 20] ++ (match plat with | .linux => [40] | .darwin => [62] | .other => [])
  | _ => []
where notEmpty := match plat with | .linux => [39] | .darwin => [66] | .other => []

/-! ## Clocks and sockets -/

/-- The clock of each WASI clock number. -/
def clockOf : Nat → Option Clock
  | 0 => some .real
  | 1 => some .mono
  | 2 => some .process
  | 3 => some .thread
  | _ => none

/-- The socket calls. -/
def sockCall : Call → Bool
  | .sockAccept .. | .sockRecv .. | .sockSend .. | .sockShutdown .. => true
  | _ => false

/-- The kind of host socket for each type of descriptor. -/
def kindOf (c : Consts) (t : Int) : Int := if t = 6 then c.sockStream else c.sockDgram

/-- The host flags of `sock_recv`. -/
def recvFlags (c : Consts) (fl : Int) (stream : Bool) : Int :=
  Py.or (if has fl 0 then c.msgPeek else 0) (if has fl 1 && stream then c.msgWaitall else 0)

/-- Received bytes dealt out to buffers, in order. -/
def dealt : List (Nat × Nat) → Bytes → List Bytes
  | b :: l, d => d.take b.2 :: dealt l (d.drop b.2)
  | [], _ => []

end Pywasm.WasiSpec
