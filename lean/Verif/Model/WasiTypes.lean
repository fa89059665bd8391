import Verif.Model.PyPath

/-!
# The data of `Preview1`: calls of the operating system, the descriptor table

/repo/pywasm/wasi.py:390-479.  See `Model/Wasi.lean` for the functions.
-/

namespace Pywasm.Wasi

/-- `time.time_ns`, `time.monotonic_ns`, `time.process_time_ns`, `time.thread_time_ns` (wasi.py:1008-1019). -/
inductive Clock where | real | mono | process | thread
  deriving DecidableEq, Repr

/-- The kind of file in `st_mode`, as tested by `stat.S_ISBLK` etc. (wasi.py:979-994). -/
inductive Kind where | blk | chr | dir | reg | sock | lnk | other
  deriving DecidableEq, Repr

/-- The part of `os.stat_result` wasi.py reads. -/
structure Stat where
  kind : Kind
  ino : Int
  nlink : Int
  size : Int
  atime : Int
  mtime : Int
  ctime : Int
  deriving DecidableEq, Repr

/-- The calls wasi.py makes of the operating system (`os`, `fcntl`, `select`, `socket`, `time`, `random`) and of the
`pipe` objects supplied by the embedder.  Floating-point timeouts of `select` are given in nanoseconds, unrounded. -/
inductive Sys where
  | open (name : Str) (flags mode : Int) (dir : Option Int)
  | close (fd : Int)
  | stat (fd : Int)
  | statName (name : Str)
  | statAt (name : Str) (dir : Int) (follow : Int)
  | lseek (fd off whence : Int)
  | read (fd n : Int)
  | write (fd : Int) (d : Bytes)
  | pread (fd n off : Int)
  | pwrite (fd : Int) (d : Bytes) (off : Int)
  | ftruncate (fd n : Int)
  | fsync (fd : Int)
  | utime (fd atime mtime : Int)
  | utimeAt (name : Str) (atime mtime : Int) (dir follow : Int)
  | setfl (fd flags : Int)
  | mkdir (name : Str) (dir : Int)
  | rmdir (name : Str) (dir : Int)
  | unlink (name : Str) (dir : Int)
  | rename (src dst : Str) (sdir ddir : Int)
  | link (src dst : Str) (sdir ddir follow : Int)
  | symlink (src dst : Str) (dir : Int)
  | readlink (name : Str) (dir : Int)
  | listdir (fd : Int)
  | isdir (fd : Int)
  | isfile (fd : Int)
  | time (c : Clock)
  | select (r w : List Int) (timeout : Int)
  | random (n : Int)
  | getcwd
  | pipeRead (p : Nat) (n : Int)
  | pipeWrite (p : Nat) (d : Bytes)
  | pipeSeek (p : Nat)
  | sockDup (fd kind : Int)
  | sockNonblock (s : Int)
  | sockAccept (s : Int)
  | sockRecv (s n flags : Int)
  | sockSend (s : Int) (d : Bytes)
  | sockShutdown (s how : Int)
  deriving DecidableEq, Repr

/-- What each call returns when it does not raise. -/
@[reducible] def Sys.Ans : Sys → Type
  | .open .. | .lseek .. | .write .. | .pwrite .. | .pipeWrite .. | .time .. | .sockDup .. | .sockAccept ..
  | .sockSend .. => Int
  | .stat .. | .statName .. | .statAt .. => Stat
  | .read .. | .pread .. | .pipeRead .. | .random .. | .sockRecv .. => Bytes
  | .readlink .. | .getcwd => Str
  | .listdir .. => List Str
  | .isdir .. | .isfile .. => Bool
  | .select .. => List Int × List Int
  | _ => Unit

/-- A call and its answer (the value returned or the exception raised). -/
structure Event where
  call : Sys
  ans : Except Err call.Ans

/-- `platform.system().lower()`. -/
inductive Plat where | linux | darwin | other
  deriving DecidableEq, Repr

/-- The `os.O_*` and `socket.*` constants. Their values depend on the platform and are not fixed here. -/
structure Consts where
  oRdonly : Int
  oWronly : Int
  oRdwr : Int
  oAppend : Int
  oNonblock : Int
  oNofollow : Int
  oCreat : Int
  oDirectory : Int
  oExcl : Int
  oTrunc : Int
  msgPeek : Int
  msgWaitall : Int
  shutRd : Int
  shutWr : Int
  shutRdwr : Int
  sockStream : Int
  sockDgram : Int

/-- The host: its platform, constants, and how it answers a call after a given history. -/
structure Os where
  plat : Plat
  c : Consts
  run : List Event → (x : Sys) → Except Err x.Ans

/-- `Preview1.File`, wasi.py:397-409. `host_status`/`wasm_status` are 0 (opened) or 1 (closed): `true` is opened. -/
structure File where
  hostFd : Int
  hostFlag : Int
  hostName : Str
  hostOpen : Bool
  pipe : Option Nat
  wasmFd : Nat
  wasmFlag : Int
  wasmName : Str
  base : Int
  root : Int
  wasmOpen : Bool
  wasmType : Int
  deriving DecidableEq, Repr

/-- The attributes of a `Preview1` object, wasi.py:411-479, and the history of its calls of the operating system. -/
structure World where
  args : List Str := []
  ndirs : Nat := 0
  envs : List Str := []
  returnOnExit : Bool := true
  fd : List File := []
  log : List Event := []

end Pywasm.Wasi
