import Verif.Model.WasiTypes
import Verif.Model.Decode

/-!
# Model of `Preview1`, the WASI host functions

/repo/pywasm/wasi.py:390-1623.

* Every call of the operating system is an element of `Sys`, answered by an arbitrary host: a function of the history
  of all earlier calls and their answers (`Os.run`).  Theorems quantify over all hosts.  The history is the `log`
  of the state, so "the host was not touched" is "the log did not change".
* `mem` is `m.store.mems[m.stack.frame[-1].module.mems[0]]`, the memory of the calling guest, `none` when the calling
  module has none (the Python expression then raises `IndexError`).
* A call returns its errno; the Python functions wrap it in a one-element list.
* `args[i]` are Python integers: a guest i32 or i64 arrives signed (core.py:195-207).
-/

namespace Pywasm.Wasi

/-- `Preview1`, wasi.py:411-479, and the guest memory and host history a call works on. -/
structure St where
  args : List Str
  ndirs : Nat
  envs : List Str
  returnOnExit : Bool := true
  fd : List File
  mem : Option MemInst
  log : List Event

abbrev W := EStateM Err St

-- The constants of wasi.py:27-388 that the code uses.
def ERRNO_SUCCESS : Int := 0
def ERRNO_BADF : Int := 8
def ERRNO_CONNABORTED : Int := 13
def ERRNO_EXIST : Int := 20
def ERRNO_ILSEQ : Int := 25
def ERRNO_INVAL : Int := 28
def ERRNO_ISDIR : Int := 31
def ERRNO_LOOP : Int := 32
def ERRNO_NAMETOOLONG : Int := 37
def ERRNO_NOENT : Int := 44
def ERRNO_NOTDIR : Int := 54
def ERRNO_NOTEMPTY : Int := 55
def ERRNO_NOTSOCK : Int := 57
def ERRNO_PERM : Int := 63
def ERRNO_PIPE : Int := 64
def ERRNO_NOTCAPABLE : Int := 76
def FDFLAGS_APPEND : Int := 1
def FDFLAGS_NONBLOCK : Int := 4
def FSTFLAGS_ATIM : Int := 1
def FSTFLAGS_ATIM_NOW : Int := 2
def FSTFLAGS_MTIM : Int := 4
def FSTFLAGS_MTIM_NOW : Int := 8
def LOOKUPFLAGS_SYMLINK_FOLLOW : Int := 1
def OFLAGS_CREAT : Int := 1
def OFLAGS_DIRECTORY : Int := 2
def OFLAGS_EXCL : Int := 4
def OFLAGS_TRUNC : Int := 8
def FILETYPE_UNKNOWN : Int := 0
def FILETYPE_BLOCK_DEVICE : Int := 1
def FILETYPE_CHARACTER_DEVICE : Int := 2
def FILETYPE_DIRECTORY : Int := 3
def FILETYPE_REGULAR_FILE : Int := 4
def FILETYPE_SOCKET_DGRAM : Int := 5
def FILETYPE_SOCKET_STREAM : Int := 6
def FILETYPE_SYMBOLIC_LINK : Int := 7
def RIGHTS_FD_DATASYNC : Int := 2 ^ 0
def RIGHTS_FD_READ : Int := 2 ^ 1
def RIGHTS_FD_SEEK : Int := 2 ^ 2
def RIGHTS_FD_FDSTAT_SET_FLAGS : Int := 2 ^ 3
def RIGHTS_FD_SYNC : Int := 2 ^ 4
def RIGHTS_FD_TELL : Int := 2 ^ 5
def RIGHTS_FD_WRITE : Int := 2 ^ 6
def RIGHTS_FD_ADVISE : Int := 2 ^ 7
def RIGHTS_FD_ALLOCATE : Int := 2 ^ 8
def RIGHTS_PATH_CREATE_DIRECTORY : Int := 2 ^ 9
def RIGHTS_PATH_CREATE_FILE : Int := 2 ^ 10
def RIGHTS_PATH_LINK_SOURCE : Int := 2 ^ 11
def RIGHTS_PATH_LINK_TARGET : Int := 2 ^ 12
def RIGHTS_PATH_OPEN : Int := 2 ^ 13
def RIGHTS_FD_READDIR : Int := 2 ^ 14
def RIGHTS_PATH_READLINK : Int := 2 ^ 15
def RIGHTS_PATH_RENAME_SOURCE : Int := 2 ^ 16
def RIGHTS_PATH_RENAME_TARGET : Int := 2 ^ 17
def RIGHTS_PATH_FILESTAT_GET : Int := 2 ^ 18
def RIGHTS_PATH_FILESTAT_SET_SIZE : Int := 2 ^ 19
def RIGHTS_PATH_FILESTAT_SET_TIMES : Int := 2 ^ 20
def RIGHTS_FD_FILESTAT_GET : Int := 2 ^ 21
def RIGHTS_FD_FILESTAT_SET_SIZE : Int := 2 ^ 22
def RIGHTS_FD_FILESTAT_SET_TIMES : Int := 2 ^ 23
def RIGHTS_PATH_SYMLINK : Int := 2 ^ 24
def RIGHTS_PATH_REMOVE_DIRECTORY : Int := 2 ^ 25
def RIGHTS_PATH_UNLINK_FILE : Int := 2 ^ 26
def RIGHTS_POLL_FD_READWRITE : Int := 2 ^ 27
def RIGHTS_SOCK_SHUTDOWN : Int := 2 ^ 28
def RIGHTS_SOCK_ACCEPT : Int := 2 ^ 29

/-! ## The monad -/

/-- Lift an exception. -/
def lift {α} (e : Except Err α) : W α := fun s =>
  match e with
  | .ok a => .ok a s
  | .error e => .error e s

/-- A host call whose exception is handed to the caller: `try: … except`. -/
def attempt (os : Os) (x : Sys) : W (Except Err x.Ans) := fun s =>
  .ok (os.run s.log x) { s with log := s.log ++ [⟨x, os.run s.log x⟩] }

/-- A host call; an exception of the host propagates. -/
def sys (os : Os) (x : Sys) : W x.Ans := do
  let r ← attempt os x
  lift r

/-- `mems = m.store.mems[m.stack.frame[-1].module.mems[0]]` -/
def mems : W MemInst := fun s =>
  match s.mem with
  | some m => .ok m s
  | none => .error .index s

/-- Replace the guest memory (the Python object is edited in place). -/
def setMems (m : MemInst) : W Unit := fun s => .ok () { s with mem := some m }

/-- `mems.put(addr, data)` -/
def put (addr : Int) (d : Bytes) : W Unit := do
  let m ← mems
  setMems (m.put addr d)
/-- `mems.put_u8(addr, v)` -/
def putU8 (addr v : Int) : W Unit := do
  let m ← mems
  let m ← lift (m.putU8 addr v)
  setMems m
/-- `mems.put_u16/put_u32/put_u64(addr, v)` (`k` = 2, 4, 8). -/
def putU (k : Nat) (addr v : Int) : W Unit := do
  let m ← mems
  let m ← lift (m.putU k addr v)
  setMems m
/-- `mems.get_u16/get_u32/get_u64(addr)` -/
def getU (k : Nat) (addr : Int) : W Int := do
  let m ← mems
  lift (m.getU k addr)
/-- `mems.get_u8(addr)` -/
def getU8 (addr : Int) : W Int := do
  let m ← mems
  lift (m.getU8 addr)
/-- `mems.get(addr, size)` -/
def getB (addr size : Int) : W Bytes := do
  let m ← mems
  return m.get addr size
/-- `mems.get(addr, size).decode()` -/
def getName (addr size : Int) : W Str := do
  let b ← getB addr size
  let s ← lift (Py.decodeUtf8 b)
  return s.toList

/-- `self.fd[i]` -/
def file (i : Int) : W File := do lift (Py.getItem (← get).fd i)
/-- Assignment to fields of `self.fd[i]`. -/
def setFile (i : Int) (f : File) : W Unit := do
  let l ← lift (Py.setItem (← get).fd i f)
  modify fun s => { s with fd := l }
/-- `self.fd.append(f)` -/
def appendFile (f : File) : W Unit := modify fun s => { s with fd := s.fd ++ [f] }

/-- Python truth of an integer `a & b`. -/
def bit (a b : Int) : Bool := Py.and a b ≠ 0

/-! ## Helpers, wasi.py:973-1019 -/

/-- wasi.py:973-974 -/
def helpBadf (fd : Int) : W Bool := do
  if fd < 0 then return true
  if ((← get).fd.length : Int) ≤ fd then return true
  return !(← file fd).wasmOpen
/-- wasi.py:976-977 -/
def helpEscp (root name : Str) : Bool := !Py.startswith (Py.normpath (Py.join root name)) root
/-- wasi.py:979-994 -/
def helpWasmType (i : Stat) : Int :=
  match i.kind with
  | .blk => FILETYPE_BLOCK_DEVICE
  | .chr => FILETYPE_CHARACTER_DEVICE
  | .dir => FILETYPE_DIRECTORY
  | .reg => FILETYPE_REGULAR_FILE
  | .sock => FILETYPE_UNKNOWN
  | .lnk => FILETYPE_SYMBOLIC_LINK
  | .other => FILETYPE_UNKNOWN
/-- wasi.py:996-997 -/
def helpIdir (fd : Int) : W Bool := do return decide ((← file fd).wasmType = FILETYPE_DIRECTORY)
/-- wasi.py:999-1000 -/
def helpPerm (fd perm : Int) : W Bool := do return decide (Py.and (← file fd).base perm = 0)
/-- wasi.py:1002-1003: `fd < 3 and self.fd[fd].pipe is not None` -/
def helpPipe (fd : Int) : W (Option Nat) := do
  if fd < 3 then return (← file fd).pipe else return none
/-- wasi.py:1005-1006 -/
def helpSock (fd : Int) : W Bool := do
  let t := (← file fd).wasmType
  return decide (t ≠ FILETYPE_SOCKET_DGRAM ∧ t ≠ FILETYPE_SOCKET_STREAM)
/-- wasi.py:1008-1019 -/
def helpTime (os : Os) (id : Int) : W Int :=
  if id = 0 then sys os (.time .real)
  else if id = 1 then sys os (.time .mono)
  else if id = 2 then sys os (.time .process)
  else if id = 3 then sys os (.time .thread)
  else pure 0

/-- The `except` clauses of a host call: `OSError` subclasses are errnos (EEXIST 17, ENOENT 2, EISDIR 21, ENOTDIR 20,
EPERM 1 and EACCES 13, EPIPE 32 and ESHUTDOWN); any other exception propagates. -/
def onErr {α} (r : Except Err α) (tbl : List (Nat × Int)) (k : α → W Int) : W Int :=
  match r with
  | .ok a => k a
  | .error (.os n) => match tbl.lookup n with
    | some e => pure e
    | none => throw (.os n)
  | .error e => throw e

/-- wasi.py:1198-1203 -/
def loopErr : Plat → List (Nat × Int)
  | .darwin => [(62, ERRNO_LOOP)]
  | .linux => [(40, ERRNO_LOOP)]
  | .other => []
/-- wasi.py:1281-1285, 1317-1321 -/
def notEmptyErr : Plat → List (Nat × Int)
  | .darwin => [(66, ERRNO_NOTEMPTY)]
  | .linux => [(39, ERRNO_NOTEMPTY)]
  | .other => []

/-! ## Arguments, environment, clocks -/

/-- The loop of wasi.py:487-493 and 577-583. `len(e)` counts code points. -/
def putStrs : List Str → Int → Int → W Unit
  | [], _, _ => pure ()
  | e :: l, argv, buf => do
    putU 4 argv buf
    put buf (Py.encodeUtf8 e)
    putU8 (buf + e.length) 0
    putStrs l (argv + 4) (buf + e.length + 1)

/-- wasi.py:481-494 -/
def argsGet (a0 a1 : Int) : W Int := do
  let _ ← mems
  putStrs (← get).args a0 a1
  return ERRNO_SUCCESS
/-- wasi.py:500, 590: `sum([len(e) + 1 for e in l])` -/
def strsSize (l : List Str) : Nat := (l.map fun e => e.length + 1).sum
/-- wasi.py:496-501 -/
def argsSizesGet (a0 a1 : Int) : W Int := do
  let _ ← mems
  putU 4 a0 (← get).args.length
  putU 4 a1 (strsSize (← get).args)
  return ERRNO_SUCCESS
/-- wasi.py:559-563 -/
def clockResGet (_a0 a1 : Int) : W Int := do
  let _ ← mems
  putU 8 a1 1
  return ERRNO_SUCCESS
/-- wasi.py:565-569 -/
def clockTimeGet (os : Os) (a0 _a1 a2 : Int) : W Int := do
  let _ ← mems
  let t ← helpTime os a0
  putU 8 a2 t
  return ERRNO_SUCCESS
/-- wasi.py:571-584 -/
def environGet (a0 a1 : Int) : W Int := do
  let _ ← mems
  putStrs (← get).envs a0 a1
  return ERRNO_SUCCESS
/-- wasi.py:586-591 -/
def environSizesGet (a0 a1 : Int) : W Int := do
  let _ ← mems
  putU 4 a0 (← get).envs.length
  putU 4 a1 (strsSize (← get).envs)
  return ERRNO_SUCCESS

/-! ## Descriptors -/

/-- wasi.py:593-599 -/
def fdAdvise (a0 _a1 _a2 _a3 : Int) : W Int := do
  if ← helpBadf a0 then return ERRNO_BADF
  if ← helpPerm a0 RIGHTS_FD_ADVISE then return ERRNO_NOTCAPABLE
  return ERRNO_SUCCESS
/-- wasi.py:601-617 -/
def fdAllocate (os : Os) (a0 a1 a2 : Int) : W Int := do
  if ← helpBadf a0 then return ERRNO_BADF
  if ← helpIdir a0 then return ERRNO_ISDIR
  if ← helpPerm a0 RIGHTS_FD_ALLOCATE then return ERRNO_NOTCAPABLE
  let f ← file a0
  let info : Stat ← sys os (.stat f.hostFd)
  let size := a1 + a2 - info.size
  if size ≤ 0 then return ERRNO_SUCCESS
  let offs : Int ← sys os (.lseek f.hostFd 0 1)
  let _ ← sys os (.lseek f.hostFd 0 2)
  let _ ← sys os (.write f.hostFd (Py.zeros size.toNat))
  let _ ← sys os (.lseek f.hostFd offs 0)
  return ERRNO_SUCCESS
/-- wasi.py:619-628 -/
def fdClose (os : Os) (a0 : Int) : W Int := do
  if ← helpBadf a0 then return ERRNO_BADF
  let f ← file a0
  if f.wasmType ≠ FILETYPE_CHARACTER_DEVICE then do
    sys os (.close f.hostFd)
    setFile a0 { f with hostOpen := false, wasmOpen := false }
  else setFile a0 { f with wasmOpen := false }
  return ERRNO_SUCCESS
/-- wasi.py:630-636 -/
def fdDatasync (a0 : Int) : W Int := do
  if ← helpBadf a0 then return ERRNO_BADF
  if ← helpPerm a0 RIGHTS_FD_DATASYNC then return ERRNO_NOTCAPABLE
  return ERRNO_SUCCESS
/-- wasi.py:638-648 -/
def fdFdstatGet (a0 a1 : Int) : W Int := do
  if ← helpBadf a0 then return ERRNO_BADF
  let _ ← mems
  let f ← file a0
  putU8 a1 f.wasmType
  putU 2 (a1 + 2) f.wasmFlag
  putU 8 (a1 + 8) f.base
  putU 8 (a1 + 16) f.root
  return ERRNO_SUCCESS
/-- wasi.py:658 -/
def fyes : Int := Py.or FDFLAGS_APPEND FDFLAGS_APPEND
/-- wasi.py:662-671: the flags after clearing and setting APPEND and NONBLOCK. -/
def newFlags (c : Consts) (a1 : Int) (f : File) : File :=
  let h := Py.and (Py.and f.hostFlag (Py.inv c.oAppend)) (Py.inv c.oNonblock)
  let w := Py.and (Py.and f.wasmFlag (Py.inv FDFLAGS_APPEND)) (Py.inv FDFLAGS_NONBLOCK)
  let (h, w) := if bit a1 FDFLAGS_APPEND then (Py.or h c.oAppend, Py.or w FDFLAGS_APPEND) else (h, w)
  let (h, w) := if bit a1 FDFLAGS_NONBLOCK then (Py.or h c.oNonblock, Py.or w FDFLAGS_NONBLOCK) else (h, w)
  { f with hostFlag := h, wasmFlag := w }
/-- wasi.py:650-672. The file object is edited before `fcntl` runs. -/
def fdFdstatSetFlags (os : Os) (a0 a1 : Int) : W Int := do
  if ← helpBadf a0 then return ERRNO_BADF
  if ← helpPerm a0 RIGHTS_FD_FDSTAT_SET_FLAGS then return ERRNO_NOTCAPABLE
  let f ← file a0
  if Py.or (Py.xor f.wasmFlag a1) fyes ≠ fyes then return ERRNO_INVAL
  let f := newFlags os.c a1 f
  setFile a0 f
  sys os (.setfl f.hostFd f.hostFlag)
  return ERRNO_SUCCESS
/-- wasi.py:674-686 -/
def fdFdstatSetRights (a0 a1 a2 : Int) : W Int := do
  if ← helpBadf a0 then return ERRNO_BADF
  let f ← file a0
  if Py.and f.base a1 ≠ a1 then return ERRNO_NOTCAPABLE
  if Py.and f.root a2 ≠ a2 then return ERRNO_NOTCAPABLE
  setFile a0 { f with base := a1, root := a2 }
  return ERRNO_SUCCESS
/-- wasi.py:697-704, 1079-1086 -/
def putStat (p : Int) (type : Int) (i : Stat) : W Unit := do
  putU 8 p 1
  putU 8 (p + 8) i.ino
  putU8 (p + 16) type
  putU 8 (p + 24) i.nlink
  putU 8 (p + 32) i.size
  putU 8 (p + 40) i.atime
  putU 8 (p + 48) i.mtime
  putU 8 (p + 56) i.ctime
/-- wasi.py:688-705 -/
def fdFilestatGet (os : Os) (a0 a1 : Int) : W Int := do
  if ← helpBadf a0 then return ERRNO_BADF
  if ← helpPerm a0 RIGHTS_FD_FILESTAT_GET then return ERRNO_NOTCAPABLE
  let _ ← mems
  let f ← file a0
  let info : Stat ← sys os (.statName f.hostName)
  putStat a1 f.wasmType info
  return ERRNO_SUCCESS
/-- wasi.py:707-717 -/
def fdFilestatSetSize (os : Os) (a0 a1 : Int) : W Int := do
  if ← helpBadf a0 then return ERRNO_BADF
  if ← helpIdir a0 then return ERRNO_ISDIR
  if ← helpPerm a0 RIGHTS_FD_FILESTAT_SET_SIZE then return ERRNO_NOTCAPABLE
  let f ← file a0
  sys os (.ftruncate f.hostFd a1)
  return ERRNO_SUCCESS
/-- wasi.py:719-742. Line 740 uses `args[2]` for `MTIM_NOW`. -/
def fdFilestatSetTimes (os : Os) (a0 a1 a2 a3 : Int) : W Int := do
  if ← helpBadf a0 then return ERRNO_BADF
  if ← helpPerm a0 RIGHTS_FD_FILESTAT_SET_TIMES then return ERRNO_NOTCAPABLE
  if bit a3 FSTFLAGS_ATIM && bit a3 FSTFLAGS_ATIM_NOW then return ERRNO_INVAL
  if bit a3 FSTFLAGS_MTIM && bit a3 FSTFLAGS_MTIM_NOW then return ERRNO_INVAL
  let f ← file a0
  let info : Stat ← sys os (.stat f.hostFd)
  let atim := if bit a3 FSTFLAGS_ATIM then a1 else info.atime
  let atim ← if bit a3 FSTFLAGS_ATIM_NOW then sys os (.time .real) else pure atim
  let mtim := if bit a3 FSTFLAGS_MTIM then a2 else info.mtime
  let mtim := if bit a3 FSTFLAGS_MTIM_NOW then a2 else mtim
  sys os (.utime f.hostFd atim mtim)
  return ERRNO_SUCCESS

/-- The loop of wasi.py:758-768 and 830-843; `rd n offs` is `os.pread(fd, n, offs)`, `os.read(fd, n)` or
`pipe.read(n)`, `done` the number of bytes so far (`offs - args[3]`, `size`). Returns the final number. -/
def readLoop (rd : Int → Int → W Bytes) : Nat → Int → Int → W Int
  | 0, _, done => pure done
  | n + 1, iovs, done => do
    let ptr ← getU 4 iovs
    let len ← getU 4 (iovs + 4)
    let data ← rd len done
    if data.length = 0 then return done
    put ptr data
    if (data.length : Int) < len then return done + data.length
    readLoop rd n (iovs + 8) (done + data.length)

/-- wasi.py:744-769 -/
def fdPread (os : Os) (a0 a1 a2 a3 a4 : Int) : W Int := do
  if ← helpBadf a0 then return ERRNO_BADF
  if ← helpIdir a0 then return ERRNO_ISDIR
  if ← helpPerm a0 RIGHTS_FD_READ then return ERRNO_NOTCAPABLE
  let _ ← mems
  let f ← file a0
  let size ← readLoop (fun n d => sys os (.pread f.hostFd n (a3 + d))) a2.toNat a1 0
  putU 4 a4 size
  return ERRNO_SUCCESS
/-- wasi.py:771-781 -/
def fdPrestatDirName (a0 a1 a2 : Int) : W Int := do
  if ← helpBadf a0 then return ERRNO_BADF
  if ((← get).ndirs : Int) < a0 - 2 then return ERRNO_BADF
  let _ ← mems
  let f ← file a0
  let name := Py.encodeUtf8 f.wasmName
  if a2 < (name.length : Int) then return ERRNO_NAMETOOLONG
  put a1 name
  return ERRNO_SUCCESS
/-- wasi.py:783-792 -/
def fdPrestatGet (a0 a1 : Int) : W Int := do
  if ← helpBadf a0 then return ERRNO_BADF
  if ((← get).ndirs : Int) < a0 - 2 then return ERRNO_BADF
  let _ ← mems
  let f ← file a0
  let name := Py.encodeUtf8 f.wasmName
  putU8 a1 0
  putU 4 (a1 + 4) name.length
  return ERRNO_SUCCESS

/-- The loop of wasi.py:807-812, 960-965 and 1580-1585. -/
def gather : Nat → Int → Bytes → W Bytes
  | 0, _, data => pure data
  | n + 1, iovs, data => do
    let ptr ← getU 4 iovs
    let len ← getU 4 (iovs + 4)
    let elem ← getB ptr len
    gather n (iovs + 8) (data ++ elem)

/-- wasi.py:794-815 -/
def fdPwrite (os : Os) (a0 a1 a2 a3 a4 : Int) : W Int := do
  if ← helpBadf a0 then return ERRNO_BADF
  if ← helpIdir a0 then return ERRNO_ISDIR
  if ← helpPerm a0 RIGHTS_FD_WRITE then return ERRNO_NOTCAPABLE
  let _ ← mems
  let f ← file a0
  let data ← gather a2.toNat a1 []
  let size : Int ← sys os (.pwrite f.hostFd data a3)
  putU 4 a4 size
  return ERRNO_SUCCESS
/-- wasi.py:817-845 -/
def fdRead (os : Os) (a0 a1 a2 a3 : Int) : W Int := do
  if ← helpBadf a0 then return ERRNO_BADF
  if ← helpIdir a0 then return ERRNO_ISDIR
  if ← helpPerm a0 RIGHTS_FD_READ then return ERRNO_NOTCAPABLE
  let _ ← mems
  let f ← file a0
  let size ← readLoop (fun n _ => do
    match ← helpPipe a0 with
    | none => sys os (.read f.hostFd n)
    | some p => sys os (.pipeRead p n)) a2.toNat a1 0
  putU 4 a3 size
  return ERRNO_SUCCESS

/-- The loop of wasi.py:859-873 over `result[cookie:]`; returns `(dirent, cookie)`. -/
def readdirLoop (os : Os) (hostName : Str) (bufend : Int) : List Str → Int → Int → W (Int × Int)
  | [], dirent, cookie => pure (dirent, cookie)
  | name :: l, dirent, cookie => do
    if bufend < dirent + 24 then return (dirent, cookie)
    let info : Stat ← sys os (.statName (Py.normpath (Py.join hostName name)))
    putU 8 dirent (cookie + 1)
    putU 8 (dirent + 8) info.ino
    putU 4 (dirent + 16) name.length
    putU8 (dirent + 20) (helpWasmType info)
    if bufend < dirent + 24 + name.length then return (dirent + 24, cookie)
    put (dirent + 24) (Py.encodeUtf8 name)
    readdirLoop os hostName bufend l (dirent + 24 + name.length) (cookie + 1)

/-- Python's order on `str`: by code points. -/
def strLe (a b : Str) : Bool := decide (a.map Char.toNat ≤ b.map Char.toNat)
/-- `['.', '..', *sorted(os.listdir(fd))]`, wasi.py:858 -/
def dirResult (l : List Str) : List Str := ['.'] :: ['.', '.'] :: l.mergeSort strLe

/-- wasi.py:847-875 -/
def fdReaddir (os : Os) (a0 a1 a2 a3 a4 : Int) : W Int := do
  if ← helpBadf a0 then return ERRNO_BADF
  if ← helpPerm a0 RIGHTS_FD_READDIR then return ERRNO_NOTCAPABLE
  let _ ← mems
  let f ← file a0
  let l : List Str ← sys os (.listdir f.hostFd)
  let result := dirResult l
  let (dirent, cookie) ← readdirLoop os f.hostName (a1 + a2) (Py.slice result a3 result.length) a1 a3
  putU 4 a4 (if (result.length : Int) ≤ cookie then dirent - a1 else a2)
  return ERRNO_SUCCESS
/-- wasi.py:877-898. When both descriptors are the same, `stem` and `dest` are one object, so the fields written last
win. -/
def fdRenumber (os : Os) (a0 a1 : Int) : W Int := do
  if ← helpBadf a0 then return ERRNO_BADF
  if ← helpBadf a1 then return ERRNO_BADF
  let stem ← file a0
  let dest ← file a1
  if dest.wasmType ≠ FILETYPE_CHARACTER_DEVICE then do sys os (.close dest.hostFd) else pure ()
  setFile a1 stem
  let stem ← file a0
  setFile a0 { stem with hostOpen := false, wasmOpen := false }
  return ERRNO_SUCCESS
/-- wasi.py:900-919 (the three assertions compare constants that are equal on POSIX). -/
def fdSeek (os : Os) (a0 a1 a2 a3 : Int) : W Int := do
  if ← helpBadf a0 then return ERRNO_BADF
  if ← helpIdir a0 then return ERRNO_ISDIR
  if ← helpPerm a0 RIGHTS_FD_SEEK then return ERRNO_NOTCAPABLE
  let _ ← mems
  let f ← file a0
  let ocur : Int ← sys os (.lseek f.hostFd 0 a2)
  if ocur + a1 < 0 then return ERRNO_INVAL
  let offs : Int ← sys os (.lseek f.hostFd a1 a2)
  putU 8 a3 offs
  return ERRNO_SUCCESS
/-- wasi.py:921-931 -/
def fdSync (os : Os) (a0 : Int) : W Int := do
  if ← helpBadf a0 then return ERRNO_BADF
  if ← helpIdir a0 then return ERRNO_ISDIR
  if ← helpPerm a0 RIGHTS_FD_SYNC then return ERRNO_NOTCAPABLE
  let f ← file a0
  sys os (.fsync f.hostFd)
  return ERRNO_SUCCESS
/-- wasi.py:933-945 -/
def fdTell (os : Os) (a0 a1 : Int) : W Int := do
  if ← helpBadf a0 then return ERRNO_BADF
  if ← helpIdir a0 then return ERRNO_ISDIR
  if ← helpPerm a0 RIGHTS_FD_TELL then return ERRNO_NOTCAPABLE
  let _ ← mems
  let f ← file a0
  let offs : Int ← sys os (.lseek f.hostFd 0 1)
  putU 8 a1 offs
  return ERRNO_SUCCESS
/-- wasi.py:947-971 -/
def fdWrite (os : Os) (a0 a1 a2 a3 : Int) : W Int := do
  if ← helpBadf a0 then return ERRNO_BADF
  if ← helpIdir a0 then return ERRNO_ISDIR
  if ← helpPerm a0 RIGHTS_FD_WRITE then return ERRNO_NOTCAPABLE
  let _ ← mems
  let f ← file a0
  let data ← gather a2.toNat a1 []
  let size ← match ← helpPipe a0 with
    | none => sys os (.write f.hostFd data)
    | some p => sys os (.pipeWrite p data)
  putU 4 a3 size
  return ERRNO_SUCCESS

/-! ## Paths -/

/-- wasi.py:1046-1061 -/
def pathCreateDirectory (os : Os) (a0 a1 a2 : Int) : W Int := do
  if ← helpBadf a0 then return ERRNO_BADF
  if ← helpPerm a0 RIGHTS_PATH_CREATE_DIRECTORY then return ERRNO_NOTCAPABLE
  let _ ← mems
  let f ← file a0
  let name ← getName a1 a2
  if helpEscp f.wasmName name then return ERRNO_PERM
  onErr (← attempt os (.mkdir name f.hostFd)) [(17, ERRNO_EXIST)] fun _ => return ERRNO_SUCCESS
/-- wasi.py:1063-1087 -/
def pathFilestatGet (os : Os) (a0 a1 a2 a3 a4 : Int) : W Int := do
  if ← helpBadf a0 then return ERRNO_BADF
  if ← helpPerm a0 RIGHTS_PATH_FILESTAT_GET then return ERRNO_NOTCAPABLE
  let _ ← mems
  let f ← file a0
  let name ← getName a2 a3
  if helpEscp f.wasmName name then return ERRNO_PERM
  onErr (← attempt os (.statAt name f.hostFd (Py.and a1 LOOKUPFLAGS_SYMLINK_FOLLOW))) [(2, ERRNO_NOENT)]
    fun (info : Stat) => do
      putStat a4 (helpWasmType info) info
      return ERRNO_SUCCESS
/-- wasi.py:1089-1120. `os.stat` at line 1106 follows symbolic links and is outside the `try`. -/
def pathFilestatSetTimes (os : Os) (a0 a1 a2 a3 a4 a5 a6 : Int) : W Int := do
  if ← helpBadf a0 then return ERRNO_BADF
  if ← helpPerm a0 RIGHTS_PATH_FILESTAT_SET_TIMES then return ERRNO_NOTCAPABLE
  if bit a6 FSTFLAGS_ATIM && bit a6 FSTFLAGS_ATIM_NOW then return ERRNO_INVAL
  if bit a6 FSTFLAGS_MTIM && bit a6 FSTFLAGS_MTIM_NOW then return ERRNO_INVAL
  let _ ← mems
  let f ← file a0
  let name ← getName a2 a3
  if helpEscp f.wasmName name then return ERRNO_PERM
  let info : Stat ← sys os (.statAt name f.hostFd 1)
  let atim := if bit a6 FSTFLAGS_ATIM then a4 else info.atime
  let atim ← if bit a6 FSTFLAGS_ATIM_NOW then sys os (.time .real) else pure atim
  let mtim := if bit a6 FSTFLAGS_MTIM then a5 else info.mtime
  let mtim ← if bit a6 FSTFLAGS_MTIM_NOW then sys os (.time .real) else pure mtim
  onErr (← attempt os (.utimeAt name atim mtim f.hostFd (Py.and a1 LOOKUPFLAGS_SYMLINK_FOLLOW))) [(2, ERRNO_NOENT)]
    fun _ => return ERRNO_SUCCESS
/-- wasi.py:1122-1148 -/
def pathLink (os : Os) (a0 a1 a2 a3 a4 a5 a6 : Int) : W Int := do
  if ← helpBadf a0 then return ERRNO_BADF
  if ← helpBadf a4 then return ERRNO_BADF
  if ← helpPerm a0 RIGHTS_PATH_LINK_SOURCE then return ERRNO_NOTCAPABLE
  if ← helpPerm a4 RIGHTS_PATH_LINK_TARGET then return ERRNO_NOTCAPABLE
  let _ ← mems
  let stem ← file a0
  let dest ← file a4
  let stemName ← getName a2 a3
  let destName ← getName a5 a6
  if helpEscp stem.wasmName stemName then return ERRNO_PERM
  if helpEscp dest.wasmName destName then return ERRNO_PERM
  onErr (← attempt os (.link stemName destName stem.hostFd dest.hostFd (Py.and a1 LOOKUPFLAGS_SYMLINK_FOLLOW)))
    [(17, ERRNO_EXIST), (2, ERRNO_NOENT), (1, ERRNO_PERM), (13, ERRNO_PERM)] fun _ => return ERRNO_SUCCESS

/-- wasi.py:1165-1186: the flags of `os.open` -/
def openFlags (c : Consts) (a1 a4 a5 a7 : Int) : Int :=
  let flag := 0
  let flag := if Py.and a1 LOOKUPFLAGS_SYMLINK_FOLLOW = 0 then Py.or flag c.oNofollow else flag
  let flag := if bit a4 OFLAGS_CREAT then Py.or flag c.oCreat else flag
  let flag := if bit a4 OFLAGS_DIRECTORY then Py.or flag c.oDirectory else flag
  let flag := if bit a4 OFLAGS_EXCL then Py.or flag c.oExcl else flag
  let flag := if bit a4 OFLAGS_TRUNC then Py.or flag c.oTrunc else flag
  let rw := Py.and a5 (RIGHTS_FD_READ + RIGHTS_FD_WRITE)
  let flag := if rw = RIGHTS_FD_READ then Py.or flag c.oRdonly else flag
  let flag := if rw = RIGHTS_FD_WRITE then Py.or flag c.oWronly else flag
  let flag := if rw = RIGHTS_FD_READ + RIGHTS_FD_WRITE then Py.or flag c.oRdwr else flag
  if bit a7 FDFLAGS_APPEND then Py.or flag c.oAppend else flag

/-- wasi.py:1213-1228: the rights a regular file loses. -/
def pathRights : Int :=
  RIGHTS_PATH_CREATE_DIRECTORY + RIGHTS_PATH_CREATE_FILE + RIGHTS_PATH_LINK_SOURCE + RIGHTS_PATH_LINK_TARGET +
  RIGHTS_PATH_OPEN + RIGHTS_PATH_READLINK + RIGHTS_PATH_RENAME_SOURCE + RIGHTS_PATH_RENAME_TARGET +
  RIGHTS_PATH_FILESTAT_GET + RIGHTS_PATH_FILESTAT_SET_SIZE + RIGHTS_PATH_FILESTAT_SET_TIMES + RIGHTS_PATH_SYMLINK +
  RIGHTS_PATH_REMOVE_DIRECTORY + RIGHTS_PATH_UNLINK_FILE

/-- wasi.py:1204-1245: what follows a successful `os.open`. -/
def opened (os : Os) (hostFd flag : Int) (hostName wasmName : Str) (a5 a6 a7 a8 : Int) (wasmFd : Nat) : W Int := do
  let d : Bool ← sys os (.isdir hostFd)
  let void := if d then RIGHTS_FD_SEEK else 0
  let base := Py.and a5 (Py.inv void)
  let root := Py.and a6 (Py.inv void)
  let r : Bool ← sys os (.isfile hostFd)
  let void := if r then pathRights else 0
  let base := Py.and base (Py.inv void)
  let root := Py.and root (Py.inv void)
  let info : Stat ← sys os (.stat hostFd)
  appendFile ⟨hostFd, flag, hostName, true, none, wasmFd, a7, wasmName, base, root, true, helpWasmType info⟩
  putU 4 a8 wasmFd
  return ERRNO_SUCCESS

/-- wasi.py:1150-1245. Masking with `~0` when the descriptor is not a directory (file) leaves the rights unchanged. -/
def pathOpen (os : Os) (a0 a1 a2 a3 a4 a5 a6 a7 a8 : Int) : W Int := do
  if ← helpBadf a0 then return ERRNO_BADF
  if ← helpPerm a0 RIGHTS_PATH_OPEN then return ERRNO_NOTCAPABLE
  let _ ← mems
  let f ← file a0
  let name ← getName a2 a3
  let wasmName := Py.normpath (Py.join f.wasmName name)
  let hostName := Py.normpath (Py.join f.hostName name)
  if name.contains (Char.ofNat 0) then return ERRNO_ILSEQ
  if helpEscp f.hostName name then return ERRNO_PERM
  if bit a4 OFLAGS_TRUNC && decide (Py.and f.base RIGHTS_PATH_FILESTAT_SET_SIZE = 0) then return ERRNO_PERM
  let flag := openFlags os.c a1 a4 a5 a7
  let wasmFd := (← get).fd.length
  onErr (← attempt os (.open name flag 0o644 (some f.hostFd)))
    ([(17, ERRNO_EXIST), (2, ERRNO_NOENT), (21, ERRNO_ISDIR), (20, ERRNO_NOTDIR)] ++ loopErr os.plat)
    fun (hostFd : Int) => opened os hostFd flag hostName wasmName a5 a6 a7 a8 wasmFd

/-- wasi.py:1247-1265. `data[:size]` cuts code points. -/
def pathReadlink (os : Os) (a0 a1 a2 a3 a4 a5 : Int) : W Int := do
  if ← helpBadf a0 then return ERRNO_BADF
  if ← helpPerm a0 RIGHTS_PATH_READLINK then return ERRNO_NOTCAPABLE
  let _ ← mems
  let f ← file a0
  let name ← getName a1 a2
  if helpEscp f.wasmName name then return ERRNO_PERM
  onErr (← attempt os (.readlink name f.hostFd)) [(2, ERRNO_NOENT)] fun (data : Str) => do
    let size : Int := min (data.length : Int) a4
    put a3 (Py.encodeUtf8 (Py.slice data 0 size))
    putU 4 a5 size
    return ERRNO_SUCCESS
/-- wasi.py:1267-1288 -/
def pathRemoveDirectory (os : Os) (a0 a1 a2 : Int) : W Int := do
  if ← helpBadf a0 then return ERRNO_BADF
  if ← helpPerm a0 RIGHTS_PATH_REMOVE_DIRECTORY then return ERRNO_NOTCAPABLE
  let _ ← mems
  let f ← file a0
  let name ← getName a1 a2
  if helpEscp f.wasmName name then return ERRNO_PERM
  onErr (← attempt os (.rmdir name f.hostFd)) ((20, ERRNO_NOTDIR) :: notEmptyErr os.plat) fun _ => return ERRNO_SUCCESS
/-- wasi.py:1290-1323 -/
def pathRename (os : Os) (a0 a1 a2 a3 a4 a5 : Int) : W Int := do
  if ← helpBadf a0 then return ERRNO_BADF
  if ← helpBadf a3 then return ERRNO_BADF
  if ← helpPerm a0 RIGHTS_PATH_RENAME_SOURCE then return ERRNO_NOTCAPABLE
  if ← helpPerm a3 RIGHTS_PATH_RENAME_TARGET then return ERRNO_NOTCAPABLE
  let _ ← mems
  let stem ← file a0
  let dest ← file a3
  let stemName ← getName a1 a2
  let destName ← getName a4 a5
  if helpEscp stem.wasmName stemName then return ERRNO_PERM
  if helpEscp dest.wasmName destName then return ERRNO_PERM
  onErr (← attempt os (.rename stemName destName stem.hostFd dest.hostFd))
    ([(17, ERRNO_EXIST), (2, ERRNO_NOENT), (21, ERRNO_ISDIR), (20, ERRNO_NOTDIR)] ++ notEmptyErr os.plat)
    fun _ => return ERRNO_SUCCESS
/-- wasi.py:1325-1347 -/
def pathSymlink (os : Os) (a0 a1 a2 a3 a4 : Int) : W Int := do
  if ← helpBadf a2 then return ERRNO_BADF
  if ← helpPerm a2 RIGHTS_PATH_SYMLINK then return ERRNO_NOTCAPABLE
  let _ ← mems
  let f ← file a2
  let stem ← getName a0 a1
  let dest ← getName a3 a4
  if helpEscp f.wasmName stem then return ERRNO_PERM
  if helpEscp f.wasmName dest then return ERRNO_PERM
  onErr (← attempt os (.symlink stem dest f.hostFd)) [(17, ERRNO_EXIST), (2, ERRNO_NOENT), (20, ERRNO_NOTDIR)]
    fun _ => return ERRNO_SUCCESS
/-- wasi.py:1349-1368 -/
def pathUnlinkFile (os : Os) (a0 a1 a2 : Int) : W Int := do
  if ← helpBadf a0 then return ERRNO_BADF
  if ← helpPerm a0 RIGHTS_PATH_UNLINK_FILE then return ERRNO_NOTCAPABLE
  let _ ← mems
  let f ← file a0
  let name ← getName a1 a2
  if helpEscp f.wasmName name then return ERRNO_PERM
  onErr (← attempt os (.unlink name f.hostFd))
    [(21, ERRNO_ISDIR), (20, ERRNO_NOTDIR), (1, ERRNO_PERM), (13, ERRNO_PERM)] fun _ => return ERRNO_SUCCESS

/-! ## Polling -/

/-- A clock subscription `[userdata, ckid, delt, ends]` or a descriptor subscription `[userdata, fd]`,
wasi.py:1380-1407. -/
inductive Sub where
  | clock (user ckid delt ends : Int)
  | read (user fd : Int)
  | write (user fd : Int)
  deriving DecidableEq, Repr

/-- One turn of the loop of wasi.py:1380-1407: `none` for an unknown event type, an errno on early return. -/
def readSub (os : Os) (addr : Int) : W (Except Int (Option Sub)) := do
  let user ← getU 8 addr
  let eype ← getU8 (addr + 8)
  if eype = 0 then do
    let ckid ← getU 8 (addr + 16)
    let nval ← getU 8 (addr + 24)
    let flag ← getU 4 (addr + 40)
    let ctim ← helpTime os ckid
    let delt := if bit flag 1 then ctim - nval else nval
    let ends := if bit flag 1 then nval else ctim + nval
    return .ok (some (.clock user ckid delt ends))
  else if eype = 1 then do
    let f ← getU 4 (addr + 16)
    if ← helpBadf f then return .error ERRNO_BADF
    if ← helpPerm f RIGHTS_POLL_FD_READWRITE then return .error ERRNO_NOTCAPABLE
    return .ok (some (.read user f))
  else if eype = 2 then do
    let f ← getU 4 (addr + 16)
    if ← helpBadf f then return .error ERRNO_BADF
    if ← helpPerm f RIGHTS_POLL_FD_READWRITE then return .error ERRNO_NOTCAPABLE
    return .ok (some (.write user f))
  else return .ok none

/-- The loop of wasi.py:1380-1407. -/
def readSubs (os : Os) : Nat → Int → W (Except Int (List Sub))
  | 0, _ => pure (.ok [])
  | n + 1, addr => do
    match ← readSub os addr with
    | .error e => return .error e
    | .ok s => do
      match ← readSubs os n (addr + 48) with
      | .error e => return .error e
      | .ok l => return .ok (s.toList ++ l)

/-- wasi.py:1422-1424 and its copies: one event record. -/
def putEvent (outs user type : Int) : W Unit := do
  putU 8 outs user
  putU 2 (outs + 8) ERRNO_SUCCESS
  putU8 (outs + 10) type

/-- wasi.py:1419-1426 -/
def putClocks (os : Os) : List (Int × Int × Int) → Int → Int → W (Int × Int)
  | [], outs, neve => pure (outs, neve)
  | (user, ckid, ends) :: l, outs, neve => do
    let t ← helpTime os ckid
    if t < ends then putClocks os l outs neve
    else do
      putEvent outs user 0
      putClocks os l (outs + 32) (neve + 1)

/-- wasi.py:1427-1434, 1435-1442 -/
def putFds (type : Int) (yes : List Int) : List (Int × Int) → Int → Int → W (Int × Int)
  | [], outs, neve => pure (outs, neve)
  | (user, f) :: l, outs, neve => do
    let fl ← file f
    if fl.hostFd ∈ yes then do
      putEvent outs user type
      putFds type yes l (outs + 32) (neve + 1)
    else putFds type yes l outs neve

/-- Host descriptors of a list of subscriptions, wasi.py:1413-1414. -/
def hostFds : List (Int × Int) → W (List Int)
  | [] => pure []
  | (_, f) :: l => do
    let fl ← file f
    let r ← hostFds l
    return fl.hostFd :: r

/-- `csub`, `rsub` and `wsub` of wasi.py:1377-1407. -/
def clocksOf (l : List Sub) : List (Int × Int × Int) :=
  l.filterMap fun | .clock u c _ e => some (u, c, e) | _ => none
def deltsOf (l : List Sub) : List Int := l.filterMap fun | .clock _ _ d _ => some d | _ => none
def readsOf (l : List Sub) : List (Int × Int) := l.filterMap fun | .read u f => some (u, f) | _ => none
def writesOf (l : List Sub) : List (Int × Int) := l.filterMap fun | .write u f => some (u, f) | _ => none

/-- wasi.py:1409-1411: eight seconds without a clock subscription. -/
def timeout (l : List Sub) : Int := ((deltsOf l).min?).getD 8000000000

/-- wasi.py:1370-1444 -/
def pollOneoff (os : Os) (a0 a1 a2 a3 : Int) : W Int := do
  let _ ← mems
  match ← readSubs os a2.toNat a0 with
  | .error e => return e
  | .ok subs => do
    let r ← hostFds (readsOf subs)
    let w ← hostFds (writesOf subs)
    let yes : List Int × List Int ← sys os (.select r w (timeout subs))
    let (outs, neve) ← putClocks os (clocksOf subs) a1 0
    let (outs, neve) ← putFds 1 yes.1 (readsOf subs) outs neve
    let (_, neve) ← putFds 2 yes.2 (writesOf subs) outs neve
    putU 4 a3 neve
    return ERRNO_SUCCESS

/-! ## Process, randomness, sockets -/

/-- wasi.py:1446-1451. `sys.exit` raises `SystemExit`, which is not an `Exception`: `Err.sysExit`. -/
def procExit (a0 : Int) : W Int := do
  if (← get).returnOnExit then throw (.exit a0)
  throw (.sysExit a0)
/-- wasi.py:1453-1457 -/
def procRaise (a0 : Int) : W Int := do
  if a0 ≠ 0 then return ERRNO_INVAL
  return ERRNO_SUCCESS
/-- wasi.py:1459-1463 -/
def randomGet (os : Os) (a0 a1 : Int) : W Int := do
  let _ ← mems
  let d : Bytes ← sys os (.random a1)
  put a0 d
  return ERRNO_SUCCESS
/-- wasi.py:1465-1468 -/
def schedYield : W Int := return ERRNO_SUCCESS

/-- `kype = {…}[file.wasm_type]`, wasi.py:1480-1483 -/
def sockKind (c : Consts) (f : File) : Except Err Int :=
  if f.wasmType = FILETYPE_SOCKET_STREAM then .ok c.sockStream
  else if f.wasmType = FILETYPE_SOCKET_DGRAM then .ok c.sockDgram
  else .error .key

/-- wasi.py:1470-1504. The constructor call at 1490 lacks the argument `host_flag`: `TypeError`. -/
def sockAccept (os : Os) (a0 a1 _a2 : Int) : W Int := do
  if ← helpBadf a0 then return ERRNO_BADF
  if ← helpSock a0 then return ERRNO_NOTSOCK
  if ← helpPerm a0 RIGHTS_SOCK_ACCEPT then return ERRNO_NOTCAPABLE
  let _ ← mems
  let f ← file a0
  let k ← lift (sockKind os.c f)
  let s : Int ← sys os (.sockDup f.hostFd k)
  if bit a1 FDFLAGS_NONBLOCK then sys os (.sockNonblock s) else pure ()
  let _ ← sys os (.sockAccept s)
  throw .type

/-- wasi.py:1527-1530: the total length of the iovecs. -/
def iovsSize : Nat → Int → W Int
  | 0, _ => pure 0
  | n + 1, iovs => do
    let len ← getU 4 (iovs + 4)
    let r ← iovsSize n (iovs + 8)
    return len + r
/-- wasi.py:1541-1551 -/
def scatter : Nat → Int → Bytes → W Unit
  | 0, _, _ => pure ()
  | n + 1, iovs, data => do
    if data.length = 0 then return ()
    let ptr ← getU 4 iovs
    let len ← getU 4 (iovs + 4)
    let size := min len.toNat data.length
    if 0 < size then put ptr (data.take size) else pure ()
    scatter n (iovs + 8) (data.drop size)

/-- `except BrokenPipeError`: EPIPE, and ESHUTDOWN (108 on Linux, 58 on Darwin). -/
def pipeErr : Plat → List (Nat × Int)
  | .linux => [(32, ERRNO_PIPE), (108, ERRNO_PIPE)]
  | .darwin => [(32, ERRNO_PIPE), (58, ERRNO_PIPE)]
  | .other => [(32, ERRNO_PIPE)]

/-- wasi.py:1506-1560 -/
def sockRecv (os : Os) (a0 a1 a2 a3 a4 a5 : Int) : W Int := do
  if ← helpBadf a0 then return ERRNO_BADF
  if ← helpSock a0 then return ERRNO_NOTSOCK
  if ← helpPerm a0 RIGHTS_FD_READ then return ERRNO_NOTCAPABLE
  let _ ← mems
  let f ← file a0
  let k ← lift (sockKind os.c f)
  let s : Int ← sys os (.sockDup f.hostFd k)
  let ri := if bit a3 1 then Py.or 0 os.c.msgPeek else 0
  let ri := if bit a3 2 && decide (f.wasmType = FILETYPE_SOCKET_STREAM) then Py.or ri os.c.msgWaitall else ri
  let total ← iovsSize a2.toNat a1
  onErr (← attempt os (.sockRecv s total ri)) (pipeErr os.plat) fun (data : Bytes) => do
    let ro : Int := if data.length = 0 ∧ f.wasmType = FILETYPE_SOCKET_STREAM then 1 else 0
    scatter a2.toNat a1 data
    let ro := if (data.length : Int) < total then Py.or ro 1 else ro
    putU 4 a4 data.length
    putU 4 a5 ro
    return ERRNO_SUCCESS
/-- wasi.py:1562-1591 -/
def sockSend (os : Os) (a0 a1 a2 _a3 a4 : Int) : W Int := do
  if ← helpBadf a0 then return ERRNO_BADF
  if ← helpSock a0 then return ERRNO_NOTSOCK
  if ← helpPerm a0 RIGHTS_FD_WRITE then return ERRNO_NOTCAPABLE
  let _ ← mems
  let f ← file a0
  let k ← lift (sockKind os.c f)
  let s : Int ← sys os (.sockDup f.hostFd k)
  let data ← gather a2.toNat a1 []
  onErr (← attempt os (.sockSend s data)) (pipeErr os.plat) fun (size : Int) => do
    putU 4 a4 size
    return ERRNO_SUCCESS
/-- wasi.py:1593-1623 -/
def sockShutdown (os : Os) (a0 a1 : Int) : W Int := do
  if ← helpBadf a0 then return ERRNO_BADF
  if ← helpSock a0 then return ERRNO_NOTSOCK
  if ← helpPerm a0 RIGHTS_SOCK_SHUTDOWN then return ERRNO_NOTCAPABLE
  let f ← file a0
  let k ← lift (sockKind os.c f)
  let s : Int ← sys os (.sockDup f.hostFd k)
  if a1 = 1 ∨ a1 = 2 ∨ a1 = 3 then do
    let how := if a1 = 1 then os.c.shutRd else if a1 = 2 then os.c.shutWr else os.c.shutRdwr
    onErr (← attempt os (.sockShutdown s how)) (match os.plat with | .darwin => [(57, ERRNO_CONNABORTED)] | _ => [])
      fun _ => return ERRNO_SUCCESS
  else return ERRNO_INVAL

/-! ## The functions a guest can import, `bind` (wasi.py:503-557) -/

/-- One call of an imported function, with its arguments. -/
inductive Call where
  | argsGet (a0 a1 : Int) | argsSizesGet (a0 a1 : Int) | clockResGet (a0 a1 : Int) | clockTimeGet (a0 a1 a2 : Int)
  | environGet (a0 a1 : Int) | environSizesGet (a0 a1 : Int)
  | fdAdvise (a0 a1 a2 a3 : Int) | fdAllocate (a0 a1 a2 : Int) | fdClose (a0 : Int) | fdDatasync (a0 : Int)
  | fdFdstatGet (a0 a1 : Int) | fdFdstatSetFlags (a0 a1 : Int) | fdFdstatSetRights (a0 a1 a2 : Int)
  | fdFilestatGet (a0 a1 : Int) | fdFilestatSetSize (a0 a1 : Int) | fdFilestatSetTimes (a0 a1 a2 a3 : Int)
  | fdPread (a0 a1 a2 a3 a4 : Int) | fdPrestatDirName (a0 a1 a2 : Int) | fdPrestatGet (a0 a1 : Int)
  | fdPwrite (a0 a1 a2 a3 a4 : Int) | fdRead (a0 a1 a2 a3 : Int) | fdReaddir (a0 a1 a2 a3 a4 : Int)
  | fdRenumber (a0 a1 : Int) | fdSeek (a0 a1 a2 a3 : Int) | fdSync (a0 : Int) | fdTell (a0 a1 : Int)
  | fdWrite (a0 a1 a2 a3 : Int)
  | pathCreateDirectory (a0 a1 a2 : Int) | pathFilestatGet (a0 a1 a2 a3 a4 : Int)
  | pathFilestatSetTimes (a0 a1 a2 a3 a4 a5 a6 : Int) | pathLink (a0 a1 a2 a3 a4 a5 a6 : Int)
  | pathOpen (a0 a1 a2 a3 a4 a5 a6 a7 a8 : Int) | pathReadlink (a0 a1 a2 a3 a4 a5 : Int)
  | pathRemoveDirectory (a0 a1 a2 : Int) | pathRename (a0 a1 a2 a3 a4 a5 : Int) | pathSymlink (a0 a1 a2 a3 a4 : Int)
  | pathUnlinkFile (a0 a1 a2 : Int)
  | pollOneoff (a0 a1 a2 a3 : Int) | procExit (a0 : Int) | procRaise (a0 : Int) | randomGet (a0 a1 : Int) | schedYield
  | sockAccept (a0 a1 a2 : Int) | sockRecv (a0 a1 a2 a3 a4 a5 : Int) | sockSend (a0 a1 a2 a3 a4 : Int)
  | sockShutdown (a0 a1 : Int)
  deriving DecidableEq, Repr

/-- The table of wasi.py:506-553. -/
def Call.run (os : Os) : Call → W Int
  | .argsGet a0 a1 => Wasi.argsGet a0 a1
  | .argsSizesGet a0 a1 => Wasi.argsSizesGet a0 a1
  | .clockResGet a0 a1 => Wasi.clockResGet a0 a1
  | .clockTimeGet a0 a1 a2 => Wasi.clockTimeGet os a0 a1 a2
  | .environGet a0 a1 => Wasi.environGet a0 a1
  | .environSizesGet a0 a1 => Wasi.environSizesGet a0 a1
  | .fdAdvise a0 a1 a2 a3 => Wasi.fdAdvise a0 a1 a2 a3
  | .fdAllocate a0 a1 a2 => Wasi.fdAllocate os a0 a1 a2
  | .fdClose a0 => Wasi.fdClose os a0
  | .fdDatasync a0 => Wasi.fdDatasync a0
  | .fdFdstatGet a0 a1 => Wasi.fdFdstatGet a0 a1
  | .fdFdstatSetFlags a0 a1 => Wasi.fdFdstatSetFlags os a0 a1
  | .fdFdstatSetRights a0 a1 a2 => Wasi.fdFdstatSetRights a0 a1 a2
  | .fdFilestatGet a0 a1 => Wasi.fdFilestatGet os a0 a1
  | .fdFilestatSetSize a0 a1 => Wasi.fdFilestatSetSize os a0 a1
  | .fdFilestatSetTimes a0 a1 a2 a3 => Wasi.fdFilestatSetTimes os a0 a1 a2 a3
  | .fdPread a0 a1 a2 a3 a4 => Wasi.fdPread os a0 a1 a2 a3 a4
  | .fdPrestatDirName a0 a1 a2 => Wasi.fdPrestatDirName a0 a1 a2
  | .fdPrestatGet a0 a1 => Wasi.fdPrestatGet a0 a1
  | .fdPwrite a0 a1 a2 a3 a4 => Wasi.fdPwrite os a0 a1 a2 a3 a4
  | .fdRead a0 a1 a2 a3 => Wasi.fdRead os a0 a1 a2 a3
  | .fdReaddir a0 a1 a2 a3 a4 => Wasi.fdReaddir os a0 a1 a2 a3 a4
  | .fdRenumber a0 a1 => Wasi.fdRenumber os a0 a1
  | .fdSeek a0 a1 a2 a3 => Wasi.fdSeek os a0 a1 a2 a3
  | .fdSync a0 => Wasi.fdSync os a0
  | .fdTell a0 a1 => Wasi.fdTell os a0 a1
  | .fdWrite a0 a1 a2 a3 => Wasi.fdWrite os a0 a1 a2 a3
  | .pathCreateDirectory a0 a1 a2 => Wasi.pathCreateDirectory os a0 a1 a2
  | .pathFilestatGet a0 a1 a2 a3 a4 => Wasi.pathFilestatGet os a0 a1 a2 a3 a4
  | .pathFilestatSetTimes a0 a1 a2 a3 a4 a5 a6 => Wasi.pathFilestatSetTimes os a0 a1 a2 a3 a4 a5 a6
  | .pathLink a0 a1 a2 a3 a4 a5 a6 => Wasi.pathLink os a0 a1 a2 a3 a4 a5 a6
  | .pathOpen a0 a1 a2 a3 a4 a5 a6 a7 a8 => Wasi.pathOpen os a0 a1 a2 a3 a4 a5 a6 a7 a8
  | .pathReadlink a0 a1 a2 a3 a4 a5 => Wasi.pathReadlink os a0 a1 a2 a3 a4 a5
  | .pathRemoveDirectory a0 a1 a2 => Wasi.pathRemoveDirectory os a0 a1 a2
  | .pathRename a0 a1 a2 a3 a4 a5 => Wasi.pathRename os a0 a1 a2 a3 a4 a5
  | .pathSymlink a0 a1 a2 a3 a4 => Wasi.pathSymlink os a0 a1 a2 a3 a4
  | .pathUnlinkFile a0 a1 a2 => Wasi.pathUnlinkFile os a0 a1 a2
  | .pollOneoff a0 a1 a2 a3 => Wasi.pollOneoff os a0 a1 a2 a3
  | .procExit a0 => Wasi.procExit a0
  | .procRaise a0 => Wasi.procRaise a0
  | .randomGet a0 a1 => Wasi.randomGet os a0 a1
  | .schedYield => Wasi.schedYield
  | .sockAccept a0 a1 a2 => Wasi.sockAccept os a0 a1 a2
  | .sockRecv a0 a1 a2 a3 a4 a5 => Wasi.sockRecv os a0 a1 a2 a3 a4 a5
  | .sockSend a0 a1 a2 a3 a4 => Wasi.sockSend os a0 a1 a2 a3 a4
  | .sockShutdown a0 a1 => Wasi.sockShutdown os a0 a1

/-! ## Construction and `main` -/

/-- A Python `dict` built from pairs: a later value replaces an earlier one in place, wasi.py:413. -/
def dictSet (l : List (Str × Str)) (k v : Str) : List (Str × Str) :=
  if l.any (fun p => p.1 = k) then l.map (fun p => if p.1 = k then (k, v) else p) else l ++ [(k, v)]
/-- `{os.path.normpath(k): os.path.normpath(v) for k, v in dirs.items()}` -/
def normDirs (dirs : List (Str × Str)) : List (Str × Str) :=
  dirs.foldl (fun l p => dictSet l (Py.normpath p.1) (Py.normpath p.2)) []
/-- `sorted(d.items())`: the keys of a `dict` differ, so values are never compared. -/
def sortPairs (l : List (Str × Str)) : List (Str × Str) := l.mergeSort fun a b => strLe a.1 b.1

/-- The three standard streams, wasi.py:416-456. `names` are `sys.stdin.name` etc., `fds` their `fileno()`. -/
def stdio (fds : Int × Int × Int) (names : Str × Str × Str) : List File :=
  [⟨fds.1, 0, names.1, true, none, 0, 0, names.1, RIGHTS_POLL_FD_READWRITE + RIGHTS_FD_READ, 0, true,
      FILETYPE_CHARACTER_DEVICE⟩,
   ⟨fds.2.1, 0, names.2.1, true, none, 1, 0, names.2.1, RIGHTS_POLL_FD_READWRITE + RIGHTS_FD_WRITE, 0, true,
      FILETYPE_CHARACTER_DEVICE⟩,
   ⟨fds.2.2, 0, names.2.2, true, none, 2, 0, names.2.2, RIGHTS_POLL_FD_READWRITE + RIGHTS_FD_WRITE, 0, true,
      FILETYPE_CHARACTER_DEVICE⟩]

/-- One turn of the loop of wasi.py:457-475. -/
def preopen (os : Os) (k v : Str) : W Unit := do
  let cwd : Str ← sys os .getcwd
  let v := Py.abspath cwd (Py.normpath v)
  let h : Int ← sys os (.open v (Py.or os.c.oRdonly os.c.oDirectory) 0o777 none)
  let n := (← get).fd.length
  appendFile ⟨h, Py.or os.c.oRdonly os.c.oDirectory, v, true, none, n, 0, Py.normpath k,
    0b00000111101111111111111000000000, 0b00001111111111111111111111111111, true, FILETYPE_DIRECTORY⟩
/-- The loop of wasi.py:457-475. `os.path.abspath` asks for the working directory only for a relative path; here it is
always asked for (an extra read-only call). -/
def preopens (os : Os) : List (Str × Str) → W Unit
  | [] => pure ()
  | (k, v) :: l => do
    preopen os k v
    preopens os l

/-- `Preview1.__init__`, wasi.py:411-479. `envs` are sorted by key; the keys of a `dict` differ. The embedder may then
set the `pipe` of a standard stream (wasi.py:414). -/
def init (os : Os) (args : List Str) (dirs envs : List (Str × Str)) (fds : Int × Int × Int) (names : Str × Str × Str) :
    Except Err Unit × St :=
  let s : St :=
    { args, ndirs := (normDirs dirs).length, envs := (sortPairs envs).map fun p => Py.joinEq p.1 p.2,
      fd := stdio fds names, mem := none, log := [] }
  match preopens os (sortPairs (normDirs dirs)) s with
  | .ok a s => (.ok a, s)
  | .error e s => (.error e, s)

/-- wasi.py:1036-1038: rewind the pipes of stdout and stderr. -/
def rewind (os : Os) : List File → W Unit
  | [] => pure ()
  | f :: l => do
    match f.pipe with
    | some p => sys os (.pipeSeek p)
    | none => pure ()
    rewind os l
/-- wasi.py:1039-1044: the descriptors from 3 on; `i` is the index of the first of `n` remaining entries. -/
def closeAll (os : Os) : Nat → Nat → W Unit
  | 0, _ => pure ()
  | n + 1, i => do
    let e ← file i
    if e.wasmType = FILETYPE_CHARACTER_DEVICE then pure ()
    else if e.hostOpen then do
      sys os (.close e.hostFd)
      setFile i { e with hostOpen := false }
    else pure ()
    closeAll os n (i + 1)
/-- The `finally` clause of `main`, wasi.py:1035-1044. -/
def finish (os : Os) : W Unit := do
  rewind os (Py.slice (← get).fd 1 3)
  let n := (← get).fd.length
  closeAll os (n - 3) 3

end Pywasm.Wasi
