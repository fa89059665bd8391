import Verif.Model.Wasi
import Verif.Model.Instance

/-!
# WASI as host functions: `Preview1.bind` and `Preview1.main`

/repo/pywasm/wasi.py:503-557 and 1021-1044
-/

namespace Pywasm.Wasi
open M

/-- The table of `bind`, wasi.py:506-553: names and types, in order. -/
def table : List (String × FuncType) :=
  [("args_get", ⟨[.i32, .i32], [.i32]⟩),
   ("args_sizes_get", ⟨[.i32, .i32], [.i32]⟩),
   ("clock_res_get", ⟨[.i32, .i32], [.i32]⟩),
   ("clock_time_get", ⟨[.i32, .i64, .i32], [.i32]⟩),
   ("environ_get", ⟨[.i32, .i32], [.i32]⟩),
   ("environ_sizes_get", ⟨[.i32, .i32], [.i32]⟩),
   ("fd_advise", ⟨[.i32, .i64, .i64, .i32], [.i32]⟩),
   ("fd_allocate", ⟨[.i32, .i64, .i64], [.i32]⟩),
   ("fd_close", ⟨[.i32], [.i32]⟩),
   ("fd_datasync", ⟨[.i32], [.i32]⟩),
   ("fd_fdstat_get", ⟨[.i32, .i32], [.i32]⟩),
   ("fd_fdstat_set_flags", ⟨[.i32, .i32], [.i32]⟩),
   ("fd_fdstat_set_rights", ⟨[.i32, .i64, .i64], [.i32]⟩),
   ("fd_filestat_get", ⟨[.i32, .i32], [.i32]⟩),
   ("fd_filestat_set_size", ⟨[.i32, .i64], [.i32]⟩),
   ("fd_filestat_set_times", ⟨[.i32, .i64, .i64, .i32], [.i32]⟩),
   ("fd_pread", ⟨[.i32, .i32, .i32, .i64, .i32], [.i32]⟩),
   ("fd_prestat_dir_name", ⟨[.i32, .i32, .i32], [.i32]⟩),
   ("fd_prestat_get", ⟨[.i32, .i32], [.i32]⟩),
   ("fd_pwrite", ⟨[.i32, .i32, .i32, .i64, .i32], [.i32]⟩),
   ("fd_read", ⟨[.i32, .i32, .i32, .i32], [.i32]⟩),
   ("fd_readdir", ⟨[.i32, .i32, .i32, .i64, .i32], [.i32]⟩),
   ("fd_renumber", ⟨[.i32, .i32], [.i32]⟩),
   ("fd_seek", ⟨[.i32, .i64, .i32, .i32], [.i32]⟩),
   ("fd_sync", ⟨[.i32], [.i32]⟩),
   ("fd_tell", ⟨[.i32, .i32], [.i32]⟩),
   ("fd_write", ⟨[.i32, .i32, .i32, .i32], [.i32]⟩),
   ("path_create_directory", ⟨[.i32, .i32, .i32], [.i32]⟩),
   ("path_filestat_get", ⟨[.i32, .i32, .i32, .i32, .i32], [.i32]⟩),
   ("path_filestat_set_times", ⟨[.i32, .i32, .i32, .i32, .i64, .i64, .i32], [.i32]⟩),
   ("path_link", ⟨[.i32, .i32, .i32, .i32, .i32, .i32, .i32], [.i32]⟩),
   ("path_open", ⟨[.i32, .i32, .i32, .i32, .i32, .i64, .i64, .i32, .i32], [.i32]⟩),
   ("path_readlink", ⟨[.i32, .i32, .i32, .i32, .i32, .i32], [.i32]⟩),
   ("path_remove_directory", ⟨[.i32, .i32, .i32], [.i32]⟩),
   ("path_rename", ⟨[.i32, .i32, .i32, .i32, .i32, .i32], [.i32]⟩),
   ("path_symlink", ⟨[.i32, .i32, .i32, .i32, .i32], [.i32]⟩),
   ("path_unlink_file", ⟨[.i32, .i32, .i32], [.i32]⟩),
   ("poll_oneoff", ⟨[.i32, .i32, .i32, .i32], [.i32]⟩),
   ("proc_exit", ⟨[.i32], []⟩),
   ("proc_raise", ⟨[.i32], [.i32]⟩),
   ("random_get", ⟨[.i32, .i32], [.i32]⟩),
   ("sched_yield", ⟨[], [.i32]⟩),
   ("sock_accept", ⟨[.i32, .i32, .i32], [.i32]⟩),
   ("sock_recv", ⟨[.i32, .i32, .i32, .i32, .i32, .i32], [.i32]⟩),
   ("sock_send", ⟨[.i32, .i32, .i32, .i32, .i32], [.i32]⟩),
   ("sock_shutdown", ⟨[.i32, .i32], [.i32]⟩)]

/-- Call a method with `args[0]`, `args[1]`, …; `none` when there are not as many arguments as it takes, which
`evaluate_call` excludes (core.py:1750-1752). -/
def take0 (go : Call) : List Int → Option Call
  | [] => some go
  | _ => none
/-- wasi.py:506-557 -/
def take1 (go : Int → Call) : List Int → Option Call
  | [a] => some (go a)
  | _ => none
/-- wasi.py:506-557 -/
def take2 (go : Int → Int → Call) : List Int → Option Call
  | [a, b] => some (go a b)
  | _ => none
/-- wasi.py:506-557 -/
def take3 (go : Int → Int → Int → Call) : List Int → Option Call
  | [a, b, c] => some (go a b c)
  | _ => none
/-- wasi.py:506-557 -/
def take4 (go : Int → Int → Int → Int → Call) : List Int → Option Call
  | [a, b, c, d] => some (go a b c d)
  | _ => none
/-- wasi.py:506-557 -/
def take5 (go : Int → Int → Int → Int → Int → Call) : List Int → Option Call
  | [a, b, c, d, e] => some (go a b c d e)
  | _ => none
/-- wasi.py:506-557 -/
def take6 (go : Int → Int → Int → Int → Int → Int → Call) : List Int → Option Call
  | [a, b, c, d, e, f] => some (go a b c d e f)
  | _ => none
/-- wasi.py:506-557 -/
def take7 (go : Int → Int → Int → Int → Int → Int → Int → Call) : List Int → Option Call
  | [a, b, c, d, e, f, g] => some (go a b c d e f g)
  | _ => none
/-- wasi.py:506-557 -/
def take9 (go : Int → Int → Int → Int → Int → Int → Int → Int → Int → Call) : List Int → Option Call
  | [a, b, c, d, e, f, g, h, i] => some (go a b c d e f g h i)
  | _ => none

/-- The last column of that table: the method of each row. -/
def methods : List (List Int → Option Call) :=
  [take2 .argsGet, take2 .argsSizesGet, take2 .clockResGet, take3 .clockTimeGet, take2 .environGet,
   take2 .environSizesGet, take4 .fdAdvise, take3 .fdAllocate, take1 .fdClose, take1 .fdDatasync,
   take2 .fdFdstatGet, take2 .fdFdstatSetFlags, take3 .fdFdstatSetRights, take2 .fdFilestatGet,
   take2 .fdFilestatSetSize, take4 .fdFilestatSetTimes, take5 .fdPread, take3 .fdPrestatDirName,
   take2 .fdPrestatGet, take5 .fdPwrite, take4 .fdRead, take5 .fdReaddir, take2 .fdRenumber, take4 .fdSeek,
   take1 .fdSync, take2 .fdTell, take4 .fdWrite, take3 .pathCreateDirectory, take5 .pathFilestatGet,
   take7 .pathFilestatSetTimes, take7 .pathLink, take9 .pathOpen, take6 .pathReadlink, take3 .pathRemoveDirectory,
   take6 .pathRename, take5 .pathSymlink, take3 .pathUnlinkFile, take4 .pollOneoff, take1 .procExit,
   take1 .procRaise, take2 .randomGet, take0 .schedYield, take3 .sockAccept, take6 .sockRecv, take5 .sockSend,
   take2 .sockShutdown]
/-- The method of row `k` applied to arguments. -/
def callOf (k : Nat) (xs : List Int) : Option Call := methods[k]?.bind fun f => f xs

/-- The `Preview1` object and the memory a call works on, as the state of `Model/Wasi.lean`. -/
def World.st (w : World) (mem : Option MemInst) : St := ⟨w.args, w.ndirs, w.envs, w.returnOnExit, w.fd, mem, w.log⟩
/-- … and back. -/
def St.world (s : St) : World := ⟨s.args, s.ndirs, s.envs, s.returnOnExit, s.fd, s.log⟩

/-- `m.store.mems[m.stack.frame[-1].module.mems[0]]`, if there is one. -/
def callerMem (mod : Option ModuleInst) (s : Store) : Option MemInst :=
  mod.bind fun mod => mod.mems[0]?.bind fun a => s.mems[a]?
/-- What a call leaves: its `Preview1` object and the memory of its caller, which it changed in place. -/
def putBack (mod : Option ModuleInst) (s : Store) (t : St) : Store :=
  { s with
    wasi := t.world
    mems := match mod.bind fun mod => mod.mems[0]?, t.mem with
      | some a, some mem => s.mems.set a mem
      | _, _ => s.mems }

/-- The host values of integer arguments (all parameters of the table have integer types). -/
def intArgs : List HVal → Option (List Int)
  | [] => some []
  | .int n :: l => (intArgs l).map (n :: ·)
  | _ :: _ => none

/-- Run one WASI function for the module `mod` on the store. `proc_exit` returns no value; it never returns normally. -/
def runCall (os : Os) (mod : Option ModuleInst) (c : Call) : EStateM Err Store (List HVal) := fun s =>
  match c.run os (s.wasi.st (callerMem mod s)) with
  | .ok r t => .ok [.int r] (putBack mod s t)
  | .error e t => .error e (putBack mod s t)

/-- The host functions of an embedder that uses WASI: codes below 46 are the rows of the table of `bind`, the others are
the embedder's own functions `H`. -/
def host (os : Os) (H : Host) : Host := fun c mod args =>
  if c < 46 then
    match (intArgs args).bind (callOf c) with
    | some call => runCall os mod call
    | none => throw .index
  else H (c - 46) mod args

/-- The loop of `bind`, wasi.py:555-557. -/
def bindRows : List (String × FuncType) → Nat → M (List (String × Extern))
  | [], _ => return []
  | (name, type) :: l, i => do
    let a ← allocateFuncHost type i
    return (name, .func a) :: (← bindRows l (i + 1))
/-- `d[k] = v` on a dictionary given as an association list. -/
def assocSet {α} (d : List (String × α)) (k : String) (v : α) : List (String × α) :=
  if d.any (fun p => p.1 = k) then d.map (fun p => if p.1 = k then (k, v) else p) else d ++ [(k, v)]
/-- `Preview1.bind`, wasi.py:503-557: `runtime.imports` afterwards. -/
def bind (imports : Imports) : M Imports := do
  let rows ← bindRows table 0
  return assocSet imports "wasi_snapshot_preview1" rows

/-- `self.fd` and the host history are part of the store's private state: run something on them alone. -/
def onWorld {α} (x : W α) : M α := fun m =>
  match x (m.store.wasi.st none) with
  | .ok a t => .ok a { m with store := { m.store with wasi := t.world } }
  | .error e t => .error e { m with store := { m.store with wasi := t.world } }

/-- wasi.py:1027-1029: the three `clear()` -/
def clearStacks (m : Machine) : Machine := { m with frame := [], label := [], value := [] }

/-- The `try`, `except` and `else` clauses of `main`, wasi.py:1024-1034. `Err.exit n` is `Exception(SystemExit, n)`;
`Err.sysExit n` is `SystemExit(n)`, which is not an `Exception` and passes by. -/
def start (H : Host) (N : Nat) (mod : ModuleInst) : M Int := fun m =>
  match Runtime.invocate H N mod "_start" [] m with
  | .ok _ m => .ok 0 m
  | .error (.sysExit n) m => .error (.sysExit n) m
  | .error (.exit n) m => .ok n (clearStacks m)
  | .error e m => .error e (clearStacks m)

/-- `Preview1.main`, wasi.py:1021-1044, of the object `store.wasi`. An exception raised by the `finally` clause replaces
the outcome. -/
def main (os : Os) (H : Host) (N : Nat) (mod : ModuleInst) : M Int := fun m =>
  match start (host os H) N mod m with
  | .ok n m => (do onWorld (finish os); return n : M Int) m
  | .error e m => (do onWorld (finish os); throw e : M Int) m

end Pywasm.Wasi
