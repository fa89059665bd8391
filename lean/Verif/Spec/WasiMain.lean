import Verif.Model.WasiHost
import Verif.Spec.Own
import Verif.Spec.Wasi

/-!
# Vocabulary for statements about `Preview1.bind` and `Preview1.main`
-/

namespace Pywasm

/-- The exceptions with which `proc_exit` ends the program. -/
def Err.quits : Err → Bool
  | .exit _ | .sysExit _ => true
  | _ => false

namespace WasiSpec

/-- An operating system whose calls do not raise the exceptions of `proc_exit`. -/
def Proper (os : Wasi.Os) : Prop := ∀ log x e, os.run log x = .error e → e.quits = false

/-- The name WASI gives the function of a call. -/
def callName : Wasi.Call → String
  | .argsGet .. => "args_get"
  | .argsSizesGet .. => "args_sizes_get"
  | .clockResGet .. => "clock_res_get"
  | .clockTimeGet .. => "clock_time_get"
  | .environGet .. => "environ_get"
  | .environSizesGet .. => "environ_sizes_get"
  | .fdAdvise .. => "fd_advise"
  | .fdAllocate .. => "fd_allocate"
  | .fdClose .. => "fd_close"
  | .fdDatasync .. => "fd_datasync"
  | .fdFdstatGet .. => "fd_fdstat_get"
  | .fdFdstatSetFlags .. => "fd_fdstat_set_flags"
  | .fdFdstatSetRights .. => "fd_fdstat_set_rights"
  | .fdFilestatGet .. => "fd_filestat_get"
  | .fdFilestatSetSize .. => "fd_filestat_set_size"
  | .fdFilestatSetTimes .. => "fd_filestat_set_times"
  | .fdPread .. => "fd_pread"
  | .fdPrestatDirName .. => "fd_prestat_dir_name"
  | .fdPrestatGet .. => "fd_prestat_get"
  | .fdPwrite .. => "fd_pwrite"
  | .fdRead .. => "fd_read"
  | .fdReaddir .. => "fd_readdir"
  | .fdRenumber .. => "fd_renumber"
  | .fdSeek .. => "fd_seek"
  | .fdSync .. => "fd_sync"
  | .fdTell .. => "fd_tell"
  | .fdWrite .. => "fd_write"
  | .pathCreateDirectory .. => "path_create_directory"
  | .pathFilestatGet .. => "path_filestat_get"
  | .pathFilestatSetTimes .. => "path_filestat_set_times"
  | .pathLink .. => "path_link"
  | .pathOpen .. => "path_open"
  | .pathReadlink .. => "path_readlink"
  | .pathRemoveDirectory .. => "path_remove_directory"
  | .pathRename .. => "path_rename"
  | .pathSymlink .. => "path_symlink"
  | .pathUnlinkFile .. => "path_unlink_file"
  | .pollOneoff .. => "poll_oneoff"
  | .procExit .. => "proc_exit"
  | .procRaise .. => "proc_raise"
  | .randomGet .. => "random_get"
  | .schedYield => "sched_yield"
  | .sockAccept .. => "sock_accept"
  | .sockRecv .. => "sock_recv"
  | .sockSend .. => "sock_send"
  | .sockShutdown .. => "sock_shutdown"

/-- Its arguments. -/
def callArgs : Wasi.Call → List Int
  | .argsGet a0 a1 => [a0, a1]
  | .argsSizesGet a0 a1 => [a0, a1]
  | .clockResGet a0 a1 => [a0, a1]
  | .clockTimeGet a0 a1 a2 => [a0, a1, a2]
  | .environGet a0 a1 => [a0, a1]
  | .environSizesGet a0 a1 => [a0, a1]
  | .fdAdvise a0 a1 a2 a3 => [a0, a1, a2, a3]
  | .fdAllocate a0 a1 a2 => [a0, a1, a2]
  | .fdClose a0 => [a0]
  | .fdDatasync a0 => [a0]
  | .fdFdstatGet a0 a1 => [a0, a1]
  | .fdFdstatSetFlags a0 a1 => [a0, a1]
  | .fdFdstatSetRights a0 a1 a2 => [a0, a1, a2]
  | .fdFilestatGet a0 a1 => [a0, a1]
  | .fdFilestatSetSize a0 a1 => [a0, a1]
  | .fdFilestatSetTimes a0 a1 a2 a3 => [a0, a1, a2, a3]
  | .fdPread a0 a1 a2 a3 a4 => [a0, a1, a2, a3, a4]
  | .fdPrestatDirName a0 a1 a2 => [a0, a1, a2]
  | .fdPrestatGet a0 a1 => [a0, a1]
  | .fdPwrite a0 a1 a2 a3 a4 => [a0, a1, a2, a3, a4]
  | .fdRead a0 a1 a2 a3 => [a0, a1, a2, a3]
  | .fdReaddir a0 a1 a2 a3 a4 => [a0, a1, a2, a3, a4]
  | .fdRenumber a0 a1 => [a0, a1]
  | .fdSeek a0 a1 a2 a3 => [a0, a1, a2, a3]
  | .fdSync a0 => [a0]
  | .fdTell a0 a1 => [a0, a1]
  | .fdWrite a0 a1 a2 a3 => [a0, a1, a2, a3]
  | .pathCreateDirectory a0 a1 a2 => [a0, a1, a2]
  | .pathFilestatGet a0 a1 a2 a3 a4 => [a0, a1, a2, a3, a4]
  | .pathFilestatSetTimes a0 a1 a2 a3 a4 a5 a6 => [a0, a1, a2, a3, a4, a5, a6]
  | .pathLink a0 a1 a2 a3 a4 a5 a6 => [a0, a1, a2, a3, a4, a5, a6]
  | .pathOpen a0 a1 a2 a3 a4 a5 a6 a7 a8 => [a0, a1, a2, a3, a4, a5, a6, a7, a8]
  | .pathReadlink a0 a1 a2 a3 a4 a5 => [a0, a1, a2, a3, a4, a5]
  | .pathRemoveDirectory a0 a1 a2 => [a0, a1, a2]
  | .pathRename a0 a1 a2 a3 a4 a5 => [a0, a1, a2, a3, a4, a5]
  | .pathSymlink a0 a1 a2 a3 a4 => [a0, a1, a2, a3, a4]
  | .pathUnlinkFile a0 a1 a2 => [a0, a1, a2]
  | .pollOneoff a0 a1 a2 a3 => [a0, a1, a2, a3]
  | .procExit a0 => [a0]
  | .procRaise a0 => [a0]
  | .randomGet a0 a1 => [a0, a1]
  | .schedYield => []
  | .sockAccept a0 a1 a2 => [a0, a1, a2]
  | .sockRecv a0 a1 a2 a3 a4 a5 => [a0, a1, a2, a3, a4, a5]
  | .sockSend a0 a1 a2 a3 a4 => [a0, a1, a2, a3, a4]
  | .sockShutdown a0 a1 => [a0, a1]

/-- The types of the parameters in the definition of WASI (`wasi_snapshot_preview1.witx`): handles, enumerations, flags of at most 32 bits,
32-bit numbers and pointers (`word`); 64-bit numbers and flags, i.e. file sizes and offsets, timestamps, rights and directory
cookies (`long`); lists and strings, passed as a pointer and a length (`slice`). -/
inductive Witx | word | long | slice
/-- The WebAssembly parameters such a parameter stands for. -/
def Witx.lower : Witx → List ValType
  | .word => [.i32]
  | .long => [.i64]
  | .slice => [.i32, .i32]

/-- The parameters of a function and the number of results besides the error code, each of which is stored through a pointer. -/
def callSig : Wasi.Call → List Witx × Nat
  | .argsGet .. => ([.word, .word], 0)
  | .argsSizesGet .. => ([], 2)
  | .clockResGet .. => ([.word], 1)
  | .clockTimeGet .. => ([.word, .long], 1)
  | .environGet .. => ([.word, .word], 0)
  | .environSizesGet .. => ([], 2)
  | .fdAdvise .. => ([.word, .long, .long, .word], 0)
  | .fdAllocate .. => ([.word, .long, .long], 0)
  | .fdClose .. => ([.word], 0)
  | .fdDatasync .. => ([.word], 0)
  | .fdFdstatGet .. => ([.word], 1)
  | .fdFdstatSetFlags .. => ([.word, .word], 0)
  | .fdFdstatSetRights .. => ([.word, .long, .long], 0)
  | .fdFilestatGet .. => ([.word], 1)
  | .fdFilestatSetSize .. => ([.word, .long], 0)
  | .fdFilestatSetTimes .. => ([.word, .long, .long, .word], 0)
  | .fdPread .. => ([.word, .slice, .long], 1)
  | .fdPrestatDirName .. => ([.word, .word, .word], 0)
  | .fdPrestatGet .. => ([.word], 1)
  | .fdPwrite .. => ([.word, .slice, .long], 1)
  | .fdRead .. => ([.word, .slice], 1)
  | .fdReaddir .. => ([.word, .word, .word, .long], 1)
  | .fdRenumber .. => ([.word, .word], 0)
  | .fdSeek .. => ([.word, .long, .word], 1)
  | .fdSync .. => ([.word], 0)
  | .fdTell .. => ([.word], 1)
  | .fdWrite .. => ([.word, .slice], 1)
  | .pathCreateDirectory .. => ([.word, .slice], 0)
  | .pathFilestatGet .. => ([.word, .word, .slice], 1)
  | .pathFilestatSetTimes .. => ([.word, .word, .slice, .long, .long, .word], 0)
  | .pathLink .. => ([.word, .word, .slice, .word, .slice], 0)
  | .pathOpen .. => ([.word, .word, .slice, .word, .long, .long, .word], 1)
  | .pathReadlink .. => ([.word, .slice, .word, .word], 1)
  | .pathRemoveDirectory .. => ([.word, .slice], 0)
  | .pathRename .. => ([.word, .slice, .word, .slice], 0)
  | .pathSymlink .. => ([.slice, .word, .slice], 0)
  | .pathUnlinkFile .. => ([.word, .slice], 0)
  | .pollOneoff .. => ([.word, .word, .word], 1)
  | .procExit .. => ([.word], 0)
  | .procRaise .. => ([.word], 0)
  | .randomGet .. => ([.word, .word], 0)
  | .schedYield => ([], 0)
  | .sockAccept .. => ([.word, .word], 1)
  | .sockRecv .. => ([.word, .slice, .word], 2)
  | .sockSend .. => ([.word, .slice, .word], 1)
  | .sockShutdown .. => ([.word, .word], 0)
/-- The type with which programs import the function: every function but `proc_exit` returns an error code. -/
def callType (c : Wasi.Call) : FuncType where
  args := (callSig c).1.flatMap Witx.lower ++ List.replicate (callSig c).2 .i32
  rets := match c with | .procExit _ => [] | _ => [.i32]

/-- The next instruction of the machine is a call of that WASI function with those arguments. -/
def CallsWasi (m : Machine) (c : Wasi.Call) : Prop :=
  ∃ (k : Nat) (t : FuncType), Wasi.table[k]? = some (callName c, t) ∧ Spec.CallsHost m k ((callArgs c).map .int)

/-- The embedder's own host functions leave the `Preview1` object alone and do not raise the exceptions of
`proc_exit`. -/
structure Apart (H : Host) : Prop where
  ok : ∀ c mod xs s r s', H c mod xs s = .ok r s' → s'.wasi = s.wasi
  err : ∀ c mod xs s e s', H c mod xs s = .error e s' → s'.wasi = s.wasi ∧ e.quits = false

/-- The host closes descriptors and rewinds pipes without errors. -/
def ClosesFine (os : Wasi.Os) : Prop :=
  ∀ log, (∀ h, os.run log (.close h) = .ok ()) ∧ ∀ p, os.run log (.pipeSeek p) = .ok ()

/-- A machine whose `Preview1` object was just made by `Preview1(args, dirs, envs)`. -/
def Made (os : Wasi.Os) (m : Machine) : Prop :=
  ∃ args dirs envs fds names s, Wasi.init os args dirs envs fds names = (.ok (), s) ∧ m.store.wasi = s.world

end WasiSpec
end Pywasm
