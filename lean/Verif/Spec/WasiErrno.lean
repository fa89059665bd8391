import Verif.Model.Wasi

/-!
# Specification: the error numbers of WASI preview 1, and which of them each call can return
-/

namespace Pywasm.WasiSpec
open Wasi (Call)

/-- The enumeration `errno` of `wasi_snapshot_preview1`, in its order. -/
inductive Errno where
  | success | toobig | acces | addrinuse | addrnotavail | afnosupport | again | already | badf | badmsg | busy
  | canceled | child | connaborted | connrefused | connreset | deadlk | destaddrreq | dom | dquot | exist | fault
  | fbig | hostunreach | idrm | ilseq | inprogress | intr | inval | io | isconn | isdir | loop | mfile | mlink
  | msgsize | multihop | nametoolong | netdown | netreset | netunreach | nfile | nobufs | nodev | noent | noexec
  | nolck | nolink | nomem | nomsg | noprotoopt | nospc | nosys | notconn | notdir | notempty | notrecoverable
  | notsock | notsup | notty | nxio | overflow | ownerdead | perm | pipe | proto | protonosupport | prototype | range
  | rofs | spipe | srch | stale | timedout | txtbsy | xdev | notcapable
  deriving DecidableEq, Repr

/-- The number of an error: its place in the enumeration. -/
def Errno.number (e : Errno) : Int := e.ctorIdx

/-- The errors that each call can report (it can also raise an exception in the embedder). -/
def errorsOf : Call → List Errno
  | .argsGet .. | .argsSizesGet .. | .environGet .. | .environSizesGet .. | .clockResGet .. | .clockTimeGet ..
  | .randomGet .. | .schedYield => [.success]
  | .procExit .. => []
  | .procRaise .. => [.success, .inval]
  | .fdAdvise .. | .fdDatasync .. | .fdFdstatSetRights .. | .fdFilestatGet .. | .fdReaddir .. =>
    [.success, .badf, .notcapable]
  | .fdAllocate .. | .fdFilestatSetSize .. | .fdPread .. | .fdPwrite .. | .fdRead .. | .fdWrite .. | .fdSync ..
  | .fdTell .. => [.success, .badf, .isdir, .notcapable]
  | .fdSeek .. => [.success, .badf, .isdir, .notcapable, .inval]
  | .fdClose .. | .fdFdstatGet .. | .fdRenumber .. | .fdPrestatGet .. => [.success, .badf]
  | .fdPrestatDirName .. => [.success, .badf, .nametoolong]
  | .fdFdstatSetFlags .. | .fdFilestatSetTimes .. => [.success, .badf, .notcapable, .inval]
  | .pathCreateDirectory .. => [.success, .badf, .notcapable, .perm, .exist]
  | .pathFilestatGet .. | .pathReadlink .. => [.success, .badf, .notcapable, .perm, .noent]
  | .pathFilestatSetTimes .. => [.success, .badf, .notcapable, .perm, .noent, .inval]
  | .pathLink .. => [.success, .badf, .notcapable, .perm, .noent, .exist]
  | .pathOpen .. => [.success, .badf, .notcapable, .perm, .noent, .exist, .isdir, .notdir, .loop, .ilseq]
  | .pathRemoveDirectory .. => [.success, .badf, .notcapable, .perm, .notdir, .notempty]
  | .pathRename .. => [.success, .badf, .notcapable, .perm, .noent, .exist, .isdir, .notdir, .notempty]
  | .pathSymlink .. => [.success, .badf, .notcapable, .perm, .noent, .exist, .notdir]
  | .pathUnlinkFile .. => [.success, .badf, .notcapable, .perm, .isdir, .notdir]
  | .pollOneoff .. => [.success, .badf, .notcapable]
  | .sockAccept .. => [.badf, .notsock, .notcapable]
  | .sockRecv .. | .sockSend .. => [.success, .badf, .notsock, .notcapable, .pipe]
  | .sockShutdown .. => [.success, .badf, .notsock, .notcapable, .connaborted, .inval]

end Pywasm.WasiSpec
