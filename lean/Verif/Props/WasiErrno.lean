import Verif.Lemmas.WasiErrno
import Verif.Model.WasiHost
import Verif.Spec.WasiDemo

/-!
# WASI: the errors a call can report

C92: "A WASI call that returns gives the guest one number: that of an error of the preview 1 interface that the call can
report; every other failure is an exception in the embedder."

`WasiSpec.Errno` is the enumeration of the interface in its order and `WasiSpec.errorsOf` lists the errors of each call.
-/

namespace Pywasm.Props
open WasiSpec Wasi

/-- **C92** Whatever the host answers and whatever the state, the number a call returns is one of those listed for it. -/
theorem C92_errors (os : Os) (c : Call) {s t : St} {e : Int} (h : c.run os s = .ok e t) :
    e ∈ (errorsOf c).map Errno.number := by
  suffices hr : Ret (· ∈ (errorsOf c).map Errno.number) (c.run os) from hr.run h
  clear h
  cases c <;> simp only [Call.run, errorsOf] 
  case argsGet => unfold Wasi.argsGet; rets
  case argsSizesGet => unfold Wasi.argsSizesGet; rets
  case clockResGet => unfold Wasi.clockResGet; rets
  case clockTimeGet => unfold Wasi.clockTimeGet; rets
  case environGet => unfold Wasi.environGet; rets
  case environSizesGet => unfold Wasi.environSizesGet; rets
  case fdAdvise => unfold Wasi.fdAdvise; rets
  case fdAllocate => unfold Wasi.fdAllocate; rets
  case fdClose => unfold Wasi.fdClose; rets
  case fdDatasync => unfold Wasi.fdDatasync; rets
  case fdFdstatGet => unfold Wasi.fdFdstatGet; rets
  case fdFdstatSetFlags => unfold Wasi.fdFdstatSetFlags; rets
  case fdFdstatSetRights => unfold Wasi.fdFdstatSetRights; rets
  case fdFilestatGet => unfold Wasi.fdFilestatGet; rets
  case fdFilestatSetSize => unfold Wasi.fdFilestatSetSize; rets
  case fdFilestatSetTimes => unfold Wasi.fdFilestatSetTimes; rets
  case fdPread => unfold Wasi.fdPread; rets
  case fdPrestatDirName => unfold Wasi.fdPrestatDirName; rets
  case fdPrestatGet => unfold Wasi.fdPrestatGet; rets
  case fdPwrite => unfold Wasi.fdPwrite; rets
  case fdRead => unfold Wasi.fdRead; rets
  case fdReaddir => unfold Wasi.fdReaddir; rets
  case fdRenumber => unfold Wasi.fdRenumber; rets
  case fdSeek => unfold Wasi.fdSeek; rets
  case fdSync => unfold Wasi.fdSync; rets
  case fdTell => unfold Wasi.fdTell; rets
  case fdWrite => unfold Wasi.fdWrite; rets
  case pathCreateDirectory => unfold Wasi.pathCreateDirectory; rets
  case pathFilestatGet => unfold Wasi.pathFilestatGet; rets
  case pathFilestatSetTimes => unfold Wasi.pathFilestatSetTimes; rets
  case pathLink => unfold Wasi.pathLink; rets
  case pathReadlink => unfold Wasi.pathReadlink; rets
  case pathRemoveDirectory => unfold Wasi.pathRemoveDirectory; rets
  case pathRename => unfold Wasi.pathRename; rets
  case pathSymlink => unfold Wasi.pathSymlink; rets
  case pathUnlinkFile => unfold Wasi.pathUnlinkFile; rets
  case procExit => unfold Wasi.procExit; rets
  case procRaise => unfold Wasi.procRaise; rets
  case randomGet => unfold Wasi.randomGet; rets
  case schedYield => unfold Wasi.schedYield; rets
  case sockAccept => unfold Wasi.sockAccept; rets
  case sockRecv => unfold Wasi.sockRecv; rets
  case sockSend => unfold Wasi.sockSend; rets
  case pathOpen => unfold Wasi.pathOpen Wasi.opened; rets
  case sockShutdown => unfold Wasi.sockShutdown; rets
  case pollOneoff =>
    unfold Wasi.pollOneoff
    refine Ret.bind fun _ => Ret.bind' (Ret.readSubs os _ _) fun r hr => ?_
    cases r with
    | error e =>
      refine Ret.pure ?_
      rcases hr with rfl | rfl <;> decide
    | ok l => rets

/-- **C92**, as the guest sees it: an imported WASI function that returns gives one integer, the number of an error of the
interface, so between 0 and 76. -/
theorem C92_guest (os : Os) (H : Host) {k : Nat} (hk : k < 46) (mod : Option ModuleInst) (args : List HVal) {s t : Store}
    {r : List HVal} (h : host os H k mod args s = .ok r t) :
    ∃ e : Errno, r = [.int e.number] ∧ 0 ≤ e.number ∧ e.number ≤ 76 := by
  unfold host at h
  rw [if_pos hk] at h
  generalize (intArgs args).bind (callOf k) = o at h
  cases o with
  | some c =>
    change runCall os mod c s = _ at h
    unfold runCall at h
    split at h
    · next h1 =>
      cases h
      obtain ⟨e, _, he⟩ := List.mem_map.mp (C92_errors os c h1)
      exact ⟨e, by rw [he], by cases e <;> decide, by cases e <;> decide⟩
    · cases h
  | none => cases h

/-- A host that refuses everything with one error number. -/
def refusing (n : Nat) : Os := ⟨.linux, linux, fun _ _ => .error (.os n)⟩
-- opening a name that is a loop of links, removing a directory that is not empty, reading from a closed descriptor
example : returns (refusing 40) (.pathOpen 3 0 0 0 0 2 0 0 100) (demoSt .dir) Errno.loop.number = true ∧
    returns (refusing 39) (.pathRemoveDirectory 3 0 1) (demoSt .dir) Errno.notempty.number = true ∧
    returns (refusing 2) (.fdRead 9 0 1 100) (demoSt .dir) Errno.badf.number = true := by
  refine ⟨?_, ?_, ?_⟩ <;> decide +kernel
example : Errno.notempty.number ∈ (errorsOf (.pathRemoveDirectory 3 0 1)).map Errno.number :=
  C92_errors (refusing 39) _ (of_returns (s := demoSt .dir) (e := 55) (by decide +kernel))
example : Errno.success.number = 0 ∧ Errno.badf.number = 8 ∧ Errno.inval.number = 28 ∧ Errno.noent.number = 44 ∧
    Errno.notcapable.number = 76 := by decide
-- `sched_yield` is row 41 of the table
example : ∃ e : Errno, [HVal.int 0] = [.int e.number] ∧ 0 ≤ e.number ∧ e.number ≤ 76 :=
  C92_guest (refusing 5) (fun _ _ _ => throw .type) (k := 41) (by decide) none [] (s := {}) (t := putBack none {} ((({} : Store).wasi.st none))) (by rfl)

end Pywasm.Props
