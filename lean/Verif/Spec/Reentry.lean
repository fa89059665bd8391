import Verif.Model.Reentry

/-! Host functions whose callbacks raise, for C70. -/

namespace Pywasm.Reentry

/-- The host function as one of `Pywasm.Host`: a callback raises. -/
def HostProg.plain : HostProg → EStateM Err Store (List HVal)
  | .ret rets => return rets
  | .raise e => throw e
  | .store f k => fun s => (k s).plain (f s)
  | .invocate _ _ _ => throw .recursion
  | .attempt _ _ _ _ => throw .recursion

/-- The host function does not catch what its callbacks raise. -/
def HostProg.NoCatch : HostProg → Prop
  | .ret _ => True
  | .raise _ => True
  | .store _ k => ∀ s, (k s).NoCatch
  | .invocate _ _ k => ∀ r, (k r).NoCatch
  | .attempt _ _ _ _ => False

/-- No host function catches what its callbacks raise. -/
def NoCatch (H : Host) : Prop := ∀ c mod xs, (H c mod xs).NoCatch

/-- The host functions without their callbacks. -/
def plain (H : Host) : Pywasm.Host := fun c mod xs => (H c mod xs).plain

end Pywasm.Reentry
