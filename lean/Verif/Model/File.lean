import Verif.Model.Decode
import Verif.Model.Instance

/-!
# Loading a module from a file
-/

namespace Pywasm
open M

/-- `Runtime.instance_from_file`, core.py:4159-4162.  The file is given by its bytes; `lim` is Python's recursion limit as in
`Model/Decode.lean`. -/
def Runtime.instanceFromFile (H : Host) (lim N : Nat) (imports : Imports) (file : Bytes) : M ModuleInst := do
  let r ← lift (ModuleDesc.fromReader lim file)
  let b ← loadBuffers r.1
  Runtime.instance H N imports r.1 b

end Pywasm
