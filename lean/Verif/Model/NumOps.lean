import Verif.Model.IntOps
import Verif.Model.FloatOps
import Verif.Model.SimdOps

/-!
# Instructions that only work on the operand stack
-/

namespace Pywasm

/-- The opcodes of `Machine.evaluate` (/repo/pywasm/core.py:2014-4105) that only touch `self.stack.value`. -/
inductive NumOp where
  /-- integer instructions -/
  | int (op : IOp)
  /-- scalar floating-point instructions -/
  | flt (op : FOp)
  /-- vector instructions without immediates -/
  | vec (op : VOp)
  /-- vector instructions with a lane index, `instr.args[0]` -/
  | lane (op : LOp) (i : Nat)
  /-- `i8x16.shuffle`; the selectors are `instr.args` -/
  | shuffle (sel : List Nat)
  deriving DecidableEq, Repr

/-- The corresponding cases of `Machine.evaluate`. -/
def evalNum : NumOp → VM Unit
  | .int op => evalInt op
  | .flt op => evalFlt op
  | .vec op => evalVec op
  | .lane op i => evalLane op i
  | .shuffle sel => evalShuffle sel

end Pywasm
