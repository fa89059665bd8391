import Verif.Spec.Exec
import Verif.Spec.IntOps
import Verif.Spec.History

/-!
# The two places where running code leaves the specification

Everywhere else the interpreter follows the structured reference interpreter (C17).
-/

namespace Pywasm.Spec

/-- The machine is about to execute `i64.div_u` on a dividend and a divisor whose quotient is `2^63` or more (C05: it raises
`OverflowError`). -/
def AtBadDiv (m : Machine) : Prop :=
  next m = some (.num (.int .i64_div_u)) ∧
    ∃ y x vs q, m.value = y :: x :: vs ∧ divU x.low64 y.low64 = some q ∧ 2 ^ 63 ≤ q.toNat

/-- The machine is about to take a branch to its `l`-th label. -/
def Branches (m : Machine) (l : Nat) : Prop :=
  next m = some (.br l) ∨ ∃ c vs, m.value = c :: vs ∧
    ((next m = some (.brIf l) ∧ c.low32 ≠ 0) ∨ ∃ ls d, next m = some (.brTable ls d) ∧ l = ls.getD c.low32.toNat d)

/-- The machine is about to branch to the label of the running function's body, and the function was entered by a call
instruction, which counts the function's own frame among those the label keeps (C22: the frame stays). -/
def AtBadBranch (m : Machine) : Prop :=
  ∃ l lb, Branches m l ∧ m.label[l]? = some lb ∧ lb.carry = .func ∧ lb.frame = m.frame.length

/-- Running from `m`, the machine comes to a state with `P`. -/
def Meets (H : Host) (P : Machine → Prop) (m : Machine) : Prop := ∃ n m', StepsN H n m m' ∧ P m'

/-- One of the two. -/
def Deviation (m : Machine) : Prop := AtBadDiv m ∨ AtBadBranch m

/-- The states that running code is allowed to end in without following the reference interpreter.  `some nodiv` says that
the code is covered (`Ref.CoveredStore nodiv`). -/
def Dev (static : Option Bool) (m : Machine) : Prop := (static ≠ some true ∧ AtBadDiv m) ∨ (static = none ∧ AtBadBranch m)

end Pywasm.Spec
