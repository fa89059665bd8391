import Verif.Spec.Accepted
import Verif.Model.Store
import Verif.Model.Instance
import Verif.Model.LogRun
import Verif.Spec.Exec

/-!
# Numbers that Python can print

Python prints integers of up to 4300 digits.  Modules whose numbers are shorter than that are *short*.
-/

namespace Pywasm.Spec.Log
open Pywasm.Spec.Bin

mutual
/-- The numbers of an instruction, and of those inside, have at most 4300 digits. -/
def shortI : Inst → Bool
  | .block bt b => (numbers (.block bt b)).all (fun n => decide (n.natAbs < long)) && short b
  | .loop bt b => (numbers (.loop bt b)).all (fun n => decide (n.natAbs < long)) && short b
  | .ifThen bt a b => (numbers (.ifThen bt a b)).all (fun n => decide (n.natAbs < long)) && short a && short b
  | i => (numbers i).all fun n => decide (n.natAbs < long)
/-- The numbers in an instruction sequence have at most 4300 digits. -/
def short : List Inst → Bool
  | [] => true
  | i :: is => shortI i && short is
end

/-- The functions of the store are short, and the lengths of its data segments can be printed. -/
structure ShortStore (s : Store) : Prop where
  func : ∀ t k code, FuncInst.wasm t k code ∈ s.func → short code.expr = true
  bufs : ∀ b ∈ s.bufs, b.length < long

/-- Host functions keep the store short. -/
def ShortHost (H : Host) : Prop := ∀ c mod xs s ys s', H c mod xs s = .ok ys s' → ShortStore s → ShortStore s'

/-- The functions of the store are short, and so is the code that is running. -/
structure ShortMachine (m : Machine) : Prop where
  store : ShortStore m.store
  label : ∀ lab ∈ m.label, short lab.instr = true

/-- The numbers that are printed when the module is instantiated have at most 4300 digits.  These are those of its expressions,
the tables and the start function, and the sizes of segments and their numbers, which no real module can have too large. -/
structure ShortModule (d : ModuleDesc) : Prop where
  exprs : ∀ e ∈ exprs d, short e = true
  tidx : ∀ e ∈ d.elem, e.tidx < long
  star : ∀ n, d.star = some n → n < long
  elems : d.elem.length < long ∧ ∀ e ∈ d.elem, e.init.length < long
  datas : d.data.length < long ∧ ∀ e ∈ d.data, e.init.length < long

/-- The outcome of a run that has also printed: the result or exception and the machine are those of `r`, and `out` has been printed. -/
def withOut {α} (r : EStateM.Result Err Machine α) (out : List Str) : EStateM.Result Err Talk α :=
  match r with
  | .ok a m => .ok a ⟨m, out⟩
  | .error e m => .error e ⟨m, out⟩

/-- The instructions executed in the next `n` steps, up to and including one that raises an exception. -/
def executed (H : Host) : Nat → Machine → List Inst
  | 0, _ => []
  | n + 1, m => (next m).toList ++ match step H m with
    | .ok _ m' => executed H n m'
    | .error _ _ => []

end Pywasm.Spec.Log
