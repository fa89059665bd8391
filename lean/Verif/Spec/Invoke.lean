import Verif.Spec.History

/-!
# Vocabulary for statements about whole invocations
-/

namespace Pywasm.Spec

/-- All three stacks are empty. -/
def Clean (m : Machine) : Prop := m.frame = [] ∧ m.label = [] ∧ m.value = []

/-- The machine as `Machine.invocate` starts the body of a function: a placeholder frame, the function's own frame with
the arguments followed by zeroed locals, and the label of its body. -/
def started (m : Machine) (t : FuncType) (mod : ModuleInst) (code : FuncDesc) (args : List Val) : Machine where
  store := m.store
  value := m.value
  label := ⟨t.rets.length, 1, 0, .func, code.expr, 0⟩ :: m.label
  frame := ⟨mod, args ++ zeroLocals code.locals, t.rets.length, 0, 0⟩ :: ⟨{}, [], 0, 0, 0⟩ :: m.frame

/-- The first export of that name is a function at address `a`. -/
def ExportsFunc (mod : ModuleInst) (name : String) (a : Nat) : Prop :=
  mod.exps.find? (fun e => e.name = name) = some ⟨name, .func a⟩

end Pywasm.Spec
