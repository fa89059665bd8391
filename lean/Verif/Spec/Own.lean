import Verif.Spec.Exec
import Verif.Model.Instance

/-!
# Which exceptions pywasm raises itself, and calls of host functions
-/

namespace Pywasm

/-- The exceptions the interpreter raises itself; the others come from host functions and the operating system. -/
def Err.own : Err → Bool
  | .os _ | .host _ | .exit _ | .sysExit _ => false
  | _ => true

namespace Spec

/-- The next instruction is a `call` or a `call_indirect` of the function at address `a` of the store, and its arguments
are on top of the operands `vs`. -/
inductive NextCalls (m : Machine) : Int → List Val → Prop
  | call {k a : Nat} {cur : ModuleInst} (hi : next m = some (.call k)) (hc : curModule m = some cur)
      (ha : cur.func[k]? = some a) : NextCalls m a m.value
  | indirect {ti tab ta : Nat} {a : Int} {tb : TableInst} {cur : ModuleInst} {v r : Val} {vs : List Val} {fn : FuncInst}
      (hi : next m = some (.callIndirect ti tab)) (hc : curModule m = some cur) (ht : HasTable m tab ta tb)
      (hv : m.value = v :: vs) (hr : tb.elem[v.low32.toNat]? = some r) (href : refTarget r = some a)
      (hfn : Py.getItem m.store.func a = .ok fn) (hty : cur.type[ti]? = some fn.type) : NextCalls m a vs

/-- The next instruction calls the host function with code `c`, and `xs` are the host values of its arguments. -/
def CallsHost (m : Machine) (c : Nat) (xs : List HVal) : Prop :=
  ∃ (a : Int) (vs : List Val) (t : FuncType) (args rest : List Val), NextCalls m a vs ∧ Py.getItem m.store.func a = .ok (.host t c) ∧
    vs = args.reverse ++ rest ∧ args.length = t.args.length ∧ args.mapM Val.intoAll = .ok xs

end Spec
end Pywasm
