import Verif.Model.Instance

/-!
# What running code may do to a store
-/

namespace Pywasm.Spec

/-- The size, length and limits of a memory are consistent. A recorded maximum of 0 means "none". -/
def MemOk (x : MemInst) : Prop :=
  x.data.length = 65536 * x.size ∧ x.size ≤ 65536 ∧ (x.limits.m ≠ 0 → x.size ≤ x.limits.m)

/-- The size of a table is the number of its entries and respects its maximum. -/
def TableOk (t : TableInst) : Prop :=
  t.elem.length = t.size ∧ (t.type.limits.m ≠ 0 → t.size ≤ t.type.limits.m)

/-- `s'` extends `s`: every address of `s` is an address of `s'`; functions and module instances (the first `n`, see
`Extends`) are the same; memories and tables keep their type, do not shrink and stay consistent; globals keep their
mutability and, when immutable, their value; segments stay what they are or become empty for good;
memories and tables at new addresses are consistent. -/
structure ExtendsUpTo (n : Nat) (s s' : Store) : Prop where
  func : ∀ (i : Nat) f, s.func[i]? = some f → s'.func[i]? = some f
  mods : ∀ (i : Nat) x, i < n → s.mods[i]? = some x → s'.mods[i]? = some x
  mems : ∀ (i : Nat) x, s.mems[i]? = some x → ∃ y, s'.mems[i]? = some y ∧ y.limits = x.limits ∧ x.size ≤ y.size ∧
    x.data.length ≤ y.data.length ∧ (MemOk x → MemOk y)
  tabl : ∀ (i : Nat) x, s.tabl[i]? = some x → ∃ y, s'.tabl[i]? = some y ∧ y.type = x.type ∧ x.size ≤ y.size ∧
    x.elem.length ≤ y.elem.length ∧ (TableOk x → TableOk y)
  glob : ∀ (i : Nat) x, s.glob[i]? = some x → ∃ y, s'.glob[i]? = some y ∧ y.isMut = x.isMut ∧ (x.isMut = false → y = x)
  elem : ∀ (i : Nat) x, s.elem[i]? = some x → ∃ y, s'.elem[i]? = some y ∧ y.type = x.type ∧ (y = x ∨ y.data = [])
  data : ∀ (i : Nat) x, s.data[i]? = some x → s'.data[i]? = some x
  bufs : ∀ (i : Nat) x, s.bufs[i]? = some x → s'.bufs[i]? = some x ∨ s'.bufs[i]? = some []
  newMem : ∀ (i : Nat) y, s.mems.length ≤ i → s'.mems[i]? = some y → MemOk y
  newTable : ∀ (i : Nat) y, s.tabl.length ≤ i → s'.tabl[i]? = some y → TableOk y

/-- All module instances are unchanged. -/
def Extends (s s' : Store) : Prop := ∀ n, ExtendsUpTo n s s'

/-- The embedder's host functions, whatever they do, only extend the store. -/
def HostExtends (H : Host) : Prop :=
  ∀ c mod args s, (∀ r s', H c mod args s = .ok r s' → Extends s s') ∧
    (∀ e s', H c mod args s = .error e s' → Extends s s')

/-- The state a computation ends in, normally or by an exception. -/
def final {α} (x : M α) (m : Machine) : Machine :=
  match x m with
  | .ok _ m' => m'
  | .error _ m' => m'

end Pywasm.Spec
