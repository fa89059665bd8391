import Verif.Spec.Invoke
import Verif.Spec.Exec

/-!
# Parts of a store that nothing leads out of

For C88.  A `Part` of a store is a set of functions, tables, memories, … .  It is closed when nothing in it leads out of
it: the module instances of its functions own only things of the part, and the function references in its tables, globals
and element segments point to functions of the part.  A module instance that was made without imports is such a part, and
so are two instances of which one imports from the other.
-/

namespace Pywasm.Spec

/-- A part of a store: which functions, tables, memories, globals, element segments, data segments, module instances and
byte buffers of data segments belong to it, by their address, and which code of the host it may call, with which type. -/
structure Part where
  host : Nat → FuncType → Prop
  func : Nat → Prop
  tabl : Nat → Prop
  mems : Nat → Prop
  glob : Nat → Prop
  elem : Nat → Prop
  data : Nat → Prop
  mods : Nat → Prop
  bufs : Nat → Prop

mutual
/-- The instruction is not `table.fill`, and does not contain it. -/
def noFillI : Inst → Bool
  | .block _ b => noFill b
  | .loop _ b => noFill b
  | .ifThen _ a b => noFill a && noFill b
  | .tableFill _ => false
  | _ => true
/-- No `table.fill` among the instructions. -/
def noFill : List Inst → Bool
  | [] => true
  | i :: is => noFillI i && noFill is
end

namespace Part
variable (W : Part)

/-- If the value is a function reference and not null, it points to a function of the part. -/
def Holds (v : Val) : Prop := v.ty = .funcref → ∀ k, refTarget v = some k → ∃ a : Nat, W.func a ∧ k = a

/-- Everything that belongs to the module instance is in the part. -/
structure Owns (mod : ModuleInst) : Prop where
  func : ∀ a ∈ mod.func, W.func a
  tabl : ∀ a ∈ mod.tabl, W.tabl a
  mems : ∀ a ∈ mod.mems, W.mems a
  glob : ∀ a ∈ mod.glob, W.glob a
  elem : ∀ a ∈ mod.elem, W.elem a
  data : ∀ a ∈ mod.data, W.data a

/-- Nothing leads out of the part.  With `strict`, moreover the functions of the part do not use `table.fill`,
its tables are tables of function references and its element segments have only function references. -/
structure Closed (strict : Bool) (s : Store) : Prop where
  host : ∀ a t c, W.func a → s.func[a]? = some (.host t c) → W.host c t
  func : ∀ a t k code, W.func a → s.func[a]? = some (.wasm t k code) →
    W.mods k ∧ (strict = true → noFill code.expr = true)
  mods : ∀ k mod, W.mods k → s.mods[k]? = some mod → W.Owns mod
  tabl : ∀ a t, W.tabl a → s.tabl[a]? = some t →
    (strict = true → t.type.type = .funcref) ∧ ∀ v ∈ t.elem, W.Holds v ∧ (strict = true → v.ty = .funcref)
  glob : ∀ a g, W.glob a → s.glob[a]? = some g → W.Holds g.data
  elem : ∀ a e, W.elem a → s.elem[a]? = some e → ∀ v ∈ e.data, W.Holds v ∧ (strict = true → v.ty = .funcref)
  data : ∀ a b, W.data a → s.data[a]? = some b → W.bufs b

/-- Only code of the part is running: the store is closed, and so are the operands, the frames and the labels. -/
structure Runs (strict : Bool) (m : Machine) : Prop where
  store : W.Closed strict m.store
  value : ∀ v ∈ m.value, W.Holds v
  label : strict = true → ∀ l ∈ m.label, noFill l.instr = true
  frame : ∀ f ∈ m.frame, W.Owns f.module ∧ ∀ v ∈ f.locals, W.Holds v

/-- The two stores are the same in the part (and the state of the host functions is the same). -/
structure Agree (s t : Store) : Prop where
  func : ∀ a, W.func a → t.func[a]? = s.func[a]?
  tabl : ∀ a, W.tabl a → t.tabl[a]? = s.tabl[a]?
  mems : ∀ a, W.mems a → t.mems[a]? = s.mems[a]?
  glob : ∀ a, W.glob a → t.glob[a]? = s.glob[a]?
  elem : ∀ a, W.elem a → t.elem[a]? = s.elem[a]?
  data : ∀ a, W.data a → t.data[a]? = s.data[a]?
  mods : ∀ a, W.mods a → t.mods[a]? = s.mods[a]?
  bufs : ∀ a, W.bufs a → t.bufs[a]? = s.bufs[a]?
  wasi : t.wasi = s.wasi
  priv : t.priv = s.priv

/-- From `s` to `s'` nothing has changed outside the part. -/
structure Untouched (s s' : Store) : Prop where
  func : ∀ a, ¬ W.func a → s'.func[a]? = s.func[a]?
  tabl : ∀ a, ¬ W.tabl a → s'.tabl[a]? = s.tabl[a]?
  mems : ∀ a, ¬ W.mems a → s'.mems[a]? = s.mems[a]?
  glob : ∀ a, ¬ W.glob a → s'.glob[a]? = s.glob[a]?
  elem : ∀ a, ¬ W.elem a → s'.elem[a]? = s.elem[a]?
  data : ∀ a, ¬ W.data a → s'.data[a]? = s.data[a]?
  mods : ∀ a, ¬ W.mods a → s'.mods[a]? = s.mods[a]?
  bufs : ∀ a, ¬ W.bufs a → s'.bufs[a]? = s.bufs[a]?

/-- What both runs of a host function in stores `s` and `t` that agree on the part have in common, and keep. -/
structure Kept (strict : Bool) (s t s' t' : Store) : Prop where
  agree : W.Agree s' t'
  left : W.Untouched s s'
  right : W.Untouched t t'
  closed : W.Closed strict s'

/-- The host functions of the part, called from code of the part, keep to the part: what they do does not depend on what
is outside, they change nothing outside, and they give the part no reference out of it. -/
def HostKeeps (strict : Bool) (H : Host) : Prop :=
  ∀ (a : Nat) ty c (caller : Option ModuleInst) (args : List Val) xs s t, W.Closed strict s → W.Agree s t → W.host c ty → W.func a →
    s.func[a]? = some (.host ty c) → (∀ mod, caller = some mod → W.Owns mod) → (∀ v ∈ args, W.Holds v) →
    args.mapM Val.intoAll = .ok xs →
    match H c caller xs s, H c caller xs t with
    | .ok ys s', .ok zs t' => zs = ys ∧ W.Kept strict s t s' t' ∧
        ∀ p ∈ ty.rets.zip ys, ∀ v, Val.fromAll p.1 p.2 = .ok v → W.Holds v
    | .error e s', .error e' t' => e' = e ∧ W.Kept strict s t s' t'
    | _, _ => False

/-- The part together with what instantiating `d` (with these buffers of its data segments) will add to the store `s`. -/
def grow (s : Store) (d : ModuleDesc) (bufs : List Nat) : Part where
  host := W.host
  func a := W.func a ∨ s.func.length ≤ a ∧ a < s.func.length + d.func.length
  tabl a := W.tabl a ∨ s.tabl.length ≤ a ∧ a < s.tabl.length + d.tabl.length
  mems a := W.mems a ∨ s.mems.length ≤ a ∧ a < s.mems.length + d.mems.length
  glob a := W.glob a ∨ s.glob.length ≤ a ∧ a < s.glob.length + d.glob.length
  elem a := W.elem a ∨ s.elem.length ≤ a ∧ a < s.elem.length + d.elem.length
  data a := W.data a ∨ s.data.length ≤ a ∧ a < s.data.length + d.data.length
  mods k := W.mods k ∨ k = s.mods.length
  bufs b := W.bufs b ∨ b ∈ bufs

/-- Everything that is imported is in the part. -/
def Supplies (extern : List Extern) : Prop := ∀ x ∈ extern, match x with
  | .func a => W.func a
  | .table a => W.tabl a
  | .mem a => W.mems a
  | .glob a => W.glob a

/-- The part with nothing in it. -/
def none : Part := ⟨fun _ _ => False, fun _ => False, fun _ => False, fun _ => False, fun _ => False, fun _ => False, fun _ => False,
  fun _ => False, fun _ => False⟩

end Part

/-- An instruction that a constant expression can consist of (3.3.10). -/
def constInst : Inst → Bool
  | .i32Const _ | .i64Const _ | .f32Const _ | .f64Const _ | .v128Const _ | .refNull _ | .refFunc _ | .globalGet _ => true
  | _ => false

/-- The initialiser of an entry of a segment of functions: `ref.func`, or `ref.null func`. -/
def FuncInit (e : Expr) : Prop := (∃ i, e = [.refFunc i]) ∨ e = [.refNull 0x70]

/-- The module has no `table.fill`, its tables and element segments are of function references, and its initialisers are
constant expressions. -/
structure PlainModule (d : ModuleDesc) : Prop where
  func : ∀ f ∈ d.func, noFill f.expr = true
  tabl : ∀ t ∈ d.tabl, t.type = .funcref
  glob : ∀ g ∈ d.glob, g.init.all constInst = true
  elem : ∀ e ∈ d.elem, (e.kind % 2 = 0 → e.offset.all constInst = true) ∧ ∀ x ∈ e.init, FuncInit x
  data : ∀ e ∈ d.data, e.kind % 2 = 0 → e.offset.all constInst = true

/-- About to run a `call_indirect` that finds in the table something which is not a function reference. -/
def Forged (m : Machine) : Prop :=
  ∃ lab L f F t tab ta table v rest e, m.label = lab :: L ∧ m.frame = f :: F ∧
    lab.instr[lab.index]? = some (.callIndirect t tab) ∧ f.module.tabl[tab]? = some ta ∧
    m.store.tabl[ta]? = some table ∧ m.value = v :: rest ∧ table.elem[v.intoU32.toNat]? = some e ∧ e.ty ≠ .funcref

end Pywasm.Spec
