import Verif.Spec.Ref
import Verif.Spec.Invoke
import Mathlib.Data.List.Forall2

/-!
# Linking and instantiation (WebAssembly 2.0, 4.5.2-4.5.4)
-/

namespace Pywasm.Spec

/-- The maximum of recorded limits: pywasm records "none" as 0. -/
def maxOf (l : Limits) : Option Nat := if l.m = 0 then none else some l.m

/-- A memory or table of this size and maximum may stand for one declared with `min'` and `max'`. -/
def LimitsMatch (size : Nat) (max : Option Nat) (min' : Nat) (max' : Option Nat) : Prop :=
  min' ≤ size ∧ ∀ M', max' = some M' → ∃ M, max = some M ∧ M ≤ M'

/-- The extern exists in the store, has the kind of the import and a matching type. -/
inductive ImportMatches (s : Store) (d : ModuleDesc) : ImportDesc → Extern → Prop
  | func {a t : Nat} {f : FuncInst} {ft : FuncType} (h1 : s.func[a]? = some f) (h2 : d.type[t]? = some ft)
      (h3 : f.type = ft) : ImportMatches s d (.func t) (.func a)
  | table {a : Nat} {x : TableInst} {t : TableType} (h1 : s.tabl[a]? = some x) (h2 : x.type.type = t.type)
      (h3 : LimitsMatch x.size (maxOf x.type.limits) t.limits.n (maxOf t.limits)) : ImportMatches s d (.table t) (.table a)
  | mem {a : Nat} {x : MemInst} {l : Limits} (h1 : s.mems[a]? = some x)
      (h3 : LimitsMatch x.size (maxOf x.limits) l.n (maxOf l)) : ImportMatches s d (.mem l) (.mem a)
  | glob {a : Nat} {x : GlobalInst} {t : GlobalType} (h1 : s.glob[a]? = some x) (h2 : x.data.ty = t.type)
      (h3 : x.isMut = t.isMut) : ImportMatches s d (.glob t) (.glob a)

/-- The externs supply the imports, in order. -/
def Linked (s : Store) (d : ModuleDesc) (extern : List Extern) : Prop :=
  List.Forall₂ (fun i x => ImportMatches s d i.desc x) d.imps extern

/-- The imported entities of each kind, in order. -/
def importedFuncs (l : List Extern) : List Nat := l.filterMap fun | .func a => some a | _ => none
def importedTables (l : List Extern) : List Nat := l.filterMap fun | .table a => some a | _ => none
def importedMems (l : List Extern) : List Nat := l.filterMap fun | .mem a => some a | _ => none
def importedGlobs (l : List Extern) : List Nat := l.filterMap fun | .glob a => some a | _ => none

/-- `n` consecutive addresses. -/
def addresses (base n : Nat) : List Nat := List.range' base n

/-- What an export declaration denotes in an instance. -/
def exported (mod : ModuleInst) (e : ExportDesc) : Option Extern :=
  match e.kind with
  | .func => mod.func[e.desc]?.map .func
  | .table => mod.tabl[e.desc]?.map .table
  | .mem => mod.mems[e.desc]?.map .mem
  | .glob => mod.glob[e.desc]?.map .glob

/-- The value of a constant expression (3.3.11), given the function and global addresses in scope. -/
def constVal (s : Store) (funcs globs : List Nat) : Expr → Option Val
  | [.globalGet i] => (globs[i]?.bind (s.glob[·]?)).map (·.data)
  | [.refFunc i] => funcs[i]?.bind fun a => if a < 2 ^ 31 then some (Ref.refTo .funcref a) else none
  | [i] => Ref.const i
  | _ => none

/-- A new table and a new memory. -/
def freshTable (t : TableType) : TableInst := ⟨t, List.replicate t.limits.n (Val.zero t.type), t.limits.n⟩
def freshMem (l : Limits) : MemInst := ⟨l, List.replicate (65536 * l.n) 0, l.n⟩

/-- Copy `refs` to offset `off` of the table with index `tidx`, if it fits. -/
def copyElem (mod : ModuleInst) (tidx off : Nat) (refs : List Val) (tabl : List TableInst) : Option (List TableInst) :=
  mod.tabl[tidx]?.bind fun a => tabl[a]?.bind fun t =>
    if off + refs.length ≤ t.elem.length then some (tabl.set a { t with elem := patch t.elem off refs }) else none

/-- Copy `bytes` to offset `off` of the memory, if they fit. -/
def copyData (mod : ModuleInst) (off : Nat) (bytes : Bytes) (mems : List MemInst) : Option (List MemInst) :=
  mod.mems[0]?.bind fun a => mems[a]?.bind fun t =>
    if off + bytes.length ≤ t.data.length then some (mems.set a { t with data := patch t.data off bytes }) else none

/-- The active element segments, copied in order. -/
def initElems (s : Store) (mod : ModuleInst) (d : ModuleDesc) (tabl : List TableInst) : Option (List TableInst) :=
  (d.elem.filter (·.kind % 2 = 0)).foldlM (fun tabl e =>
    (constVal s mod.func mod.glob e.offset).bind fun off =>
    (e.init.mapM (constVal s mod.func mod.glob)).bind fun refs => copyElem mod e.tidx off.low32.toNat refs tabl) tabl

/-- The active data segments, copied in order. -/
def initDatas (s : Store) (mod : ModuleInst) (d : ModuleDesc) (mems : List MemInst) : Option (List MemInst) :=
  (d.data.filter (·.kind % 2 = 0)).foldlM (fun mems e =>
    (constVal s mod.func mod.glob e.offset).bind fun off => copyData mod off.low32.toNat e.init mems) mems

/-- What validation (3.4.10) says about the initialisers of a module: they are constant expressions over the functions and
the imported globals, and the tables and the memory that active segments name exist.  (Segments of 2^31 and more
entries are left out: pywasm raises on them.) -/
structure ValidInit (s : Store) (d : ModuleDesc) (extern : List Extern) : Prop where
  glob : ∀ g ∈ d.glob, ∃ v, constVal s (importedFuncs extern ++ addresses s.func.length d.func.length)
    (importedGlobs extern) g.init = some v
  elem : ∀ e ∈ d.elem, e.init.length < 2 ^ 31 ∧ ∀ x ∈ e.init, ∃ v, constVal s
    (importedFuncs extern ++ addresses s.func.length d.func.length) (importedGlobs extern) x = some v
  active : ∀ e ∈ d.elem, e.kind % 2 = 0 → e.tidx < (importedTables extern).length + d.tabl.length ∧
    ∃ v, constVal s (importedFuncs extern ++ addresses s.func.length d.func.length) (importedGlobs extern) e.offset = some v
  data : ∀ e ∈ d.data, e.kind % 2 = 0 → e.init.length < 2 ^ 31 ∧ 0 < (importedMems extern).length + d.mems.length ∧
    ∃ v, constVal s (importedFuncs extern ++ addresses s.func.length d.func.length) (importedGlobs extern) e.offset = some v

/-- The segment buffers of `d` are as decoded: distinct, and filled with the initial contents. -/
def FreshBuffers (s : Store) (d : ModuleDesc) (bufs : List Nat) : Prop :=
  bufs.Nodup ∧ List.Forall₂ (fun e b => s.bufs[b]? = some e.init) d.data bufs

end Pywasm.Spec
