import Verif.Spec.Typing
import Verif.Model.Instance

/-!
# Valid modules (WebAssembly 2.0, 3.3.10, 3.4)
-/

namespace Pywasm.Spec.Typing

/-- 3.3.10: constant instructions in context `C`. -/
inductive Constant (C : Ctx) : Inst → Prop
  | i32 (n) : Constant C (.i32Const n)
  | i64 (n) : Constant C (.i64Const n)
  | f32 (n) : Constant C (.f32Const n)
  | f64 (n) : Constant C (.f64Const n)
  | v128 (b) : Constant C (.v128Const b)
  | null (t) : Constant C (.refNull t)
  | func (f) : Constant C (.refFunc f)
  | global {i g} (h : C.globals[i]? = some g) (hm : g.isMut = false) : Constant C (.globalGet i)

/-- 3.3.10: `e` is a constant expression of type `t`.  Each constant instruction makes one value and takes none, so there
is exactly one. -/
def ConstExpr (C : Ctx) (e : Expr) (t : ValType) : Prop := ∃ i, e = [i] ∧ Constant C i ∧ Instr C i [] [t]

/-- The types of the imported functions (as type indices), tables, memories and globals. -/
def importFuncs (d : ModuleDesc) : List Nat := d.imps.filterMap fun i => match i.desc with | .func t => some t | _ => none
def importTables (d : ModuleDesc) : List ValType := d.imps.filterMap fun i => match i.desc with | .table t => some t.type | _ => none
def importMems (d : ModuleDesc) : List Limits := d.imps.filterMap fun i => match i.desc with | .mem l => some l | _ => none
def importGlobals (d : ModuleDesc) : List GlobalType := d.imps.filterMap fun i => match i.desc with | .glob t => some t | _ => none

/-- 3.4.8: the export names something. -/
def ExportValid (C : Ctx) (e : ExportDesc) : Prop :=
  match e.kind with
  | .func => e.desc < C.funcs.length
  | .table => e.desc < C.tables.length
  | .mem => e.desc < C.mems
  | .glob => e.desc < C.globals.length

/-- 3.4.10: the module `d` is valid, and `C` is its context.  Initialisers are checked in the context that has the imported
globals only.  Two conditions go beyond the specification: tables and the segments that instantiation copies have less than 2^31
entries. -/
structure ValidModule (C : Ctx) (d : ModuleDesc) : Prop where
  types : C.types = d.type
  funcs : List.Forall₂ (fun i t => d.type[i]? = some t) (importFuncs d ++ d.func.map (·.type)) C.funcs
  tables : C.tables = importTables d ++ d.tabl.map (·.type)
  mems : C.mems = (importMems d).length + d.mems.length
  globals : C.globals = importGlobals d ++ d.glob.map (·.type)
  elems : C.elems = d.elem.map (·.type)
  datas : C.datas = d.data.length
  code : ∀ f ∈ d.func, ∀ t, d.type[f.type]? = some t → ValidFunc C t f
  table : ∀ t ∈ d.tabl, t.limits.n < 2 ^ 31
  mem : ∀ l ∈ d.mems, l.n ≤ 65536
  glob : ∀ g ∈ d.glob, ConstExpr { C with globals := importGlobals d } g.init g.type.type
  elem : ∀ e ∈ d.elem, e.init.length < 2 ^ 31 ∧ ∀ x ∈ e.init, ConstExpr { C with globals := importGlobals d } x e.type
  activeElem : ∀ e ∈ d.elem, e.kind % 2 = 0 → C.tables[e.tidx]? = some e.type ∧
    ConstExpr { C with globals := importGlobals d } e.offset .i32
  activeData : ∀ e ∈ d.data, e.kind % 2 = 0 → e.init.length < 2 ^ 31 ∧ 0 < C.mems ∧
    ConstExpr { C with globals := importGlobals d } e.offset .i32
  limits : (∀ t ∈ d.tabl, t.limits.m = 0 ∨ t.limits.n ≤ t.limits.m) ∧ ∀ l ∈ d.mems, l.m = 0 ∨ l.n ≤ l.m
  refs : ∀ e ∈ d.elem, e.type.isRef = true
  exps : ∀ e ∈ d.exps, ExportValid C e
  start : ∀ f, d.star = some f → C.funcs[f]? = some ⟨[], []⟩

/-- No function of the module branches to its own label (with a `return` in place of such branches, every module is of this
form). -/
def CoveredModule (d : ModuleDesc) : Prop := ∀ f ∈ d.func, Ref.coveredList false 0 f.expr = true

/-- What is assumed about the code of modules: nothing (`none`), that no function branches to its own label (`some false`), or
moreover that there is no `i64.div_u` (`some true`). -/
def CoveredBy (P : Option Bool) (d : ModuleDesc) : Prop := ∀ nd, P = some nd → ∀ f ∈ d.func, Ref.coveredList nd 0 f.expr = true
theorem coveredBy_none (d : ModuleDesc) : CoveredBy none d := nofun
theorem CoveredModule.by {d : ModuleDesc} (h : CoveredModule d) : CoveredBy (some false) d := by rintro _ ⟨⟩; exact h

end Pywasm.Spec.Typing
