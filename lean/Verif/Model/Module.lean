import Verif.Model.Inst
import Verif.Model.Store

/-!
# Model of the static module description, /repo/pywasm/core.py:992-1000, 1035-1048, 1094-1105, 1136-1148, 1225-1240, 1274-1301
-/

namespace Pywasm

/-- `GlobalDesc`, core.py:992-997. -/
structure GlobalDesc where
  type : GlobalType
  init : Expr

/-- The `kind` and `desc` of an `Import`, core.py:1066-1072. -/
inductive ImportDesc where
  | func (t : Nat) | table (t : TableType) | mem (l : Limits) | glob (t : GlobalType)
  deriving DecidableEq, Repr

/-- `Import`, core.py:1035-1048. -/
structure Import where
  module : String
  name : String
  desc : ImportDesc
  deriving DecidableEq, Repr

/-- The kind of an export, asserted to be 0..3, core.py:1102. -/
inductive ExKind where
  | func | table | mem | glob
  deriving DecidableEq, Repr

/-- `ExportDesc`, core.py:1094-1105. -/
structure ExportDesc where
  name : String
  kind : ExKind
  desc : Nat
  deriving DecidableEq, Repr

/-- `ElemDesc`, core.py:1136-1148; `kind` is asserted to be at most 7. -/
structure ElemDesc where
  kind : Nat
  type : ValType
  tidx : Nat
  offset : Expr
  init : List Expr

/-- `DataDesc`, core.py:1225-1240; `kind` is asserted to be at most 2 and `midx` to be 0. -/
structure DataDesc where
  kind : Nat
  offset : Expr
  init : Bytes

/-- `ModuleDesc`, core.py:1274-1301; `star = none` is the Python value -1. -/
structure ModuleDesc where
  type : List FuncType := []
  func : List FuncDesc := []
  tabl : List TableType := []
  mems : List Limits := []
  glob : List GlobalDesc := []
  elem : List ElemDesc := []
  data : List DataDesc := []
  star : Option Nat := none
  imps : List Import := []
  exps : List ExportDesc := []

end Pywasm
