import Verif.Model.Decode

/-!
# Model of what the decoder prints, /repo/pywasm/core.py:1303-1394 with /repo/pywasm/log.py

The functions below are those of `Model/Decode.lean` with the calls of `debugln`; `lvl` is `pywasm.log.lvl` (log.py:3).
-/

namespace Pywasm
open Reader

/-! ## The text of descriptions -/

/-- `FuncType.__repr__`, core.py:775-776. -/
def FuncType.repr (t : FuncType) : Str :=
  Py.reprList (t.args.map ValType.repr) ++ " -> ".toList ++ Py.reprList (t.rets.map ValType.repr)

/-- `Limits.__repr__`, core.py:824-826 (and `MemType.__repr__`, 847-848). -/
def Limits.repr (l : Limits) : Except Err Str := do
  let m ← if l.m = 0 then pure "inf".toList else Py.reprInt l.m
  let n ← Py.reprInt l.n
  return '[' :: n ++ ", ".toList ++ m ++ [']']

/-- `TableType.__repr__`, core.py:940-941. -/
def TableType.repr (t : TableType) : Except Err Str := do
  return t.type.repr ++ ' ' :: (← t.limits.repr)

/-- `GlobalType.__repr__`, core.py:983-985. -/
def GlobalType.repr (t : GlobalType) : Str := (if t.isMut then "var ".toList else "const ".toList) ++ t.type.repr

/-- `Import.__repr__`, core.py:1050-1057. -/
def Import.repr (i : Import) : Except Err Str := do
  let d ← match i.desc with
    | .func t => do pure ("func ".toList ++ (← Py.reprInt t))
    | .table t => do pure ("table ".toList ++ (← t.repr))
    | .mem l => do pure ("mem ".toList ++ (← l.repr))
    | .glob t => pure ("global ".toList ++ t.repr)
  return i.module.toList ++ '.' :: i.name.toList ++ ' ' :: d

/-- The name of the kind of an export, core.py:1108-1113. -/
def ExKind.repr : ExKind → Str
  | .func => "func".toList | .table => "table".toList | .mem => "mem".toList | .glob => "global".toList

/-- `ExportDesc.__repr__`, core.py:1107-1114. -/
def ExportDesc.repr (e : ExportDesc) : Except Err Str := do
  return e.name.toList ++ ' ' :: e.kind.repr ++ ' ' :: (← Py.reprInt e.desc)

/-- `LocalsDesc.__repr__`, core.py:745-746. -/
def localsRepr (l : Nat × ValType) : Except Err Str := do return (← Py.reprInt l.1) ++ 'x' :: l.2.repr

/-- `FuncDesc.__repr__`, core.py:805-806. -/
def FuncDesc.repr (f : FuncDesc) : Except Err Str := do
  let t ← Py.reprInt f.type
  return t ++ ' ' :: Py.reprList (← f.locals.mapM localsRepr)

/-! ## Readers that print -/

/-- A reader that prints lines; what has been printed before an exception stays. -/
def LReader (α : Type) : Type := Bytes → Log (α × Bytes)

namespace LReader
/-- run one reader after the other -/
def bind {α β} (x : LReader α) (f : α → LReader β) : LReader β := fun s => Log.bind (x s) fun p => f p.1 p.2
instance : Monad LReader where
  pure a := fun s => ([], .ok (a, s))
  bind := bind
/-- a reader that prints nothing -/
def quiet {α} (rd : Reader α) : LReader α := fun s => ([], rd s)
/-- printing -/
def say {α} (x : Log α) : LReader α := fun s => Log.bind x fun a => ([], .ok (a, s))
/-- `for _ in range(n): desc = …; l.append(desc); debugln(…)` -/
def times {α} (rd : Reader α) (p : α → Log Unit) : Nat → LReader (List α)
  | 0 => pure []
  | n + 1 => do
    let x ← quiet rd
    say (p x)
    let l ← times rd p n
    return x :: l
/-- the same with the length read before -/
def vec {α} (rd : Reader α) (p : α → Log Unit) : LReader (List α) := do
  let n ← quiet uleb
  times rd p n
end LReader

/-- `debugln('section …', x)` -/
def logLine (lvl : Int) (kind : String) (x : Except Err Str) : Log Unit :=
  debugObj lvl (x.map fun s => kind.toList ++ ' ' :: s)

namespace Logged
open LReader

/-- One turn of the loop over the code section, core.py:1378-1384.  The description printed is the one just read, whose type
is always 0 (core.py:814). -/
def codeEntry (lvl : Int) (lim : Nat) (func : List FuncDesc) (i : Nat) : LReader (List FuncDesc) := do
  let size ← quiet uleb
  let b ← quiet (read size)
  let d ← quiet (liftE ((FuncDesc.fromReaderCode lim).run b))
  match func[i]? with
  | none => quiet (fail .index)
  | some f => do
    say (logLine lvl "section code" d.1.repr)
    say (Expr.disasm lvl 4 d.1.expr)
    return func.set i ⟨f.type, d.1.locals, d.1.expr⟩

/-- The loop over the code section, core.py:1377-1384. -/
def codeEntries (lvl : Int) (lim : Nat) : Nat → Nat → List FuncDesc → LReader (List FuncDesc)
  | 0, _, func => pure func
  | n + 1, i, func => do
    let func ← codeEntry lvl lim func i
    codeEntries lvl lim n (i + 1) func

/-- The contents of a section, core.py:1329-1392. -/
def sectionBody (lvl : Int) (lim : Nat) (id : UInt8) (m : ModuleDesc) : LReader ModuleDesc :=
  if id = 0x00 then do
    let c ← quiet customFromReader
    say (logLine lvl "section custom" (.ok c.1.toList))
    return m
  else if id = 0x01 then do
    let l ← vec FuncType.fromReader fun x => logLine lvl "section type" (.ok x.repr)
    return { m with type := m.type ++ l }
  else if id = 0x02 then do
    let l ← vec Import.fromReader fun x => logLine lvl "section import" x.repr
    return { m with imps := m.imps ++ l }
  else if id = 0x03 then do
    let l ← vec FuncDesc.fromReaderType fun x => logLine lvl "section func" (Py.reprInt x.type)
    return { m with func := m.func ++ l }
  else if id = 0x04 then do
    let l ← vec TableType.fromReader fun x => logLine lvl "section table" x.repr
    return { m with tabl := m.tabl ++ l }
  else if id = 0x05 then do
    let l ← vec Limits.fromReader fun x => logLine lvl "section memory" x.repr
    return { m with mems := m.mems ++ l }
  else if id = 0x06 then do
    let l ← vec (GlobalDesc.fromReader lim) fun x => logLine lvl "section global" (.ok x.type.repr)
    return { m with glob := m.glob ++ l }
  else if id = 0x07 then do
    let l ← vec ExportDesc.fromReader fun x => logLine lvl "section export" x.repr
    return { m with exps := m.exps ++ l }
  else if id = 0x08 then do
    let n ← quiet uleb
    say (logLine lvl "section start" (Py.reprInt n))
    return { m with star := some n }
  else if id = 0x09 then do
    let l ← vec (ElemDesc.fromReader lim) fun x => logLine lvl "section elem" (Py.reprInt x.tidx)
    return { m with elem := m.elem ++ l }
  else if id = 0x0a then do
    let n ← quiet uleb
    let f ← codeEntries lvl lim n 0 m.func
    return { m with func := f }
  else if id = 0x0b then do
    -- the memory of a data segment is always 0 (core.py:1240)
    let l ← vec (DataDesc.fromReader lim) fun _ => logLine lvl "section data" (Py.reprInt 0)
    return { m with data := m.data ++ l }
  else if id = 0x0c then do
    let n ← quiet uleb
    say (logLine lvl "section data count" (Py.reprInt n))
    return m
  else return m

/-- The loop over the sections, core.py:1319-1392; `k` turns are left. -/
def sections (lvl : Int) (lim : Nat) : Nat → ModuleDesc → LReader ModuleDesc
  | 0, m => pure m
  | k + 1, m => fun s =>
    match s with
    | [] => ([], .ok (m, []))
    | id :: s =>
      (do
        let n ← quiet uleb
        let d ← quiet (read n)
        quiet (check (d.length == n))
        let r ← say (sectionBody lvl lim id m d)
        sections lvl lim k r.1) s

/-- `ModuleDesc.from_reader`, core.py:1303-1394: the lines printed, and the result. -/
def fromReader (lvl : Int) (lim : Nat) : LReader ModuleDesc := do
  let magic ← quiet (read 4)
  quiet (check (magic == [0x00, 0x61, 0x73, 0x6d]))
  let version ← quiet (read 4)
  quiet (check (version == [0x01, 0x00, 0x00, 0x00]))
  sections lvl lim 32 {}

end Logged
end Pywasm
