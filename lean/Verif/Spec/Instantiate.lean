import Verif.Spec.Link

/-!
# Instantiation as one function (WebAssembly 2.0, 4.5.3-4.5.4)

`prepared` computes the new instance and the store in which the start function will run.  It uses only `Spec/Link.lean`:
the values of constant expressions, new tables and memories, and the copying of active segments.
-/

namespace Pywasm.Spec

/-- The minimum does not exceed the maximum (pywasm records "no maximum" as 0). -/
def sensible (l : Limits) : Bool := l.m = 0 || l.n ≤ l.m

/-- The externs that the embedder's dictionary of dictionaries supplies for the imports, in order. -/
def supplied (imports : Imports) (d : ModuleDesc) : Option (List Extern) :=
  d.imps.mapM fun i => (List.lookup i.module imports).bind (List.lookup i.name)

/-- 4.5.3: the new instance.  Imports come first in every index space; `none` if an export names nothing. -/
def instanceOf (s : Store) (d : ModuleDesc) (extern : List Extern) : Option ModuleInst :=
  let mod : ModuleInst :=
    { type := d.type
      func := importedFuncs extern ++ addresses s.func.length d.func.length
      tabl := importedTables extern ++ addresses s.tabl.length d.tabl.length
      mems := importedMems extern ++ addresses s.mems.length d.mems.length
      glob := importedGlobs extern ++ addresses s.glob.length d.glob.length
      elem := addresses s.elem.length d.elem.length
      data := addresses s.data.length d.data.length }
  (d.exps.mapM fun e => (exported mod e).map fun x => ⟨e.name, x⟩).map fun xs => { mod with exps := xs }

/-- 4.5.4: active segments are dropped once they have been copied, declarative ones at once. -/
def droppedElem (e : ElemDesc) : Bool := e.kind % 2 = 0 || e.kind % 4 = 3

/-- The buffers of active data segments are emptied. -/
def droppedData (d : ModuleDesc) (bufs : List Nat) (B : List Bytes) : List Bytes :=
  (d.data.zip bufs).foldl (fun B p => if p.1.kind % 2 = 0 then B.set p.2 [] else B) B

/-- 4.5.4 without the start function: the instance and the store, or `none` if limits make no sense, a name in the module
denotes nothing or an active segment does not fit. -/
def prepared (s : Store) (d : ModuleDesc) (bufs : List Nat) (extern : List Extern) : Option (ModuleInst × Store) := do
  guard (d.tabl.all (fun t => sensible t.limits) && d.mems.all (fun l => sensible l && l.n ≤ 65536))
  let mod ← instanceOf s d extern
  let value := constVal s mod.func (importedGlobs extern)
  let funcs ← d.func.mapM fun f => d.type[f.type]?.map fun t => FuncInst.wasm t s.mods.length f
  let globs ← d.glob.mapM fun g => (value g.init).map fun v => GlobalInst.mk v g.type.isMut
  let elems ← d.elem.mapM fun e => (e.init.mapM value).map fun vs => ElemInst.mk e.type (if droppedElem e then [] else vs)
  let tabl ← initElems s mod d (s.tabl ++ d.tabl.map freshTable)
  let mems ← initDatas s mod d (s.mems ++ d.mems.map freshMem)
  some (mod, { s with
    func := s.func ++ funcs, tabl := tabl, mems := mems, glob := s.glob ++ globs, elem := s.elem ++ elems,
    data := s.data ++ bufs, mods := s.mods ++ [mod], bufs := droppedData d bufs s.bufs })

end Pywasm.Spec
