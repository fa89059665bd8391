import Verif.Spec.StoreExt

/-!
# What an embedder can do with a runtime
-/

namespace Pywasm.Spec

/-- The calls of the embedding API that run guest code, allocate or change a memory. -/
inductive Action where
  /-- `core.ModuleDesc.from_reader`: a decoded module -/
  | decode (d : ModuleDesc)
  /-- `Runtime.instance` on a decoded module, whose segment buffers are `bufs` -/
  | instance (imports : Imports) (d : ModuleDesc) (bufs : List Nat)
  /-- `Runtime.invocate` -/
  | invocate (mod : ModuleInst) (name : String) (args : List HVal)
  /-- `Runtime.allocate_memory`, `allocate_table`, `allocate_global`, `allocate_func_host` -/
  | newMemory (l : Limits)
  | newTable (t : TableType)
  | newGlobal (t : GlobalType) (v : Val)
  | newHostFunc (t : FuncType) (code : Nat)
  /-- `MemInst.put` on a memory, for bytes that lie inside it -/
  | putMemory (a p : Nat) (d : Bytes)
  /-- `MemInst.grow` on a memory -/
  | growMemory (a n : Nat)

/-- Replace a memory by what the embedder makes of it; an exception leaves it alone. -/
def onMemory (f : MemInst → Option MemInst) (a : Nat) (m : Machine) : Machine :=
  match m.store.mems[a]?.bind f with
  | some y => { m with store := { m.store with mems := m.store.mems.set a y } }
  | none => m

/-- Perform an action; an exception is caught by the embedder, who goes on with the machine as the exception left it. -/
def Action.perform (H : Host) (N : Nat) (m : Machine) : Action → Machine
  | decode d => final (loadBuffers d) m
  | .instance imports d bufs => final (Runtime.instance H N imports d bufs) m
  | invocate mod name args => final (Runtime.invocate H N mod name args) m
  | newMemory l => final (allocateMemory l) m
  | newTable t => final (allocateTable t) m
  | newGlobal t v => final (allocateGlobal t v) m
  | newHostFunc t c => final (allocateFuncHost t c) m
  | putMemory a p d => onMemory (fun x => if p + d.length ≤ x.data.length then some (x.put p d) else none) a m
  | growMemory a n => onMemory (fun x => (x.grow n).toOption) a m

/-- A whole history of actions. -/
def history (H : Host) (N : Nat) (acts : List Action) (m : Machine) : Machine := acts.foldl (Action.perform H N) m

/-- `m'` is reached from `m` by executing instructions. -/
inductive Steps (H : Host) : Machine → Machine → Prop
  | refl (m : Machine) : Steps H m m
  | tail {m m' m'' : Machine} (h : Steps H m m') (hs : step H m' = .ok () m'') : Steps H m m''

end Pywasm.Spec

namespace Pywasm

/-- `m'` is reached from `m` by executing exactly `n` instructions (or ends of blocks). -/
inductive StepsN (H : Host) : Nat → Machine → Machine → Prop
  | refl (m : Machine) : StepsN H 0 m m
  | head {n : Nat} {m m' m'' : Machine} (hs : step H m = .ok () m') (h : StepsN H n m' m'') : StepsN H (n + 1) m m''

end Pywasm
