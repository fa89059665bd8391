import Verif.Spec.Lanes
import Verif.Model.Machine

/-!
# Vocabulary for statements about one instruction
-/

namespace Pywasm.Spec

/-- The instruction the machine is about to execute, if it is inside a function or constant expression. -/
def next (m : Machine) : Option Inst :=
  match m.label, m.frame with
  | lab :: _, _ :: _ => lab.instr[lab.index]?
  | _, _ => none

/-- The machine with the instruction pointer moved past the current instruction and nothing else changed. -/
def advance (m : Machine) : Machine :=
  match m.label with
  | lab :: ls => { m with label := { lab with index := lab.index + 1 } :: ls }
  | [] => m

/-- The instruction raises and the store (memories, tables, globals, segments, functions) is as before. -/
def Traps (H : Host) (m : Machine) : Prop := ∃ e m', step H m = .error e m' ∧ m'.store = m.store

/-- The module instance whose code is running. -/
def curModule (m : Machine) : Option ModuleInst := m.frame.head?.map (·.module)

/-- The locals of the running function. -/
def curLocals (m : Machine) : Option (List Val) := m.frame.head?.map (·.locals)

/-- `a` is the store address and `mem` the current value of the running module's memory. -/
def HasMem (m : Machine) (a : Nat) (mem : MemInst) : Prop :=
  ∃ mod, curModule m = some mod ∧ mod.mems[0]? = some a ∧ m.store.mems[a]? = some mem

/-- `a` is the store address and `t` the current value of table `i` of the running module. -/
def HasTable (m : Machine) (i a : Nat) (t : TableInst) : Prop :=
  ∃ mod, curModule m = some mod ∧ mod.tabl[i]? = some a ∧ m.store.tabl[a]? = some t

/-- `a` is the store address and `g` the current value of global `i` of the running module. -/
def HasGlobal (m : Machine) (i a : Nat) (g : GlobalInst) : Prop :=
  ∃ mod, curModule m = some mod ∧ mod.glob[i]? = some a ∧ m.store.glob[a]? = some g

/-- `a` is the store address and `e` the current value of element segment `i` of the running module. -/
def HasElem (m : Machine) (i a : Nat) (e : ElemInst) : Prop :=
  ∃ mod, curModule m = some mod ∧ mod.elem[i]? = some a ∧ m.store.elem[a]? = some e

/-- `b` is the buffer address and `bytes` the current contents of data segment `i` of the running module. -/
def HasData (m : Machine) (i b : Nat) (bytes : Bytes) : Prop :=
  ∃ mod a, curModule m = some mod ∧ mod.data[i]? = some a ∧ m.store.data[a]? = some b ∧ m.store.bufs[b]? = some bytes

/-- Replace memory number `a` of the store. -/
def withMem (m : Machine) (a : Nat) (mem : MemInst) : Machine :=
  { m with store := { m.store with mems := m.store.mems.set a mem } }
/-- Replace table number `a` of the store. -/
def withTable (m : Machine) (a : Nat) (t : TableInst) : Machine :=
  { m with store := { m.store with tabl := m.store.tabl.set a t } }

/-- The elements at positions `p, p+1, ..., p+n-1`. -/
def range {α} (l : List α) (p n : Nat) : List α := (l.drop p).take n

/-- `l` with the elements at positions `p, p+1, ...` replaced by those of `new`; same length as `l`. -/
def patch {α} (l : List α) (p : Nat) (new : List α) : List α :=
  l.mapIdx fun i x => if p ≤ i ∧ i < p + new.length then new.getD (i - p) x else x

/-- How many bytes a load reads. -/
def loadWidth : LoadOp → Nat
  | .i32_load8_s | .i32_load8_u | .i64_load8_s | .i64_load8_u | .v128_load8_splat => 1
  | .i32_load16_s | .i32_load16_u | .i64_load16_s | .i64_load16_u | .v128_load16_splat => 2
  | .i32_load | .f32_load | .i64_load32_s | .i64_load32_u | .v128_load32_splat | .v128_load32_zero => 4
  | .i64_load | .f64_load | .v128_load64_splat | .v128_load64_zero
  | .v128_load8x8_s | .v128_load8x8_u | .v128_load16x4_s | .v128_load16x4_u | .v128_load32x2_s | .v128_load32x2_u => 8
  | .v128_load => 16

/-- How many bytes a store writes. -/
def storeWidth : StoreOp → Nat
  | .i32_store8 | .i64_store8 => 1
  | .i32_store16 | .i64_store16 => 2
  | .i32_store | .f32_store | .i64_store32 => 4
  | .i64_store | .f64_store => 8
  | .v128_store => 16

/-- The value a load pushes, as a function of the little-endian number `n` in memory. -/
def loaded (op : LoadOp) (n : Nat) : Val :=
  match op with
  | .i32_load => i32 (BitVec.ofNat 32 n)
  | .i64_load => i64 (BitVec.ofNat 64 n)
  | .f32_load => f32 (BitVec.ofNat 32 n)
  | .f64_load => f64 (BitVec.ofNat 64 n)
  | .i32_load8_s => i32 ((BitVec.ofNat 8 n).signExtend 32)
  | .i32_load8_u => i32 ((BitVec.ofNat 8 n).setWidth 32)
  | .i32_load16_s => i32 ((BitVec.ofNat 16 n).signExtend 32)
  | .i32_load16_u => i32 ((BitVec.ofNat 16 n).setWidth 32)
  | .i64_load8_s => i64 ((BitVec.ofNat 8 n).signExtend 64)
  | .i64_load8_u => i64 ((BitVec.ofNat 8 n).setWidth 64)
  | .i64_load16_s => i64 ((BitVec.ofNat 16 n).signExtend 64)
  | .i64_load16_u => i64 ((BitVec.ofNat 16 n).setWidth 64)
  | .i64_load32_s => i64 ((BitVec.ofNat 32 n).signExtend 64)
  | .i64_load32_u => i64 ((BitVec.ofNat 32 n).setWidth 64)
  | .v128_load => v128 (BitVec.ofNat 128 n)
  | .v128_load8x8_s => v128 (ofLanes 16 fun i => (lane 8 (BitVec.ofNat 64 n) i).signExtend 16)
  | .v128_load8x8_u => v128 (ofLanes 16 fun i => (lane 8 (BitVec.ofNat 64 n) i).setWidth 16)
  | .v128_load16x4_s => v128 (ofLanes 32 fun i => (lane 16 (BitVec.ofNat 64 n) i).signExtend 32)
  | .v128_load16x4_u => v128 (ofLanes 32 fun i => (lane 16 (BitVec.ofNat 64 n) i).setWidth 32)
  | .v128_load32x2_s => v128 (ofLanes 64 fun i => (lane 32 (BitVec.ofNat 64 n) i).signExtend 64)
  | .v128_load32x2_u => v128 (ofLanes 64 fun i => (lane 32 (BitVec.ofNat 64 n) i).setWidth 64)
  | .v128_load8_splat => v128 (ofLanes 8 fun _ => BitVec.ofNat 8 n)
  | .v128_load16_splat => v128 (ofLanes 16 fun _ => BitVec.ofNat 16 n)
  | .v128_load32_splat => v128 (ofLanes 32 fun _ => BitVec.ofNat 32 n)
  | .v128_load64_splat => v128 (ofLanes 64 fun _ => BitVec.ofNat 64 n)
  | .v128_load32_zero => v128 (ofLanes 32 fun i => if i = 0 then BitVec.ofNat 32 n else 0)
  | .v128_load64_zero => v128 (ofLanes 64 fun i => if i = 0 then BitVec.ofNat 64 n else 0)

/-- Store address `addr` holds a function defined by a module, with type `t`, body `code` and module instance `mod`. -/
def HasFunc (m : Machine) (addr : Nat) (t : FuncType) (mod : ModuleInst) (code : FuncDesc) : Prop :=
  ∃ k, m.store.func[addr]? = some (.wasm t k code) ∧ m.store.mods[k]? = some mod

/-- The machine at the start of a called function: the caller keeps the operands `rest`, the function has a fresh frame
with its arguments followed by zeroed locals, and its whole body is still to be executed. -/
def entered (m : Machine) (t : FuncType) (mod : ModuleInst) (code : FuncDesc) (args rest : List Val) : Machine :=
  { m with
    value := rest
    frame := ⟨mod, args ++ code.locals.flatMap fun e => List.replicate e.1 (Val.zero e.2),
      t.rets.length, m.label.length, rest.length⟩ :: m.frame
    label := ⟨t.rets.length, m.frame.length + 1, rest.length, .func, code.expr, 0⟩ :: m.label }

/-- The store address a reference points to; `none` for null. (Byte 4 is the "not null" flag.) -/
def refTarget (r : Val) : Option Int := if r.data[4]? = some 1 then some r.low32.toInt else none

end Pywasm.Spec
