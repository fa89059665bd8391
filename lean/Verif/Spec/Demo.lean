import Verif.Spec.Exec
import Verif.Model.Instance

/-!
# A concrete machine

Used by the examples beside the theorems, to show that their hypotheses can be met.
-/

namespace Pywasm.Spec

/-- No host functions. -/
def noHost : Host := fun _ _ _ => throw .assertion

/-- `(func (param i32) (result i32) (i32.add (local.get 0) (i32.const 1)))` -/
def demoFunc : FuncInst :=
  .wasm ⟨[.i32], [.i32]⟩ 0 ⟨0, [(1, .i64)], [.localGet 0, .i32Const 1, .num (.int .i32_add)]⟩

/-- A module instance with one of everything. -/
def demoModule : ModuleInst :=
  { type := [⟨[.i32], [.i32]⟩, ⟨[], []⟩], func := [0], tabl := [0], mems := [0], glob := [0, 1], elem := [0], data := [0] }

/-- A reference to function 0 and a null reference. -/
def ref0 : Val := ⟨.funcref, [0, 0, 0, 0, 1, 0, 0, 0, 0, 0, 0, 0, 0, 0, 0, 0], rfl⟩
def refNull : Val := Val.zero .funcref

/-- A store with one of everything (the memory has eight bytes; real memories have a multiple of 65536). -/
def demoStore : Store where
  func := [demoFunc]
  tabl := [⟨⟨.funcref, ⟨3, 5⟩⟩, [ref0, refNull, refNull], 3⟩]
  mems := [⟨⟨1, 2⟩, [1, 2, 3, 0x84, 5, 6, 7, 8], 1⟩]
  glob := [⟨i32 7, true⟩, ⟨i32 8, false⟩]
  elem := [⟨.funcref, [ref0, ref0]⟩]
  data := [0]
  mods := [demoModule]
  bufs := [[9, 10, 11]]

/-- About to execute `is` with operands `vs` (head = top) inside a function with the locals 5 and 6. -/
def demo (is : List Inst) (vs : List Val) : Machine where
  store := demoStore
  value := vs
  label := [⟨0, 1, 0, .block, is, 0⟩]
  frame := [⟨demoModule, [i32 5, i64 6], 0, 0, 0⟩]

theorem demo_mem (is vs) : HasMem (demo is vs) 0 ⟨⟨1, 2⟩, [1, 2, 3, 0x84, 5, 6, 7, 8], 1⟩ := ⟨_, rfl, rfl, rfl⟩
theorem demo_table (is vs) : HasTable (demo is vs) 0 0 ⟨⟨.funcref, ⟨3, 5⟩⟩, [ref0, refNull, refNull], 3⟩ :=
  ⟨_, rfl, rfl, rfl⟩
theorem demo_elem (is vs) : HasElem (demo is vs) 0 0 ⟨.funcref, [ref0, ref0]⟩ := ⟨_, rfl, rfl, rfl⟩
theorem demo_data (is vs) : HasData (demo is vs) 0 0 [9, 10, 11] := ⟨_, _, rfl, rfl, rfl, rfl⟩

/-- The operand stack after one step, `none` if the step raised. -/
def stackAfter (m : Machine) : Option (List Val) :=
  match step noHost m with
  | .ok _ m' => some m'.value
  | .error _ _ => none
/-- The first memory's bytes after one step, `none` if the step raised. -/
def memAfter (m : Machine) : Option Bytes :=
  match step noHost m with
  | .ok _ m' => m'.store.mems[0]?.map (·.data)
  | .error _ _ => none
/-- The first table's elements after one step, `none` if the step raised. -/
def tableAfter (m : Machine) : Option (List Val) :=
  match step noHost m with
  | .ok _ m' => m'.store.tabl[0]?.map (·.elem)
  | .error _ _ => none

end Pywasm.Spec
