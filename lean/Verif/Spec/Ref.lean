import Verif.Spec.Exec
import Verif.Spec.IntOps
import Verif.Spec.SimdOps

/-!
# A structured reference interpreter

A big-step interpreter for WebAssembly code written after the prose of the WebAssembly 2.0 core specification (section
4.4), independently of the interpreter loop of pywasm: there is no label stack, no frame stack and no shared operand
stack.  A block is a recursive call on its own operand stack; leaving it is an outcome (`norm`, `br`, `ret`) that the
enclosing construct handles; a function call is a recursive call with fresh locals.

Only what the two sides must share is taken from the model: the data types (`Inst`, `Val`, `Store`, `ModuleInst`, ...),
the host environment, and the conversions of host values `Val.intoAll`/`Val.fromAll`, which C07-C09 are about.

`fuel` bounds the recursion (Lean functions terminate); `timeout` means that it was too small.
`stuck` marks situations that validation excludes (missing operands, unknown indices): the reference gives them no
meaning.
-/

namespace Pywasm.Spec.Ref

/-- What code works on: the store, the locals of the running function and the operands of the running block (head = top). -/
structure St where
  store : Store
  locals : List Val
  vs : List Val

/-- Outcome of a piece of code. -/
inductive Res where
  /-- fell off the end -/
  | norm (st : St)
  /-- is branching to the `n`-th enclosing block; `st.vs` are the operands at the branch -/
  | br (n : Nat) (st : St)
  /-- is returning from the function -/
  | ret (st : St)
  | trap (s : Store)
  | stuck
  | timeout

/-- The reference to store address `a`. -/
def refTo (t : ValType) (a : Nat) : Val :=
  ⟨t, bytesLE 4 a ++ (1 :: List.replicate 11 0), by simp [bytesLE]⟩

/-- The outcome of running a piece of the model itself on an operand stack. -/
def fromModel (m : VM Unit) (s : List Val) : Out :=
  match m s with
  | .ok _ s' => .ok s'
  | .error .index _ => .stuck
  | .error _ _ => .trap

/-- The meaning of the operators that only use the operand stack.  The integer and bitwise ones have their independent
specifications `intSem`, `vecSem` and `laneSem`; for the floating-point ones the reference interpreter uses the result
pywasm computes (what those results are is the subject of other properties), so that it says how they are sequenced. -/
def numSem : NumOp → List Val → Out
  | .int op => intSem op
  | .flt op => fromModel (evalFlt op)
  | .vec op => (vecSem op).getD (fromModel (evalVec op))
  | .lane op i => if i < laneCount op then laneSem op i else fun _ => .stuck
  | .shuffle sel => if sel.length = 16 ∧ ∀ j ∈ sel, j < 32 then bin128 (shuffle fun i => sel.getD i 0) else fun _ => .stuck

/-- What the numeric instructions do.  The interpreter below runs with any numeric semantics; where none is named it is `numSem`, what
pywasm computes.  `Props/RefFloat.lean` runs it with those the specification allows. -/
class Numerics where
  sem : NumOp → List Val → Out

instance pywasmNumerics : Numerics := ⟨numSem⟩
theorem sem_pywasm (op : NumOp) : Numerics.sem op = numSem op := rfl

def theMem (mod : ModuleInst) (s : Store) : Option (Nat × MemInst) :=
  mod.mems[0]?.bind fun a => s.mems[a]?.map (a, ·)
def theTable (mod : ModuleInst) (s : Store) (i : Nat) : Option (Nat × TableInst) :=
  mod.tabl[i]?.bind fun a => s.tabl[a]?.map (a, ·)
def theGlobal (mod : ModuleInst) (s : Store) (i : Nat) : Option (Nat × GlobalInst) :=
  mod.glob[i]?.bind fun a => s.glob[a]?.map (a, ·)
def theElem (mod : ModuleInst) (s : Store) (i : Nat) : Option (Nat × ElemInst) :=
  mod.elem[i]?.bind fun a => s.elem[a]?.map (a, ·)
def theData (mod : ModuleInst) (s : Store) (i : Nat) : Option (Nat × Bytes) :=
  mod.data[i]?.bind fun a => s.data[a]?.bind fun b => s.bufs[b]?.map (b, ·)

def St.withMem (st : St) (a : Nat) (mem : MemInst) : St := { st with store := { st.store with mems := st.store.mems.set a mem } }
def St.withTable (st : St) (a : Nat) (t : TableInst) : St := { st with store := { st.store with tabl := st.store.tabl.set a t } }

/-- Outcome of an instruction that is not a control instruction. -/
inductive Plain where
  | ok (st : St)
  | trap
  | stuck

/-- Constant instructions. -/
def const : Inst → Option Val
  | .i32Const n => if -2 ^ 31 ≤ n ∧ n < 2 ^ 31 then some (i32 (BitVec.ofInt 32 n)) else none
  | .i64Const n => if -2 ^ 63 ≤ n ∧ n < 2 ^ 63 then some (i64 (BitVec.ofInt 64 n)) else none
  | .f32Const n => if -2 ^ 31 ≤ n ∧ n < 2 ^ 31 then some (f32 (BitVec.ofInt 32 n)) else none
  | .f64Const n => if -2 ^ 63 ≤ n ∧ n < 2 ^ 63 then some (f64 (BitVec.ofInt 64 n)) else none
  | .v128Const b => if b.length = 16 then some (v128 (BitVec.ofNat 128 (readLE b))) else none
  | .refNull b => match ValType.ofCode b with | .ok t => some (Val.zero t) | .error _ => none
  | _ => none

/-- Parametric and variable instructions (4.4.3, 4.4.5). -/
def vars (mod : ModuleInst) (st : St) : Inst → Plain
  | .drop => match st.vs with
    | _ :: s => .ok { st with vs := s }
    | _ => .stuck
  | .select => match st.vs with
    | c :: b :: a :: s => .ok { st with vs := (if c.low32 = 0 then b else a) :: s }
    | _ => .stuck
  | .selectType (t :: _) => match st.vs with
    | c :: b :: a :: s => if a.ty.code = t ∧ b.ty.code = t then .ok { st with vs := (if c.low32 = 0 then b else a) :: s }
      else .stuck
    | _ => .stuck
  | .localGet i => match st.locals[i]? with
    | some v => .ok { st with vs := v :: st.vs }
    | none => .stuck
  | .localSet i => match st.vs with
    | v :: s => if i < st.locals.length then .ok { st with vs := s, locals := st.locals.set i v } else .stuck
    | _ => .stuck
  | .localTee i => match st.vs with
    | v :: _ => if i < st.locals.length then .ok { st with locals := st.locals.set i v } else .stuck
    | _ => .stuck
  | .globalGet i => match theGlobal mod st.store i with
    | some (_, g) => .ok { st with vs := g.data :: st.vs }
    | none => .stuck
  | .globalSet i => match theGlobal mod st.store i, st.vs with
    | some (a, g), v :: s => if g.isMut then
        .ok { st with vs := s, store := { st.store with glob := st.store.glob.set a { g with data := v } } }
      else .trap
    | _, _ => .stuck
  | .refIsNull => match st.vs with
    | r :: s => if r.ty.isRef ∧ (r.data[4]? = some 0 ∨ r.data[4]? = some 1) then
        .ok { st with vs := bool (decide (refTarget r = none)) :: s } else .stuck
    | _ => .stuck
  | .refFunc i => match mod.func[i]? with
    | some a => if a < 2 ^ 31 then .ok { st with vs := refTo .funcref a :: st.vs } else .stuck
    | none => .stuck
  | _ => .stuck

/-- Table instructions (4.4.6). -/
def table (mod : ModuleInst) (st : St) : Inst → Plain
  | .tableGet i => match theTable mod st.store i, st.vs with
    | some (_, t), v :: s => match t.elem[v.low32.toNat]? with
      | some r => .ok { st with vs := r :: s }
      | none => .trap
    | _, _ => .stuck
  | .tableSet i => match theTable mod st.store i, st.vs with
    | some (a, t), r :: v :: s => if r.ty = t.type.type then
        if v.low32.toNat < t.elem.length then
          .ok ({ st with vs := s }.withTable a { t with elem := t.elem.set v.low32.toNat r })
        else .trap
      else .stuck
    | _, _ => .stuck
  | .tableSize i => match theTable mod st.store i with
    | some (_, t) => if t.size < 2 ^ 31 then .ok { st with vs := i32 (BitVec.ofNat 32 t.size) :: st.vs } else .stuck
    | none => .stuck
  | .tableGrow i => match theTable mod st.store i, st.vs with
    | some (a, t), v :: r :: s => if r.ty = t.type.type then
        let n := v.low32.toNat
        if t.size + n ≤ 1024 ∧ (t.type.limits.m ≠ 0 → t.size + n ≤ t.type.limits.m) then
          .ok ({ st with vs := i32 (BitVec.ofNat 32 t.size) :: s }.withTable a
            { t with elem := t.elem ++ List.replicate n r, size := t.size + n })
        else .ok { st with vs := i32 (-1) :: s }
      else .stuck
    | _, _ => .stuck
  | .tableFill i => match theTable mod st.store i, st.vs with
    | some (a, t), n :: r :: d :: s =>
        if d.low32.toNat + n.low32.toNat ≤ t.elem.length then
          .ok ({ st with vs := s }.withTable a
            { t with elem := patch t.elem d.low32.toNat (List.replicate n.low32.toNat r) })
        else .trap
    | _, _ => .stuck
  | .tableCopy i j => match theTable mod st.store i, theTable mod st.store j, st.vs with
    | some (a, t), some (_, u), n :: s :: d :: vs =>
        if s.low32.toNat + n.low32.toNat ≤ u.elem.length ∧ d.low32.toNat + n.low32.toNat ≤ t.elem.length then
          .ok ({ st with vs := vs }.withTable a
            { t with elem := patch t.elem d.low32.toNat (range u.elem s.low32.toNat n.low32.toNat) })
        else .trap
    | _, _, _ => .stuck
  | .tableInit k i => match theTable mod st.store i, theElem mod st.store k, st.vs with
    | some (a, t), some (_, e), n :: s :: d :: vs =>
        if s.low32.toNat + n.low32.toNat ≤ e.data.length ∧ d.low32.toNat + n.low32.toNat ≤ t.elem.length then
          .ok ({ st with vs := vs }.withTable a
            { t with elem := patch t.elem d.low32.toNat (range e.data s.low32.toNat n.low32.toNat) })
        else .trap
    | _, _, _ => .stuck
  | .elemDrop k => match theElem mod st.store k with
    | some (a, e) => .ok { st with store := { st.store with elem := st.store.elem.set a { e with data := [] } } }
    | none => .stuck
  | _ => .stuck

/-- Memory instructions (4.4.7, and 4.4.3 for the lane instructions). -/
def memory (mod : ModuleInst) (st : St) : Inst → Plain
  | .load op _ off => match theMem mod st.store, st.vs with
    | some (_, mem), v :: s =>
        let ea := v.low32.toNat + off
        if ea + loadWidth op ≤ mem.data.length then
          .ok { st with vs := loaded op (readLE (range mem.data ea (loadWidth op))) :: s }
        else .trap
    | _, _ => .stuck
  | .store op _ off => match theMem mod st.store, st.vs with
    | some (a, mem), v :: b :: s =>
        let ea := b.low32.toNat + off
        if ea + storeWidth op ≤ mem.data.length then
          .ok ({ st with vs := s }.withMem a { mem with data := patch mem.data ea (v.data.take (storeWidth op)) })
        else .trap
    | _, _ => .stuck
  | .loadLane w _ off l => match theMem mod st.store, st.vs with
    | some (_, mem), x :: v :: s => if l < 16 / w.bytes then
        let ea := v.low32.toNat + off
        if ea + w.bytes ≤ mem.data.length then
          .ok { st with vs := v128 (ofLanes (8 * w.bytes) fun i =>
            if i = l then BitVec.ofNat _ (readLE (range mem.data ea w.bytes)) else lane (8 * w.bytes) x.low128 i) :: s }
        else .trap
      else .stuck
    | _, _ => .stuck
  | .storeLane w _ off l => match theMem mod st.store, st.vs with
    | some (a, mem), x :: b :: s => if l < 16 / w.bytes then
        let ea := b.low32.toNat + off
        if ea + w.bytes ≤ mem.data.length then
          .ok ({ st with vs := s }.withMem a
            { mem with data := patch mem.data ea (bytesLE w.bytes (lane (8 * w.bytes) x.low128 l).toNat) })
        else .trap
      else .stuck
    | _, _ => .stuck
  | .memorySize _ => match theMem mod st.store with
    | some (_, mem) => if mem.size ≤ 65536 then .ok { st with vs := i32 (BitVec.ofNat 32 mem.size) :: st.vs } else .stuck
    | none => .stuck
  | .memoryGrow _ => match theMem mod st.store, st.vs with
    | some (a, mem), v :: s =>
        let n := v.low32.toNat
        if mem.size + n ≤ 1024 ∧ (mem.limits.m ≠ 0 → mem.size + n ≤ mem.limits.m) then
          .ok ({ st with vs := i32 (BitVec.ofNat 32 mem.size) :: s }.withMem a
            { mem with data := mem.data ++ List.replicate (65536 * n) 0, size := mem.size + n })
        else .ok { st with vs := i32 (-1) :: s }
    | _, _ => .stuck
  | .memoryCopy => match theMem mod st.store, st.vs with
    | some (a, mem), n :: s :: d :: vs =>
        if s.low32.toNat + n.low32.toNat ≤ mem.data.length ∧ d.low32.toNat + n.low32.toNat ≤ mem.data.length then
          .ok ({ st with vs := vs }.withMem a
            { mem with data := patch mem.data d.low32.toNat (range mem.data s.low32.toNat n.low32.toNat) })
        else .trap
    | _, _ => .stuck
  | .memoryFill => match theMem mod st.store, st.vs with
    | some (a, mem), n :: x :: d :: vs =>
        if d.low32.toNat + n.low32.toNat ≤ mem.data.length then
          .ok ({ st with vs := vs }.withMem a
            { mem with data := patch mem.data d.low32.toNat (List.replicate n.low32.toNat (UInt8.ofNat x.low32.toNat)) })
        else .trap
    | _, _ => .stuck
  | .memoryInit i => match theMem mod st.store, theData mod st.store i, st.vs with
    | some (a, mem), some (_, seg), n :: s :: d :: vs =>
        if s.low32.toNat + n.low32.toNat ≤ seg.length ∧ d.low32.toNat + n.low32.toNat ≤ mem.data.length then
          .ok ({ st with vs := vs }.withMem a
            { mem with data := patch mem.data d.low32.toNat (range seg s.low32.toNat n.low32.toNat) })
        else .trap
    | _, _, _ => .stuck
  | .dataDrop i => match theData mod st.store i with
    | some (b, _) => .ok { st with store := { st.store with bufs := st.store.bufs.set b [] } }
    | none => .stuck
  | _ => .stuck

/-- Every instruction that is not a control instruction. -/
def plain [Numerics] (mod : ModuleInst) (st : St) (i : Inst) : Plain :=
  match i with
  | .nop => .ok st
  | .unreachable => .trap
  | .i32Const _ | .i64Const _ | .f32Const _ | .f64Const _ | .v128Const _ | .refNull _ => match const i with
    | some v => .ok { st with vs := v :: st.vs }
    | none => .stuck
  | .drop | .select | .selectType _ | .localGet _ | .localSet _ | .localTee _ | .globalGet _ | .globalSet _
  | .refIsNull | .refFunc _ => vars mod st i
  | .tableGet _ | .tableSet _ | .tableSize _ | .tableGrow _ | .tableFill _ | .tableCopy _ _ | .tableInit _ _
  | .elemDrop _ => table mod st i
  | .load _ _ _ | .store _ _ _ | .loadLane _ _ _ _ | .storeLane _ _ _ _ | .memorySize _ | .memoryGrow _ | .memoryCopy
  | .memoryFill | .memoryInit _ | .dataDrop _ => memory mod st i
  | .num op => match Numerics.sem op st.vs with
    | .ok s => .ok { st with vs := s }
    | .trap => .trap
    | .stuck => .stuck
  | _ => .stuck

/-- The type of a block. -/
def blockType (mod : ModuleInst) : Bype → Option FuncType
  | .empty => some ⟨[], []⟩
  | .val t => some ⟨[], [t]⟩
  | .idx i => if 0 ≤ i then mod.type[i.toNat]? else none

/-- Run `body` on the top `nargs` operands only; a branch to this block carries `nrets` values. -/
def inBlock (body : St → Res) (nargs nrets : Nat) (st : St) : Res :=
  if st.vs.length < nargs then .stuck
  else
    let below := st.vs.drop nargs
    match body { st with vs := st.vs.take nargs } with
    | .norm st' => .norm { st' with vs := st'.vs ++ below }
    | .br 0 st' => if st'.vs.length < nrets then .stuck else .norm { st' with vs := st'.vs.take nrets ++ below }
    | .br (n + 1) st' => .br n st'
    | r => r

/-- Call the function at store address `a` from code of module `caller` (`none`: from the embedder) with `d` frames
active; `body` runs the body of a function.  The arguments are
taken from the operand stack, the last one from the top. -/
def call (H : Host) (body : Nat → ModuleInst → List Inst → St → Res) (caller : Option ModuleInst)
    (d a : Nat) (st : St) : Res :=
  match st.store.func[a]? with
  | none => .stuck
  | some (.wasm t k code) =>
    if st.vs.length < t.args.length then .stuck
    else
      let args := (st.vs.take t.args.length).reverse
      let below := st.vs.drop t.args.length
      if 1024 ≤ d then .trap st.store
      else match st.store.mods[k]? with
      | none => .stuck
      | some mod =>
        let zeros := code.locals.flatMap fun e => List.replicate e.1 (Val.zero e.2)
        match body (d + 1) mod code.expr ⟨st.store, args ++ zeros, []⟩ with
        | .norm st' => if st'.vs.length = t.rets.length then .norm ⟨st'.store, st.locals, st'.vs ++ below⟩ else .stuck
        | .br 0 st' | .ret st' =>
          if st'.vs.length < t.rets.length then .stuck
          else .norm ⟨st'.store, st.locals, st'.vs.take t.rets.length ++ below⟩
        | .br (_ + 1) _ => .stuck
        | r => r
  | some (.host t c) =>
    if st.vs.length < t.args.length then .stuck
    else
      let args := (st.vs.take t.args.length).reverse
      let below := st.vs.drop t.args.length
      match args.mapM Val.intoAll with
      | .error _ => .trap st.store
      | .ok xs => match H c caller xs st.store with
        | .error _ s => .trap s
        | .ok ys s =>
          if ys.length ≠ t.rets.length then .stuck
          else match (t.rets.zip ys).mapM fun p => Val.fromAll p.1 p.2 with
            | .error _ => .trap s
            | .ok rets => .norm ⟨s, st.locals, rets.reverse ++ below⟩

/-- The function a `call_indirect` with type `t` through table `tab` designates, or `inr trapped`. -/
def indirect (mod : ModuleInst) (t tab : Nat) (st : St) : Option (Nat ⊕ Unit) :=
  match theTable mod st.store tab, mod.type[t]?, st.vs with
  | some (_, tb), some ty, v :: _ =>
    match tb.elem[v.low32.toNat]? with
    | none => some (.inr ())
    | some r => match refTarget r with
      | none => some (.inr ())
      | some a => if a < 0 then none else match st.store.func[a.toNat]? with
        | none => none
        | some fn => some (if fn.type = ty then .inl a.toNat else .inr ())
  | _, _, _ => none

mutual
/-- Run a sequence of instructions of a function of module `mod` with `d` frames active. -/
def run [Numerics] (H : Host) : Nat → Nat → ModuleInst → List Inst → St → Res
  | 0, _, _, _, _ => .timeout
  | _ + 1, _, _, [], st => .norm st
  | f + 1, d, mod, i :: is, st => match instr H f d mod i st with
    | .norm st' => run H f d mod is st'
    | r => r
termination_by structural f => f
/-- Run one instruction. -/
def instr [Numerics] (H : Host) : Nat → Nat → ModuleInst → Inst → St → Res
  | 0, _, _, _, _ => .timeout
  | f + 1, d, mod, i, st => match i with
    | .block bt body => match blockType mod bt with
      | none => .stuck
      | some t => inBlock (run H f d mod body) t.args.length t.rets.length st
    | .loop bt body => match blockType mod bt with
      | none => .stuck
      | some t => inBlock (iter H f d mod body t.args.length) t.args.length t.args.length st
    | .ifThen bt thn els => match blockType mod bt, st.vs with
      | some t, c :: s =>
        inBlock (run H f d mod (if c.low32 = 0 then els else thn)) t.args.length t.rets.length { st with vs := s }
      | _, _ => .stuck
    | .br l => .br l st
    | .brIf l => match st.vs with
      | c :: s => if c.low32 = 0 then .norm { st with vs := s } else .br l { st with vs := s }
      | _ => .stuck
    | .brTable ls l => match st.vs with
      | c :: s => .br (ls.getD c.low32.toNat l) { st with vs := s }
      | _ => .stuck
    | .ret => .ret st
    | .call i => match mod.func[i]? with
      | none => .stuck
      | some a => call H (run H f) (some mod) d a st
    | .callIndirect t tab => match indirect mod t tab st with
      | none => .stuck
      | some (.inr _) => .trap st.store
      | some (.inl a) => call H (run H f) (some mod) d a { st with vs := st.vs.tail }
    | i => match plain mod st i with
      | .ok st' => .norm st'
      | .trap => .trap st.store
      | .stuck => .stuck
termination_by structural f => f
/-- Run the body of a loop; a branch to the loop takes `n` operands and starts it again. -/
def iter [Numerics] (H : Host) : Nat → Nat → ModuleInst → List Inst → Nat → St → Res
  | 0, _, _, _, _, _ => .timeout
  | f + 1, d, mod, body, n, st => match run H f d mod body st with
    | .br 0 st' => if st'.vs.length < n then .stuck else iter H f d mod body n { st' with vs := st'.vs.take n }
    | r => r
termination_by structural f => f
end

/-- Invoke the function at address `a` from the embedder: one placeholder frame is active. -/
def invoke [Numerics] (H : Host) (fuel a : Nat) (args : List Val) (s : Store) : Res :=
  call H (run H fuel) none 1 a ⟨s, [], args.reverse⟩

mutual
/-- No branch leaves the code further than its `k` enclosing blocks; with `nodiv`, there is no `i64.div_u` either. -/
def covered (nodiv : Bool) (k : Nat) : Inst → Bool
  | .block _ body => coveredList nodiv (k + 1) body
  | .loop _ body => coveredList nodiv (k + 1) body
  | .ifThen _ thn els => coveredList nodiv (k + 1) thn && coveredList nodiv (k + 1) els
  | .br l => decide (l < k)
  | .brIf l => decide (l < k)
  | .brTable ls l => decide (l < k) && ls.all fun l => decide (l < k)
  | .num (.int .i64_div_u) => !nodiv
  | _ => true
def coveredList (nodiv : Bool) (k : Nat) : List Inst → Bool
  | [] => true
  | i :: is => covered nodiv k i && coveredList nodiv k is
end

/-- No function of the store branches to its own label; with `nodiv`, none uses `i64.div_u` either. -/
def CoveredStore (nodiv : Bool) (s : Store) : Prop :=
  ∀ (a : Nat) t k code, s.func[a]? = some (.wasm t k code) → coveredList nodiv 0 code.expr = true

end Pywasm.Spec.Ref
