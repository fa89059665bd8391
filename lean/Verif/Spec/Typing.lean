import Verif.Spec.Ref
import Mathlib.Data.List.Forall2

/-!
# Validation

The validation rules of the WebAssembly 2.0 core specification, chapter 3, as inductive relations, and what it means for
a store to be well typed (appendix A.2 of the specification).

Operand types are listed with the top of the stack first, as the operand stacks of the model are.  The condition on
`ref.func` that the function occurs elsewhere in the module (`C.refs`) is left out: it only narrows the set of valid
modules.
-/

namespace Pywasm.Spec.Typing

/-- A function type with its operands and results top first. -/
abbrev Sig := List ValType × List ValType

/-- 3.3.1: integer instructions. -/
def intSig : IOp → Sig
  | .i32_eqz | .i32_clz | .i32_ctz | .i32_popcnt | .i32_extend8_s | .i32_extend16_s => ([.i32], [.i32])
  | .i32_eq | .i32_ne | .i32_lt_s | .i32_lt_u | .i32_gt_s | .i32_gt_u | .i32_le_s | .i32_le_u | .i32_ge_s | .i32_ge_u
  | .i32_add | .i32_sub | .i32_mul | .i32_div_s | .i32_div_u | .i32_rem_s | .i32_rem_u | .i32_and | .i32_or | .i32_xor
  | .i32_shl | .i32_shr_s | .i32_shr_u | .i32_rotl | .i32_rotr => ([.i32, .i32], [.i32])
  | .i64_eqz | .i32_wrap_i64 => ([.i64], [.i32])
  | .i64_clz | .i64_ctz | .i64_popcnt | .i64_extend8_s | .i64_extend16_s | .i64_extend32_s => ([.i64], [.i64])
  | .i64_eq | .i64_ne | .i64_lt_s | .i64_lt_u | .i64_gt_s | .i64_gt_u | .i64_le_s | .i64_le_u | .i64_ge_s | .i64_ge_u =>
    ([.i64, .i64], [.i32])
  | .i64_add | .i64_sub | .i64_mul | .i64_div_s | .i64_div_u | .i64_rem_s | .i64_rem_u | .i64_and | .i64_or | .i64_xor
  | .i64_shl | .i64_shr_s | .i64_shr_u | .i64_rotl | .i64_rotr => ([.i64, .i64], [.i64])
  | .i64_extend_i32_s | .i64_extend_i32_u => ([.i32], [.i64])

/-- 3.3.1: floating-point instructions and conversions. -/
def fltSig : FOp → Sig
  | .f32_eq | .f32_ne | .f32_lt | .f32_gt | .f32_le | .f32_ge => ([.f32, .f32], [.i32])
  | .f64_eq | .f64_ne | .f64_lt | .f64_gt | .f64_le | .f64_ge => ([.f64, .f64], [.i32])
  | .f32_abs | .f32_neg | .f32_ceil | .f32_floor | .f32_trunc | .f32_nearest | .f32_sqrt => ([.f32], [.f32])
  | .f64_abs | .f64_neg | .f64_ceil | .f64_floor | .f64_trunc | .f64_nearest | .f64_sqrt => ([.f64], [.f64])
  | .f32_add | .f32_sub | .f32_mul | .f32_div | .f32_min | .f32_max | .f32_copysign => ([.f32, .f32], [.f32])
  | .f64_add | .f64_sub | .f64_mul | .f64_div | .f64_min | .f64_max | .f64_copysign => ([.f64, .f64], [.f64])
  | .i32_trunc_f32_s | .i32_trunc_f32_u | .i32_trunc_sat_f32_s | .i32_trunc_sat_f32_u | .i32_reinterpret_f32 =>
    ([.f32], [.i32])
  | .i32_trunc_f64_s | .i32_trunc_f64_u | .i32_trunc_sat_f64_s | .i32_trunc_sat_f64_u => ([.f64], [.i32])
  | .i64_trunc_f32_s | .i64_trunc_f32_u | .i64_trunc_sat_f32_s | .i64_trunc_sat_f32_u => ([.f32], [.i64])
  | .i64_trunc_f64_s | .i64_trunc_f64_u | .i64_trunc_sat_f64_s | .i64_trunc_sat_f64_u | .i64_reinterpret_f64 =>
    ([.f64], [.i64])
  | .f32_convert_i32_s | .f32_convert_i32_u | .f32_reinterpret_i32 => ([.i32], [.f32])
  | .f32_convert_i64_s | .f32_convert_i64_u => ([.i64], [.f32])
  | .f64_convert_i32_s | .f64_convert_i32_u => ([.i32], [.f64])
  | .f64_convert_i64_s | .f64_convert_i64_u | .f64_reinterpret_i64 => ([.i64], [.f64])
  | .f32_demote_f64 => ([.f64], [.f32])
  | .f64_promote_f32 => ([.f32], [.f64])

/-- 3.3.3: vector instructions. Those not listed take two vectors and make one. -/
def vecSig : VOp → Sig
  | .i8x16_splat | .i16x8_splat | .i32x4_splat => ([.i32], [.v128])
  | .i64x2_splat => ([.i64], [.v128])
  | .f32x4_splat => ([.f32], [.v128])
  | .f64x2_splat => ([.f64], [.v128])
  | .v128_any_true | .i8x16_all_true | .i16x8_all_true | .i32x4_all_true | .i64x2_all_true | .i8x16_bitmask
  | .i16x8_bitmask | .i32x4_bitmask | .i64x2_bitmask => ([.v128], [.i32])
  | .i8x16_shl | .i8x16_shr_s | .i8x16_shr_u | .i16x8_shl | .i16x8_shr_s | .i16x8_shr_u | .i32x4_shl | .i32x4_shr_s
  | .i32x4_shr_u | .i64x2_shl | .i64x2_shr_s | .i64x2_shr_u => ([.i32, .v128], [.v128])
  | .v128_bitselect => ([.v128, .v128, .v128], [.v128])
  | .v128_not | .i8x16_abs | .i8x16_neg | .i8x16_popcnt | .i16x8_abs | .i16x8_neg | .i32x4_abs | .i32x4_neg | .i64x2_abs
  | .i64x2_neg | .f32x4_abs | .f32x4_neg | .f32x4_sqrt | .f32x4_ceil | .f32x4_floor | .f32x4_trunc | .f32x4_nearest
  | .f64x2_abs | .f64x2_neg | .f64x2_sqrt | .f64x2_ceil | .f64x2_floor | .f64x2_trunc | .f64x2_nearest
  | .i16x8_extadd_pairwise_i8x16_s | .i16x8_extadd_pairwise_i8x16_u | .i32x4_extadd_pairwise_i16x8_s
  | .i32x4_extadd_pairwise_i16x8_u | .i16x8_extend_low_i8x16_s | .i16x8_extend_high_i8x16_s | .i16x8_extend_low_i8x16_u
  | .i16x8_extend_high_i8x16_u | .i32x4_extend_low_i16x8_s | .i32x4_extend_high_i16x8_s | .i32x4_extend_low_i16x8_u
  | .i32x4_extend_high_i16x8_u | .i64x2_extend_low_i32x4_s | .i64x2_extend_high_i32x4_s | .i64x2_extend_low_i32x4_u
  | .i64x2_extend_high_i32x4_u | .f32x4_demote_f64x2_zero | .f64x2_promote_low_f32x4 | .i32x4_trunc_sat_f32x4_s
  | .i32x4_trunc_sat_f32x4_u | .f32x4_convert_i32x4_s | .f32x4_convert_i32x4_u | .i32x4_trunc_sat_f64x2_s_zero
  | .i32x4_trunc_sat_f64x2_u_zero | .f64x2_convert_low_i32x4_s | .f64x2_convert_low_i32x4_u => ([.v128], [.v128])
  | _ => ([.v128, .v128], [.v128])

/-- 3.3.3: vector instructions with a lane index. -/
def laneSig : LOp → Sig
  | .i8x16_extract_lane_s | .i8x16_extract_lane_u | .i16x8_extract_lane_s | .i16x8_extract_lane_u
  | .i32x4_extract_lane => ([.v128], [.i32])
  | .i64x2_extract_lane => ([.v128], [.i64])
  | .f32x4_extract_lane => ([.v128], [.f32])
  | .f64x2_extract_lane => ([.v128], [.f64])
  | .i8x16_replace_lane | .i16x8_replace_lane | .i32x4_replace_lane => ([.i32, .v128], [.v128])
  | .i64x2_replace_lane => ([.i64, .v128], [.v128])
  | .f32x4_replace_lane => ([.f32, .v128], [.v128])
  | .f64x2_replace_lane => ([.f64, .v128], [.v128])

def numSig : NumOp → Sig
  | .int op => intSig op
  | .flt op => fltSig op
  | .vec op => vecSig op
  | .lane op _ => laneSig op
  | .shuffle _ => ([.v128, .v128], [.v128])

/-- The conditions on immediates of these instructions. -/
def numImm : NumOp → Prop
  | .lane op i => i < laneCount op
  | .shuffle sel => sel.length = 16 ∧ ∀ j ∈ sel, j < 32
  | _ => True

/-- The numeric instructions that the specification lets trap (4.4.1 with 4.3.2, 4.3.4): integer division and remainder,
and the truncation of floats to integers that does not saturate. -/
def numTraps : NumOp → Bool
  | .int .i32_div_s | .int .i32_div_u | .int .i32_rem_s | .int .i32_rem_u
  | .int .i64_div_s | .int .i64_div_u | .int .i64_rem_s | .int .i64_rem_u
  | .flt .i32_trunc_f32_s | .flt .i32_trunc_f32_u | .flt .i32_trunc_f64_s | .flt .i32_trunc_f64_u
  | .flt .i64_trunc_f32_s | .flt .i64_trunc_f32_u | .flt .i64_trunc_f64_s | .flt .i64_trunc_f64_u => true
  | _ => false

/-- The instructions whose execution the specification lets trap (4.4), apart from calls: `unreachable`, the numeric
instructions above, and accesses to memories, tables and segments, which may be out of bounds. -/
def mayTrap : Inst → Bool
  | .unreachable => true
  | .num op => numTraps op
  | .load _ _ _ | .store _ _ _ | .loadLane _ _ _ _ | .storeLane _ _ _ _ | .memoryFill | .memoryCopy | .memoryInit _ => true
  | .tableGet _ | .tableSet _ | .tableFill _ | .tableCopy _ _ | .tableInit _ _ => true
  | _ => false

/-- 3.3.7: the type of the value a load makes. -/
def loadTy : LoadOp → ValType
  | .i32_load | .i32_load8_s | .i32_load8_u | .i32_load16_s | .i32_load16_u => .i32
  | .i64_load | .i64_load8_s | .i64_load8_u | .i64_load16_s | .i64_load16_u | .i64_load32_s | .i64_load32_u => .i64
  | .f32_load => .f32
  | .f64_load => .f64
  | .v128_load | .v128_load8x8_s | .v128_load8x8_u | .v128_load16x4_s | .v128_load16x4_u | .v128_load32x2_s
  | .v128_load32x2_u | .v128_load8_splat | .v128_load16_splat | .v128_load32_splat | .v128_load64_splat
  | .v128_load32_zero | .v128_load64_zero => .v128
/-- 3.3.7: the type of the value a store takes. -/
def storeTy : StoreOp → ValType
  | .i32_store | .i32_store8 | .i32_store16 => .i32
  | .i64_store | .i64_store8 | .i64_store16 | .i64_store32 => .i64
  | .f32_store => .f32
  | .f64_store => .f64
  | .v128_store => .v128

/-- The control instructions, 3.3.8, except `nop` and `unreachable`. -/
def isControl : Inst → Bool
  | .block _ _ | .loop _ _ | .ifThen _ _ _ | .br _ | .brIf _ | .brTable _ _ | .ret | .call _ | .callIndirect _ _ => true
  | _ => false

/-- 3.1.1: contexts. -/
structure Ctx where
  types : List FuncType
  funcs : List FuncType
  tables : List ValType
  mems : Nat
  globals : List GlobalType
  elems : List ValType
  datas : Nat
  locals : List ValType := []
  labels : List (List ValType) := []
  ret : List ValType := []

/-- 3.2.2: block types. -/
def Ctx.block (C : Ctx) : Bype → Option FuncType
  | .empty => some ⟨[], []⟩
  | .val t => some ⟨[], [t]⟩
  | .idx i => if 0 ≤ i then C.types[i.toNat]? else none

mutual
/-- 3.3: `Instr C i a b`: the instruction `i` takes operands `a` and leaves `b` (top first). -/
inductive Instr : Ctx → Inst → List ValType → List ValType → Prop
  -- control instructions, 3.3.8
  | nop {C} : Instr C .nop [] []
  | unreachable {C} (a b) : Instr C .unreachable a b
  | block {C bt body t} (ht : C.block bt = some t)
      (hb : Code { C with labels := t.rets :: C.labels } body t.args.reverse t.rets.reverse) :
      Instr C (.block bt body) t.args.reverse t.rets.reverse
  | loop {C bt body t} (ht : C.block bt = some t)
      (hb : Code { C with labels := t.args :: C.labels } body t.args.reverse t.rets.reverse) :
      Instr C (.loop bt body) t.args.reverse t.rets.reverse
  | ifThen {C bt thn els t} (ht : C.block bt = some t)
      (h1 : Code { C with labels := t.rets :: C.labels } thn t.args.reverse t.rets.reverse)
      (h2 : Code { C with labels := t.rets :: C.labels } els t.args.reverse t.rets.reverse) :
      Instr C (.ifThen bt thn els) (.i32 :: t.args.reverse) t.rets.reverse
  | br {C l ts} (a b) (h : C.labels[l]? = some ts) : Instr C (.br l) (ts.reverse ++ a) b
  | brIf {C l ts} (h : C.labels[l]? = some ts) : Instr C (.brIf l) (.i32 :: ts.reverse) ts.reverse
  | brTable {C ls d ts} (a b) (h : ∀ l ∈ d :: ls, C.labels[l]? = some ts) :
      Instr C (.brTable ls d) (.i32 :: ts.reverse ++ a) b
  | ret {C} (a b) : Instr C .ret (C.ret.reverse ++ a) b
  | call {C f t} (h : C.funcs[f]? = some t) : Instr C (.call f) t.args.reverse t.rets.reverse
  | callIndirect {C i tab t} (ht : C.tables[tab]? = some .funcref) (h : C.types[i]? = some t) :
      Instr C (.callIndirect i tab) (.i32 :: t.args.reverse) t.rets.reverse
  -- parametric and variable instructions, 3.3.4, 3.3.5
  | drop {C} (t) : Instr C .drop [t] []
  | select {C t} (h : t.isRef = false) : Instr C .select [.i32, t, t] [t]
  | selectType {C} (t : ValType) : Instr C (.selectType [t.code]) [.i32, t, t] [t]
  | localGet {C i t} (h : C.locals[i]? = some t) : Instr C (.localGet i) [] [t]
  | localSet {C i t} (h : C.locals[i]? = some t) : Instr C (.localSet i) [t] []
  | localTee {C i t} (h : C.locals[i]? = some t) : Instr C (.localTee i) [t] [t]
  | globalGet {C i g} (h : C.globals[i]? = some g) : Instr C (.globalGet i) [] [g.type]
  | globalSet {C i g} (h : C.globals[i]? = some g) (hm : g.isMut = true) : Instr C (.globalSet i) [g.type] []
  -- numeric, vector and reference instructions, 3.3.1 to 3.3.3
  | i32Const {C n} (h : -2 ^ 31 ≤ n ∧ n < 2 ^ 31) : Instr C (.i32Const n) [] [.i32]
  | i64Const {C n} (h : -2 ^ 63 ≤ n ∧ n < 2 ^ 63) : Instr C (.i64Const n) [] [.i64]
  | f32Const {C n} (h : -2 ^ 31 ≤ n ∧ n < 2 ^ 31) : Instr C (.f32Const n) [] [.f32]
  | f64Const {C n} (h : -2 ^ 63 ≤ n ∧ n < 2 ^ 63) : Instr C (.f64Const n) [] [.f64]
  | v128Const {C} {b : Bytes} (h : b.length = 16) : Instr C (.v128Const b) [] [.v128]
  | num {C op} (h : numImm op) : Instr C (.num op) (numSig op).1 (numSig op).2
  | refNull {C t} (h : t.isRef = true) : Instr C (.refNull t.code) [] [t]
  | refIsNull {C t} (h : t.isRef = true) : Instr C .refIsNull [t] [.i32]
  | refFunc {C f t} (h : C.funcs[f]? = some t) : Instr C (.refFunc f) [] [.funcref]
  -- table instructions, 3.3.6
  | tableGet {C i t} (h : C.tables[i]? = some t) : Instr C (.tableGet i) [.i32] [t]
  | tableSet {C i t} (h : C.tables[i]? = some t) : Instr C (.tableSet i) [t, .i32] []
  | tableSize {C i t} (h : C.tables[i]? = some t) : Instr C (.tableSize i) [] [.i32]
  | tableGrow {C i t} (h : C.tables[i]? = some t) : Instr C (.tableGrow i) [.i32, t] [.i32]
  | tableFill {C i t} (h : C.tables[i]? = some t) : Instr C (.tableFill i) [.i32, t, .i32] []
  | tableCopy {C i j t} (h : C.tables[i]? = some t) (h' : C.tables[j]? = some t) :
      Instr C (.tableCopy i j) [.i32, .i32, .i32] []
  | tableInit {C e i t} (h : C.tables[i]? = some t) (h' : C.elems[e]? = some t) :
      Instr C (.tableInit e i) [.i32, .i32, .i32] []
  | elemDrop {C e t} (h : C.elems[e]? = some t) : Instr C (.elemDrop e) [] []
  -- memory instructions, 3.3.7
  | load {C op al off} (hm : 0 < C.mems) (ha : 2 ^ al ≤ loadWidth op) : Instr C (.load op al off) [.i32] [loadTy op]
  | store {C op al off} (hm : 0 < C.mems) (ha : 2 ^ al ≤ storeWidth op) :
      Instr C (.store op al off) [storeTy op, .i32] []
  | loadLane {C w al off l} (hm : 0 < C.mems) (ha : 2 ^ al ≤ w.bytes) (hl : l < 16 / w.bytes) :
      Instr C (.loadLane w al off l) [.v128, .i32] [.v128]
  | storeLane {C w al off l} (hm : 0 < C.mems) (ha : 2 ^ al ≤ w.bytes) (hl : l < 16 / w.bytes) :
      Instr C (.storeLane w al off l) [.v128, .i32] []
  | memorySize {C b} (hm : 0 < C.mems) : Instr C (.memorySize b) [] [.i32]
  | memoryGrow {C b} (hm : 0 < C.mems) : Instr C (.memoryGrow b) [.i32] [.i32]
  | memoryFill {C} (hm : 0 < C.mems) : Instr C .memoryFill [.i32, .i32, .i32] []
  | memoryCopy {C} (hm : 0 < C.mems) : Instr C .memoryCopy [.i32, .i32, .i32] []
  | memoryInit {C i} (hm : 0 < C.mems) (h : i < C.datas) : Instr C (.memoryInit i) [.i32, .i32, .i32] []
  | dataDrop {C i} (h : i < C.datas) : Instr C (.dataDrop i) [] []
/-- 3.3.9: instruction sequences; `r` are operands an instruction does not touch. -/
inductive Code : Ctx → List Inst → List ValType → List ValType → Prop
  | nil {C} (a) : Code C [] a a
  | cons {C i is a b c} (r) (h : Instr C i a b) (hs : Code C is (b ++ r) c) : Code C (i :: is) (a ++ r) c
end

/-- The types of the locals of a function: its parameters, then the declared locals. -/
def localTypes (t : FuncType) (code : FuncDesc) : List ValType :=
  t.args ++ code.locals.flatMap fun e => List.replicate e.1 e.2

/-- 3.4.1: a function of type `t` is valid. -/
def ValidFunc (C : Ctx) (t : FuncType) (code : FuncDesc) : Prop :=
  Code { C with locals := localTypes t code, labels := [t.rets], ret := t.rets } code.expr [] t.rets.reverse

/-! ## Well-typed stores -/

/-- What is known about the addresses of a store. -/
structure StoreType where
  funcs : List FuncType
  tables : List ValType
  mems : Nat
  globals : List GlobalType
  elems : List ValType
  datas : Nat
  /-- which host function (by code) may be bound with which type -/
  hosts : Nat → FuncType → Prop

/-- The store has got more entries. -/
structure StoreType.Le (S T : StoreType) : Prop where
  funcs : S.funcs <+: T.funcs
  tables : S.tables <+: T.tables
  mems : S.mems ≤ T.mems
  globals : S.globals <+: T.globals
  elems : S.elems <+: T.elems
  datas : S.datas ≤ T.datas
  hosts : T.hosts = S.hosts

/-- `v` is a value of type `t`: references are null or, if they are function references, point to a function. -/
def ValOk (S : StoreType) (v : Val) (t : ValType) : Prop :=
  v.ty = t ∧ (t.isRef = true → v.data[4]? = some 0 ∨
    v.data[4]? = some 1 ∧ (t = .funcref → 0 ≤ v.low32.toInt ∧ v.low32.toInt < S.funcs.length))

/-- A list of values of these types. -/
def ValsOk (S : StoreType) : List Val → List ValType → Prop := List.Forall₂ (ValOk S)

/-- The instance `mod` provides what the context `C` promises. -/
structure ModOk (S : StoreType) (C : Ctx) (mod : ModuleInst) : Prop where
  types : mod.type = C.types
  funcs : List.Forall₂ (fun a t => S.funcs[a]? = some t) mod.func C.funcs
  tables : List.Forall₂ (fun a t => S.tables[a]? = some t) mod.tabl C.tables
  mems : C.mems ≤ mod.mems.length ∧ ∀ a ∈ mod.mems, a < S.mems
  globals : List.Forall₂ (fun a t => S.globals[a]? = some t) mod.glob C.globals
  elems : List.Forall₂ (fun a t => S.elems[a]? = some t) mod.elem C.elems
  datas : C.datas ≤ mod.data.length ∧ ∀ a ∈ mod.data, a < S.datas

/-- A function instance: a function of a module must be valid in a context its module provides. -/
def FuncOk (S : StoreType) (s : Store) : FuncInst → Prop
  | .wasm t k code => ∃ mod C, s.mods[k]? = some mod ∧ ModOk S C mod ∧ ValidFunc C t code
  | .host t c => S.hosts c t

/-- The store has type `S`. -/
structure StoreOk (S : StoreType) (s : Store) : Prop where
  funcs : s.func.map FuncInst.type = S.funcs
  code : ∀ f ∈ s.func, FuncOk S s f
  few : s.func.length ≤ 2 ^ 31
  tables : List.Forall₂ (fun (t : TableInst) ty => t.type.type = ty ∧ t.size < 2 ^ 31 ∧ ∀ v ∈ t.elem, ValOk S v ty)
    s.tabl S.tables
  mems : s.mems.length = S.mems ∧ ∀ m ∈ s.mems, m.size ≤ 65536
  globals : List.Forall₂ (fun (g : GlobalInst) ty => g.isMut = ty.isMut ∧ ValOk S g.data ty.type) s.glob S.globals
  elems : List.Forall₂ (fun (e : ElemInst) ty => ∀ v ∈ e.data, ValOk S v ty) s.elem S.elems
  datas : s.data.length = S.datas ∧ ∀ b ∈ s.data, b < s.bufs.length

/-- Code in context `C` may run in this state with operands of types `ts`. -/
structure StOk (S : StoreType) (C : Ctx) (st : Ref.St) (ts : List ValType) : Prop where
  store : StoreOk S st.store
  locals : ValsOk S st.locals C.locals
  vs : ValsOk S st.vs ts

/-- The host functions, bound with types that `B` allows and called with values of their declared parameter types in a
well-typed store, return as many results as declared, whose references are proper, and leave (also when they raise) a
well-typed store. -/
def HostOk (B : Nat → FuncType → Prop) (H : Host) : Prop :=
  ∀ S s t c caller args xs, S.hosts = B → StoreOk S s → B c t → ValsOk S args t.args → args.mapM Val.intoAll = .ok xs →
    match H c caller xs s with
    | .ok ys s' => ∃ T, S.Le T ∧ StoreOk T s' ∧ ys.length = t.rets.length ∧
        ∀ p ∈ t.rets.zip ys, ∀ v, Val.fromAll p.1 p.2 = .ok v → ValOk T v p.1
    | .error _ s' => ∃ T, S.Le T ∧ StoreOk T s'

end Pywasm.Spec.Typing
