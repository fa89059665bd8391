import Verif.Spec.Binary

/-!
# What the decoder accepts

The grammar of the files that the decoder accepts and of what it makes of them.  It consists of the rules of
`Spec/Binary.lean` and of additional ones, each of which is marked *loose*.  `lim` bounds the nesting of blocks.
-/

namespace Pywasm.Spec.Bin
open Pywasm.Spec.Leb

/-- *Loose* forms of instructions without nested instructions. -/
inductive LooseLeaf : Inst → Bytes → Prop
  /-- the types of a typed `select` may be any numbers -/
  | selectType {l op x} : EncOp .select_type op → Vec U l x → LooseLeaf (.selectType l) (op ++ x)
  /-- the alignment of these loads may be any number -/
  | load {o a f op x} : o = .v128_load32_zero ∨ o = .v128_load64_zero → EncOp (.load o) op → EncMemarg a f x →
      LooseLeaf (.load o a f) (op ++ x)
  /-- the alignment may be any number, the lane may be written as a padded number -/
  | loadLane {w a f l op x y} : EncOp (.load_lane w) op → EncMemarg a f x → U l y → l < 16 / w.bytes →
      LooseLeaf (.loadLane w a f l) (op ++ x ++ y)
  | storeLane {w a f l op x y} : EncOp (.store_lane w) op → EncMemarg a f x → U l y → l < 16 / w.bytes →
      LooseLeaf (.storeLane w a f l) (op ++ x ++ y)
  /-- the memory may be any byte -/
  | memorySize {op} (b : UInt8) : EncOp .memory_size op → LooseLeaf (.memorySize b.toNat) (op ++ [b])
  | memoryGrow {op} (b : UInt8) : EncOp .memory_grow op → LooseLeaf (.memoryGrow b.toNat) (op ++ [b])
  /-- the type may be any byte -/
  | refNull {op} (b : UInt8) : EncOp .ref_null op → LooseLeaf (.refNull b.toNat) (op ++ [b])
  /-- lanes may be written as padded numbers -/
  | shuffle {op l bs} : EncOp .i8x16_shuffle op → l.length = 16 → List.Forall₂ U l bs → (∀ x ∈ l, x < 32) →
      LooseLeaf (.num (.shuffle l)) (op ++ bs.flatten)
  | lane {o l op x} : EncOp (.lane o) op → U l x → l < lanes o → LooseLeaf (.num (.lane o l)) (op ++ x)

/-- `blocktype`; *loose*: the number of the type may be negative, unless it is a value type or the empty type. -/
inductive AccBt : Bype → Bytes → Prop
  | strict {bt b} : EncBt bt b → AccBt bt b
  | idx {i : Int} {b : Bytes} : S i b → b ≠ [0x40] → (∀ t, b ≠ [valByte t]) → AccBt (.idx i) b

mutual
/-- `instr` -/
inductive AccI : Inst → Bytes → Prop
  | leaf {i b} : EncLeaf i b → AccI i b
  | loose {i b} : LooseLeaf i b → AccI i b
  | block {bt body op t b} : EncOp .block op → AccBt bt t → AccL body b → AccI (.block bt body) (op ++ t ++ b ++ [0x0B])
  | loop {bt body op t b} : EncOp .loop op → AccBt bt t → AccL body b → AccI (.loop bt body) (op ++ t ++ b ++ [0x0B])
  | ifThen {bt thn els op t b} : EncOp .if_then op → AccBt bt t → AccIf false thn els b →
      AccI (.ifThen bt thn els) (op ++ t ++ b ++ [0x0B])
/-- `instr*`; *loose*: `else` may stand anywhere. -/
inductive AccL : List Inst → Bytes → Prop
  | nil : AccL [] []
  | cons {i is a b} : AccI i a → AccL is b → AccL (i :: is) (a ++ b)
  | else {is b} : AccL is b → AccL (.elseFi :: is) ([0x05] ++ b)
/-- The instructions inside `if`, from a point before (`false`) or after (`true`) an `else`; *loose*: there may be any number of
`else`s. -/
inductive AccIf : Bool → List Inst → List Inst → Bytes → Prop
  | nil {e} : AccIf e [] [] []
  | thn {i thn els a b} : AccI i a → AccIf false thn els b → AccIf false (i :: thn) els (a ++ b)
  | els {i thn els a b} : AccI i a → AccIf true thn els b → AccIf true thn (i :: els) (a ++ b)
  | else {e thn els b} : AccIf true thn els b → AccIf e thn els ([0x05] ++ b)
end

/-- `expr` -/
def AccE (lim : Nat) (e : Expr) (b : Bytes) : Prop := nestL e < lim ∧ ∃ x, AccL e x ∧ b = x ++ [0x0B]

/-- `limits`; *loose*: any byte but 0 says that there is a maximum. -/
inductive AccLimits : Limits → Bytes → Prop
  | min {n x} : U n x → AccLimits ⟨n, 0⟩ ([0x00] ++ x)
  | minmax {f n m x y} : f ≠ 0x00 → U n x → U m y → AccLimits ⟨n, m⟩ ([f] ++ x ++ y)

/-- `tabletype` -/
def AccTableType (t : TableType) (b : Bytes) : Prop :=
  (t.type = .funcref ∨ t.type = .externref) ∧ ∃ x, AccLimits t.limits x ∧ b = [valByte t.type] ++ x

/-- `global` -/
def AccGlobal (lim : Nat) (g : GlobalDesc) (b : Bytes) : Prop := ∃ x y, EncGlobalType g.type x ∧ AccE lim g.init y ∧ b = x ++ y

/-- `importdesc` -/
inductive AccImportDesc : ImportDesc → Bytes → Prop
  | func {t x} : U t x → AccImportDesc (.func t) ([0x00] ++ x)
  | table {t x} : AccTableType t x → AccImportDesc (.table t) ([0x01] ++ x)
  | mem {l x} : AccLimits l x → AccImportDesc (.mem l) ([0x02] ++ x)
  | glob {t x} : EncGlobalType t x → AccImportDesc (.glob t) ([0x03] ++ x)

/-- `import` -/
def AccImport (i : Import) (b : Bytes) : Prop :=
  ∃ x y z, EncName i.module x ∧ EncName i.name y ∧ AccImportDesc i.desc z ∧ b = x ++ y ++ z

/-- `elem`; *loose*: the type may be any value type. -/
inductive AccElem (lim : Nat) : ElemDesc → Bytes → Prop
  | active0 {k o l x y} : U 0 k → AccE lim o x → Vec EncFuncRef l y → AccElem lim ⟨0, .funcref, 0, o, l⟩ (k ++ x ++ y)
  | passive1 {k l y} : U 1 k → Vec EncFuncRef l y → AccElem lim ⟨1, .funcref, 0, [], l⟩ (k ++ [0x00] ++ y)
  | active2 {k t o l w x y} : U 2 k → U t w → AccE lim o x → Vec EncFuncRef l y →
      AccElem lim ⟨2, .funcref, t, o, l⟩ (k ++ w ++ x ++ [0x00] ++ y)
  | declarative3 {k l y} : U 3 k → Vec EncFuncRef l y → AccElem lim ⟨3, .funcref, 0, [], l⟩ (k ++ [0x00] ++ y)
  | active4 {k o l x y} : U 4 k → AccE lim o x → Vec (AccE lim) l y → AccElem lim ⟨4, .funcref, 0, o, l⟩ (k ++ x ++ y)
  | passive5 {k t l y} : U 5 k → Vec (AccE lim) l y → AccElem lim ⟨5, t, 0, [], l⟩ (k ++ [valByte t] ++ y)
  | active6 {k i o t l w x y} : U 6 k → U i w → AccE lim o x → Vec (AccE lim) l y →
      AccElem lim ⟨6, t, i, o, l⟩ (k ++ w ++ x ++ [valByte t] ++ y)
  | declarative7 {k t l y} : U 7 k → Vec (AccE lim) l y → AccElem lim ⟨7, t, 0, [], l⟩ (k ++ [valByte t] ++ y)

/-- `n` bytes, before the bytes `r`; *loose*: there may be fewer if nothing follows, and `n` fits
Python's index type. -/
def Short (n : Nat) (d r : Bytes) : Prop := d.length = n ∨ d.length < n ∧ n < 2 ^ 63 ∧ r = []

/-- `vec(byte)`, before the bytes `r` -/
def AccBlob (d b r : Bytes) : Prop := ∃ n len, U n len ∧ Short n d r ∧ b = len ++ d

/-- `data`, before the bytes `r` -/
inductive AccData (lim : Nat) : DataDesc → Bytes → Bytes → Prop
  | active {k o d x y r} : U 0 k → AccE lim o x → AccBlob d y r → AccData lim ⟨0, o, d⟩ (k ++ x ++ y) r
  | passive {k d y r} : U 1 k → AccBlob d y r → AccData lim ⟨1, [], d⟩ (k ++ y) r
  | active2 {k o d w x y r} : U 2 k → U 0 w → AccE lim o x → AccBlob d y r → AccData lim ⟨2, o, d⟩ (k ++ w ++ x ++ y) r

/-- The least number with more than 4300 digits. -/
@[irreducible] def long : Nat := 10 ^ 4300

mutual
/-- The numbers of an instruction have at most 4300 digits, except those behind an `else`. -/
def listableI : Inst → Bool
  | .block bt b => (numbers (.block bt b)).all (fun n => decide (n.natAbs < long)) && listable b
  | .loop bt b => (numbers (.loop bt b)).all (fun n => decide (n.natAbs < long)) && listable b
  | .ifThen bt a b => (numbers (.ifThen bt a b)).all (fun n => decide (n.natAbs < long)) && listable a
  | i => (numbers i).all fun n => decide (n.natAbs < long)
/-- The numbers in an instruction sequence have at most 4300 digits, except those behind an `else`. -/
def listable : List Inst → Bool
  | [] => true
  | i :: is => listableI i && listable is
end

/-- `code`, before the bytes `r`: the locals and the body; *loose*: the size may be larger than what they need, and numbers may
have up to 4300 digits, or any number of digits behind an `else`. -/
def AccCode (lim : Nat) (f : List (Nat × ValType) × Expr) (b r : Bytes) : Prop :=
  listable f.2 ∧ ∃ n size x y z, U n size ∧ Vec EncLocals f.1 x ∧ AccE lim f.2 y ∧ Short n (x ++ y ++ z) r ∧ b = size ++ (x ++ y ++ z)

/-- A sequence of objects, before the bytes `r`. -/
inductive Seq {α} (R : α → Bytes → Bytes → Prop) : List α → Bytes → Bytes → Prop
  | nil {r} : Seq R [] [] r
  | cons {x xs b c r} : R x b (c ++ r) → Seq R xs c r → Seq R (x :: xs) (b ++ c) r

/-- `vec(X)`, before the bytes `r` -/
def AccVec {α} (R : α → Bytes → Bytes → Prop) (xs : List α) (b r : Bytes) : Prop :=
  ∃ len c, U xs.length len ∧ Seq R xs c r ∧ b = len ++ c

/-- The functions get their locals and bodies. -/
def withCode (func : List FuncDesc) (l : List (List (Nat × ValType) × Expr)) : List FuncDesc :=
  List.zipWith (fun f c => ⟨f.type, c.1, c.2⟩) func l ++ func.drop l.length

/-- The contents of a section with the given id, and what becomes of the description read so far.  *Loose*: bytes may follow the
entries (`r`), a section of any kind may come at any place and more than once, and sections with unknown ids may contain
anything. -/
inductive AccBody (lim : Nat) (m : ModuleDesc) : UInt8 → Bytes → ModuleDesc → Prop
  /-- *loose*: the name may be shorter than it says -/
  | custom {n len} {s : String} {d} : U n len → Short n s.toUTF8.data.toList d → AccBody lim m 0 (len ++ s.toUTF8.data.toList ++ d) m
  | type {l b r} : Vec EncFuncType l b → AccBody lim m 1 (b ++ r) { m with type := m.type ++ l }
  | imps {l b r} : Vec AccImport l b → AccBody lim m 2 (b ++ r) { m with imps := m.imps ++ l }
  | func {l b r} : Vec U l b → AccBody lim m 3 (b ++ r) { m with func := m.func ++ l.map fun t => ⟨t, [], []⟩ }
  | tabl {l b r} : Vec AccTableType l b → AccBody lim m 4 (b ++ r) { m with tabl := m.tabl ++ l }
  | mems {l b r} : Vec AccLimits l b → AccBody lim m 5 (b ++ r) { m with mems := m.mems ++ l }
  | glob {l b r} : Vec (AccGlobal lim) l b → AccBody lim m 6 (b ++ r) { m with glob := m.glob ++ l }
  | exps {l b r} : Vec EncExport l b → AccBody lim m 7 (b ++ r) { m with exps := m.exps ++ l }
  | star {f b r} : U f b → AccBody lim m 8 (b ++ r) { m with star := some f }
  | elem {l b r} : Vec (AccElem lim) l b → AccBody lim m 9 (b ++ r) { m with elem := m.elem ++ l }
  | code {l b r} : AccVec (AccCode lim) l b r → l.length ≤ m.func.length → AccBody lim m 10 (b ++ r) { m with func := withCode m.func l }
  | data {l b r} : AccVec (AccData lim) l b r → AccBody lim m 11 (b ++ r) { m with data := m.data ++ l }
  /-- *loose*: the number of data segments may be any number -/
  | dataCount {n b r} : U n b → AccBody lim m 12 (b ++ r) m
  | unknown {id c} : 12 < id.toNat → AccBody lim m id c m

/-- At most `k` sections, which turn the description `m` into `m'`; *loose*: after `k` sections, anything may follow (`r`). -/
inductive AccSections (lim : Nat) : Nat → ModuleDesc → Bytes → ModuleDesc → Bytes → Prop
  | done {k m} : AccSections lim k m [] m []
  | full {m r} : AccSections lim 0 m r m r
  | sect {k m m1 m' id size c b r} : U c.length size → AccBody lim m id c m1 → AccSections lim k m1 b m' r →
      AccSections lim (k + 1) m ([id] ++ size ++ c ++ b) m' r

/-- `module`; `r` is what is left unread. -/
def AccModule (lim : Nat) (m : ModuleDesc) (b r : Bytes) : Prop :=
  ∃ x, AccSections lim 32 {} x m r ∧ b = [0x00, 0x61, 0x73, 0x6D] ++ [0x01, 0x00, 0x00, 0x00] ++ x

end Pywasm.Spec.Bin
