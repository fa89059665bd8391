import Verif.Model.File
import Verif.Model.WasiHost

/-!
# The command line: `python -m pywasm`

/repo/pywasm/__main__.py.  How `argparse` makes `Options` of the arguments is modelled in `Model/Args.lean`.  The contents of
the file are an argument (`.error` if it cannot be opened).
-/

namespace Pywasm.Cli
open M

/-- `args`, __main__.py:6-15. -/
structure Options where
  file : Str
  func : String := "_start"
  funcArgs : List Str := []
  wasiEnvs : List Str := []
  wasiDirs : List Str := []
  wasiArgs : List Str := []

/-- `e.split(c, 1)` for a character `c`: one or two parts. Python's `str.split`, used at __main__.py:23 and 26. -/
def split1 (c : Char) : Str → List Str
  | [] => [[]]
  | x :: l =>
    if x = c then [[], l]
    else match split1 c l with
      | a :: r => (x :: a) :: r
      | [] => [[x]]

/-- The loops of `main_wasi`, __main__.py:22-27: `spes[1]` raises `IndexError` if there is no second part. -/
def pairs (c : Char) (d : List (Str × Str)) : List Str → Except Err (List (Str × Str))
  | [] => .ok d
  | e :: l =>
    match split1 c e with
    | k :: v :: _ => pairs c (Wasi.dictSet d k v) l
    | _ => .error .index

/-- `pywasm.wasi.Preview1(…)`, __main__.py:30: the object is kept in the store of the model. -/
def preview1 (os : Wasi.Os) (args : List Str) (dirs envs : List (Str × Str)) (fds : Int × Int × Int) (names : Str × Str × Str) : M Unit :=
  fun m =>
    match Wasi.init os args dirs envs fds names with
    | (.ok (), s) => .ok () { m with store := { m.store with wasi := s.world } }
    | (.error e, s) => .error e { m with store := { m.store with wasi := s.world } }

/-- The embedder of the command line has no host functions of its own. -/
def noHost : Host := fun _ _ _ => throw (.host 0)

/-- `main_wasi`, __main__.py:18-34: the argument of `sys.exit`. -/
def mainWasi (os : Wasi.Os) (fds : Int × Int × Int) (names : Str × Str × Str) (lim N : Nat) (o : Options) (content : Except Err Bytes) :
    M Int := do
  let dirs ← lift (pairs ':' [] o.wasiDirs)
  let envs ← lift (pairs '=' [] o.wasiEnvs)
  preview1 os (o.file :: o.wasiArgs) dirs envs fds names
  let imports ← Wasi.bind []
  let file ← lift content
  let mod ← Runtime.instanceFromFile (Wasi.host os noHost) lim N imports file
  Wasi.main os noHost N mod

/-! ## The parsers of `main_wasm` -/

/-- ASCII characters that `int` strips, __main__.py:46. -/
def isSpace (c : Char) : Bool := c = ' ' || (9 ≤ c.toNat && c.toNat ≤ 13) || (28 ≤ c.toNat && c.toNat ≤ 31)
/-- `str.strip`, as `int` does it. -/
def strip (s : Str) : Str := ((s.dropWhile isSpace).reverse.dropWhile isSpace).reverse
/-- Digits, with single underscores between them (Python's integer literals). -/
def digits : Str → Option (List Char)
  | [] => none
  | [c] => if c.isDigit then some [c] else none
  | c :: '_' :: l => if c.isDigit then (digits l).map (c :: ·) else none
  | c :: l => if c.isDigit then (digits l).map (c :: ·) else none
/-- The value of digits. -/
def natOf (l : List Char) : Nat := l.foldl (fun n c => n * 10 + (c.toNat - 48)) 0
/-- An unsigned literal: Python refuses more than 4300 digits. -/
def parseNat (s : Str) : Except Err Nat :=
  match digits s with
  | some l => if l.length ≤ 4300 then .ok (natOf l) else .error .value
  | none => .error .value
/-- `int(e[1])`, __main__.py:46, on ASCII strings. Simplification: Python also accepts other Unicode digits and spaces. -/
def parseInt (s : Str) : Except Err Int :=
  match strip s with
  | '-' :: l => (parseNat l).map fun n : Nat => -(n : Int)
  | '+' :: l => (parseNat l).map fun n : Nat => (n : Int)
  | l => (parseNat l).map fun n : Nat => (n : Int)

/-- A hexadecimal digit. -/
def hexVal (c : Char) : Option Nat :=
  if c.isDigit then some (c.toNat - 48)
  else if 'a' ≤ c ∧ c ≤ 'f' then some (c.toNat - 97 + 10)
  else if 'A' ≤ c ∧ c ≤ 'F' then some (c.toNat - 65 + 10)
  else none
/-- `bytearray.fromhex`, __main__.py:52: pairs of digits, with ASCII spaces between pairs. -/
def fromHex : Str → Except Err Bytes
  | [] => .ok []
  | c :: l =>
    if c = ' ' || (9 ≤ c.toNat && c.toNat ≤ 13) then fromHex l
    else match l with
      | [] => .error .value
      | d :: l =>
        match hexVal c, hexVal d with
        | some a, some b => (fromHex l).map fun r => UInt8.ofNat (16 * a + b) :: r
        | _, _ => .error .value

/-- One round of the loop of `main_wasm`, __main__.py:44-54. `pf` is Python's `float`. -/
def convert (pf : Str → Except Err F64) (t : ValType) (s : Str) : Except Err HVal :=
  match t with
  | .i32 | .i64 => (parseInt s).map .int
  | .f32 | .f64 => (pf s).map .float
  | .v128 => (fromHex (s.drop 2)).map .bytes
  | .funcref | .externref => .error .assertion

/-- `main_wasm`, __main__.py:37-56: what it prints. The kind of the export is not looked at (line 40). -/
def mainWasm (pf : Str → Except Err F64) (lim N : Nat) (o : Options) (content : Except Err Bytes) : M (List HVal) := do
  let file ← lift content
  let mod ← Runtime.instanceFromFile noHost lim N [] file
  let addr := (← lift (findExport mod o.func)).addr
  let func ← idx (← get).store.func addr
  assert (decide (func.type.args.length = o.funcArgs.length))
  let args ← lift ((func.type.args.zip o.funcArgs).mapM fun p => convert pf p.1 p.2)
  Runtime.invocate noHost N mod o.func args

end Pywasm.Cli
