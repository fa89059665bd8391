import Verif.Model.Args

/-!
# What a command line says

Independent of how it is parsed: a command line is a sequence of items, each written as one or two words.
-/

namespace Pywasm.Spec.CommandLine

/-- One thing a command line says. -/
inductive Item
  | file (f : Str)
  | func (v : Str)
  | funcArg (v : Str)
  | env (v : Str)
  | dir (v : Str)
  | arg (v : Str)
  | wasi

/-- The option that says it, and the option's value. -/
def Item.option : Item → Option (Str × Str)
  | .file _ => none
  | .func v => some ("--func".toList, v)
  | .funcArg v => some ("--func-args".toList, v)
  | .env v => some ("--wasi-envs".toList, v)
  | .dir v => some ("--wasi-dirs".toList, v)
  | .arg v => some ("--wasi-args".toList, v)
  | .wasi => some ("--wasi".toList, "preview1".toList)

/-- The long names of all options. -/
def names : List Str :=
  ["--help".toList, "--version".toList, "--func".toList, "--func-args".toList, "--wasi-envs".toList, "--wasi-dirs".toList,
   "--wasi-args".toList, "--wasi".toList]

/-- `w` names the option `n`: it is the name, or an abbreviation of this name and of no other. -/
def Names (w n : Str) : Prop := w = n ∨ ("--".toList <+: w ∧ ∀ m ∈ names, w <+: m ↔ m = n)

/-- A negative number, `-12` or `-1.5` or `-.5`. -/
def NegNum (v : Str) : Prop :=
  (∃ a, v = '-' :: a ∧ a ≠ [] ∧ ∀ c ∈ a, c.isDigit) ∨
  (∃ a b, v = '-' :: a ++ '.' :: b ∧ b ≠ [] ∧ (∀ c ∈ a, c.isDigit) ∧ ∀ c ∈ b, c.isDigit)

/-- `v` begins like an option the parser has. -/
def Known (v : Str) : Prop :=
  "-h".toList <+: v ∨ "-v".toList <+: v ∨ ∃ s, "--".toList <+: s ∧ (s = v ∨ ∃ r, v = s ++ '=' :: r) ∧ ∃ m ∈ names, s <+: m

/-- `v` can stand alone as a file name or as the value of an option: it does not begin with a dash, or it is a dash, or it does not begin
like an option and is a negative number (perhaps with a newline after it) or has a space in it. -/
def Word (v : Str) : Prop :=
  v.head? ≠ some '-' ∨ v = "-".toList ∨ (¬ Known v ∧ (NegNum v ∨ (∃ u, NegNum u ∧ v = u ++ ['\n']) ∨ ' ' ∈ v))

/-- `Line items argv`: the words `argv` say `items`. -/
inductive Line : List Item → List Str → Prop
  | nil : Line [] []
  /-- After `--` any word is the file. -/
  | marked (f : Str) : Line [.file f] ["--".toList, f]
  /-- A `--` may stand at the end, after the file. -/
  | closed {f : Str} : Word f → Line [.file f] [f, "--".toList]
  | file {f : Str} {l : List Item} {r : List Str} : Word f → Line l r → Line (.file f :: l) (f :: r)
  /-- `--name=value`, with any value. -/
  | joined {it : Item} {w n v : Str} {l : List Item} {r : List Str} : it.option = some (n, v) → Names w n → Line l r →
      Line (it :: l) ((w ++ '=' :: v) :: r)
  /-- `--name value`. -/
  | split {it : Item} {w n v : Str} {l : List Item} {r : List Str} : it.option = some (n, v) → Names w n → Word v → Line l r →
      Line (it :: l) (w :: v :: r)

/-- The file an item names. -/
def Item.asFile : Item → Option Str
  | .file f => some f
  | _ => none
/-- The function an item names. -/
def Item.asFunc : Item → Option Str
  | .func v => some v
  | _ => none
/-- The argument for the function that an item gives. -/
def Item.asFuncArg : Item → Option Str
  | .funcArg v => some v
  | _ => none
/-- The variable an item sets. -/
def Item.asEnv : Item → Option Str
  | .env v => some v
  | _ => none
/-- The directory an item opens. -/
def Item.asDir : Item → Option Str
  | .dir v => some v
  | _ => none
/-- The argument for the program that an item gives. -/
def Item.asArg : Item → Option Str
  | .arg v => some v
  | _ => none

/-- The options that items stand for: there is exactly one file; of several `--func` the last counts; the others are collected in order. -/
structure Means (items : List Item) (o : Cli.Options) (wasi : Bool) : Prop where
  file : (items.filterMap Item.asFile) = [o.file]
  func : o.func = String.ofList ((items.filterMap Item.asFunc).getLast?.getD "_start".toList)
  funcArgs : o.funcArgs = items.filterMap Item.asFuncArg
  envs : o.wasiEnvs = items.filterMap Item.asEnv
  dirs : o.wasiDirs = items.filterMap Item.asDir
  args : o.wasiArgs = items.filterMap Item.asArg
  wasi : wasi = true ↔ .wasi ∈ items

/-! ## Help and version -/

/-- What may follow `-h` or `-v` in the same word: more of these letters, and after them anything that does not begin with a dash or `=`. -/
def Cluster (t : Str) : Prop :=
  ∃ a b, t = a ++ b ∧ (∀ c ∈ a, c = 'h' ∨ c = 'v') ∧ ∀ x, b.head? = some x → x ≠ 'h' ∧ x ≠ 'v' ∧ x ≠ '-' ∧ x ≠ '='

/-- `w` is the option without a value that has these names. -/
def Asks (short long w : Str) : Prop := Names w long ∨ ∃ t, w = short ++ t ∧ Cluster t

/-- `w`, up to a `=`, begins like an option the parser has, without naming one. -/
def Ambiguous (w : Str) : Prop :=
  ∃ s, "--".toList <+: s ∧ (s = w ∨ ∃ r, w = s ++ '=' :: r) ∧ (∃ m ∈ names, s <+: m) ∧ ∀ m ∈ names, ¬ Names s m

/-- `Stops short long argv`: the option without a value that has these names is in `argv`, before any other such option, after words that say
items or that are no known option, and no word before a `--` is ambiguous. -/
inductive Stops (short long : Str) : List Str → Prop
  | here {w : Str} {r : List Str} : Asks short long w → (∀ u ∈ r.takeWhile (· ≠ "--".toList), ¬ Ambiguous u) → Stops short long (w :: r)
  | file {f : Str} {r : List Str} : Word f → r.head? ≠ some "--".toList → Stops short long r → Stops short long (f :: r)
  /-- A word with a dash that does not begin like an option, and cannot stand alone. -/
  | unknown {u : Str} {r : List Str} : ¬ Known u → ¬ Word u → Stops short long r → Stops short long (u :: r)
  | joined {it : Item} {w n v : Str} {r : List Str} : it.option = some (n, v) → Names w n → Stops short long r →
      Stops short long ((w ++ '=' :: v) :: r)
  | split {it : Item} {w n v : Str} {r : List Str} : it.option = some (n, v) → Names w n → Word v → Stops short long r →
      Stops short long (w :: v :: r)

end Pywasm.Spec.CommandLine
