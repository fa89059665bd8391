import Verif.Model.Cli

/-!
# The arguments of the command line

The declarations of /repo/pywasm/__main__.py:6-15 and the dispatch of lines 59-61.  `argparse` is part of Python: what its
`parse_args` does with these declarations is modelled after CPython 3.11.10 (`_parse_known_args`, `_parse_optional`,
`_get_option_tuples`).  Simplification: digits are ASCII digits.
-/

namespace Pywasm.Cli
open M

/-- The options, __main__.py:7-13; `help` is added by `ArgumentParser()`, line 6. -/
inductive Opt
  | help | version | func | funcArgs | wasiEnvs | wasiDirs | wasiArgs | wasi
  deriving DecidableEq, Repr

/-- `parser._option_string_actions`, in the order of declaration, __main__.py:6-13. -/
def optTable : List (Str × Opt) :=
  [("-h".toList, .help), ("--help".toList, .help), ("--version".toList, .version), ("-v".toList, .version), ("--func".toList, .func),
   ("--func-args".toList, .funcArgs), ("--wasi-envs".toList, .wasiEnvs), ("--wasi-dirs".toList, .wasiDirs),
   ("--wasi-args".toList, .wasiArgs), ("--wasi".toList, .wasi)]

/-- An argument as `_parse_known_args` classifies it. `opt o short e`: option `o`, given by a single-dash name iff `short`, with the explicit
argument `e` (and whether it follows a `=`). -/
inductive Tok
  | arg (s : Str)
  | dash
  | unknown
  | opt (o : Opt) (short : Bool) (e : Option (Bool × Str))
  deriving DecidableEq, Repr

/-- `str.partition('=')`: the part before the first `=`, and the part after it if there is one. -/
def partition (s : Str) : Str × Option Str :=
  match split1 '=' s with
  | a :: b :: _ => (a, some b)
  | _ => (s, none)

/-- `_negative_number_matcher`, `^-\d+$|^-\d*\.\d+$`: `$` also matches before a final newline. -/
def negative (s : Str) : Bool :=
  match s with
  | '-' :: l =>
    let l := if l.getLast? = some '\n' then l.dropLast else l
    let rest := l.dropWhile Char.isDigit
    match rest with
    | [] => l ≠ []
    | '.' :: r => r ≠ [] && r.all Char.isDigit
    | _ => false
  | _ => false

/-- `_parse_optional`; `none` is the exit for an ambiguous abbreviation. -/
def classify (s : Str) : Option Tok :=
  match s with
  | '-' :: rest =>
    match optTable.lookup s with
    | some o => some (.opt o (rest.head? ≠ some '-') none)
    | none =>
      match rest with
      | [] => some (.arg s)
      | c :: tail =>
        let (name, e) := partition s
        match (if e.isSome then optTable.lookup name else none) with
        | some o => some (.opt o (c ≠ '-') (e.map fun x => (true, x)))
        | none =>
          let found : List Tok :=
            if c = '-' then (optTable.filter fun p => name.isPrefixOf p.1).map fun p => .opt p.2 false (e.map fun x => (true, x))
            else (optTable.filter fun p => p.1 = ['-', c]).map fun p => .opt p.2 true (some (false, tail))
          match found with
          | _ :: _ :: _ => none
          | [t] => some t
          | [] => some (if negative s || ' ' ∈ s then .arg s else .unknown)
  | _ => some (.arg s)

/-- The first loop of `_parse_known_args`: everything after `--` is an argument. -/
def tokens : List Str → Option (List Tok)
  | [] => some []
  | a :: l =>
    if a = "--".toList then some (.dash :: l.map .arg)
    else do
      let t ← classify a
      let r ← tokens l
      some (t :: r)

/-- `consume_optional` for an option without argument: may it be taken? `-hv` is `-h -v`; the tail of an unknown letter is left over. -/
def flags (short : Bool) (sep : Bool) : Str → Bool
  | [] => false
  | [x] => short && !(sep || x = '-')
  | x :: y :: r =>
    if short && !(sep || x = '-') then
      if x = 'h' || x = 'v' then (if y = '=' then flags short true r else flags short false (y :: r))
      else true
    else false

/-- What `parser.parse_args()` does, __main__.py:15: return the options, with whether `--wasi` was given, or exit. -/
inductive Parsed
  | run (o : Options) (wasi : Bool)
  | help
  | version
  | usage

/-- The namespace while parsing. `extra`: some argument was left over. -/
structure Namespace where
  file : Option Str := none
  func : Str := "_start".toList
  funcArgs : List Str := []
  wasiEnvs : List Str := []
  wasiDirs : List Str := []
  wasiArgs : List Str := []
  wasi : Bool := false
  extra : Bool := false

/-- The end of `_parse_known_args` and `parse_args`: the file is required, and nothing may be left over. -/
def Namespace.done (n : Namespace) : Parsed :=
  match n.file with
  | some f =>
    if n.extra then .usage
    else .run { file := f, func := String.ofList n.func, funcArgs := n.funcArgs, wasiEnvs := n.wasiEnvs, wasiDirs := n.wasiDirs, wasiArgs := n.wasiArgs }
      n.wasi
  | none => .usage

/-- The actions of the options that take one argument, __main__.py:8-13: `store`, `append`, and the choices of `--wasi`. -/
def Namespace.take (n : Namespace) (o : Opt) (v : Str) : Option Namespace :=
  match o with
  | .func => some { n with func := v }
  | .funcArgs => some { n with funcArgs := n.funcArgs ++ [v] }
  | .wasiEnvs => some { n with wasiEnvs := n.wasiEnvs ++ [v] }
  | .wasiDirs => some { n with wasiDirs := n.wasiDirs ++ [v] }
  | .wasiArgs => some { n with wasiArgs := n.wasiArgs ++ [v] }
  | .wasi => if v = "preview1".toList then some { n with wasi := true } else none
  | _ => none

/-- The options that take no argument: what they do. -/
def Opt.flag : Opt → Option Parsed
  | .help => some .help
  | .version => some .version
  | _ => none

/-- The second loop of `_parse_known_args`, with `consume_optional` and `consume_positionals`. -/
def scan : List Tok → Namespace → Parsed
  | [], n => n.done
  | .arg f :: .dash :: l, n =>
    match n.file with
    | none => ({ n with file := some f, extra := n.extra || !l.isEmpty } : Namespace).done
    | some _ => .usage
  | .arg f :: l, n =>
    match n.file with
    | none => scan l { n with file := some f }
    | some _ => scan l { n with extra := true }
  | .dash :: l, n =>
    match n.file, l with
    | none, [.arg f] => ({ n with file := some f } : Namespace).done
    | _, _ => .usage
  | .unknown :: l, n => scan l { n with extra := true }
  | .opt o short (some (sep, v)) :: l, n =>
    match o.flag with
    | some r => if flags short sep v then r else .usage
    | none =>
      match n.take o v with
      | some n => scan l n
      | none => .usage
  | .opt o _ none :: .arg v :: l, n =>
    match o.flag with
    | some r => r
    | none =>
      match n.take o v with
      | some n => scan l n
      | none => .usage
  | .opt o _ none :: _, _ => o.flag.getD .usage

/-- `parser.parse_args()`, __main__.py:15. -/
def parse (argv : List Str) : Parsed :=
  match tokens argv with
  | some l => scan l {}
  | none => .usage

/-- How the process ends: with an exit code, or after printing the results. -/
inductive Outcome
  | exit (code : Int)
  | prints (r : List HVal)
  deriving DecidableEq

/-- __main__.py:15 and 59-61. `content` opens and reads a file. `argparse` exits with 0 after the help or the version and with 2 after an error;
`main_wasi` ends with `sys.exit`, so that `main_wasm` does not run after it. -/
def command (os : Wasi.Os) (fds : Int × Int × Int) (names : Str × Str × Str) (pf : Str → Except Err F64) (lim N : Nat)
    (content : Str → Except Err Bytes) (argv : List Str) : M Outcome :=
  match parse argv with
  | .help => pure (.exit 0)
  | .version => pure (.exit 0)
  | .usage => pure (.exit 2)
  | .run o true => do pure (.exit (← mainWasi os fds names lim N o (content o.file)))
  | .run o false => do pure (.prints (← mainWasm pf lim N o (content o.file)))

end Pywasm.Cli
