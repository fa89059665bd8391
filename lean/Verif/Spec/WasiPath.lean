import Verif.Spec.Wasi

/-!
# Lexical paths

What an absolute path and a path relative to a directory denote when symbolic links are ignored, written without the
string functions of the model.
-/

namespace Pywasm.WasiSpec
open Wasi

/-- A name a directory entry can have: not empty, not `.` or `..`, no slash. -/
structure IsEntry (c : Str) : Prop where
  nonempty : c ≠ []
  notDot : c ≠ ['.']
  notDotDot : c ≠ ['.', '.']
  noSlash : '/' ∉ c

/-- The absolute path with the given components: `/a/b/c`. -/
def absPath (cs : List Str) : Str := cs.flatMap fun c => '/' :: c

/-- The pieces of a path between slashes. -/
def pieces : Str → List Str
  | [] => [[]]
  | c :: r =>
    if c = '/' then [] :: pieces r
    else match pieces r with
      | [] => [[c]]
      | w :: ws => (c :: w) :: ws

/-- Following pieces from a directory: an empty piece or `.` stays, `..` goes up (at the root it stays), anything else
goes down. -/
def walk : List Str → List Str → List Str
  | d, [] => d
  | d, p :: ps =>
    if p = [] ∨ p = ['.'] then walk d ps
    else if p = ['.', '.'] then walk d.dropLast ps
    else walk (d ++ [p]) ps

/-- Where `name` leads when used in the directory `dir`: an absolute name starts at the root. -/
def target (dir : List Str) (name : Str) : List Str :=
  if name.head? = some '/' then walk [] (pieces name) else walk dir (pieces name)

/-- The target is the directory or something below it. -/
def Inside (dir : List Str) (name : Str) : Prop := dir <+: target dir name

/-- The target is in, or below, something beside the directory whose name begins with the directory's own name and goes
on (`/srv2` or `/srv-old/x` beside `/srv`). -/
def Beside (dir : List Str) (name : Str) : Prop :=
  ∃ up last more rest, dir = up ++ [last] ∧ more ≠ [] ∧ target dir name = up ++ (last ++ more) :: rest

/-- An absolute path, with one leading slash, to something other than the root of the host. -/
structure GoodDir (v : Str) : Prop where
  abs : v.head? = some '/'
  one : v.tail.head? ≠ some '/'
  below : target [] v ≠ []

/-- The paths a call is given: descriptor, pointer, length. -/
def paths : Call → List (Int × Int × Int)
  | .pathCreateDirectory a p n | .pathRemoveDirectory a p n | .pathUnlinkFile a p n | .pathReadlink a p n ..
  | .pathFilestatGet a _ p n .. | .pathFilestatSetTimes a _ p n .. | .pathOpen a _ p n .. => [(a, p, n)]
  | .pathLink a _ p n b q m => [(a, p, n), (b, q, m)]
  | .pathRename a p n b q m => [(a, p, n), (b, q, m)]
  | .pathSymlink p n a q m => [(a, p, n), (a, q, m)]
  | _ => []

/-- The name of the directory a call measures its path against: the host's name for `path_open`, the guest's name for
all other calls. -/
def rootOf (c : Call) (f : File) : Str :=
  match c with
  | .pathOpen .. => f.hostName
  | _ => f.wasmName

end Pywasm.WasiSpec
