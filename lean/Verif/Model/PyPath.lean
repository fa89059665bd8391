import Verif.Model.Py

/-!
# `os.path` of a POSIX Python: the functions used by wasi.py

`posixpath.join`, `posixpath.normpath` and `posixpath.abspath` of the Python standard library (not part of `/repo`),
as called at /repo/pywasm/wasi.py:411, 457-459, 860, 978-979, 1171-1172.  A `str` is its list of code points; lone
surrogates are not represented.
-/

namespace Pywasm

/-- A Python `str`. -/
abbrev Str := List Char

namespace Py

/-- `s.encode()`: UTF-8. -/
def encodeUtf8 (s : Str) : Bytes := s.flatMap String.utf8EncodeChar

/-- `s.split('/')`. -/
def splitSlash : Str → List Str
  | [] => [[]]
  | c :: cs =>
    if c = '/' then [] :: splitSlash cs
    else match splitSlash cs with
      | [] => [[c]]
      | w :: ws => (c :: w) :: ws

/-- `'/'.join(l)`. -/
def joinSlash : List Str → Str
  | [] => []
  | [w] => w
  | w :: v :: ws => w ++ '/' :: joinSlash (v :: ws)

/-- `'='.join([k, v])`, wasi.py:412. -/
def joinEq (k v : Str) : Str := k ++ '=' :: v

/-- `posixpath.join(a, b)`. -/
def join (a b : Str) : Str :=
  if ['/'].isPrefixOf b then b
  else if a = [] ∨ ['/'].isSuffixOf a then a ++ b
  else a ++ '/' :: b

/-- The second and third component of `posixpath.splitroot(p)`: two leading slashes, but not three, are a root of
their own. -/
def splitRoot : Str → Str × Str
  | '/' :: '/' :: '/' :: r => (['/'], '/' :: '/' :: r)
  | '/' :: '/' :: r => (['/', '/'], r)
  | '/' :: r => (['/'], r)
  | p => ([], p)

/-- The loop of `posixpath.normpath` over the components; `acc` is `new_comps` with the last component first. -/
def normComps (rooted : Bool) : List Str → List Str → List Str
  | [], acc => acc.reverse
  | c :: cs, acc =>
    if c = [] ∨ c = ['.'] then normComps rooted cs acc
    else if c ≠ ['.', '.'] ∨ (rooted = false ∧ acc = []) ∨ acc.head? = some ['.', '.'] then normComps rooted cs (c :: acc)
    else normComps rooted cs acc.tail

/-- `posixpath.normpath(p)`. -/
def normpath (p : Str) : Str :=
  if p = [] then ['.']
  else
    let rt := splitRoot p
    let r := rt.1 ++ joinSlash (normComps (!rt.1.isEmpty) (splitSlash rt.2) [])
    if r = [] then ['.'] else r

/-- `s.startswith(t)`. -/
def startswith (s t : Str) : Bool := t.isPrefixOf s

/-- `posixpath.abspath(p)` in the working directory `cwd`. -/
def abspath (cwd p : Str) : Str := if ['/'].isPrefixOf p then normpath p else normpath (join cwd p)

end Py
end Pywasm
