import Verif.Spec.Wasi

/-!
# Directory listings as a guest reads them

`fd_readdir` fills a buffer with entries: a header of 24 bytes (cookie of the next entry: 8 bytes, inode: 8 bytes, length
of the name: 4 bytes, file type: 1 byte and 3 bytes of padding), followed by the name.
-/

namespace Pywasm.WasiSpec
open Wasi

/-- A directory entry as a guest sees it. -/
structure Dirent where
  next : Nat
  ino : Nat
  type : Nat
  name : Bytes
  deriving DecidableEq, Repr

/-- The complete entries (at most `k`) in the bytes of guest memory from `p` up to `e`. -/
def direntsTo (s : St) (e : Nat) : Nat → Nat → List Dirent
  | 0, _ => []
  | k + 1, p =>
    if p + 24 ≤ e ∧ p + 24 + numAt s (p + 16) 4 ≤ e then
      ⟨numAt s p 8, numAt s (p + 8) 8, numAt s (p + 20) 1, Spec.range (bytes s) (p + 24) (numAt s (p + 16) 4)⟩ ::
        direntsTo s e k (p + 24 + numAt s (p + 16) 4)
    else []
/-- The complete entries in a buffer of `n` bytes at `p`. -/
def dirents (s : St) (p n : Nat) : List Dirent := direntsTo s (p + n) n p

/-- The names in a directory in the order they are listed: the directory itself, its parent, and the names `l` the host
gave, sorted by code points. -/
def listing (l : List Str) : List Str :=
  ['.'] :: ['.', '.'] :: l.mergeSort fun a b => decide (a.map Char.toNat ≤ b.map Char.toNat)

/-- The WASI code of a file type. -/
def kindCode : Kind → Nat
  | .blk => 1
  | .chr => 2
  | .dir => 3
  | .reg => 4
  | .lnk => 7
  | .sock | .other => 0

/-- The entries for some names, the first of them number `c` of its directory. -/
def entries (stat : Str → Stat) : Nat → List Str → List Dirent
  | _, [] => []
  | c, x :: l => ⟨c + 1, (stat x).ino.toNat, kindCode (stat x).kind, x.flatMap String.utf8EncodeChar⟩ :: entries stat (c + 1) l
/-- The bytes the entries of some names take. -/
def entriesSize (l : List Str) : Nat := (l.map fun x => 24 + (x.flatMap String.utf8EncodeChar).length).sum

/-- The same with every name cut to as many bytes as it has characters. -/
def cutEntries (stat : Str → Stat) : Nat → List Str → List Dirent
  | _, [] => []
  | c, x :: l => ⟨c + 1, (stat x).ino.toNat, kindCode (stat x).kind, (x.flatMap String.utf8EncodeChar).take x.length⟩ :: cutEntries stat (c + 1) l
/-- The bytes they take. -/
def cutSize (l : List Str) : Nat := (l.map fun x => 24 + x.length).sum

/-- A guest that reads a directory to the end: it calls `fd_readdir` with a buffer of `n` bytes at `p` and the result
pointer `r`, at most `k` times; when the buffer comes back full it goes on after the last complete entry. -/
def readDir (os : Os) (fd : Int) (p n r : Nat) : Nat → Nat → St → List Dirent
  | 0, _, _ => []
  | k + 1, c, s =>
    match (Call.fdReaddir fd p n c r).run os s with
    | .ok e t =>
      let es := dirents t p (numAt t r 4)
      if e ≠ 0 then []
      else if numAt t r 4 < n then es
      else es ++ readDir os fd p n r k ((es.getLast?.map (·.next)).getD c) t
    | _ => []

end Pywasm.WasiSpec
