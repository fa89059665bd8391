import Verif.Model.Py

/-!
# Model of /repo/pywasm/leb128.py
-/

namespace Pywasm

/-- A `typing.BinaryIO` positioned somewhere in an in-memory file: the bytes not read yet.
An exception ends the decoding, so the position after an exception is not kept. -/
abbrev Reader := StateT Bytes (Except Err)

namespace Reader
/-- `ord(r.read(1))`: at the end of the file `read` returns `b''` and `ord` raises `TypeError`. -/
def ordByte : Reader UInt8 := fun s =>
  match s with
  | [] => .error .type
  | b :: r => .ok (b, r)
/-- `r.read(n)` for `n ≥ 0`: at most `n` bytes.  `OverflowError` when `n` does not fit a C `ssize_t`; files are shorter
than that, so such an `n` is always more than there is to read. -/
def read (n : Nat) : Reader Bytes := fun s =>
  if n ≤ s.length ∨ n < 2 ^ 63 then .ok (s.take n, s.drop n) else .error .overflow
/-- `r.read(-1)`. -/
def readAll : Reader Bytes := fun s => .ok (s, [])
/-- raise -/
def fail {α} (e : Err) : Reader α := fun _ => .error e
/-- `assert c` -/
def check (c : Bool) : Reader Unit := fun s => if c then .ok ((), s) else .error .assertion
end Reader

namespace Leb128

/-- One turn of the loop of `_U.encode`, /repo/pywasm/leb128.py:10-16, for a non-negative `i`
(`0x80 | byte` is in `0..255`, so the conversion to `bytearray` in line 15 cannot fail). -/
def uEncodeNat (i : Nat) : Bytes :=
  let byte := i &&& 0x7f
  let i' := i >>> 7
  if i' = 0 then [UInt8.ofNat byte] else UInt8.ofNat (0x80 ||| byte) :: uEncodeNat i'
termination_by i
decreasing_by
  simp only [Nat.shiftRight_eq_div_pow] at *
  omega

/-- `_U.encode`, /repo/pywasm/leb128.py:6-17: asserts `i >= 0`. -/
def uEncode (i : Int) : Except Err Bytes :=
  if 0 ≤ i then .ok (uEncodeNat i.toNat) else .error .assertion

/-- The loop of `_U.decode` and `_I.decode` (lines 22-24, 57-59): `r = r + ((e & 0x7f) << (i * 7))`. -/
def decodeLoop (i : Nat) (r : Int) : Bytes → Int
  | [] => r
  | e :: es => decodeLoop (i + 1) (r + (((e.toNat &&& 0x7f) <<< (i * 7) : Nat) : Int)) es

/-- `_U.decode`, /repo/pywasm/leb128.py:19-25. -/
def uDecode (b : Bytes) : Int := decodeLoop 0 0 b

/-- The loop of the two `decode_reader`s, lines 31-36 and 68-73: read up to and including the first byte without the
continuation bit. -/
def readGroup : Bytes → Except Err (Bytes × Bytes)
  | [] => .error .type
  | b :: r => if b.toNat &&& 0x80 = 0 then .ok ([b], r) else
      match readGroup r with
      | .ok (a, r') => .ok (b :: a, r')
      | .error e => .error e

/-- `_U.decode_reader`, /repo/pywasm/leb128.py:27-37. -/
def uDecodeReader : Reader (Int × Nat) := fun s =>
  match readGroup s with
  | .ok (a, r) => .ok ((uDecode a, a.length), r)
  | .error e => .error e

/-- The loop of `_I.encode`, /repo/pywasm/leb128.py:42-51. -/
def iEncode (i : Int) : Bytes :=
  let byte := Py.and i 0x7f
  let i' := Py.shr i 7
  if (i' = 0 ∧ Py.and byte 0x40 = 0) ∨ (i' = -1 ∧ Py.and byte 0x40 ≠ 0) then [UInt8.ofNat byte.toNat]
  else UInt8.ofNat (Py.or 0x80 byte).toNat :: iEncode i'
termination_by i.natAbs
decreasing_by
  rename_i h
  have h2 : Py.shr i 7 = i / 128 := by
    unfold Py.shr; rw [Int.fdiv_eq_ediv_of_nonneg _ (by decide)]; rfl
  by_cases h0 : i = 0
  · subst h0; exact absurd (Or.inl (by decide)) h
  by_cases h1 : i = -1
  · subst h1; exact absurd (Or.inr (by decide)) h
  show (Py.shr i 7).natAbs < i.natAbs
  rw [h2]; omega

/-- `_I.decode`, /repo/pywasm/leb128.py:54-62.  `i` and `e` are the last values of the loop variables; on empty input
they are unbound (`NameError`). `1 << (i * 7) + 7` is `1 << (i * 7 + 7)`. -/
def iDecode (b : Bytes) : Except Err Int :=
  match b.getLast? with
  | none => .error .name
  | some e =>
    let i := b.length - 1
    let r := decodeLoop 0 0 b
    .ok (if e.toNat &&& 0x40 ≠ 0 then Py.or r (-(2 ^ (i * 7 + 7) : Int)) else r)

/-- `_I.decode_reader`, /repo/pywasm/leb128.py:64-74. -/
def iDecodeReader : Reader (Int × Nat) := fun s =>
  match readGroup s with
  | .ok (a, r) => match iDecode a with
    | .ok v => .ok ((v, a.length), r)
    | .error e => .error e
  | .error e => .error e

end Leb128
end Pywasm
