import Verif.Spec.Cells
import Verif.Model.IntOps

/-!
# Specification of the integer instructions

Each instruction as an operation on bit vectors, following the WebAssembly 2.0 core specification, section 4.3.2
(integer operations) and 4.4.1 (numeric instructions).
-/

namespace Pywasm.Spec

/-- Outcome of an instruction that only works on the operand stack (head = top). -/
inductive Out where
  | ok (s : List Val)
  | trap
  /-- not enough operands: cannot happen in a validated module -/
  | stuck

/-- Number of leading zeros: the least `i` such that bit `w-1-i` is set, or `w` when there is none. -/
def clz {w : Nat} (x : BitVec w) : Nat := ((List.range w).find? fun i => x.getLsbD (w - 1 - i)).getD w
/-- Number of trailing zeros: the least `i` such that bit `i` is set, or `w`. -/
def ctz {w : Nat} (x : BitVec w) : Nat := ((List.range w).find? fun i => x.getLsbD i).getD w
/-- Number of one bits. -/
def popcnt {w : Nat} (x : BitVec w) : Nat := (List.range w).countP fun i => x.getLsbD i

/-- Signed division: undefined (trap) for a zero divisor and for `min / -1`; truncates towards zero. -/
def divS {w : Nat} (a b : BitVec w) : Option (BitVec w) :=
  if b = 0 ∨ (a = BitVec.intMin w ∧ b = -1) then none else some (BitVec.ofInt w (a.toInt.tdiv b.toInt))
/-- Unsigned division: undefined for a zero divisor. -/
def divU {w : Nat} (a b : BitVec w) : Option (BitVec w) :=
  if b = 0 then none else some (BitVec.ofNat w (a.toNat / b.toNat))
/-- Signed remainder (sign of the dividend): undefined for a zero divisor; `min rem -1 = 0`. -/
def remS {w : Nat} (a b : BitVec w) : Option (BitVec w) :=
  if b = 0 then none else some (BitVec.ofInt w (a.toInt.tmod b.toInt))
/-- Unsigned remainder. -/
def remU {w : Nat} (a b : BitVec w) : Option (BitVec w) :=
  if b = 0 then none else some (BitVec.ofNat w (a.toNat % b.toNat))

section shapes
def un32 (f : BitVec 32 → BitVec 32) : List Val → Out
  | a :: s => .ok (i32 (f a.low32) :: s)
  | _ => .stuck
def un64 (f : BitVec 64 → BitVec 64) : List Val → Out
  | a :: s => .ok (i64 (f a.low64) :: s)
  | _ => .stuck
def bin32 (f : BitVec 32 → BitVec 32 → BitVec 32) : List Val → Out
  | b :: a :: s => .ok (i32 (f a.low32 b.low32) :: s)
  | _ => .stuck
def bin64 (f : BitVec 64 → BitVec 64 → BitVec 64) : List Val → Out
  | b :: a :: s => .ok (i64 (f a.low64 b.low64) :: s)
  | _ => .stuck
def part32 (f : BitVec 32 → BitVec 32 → Option (BitVec 32)) : List Val → Out
  | b :: a :: s => match f a.low32 b.low32 with
    | some c => .ok (i32 c :: s)
    | none => .trap
  | _ => .stuck
def part64 (f : BitVec 64 → BitVec 64 → Option (BitVec 64)) : List Val → Out
  | b :: a :: s => match f a.low64 b.low64 with
    | some c => .ok (i64 c :: s)
    | none => .trap
  | _ => .stuck
def test32 (f : BitVec 32 → Bool) : List Val → Out
  | a :: s => .ok (bool (f a.low32) :: s)
  | _ => .stuck
def test64 (f : BitVec 64 → Bool) : List Val → Out
  | a :: s => .ok (bool (f a.low64) :: s)
  | _ => .stuck
def rel32 (f : BitVec 32 → BitVec 32 → Bool) : List Val → Out
  | b :: a :: s => .ok (bool (f a.low32 b.low32) :: s)
  | _ => .stuck
def rel64 (f : BitVec 64 → BitVec 64 → Bool) : List Val → Out
  | b :: a :: s => .ok (bool (f a.low64 b.low64) :: s)
  | _ => .stuck
def cvt64_32 (f : BitVec 64 → BitVec 32) : List Val → Out
  | a :: s => .ok (i32 (f a.low64) :: s)
  | _ => .stuck
def cvt32_64 (f : BitVec 32 → BitVec 64) : List Val → Out
  | a :: s => .ok (i64 (f a.low32) :: s)
  | _ => .stuck
end shapes

/-- The meaning of every integer instruction. -/
def intSem : IOp → List Val → Out
  | .i32_eqz => test32 (· = 0)
  | .i32_eq => rel32 (fun a b => a = b)
  | .i32_ne => rel32 (fun a b => a ≠ b)
  | .i32_lt_s => rel32 (fun a b => a.toInt < b.toInt)
  | .i32_lt_u => rel32 (fun a b => a.toNat < b.toNat)
  | .i32_gt_s => rel32 (fun a b => a.toInt > b.toInt)
  | .i32_gt_u => rel32 (fun a b => a.toNat > b.toNat)
  | .i32_le_s => rel32 (fun a b => a.toInt ≤ b.toInt)
  | .i32_le_u => rel32 (fun a b => a.toNat ≤ b.toNat)
  | .i32_ge_s => rel32 (fun a b => a.toInt ≥ b.toInt)
  | .i32_ge_u => rel32 (fun a b => a.toNat ≥ b.toNat)
  | .i64_eqz => test64 (· = 0)
  | .i64_eq => rel64 (fun a b => a = b)
  | .i64_ne => rel64 (fun a b => a ≠ b)
  | .i64_lt_s => rel64 (fun a b => a.toInt < b.toInt)
  | .i64_lt_u => rel64 (fun a b => a.toNat < b.toNat)
  | .i64_gt_s => rel64 (fun a b => a.toInt > b.toInt)
  | .i64_gt_u => rel64 (fun a b => a.toNat > b.toNat)
  | .i64_le_s => rel64 (fun a b => a.toInt ≤ b.toInt)
  | .i64_le_u => rel64 (fun a b => a.toNat ≤ b.toNat)
  | .i64_ge_s => rel64 (fun a b => a.toInt ≥ b.toInt)
  | .i64_ge_u => rel64 (fun a b => a.toNat ≥ b.toNat)
  | .i32_clz => un32 (fun a => BitVec.ofNat 32 (clz a))
  | .i32_ctz => un32 (fun a => BitVec.ofNat 32 (ctz a))
  | .i32_popcnt => un32 (fun a => BitVec.ofNat 32 (popcnt a))
  | .i32_add => bin32 (· + ·)
  | .i32_sub => bin32 (· - ·)
  | .i32_mul => bin32 (· * ·)
  | .i32_div_s => part32 divS
  | .i32_div_u => part32 divU
  | .i32_rem_s => part32 remS
  | .i32_rem_u => part32 remU
  | .i32_and => bin32 (· &&& ·)
  | .i32_or => bin32 (· ||| ·)
  | .i32_xor => bin32 (· ^^^ ·)
  | .i32_shl => bin32 (fun a b => a <<< (b.toNat % 32))
  | .i32_shr_s => bin32 (fun a b => a.sshiftRight (b.toNat % 32))
  | .i32_shr_u => bin32 (fun a b => a >>> (b.toNat % 32))
  | .i32_rotl => bin32 (fun a b => a.rotateLeft b.toNat)
  | .i32_rotr => bin32 (fun a b => a.rotateRight b.toNat)
  | .i64_clz => un64 (fun a => BitVec.ofNat 64 (clz a))
  | .i64_ctz => un64 (fun a => BitVec.ofNat 64 (ctz a))
  | .i64_popcnt => un64 (fun a => BitVec.ofNat 64 (popcnt a))
  | .i64_add => bin64 (· + ·)
  | .i64_sub => bin64 (· - ·)
  | .i64_mul => bin64 (· * ·)
  | .i64_div_s => part64 divS
  | .i64_div_u => part64 divU
  | .i64_rem_s => part64 remS
  | .i64_rem_u => part64 remU
  | .i64_and => bin64 (· &&& ·)
  | .i64_or => bin64 (· ||| ·)
  | .i64_xor => bin64 (· ^^^ ·)
  | .i64_shl => bin64 (fun a b => a <<< (b.toNat % 64))
  | .i64_shr_s => bin64 (fun a b => a.sshiftRight (b.toNat % 64))
  | .i64_shr_u => bin64 (fun a b => a >>> (b.toNat % 64))
  | .i64_rotl => bin64 (fun a b => a.rotateLeft b.toNat)
  | .i64_rotr => bin64 (fun a b => a.rotateRight b.toNat)
  | .i32_wrap_i64 => cvt64_32 (fun a => a.setWidth 32)
  | .i64_extend_i32_s => cvt32_64 (fun a => a.signExtend 64)
  | .i64_extend_i32_u => cvt32_64 (fun a => a.setWidth 64)
  | .i32_extend8_s => un32 (fun a => (a.setWidth 8).signExtend 32)
  | .i32_extend16_s => un32 (fun a => (a.setWidth 16).signExtend 32)
  | .i64_extend8_s => un64 (fun a => (a.setWidth 8).signExtend 64)
  | .i64_extend16_s => un64 (fun a => (a.setWidth 16).signExtend 64)
  | .i64_extend32_s => un64 (fun a => (a.setWidth 32).signExtend 64)

/-- A trap of an integer instruction surfaces as one of these Python exceptions. -/
def isIntTrap (e : Err) : Prop := e = .assertion ∨ e = .zeroDivision

/-- The Python computation `m` started on operand stack `s` implements the outcome `o`. -/
def Implements (m : VM Unit) (s : List Val) (o : Out) : Prop :=
  match o with
  | .ok s' => m s = .ok () s'
  | .trap => ∃ e s', m s = .error e s' ∧ isIntTrap e
  | .stuck => ∃ s', m s = .error .index s'

end Pywasm.Spec
