import Verif.Model.Value

/-!
# Model of the integer cases of `Machine.evaluate`, /repo/pywasm/core.py:2014-2121, 2182-2361, 2508-2511, 2536-2543,
2624-2648

These opcodes only touch the value stack.  `VM` keeps the stack as it is when an exception is raised.
The comment before each case gives the lines of core.py it models.
-/

namespace Pywasm

/-- Computations on `self.stack.value`. The head of the list is the top of the stack (the end of the Python list). -/
abbrev VM := EStateM Err (List Val)

deriving instance DecidableEq for EStateM.Result

namespace VM
/-- `self.stack.value.pop()`: `IndexError` on an empty list. -/
def pop : VM Val := fun s =>
  match s with
  | [] => .error .index []
  | v :: s => .ok v s
/-- `self.stack.value.append(v)` -/
def push (v : Val) : VM Unit := fun s => .ok () (v :: s)
/-- an expression that may raise but does not touch the stack -/
def lift {α} (e : Except Err α) : VM α := fun s =>
  match e with
  | .ok a => .ok a s
  | .error e => .error e s
/-- `self.stack.value.pop().into_i32()` -/
def popI32 : VM Int := do let v ← pop; return v.intoI32
def popI64 : VM Int := do let v ← pop; return v.intoI64
def popU32 : VM Int := do let v ← pop; return v.intoU32
def popU64 : VM Int := do let v ← pop; return v.intoU64
def popF32 : VM F64 := do let v ← pop; return v.intoF32
def popF64 : VM F64 := do let v ← pop; return v.intoF64
end VM

/-- Integer opcodes without immediates (names as in /repo/pywasm/opcode.py). -/
inductive IOp where
  | i32_eqz | i32_eq | i32_ne | i32_lt_s | i32_lt_u | i32_gt_s
  | i32_gt_u | i32_le_s | i32_le_u | i32_ge_s | i32_ge_u | i64_eqz
  | i64_eq | i64_ne | i64_lt_s | i64_lt_u | i64_gt_s | i64_gt_u
  | i64_le_s | i64_le_u | i64_ge_s | i64_ge_u | i32_clz | i32_ctz
  | i32_popcnt | i32_add | i32_sub | i32_mul | i32_div_s | i32_div_u
  | i32_rem_s | i32_rem_u | i32_and | i32_or | i32_xor | i32_shl
  | i32_shr_s | i32_shr_u | i32_rotl | i32_rotr | i64_clz | i64_ctz
  | i64_popcnt | i64_add | i64_sub | i64_mul | i64_div_s | i64_div_u
  | i64_rem_s | i64_rem_u | i64_and | i64_or | i64_xor | i64_shl
  | i64_shr_s | i64_shr_u | i64_rotl | i64_rotr | i32_wrap_i64 | i64_extend_i32_s
  | i64_extend_i32_u | i32_extend8_s | i32_extend16_s | i64_extend8_s | i64_extend16_s | i64_extend32_s
  deriving DecidableEq, Repr

open VM Arith in
/-- The integer cases of `Machine.evaluate`. -/
def evalInt : IOp → VM Unit
  -- 2014-2017
  | .i32_eqz => do
    let a ← popI32
    let b ← lift (Val.fromI32 (Py.ofBool (a == 0)))
    push b
  -- 2018-2022
  | .i32_eq => do
    let b ← popI32
    let a ← popI32
    let c ← lift (Val.fromI32 (Py.ofBool (a == b)))
    push c
  -- 2023-2027
  | .i32_ne => do
    let b ← popI32
    let a ← popI32
    let c ← lift (Val.fromI32 (Py.ofBool (a != b)))
    push c
  -- 2028-2032
  | .i32_lt_s => do
    let b ← popI32
    let a ← popI32
    let c ← lift (Val.fromI32 (Py.ofBool (a < b)))
    push c
  -- 2033-2037
  | .i32_lt_u => do
    let b ← popU32
    let a ← popU32
    let c ← lift (Val.fromI32 (Py.ofBool (a < b)))
    push c
  -- 2038-2042
  | .i32_gt_s => do
    let b ← popI32
    let a ← popI32
    let c ← lift (Val.fromI32 (Py.ofBool (a > b)))
    push c
  -- 2043-2047
  | .i32_gt_u => do
    let b ← popU32
    let a ← popU32
    let c ← lift (Val.fromI32 (Py.ofBool (a > b)))
    push c
  -- 2048-2052
  | .i32_le_s => do
    let b ← popI32
    let a ← popI32
    let c ← lift (Val.fromI32 (Py.ofBool (a ≤ b)))
    push c
  -- 2053-2057
  | .i32_le_u => do
    let b ← popU32
    let a ← popU32
    let c ← lift (Val.fromI32 (Py.ofBool (a ≤ b)))
    push c
  -- 2058-2062
  | .i32_ge_s => do
    let b ← popI32
    let a ← popI32
    let c ← lift (Val.fromI32 (Py.ofBool (a ≥ b)))
    push c
  -- 2063-2067
  | .i32_ge_u => do
    let b ← popU32
    let a ← popU32
    let c ← lift (Val.fromI32 (Py.ofBool (a ≥ b)))
    push c
  -- 2068-2071
  | .i64_eqz => do
    let a ← popI64
    let b ← lift (Val.fromI32 (Py.ofBool (a == 0)))
    push b
  -- 2072-2076
  | .i64_eq => do
    let b ← popI64
    let a ← popI64
    let c ← lift (Val.fromI32 (Py.ofBool (a == b)))
    push c
  -- 2077-2081
  | .i64_ne => do
    let b ← popI64
    let a ← popI64
    let c ← lift (Val.fromI32 (Py.ofBool (a != b)))
    push c
  -- 2082-2086
  | .i64_lt_s => do
    let b ← popI64
    let a ← popI64
    let c ← lift (Val.fromI32 (Py.ofBool (a < b)))
    push c
  -- 2087-2091
  | .i64_lt_u => do
    let b ← popU64
    let a ← popU64
    let c ← lift (Val.fromI32 (Py.ofBool (a < b)))
    push c
  -- 2092-2096
  | .i64_gt_s => do
    let b ← popI64
    let a ← popI64
    let c ← lift (Val.fromI32 (Py.ofBool (a > b)))
    push c
  -- 2097-2101
  | .i64_gt_u => do
    let b ← popU64
    let a ← popU64
    let c ← lift (Val.fromI32 (Py.ofBool (a > b)))
    push c
  -- 2102-2106
  | .i64_le_s => do
    let b ← popI64
    let a ← popI64
    let c ← lift (Val.fromI32 (Py.ofBool (a ≤ b)))
    push c
  -- 2107-2111
  | .i64_le_u => do
    let b ← popU64
    let a ← popU64
    let c ← lift (Val.fromI32 (Py.ofBool (a ≤ b)))
    push c
  -- 2112-2116
  | .i64_ge_s => do
    let b ← popI64
    let a ← popI64
    let c ← lift (Val.fromI32 (Py.ofBool (a ≥ b)))
    push c
  -- 2117-2121
  | .i64_ge_u => do
    let b ← popU64
    let a ← popU64
    let c ← lift (Val.fromI32 (Py.ofBool (a ≥ b)))
    push c
  -- 2182-2186
  | .i32_clz => do
    let a ← popU32
    let b := U.clz 4 a
    let c ← lift (Val.fromI32 b)
    push c
  -- 2187-2191
  | .i32_ctz => do
    let a ← popU32
    let b := U.ctz 4 a
    let c ← lift (Val.fromI32 b)
    push c
  -- 2192-2196
  | .i32_popcnt => do
    let a ← popU32
    let b := U.popcnt 4 a
    let c ← lift (Val.fromI32 b)
    push c
  -- 2197-2201
  | .i32_add => do
    let b ← popI32
    let a ← popI32
    let c ← lift (Val.fromI32 (I.add 4 a b))
    push c
  -- 2202-2206
  | .i32_sub => do
    let b ← popI32
    let a ← popI32
    let c ← lift (Val.fromI32 (I.sub 4 a b))
    push c
  -- 2207-2211
  | .i32_mul => do
    let b ← popI32
    let a ← popI32
    let c ← lift (Val.fromI32 (I.mul 4 a b))
    push c
  -- 2212-2216
  | .i32_div_s => do
    let b ← popI32
    let a ← popI32
    let q ← lift (I.div 4 a b)
    let c ← lift (Val.fromI32 q)
    push c
  -- 2217-2221
  | .i32_div_u => do
    let b ← popU32
    let a ← popU32
    let q ← lift (U.div 4 a b)
    let c ← lift (Val.fromU32 q)
    push c
  -- 2222-2226
  | .i32_rem_s => do
    let b ← popI32
    let a ← popI32
    let q ← lift (I.rem 4 a b)
    let c ← lift (Val.fromI32 q)
    push c
  -- 2227-2231
  | .i32_rem_u => do
    let b ← popU32
    let a ← popU32
    let q ← lift (U.rem 4 a b)
    let c ← lift (Val.fromU32 q)
    push c
  -- 2232-2236
  | .i32_and => do
    let b ← popI32
    let a ← popI32
    let c ← lift (Val.fromI32 (Py.and a b))
    push c
  -- 2237-2241
  | .i32_or => do
    let b ← popI32
    let a ← popI32
    let c ← lift (Val.fromI32 (Py.or a b))
    push c
  -- 2242-2246
  | .i32_xor => do
    let b ← popI32
    let a ← popI32
    let c ← lift (Val.fromI32 (Py.xor a b))
    push c
  -- 2247-2251
  | .i32_shl => do
    let b ← popI32
    let a ← popI32
    let c ← lift (Val.fromI32 (I.shl 4 a b))
    push c
  -- 2252-2256
  | .i32_shr_s => do
    let b ← popI32
    let a ← popI32
    let c ← lift (Val.fromI32 (I.shr 4 a b))
    push c
  -- 2257-2261
  | .i32_shr_u => do
    let b ← popU32
    let a ← popU32
    let c ← lift (Val.fromU32 (U.shr 4 a b))
    push c
  -- 2262-2266
  | .i32_rotl => do
    let b ← popU32
    let a ← popU32
    let c ← lift (Val.fromU32 (U.rotl 4 a b))
    push c
  -- 2267-2271
  | .i32_rotr => do
    let b ← popU32
    let a ← popU32
    let c ← lift (Val.fromU32 (U.rotr 4 a b))
    push c
  -- 2272-2276
  | .i64_clz => do
    let a ← popU64
    let b := U.clz 8 a
    let c ← lift (Val.fromI64 b)
    push c
  -- 2277-2281
  | .i64_ctz => do
    let a ← popU64
    let b := U.ctz 8 a
    let c ← lift (Val.fromI64 b)
    push c
  -- 2282-2286
  | .i64_popcnt => do
    let a ← popU64
    let b := U.popcnt 8 a
    let c ← lift (Val.fromI64 b)
    push c
  -- 2287-2291
  | .i64_add => do
    let b ← popI64
    let a ← popI64
    let c ← lift (Val.fromI64 (I.add 8 a b))
    push c
  -- 2292-2296
  | .i64_sub => do
    let b ← popI64
    let a ← popI64
    let c ← lift (Val.fromI64 (I.sub 8 a b))
    push c
  -- 2297-2301
  | .i64_mul => do
    let b ← popI64
    let a ← popI64
    let c ← lift (Val.fromI64 (I.mul 8 a b))
    push c
  -- 2302-2306
  | .i64_div_s => do
    let b ← popI64
    let a ← popI64
    let q ← lift (I.div 8 a b)
    let c ← lift (Val.fromI64 q)
    push c
  -- 2307-2311
  | .i64_div_u => do
    let b ← popU64
    let a ← popU64
    let q ← lift (U.div 8 a b)
    let c ← lift (Val.fromI64 q)
    push c
  -- 2312-2316
  | .i64_rem_s => do
    let b ← popI64
    let a ← popI64
    let q ← lift (I.rem 8 a b)
    let c ← lift (Val.fromI64 q)
    push c
  -- 2317-2321
  | .i64_rem_u => do
    let b ← popU64
    let a ← popU64
    let q ← lift (U.rem 8 a b)
    let c ← lift (Val.fromU64 q)
    push c
  -- 2322-2326
  | .i64_and => do
    let b ← popI64
    let a ← popI64
    let c ← lift (Val.fromI64 (Py.and a b))
    push c
  -- 2327-2331
  | .i64_or => do
    let b ← popI64
    let a ← popI64
    let c ← lift (Val.fromI64 (Py.or a b))
    push c
  -- 2332-2336
  | .i64_xor => do
    let b ← popI64
    let a ← popI64
    let c ← lift (Val.fromI64 (Py.xor a b))
    push c
  -- 2337-2341
  | .i64_shl => do
    let b ← popI64
    let a ← popI64
    let c ← lift (Val.fromI64 (I.shl 8 a b))
    push c
  -- 2342-2346
  | .i64_shr_s => do
    let b ← popI64
    let a ← popI64
    let c ← lift (Val.fromI64 (I.shr 8 a b))
    push c
  -- 2347-2351
  | .i64_shr_u => do
    let b ← popU64
    let a ← popU64
    let c ← lift (Val.fromU64 (U.shr 8 a b))
    push c
  -- 2352-2356
  | .i64_rotl => do
    let b ← popU64
    let a ← popU64
    let c ← lift (Val.fromU64 (U.rotl 8 a b))
    push c
  -- 2357-2361
  | .i64_rotr => do
    let b ← popU64
    let a ← popU64
    let c ← lift (Val.fromU64 (U.rotr 8 a b))
    push c
  -- 2508-2511
  | .i32_wrap_i64 => do
    let a ← popI64
    let b ← lift (Val.fromI32 (I.fit 4 a))
    push b
  -- 2536-2539
  | .i64_extend_i32_s => do
    let a ← popI32
    let b ← lift (Val.fromI64 a)
    push b
  -- 2540-2543
  | .i64_extend_i32_u => do
    let a ← popU32
    let b ← lift (Val.fromI64 a)
    push b
  -- 2624-2628
  | .i32_extend8_s => do
    let a ← popI32
    let b := I.fit 1 a
    let c ← lift (Val.fromI32 b)
    push c
  -- 2629-2633
  | .i32_extend16_s => do
    let a ← popI32
    let b := I.fit 2 a
    let c ← lift (Val.fromI32 b)
    push c
  -- 2634-2638
  | .i64_extend8_s => do
    let a ← popI64
    let b := I.fit 1 a
    let c ← lift (Val.fromI64 b)
    push c
  -- 2639-2643
  | .i64_extend16_s => do
    let a ← popI64
    let b := I.fit 2 a
    let c ← lift (Val.fromI64 b)
    push c
  -- 2644-2648
  | .i64_extend32_s => do
    let a ← popI64
    let b := I.fit 4 a
    let c ← lift (Val.fromI64 b)
    push c

end Pywasm
