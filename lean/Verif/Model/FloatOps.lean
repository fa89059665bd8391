import Verif.Model.IntOps

/-!
# Model of the scalar float cases of `Machine.evaluate`, /repo/pywasm/core.py:2123-2181, 2362-2623, 2662-2717, and of
`F32`, `F64` in /repo/pywasm/arith.py:147-209

`a`, `b` are Python floats (doubles), also for the `f32` instructions: the operands are converted on the way in
(`into_f32`) and the result on the way out (`from_f32`).  The comment before each case gives the lines of core.py.
-/

namespace Pywasm

namespace F64
/-- Python `min(a, b)` on floats: the second argument only replaces the first when it is smaller. -/
def pyMin (a b : F64) : F64 := if F64.lt b a then b else a
/-- Python `max(a, b)` on floats. -/
def pyMax (a b : F64) : F64 := if F64.lt a b then b else a
end F64

namespace Arith
namespace F64
/-- arith.py:184-194. `match b: case 0` compares with `==`, so it also matches `-0.0`. `math.copysign(1, x)` compares
signs; `math.copysign(math.inf, s)`, `math.copysign(math.nan, s)`. -/
def div (a b : Pywasm.F64) : Pywasm.F64 :=
  if Pywasm.F64.eq b Pywasm.F64.zero then
    let s := if a.sign = b.sign then Pywasm.F64.one else Pywasm.F64.neg Pywasm.F64.one
    let c := Pywasm.F64.copysign (Pywasm.F64.inf false) s
    if Pywasm.F64.eq a Pywasm.F64.zero || a.isNaN then Pywasm.F64.copysign Pywasm.F64.nan s else c
  else Pywasm.F64.div a b
/-- arith.py:196-202 -/
def min (a b : Pywasm.F64) : Pywasm.F64 :=
  let c := Pywasm.F64.pyMin a b
  let c := if a.isNaN then a else c
  if b.isNaN then b else c
/-- arith.py:204-210 -/
def max (a b : Pywasm.F64) : Pywasm.F64 :=
  let c := Pywasm.F64.pyMax a b
  let c := if a.isNaN then a else c
  if b.isNaN then b else c
end F64
namespace F32
/-- arith.py:158-159: `ctypes.c_float(n).value` -/
def fit (n : Pywasm.F64) : Pywasm.F64 := Pywasm.F32.toF64 (Pywasm.F32.ofF64 n)
/-- arith.py:161-162 -/
def div (a b : Pywasm.F64) : Pywasm.F64 := fit (F64.div a b)
/-- arith.py:164-165 -/
def min (a b : Pywasm.F64) : Pywasm.F64 := fit (F64.min a b)
/-- arith.py:167-168 -/
def max (a b : Pywasm.F64) : Pywasm.F64 := fit (F64.max a b)
end F32
end Arith

/-- `int(max(lo, min(a, hi)))` for integers `lo < hi` and a float `a` that is not a NaN (core.py:2666 and the like).
Python compares ints with floats exactly; `min(a, hi)` is `hi` when `hi < a` and `a` otherwise, `max(lo, x)` is `x` when
`x > lo` and `lo` otherwise; `int` of an int is that int. -/
def satInt (lo hi : Int) (a : F64) : Except Err Int :=
  if F64.intLt hi a then .ok (if hi > lo then hi else lo)
  else if F64.intLt lo a then a.toInt else .ok lo

/-- `v.data[i] = b` on a fresh copy of the cell (core.py:2363-2366 and the like). -/
def Val.setByte (v : Val) (i : Nat) (b : UInt8) : Val :=
  { v with data := v.data.set i b, len := by rw [List.length_set]; exact v.len }

/-- Scalar float opcodes (names as in /repo/pywasm/opcode.py). -/
inductive FOp where
  | f32_eq | f32_ne | f32_lt | f32_gt | f32_le | f32_ge | f64_eq | f64_ne | f64_lt | f64_gt | f64_le | f64_ge
  | f32_abs | f32_neg | f32_ceil | f32_floor | f32_trunc | f32_nearest | f32_sqrt | f32_add | f32_sub | f32_mul
  | f32_div | f32_min | f32_max | f32_copysign | f64_abs | f64_neg | f64_ceil | f64_floor | f64_trunc | f64_nearest
  | f64_sqrt | f64_add | f64_sub | f64_mul | f64_div | f64_min | f64_max | f64_copysign | i32_trunc_f32_s
  | i32_trunc_f32_u | i32_trunc_f64_s | i32_trunc_f64_u | i64_trunc_f32_s | i64_trunc_f32_u | i64_trunc_f64_s
  | i64_trunc_f64_u | f32_convert_i32_s | f32_convert_i32_u | f32_convert_i64_s | f32_convert_i64_u | f32_demote_f64
  | f64_convert_i32_s | f64_convert_i32_u | f64_convert_i64_s | f64_convert_i64_u | f64_promote_f32
  | i32_reinterpret_f32 | i64_reinterpret_f64 | f32_reinterpret_i32 | f64_reinterpret_i64 | i32_trunc_sat_f32_s
  | i32_trunc_sat_f32_u | i32_trunc_sat_f64_s | i32_trunc_sat_f64_u | i64_trunc_sat_f32_s | i64_trunc_sat_f32_u
  | i64_trunc_sat_f64_s | i64_trunc_sat_f64_u
  deriving DecidableEq, Repr

open VM in
/-- The scalar float cases of `Machine.evaluate`. -/
def evalFlt : FOp → VM Unit
  -- 2122-2126
  | .f32_eq => do
    let b ← popF32
    let a ← popF32
    let c ← lift (Val.fromI32 (Py.ofBool (F64.eq a b)))
    push c
  -- 2127-2131
  | .f32_ne => do
    let b ← popF32
    let a ← popF32
    let c ← lift (Val.fromI32 (Py.ofBool (!F64.eq a b)))
    push c
  -- 2132-2136
  | .f32_lt => do
    let b ← popF32
    let a ← popF32
    let c ← lift (Val.fromI32 (Py.ofBool (F64.lt a b)))
    push c
  -- 2137-2141
  | .f32_gt => do
    let b ← popF32
    let a ← popF32
    let c ← lift (Val.fromI32 (Py.ofBool (F64.lt b a)))
    push c
  -- 2142-2146
  | .f32_le => do
    let b ← popF32
    let a ← popF32
    let c ← lift (Val.fromI32 (Py.ofBool (F64.le a b)))
    push c
  -- 2147-2151
  | .f32_ge => do
    let b ← popF32
    let a ← popF32
    let c ← lift (Val.fromI32 (Py.ofBool (F64.le b a)))
    push c
  -- 2152-2156
  | .f64_eq => do
    let b ← popF64
    let a ← popF64
    let c ← lift (Val.fromI32 (Py.ofBool (F64.eq a b)))
    push c
  -- 2157-2161
  | .f64_ne => do
    let b ← popF64
    let a ← popF64
    let c ← lift (Val.fromI32 (Py.ofBool (!F64.eq a b)))
    push c
  -- 2162-2166
  | .f64_lt => do
    let b ← popF64
    let a ← popF64
    let c ← lift (Val.fromI32 (Py.ofBool (F64.lt a b)))
    push c
  -- 2167-2171
  | .f64_gt => do
    let b ← popF64
    let a ← popF64
    let c ← lift (Val.fromI32 (Py.ofBool (F64.lt b a)))
    push c
  -- 2172-2176
  | .f64_le => do
    let b ← popF64
    let a ← popF64
    let c ← lift (Val.fromI32 (Py.ofBool (F64.le a b)))
    push c
  -- 2177-2181
  | .f64_ge => do
    let b ← popF64
    let a ← popF64
    let c ← lift (Val.fromI32 (Py.ofBool (F64.le b a)))
    push c
  -- 2362-2366
  | .f32_abs => do
    let a ← pop
    let b : Val := { a with ty := .f32 }
    let b := b.setByte 3 (b.byte 3 &&& 0x7f)
    push b
  -- 2367-2371
  | .f32_neg => do
    let a ← pop
    let b : Val := { a with ty := .f32 }
    let b := b.setByte 3 (b.byte 3 ^^^ 0x80)
    push b
  -- 2372-2376
  | .f32_ceil => do
    let a ← popF32
    let b ← lift (if a.isNaN || a.isInf then .ok a else F64.ofInt (F64.ceil a))
    let c ← lift (Val.fromF32 b)
    push c
  -- 2377-2381
  | .f32_floor => do
    let a ← popF32
    let b ← lift (if a.isNaN || a.isInf then .ok a else F64.ofInt (F64.floor a))
    let c ← lift (Val.fromF32 b)
    push c
  -- 2382-2386
  | .f32_trunc => do
    let a ← popF32
    let b ← lift (if a.isNaN || a.isInf then .ok a else F64.ofInt (F64.trunc a))
    let c ← lift (Val.fromF32 b)
    push c
  -- 2387-2391
  | .f32_nearest => do
    let a ← popF32
    let b ← lift (if a.isNaN || a.isInf then .ok a else F64.ofInt (F64.roundEven a))
    let c ← lift (Val.fromF32 b)
    push c
  -- 2392-2396
  | .f32_sqrt => do
    let a ← popF32
    let b := if F64.le F64.zero a then F64.sqrt a else F64.nan
    let c ← lift (Val.fromF32 b)
    push c
  -- 2397-2401
  | .f32_add => do
    let b ← popF32
    let a ← popF32
    let c ← lift (Val.fromF32 (F64.add a b))
    push c
  -- 2402-2406
  | .f32_sub => do
    let b ← popF32
    let a ← popF32
    let c ← lift (Val.fromF32 (F64.sub a b))
    push c
  -- 2407-2411
  | .f32_mul => do
    let b ← popF32
    let a ← popF32
    let c ← lift (Val.fromF32 (F64.mul a b))
    push c
  -- 2412-2417
  | .f32_div => do
    let b ← popF32
    let a ← popF32
    let c := Arith.F32.div a b
    let d ← lift (Val.fromF32 c)
    push d
  -- 2418-2423
  | .f32_min => do
    let b ← popF32
    let a ← popF32
    let c := Arith.F32.min a b
    let d ← lift (Val.fromF32 c)
    push d
  -- 2424-2429
  | .f32_max => do
    let b ← popF32
    let a ← popF32
    let c := Arith.F32.max a b
    let d ← lift (Val.fromF32 c)
    push d
  -- 2430-2434
  | .f32_copysign => do
    let b ← popF32
    let a ← popF32
    let c ← lift (Val.fromF32 (F64.copysign a b))
    push c
  -- 2435-2439
  | .f64_abs => do
    let a ← pop
    let b : Val := { a with ty := .f64 }
    let b := b.setByte 7 (b.byte 7 &&& 0x7f)
    push b
  -- 2440-2444
  | .f64_neg => do
    let a ← pop
    let b : Val := { a with ty := .f64 }
    let b := b.setByte 7 (b.byte 7 ^^^ 0x80)
    push b
  -- 2445-2449
  | .f64_ceil => do
    let a ← popF64
    let b ← lift (if a.isNaN || a.isInf then .ok a else F64.ofInt (F64.ceil a))
    let c ← lift (Val.fromF64 b)
    push c
  -- 2450-2454
  | .f64_floor => do
    let a ← popF64
    let b ← lift (if a.isNaN || a.isInf then .ok a else F64.ofInt (F64.floor a))
    let c ← lift (Val.fromF64 b)
    push c
  -- 2455-2459
  | .f64_trunc => do
    let a ← popF64
    let b ← lift (if a.isNaN || a.isInf then .ok a else F64.ofInt (F64.trunc a))
    let c ← lift (Val.fromF64 b)
    push c
  -- 2460-2464
  | .f64_nearest => do
    let a ← popF64
    let b ← lift (if a.isNaN || a.isInf then .ok a else F64.ofInt (F64.roundEven a))
    let c ← lift (Val.fromF64 b)
    push c
  -- 2465-2469
  | .f64_sqrt => do
    let a ← popF64
    let b := if F64.le F64.zero a then F64.sqrt a else F64.nan
    let c ← lift (Val.fromF64 b)
    push c
  -- 2470-2474
  | .f64_add => do
    let b ← popF64
    let a ← popF64
    let c ← lift (Val.fromF64 (F64.add a b))
    push c
  -- 2475-2479
  | .f64_sub => do
    let b ← popF64
    let a ← popF64
    let c ← lift (Val.fromF64 (F64.sub a b))
    push c
  -- 2480-2484
  | .f64_mul => do
    let b ← popF64
    let a ← popF64
    let c ← lift (Val.fromF64 (F64.mul a b))
    push c
  -- 2485-2490
  | .f64_div => do
    let b ← popF64
    let a ← popF64
    let c := Arith.F64.div a b
    let d ← lift (Val.fromF64 c)
    push d
  -- 2491-2496
  | .f64_min => do
    let b ← popF64
    let a ← popF64
    let c := Arith.F64.min a b
    let d ← lift (Val.fromF64 c)
    push d
  -- 2497-2502
  | .f64_max => do
    let b ← popF64
    let a ← popF64
    let c := Arith.F64.max a b
    let d ← lift (Val.fromF64 c)
    push d
  -- 2503-2507
  | .f64_copysign => do
    let b ← popF64
    let a ← popF64
    let c ← lift (Val.fromF64 (F64.copysign a b))
    push c
  -- 2512-2517
  | .i32_trunc_f32_s => do
    let a ← popF32
    let b ← lift a.toInt
    let c ← lift (Val.fromI32 b)
    lift (Py.assert (c.intoI32 == b))
    push c
  -- 2518-2523
  | .i32_trunc_f32_u => do
    let a ← popF32
    let b ← lift a.toInt
    let c ← lift (Val.fromU32 b)
    lift (Py.assert (c.intoU32 == b))
    push c
  -- 2524-2529
  | .i32_trunc_f64_s => do
    let a ← popF64
    let b ← lift a.toInt
    let c ← lift (Val.fromI32 b)
    lift (Py.assert (c.intoI32 == b))
    push c
  -- 2530-2535
  | .i32_trunc_f64_u => do
    let a ← popF64
    let b ← lift a.toInt
    let c ← lift (Val.fromU32 b)
    lift (Py.assert (c.intoU32 == b))
    push c
  -- 2544-2549
  | .i64_trunc_f32_s => do
    let a ← popF32
    let b ← lift a.toInt
    let c ← lift (Val.fromI64 b)
    lift (Py.assert (c.intoI64 == b))
    push c
  -- 2550-2555
  | .i64_trunc_f32_u => do
    let a ← popF32
    let b ← lift a.toInt
    let c ← lift (Val.fromU64 b)
    lift (Py.assert (c.intoU64 == b))
    push c
  -- 2556-2561
  | .i64_trunc_f64_s => do
    let a ← popF64
    let b ← lift a.toInt
    let c ← lift (Val.fromI64 b)
    lift (Py.assert (c.intoI64 == b))
    push c
  -- 2562-2567
  | .i64_trunc_f64_u => do
    let a ← popF64
    let b ← lift a.toInt
    let c ← lift (Val.fromU64 b)
    lift (Py.assert (c.intoU64 == b))
    push c
  -- 2568-2571
  | .f32_convert_i32_s => do
    let a ← popI32
    let b ← lift (do Val.fromF32 (← F64.ofInt a))
    push b
  -- 2572-2575
  | .f32_convert_i32_u => do
    let a ← popU32
    let b ← lift (do Val.fromF32 (← F64.ofInt a))
    push b
  -- 2576-2579
  | .f32_convert_i64_s => do
    let a ← popI64
    let b ← lift (do Val.fromF32 (← F64.ofInt a))
    push b
  -- 2580-2583
  | .f32_convert_i64_u => do
    let a ← popU64
    let b ← lift (do Val.fromF32 (← F64.ofInt a))
    push b
  -- 2584-2587
  | .f32_demote_f64 => do
    let a ← popF64
    let b ← lift (Val.fromF32 a)
    push b
  -- 2588-2591
  | .f64_convert_i32_s => do
    let a ← popI32
    let b ← lift (do Val.fromF64 (← F64.ofInt a))
    push b
  -- 2592-2595
  | .f64_convert_i32_u => do
    let a ← popU32
    let b ← lift (do Val.fromF64 (← F64.ofInt a))
    push b
  -- 2596-2599
  | .f64_convert_i64_s => do
    let a ← popI64
    let b ← lift (do Val.fromF64 (← F64.ofInt a))
    push b
  -- 2600-2603
  | .f64_convert_i64_u => do
    let a ← popU64
    let b ← lift (do Val.fromF64 (← F64.ofInt a))
    push b
  -- 2604-2607
  | .f64_promote_f32 => do
    let a ← popF32
    let b ← lift (Val.fromF64 a)
    push b
  -- 2608-2611
  | .i32_reinterpret_f32 => do
    let a ← pop
    let b : Val := { a with ty := .i32 }
    push b
  -- 2612-2615
  | .i64_reinterpret_f64 => do
    let a ← pop
    let b : Val := { a with ty := .i64 }
    push b
  -- 2616-2619
  | .f32_reinterpret_i32 => do
    let a ← pop
    let b : Val := { a with ty := .f32 }
    push b
  -- 2620-2623
  | .f64_reinterpret_i64 => do
    let a ← pop
    let b : Val := { a with ty := .f64 }
    push b
  -- 2662-2668
  | .i32_trunc_sat_f32_s => do
    let a ← popF32
    let a := if a.isNaN then F64.zero else a
    let b ← lift (satInt (Arith.I.min 4) (Arith.I.max 4) a)
    let c ← lift (Val.fromI32 b)
    push c
  -- 2669-2675
  | .i32_trunc_sat_f32_u => do
    let a ← popF32
    let a := if a.isNaN then F64.zero else a
    let b ← lift (satInt (Arith.U.min 4) (Arith.U.max 4) a)
    let c ← lift (Val.fromU32 b)
    push c
  -- 2676-2682
  | .i32_trunc_sat_f64_s => do
    let a ← popF64
    let a := if a.isNaN then F64.zero else a
    let b ← lift (satInt (Arith.I.min 4) (Arith.I.max 4) a)
    let c ← lift (Val.fromI32 b)
    push c
  -- 2683-2689
  | .i32_trunc_sat_f64_u => do
    let a ← popF64
    let a := if a.isNaN then F64.zero else a
    let b ← lift (satInt (Arith.U.min 4) (Arith.U.max 4) a)
    let c ← lift (Val.fromU32 b)
    push c
  -- 2690-2696
  | .i64_trunc_sat_f32_s => do
    let a ← popF32
    let a := if a.isNaN then F64.zero else a
    let b ← lift (satInt (Arith.I.min 8) (Arith.I.max 8) a)
    let c ← lift (Val.fromI64 b)
    push c
  -- 2697-2703
  | .i64_trunc_sat_f32_u => do
    let a ← popF32
    let a := if a.isNaN then F64.zero else a
    let b ← lift (satInt (Arith.U.min 8) (Arith.U.max 8) a)
    let c ← lift (Val.fromU64 b)
    push c
  -- 2704-2710
  | .i64_trunc_sat_f64_s => do
    let a ← popF64
    let a := if a.isNaN then F64.zero else a
    let b ← lift (satInt (Arith.I.min 8) (Arith.I.max 8) a)
    let c ← lift (Val.fromI64 b)
    push c
  -- 2711-2717
  | .i64_trunc_sat_f64_u => do
    let a ← popF64
    let a := if a.isNaN then F64.zero else a
    let b ← lift (satInt (Arith.U.min 8) (Arith.U.max 8) a)
    let c ← lift (Val.fromU64 b)
    push c

end Pywasm
