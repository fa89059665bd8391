import Verif.Model.Value
import Mathlib.Data.List.Forall2

/-!
# The types of the values that conversions make
-/

namespace Pywasm

/-- If it makes a value, it is of type `ty`. -/
def Makes (ty : ValType) (x : Except Err Val) : Prop := ∀ v, x = .ok v → v.ty = ty

namespace Makes
theorem err (ty : ValType) (e : Err) : Makes ty (.error e) := by intro v h; cases h
theorem bind {α} {ty : ValType} {x : Except Err α} {f : α → Except Err Val} (hf : ∀ a, Makes ty (f a)) : Makes ty (x >>= f) := by
  intro v h
  cases x with
  | ok a => exact hf a v h
  | error e => cases h
theorem make (ty : ValType) (d : Bytes) : Makes ty (Val.make ty d) := by
  intro v h
  unfold Val.make at h
  split at h
  · cases h; rfl
  · cases h
theorem fromI32 (n : Int) : Makes .i32 (Val.fromI32 n) := bind fun _ => make _ _
theorem fromI64 (n : Int) : Makes .i64 (Val.fromI64 n) := bind fun _ => make _ _
theorem fromU32 (n : Int) : Makes .i32 (Val.fromU32 n) := bind fun _ => make _ _
theorem fromU64 (n : Int) : Makes .i64 (Val.fromU64 n) := bind fun _ => make _ _
theorem fromF32 (x : F64) : Makes .f32 (Val.fromF32 x) := make _ _
theorem fromF32U32 (n : Int) : Makes .f32 (Val.fromF32U32 n) := bind fun _ => by intro v h; cases h; rfl
theorem fromF64 (x : F64) : Makes .f64 (Val.fromF64 x) := make _ _
theorem fromF64U64 (n : Int) : Makes .f64 (Val.fromF64U64 n) := bind fun _ => by intro v h; cases h; rfl
theorem fromV128 (b : Bytes) : Makes .v128 (Val.fromV128 b) := bind fun _ => make _ _
theorem fromV128I (k : Nat) (l : List Int) : Makes .v128 (Val.fromV128I k l) := bind fun _ => bind fun _ => make _ _
theorem fromV128U (k : Nat) (l : List Int) : Makes .v128 (Val.fromV128U k l) := bind fun _ => bind fun _ => make _ _
theorem fromV128F32 (l : List F64) : Makes .v128 (Val.fromV128F32 l) := bind fun _ => make _ _
theorem fromV128F64 (l : List F64) : Makes .v128 (Val.fromV128F64 l) := bind fun _ => make _ _
theorem fromRef (ty : ValType) (n : Int) : Makes ty (Val.fromRef ty n) := bind fun _ => make _ _
theorem fromAll (ty : ValType) (n : HVal) : Makes ty (Val.fromAll ty n) := by
  unfold Val.fromAll
  split <;> with_reducible first
    | exact err _ _
    | exact fromI32 _
    | exact fromI64 _
    | exact fromF32 _
    | exact fromF64 _
    | exact fromV128 _
    | exact fromRef _ _
    | exact bind fun _ => fromF32 _
    | exact bind fun _ => fromF64 _

/-- `from_all` of a list of types and values -/
theorem all {ts : List ValType} {xs : List HVal} {vs : List Val} (h : (ts.zip xs).mapM (fun p => Val.fromAll p.1 p.2) = .ok vs)
    (hl : ts.length = xs.length) : List.Forall₂ (fun t (v : Val) => v.ty = t) ts vs := by
  induction ts generalizing xs vs with
  | nil =>
    simp only [List.zip_nil_left, List.mapM_nil] at h
    cases h; exact .nil
  | cons t ts ih =>
    cases xs with
    | nil => simp at hl
    | cons x xs =>
      rw [List.zip_cons_cons, List.mapM_cons] at h
      cases hv : Val.fromAll t x with
      | error e => dsimp only at h; rw [hv] at h; cases h
      | ok v =>
        dsimp only at h
        rw [hv] at h
        cases hvs : (ts.zip xs).mapM (fun p => Val.fromAll p.1 p.2) with
        | error e => rw [hvs] at h; cases h
        | ok l =>
          rw [hvs] at h; cases h
          exact .cons (fromAll _ _ _ hv) (ih hvs (by simpa using hl))
end Makes

end Pywasm
