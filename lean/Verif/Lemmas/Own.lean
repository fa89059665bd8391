import Verif.Spec.Own
import Verif.Lemmas.MRun

/-!
# Exceptions that are not pywasm's own come from host functions
-/

namespace Pywasm

/-- An expression that only raises pywasm's own exceptions. -/
def OwnE {α} (x : Except Err α) : Prop := ∀ e, x = .error e → e.own = true
/-- A computation that only raises pywasm's own exceptions. -/
def Own {σ α} (x : EStateM Err σ α) : Prop := ∀ s e s', x s = .error e s' → e.own = true

namespace OwnE
theorem ok {α} (a : α) : OwnE (.ok a : Except Err α) := by intro e h; cases h
theorem pure {α} (a : α) : OwnE (Pure.pure a : Except Err α) := by intro e h; cases h
theorem err {α} {e : Err} (he : e.own = true) : OwnE (.error e : Except Err α) := by intro e' h; cases h; exact he
theorem mapErr {α} {x : Except Err α} {f : Err → Err} (hf : ∀ e, (f e).own = true) : OwnE (x.mapError f) := by
  intro e h
  cases x with
  | error y => injection h with h; exact h ▸ hf y
  | ok a => cases h
theorem bind {α β} {x : Except Err α} {f : α → Except Err β} (hx : OwnE x) (hf : ∀ a, OwnE (f a)) : OwnE (x >>= f) := by
  intro e h
  cases x with
  | ok a => exact hf a e h
  | error e' => cases h; exact hx _ rfl
theorem ite {α} {c : Prop} [Decidable c] {x y : Except Err α} (hx : OwnE x) (hy : OwnE y) : OwnE (if c then x else y) := by
  split
  · exact hx
  · exact hy
theorem mapM {α β} (l : List α) {f : α → Except Err β} (hf : ∀ a, OwnE (f a)) : OwnE (l.mapM f) := by
  induction l with
  | nil => exact ok _
  | cons a l ih =>
    rw [List.mapM_cons]
    exact (hf a).bind fun _ => ih.bind fun _ => pure _
theorem map {α β} {x : Except Err α} (f : α → β) (hx : OwnE x) : OwnE (x.map f) := by
  intro e h
  cases x with
  | ok a => cases h
  | error e' => cases h; exact hx _ rfl

theorem floorDiv (a b : Int) : OwnE (Py.floorDiv a b) := ite (err rfl) (ok _)
theorem mod (a b : Int) : OwnE (Py.mod a b) := ite (err rfl) (ok _)
theorem assert (c : Bool) : OwnE (Py.assert c) := ite (ok _) (err rfl)
theorem toBytesU (k : Nat) (n : Int) : OwnE (Py.toBytesU k n) := ite (ok _) (err rfl)
theorem toBytesS (k : Nat) (n : Int) : OwnE (Py.toBytesS k n) := ite (ok _) (err rfl)
theorem packU (k : Nat) (n : Int) : OwnE (Py.packU k n) := ite (ok _) (err rfl)
theorem packS (k : Nat) (n : Int) : OwnE (Py.packS k n) := ite (ok _) (err rfl)
theorem unpackU (k : Nat) (n : Bytes) : OwnE (Py.unpackU k n) := ite (ok _) (err rfl)
theorem unpackS (k : Nat) (n : Bytes) : OwnE (Py.unpackS k n) := ite (ok _) (err rfl)
theorem getItem {α} (l : List α) (i : Int) : OwnE (Py.getItem l i) := by
  unfold Py.getItem
  refine ite (err rfl) ?_
  split
  · exact ok _
  · exact err rfl
theorem setItem {α} (l : List α) (i : Int) (v : α) : OwnE (Py.setItem l i v) := ite (err rfl) (ok _)
theorem bytearray (l : List Int) : OwnE (Py.bytearray l) := ite (ok _) (err rfl)
theorem idiv (k : Nat) (a b : Int) : OwnE (Arith.I.div k a b) :=
  (assert _).bind fun _ => ite (floorDiv _ _) ((mod _ _).bind fun _ => floorDiv _ _)
theorem irem (k : Nat) (a b : Int) : OwnE (Arith.I.rem k a b) := ite (mod _ _) ((mod _ _).bind fun _ => pure _)
theorem udiv (k : Nat) (a b : Int) : OwnE (Arith.U.div k a b) := floorDiv _ _
theorem urem (k : Nat) (a b : Int) : OwnE (Arith.U.rem k a b) := mod _ _
theorem iBytes (k : Nat) (n : Int) : OwnE (Arith.I.intoBytearray k n) := toBytesS _ _
theorem uBytes (k : Nat) (n : Int) : OwnE (Arith.U.intoBytearray k n) := toBytesU _ _
theorem ofInt (n : Int) : OwnE (F64.ofInt n) := by
  unfold F64.ofInt
  dsimp only
  generalize IEEE.roundMag 52 2047 _ _ = m
  split
  · exact ok _
  · exact err rfl
theorem toInt (x : F64) : OwnE (F64.toInt x) := by
  unfold F64.toInt
  split
  · exact err rfl
  · split
    · exact err rfl
    · exact ok _
theorem satInt (lo hi : Int) (a : F64) : OwnE (satInt lo hi a) := by
  unfold Pywasm.satInt
  split
  · exact ok _
  · split
    · exact toInt _
    · exact ok _
theorem ofCode (n : Nat) : OwnE (ValType.ofCode n) := by
  unfold ValType.ofCode
  repeat' first | exact ok _ | exact err rfl | refine ite ?_ ?_
theorem make (ty : ValType) (d : Bytes) : OwnE (Val.make ty d) := by
  unfold Val.make
  split
  · exact ok _
  · exact err rfl
theorem fromI32 (n : Int) : OwnE (Val.fromI32 n) := (toBytesS _ _).bind fun _ => make _ _
theorem fromI64 (n : Int) : OwnE (Val.fromI64 n) := (toBytesS _ _).bind fun _ => make _ _
theorem fromU32 (n : Int) : OwnE (Val.fromU32 n) := (toBytesU _ _).bind fun _ => make _ _
theorem fromU64 (n : Int) : OwnE (Val.fromU64 n) := (toBytesU _ _).bind fun _ => make _ _
theorem fromF32 (n : F64) : OwnE (Val.fromF32 n) := make _ _
theorem fromF32U32 (n : Int) : OwnE (Val.fromF32U32 n) := (fromU32 _).bind fun _ => pure _
theorem fromF64 (n : F64) : OwnE (Val.fromF64 n) := make _ _
theorem fromF64U64 (n : Int) : OwnE (Val.fromF64U64 n) := (fromU64 _).bind fun _ => pure _
theorem fromV128 (n : Bytes) : OwnE (Val.fromV128 n) := (assert _).bind fun _ => make _ _
theorem fromV128I (k : Nat) (n : List Int) : OwnE (Val.fromV128I k n) :=
  (assert _).bind fun _ => (mapM _ fun _ => toBytesS _ _).bind fun _ => make _ _
theorem fromV128U (k : Nat) (n : List Int) : OwnE (Val.fromV128U k n) :=
  (assert _).bind fun _ => (mapM _ fun _ => toBytesU _ _).bind fun _ => make _ _
theorem fromV128F32 (n : List F64) : OwnE (Val.fromV128F32 n) := (assert _).bind fun _ => make _ _
theorem fromV128F64 (n : List F64) : OwnE (Val.fromV128F64 n) := (assert _).bind fun _ => make _ _
theorem fromRef (ty : ValType) (n : Int) : OwnE (Val.fromRef ty n) := (packS _ _).bind fun _ => make _ _
theorem intoRef (v : Val) : OwnE v.intoRef := (assert _).bind fun _ => pure _
theorem fromAll (ty : ValType) (n : HVal) : OwnE (Val.fromAll ty n) := by
  unfold Val.fromAll
  split <;> with_reducible first
    | exact err rfl
    | exact fromI32 _
    | exact fromI64 _
    | exact fromF32 _
    | exact fromF64 _
    | exact fromV128 _
    | exact fromRef _ _
    | exact (ofInt _).bind fun _ => fromF32 _
    | exact (mapErr fun _ => rfl).bind fun _ => fromF64 _
theorem intoAll (v : Val) : OwnE v.intoAll := by
  unfold Val.intoAll
  split <;> with_reducible first
    | exact ok _
    | exact map _ (intoRef _)
theorem memGrow (m : MemInst) (n : Nat) : OwnE (m.grow n) := by
  unfold MemInst.grow
  with_reducible repeat' first
    | exact pure _ | exact assert _ | refine bind ?_ (fun _ => ?_) | refine ite ?_ ?_
theorem tableGrow (t : TableInst) (n : Nat) (v : Val) : OwnE (t.grow n v) := by
  unfold TableInst.grow
  with_reducible repeat' first
    | exact pure _ | exact assert _ | refine bind ?_ (fun _ => ?_) | refine ite ?_ ?_
end OwnE

/-- apply the rules for expressions -/
macro "own_expr" : tactic => `(tactic| with_reducible repeat' first
  | exact OwnE.ok _ | exact OwnE.pure _ | exact OwnE.err rfl
  | exact OwnE.floorDiv _ _ | exact OwnE.mod _ _ | exact OwnE.assert _ | exact OwnE.toBytesU _ _ | exact OwnE.toBytesS _ _
  | exact OwnE.packU _ _ | exact OwnE.packS _ _ | exact OwnE.unpackU _ _ | exact OwnE.unpackS _ _
  | exact OwnE.getItem _ _ | exact OwnE.setItem _ _ _ | exact OwnE.bytearray _
  | exact OwnE.idiv _ _ _ | exact OwnE.irem _ _ _ | exact OwnE.udiv _ _ _ | exact OwnE.urem _ _ _
  | exact OwnE.iBytes _ _ | exact OwnE.uBytes _ _
  | exact OwnE.ofInt _ | exact OwnE.toInt _ | exact OwnE.satInt _ _ _ | exact OwnE.ofCode _ | exact OwnE.make _ _
  | exact OwnE.fromI32 _ | exact OwnE.fromI64 _ | exact OwnE.fromU32 _ | exact OwnE.fromU64 _
  | exact OwnE.fromF32 _ | exact OwnE.fromF32U32 _ | exact OwnE.fromF64 _ | exact OwnE.fromF64U64 _
  | exact OwnE.fromV128 _ | exact OwnE.fromV128I _ _ | exact OwnE.fromV128U _ _
  | exact OwnE.fromV128F32 _ | exact OwnE.fromV128F64 _ | exact OwnE.fromRef _ _ | exact OwnE.intoRef _
  | exact OwnE.fromAll _ _ | exact OwnE.intoAll _ | exact OwnE.memGrow _ _ | exact OwnE.tableGrow _ _ _
  | refine OwnE.bind ?_ (fun _ => ?_) | refine OwnE.ite ?_ ?_ | refine OwnE.mapM _ (fun _ => ?_))

namespace Own
variable {σ α β : Type}
theorem pure (a : α) : Own (Pure.pure a : EStateM Err σ α) := by intro s e s' h; cases h
theorem get : Own (get : EStateM Err σ σ) := by intro s e s' h; cases h
theorem modify (f : σ → σ) : Own (modify f : EStateM Err σ PUnit) := by intro s e s' h; cases h
theorem throw {e : Err} (he : e.own = true) : Own (throw e : EStateM Err σ α) := by intro s e s' h; cases h; exact he
theorem bind {x : EStateM Err σ α} {f : α → EStateM Err σ β} (hx : Own x) (hf : ∀ a, Own (f a)) : Own (x >>= f) := by
  intro s e s' h
  change EStateM.bind x f s = _ at h
  unfold EStateM.bind at h
  cases hr : x s with
  | ok a s1 => rw [hr] at h; exact hf a s1 e s' h
  | error e1 s1 => rw [hr] at h; cases h; exact hx _ _ _ hr
theorem ite {c : Prop} [Decidable c] {x y : EStateM Err σ α} (hx : Own x) (hy : Own y) : Own (if c then x else y) := by
  split
  · exact hx
  · exact hy
theorem vpop : Own VM.pop := by intro s e s' h; cases s <;> cases h; rfl
theorem vpush (v : Val) : Own (VM.push v) := by intro s e s' h; cases h
theorem vlift {e : Except Err α} (h : OwnE e) : Own (VM.lift e) := by
  intro s e' s' h'
  cases e with
  | ok a => cases h'
  | error e => cases h'; exact h _ rfl
theorem vm {x : VM α} (h : Own x) : Own (M.vm x) := by
  intro m e m' h'
  unfold M.vm at h'
  cases hx : x m.value with
  | ok a s => rw [hx] at h'; cases h'
  | error e1 s => rw [hx] at h'; cases h'; exact h _ _ _ hx
theorem lift {e : Except Err α} (h : OwnE e) : Own (M.lift e) := by
  intro s e' s' h'
  cases e with
  | ok a => cases h'
  | error e => cases h'; exact h _ rfl
theorem assert (c : Bool) : Own (M.assert c) := lift (.assert c)
theorem idx (l : List α) (i : Nat) : Own (M.idx l i) := by
  intro m e m' h
  unfold M.idx at h
  cases hl : l[i]? with
  | some a => rw [hl] at h; cases h
  | none => rw [hl] at h; cases h; rfl
theorem mpop : Own M.pop := vm vpop
theorem mpush (v : Val) : Own (M.push v) := vm (vpush v)
theorem popU32 : Own M.popU32 := mpop.bind fun _ => pure _
theorem popI32 : Own M.popI32 := mpop.bind fun _ => pure _
theorem popN : ∀ n : Nat, Own (M.popN n)
  | 0 => pure _
  | n + 1 => mpop.bind fun _ => (popN n).bind fun _ => pure _
theorem extend (l : List Val) : Own (M.extend l) := modify _
theorem topFrame : Own M.topFrame := get.bind fun _ => idx _ _
theorem theMem (f : Frame) : Own (theMem f) := (idx _ _).bind fun _ => get.bind fun _ => (idx _ _).bind fun _ => pure _
theorem theTable (f : Frame) (i : Nat) : Own (theTable f i) :=
  (idx _ _).bind fun _ => get.bind fun _ => (idx _ _).bind fun _ => pure _
theorem setMem (a : Nat) (mem : MemInst) : Own (setMem a mem) := modify _
theorem setTable (a : Nat) (t : TableInst) : Own (setTable a t) := modify _
theorem vI32 : Own VM.popI32 := vpop.bind fun _ => pure _
theorem vI64 : Own VM.popI64 := vpop.bind fun _ => pure _
theorem vU32 : Own VM.popU32 := vpop.bind fun _ => pure _
theorem vU64 : Own VM.popU64 := vpop.bind fun _ => pure _
theorem vF32 : Own VM.popF32 := vpop.bind fun _ => pure _
theorem vF64 : Own VM.popF64 := vpop.bind fun _ => pure _
theorem vV128 : Own VM.popV128 := vpop.bind fun _ => pure _
theorem vLI8 : Own VM.popLanesI8 := vpop.bind fun _ => pure _
theorem vLU8 : Own VM.popLanesU8 := vpop.bind fun _ => pure _
theorem vLI (k : Nat) : Own (VM.popLanesI k) := vpop.bind fun _ => pure _
theorem vLU (k : Nat) : Own (VM.popLanesU k) := vpop.bind fun _ => pure _
theorem vLF32 : Own VM.popLanesF32 := vpop.bind fun _ => pure _
theorem vLF64 : Own VM.popLanesF64 := vpop.bind fun _ => pure _
end Own

/-- apply the rules for computations -/
macro "own" : tactic => `(tactic| (with_reducible repeat' first
  | exact Own.pure _ | exact Own.get | exact Own.modify _ | exact Own.throw rfl
  | exact Own.vpop | exact Own.vpush _ | exact Own.assert _ | exact Own.idx _ _ | exact Own.mpop | exact Own.mpush _
  | exact Own.popU32 | exact Own.popI32 | exact Own.popN _ | exact Own.extend _ | exact Own.topFrame
  | exact Own.theMem _ | exact Own.theTable _ _ | exact Own.setMem _ _ | exact Own.setTable _ _
  | exact Own.vI32 | exact Own.vI64 | exact Own.vU32 | exact Own.vU64 | exact Own.vF32 | exact Own.vF64
  | exact Own.vV128 | exact Own.vLI8 | exact Own.vLU8 | exact Own.vLI _ | exact Own.vLU _ | exact Own.vLF32 | exact Own.vLF64
  | (refine Own.vlift ?_; own_expr; done) | (refine Own.lift ?_; own_expr; done)
  | refine Own.vm ?_ | refine Own.bind ?_ (fun _ => ?_) | refine Own.ite ?_ ?_))

theorem evalInt_own (op : IOp) : Own (evalInt op) := by cases op <;> simp only [evalInt] <;> own
theorem evalFlt_own (op : FOp) : Own (evalFlt op) := by cases op <;> simp only [evalFlt] <;> own
theorem evalVec_own (op : VOp) : Own (evalVec op) := by cases op <;> simp only [evalVec] <;> own
theorem evalLane_own (op : LOp) (i : Nat) : Own (evalLane op i) := by cases op <;> simp only [evalLane] <;> own
theorem evalShuffle_own (sel : List Nat) : Own (evalShuffle sel) := by unfold evalShuffle; own

end Pywasm
