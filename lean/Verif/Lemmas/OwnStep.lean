import Verif.Lemmas.Own
import Verif.Lemmas.Mem
import Verif.Lemmas.Wp
import Verif.Lemmas.Steps
import Verif.Spec.Invoke
import Verif.Props.Call

/-!
# Exceptions that are not pywasm's own come from host functions
-/

namespace Pywasm
open Spec M

variable {H : Host}

theorem OwnE.loadWiden (s : Bool) (k c : Nat) (b : Bytes) : OwnE (loadWiden s k c b) := by
  unfold Pywasm.loadWiden
  own_expr
theorem OwnE.load (op : LoadOp) (b : Bytes) : OwnE (op.make b) := by
  have := OwnE.loadWiden
  cases op <;> simp only [LoadOp.make] <;> own_expr <;> exact this _ _ _ _

namespace Own
theorem evalNum (op : NumOp) : Own (evalNum op) := by
  cases op with
  | int op => exact evalInt_own op
  | flt op => exact evalFlt_own op
  | vec op => exact evalVec_own op
  | lane op i => exact evalLane_own op i
  | shuffle s => exact evalShuffle_own s
theorem evaluateBr (l : Nat) : Own (evaluateBr l) := by
  unfold Pywasm.evaluateBr
  own
  all_goals split <;> own
theorem evaluateBype (b : Bype) : Own (evaluateBype b) := by cases b <;> unfold Pywasm.evaluateBype <;> own
theorem memLoad (o k : Nat) : Own (evaluateMemLoad o k) := by
  unfold Pywasm.evaluateMemLoad
  own
theorem memSave (o k : Nat) : Own (evaluateMemSave o k) := by
  unfold Pywasm.evaluateMemSave
  own
theorem pushBlock (lab : Label) (bt : FuncType) (body : List Inst) : Own (pushBlock lab bt body) := by
  unfold Pywasm.pushBlock
  own
theorem setLocal (i : Nat) (a : Val) : Own (exec.setLocal i a) := by
  unfold exec.setLocal
  own

/-- instructions other than calls -/
def plain : Inst → Bool
  | .call _ | .callIndirect _ _ => false
  | _ => true

theorem exec (lab : Label) (f : Frame) (i : Inst) (hi : plain i = true) : Own (exec H lab f i) := by
  cases i with
  | call k => cases hi
  | callIndirect t k => cases hi
  | num op => exact vm (evalNum op)
  | load op al off =>
    simp only [Pywasm.exec]
    exact (memLoad _ _).bind fun _ => (lift (OwnE.load _ _)).bind fun _ => mpush _
  | _ =>
    simp only [Pywasm.exec]
    own
    all_goals first
      | exact evaluateBr _ | exact evaluateBype _ | exact memLoad _ _ | exact memSave _ _ | exact pushBlock _ _ _
      | exact setLocal _ _

theorem bind_inv {σ α β : Type} {x : EStateM Err σ α} {f : α → EStateM Err σ β} {s s' : σ} {e : Err} (hx : Own x)
    (he : e.own = false) (h : (x >>= f) s = .error e s') : ∃ a s1, x s = .ok a s1 ∧ f a s1 = .error e s' := by
  change EStateM.bind x f s = _ at h
  unfold EStateM.bind at h
  cases hr : x s with
  | ok a s1 => rw [hr] at h; exact ⟨a, s1, rfl, h⟩
  | error e1 s1 =>
    rw [hr] at h; cases h
    have := hx _ _ _ hr
    rw [he] at this; cases this
end Own

theorem idx_inv {α} {l : List α} {i : Nat} {m m' : Machine} {a : α} (h : M.idx l i m = .ok a m') : l[i]? = some a ∧ m = m' := by
  unfold M.idx at h
  cases hl : l[i]? with
  | some b => rw [hl] at h; cases h; exact ⟨rfl, rfl⟩
  | none => rw [hl] at h; cases h
theorem lift_inv {α} {x : Except Err α} {m m' : Machine} {a : α} (h : M.lift x m = .ok a m') : x = .ok a ∧ m = m' := by
  cases x with
  | ok b => cases h; exact ⟨rfl, rfl⟩
  | error e => cases h
theorem assert_inv {c : Bool} {m m' : Machine} {a : Unit} (h : M.assert c m = .ok a m') : c = true ∧ m = m' := by
  cases c with
  | true => cases h; exact ⟨rfl, rfl⟩
  | false => cases h
theorem popN_inv {n : Nat} {m m' : Machine} {l : List Val} (h : M.popN n m = .ok l m') :
    l.length = n ∧ ∃ s, m.value = l.reverse ++ s ∧ m' = { m with value := s } := by
  have := wp_popN (n := n) (m := m) (E := fun _ => True)
    (Q := fun l m' => l.length = n ∧ ∃ s, m.value = l.reverse ++ s ∧ m' = { m with value := s })
    (fun l s hl hs => ⟨hl, s, hs, rfl⟩) (fun _ => trivial)
  unfold Wp at this
  rw [h] at this
  exact this

/-- A call that raises something not pywasm's own is a call of a host function, which raised it. -/
theorem evaluateCall_raises {addr : Int} {m m' : Machine} {e : Err} (he : e.own = false)
    (h : evaluateCall H addr m = .error e m') :
    ∃ (t : FuncType) (c : Nat) (args rest : List Val) (xs : List HVal), Py.getItem m.store.func addr = .ok (.host t c) ∧ m.value = args.reverse ++ rest ∧
      args.length = t.args.length ∧ args.mapM Val.intoAll = .ok xs ∧
      H c (curModule m) xs m.store = .error e m'.store ∧ m' = { m with value := rest, store := m'.store } := by
  unfold evaluateCall at h
  rw [bind_get_run] at h
  obtain ⟨fn, _, h1, h⟩ := (Own.lift (.getItem _ _)).bind_inv he h
  obtain ⟨h1', rfl⟩ := lift_inv h1
  obtain ⟨args, _, h2, h⟩ := (Own.popN _).bind_inv he h
  obtain ⟨hl, s, hv, rfl⟩ := popN_inv h2
  cases fn with
  | wasm t k code =>
    exfalso
    have : Own (do
      assert (decide ((← get).frame.length < 1024))
      let locals := args ++ zeroLocals code.locals
      let module ← idx (← get).store.mods k
      modify fun m => { m with frame := ⟨module, locals, t.rets.length, m.label.length, m.value.length⟩ :: m.frame }
      modify fun m => { m with label := ⟨t.rets.length, m.frame.length, m.value.length, .func, code.expr, 0⟩ :: m.label } : M Unit) := by
      own
    have := this _ _ _ h
    rw [he] at this; cases this
  | host t c =>
    dsimp only [FuncInst.type] at hl h
    obtain ⟨xs, _, h3, h⟩ := (Own.lift (.mapM _ OwnE.intoAll)).bind_inv he h
    obtain ⟨h3', rfl⟩ := lift_inv h3
    rw [M.bind_run] at h
    cases hc : callHost H c xs { m with value := s } with
    | ok ys m1 =>
      rw [hc] at h
      exfalso
      have := ((Own.lift (OwnE.mapM (t.rets.zip ys) fun p => OwnE.fromAll p.1 p.2)).bind fun r => Own.extend r) _ _ _ h
      rw [he] at this; cases this
    | error e1 m1 =>
      rw [hc] at h
      cases h
      unfold callHost at hc
      cases hh : H c (m.frame.head?.map (·.module)) xs m.store with
      | ok r s' => simp only [hh] at hc; cases hc
      | error e2 s' =>
        simp only [hh] at hc; cases hc
        exact ⟨t, c, args, s, xs, h1', hv, hl, h3', hh, rfl⟩

theorem evaluateCall_host_raises {addr : Int} {m : Machine} {e : Err} {t : FuncType} {c : Nat} {args rest : List Val}
    {xs : List HVal} {s' : Store}
    (hf : Py.getItem m.store.func addr = .ok (.host t c)) (hv : m.value = args.reverse ++ rest)
    (hl : args.length = t.args.length) (hx : args.mapM Val.intoAll = .ok xs)
    (hH : H c (curModule m) xs m.store = .error e s') :
    evaluateCall H addr m = .error e { m with value := rest, store := s' } := by
  unfold evaluateCall
  rw [bind_get_run, hf, bind_lift_ok]
  simp only [FuncInst.type]
  rw [bind_popN hv hl.symm, hx, bind_lift_ok]
  have hcall : callHost H c xs { m with value := rest } = .error e { m with value := rest, store := s' } := by
    unfold callHost
    unfold curModule at hH
    simp only [hH]
  rw [bind_err hcall]

theorem advance_curModule (m : Machine) : curModule (advance m) = curModule m := by
  unfold advance curModule; split <;> rfl

/-- `pop_u32` -/
theorem popU32_inv {m m' : Machine} {n : Nat} (h : M.popU32 m = .ok n m') :
    ∃ v s, m.value = v :: s ∧ n = v.low32.toNat ∧ m' = { m with value := s } := by
  cases hv : m.value with
  | nil => unfold popU32 at h; rw [bind_err (pop_nil hv)] at h; cases h
  | cons v s => rw [popU32_eq hv] at h; cases h; exact ⟨v, s, rfl, rfl, rfl⟩

theorem intoRef_inv {r : Val} {a : Int} (h : r.intoRef = .ok a) : refTarget r = some a := by
  cases hr : refTarget r with
  | none => rw [intoRef_none hr] at h; cases h
  | some b => rw [intoRef_some hr] at h; cases h; rfl

/-- **Inversion**: an instruction that raises something not pywasm's own calls a host function, which raised it. -/
theorem step_raises {m m' : Machine} {e : Err} (he : e.own = false) (h : step H m = .error e m') :
    ∃ c xs, CallsHost m c xs ∧ H c (curModule m) xs m.store = .error e m'.store := by
  cases hn : next m with
  | none =>
    exfalso
    have ho : e.own = true := by
      unfold step at h
      by_contra hc
      simp only [Bool.not_eq_true] at hc
      rw [bind_get_run] at h
      obtain ⟨lab, _, h1, h⟩ := (Own.idx _ _).bind_inv hc h
      obtain ⟨h1', rfl⟩ := idx_inv h1
      obtain ⟨f, _, h2, h⟩ := Own.topFrame.bind_inv hc h
      have h2' : ∃ fs, m.frame = f :: fs := by
        unfold M.topFrame at h2
        rw [bind_get_run] at h2
        obtain ⟨h2, -⟩ := idx_inv h2
        cases hf : m.frame with
        | nil => rw [hf] at h2; cases h2
        | cons g fs => rw [hf] at h2; cases h2; exact ⟨fs, rfl⟩
      obtain ⟨fs, hf⟩ := h2'
      have h1' : ∃ ls, m.label = lab :: ls := by
        cases hf : m.label with
        | nil => rw [hf] at h1'; cases h1'
        | cons g fs => rw [hf] at h1'; cases h1'; exact ⟨fs, rfl⟩
      obtain ⟨ls, hlab⟩ := h1'
      unfold next at hn
      simp only [hlab, hf] at hn
      split at h
      · have : Own (do
          modify fun m => { m with label := m.label.tail }
          if lab.carry = .func then do
            assert (decide ((← get).value.length = f.value + f.arity))
            modify fun m => { m with frame := m.frame.tail }
          else pure () : M Unit) := by own
        have := this _ _ _ h
        rw [hc] at this; cases this
      · rw [bind_idx_none hn] at h; cases h; cases hc
    rw [he] at ho; cases ho
  | some i =>
    obtain ⟨lab, ls, f, fs, hlab, hf, hs, hadv⟩ := step_next (H := H) hn
    have hcur : curModule m = some f.module := by simp [curModule, hf]
    rw [hs] at h
    by_cases hp : Own.plain i = true
    · have := Own.exec (H := H) _ _ _ hp _ _ _ h
      rw [he] at this; cases this
    · cases i <;> try (exact absurd rfl hp)
      · rename_i k
        simp only [exec] at h
        obtain ⟨a, _, h1, h⟩ := (Own.idx _ _).bind_inv he h
        obtain ⟨h1', rfl⟩ := idx_inv h1
        obtain ⟨t, c, args, rest, xs, g1, g2, g3, g4, g5, -⟩ := evaluateCall_raises he h
        rw [advance_curModule, advance_store] at g5
        rw [advance_store] at g1
        exact ⟨c, xs, ⟨a, _, t, args, rest, .call hn hcur h1', g1, by simpa using g2, g3, g4⟩, g5⟩
      · rename_i ti tab
        simp only [exec] at h
        obtain ⟨⟨ta, tb⟩, m1, h1, h⟩ := (Own.theTable _ _).bind_inv he h
        have ht : f.module.tabl[tab]? = some ta ∧ m.store.tabl[ta]? = some tb ∧ m1 = advance m := by
          unfold theTable at h1
          cases ha : f.module.tabl[tab]? with
          | none => rw [bind_idx_none ha] at h1; cases h1
          | some a =>
            rw [bind_idx_some ha, bind_get_run] at h1
            cases hb : (advance m).store.tabl[a]? with
            | none => rw [bind_idx_none hb] at h1; cases h1
            | some b =>
              rw [bind_idx_some hb] at h1; cases h1
              exact ⟨rfl, by simpa using hb, rfl⟩
        obtain ⟨ht1, ht2, rfl⟩ := ht
        dsimp only at h
        obtain ⟨ty, _, h2, h⟩ := (Own.idx _ _).bind_inv he h
        obtain ⟨h2', rfl⟩ := idx_inv h2
        obtain ⟨n, _, h3, h⟩ := Own.popU32.bind_inv he h
        obtain ⟨v, vs, hv, rfl, rfl⟩ := popU32_inv h3
        obtain ⟨r, _, h4, h⟩ := (Own.idx _ _).bind_inv he h
        obtain ⟨h4', rfl⟩ := idx_inv h4
        obtain ⟨a, _, h5, h⟩ := (Own.lift (.intoRef _)).bind_inv he h
        obtain ⟨h5', rfl⟩ := lift_inv h5
        rw [bind_get_run] at h
        obtain ⟨fn, _, h6, h⟩ := (Own.lift (.getItem _ _)).bind_inv he h
        obtain ⟨h6', rfl⟩ := lift_inv h6
        obtain ⟨_, _, h7, h⟩ := (Own.assert _).bind_inv he h
        obtain ⟨h7', rfl⟩ := assert_inv h7
        simp only [decide_eq_true_eq] at h7'
        obtain ⟨t, c, args, rest, xs, g1, g2, g3, g4, g5, -⟩ := evaluateCall_raises he h
        have hcm : curModule { advance m with value := vs } = curModule m := by
          rw [← advance_curModule m]; rfl
        rw [hcm] at g5
        simp only [advance_store] at g1 h6'
        change H c (curModule m) xs (advance m).store = _ at g5
        rw [advance_store] at g5
        refine ⟨c, xs, ⟨a, vs, t, args, rest, ?_, g1, g2, g3, g4⟩, g5⟩
        exact .indirect hn hcur ⟨_, hcur, ht1, ht2⟩ (by simpa using hv) h4' (intoRef_inv h5') h6' (by rw [h7']; exact h2')

end Pywasm
