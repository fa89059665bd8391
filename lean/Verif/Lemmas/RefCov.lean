import Verif.Lemmas.RefMain

/-! Whatever the reference interpreter comes to, no function has been added that branches to its own label. -/

namespace Pywasm
open Spec M

variable {H : Host} {nd : Bool}

/-- The store of the outcome is covered. -/
def CovRes (nd : Bool) : Ref.Res → Prop
  | .norm st | .br _ st | .ret st => Ref.CoveredStore nd st.store
  | .trap s => Ref.CoveredStore nd s
  | .stuck | .timeout => True

theorem cov_inBlock {body : Ref.St → Ref.Res} {a b : Nat} {st : Ref.St}
    (h : CovRes nd (body { st with vs := st.vs.take a })) : CovRes nd (Ref.inBlock body a b st) := by
  unfold Ref.inBlock
  split
  · trivial
  simp only
  cases hb : body { st with vs := st.vs.take a } with
  | norm st' => rw [hb] at h; exact h
  | br n st' =>
    rw [hb] at h
    cases n with
    | zero => simp only; split; exacts [trivial, h]
    | succ n => exact h
  | ret st' => rw [hb] at h; exact h
  | trap s => rw [hb] at h; exact h
  | stuck => trivial
  | timeout => trivial

theorem cov_call (hH : HostCovered nd H) {body : Nat → ModuleInst → List Inst → Ref.St → Ref.Res} {c : Option ModuleInst} {k a : Nat} {st : Ref.St}
    (hs : Ref.CoveredStore nd st.store) (h : ∀ d mod is st, Ref.CoveredStore nd st.store → CovRes nd (body d mod is st)) :
    CovRes nd (Ref.call H body c k a st) := by
  unfold Ref.call
  cases hf : st.store.func[a]? with
  | none => trivial
  | some f =>
    cases f with
    | wasm t m code =>
      simp only
      split
      · trivial
      split
      · exact hs
      cases hm : st.store.mods[m]? with
      | none => trivial
      | some mod =>
        simp only
        have hb := h (k + 1) mod code.expr ⟨st.store, (st.vs.take t.args.length).reverse ++
          code.locals.flatMap fun e => List.replicate e.1 (Val.zero e.2), []⟩ hs
        generalize body (k + 1) mod code.expr _ = r at hb
        cases r with
        | norm st' => simp only; split; exacts [hb, trivial]
        | br n st' =>
          cases n with
          | zero => simp only; split; exacts [trivial, hb]
          | succ n => trivial
        | ret st' => simp only; split; exacts [trivial, hb]
        | trap s => exact hb
        | stuck => trivial
        | timeout => trivial
    | host t n =>
      simp only
      split
      · trivial
      cases (List.mapM Val.intoAll (st.vs.take t.args.length).reverse : Except Err (List HVal)) with
      | error => exact hs
      | ok xs =>
        simp only
        have hh := hH n c xs st.store hs
        cases hx : H n c xs st.store with
        | error e s => exact hh.2 _ _ hx
        | ok ys s =>
          have hy := hh.1 _ _ hx
          simp only
          split
          · trivial
          split
          exacts [hy, hy]

theorem cov_all (hH : HostCovered nd H) (f : Nat) :
    (∀ d mod is st, Ref.CoveredStore nd st.store → CovRes nd (Ref.run H f d mod is st)) ∧
    (∀ d mod i st, Ref.CoveredStore nd st.store → CovRes nd (Ref.instr H f d mod i st)) ∧
    ∀ d mod body n st, Ref.CoveredStore nd st.store → CovRes nd (Ref.iter H f d mod body n st) := by
  induction f with
  | zero => exact ⟨fun _ _ _ _ _ => trivial, fun _ _ _ _ _ => trivial, fun _ _ _ _ _ _ => trivial⟩
  | succ f ih =>
    obtain ⟨ih1, ih2, ih3⟩ := ih
    refine ⟨fun d mod is st hs => ?_, fun d mod i st hs => ?_, fun d mod body n st hs => ?_⟩
    · cases is with
      | nil => exact hs
      | cons i is =>
        rw [Ref.run]
        have h := ih2 d mod i st hs
        cases hx : Ref.instr H f d mod i st with
        | norm st' => rw [hx] at h; exact ih1 d mod is st' h
        | br n st' => rw [hx] at h; exact h
        | ret st' => rw [hx] at h; exact h
        | trap s => rw [hx] at h; exact h
        | stuck => trivial
        | timeout => trivial
    · rw [Ref.instr.eq_def]
      simp only
      split
      · split
        · trivial
        · exact cov_inBlock (ih1 _ _ _ _ hs)
      · split
        · trivial
        · exact cov_inBlock (ih3 _ _ _ _ _ hs)
      · split
        · exact cov_inBlock (ih1 _ _ _ _ hs)
        · trivial
      · exact hs
      · split
        · split <;> exact hs
        · trivial
      · split
        · exact hs
        · trivial
      · exact hs
      · split
        · trivial
        · exact cov_call hH hs ih1
      · split
        · trivial
        · exact hs
        · exact cov_call hH hs ih1
      · split
        · rename_i hx
          intro a t k code ha
          rw [plain_func hx] at ha
          exact hs a t k code ha
        · exact hs
        · trivial
    · rw [Ref.iter]
      have h := ih1 d mod body st hs
      cases hx : Ref.run H f d mod body st with
      | norm st' => rw [hx] at h; exact h
      | br k st' =>
        rw [hx] at h
        cases k with
        | zero => simp only; split; exacts [trivial, ih3 _ _ _ _ _ h]
        | succ k => exact h
      | ret st' => rw [hx] at h; exact h
      | trap s => rw [hx] at h; exact h
      | stuck => trivial
      | timeout => trivial

theorem cov_invoke (hH : HostCovered nd H) {fuel a : Nat} {args : List Val} {s : Store} (hs : Ref.CoveredStore nd s) :
    CovRes nd (Ref.invoke H fuel a args s) := cov_call hH hs (cov_all hH fuel).1

end Pywasm
