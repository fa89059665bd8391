import Verif.Lemmas.RefPlain
import Verif.Props.Branch

/-!
# Simulation of the reference interpreter by the interpreter loop

By induction on the fuel: whatever the reference interpreter computes for a piece of code, the machine with that code on
its label stack reaches, unless it comes to one of the states of `Spec/Deviation.lean`.
-/

namespace Pywasm
open Spec M Props

variable {H : Host} {S : Option Bool}

theorem StepsN.trans {a b c : Machine} {i j : Nat} (h1 : StepsN H i a b) (h2 : StepsN H j b c) : StepsN H (i + j) a c := by
  induction h1 with
  | refl => simpa using h2
  | head hs _ ih => rw [Nat.add_right_comm]; exact .head hs (ih h2)
theorem StepsN.one {a b : Machine} (h : step H a = .ok () b) : StepsN H 1 a b := .head h (.refl b)

theorem keep_of_le {α} {n : Nat} (a b : List α) (h : n ≤ b.length) : keep n (a ++ b) = keep n b := by
  unfold keep
  rw [List.length_append, show a.length + b.length - n = a.length + (b.length - n) by omega, List.drop_append]
  simp
theorem keep_all {α} {n : Nat} (l : List α) (h : l.length = n) : keep n l = l := by
  unfold keep; simp [h]
theorem keep_cons {α} {n : Nat} (a : α) (b : List α) (h : n ≤ b.length) : keep n (a :: b) = keep n b :=
  keep_of_le [a] b h

/-- What the simulation needs to know about the surroundings of the running code: `d` frames are active, the innermost `k`
labels are blocks of the running function, the next one is that of the function itself, and `rest` covers everything the
labels and the frame protect. -/
structure Ctx (d k : Nat) (rest : List Val) (lab : Label) (L : List Label) (fr : Frame) (F : List Frame) : Prop where
  depth : F.length + 1 = d
  frv : fr.value ≤ rest.length
  frl : fr.label ≤ L.length
  lv : lab.value ≤ rest.length
  blocks : ∀ j < k, ∃ lb, (lab :: L)[j]? = some lb ∧ lb.frame = d ∧ lb.carry ≠ .func ∧ lb.value ≤ rest.length
  top : ∀ lb, (lab :: L)[k]? = some lb → lb.carry = .func ∧ lb.value ≤ rest.length ∧ (lb.frame = d ∨ lb.frame + 1 = d)

/-- With `S`, no function of the store branches to its own label. -/
def Cov (S : Option Bool) (s : Store) : Prop := ∀ nd, S = some nd → Ref.CoveredStore nd s

/-- The machine after a branch to label `lb`, the `n`-th of `lab :: L`. -/
def jumped (n : Nat) (st : Ref.St) (lb : Label) (rest : List Val) (L : List Label) (fr : Frame) (F : List Frame) : Machine :=
  ⟨st.store, st.vs.take lb.arity ++ keep lb.value rest,
    if lb.carry = .loop then { lb with index := 0 } :: L.drop n else L.drop n, keep lb.frame ({ fr with locals := st.locals } :: F)⟩

/-- The machine after `return`. -/
def returned (st : Ref.St) (rest : List Val) (L : List Label) (fr : Frame) (F : List Frame) : Machine :=
  ⟨st.store, st.vs.take fr.arity ++ keep fr.value rest, keep fr.label L, F⟩

/-- From `m`, the machine does what the reference outcome says. `e` is the least number of steps of a normal completion,
`b` the least number of steps of a timeout. -/
def Does (S : Option Bool) (H : Host) (m : Machine) (e b k : Nat) (done : Label) (rest : List Val) (lab : Label) (L : List Label)
    (fr : Frame) (F : List Frame) : Ref.Res → Prop
  | .norm st => Cov S st.store ∧ ∃ n, e ≤ n ∧ StepsN H n m (conf st rest done L fr F)
  | .br j st => Cov S st.store ∧ (∀ nd, S = some nd → j < k) ∧ (j ≤ k → ∀ lb, (lab :: L)[j]? = some lb →
      (lb.carry = .func → lb.frame = F.length) ∧
      (lb.arity ≤ st.vs.length → ∃ n, 1 ≤ n ∧ StepsN H n m (jumped j st lb rest L fr F)))
  | .ret st => Cov S st.store ∧ (fr.arity ≤ st.vs.length → ∃ n, 1 ≤ n ∧ StepsN H n m (returned st rest L fr F))
  | .trap s => ∃ n m' e m'', StepsN H n m m' ∧ m'.label ≠ [] ∧ step H m' = .error e m'' ∧ m''.store = s
  | .stuck => True
  | .timeout => ∃ n m', b ≤ 3 * n ∧ StepsN H n m m'

/-- The same, unless the machine comes to a deviation. -/
def Sim (S : Option Bool) (H : Host) (m : Machine) (e b k : Nat) (done : Label) (rest : List Val) (lab : Label) (L : List Label)
    (fr : Frame) (F : List Frame) (r : Ref.Res) : Prop :=
  Meets H (Dev S) m ∨ Does S H m e b k done rest lab L fr F r

theorem Meets.after {P : Machine → Prop} {m₀ m : Machine} {c : Nat} (hs : StepsN H c m₀ m) (h : Meets H P m) : Meets H P m₀ := by
  obtain ⟨n, m', h1, h2⟩ := h
  exact ⟨c + n, m', hs.trans h1, h2⟩

section
variable {m m₀ : Machine} {e b k : Nat} {done : Label} {rest : List Val} {lab : Label} {L : List Label} {fr : Frame}
  {F : List Frame} {st : Ref.St}

/-- Prefixing steps. -/
theorem Does.after {r : Ref.Res} {c b' e' : Nat} (hs : StepsN H c m₀ m) (h : Does S H m e b k done rest lab L fr F r)
    (hb : b' ≤ b + 3 * c) (he : e' ≤ e + c) : Does S H m₀ e' b' k done rest lab L fr F r := by
  cases r with
  | norm st =>
    obtain ⟨h1, n, h2, h3⟩ := h
    exact ⟨h1, c + n, by omega, hs.trans h3⟩
  | br j st =>
    obtain ⟨h1, h2, h3⟩ := h
    refine ⟨h1, h2, fun hj lb hl => ⟨(h3 hj lb hl).1, fun ha => ?_⟩⟩
    obtain ⟨n, h4, h5⟩ := (h3 hj lb hl).2 ha
    exact ⟨c + n, by omega, hs.trans h5⟩
  | ret st =>
    obtain ⟨h1, h3⟩ := h
    refine ⟨h1, fun ha => ?_⟩
    obtain ⟨n, h4, h5⟩ := h3 ha
    exact ⟨c + n, by omega, hs.trans h5⟩
  | trap s =>
    obtain ⟨n, m', e', m'', h1, h2⟩ := h
    exact ⟨c + n, m', e', m'', hs.trans h1, h2⟩
  | stuck => trivial
  | timeout =>
    obtain ⟨n, m', h1, h2⟩ := h
    exact ⟨c + n, m', by omega, hs.trans h2⟩
theorem Sim.after {r : Ref.Res} {c b' e' : Nat} (hs : StepsN H c m₀ m) (h : Sim S H m e b k done rest lab L fr F r)
    (hb : b' ≤ b + 3 * c) (he : e' ≤ e + c) : Sim S H m₀ e' b' k done rest lab L fr F r :=
  h.imp (Meets.after hs) fun h => h.after hs hb he

/-- The outcome does not depend on the position in the label that runs. -/
theorem Does.of_adv {r : Ref.Res} (h : Does S H m e b k done rest lab.adv L fr F r) : Does S H m e b k done rest lab L fr F r := by
  cases r with
  | norm st => exact h
  | br j st =>
    obtain ⟨h1, h2, h3⟩ := h
    refine ⟨h1, h2, fun hj lb hl => ?_⟩
    rcases j with _ | j
    · simp only [List.getElem?_cons_zero, Option.some.injEq] at hl
      subst hl
      exact h3 hj lab.adv rfl
    · exact h3 hj lb hl
  | ret st => exact h
  | trap s => exact h
  | stuck => trivial
  | timeout => exact h

theorem Does.done_irrel {r : Ref.Res} (hr : ∀ st, r ≠ .norm st) {done' : Label} {e' : Nat}
    (h : Does S H m e b k done rest lab L fr F r) : Does S H m e' b k done' rest lab L fr F r := by
  cases r with
  | norm st => exact absurd rfl (hr st)
  | _ => exact h

/-- Entering and leaving a block. -/
theorem block_sim {nargs nrets : Nat} {body : Ref.St → Ref.Res} {lab' : Label} {d : Nat}
    (hc : Ctx d k rest lab L fr F)
    (hn : nargs ≤ st.vs.length)
    (hentry : step H m = .ok () (conf { st with vs := st.vs.take nargs } (st.vs.drop nargs ++ rest) lab' (lab.adv :: L) fr F))
    (hv : lab'.value = (st.vs.drop nargs ++ rest).length) (ha : lab'.arity = nrets) (hfr : lab'.frame = d)
    (hca : lab'.carry ≠ .func)
    (hloop : lab'.carry = .loop → ∀ st', body { st with vs := st.vs.take nargs } ≠ .br 0 st')
    (hbody : Sim S H (conf { st with vs := st.vs.take nargs } (st.vs.drop nargs ++ rest) lab' (lab.adv :: L) fr F) 0 b (k + 1)
      { lab' with index := lab'.instr.length } (st.vs.drop nargs ++ rest) lab' (lab.adv :: L) fr F
      (body { st with vs := st.vs.take nargs })) :
    Sim S H m 1 (b + 3) k lab.adv rest lab L fr F (Ref.inBlock body nargs nrets st) := by
  rcases hbody with hbody | hbody
  · exact .inl (Meets.after (StepsN.one hentry) hbody)
  right
  unfold Ref.inBlock
  rw [if_neg (by omega)]
  simp only
  generalize hr : body { st with vs := st.vs.take nargs } = r at hbody hloop ⊢
  cases r with
  | norm st' =>
    obtain ⟨h1, n, _, h2⟩ := hbody
    refine ⟨h1, 1 + n + 1, by omega, ((StepsN.one hentry).trans h2).trans (StepsN.one ?_)⟩
    unfold step
    rw [bind_get_run, bind_idx_some (a := { lab' with index := lab'.instr.length }) rfl, bind_topFrame rfl, if_pos rfl,
      bind_modify_run, if_neg hca]
    simp [conf, pure_run]
  | br j st' =>
    obtain ⟨h1, h2, h3⟩ := hbody
    rcases j with _ | j
    · simp only
      split
      · trivial
      · rename_i hlen
        obtain ⟨n, h4, h5⟩ := (h3 (Nat.zero_le _) lab' rfl).2 (by omega)
        refine ⟨h1, 1 + n, by omega, (StepsN.one hentry).trans ?_⟩
        have : jumped 0 st' lab' (st.vs.drop nargs ++ rest) (lab.adv :: L) fr F =
            conf { st' with vs := st'.vs.take nrets ++ st.vs.drop nargs } rest lab.adv L fr F := by
          have h6 : lab'.carry ≠ .loop := fun h => hloop h st' rfl
          unfold jumped conf
          rw [if_neg h6, keep_all _ hv.symm, ha, hfr, keep_all _ (by simpa using hc.depth)]
          simp
        rw [← this]; exact h5
    · refine ⟨h1, fun nd hS => by have := h2 nd hS; omega, fun hj lb hl => ?_⟩
      have e4 : lb.value ≤ rest.length := by
        rcases Nat.lt_or_eq_of_le hj with hj | rfl
        · obtain ⟨lb0, e1, e2, e3, e4⟩ := hc.blocks j hj
          rw [hl] at e1; cases e1
          exact e4
        · exact (hc.top lb hl).2.1
      rcases j with _ | j
      · simp only [List.getElem?_cons_zero, Option.some.injEq] at hl
        subst hl
        refine ⟨(h3 (by omega) lab.adv rfl).1, fun hle => ?_⟩
        obtain ⟨n, h4, h5⟩ := (h3 (by omega) lab.adv rfl).2 hle
        refine ⟨1 + n, by omega, (StepsN.one hentry).trans ?_⟩
        have : jumped 1 st' lab.adv (st.vs.drop nargs ++ rest) (lab.adv :: L) fr F = jumped 0 st' lab rest L fr F := by
          unfold jumped
          rw [keep_of_le _ _ (show lab.adv.value ≤ rest.length from hc.lv)]
          rfl
        rw [← this]; exact h5
      · refine ⟨(h3 (by omega) lb (by simpa using hl)).1, fun hle => ?_⟩
        obtain ⟨n, h4, h5⟩ := (h3 (by omega) lb (by simpa using hl)).2 hle
        refine ⟨1 + n, by omega, (StepsN.one hentry).trans ?_⟩
        have : jumped (j + 1 + 1) st' lb (st.vs.drop nargs ++ rest) (lab.adv :: L) fr F =
            jumped (j + 1) st' lb rest L fr F := by
          unfold jumped
          rw [keep_of_le _ _ e4]
          rfl
        rw [← this]; exact h5
  | ret st' =>
    obtain ⟨h1, h3⟩ := hbody
    refine ⟨h1, fun hle => ?_⟩
    obtain ⟨n, h4, h5⟩ := h3 hle
    refine ⟨1 + n, by omega, (StepsN.one hentry).trans ?_⟩
    have : returned st' (st.vs.drop nargs ++ rest) (lab.adv :: L) fr F = returned st' rest L fr F := by
      unfold returned
      rw [keep_of_le _ _ hc.frv, keep_cons _ _ hc.frl]
    rw [← this]; exact h5
  | trap s =>
    obtain ⟨n, m', e', m'', h1, h2⟩ := hbody
    exact ⟨1 + n, m', e', m'', (StepsN.one hentry).trans h1, h2⟩
  | stuck => trivial
  | timeout =>
    obtain ⟨n, m', h1, h2⟩ := hbody
    exact ⟨1 + n, m', by omega, (StepsN.one hentry).trans h2⟩

/-- Host functions do not add functions that branch to their own label. -/
def HostCovered (nd : Bool) (H : Host) : Prop := ∀ c mod xs s, Ref.CoveredStore nd s →
  (∀ ys s', H c mod xs s = .ok ys s' → Ref.CoveredStore nd s') ∧ ∀ e s', H c mod xs s = .error e s' → Ref.CoveredStore nd s'

/-- The claim for sequences, with fuel `f`. -/
def RunOk (S : Option Bool) (H : Host) (f : Nat) : Prop := ∀ {d k : Nat} {is : List Inst} {st : Ref.St} {rest : List Val} {lab : Label}
  {L : List Label} {fr : Frame} {F : List Frame}, Ctx d k rest lab L fr F → lab.index ≤ lab.instr.length →
  lab.instr.drop lab.index = is → (∀ nd, S = some nd → Ref.coveredList nd k is = true) → Cov S st.store →
  Sim S H (conf st rest lab L fr F) 0 (f - 1) k { lab with index := lab.instr.length } rest lab L fr F
    (Ref.run H f d fr.module is st)

/-- The claim for one instruction. -/
def InstrOk (S : Option Bool) (H : Host) (f : Nat) : Prop := ∀ {d k : Nat} {i : Inst} {st : Ref.St} {rest : List Val} {lab : Label}
  {L : List Label} {fr : Frame} {F : List Frame}, Ctx d k rest lab L fr F → lab.instr[lab.index]? = some i →
  (∀ nd, S = some nd → Ref.covered nd k i = true) → Cov S st.store →
  Sim S H (conf st rest lab L fr F) 1 f k lab.adv rest lab L fr F (Ref.instr H f d fr.module i st)

/-- The claim for loops. -/
def IterOk (S : Option Bool) (H : Host) (f : Nat) : Prop := ∀ {d k : Nat} {st : Ref.St} {rest : List Val} {lab : Label}
  {L : List Label} {fr : Frame} {F : List Frame}, Ctx d (k + 1) rest lab L fr F → lab.index = 0 → lab.carry = .loop →
  lab.value = rest.length → (∀ nd, S = some nd → Ref.coveredList nd (k + 1) lab.instr = true) → Cov S st.store →
  Sim S H (conf st rest lab L fr F) 0 (f - 2) (k + 1) { lab with index := lab.instr.length } rest lab L fr F
    (Ref.iter H f d fr.module lab.instr lab.arity st)

theorem take_drop_split {n : Nat} (vs rest : List Val) :
    vs ++ rest = (vs.take n).reverse.reverse ++ (vs.drop n ++ rest) := by
  rw [List.reverse_reverse, ← List.append_assoc, List.take_append_drop]

/-- Calling a function. -/
theorem call_sim {f d a : Nat} (hH : ∀ nd, S = some nd → HostCovered nd H) (hrun : RunOk S H f) (hc : Ctx d k rest lab L fr F)
    (hcov : Cov S st.store)
    (hm : m.label ≠ []) (hstep : step H m = evaluateCall H a (conf st rest lab.adv L fr F)) :
    Sim S H m 1 (f + 1) k lab.adv rest lab L fr F (Ref.call H (Ref.run H f) (some fr.module) d a st) := by
  unfold Ref.call
  cases hfn : st.store.func[a]? with
  | none => exact .inr trivial
  | some fn =>
    have hfn' : (conf st rest lab.adv L fr F).store.func[a]? = some fn := hfn
    cases fn with
    | wasm t k' code =>
      simp only
      by_cases hlen : st.vs.length < t.args.length
      · rw [if_pos hlen]; exact .inr trivial
      rw [if_neg hlen]
      have hval := take_drop_split (n := t.args.length) st.vs rest
      have hnl : (st.vs.take t.args.length).reverse.length = t.args.length := by simp; omega
      split
      · rename_i hd
        have herr : step H m = .error .assertion { conf st rest lab.adv L fr F with value := st.vs.drop t.args.length ++ rest } := by
          rw [hstep]
          unfold evaluateCall
          rw [bind_get_run, Py.getItem_some hfn', bind_lift_ok]
          simp only [FuncInst.type]
          rw [bind_popN hval hnl.symm, bind_get_run, bind_assert_neg (by
            have := hc.depth
            simp [conf]; omega)]
        exact .inr ⟨0, m, _, _, .refl m, hm, herr, rfl⟩
      · rename_i hd
        cases hmod : st.store.mods[k']? with
        | none => exact .inr trivial
        | some mod =>
          simp only
          have hent := (evaluateCall_wasm (H := H) (m := conf st rest lab.adv L fr F) ⟨k', hfn, hmod⟩ hval hnl).1 (by
              have := hc.depth
              simp [conf]; omega)
          rw [← hstep] at hent
          set args := (st.vs.take t.args.length).reverse with hargs
          set below := st.vs.drop t.args.length with hbelow
          set zs := code.locals.flatMap fun e => List.replicate e.1 (Val.zero e.2) with hzs
          let fr' : Frame := ⟨mod, args ++ zs, t.rets.length, L.length + 1, (below ++ rest).length⟩
          let lab' : Label := ⟨t.rets.length, d + 1, (below ++ rest).length, .func, code.expr, 0⟩
          have hent' : step H m = .ok () (conf ⟨st.store, args ++ zs, []⟩ (below ++ rest) lab' (lab.adv :: L) fr'
              ({ fr with locals := st.locals } :: F)) := by
            rw [hent]
            have := hc.depth
            simp [entered, conf, fr', lab', hzs, ← this]
          have hs := hrun (d := d + 1) (k := 0) (is := code.expr) (st := ⟨st.store, args ++ zs, []⟩) (rest := below ++ rest)
            (lab := lab') (L := lab.adv :: L) (fr := fr') (F := { fr with locals := st.locals } :: F)
            ⟨by simp [hc.depth], le_refl _, by simp [fr'], le_refl _, fun j hj => absurd hj (by omega), fun lb hlb => by
              cases hlb; exact ⟨rfl, le_refl _, .inl rfl⟩⟩
            (Nat.zero_le _) rfl (fun nd hS => hcov nd hS a t k' code hfn) hcov
          rcases hs with hs | hs
          · exact .inl (Meets.after (StepsN.one hent') hs)
          right
          generalize hr : Ref.run H f (d + 1) fr'.module code.expr ⟨st.store, args ++ zs, []⟩ = r at hs
          cases r with
          | norm st' =>
            by_cases hn : st'.vs.length = t.rets.length
            · simp only [if_pos hn]
              obtain ⟨h1, n, _, h2⟩ := hs
              refine ⟨h1, 1 + n + 1, by omega, ((StepsN.one hent').trans h2).trans (StepsN.one ?_)⟩
              rw [C18_fall_off_end (H := H) (lab := { lab' with index := lab'.instr.length }) (ls := lab.adv :: L)
                (f := { fr' with locals := st'.locals }) (fs := { fr with locals := st.locals } :: F) rfl rfl rfl rfl (by
                  simp [conf, fr', hn]; omega)]
              simp [conf]
            · simp only [if_neg hn]; trivial
          | br j st' =>
            rcases j with _ | j
            · have := (hs.2.2 (le_refl _) lab' rfl).1 rfl
              have hd' := hc.depth
              simp only [lab', List.length_cons] at this
              omega
            · trivial
          | ret st' =>
            by_cases hn : st'.vs.length < t.rets.length
            · simp only [if_pos hn]; trivial
            · simp only [if_neg hn]
              obtain ⟨h1, h2⟩ := hs
              obtain ⟨n, h3, h4⟩ := h2 (by show t.rets.length ≤ _; omega)
              refine ⟨h1, 1 + n, by omega, (StepsN.one hent').trans ?_⟩
              have : returned st' (below ++ rest) (lab.adv :: L) fr' ({ fr with locals := st.locals } :: F) =
                  conf ⟨st'.store, st.locals, st'.vs.take t.rets.length ++ below⟩ rest lab.adv L fr F := by
                unfold returned conf
                rw [keep_all _ (show (below ++ rest).length = fr'.value from rfl),
                  keep_all _ (show (lab.adv :: L).length = fr'.label by simp [fr'])]
                simp [fr']
              rw [← this]; exact h4
          | trap s =>
            obtain ⟨n, m', e', m'', h1, h2⟩ := hs
            exact ⟨1 + n, m', e', m'', (StepsN.one hent').trans h1, h2⟩
          | stuck => trivial
          | timeout =>
            obtain ⟨n, m', h1, h2⟩ := hs
            exact ⟨1 + n, m', by omega, (StepsN.one hent').trans h2⟩
    | host t c =>
      simp only
      by_cases hlen : st.vs.length < t.args.length
      · rw [if_pos hlen]; exact .inr trivial
      rw [if_neg hlen]
      have hval := take_drop_split (n := t.args.length) st.vs rest
      have hnl : (st.vs.take t.args.length).reverse.length = t.args.length := by simp; omega
      have hcall : step H m = (do
          let hargs ← lift ((st.vs.take t.args.length).reverse.mapM Val.intoAll)
          let rets ← callHost H c hargs
          let rets ← lift ((t.rets.zip rets).mapM fun (p : ValType × HVal) => Val.fromAll p.1 p.2)
          extend rets : M Unit) { conf st rest lab.adv L fr F with value := st.vs.drop t.args.length ++ rest } := by
        rw [hstep]
        unfold evaluateCall
        rw [bind_get_run, Py.getItem_some hfn', bind_lift_ok]
        simp only [FuncInst.type]
        rw [bind_popN hval hnl.symm]
      cases hx : (st.vs.take t.args.length).reverse.mapM Val.intoAll with
      | error e =>
        rw [hx, bind_lift_err] at hcall
        exact .inr ⟨0, m, _, _, .refl m, hm, hcall, rfl⟩
      | ok xs =>
        rw [hx, bind_lift_ok] at hcall
        simp only
        cases hh : H c (some fr.module) xs st.store with
        | error e s =>
          rw [bind_err (e := e) (m' := { conf st rest lab.adv L fr F with
            value := st.vs.drop t.args.length ++ rest, store := s }) (by
              unfold callHost; simp only [conf, List.head?_cons, Option.map_some, hh])] at hcall
          exact .inr ⟨0, m, _, _, .refl m, hm, hcall, rfl⟩
        | ok ys s =>
          rw [bind_ok (a := ys) (m' := { conf st rest lab.adv L fr F with
            value := st.vs.drop t.args.length ++ rest, store := s }) (by
              unfold callHost; simp only [conf, List.head?_cons, Option.map_some, hh])] at hcall
          by_cases hn : ys.length ≠ t.rets.length
          · simp only [if_pos hn]; exact .inr trivial
          · simp only [if_neg hn]
            cases hy : (t.rets.zip ys).mapM fun p => Val.fromAll p.1 p.2 with
            | error e =>
              rw [hy, bind_lift_err] at hcall
              exact .inr ⟨0, m, _, _, .refl m, hm, hcall, rfl⟩
            | ok rets =>
              rw [hy, bind_lift_ok, extend_run] at hcall
              refine .inr ⟨fun nd hS => (hH nd hS _ _ _ _ (hcov nd hS)).1 _ _ hh, 1, le_refl _, StepsN.one ?_⟩
              rw [hcall]
              simp [conf]

end
end Pywasm
