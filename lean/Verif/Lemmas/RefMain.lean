import Verif.Lemmas.RefSim

/-! The induction on the fuel. -/

namespace Pywasm
open Spec M Props

variable {H : Host} {S : Option Bool}

theorem plain_func [Ref.Numerics] {mod : ModuleInst} {st st' : Ref.St} {i : Inst} (h : Ref.plain mod st i = .ok st') :
    st'.store.func = st.store.func := by
  unfold Ref.plain at h
  cases i <;> simp only [Ref.vars, Ref.table, Ref.memory, reduceCtorEq] at h
  all_goals (repeat' split at h)
  all_goals first
    | (cases h; rfl)
    | cases h

theorem iter_not_br0 {f d : Nat} {mod : ModuleInst} {body : List Inst} {n : Nat} {st st' : Ref.St} :
    Ref.iter H f d mod body n st ≠ .br 0 st' := by
  induction f generalizing st with
  | zero => simp [Ref.iter]
  | succ f ih =>
    unfold Ref.iter
    split
    · split
      · simp
      · exact ih
    · rename_i h; exact fun h' => h _ h'

theorem evaluateBype_ref {m : Machine} {fr : Frame} {fs : List Frame} {bt : Bype} {t : FuncType}
    (h : Ref.blockType fr.module bt = some t) (hf : m.frame = fr :: fs) : evaluateBype bt m = .ok t m := by
  cases bt with
  | empty => cases h; rfl
  | val t => cases h; rfl
  | idx i =>
    simp only [Ref.blockType] at h
    split at h
    · rename_i hi
      simp only [evaluateBype]
      rw [bind_topFrame hf]
      obtain ⟨n, rfl⟩ := Int.eq_ofNat_of_zero_le hi
      rw [Py.getItem_some (by simpa using h)]; rfl
    · cases h

section
variable {d k : Nat} {rest : List Val} {lab : Label} {L : List Label} {fr : Frame} {F : List Frame} {st : Ref.St} {f : Nat}

/-- The surroundings of a block's body. -/
theorem Ctx.inner (hc : Ctx d k rest lab L fr F) (below : List Val) {lab' : Label} (hv : lab'.value = (below ++ rest).length)
    (hf : lab'.frame = d) (hca : lab'.carry ≠ .func) : Ctx d (k + 1) (below ++ rest) lab' (lab.adv :: L) fr F where
  depth := hc.depth
  frv := by have := hc.frv; simp; omega
  frl := by have := hc.frl; simp; omega
  lv := by omega
  blocks := by
    intro j hj
    rcases j with _ | j
    · exact ⟨lab', rfl, hf, hca, by omega⟩
    · obtain ⟨lb, h1, h2, h3, h4⟩ := hc.blocks j (by omega)
      rcases j with _ | j
      · simp only [List.getElem?_cons_zero, Option.some.injEq] at h1
        subst h1
        exact ⟨lab.adv, rfl, h2, h3, by simp [Label.adv]; omega⟩
      · exact ⟨lb, by simpa using h1, h2, h3, by simp; omega⟩
  top := by
    intro lb hlb
    rcases k with _ | k
    · simp only [Nat.zero_add, List.getElem?_cons_succ, List.getElem?_cons_zero, Option.some.injEq] at hlb
      obtain ⟨h1, h2, h3⟩ := hc.top lab rfl
      subst hlb
      exact ⟨h1, by simp [Label.adv]; omega, h3⟩
    · obtain ⟨h1, h2, h3⟩ := hc.top lb (by simpa using hlb)
      exact ⟨h1, by simp; omega, h3⟩

theorem Ctx.adv (hc : Ctx d k rest lab L fr F) : Ctx d k rest lab.adv L fr F where
  depth := hc.depth
  frv := hc.frv
  frl := hc.frl
  lv := hc.lv
  blocks := by
    intro j hj
    obtain ⟨lb, e1, e2, e3, e4⟩ := hc.blocks j hj
    rcases j with _ | j
    · simp only [List.getElem?_cons_zero, Option.some.injEq] at e1
      subst e1
      exact ⟨lab.adv, rfl, e2, e3, e4⟩
    · exact ⟨lb, e1, e2, e3, e4⟩
  top := by
    intro lb hlb
    rcases k with _ | k
    · simp only [List.getElem?_cons_zero, Option.some.injEq] at hlb
      subst hlb
      exact hc.top lab rfl
    · exact hc.top lb (by simpa using hlb)

theorem not_bad_div {m : Machine} {i : Inst} (hn : next m = some i) (h : Ref.covered true k i = true) : ¬ AtBadDiv m := by
  intro hb
  have h2 := hb.1
  rw [hn] at h2
  cases h2
  simp [Ref.covered] at h

theorem br_sim {m : Machine} {l : Nat} (hc : Ctx d k rest lab L fr F) (hl : ∀ nd, S = some nd → l < k) (hcov : Cov S st.store)
    (hm : m.label = lab :: L) (hfm : m.frame.length = d) (hbr : Branches m l)
    (hstep : step H m = evaluateBr l (conf st rest lab.adv L fr F)) (b : Nat) :
    Sim S H m 1 b k lab.adv rest lab L fr F (.br l st) := by
  by_cases hbad : S = none ∧ AtBadBranch m
  · exact .inl ⟨0, m, .refl m, .inr hbad⟩
  refine .inr ⟨hcov, hl, fun hlk lb hlb => ?_⟩
  have hd := hc.depth
  have key : lb.value ≤ rest.length ∧ (lb.carry ≠ .func ∨ lb.frame = F.length) := by
    rcases Nat.lt_or_eq_of_le hlk with h | rfl
    · obtain ⟨lb', h1, h2, h3, h4⟩ := hc.blocks l h
      rw [hlb] at h1; cases h1
      exact ⟨h4, .inl h3⟩
    · obtain ⟨h1, h2, h3⟩ := hc.top lb hlb
      refine ⟨h2, .inr ?_⟩
      rcases h3 with h3 | h3
      · exfalso
        cases S with
        | some nd => exact absurd (hl nd rfl) (by omega)
        | none => exact hbad ⟨rfl, l, lb, hbr, by rw [hm]; exact hlb, h1, by rw [hfm]; exact h3⟩
      · omega
  obtain ⟨h4, hfr⟩ := key
  refine ⟨fun h => hfr.resolve_left (fun h' => h' h), fun har => ⟨1, le_refl _, StepsN.one ?_⟩⟩
  rw [hstep]
  have hkeep : (keep lb.value rest).length = lb.value := by unfold keep; simp; omega
  have hval : (conf st rest lab.adv L fr F).value = ((st.vs.take lb.arity).reverse).reverse ++
      (st.vs.drop lb.arity ++ rest.take (rest.length - lb.value)) ++ keep lb.value rest := by
    unfold conf keep
    simp only [List.reverse_reverse, List.append_assoc, List.take_append_drop]
    rw [← List.append_assoc, List.take_append_drop]
  rcases l with _ | l
  · simp only [List.getElem?_cons_zero, Option.some.injEq] at hlb
    subst hlb
    rw [evaluateBr_run (m := conf st rest lab.adv L fr F) (l := 0) (lab := lab.adv) rfl hval
      (by simp [Label.adv]; omega) hkeep]
    simp only [conf, jumped, Label.adv, List.reverse_reverse]
    cases hcc : lab.carry <;> simp
  · rw [evaluateBr_run (m := conf st rest lab.adv L fr F) (l := l + 1) (lab := lb) (by simpa [conf] using hlb) hval
      (by simp; omega) hkeep]
    simp only [conf, jumped, Label.adv, List.reverse_reverse]
    cases hcc : lb.carry <;> simp

theorem instr_sim (hH : ∀ nd, S = some nd → HostCovered nd H) (hrun : RunOk S H f) (hiter : IterOk S H f) : InstrOk S H (f + 1) := by
  intro d k i st rest lab L fr F hc hi hcov hst
  have hn : next (conf st rest lab L fr F) = some i := hi
  obtain ⟨lab0, ls0, fr0, fs0, hl0, hf0, hs, _⟩ := step_next (H := H) hn
  cases hl0
  cases hf0
  rw [conf_advance] at hs
  unfold Ref.instr
  cases i with
  | block bt body =>
    simp only
    cases hbt : Ref.blockType fr.module bt with
    | none => exact .inr trivial
    | some t =>
      simp only
      by_cases hlen : st.vs.length < t.args.length
      · unfold Ref.inBlock; rw [if_pos hlen]; exact .inr trivial
      have hent : step H (conf st rest lab L fr F) = .ok () (conf { st with vs := st.vs.take t.args.length }
          (st.vs.drop t.args.length ++ rest) ⟨t.rets.length, d, (st.vs.drop t.args.length ++ rest).length, .block, body, 0⟩
          (lab.adv :: L) fr F) := by
        rw [hs]; simp only [exec]
        rw [bind_ok (evaluateBype_ref (fr := { fr with locals := st.locals }) hbt rfl)]
        unfold pushBlock
        rw [bind_get_run, bind_assert_pos (by have := hc.lv; simp [conf]; omega), modify_run]
        have := hc.depth
        simp [conf, Label.adv]
        refine ⟨?_, ?_, ?_⟩
        · rw [← List.append_assoc, List.take_append_drop]
        · exact hc.depth
        · omega
      have := block_sim (b := f - 1) hc (by omega) hent rfl rfl rfl (by simp) (by simp)
        (hrun (hc.inner _ rfl rfl (by simp)) (Nat.zero_le _) rfl (fun nd hS => by simpa [Ref.covered] using hcov nd hS) hst)
      exact Sim.after (.refl _) this (by omega) (by omega)
  | loop bt body =>
    simp only
    cases hbt : Ref.blockType fr.module bt with
    | none => exact .inr trivial
    | some t =>
      simp only
      by_cases hlen : st.vs.length < t.args.length
      · unfold Ref.inBlock; rw [if_pos hlen]; exact .inr trivial
      have hent : step H (conf st rest lab L fr F) = .ok () (conf { st with vs := st.vs.take t.args.length }
          (st.vs.drop t.args.length ++ rest) ⟨t.args.length, d, (st.vs.drop t.args.length ++ rest).length, .loop, body, 0⟩
          (lab.adv :: L) fr F) := by
        rw [hs]; simp only [exec]
        rw [bind_ok (evaluateBype_ref (fr := { fr with locals := st.locals }) hbt rfl)]
        rw [bind_get_run, bind_assert_pos (by have := hc.lv; simp [conf]; omega), modify_run]
        simp [conf, Label.adv]
        refine ⟨?_, ?_, ?_⟩
        · rw [← List.append_assoc, List.take_append_drop]
        · exact hc.depth
        · omega
      have := block_sim (b := f - 2) hc (by omega) hent rfl rfl rfl (by simp) (fun _ st' => iter_not_br0)
        (hiter (hc.inner _ rfl rfl (by simp)) rfl rfl rfl (fun nd hS => by simpa [Ref.covered] using hcov nd hS) hst)
      exact Sim.after (.refl _) this (by omega) (by omega)
  | ifThen bt thn els =>
    simp only
    cases hbt : Ref.blockType fr.module bt with
    | none => exact .inr trivial
    | some t =>
      obtain ⟨s, ls, vs⟩ := st
      rcases vs with _ | ⟨c, vs⟩
      · exact .inr trivial
      simp only
      by_cases hlen : vs.length < t.args.length
      · unfold Ref.inBlock; rw [if_pos hlen]; exact .inr trivial
      have hent : step H (conf ⟨s, ls, c :: vs⟩ rest lab L fr F) = .ok () (conf ⟨s, ls, vs.take t.args.length⟩
          (vs.drop t.args.length ++ rest) ⟨t.rets.length, d, (vs.drop t.args.length ++ rest).length, .block,
            if c.low32 = 0 then els else thn, 0⟩ (lab.adv :: L) fr F) := by
        rw [hs]; simp only [exec]
        rw [bind_ok (evaluateBype_ref (fr := { fr with locals := ls }) hbt rfl), bind_popI32 rfl]
        unfold pushBlock
        rw [bind_get_run, bind_assert_pos (by have := hc.lv; simp; omega), modify_run]
        have hcnd : (if c.low32.toInt ≠ 0 then thn else els) = if c.low32 = 0 then els else thn := by
          by_cases h : c.low32 = 0
          · rw [h]; simp
          · have : c.low32.toInt ≠ 0 := fun h' => h (BitVec.eq_of_toInt_eq (by simpa using h'))
            rw [if_pos this, if_neg h]
        rw [hcnd]
        simp [conf, Label.adv]
        refine ⟨?_, ?_, ?_⟩
        · rw [← List.append_assoc, List.take_append_drop]
        · exact hc.depth
        · omega
      have hcov' : ∀ nd, S = some nd → Ref.coveredList nd (k + 1) (if c.low32 = 0 then els else thn) = true := by
        intro nd hS
        have hcov := hcov nd hS
        simp only [Ref.covered, Bool.and_eq_true] at hcov
        split
        · exact hcov.2
        · exact hcov.1
      have := block_sim (st := ⟨s, ls, vs⟩) (b := f - 1) hc (show t.args.length ≤ vs.length by omega) hent rfl rfl rfl (by simp)
        (by simp) (hrun (hc.inner _ rfl rfl (by simp)) (Nat.zero_le _) rfl hcov' hst)
      exact Sim.after (.refl _) this (by omega) (by omega)
  | br l =>
    exact br_sim hc (fun nd hS => by simpa [Ref.covered] using hcov nd hS) hst rfl (by simpa [conf] using hc.depth) (.inl hn)
      (by rw [hs]; rfl) _
  | brIf l =>
    obtain ⟨s, ls, vs⟩ := st
    rcases vs with _ | ⟨c, vs⟩
    · exact .inr trivial
    simp only
    have hs' : step H (conf ⟨s, ls, c :: vs⟩ rest lab L fr F) =
        (if c.low32.toInt ≠ 0 then evaluateBr l else pure ()) (conf ⟨s, ls, vs⟩ rest lab.adv L fr F) := by
      rw [hs]; simp only [exec]; rw [bind_popI32 rfl]; rfl
    by_cases h : c.low32 = 0
    · rw [if_pos h]
      rw [h] at hs'
      exact .inr ⟨hst, 1, le_refl _, StepsN.one (by rw [hs']; rfl)⟩
    · rw [if_neg h]
      have : c.low32.toInt ≠ 0 := fun h' => h (BitVec.eq_of_toInt_eq (by simpa using h'))
      rw [if_pos this] at hs'
      exact br_sim (st := ⟨s, ls, vs⟩) hc (fun nd hS => by simpa [Ref.covered] using hcov nd hS) hst rfl
        (by simpa [conf] using hc.depth) (.inr ⟨c, vs ++ rest, rfl, .inl ⟨hn, h⟩⟩) hs' _
  | brTable tbl l =>
    obtain ⟨s, ls, vs⟩ := st
    rcases vs with _ | ⟨c, vs⟩
    · exact .inr trivial
    simp only
    have hs' : step H (conf ⟨s, ls, c :: vs⟩ rest lab L fr F) =
        evaluateBr (tbl.getD c.low32.toNat l) (conf ⟨s, ls, vs⟩ rest lab.adv L fr F) := by
      rw [hs]; simp only [exec]; rw [bind_popU32 rfl]; rfl
    have hk : ∀ nd, S = some nd → tbl.getD c.low32.toNat l < k := by
      intro nd hS
      have hcov := hcov nd hS
      simp only [Ref.covered, Bool.and_eq_true, decide_eq_true_eq, List.all_eq_true] at hcov
      rw [List.getD_eq_getElem?_getD]
      cases he : tbl[c.low32.toNat]? with
      | none => exact hcov.1
      | some x => exact hcov.2 x (List.mem_of_getElem? he)
    exact br_sim (st := ⟨s, ls, vs⟩) hc hk hst rfl (by simpa [conf] using hc.depth)
      (.inr ⟨c, vs ++ rest, rfl, .inr ⟨tbl, l, hn, rfl⟩⟩) hs' _
  | ret =>
    refine .inr ⟨hst, fun har => ⟨1, le_refl _, StepsN.one ?_⟩⟩
    have hval : (conf st rest lab.adv L fr F).value = ((st.vs.take fr.arity).reverse).reverse ++ (st.vs.drop fr.arity ++ rest) := by
      unfold conf
      rw [List.reverse_reverse, ← List.append_assoc, List.take_append_drop]
    rw [hs]; simp only [exec]
    rw [bind_get_run, bind_assert_pos (by have := hc.frv; simp [conf]; omega), bind_popN hval (by simp; omega), bind_modify_run,
      bind_modify_run, bind_modify_run, extend_run]
    simp only [returned, conf, List.reverse_reverse, List.tail_cons, keep_of_le _ _ hc.frv, keep_cons _ _ hc.frl]
  | call i =>
    simp only
    cases hf : fr.module.func[i]? with
    | none => exact .inr trivial
    | some a => exact call_sim hH hrun hc hst (List.cons_ne_nil _ _) (by rw [hs]; simp only [exec]; rw [bind_idx_some hf])
  | callIndirect t tab =>
    simp only
    unfold Ref.indirect
    cases ht : Ref.theTable fr.module st.store tab with
    | none => exact .inr trivial
    | some p =>
      obtain ⟨ta, tb⟩ := p
      cases hty : fr.module.type[t]? with
      | none => exact .inr trivial
      | some ty =>
        obtain ⟨s, ls, vs⟩ := st
        rcases vs with _ | ⟨v, vs⟩
        · exact .inr trivial
        simp only
        have hT : HasTable (conf ⟨s, ls, v :: vs⟩ rest lab L fr F) tab ta tb := conf_table ht
        have trapSim : Traps H (conf ⟨s, ls, v :: vs⟩ rest lab L fr F) →
            Sim S H (conf ⟨s, ls, v :: vs⟩ rest lab L fr F) 1 (f + 1) k lab.adv rest lab L fr F (.trap s) := by
          rintro ⟨e, m', h1, h2⟩
          exact .inr ⟨0, _, e, m', .refl _, List.cons_ne_nil _ _, h1, h2⟩
        cases hr : tb.elem[v.low32.toNat]? with
        | none => exact trapSim (C51_out_of_table hn rfl hty hT rfl (List.getElem?_eq_none_iff.mp hr))
        | some r =>
          simp only
          cases href : refTarget r with
          | none => exact trapSim (C51_null hn rfl hty hT rfl hr href)
          | some a =>
            simp only
            by_cases ha : a < 0
            · rw [if_pos ha]; exact .inr trivial
            rw [if_neg ha]
            obtain ⟨n, rfl⟩ := Int.eq_ofNat_of_zero_le (by omega : 0 ≤ a)
            simp only [Int.toNat_natCast]
            cases hfn : s.func[n]? with
            | none => exact .inr trivial
            | some fn =>
              simp only
              by_cases hft : fn.type = ty
              · rw [if_pos hft]
                refine call_sim (st := ⟨s, ls, vs⟩) hH hrun hc hst (List.cons_ne_nil _ _) ?_
                obtain ⟨h1, h2⟩ := hT.frame rfl
                rw [hs]; simp only [exec]
                rw [bind_theTable (m := conf ⟨s, ls, v :: vs⟩ rest lab.adv L fr F) (f := { fr with locals := ls }) h1 h2]; simp only
                rw [bind_idx_some hty, bind_popU32 rfl, bind_idx_some hr, intoRef_some href, bind_lift_ok, bind_get_run]
                simp only
                rw [Py.getItem_some (l := (conf ⟨s, ls, v :: vs⟩ rest lab.adv L fr F).store.func) hfn, bind_lift_ok,
                  bind_assert_pos hft]
                rfl
              · rw [if_neg hft]
                exact trapSim (C51_type_mismatch hn rfl hty hT rfl hr href hfn hft)
  | _ =>
    simp only
    by_cases hb : AtBadDiv (conf st rest lab L fr F)
    · refine .inl ⟨0, _, .refl _, .inl ⟨?_, hb⟩⟩
      rintro rfl
      exact not_bad_div hn (hcov true rfl) hb
    have h := plain_sim (H := H) (st := st) (rest := rest) (L := L) (fr := fr) (F := F) hi hb
    split
    · rename_i st' he
      rw [he] at h
      refine .inr ⟨?_, 1, le_refl _, StepsN.one h⟩
      intro nd hS a t k' code hfn
      rw [plain_func he] at hfn
      exact hst nd hS a t k' code hfn
    · rename_i he
      rw [he] at h
      obtain ⟨e, m', h1, h2⟩ := h
      exact .inr ⟨0, _, e, m', .refl _, List.cons_ne_nil _ _, h1, h2⟩
    · exact .inr trivial

theorem run_sim (hinstr : InstrOk S H f) (hrun : RunOk S H f) : RunOk S H (f + 1) := by
  intro d k is st rest lab L fr F hc hle hdrop hcov hst
  rcases is with _ | ⟨i, is⟩
  · unfold Ref.run
    refine .inr ⟨hst, 0, le_refl _, ?_⟩
    have : lab.index = lab.instr.length := by
      have := congrArg List.length hdrop
      simp at this; omega
    have e : ({ lab with index := lab.instr.length } : Label) = lab := by
      cases lab; simp only [Label.mk.injEq, true_and]; exact this.symm
    rw [e]; exact .refl _
  · unfold Ref.run
    have hi : lab.instr[lab.index]? = some i := by
      have := congrArg (·[0]?) hdrop
      simpa using this
    have hcov' : ∀ nd, S = some nd → Ref.covered nd k i = true ∧ Ref.coveredList nd k is = true := fun nd hS => by
      simpa only [Ref.coveredList, Bool.and_eq_true] using hcov nd hS
    have h1 := hinstr (d := d) (st := st) hc hi (fun nd hS => (hcov' nd hS).1) hst
    rcases h1 with h1 | h1
    · exact .inl h1
    generalize hr : Ref.instr H f d fr.module i st = r at h1
    cases r with
    | norm st' =>
      obtain ⟨h2, n, h3, h4⟩ := h1
      simp only
      have hlt : lab.index < lab.instr.length := (List.getElem?_eq_some_iff.mp hi).1
      have hd' : lab.adv.instr.drop lab.adv.index = is := by
        show lab.instr.drop (lab.index + 1) = is
        rw [← List.drop_drop, hdrop]; rfl
      have h5 := hrun (d := d) (st := st') hc.adv (show lab.index + 1 ≤ lab.instr.length by omega) hd' (fun nd hS => (hcov' nd hS).2) h2
      exact (Sim.after h4 h5 (by omega) (by omega)).imp id Does.of_adv
    | br j st' => exact .inr (Does.after (.refl _) (Does.done_irrel (by simp) h1) (by omega) (le_refl 0))
    | ret st' => exact .inr (Does.after (.refl _) (Does.done_irrel (by simp) h1) (by omega) (le_refl 0))
    | trap s => exact .inr (Does.after (.refl _) (Does.done_irrel (by simp) h1) (by omega) (le_refl 0))
    | stuck => exact .inr trivial
    | timeout => exact .inr (Does.after (.refl _) (Does.done_irrel (e' := 0) (by simp) h1) (by omega) (le_refl 0))

theorem iter_sim (hrun : RunOk S H f) (hiter : IterOk S H f) : IterOk S H (f + 1) := by
  intro d k st rest lab L fr F hc hi hca hv hcov hst
  have h1 := hrun (d := d) (st := st) hc (by omega) (by rw [hi]; rfl) hcov hst
  unfold Ref.iter
  rcases h1 with h1 | h1
  · exact .inl h1
  generalize hr : Ref.run H f d fr.module lab.instr st = r at h1
  cases r with
  | br j st' =>
    rcases j with _ | j
    · simp only
      by_cases hn : st'.vs.length < lab.arity
      · rw [if_pos hn]; exact .inr trivial
      rw [if_neg hn]
      obtain ⟨h2, h3, h4⟩ := h1
      obtain ⟨n, h5, h6⟩ := (h4 (Nat.zero_le _) lab rfl).2 (by omega)
      have e : jumped 0 st' lab rest L fr F = conf { st' with vs := st'.vs.take lab.arity } rest lab L fr F := by
        unfold jumped conf
        obtain ⟨lb, g1, g2, -, -⟩ := hc.blocks 0 (by omega)
        cases g1
        rw [if_pos hca, keep_all _ hv.symm, keep_all _ (by simpa [g2] using hc.depth)]
        have : ({ lab with index := 0 } : Label) = lab := by cases lab; simp only [Label.mk.injEq, true_and]; exact hi.symm
        rw [this]; rfl
      rw [e] at h6
      exact Sim.after h6 (hiter (d := d) (st := { st' with vs := st'.vs.take lab.arity }) hc hi hca hv hcov h2)
        (by omega) (by omega)
    · exact .inr <| Does.after (.refl _) h1 (by omega) (by omega)
  | _ => exact .inr <| Does.after (.refl _) h1 (by omega) (by omega)

theorem all_sim (hH : ∀ nd, S = some nd → HostCovered nd H) : ∀ f, RunOk S H f ∧ InstrOk S H f ∧ IterOk S H f
  | 0 => by
    refine ⟨?_, ?_, ?_⟩
    · intro d k is st rest lab L fr F _ _ _ _ _
      unfold Ref.run
      exact .inr ⟨0, _, by omega, .refl _⟩
    · intro d k i st rest lab L fr F _ _ _ _
      unfold Ref.instr
      exact .inr ⟨0, _, by omega, .refl _⟩
    · intro d k st rest lab L fr F _ _ _ _ _ _
      unfold Ref.iter
      exact .inr ⟨0, _, by omega, .refl _⟩
  | f + 1 =>
    have ⟨h1, h2, h3⟩ := all_sim hH f
    ⟨run_sim h2 h1, instr_sim hH h1 h3, iter_sim h1 h3⟩

end
end Pywasm
