import Verif.Lemmas.TypePlain

/-!
# Type soundness of the reference interpreter
-/

namespace Pywasm
open Spec Spec.Typing

theorem prefix_get {α : Type} {l m : List α} (h : l <+: m) {i : Nat} {x : α} (hx : l[i]? = some x) : m[i]? = some x := by
  obtain ⟨t, rfl⟩ := h
  rw [List.getElem?_append_left (List.getElem?_eq_some_iff.mp hx).1]
  exact hx

section mono
variable {S T U : StoreType}
theorem Spec.Typing.StoreType.Le.refl (S : StoreType) : S.Le S :=
  ⟨List.prefix_rfl, List.prefix_rfl, Nat.le_refl _, List.prefix_rfl, List.prefix_rfl, Nat.le_refl _, rfl⟩
theorem Spec.Typing.StoreType.Le.trans (h : S.Le T) (h' : T.Le U) : S.Le U :=
  ⟨h.funcs.trans h'.funcs, h.tables.trans h'.tables, h.mems.trans h'.mems, h.globals.trans h'.globals,
    h.elems.trans h'.elems, h.datas.trans h'.datas, h'.hosts.trans h.hosts⟩
theorem Spec.Typing.ValOk.mono (hl : S.Le T) {v : Val} {t : ValType} (h : ValOk S v t) : ValOk T v t := by
  refine ⟨h.1, fun hr => (h.2 hr).imp id fun h => ⟨h.1, fun ht => ⟨(h.2 ht).1, ?_⟩⟩⟩
  have := (h.2 ht).2
  have := hl.funcs.length_le
  omega
theorem Spec.Typing.ValsOk.mono (hl : S.Le T) {v : List Val} {t : List ValType} (h : ValsOk S v t) : ValsOk T v t :=
  f2_mono h fun _ _ => ValOk.mono hl
theorem Spec.Typing.ModOk.mono (hl : S.Le T) {C : Ctx} {mod : ModuleInst} (h : ModOk S C mod) : ModOk T C mod :=
  ⟨h.types, f2_mono h.funcs fun _ _ => prefix_get hl.funcs, f2_mono h.tables fun _ _ => prefix_get hl.tables,
    ⟨h.mems.1, fun a ha => Nat.lt_of_lt_of_le (h.mems.2 a ha) hl.mems⟩, f2_mono h.globals fun _ _ => prefix_get hl.globals,
    f2_mono h.elems fun _ _ => prefix_get hl.elems, ⟨h.datas.1, fun a ha => Nat.lt_of_lt_of_le (h.datas.2 a ha) hl.datas⟩⟩
/-- What a context says about a module does not depend on locals, labels and result. -/
theorem Spec.Typing.ModOk.ctx {C : Ctx} {mod : ModuleInst} (h : ModOk S C mod) (ls : List ValType) (lb : List (List ValType)) (r : List ValType) :
    ModOk S { C with locals := ls, labels := lb, ret := r } mod :=
  ⟨h.types, h.funcs, h.tables, h.mems, h.globals, h.elems, h.datas⟩
end mono

namespace Sound

/-- The outcome of code of context `C` that leaves operands of types `b` when it falls off its end. -/
def ResOk (S : StoreType) (C : Ctx) (b : List ValType) : Ref.Res → Prop
  | .norm st => ∃ T, S.Le T ∧ StOk T C st b
  | .br n st => ∃ T ts r, S.Le T ∧ C.labels[n]? = some ts ∧ StOk T C st (ts.reverse ++ r)
  | .ret st => ∃ T r, S.Le T ∧ StOk T C st (C.ret.reverse ++ r)
  | .trap s => ∃ T, S.Le T ∧ StoreOk T s
  | .stuck => False
  | .timeout => True

theorem ResOk.mono {S T : StoreType} (hl : S.Le T) {C : Ctx} {b : List ValType} {x : Ref.Res} (h : ResOk T C b x) : ResOk S C b x := by
  cases x with
  | norm st => obtain ⟨U, h1, h2⟩ := h; exact ⟨U, hl.trans h1, h2⟩
  | br n st => obtain ⟨U, ts, r, h1, h2⟩ := h; exact ⟨U, ts, r, hl.trans h1, h2⟩
  | ret st => obtain ⟨U, r, h1, h2⟩ := h; exact ⟨U, r, hl.trans h1, h2⟩
  | trap s => obtain ⟨U, h1, h2⟩ := h; exact ⟨U, hl.trans h1, h2⟩
  | stuck => exact h
  | timeout => trivial

/-- Running code `is` is sound with fuel `f`. -/
def RunOk (H : Host) (f : Nat) : Prop :=
  ∀ S C mod d is a b st, HostOk S.hosts H → Code C is a b → ModOk S C mod → StOk S C st a → ResOk S C b (Ref.run H f d mod is st)

theorem vals_take {S : StoreType} {as r : List ValType} {vs : List Val} (h : ValsOk S vs (as.reverse ++ r)) :
    ValsOk S (vs.take as.length) as.reverse := by
  have := List.forall₂_take_append _ _ _ h
  rwa [List.length_reverse] at this
theorem vals_drop {S : StoreType} {as r : List ValType} {vs : List Val} (h : ValsOk S vs (as.reverse ++ r)) :
    ValsOk S (vs.drop as.length) r := by
  have := List.forall₂_drop_append _ _ _ h
  rwa [List.length_reverse] at this

theorem inBlock_ok {S : StoreType} {C : Ctx} {L as bs : List ValType} {r : List ValType} {st : Ref.St} {body : Ref.St → Ref.Res}
    (hst : StOk S C st (as.reverse ++ r))
    (hb : ∀ vs, ValsOk S vs as.reverse → ResOk S { C with labels := L :: C.labels } bs.reverse (body { st with vs := vs }))
    (hL : L = bs ∨ ∀ vs st', ValsOk S vs as.reverse → body { st with vs := vs } ≠ .br 0 st') (n : Nat) (hn : L = bs → n = bs.length) :
    ResOk S C (bs.reverse ++ r) (Ref.inBlock body as.length n st) := by
  obtain ⟨s, ls, vs⟩ := st
  obtain ⟨hs, hl, hv⟩ := hst
  dsimp only at hs hl hv
  have hlen : vs.length = as.length + r.length := by simpa using hv.length_eq
  have h1 : ValsOk S (vs.take as.length) as.reverse := by
    exact vals_take hv
  have h2 : ValsOk S (vs.drop as.length) r := by
    exact vals_drop hv
  have hb1 := hb _ h1
  unfold Ref.inBlock
  dsimp only at hb1 ⊢
  rw [if_neg (by omega)]
  cases hx : body { store := s, locals := ls, vs := vs.take as.length } with
  | norm st' =>
    rw [hx] at hb1
    obtain ⟨T, hT, h3⟩ := hb1
    exact ⟨T, hT, h3.store, h3.locals, f2_append h3.vs (ValsOk.mono hT h2)⟩
  | br k st' =>
    rw [hx] at hb1
    obtain ⟨T, ts, r', hT, hts, h3⟩ := hb1
    cases k with
    | zero =>
      rcases hL with rfl | hL
      · simp only [List.getElem?_cons_zero, Option.some.injEq] at hts
        subst hts
        have hn := hn rfl
        subst hn
        have hl' : st'.vs.length = L.length + r'.length := by simpa using h3.vs.length_eq
        dsimp only
        rw [if_neg (by omega)]
        refine ⟨T, hT, h3.store, h3.locals, f2_append ?_ (ValsOk.mono hT h2)⟩
        exact vals_take h3.vs
      · exact absurd hx (hL _ _ h1)
    | succ k => exact ⟨T, ts, r', hT, by simpa using hts, h3.store, h3.locals, h3.vs⟩
  | ret st' =>
    rw [hx] at hb1
    obtain ⟨T, r', hT, h3⟩ := hb1
    exact ⟨T, r', hT, h3.store, h3.locals, h3.vs⟩
  | trap s' => rw [hx] at hb1; exact hb1
  | stuck => rw [hx] at hb1; exact hb1
  | timeout => trivial

theorem mapM_fromAll_ok {T : StoreType} {ts : List ValType} {ys : List HVal} {vs : List Val} (hl : ys.length = ts.length)
    (hv : ∀ p ∈ ts.zip ys, ∀ v, Val.fromAll p.1 p.2 = .ok v → ValOk T v p.1)
    (h : ((ts.zip ys).mapM fun p => Val.fromAll p.1 p.2) = .ok vs) : ValsOk T vs ts := by
  induction ts generalizing ys vs with
  | nil =>
    simp only [List.zip_nil_left, List.mapM_nil] at h
    cases h
    exact .nil
  | cons t ts ih =>
    cases ys with
    | nil => cases hl
    | cons y ys =>
      rw [List.zip_cons_cons, List.mapM_cons] at h
      cases h1 : Val.fromAll t y with
      | error e => simp only [h1] at h; cases h
      | ok v =>
      cases h2 : (ts.zip ys).mapM fun p => Val.fromAll p.1 p.2 with
      | error e => simp only [h1, h2] at h; cases h
      | ok vs' =>
      simp only [h1, h2] at h
      cases h
      refine .cons (hv (t, y) (by simp) v h1) (ih (by simpa using hl) (fun p hp => hv p (by simp [hp])) h2)

theorem zeros_ok (S : StoreType) (l : List (Nat × ValType)) :
    ValsOk S (l.flatMap fun e => List.replicate e.1 (Val.zero e.2)) (l.flatMap fun e => List.replicate e.1 e.2) := by
  induction l with
  | nil => exact .nil
  | cons e l ih =>
    rw [List.flatMap_cons, List.flatMap_cons]
    refine f2_append ?_ ih
    induction e.1 with
    | zero => exact .nil
    | succ n ih => exact .cons (valOk_zero _ _) ih

/-- Calling a function with arguments of its parameter types leaves results of its result types, or traps. -/
theorem call_ok {H : Host} {f : Nat} (hr : RunOk H f) {S : StoreType} (hH : HostOk S.hosts H) {C : Ctx} {r : List ValType} {st : Ref.St}
    {a d : Nat} {t : FuncType} {caller : Option ModuleInst} (ha : S.funcs[a]? = some t) (hst : StOk S C st (t.args.reverse ++ r)) :
    (∀ n st', Ref.call H (Ref.run H f) caller d a st ≠ .br n st') ∧ (∀ st', Ref.call H (Ref.run H f) caller d a st ≠ .ret st') ∧
    ResOk S C (t.rets.reverse ++ r) (Ref.call H (Ref.run H f) caller d a st) := by
  obtain ⟨s, ls, vs⟩ := st
  obtain ⟨hs, hl, hv⟩ := hst
  dsimp only at hs hl hv
  have hlen : vs.length = t.args.length + r.length := by simpa using hv.length_eq
  have h1 : ValsOk S (vs.take t.args.length) t.args.reverse := by
    exact vals_take hv
  have h2 : ValsOk S (vs.drop t.args.length) r := by
    exact vals_drop hv
  have h1r : ValsOk S (vs.take t.args.length).reverse t.args := by
    have := List.forall₂_reverse_iff.mpr h1
    rwa [List.reverse_reverse] at this
  rw [← hs.funcs, List.getElem?_map, Option.map_eq_some_iff] at ha
  obtain ⟨fi, hfi, hty⟩ := ha
  have hcode := hs.code fi (List.mem_of_getElem? hfi)
  unfold Ref.call
  dsimp only
  rw [hfi]
  cases fi with
  | wasm t' k code =>
    obtain rfl : t' = t := hty
    dsimp only
    rw [if_neg (by omega)]
    split
    · exact ⟨nofun, nofun, S, .refl S, hs⟩
    obtain ⟨mod, C', hmod, hmo, hvf⟩ := hcode
    rw [hmod]
    dsimp only
    have hrun := hr S _ mod (d + 1) code.expr [] t'.rets.reverse
      ⟨s, (vs.take t'.args.length).reverse ++ code.locals.flatMap fun e => List.replicate e.1 (Val.zero e.2), []⟩
      hH hvf (hmo.ctx _ _ _) ⟨hs, f2_append h1r (zeros_ok S code.locals), .nil⟩
    cases hx : Ref.run H f (d + 1) mod code.expr
      ⟨s, (vs.take t'.args.length).reverse ++ code.locals.flatMap fun e => List.replicate e.1 (Val.zero e.2), []⟩ with
    | norm st' =>
      rw [hx] at hrun
      obtain ⟨T, hT, h3⟩ := hrun
      dsimp only
      rw [if_pos (by simpa using h3.vs.length_eq)]
      exact ⟨nofun, nofun, T, hT, h3.store, ValsOk.mono hT hl,
        f2_append h3.vs (ValsOk.mono hT h2)⟩
    | br n st' =>
      rw [hx] at hrun
      obtain ⟨T, ts, r', hT, hts, h3⟩ := hrun
      cases n with
      | zero =>
        simp only [List.getElem?_cons_zero, Option.some.injEq] at hts
        subst hts
        have hl' : st'.vs.length = t'.rets.length + r'.length := by simpa using h3.vs.length_eq
        dsimp only
        rw [if_neg (by omega)]
        refine ⟨nofun, nofun, T, hT, h3.store, ValsOk.mono hT hl,
          f2_append ?_ (ValsOk.mono hT h2)⟩
        exact vals_take h3.vs
      | succ n => simp at hts
    | ret st' =>
      rw [hx] at hrun
      obtain ⟨T, r', hT, h3⟩ := hrun
      have hl' : st'.vs.length = t'.rets.length + r'.length := by simpa using h3.vs.length_eq
      dsimp only
      rw [if_neg (by omega)]
      refine ⟨nofun, nofun, T, hT, h3.store, ValsOk.mono hT hl,
        f2_append ?_ (ValsOk.mono hT h2)⟩
      exact vals_take h3.vs
    | trap s' => rw [hx] at hrun; exact ⟨nofun, nofun, hrun⟩
    | stuck => rw [hx] at hrun; exact hrun.elim
    | timeout => exact ⟨nofun, nofun, trivial⟩
  | host t' c =>
    obtain rfl : t' = t := hty
    dsimp only
    rw [if_neg (by omega)]
    split
    · exact ⟨nofun, nofun, S, .refl S, hs⟩
    rename_i xs hxs
    have hh := hH S s t' c caller _ xs rfl hs hcode h1r hxs
    split
    · rename_i e s' he
      rw [he] at hh
      exact ⟨nofun, nofun, hh⟩
    · rename_i ys s' he
      rw [he] at hh
      obtain ⟨T, hT, h3, h4, h5⟩ := hh
      rw [if_neg (by simpa using h4)]
      split
      · exact ⟨nofun, nofun, T, hT, h3⟩
      · rename_i rets hrets
        refine ⟨nofun, nofun, T, hT, h3, ValsOk.mono hT hl,
          f2_append ?_ (ValsOk.mono hT h2)⟩
        exact List.forall₂_reverse_iff.mpr (mapM_fromAll_ok h4 h5 hrets)

/-- A function `call_indirect` designates has the expected type. -/
theorem indirect_ok {S : StoreType} {C : Ctx} {mod : ModuleInst} {st : Ref.St} {i tab : Nat} {t : FuncType} {ts : List ValType}
    (hmo : ModOk S C mod) (ht : C.tables[tab]? = some .funcref) (h : C.types[i]? = some t) (hst : StOk S C st (.i32 :: ts)) :
    Ref.indirect mod i tab st = some (.inr ()) ∨ ∃ a, Ref.indirect mod i tab st = some (.inl a) ∧ S.funcs[a]? = some t := by
  obtain ⟨s, ls, vs⟩ := st
  obtain ⟨hs, hl, hv⟩ := hst
  dsimp only at hs hl hv
  obtain ⟨a, ti, h1, h2, h3, h4, h5⟩ := hmo.table hs ht
  rcases hv with _ | ⟨h6, h7⟩
  unfold Ref.indirect
  rw [h1, hmo.types, h]
  dsimp only
  split
  · exact .inl rfl
  rename_i r hr
  have h8 := h5 r (List.mem_of_getElem? hr)
  split
  · exact .inl rfl
  rename_i x hx
  have h9 : r.data[4]? = some 1 ∧ r.low32.toInt = x := by
    unfold refTarget at hx
    split at hx
    · rename_i hc; exact ⟨hc, by simpa using hx⟩
    · cases hx
  rcases h8.2 rfl with h0 | h0
  · rw [h9.1] at h0; cases h0
  obtain ⟨h10, h11⟩ := h0.2 rfl
  rw [h9.2] at h10 h11
  have hlt : x.toNat < s.func.length := by
    have := congrArg List.length hs.funcs
    rw [List.length_map] at this
    omega
  rw [if_neg (by omega), List.getElem?_eq_getElem hlt]
  dsimp only
  split
  · rename_i hty
    refine .inr ⟨_, rfl, ?_⟩
    rw [← hs.funcs, List.getElem?_map, List.getElem?_eq_getElem hlt, Option.map_some, hty]
  · exact .inl rfl

theorem block_type {S : StoreType} {C : Ctx} {mod : ModuleInst} (hmo : ModOk S C mod) (bt : Bype) : Ref.blockType mod bt = C.block bt := by
  cases bt <;> simp [Ref.blockType, Ctx.block, hmo.types]

/-- Running one instruction is sound with fuel `f`. -/
def InstrOk (H : Host) (f : Nat) : Prop :=
  ∀ S C mod d i a b r st, HostOk S.hosts H → Instr C i a b → ModOk S C mod → StOk S C st (a ++ r) → ResOk S C (b ++ r) (Ref.instr H f d mod i st)
/-- Running a loop is sound with fuel `f`. -/
def IterOk (H : Host) (f : Nat) : Prop :=
  ∀ S C mod d body (as : List ValType) b st, HostOk S.hosts H → Code { C with labels := as :: C.labels } body as.reverse b → ModOk S C mod →
    StOk S C st as.reverse → (∀ st', Ref.iter H f d mod body as.length st ≠ .br 0 st') ∧
    ResOk S { C with labels := as :: C.labels } b (Ref.iter H f d mod body as.length st)

theorem run_succ {H : Host} {f : Nat} (hr : RunOk H f) (hi : InstrOk H f) : RunOk H (f + 1) := by
  intro S C mod d is a b st hH hc hmo hst
  cases hc with
  | nil => exact ⟨S, .refl S, hst⟩
  | @cons _ i is a b' _ r h hs =>
    unfold Ref.run
    have := hi S C mod d i a b' r st hH h hmo hst
    cases hx : Ref.instr H f d mod i st with
    | norm st' =>
      rw [hx] at this
      obtain ⟨T, hT, h1⟩ := this
      exact ResOk.mono hT (hr T C mod d is _ _ st' (hT.hosts ▸ hH) hs (hmo.mono hT) h1)
    | br n st' =>  rw [hx] at this; exact this
    | ret st' => rw [hx] at this; exact this
    | trap s => rw [hx] at this; exact this
    | stuck => rw [hx] at this; exact this
    | timeout => trivial

theorem iter_succ {H : Host} {f : Nat} (hr : RunOk H f) (hi : IterOk H f) : IterOk H (f + 1) := by
  intro S C mod d body as b st hH hc hmo hst
  unfold Ref.iter
  have := hr S _ mod d body _ _ st hH hc (hmo.ctx _ _ _) ⟨hst.store, hst.locals, hst.vs⟩
  cases hx : Ref.run H f d mod body st with
  | norm st' => rw [hx] at this; exact ⟨nofun, this⟩
  | br n st' =>
    rw [hx] at this
    cases n with
    | zero =>
      obtain ⟨T, ts, r', hT, hts, h3⟩ := this
      simp only [List.getElem?_cons_zero, Option.some.injEq] at hts
      subst hts
      have hl' : st'.vs.length = as.length + r'.length := by simpa using h3.vs.length_eq
      have hred : (if st'.vs.length < as.length then Ref.Res.stuck else
          Ref.iter H f d mod body as.length { st' with vs := st'.vs.take as.length }) =
          Ref.iter H f d mod body as.length { st' with vs := st'.vs.take as.length } := if_neg (by omega)
      show (∀ st'_1, (if st'.vs.length < as.length then Ref.Res.stuck else
          Ref.iter H f d mod body as.length { st' with vs := st'.vs.take as.length }) ≠ .br 0 st'_1) ∧
        ResOk S _ b (if st'.vs.length < as.length then Ref.Res.stuck else
          Ref.iter H f d mod body as.length { st' with vs := st'.vs.take as.length })
      rw [hred]
      have h4 : ValsOk T (st'.vs.take as.length) as.reverse := by
        exact vals_take h3.vs
      have := hi T C mod d body as b { st' with vs := st'.vs.take as.length } (hT.hosts ▸ hH) hc (hmo.mono hT) ⟨h3.store, h3.locals, h4⟩
      exact ⟨this.1, ResOk.mono hT this.2⟩
    | succ n => exact ⟨nofun, this⟩
  | ret st' => rw [hx] at this; exact ⟨nofun, this⟩
  | trap s => rw [hx] at this; exact ⟨nofun, this⟩
  | stuck => rw [hx] at this; exact this.elim
  | timeout => exact ⟨nofun, trivial⟩

theorem instr_plain (H : Host) (f d : Nat) (mod : ModuleInst) (i : Inst) (st : Ref.St) (hc : isControl i = false) :
    Ref.instr H (f + 1) d mod i st = match Ref.plain mod st i with
      | .ok st' => .norm st'
      | .trap => .trap st.store
      | .stuck => .stuck := by
  cases i <;> first | rfl | cases hc

theorem instr_succ {H : Host} {f : Nat} (hr : RunOk H f) (hit : IterOk H f) : InstrOk H (f + 1) := by
  intro S C mod d i a b r st hH hi hmo hst
  by_cases hc : isControl i = false
  · have := plain_ok hi hc hmo hst
    rw [instr_plain H f d mod i st hc]
    cases hx : Ref.plain mod st i with
    | ok st' => rw [hx] at this; exact ⟨S, .refl S, this⟩
    | trap => exact ⟨S, .refl S, hst.store⟩
    | stuck => rw [hx] at this; exact this
  cases hi <;> try (exact absurd rfl hc)
  case block bt body t ht hb =>
    show ResOk S C _ (match Ref.blockType mod bt with | none => _ | some t => _)
    rw [block_type hmo, ht]
    exact inBlock_ok hst (fun vs hvs => hr S _ mod d body _ _ _ hH hb (hmo.ctx _ _ _) ⟨hst.store, hst.locals, hvs⟩) (.inl rfl) _ fun _ => rfl
  case loop bt body t ht hb =>
    show ResOk S C _ (match Ref.blockType mod bt with | none => _ | some t => _)
    rw [block_type hmo, ht]
    have h := fun vs hvs => hit S C mod d body _ _ { st with vs := vs } hH hb hmo ⟨hst.store, hst.locals, hvs⟩
    exact inBlock_ok hst (fun vs hvs => (h vs hvs).2) (.inr fun vs st' hvs => (h vs hvs).1 st') _ fun h => by rw [h]
  case ifThen bt thn els t ht h1 h2 =>
    obtain ⟨s, ls, vs⟩ := st
    obtain ⟨hs, hl, hv⟩ := hst
    dsimp only at hs hl hv
    rcases hv with _ | ⟨h6, h7⟩
    unfold Ref.instr
    dsimp only
    rw [block_type hmo, ht]
    refine inBlock_ok (as := t.args) (r := r) (L := t.rets) (st := ⟨s, ls, _⟩) ⟨hs, hl, h7⟩ (fun vs hvs => ?_) (.inl rfl) _ fun _ => rfl
    split
    · exact hr S _ mod d els _ _ _ hH h2 (hmo.ctx _ _ _) ⟨hs, hl, hvs⟩
    · exact hr S _ mod d thn _ _ _ hH h1 (hmo.ctx _ _ _) ⟨hs, hl, hvs⟩
  case br l ts a h =>
    rw [List.append_assoc] at hst
    exact ⟨S, ts, _, .refl S, h, hst⟩
  case brIf l ts h =>
    obtain ⟨s, ls, vs⟩ := st
    obtain ⟨hs, hl, hv⟩ := hst
    dsimp only at hs hl hv
    rcases hv with _ | ⟨h6, h7⟩
    show ResOk S C _ (if _ then _ else _)
    split
    · exact ⟨S, .refl S, hs, hl, h7⟩
    · exact ⟨S, ts, _, .refl S, h, hs, hl, h7⟩
  case brTable ls' l ts a h =>
    obtain ⟨s, ls, vs⟩ := st
    obtain ⟨hs, hl, hv⟩ := hst
    dsimp only at hs hl hv
    rcases hv with _ | ⟨h6, h7⟩
    rename_i c vs
    refine ⟨S, ts, a ++ r, .refl S, h _ ?_, hs, hl, ?_⟩
    · rw [List.getD_eq_getElem?_getD]
      cases hx : ls'[c.low32.toNat]? with
      | none => simp
      | some y => simp [List.mem_of_getElem? hx]
    · rw [← List.append_assoc]; exact h7
  case ret a =>
    rw [List.append_assoc] at hst
    exact ⟨S, _, .refl S, hst⟩
  case call g t h =>
    obtain ⟨a, h1, h2, h3⟩ := hmo.func hst.store h
    show ResOk S C _ (match mod.func[g]? with | none => _ | some a => _)
    rw [h1]
    exact (call_ok hr hH h2 hst).2.2
  case callIndirect k tab t ht h =>
    show ResOk S C _ (match Ref.indirect mod k tab st with | none => _ | some (.inr _) => _ | some (.inl a) => _)
    rcases indirect_ok hmo ht h hst with h1 | ⟨a, h1, h2⟩
    · rw [h1]; exact ⟨S, .refl S, hst.store⟩
    · rw [h1]
      obtain ⟨s, ls, vs⟩ := st
      obtain ⟨hs, hl, hv⟩ := hst
      dsimp only at hs hl hv
      rcases hv with _ | ⟨h6, h7⟩
      exact (call_ok (st := ⟨s, ls, _⟩) (r := r) hr hH h2 ⟨hs, hl, h7⟩).2.2

theorem sound {H : Host} : ∀ f, RunOk H f ∧ InstrOk H f ∧ IterOk H f
  | 0 => ⟨fun _ _ _ _ _ _ _ _ _ _ _ _ => trivial, fun _ _ _ _ _ _ _ _ _ _ _ _ _ => trivial,
      fun _ _ _ _ _ _ _ _ _ _ _ _ => ⟨nofun, trivial⟩⟩
  | f + 1 =>
    have ih := sound f
    ⟨run_succ ih.1 ih.2.1, instr_succ ih.1 ih.2.2, iter_succ ih.1 ih.2.2⟩
end Sound
end Pywasm
