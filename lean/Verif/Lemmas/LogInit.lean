import Verif.Lemmas.LogRun
import Verif.Lemmas.Link
import Verif.Lemmas.Bits
import Verif.Lemmas.Ty

/-!
# Printing changes nothing else: instances and invocations
-/

namespace Pywasm
open Spec Spec.Bin Spec.Log M

variable {H : Host} {lvl : Int} {bad : Prop}

theorem reprInt_value (n : Int) : (∃ s, Py.reprInt n = .ok s) ∨ Py.reprInt n = .error .value := by
  have := okIff_int n
  unfold OkIff at this
  split at this
  exacts [.inl this, .inr this]

theorem reprInt_short {n : Int} (h : n.natAbs < long) : ∃ s, Py.reprInt n = .ok s := by
  have := okIff_int n
  unfold OkIff at this
  rwa [if_pos (by simp [smallNums, h])] at this

theorem plain_allocate {d : ModuleDesc} (hd : ShortModule d) (bufs : List Nat) (extern : List Extern) (gs : List Val) (es : List (List Val)) :
    PlainM (allocate d bufs extern gs es) := by
  intro m h
  refine wp_mono (allocate_wp d bufs extern gs es) ?_ fun _ _ => trivial
  rintro mod m' ⟨fs, ts, ms, gs, es, ds, xs, hf, _, _, _, _, _, _, _, rfl⟩
  refine ⟨h.1, fun t k code hc => ?_, h.3⟩
  rcases List.mem_append.mp hc with hc | hc
  · exact h.2 t k code hc
  · obtain ⟨i, hi, he⟩ := List.mem_iff_getElem.mp hc
    rw [List.forall₂_iff_get] at hf
    have hi' : i < d.func.length := by have := hf.1; omega
    obtain ⟨t', _, hx⟩ := hf.2 i hi' hi
    simp only [List.get_eq_getElem] at hx
    rw [he] at hx
    injection hx with _ _ hx
    subst hx
    refine hd.exprs _ ?_
    simp only [exprs, List.mem_append, List.mem_map]
    exact .inr ⟨_, List.getElem_mem hi', rfl⟩

theorem tracks_buildInstance (hH : Free lvl bad ∨ ShortHost H) (N : Nat) {d : ModuleDesc} (hd : Free lvl bad ∨ ShortModule d)
    (bufs : List Nat) (extern : List Extern) :
    Tracks lvl bad (Inv lvl bad) (Logged.buildInstance lvl H N d bufs extern) (buildInstance H N d bufs extern) fun _ => Inv lvl bad := by
  unfold Logged.buildInstance buildInstance
  refine .bind (Q := fun _ => Inv lvl bad) (.quiet fun m h => ?_) fun m0 => ?_
  · wp_run; exact h
  refine .bind (Q := fun _ => Inv lvl bad) (.quiet fun m h => ?_) fun _ => ?_
  · wp_run; exact h
  refine .bind (Q := fun _ => Inv lvl bad) (.mapM fun e he => ?_) fun gs => ?_
  · refine .say (fun m h => .inr (.inl ⟨_, rfl⟩)) (tracks_runConst hH N _ (hd.imp_right fun hd => hd.exprs _ ?_))
    simp only [exprs, List.mem_append, List.mem_map]
    exact .inl (.inl (.inl (.inl ⟨e, he, rfl⟩)))
  refine .bind (Q := fun _ => Inv lvl bad) (.mapM fun e he => ?_) fun es => ?_
  · refine .say (fun m h => say_free (reprInt_value _) (hd.imp_right fun hd => reprInt_short (by simpa using hd.tidx e he)))
      (.mapM fun x hx => tracks_runConst hH N _ (hd.imp_right fun hd => hd.exprs _ ?_))
    simp only [exprs, List.mem_append, List.mem_map, List.mem_flatMap]
    exact .inl (.inl (.inr ⟨e, he, hx⟩))
  refine .bind (Q := fun _ => Inv lvl bad) (.quiet fun m h => ?_) fun _ => ?_
  · wp_run; exact h
  refine .bind (Q := fun _ => Inv lvl bad) (.quiet (inv_wp fun hf => plain_allocate (hd.resolve_left hf) _ _ _ _)) fun _ => ?_
  refine .bind (Q := fun _ => Inv lvl bad) (.quiet fun m h => ?_) fun _ => .pure fun _ h => h
  wp_run
  all_goals trivial

theorem numS (l : List Int) (h : ∀ n ∈ l, n.natAbs < long) : (l.all fun n => decide (n.natAbs < long)) = true := by
  rw [List.all_eq_true]
  exact fun n hn => decide_eq_true (h n hn)

theorem short_elemInit {d : ModuleDesc} (hd : ShortModule d) {e : ElemDesc} {i : Nat} (h : (e, i) ∈ d.elem.zipIdx) :
    short (elemInitExpr i e) = true := by
  have hi := List.mem_zipIdx h
  have he : e ∈ d.elem := by rw [hi.2.2]; exact List.getElem_mem _
  have hl := hd.elems.1
  have hlen := hd.elems.2 e he
  have htx := hd.tidx e he
  have h0 := long_pos
  unfold elemInitExpr
  refine short_append (hd.exprs _ ?_) ?_
  · simp only [exprs, List.mem_append, List.mem_map]
    exact .inl (.inl (.inl (.inr ⟨e, he, rfl⟩)))
  · simp only [short, shortI, numbers, Bool.and_eq_true]
    refine ⟨numS _ ?_, numS _ ?_, numS _ ?_, numS _ ?_, trivial⟩ <;> intro n hn <;>
      simp only [List.mem_cons, List.not_mem_nil, or_false] at hn
    · subst hn; exact h0
    · subst hn; simpa using hlen
    · rcases hn with rfl | rfl <;> simp only [Int.natAbs_natCast] <;> omega
    · subst hn; simp only [Int.natAbs_natCast]; omega

theorem short_elemDrop {d : ModuleDesc} (hd : ShortModule d) {e : ElemDesc} {i : Nat} (h : (e, i) ∈ d.elem.zipIdx) :
    short [.elemDrop i] = true := by
  have hi := List.mem_zipIdx h
  have hl := hd.elems.1
  simp only [short, shortI, numbers, Bool.and_eq_true]
  refine ⟨numS _ ?_, trivial⟩
  intro n hn
  simp only [List.mem_cons, List.not_mem_nil, or_false] at hn
  subst hn; simp only [Int.natAbs_natCast]; omega

theorem short_dataInit {d : ModuleDesc} (hd : ShortModule d) {e : DataDesc} {i : Nat} (h : (e, i) ∈ d.data.zipIdx) {n : Nat} (hn : n < long) :
    short (dataInitExpr i e n) = true := by
  have hi := List.mem_zipIdx h
  have he : e ∈ d.data := by rw [hi.2.2]; exact List.getElem_mem _
  have hl := hd.datas
  have h0 := long_pos
  unfold dataInitExpr
  refine short_append (hd.exprs _ ?_) ?_
  · simp only [exprs, List.mem_append, List.mem_map]
    exact .inl (.inr ⟨e, he, rfl⟩)
  · simp only [short, shortI, numbers, Bool.and_eq_true]
    refine ⟨numS _ ?_, numS _ ?_, numS _ ?_, numS _ ?_, trivial⟩ <;> intro n hn <;>
      simp only [List.mem_cons, List.not_mem_nil, or_false] at hn
    · subst hn; exact h0
    · subst hn; simpa using ‹_›
    · subst hn; simp only [Int.natAbs_natCast]; omega
    · subst hn; simp only [Int.natAbs_natCast]; omega

theorem tracks_yield {x : LM Unit} {y : M Unit} (h : Tracks lvl bad (Inv lvl bad) x y fun _ => Inv lvl bad) :
    Tracks lvl bad (Inv lvl bad) (x >>= fun _ => pure (ForInStep.yield PUnit.unit)) (y >>= fun _ => pure (ForInStep.yield PUnit.unit))
      fun r m => r = ForInStep.yield PUnit.unit ∧ Inv lvl bad m :=
  h.bind fun _ => .pure fun _ h => ⟨rfl, h⟩

theorem tracks_initSegments (hH : Free lvl bad ∨ ShortHost H) (N : Nat) {d : ModuleDesc} (hd : Free lvl bad ∨ ShortModule d)
    (bufs : List Nat) :
    Tracks lvl bad (Inv lvl bad) (Logged.initSegments lvl H N d bufs) (initSegments H N d bufs) fun _ => Inv lvl bad := by
  unfold Logged.initSegments initSegments
  refine .bind (Q := fun _ => Inv lvl bad) (.forIn fun a ha _ => ?_) fun _ => .bind (Q := fun _ => Inv lvl bad) (.forIn fun a ha _ => ?_)
    fun _ => .bind (Q := fun _ => Inv lvl bad) (.forIn fun a ha _ => ?_) fun _ => .pure fun _ h => h
  · obtain ⟨e, i⟩ := a
    simp only
    split
    · exact tracks_yield (tracks_runInit hH N _ _ (hd.imp_right fun hd => short_elemInit hd ha))
    · exact .pure fun _ h => ⟨rfl, h⟩
  · obtain ⟨e, i⟩ := a
    simp only
    split
    · exact tracks_yield (tracks_runInit hH N _ _ (hd.imp_right fun hd => short_elemDrop hd ha))
    · exact .pure fun _ h => ⟨rfl, h⟩
  · obtain ⟨e, i⟩ := a
    simp only
    refine .say (fun m h => say_free (reprInt_value _) (.inr (reprInt_short long_pos))) ?_
    split
    · refine .bind (Q := fun _ => Inv lvl bad) (.quiet fun m h => ?_) fun b => ?_
      · wp_run
        · exact h
        · trivial
      refine .bind (Q := fun m0 m => Inv lvl bad m ∧ m0 = m) (.quiet fun m h => ?_) fun m0 => ?_
      · wp_run; exact ⟨h, rfl⟩
      refine .bind (Q := fun init m => Inv lvl bad m ∧ (Free lvl bad ∨ init.length < long)) (.quiet fun m h => ?_) fun init => ?_
      · wp_run
        · rename_i hb; exact ⟨h.1, h.1.imp_right fun hp => hp.bufs _ (List.mem_of_getElem? (h.2 ▸ hb))⟩
        · trivial
      by_cases hc : Free lvl bad ∨ init.length < long
      · refine (tracks_yield (tracks_runInit hH N _ _ ?_)).mono (fun m h => h.1) fun _ _ h => h
        rcases hc with hf | hc
        · exact .inl hf
        · exact hd.imp_right fun hd => short_dataInit hd ha hc
      · exact fun t ht => absurd ht.2 hc
    · exact .pure fun _ h => ⟨rfl, h⟩

theorem tracks_runStart (hH : Free lvl bad ∨ ShortHost H) (N : Nat) {d : ModuleDesc} (hd : Free lvl bad ∨ ShortModule d) :
    Tracks lvl bad (Inv lvl bad) (Logged.runStart lvl H N d) (runStart H N d) fun _ => Inv lvl bad := by
  unfold Logged.runStart runStart
  cases hn : d.star with
  | some n =>
    refine tracks_runInit hH N _ _ (hd.imp_right fun hd => ?_)
    simp only [short, shortI, numbers, Bool.and_eq_true]
    refine ⟨numS _ fun k hk => ?_, trivial⟩
    simp only [List.mem_cons, List.not_mem_nil, or_false] at hk
    subst hk
    exact hd.star n hn
  | none => exact .pure fun _ h => h

theorem quiet_all {α} {y : M α} (h : ∀ m, Plain m → Wp y (fun _ => Plain) (fun _ => True) m) :
    Tracks lvl bad (Inv lvl bad) (LM.quiet y) y fun _ => Inv lvl bad := .quiet (inv_wp fun _ => h)

theorem plain_mapM {α β} {f : α → M β} {l : List α} (h : ∀ a ∈ l, PlainM (f a)) : PlainM (l.mapM f) := by
  induction l with
  | nil => intro m h; exact wp_pure h
  | cons a l ih =>
    rw [List.mapM_cons]
    refine (h a (by simp)).bind fun _ => (ih fun b hb => h b (by simp [hb])).bind fun _ m h => ?_
    wp_run; exact h

theorem plain_forIn {α} {f : α → PUnit → M (ForInStep PUnit)} {l : List α} (h : ∀ a ∈ l, ∀ u, PlainM (f a u)) :
    PlainM (forIn l PUnit.unit f) := by
  induction l with
  | nil => intro m h; exact wp_pure h
  | cons a l ih =>
    rw [List.forIn_cons]
    refine (h a (by simp) PUnit.unit).bind fun r => ?_
    cases r with
    | done u => intro m h; exact wp_pure h
    | yield u => exact ih fun b hb => h b (by simp [hb])

theorem plain_checkImport (d : ModuleDesc) (a : Import) (b : Extern) : PlainM (checkImport d a b) := by
  intro m h
  unfold checkImport
  split <;> wp_run <;> first | exact h | trivial

theorem plain_linkImports (d : ModuleDesc) (extern : List Extern) : PlainM (linkImports d extern) := by
  unfold linkImports
  refine PlainM.bind ?_ fun _ => PlainM.bind (plain_forIn fun a _ _ => ?_) fun _ m h => wp_pure h
  · intro m h; wp_run <;> first | exact h | trivial
  · obtain ⟨a, b⟩ := a
    refine (plain_checkImport d a b).bind fun _ m h => ?_
    wp_run
    exact h

theorem tracks_instantiate (hH : Free lvl bad ∨ ShortHost H) (N : Nat) {d : ModuleDesc} (hd : Free lvl bad ∨ ShortModule d)
    (bufs : List Nat) (extern : List Extern) :
    Tracks lvl bad (Inv lvl bad) (Logged.instantiate lvl H N d bufs extern) (instantiate H N d bufs extern) fun _ => Inv lvl bad := by
  unfold Logged.instantiate instantiate
  refine (quiet_all (plain_linkImports d extern)).bind fun _ => (tracks_buildInstance hH N hd bufs extern).bind fun mod => ?_
  refine .bind (Q := fun _ => Inv lvl bad) (.quiet fun m h => ?_) fun _ => ?_
  · wp_run; exact h
  refine (tracks_initSegments hH N hd bufs).bind fun _ => (tracks_runStart hH N hd).bind fun _ => ?_
  refine .bind (Q := fun _ => Inv lvl bad) (.quiet fun m h => ?_) fun _ => .pure fun _ h => h
  wp_run; exact h

theorem tracks_instance (hH : Free lvl bad ∨ ShortHost H) (N : Nat) {d : ModuleDesc} (hd : Free lvl bad ∨ ShortModule d)
    (imports : Imports) (bufs : List Nat) :
    Tracks lvl bad (Inv lvl bad) (Logged.instance' lvl H N imports d bufs) (Runtime.instance H N imports d bufs) fun _ => Inv lvl bad := by
  unfold Logged.instance' Runtime.instance
  refine (quiet_all (plain_mapM fun a _ m h => ?_)).bind fun ex => tracks_instantiate hH N hd bufs ex
  wp_run <;> first | exact h | trivial

/-! ## Invocations -/

theorem fromBytesS_short {b : Bytes} (h : b.length ≤ 8) : (Py.fromBytesS b).natAbs < long := by
  have hl := Py.leNat_lt b
  have hp : 256 ^ b.length ≤ 256 ^ 8 := Nat.pow_le_pow_right (by decide) h
  have h2 : (256 : Nat) ^ 8 ≤ 2 ^ 64 := by decide
  have h3 := long_big
  unfold Py.fromBytesS
  have e : ((256 : Int) ^ b.length) = ((256 ^ b.length : Nat) : Int) := by push_cast; rfl
  split
  · simp only [Int.natAbs_natCast]; omega
  · rw [e]; omega

/-- A reference is null or has a one in the place that says it is not. -/
def WellRef (v : Val) : Prop := (v.ty = .funcref ∨ v.ty = .externref) → v.byte 4 = 0 ∨ v.byte 4 = 1

theorem val_repr {fr : F64 → Str} {v : Val} (h : WellRef v) : ∃ s, v.repr fr = .ok s := by
  have h4 : (v.data.take 4).length ≤ 8 := by simp
  have h8 : (v.data.take 8).length ≤ 8 := by simp
  obtain ⟨s4, e4⟩ := reprInt_short (fromBytesS_short h4)
  obtain ⟨s8, e8⟩ := reprInt_short (fromBytesS_short h8)
  unfold Val.repr
  cases ht : v.ty with
  | i32 => simp only [Val.intoI32]; rw [e4]; exact ⟨_, rfl⟩
  | i64 => simp only [Val.intoI64]; rw [e8]; exact ⟨_, rfl⟩
  | f32 => exact ⟨_, rfl⟩
  | f64 => exact ⟨_, rfl⟩
  | v128 => exact ⟨_, rfl⟩
  | funcref =>
    rcases h (.inl ht) with hb | hb
    · simp only [hb, if_true]; exact ⟨_, rfl⟩
    · have hne : ¬ v.byte 4 = 0 := by rw [hb]; decide
      have : v.intoRef = .ok v.intoI32 := by simp [Val.intoRef, hb, Py.assert, bind, Except.bind, pure, Except.pure]
      simp only [hne, if_false, this, Val.intoI32]
      exact ⟨_, by rw [show ((Except.ok (Py.fromBytesS (v.data.take 4)) : Except Err Int) >>= fun a => Py.reprInt a >>= fun b =>
        (pure (ValType.repr _ ++ ' ' :: b) : Except Err Str)) = (Py.reprInt (Py.fromBytesS (v.data.take 4)) >>= fun b => pure (ValType.repr _ ++ ' ' :: b)) from rfl, e4]; rfl⟩
  | externref =>
    rcases h (.inr ht) with hb | hb
    · simp only [hb, if_true]; exact ⟨_, rfl⟩
    · have hne : ¬ v.byte 4 = 0 := by rw [hb]; decide
      have : v.intoRef = .ok v.intoI32 := by simp [Val.intoRef, hb, Py.assert, bind, Except.bind, pure, Except.pure]
      simp only [hne, if_false, this, Val.intoI32]
      exact ⟨_, by rw [show ((Except.ok (Py.fromBytesS (v.data.take 4)) : Except Err Int) >>= fun a => Py.reprInt a >>= fun b =>
        (pure (ValType.repr _ ++ ' ' :: b) : Except Err Str)) = (Py.reprInt (Py.fromBytesS (v.data.take 4)) >>= fun b => pure (ValType.repr _ ++ ' ' :: b)) from rfl, e4]; rfl⟩

theorem mapM_repr {fr : F64 → Str} {l : List Val} (h : ∀ v ∈ l, WellRef v) : ∃ s, l.mapM (Val.repr fr) = .ok s := by
  induction l with
  | nil => exact ⟨[], rfl⟩
  | cons v l ih =>
    obtain ⟨s, hs⟩ := val_repr (fr := fr) (h v (by simp))
    obtain ⟨r, hr⟩ := ih fun x hx => h x (by simp [hx])
    rw [List.mapM_cons, hs, hr]
    exact ⟨_, rfl⟩

/-- the line that announces an invocation -/
theorem invocate_line {fr : F64 → Str} {addr : Int} {args : List Val} (ha : ∀ v ∈ args, WellRef v) :
    (∃ s, (do let a ← Py.reprInt addr; return a ++ ' ' :: Py.reprList (← args.mapM (Val.repr fr)) : Except Err Str) = .ok s) ∨
    (do let a ← Py.reprInt addr; return a ++ ' ' :: Py.reprList (← args.mapM (Val.repr fr)) : Except Err Str) = .error .value := by
  obtain ⟨r, hr⟩ := mapM_repr (fr := fr) ha
  rw [hr]
  rcases reprInt_value addr with ⟨s, hs⟩ | hs <;> rw [hs]
  · exact .inl ⟨_, rfl⟩
  · exact .inr rfl

theorem invocate_line_ok {fr : F64 → Str} {addr : Int} {args : List Val} (ha : ∀ v ∈ args, WellRef v) (h : addr.natAbs < long) :
    ∃ s, (do let a ← Py.reprInt addr; return a ++ ' ' :: Py.reprList (← args.mapM (Val.repr fr)) : Except Err Str) = .ok s := by
  obtain ⟨r, hr⟩ := mapM_repr (fr := fr) ha
  obtain ⟨s, hs⟩ := reprInt_short h
  rw [hr, hs]
  exact ⟨_, rfl⟩

theorem tracks_invocate (fr : F64 → Str) (hH : Free lvl bad ∨ ShortHost H) (N : Nat) {addr : Int} {args : List Val}
    (ha : lvl ≤ 0 ∨ ∀ v ∈ args, WellRef v) (hd : Free lvl bad ∨ addr.natAbs < long) :
    Tracks lvl bad (Inv lvl bad) (Logged.invocate fr lvl H N addr args) (invocate H N addr args) fun _ => Inv lvl bad := by
  unfold Logged.invocate invocate
  refine .bind (Q := fun m0 m => Inv lvl bad m ∧ m0 = m) (.quiet fun m h => ?_) fun m0 => ?_
  · wp_run; exact ⟨h, rfl⟩
  refine .bind (Q := fun f m => Inv lvl bad m ∧ f ∈ m.store.func) (.quiet fun m h => ?_) fun f => ?_
  · wp_run
    · rename_i hf; exact ⟨h.1, Py.getItem_mem (h.2 ▸ hf)⟩
    · trivial
  cases f with
  | host t k => exact .quiet fun m _ => by wp_run; trivial
  | wasm type mod code =>
    refine .bind (Q := fun _ m => Inv lvl bad m ∧ (Free lvl bad ∨ short code.expr = true)) (.quiet fun m h => ?_) fun _ => ?_
    · wp_run
      · exact ⟨h.1, h.1.imp_right fun hp => hp.store _ _ _ h.2⟩
      · trivial
    refine .bind (Q := fun _ m => Inv lvl bad m ∧ (Free lvl bad ∨ short code.expr = true)) (.quiet fun m h => ?_) fun _ => ?_
    · wp_run; exact h
    refine .say (fun m h => ?_) ?_
    · rcases ha with ha | ha
      · exact .inl ha
      · exact say_free (invocate_line ha) (hd.imp_right (invocate_line_ok ha))
    refine .bind (Q := fun _ m => Inv lvl bad m ∧ (Free lvl bad ∨ short code.expr = true)) (.quiet fun m h => ?_) fun m1 => ?_
    · wp_run; exact h
    refine .bind (Q := fun _ m => Inv lvl bad m ∧ (Free lvl bad ∨ short code.expr = true)) (.quiet fun m h => ?_) fun module => ?_
    · wp_run
      · exact h
      · trivial
    refine .bind (Q := fun _ m => Inv lvl bad m ∧ (Free lvl bad ∨ short code.expr = true)) (.quiet fun m h => ?_) fun _ => ?_
    · wp_run; exact h
    refine .bind (Q := fun _ => Inv lvl bad) (.quiet fun m h => ?_) fun _ => ?_
    · wp_run
      rcases h.2 with hf | hs
      · exact .inl hf
      · exact h.1.imp_right fun hp => Codes.cons hp hs
    refine (tracks_evaluate hH N).bind fun _ => .quiet fun m h => ?_
    wp_run
    all_goals trivial

theorem make_byte {ty : ValType} {b : Bytes} {v : Val} (h : Val.make ty b = .ok v) : v.ty = ty ∧ v.data = b := by
  unfold Val.make at h
  split at h
  · injection h with h; subst h; exact ⟨rfl, rfl⟩
  · cases h

theorem fromRef_byte {ty : ValType} {n : Int} {v : Val} (h : Val.fromRef ty n = .ok v) : v.byte 4 = 1 := by
  unfold Val.fromRef Py.packS at h
  split at h
  · change Val.make ty (Py.leBytes 4 (n % 256 ^ 4).toNat ++ [1] ++ Py.zeros 11) = .ok v at h
    have := (make_byte h).2
    unfold Val.byte
    rw [this]
    simp [Py.leBytes_length]
  · cases h

theorem fromAll_wellRef {ty : ValType} {x : HVal} {v : Val} (h : Val.fromAll ty x = .ok v) : WellRef v := by
  have ht := Makes.fromAll ty x v h
  unfold WellRef
  rw [ht]
  intro hr
  rcases hr with rfl | rfl <;> cases x <;> first | exact .inr (fromRef_byte h) | cases h

theorem mapM_fromAll_wellRef {l : List (ValType × HVal)} {vs : List Val} (h : l.mapM (fun p => Val.fromAll p.1 p.2) = .ok vs) :
    ∀ v ∈ vs, WellRef v := by
  induction l generalizing vs with
  | nil => injection h with h; subst h; nofun
  | cons p l ih =>
    rw [List.mapM_cons] at h
    cases h1 : Val.fromAll p.1 p.2 with
    | error e => rw [h1] at h; cases h
    | ok v =>
      cases h2 : l.mapM (fun p => Val.fromAll p.1 p.2) with
      | error e => rw [h1, h2] at h; cases h
      | ok r =>
        rw [h1, h2] at h
        injection h with h
        subst h
        intro x hx
        rcases List.mem_cons.mp hx with rfl | hx
        exacts [fromAll_wellRef h1, ih h2 x hx]

theorem tracks_runtimeInvocate (fr : F64 → Str) (hH : Free lvl bad ∨ ShortHost H) (N : Nat) (mod : ModuleInst) (name : String)
    (args : List HVal) :
    Tracks lvl bad (fun m => Inv lvl bad m ∧ (Free lvl bad ∨ m.store.func.length ≤ long))
      (Logged.runtimeInvocate fr lvl H N mod name args) (Runtime.invocate H N mod name args) fun _ => Inv lvl bad := by
  unfold Logged.runtimeInvocate Runtime.invocate
  refine .bind (Q := fun _ m => Inv lvl bad m ∧ (Free lvl bad ∨ m.store.func.length ≤ long)) (.quiet fun m h => ?_) fun e => ?_
  · wp_run
    · exact h
    · trivial
  refine .bind (Q := fun m0 m => Inv lvl bad m ∧ (Free lvl bad ∨ m.store.func.length ≤ long) ∧ m0 = m) (.quiet fun m h => ?_) fun m0 => ?_
  · wp_run; exact ⟨h.1, h.2, rfl⟩
  refine .bind (Q := fun f m => Inv lvl bad m ∧ (Free lvl bad ∨ e.addr < long)) (.quiet fun m h => ?_) fun f => ?_
  · wp_run
    · rename_i hf
      refine ⟨h.1, h.2.1.imp_right fun hl => ?_⟩
      obtain ⟨hk, _⟩ := List.getElem?_eq_some_iff.mp hf
      rw [h.2.2] at hk
      omega
    · trivial
  by_cases hc : Free lvl bad ∨ e.addr < long
  · refine .bind (Q := fun _ m => Inv lvl bad m) (.quiet fun m h => ?_) fun _ => ?_
    · wp_run
      · exact h.1
      · trivial
    refine .bind (Q := fun vs m => Inv lvl bad m ∧ ∀ v ∈ vs, WellRef v) (.quiet fun m h => ?_) fun vs => ?_
    · wp_run
      · rename_i hv; exact ⟨h, mapM_fromAll_wellRef hv⟩
      · trivial
    by_cases hw : ∀ v ∈ vs, WellRef v
    · exact ((tracks_invocate fr hH N (.inr hw) (by simpa using hc)).mono (fun _ h => h.1) fun _ _ h => h).bind fun _ =>
        .quiet fun m h => by
          wp_run
          all_goals first | exact h | trivial
    · exact fun t ht => absurd ht.2 hw
  · exact fun t ht => absurd ht.2 hc

end Pywasm
