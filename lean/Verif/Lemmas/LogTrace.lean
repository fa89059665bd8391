import Verif.Lemmas.LogInit
import Verif.Lemmas.ListingModule
import Verif.Spec.Invoke
import Verif.Spec.History
import Verif.Lemmas.Ty
import Verif.Props.Invocate

/-!
# What is printed during a run
-/

namespace Pywasm
open Spec Spec.Bin Spec.Log M

section
variable {lvl : Int} {bad : Prop} {α β : Type} {H : Host}

theorem plain_iff {m : Machine} : Plain m ↔ ShortMachine m :=
  ⟨fun h => ⟨⟨h.store, h.bufs⟩, h.label⟩, fun h => ⟨h.label, h.store.func, h.store.bufs⟩⟩

theorem Tracks.withOut_or {P : Machine → Prop} {x : LM α} {y : M α} {Q : α → Machine → Prop} (h : Tracks lvl bad P x y Q) (t : Talk)
    (ht : P t.m) : (∃ l, (lvl ≤ 0 → l = []) ∧ x t = withOut (y t.m) (t.out ++ l) ∧ ∀ a m, y t.m = .ok a m → Q a m) ∨
      (bad ∧ ∃ m l, x t = .error .value ⟨m, t.out ++ l⟩) := by
  rcases h t ht with ⟨l, hl, ⟨a, m, h1, h2, h3⟩ | ⟨e, m, h1, h2⟩⟩ | h
  · refine .inl ⟨l, hl, by rw [h1, h2]; rfl, fun a' m' h' => ?_⟩
    rw [h1] at h'
    injection h' with ha hm
    subst ha; subst hm
    exact h3
  · exact .inl ⟨l, hl, by rw [h1, h2]; rfl, fun a' m' h' => by rw [h1] at h'; cases h'⟩
  · exact .inr h

theorem Tracks.same {P : Machine → Prop} {x : LM α} {y : M α} {Q : α → Machine → Prop} (h : Tracks lvl False P x y Q) (t : Talk)
    (ht : P t.m) : ∃ l, (lvl ≤ 0 → l = []) ∧ x t = withOut (y t.m) (t.out ++ l) ∧ ∀ a m, y t.m = .ok a m → Q a m :=
  (h.withOut_or t ht).resolve_right fun h => h.1

theorem tracks_said {P : Machine → Prop} {x : Log α} {y : Except Err α}
    (h : (∃ l, (lvl ≤ 0 → l = []) ∧ x = (l, y)) ∨ (bad ∧ ∃ l, x = (l, .error .value))) :
    Tracks lvl bad P (LM.say x) (lift y) fun a m => P m ∧ y = .ok a := by
  intro t ht
  rcases h with ⟨l, hl, rfl⟩ | ⟨hb, l, rfl⟩
  · cases y with
    | ok a => exact .inl ⟨l, hl, .inl ⟨a, t.m, rfl, rfl, ht, rfl⟩⟩
    | error e => exact .inl ⟨l, hl, .inr ⟨e, t.m, rfl, rfl⟩⟩
  · exact .inr ⟨hb, t.m, l, rfl⟩

theorem tracks_file (hH : Free lvl bad ∨ ShortHost H) (lim N : Nat) (imports : Imports) (file : Bytes)
    (hr : (∃ l, (lvl ≤ 0 → l = []) ∧ Logged.fromReader lvl lim file = (l, ModuleDesc.fromReader lim file)) ∨
      (bad ∧ ∃ l, Logged.fromReader lvl lim file = (l, .error .value)))
    (hd : Free lvl bad ∨ ∀ r, ModuleDesc.fromReader lim file = .ok r → ShortModule r.1) :
    Tracks lvl bad (Inv lvl bad) (Logged.instanceFromFile lvl H lim N imports file) (Runtime.instanceFromFile H lim N imports file)
      fun _ => Inv lvl bad := by
  unfold Logged.instanceFromFile Runtime.instanceFromFile
  refine (tracks_said hr).bind fun r => ?_
  by_cases hm : ModuleDesc.fromReader lim file = .ok r
  · have hd' : Free lvl bad ∨ ShortModule r.1 := hd.imp_right fun h => h r hm
    refine .bind (Q := fun _ => Inv lvl bad) (.quiet fun m h => ?_) fun b => tracks_instance hH N hd' imports b
    unfold Wp loadBuffers
    show Inv lvl bad _
    rcases h.1 with h | h
    · exact .inl h
    · rcases hd' with hd' | hd'
      · exact .inl hd'
      · refine .inr ⟨h.label, h.store, fun b hb => ?_⟩
        rcases List.mem_append.mp hb with hb | hb
        · exact h.bufs b hb
        · obtain ⟨e, he, rfl⟩ := List.mem_map.mp hb
          exact hd'.datas.2 e he
  · exact fun t ht => absurd ht.2 hm

theorem quiet_run (y : M α) (t : Talk) : LM.quiet y t = withOut (y t.m) t.out := by
  unfold LM.quiet withOut
  cases y t.m <;> rfl

theorem say_line (hlv : 0 < lvl) {k : String} {s : Str} (t : Talk) :
    LM.say (logLine lvl k (.ok s)) t = .ok () ⟨t.m, t.out ++ [k.toList ++ ' ' :: s]⟩ := by
  simp [LM.say, logLine, debugObj, hlv, Except.map]

theorem lm_bind {x : LM α} {f : α → LM β} {t : Talk} {a : α} {t' : Talk} (h : x t = .ok a t') : (x >>= f) t = f a t' := by
  show EStateM.bind x f t = _; unfold EStateM.bind; rw [h]
theorem lm_bind_err {x : LM α} {f : α → LM β} {t t' : Talk} {e : Err} (h : x t = .error e t') : (x >>= f) t = .error e t' := by
  show EStateM.bind x f t = _; unfold EStateM.bind; rw [h]
theorem m_bind {x : M α} {f : α → M β} {m : Machine} {a : α} {m' : Machine} (h : x m = .ok a m') : (x >>= f) m = f a m' := by
  show EStateM.bind x f m = _; unfold EStateM.bind; rw [h]
theorem m_bind_err {x : M α} {f : α → M β} {m m' : Machine} {e : Err} (h : x m = .error e m') : (x >>= f) m = .error e m' := by
  show EStateM.bind x f m = _; unfold EStateM.bind; rw [h]

/-- one step prints the instruction it executes -/
theorem step_line (hlv : 0 < lvl) (m : Machine) (out : List Str) (h : Plain m) :
    Logged.step lvl H ⟨m, out⟩ = withOut (step H m) (out ++ (next m).toList.map Listing.traceLine) := by
  unfold Logged.step step
  rw [lm_bind (x := LM.quiet get) (a := m) (t' := ⟨m, out⟩) rfl, m_bind (x := get) (a := m) (m' := m) rfl]
  cases hL : m.label with
  | nil =>
    rw [lm_bind_err (x := LM.quiet (idx [] 0)) (e := .index) (t' := ⟨m, out⟩) rfl, m_bind_err (x := idx [] 0) (e := .index) (m' := m) rfl]
    unfold next
    rw [hL]
    simp [withOut]
  | cons lab L =>
    rw [lm_bind (x := LM.quiet (idx (lab :: L) 0)) (a := lab) (t' := ⟨m, out⟩) rfl, m_bind (x := idx (lab :: L) 0) (a := lab) (m' := m) rfl]
    cases hF : m.frame with
    | nil =>
      have e : topFrame m = .error .index m := by
        unfold topFrame
        rw [m_bind (x := get) (a := m) (m' := m) rfl, hF]; rfl
      have e' : LM.quiet topFrame ⟨m, out⟩ = .error .index ⟨m, out⟩ := by rw [quiet_run]; show withOut (topFrame m) out = _; rw [e]; rfl
      rw [lm_bind_err e', m_bind_err e]
      unfold next
      rw [hL, hF]
      simp [withOut]
    | cons f F =>
      have e : topFrame m = .ok f m := by
        unfold topFrame
        rw [m_bind (x := get) (a := m) (m' := m) rfl, hF]; rfl
      have e' : LM.quiet topFrame ⟨m, out⟩ = .ok f ⟨m, out⟩ := by rw [quiet_run]; show withOut (topFrame m) out = _; rw [e]; rfl
      rw [lm_bind e', m_bind e]
      have en : next m = lab.instr[lab.index]? := by unfold next; rw [hL, hF]
      rw [en]
      split
      · rename_i hi
        rw [hi, List.getElem?_eq_none (by omega), quiet_run]
        simp
      · cases hi : lab.instr[lab.index]? with
        | none =>
          have q : idx lab.instr lab.index m = .error .index m := by unfold idx; rw [hi]
          have q' : LM.quiet (idx lab.instr lab.index) ⟨m, out⟩ = .error .index ⟨m, out⟩ := by
            rw [quiet_run]; show withOut (idx lab.instr lab.index m) out = _; rw [q]; rfl
          rw [lm_bind_err q', m_bind_err q]
          simp [withOut]
        | some i =>
          have q : idx lab.instr lab.index m = .ok i m := by unfold idx; rw [hi]
          have q' : LM.quiet (idx lab.instr lab.index) ⟨m, out⟩ = .ok i ⟨m, out⟩ := by
            rw [quiet_run]; show withOut (idx lab.instr lab.index m) out = _; rw [q]; rfl
          rw [lm_bind q', m_bind q]
          have hs : shortI i = true := short_mem (h.label lab (by rw [hL]; simp)) (List.mem_of_getElem? hi)
          rw [single_text (shortI_numbers hs)]
          rw [lm_bind (x := LM.quiet (modify _)) (a := ()) rfl, m_bind (x := modify _) (a := ()) rfl, lm_bind (say_line hlv _), quiet_run]
          rfl

theorem evaluate_lines (hlv : 0 < lvl) (hH : ShortHost H) (n : Nat) (m : Machine) (out : List Str) (h : Plain m) :
    Logged.evaluate lvl H n ⟨m, out⟩ = withOut (evaluate H n m) (out ++ (executed H n m).map Listing.traceLine) := by
  induction n generalizing m out with
  | zero => simp [Logged.evaluate, evaluate, executed, withOut, pure, EStateM.pure]
  | succ n ih =>
    unfold Logged.evaluate evaluate executed
    rw [lm_bind (x := LM.quiet get) (a := m) (t' := ⟨m, out⟩) rfl, m_bind (x := get) (a := m) (m' := m) rfl]
    cases hL : m.label with
    | nil =>
      have e : step H m = .error .index m := by
        unfold step
        rw [m_bind (x := get) (a := m) (m' := m) rfl, hL, m_bind_err (x := idx [] 0) (e := .index) (m' := m) rfl]
      rw [e]
      unfold next
      rw [hL]
      simp [withOut, pure, EStateM.pure]
    | cons lab L =>
      rw [if_neg (by simp), if_neg (by simp)]
      have hs := step_line (H := H) hlv m out h
      obtain ⟨-, -, -, hq⟩ := (tracks_step (lvl := lvl) (bad := False) (H := H) (.inr hH)).same ⟨m, out⟩ (.inr h)
      cases he : step H m with
      | ok a m' =>
        rw [he] at hs
        rw [lm_bind hs, m_bind he, ih m' _ ((hq _ _ he).resolve_left fun h => by rcases h with h | h; omega; exact h)]
        rw [List.map_append, List.append_assoc]
      | error e m' =>
        rw [he] at hs
        rw [lm_bind_err hs, m_bind_err he, List.append_nil]
        rfl

theorem hexDigit_eq : ∀ n < 16, Py.hexDigit n = Nat.digitChar n := by decide

theorem small_short {b : Bytes} (h : b.length ≤ 8) : (Py.fromBytesS b).natAbs < long := fromBytesS_short h

/-- a value that can be given back to the host is printed as that -/
theorem value_text {fr : F64 → Str} {v : Val} {x : HVal} (h : v.intoAll = .ok x) :
    v.repr fr = .ok (Listing.words [(Listing.valType v.ty).toList, Listing.hostValue fr x]) := by
  have h4 : (v.data.take 4).length ≤ 8 := by simp
  have h8 : (v.data.take 8).length ≤ 8 := by simp
  have e4 := int_text (small_short h4)
  have e8 := int_text (small_short h8)
  have href (hv : v.intoRef.map HVal.int = .ok x) : ¬ v.byte 4 = 0 ∧ v.intoRef = .ok v.intoI32 ∧ x = .int v.intoI32 := by
    cases hr : v.intoRef with
    | error e => rw [hr] at hv; cases hv
    | ok n =>
      rw [hr] at hv
      injection hv with hv
      unfold Val.intoRef Py.assert at hr
      split at hr
      · rename_i hb
        injection hr with hr
        refine ⟨fun h0 => by rw [h0] at hb; exact absurd hb (by decide), by rw [hr], by rw [hr]; exact hv.symm⟩
      · cases hr
  rw [words2, ← val_text]
  unfold Val.repr
  unfold Val.intoAll at h
  cases ht : v.ty with
  | i32 => rw [ht] at h; injection h with h; subst h; simp only [Val.intoI32]; rw [e4]; rfl
  | i64 => rw [ht] at h; injection h with h; subst h; simp only [Val.intoI64]; rw [e8]; rfl
  | f32 => rw [ht] at h; injection h with h; subst h; rfl
  | f64 => rw [ht] at h; injection h with h; subst h; rfl
  | v128 =>
    rw [ht] at h; injection h with h; subst h
    have : (fun b : UInt8 => [Py.hexDigit (b.toNat / 16), Py.hexDigit (b.toNat % 16)]) =
        fun b => [Nat.digitChar (b.toNat / 16), Nat.digitChar (b.toNat % 16)] := by
      funext b
      have := b.toNat_lt
      rw [hexDigit_eq _ (by omega), hexDigit_eq _ (by omega)]
    simp only [this]
    show (Except.ok _ : Except Err Str) = .ok (_ ++ ' ' :: (v.intoV128).flatMap _)
    have : v.intoV128 = v.data := by unfold Val.intoV128; exact List.take_of_length_le (by rw [v.len])
    rw [this]
  | funcref =>
    rw [ht] at h
    obtain ⟨hne, hr, rfl⟩ := href h
    simp only [hne, if_false, hr, Val.intoI32]
    rw [show ((Except.ok (Py.fromBytesS (v.data.take 4)) : Except Err Int) >>= fun a => Py.reprInt a >>= fun b =>
        (pure (ValType.repr _ ++ ' ' :: b) : Except Err Str)) = (Py.reprInt (Py.fromBytesS (v.data.take 4)) >>= fun b =>
          pure (ValType.repr _ ++ ' ' :: b)) from rfl, e4]
    rfl
  | externref =>
    rw [ht] at h
    obtain ⟨hne, hr, rfl⟩ := href h
    simp only [hne, if_false, hr, Val.intoI32]
    rw [show ((Except.ok (Py.fromBytesS (v.data.take 4)) : Except Err Int) >>= fun a => Py.reprInt a >>= fun b =>
        (pure (ValType.repr _ ++ ' ' :: b) : Except Err Str)) = (Py.reprInt (Py.fromBytesS (v.data.take 4)) >>= fun b =>
          pure (ValType.repr _ ++ ' ' :: b)) from rfl, e4]
    rfl

theorem values_text {fr : F64 → Str} {vs : List Val} {xs : List HVal} (h : vs.mapM Val.intoAll = .ok xs) :
    vs.mapM (Val.repr fr) = .ok (((vs.map (·.ty)).zip xs).map fun p => Listing.words [(Listing.valType p.1).toList, Listing.hostValue fr p.2]) := by
  induction vs generalizing xs with
  | nil => rfl
  | cons v vs ih =>
    rw [List.mapM_cons] at h
    cases h1 : v.intoAll with
    | error e => rw [h1] at h; cases h
    | ok x =>
      cases h2 : vs.mapM Val.intoAll with
      | error e => rw [h1, h2] at h; cases h
      | ok r =>
        rw [h1, h2] at h
        injection h with h
        subst h
        rw [List.mapM_cons, value_text h1, ih h2]
        rfl

theorem withOut_quiet {x : LM α} {y : M α} {t : Talk} {o : List Str} (hx : x t = withOut (y t.m) o) (g : α → M β) :
    (x >>= fun a => LM.quiet (g a)) t = withOut ((y >>= g) t.m) o := by
  cases hr : y t.m with
  | ok a m' =>
    rw [hr] at hx
    rw [lm_bind hx, m_bind hr, quiet_run]
  | error e m' =>
    rw [hr] at hx
    rw [lm_bind_err hx, m_bind_err hr]
    rfl

/-- what a call prints -/
theorem invocate_lines (fr : F64 → Str) (hlv : 0 < lvl) (hH : ShortHost H) (N : Nat) {a : Nat} {vs : List Val} {xs : List HVal} {m : Machine}
    (out : List Str) {t : FuncType} {k : Nat} {code : FuncDesc} {mo : ModuleInst} (h : Plain m) (ha : a < long)
    (hf : m.store.func[a]? = some (.wasm t k code)) (hk : m.store.mods[k]? = some mo)
    (ht : (t.args.zip vs).all (fun p => decide (p.1 = p.2.ty)) = true) (hx : vs.mapM Val.intoAll = .ok xs) :
    Logged.invocate fr lvl H N a vs ⟨m, out⟩ = withOut (invocate H N a vs m)
      (out ++ Listing.callLine fr a ((vs.map (·.ty)).zip xs) :: (executed H N (started m t mo code vs)).map Listing.traceLine) := by
  unfold Logged.invocate invocate
  rw [lm_bind (x := LM.quiet get) (a := m) (t' := ⟨m, out⟩) rfl, m_bind (x := get) (a := m) (m' := m) rfl]
  have hg : Py.getItem m.store.func (a : Int) = .ok (.wasm t k code) := Py.getItem_some hf
  have q : lift (Py.getItem m.store.func (a : Int)) m = .ok (.wasm t k code) m := by rw [hg]; rfl
  have q' : LM.quiet (lift (Py.getItem m.store.func (a : Int))) ⟨m, out⟩ = .ok (.wasm t k code) ⟨m, out⟩ := by rw [hg]; rfl
  rw [lm_bind q', m_bind q]
  simp only
  rw [ht, lm_bind (x := LM.quiet (assert true)) (a := ()) (t' := ⟨m, out⟩) rfl, m_bind (x := assert true) (a := ()) (m' := m) rfl]
  rw [lm_bind (x := LM.quiet (modify _)) (a := ()) rfl, m_bind (x := modify _) (a := ()) rfl]
  have hl : (do let a ← Py.reprInt (a : Int); return a ++ ' ' :: Py.reprList (← vs.mapM (Val.repr fr)) : Except Err Str) =
      .ok (Listing.num a ++ ' ' :: Listing.list (((vs.map (·.ty)).zip xs).map fun p =>
        Listing.words [(Listing.valType p.1).toList, Listing.hostValue fr p.2])) := by
    rw [nat_text ha, values_text hx, ← list_eq]; rfl
  rw [hl, lm_bind (say_line hlv _)]
  rw [lm_bind (x := LM.quiet get) rfl, m_bind (x := get) rfl]
  have k1 (F : List Frame) (o : List Str) : LM.quiet (idx m.store.mods k) ⟨{ m with frame := F }, o⟩ = .ok mo ⟨{ m with frame := F }, o⟩ := by
    rw [quiet_run]; unfold idx; rw [hk]; rfl
  have k2 (F : List Frame) : idx m.store.mods k { m with frame := F } = .ok mo { m with frame := F } := by unfold idx; rw [hk]
  rw [lm_bind (k1 _ _), m_bind (k2 _)]
  rw [lm_bind (x := LM.quiet (modify _)) (a := ()) rfl, m_bind (x := modify _) (a := ()) rfl]
  rw [lm_bind (x := LM.quiet (modify _)) (a := ()) rfl, m_bind (x := modify _) (a := ()) rfl]
  have hc : Plain (started m t mo code vs) := h.cons (h.store t k code (List.mem_of_getElem? hf))
  have he := evaluate_lines hlv hH N (started m t mo code vs)
    (out ++ ["invocate".toList ++ ' ' :: (Listing.num a ++ ' ' :: Listing.list (((vs.map (·.ty)).zip xs).map fun p =>
        Listing.words [(Listing.valType p.1).toList, Listing.hostValue fr p.2]))]) hc
  have hline : Listing.callLine fr a ((vs.map (·.ty)).zip xs) =
      "invocate".toList ++ ' ' :: (Listing.num a ++ ' ' :: Listing.list (((vs.map (·.ty)).zip xs).map fun p =>
        Listing.words [(Listing.valType p.1).toList, Listing.hostValue fr p.2])) := by
    unfold Listing.callLine Listing.words
    simp [List.intercalate]
  rw [← hline] at he
  rw [← hline]
  rw [show out ++ Listing.callLine fr a ((vs.map (·.ty)).zip xs) :: (executed H N (started m t mo code vs)).map Listing.traceLine =
    (out ++ [Listing.callLine fr a ((vs.map (·.ty)).zip xs)]) ++ (executed H N (started m t mo code vs)).map Listing.traceLine by simp]
  exact withOut_quiet he _

theorem forall₂_types {ts : List ValType} {vs : List Val} (h : List.Forall₂ (fun t (v : Val) => v.ty = t) ts vs) : vs.map (·.ty) = ts := by
  induction h with
  | nil => rfl
  | cons h _ ih => rw [List.map_cons, h, ih]

theorem runtimeInvocate_lines (fr : F64 → Str) (hlv : 0 < lvl) (hH : ShortHost H) (N : Nat) {mod : ModuleInst} {name : String} {a : Nat}
    {args : List HVal} {vs : List Val} {xs : List HVal} {m : Machine}
    (out : List Str) {t : FuncType} {k : Nat} {code : FuncDesc} {mo : ModuleInst} (h : Plain m) (ha : a < long)
    (hn : ExportsFunc mod name a)
    (hf : m.store.func[a]? = some (.wasm t k code)) (hk : m.store.mods[k]? = some mo) (hl : args.length = t.args.length)
    (ht : (t.args.zip args).mapM (fun p => Val.fromAll p.1 p.2) = .ok vs) (hx : vs.mapM Val.intoAll = .ok xs) :
    Logged.runtimeInvocate fr lvl H N mod name args ⟨m, out⟩ = withOut (Runtime.invocate H N mod name args m)
      (out ++ Listing.callLine fr a (t.args.zip xs) :: (executed H N (started m t mo code vs)).map Listing.traceLine) := by
  unfold Logged.runtimeInvocate Runtime.invocate
  have hty := Makes.all ht hl.symm
  have hz : ((t.args.zip vs).all fun p => decide (p.1 = p.2.ty)) = true := Props.zip_all_ty hty
  have hts : vs.map (·.ty) = t.args := forall₂_types hty
  rw [Props.findExport_func hn, bind_lift_ok, bind_get_run, bind_idx_some (show m.store.func[(Extern.func a).addr]? = some _ from hf),
    bind_assert_pos (show (FuncInst.wasm t k code).type.args.length = args.length from hl.symm)]
  rw [lm_bind (x := LM.quiet (lift _)) (a := Extern.func a) (t' := ⟨m, out⟩) rfl]
  rw [lm_bind (x := LM.quiet get) rfl]
  have k1 : LM.quiet (idx m.store.func (Extern.func a).addr) ⟨m, out⟩ = .ok (.wasm t k code) ⟨m, out⟩ := by
    rw [quiet_run]; unfold idx; rw [show m.store.func[(Extern.func a).addr]? = some _ from hf]; rfl
  rw [lm_bind k1]
  have k2 : LM.quiet (assert (decide ((FuncInst.wasm t k code).type.args.length = args.length))) ⟨m, out⟩ = .ok () ⟨m, out⟩ := by
    rw [show decide ((FuncInst.wasm t k code).type.args.length = args.length) = true from decide_eq_true hl.symm]; rfl
  rw [lm_bind k2]
  have k3 : LM.quiet (lift (((FuncInst.wasm t k code).type.args.zip args).mapM fun p => Val.fromAll p.1 p.2)) ⟨m, out⟩ = .ok vs ⟨m, out⟩ := by
    rw [show ((FuncInst.wasm t k code).type.args.zip args).mapM (fun p => Val.fromAll p.1 p.2) = .ok vs from ht]; rfl
  rw [lm_bind k3]
  change _ = withOut (((M.lift ((t.args.zip args).mapM fun p => Val.fromAll p.1 p.2)) >>= _) m) _
  rw [ht, bind_lift_ok]
  have := invocate_lines fr hlv hH N out h ha hf hk hz hx
  rw [hts] at this
  exact withOut_quiet (t := ⟨m, out⟩) this _

end
end Pywasm
