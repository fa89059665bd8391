import Verif.Lemmas.Isolation
import Verif.Lemmas.Init3

/-!
# Instantiation keeps to the part that consists of its imports and of what it creates
-/

namespace Pywasm.Iso
open Pywasm Spec M

theorem Part.Agree.refl (W : Part) (s : Store) : W.Agree s s :=
  ⟨fun _ _ => rfl, fun _ _ => rfl, fun _ _ => rfl, fun _ _ => rfl, fun _ _ => rfl, fun _ _ => rfl, fun _ _ => rfl, fun _ _ => rfl, rfl, rfl⟩
theorem Part.Untouched.refl (W : Part) (s : Store) : W.Untouched s s :=
  ⟨fun _ _ => rfl, fun _ _ => rfl, fun _ _ => rfl, fun _ _ => rfl, fun _ _ => rfl, fun _ _ => rfl, fun _ _ => rfl, fun _ _ => rfl⟩

/-- The invariant: only code of the part is running, and the rest of the store is as it was. -/
def Inv (c : Cfg) (m : Machine) : Prop := c.W.Untouched c.s0 m.store ∧ c.W.Runs c.strict m

variable {c : Cfg} {m m' : Machine} {H : Host} {N : Nat} {α : Type}

theorem Inv.rel (h : Inv c m) : Rel { c with t0 := c.s0 } m m := ⟨rfl, rfl, rfl, Part.Agree.refl _ _, h.1, h.1, h.2⟩

theorem wp_of_two {x : M α} {Q : α → Machine → Machine → Prop} (h : Two { c with t0 := c.s0 } x x m m Q) :
    Wp x (fun a m' => Q a m' m') (Inv c) m := by
  unfold Two at h
  unfold Wp
  cases hx : x m with
  | ok a m' => rw [hx] at h; exact h.2
  | error e m' => rw [hx] at h; exact ⟨h.2.left, h.2.run⟩

theorem inv_evaluate (hH : c.W.HostKeeps c.strict H) (hs : c.strict = true) (h : Inv c m) :
    Wp (evaluate H N) (fun _ => Inv c) (Inv c) m :=
  wp_mono (wp_of_two (two_evaluate (c := { c with t0 := c.s0 }) hH hs N h.rel)) (fun _ _ h => ⟨h.left, h.run⟩) (fun _ h => h)

theorem inv_invocate (hH : c.W.HostKeeps c.strict H) (hs : c.strict = true) {a : Nat} {args : List Val} (h : Inv c m)
    (ha : c.W.func a) (hargs : ∀ v ∈ args, c.W.Holds v) :
    Wp (invocate H N a args) (fun rets m' => Inv c m' ∧ ∀ v ∈ rets, c.W.Holds v) (Inv c) m :=
  wp_mono (wp_of_two (two_invocate (c := { c with t0 := c.s0 }) hH hs N h.rel ha hargs)) (fun _ _ h => ⟨⟨h.1.left, h.1.run⟩, h.2⟩) (fun _ h => h)

theorem Inv.setLabel (h : Inv c m) {l : List Label} (hl : c.strict = true → ∀ x ∈ l, noFill x.instr = true) : Inv c { m with label := l } :=
  ⟨h.1, h.2.store, h.2.value, hl, h.2.frame⟩
theorem Inv.setValue (h : Inv c m) {l : List Val} (hl : ∀ x ∈ l, c.W.Holds x) : Inv c { m with value := l } :=
  ⟨h.1, h.2.store, hl, h.2.label, h.2.frame⟩
theorem Inv.setFrame (h : Inv c m) {l : List Frame} (hl : ∀ f ∈ l, c.W.Owns f.module ∧ ∀ v ∈ f.locals, c.W.Holds v) :
    Inv c { m with frame := l } :=
  ⟨h.1, h.2.store, h.2.value, h.2.label, hl⟩
theorem Inv.setStore (h : Inv c m) {s : Store} (hu : c.W.Untouched m.store s) (hc : c.W.Closed c.strict s) : Inv c { m with store := s } :=
  ⟨h.1.trans hu, hc, h.2.value, h.2.label, h.2.frame⟩

/-- Two facts about one run. -/
theorem wp_and {x : M α} {Q Q' : α → Machine → Prop} {E E' : Machine → Prop} (h : Wp x Q E m) (h' : Wp x Q' E' m) :
    Wp x (fun a m => Q a m ∧ Q' a m) (fun m => E m ∧ E' m) m := by
  unfold Wp at *
  cases hx : x m with
  | ok a m' => rw [hx] at h h'; exact ⟨h, h'⟩
  | error e m' => rw [hx] at h h'; exact ⟨h, h'⟩

/-! ### constant expressions -/

theorem constInst_noFill {e : Expr} (h : e.all constInst = true) : noFill e = true := by
  induction e with
  | nil => rfl
  | cons i e ih =>
    rw [List.all_cons, Bool.and_eq_true] at h
    rw [noFill, Bool.and_eq_true]
    refine ⟨?_, ih h.2⟩
    have h := h.1
    unfold constInst at h
    split at h <;> first | rfl | cases h

theorem noFill_append {a b : Expr} (h : noFill a = true) (h' : noFill b = true) : noFill (a ++ b) = true := by
  induction a with
  | nil => exact h'
  | cons i e ih =>
    rw [noFill, Bool.and_eq_true] at h
    rw [List.cons_append, noFill, Bool.and_eq_true]
    exact ⟨h.1, ih h.2⟩

/-- `ref.func` and `ref.null func`. -/
def refInst : Inst → Bool
  | .refFunc _ => true
  | .refNull b => b = 0x70
  | _ => false

theorem fromRef_ty {t : ValType} {n : Int} {v : Val} (h : Val.fromRef t n = .ok v) : v.ty = t := by
  obtain ⟨b, _, hb⟩ := ex_bind_ok h
  unfold Val.make at hb
  split at hb
  · injection hb with hb; subst hb; rfl
  · cases hb

/-- While a constant expression runs: the store stays, and if it makes function references then only those are on the stack. -/
structure Const (s : Store) (r : Bool) (m : Machine) : Prop where
  store : m.store = s
  label : m.label = [] ∨ ∃ l, m.label = [l] ∧ l.carry = .block ∧ l.instr.all constInst = true ∧ (r = true → l.instr.all refInst = true)
  value : r = true → ∀ v ∈ m.value, v.ty = .funcref

theorem const_evaluate {s : Store} {r : Bool} (h : Const s r m) : Wp (evaluate H N) (fun _ => Const s r) (fun m => m.store = s) m := by
  induction N generalizing m with
  | zero => exact wp_pure h
  | succ N ih =>
    unfold evaluate
    apply wp_bind; apply wp_get
    refine wp_ite (fun _ => wp_pure h) fun hne => wp_bind (wp_mono ?_ (fun _ _ => ih) fun _ h => h)
    obtain ⟨hs, hl, hv⟩ := h
    rcases hl with hl | ⟨l, hl, hc, hi, hr⟩
    · rw [hl] at hne; exact absurd rfl hne
    unfold step
    apply wp_bind; apply wp_get; apply wp_bind
    refine wp_idx (fun lab hlab => ?_) hs
    rw [hl] at hlab
    cases hlab
    apply wp_bind
    refine wp_topFrame (fun f fs hf => ?_) hs
    refine wp_ite (fun _ => ?_) fun _ => ?_
    · apply wp_bind; apply wp_modify
      refine wp_ite (fun h => absurd h (by rw [hc]; decide)) fun _ => wp_pure ⟨hs, .inl (by simp [hl]), hv⟩
    · apply wp_bind
      refine wp_idx (fun i hi' => ?_) hs
      have him := List.mem_of_getElem? hi'
      have h1 := List.all_eq_true.mp hi i him
      apply wp_bind; apply wp_modify
      have h2 : r = true → refInst i = true := fun h => List.all_eq_true.mp (hr h) i him
      have hlab : (l.instr.all constInst = true ∧ (r = true → l.instr.all refInst = true)) := ⟨hi, hr⟩
      have key : ∀ v, (r = true → v.ty = .funcref) → Const s r
          { m with label := { l with index := l.index + 1 } :: m.label.tail, value := v :: m.value } := by
        intro v hv'
        refine ⟨hs, .inr ⟨{ l with index := l.index + 1 }, by rw [hl]; rfl, hc, hi, hr⟩, fun h w hw => ?_⟩
        rcases List.mem_cons.mp hw with rfl | hw
        · exact hv' h
        · exact hv h w hw
      clear hr hi
      cases i with
      | i32Const x =>
        unfold exec
        apply wp_bind
        refine wp_lift (fun v _ => wp_push (key v fun h => by have := h2 h; cases this)) hs
      | i64Const x =>
        unfold exec
        apply wp_bind
        refine wp_lift (fun v _ => wp_push (key v fun h => by have := h2 h; cases this)) hs
      | f32Const x =>
        unfold exec
        apply wp_bind
        refine wp_lift (fun v _ => wp_push (key _ fun h => by have := h2 h; cases this)) hs
      | f64Const x =>
        unfold exec
        apply wp_bind
        refine wp_lift (fun v _ => wp_push (key _ fun h => by have := h2 h; cases this)) hs
      | v128Const x =>
        unfold exec
        apply wp_bind
        refine wp_lift (fun v _ => wp_push (key v fun h => by have := h2 h; cases this)) hs
      | refNull x =>
        unfold exec
        apply wp_bind
        refine wp_lift (fun t ht => wp_push (key _ fun h => ?_)) hs
        have := h2 h
        simp only [refInst, decide_eq_true_eq] at this
        rw [this] at ht
        cases ht
        rfl
      | refFunc x =>
        unfold exec
        apply wp_bind
        refine wp_idx (fun a ha => ?_) hs
        apply wp_bind
        refine wp_lift (fun v hv => wp_push (key _ fun h => ?_)) hs
        exact fromRef_ty hv
      | globalGet x =>
        unfold exec
        apply wp_bind
        refine wp_idx (fun a ha => ?_) hs
        apply wp_bind; apply wp_get; apply wp_bind
        refine wp_idx (fun g hg => wp_push (key _ fun h => by have := h2 h; cases this)) hs
      | _ => cases h1

/-- Running a constant expression with empty stacks. -/
theorem const_run (hH : c.W.HostKeeps c.strict H) (hs : c.strict = true) {e : Expr} {r : Bool} (h : Inv c m) (hl : m.label = [])
    (hv : m.value = []) (he : e.all constInst = true) (hr : r = true → e.all refInst = true) :
    Wp (runConst H N e) (fun v m' => (c.W.Holds v ∧ (r = true → v.ty = .funcref)) ∧
      (Inv c m' ∧ m'.store = m.store ∧ m'.frame.length = 1 ∧ m'.label = [] ∧ m'.value = [])) (Inv c) m := by
  unfold runConst runInit
  apply wp_bind; apply wp_bind; apply wp_modify
  have h1 : Inv c { m with label := ⟨1, 1, 0, .block, e, 0⟩ :: m.label } := by
    refine h.setLabel fun hs l hl' => ?_
    rcases List.mem_cons.mp hl' with rfl | hl'
    · exact constInst_noFill he
    · exact h.2.label hs l hl'
  have h2 : Const m.store r { m with label := ⟨1, 1, 0, .block, e, 0⟩ :: m.label } :=
    ⟨rfl, .inr ⟨_, by rw [hl], rfl, he, hr⟩, by rw [hv]; simp⟩
  have h3 := wp_and (inv_evaluate (N := N) hH hs h1) (const_evaluate (H := H) (N := N) h2)
  apply wp_bind
  refine wp_mono h3 (fun _ m1 h => ?_) (fun _ h => h.1)
  obtain ⟨hi, hc⟩ := h
  apply wp_bind; apply wp_get; apply wp_bind
  refine wp_assert (fun a1 => ?_) hi
  apply wp_bind; apply wp_get; apply wp_bind
  refine wp_assert (fun a2 => ?_) hi
  apply wp_bind; apply wp_get
  refine wp_assert (fun a3 => ?_) hi
  refine wp_pop (fun v s hv => ?_) hi
  simp only [decide_eq_true_eq] at a1 a3
  rw [hv] at a3
  have : s = [] := by simpa using a3
  subst this
  refine ⟨⟨hi.2.value v (by simp [hv]), fun h => hc.value h v (by simp [hv])⟩, hi.setValue (by simp), hc.store, a1, ?_, rfl⟩
  simpa using a2

/-! ### allocation -/

/-- How many functions, tables, … have been added. -/
structure Cnt where
  func : Nat
  tabl : Nat
  mems : Nat
  glob : Nat
  elem : Nat
  data : Nat

/-- The exported functions of the instance are in the part. -/
def ExpsIn (W : Part) (mod : ModuleInst) : Prop := ∀ e ∈ mod.exps, ∀ a, e.data = .func a → W.func a

/-- While the instance is being allocated. -/
structure Alloc (c : Cfg) (n : Cnt) (m : Machine) : Prop where
  inv : Inv c m
  clean : Clean m
  exps : ∀ mod, m.store.mods[c.s0.mods.length]? = some mod → ExpsIn c.W mod
  mods : m.store.mods.length = c.s0.mods.length + 1
  func : m.store.func.length = c.s0.func.length + n.func
  tabl : m.store.tabl.length = c.s0.tabl.length + n.tabl
  mems : m.store.mems.length = c.s0.mems.length + n.mems
  glob : m.store.glob.length = c.s0.glob.length + n.glob
  elem : m.store.elem.length = c.s0.elem.length + n.elem
  data : m.store.data.length = c.s0.data.length + n.data

theorem snoc_ne {l : List α} {x : α} {i : Nat} (h : i ≠ l.length) : (l ++ [x])[i]? = l[i]? := by
  by_cases hi : i < l.length
  · rw [List.getElem?_append_left hi]
  · rw [List.getElem?_eq_none (by simp; omega), List.getElem?_eq_none (by omega)]

theorem snoc_cases {l : List α} {x y : α} {i : Nat} (h : (l ++ [x])[i]? = some y) : l[i]? = some y ∨ i = l.length ∧ y = x := by
  by_cases hi : i = l.length
  · subst hi; rw [List.getElem?_concat_length] at h; cases h; exact .inr ⟨rfl, rfl⟩
  · rw [snoc_ne hi] at h; exact .inl h

theorem ne_of_in {P : Nat → Prop} {a n : Nat} (ha : ¬ P a) (hn : P n) : a ≠ n := fun h => ha (h ▸ hn)

theorem alloc_edit {n : Cnt} {f : ModuleInst → ModuleInst} (h : Alloc c n m) (hm : c.W.mods c.s0.mods.length)
    (hf : ∀ mod, c.W.Owns mod → c.W.Owns (f mod)) (he : ∀ mod, c.W.Owns mod → ExpsIn c.W mod → ExpsIn c.W (f mod)) :
    Wp (editMod c.s0.mods.length f) (fun _ m' => Alloc c n m') (Inv c) m := by
  refine wp_modify ?_
  have hget : ∀ k mod, (m.store.mods.modify c.s0.mods.length f)[k]? = some mod →
      m.store.mods[k]? = some mod ∨ k = c.s0.mods.length ∧ ∃ old, m.store.mods[k]? = some old ∧ mod = f old := by
    intro k mod hk
    rw [List.getElem?_modify] at hk
    split at hk
    · rename_i h
      right
      refine ⟨h.symm, ?_⟩
      cases hx : m.store.mods[k]? with
      | none => rw [hx] at hk; cases hk
      | some old => rw [hx] at hk; cases hk; exact ⟨old, rfl, rfl⟩
    · exact .inl (by simpa using hk)
  have hc := h.inv.2.store
  refine ⟨h.inv.setStore ⟨fun _ _ => rfl, fun _ _ => rfl, fun _ _ => rfl, fun _ _ => rfl, fun _ _ => rfl, fun _ _ => rfl, ?_, fun _ _ => rfl⟩
    ⟨hc.host, hc.func, ?_, hc.tabl, hc.glob, hc.elem, hc.data⟩, h.clean, ?_, by simpa using h.mods, h.func, h.tabl, h.mems, h.glob, h.elem, h.data⟩
  · intro a ha
    have := ne_of_in ha hm
    show (m.store.mods.modify _ f)[a]? = _
    rw [List.getElem?_modify]
    simp only [Ne.symm this, if_false]
    exact Option.map_id'
  · intro k mod hk hg
    rcases hget k mod hg with hg | ⟨rfl, old, ho, rfl⟩
    · exact hc.mods k mod hk hg
    · exact hf _ (hc.mods _ old hm ho)
  · intro mod hg
    rcases hget _ mod hg with hg | ⟨_, old, ho, rfl⟩
    · exact h.exps mod hg
    · exact he _ (hc.mods _ old hm ho) (h.exps old ho)

variable {n : Cnt}

theorem alloc_func {t : FuncType} {f : FuncDesc} (h : Alloc c n m) (hm : c.W.mods c.s0.mods.length) (hf : c.W.func (c.s0.func.length + n.func))
    (hn : noFill f.expr = true) :
    Alloc c { n with func := n.func + 1 } { m with store := { m.store with func := m.store.func ++ [.wasm t c.s0.mods.length f] } } := by
  have hc := h.inv.2.store
  rw [← h.func] at hf
  refine ⟨h.inv.setStore ⟨fun a ha => snoc_ne (ne_of_in ha hf), fun _ _ => rfl, fun _ _ => rfl, fun _ _ => rfl, fun _ _ => rfl, fun _ _ => rfl,
      fun _ _ => rfl, fun _ _ => rfl⟩
    ⟨fun a t c ha hg => ?_, fun a t k code ha hg => ?_, hc.mods, hc.tabl, hc.glob, hc.elem, hc.data⟩, h.clean, h.exps, h.mods,
      by simp [h.func]; omega, h.tabl, h.mems, h.glob, h.elem, h.data⟩
  · rcases snoc_cases hg with hg | ⟨_, hg⟩
    · exact hc.host a t c ha hg
    · cases hg
  · rcases snoc_cases hg with hg | ⟨_, hg⟩
    · exact hc.func a t k code ha hg
    · cases hg; exact ⟨hm, fun _ => hn⟩

theorem alloc_tabl {x : TableInst} (h : Alloc c n m) (hf : c.W.tabl (c.s0.tabl.length + n.tabl))
    (hx : (c.strict = true → x.type.type = .funcref) ∧ ∀ v ∈ x.elem, c.W.Holds v ∧ (c.strict = true → v.ty = .funcref)) :
    Alloc c { n with tabl := n.tabl + 1 } { m with store := { m.store with tabl := m.store.tabl ++ [x] } } := by
  have hc := h.inv.2.store
  rw [← h.tabl] at hf
  refine ⟨h.inv.setStore ⟨fun _ _ => rfl, fun a ha => snoc_ne (ne_of_in ha hf), fun _ _ => rfl, fun _ _ => rfl, fun _ _ => rfl, fun _ _ => rfl,
      fun _ _ => rfl, fun _ _ => rfl⟩
    ⟨hc.host, hc.func, hc.mods, fun a t ha hg => ?_, hc.glob, hc.elem, hc.data⟩, h.clean, h.exps, h.mods,
      h.func, by simp [h.tabl]; omega, h.mems, h.glob, h.elem, h.data⟩
  rcases snoc_cases hg with hg | ⟨_, rfl⟩
  · exact hc.tabl a t ha hg
  · exact hx

theorem alloc_mems {x : MemInst} (h : Alloc c n m) (hf : c.W.mems (c.s0.mems.length + n.mems)) :
    Alloc c { n with mems := n.mems + 1 } { m with store := { m.store with mems := m.store.mems ++ [x] } } := by
  have hc := h.inv.2.store
  rw [← h.mems] at hf
  exact ⟨h.inv.setStore ⟨fun _ _ => rfl, fun _ _ => rfl, fun a ha => snoc_ne (ne_of_in ha hf), fun _ _ => rfl, fun _ _ => rfl, fun _ _ => rfl,
      fun _ _ => rfl, fun _ _ => rfl⟩
    ⟨hc.host, hc.func, hc.mods, hc.tabl, hc.glob, hc.elem, hc.data⟩, h.clean, h.exps, h.mods,
      h.func, h.tabl, by simp [h.mems]; omega, h.glob, h.elem, h.data⟩

theorem alloc_glob {x : GlobalInst} (h : Alloc c n m) (hf : c.W.glob (c.s0.glob.length + n.glob)) (hx : c.W.Holds x.data) :
    Alloc c { n with glob := n.glob + 1 } { m with store := { m.store with glob := m.store.glob ++ [x] } } := by
  have hc := h.inv.2.store
  rw [← h.glob] at hf
  refine ⟨h.inv.setStore ⟨fun _ _ => rfl, fun _ _ => rfl, fun _ _ => rfl, fun a ha => snoc_ne (ne_of_in ha hf), fun _ _ => rfl, fun _ _ => rfl,
      fun _ _ => rfl, fun _ _ => rfl⟩
    ⟨hc.host, hc.func, hc.mods, hc.tabl, fun a g ha hg => ?_, hc.elem, hc.data⟩, h.clean, h.exps, h.mods,
      h.func, h.tabl, h.mems, by simp [h.glob]; omega, h.elem, h.data⟩
  rcases snoc_cases hg with hg | ⟨_, rfl⟩
  · exact hc.glob a g ha hg
  · exact hx

theorem alloc_elem {x : ElemInst} (h : Alloc c n m) (hf : c.W.elem (c.s0.elem.length + n.elem))
    (hx : ∀ v ∈ x.data, c.W.Holds v ∧ (c.strict = true → v.ty = .funcref)) :
    Alloc c { n with elem := n.elem + 1 } { m with store := { m.store with elem := m.store.elem ++ [x] } } := by
  have hc := h.inv.2.store
  rw [← h.elem] at hf
  refine ⟨h.inv.setStore ⟨fun _ _ => rfl, fun _ _ => rfl, fun _ _ => rfl, fun _ _ => rfl, fun a ha => snoc_ne (ne_of_in ha hf), fun _ _ => rfl,
      fun _ _ => rfl, fun _ _ => rfl⟩
    ⟨hc.host, hc.func, hc.mods, hc.tabl, hc.glob, fun a g ha hg => ?_, hc.data⟩, h.clean, h.exps, h.mods,
      h.func, h.tabl, h.mems, h.glob, by simp [h.elem]; omega, h.data⟩
  rcases snoc_cases hg with hg | ⟨_, rfl⟩
  · exact hc.elem a g ha hg
  · exact hx

theorem alloc_data {b : Nat} (h : Alloc c n m) (hf : c.W.data (c.s0.data.length + n.data)) (hx : c.W.bufs b) :
    Alloc c { n with data := n.data + 1 } { m with store := { m.store with data := m.store.data ++ [b] } } := by
  have hc := h.inv.2.store
  rw [← h.data] at hf
  refine ⟨h.inv.setStore ⟨fun _ _ => rfl, fun _ _ => rfl, fun _ _ => rfl, fun _ _ => rfl, fun _ _ => rfl, fun a ha => snoc_ne (ne_of_in ha hf),
      fun _ _ => rfl, fun _ _ => rfl⟩
    ⟨hc.host, hc.func, hc.mods, hc.tabl, hc.glob, hc.elem, fun a g ha hg => ?_⟩, h.clean, h.exps, h.mods,
      h.func, h.tabl, h.mems, h.glob, h.elem, by simp [h.data]; omega⟩
  rcases snoc_cases hg with hg | ⟨_, rfl⟩
  · exact hc.data a g ha hg
  · exact hx

theorem table_make_ok {t : TableType} {x : TableInst} (h : TableInst.make t = .ok x) (ht : t.type = .funcref) :
    (c.strict = true → x.type.type = .funcref) ∧ ∀ v ∈ x.elem, c.W.Holds v ∧ (c.strict = true → v.ty = .funcref) := by
  rw [table_make_eq h]
  refine ⟨fun _ => ht, fun v hv => ?_⟩
  rw [(List.mem_replicate.mp hv).2]
  exact ⟨holds_zero _ _, fun _ => ht⟩

/-- There is room in the part for what `d` adds. -/
structure Room (c : Cfg) (d : ModuleDesc) (bufs : List Nat) : Prop where
  mods : c.W.mods c.s0.mods.length
  func : ∀ i < d.func.length, c.W.func (c.s0.func.length + i)
  tabl : ∀ i < d.tabl.length, c.W.tabl (c.s0.tabl.length + i)
  mems : ∀ i < d.mems.length, c.W.mems (c.s0.mems.length + i)
  glob : ∀ i < d.glob.length, c.W.glob (c.s0.glob.length + i)
  elem : ∀ i < d.elem.length, c.W.elem (c.s0.elem.length + i)
  data : ∀ i < d.data.length, c.W.data (c.s0.data.length + i)
  bufs : ∀ b ∈ bufs, c.W.bufs b

theorem prefix_lt {pre l : List α} {a : α} (h : pre ++ [a] <+: l) : pre.length < l.length := by
  have := h.length_le
  simp at this
  omega

theorem alloc_all {d : ModuleDesc} {bufs : List Nat} {extern : List Extern} {globin : List Val} {elemin : List (List Val)}
    (hp : PlainModule d) (hroom : Room c d bufs) (hext : c.W.Supplies extern) (hg : ∀ v ∈ globin, c.W.Holds v)
    (he : ∀ l ∈ elemin, ∀ v ∈ l, c.W.Holds v ∧ v.ty = .funcref) (h : Inv c m) (hcl : Clean m) (hst : m.store = c.s0) :
    Wp (allocate d bufs extern globin elemin) (fun mod m' => Inv c m' ∧ Clean m' ∧ c.W.Owns mod ∧ ExpsIn c.W mod) (Inv c) m := by
  unfold allocate
  apply wp_bind; apply wp_get; apply wp_bind; apply wp_modify
  rw [hst]
  have h0 : Alloc c ⟨0, 0, 0, 0, 0, 0⟩ { m with store := { c.s0 with mods := c.s0.mods ++ [{ type := d.type }] } } := by
    have hc := h.2.store
    rw [hst] at hc
    refine ⟨h.setStore (by rw [hst]; exact ⟨fun _ _ => rfl, fun _ _ => rfl, fun _ _ => rfl, fun _ _ => rfl, fun _ _ => rfl, fun _ _ => rfl,
        fun a ha => snoc_ne (ne_of_in ha hroom.mods), fun _ _ => rfl⟩)
      ⟨hc.host, hc.func, fun k mod hk hm => ?_, hc.tabl, hc.glob, hc.elem, hc.data⟩, hcl, ?_, by simp, rfl, rfl, rfl, rfl, rfl, rfl⟩
    · rcases snoc_cases hm with hm | ⟨_, rfl⟩
      · exact hc.mods k mod hk hm
      · exact ⟨by simp, by simp, by simp, by simp, by simp, by simp⟩
    · intro mod hm
      rw [List.getElem?_concat_length] at hm
      cases hm
      intro e he
      cases he
  generalize ({ m with store := { c.s0 with mods := c.s0.mods ++ [{ type := d.type }] } } : Machine) = m0 at h0 ⊢
  have snocIn : ∀ {P : Nat → Prop} {l : List Nat} {a : Nat}, (∀ x ∈ l, P x) → P a → ∀ x ∈ l ++ [a], P x := by
    intro P l a h ha x hx
    rcases List.mem_append.mp hx with hx | hx
    · exact h x hx
    · rw [List.mem_singleton.mp hx]; exact ha
  have hnil : ∀ (mod : ModuleInst), ∀ mod', mod'.exps = mod.exps → ExpsIn c.W mod → ExpsIn c.W mod' := by
    intro mod mod' h1 h2; unfold ExpsIn at *; rw [h1]; exact h2
  apply wp_bind
  refine wp_forIn (fun _ m' => Alloc c ⟨0, 0, 0, 0, 0, 0⟩ m') h0 ?_ ?_
  · intro pre a m1 hpre h1
    apply wp_bind
    have hx := hext a (hpre.subset (by simp))
    refine wp_mono (alloc_edit h1 hroom.mods (fun mod ho => ?_) fun mod ho he => ?_) (fun _ _ h => wp_pure ⟨rfl, h⟩) fun _ h => h
    · cases a with
      | func a => exact ⟨snocIn ho.func hx, ho.tabl, ho.mems, ho.glob, ho.elem, ho.data⟩
      | table a => exact ⟨ho.func, snocIn ho.tabl hx, ho.mems, ho.glob, ho.elem, ho.data⟩
      | mem a => exact ⟨ho.func, ho.tabl, snocIn ho.mems hx, ho.glob, ho.elem, ho.data⟩
      | glob a => exact ⟨ho.func, ho.tabl, ho.mems, snocIn ho.glob hx, ho.elem, ho.data⟩
    · cases a <;> exact hnil _ _ rfl he
  intro m1 h1
  apply wp_bind
  refine wp_forIn (fun pre m' => Alloc c ⟨pre.length, 0, 0, 0, 0, 0⟩ m') h1 ?_ ?_
  · intro pre a m1 hpre h1
    apply wp_bind
    unfold allocateFuncWasm
    have hw := hroom.func _ (prefix_lt hpre)
    apply wp_bind; apply wp_get; apply wp_bind; apply wp_get; apply wp_bind
    refine wp_idx (fun mod _ => ?_) h1.inv
    apply wp_bind
    refine wp_idx (fun t ht => ?_) h1.inv
    apply wp_bind; apply wp_modify; apply wp_pure; apply wp_bind
    have h2 := alloc_func (t := t) (f := a) h1 hroom.mods hw (hp.func a (hpre.subset (by simp)))
    rw [← h1.func] at hw
    refine wp_mono (alloc_edit h2 hroom.mods (fun mod ho => ⟨snocIn ho.func hw, ho.tabl, ho.mems, ho.glob, ho.elem, ho.data⟩)
      fun mod ho he => hnil _ _ rfl he) (fun _ _ h => wp_pure ⟨rfl, by rw [List.length_append]; exact h⟩) fun _ h => h
  intro m1 h1
  apply wp_bind
  refine wp_forIn (fun pre m' => Alloc c ⟨d.func.length, pre.length, 0, 0, 0, 0⟩ m') h1 ?_ ?_
  · intro pre a m1 hpre h1
    apply wp_bind
    unfold allocateTable
    have hw := hroom.tabl _ (prefix_lt hpre)
    apply wp_bind; apply wp_get; apply wp_bind
    refine wp_lift (fun x hx => ?_) h1.inv
    apply wp_bind; apply wp_modify; apply wp_pure; apply wp_bind
    have ht := hp.tabl a (hpre.subset (by simp))
    have h2 := alloc_tabl (x := x) h1 hw (table_make_ok hx ht)
    rw [← h1.tabl] at hw
    refine wp_mono (alloc_edit h2 hroom.mods (fun mod ho => ⟨ho.func, snocIn ho.tabl hw, ho.mems, ho.glob, ho.elem, ho.data⟩)
      fun mod ho he => hnil _ _ rfl he) (fun _ _ h => wp_pure ⟨rfl, by rw [List.length_append]; exact h⟩) fun _ h => h
  intro m1 h1
  apply wp_bind
  refine wp_forIn (fun pre m' => Alloc c ⟨d.func.length, d.tabl.length, pre.length, 0, 0, 0⟩ m') h1 ?_ ?_
  · intro pre a m1 hpre h1
    apply wp_bind
    unfold allocateMemory
    have hw := hroom.mems _ (prefix_lt hpre)
    apply wp_bind; apply wp_get; apply wp_bind
    refine wp_lift (fun x hx => ?_) h1.inv
    apply wp_bind; apply wp_modify; apply wp_pure; apply wp_bind
    have h2 := alloc_mems (x := x) h1 hw
    rw [← h1.mems] at hw
    refine wp_mono (alloc_edit h2 hroom.mods (fun mod ho => ⟨ho.func, ho.tabl, snocIn ho.mems hw, ho.glob, ho.elem, ho.data⟩)
      fun mod ho he => hnil _ _ rfl he) (fun _ _ h => wp_pure ⟨rfl, by rw [List.length_append]; exact h⟩) fun _ h => h
  intro m1 h1
  apply wp_bind
  refine wp_forIn (fun pre m' => Alloc c ⟨d.func.length, d.tabl.length, d.mems.length, pre.length, 0, 0⟩ m') h1 ?_ ?_
  · rintro pre ⟨a, i⟩ m1 hpre h1
    apply wp_bind
    unfold allocateGlobal
    have hw := hroom.glob _ (by have := prefix_lt hpre; simpa using this)
    refine wp_idx (fun v hv => ?_) h1.inv
    apply wp_bind
    apply wp_bind; apply wp_get; apply wp_bind
    apply wp_modify; apply wp_pure; apply wp_bind
    have h2 := alloc_glob (x := ⟨v, a.type.isMut⟩) h1 hw (hg v (List.mem_of_getElem? hv))
    rw [← h1.glob] at hw
    refine wp_mono (alloc_edit h2 hroom.mods (fun mod ho => ⟨ho.func, ho.tabl, ho.mems, snocIn ho.glob hw, ho.elem, ho.data⟩)
      fun mod ho he => hnil _ _ rfl he) (fun _ _ h => wp_pure ⟨rfl, by rw [List.length_append]; exact h⟩) fun _ h => h
  intro m1 h1
  rw [List.length_zipIdx] at h1
  apply wp_bind
  refine wp_forIn (fun pre m' => Alloc c ⟨d.func.length, d.tabl.length, d.mems.length, d.glob.length, pre.length, 0⟩ m') h1 ?_ ?_
  · rintro pre ⟨a, i⟩ m1 hpre h1
    apply wp_bind
    unfold allocateElem
    have hw := hroom.elem _ (by have := prefix_lt hpre; simpa using this)
    refine wp_idx (fun v hv => ?_) h1.inv
    apply wp_bind
    apply wp_bind; apply wp_get; apply wp_bind
    refine wp_assert (fun _ => ?_) h1.inv
    apply wp_bind
    apply wp_modify; apply wp_pure; apply wp_bind
    have h2 := alloc_elem (x := ⟨a.type, v⟩) h1 hw (fun w hw => ⟨(he v (List.mem_of_getElem? hv) w hw).1, fun _ => (he v (List.mem_of_getElem? hv) w hw).2⟩)
    rw [← h1.elem] at hw
    refine wp_mono (alloc_edit h2 hroom.mods (fun mod ho => ⟨ho.func, ho.tabl, ho.mems, ho.glob, snocIn ho.elem hw, ho.data⟩)
      fun mod ho he => hnil _ _ rfl he) (fun _ _ h => wp_pure ⟨rfl, by rw [List.length_append]; exact h⟩) fun _ h => h
  intro m1 h1
  rw [List.length_zipIdx] at h1
  apply wp_bind
  refine wp_forIn (fun pre m' => Alloc c ⟨d.func.length, d.tabl.length, d.mems.length, d.glob.length, d.elem.length, pre.length⟩ m') h1 ?_ ?_
  · rintro pre ⟨a, i⟩ m1 hpre h1
    apply wp_bind
    unfold allocateData
    have hw := hroom.data _ (by have := prefix_lt hpre; simpa using this)
    refine wp_idx (fun b hb => ?_) h1.inv
    apply wp_bind
    apply wp_bind; apply wp_get; apply wp_bind
    apply wp_modify; apply wp_pure; apply wp_bind
    have h2 := alloc_data (b := b) h1 hw (hroom.bufs b (List.mem_of_getElem? hb))
    rw [← h1.data] at hw
    refine wp_mono (alloc_edit h2 hroom.mods (fun mod ho => ⟨ho.func, ho.tabl, ho.mems, ho.glob, ho.elem, snocIn ho.data hw⟩)
      fun mod ho he => hnil _ _ rfl he) (fun _ _ h => wp_pure ⟨rfl, by rw [List.length_append]; exact h⟩) fun _ h => h
  intro m1 h1
  rw [List.length_zipIdx] at h1
  apply wp_bind
  refine wp_forIn (fun pre m' => Alloc c ⟨d.func.length, d.tabl.length, d.mems.length, d.glob.length, d.elem.length, d.data.length⟩ m') h1 ?_ ?_
  · rintro pre e m1 hpre h1
    apply wp_bind; apply wp_get; apply wp_bind
    refine wp_idx (fun mod hmod => ?_) h1.inv
    have hown := h1.inv.2.store.mods _ mod hroom.mods hmod
    apply wp_bind
    have hres : Wp (resolveExport mod e) (fun x m' => m' = m1 ∧ ∀ a, x = .func a → c.W.func a) (Inv c) m1 := by
      unfold resolveExport
      cases e.kind <;> (apply wp_bind; refine wp_idx (fun a ha => wp_pure ⟨rfl, fun a h => ?_⟩) h1.inv) <;> cases h
      exact hown.func _ (List.mem_of_getElem? ha)
    refine wp_mono hres (fun x m2 h => ?_) fun _ h => h
    obtain ⟨rfl, hx⟩ := h
    apply wp_bind
    refine wp_mono (alloc_edit h1 hroom.mods (fun mod ho => ⟨ho.func, ho.tabl, ho.mems, ho.glob, ho.elem, ho.data⟩)
      fun mod ho he => ?_) (fun _ _ h => wp_pure ⟨rfl, h⟩) fun _ h => h
    intro y hy a ha
    rcases List.mem_append.mp hy with hy | hy
    · exact he y hy a ha
    · rw [List.mem_singleton.mp hy] at ha; exact hx a ha
  intro m1 h1
  apply wp_bind; apply wp_get
  refine wp_idx (fun mod hmod => ?_) h1.inv
  exact ⟨h1.inv, h1.clean, h1.inv.2.store.mods _ mod hroom.mods hmod, h1.exps mod hmod⟩

/-! ### instantiation -/

theorem wp_link {d : ModuleDesc} {extern : List Extern} : Wp (linkImports d extern) (fun _ m' => m' = m) (fun m' => m' = m) m := by
  unfold linkImports
  apply wp_bind
  refine wp_assert (fun _ => ?_) rfl
  apply wp_bind
  refine wp_forIn (fun _ m' => m' = m) rfl ?_ ?_
  rotate_left
  · intro _ h; exact wp_pure h
  rintro pre ⟨a, b⟩ m1 _ rfl
  apply wp_bind
  have hck : Wp (checkImport d a b) (fun _ m' => m' = m1) (fun m' => m' = m1) m1 := by
    unfold checkImport
    split <;> wp_run <;> rfl
  exact wp_mono hck (fun _ _ h => wp_pure ⟨rfl, h⟩) fun _ h => h

theorem forall₂_right {α β} {R : α → β → Prop} {l : List α} {r : List β} (h : List.Forall₂ R l r) : ∀ b ∈ r, ∃ a, a ∈ l ∧ R a b := by
  induction h with
  | nil => nofun
  | cons h _ ih =>
    intro b hb
    rcases List.mem_cons.mp hb with rfl | hb
    · exact ⟨_, by simp, h⟩
    · obtain ⟨a, ha, hr⟩ := ih b hb
      exact ⟨a, by simp [ha], hr⟩

theorem funcInit_const {e : Expr} (h : FuncInit e) : e.all constInst = true ∧ e.all refInst = true := by
  rcases h with ⟨i, rfl⟩ | rfl <;> exact ⟨rfl, rfl⟩

theorem build_inv {d : ModuleDesc} {bufs : List Nat} {extern : List Extern} (hH : c.W.HostKeeps c.strict H) (hs : c.strict = true)
    (hp : PlainModule d) (hroom : Room c d bufs) (hext : c.W.Supplies extern) (h : Inv c m) (hcl : Clean m) (hst : m.store = c.s0) :
    Wp (buildInstance H N d bufs extern) (fun mod m' => Inv c m' ∧ Clean m' ∧ c.W.Owns mod ∧ ExpsIn c.W mod) (Inv c) m := by
  unfold buildInstance
  apply wp_bind; apply wp_get; apply wp_bind; apply wp_modify
  obtain ⟨c1, c2, c3⟩ := hcl
  have hown : c.W.Owns { func := externFuncs extern ++ (List.range d.func.length).map (m.store.func.length + ·), glob := externGlobs extern } := by
    refine ⟨fun a ha => ?_, by simp, by simp, fun a ha => ?_, by simp, by simp⟩
    · rcases List.mem_append.mp ha with ha | ha
      · obtain ⟨x, hx, hxa⟩ := List.mem_filterMap.mp ha
        have := hext x hx
        cases x <;> cases hxa
        exact this
      · obtain ⟨i, hi, rfl⟩ := List.mem_map.mp ha
        rw [hst]
        exact hroom.func i (List.mem_range.mp hi)
    · obtain ⟨x, hx, hxa⟩ := List.mem_filterMap.mp ha
      have := hext x hx
      cases x <;> cases hxa
      exact this
  have h1 : Inv c { m with frame := ⟨{ func := externFuncs extern ++ (List.range d.func.length).map (m.store.func.length + ·), glob := externGlobs extern }, [], 1, 0, 0⟩ :: m.frame } := by
    refine h.setFrame fun f hf => ?_
    rcases List.mem_cons.mp hf with rfl | hf
    · exact ⟨hown, by simp⟩
    · exact h.2.frame f hf
  let I : Machine → Prop := fun m' => Inv c m' ∧ m'.store = c.s0 ∧ m'.frame.length = 1 ∧ m'.label = [] ∧ m'.value = []
  have h2 : I { m with frame := ⟨{ func := externFuncs extern ++ (List.range d.func.length).map (m.store.func.length + ·), glob := externGlobs extern }, [], 1, 0, 0⟩ :: m.frame } :=
    ⟨h1, hst, by simp [c1], c2, c3⟩
  generalize ({ m with frame := ⟨{ func := externFuncs extern ++ (List.range d.func.length).map (m.store.func.length + ·), glob := externGlobs extern }, [], 1, 0, 0⟩ :: m.frame } : Machine) = m1 at h2 ⊢
  clear h1 hown
  apply wp_bind
  refine wp_mapM I (fun _ v => c.W.Holds v) h2 ?_ ?_
  · rintro g m ha ⟨i1, i2, i3, i4, i5⟩
    refine wp_mono (const_run (r := false) hH hs i1 i4 i5 (hp.glob g ha) (by simp)) (fun v m' h => ?_) fun _ h => h
    exact ⟨h.1.1, h.2.1, by rw [h.2.2.1, i2], h.2.2.2⟩
  intro globin m2 hgl h2
  apply wp_bind
  refine wp_mapM I (fun _ l => ∀ v ∈ l, c.W.Holds v ∧ v.ty = .funcref) h2 ?_ ?_
  · rintro e m ha hI
    refine wp_mapM I (fun _ v => c.W.Holds v ∧ v.ty = .funcref) hI ?_ ?_
    · rintro x m hx ⟨i1, i2, i3, i4, i5⟩
      have hf := funcInit_const ((hp.elem e ha).2 x hx)
      refine wp_mono (const_run (r := true) hH hs i1 i4 i5 hf.1 (fun _ => hf.2)) (fun v m' h => ?_) fun _ h => h
      exact ⟨⟨h.1.1, h.1.2 rfl⟩, h.2.1, by rw [h.2.2.1, i2], h.2.2.2⟩
    · intro bs m hb hI
      refine ⟨fun v hv => ?_, hI⟩
      obtain ⟨_, _, h⟩ := forall₂_right hb v hv
      exact h
  intro elemin m3 hel h3
  obtain ⟨i1, i2, i3, i4, i5⟩ := h3
  apply wp_bind; apply wp_modify
  have h4 : Inv c { m3 with frame := m3.frame.tail } := i1.setFrame fun f hf => i1.2.frame f (List.mem_of_mem_tail hf)
  have h5 : Clean { m3 with frame := m3.frame.tail } := ⟨by
    show m3.frame.tail = []
    rw [← List.length_eq_zero_iff, List.length_tail, i3], i4, i5⟩
  apply wp_bind
  refine wp_mono (alloc_all hp hroom hext (fun v hv => ?_) (fun l hl => ?_) h4 h5 i2) (fun mod m' h => ?_) fun _ h => h
  · obtain ⟨_, _, h⟩ := forall₂_right hgl v hv
    exact h
  · obtain ⟨_, _, h⟩ := forall₂_right hel l hl
    exact h
  · apply wp_bind
    exact wp_assert (fun _ => wp_pure h) h.1

/-- Running any code with empty stacks. -/
theorem init_run (hH : c.W.HostKeeps c.strict H) (hs : c.strict = true) {e : Expr} (h : Inv c m) (he : noFill e = true) :
    Wp (runInit H N e 0) (fun _ m' => Inv c m' ∧ m'.frame.length = 1 ∧ m'.label = [] ∧ m'.value = []) (Inv c) m := by
  unfold runInit
  apply wp_bind; apply wp_modify
  have h1 : Inv c { m with label := ⟨1, 1, 0, .block, e, 0⟩ :: m.label } := by
    refine h.setLabel fun hs l hl' => ?_
    rcases List.mem_cons.mp hl' with rfl | hl'
    · exact he
    · exact h.2.label hs l hl'
  apply wp_bind
  refine wp_mono (inv_evaluate (N := N) hH hs h1) (fun _ m1 hi => ?_) (fun _ h => h)
  apply wp_bind; apply wp_get; apply wp_bind
  refine wp_assert (fun a1 => ?_) hi
  apply wp_bind; apply wp_get; apply wp_bind
  refine wp_assert (fun a2 => ?_) hi
  apply wp_bind; apply wp_get
  refine wp_assert (fun a3 => ?_) hi
  exact ⟨hi, by simpa using a1, by simpa using a2, by simpa using a3⟩

theorem segments_inv {d : ModuleDesc} {bufs : List Nat} (hH : c.W.HostKeeps c.strict H) (hs : c.strict = true)
    (hp : PlainModule d) (h : Inv c m ∧ m.frame.length = 1 ∧ m.label = [] ∧ m.value = []) :
    Wp (initSegments H N d bufs) (fun _ m' => Inv c m' ∧ m'.frame.length = 1 ∧ m'.label = [] ∧ m'.value = []) (Inv c) m := by
  unfold initSegments
  have mem1 : ∀ {α : Type} {pre l : List (α × Nat)} {e : α} {i : Nat} {k : List α}, l = k.zipIdx → pre ++ [(e, i)] <+: l → e ∈ k := by
    rintro α pre l e i k rfl h
    have := h.subset (show (e, i) ∈ pre ++ [(e, i)] by simp)
    exact (List.mem_zipIdx_iff_getElem?.mp this) |> List.mem_of_getElem?
  apply wp_bind
  refine wp_forIn (fun _ m' => Inv c m' ∧ m'.frame.length = 1 ∧ m'.label = [] ∧ m'.value = []) h ?_ ?_
  · rintro pre ⟨e, i⟩ m1 hpre h1
    have he := hp.elem e (mem1 rfl hpre)
    refine wp_ite (fun hk => ?_) (fun _ => wp_pure ⟨rfl, h1⟩)
    apply wp_bind
    exact wp_mono (init_run hH hs h1.1 (noFill_append (constInst_noFill (he.1 hk)) rfl)) (fun _ _ h => wp_pure ⟨rfl, h⟩) fun _ h => h
  intro m h
  apply wp_bind
  refine wp_forIn (fun _ m' => Inv c m' ∧ m'.frame.length = 1 ∧ m'.label = [] ∧ m'.value = []) h ?_ ?_
  · rintro pre ⟨e, i⟩ m1 hpre h1
    refine wp_ite (fun _ => ?_) (fun _ => wp_pure ⟨rfl, h1⟩)
    apply wp_bind
    exact wp_mono (init_run hH hs h1.1 rfl) (fun _ _ h => wp_pure ⟨rfl, h⟩) fun _ h => h
  intro m h
  apply wp_bind
  refine wp_forIn (fun _ m' => Inv c m' ∧ m'.frame.length = 1 ∧ m'.label = [] ∧ m'.value = []) h ?_ ?_
  rotate_left
  · intro _ h; exact wp_pure h
  · rintro pre ⟨e, i⟩ m1 hpre h1
    have he := hp.data e (mem1 rfl hpre)
    refine wp_ite (fun hk => ?_) (fun _ => wp_pure ⟨rfl, h1⟩)
    apply wp_bind
    refine wp_idx (fun b _ => ?_) h1.1
    apply wp_bind; apply wp_get; apply wp_bind
    refine wp_idx (fun x _ => ?_) h1.1
    apply wp_bind
    exact wp_mono (init_run hH hs h1.1 (noFill_append (constInst_noFill (he hk)) rfl)) (fun _ _ h => wp_pure ⟨rfl, h⟩) fun _ h => h

theorem instantiate_inv {d : ModuleDesc} {bufs : List Nat} {extern : List Extern} (hH : c.W.HostKeeps c.strict H) (hs : c.strict = true)
    (hp : PlainModule d) (hroom : Room c d bufs) (hext : c.W.Supplies extern) (h : Inv c m) (hcl : Clean m) (hst : m.store = c.s0) :
    Wp (instantiate H N d bufs extern) (fun mod m' => Inv c m' ∧ Clean m' ∧ c.W.Owns mod ∧ ExpsIn c.W mod) (Inv c) m := by
  unfold instantiate
  apply wp_bind
  refine wp_mono wp_link (fun _ m' h' => ?_) (fun _ h' => h' ▸ h)
  subst h'
  apply wp_bind
  refine wp_mono (build_inv hH hs hp hroom hext h hcl hst) (fun mod m1 h1 => ?_) fun _ h => h
  obtain ⟨h1, ⟨c1, c2, c3⟩, ho, he⟩ := h1
  apply wp_bind; apply wp_modify
  have h2 : Inv c { m1 with frame := ⟨mod, [], 0, 0, 0⟩ :: m1.frame } := by
    refine h1.setFrame fun f hf => ?_
    rcases List.mem_cons.mp hf with rfl | hf
    · exact ⟨ho, by simp⟩
    · exact h1.2.frame f hf
  apply wp_bind
  refine wp_mono (segments_inv hH hs hp ⟨h2, by simp [c1], c2, c3⟩) (fun _ m2 h2 => ?_) fun _ h => h
  apply wp_bind
  have h3 : Wp (runStart H N d) (fun _ m' => Inv c m' ∧ m'.frame.length = 1 ∧ m'.label = [] ∧ m'.value = []) (Inv c) m2 := by
    unfold runStart
    split
    · exact init_run hH hs h2.1 rfl
    · exact wp_pure h2
  refine wp_mono h3 (fun _ m3 h3 => ?_) fun _ h => h
  obtain ⟨i1, i3, i4, i5⟩ := h3
  apply wp_bind; apply wp_modify
  exact wp_pure ⟨i1.setFrame fun f hf => i1.2.frame f (List.mem_of_mem_tail hf), ⟨by
    show m3.frame.tail = []
    rw [← List.length_eq_zero_iff, List.length_tail, i3], i4, i5⟩, ho, he⟩

end Pywasm.Iso
