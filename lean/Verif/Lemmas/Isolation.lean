import Verif.Lemmas.Wp
import Verif.Lemmas.NumNoRef
import Verif.Lemmas.Step
import Verif.Spec.Isolation

/-!
# Two runs that agree on a closed part of the store

`Two` runs the same code on two machines.  Everything in this file keeps `Rel`: the stacks are the same, the stores agree
on the part, each store is untouched outside the part since it was `s0` (or `t0`), and only code of the part is running.
-/

namespace Pywasm.Iso
open Pywasm Spec M

structure Cfg where
  W : Part
  strict : Bool
  s0 : Store
  t0 : Store

structure Rel (c : Cfg) (m n : Machine) : Prop where
  value : n.value = m.value
  label : n.label = m.label
  frame : n.frame = m.frame
  agree : c.W.Agree m.store n.store
  left : c.W.Untouched c.s0 m.store
  right : c.W.Untouched c.t0 n.store
  run : c.W.Runs c.strict m

def Two {α} (c : Cfg) (x y : M α) (m n : Machine) (Q : α → Machine → Machine → Prop) : Prop :=
  match x m, y n with
  | .ok a m', .ok b n' => b = a ∧ Q a m' n'
  | .error e m', .error e' n' => e' = e ∧ Rel c m' n'
  | _, _ => False

variable {c : Cfg} {m n : Machine} {α β : Type}

theorem two_bind {x y : M α} {f g : α → M β} {Q : β → Machine → Machine → Prop}
    (h : Two c x y m n fun a m' n' => Two c (f a) (g a) m' n' Q) : Two c (x >>= f) (y >>= g) m n Q := by
  unfold Two at h ⊢
  rw [bind_run, bind_run]
  cases hx : x m <;> cases hy : y n <;> simp only [hx, hy] at h ⊢
  · obtain ⟨rfl, h⟩ := h; exact h
  · exact h
theorem two_mono {x y : M α} {Q Q' : α → Machine → Machine → Prop} (h : Two c x y m n Q)
    (hQ : ∀ a m' n', Q a m' n' → Q' a m' n') : Two c x y m n Q' := by
  unfold Two at h ⊢
  cases hx : x m <;> cases hy : y n <;> simp only [hx, hy] at h ⊢
  · exact ⟨h.1, hQ _ _ _ h.2⟩
  · exact h
theorem two_pure {a : α} {Q : α → Machine → Machine → Prop} (h : Q a m n) : Two c (pure a) (pure a) m n Q := ⟨rfl, h⟩
theorem two_get {f g : Machine → M β} {Q : β → Machine → Machine → Prop} (h : Two c (f m) (g n) m n Q) :
    Two c (get >>= f) (get >>= g) m n Q := by
  unfold Two at h ⊢
  rw [bind_get_run, bind_get_run]; exact h
theorem two_modify {f g : Machine → Machine} {Q : Unit → Machine → Machine → Prop} (h : Q () (f m) (g n)) :
    Two c (modify f) (modify g) m n Q := ⟨rfl, h⟩
theorem two_throw {e : Err} {Q : α → Machine → Machine → Prop} (h : Rel c m n) : Two c (throw e) (throw e) m n Q := ⟨rfl, h⟩
theorem two_lift {x y : Except Err α} {Q : α → Machine → Machine → Prop} (h : Rel c m n) (e : y = x)
    (hQ : ∀ a, x = .ok a → Q a m n) : Two c (lift x) (lift y) m n Q := by
  subst e
  cases y with
  | ok a => exact ⟨rfl, hQ a rfl⟩
  | error e => exact ⟨rfl, h⟩
theorem two_lift1 {x : Except Err α} {Q : α → Machine → Machine → Prop} (h : Rel c m n)
    (hQ : ∀ a, x = .ok a → Q a m n) : Two c (lift x) (lift x) m n Q := two_lift h rfl hQ
theorem two_assert {x y : Bool} {Q : Unit → Machine → Machine → Prop} (h : Rel c m n) (e : y = x)
    (hQ : x = true → Q () m n) : Two c (assert x) (assert y) m n Q := by
  subst e
  cases y with
  | true => exact ⟨rfl, hQ rfl⟩
  | false => exact ⟨rfl, h⟩
theorem two_idx {l k : List α} {i : Nat} {Q : α → Machine → Machine → Prop} (h : Rel c m n) (e : k[i]? = l[i]?)
    (hQ : ∀ a, l[i]? = some a → Q a m n) : Two c (idx l i) (idx k i) m n Q := by
  unfold Two
  cases hl : l[i]? with
  | none => rw [idx_none hl, idx_none (e.trans hl)]; exact ⟨rfl, h⟩
  | some a => rw [idx_some hl, idx_some (e.trans hl)]; exact ⟨rfl, hQ a hl⟩
theorem two_ite {p : Prop} [Decidable p] {x y x' y' : M α} {Q : α → Machine → Machine → Prop}
    (h1 : Two c x y m n Q) (h2 : Two c x' y' m n Q) : Two c (if p then x else x') (if p then y else y') m n Q := by
  split <;> assumption

/-- Another operand stack, of values that do not lead out. -/
theorem Rel.setValue (h : Rel c m n) {s : List Val} (hs : ∀ v ∈ s, c.W.Holds v) :
    Rel c { m with value := s } { n with value := s } :=
  ⟨rfl, h.label, h.frame, h.agree, h.left, h.right, h.run.store, hs, h.run.label, h.run.frame⟩
theorem Rel.setLabel (h : Rel c m n) {s : List Label} (hs : c.strict = true → ∀ l ∈ s, noFill l.instr = true) :
    Rel c { m with label := s } { n with label := s } :=
  ⟨h.value, rfl, h.frame, h.agree, h.left, h.right, h.run.store, h.run.value, hs, h.run.frame⟩
theorem Rel.setFrame (h : Rel c m n) {s : List Frame} (hs : ∀ f ∈ s, c.W.Owns f.module ∧ ∀ v ∈ f.locals, c.W.Holds v) :
    Rel c { m with frame := s } { n with frame := s } :=
  ⟨h.value, h.label, rfl, h.agree, h.left, h.right, h.run.store, h.run.value, h.run.label, hs⟩
theorem Rel.setStore (h : Rel c m n) {s t : Store} (ha : c.W.Agree s t) (hl : c.W.Untouched c.s0 s)
    (hr : c.W.Untouched c.t0 t) (hc : c.W.Closed c.strict s) : Rel c { m with store := s } { n with store := t } :=
  ⟨h.value, h.label, h.frame, ha, hl, hr, hc, h.run.value, h.run.label, h.run.frame⟩

theorem holds_num {W : Part} {v : Val} (h : v.ty.isRef = false) : W.Holds v := by
  intro h1; rw [h1] at h; cases h
theorem holds_zero (W : Part) (t : ValType) : W.Holds (Val.zero t) := by
  intro _ k h
  have : refTarget (Val.zero t) = none := by cases t <;> rfl
  rw [this] at h; cases h

theorem two_vm {x : VM α} {Q : α → Machine → Machine → Prop} (h : Rel c m n) (hx : NR x)
    (hQ : ∀ a m' n', Rel c m' n' → Q a m' n') : Two c (vm x) (vm x) m n Q := by
  unfold Two vm
  rw [h.value]
  have h1 := hx m.value
  cases e : x m.value with
  | ok a s =>
    rw [e] at h1
    refine ⟨rfl, hQ _ _ _ (h.setValue fun v hv => ?_)⟩
    exact (h1 v hv).elim (h.run.value v) holds_num
  | error a s =>
    rw [e] at h1
    refine ⟨rfl, h.setValue fun v hv => ?_⟩
    exact (h1 v hv).elim (h.run.value v) holds_num
theorem two_pop' {Q : Val → Machine → Machine → Prop} (h : Rel c m n)
    (hQ : ∀ v m' n', Rel c m' n' → m'.store = m.store → c.W.Holds v → Q v m' n') : Two c pop pop m n Q := by
  unfold Two
  cases hv : m.value with
  | nil => rw [pop_nil hv, pop_nil (h.value.trans hv)]; exact ⟨rfl, h⟩
  | cons v s =>
    rw [pop_eq hv, pop_eq (h.value.trans hv)]
    have := h.run.value
    rw [hv] at this
    exact ⟨rfl, hQ _ _ _ (h.setValue fun w hw => this w (List.mem_cons_of_mem _ hw)) rfl (this v List.mem_cons_self)⟩
theorem two_pop {Q : Val → Machine → Machine → Prop} (h : Rel c m n)
    (hQ : ∀ v m' n', Rel c m' n' → c.W.Holds v → Q v m' n') : Two c pop pop m n Q :=
  two_pop' h fun v m' n' h' _ => hQ v m' n' h'
theorem two_push {v : Val} {Q : Unit → Machine → Machine → Prop} (h : Rel c m n) (hv : c.W.Holds v)
    (hQ : ∀ m' n', Rel c m' n' → Q () m' n') : Two c (push v) (push v) m n Q := by
  refine ⟨rfl, hQ _ _ ?_⟩
  rw [h.value]
  refine h.setValue fun w hw => ?_
  rcases List.mem_cons.mp hw with rfl | hw
  · exact hv
  · exact h.run.value w hw
theorem two_popI32 {Q : Int → Machine → Machine → Prop} (h : Rel c m n) (hQ : ∀ v m' n', Rel c m' n' → Q v m' n') :
    Two c popI32 popI32 m n Q :=
  two_bind (two_pop h fun _ _ _ h' _ => two_pure (hQ _ _ _ h'))
theorem two_popU32 {Q : Nat → Machine → Machine → Prop} (h : Rel c m n) (hQ : ∀ v m' n', Rel c m' n' → Q v m' n') :
    Two c popU32 popU32 m n Q :=
  two_bind (two_pop h fun _ _ _ h' _ => two_pure (hQ _ _ _ h'))
theorem two_popN' {k : Nat} {Q : List Val → Machine → Machine → Prop} (h : Rel c m n)
    (hQ : ∀ l m' n', Rel c m' n' → m'.store = m.store → (∀ v ∈ l, c.W.Holds v) → Q l m' n') : Two c (popN k) (popN k) m n Q := by
  induction k generalizing m n Q with
  | zero => exact two_pure (hQ _ _ _ h rfl (by simp))
  | succ k ih =>
    refine two_bind (two_pop' h fun v m' n' h' hs hv => two_bind (ih h' fun l m'' n'' h'' hs' hl => two_pure (hQ _ _ _ h'' (hs'.trans hs) ?_)))
    intro w hw
    rcases List.mem_append.mp hw with hw | hw
    · exact hl w hw
    · rw [List.mem_singleton.mp hw]; exact hv
theorem two_popN {k : Nat} {Q : List Val → Machine → Machine → Prop} (h : Rel c m n)
    (hQ : ∀ l m' n', Rel c m' n' → (∀ v ∈ l, c.W.Holds v) → Q l m' n') : Two c (popN k) (popN k) m n Q :=
  two_popN' h fun l m' n' h' _ => hQ l m' n' h'
theorem two_extend {l : List Val} {Q : Unit → Machine → Machine → Prop} (h : Rel c m n) (hl : ∀ v ∈ l, c.W.Holds v)
    (hQ : ∀ m' n', Rel c m' n' → Q () m' n') : Two c (extend l) (extend l) m n Q := by
  refine two_modify (hQ _ _ ?_)
  rw [h.value]
  refine h.setValue fun w hw => ?_
  rcases List.mem_append.mp hw with hw | hw
  · exact hl w (List.mem_reverse.mp hw)
  · exact h.run.value w hw
theorem two_topFrame {Q : Frame → Machine → Machine → Prop} (h : Rel c m n)
    (hQ : ∀ f, m.frame[0]? = some f → c.W.Owns f.module → (∀ v ∈ f.locals, c.W.Holds v) → Q f m n) :
    Two c topFrame topFrame m n Q := by
  refine two_get (two_idx h (by rw [h.frame]) fun f hf => ?_)
  have := h.run.frame f (List.mem_of_getElem? hf)
  exact hQ f hf this.1 this.2
theorem two_theMem {f : Frame} {Q : Nat × MemInst → Machine → Machine → Prop} (h : Rel c m n) (hf : c.W.Owns f.module)
    (hQ : ∀ a mem, c.W.mems a → Q (a, mem) m n) : Two c (theMem f) (theMem f) m n Q := by
  refine two_bind (two_idx h rfl fun a ha => two_get (two_bind (two_idx h ?_ fun mem _ => two_pure (hQ a mem ?_))))
  · exact h.agree.mems a (hf.mems a (List.mem_of_getElem? ha))
  · exact hf.mems a (List.mem_of_getElem? ha)
/-- What a table of the part has. -/
def Entries (c : Cfg) (l : List Val) : Prop := ∀ v ∈ l, c.W.Holds v ∧ (c.strict = true → v.ty = .funcref)
theorem two_theTable {f : Frame} {i : Nat} {Q : Nat × TableInst → Machine → Machine → Prop} (h : Rel c m n)
    (hf : c.W.Owns f.module)
    (hQ : ∀ a t, c.W.tabl a → f.module.tabl[i]? = some a → m.store.tabl[a]? = some t →
      (c.strict = true → t.type.type = .funcref) → Entries c t.elem → Q (a, t) m n) :
    Two c (theTable f i) (theTable f i) m n Q := by
  refine two_bind (two_idx h rfl fun a ha => ?_)
  have hw := hf.tabl a (List.mem_of_getElem? ha)
  refine two_get (two_bind (two_idx h (h.agree.tabl a hw) fun t ht => two_pure ?_))
  have := h.run.store.tabl a t hw ht
  exact hQ a t hw ha ht this.1 this.2

theorem set_agree {l k : List α} {a b : Nat} {v : α} (h : k[b]? = l[b]?) (ha : k[a]? = l[a]?) : (k.set a v)[b]? = (l.set a v)[b]? := by
  rw [List.getElem?_set, List.getElem?_set]
  split
  · subst_vars
    have : (b < k.length) ↔ (b < l.length) := by
      have h1 := List.getElem?_eq_none_iff (l := k) (i := b)
      rw [h, List.getElem?_eq_none_iff] at h1
      omega
    simp only [this]
  · exact h
theorem set_out {l : List α} {a b : Nat} {v : α} (h : a ≠ b) : (l.set a v)[b]? = l[b]? := by
  rw [List.getElem?_set_ne h]
theorem set_in {l : List α} {a b : Nat} {v w : α} (h : (l.set a v)[b]? = some w) : w = v ∨ l[b]? = some w := by
  rw [List.getElem?_set] at h
  split at h
  · split at h
    · exact .inl (Option.some.inj h).symm
    · cases h
  · exact .inr h

theorem two_setMem {a : Nat} {mem : MemInst} {Q : Unit → Machine → Machine → Prop} (h : Rel c m n) (ha : c.W.mems a)
    (hQ : ∀ m' n', Rel c m' n' → Q () m' n') : Two c (setMem a mem) (setMem a mem) m n Q := by
  refine two_modify (hQ _ _ (h.setStore ?_ ?_ ?_ ?_))
  · exact { h.agree with mems := fun b hb => set_agree (h.agree.mems b hb) (h.agree.mems a ha) }
  · exact { h.left with mems := fun b hb => (set_out (a := a) (b := b) fun e => hb (e ▸ ha)).trans (h.left.mems b hb) }
  · exact { h.right with mems := fun b hb => (set_out (a := a) (b := b) fun e => hb (e ▸ ha)).trans (h.right.mems b hb) }
  · exact { h.run.store with }
theorem two_setTable {a : Nat} {t : TableInst} {Q : Unit → Machine → Machine → Prop} (h : Rel c m n) (ha : c.W.tabl a)
    (ht : c.strict = true → t.type.type = .funcref) (he : Entries c t.elem)
    (hQ : ∀ m' n', Rel c m' n' → Q () m' n') : Two c (setTable a t) (setTable a t) m n Q := by
  refine two_modify (hQ _ _ (h.setStore ?_ ?_ ?_ ?_))
  · exact { h.agree with tabl := fun b hb => set_agree (h.agree.tabl b hb) (h.agree.tabl a ha) }
  · exact { h.left with tabl := fun b hb => (set_out (a := a) (b := b) fun e => hb (e ▸ ha)).trans (h.left.tabl b hb) }
  · exact { h.right with tabl := fun b hb => (set_out (a := a) (b := b) fun e => hb (e ▸ ha)).trans (h.right.tabl b hb) }
  · refine { h.run.store with tabl := fun b u hb hu => ?_ }
    rcases set_in hu with rfl | hu
    · exact ⟨ht, he⟩
    · exact h.run.store.tabl b u hb hu

attribute [irreducible] Two

/-! ### entries of tables -/

theorem Entries.set {l : List Val} (h : Entries c l) {v : Val} (hv : c.W.Holds v ∧ (c.strict = true → v.ty = .funcref)) (i : Nat) :
    Entries c (l.set i v) := by
  intro w hw
  rcases List.mem_or_eq_of_mem_set hw with hw | rfl
  · exact h w hw
  · exact hv
theorem Entries.setItem {l k : List Val} (h : Entries c l) {v : Val} (hv : c.W.Holds v ∧ (c.strict = true → v.ty = .funcref))
    {i : Int} (hk : Py.setItem l i v = .ok k) : Entries c k := by
  unfold Py.setItem at hk
  generalize (if i < 0 then i + (l.length : Int) else i) = j at hk
  dsimp only at hk
  by_cases hj : j < 0 ∨ l.length ≤ j.toNat
  · rw [if_pos hj] at hk; cases hk
  · rw [if_neg hj] at hk; injection hk with hk; exact hk ▸ h.set hv _
theorem Entries.fill {l : List Val} (h : Entries c l) {v : Val} (hv : c.W.Holds v ∧ (c.strict = true → v.ty = .funcref))
    (d : Nat) (is : List Nat) : Entries c (is.foldl (fun l i => l.set (d + i) v) l) := by
  induction is generalizing l with
  | nil => exact h
  | cons i is ih => exact ih (h.set hv _)
theorem Entries.slice {l : List Val} (h : Entries c l) (a b : Int) : Entries c (Py.slice l a b) := by
  intro v hv
  unfold Py.slice at hv
  exact h v (List.mem_of_mem_take (List.mem_of_mem_drop hv))
theorem Entries.sliceSet {l k : List Val} (h : Entries c l) (hk : Entries c k) (a b : Int) : Entries c (Py.sliceSet l a b k) := by
  intro v hv
  unfold Py.sliceSet at hv
  simp only [List.mem_append] at hv
  rcases hv with (hv | hv) | hv
  · exact h v (List.mem_of_mem_take hv)
  · exact hk v hv
  · exact h v (List.mem_of_mem_drop hv)

/-! ### the pieces of `exec` -/

variable {H : Host} {Q : Unit → Machine → Machine → Prop}

theorem noFill_mem {is : List Inst} (h : noFill is = true) : ∀ i ∈ is, noFillI i = true := by
  induction is with
  | nil => simp
  | cons j js ih =>
    rw [noFill, Bool.and_eq_true] at h
    intro i hi
    rcases List.mem_cons.mp hi with rfl | hi
    · exact h.1
    · exact ih h.2 i hi

/-- the rules that need no thought -/
macro "two" : tactic => `(tactic| with_reducible repeat' first
  | (intro _) | assumption
  | with_reducible apply two_get
  | with_reducible apply two_bind
  | with_reducible apply two_pure
  | with_reducible apply two_ite
  | with_reducible apply two_throw
  | with_reducible apply two_popI32
  | with_reducible apply two_popU32
  | with_reducible apply two_popN
  | with_reducible apply two_pop
  | with_reducible apply two_push
  | with_reducible apply two_extend
  | with_reducible apply two_topFrame
  | with_reducible apply two_theMem
  | with_reducible apply two_theTable
  | with_reducible apply two_setMem
  | with_reducible apply two_setTable
  | with_reducible apply two_assert
  | with_reducible apply two_lift
  | with_reducible apply two_idx
  | rfl)

theorem two_br (l : Nat) (h : Rel c m n) (hQ : ∀ m' n', Rel c m' n' → Q () m' n') :
    Two c (evaluateBr l) (evaluateBr l) m n Q := by
  unfold evaluateBr
  refine two_get (two_bind (two_assert h (by rw [h.label]) fun _ => two_get (two_bind (two_idx h (by rw [h.label]) fun lab hlab => ?_))))
  have hi : c.strict = true → noFill lab.instr = true := fun hs => h.run.label hs lab (List.mem_of_getElem? hlab)
  refine two_get (two_bind (two_assert h (by rw [h.value]) fun _ => two_bind (two_popN h fun rets m n h hr => ?_)))
  · refine two_bind (two_modify ?_)
    have h1 : Rel c { m with frame := keep lab.frame m.frame } { n with frame := keep lab.frame n.frame } := by
      rw [h.frame]
      exact h.setFrame fun f hf => h.run.frame f (List.mem_of_mem_drop hf)
    revert h1
    generalize ({ m with frame := keep lab.frame m.frame } : Machine) = m
    generalize ({ n with frame := keep lab.frame n.frame } : Machine) = n
    intro h
    refine two_bind (two_modify ?_)
    have h1 : Rel c { m with label := m.label.drop l } { n with label := n.label.drop l } := by
      rw [h.label]
      exact h.setLabel fun hs f hf => h.run.label hs f (List.mem_of_mem_drop hf)
    revert h1
    generalize ({ m with label := m.label.drop l } : Machine) = m
    generalize ({ n with label := n.label.drop l } : Machine) = n
    intro h
    have h2 : ∀ {m n : Machine}, Rel c m n → Two c (do
        modify fun m => { m with value := keep lab.value m.value }
        extend rets) (do
        modify fun m => { m with value := keep lab.value m.value }
        extend rets) m n Q := by
      intro m n h
      refine two_bind (two_modify (two_extend ?_ hr hQ))
      rw [h.value]
      exact h.setValue fun v hv => h.run.value v (List.mem_of_mem_drop hv)
    have h3 : Rel c { m with label := m.label.tail } { n with label := n.label.tail } := by
      rw [h.label]
      exact h.setLabel fun hs f hf => h.run.label hs f (List.mem_of_mem_tail hf)
    cases lab.carry with
    | loop =>
      refine two_bind (two_modify (h2 ?_))
      rw [h.label]
      refine h.setLabel fun hs f hf => ?_
      rcases List.mem_cons.mp hf with rfl | hf
      · exact hi hs
      · exact h.run.label hs f (List.mem_of_mem_tail hf)
    | _ => exact two_bind (two_modify (h2 h3))

theorem two_bype (b : Bype) {Q : FuncType → Machine → Machine → Prop} (h : Rel c m n) (hQ : ∀ t, Q t m n) :
    Two c (evaluateBype b) (evaluateBype b) m n Q := by
  cases b with
  | empty => exact two_pure (hQ _)
  | val t => exact two_pure (hQ _)
  | idx i => exact two_bind (two_topFrame h fun f _ _ _ => two_lift1 h fun t _ => hQ t)

theorem two_pushLabel {f : Machine → Label} (h : Rel c m n) (hf : f n = f m) (hi : c.strict = true → noFill (f m).instr = true) :
    Rel c { m with label := f m :: m.label } { n with label := f n :: n.label } := by
  rw [h.label, hf]
  refine h.setLabel fun hs l hl => ?_
  rcases List.mem_cons.mp hl with rfl | hl
  · exact hi hs
  · exact h.run.label hs l hl

theorem two_pushBlock (lab : Label) (bt : FuncType) (body : List Inst) (h : Rel c m n) (hb : c.strict = true → noFill body = true)
    (hQ : ∀ m' n', Rel c m' n' → Q () m' n') : Two c (pushBlock lab bt body) (pushBlock lab bt body) m n Q := by
  unfold pushBlock
  refine two_get (two_bind (two_assert h (by rw [h.value]) fun _ => two_modify (hQ _ _ ?_)))
  exact two_pushLabel (f := fun m => ⟨bt.rets.length, m.frame.length, m.value.length - bt.args.length, .block, body, 0⟩) h
    (by simp only [h.frame, h.value]) hb

theorem two_memLoad (o k : Nat) {Q : Bytes → Machine → Machine → Prop} (h : Rel c m n) (hQ : ∀ b m' n', Rel c m' n' → Q b m' n') :
    Two c (evaluateMemLoad o k) (evaluateMemLoad o k) m n Q := by
  unfold evaluateMemLoad
  refine two_bind (two_topFrame h fun f _ hf _ => two_bind (two_theMem h hf fun a mem _ => two_bind (two_popU32 h fun v m n h => ?_)))
  exact two_bind (two_assert h rfl fun _ => two_pure (hQ _ _ _ h))
theorem two_memSave (o k : Nat) (h : Rel c m n) (hQ : ∀ m' n', Rel c m' n' → Q () m' n') :
    Two c (evaluateMemSave o k) (evaluateMemSave o k) m n Q := by
  unfold evaluateMemSave
  refine two_bind (two_topFrame h fun f _ hf _ => two_bind (two_theMem h hf fun a mem ha => two_bind (two_pop h fun v m n h _ => ?_)))
  exact two_bind (two_popU32 h fun v m n h => two_bind (two_assert h rfl fun _ => two_setMem h ha hQ))
theorem two_setLocal (i : Nat) {v : Val} (h : Rel c m n) (hv : c.W.Holds v) (hQ : ∀ m' n', Rel c m' n' → Q () m' n') :
    Two c (exec.setLocal i v) (exec.setLocal i v) m n Q := by
  unfold exec.setLocal
  refine two_bind (two_topFrame h fun f _ hf hl => two_bind (two_lift1 h fun l e => two_modify (hQ _ _ ?_)))
  rw [h.frame]
  refine h.setFrame fun g hg => ?_
  rcases List.mem_cons.mp hg with rfl | hg
  · refine ⟨hf, fun w hw => ?_⟩
    have : Entries { c with strict := false } l := by
      refine Entries.setItem (l := f.locals) (fun w hw => ⟨hl w hw, by intro h; cases h⟩) ⟨hv, by intro h; cases h⟩ e
    exact (this w hw).1
  · exact h.run.frame g (List.mem_of_mem_tail hg)

theorem holds_ref {W : Part} {a : Nat} {v : Val} (ha : W.func a) (h : Val.fromRef .funcref a = .ok v) : W.Holds v := by
  obtain ⟨b, hb, _⟩ := ex_bind_ok h
  have hlt : a < 2 ^ 31 := by
    unfold Py.packS at hb
    split at hb
    · rename_i hc
      have h2 := hc.2
      rw [show ((256 : Int) ^ 4) = 4294967296 by decide] at h2
      omega
    · cases hb
  obtain ⟨r, h1, _, h2⟩ := fromRef_target .funcref hlt
  rw [h] at h1
  injection h1 with h1
  intro _ k hk
  rw [h1, h2] at hk
  exact ⟨a, ha, (Option.some.inj hk).symm⟩

/-! ### calls -/

theorem getItem_nat {l : List α} (a : Nat) : Py.getItem l a = match l[a]? with | some x => .ok x | none => .error .index := by
  unfold Py.getItem
  have h : ¬ ((a : Int) < 0) := by omega
  simp only [h, if_false, Int.toNat_natCast]
  cases l[a]? <;> rfl

theorem zero_holds {l : List (Nat × ValType)} : ∀ v ∈ zeroLocals l, c.W.Holds v := by
  intro v hv
  unfold zeroLocals at hv
  obtain ⟨e, _, hv⟩ := List.mem_flatMap.mp hv
  rw [List.eq_of_mem_replicate hv]
  exact holds_zero _ _

theorem mapM_mem {β : Type} {f : α → Except Err β} : ∀ {l : List α} {r : List β}, l.mapM f = .ok r → ∀ b ∈ r, ∃ a ∈ l, f a = .ok b := by
  intro l
  induction l with
  | nil => intro r h; cases h; simp
  | cons x l ih =>
    intro r h
    rw [List.mapM_cons] at h
    obtain ⟨b, hb, h⟩ := ex_bind_ok h
    obtain ⟨bs, hbs, h⟩ := ex_bind_ok h
    cases h
    intro y hy
    rcases List.mem_cons.mp hy with rfl | hy
    · exact ⟨x, List.mem_cons_self, hb⟩
    · obtain ⟨a, ha, h⟩ := ih hbs y hy
      exact ⟨a, List.mem_cons_of_mem _ ha, h⟩

theorem _root_.Pywasm.Spec.Part.Untouched.trans {W : Part} {s t u : Store} (h : W.Untouched s t) (h' : W.Untouched t u) : W.Untouched s u :=
  ⟨fun a ha => (h'.func a ha).trans (h.func a ha), fun a ha => (h'.tabl a ha).trans (h.tabl a ha),
   fun a ha => (h'.mems a ha).trans (h.mems a ha), fun a ha => (h'.glob a ha).trans (h.glob a ha),
   fun a ha => (h'.elem a ha).trans (h.elem a ha), fun a ha => (h'.data a ha).trans (h.data a ha),
   fun a ha => (h'.mods a ha).trans (h.mods a ha), fun a ha => (h'.bufs a ha).trans (h.bufs a ha)⟩

theorem two_host (hH : c.W.HostKeeps c.strict H) {a : Nat} {ty : FuncType} {k : Nat} {args : List Val} {xs : List HVal}
    (h : Rel c m n) (ha : c.W.func a) (hs : m.store.func[a]? = some (.host ty k)) (hargs : ∀ v ∈ args, c.W.Holds v)
    (hx : args.mapM Val.intoAll = .ok xs) {Q : List HVal → Machine → Machine → Prop}
    (hQ : ∀ ys m' n', Rel c m' n' → (∀ p ∈ ty.rets.zip ys, ∀ v, Val.fromAll p.1 p.2 = .ok v → c.W.Holds v) → Q ys m' n') :
    Two c (callHost H k xs) (callHost H k xs) m n Q := by
  have h1 := hH a ty k (m.frame.head?.map (·.module)) args xs m.store n.store h.run.store h.agree (h.run.store.host a ty k ha hs) ha hs (by
    intro mod hmod
    cases hf : m.frame with
    | nil => rw [hf] at hmod; cases hmod
    | cons f fs =>
      rw [hf] at hmod
      cases hmod
      exact (h.run.frame f (hf ▸ List.mem_cons_self)).1) hargs hx
  unfold Two callHost
  simp only [h.frame]
  cases hm : H k (m.frame.head?.map (·.module)) xs m.store <;> cases hn : H k (m.frame.head?.map (·.module)) xs n.store <;>
    simp only [hm, hn] at h1 ⊢
  · obtain ⟨h2, h3, h4⟩ := h1
    refine ⟨h2, hQ _ _ _ ?_ h4⟩
    have := h.setStore h3.agree (h.left.trans h3.left) (h.right.trans h3.right) h3.closed
    rwa [h.frame] at this
  · obtain ⟨h2, h3⟩ := h1
    refine ⟨h2, ?_⟩
    have := h.setStore h3.agree (h.left.trans h3.left) (h.right.trans h3.right) h3.closed
    rwa [h.frame] at this

theorem two_call (hH : c.W.HostKeeps c.strict H) {a : Nat} (h : Rel c m n) (ha : c.W.func a)
    (hQ : ∀ m' n', Rel c m' n' → Q () m' n') : Two c (evaluateCall H a) (evaluateCall H a) m n Q := by
  unfold evaluateCall
  refine two_get (two_bind (two_lift h ?_ fun func hfunc => ?_))
  · rw [getItem_nat, getItem_nat, h.agree.func a ha]
  have hg : m.store.func[a]? = some func := by
    rw [getItem_nat] at hfunc
    cases hx : m.store.func[a]? with
    | none => rw [hx] at hfunc; cases hfunc
    | some f => rw [hx] at hfunc; injection hfunc with hfunc; rw [hfunc]
  clear hfunc
  refine two_bind (two_popN' h fun args m' n' h' hs hargs => ?_)
  rw [← hs] at hg
  clear hs h
  rename' m' => m, n' => n, h' => h
  cases func with
  | wasm t k code =>
    obtain ⟨hk, hc⟩ := h.run.store.func a t k code ha hg
    simp only
    refine two_get (two_bind (two_assert h (by rw [h.frame]) fun _ => ?_))
    refine two_get (two_bind (two_idx h (h.agree.mods k hk) fun mod hmod => two_bind (two_modify ?_)))
    have hown := h.run.store.mods k mod hk hmod
    have h1 : Rel c { m with frame := ⟨mod, args ++ zeroLocals code.locals, t.rets.length, m.label.length, m.value.length⟩ :: m.frame }
        { n with frame := ⟨mod, args ++ zeroLocals code.locals, t.rets.length, n.label.length, n.value.length⟩ :: n.frame } := by
      refine ⟨h.value, h.label, by simp only [h.frame, h.label, h.value], h.agree, h.left, h.right, h.run.store, h.run.value, h.run.label, fun f hf => ?_⟩
      rcases List.mem_cons.mp hf with rfl | hf
      · refine ⟨hown, fun v hv => ?_⟩
        rcases List.mem_append.mp hv with hv | hv
        · exact hargs v hv
        · exact zero_holds v hv
      · exact h.run.frame f hf
    refine two_modify (hQ _ _ ?_)
    exact two_pushLabel (f := fun m => ⟨t.rets.length, m.frame.length, m.value.length, .func, code.expr, 0⟩) h1
      (by simp only [h.frame, h.value, List.length_cons]) hc
  | host ty k =>
    simp only
    refine two_bind (two_lift1 h fun xs hxs => two_bind (two_host hH h ha hg hargs hxs fun ys m n h hys => ?_))
    refine two_bind (two_lift1 h fun rets hrets => two_extend h (fun v hv => ?_) hQ)
    obtain ⟨p, hp, hpv⟩ := mapM_mem hrets v hv
    exact hys p hp v hpv

theorem grow_entries {t t' : TableInst} {k : Nat} {v : Val} (he : Entries c t.elem) (ht : c.strict = true → t.type.type = .funcref)
    (hv : c.W.Holds v) (h : t.grow k v = .ok t') : (c.strict = true → t'.type.type = .funcref) ∧ Entries c t'.elem := by
  unfold TableInst.grow at h
  have h : (do Py.assert (decide (v.ty = t.type.type)); pure { t with elem := t.elem ++ List.replicate k v, size := t.size + k } : Except Err TableInst) = .ok t' := by
    dsimp only at h
    split at h
    · obtain ⟨_, _, h⟩ := ex_bind_ok h; exact h
    · exact h
  obtain ⟨_, ha, h⟩ := ex_bind_ok h
  injection h with h
  subst h
  refine ⟨ht, fun w hw => ?_⟩
  rcases List.mem_append.mp hw with hw | hw
  · exact he w hw
  · rw [List.eq_of_mem_replicate hw]
    refine ⟨hv, fun hs => ?_⟩
    unfold Py.assert at ha
    split at ha
    · rename_i hd
      exact (of_decide_eq_true hd).trans (ht hs)
    · cases ha

/-- `exec` on an instruction of the part. -/
theorem two_exec (hH : c.W.HostKeeps c.strict H) (lab : Label) {f : Frame} {i : Inst} (h : Rel c m n) (hf : c.W.Owns f.module)
    (hi : c.strict = true → noFillI i = true)
    (hF : c.strict = false → ∀ t tab ta table v rest e, i = .callIndirect t tab → f.module.tabl[tab]? = some ta →
      m.store.tabl[ta]? = some table → m.value = v :: rest → table.elem[v.intoU32.toNat]? = some e → e.ty = .funcref) :
    Two c (exec H lab f i) (exec H lab f i) m n fun _ m' n' => Rel c m' n' := by
  have hid : ∀ m' n', Rel c m' n' → Rel c m' n' := fun _ _ h => h
  cases i with
  | num op =>
    simp only [exec]
    exact two_vm h (evalNum_nr op) fun _ _ _ h => h
  | br l => simp only [exec]; exact two_br l h hid
  | brIf l =>
    simp only [exec]
    exact two_bind (two_popI32 h fun v m n h => two_ite (two_br l h hid) (two_pure h))
  | brTable ls d =>
    simp only [exec]
    exact two_bind (two_popU32 h fun v m n h => two_br _ h hid)
  | block bt b =>
    simp only [exec]
    exact two_bind (two_bype bt h fun t => two_pushBlock _ _ _ h (fun hs => by have := hi hs; rwa [noFillI] at this) hid)
  | loop bt b =>
    simp only [exec]
    refine two_bind (two_bype bt h fun t => two_get (two_bind (two_assert h (by rw [h.value]) fun _ => two_modify ?_)))
    exact two_pushLabel (f := fun m => ⟨t.args.length, m.frame.length, m.value.length - t.args.length, .loop, b, 0⟩) h
      (by simp only [h.frame, h.value]) (fun hs => by have := hi hs; rwa [noFillI] at this)
  | ifThen bt a b =>
    simp only [exec]
    refine two_bind (two_bype bt h fun t => two_bind (two_popI32 h fun v m n h => two_pushBlock _ _ _ h (fun hs => ?_) hid))
    have := hi hs
    rw [noFillI, Bool.and_eq_true] at this
    split
    · exact this.1
    · exact this.2
  | ret =>
    simp only [exec]
    refine two_get (two_bind (two_assert h (by rw [h.value]) fun _ => two_bind (two_popN h fun rets m n h hr => ?_)))
    refine two_bind (two_modify (two_bind (two_modify (two_bind (two_modify ?_)))))
    refine two_extend ?_ hr hid
    refine ⟨by simp only [h.value], by simp only [h.label], by simp only [h.frame], h.agree, h.left, h.right, h.run.store, ?_, ?_, ?_⟩
    rotate_left 2
    · exact fun g hg => h.run.frame g (List.mem_of_mem_tail hg)
    · exact fun v hv => h.run.value v (List.mem_of_mem_drop hv)
    · exact fun hs l hl => h.run.label hs l (List.mem_of_mem_drop hl)
  | call k =>
    simp only [exec]
    exact two_bind (two_idx h rfl fun a ha => two_call hH h (hf.func a (List.mem_of_getElem? ha)) hid)
  | callIndirect t tab =>
    simp only [exec]
    refine two_bind (two_theTable h hf fun ta tb hw hta htb hty he => two_bind (two_idx h rfl fun ty _ => ?_))
    have key : ∀ i m' n', Rel c m' n' → (c.strict = false → ∀ e, tb.elem[i]? = some e → e.ty = .funcref) → Two c (do
          let ref ← idx tb.elem i
          let addr ← lift ref.intoRef
          let func ← lift (Py.getItem (← get).store.func addr)
          assert (decide (func.type = ty))
          evaluateCall H addr) (do
          let ref ← idx tb.elem i
          let addr ← lift ref.intoRef
          let func ← lift (Py.getItem (← get).store.func addr)
          assert (decide (func.type = ty))
          evaluateCall H addr) m' n' fun _ m' n' => Rel c m' n' := by
      intro i m n h hnf
      refine two_bind (two_idx h rfl fun r hr => two_bind (two_lift1 h fun addr haddr => ?_))
      obtain ⟨he1, he2⟩ := he r (List.mem_of_getElem? hr)
      have hrt : refTarget r = some addr := by
        cases hx : refTarget r with
        | none => rw [intoRef_none hx] at haddr; cases haddr
        | some k => rw [intoRef_some hx] at haddr; injection haddr with haddr; rw [haddr]
      have hfr : r.ty = .funcref := by
        cases hs : c.strict with
        | true => exact he2 hs
        | false => exact hnf hs r hr
      obtain ⟨a, ha, rfl⟩ := he1 hfr addr hrt
      refine two_get (two_bind (two_lift h ?_ fun func _ => two_bind (two_assert h rfl fun _ => two_call hH h ha hid)))
      rw [getItem_nat, getItem_nat, h.agree.func a ha]
    unfold Two
    cases hv : m.value with
    | nil =>
      unfold popU32
      rw [bind_err (bind_err (pop_nil hv)), bind_err (bind_err (pop_nil (h.value.trans hv)))]
      exact ⟨rfl, h⟩
    | cons v rest =>
      rw [bind_ok (popU32_eq hv), bind_ok (popU32_eq (h.value.trans hv))]
      have h' : Rel c { m with value := rest } { n with value := rest } :=
        h.setValue fun w hw => h.run.value w (by rw [hv]; exact List.mem_cons_of_mem _ hw)
      have hk := key v.low32.toNat _ _ h' fun hs e hee => hF hs t tab ta tb v rest e rfl hta htb hv (by rwa [Val.intoU32_eq])
      unfold Two at hk
      exact hk
  | select =>
    simp only [exec]
    refine two_bind (two_popI32 h fun k m n h => two_bind (two_pop h fun b m n h hb => two_bind (two_pop h fun a m n h ha => ?_)))
    refine two_push h ?_ hid
    split <;> assumption
  | selectType ts =>
    simp only [exec]
    refine two_bind (two_popI32 h fun k m n h => two_bind (two_pop h fun b m n h hb => two_bind (two_pop h fun a m n h ha => ?_)))
    refine two_bind (two_idx h rfl fun t _ => two_bind (two_assert h rfl fun _ => two_bind (two_assert h rfl fun _ => two_push h ?_ hid)))
    split <;> assumption
  | localGet k =>
    simp only [exec]
    exact two_bind (two_topFrame h fun g _ _ hl => two_bind (two_idx h rfl fun a ha => two_push h (hl a (List.mem_of_getElem? ha)) hid))
  | localSet k =>
    simp only [exec]
    exact two_bind (two_pop h fun v m n h hv => two_setLocal k h hv hid)
  | localTee k =>
    simp only [exec]
    exact two_get (two_bind (two_idx h (by rw [h.value]) fun v hv => two_setLocal k h (h.run.value v (List.mem_of_getElem? hv)) hid))
  | globalGet k =>
    simp only [exec]
    refine two_bind (two_idx h rfl fun ga hga => ?_)
    have hw := hf.glob ga (List.mem_of_getElem? hga)
    exact two_get (two_bind (two_idx h (h.agree.glob ga hw) fun g hg => two_push h (h.run.store.glob ga g hw hg) hid))
  | globalSet k =>
    simp only [exec]
    refine two_bind (two_idx h rfl fun ga hga => ?_)
    have hw := hf.glob ga (List.mem_of_getElem? hga)
    refine two_get (two_bind (two_idx h (h.agree.glob ga hw) fun g hg => two_bind (two_assert h rfl fun _ => two_bind (two_pop h fun v m n h hv => two_modify ?_))))
    refine h.setStore ?_ ?_ ?_ ?_
    · exact { h.agree with glob := fun b hb => set_agree (h.agree.glob b hb) (h.agree.glob ga hw) }
    · exact { h.left with glob := fun b hb => (set_out (a := ga) (b := b) fun e => hb (e ▸ hw)).trans (h.left.glob b hb) }
    · exact { h.right with glob := fun b hb => (set_out (a := ga) (b := b) fun e => hb (e ▸ hw)).trans (h.right.glob b hb) }
    · refine { h.run.store with glob := fun b u hb hu => ?_ }
      rcases set_in hu with rfl | hu
      · exact hv
      · exact h.run.store.glob b u hb hu
  | tableGet k =>
    simp only [exec]
    refine two_bind (two_theTable h hf fun ta tb _ _ _ _ he => two_bind (two_popU32 h fun v m n h => ?_))
    exact two_bind (two_idx h rfl fun e hee => two_push h (he e (List.mem_of_getElem? hee)).1 hid)
  | tableSet k =>
    simp only [exec]
    refine two_bind (two_theTable h hf fun ta tb hw _ _ ht he => two_bind (two_pop h fun v m n h hv => two_bind (two_assert h rfl fun hty => ?_)))
    refine two_bind (two_popU32 h fun b m n h => two_bind (two_lift1 h fun l hl => ?_))
    exact two_setTable h hw ht (he.setItem ⟨hv, fun hs => (of_decide_eq_true hty).trans (ht hs)⟩ hl) hid
  | load op al off =>
    simp only [exec]
    exact two_bind (two_memLoad _ _ h fun b m n h => two_bind (two_lift1 h fun v hv => two_push h (holds_num (NumE.load op b v hv)) hid))
  | store op al off =>
    simp only [exec]
    exact two_memSave _ _ h hid
  | loadLane w al off k =>
    simp only [exec]
    refine two_bind (two_pop h fun v m n h _ => two_bind (two_memLoad _ _ h fun b m n h => two_bind (two_lift1 h fun v hv => ?_)))
    exact two_push h (holds_num (NumE.make rfl _ v hv)) hid
  | storeLane w al off k =>
    simp only [exec]
    refine two_bind (two_pop h fun v m n h _ => two_bind (two_lift1 h fun v hv => two_bind (two_push h (holds_num (NumE.fromV128 _ v hv)) fun m n h => ?_)))
    exact two_memSave _ _ h hid
  | memorySize k =>
    simp only [exec]
    refine two_bind (two_theMem h hf fun a mem _ => ?_)
    dsimp only
    with_reducible apply two_bind
    with_reducible apply two_lift1 h
    intro v hv
    exact two_push h (holds_num (NumE.fromI32 _ v hv)) hid
  | memoryGrow k =>
    simp only [exec]
    refine two_bind (two_theMem h hf fun a mem hw => two_bind (two_popU32 h fun k m n h => two_ite ?_ ?_))
    · refine two_bind (two_lift1 h fun mem' _ => two_bind (two_setMem h hw fun m n h => ?_))
      with_reducible apply two_bind
      with_reducible apply two_lift1 h
      intro v hv
      exact two_push h (holds_num (NumE.fromI32 _ v hv)) hid
    · exact two_bind (two_lift1 h fun v hv => two_push h (holds_num (NumE.fromI32 _ v hv)) hid)
  | i32Const k =>
    simp only [exec]
    exact two_bind (two_lift1 h fun v hv => two_push h (holds_num (NumE.fromI32 _ v hv)) hid)
  | i64Const k =>
    simp only [exec]
    exact two_bind (two_lift1 h fun v hv => two_push h (holds_num (NumE.fromI64 _ v hv)) hid)
  | f32Const k =>
    simp only [exec]
    exact two_bind (two_lift1 h fun v hv => two_push h (holds_num rfl) hid)
  | f64Const k =>
    simp only [exec]
    exact two_bind (two_lift1 h fun v hv => two_push h (holds_num rfl) hid)
  | v128Const k =>
    simp only [exec]
    exact two_bind (two_lift1 h fun v hv => two_push h (holds_num (NumE.fromV128 _ v hv)) hid)
  | refNull b =>
    simp only [exec]
    exact two_bind (two_lift1 h fun t _ => two_push h (holds_zero _ t) hid)
  | refIsNull =>
    simp only [exec]
    refine two_bind (two_pop h fun a m n h _ => two_bind (two_assert h rfl fun _ => two_bind (two_lift1 h fun v hv => ?_)))
    exact two_push h (holds_num (NumE.fromI32 _ v hv)) hid
  | refFunc k =>
    simp only [exec]
    refine two_bind (two_idx h rfl fun a ha => ?_)
    with_reducible apply two_bind
    with_reducible apply two_lift1 h
    intro v hv
    exact two_push h (holds_ref (hf.func a (List.mem_of_getElem? ha)) hv) hid
  | memoryInit k =>
    simp only [exec]
    refine two_bind (two_theMem h hf fun a mem hw => two_bind (two_idx h rfl fun da hda => ?_))
    have hd := hf.data da (List.mem_of_getElem? hda)
    refine two_get (two_bind (two_idx h (h.agree.data da hd) fun b hb => ?_))
    have hbw := h.run.store.data da b hd hb
    refine two_get (two_bind (two_idx h (h.agree.bufs b hbw) fun d _ => ?_))
    refine two_bind (two_popU32 h fun _ m n h => two_bind (two_popU32 h fun _ m n h => two_bind (two_popU32 h fun _ m n h => ?_)))
    exact two_bind (two_assert h rfl fun _ => two_bind (two_assert h rfl fun _ => two_setMem h hw hid))
  | dataDrop k =>
    simp only [exec]
    refine two_bind (two_idx h rfl fun da hda => ?_)
    have hd := hf.data da (List.mem_of_getElem? hda)
    refine two_get (two_bind (two_idx h (h.agree.data da hd) fun b hb => ?_))
    have hw := h.run.store.data da b hd hb
    refine two_modify (h.setStore ?_ ?_ ?_ ?_)
    · exact { h.agree with bufs := fun x hx => set_agree (h.agree.bufs x hx) (h.agree.bufs b hw) }
    · exact { h.left with bufs := fun x hx => (set_out (a := b) (b := x) fun e => hx (e ▸ hw)).trans (h.left.bufs x hx) }
    · exact { h.right with bufs := fun x hx => (set_out (a := b) (b := x) fun e => hx (e ▸ hw)).trans (h.right.bufs x hx) }
    · exact { h.run.store with }
  | memoryCopy =>
    simp only [exec]
    refine two_bind (two_theMem h hf fun a mem hw => ?_)
    refine two_bind (two_popU32 h fun _ m n h => two_bind (two_popU32 h fun _ m n h => two_bind (two_popU32 h fun _ m n h => ?_)))
    exact two_bind (two_assert h rfl fun _ => two_bind (two_assert h rfl fun _ => two_setMem h hw hid))
  | memoryFill =>
    simp only [exec]
    refine two_bind (two_theMem h hf fun a mem hw => ?_)
    refine two_bind (two_popU32 h fun _ m n h => two_bind (two_pop h fun _ m n h _ => two_bind (two_popU32 h fun _ m n h => ?_)))
    exact two_bind (two_assert h rfl fun _ => two_setMem h hw hid)
  | tableInit e t =>
    simp only [exec]
    refine two_bind (two_theTable h hf fun ta tb hw _ _ ht he => two_bind (two_idx h rfl fun ea hea => ?_))
    have hwe := hf.elem ea (List.mem_of_getElem? hea)
    refine two_get (two_bind (two_idx h (h.agree.elem ea hwe) fun el hel => ?_))
    have hent : Entries c el.data := h.run.store.elem ea el hwe hel
    refine two_bind (two_popU32 h fun _ m n h => two_bind (two_popU32 h fun _ m n h => two_bind (two_popU32 h fun _ m n h => ?_)))
    exact two_bind (two_assert h rfl fun _ => two_bind (two_assert h rfl fun _ => two_setTable h hw ht (he.sliceSet (hent.slice _ _) _ _) hid))
  | elemDrop e =>
    simp only [exec]
    refine two_bind (two_idx h rfl fun ea hea => ?_)
    have hw := hf.elem ea (List.mem_of_getElem? hea)
    refine two_get (two_bind (two_idx h (h.agree.elem ea hw) fun el hel => two_modify (h.setStore ?_ ?_ ?_ ?_)))
    · exact { h.agree with elem := fun x hx => set_agree (h.agree.elem x hx) (h.agree.elem ea hw) }
    · exact { h.left with elem := fun x hx => (set_out (a := ea) (b := x) fun e => hx (e ▸ hw)).trans (h.left.elem x hx) }
    · exact { h.right with elem := fun x hx => (set_out (a := ea) (b := x) fun e => hx (e ▸ hw)).trans (h.right.elem x hx) }
    · refine { h.run.store with elem := fun b u hb hu => ?_ }
      rcases set_in hu with rfl | hu
      · simp
      · exact h.run.store.elem b u hb hu
  | tableCopy x y =>
    simp only [exec]
    refine two_bind (two_theTable h hf fun ta tb hw _ _ ht he => two_bind (two_theTable h hf fun ta' tb' _ _ _ _ he' => ?_))
    refine two_bind (two_popU32 h fun _ m n h => two_bind (two_popU32 h fun _ m n h => two_bind (two_popU32 h fun _ m n h => ?_)))
    exact two_bind (two_assert h rfl fun _ => two_bind (two_assert h rfl fun _ => two_setTable h hw ht (he.sliceSet (he'.slice _ _) _ _) hid))
  | tableGrow t =>
    simp only [exec]
    refine two_bind (two_theTable h hf fun ta tb hw _ _ ht he => two_bind (two_popU32 h fun k m n h => two_bind (two_pop h fun v m n h hv => two_ite ?_ ?_)))
    · refine two_bind (two_lift1 h fun tb' htb' => ?_)
      obtain ⟨h1, h2⟩ := grow_entries he ht hv htb'
      refine two_bind (two_setTable h hw h1 h2 fun m n h => ?_)
      with_reducible apply two_bind
      with_reducible apply two_lift1 h
      intro v hv
      exact two_push h (holds_num (NumE.fromI32 _ v hv)) hid
    · exact two_bind (two_lift1 h fun v hv => two_push h (holds_num (NumE.fromI32 _ v hv)) hid)
  | tableSize t =>
    simp only [exec]
    refine two_bind (two_theTable h hf fun ta tb _ _ _ _ _ => ?_)
    dsimp only
    with_reducible apply two_bind
    with_reducible apply two_lift1 h
    intro v hv
    exact two_push h (holds_num (NumE.fromI32 _ v hv)) hid
  | tableFill t =>
    simp only [exec]
    refine two_bind (two_theTable h hf fun ta tb hw _ _ ht he => ?_)
    refine two_bind (two_popU32 h fun k m n h => two_bind (two_pop h fun v m n h hv => two_bind (two_popU32 h fun _ m n h => ?_)))
    refine two_bind (two_assert h rfl fun _ => two_setTable h hw ht (he.fill ⟨hv, fun hs => ?_⟩ _ _) hid)
    have := hi hs
    rw [noFillI] at this
    cases this
  | unreachable => simp only [exec]; exact two_assert h rfl fun _ => h
  | nop => simp only [exec]; exact two_pure h
  | elseFi => simp only [exec]; exact two_assert h rfl fun _ => h
  | endFi => simp only [exec]; exact two_assert h rfl fun _ => h
  | drop => simp only [exec]; exact two_bind (two_pop h fun _ m n h _ => two_pure h)

/-! ### the loop -/

theorem two_step (hH : c.W.HostKeeps c.strict H) (h : Rel c m n) (hF : c.strict = false → ¬ Forged m) :
    Two c (step H) (step H) m n fun _ m' n' => Rel c m' n' := by
  unfold step
  refine two_get (two_bind (two_idx h (by rw [h.label]) fun lab hlab => two_bind (two_topFrame h fun f hff hf _ => ?_)))
  refine two_ite ?_ ?_
  · refine two_bind (two_modify ?_)
    have h1 : Rel c { m with label := m.label.tail } { n with label := n.label.tail } := by
      rw [h.label]
      exact h.setLabel fun hs l hl => h.run.label hs l (List.mem_of_mem_tail hl)
    refine two_ite ?_ (two_pure h1)
    refine two_get (two_bind (two_assert h1 (by simp only [h.value]) fun _ => two_modify ?_))
    have h2 := h1.setFrame (s := m.frame.tail) fun g hg => h.run.frame g (List.mem_of_mem_tail hg)
    simp only [h.frame]
    exact h2
  · refine two_bind (two_idx h rfl fun i hi => two_bind (two_modify ?_))
    have hlm := List.mem_of_getElem? hlab
    have h1 : Rel c { m with label := { lab with index := lab.index + 1 } :: m.label.tail }
        { n with label := { lab with index := lab.index + 1 } :: n.label.tail } := by
      rw [h.label]
      refine h.setLabel fun hs l hl => ?_
      rcases List.mem_cons.mp hl with rfl | hl
      · exact h.run.label hs lab hlm
      · exact h.run.label hs l (List.mem_of_mem_tail hl)
    refine two_exec hH _ h1 hf (fun hs => noFill_mem (h.run.label hs lab hlm) i (List.mem_of_getElem? hi)) ?_
    rintro hs t tab ta table v rest e rfl hta htb hv he
    by_contra hne
    refine hF hs ?_
    obtain ⟨L, hL⟩ : ∃ L, m.label = lab :: L := by
      cases hx : m.label with
      | nil => rw [hx] at hlab; cases hlab
      | cons a L => rw [hx] at hlab; injection hlab with hlab; exact ⟨L, by rw [hlab]⟩
    obtain ⟨F, hFr⟩ : ∃ F, m.frame = f :: F := by
      cases hx : m.frame with
      | nil => rw [hx] at hff; cases hff
      | cons a L => rw [hx] at hff; injection hff with hff; exact ⟨L, by rw [hff]⟩
    exact ⟨lab, L, f, F, t, tab, ta, table, v, rest, e, hL, hFr, hi, hta, htb, hv, he, hne⟩

theorem two_evaluate (hH : c.W.HostKeeps c.strict H) (hs : c.strict = true) (N : Nat) (h : Rel c m n) :
    Two c (evaluate H N) (evaluate H N) m n fun _ m' n' => Rel c m' n' := by
  induction N generalizing m n with
  | zero => exact two_pure h
  | succ N ih =>
    unfold evaluate
    refine two_get ?_
    rw [h.label]
    refine two_ite (two_pure h) (two_bind ?_)
    exact two_mono (two_step hH h (by rw [hs]; nofun)) fun _ _ _ h => ih h

theorem two_invocate (hH : c.W.HostKeeps c.strict H) (hs : c.strict = true) (N : Nat) {a : Nat} {args : List Val} (h : Rel c m n)
    (ha : c.W.func a) (hargs : ∀ v ∈ args, c.W.Holds v) :
    Two c (invocate H N a args) (invocate H N a args) m n fun rets m' n' => Rel c m' n' ∧ ∀ v ∈ rets, c.W.Holds v := by
  unfold invocate
  refine two_get (two_bind (two_lift h ?_ fun func hfunc => ?_))
  · rw [getItem_nat, getItem_nat, h.agree.func a ha]
  have hg : m.store.func[a]? = some func := by
    rw [getItem_nat] at hfunc
    cases hx : m.store.func[a]? with
    | none => rw [hx] at hfunc; cases hfunc
    | some f => rw [hx] at hfunc; injection hfunc with hfunc; rw [hfunc]
  cases func with
  | host t k => exact two_throw h
  | wasm t k code =>
    obtain ⟨hk, hc⟩ := h.run.store.func a t k code ha hg
    dsimp only
    refine two_bind (two_assert h rfl fun _ => two_bind (two_modify ?_))
    have hnil : c.W.Owns {} := ⟨by simp, by simp, by simp, by simp, by simp, by simp⟩
    have h1 : Rel c { m with frame := ⟨{}, [], 0, 0, 0⟩ :: m.frame } { n with frame := ⟨{}, [], 0, 0, 0⟩ :: n.frame } := by
      rw [h.frame]
      refine h.setFrame fun f hf => ?_
      rcases List.mem_cons.mp hf with rfl | hf
      · exact ⟨hnil, by simp⟩
      · exact h.run.frame f hf
    revert h1
    have hst : ∀ k, c.W.mods k → n.store.mods[k]? = m.store.mods[k]? := h.agree.mods
    generalize hm' : ({ m with frame := ⟨{}, [], 0, 0, 0⟩ :: m.frame } : Machine) = m'
    generalize ({ n with frame := ⟨{}, [], 0, 0, 0⟩ :: n.frame } : Machine) = n'
    clear hm' hst
    intro h1
    refine two_get (two_bind (two_idx h1 (h1.agree.mods k hk) fun mod hmod => two_bind (two_modify ?_)))
    have hown := h1.run.store.mods k mod hk hmod
    have h2 : Rel c { m' with frame := ⟨mod, args ++ zeroLocals code.locals, t.rets.length, 0, 0⟩ :: m'.frame }
        { n' with frame := ⟨mod, args ++ zeroLocals code.locals, t.rets.length, 0, 0⟩ :: n'.frame } := by
      rw [h1.frame]
      refine h1.setFrame fun f hf => ?_
      rcases List.mem_cons.mp hf with rfl | hf
      · refine ⟨hown, fun v hv => ?_⟩
        rcases List.mem_append.mp hv with hv | hv
        · exact hargs v hv
        · exact zero_holds v hv
      · exact h1.run.frame f hf
    refine two_bind (two_modify ?_)
    have h3 := two_pushLabel (f := fun _ => ⟨t.rets.length, 1, 0, .func, code.expr, 0⟩) h2 rfl hc
    refine two_bind (two_mono (two_evaluate hH hs N h3) fun _ m n h => ?_)
    refine two_bind (two_popN h fun rets m n h hr => two_bind (two_assert h rfl fun _ => two_get ?_))
    rw [h.frame]
    refine two_ite (two_bind (two_throw h)) ?_
    refine two_bind (two_modify ?_)
    have h4 : Rel c { m with frame := m.frame.tail } { n with frame := n.frame.tail } := by
      rw [h.frame]
      exact h.setFrame fun f hf => h.run.frame f (List.mem_of_mem_tail hf)
    revert h4
    generalize ({ m with frame := m.frame.tail } : Machine) = m1
    generalize ({ n with frame := n.frame.tail } : Machine) = n1
    intro h
    refine two_get (two_bind (two_assert h (by rw [h.frame]) fun _ => ?_))
    refine two_get (two_bind (two_assert h (by rw [h.label]) fun _ => ?_))
    refine two_get (two_bind (two_assert h (by rw [h.value]) fun _ => ?_))
    exact two_pure ⟨h, hr⟩


end Pywasm.Iso
