import Verif.Lemmas.MRun

/-! A small program logic for machine code: `Wp x Q E m` says that running `x` on `m` ends with `Q` (normally) or `E`
(by an exception). -/

namespace Pywasm
open M

def Wp {α} (x : M α) (Q : α → Machine → Prop) (E : Machine → Prop) (m : Machine) : Prop :=
  match x m with
  | .ok a m' => Q a m'
  | .error _ m' => E m'

section
variable {α β : Type} {Q : α → Machine → Prop} {E : Machine → Prop} {m : Machine}

theorem wp_bind {x : M α} {f : α → M β} {Q : β → Machine → Prop} (h : Wp x (fun a => Wp (f a) Q E) E m) :
    Wp (x >>= f) Q E m := by
  unfold Wp at *
  rw [bind_run]
  cases hx : x m <;> simp only [hx] at h ⊢ <;> exact h
theorem wp_mono {x : M α} {Q' : α → Machine → Prop} {E' : Machine → Prop} (h : Wp x Q E m) (hQ : ∀ a m', Q a m' → Q' a m')
    (hE : ∀ m', E m' → E' m') : Wp x Q' E' m := by
  unfold Wp at *
  cases hx : x m <;> simp only [hx] at h ⊢
  · exact hQ _ _ h
  · exact hE _ h
theorem wp_pure {a : α} (h : Q a m) : Wp (pure a) Q E m := h
theorem wp_get {Q : Machine → Machine → Prop} (h : Q m m) : Wp get Q E m := h
theorem wp_modify {f : Machine → Machine} {Q : Unit → Machine → Prop} (h : Q () (f m)) : Wp (modify f) Q E m := h
theorem wp_throw {e : Err} (h : E m) : Wp (throw e : M α) Q E m := h
theorem wp_lift {e : Except Err α} (h : ∀ a, e = .ok a → Q a m) (hE : E m) : Wp (lift e) Q E m := by
  cases e with
  | ok a => exact h a rfl
  | error e => exact hE
theorem wp_assert {c : Bool} {Q : Unit → Machine → Prop} (h : c = true → Q () m) (hE : E m) : Wp (assert c) Q E m := by
  cases c with
  | true => exact h rfl
  | false => exact hE
theorem wp_idx {l : List α} {i : Nat} (h : ∀ a, l[i]? = some a → Q a m) (hE : E m) : Wp (idx l i) Q E m := by
  cases hx : l[i]? with
  | none => unfold Wp; rw [idx_none hx]; exact hE
  | some a => unfold Wp; rw [idx_some hx]; exact h a hx
theorem wp_vm {c : VM α} (h : ∀ a s, Q a { m with value := s }) (hE : ∀ s, E { m with value := s }) : Wp (vm c) Q E m := by
  unfold Wp vm
  cases c m.value <;> simp only
  · exact h _ _
  · exact hE _
theorem wp_pop {Q : Val → Machine → Prop} (h : ∀ v s, m.value = v :: s → Q v { m with value := s }) (hE : E m) :
    Wp pop Q E m := by
  unfold Wp
  cases hv : m.value with
  | nil => rw [pop_nil hv]; exact hE
  | cons v s => rw [pop_eq hv]; exact h v s hv
theorem wp_push {v : Val} {Q : Unit → Machine → Prop} (h : Q () { m with value := v :: m.value }) : Wp (push v) Q E m := h
theorem wp_popU32 {Q : Nat → Machine → Prop} (h : ∀ v s, m.value = v :: s → Q v.low32.toNat { m with value := s })
    (hE : E m) : Wp popU32 Q E m := by
  unfold Wp
  cases hv : m.value with
  | nil => unfold popU32; rw [bind_err (pop_nil hv)]; exact hE
  | cons v s => rw [popU32_eq hv]; exact h v s hv
theorem wp_popI32 {Q : Int → Machine → Prop} (h : ∀ v s, m.value = v :: s → Q v.low32.toInt { m with value := s })
    (hE : E m) : Wp popI32 Q E m := by
  unfold Wp
  cases hv : m.value with
  | nil => unfold popI32; rw [bind_err (pop_nil hv)]; exact hE
  | cons v s => rw [popI32_eq hv]; exact h v s hv
theorem wp_popN {n : Nat} {Q : List Val → Machine → Prop}
    (h : ∀ l s, l.length = n → m.value = l.reverse ++ s → Q l { m with value := s })
    (hE : ∀ s, E { m with value := s }) : Wp (popN n) Q E m := by
  induction n generalizing m Q with
  | zero => exact h [] m.value rfl rfl
  | succ n ih =>
    apply wp_bind
    apply wp_pop
    · intro v s hv
      apply wp_bind
      apply ih
      · intro l s' hl hs
        refine wp_pure (h (l ++ [v]) s' (by simp [hl]) ?_)
        simp only at hs
        simp [hv, hs]
      · intro s'; exact hE s'
    · exact hE m.value
theorem wp_extend {l : List Val} {Q : Unit → Machine → Prop} (h : Q () { m with value := l.reverse ++ m.value }) :
    Wp (extend l) Q E m := h
theorem wp_topFrame {Q : Frame → Machine → Prop} (h : ∀ f fs, m.frame = f :: fs → Q f m) (hE : E m) : Wp topFrame Q E m := by
  unfold Wp
  cases hf : m.frame with
  | nil => unfold topFrame; rw [bind_get_run, idx_none (by simp [hf])]; exact hE
  | cons f fs => rw [topFrame_eq hf]; exact h f fs hf
theorem wp_theMem {f : Frame} {Q : Nat × MemInst → Machine → Prop}
    (h : ∀ a mem, f.module.mems[0]? = some a → m.store.mems[a]? = some mem → Q (a, mem) m) (hE : E m) :
    Wp (theMem f) Q E m := by
  apply wp_bind; apply wp_idx _ hE
  intro a ha
  apply wp_bind; apply wp_get; apply wp_bind; apply wp_idx _ hE
  intro mem hm
  exact wp_pure (h a mem ha hm)
theorem wp_theTable {f : Frame} {i : Nat} {Q : Nat × TableInst → Machine → Prop}
    (h : ∀ a t, f.module.tabl[i]? = some a → m.store.tabl[a]? = some t → Q (a, t) m) (hE : E m) :
    Wp (theTable f i) Q E m := by
  apply wp_bind; apply wp_idx _ hE
  intro a ha
  apply wp_bind; apply wp_get; apply wp_bind; apply wp_idx _ hE
  intro mem hm
  exact wp_pure (h a mem ha hm)
theorem wp_setMem {a : Nat} {mem : MemInst} {Q : Unit → Machine → Prop}
    (h : Q () { m with store := { m.store with mems := m.store.mems.set a mem } }) : Wp (setMem a mem) Q E m := h
theorem wp_setTable {a : Nat} {t : TableInst} {Q : Unit → Machine → Prop}
    (h : Q () { m with store := { m.store with tabl := m.store.tabl.set a t } }) : Wp (setTable a t) Q E m := h
theorem wp_ite {c : Prop} [Decidable c] {x y : M α} (h1 : c → Wp x Q E m) (h2 : ¬ c → Wp y Q E m) :
    Wp (if c then x else y) Q E m := by
  split
  · exact h1 ‹_›
  · exact h2 ‹_›
theorem wp_callHost {H : Host} {c : Nat} {args : List HVal} {Q : List HVal → Machine → Prop}
    (h : ∀ a s, H c (m.frame.head?.map (·.module)) args m.store = .ok a s → Q a { m with store := s })
    (hE : ∀ e s, H c (m.frame.head?.map (·.module)) args m.store = .error e s → E { m with store := s }) : Wp (callHost H c args) Q E m := by
  unfold Wp callHost
  cases hx : H c (m.frame.head?.map (·.module)) args m.store <;> simp only
  · exact h _ _ hx
  · exact hE _ _ hx
end

attribute [irreducible] Wp

/-- one rule of the logic -/
macro "wp_rule" : tactic => `(tactic| first
  | (with_reducible intro _)
  | with_reducible apply wp_bind
  | with_reducible apply wp_ite
  | with_reducible apply wp_pure
  | with_reducible apply wp_get
  | with_reducible apply wp_modify
  | with_reducible apply wp_throw
  | with_reducible apply wp_assert
  | with_reducible apply wp_popU32
  | with_reducible apply wp_popI32
  | with_reducible apply wp_popN
  | with_reducible apply wp_pop
  | with_reducible apply wp_push
  | with_reducible apply wp_extend
  | with_reducible apply wp_topFrame
  | with_reducible apply wp_theMem
  | with_reducible apply wp_theTable
  | with_reducible apply wp_setMem
  | with_reducible apply wp_setTable
  | with_reducible apply wp_lift
  | with_reducible apply wp_idx
  | with_reducible apply wp_vm
  | with_reducible apply wp_callHost)

/-- apply the rules until only facts about states are left -/
macro "wp_run" : tactic => `(tactic| repeat' wp_rule)

end Pywasm
