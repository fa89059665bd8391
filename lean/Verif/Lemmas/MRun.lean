import Verif.Lemmas.Attr
import Verif.Lemmas.VM
import Verif.Model.Machine

/-!
# Running machine code
-/

namespace Pywasm.M

theorem bind_run {α β} (x : M α) (f : α → M β) (m : Machine) :
    (x >>= f) m = match x m with
      | .ok a m' => f a m'
      | .error e m' => .error e m' := by
  show EStateM.bind x f m = _
  unfold EStateM.bind
  cases x m <;> rfl

theorem bind_ok {α β} {x : M α} {f : α → M β} {m a m'} (h : x m = .ok a m') : (x >>= f) m = f a m' := by
  rw [bind_run, h]
theorem bind_err {α β} {x : M α} {f : α → M β} {m e m'} (h : x m = .error e m') : (x >>= f) m = .error e m' := by
  rw [bind_run, h]

@[mrun] theorem pure_run {α} (a : α) (m : Machine) : (pure a : M α) m = .ok a m := rfl
@[mrun] theorem get_run (m : Machine) : (get : M Machine) m = .ok m m := rfl
@[mrun] theorem modify_run (f : Machine → Machine) (m : Machine) : (modify f : M Unit) m = .ok () (f m) := rfl
@[mrun] theorem throw_run {α} (e : Err) (m : Machine) : (throw e : M α) m = .error e m := rfl
@[mrun] theorem lift_ok {α} (a : α) (m : Machine) : lift (.ok a) m = .ok a m := rfl
@[mrun] theorem lift_err {α} (e : Err) (m : Machine) : (lift (.error e) : M α) m = .error e m := rfl
@[mrun] theorem assert_true (m : Machine) : assert true m = .ok () m := rfl
@[mrun] theorem assert_false (m : Machine) : assert false m = .error .assertion m := rfl
theorem idx_some {α} {l : List α} {i : Nat} {a : α} (h : l[i]? = some a) (m : Machine) : idx l i m = .ok a m := by
  simp [idx, h]
theorem idx_none {α} {l : List α} {i : Nat} (h : l[i]? = none) (m : Machine) : idx l i m = .error .index m := by
  simp [idx, h]
@[mrun] theorem bind_pure_run {α β} (a : α) (f : α → M β) (m : Machine) : ((pure a : M α) >>= f) m = f a m := rfl
@[mrun] theorem bind_get_run {β} (f : Machine → M β) (m : Machine) : ((get : M Machine) >>= f) m = f m m := rfl
@[mrun] theorem bind_modify_run {β} (g : Machine → Machine) (f : Unit → M β) (m : Machine) :
    ((modify g : M Unit) >>= f) m = f () (g m) := rfl
@[mrun] theorem bind_assoc_run {α β γ} (x : M α) (f : α → M β) (g : β → M γ) (m : Machine) :
    ((x >>= f) >>= g) m = (x >>= fun a => f a >>= g) m := by
  simp only [bind_run]; cases x m <;> rfl
theorem bind_idx_some {α β} {l : List α} {i : Nat} {a : α} (h : l[i]? = some a) (f : α → M β) (m : Machine) :
    (idx l i >>= f) m = f a m := bind_ok (idx_some h m)
theorem bind_idx_none {α β} {l : List α} {i : Nat} (h : l[i]? = none) (f : α → M β) (m : Machine) :
    (idx l i >>= f) m = .error .index m := bind_err (idx_none h m)
theorem bind_assert {β} (c : Bool) (f : Unit → M β) (m : Machine) :
    (assert c >>= f) m = if c then f () m else .error .assertion m := by
  cases c <;> rfl
theorem bind_assert_pos {β} {p : Prop} [Decidable p] (h : p) (f : Unit → M β) (m : Machine) :
    (assert (decide p) >>= f) m = f () m := by simp [bind_assert, h]
theorem bind_assert_neg {β} {p : Prop} [Decidable p] (h : ¬p) (f : Unit → M β) (m : Machine) :
    (assert (decide p) >>= f) m = .error .assertion m := by simp [bind_assert, h]
@[mrun] theorem bind_lift_ok {α β} (a : α) (f : α → M β) (m : Machine) : (lift (.ok a) >>= f) m = f a m := rfl
@[mrun] theorem bind_lift_err {α β} (e : Err) (f : α → M β) (m : Machine) :
    ((lift (.error e) : M α) >>= f) m = .error e m := rfl
theorem pop_eq {m : Machine} {v s} (h : m.value = v :: s) : pop m = .ok v { m with value := s } := by
  simp [pop, vm, h, VM.pop]
theorem pop_nil {m : Machine} (h : m.value = []) : pop m = .error .index m := by
  cases m; simp_all [pop, vm, VM.pop]
theorem bind_pop {β} {m : Machine} {v s} (h : m.value = v :: s) (f : Val → M β) :
    (pop >>= f) m = f v { m with value := s } := bind_ok (pop_eq h)
@[mrun] theorem push_eq (v : Val) (m : Machine) : push v m = .ok () { m with value := v :: m.value } := rfl
@[mrun] theorem bind_push {β} (v : Val) (f : Unit → M β) (m : Machine) :
    (push v >>= f) m = f () { m with value := v :: m.value } := rfl
theorem popU32_eq {m : Machine} {v s} (h : m.value = v :: s) : popU32 m = .ok v.low32.toNat { m with value := s } := by
  have : v.intoU32.toNat = v.low32.toNat := by rw [Val.intoU32_eq]; rfl
  rw [← this]; unfold popU32; rw [bind_pop h]; rfl
theorem bind_popU32 {β} {m : Machine} {v s} (h : m.value = v :: s) (f : Nat → M β) :
    (popU32 >>= f) m = f v.low32.toNat { m with value := s } := bind_ok (popU32_eq h)
theorem popI32_eq {m : Machine} {v s} (h : m.value = v :: s) : popI32 m = .ok v.low32.toInt { m with value := s } := by
  rw [← Val.intoI32_eq]; unfold popI32; rw [bind_pop h]; rfl
theorem bind_popI32 {β} {m : Machine} {v s} (h : m.value = v :: s) (f : Int → M β) :
    (popI32 >>= f) m = f v.low32.toInt { m with value := s } := bind_ok (popI32_eq h)
theorem topFrame_eq {m : Machine} {f fs} (h : m.frame = f :: fs) : topFrame m = .ok f m := by
  unfold topFrame; rw [bind_get_run]; exact idx_some (by simp [h]) m
theorem bind_topFrame {β} {m : Machine} {f fs} (h : m.frame = f :: fs) (g : Frame → M β) :
    (topFrame >>= g) m = g f m := bind_ok (topFrame_eq h)
theorem theMem_eq {m : Machine} {f : Frame} {a mem} (h : f.module.mems[0]? = some a) (hm : m.store.mems[a]? = some mem) :
    theMem f m = .ok (a, mem) m := by
  unfold theMem; rw [bind_idx_some h, bind_get_run, bind_idx_some hm]; rfl
theorem bind_theMem {β} {m : Machine} {f : Frame} {a mem} (h : f.module.mems[0]? = some a)
    (hm : m.store.mems[a]? = some mem) (g : Nat × MemInst → M β) : (theMem f >>= g) m = g (a, mem) m :=
  bind_ok (theMem_eq h hm)
theorem theTable_eq {m : Machine} {f : Frame} {i a t} (h : f.module.tabl[i]? = some a) (hm : m.store.tabl[a]? = some t) :
    theTable f i m = .ok (a, t) m := by
  unfold theTable; rw [bind_idx_some h, bind_get_run, bind_idx_some hm]; rfl
theorem bind_theTable {β} {m : Machine} {f : Frame} {i a t} (h : f.module.tabl[i]? = some a)
    (hm : m.store.tabl[a]? = some t) (g : Nat × TableInst → M β) : (theTable f i >>= g) m = g (a, t) m :=
  bind_ok (theTable_eq h hm)
@[mrun] theorem setMem_run (a : Nat) (mem : MemInst) (m : Machine) :
    setMem a mem m = .ok () { m with store := { m.store with mems := m.store.mems.set a mem } } := rfl
@[mrun] theorem setTable_run (a : Nat) (t : TableInst) (m : Machine) :
    setTable a t m = .ok () { m with store := { m.store with tabl := m.store.tabl.set a t } } := rfl
@[mrun] theorem extend_run (l : List Val) (m : Machine) :
    extend l m = .ok () { m with value := l.reverse ++ m.value } := rfl

/-- `popN n` takes the top `n` operands. -/
theorem popN_eq {m : Machine} (l : List Val) : ∀ {s}, m.value = l.reverse ++ s →
    popN l.length m = .ok l { m with value := s } := by
  induction l using List.reverseRecOn generalizing m with
  | nil => intro s h; cases m; simp_all [popN, pure_run]
  | append_singleton l v ih =>
    intro s h
    simp only [List.length_append, List.length_singleton, List.reverse_append, List.reverse_singleton,
      List.cons_append] at h ⊢
    unfold popN
    rw [bind_pop h, bind_ok (ih (s := s) rfl)]; rfl
theorem bind_popN {β} {m : Machine} {l : List Val} {s} {n} (h : m.value = l.reverse ++ s) (hn : n = l.length)
    (f : List Val → M β) : (popN n >>= f) m = f l { m with value := s } := by
  subst hn; exact bind_ok (popN_eq l h)

end Pywasm.M
