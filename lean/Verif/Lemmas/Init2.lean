import Verif.Lemmas.Init

namespace Pywasm
open Spec M Props

variable {H : Host} {m m' : Machine} {N : Nat}

theorem constVal_mono {s s' : Store} {F G G' : List Nat} {e : Expr} {v : Val} (h : constVal s F G e = some v)
    (hg : ∀ (i : Nat) x, s.glob[i]? = some x → s'.glob[i]? = some x) : constVal s' F (G ++ G') e = some v := by
  unfold constVal at h ⊢
  split at h
  · rename_i i
    cases h1 : G[i]? with
    | none => simp [h1] at h
    | some a =>
      cases h2 : s.glob[a]? with
      | none => simp [h1, h2] at h
      | some g =>
        simp only [h1, h2, Option.bind_some, Option.map_some, Option.some.injEq] at h
        simp [append_getElem? G' h1, hg a g h2, h]
  · exact h
  · exact h
  · cases h

theorem toNat_low32_i32 (n : Nat) (h : n < 2 ^ 31) : (i32 (BitVec.ofInt 32 (n : Int))).low32.toNat = n := by
  rw [low32_i32]
  simp
  omega

theorem const_nat (n : Nat) (h : n < 2 ^ 31) : ∃ v, Ref.const (.i32Const n) = some v ∧ v.low32.toNat = n :=
  ⟨i32 (BitVec.ofInt 32 (n : Int)), by simp only [Ref.const]; rw [if_pos (by omega)], toNat_low32_i32 n h⟩

theorem plains_i32Const {mod : ModuleInst} {x : Int} {v : Val} {s : Store} {ls vs : List Val}
    (h : Ref.const (.i32Const x) = some v) (is : List Inst) :
    plains mod (.i32Const x :: is) ⟨s, ls, vs⟩ = plains mod is ⟨s, ls, v :: vs⟩ := by
  simp only [plains, Ref.plain, h]

/-- Copying one active element segment. -/
theorem elemInit_wp {i : Nat} {e : ElemDesc} {f : Frame} {off : Val} {a ea : Nat} {t : TableInst} {el : ElemInst}
    (hf : m.frame = [f]) (hl : m.label = []) (hv : m.value = [])
    (ho : constVal m.store f.module.func f.module.glob e.offset = some off)
    (ht1 : f.module.tabl[e.tidx]? = some a) (ht2 : m.store.tabl[a]? = some t)
    (he1 : f.module.elem[i]? = some ea) (he2 : m.store.elem[ea]? = some el) (hlen : el.data.length = e.init.length)
    (hsmall : e.init.length < 2 ^ 31) :
    Wp (runInit H N (elemInitExpr i e) 0) (fun _ m' => ∃ T, copyElem f.module e.tidx off.low32.toNat el.data m.store.tabl = some T ∧
      m' = { m with store := { m.store with tabl := T, elem := m.store.elem.set ea { el with data := [] } } })
      (fun _ => ¬ (5 < N ∧ ∃ T, copyElem f.module e.tidx off.low32.toNat el.data m.store.tabl = some T)) m := by
  have h := plains_const (ls := f.locals) (vs := []) ho
    [.i32Const 0, .i32Const e.init.length, .tableInit i e.tidx, .elemDrop i]
  have hg : Ref.coveredList true 0 (elemInitExpr i e) = true := by
    unfold elemInitExpr; rw [h.2]; simp [Ref.coveredList, Ref.covered]
  have hT : Ref.theTable f.module m.store e.tidx = some (a, t) := by simp [Ref.theTable, ht1, ht2]
  have hE : Ref.theElem f.module m.store i = some (ea, el) := by simp [Ref.theElem, he1, he2]
  have hp : plains f.module (elemInitExpr i e) ⟨m.store, f.locals, []⟩ =
      if off.low32.toNat + e.init.length ≤ t.elem.length then
        .ok ⟨{ m.store with
          tabl := m.store.tabl.set a { t with elem := patch t.elem off.low32.toNat el.data }
          elem := m.store.elem.set ea { el with data := [] } }, f.locals, []⟩
      else .trap := by
    unfold elemInitExpr
    rw [h.1]
    obtain ⟨v0, c0, z0⟩ := const_nat 0 (by omega)
    obtain ⟨v1, c1, z1⟩ := const_nat e.init.length hsmall
    rw [show ((0 : Nat) : Int) = 0 from rfl] at c0
    rw [plains_i32Const c0, plains_i32Const c1]
    simp only [plains, Ref.plain, Ref.table, hT, hE]
    rw [z0, z1, Nat.zero_add, hlen]
    by_cases hc : off.low32.toNat + e.init.length ≤ t.elem.length
    · rw [if_pos ⟨le_refl _, hc⟩, if_pos hc]
      have hr : range el.data 0 e.init.length = el.data := by simp [range, ← hlen]
      have hE' : ∀ tab, Ref.theElem f.module { m.store with tabl := tab } i = some (ea, el) := fun _ => hE
      simp only [Ref.St.withTable, hE', hr]
    · rw [if_neg (fun h => hc h.2), if_neg hc]
  have hlen5 : (elemInitExpr i e).length = 5 := by simp [elemInitExpr, constVal_length ho]
  refine wp_mono (runInit_wp (H := H) (N := N) (nval := 0) hf hl hv hg hp) (fun _ m' h1 => ?_) (fun _ h1 h2 => h1 ⟨by omega, ?_⟩)
  swap
  · obtain ⟨_, T, hT2⟩ := h2
    simp only [copyElem, ht1, ht2, Option.bind_some] at hT2
    rw [hlen] at hT2
    split at hT2
    · rename_i hc; rw [if_pos hc]; exact ⟨_, rfl, rfl⟩
    · cases hT2
  by_cases hc : off.low32.toNat + e.init.length ≤ t.elem.length
  · simp only [if_pos hc] at h1
    refine ⟨m.store.tabl.set a { t with elem := patch t.elem off.low32.toNat el.data }, ?_, ?_⟩
    · simp only [copyElem, ht1, ht2, Option.bind_some]
      rw [if_pos (by rw [hlen]; exact hc)]
    · rw [h1.2]
      cases m
      simp_all
  · simp only [if_neg hc] at h1
    exact h1.elim

/-- Dropping a declarative element segment. -/
theorem elemDrop_wp {i : Nat} {f : Frame} {ea : Nat} {el : ElemInst}
    (hf : m.frame = [f]) (hl : m.label = []) (hv : m.value = [])
    (he1 : f.module.elem[i]? = some ea) (he2 : m.store.elem[ea]? = some el) :
    Wp (runInit H N [.elemDrop i] 0) (fun _ m' =>
      m' = { m with store := { m.store with elem := m.store.elem.set ea { el with data := [] } } }) (fun _ => ¬ 5 < N) m := by
  have hE : Ref.theElem f.module m.store i = some (ea, el) := by simp [Ref.theElem, he1, he2]
  have hp : plains f.module [.elemDrop i] ⟨m.store, f.locals, []⟩ =
      .ok ⟨{ m.store with elem := m.store.elem.set ea { el with data := [] } }, f.locals, []⟩ := by
    simp only [plains, Ref.plain, Ref.table, hE]
  refine wp_mono (runInit_wp (H := H) (N := N) (nval := 0) hf hl hv rfl hp) (fun _ m' h1 => ?_)
    (fun _ h1 h2 => h1 ⟨by simp only [List.length_singleton]; omega, _, rfl, rfl⟩)
  rw [h1.2]
  cases m
  simp_all

/-- Copying one active data segment. -/
theorem dataInit_wp {i : Nat} {e : DataDesc} {f : Frame} {off : Val} {a da b : Nat} {t : MemInst}
    (hf : m.frame = [f]) (hl : m.label = []) (hv : m.value = [])
    (ho : constVal m.store f.module.func f.module.glob e.offset = some off)
    (ht1 : f.module.mems[0]? = some a) (ht2 : m.store.mems[a]? = some t)
    (he1 : f.module.data[i]? = some da) (he2 : m.store.data[da]? = some b) (he3 : m.store.bufs[b]? = some e.init)
    (hsmall : e.init.length < 2 ^ 31) :
    Wp (runInit H N (dataInitExpr i e e.init.length) 0)
      (fun _ m' => ∃ T, copyData f.module off.low32.toNat e.init m.store.mems = some T ∧
        m' = { m with store := { m.store with mems := T, bufs := m.store.bufs.set b [] } })
      (fun _ => ¬ (5 < N ∧ ∃ T, copyData f.module off.low32.toNat e.init m.store.mems = some T)) m := by
  have h := plains_const (ls := f.locals) (vs := []) ho
    [.i32Const 0, .i32Const e.init.length, .memoryInit i, .dataDrop i]
  have hg : Ref.coveredList true 0 (dataInitExpr i e e.init.length) = true := by
    unfold dataInitExpr; rw [h.2]; simp [Ref.coveredList, Ref.covered]
  have hT : Ref.theMem f.module m.store = some (a, t) := by simp [Ref.theMem, ht1, ht2]
  have hE : Ref.theData f.module m.store i = some (b, e.init) := by simp [Ref.theData, he1, he2, he3]
  have hp : plains f.module (dataInitExpr i e e.init.length) ⟨m.store, f.locals, []⟩ =
      if off.low32.toNat + e.init.length ≤ t.data.length then
        .ok ⟨{ m.store with
          mems := m.store.mems.set a { t with data := patch t.data off.low32.toNat e.init }
          bufs := m.store.bufs.set b [] }, f.locals, []⟩
      else .trap := by
    unfold dataInitExpr
    rw [h.1]
    obtain ⟨v0, c0, z0⟩ := const_nat 0 (by omega)
    obtain ⟨v1, c1, z1⟩ := const_nat e.init.length hsmall
    rw [show ((0 : Nat) : Int) = 0 from rfl] at c0
    rw [plains_i32Const c0, plains_i32Const c1]
    simp only [plains, Ref.plain, Ref.memory, hT, hE]
    rw [z0, z1, Nat.zero_add]
    by_cases hc : off.low32.toNat + e.init.length ≤ t.data.length
    · rw [if_pos ⟨le_refl _, hc⟩, if_pos hc]
      have hr : range e.init 0 e.init.length = e.init := by simp [range]
      have hE' : ∀ tab, Ref.theData f.module { m.store with mems := tab } i = some (b, e.init) := fun _ => hE
      simp only [Ref.St.withMem, hE', hr]
    · rw [if_neg (fun h => hc h.2), if_neg hc]
  have hlen5 : (dataInitExpr i e e.init.length).length = 5 := by simp [dataInitExpr, constVal_length ho]
  refine wp_mono (runInit_wp (H := H) (N := N) (nval := 0) hf hl hv hg hp) (fun _ m' h1 => ?_) (fun _ h1 h2 => h1 ⟨by omega, ?_⟩)
  swap
  · obtain ⟨_, T, hT2⟩ := h2
    simp only [copyData, ht1, ht2, Option.bind_some] at hT2
    split at hT2
    · rename_i hc; rw [if_pos hc]; exact ⟨_, rfl, rfl⟩
    · cases hT2
  by_cases hc : off.low32.toNat + e.init.length ≤ t.data.length
  · simp only [if_pos hc] at h1
    refine ⟨m.store.mems.set a { t with data := patch t.data off.low32.toNat e.init }, ?_, ?_⟩
    · simp only [copyData, ht1, ht2, Option.bind_some]
      rw [if_pos hc]
    · rw [h1.2]
      cases m
      simp_all
  · simp only [if_neg hc] at h1
    exact h1.elim

end Pywasm
