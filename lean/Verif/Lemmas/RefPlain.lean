import Verif.Lemmas.NumLocal
import Verif.Spec.Ref
import Verif.Spec.Deviation
import Verif.Props.Memory
import Verif.Props.Table
import Verif.Props.Vars
import Verif.Props.Int

/-! The interpreter agrees with the reference interpreter on every instruction that is not a control instruction. -/

namespace Pywasm
open Spec M Props

/-- The machine inside label `lab` and frame `fr`, with the operands of the running block on top of `rest`. -/
def conf (st : Ref.St) (rest : List Val) (lab : Label) (L : List Label) (fr : Frame) (F : List Frame) : Machine :=
  ⟨st.store, st.vs ++ rest, lab :: L, { fr with locals := st.locals } :: F⟩

/-- the label after its current instruction -/
def Label.adv (l : Label) : Label := { l with index := l.index + 1 }

variable {H : Host} {st : Ref.St} {rest : List Val} {lab : Label} {L : List Label} {fr : Frame} {F : List Frame}

/-- one step from `m` has the outcome `o` -/
def PSim (H : Host) (m : Machine) (rest : List Val) (lab : Label) (L : List Label) (fr : Frame) (F : List Frame) :
    Ref.Plain → Prop
  | .ok st' => step H m = .ok () (conf st' rest lab.adv L fr F)
  | .trap => Traps H m
  | .stuck => True

theorem conf_next : next (conf st rest lab L fr F) = lab.instr[lab.index]? := rfl
theorem conf_advance : advance (conf st rest lab L fr F) = conf st rest lab.adv L fr F := rfl
theorem conf_mem {a mem} (h : Ref.theMem fr.module st.store = some (a, mem)) : HasMem (conf st rest lab L fr F) a mem := by
  unfold Ref.theMem at h
  cases h1 : fr.module.mems[0]? with
  | none => simp [h1] at h
  | some b =>
    cases h2 : st.store.mems[b]? with
    | none => simp [h1, h2] at h
    | some mm =>
      simp only [h1, h2, Option.bind_some, Option.map_some, Option.some.injEq, Prod.mk.injEq] at h
      obtain ⟨rfl, rfl⟩ := h
      exact ⟨fr.module, rfl, h1, h2⟩
theorem conf_table {i a t} (h : Ref.theTable fr.module st.store i = some (a, t)) :
    HasTable (conf st rest lab L fr F) i a t := by
  unfold Ref.theTable at h
  cases h1 : fr.module.tabl[i]? with
  | none => simp [h1] at h
  | some b =>
    cases h2 : st.store.tabl[b]? with
    | none => simp [h1, h2] at h
    | some mm =>
      simp only [h1, h2, Option.bind_some, Option.map_some, Option.some.injEq, Prod.mk.injEq] at h
      obtain ⟨rfl, rfl⟩ := h
      exact ⟨fr.module, rfl, h1, h2⟩
theorem conf_global {i a t} (h : Ref.theGlobal fr.module st.store i = some (a, t)) :
    HasGlobal (conf st rest lab L fr F) i a t := by
  unfold Ref.theGlobal at h
  cases h1 : fr.module.glob[i]? with
  | none => simp [h1] at h
  | some b =>
    cases h2 : st.store.glob[b]? with
    | none => simp [h1, h2] at h
    | some mm =>
      simp only [h1, h2, Option.bind_some, Option.map_some, Option.some.injEq, Prod.mk.injEq] at h
      obtain ⟨rfl, rfl⟩ := h
      exact ⟨fr.module, rfl, h1, h2⟩
theorem conf_elem {i a t} (h : Ref.theElem fr.module st.store i = some (a, t)) :
    HasElem (conf st rest lab L fr F) i a t := by
  unfold Ref.theElem at h
  cases h1 : fr.module.elem[i]? with
  | none => simp [h1] at h
  | some b =>
    cases h2 : st.store.elem[b]? with
    | none => simp [h1, h2] at h
    | some mm =>
      simp only [h1, h2, Option.bind_some, Option.map_some, Option.some.injEq, Prod.mk.injEq] at h
      obtain ⟨rfl, rfl⟩ := h
      exact ⟨fr.module, rfl, h1, h2⟩
theorem conf_data {i b t} (h : Ref.theData fr.module st.store i = some (b, t)) :
    HasData (conf st rest lab L fr F) i b t := by
  unfold Ref.theData at h
  cases h1 : fr.module.data[i]? with
  | none => simp [h1] at h
  | some c =>
    cases h2 : st.store.data[c]? with
    | none => simp [h1, h2] at h
    | some d =>
      cases h3 : st.store.bufs[d]? with
      | none => simp [h1, h2, h3] at h
      | some mm =>
        simp only [h1, h2, h3, Option.bind_some, Option.map_some, Option.some.injEq, Prod.mk.injEq] at h
        obtain ⟨rfl, rfl⟩ := h
        exact ⟨fr.module, c, rfl, h1, h2, h3⟩

theorem fromRef_of_pack (ty : ValType) {a : Int} {B : Bytes} (e : Py.packS 4 a = .ok B) (hB : B.length = 4) :
    Val.fromRef ty a = .ok ⟨ty, B ++ (1 :: List.replicate 11 0), by simp [hB]⟩ := by
  have hlen : (B ++ [0x01] ++ Py.zeros 11).length = 16 := by
    simp [hB, Py.zeros]
  unfold Val.fromRef
  rw [e]
  show Val.make ty _ = _
  unfold Val.make
  rw [dif_pos hlen]
  simp [Py.zeros]

theorem fromRef_refTo (ty : ValType) {a : Nat} (h : a < 2 ^ 31) : Val.fromRef ty a = .ok (Ref.refTo ty a) := by
  have hm : (BitVec.ofNat 32 a).toNat = a := by rw [BitVec.toNat_ofNat, Nat.mod_eq_of_lt (by omega)]
  have e : Py.packS 4 (a : Int) = .ok (bytesLE 4 a) := by
    have h1 := toBytesS_toInt 4 (BitVec.ofNat 32 a)
    rw [BitVec.toInt_eq_toNat_of_lt (by rw [hm]; omega), hm] at h1
    unfold Py.toBytesS at h1
    unfold Py.packS
    split at h1
    · rename_i hc; rw [if_pos hc]; exact h1
    · cases h1
  unfold Ref.refTo
  exact fromRef_of_pack ty e (bytesLE_length _ _)

theorem vars_sim {i : Inst} (hi : lab.instr[lab.index]? = some i) :
    PSim H (conf st rest lab L fr F) rest lab L fr F (Ref.vars fr.module st i) := by
  have hn : next (conf st rest lab L fr F) = some i := hi
  unfold Ref.vars
  obtain ⟨s, ls, vs⟩ := st
  cases i <;> try exact True.intro
  case drop =>
    rcases vs with _ | ⟨v, vs⟩
    · trivial
    · exact C52_drop hn rfl
  case select =>
    rcases vs with _ | ⟨c, _ | ⟨b, _ | ⟨a, vs⟩⟩⟩ <;> try trivial
    exact C52_select hn rfl
  case selectType ts =>
    rcases ts with _ | ⟨t, ts⟩
    · trivial
    rcases vs with _ | ⟨c, _ | ⟨b, _ | ⟨a, vs⟩⟩⟩ <;> try trivial
    simp only
    split
    · rename_i h; exact C52_select_type hn rfl h.1 h.2
    · trivial
  case localGet i =>
    simp only
    split
    · rename_i v h; exact C52_local_get hn rfl h
    · trivial
  case localSet i =>
    rcases vs with _ | ⟨v, vs⟩
    · trivial
    simp only
    split
    · rename_i h; exact C52_local_set hn rfl h rfl
    · trivial
  case localTee i =>
    rcases vs with _ | ⟨v, vs⟩
    · trivial
    simp only
    split
    · rename_i h; exact C52_local_tee hn rfl h rfl
    · trivial
  case globalGet i =>
    simp only
    split
    · rename_i h; exact C52_global_get hn (conf_global h)
    · trivial
  case globalSet i =>
    simp only
    split
    · rename_i h1
      split
      · rename_i h; exact (C52_global_set hn (conf_global h1) rfl).1 h
      · rename_i h; exact (C52_global_set hn (conf_global h1) rfl).2 (by simpa using h)
    · trivial
  case refIsNull =>
    rcases vs with _ | ⟨v, vs⟩
    · trivial
    simp only
    split
    · rename_i h; exact C52_ref_is_null hn rfl h.1 h.2
    · trivial
  case refFunc i =>
    simp only
    split
    · rename_i a ha
      split
      · rename_i h
        obtain ⟨_, _, f, fs, _, hf, hs, _⟩ := step_next (H := H) hn
        cases hf
        show step H _ = _
        rw [hs]; simp only [exec]; rw [bind_idx_some ha]
        rw [fromRef_refTo .funcref h, bind_lift_ok, push_eq]; rfl
      · trivial
    · trivial

theorem table_sim {i : Inst} (hi : lab.instr[lab.index]? = some i) :
    PSim H (conf st rest lab L fr F) rest lab L fr F (Ref.table fr.module st i) := by
  have hn : next (conf st rest lab L fr F) = some i := hi
  unfold Ref.table
  obtain ⟨s, ls, vs⟩ := st
  cases i <;> try exact True.intro
  case tableGet i =>
    simp only
    split
    · rename_i h1
      split
      · rename_i h; exact (C14_table_get hn (conf_table h1) rfl).1 _ h
      · rename_i h; exact (C14_table_get hn (conf_table h1) rfl).2 (List.getElem?_eq_none_iff.mp h)
    · trivial
  case tableSet i =>
    simp only
    split
    · rename_i h1
      split
      · rename_i hty
        split
        · rename_i h; exact (C14_table_set hn (conf_table h1) rfl hty).1 h
        · rename_i h; exact (C14_table_set hn (conf_table h1) rfl hty).2 (by omega)
      · trivial
    · trivial
  case tableSize i =>
    simp only
    split
    · rename_i h1
      split
      · rename_i h; exact C14_table_size hn (conf_table h1) h
      · trivial
    · trivial
  case tableGrow i =>
    simp only
    split
    · rename_i h1
      split
      · rename_i hty
        split
        · rename_i h; exact (C14_table_grow hn (conf_table h1) rfl hty).1 h
        · rename_i h; exact (C14_table_grow hn (conf_table h1) rfl hty).2 h
      · trivial
    · trivial
  case tableFill i =>
    simp only
    split
    · rename_i h1
      split
      · rename_i h; exact (C14_table_fill hn (conf_table h1) rfl).1 h
      · rename_i h; exact (C14_table_fill hn (conf_table h1) rfl).2 (by omega)
    · trivial
  case tableCopy i j =>
    simp only
    split
    · rename_i h1 h2
      split
      · rename_i h; exact (C14_table_copy hn (conf_table h1) (conf_table h2) rfl).1 h
      · rename_i h; exact (C14_table_copy hn (conf_table h1) (conf_table h2) rfl).2 (by omega)
    · trivial
  case tableInit k i =>
    simp only
    split
    · rename_i h1 h2
      split
      · rename_i h; exact (C14_table_init hn (conf_table h1) (conf_elem h2) rfl).1 h
      · rename_i h; exact (C14_table_init hn (conf_table h1) (conf_elem h2) rfl).2 (by omega)
    · trivial
  case elemDrop k =>
    simp only
    split
    · rename_i h1
      obtain ⟨m', h2, h3, _⟩ := C14_elem_drop (H := H) hn (conf_elem h1)
      show step H _ = _
      rw [h2, h3]; rfl
    · trivial

theorem memory_sim {i : Inst} (hi : lab.instr[lab.index]? = some i) :
    PSim H (conf st rest lab L fr F) rest lab L fr F (Ref.memory fr.module st i) := by
  have hn : next (conf st rest lab L fr F) = some i := hi
  unfold Ref.memory
  obtain ⟨s, ls, vs⟩ := st
  cases i <;> try exact True.intro
  case load op al off =>
    simp only
    split
    · rename_i h1
      split
      · rename_i h; exact (C10_load hn (conf_mem h1) rfl).1 h
      · rename_i h; exact (C10_load hn (conf_mem h1) rfl).2 (by omega)
    · trivial
  case store op al off =>
    simp only
    split
    · rename_i h1
      split
      · rename_i h; exact (C11_store hn (conf_mem h1) rfl).1 h
      · rename_i h; exact (C11_store hn (conf_mem h1) rfl).2 (by omega)
    · trivial
  case loadLane w al off l =>
    simp only
    split
    · rename_i h1
      split
      · rename_i hl
        split
        · rename_i h; exact (C10_load_lane hn hl (conf_mem h1) rfl).1 h
        · rename_i h; exact (C10_load_lane hn hl (conf_mem h1) rfl).2 (by omega)
      · trivial
    · trivial
  case storeLane w al off l =>
    simp only
    split
    · rename_i h1
      split
      · rename_i hl
        split
        · rename_i h; exact (C11_store_lane hn hl (conf_mem h1) rfl).1 h
        · rename_i h; exact (C11_store_lane hn hl (conf_mem h1) rfl).2 (by omega)
      · trivial
    · trivial
  case memorySize b =>
    simp only
    split
    · rename_i h1
      split
      · rename_i h; exact C12_memory_size hn (conf_mem h1) h
      · trivial
    · trivial
  case memoryGrow b =>
    simp only
    split
    · rename_i h1
      split
      · rename_i h; exact (C12_memory_grow hn (conf_mem h1) rfl).1 h
      · rename_i h; exact (C12_memory_grow hn (conf_mem h1) rfl).2 h
    · trivial
  case memoryCopy =>
    simp only
    split
    · rename_i h1
      split
      · rename_i h; exact (C13_memory_copy hn (conf_mem h1) rfl).1 h
      · rename_i h; exact (C13_memory_copy hn (conf_mem h1) rfl).2 (by omega)
    · trivial
  case memoryFill =>
    simp only
    split
    · rename_i h1
      split
      · rename_i h; exact (C13_memory_fill hn (conf_mem h1) rfl).1 h
      · rename_i h; exact (C13_memory_fill hn (conf_mem h1) rfl).2 (by omega)
    · trivial
  case memoryInit i =>
    simp only
    split
    · rename_i h1 h2
      split
      · rename_i h; exact (C13_memory_init hn (conf_mem h1) (conf_data h2) rfl).1 h
      · rename_i h; exact (C13_memory_init hn (conf_mem h1) (conf_data h2) rfl).2 (by omega)
    · trivial
  case dataDrop i =>
    simp only
    split
    · rename_i h1
      obtain ⟨m', h2, h3, _⟩ := C13_data_drop (H := H) hn (conf_data h1)
      show step H _ = _
      rw [h2, h3]; rfl
    · trivial

theorem num_sim {op : NumOp} (hi : lab.instr[lab.index]? = some (.num op)) (hg : op ≠ .int .i64_div_u) :
    PSim H (conf st rest lab L fr F) rest lab L fr F (Ref.plain fr.module st (.num op)) := by
  have hn : next (conf st rest lab L fr F) = some (.num op) := hi
  obtain ⟨lab', _, f, fs, _, hf, hs, _⟩ := step_next (H := H) hn
  have h1 := num_sound op hg (st.vs ++ rest)
  have h2 := local_numSem op st.vs rest
  unfold Ref.plain
  simp only [Ref.sem_pywasm]
  split
  · rename_i s' he
    simp only [he] at h2
    rw [h2] at h1
    show step H _ = _
    rw [hs]; simp only [exec]
    show M.vm _ _ = _
    unfold M.vm
    rw [show (advance (conf st rest lab L fr F)).value = st.vs ++ rest from rfl, show evalNum op (st.vs ++ rest) = _ from h1]
    rfl
  · rename_i he
    simp only [he] at h2
    rw [h2] at h1
    obtain ⟨e, s', h3⟩ := h1
    refine ⟨e, { advance (conf st rest lab L fr F) with value := s' }, ?_, rfl⟩
    rw [hs]; simp only [exec]
    show M.vm _ _ = _
    unfold M.vm
    rw [show (advance (conf st rest lab L fr F)).value = st.vs ++ rest from rfl, h3]
  · trivial

theorem const_sim {i : Inst} {v : Val} (hi : lab.instr[lab.index]? = some i) (hc : Ref.const i = some v) :
    step H (conf st rest lab L fr F) = .ok () (conf { st with vs := v :: st.vs } rest lab.adv L fr F) := by
  have hn : next (conf st rest lab L fr F) = some i := hi
  obtain ⟨lab', _, f, fs, _, hf, hs, _⟩ := step_next (H := H) hn
  unfold Ref.const at hc
  cases i <;> simp only [reduceCtorEq] at hc
  case i32Const n =>
    split at hc
    · cases hc; rename_i h; exact C52_i32_const hn h
    · cases hc
  case i64Const n =>
    split at hc
    · cases hc; rename_i h; exact C52_i64_const hn h
    · cases hc
  case f32Const n =>
    split at hc
    · rename_i h
      cases hc
      rw [hs]; simp only [exec]; rw [fromI32_of_range h, bind_lift_ok, push_eq, advance_value]; rfl
    · cases hc
  case f64Const n =>
    split at hc
    · rename_i h
      cases hc
      rw [hs]; simp only [exec]; rw [fromI64_of_range h, bind_lift_ok, push_eq, advance_value]; rfl
    · cases hc
  case v128Const b =>
    split at hc
    · rename_i h
      cases hc
      rw [hs]; simp only [exec]; rw [fromV128_eq h, bind_lift_ok, push_eq, advance_value]; rfl
    · cases hc
  case refNull b =>
    split at hc
    · rename_i t h
      cases hc
      rw [hs]; simp only [exec]; rw [h, bind_lift_ok, push_eq, advance_value]; rfl
    · cases hc

theorem div_sim (hi : lab.instr[lab.index]? = some (.num (.int .i64_div_u))) (hb : ¬ AtBadDiv (conf st rest lab L fr F)) :
    PSim H (conf st rest lab L fr F) rest lab L fr F (Ref.plain fr.module st (.num (.int .i64_div_u))) := by
  have hn : next (conf st rest lab L fr F) = some (.num (.int .i64_div_u)) := hi
  obtain ⟨lab', _, f, fs, _, hf, hs, _⟩ := step_next (H := H) hn
  obtain ⟨s, ls, vs⟩ := st
  rcases vs with _ | ⟨y, _ | ⟨x, vs⟩⟩
  · trivial
  · trivial
  have h := C05_i64_div_u_partial y x (vs ++ rest)
  have e : Ref.plain fr.module ⟨s, ls, y :: x :: vs⟩ (.num (.int .i64_div_u)) =
      match divU x.low64 y.low64 with
      | some q => .ok ⟨s, ls, i64 q :: vs⟩
      | none => .trap := by
    show (match part64 divU (y :: x :: vs) with | .ok s' => _ | .trap => _ | .stuck => _) = _
    unfold part64
    simp only
    cases divU x.low64 y.low64 <;> rfl
  rw [e]
  cases hd : divU x.low64 y.low64 with
  | some q =>
    have hlt : q.toNat < 2 ^ 63 := by
      by_contra hc
      exact hb ⟨hn, y, x, vs ++ rest, q, rfl, hd, by omega⟩
    show step H _ = _
    rw [hs]; simp only [exec]
    show M.vm _ _ = _
    unfold M.vm
    rw [show (advance (conf ⟨s, ls, y :: x :: vs⟩ rest lab L fr F)).value = y :: x :: (vs ++ rest) from rfl,
      show evalNum (.int .i64_div_u) (y :: x :: (vs ++ rest)) = _ from h.1 q hd hlt]
    rfl
  | none =>
    obtain ⟨e, s', h3, _⟩ := h.2.2 hd
    refine ⟨e, { advance (conf ⟨s, ls, y :: x :: vs⟩ rest lab L fr F) with value := s' }, ?_, rfl⟩
    rw [hs]; simp only [exec]
    show M.vm _ _ = _
    unfold M.vm
    rw [show (advance (conf ⟨s, ls, y :: x :: vs⟩ rest lab L fr F)).value = y :: x :: (vs ++ rest) from rfl,
      show evalNum (.int .i64_div_u) (y :: x :: (vs ++ rest)) = _ from h3]

/-- The agreement for all instructions that are not control instructions, except `i64.div_u` with a quotient of `2^63` or more. -/
theorem plain_sim {i : Inst} (hi : lab.instr[lab.index]? = some i) (hb : ¬ AtBadDiv (conf st rest lab L fr F)) :
    PSim H (conf st rest lab L fr F) rest lab L fr F (Ref.plain fr.module st i) := by
  have hn : next (conf st rest lab L fr F) = some i := hi
  obtain ⟨lab', _, f, fs, _, hf, hs, _⟩ := step_next (H := H) hn
  cases i
  case nop =>
    show step H _ = _
    rw [hs]; rfl
  case unreachable => exact ⟨.assertion, advance _, by rw [hs]; rfl, rfl⟩
  case num op =>
    by_cases hd : op = .int .i64_div_u
    · subst hd; exact div_sim hi hb
    · exact num_sim hi hd
  case i32Const n =>
    unfold Ref.plain; simp only; split
    · rename_i h; exact const_sim hi h
    · trivial
  case i64Const n =>
    unfold Ref.plain; simp only; split
    · rename_i h; exact const_sim hi h
    · trivial
  case f32Const n =>
    unfold Ref.plain; simp only; split
    · rename_i h; exact const_sim hi h
    · trivial
  case f64Const n =>
    unfold Ref.plain; simp only; split
    · rename_i h; exact const_sim hi h
    · trivial
  case v128Const n =>
    unfold Ref.plain; simp only; split
    · rename_i h; exact const_sim hi h
    · trivial
  case refNull n =>
    unfold Ref.plain; simp only; split
    · rename_i h; exact const_sim hi h
    · trivial
  all_goals first
    | exact True.intro
    | exact vars_sim hi
    | exact table_sim hi
    | exact memory_sim hi

end Pywasm
