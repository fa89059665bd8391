import Verif.Spec.Listing
import Verif.Lemmas.LogDecode

/-!
# The lines that are printed of a module
-/

namespace Pywasm
open Reader Spec.Bin Spec
open Spec.Listing (num list words)

/-! ## Text -/

theorem num_eq (n : Int) : num n = if n < 0 then '-' :: Nat.toDigits 10 n.natAbs else Nat.toDigits 10 n.natAbs := by
  unfold num
  cases n with
  | ofNat k =>
    have : ¬ (Int.ofNat k) < 0 := by simp
    rw [if_neg this]
    show (Nat.repr k).toList = _
    simp [Nat.repr]
  | negSucc k =>
    rw [if_pos (Int.negSucc_lt_zero k)]
    show ("-" ++ Nat.repr (k + 1)).toList = _
    simp [Nat.repr]

theorem int_text {n : Int} (h : n.natAbs < long) : Py.reprInt n = .ok (num n) := by
  unfold Py.reprInt
  rw [digitLimit_eq, if_pos h, num_eq]

theorem nat_text {n : Nat} (h : n < long) : Py.reprInt n = .ok (num n) := int_text h

theorem joinWith_eq (s : Str) (l : List Str) : Py.joinWith s l = List.intercalate s l := by
  induction l with
  | nil => rfl
  | cons a l ih =>
    cases l with
    | nil => simp [Py.joinWith, List.intercalate]
    | cons b l =>
      rw [Py.joinWith, ih]
      simp [List.intercalate, List.append_assoc]

theorem list_eq (l : List Str) : Py.reprList l = list l := by
  unfold Py.reprList list
  rw [joinWith_eq]
  rfl

theorem words_eq (l : List Str) : Py.joinWith [' '] l = words l := joinWith_eq _ l

theorem val_text (t : ValType) : t.repr = (Listing.valType t).toList := by cases t <;> rfl

theorem funcType_text (t : FuncType) : t.repr = Listing.funcType t := by
  unfold FuncType.repr Listing.funcType
  rw [list_eq, list_eq]
  have : ValType.repr = fun t => (Listing.valType t).toList := funext val_text
  rw [this]

theorem words2 (a b : Str) : words [a, b] = a ++ ' ' :: b := by simp [words, List.intercalate]
theorem words3 (a b c : Str) : words [a, b, c] = a ++ ' ' :: b ++ ' ' :: c := by simp [words, List.intercalate]

theorem limits_text {l : Limits} (h : ∀ n ∈ Listing.limitNums l, n < long) : l.repr = .ok (Listing.limits l) := by
  have h1 : l.n < long := h _ (by simp [Listing.limitNums])
  have h2 : l.m < long := h _ (by simp [Listing.limitNums])
  unfold Limits.repr Listing.limits
  by_cases hm : l.m = 0
  · simp only [hm, if_true, nat_text h1]
    simp [list, List.intercalate, bind, Except.bind, pure, Except.pure]
  · simp only [hm, if_false, nat_text h1, nat_text h2]
    simp [list, List.intercalate, bind, Except.bind, pure, Except.pure]

theorem table_text {t : TableType} (h : ∀ n ∈ Listing.limitNums t.limits, n < long) : t.repr = .ok (Listing.tableType t) := by
  unfold TableType.repr Listing.tableType
  rw [limits_text h, words2, val_text]; rfl

theorem global_text (t : GlobalType) : t.repr = Listing.globalType t := by
  unfold GlobalType.repr Listing.globalType
  rw [words2, val_text]
  cases t.isMut <;> simp

theorem import_text {i : Import} (h : ∀ n ∈ Listing.importNums i, n < long) : i.repr = .ok (Listing.importText i) := by
  obtain ⟨m, n, d⟩ := i
  unfold Import.repr Listing.importText
  rw [words2]
  cases d with
  | func t =>
    have : Py.reprInt t = .ok (num t) := nat_text (h _ (by simp [Listing.importNums]))
    simp only [this, words2]
    simp [bind, Except.bind, pure, Except.pure]
  | table t =>
    have : t.repr = .ok (Listing.tableType t) := table_text h
    simp only [this, words2]
    simp [bind, Except.bind, pure, Except.pure]
  | mem l =>
    have : l.repr = .ok (Listing.limits l) := limits_text h
    simp only [this, words2]
    simp [bind, Except.bind, pure, Except.pure]
  | glob t =>
    simp only [global_text, words2]
    simp [bind, Except.bind, pure, Except.pure]

theorem export_text {e : ExportDesc} (h : e.desc < long) : e.repr = .ok (Listing.exportText e) := by
  unfold ExportDesc.repr Listing.exportText
  rw [nat_text h, words3]
  cases e.kind <;> rfl

theorem mapM_text {α} {f : α → Except Err Str} {g : α → Str} {l : List α} (h : ∀ a ∈ l, f a = .ok (g a)) : l.mapM f = .ok (l.map g) := by
  induction l with
  | nil => rfl
  | cons a l ih => rw [List.mapM_cons, h a (by simp), ih fun b hb => h b (by simp [hb])]; rfl

theorem func_text {f : FuncDesc} (ht : f.type = 0) (h : ∀ l ∈ f.locals, l.1 < long) :
    f.repr = .ok ("0 ".toList ++ list (f.locals.map fun l => num l.1 ++ 'x' :: (Listing.valType l.2).toList)) := by
  unfold FuncDesc.repr
  rw [ht, nat_text long_pos, mapM_text (g := fun l => num l.1 ++ 'x' :: (Listing.valType l.2).toList)]
  · rw [← list_eq]; rfl
  · intro l hl
    unfold localsRepr
    rw [nat_text (h l hl), val_text]; rfl

/-! ## Instructions -/

theorem opcode_eq (i : Inst) : i.opc = Listing.opcode i := by
  cases i with
  | num op => cases op <;> rfl
  | _ => rfl

theorem mnemonic_eq (o : Opc) : mnemonic (code o) = some o.name := by
  cases o with
  | load op => cases op <;> rfl
  | store op => cases op <;> rfl
  | load_lane w => cases w <;> rfl
  | store_lane w => cases w <;> rfl
  | int op => cases op <;> rfl
  | flt op => cases op <;> rfl
  | vec op => cases op <;> rfl
  | lane op => cases op <;> rfl
  | _ => rfl

theorem small_mem {l : List Int} (h : smallNums l = true) {n : Int} (hn : n ∈ l) : n.natAbs < long :=
  of_decide_eq_true (List.all_eq_true.mp h n hn)

/-- the text of an immediate -/
def Imm.text : Imm → Str
  | .int n => num n
  | .ints l => list (l.map fun n : Nat => num n)
  | .bytes b => Listing.bytesText b
  | .type bt => Listing.blockType bt

theorem byte_text (b : UInt8) : Py.reprByte b = Listing.byteText b := by
  have h : ∀ n : Fin 256, Py.reprByte (UInt8.ofNat n.val) = Listing.byteText (UInt8.ofNat n.val) := by decide +kernel
  have := h ⟨b.toNat, b.toNat_lt⟩
  simpa using this

theorem bytes_text (b : Bytes) : Py.reprBytearray b = Listing.bytesText b := by
  have e : b.flatMap Py.reprByte = (b.map Listing.byteText).flatten := by
    rw [List.flatMap_def]
    congr 1
    exact List.map_congr_left fun x _ => byte_text x
  unfold Py.reprBytearray Listing.bytesText
  rw [e]
  by_cases h : (39 : UInt8) ∈ b ∧ (34 : UInt8) ∉ b
  · have : (b.contains 0x27 && !b.contains 0x22) = true := by simpa using h
    simp only [this, if_true, if_pos h]
    simp
  · have : (b.contains 0x27 && !b.contains 0x22) = false := by
      rw [Bool.eq_false_iff]
      intro hx
      exact h (by simpa using hx)
    simp only [this, if_neg h]
    simp

theorem imm_text {x : Imm} (h : smallNums x.nums = true) : x.repr = .ok x.text := by
  cases x with
  | int n => exact int_text (small_mem h (by simp [Imm.nums]))
  | ints l =>
    have : l.mapM (fun n : Nat => Py.reprInt n) = .ok (l.map fun n : Nat => num n) :=
      mapM_text fun n hn => nat_text (small_mem h (n := (n : Int)) (by simp [Imm.nums, hn]))
    show (do return Py.reprList (← l.mapM fun n : Nat => Py.reprInt n) : Except Err Str) = _
    rw [this]
    show Except.ok (Py.reprList _) = Except.ok (list _)
    rw [list_eq]
  | bytes b => show Except.ok (Py.reprBytearray b) = _; rw [bytes_text]; rfl
  | type bt => cases bt with
    | empty => rfl
    | val t => show Except.ok t.repr = _; rw [val_text]; rfl
    | idx i => exact int_text (small_mem h (by simp [Imm.nums]))

theorem imms_text (i : Inst) : i.imms.map Imm.text = Listing.immediates i := by
  cases i with
  | block bt b => rfl
  | loop bt b => rfl
  | ifThen bt a b => rfl
  | num op => cases op with
    | shuffle l => simp [Inst.imms, Listing.immediates, numbers, Imm.text, Function.comp_def]
    | _ => rfl
  | _ => rfl

theorem single_text {i : Inst} (h : smallNums (numbers i) = true) : i.single = .ok (Listing.instruction i) := by
  have hm : i.imms.mapM Imm.repr = .ok (i.imms.map Imm.text) := by
    refine mapM_text fun x hx => imm_text ?_
    rw [numbers_imms] at h
    unfold smallNums at h ⊢
    rw [List.all_eq_true] at h ⊢
    exact fun n hn => h n (List.mem_flatMap.mpr ⟨x, hx, hn⟩)
  unfold Inst.single Listing.instruction
  rw [hm, imms_text, ← opcode_eq, mnemonic_eq, ← words_eq]
  rfl

theorem disasm1_text {lvl : Int} (hl : 0 < lvl) {k : Nat} {i : Inst} (h : smallNums (numbers i) = true) :
    i.disasm1 lvl k = ([List.replicate k ' ' ++ Listing.instruction i], .ok ()) := by
  unfold Inst.disasm1
  rw [single_text h]
  simp [debugln, hl]
  rfl

mutual
theorem inst_text {lvl : Int} (hl : 0 < lvl) (d : Nat) (i : Inst) (h : listableI i = true) :
    i.disasm lvl (4 * d) = (Listing.instLines d i, .ok ()) := by
  cases i with
  | block bt b =>
    rw [listableI, Bool.and_eq_true] at h
    rw [Inst.disasm, disasm1_text hl h.1, show 4 * d + 4 = 4 * (d + 1) by ring, Log.bind, disasm_text hl (d + 1) b h.2, Listing.instLines]
    rfl
  | loop bt b =>
    rw [listableI, Bool.and_eq_true] at h
    rw [Inst.disasm, disasm1_text hl h.1, show 4 * d + 4 = 4 * (d + 1) by ring, Log.bind, disasm_text hl (d + 1) b h.2, Listing.instLines]
    rfl
  | ifThen bt a b =>
    rw [listableI, Bool.and_eq_true] at h
    rw [Inst.disasm, disasm1_text hl h.1, show 4 * d + 4 = 4 * (d + 1) by ring, Log.bind, disasm_text hl (d + 1) a h.2, Listing.instLines]
    rfl
  | _ =>
    rw [listableI] at h <;> first
      | (rw [Inst.disasm, Listing.instLines] <;> first | exact disasm1_text hl h | (intros; exact Inst.noConfusion ‹_›))
      | (intros; exact Inst.noConfusion ‹_›)
theorem disasm_text {lvl : Int} (hl : 0 < lvl) (d : Nat) (e : List Inst) (h : listable e = true) :
    Expr.disasm lvl (4 * d) e = (Listing.exprLines d e, .ok ()) := by
  cases e with
  | nil => rw [Expr.disasm, Listing.exprLines]
  | cons i is =>
    rw [listable, Bool.and_eq_true] at h
    rw [Expr.disasm, inst_text hl d i h.1, Log.bind, disasm_text hl d is h.2, Listing.exprLines]
end

end Pywasm
