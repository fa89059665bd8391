import Verif.Spec.Accepted
import Verif.Lemmas.DecodeModule

/-!
# What the decoder of instructions accepts
-/

namespace Pywasm
open Reader Spec.Bin Spec.Leb

section readers
variable {α β : Type} {rd : Reader α} {s r : Bytes}

theorem bind_iff {f : α → Reader β} {y : β} : (rd >>= f) s = .ok (y, r) ↔ ∃ a s', rd s = .ok (a, s') ∧ f a s' = .ok (y, r) :=
  ⟨bind_inv, fun ⟨_, _, h1, h2⟩ => (bind_run h1).trans h2⟩

theorem pure_iff {x y : α} : (Pure.pure x : Reader α) s = .ok (y, r) ↔ y = x ∧ r = s := by
  constructor
  · intro h
    injection h with h
    injection h with h1 h2
    exact ⟨h1.symm, h2.symm⟩
  · rintro ⟨rfl, rfl⟩
    rfl

theorem uleb_iff {n : Nat} : Reader.uleb s = .ok (n, r) ↔ ∃ g, U n g ∧ s = g ++ r :=
  ⟨uleb_inv, fun ⟨_, h, e⟩ => e ▸ Reads.uleb h r⟩

theorem ileb_iff {n : Int} : Reader.ileb s = .ok (n, r) ↔ ∃ g, S n g ∧ s = g ++ r := by
  refine ⟨fun h => ?_, fun ⟨_, h, e⟩ => e ▸ Reads.ileb h r⟩
  obtain ⟨⟨v, l⟩, s', h1, h2⟩ := bind_inv (show (Leb128.iDecodeReader >>= _) s = _ from h)
  injection h2 with h2
  injection h2 with h3 h4
  subst h4
  simp only [Leb128.iDecodeReader] at h1
  split at h1
  · rename_i a q hq
    obtain ⟨e, hg⟩ := Leb128.readGroup_ok hq
    rw [Leb128.iDecode_eq (Reads.isGroup_ne_nil hg)] at h1
    injection h1 with h1
    injection h1 with h5 h6
    injection h5 with h5 _
    subst h6
    exact ⟨a, ⟨hg, h5.trans h3⟩, e⟩
  · cases h1

theorem ordByte_iff {b : UInt8} : Reader.ordByte s = .ok (b, r) ↔ s = b :: r := by
  cases s with
  | nil => simp [Reader.ordByte]
  | cons x t =>
    simp only [Reader.ordByte, Except.ok.injEq, Prod.mk.injEq, List.cons.injEq]

theorem check_iff {c : Bool} {u : Unit} : Reader.check c s = .ok (u, r) ↔ c = true ∧ r = s := by
  unfold Reader.check
  split
  · rename_i h
    simp only [Except.ok.injEq, Prod.mk.injEq, true_and, h]
    exact eq_comm
  · rename_i h
    simp [h]

theorem zeroByte_iff {u : Unit} : Reader.zeroByte s = .ok (u, r) ↔ s = 0 :: r := by
  unfold Reader.zeroByte
  rw [bind_iff]
  simp only [ordByte_iff, check_iff, beq_iff_eq]
  constructor
  · rintro ⟨b, s', h, rfl, rfl⟩; exact h
  · rintro rfl; exact ⟨0, r, rfl, rfl, rfl⟩

theorem read_iff {n : Nat} {d : Bytes} : Reader.read n s = .ok (d, r) ↔ s = d ++ r ∧ Short n d r := by
  unfold Reader.read Short
  constructor
  · intro h
    split at h
    · rename_i hn
      simp only [Except.ok.injEq, Prod.mk.injEq] at h
      obtain ⟨rfl, rfl⟩ := h
      refine ⟨(List.take_append_drop n s).symm, ?_⟩
      rw [List.length_take, List.drop_eq_nil_iff]
      omega
    · cases h
  · rintro ⟨rfl, h | ⟨h, hn, rfl⟩⟩
    · subst h; simp
    · rw [if_pos (.inr hn)]
      simp [List.take_of_length_le (Nat.le_of_lt h), List.drop_of_length_le (Nat.le_of_lt h)]

theorem liftE_iff {x : Except Err α} {a : α} : Reader.liftE x s = .ok (a, r) ↔ x = .ok a ∧ r = s := by
  unfold Reader.liftE
  cases x with
  | error e => simp
  | ok b =>
    simp only [Except.ok.injEq, Prod.mk.injEq]
    exact and_congr_right' eq_comm

/-- How the readers of sequences relate to the reader of one object. -/
theorem times_iff {R : α → Bytes → Bytes → Prop} (n : Nat) {xs : List α} (h : ∀ s a r, s.length < 2 ^ 32 → (rd s = .ok (a, r) ↔ ∃ b, s = b ++ r ∧ R a b r))
    (hs : s.length < 2 ^ 32) :
    Reader.times rd n s = .ok (xs, r) ↔ xs.length = n ∧ ∃ b, s = b ++ r ∧ Seq R xs b r := by
  induction n generalizing s xs with
  | zero =>
    rw [Reader.times, pure_iff]
    constructor
    · rintro ⟨rfl, rfl⟩; exact ⟨rfl, [], rfl, .nil⟩
    · rintro ⟨h1, b, rfl, h2⟩
      obtain rfl := List.length_eq_zero_iff.mp h1
      cases h2
      exact ⟨rfl, rfl⟩
  | succ n ih =>
    rw [Reader.times, bind_iff]
    constructor
    · rintro ⟨a, s1, h1, h2⟩
      obtain ⟨b, rfl, h3⟩ := (h _ _ _ hs).mp h1
      obtain ⟨as, s2, h4, h5⟩ := bind_iff.mp h2
      obtain ⟨rfl, rfl⟩ := pure_iff.mp h5
      obtain ⟨h6, c, rfl, h7⟩ := (ih (by simp only [List.length_append] at hs; omega)).mp h4
      exact ⟨by simp [h6], b ++ c, by simp, .cons h3 h7⟩
    · rintro ⟨h1, b, rfl, h2⟩
      cases h2 with
      | nil => cases h1
      | @cons x xs b c _ h3 h4 =>
        rw [List.append_assoc] at hs ⊢
        refine ⟨x, c ++ r, (h _ _ _ hs).mpr ⟨b, rfl, h3⟩, bind_iff.mpr ⟨xs, r, (ih ?_).mpr ⟨by simpa using h1, c, rfl, h4⟩, rfl⟩⟩
        simp only [List.length_append] at hs ⊢
        omega

theorem vec_iff {R : α → Bytes → Bytes → Prop} {xs : List α} (h : ∀ s a r, s.length < 2 ^ 32 → (rd s = .ok (a, r) ↔ ∃ b, s = b ++ r ∧ R a b r))
    (hs : s.length < 2 ^ 32) :
    Reader.vec rd s = .ok (xs, r) ↔ ∃ b, s = b ++ r ∧ AccVec R xs b r := by
  unfold Reader.vec AccVec
  rw [bind_iff]
  constructor
  · rintro ⟨n, s1, h1, h2⟩
    obtain ⟨g, hg, rfl⟩ := uleb_iff.mp h1
    obtain ⟨rfl, b, rfl, h3⟩ := (times_iff n h (by simp only [List.length_append] at hs; omega)).mp h2
    exact ⟨g ++ b, by simp, g, b, hg, h3, rfl⟩
  · rintro ⟨_, rfl, g, c, hg, h1, rfl⟩
    refine ⟨xs.length, c ++ r, uleb_iff.mpr ⟨g, hg, by simp⟩, (times_iff _ h ?_).mpr ⟨rfl, c, rfl, h1⟩⟩
    simp only [List.length_append] at hs ⊢
    omega

theorem seq_const {R : α → Bytes → Prop} {xs : List α} {b : Bytes} :
    Seq (fun x c _ => R x c) xs b r ↔ ∃ bs, List.Forall₂ R xs bs ∧ b = bs.flatten := by
  constructor
  · intro h
    generalize hR : (fun x c (_ : Bytes) => R x c) = R' at h
    induction h with
    | nil => exact ⟨[], .nil, rfl⟩
    | @cons x xs b c r h1 _ ih =>
      subst hR
      obtain ⟨bs, h2, rfl⟩ := ih
      exact ⟨b :: bs, .cons h1 h2, rfl⟩
  · rintro ⟨bs, h, rfl⟩
    induction h with
    | nil => exact .nil
    | cons h1 _ ih => exact .cons h1 ih

theorem accVec_const {R : α → Bytes → Prop} {xs : List α} {b : Bytes} : AccVec (fun x c _ => R x c) xs b r ↔ Vec R xs b := by
  unfold AccVec Vec
  constructor
  · rintro ⟨len, c, h1, h2, rfl⟩
    obtain ⟨bs, h3, rfl⟩ := seq_const.mp h2
    exact ⟨len, bs, h1, h3, rfl⟩
  · rintro ⟨len, bs, h1, h2, rfl⟩
    exact ⟨len, _, h1, seq_const.mpr ⟨bs, h2, rfl⟩, rfl⟩

/-- The reader of a vector of objects whose encoding does not depend on what follows. -/
theorem vecS_iff {R : α → Bytes → Prop} {xs : List α} (h : ∀ s a r, s.length < 2 ^ 32 → (rd s = .ok (a, r) ↔ ∃ b, s = b ++ r ∧ R a b))
    (hs : s.length < 2 ^ 32) : Reader.vec rd s = .ok (xs, r) ↔ ∃ b, s = b ++ r ∧ Vec R xs b := by
  rw [vec_iff (R := fun x c _ => R x c) h hs]
  simp only [accVec_const]

theorem vecU_iff {xs : List Nat} (hs : s.length < 2 ^ 32) : Reader.vec Reader.uleb s = .ok (xs, r) ↔ ∃ b, s = b ++ r ∧ Vec U xs b :=
  vecS_iff (fun s a r _ => by rw [uleb_iff]; exact exists_congr fun _ => and_comm) hs

end readers

/-! ## Opcodes -/

/-- The number by which the decoder knows an opcode. -/
def codeNumber : Code → Nat
  | .byte b => b.toNat
  | .fc n => bigEndian (0xfc :: shortLeb n)
  | .fd n => bigEndian (0xfd :: shortLeb n)

theorem ofNum_num {n : Nat} {o : Opc} (h : Opc.ofNum n = some o) : n = codeNumber (code o) := by
  have h1 : o.num = n := by
    have := List.find?_some h
    simpa using this
  have hk := opcOk_true o
  have h2 : Opc.ofNum (codeNumber (code o)) = some o := by
    unfold opcOk at hk
    unfold codeNumber
    split at hk <;> simp only [Bool.and_eq_true, decide_eq_true_eq] at hk <;> simp_all
  have h3 : o.num = codeNumber (code o) := by
    have := List.find?_some h2
    simpa using this
  omega

theorem bigEndian_append (a : Bytes) (x : UInt8) : bigEndian (a ++ [x]) = bigEndian a * 256 + x.toNat := by
  unfold bigEndian
  rw [List.foldl_append]
  rfl

theorem bigEndian_pos {x : UInt8} (h : 0 < x.toNat) (t : Bytes) : 0 < bigEndian (x :: t) := by
  induction t using List.reverseRecOn with
  | nil => simpa [bigEndian] using h
  | append_singleton t y ih =>
    rw [← List.cons_append, bigEndian_append]
    omega

theorem bigEndian_inj {x y : UInt8} (hx : 0 < x.toNat) (hy : 0 < y.toNat) : ∀ {s t : Bytes}, bigEndian (x :: s) = bigEndian (y :: t) → x :: s = y :: t := by
  intro s
  induction s using List.reverseRecOn with
  | nil =>
    intro t h
    induction t using List.reverseRecOn with
    | nil =>
      have h : x.toNat = y.toNat := by simpa [bigEndian] using h
      rw [UInt8.toNat_inj.mp h]
    | append_singleton t b _ =>
      rw [← List.cons_append, bigEndian_append] at h
      have := bigEndian_pos hy t
      have h2 : bigEndian [x] = x.toNat := by simp [bigEndian]
      have := x.toNat_lt
      omega
  | append_singleton s a ih =>
    intro t h
    induction t using List.reverseRecOn with
    | nil =>
      rw [← List.cons_append, bigEndian_append] at h
      have := bigEndian_pos hx s
      have h2 : bigEndian [y] = y.toNat := by simp [bigEndian]
      have := y.toNat_lt
      omega
    | append_singleton t b _ =>
      rw [← List.cons_append, ← List.cons_append, bigEndian_append, bigEndian_append] at h
      have h1 := a.toNat_lt
      have h2 := b.toNat_lt
      rw [← List.cons_append, ← List.cons_append, ih (t := t) (by omega), UInt8.toNat_inj.mp (show a.toNat = b.toNat by omega)]

theorem bigEndian_cons_ge {x : UInt8} (hx : 0 < x.toNat) {t : Bytes} (ht : t ≠ []) : 256 ≤ bigEndian (x :: t) := by
  induction t using List.reverseRecOn with
  | nil => exact absurd rfl ht
  | append_singleton t y _ =>
    rw [← List.cons_append, bigEndian_append]
    have := bigEndian_pos hx t
    omega

theorem shortLeb_ne (n : Nat) : shortLeb n ≠ [] := by unfold shortLeb; split <;> simp

theorem uEncodeNat_inj {m n : Nat} (h : Leb128.uEncodeNat m = Leb128.uEncodeNat n) : m = n := by
  have h1 := (Leb128.uEncodeNat_spec m).2.1
  have h2 := (Leb128.uEncodeNat_spec n).2.1
  rw [h] at h1
  omega

/-- What the decoder takes for an opcode is its encoding. -/
theorem opcode_got {b : UInt8} {s r : Bytes} {n : Nat} {o : Opc} (h : opcodeNumber b s = .ok (n, r)) (ho : Opc.ofNum n = some o) :
    ∃ x, s = x ++ r ∧ EncOp o (b :: x) := by
  have hn := ofNum_num ho
  have hk := opcOk_true o
  unfold opcOk at hk
  unfold opcodeNumber at h
  split at h
  · rename_i hb
    obtain ⟨k, s1, h1, h2⟩ := bind_iff.mp h
    obtain ⟨g, hg, rfl⟩ := uleb_iff.mp h1
    obtain ⟨h3, rfl⟩ := pure_iff.mp h2
    change n = bigEndian (b :: Leb128.uEncodeNat k) at h3
    have hne : Leb128.uEncodeNat k ≠ [] := Reads.isGroup_ne_nil (Leb128.uEncodeNat_spec k).1
    refine ⟨g, rfl, ?_⟩
    cases hc : code o with
    | byte c =>
      rw [hc] at hn
      have := bigEndian_cons_ge (x := b) (by omega) hne
      have := c.toNat_lt
      simp only [codeNumber] at hn
      omega
    | fc c =>
      rw [hc] at hn hk
      simp only [Bool.and_eq_true, decide_eq_true_eq] at hk
      rw [h3] at hn
      simp only [codeNumber] at hn
      have := bigEndian_inj (by omega) (by decide) hn
      rw [← uEncodeNat_short hk.1] at this
      injection this with e1 e2
      subst e1
      exact .fc hc (uEncodeNat_inj e2 ▸ hg)
    | fd c =>
      rw [hc] at hn hk
      simp only [Bool.and_eq_true, decide_eq_true_eq] at hk
      rw [h3] at hn
      simp only [codeNumber] at hn
      have := bigEndian_inj (by omega) (by decide) hn
      rw [← uEncodeNat_short hk.1] at this
      injection this with e1 e2
      subst e1
      exact .fd hc (uEncodeNat_inj e2 ▸ hg)
  · rename_i hb
    obtain ⟨rfl, rfl⟩ := pure_iff.mp h
    refine ⟨[], rfl, ?_⟩
    cases hc : code o with
    | byte c =>
      rw [hc] at hn
      rw [UInt8.toNat_inj.mp hn]
      exact .byte hc
    | fc c =>
      rw [hc] at hn
      have := bigEndian_cons_ge (x := 0xfc) (by decide) (shortLeb_ne c)
      have := b.toNat_lt
      simp only [codeNumber] at hn
      omega
    | fd c =>
      rw [hc] at hn
      have := bigEndian_cons_ge (x := 0xfd) (by decide) (shortLeb_ne c)
      have := b.toNat_lt
      simp only [codeNumber] at hn
      omega

/-! ## Types -/

theorem ofCode_iff {n : Nat} {t : ValType} : ValType.ofCode n = .ok t ↔ n = (valByte t).toNat := by
  constructor
  · intro h
    unfold ValType.ofCode at h
    repeat' split at h
    all_goals first | cases h; assumption | cases h
  · rintro rfl
    exact ofCode_valByte t

theorem valtype_iff {s r : Bytes} {t : ValType} : ValType.fromReader s = .ok (t, r) ↔ s = valByte t :: r := by
  unfold ValType.fromReader
  rw [bind_iff]
  simp only [ordByte_iff, liftE_iff, ofCode_iff]
  constructor
  · rintro ⟨b, s', rfl, h, rfl⟩
    rw [UInt8.toNat_inj.mp h]
  · rintro rfl
    exact ⟨_, _, rfl, rfl, rfl⟩

theorem bype_iff {s r : Bytes} {bt : Bype} : Bype.fromReader s = .ok (bt, r) ↔ ∃ b, s = b ++ r ∧ AccBt bt b := by
  constructor
  · intro h
    unfold Bype.fromReader at h
    split at h
    · cases h
    rename_i n s' hn
    obtain rfl := ordByte_iff.mp hn
    split at h
    · rename_i h40
      cases h
      subst h40
      exact ⟨[0x40], rfl, .strict .empty⟩
    rename_i hne
    split at h
    · rename_i t ht
      cases h
      have := UInt8.toNat_inj.mp (ofCode_iff.mp ht)
      subst this
      exact ⟨[valByte t], rfl, .strict (.val t)⟩
    · rename_i e he
      obtain ⟨i, s1, h1, h2⟩ := bind_iff.mp h
      obtain ⟨g, hg, hs⟩ := ileb_iff.mp h1
      obtain ⟨rfl, rfl⟩ := pure_iff.mp h2
      refine ⟨g, hs, .idx hg ?_ ?_⟩
      · rintro rfl
        injection hs with h3
        exact hne h3
      · rintro t rfl
        injection hs with h3
        subst h3
        rw [ofCode_valByte] at he
        cases he
  · rintro ⟨b, rfl, h⟩
    cases h with
    | strict h => exact reads_bype h r
    | @idx i _ h h1 h2 =>
      obtain ⟨x, t, rfl⟩ := List.exists_cons_of_ne_nil (Reads.isGroup_ne_nil h.1)
      have hx : x.toNat < 128 → t = [] := by
        intro hx
        obtain ⟨l, e, h3, h4, -⟩ := h.1
        cases l with
        | nil => simp only [List.nil_append, List.cons.injEq] at h3; exact h3.2
        | cons y l =>
          simp only [List.cons_append, List.cons.injEq] at h3
          have := h4 y (by simp)
          rw [← h3.1] at this
          omega
      have := Reads.bind0 (f := fun i => Pure.pure (Bype.idx i)) (.ileb h) (.pure _) r
      have e1 : x ≠ 0x40 := by
        rintro rfl
        exact h1 (by rw [hx (by decide)])
      have e2 : ∃ e, ValType.ofCode x.toNat = .error e := by
        cases he : ValType.ofCode x.toNat with
        | error e => exact ⟨e, rfl⟩
        | ok t' =>
          have h3 := UInt8.toNat_inj.mp (ofCode_iff.mp he)
          exact absurd (by rw [hx (by rw [h3]; exact valByte_lt t'), h3]) (h2 t')
      obtain ⟨e, he⟩ := e2
      simp only [Bype.fromReader, List.cons_append, Reader.ordByte, if_neg e1, he]
      exact this

/-! ## Instructions -/

theorem looseLeaf_not_marker {i : Inst} {b : Bytes} (h : LooseLeaf i b) : i ≠ .endFi ∧ i ≠ .elseFi ∧ nest i = 0 := by
  cases h <;> exact ⟨nofun, nofun, rfl⟩
theorem encLeaf_nest {i : Inst} {b : Bytes} (h : EncLeaf i b) : nest i = 0 := by cases h <;> rfl
theorem accI_not_marker {i : Inst} {b : Bytes} (h : AccI i b) : i ≠ .endFi ∧ i ≠ .elseFi := by
  cases h with
  | leaf h => exact encLeaf_not_marker h
  | loose h => exact ⟨(looseLeaf_not_marker h).1, (looseLeaf_not_marker h).2.1⟩
  | _ => exact ⟨nofun, nofun⟩

/-- The bytes `b` have been taken for the instruction `i` or for a marker. -/
def Took (lim : Nat) (i : Inst) (b : Bytes) : Prop :=
  0 < lim ∧ (i = .endFi ∧ b = [0x0B] ∨ i = .elseFi ∧ b = [0x05] ∨ AccI i b ∧ nest i < lim)

/-- What a reader of instructions does.  (At the end of the input it may take too few bytes for a vector constant.) -/
structure GotI (lim : Nat) (rd : Reader Inst) : Prop where
  got : ∀ s i r, s.length < 2 ^ 32 → rd s = .ok (i, r) → (∃ b, s = b ++ r ∧ b ≠ [] ∧ Took lim i b) ∨ (∃ d, i = .v128Const d) ∧ r = []
  empty : ∀ i r, rd [] ≠ .ok (i, r)

theorem body_got {lim n : Nat} {rd : Reader Inst} (hrd : GotI lim rd) {s r : Bytes} {is : List Inst} (hn : s.length < n) (hs : s.length < 2 ^ 32)
    (h : readBody rd n s = .ok (is, r)) : ∃ b, s = b ++ [0x0B] ++ r ∧ AccL is b ∧ nestL is < lim := by
  induction n generalizing s is with
  | zero => omega
  | succ n ih =>
    rw [readBody] at h
    obtain ⟨i, s1, h1, h2⟩ := bind_iff.mp h
    have hne : s ≠ [] := by rintro rfl; exact hrd.empty _ _ h1
    rcases hrd.got _ _ _ hs h1 with ⟨b, rfl, hb, hl, h3⟩ | ⟨⟨d, rfl⟩, rfl⟩
    · have hlen : s1.length < n := by
        have := List.length_pos_iff.mpr hb
        simp only [List.length_append] at hn
        omega
      rcases h3 with ⟨rfl, rfl⟩ | ⟨rfl, rfl⟩ | ⟨h3, h4⟩
      · obtain ⟨rfl, rfl⟩ := pure_iff.mp h2
        exact ⟨[], rfl, .nil, hl⟩
      · obtain ⟨is', s2, h5, h6⟩ := bind_iff.mp h2
        obtain ⟨rfl, rfl⟩ := pure_iff.mp h6
        obtain ⟨c, rfl, h7, h8⟩ := ih hlen (by simp only [List.length_append] at hs; omega) h5
        exact ⟨[0x05] ++ c, by simp, .else h7, by simp [nestL, nest, h8]⟩
      · have h9 : (readBody rd n >>= fun is => Pure.pure (i :: is) : Reader (List Inst)) s1 = .ok (is, r) := by
          have := (accI_not_marker h3).1
          split at h2
          · exact absurd rfl this
          · exact h2
        obtain ⟨is', s2, h5, h6⟩ := bind_iff.mp h9
        obtain ⟨rfl, rfl⟩ := pure_iff.mp h6
        obtain ⟨c, rfl, h7, h8⟩ := ih hlen (by simp only [List.length_append] at hs; omega) h5
        exact ⟨b ++ c, by simp, .cons h3 h7, by simp [nestL, h4, h8]⟩
    · have hn : ∃ k, n = k + 1 := by
        have := List.length_pos_iff.mpr hne
        exact ⟨n - 1, by omega⟩
      obtain ⟨k, rfl⟩ := hn
      obtain ⟨is', s2, h5, h6⟩ := bind_iff.mp h2
      rw [readBody] at h5
      obtain ⟨i, s1, h7, -⟩ := bind_iff.mp h5
      exact absurd h7 (hrd.empty _ _)

theorem if_got {lim n : Nat} {rd : Reader Inst} (hrd : GotI lim rd) {s r : Bytes} {e : Bool} {p : List Inst × List Inst} (hn : s.length < n)
    (hs : s.length < 2 ^ 32) (h : readIf rd n e s = .ok (p, r)) :
    ∃ b, s = b ++ [0x0B] ++ r ∧ AccIf e p.1 p.2 b ∧ nestL p.1 < lim ∧ nestL p.2 < lim := by
  induction n generalizing s p e with
  | zero => omega
  | succ n ih =>
    rw [readIf] at h
    obtain ⟨i, s1, h1, h2⟩ := bind_iff.mp h
    have hne : s ≠ [] := by rintro rfl; exact hrd.empty _ _ h1
    rcases hrd.got _ _ _ hs h1 with ⟨b, rfl, hb, hl, h3⟩ | ⟨⟨d, rfl⟩, rfl⟩
    · have hlen : s1.length < n := by
        have := List.length_pos_iff.mpr hb
        simp only [List.length_append] at hn
        omega
      have hs1 : s1.length < 2 ^ 32 := by simp only [List.length_append] at hs; omega
      rcases h3 with ⟨rfl, rfl⟩ | ⟨rfl, rfl⟩ | ⟨h3, h4⟩
      · obtain ⟨rfl, rfl⟩ := pure_iff.mp h2
        exact ⟨[], rfl, .nil, hl, hl⟩
      · obtain ⟨c, rfl, h7, h8⟩ := ih hlen hs1 h2
        exact ⟨[0x05] ++ c, by simp, .else h7, h8⟩
      · have h9 : (readIf rd n e >>= fun p => Pure.pure (if e then (p.1, i :: p.2) else (i :: p.1, p.2)) : Reader _) s1 = .ok (p, r) := by
          have := accI_not_marker h3
          split at h2
          · exact absurd rfl this.1
          · exact absurd rfl this.2
          · exact h2
        obtain ⟨q, s2, h5, h6⟩ := bind_iff.mp h9
        obtain ⟨rfl, rfl⟩ := pure_iff.mp h6
        obtain ⟨c, rfl, h7, h8, h10⟩ := ih hlen hs1 h5
        cases e with
        | false => exact ⟨b ++ c, by simp, .thn h3 h7, by simp [nestL, h4, h8], h10⟩
        | true => exact ⟨b ++ c, by simp, .els h3 h7, h8, by simp [nestL, h4, h10]⟩
    · have hn : ∃ k, n = k + 1 := by
        have := List.length_pos_iff.mpr hne
        exact ⟨n - 1, by omega⟩
      obtain ⟨k, rfl⟩ := hn
      obtain ⟨is', s2, h5, h6⟩ := bind_iff.mp h2
      rw [readIf] at h5
      obtain ⟨i, s1, h7, -⟩ := bind_iff.mp h5
      exact absurd h7 (hrd.empty _ _)

theorem align_load {o : LoadOp} {a k : Nat} (hk : o.alignBound = some k) (h : a < k) : 2 ^ a ≤ loadWidth o := by
  cases o <;> simp only [LoadOp.alignBound, Option.some.injEq, reduceCtorEq] at hk <;> subst hk <;>
    interval_cases a <;> decide
theorem align_none {o : LoadOp} (hk : o.alignBound = none) : o = .v128_load32_zero ∨ o = .v128_load64_zero := by
  cases o <;> simp [LoadOp.alignBound] at hk <;> simp
theorem align_store {o : StoreOp} {a : Nat} (h : a < o.alignBound) : 2 ^ a ≤ storeWidth o := by
  cases o <;> simp only [StoreOp.alignBound] at h <;> interval_cases a <;> decide

theorem unpackS_length {k : Nat} {b : Bytes} {n : Int} (h : Py.unpackS k b = .ok n) : b.length = k ∧ n = bitsOf k b := by
  have h1 : b.length = k := by
    unfold Py.unpackS at h
    split at h
    · assumption
    · cases h
  refine ⟨h1, ?_⟩
  rw [bitsOf_eq h1] at h
  cases h
  rfl

/-- The immediates of every instruction. -/
theorem args_got {lim : Nat} {rd : Reader Inst} (hrd : GotI lim rd) {o : Opc} {op s r : Bytes} {i : Inst} (hop : EncOp o op)
    (hs : s.length < 2 ^ 32) (h : Inst.args rd o s = .ok (i, r)) :
    (∃ x, s = x ++ r ∧ Took (lim + 1) i (op ++ x)) ∨ (∃ d, i = .v128Const d) ∧ r = [] := by
  have leaf : ∀ {x}, s = x ++ r → EncLeaf i (op ++ x) → (∃ x, s = x ++ r ∧ Took (lim + 1) i (op ++ x)) ∨ (∃ d, i = .v128Const d) ∧ r = [] :=
    fun h1 h2 => .inl ⟨_, h1, by omega, .inr (.inr ⟨.leaf h2, by rw [encLeaf_nest h2]; omega⟩)⟩
  have loose : ∀ {x}, s = x ++ r → LooseLeaf i (op ++ x) → (∃ x, s = x ++ r ∧ Took (lim + 1) i (op ++ x)) ∨ (∃ d, i = .v128Const d) ∧ r = [] :=
    fun h1 h2 => .inl ⟨_, h1, by omega, .inr (.inr ⟨.loose h2, by rw [(looseLeaf_not_marker h2).2.2]; omega⟩)⟩
  have none' : ∀ {j}, (Pure.pure j : Reader Inst) s = .ok (i, r) → EncLeaf j op →
      (∃ x, s = x ++ r ∧ Took (lim + 1) i (op ++ x)) ∨ (∃ d, i = .v128Const d) ∧ r = [] := by
    intro j h1 h2
    obtain ⟨rfl, rfl⟩ := pure_iff.mp h1
    exact leaf (x := []) rfl (by simpa using h2)
  have one : ∀ {f : Nat → Inst}, (do let a ← uleb; Pure.pure (f a) : Reader Inst) s = .ok (i, r) →
      (∀ a x, U a x → EncLeaf (f a) (op ++ x)) → (∃ x, s = x ++ r ∧ Took (lim + 1) i (op ++ x)) ∨ (∃ d, i = .v128Const d) ∧ r = [] := by
    intro f h1 h2
    obtain ⟨a, s1, h3, h4⟩ := bind_iff.mp h1
    obtain ⟨g, hg, rfl⟩ := uleb_iff.mp h3
    obtain ⟨rfl, rfl⟩ := pure_iff.mp h4
    exact leaf rfl (h2 a g hg)
  have two : ∀ {f : Nat → Nat → Inst}, Reader.uleb2 f s = .ok (i, r) →
      (∀ a b x y, U a x → U b y → EncLeaf (f a b) (op ++ x ++ y)) →
      (∃ x, s = x ++ r ∧ Took (lim + 1) i (op ++ x)) ∨ (∃ d, i = .v128Const d) ∧ r = [] := by
    intro f h1 h2
    obtain ⟨a, s1, h3, h4⟩ := bind_iff.mp h1
    obtain ⟨g, hg, rfl⟩ := uleb_iff.mp h3
    obtain ⟨b, s2, h5, h6⟩ := bind_iff.mp h4
    obtain ⟨k, hk, rfl⟩ := uleb_iff.mp h5
    obtain ⟨rfl, rfl⟩ := pure_iff.mp h6
    exact leaf (x := g ++ k) (by simp) (by rw [← List.append_assoc]; exact h2 a b g k hg hk)
  cases o with
  | unreachable => exact none' h (.unreachable hop)
  | nop => exact none' h (.nop hop)
  | return_call => exact none' h (.ret hop)
  | drop => exact none' h (.drop hop)
  | select => exact none' h (.select hop)
  | ref_is_null => exact none' h (.refIsNull hop)
  | int _ => exact none' h (.int hop)
  | flt _ => exact none' h (.flt hop)
  | vec _ => exact none' h (.vec hop)
  | br => exact one h fun _ _ => .br hop
  | br_if => exact one h fun _ _ => .brIf hop
  | call => exact one h fun _ _ => .call hop
  | local_get => exact one h fun _ _ => .localGet hop
  | local_set => exact one h fun _ _ => .localSet hop
  | local_tee => exact one h fun _ _ => .localTee hop
  | global_get => exact one h fun _ _ => .globalGet hop
  | global_set => exact one h fun _ _ => .globalSet hop
  | table_get => exact one h fun _ _ => .tableGet hop
  | table_set => exact one h fun _ _ => .tableSet hop
  | ref_func => exact one h fun _ _ => .refFunc hop
  | data_drop => exact one h fun _ _ => .dataDrop hop
  | elem_drop => exact one h fun _ _ => .elemDrop hop
  | table_grow => exact one h fun _ _ => .tableGrow hop
  | table_size => exact one h fun _ _ => .tableSize hop
  | table_fill => exact one h fun _ _ => .tableFill hop
  | call_indirect => exact two h fun _ _ _ _ => .callIndirect hop
  | table_init => exact two h fun _ _ _ _ => .tableInit hop
  | table_copy => exact two h fun _ _ _ _ => .tableCopy hop
  | end_fi =>
    obtain ⟨rfl, rfl⟩ := pure_iff.mp h
    refine .inl ⟨[], rfl, by omega, .inl ⟨rfl, ?_⟩⟩
    cases hop with
    | byte hb => cases hb; rfl
    | fc hb => cases hb
    | fd hb => cases hb
  | else_fi =>
    obtain ⟨rfl, rfl⟩ := pure_iff.mp h
    refine .inl ⟨[], rfl, by omega, .inr (.inl ⟨rfl, ?_⟩)⟩
    cases hop with
    | byte hb => cases hb; rfl
    | fc hb => cases hb
    | fd hb => cases hb
  | block =>
    obtain ⟨bt, s1, h1, h2⟩ := bind_iff.mp h
    obtain ⟨t, rfl, ht⟩ := bype_iff.mp h1
    obtain ⟨body, s2, h3, h4⟩ := bind_iff.mp h2
    obtain ⟨rfl, rfl⟩ := pure_iff.mp h4
    have hs1 : s1.length < 2 ^ 32 := by simp only [List.length_append] at hs; omega
    obtain ⟨b, rfl, h5, h6⟩ := body_got hrd (by simpa using hs1) hs1 h3
    refine .inl ⟨t ++ (b ++ [0x0B]), by simp, by omega, .inr (.inr ⟨?_, by simp only [nest]; omega⟩)⟩
    have := AccI.block hop ht h5
    simpa using this
  | loop =>
    obtain ⟨bt, s1, h1, h2⟩ := bind_iff.mp h
    obtain ⟨t, rfl, ht⟩ := bype_iff.mp h1
    obtain ⟨body, s2, h3, h4⟩ := bind_iff.mp h2
    obtain ⟨rfl, rfl⟩ := pure_iff.mp h4
    have hs1 : s1.length < 2 ^ 32 := by simp only [List.length_append] at hs; omega
    obtain ⟨b, rfl, h5, h6⟩ := body_got hrd (by simpa using hs1) hs1 h3
    refine .inl ⟨t ++ (b ++ [0x0B]), by simp, by omega, .inr (.inr ⟨?_, by simp only [nest]; omega⟩)⟩
    have := AccI.loop hop ht h5
    simpa using this
  | if_then =>
    obtain ⟨bt, s1, h1, h2⟩ := bind_iff.mp h
    obtain ⟨t, rfl, ht⟩ := bype_iff.mp h1
    obtain ⟨p, s2, h3, h4⟩ := bind_iff.mp h2
    obtain ⟨rfl, rfl⟩ := pure_iff.mp h4
    have hs1 : s1.length < 2 ^ 32 := by simp only [List.length_append] at hs; omega
    obtain ⟨b, rfl, h5, h6, h7⟩ := if_got hrd (by simpa using hs1) hs1 h3
    refine .inl ⟨t ++ (b ++ [0x0B]), by simp, by omega, .inr (.inr ⟨?_, by simp only [nest]; omega⟩)⟩
    have := AccI.ifThen hop ht h5
    simpa using this
  | br_table =>
    obtain ⟨l, s1, h1, h2⟩ := bind_iff.mp h
    obtain ⟨x, rfl, hx⟩ := (vecU_iff hs).mp h1
    obtain ⟨d, s2, h3, h4⟩ := bind_iff.mp h2
    obtain ⟨g, hg, rfl⟩ := uleb_iff.mp h3
    obtain ⟨rfl, rfl⟩ := pure_iff.mp h4
    exact leaf (x := x ++ g) (by simp) (by rw [← List.append_assoc]; exact .brTable hop hx hg)
  | select_type =>
    obtain ⟨l, s1, h1, h2⟩ := bind_iff.mp h
    obtain ⟨x, rfl, hx⟩ := (vecU_iff hs).mp h1
    obtain ⟨rfl, rfl⟩ := pure_iff.mp h2
    exact loose rfl (.selectType hop hx)
  | load o =>
    obtain ⟨a, s1, h1, h2⟩ := bind_iff.mp h
    obtain ⟨g, hg, rfl⟩ := uleb_iff.mp h1
    obtain ⟨f, s2, h3, h4⟩ := bind_iff.mp h2
    obtain ⟨k, hk, rfl⟩ := uleb_iff.mp h3
    rcases hc : o.alignBound with _ | c <;> rw [hc] at h4
    case some =>
      obtain ⟨_, s3, h5, h6⟩ := bind_iff.mp h4
      obtain ⟨h7, rfl⟩ := check_iff.mp h5
      obtain ⟨rfl, rfl⟩ := pure_iff.mp h6
      exact leaf (x := g ++ k) (by simp) (.load hop ⟨g, k, hg, hk, rfl⟩ (align_load hc (of_decide_eq_true h7)))
    case none =>
      obtain ⟨rfl, rfl⟩ := pure_iff.mp h4
      exact loose (x := g ++ k) (by simp) (.load (align_none hc) hop ⟨g, k, hg, hk, rfl⟩)
  | store o =>
    obtain ⟨a, s1, h1, h2⟩ := bind_iff.mp h
    obtain ⟨g, hg, rfl⟩ := uleb_iff.mp h1
    obtain ⟨f, s2, h3, h4⟩ := bind_iff.mp h2
    obtain ⟨k, hk, rfl⟩ := uleb_iff.mp h3
    obtain ⟨_, s3, h5, h6⟩ := bind_iff.mp h4
    obtain ⟨h7, rfl⟩ := check_iff.mp h5
    obtain ⟨rfl, rfl⟩ := pure_iff.mp h6
    exact leaf (x := g ++ k) (by simp) (.store hop ⟨g, k, hg, hk, rfl⟩ (align_store (of_decide_eq_true h7)))
  | load_lane w =>
    obtain ⟨a, s1, h1, h2⟩ := bind_iff.mp h
    obtain ⟨g, hg, rfl⟩ := uleb_iff.mp h1
    obtain ⟨f, s2, h3, h4⟩ := bind_iff.mp h2
    obtain ⟨k, hk, rfl⟩ := uleb_iff.mp h3
    obtain ⟨l, s3, h5, h6⟩ := bind_iff.mp h4
    obtain ⟨y, hy, rfl⟩ := uleb_iff.mp h5
    obtain ⟨_, s4, h7, h8⟩ := bind_iff.mp h6
    obtain ⟨h9, rfl⟩ := check_iff.mp h7
    obtain ⟨rfl, rfl⟩ := pure_iff.mp h8
    have := of_decide_eq_true h9
    rw [laneW_eq] at this
    refine loose (x := g ++ k ++ y) (by simp) ?_
    rw [← List.append_assoc]
    exact .loadLane hop ⟨g, k, hg, hk, rfl⟩ hy this
  | store_lane w =>
    obtain ⟨a, s1, h1, h2⟩ := bind_iff.mp h
    obtain ⟨g, hg, rfl⟩ := uleb_iff.mp h1
    obtain ⟨f, s2, h3, h4⟩ := bind_iff.mp h2
    obtain ⟨k, hk, rfl⟩ := uleb_iff.mp h3
    obtain ⟨l, s3, h5, h6⟩ := bind_iff.mp h4
    obtain ⟨y, hy, rfl⟩ := uleb_iff.mp h5
    obtain ⟨_, s4, h7, h8⟩ := bind_iff.mp h6
    obtain ⟨h9, rfl⟩ := check_iff.mp h7
    obtain ⟨rfl, rfl⟩ := pure_iff.mp h8
    have := of_decide_eq_true h9
    rw [laneW_eq] at this
    refine loose (x := g ++ k ++ y) (by simp) ?_
    rw [← List.append_assoc]
    exact .storeLane hop ⟨g, k, hg, hk, rfl⟩ hy this
  | memory_size =>
    obtain ⟨b, s1, h1, h2⟩ := bind_iff.mp h
    obtain rfl := ordByte_iff.mp h1
    obtain ⟨rfl, rfl⟩ := pure_iff.mp h2
    exact loose (x := [b]) rfl (.memorySize b hop)
  | memory_grow =>
    obtain ⟨b, s1, h1, h2⟩ := bind_iff.mp h
    obtain rfl := ordByte_iff.mp h1
    obtain ⟨rfl, rfl⟩ := pure_iff.mp h2
    exact loose (x := [b]) rfl (.memoryGrow b hop)
  | ref_null =>
    obtain ⟨b, s1, h1, h2⟩ := bind_iff.mp h
    obtain rfl := ordByte_iff.mp h1
    obtain ⟨rfl, rfl⟩ := pure_iff.mp h2
    exact loose (x := [b]) rfl (.refNull b hop)
  | i32_const =>
    obtain ⟨n, s1, h1, h2⟩ := bind_iff.mp h
    obtain ⟨g, hg, rfl⟩ := ileb_iff.mp h1
    obtain ⟨rfl, rfl⟩ := pure_iff.mp h2
    exact leaf rfl (.i32Const hop hg)
  | i64_const =>
    obtain ⟨n, s1, h1, h2⟩ := bind_iff.mp h
    obtain ⟨g, hg, rfl⟩ := ileb_iff.mp h1
    obtain ⟨rfl, rfl⟩ := pure_iff.mp h2
    exact leaf rfl (.i64Const hop hg)
  | f32_const =>
    obtain ⟨b, s1, h1, h2⟩ := bind_iff.mp h
    obtain ⟨rfl, -⟩ := read_iff.mp h1
    obtain ⟨n, s2, h3, h4⟩ := bind_iff.mp h2
    obtain ⟨h5, rfl⟩ := liftE_iff.mp h3
    obtain ⟨rfl, rfl⟩ := pure_iff.mp h4
    obtain ⟨h6, rfl⟩ := unpackS_length h5
    exact leaf rfl (.f32Const hop h6)
  | f64_const =>
    obtain ⟨b, s1, h1, h2⟩ := bind_iff.mp h
    obtain ⟨rfl, -⟩ := read_iff.mp h1
    obtain ⟨n, s2, h3, h4⟩ := bind_iff.mp h2
    obtain ⟨h5, rfl⟩ := liftE_iff.mp h3
    obtain ⟨rfl, rfl⟩ := pure_iff.mp h4
    obtain ⟨h6, rfl⟩ := unpackS_length h5
    exact leaf rfl (.f64Const hop h6)
  | v128_const =>
    obtain ⟨b, s1, h1, h2⟩ := bind_iff.mp h
    obtain ⟨rfl, h3⟩ := read_iff.mp h1
    obtain ⟨rfl, rfl⟩ := pure_iff.mp h2
    rcases h3 with h3 | ⟨-, -, rfl⟩
    · exact leaf rfl (.v128Const hop h3)
    · exact .inr ⟨⟨b, rfl⟩, rfl⟩
  | memory_init =>
    obtain ⟨n, s1, h1, h2⟩ := bind_iff.mp h
    obtain ⟨g, hg, rfl⟩ := uleb_iff.mp h1
    obtain ⟨_, s2, h3, h4⟩ := bind_iff.mp h2
    obtain rfl := zeroByte_iff.mp h3
    obtain ⟨rfl, rfl⟩ := pure_iff.mp h4
    exact leaf (x := g ++ [0]) (by simp) (by rw [← List.append_assoc]; exact .memoryInit hop hg)
  | memory_copy =>
    obtain ⟨_, s1, h1, h2⟩ := bind_iff.mp h
    obtain rfl := zeroByte_iff.mp h1
    obtain ⟨_, s2, h3, h4⟩ := bind_iff.mp h2
    obtain rfl := zeroByte_iff.mp h3
    obtain ⟨rfl, rfl⟩ := pure_iff.mp h4
    exact leaf (x := [0, 0]) rfl (.memoryCopy hop)
  | memory_fill =>
    obtain ⟨_, s1, h1, h2⟩ := bind_iff.mp h
    obtain rfl := zeroByte_iff.mp h1
    obtain ⟨rfl, rfl⟩ := pure_iff.mp h2
    exact leaf (x := [0]) rfl (.memoryFill hop)
  | i8x16_shuffle =>
    obtain ⟨l, s1, h1, h2⟩ := bind_iff.mp h
    obtain ⟨_, s2, h3, h4⟩ := bind_iff.mp h2
    obtain ⟨h5, rfl⟩ := check_iff.mp h3
    obtain ⟨rfl, rfl⟩ := pure_iff.mp h4
    obtain ⟨h6, b, rfl, h7⟩ := (times_iff (R := fun x c _ => U x c) 16 (fun s a r _ => by rw [uleb_iff]; exact exists_congr fun _ => and_comm) hs).mp h1
    obtain ⟨bs, h8, rfl⟩ := seq_const.mp h7
    exact loose rfl (.shuffle hop h6 h8 (by simpa using h5))
  | lane o =>
    obtain ⟨a, s1, h1, h2⟩ := bind_iff.mp h
    obtain ⟨g, hg, rfl⟩ := uleb_iff.mp h1
    obtain ⟨_, s2, h3, h4⟩ := bind_iff.mp h2
    obtain ⟨h5, rfl⟩ := check_iff.mp h3
    obtain ⟨rfl, rfl⟩ := pure_iff.mp h4
    have := of_decide_eq_true h5
    rw [lanes_eq] at this
    exact loose rfl (.lane hop hg this)

theorem inst_got : ∀ lim, GotI lim (Inst.fromReader lim)
  | 0 => ⟨fun _ _ _ _ h => (nomatch h), fun _ _ h => (nomatch h)⟩
  | lim + 1 => by
    refine ⟨fun s i r hs h => ?_, fun i r h => (nomatch h)⟩
    rw [Inst.fromReader] at h
    obtain ⟨b, s1, h1, h2⟩ := bind_iff.mp h
    obtain rfl := ordByte_iff.mp h1
    obtain ⟨n, s2, h3, h4⟩ := bind_iff.mp h2
    rcases ho : Opc.ofNum n with _ | o <;> rw [ho] at h4
    · cases h4
    obtain ⟨x, rfl, hx⟩ := opcode_got h3 ho
    have hs2 : s2.length < 2 ^ 32 := by simp only [List.length_append, List.length_cons] at hs; omega
    rcases args_got (inst_got lim) hx hs2 h4 with ⟨y, rfl, h5⟩ | h5
    · exact .inl ⟨b :: x ++ y, by simp, by simp, h5⟩
    · exact .inr h5

end Pywasm
