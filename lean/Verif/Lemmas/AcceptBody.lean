import Verif.Lemmas.AcceptInst

/-!
# Everything in the grammar of accepted instructions is accepted
-/

namespace Pywasm
open Reader Spec.Bin Spec.Leb

theorem reads_loose {i : Inst} {b : Bytes} (h : LooseLeaf i b) (lim : Nat) : Reads (Inst.fromReader (lim + 1)) b i := by
  cases h with
  | selectType h hx => exact reads_opcode h lim (.bind0 (.vec hx fun _ _ _ h => .uleb h) (.pure _))
  | @load o a f op x ho h hx =>
    obtain ⟨y, z, hy, hz, rfl⟩ := hx
    refine reads_opcode h lim (.bind (.uleb hy) (.bind0 (.uleb hz) ?_))
    rcases ho with rfl | rfl <;> exact .pure _
  | @loadLane w a f l op x y h hx hu hl =>
    obtain ⟨p, q, hp, hq, rfl⟩ := hx
    rw [List.append_assoc, List.append_assoc]
    rw [← laneW_eq] at hl
    exact reads_opcode h lim (.bind (.uleb hp) (.bind (.uleb hq) (.bind0 (.uleb hu) (.bind1 (.check (decide_eq_true hl)) (.pure _)))))
  | @storeLane w a f l op x y h hx hu hl =>
    obtain ⟨p, q, hp, hq, rfl⟩ := hx
    rw [List.append_assoc, List.append_assoc]
    rw [← laneW_eq] at hl
    exact reads_opcode h lim (.bind (.uleb hp) (.bind (.uleb hq) (.bind0 (.uleb hu) (.bind1 (.check (decide_eq_true hl)) (.pure _)))))
  | memorySize b h => exact reads_opcode h lim (.bind0 (.ordByte b) (.pure _))
  | memoryGrow b h => exact reads_opcode h lim (.bind0 (.ordByte b) (.pure _))
  | refNull b h => exact reads_opcode h lim (.bind0 (.ordByte b) (.pure _))
  | @shuffle op l bs h hl hf hb =>
    refine reads_opcode h lim (.bind0 (a := l) ?_ (.bind1 (.check ?_) (.pure _)))
    · rw [← hl]
      exact .times (hf.imp fun _ _ h => .uleb h)
    · simpa using hb
  | @lane o l op x h hu hl =>
    rw [← lanes_eq] at hl
    exact reads_opcode h lim (.bind0 (.uleb hu) (.bind1 (.check (decide_eq_true hl)) (.pure _)))

theorem accI_pos {i : Inst} {b : Bytes} (h : AccI i b) : 0 < b.length := by
  cases h with
  | leaf h => exact encI_pos (.leaf h)
  | loose h => cases h <;> simp only [List.length_append] <;> have := encOp_pos ‹EncOp _ _› <;> omega
  | block h => have := encOp_pos h; simp only [List.length_append]; omega
  | loop h => have := encOp_pos h; simp only [List.length_append]; omega
  | ifThen h => have := encOp_pos h; simp only [List.length_append]; omega

theorem readBody_accL {rd : Reader Inst} (he : Reads rd [0x0B] .endFi) (hel : Reads rd [0x05] .elseFi) {is : List Inst} {b : Bytes} (h : AccL is b)
    (hr : ∀ i ∈ is, ∀ b, AccI i b → b.length < 2 ^ 32 → Reads rd b i)
    (hl : b.length < 2 ^ 32) (n : Nat) (hn : b.length < n) : Reads (readBody rd n) (b ++ [0x0B]) is := by
  induction is generalizing b n with
  | nil =>
    cases h
    obtain ⟨n, rfl⟩ : ∃ k, n = k + 1 := ⟨n - 1, by simp at hn; omega⟩
    exact .bind0 he (.pure _)
  | cons i is ih =>
    obtain ⟨n, rfl⟩ : ∃ k, n = k + 1 := ⟨n - 1, by omega⟩
    cases h with
    | @cons _ _ a b hi hL =>
      have := accI_pos hi
      simp only [List.length_append] at hl hn
      rw [List.append_assoc]
      refine .bind (hr i (by simp) a hi (by omega)) ?_
      have := ih hL (fun j hj => hr j (by simp [hj])) (by omega) n (by omega)
      have hm := accI_not_marker hi
      cases i <;> first | exact absurd rfl hm.1 | exact .bind0 this (.pure _)
    | @«else» _ b hL =>
      simp only [List.length_append, List.length_cons, List.length_nil] at hl hn
      rw [List.append_assoc]
      refine .bind hel ?_
      exact .bind0 (ih hL (fun j hj => hr j (by simp [hj])) (by omega) n (by omega)) (.pure _)

theorem readIf_accIf {rd : Reader Inst} (he : Reads rd [0x0B] .endFi) (hel : Reads rd [0x05] .elseFi) {e : Bool} {thn els : List Inst} {b : Bytes}
    (h : AccIf e thn els b) (hr : ∀ i ∈ thn ++ els, ∀ b, AccI i b → b.length < 2 ^ 32 → Reads rd b i)
    (hl : b.length < 2 ^ 32) (n : Nat) (hn : b.length < n) : Reads (readIf rd n e) (b ++ [0x0B]) (thn, els) := by
  induction n generalizing b e thn els with
  | zero => omega
  | succ n ih =>
    cases h with
    | nil => exact .bind0 he (.pure _)
    | @thn i thn els a b hi h =>
      have := accI_pos hi
      simp only [List.length_append] at hl hn
      rw [List.append_assoc]
      refine .bind (hr i (by simp) a hi (by omega)) ?_
      have := ih h (fun j hj => hr j (by simp only [List.cons_append, List.mem_cons]; exact .inr hj)) (by omega) (by omega)
      have hm := accI_not_marker hi
      cases i <;> first | exact absurd rfl hm.1 | exact absurd rfl hm.2 | exact .bind0 this (.pure _)
    | @els i thn els a b hi h =>
      have := accI_pos hi
      simp only [List.length_append] at hl hn
      rw [List.append_assoc]
      refine .bind (hr i (by simp) a hi (by omega)) ?_
      have := ih h (fun j hj => hr j (by simp only [List.mem_append, List.mem_cons] at hj ⊢; tauto)) (by omega) (by omega)
      have hm := accI_not_marker hi
      cases i <;> first | exact absurd rfl hm.1 | exact absurd rfl hm.2 | exact .bind0 this (.pure _)
    | @«else» e thn els b h =>
      simp only [List.length_append, List.length_cons, List.length_nil] at hl hn
      rw [List.append_assoc]
      exact .bind hel (ih h hr (by omega) (by omega))

theorem Reads.bype {bt : Bype} {b : Bytes} (h : AccBt bt b) : Reads Bype.fromReader b bt := fun _ => bype_iff.mpr ⟨b, rfl, h⟩

theorem reads_accI (lim : Nat) : ∀ {i : Inst} {b : Bytes}, AccI i b → nest i < lim → b.length < 2 ^ 32 →
    Reads (Inst.fromReader lim) b i := by
  induction lim with
  | zero => intro i b _ h; omega
  | succ lim ih =>
    intro i b h hn hl
    have sub : ∀ is : List Inst, nestL is < lim → ∀ i ∈ is, ∀ b, AccI i b → b.length < 2 ^ 32 →
        Reads (Inst.fromReader lim) b i := fun is his i hi b hb => ih hb (by have := nest_mem hi; omega)
    cases h with
    | leaf h => exact reads_leaf h lim
    | loose h => exact reads_loose h lim
    | @block bt body op t b ho ht hb =>
      simp only [List.length_append] at hl
      simp only [nest] at hn
      obtain ⟨lim, rfl⟩ : ∃ k, lim = k + 1 := ⟨lim - 1, by omega⟩
      rw [List.append_assoc, List.append_assoc]
      exact reads_opcode ho _ (.bind (.bype ht) (.bind0
        (readBody_accL (reads_marker lim) (reads_else lim) hb (sub body (by omega)) (by omega) (1 <<< 32) (by simp; omega)) (.pure _)))
    | @loop bt body op t b ho ht hb =>
      simp only [List.length_append] at hl
      simp only [nest] at hn
      obtain ⟨lim, rfl⟩ : ∃ k, lim = k + 1 := ⟨lim - 1, by omega⟩
      rw [List.append_assoc, List.append_assoc]
      exact reads_opcode ho _ (.bind (.bype ht) (.bind0
        (readBody_accL (reads_marker lim) (reads_else lim) hb (sub body (by omega)) (by omega) (1 <<< 32) (by simp; omega)) (.pure _)))
    | @ifThen bt thn els op t b ho ht hb =>
      simp only [List.length_append] at hl
      simp only [nest] at hn
      obtain ⟨lim, rfl⟩ : ∃ k, lim = k + 1 := ⟨lim - 1, by omega⟩
      rw [List.append_assoc, List.append_assoc]
      refine reads_opcode ho _ (.bind (.bype ht) (.bind0 (a := (thn, els)) ?_ (.pure _)))
      refine readIf_accIf (reads_marker lim) (reads_else lim) hb (fun i hi => ?_) (by omega) (1 <<< 32) (by simp; omega)
      rcases List.mem_append.mp hi with hi | hi
      · exact sub thn (by omega) i hi
      · exact sub els (by omega) i hi

/-- The decoder of expressions accepts exactly the expressions of the grammar. -/
theorem expr_iff {lim : Nat} {s r : Bytes} {e : Expr} (hs : s.length < 2 ^ 32) :
    Expr.fromReader lim s = .ok (e, r) ↔ ∃ b, s = b ++ r ∧ AccE lim e b := by
  constructor
  · intro h
    obtain ⟨b, rfl, h1, h2⟩ := body_got (inst_got lim) (by simpa using hs) hs h
    exact ⟨b ++ [0x0B], rfl, h2, b, h1, rfl⟩
  · rintro ⟨_, rfl, hn, b, hb, rfl⟩
    simp only [List.length_append, List.length_cons, List.length_nil] at hs
    obtain ⟨lim, rfl⟩ : ∃ k, lim = k + 1 := ⟨lim - 1, by omega⟩
    exact readBody_accL (reads_marker lim) (reads_else lim) hb
      (fun i hi b hb hl => reads_accI _ hb (by have := nest_mem hi; omega) hl) (by omega) _ (by simp; omega) r

end Pywasm
