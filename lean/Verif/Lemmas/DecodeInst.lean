import Verif.Lemmas.Opcode

/-!
# Decoding of instructions
-/

namespace Pywasm
open Reader Spec.Bin Spec.Leb

/-! ## Immediates -/

theorem leNat_zipIdx (b : Bytes) (k : Nat) :
    ((b.zipIdx k).map fun p => p.1.toNat * 256 ^ p.2).sum = 256 ^ k * Py.leNat b := by
  induction b generalizing k with
  | nil => simp [Py.leNat]
  | cons x t ih => simp only [List.zipIdx_cons, List.map_cons, List.sum_cons, ih, Py.leNat, Nat.pow_succ]; ring

theorem bitsOf_eq {k : Nat} {b : Bytes} (h : b.length = k) : Py.unpackS k b = .ok (bitsOf k b) := by
  unfold Py.unpackS bitsOf Py.fromBytesS
  rw [if_pos h]
  simp only [leNat_zipIdx, h, Nat.pow_zero, Nat.one_mul]

theorem pow_le_cases {a w : Nat} (h : 2 ^ a ≤ w) (hw : w < 32) : a < 5 := by
  by_contra hc
  have : 2 ^ 5 ≤ 2 ^ a := Nat.pow_le_pow_right (by decide) (by omega)
  omega

theorem load_align {o : LoadOp} {a k : Nat} (h : 2 ^ a ≤ loadWidth o) (hk : o.alignBound = some k) : a < k := by
  have := pow_le_cases h (by cases o <;> decide)
  cases o <;> simp only [LoadOp.alignBound, Option.some.injEq, reduceCtorEq] at hk <;> subst hk <;>
    interval_cases a <;> revert h <;> decide

theorem store_align {o : StoreOp} {a : Nat} (h : 2 ^ a ≤ storeWidth o) : a < o.alignBound := by
  have := pow_le_cases h (by cases o <;> decide)
  cases o <;> interval_cases a <;> revert h <;> decide

theorem lanes_eq (o : LOp) : o.laneBound = lanes o := by cases o <;> rfl
theorem laneW_eq (w : LaneW) : w.laneBound = 16 / w.bytes := by cases w <;> rfl
theorem lanes_le (o : LOp) : lanes o ≤ 16 := by cases o <;> decide
theorem laneW_le (w : LaneW) : 16 / w.bytes ≤ 16 := by cases w <;> decide

theorem reads_bytes_uleb {l : Bytes} (h : ∀ b ∈ l, b.toNat < 128) :
    Reads (Reader.times Reader.uleb l.length) l (l.map (·.toNat)) := by
  induction l with
  | nil => exact .pure _
  | cons b l ih =>
    exact Reads.bind (b := [b]) (.uleb (u_byte (h b (by simp)))) (.bind0 (ih fun x hx => h x (by simp [hx])) (.pure _))

theorem valByte_lt (t : ValType) : (valByte t).toNat < 128 := by cases t <;> decide

theorem reads_valtypes {ts : List ValType} {x : Bytes} (h : Vec EncVal ts x) :
    Reads (Reader.vec Reader.uleb) x (ts.map fun t => (valByte t).toNat) := by
  obtain ⟨len, bs, hl, hf, rfl⟩ := h
  have e : bs.flatten = ts.map valByte := by
    clear hl
    induction hf with
    | nil => rfl
    | cons h _ ih => rw [List.flatten_cons, ih, h]; rfl
  refine .bind (.uleb hl) ?_
  rw [e]
  have := reads_bytes_uleb (l := ts.map valByte) (by simp only [List.mem_map]; rintro b ⟨t, -, rfl⟩; exact valByte_lt t)
  rw [List.length_map, List.map_map] at this
  exact this

/-- Every instruction without nested instructions. -/
theorem reads_leaf {i : Inst} {b : Bytes} (h : EncLeaf i b) (lim : Nat) : Reads (Inst.fromReader (lim + 1)) b i := by
  cases h with
  | unreachable h => exact reads_op h lim (.pure _)
  | nop h => exact reads_op h lim (.pure _)
  | ret h => exact reads_op h lim (.pure _)
  | drop h => exact reads_op h lim (.pure _)
  | select h => exact reads_op h lim (.pure _)
  | refIsNull h => exact reads_op h lim (.pure _)
  | int h => exact reads_op h lim (.pure _)
  | flt h => exact reads_op h lim (.pure _)
  | vec h => exact reads_op h lim (.pure _)
  | br h hx => exact reads_opcode h lim (.uleb1 _ hx)
  | brIf h hx => exact reads_opcode h lim (.uleb1 _ hx)
  | brTable h hx hy =>
    rw [List.append_assoc]
    exact reads_opcode h lim (.bind (.vec hx fun _ _ _ h => .uleb h) (.bind0 (.uleb hy) (.pure _)))
  | call h hx => exact reads_opcode h lim (.uleb1 _ hx)
  | callIndirect h hx hy => rw [List.append_assoc]; exact reads_opcode h lim (.uleb2 _ hx hy)
  | selectType h hx => exact reads_opcode h lim (.bind0 (reads_valtypes hx) (.pure _))
  | localGet h hx => exact reads_opcode h lim (.uleb1 _ hx)
  | localSet h hx => exact reads_opcode h lim (.uleb1 _ hx)
  | localTee h hx => exact reads_opcode h lim (.uleb1 _ hx)
  | globalGet h hx => exact reads_opcode h lim (.uleb1 _ hx)
  | globalSet h hx => exact reads_opcode h lim (.uleb1 _ hx)
  | tableGet h hx => exact reads_opcode h lim (.uleb1 _ hx)
  | tableSet h hx => exact reads_opcode h lim (.uleb1 _ hx)
  | @load o a f op x h hx ha =>
    obtain ⟨y, z, hy, hz, rfl⟩ := hx
    refine reads_opcode h lim (.bind (.uleb hy) (.bind0 (.uleb hz) ?_))
    cases hk : o.alignBound with
    | none => exact .pure _
    | some k => exact .bind1 (.check (decide_eq_true (load_align ha hk))) (.pure _)
  | @store o a f op x h hx ha =>
    obtain ⟨y, z, hy, hz, rfl⟩ := hx
    exact reads_opcode h lim (.bind (.uleb hy) (.bind0 (.uleb hz)
      (.bind1 (.check (decide_eq_true (store_align ha))) (.pure _))))
  | @loadLane w a f op x l h hx ha hl =>
    obtain ⟨y, z, hy, hz, rfl⟩ := hx
    rw [List.append_assoc, List.append_assoc]
    rw [← laneW_eq] at hl
    exact reads_opcode h lim (.bind (.uleb hy) (.bind (.uleb hz) (.bind0
      (.uleb (u_byte (by cases w <;> simp only [LaneW.laneBound] at hl <;> omega)))
      (.bind1 (.check (decide_eq_true hl)) (.pure _)))))
  | @storeLane w a f op x l h hx ha hl =>
    obtain ⟨y, z, hy, hz, rfl⟩ := hx
    rw [List.append_assoc, List.append_assoc]
    rw [← laneW_eq] at hl
    exact reads_opcode h lim (.bind (.uleb hy) (.bind (.uleb hz) (.bind0
      (.uleb (u_byte (by cases w <;> simp only [LaneW.laneBound] at hl <;> omega)))
      (.bind1 (.check (decide_eq_true hl)) (.pure _)))))
  | memorySize h => exact reads_opcode h lim (.bind0 (.ordByte 0) (.pure _))
  | memoryGrow h => exact reads_opcode h lim (.bind0 (.ordByte 0) (.pure _))
  | i32Const h hx => exact reads_opcode h lim (.bind0 (.ileb hx) (.pure _))
  | i64Const h hx => exact reads_opcode h lim (.bind0 (.ileb hx) (.pure _))
  | f32Const h hb => exact reads_opcode h lim (.bind0 (.read hb) (.bind1 (.liftE (bitsOf_eq hb)) (.pure _)))
  | f64Const h hb => exact reads_opcode h lim (.bind0 (.read hb) (.bind1 (.liftE (bitsOf_eq hb)) (.pure _)))
  | v128Const h hb => exact reads_opcode h lim (.bind0 (.read hb) (.pure _))
  | refNull h => exact reads_opcode h lim (.bind0 (.ordByte _) (.pure _))
  | refFunc h hx => exact reads_opcode h lim (.uleb1 _ hx)
  | memoryInit h hx =>
    rw [List.append_assoc]
    exact reads_opcode h lim (.bind (.uleb hx) (.bind0 .zeroByte (.pure _)))
  | dataDrop h hx => exact reads_opcode h lim (.uleb1 _ hx)
  | memoryCopy h => exact reads_opcode h lim (.bind (b := [0]) .zeroByte (.bind0 .zeroByte (.pure _)))
  | memoryFill h => exact reads_opcode h lim (.bind0 .zeroByte (.pure _))
  | tableInit h hx hy => rw [List.append_assoc]; exact reads_opcode h lim (.uleb2 _ hx hy)
  | elemDrop h hx => exact reads_opcode h lim (.uleb1 _ hx)
  | tableCopy h hx hy => rw [List.append_assoc]; exact reads_opcode h lim (.uleb2 _ hx hy)
  | tableGrow h hx => exact reads_opcode h lim (.uleb1 _ hx)
  | tableSize h hx => exact reads_opcode h lim (.uleb1 _ hx)
  | tableFill h hx => exact reads_opcode h lim (.uleb1 _ hx)
  | @shuffle op b h hl hb =>
    refine reads_opcode h lim (.bind0 (a := b.map (·.toNat)) ?_ (.bind1 (.check ?_) (.pure _)))
    · have := reads_bytes_uleb (l := b) fun x hx => by have := hb x hx; omega
      rwa [hl] at this
    · simpa using hb
  | @lane o op l h hl =>
    rw [← lanes_eq] at hl
    have := lanes_le o
    rw [← lanes_eq] at this
    exact reads_opcode h lim (.bind0 (.uleb (u_byte (by omega))) (.bind1 (.check (decide_eq_true hl)) (.pure _)))

/-! ## Nesting -/

theorem encLeaf_not_marker {i : Inst} {b : Bytes} (h : EncLeaf i b) : i ≠ .endFi ∧ i ≠ .elseFi := by
  cases h <;> simp

theorem encI_not_marker {i : Inst} {b : Bytes} (h : EncI i b) : i ≠ .endFi ∧ i ≠ .elseFi := by
  cases h with
  | leaf h => exact encLeaf_not_marker h
  | _ => simp

theorem encOp_pos {o : Opc} {b : Bytes} (h : EncOp o b) : 0 < b.length := by cases h <;> simp

theorem encI_pos {i : Inst} {b : Bytes} (h : EncI i b) : 0 < b.length := by
  cases h with
  | leaf h => cases h <;> (have := encOp_pos ‹EncOp _ _›; first | exact this | (simp only [List.length_append]; omega))
  | _ => simp

theorem encL_length {is : List Inst} {b : Bytes} (h : EncL is b) : is.length ≤ b.length := by
  induction is generalizing b with
  | nil => simp
  | cons i is ih =>
    cases h with
    | cons hi hl =>
      have := encI_pos hi
      have := ih hl
      simp only [List.length_cons, List.length_append]
      omega

theorem reads_marker (lim : Nat) : Reads (Inst.fromReader (lim + 1)) [0x0B] .endFi :=
  reads_op (o := .end_fi) (.byte rfl) lim (.pure _)

theorem reads_else (lim : Nat) : Reads (Inst.fromReader (lim + 1)) [0x05] .elseFi :=
  reads_op (o := .else_fi) (.byte rfl) lim (.pure _)

/-- the loop that reads a body, given that each instruction is read correctly -/
theorem reads_body {rd : Reader Inst} {is : List Inst} {b : Bytes} (h : EncL is b)
    (hr : ∀ i ∈ is, ∀ b, EncI i b → b.length < 2 ^ 32 → Reads rd b i) (he : Reads rd [0x0B] .endFi)
    (hl : b.length < 2 ^ 32) (n : Nat) (hn : is.length < n) : Reads (readBody rd n) (b ++ [0x0B]) is := by
  induction is generalizing b n with
  | nil =>
    cases h
    obtain ⟨n, rfl⟩ : ∃ k, n = k + 1 := ⟨n - 1, by simp at hn; omega⟩
    exact .bind0 he (.pure _)
  | cons i is ih =>
    cases h with
    | @cons _ _ a b hi hL =>
      simp only [List.length_append] at hl
      obtain ⟨n, rfl⟩ : ∃ k, n = k + 1 := ⟨n - 1, by simp at hn; omega⟩
      rw [List.append_assoc]
      refine .bind (hr i (by simp) a hi (by omega)) ?_
      have := ih hL (fun j hj => hr j (by simp [hj])) (by omega) n (by simpa using hn)
      have hm := encI_not_marker hi
      cases i <;> first | exact absurd rfl hm.1 | exact .bind0 this (.pure _)

/-- the part of the loop of `if` after `else` -/
theorem reads_else_body {rd : Reader Inst} {is : List Inst} {b : Bytes} (h : EncL is b)
    (hr : ∀ i ∈ is, ∀ b, EncI i b → b.length < 2 ^ 32 → Reads rd b i) (he : Reads rd [0x0B] .endFi)
    (hl : b.length < 2 ^ 32) (n : Nat) (hn : is.length < n) : Reads (readIf rd n true) (b ++ [0x0B]) ([], is) := by
  induction is generalizing b n with
  | nil =>
    cases h
    obtain ⟨n, rfl⟩ : ∃ k, n = k + 1 := ⟨n - 1, by simp at hn; omega⟩
    exact .bind0 he (.pure _)
  | cons i is ih =>
    cases h with
    | @cons _ _ a b hi hL =>
      simp only [List.length_append] at hl
      obtain ⟨n, rfl⟩ : ∃ k, n = k + 1 := ⟨n - 1, by simp at hn; omega⟩
      rw [List.append_assoc]
      refine .bind (hr i (by simp) a hi (by omega)) ?_
      have := ih hL (fun j hj => hr j (by simp [hj])) (by omega) n (by simpa using hn)
      have hm := encI_not_marker hi
      cases i <;> first | exact absurd rfl hm.1 | exact absurd rfl hm.2 | exact .bind0 this (.pure _)

/-- the loop of `if`, given what is read after the first branch -/
theorem reads_then_body {rd : Reader Inst} {is els : List Inst} {b c : Bytes} (h : EncL is b)
    (hr : ∀ i ∈ is, ∀ b, EncI i b → b.length < 2 ^ 32 → Reads rd b i)
    (hl : b.length < 2 ^ 32) (n k : Nat) (hn : is.length + k = n)
    (hk : Reads (readIf rd k false) c ([], els)) : Reads (readIf rd n false) (b ++ c) (is, els) := by
  induction is generalizing b n with
  | nil =>
    cases h
    simp only [List.length_nil, Nat.zero_add] at hn
    subst hn; exact hk
  | cons i is ih =>
    cases h with
    | @cons _ _ a b hi hL =>
      simp only [List.length_append] at hl
      simp only [List.length_cons] at hn
      obtain ⟨n, rfl⟩ : ∃ k, n = k + 1 := ⟨n - 1, by omega⟩
      rw [List.append_assoc]
      refine .bind (hr i (by simp) a hi (by omega)) ?_
      have := ih hL (fun j hj => hr j (by simp [hj])) (by omega) n (by omega)
      have hm := encI_not_marker hi
      cases i <;> first | exact absurd rfl hm.1 | exact absurd rfl hm.2 | exact .bind0 this (.pure _)

theorem nest_mem {i : Inst} {is : List Inst} (h : i ∈ is) : nest i ≤ nestL is := by
  induction is with
  | nil => simp at h
  | cons j is ih =>
    simp only [nestL]
    rcases List.mem_cons.1 h with rfl | h
    · omega
    · have := ih h; omega

/-- Every instruction, nested less deep than the recursion limit. -/
theorem reads_inst (lim : Nat) : ∀ {i : Inst} {b : Bytes}, EncI i b → nest i < lim → b.length < 2 ^ 32 →
    Reads (Inst.fromReader lim) b i := by
  induction lim with
  | zero => intro i b _ h; omega
  | succ lim ih =>
    intro i b h hn hl
    have sub : ∀ is : List Inst, nestL is < lim → ∀ i ∈ is, ∀ b, EncI i b → b.length < 2 ^ 32 →
        Reads (Inst.fromReader lim) b i := fun is his i hi b hb => ih hb (by have := nest_mem hi; omega)
    cases h with
    | leaf h => exact reads_leaf h lim
    | @block bt body op t b ho ht hb =>
      simp only [List.length_append] at hl
      simp only [nest] at hn
      obtain ⟨lim, rfl⟩ : ∃ k, lim = k + 1 := ⟨lim - 1, by omega⟩
      have := encL_length hb
      rw [List.append_assoc, List.append_assoc]
      exact reads_opcode ho _ (.bind (reads_bype ht) (.bind0
        (reads_body hb (sub body (by omega)) (reads_marker lim) (by omega) (1 <<< 32) (by simp; omega)) (.pure _)))
    | @loop bt body op t b ho ht hb =>
      simp only [List.length_append] at hl
      simp only [nest] at hn
      obtain ⟨lim, rfl⟩ : ∃ k, lim = k + 1 := ⟨lim - 1, by omega⟩
      have := encL_length hb
      rw [List.append_assoc, List.append_assoc]
      exact reads_opcode ho _ (.bind (reads_bype ht) (.bind0
        (reads_body hb (sub body (by omega)) (reads_marker lim) (by omega) (1 <<< 32) (by simp; omega)) (.pure _)))
    | @ifThen bt thn op t b ho ht hb =>
      simp only [List.length_append] at hl
      simp only [nest, nestL] at hn
      obtain ⟨lim, rfl⟩ : ∃ k, lim = k + 1 := ⟨lim - 1, by omega⟩
      have := encL_length hb
      rw [List.append_assoc, List.append_assoc]
      obtain ⟨k, hk⟩ : ∃ k, thn.length + (k + 1) = 1 <<< 32 := ⟨2 ^ 32 - thn.length - 1, by simp; omega⟩
      refine reads_opcode ho _ (.bind (reads_bype ht) (.bind0 (a := (thn, [])) ?_ (.pure _)))
      exact reads_then_body hb (sub thn (by omega)) (by omega) _ (k + 1) hk (.bind0 (reads_marker lim) (.pure _))
    | @ifElse bt thn els op t b c ho ht hb hc =>
      simp only [List.length_append, List.length_cons, List.length_nil] at hl
      simp only [nest] at hn
      obtain ⟨lim, rfl⟩ : ∃ k, lim = k + 1 := ⟨lim - 1, by omega⟩
      have := encL_length hb
      have := encL_length hc
      simp only [List.append_assoc]
      obtain ⟨k, hk, hk2⟩ : ∃ k, thn.length + (k + 1) = 1 <<< 32 ∧ els.length < k :=
        ⟨2 ^ 32 - thn.length - 1, by simp; omega, by omega⟩
      refine reads_opcode ho _ (.bind (reads_bype ht) (.bind0 (a := (thn, els)) ?_ (.pure _)))
      refine reads_then_body hb (sub thn (by omega)) (by omega) _ (k + 1) hk ?_
      exact .bind (reads_else lim) (reads_else_body hc (sub els (by omega)) (reads_marker lim) (by omega) k hk2)

theorem reads_expr {lim : Nat} {e : Expr} {b : Bytes} (h : EncE e b) (hn : nestL e < lim) (hl : b.length ≤ 2 ^ 32) :
    Reads (Expr.fromReader lim) b e := by
  obtain ⟨x, hx, rfl⟩ := h
  simp only [List.length_append, List.length_cons, List.length_nil] at hl
  obtain ⟨lim, rfl⟩ : ∃ k, lim = k + 1 := ⟨lim - 1, by omega⟩
  have := encL_length hx
  exact reads_body hx (fun i hi b hb hl => reads_inst _ hb (by have := nest_mem hi; omega) hl) (reads_marker lim)
    (by omega) _ (by simp; omega)

end Pywasm
