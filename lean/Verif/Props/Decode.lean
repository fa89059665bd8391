import Verif.Lemmas.DecodeModule

/-!
# C29-C31, C59, C60: the binary decoder

`Verif/Spec/Binary.lean` gives the binary format of the specification as relations; `EncE e b` says that the bytes `b`
are an encoding of the instruction sequence `e` (terminated by `end`), `EncModule m n b` that `b` is an encoding of the
module `m` in `n` sections, custom ones included.  `lim` is the number of nested calls Python's recursion limit leaves to the decoder.
-/

namespace Pywasm.Props
open Spec.Bin Spec.Leb Reader

/-- C29: decoding any encoding of any instruction sequence gives that sequence and leaves exactly the bytes after it.
(The size bound is that of a `u32` section size.) -/
theorem C29_decode_inverts_encoding (lim : Nat) (e : Expr) (b rest : Bytes) (h : EncE e b) (hn : nestL e < lim)
    (hl : b.length ≤ 2 ^ 32) : Expr.fromReader lim (b ++ rest) = .ok (e, rest) :=
  reads_expr h hn hl rest

/-- C29 for a single instruction. -/
theorem C29_decode_inst (lim : Nat) (i : Inst) (b rest : Bytes) (h : EncI i b) (hn : nest i < lim)
    (hl : b.length < 2 ^ 32) : Inst.fromReader lim (b ++ rest) = .ok (i, rest) :=
  reads_inst lim h hn hl rest

/-- Consequence of C29: the format is unambiguous; no encoding is a proper prefix of another. -/
theorem C29_unambiguous (e e' : Expr) (b b' r r' : Bytes) (h : EncE e b) (h' : EncE e' b') (hl : b.length ≤ 2 ^ 32)
    (hl' : b'.length ≤ 2 ^ 32) (hb : b ++ r = b' ++ r') : e = e' ∧ b = b' := by
  have h1 := C29_decode_inverts_encoding (max (nestL e) (nestL e') + 1) e b r h (by omega) hl
  have h2 := C29_decode_inverts_encoding (max (nestL e) (nestL e') + 1) e' b' r' h' (by omega) hl'
  rw [hb, h2] at h1
  injection h1 with h1
  injection h1 with h3 h4
  subst h3; subst h4
  exact ⟨rfl, List.append_cancel_right hb⟩

/-- `n` blocks inside each other -/
def nested : Nat → Inst
  | 0 => .nop
  | n + 1 => .block .empty [nested n]

/-- their encoding -/
def nestedBytes : Nat → Bytes
  | 0 => [0x01]
  | n + 1 => [0x02] ++ [0x40] ++ nestedBytes n ++ [0x0B]

theorem nested_encoding (n : Nat) : EncI (nested n) (nestedBytes n) := by
  induction n with
  | zero => exact .leaf (.nop (.byte rfl))
  | succ n ih =>
    refine .block (.byte rfl) .empty ?_
    have := EncL.cons ih .nil
    rwa [List.append_nil] at this

theorem nested_overflow (lim : Nat) (rest : Bytes) :
    Inst.fromReader lim (nestedBytes lim ++ rest) = .error .recursion := by
  induction lim generalizing rest with
  | zero => rfl
  | succ lim ih =>
    have h1 : Inst.fromReader (lim + 1) (nestedBytes (lim + 1) ++ rest) =
        Inst.args (Inst.fromReader lim) .block (0x40 :: (nestedBytes lim ++ ([0x0B] ++ rest))) := by
      have e : nestedBytes (lim + 1) ++ rest = 0x02 :: 0x40 :: (nestedBytes lim ++ ([0x0B] ++ rest)) := by
        simp [nestedBytes]
      rw [e]
      show ((Reader.ordByte >>= _) : Reader Inst) _ = _
      rw [bind_run (a := 0x02) rfl, bind_run (a := 2) rfl]
      have : Opc.ofNum 2 = some .block := by decide +kernel
      simp only [this]
    rw [h1]
    show ((Bype.fromReader >>= _) : Reader Inst) _ = _
    rw [bind_run (a := .empty) rfl]
    have : readBody (Inst.fromReader lim) (1 <<< 32) (nestedBytes lim ++ ([0x0B] ++ rest)) = .error .recursion := by
      show ((Inst.fromReader lim) (nestedBytes lim ++ ([0x0B] ++ rest)) >>= _) = _
      rw [ih]; rfl
    show (readBody (Inst.fromReader lim) (1 <<< 32) (nestedBytes lim ++ ([0x0B] ++ rest)) >>= _) = _
    rw [this]; rfl

/-- The bound on the nesting in C29 cannot be dropped: whatever the recursion limit, there is an instruction, nested
just deep enough to exceed it, whose decoding raises `RecursionError`. -/
theorem C29_recursion_limit (lim : Nat) (rest : Bytes) :
    ∃ i b, EncI i b ∧ nest i = lim ∧ Inst.fromReader lim (b ++ rest) = .error .recursion := by
  refine ⟨nested lim, nestedBytes lim, nested_encoding lim, ?_, nested_overflow lim rest⟩
  induction lim with
  | zero => rfl
  | succ n ih => simp only [nested, nest, nestL, ih]; omega

theorem header_run (lim : Nat) (x : Bytes) :
    ModuleDesc.fromReader lim ([0x00, 0x61, 0x73, 0x6D, 0x01, 0x00, 0x00, 0x00] ++ x) = sections lim 32 {} x := rfl

/-- C30: any encoding of any module with at most 32 sections, custom ones included, decodes to that module, and the whole file is
consumed.  Missing from the full claim: files with more sections (see C31). -/
theorem C30_decode_inverts_encoding_partial (lim : Nat) (m : ModuleDesc) (n : Nat) (b : Bytes) (h : EncModule m n b)
    (hc : n ≤ 32) (hn : ∀ e ∈ exprs m, nestL e < lim) : ModuleDesc.fromReader lim b = .ok (m, []) := by
  obtain ⟨x, hx, rfl⟩ := h
  refine (header_run lim x).trans ?_
  rw [← secStage_all m]
  exact reads_sections hn hx List.suffix_rfl 32 hc

/-- C30: a file that does not start with the magic number and version 1 is rejected. -/
theorem C30_wrong_header_rejected (lim : Nat) (s : Bytes)
    (h : s.take 8 ≠ [0x00, 0x61, 0x73, 0x6D, 0x01, 0x00, 0x00, 0x00]) :
    ModuleDesc.fromReader lim s = .error .assertion := by
  show ((Reader.read 4 >>= _) : Reader ModuleDesc) _ = _
  rw [bind_run (a := s.take 4) (s' := s.drop 4) (if_pos (.inr (by decide)))]
  by_cases h4 : s.take 4 = [0x00, 0x61, 0x73, 0x6d]
  · rw [bind_run (a := ()) (s' := s.drop 4) (by simp [Reader.check, h4]),
      bind_run (a := (s.drop 4).take 4) (s' := (s.drop 4).drop 4) (if_pos (.inr (by decide)))]
    have h5 : (s.drop 4).take 4 ≠ [0x01, 0x00, 0x00, 0x00] := by
      intro h5
      apply h
      rw [show (8 : Nat) = 4 + 4 from rfl, List.take_add, h4, h5]
      rfl
    show (Reader.check _ _ >>= _) = _
    have : Reader.check ((s.drop 4).take 4 == [0x01, 0x00, 0x00, 0x00]) ((s.drop 4).drop 4) = .error .assertion := by
      simp only [Reader.check]; rw [if_neg (by simpa using h5)]
    rw [this]; rfl
  · show (Reader.check _ _ >>= _) = _
    have : Reader.check (s.take 4 == [0x00, 0x61, 0x73, 0x6d]) (s.drop 4) = .error .assertion := by
      simp only [Reader.check]; rw [if_neg (by simpa using h4)]
    rw [this]; rfl

/-- C31: with at most 32 sections, every section is decoded: the result does not depend on the custom sections among
them.  Missing: more sections; see `C31_boundary`. -/
theorem C31_custom_sections_ignored_partial (lim : Nat) (m : ModuleDesc) (n n' : Nat) (b b' : Bytes)
    (h : EncModule m n b) (h' : EncModule m n' b') (hc : n ≤ 32) (hc' : n' ≤ 32)
    (hn : ∀ e ∈ exprs m, nestL e < lim) : ModuleDesc.fromReader lim b = ModuleDesc.fromReader lim b' := by
  rw [C30_decode_inverts_encoding_partial lim m n b h hc hn, C30_decode_inverts_encoding_partial lim m n' b' h' hc' hn]

/-- C31 fails for every file with more than 32 sections: something is left unread, without an error. -/
theorem C31_boundary (lim : Nat) (m : ModuleDesc) (n : Nat) (b : Bytes) (h : EncModule m n b) (hc : 32 < n)
    (hn : ∀ e ∈ exprs m, nestL e < lim) : ∃ m' r, ModuleDesc.fromReader lim b = .ok (m', r) ∧ r ≠ [] := by
  obtain ⟨x, hx, rfl⟩ := h
  obtain ⟨ids, r, h1, h2⟩ := reads_some_sections hn hx List.suffix_rfl 32 (by omega)
  exact ⟨_, r, (header_run lim x).trans h1, encSections_ne_nil h2 (by omega)⟩

/-- A custom section with the empty name: it can be repeated. -/
def emptyCustom : Bytes := [0x00, 0x01, 0x00]

theorem emptyCustom_section : CustomBody [0x00] ∧ Section 0 [0x00] emptyCustom := by
  refine ⟨⟨"", [0x00], [], ⟨[0x00], u_byte (b := 0) (by decide), by decide +kernel⟩, rfl⟩,
    [0x01], u_byte (b := 1) (by decide), by decide, rfl⟩

theorem skip_customs (lim k j : Nat) (m : ModuleDesc) (y : Bytes) :
    sections lim (j + k) m ((List.replicate k emptyCustom).flatten ++ y) = sections lim j m y := by
  induction k with
  | zero => rfl
  | succ k ih =>
    rw [List.replicate_succ, List.flatten_cons, List.append_assoc, ← Nat.add_assoc,
      sections_cons emptyCustom_section.2 (m' := m), ih]
    obtain ⟨na, x, d, hx, e⟩ := emptyCustom_section.1
    refine ⟨[], ?_⟩
    have : customFromReader [0x00] = .ok ((na, d), []) := by
      rw [e]
      unfold customFromReader
      rw [bind_run (reads_name hx _)]; rfl
    show ((customFromReader >>= _) : Reader ModuleDesc) _ = _
    rw [bind_run this]; rfl

/-- C31 fails: everything after 32 custom sections is ignored, whatever it is (even if it is not a module at all). -/
theorem C31_sections_ignored (lim : Nat) (y : Bytes) :
    ModuleDesc.fromReader lim ([0x00, 0x61, 0x73, 0x6D] ++ [0x01, 0x00, 0x00, 0x00] ++
      (List.replicate 32 emptyCustom).flatten ++ y) = .ok ({}, y) := by
  rw [List.append_assoc]
  refine (header_run lim _).trans ?_
  exact skip_customs lim 32 0 {} y

theorem encSections_customs {m : ModuleDesc} {ids : List Nat} {n : Nat} {b : Bytes} (h : EncSections m ids n b)
    (k : Nat) : EncSections m ids (n + k) ((List.replicate k emptyCustom).flatten ++ b) := by
  induction k with
  | zero => exact h
  | succ k ih =>
    rw [List.replicate_succ, List.flatten_cons, List.append_assoc]
    exact .custom emptyCustom_section.1 emptyCustom_section.2 ih

/-- C31 fails for every module: any encoding of it, preceded by 32 custom sections, is an encoding of the same module,
but decodes to the empty module. -/
theorem C31_refuted (lim : Nat) (m : ModuleDesc) (n : Nat) (b : Bytes) (h : EncModule m n b) :
    ∃ b', EncModule m (n + 32) b' ∧ ∃ r, ModuleDesc.fromReader lim b' = .ok ({}, r) := by
  obtain ⟨x, hx, rfl⟩ := h
  refine ⟨_, ⟨_, encSections_customs hx 32, rfl⟩, x, ?_⟩
  have := C31_sections_ignored lim x
  rwa [List.append_assoc] at this

/-- A section as it stands in the file: id, an encoding of the size, the contents. -/
def Framed (f : UInt8 × Bytes × Bytes) : Prop := U f.2.2.length f.2.1

/-- the bytes of a framed section -/
def frame (f : UInt8 × Bytes × Bytes) : Bytes := f.1 :: (f.2.1 ++ f.2.2)

theorem frame_inj {f f' : UInt8 × Bytes × Bytes} {a b : Bytes} (hf : Framed f) (hf' : Framed f')
    (h : frame f ++ a = frame f' ++ b) : f = f' ∧ a = b := by
  obtain ⟨i, g, c⟩ := f
  obtain ⟨i', g', c'⟩ := f'
  simp only [frame, List.cons_append, List.append_assoc] at h
  injection h with h1 h2
  have e1 := Leb128.readGroup_group hf.1 (c ++ a)
  have e2 := Leb128.readGroup_group hf'.1 (c' ++ b)
  simp only at e1 e2
  rw [h2, e2] at e1
  injection e1 with e1
  injection e1 with e3 e4
  subst h1; subst e3
  have : c.length = c'.length := hf.2.symm.trans hf'.2
  obtain ⟨h5, h6⟩ := List.append_inj e4.symm this
  subst h5
  exact ⟨rfl, h6⟩

theorem frames_no_cut {fs gs : List (UInt8 × Bytes × Bytes)} {g : UInt8 × Bytes × Bytes} {r : Bytes} {c k : Nat}
    (h : (fs.map frame).flatten ++ (frame g).take c = (gs.map frame).flatten ++ r) (hf : ∀ f ∈ fs, Framed f)
    (hgs : ∀ f ∈ gs, Framed f) (hg : Framed g) (hl : fs.length < k) (hr : r = [] ∨ gs.length = k) (h0 : 0 < c)
    (hc : c < (frame g).length) : False := by
  induction fs generalizing gs k with
  | nil =>
    cases gs with
    | nil =>
      rcases hr with hr | hr
      · rw [hr] at h
        have := congrArg List.length h
        simp only [List.map_nil, List.flatten_nil, List.nil_append, List.length_take, List.length_nil] at this
        omega
      · simp only [List.length_nil] at hr hl; omega
    | cons g' gs =>
      simp only [List.map_nil, List.flatten_nil, List.nil_append, List.map_cons, List.flatten_cons,
        List.append_assoc] at h
      have e : frame g ++ [] = frame g' ++ ((gs.map frame).flatten ++ r ++ (frame g).drop c) := by
        rw [← List.append_assoc, ← h, List.take_append_drop, List.append_nil]
      have := (frame_inj hg (hgs _ (by simp)) e).2
      have := congrArg List.length this
      simp only [List.length_append, List.length_nil, List.length_drop] at this
      omega
  | cons f fs ih =>
    cases gs with
    | nil =>
      rcases hr with hr | hr
      · rw [hr] at h; simp [frame] at h
      · simp only [List.length_nil, List.length_cons] at hr hl; omega
    | cons g' gs =>
      simp only [List.map_cons, List.flatten_cons, List.append_assoc] at h
      obtain ⟨-, h⟩ := frame_inj (hf _ (by simp)) (hgs _ (by simp)) h
      simp only [List.length_cons] at hl hr
      exact ih h (fun x hx => hf x (by simp [hx])) (fun x hx => hgs x (by simp [hx])) (k := k - 1) (by omega)
        (hr.imp id fun h => by omega)

theorem sections_framed {lim k : Nat} {m m' : ModuleDesc} {s r : Bytes} (h : sections lim k m s = .ok (m', r)) :
    ∃ fs : List (UInt8 × Bytes × Bytes), (∀ f ∈ fs, Framed f) ∧ s = (fs.map frame).flatten ++ r ∧ fs.length ≤ k ∧
      (r = [] ∨ fs.length = k) := by
  induction k generalizing m s with
  | zero =>
    injection h with h
    injection h with _ h
    subst h
    exact ⟨[], by simp, by simp, by simp, .inr rfl⟩
  | succ k ih =>
    cases s with
    | nil =>
      injection h with h
      injection h with _ h
      subst h
      exact ⟨[], by simp, by simp, by simp, .inl rfl⟩
    | cons id s =>
      obtain ⟨n, s1, h1, ha⟩ := bind_inv (show (uleb >>= _) s = _ from h)
      obtain ⟨d, s2, h2, hb⟩ := bind_inv ha
      obtain ⟨u, s3, h3, hc⟩ := bind_inv hb
      obtain ⟨q, s4, h4, hq⟩ := bind_inv hc
      clear h ha hb hc
      obtain ⟨g, hg, rfl⟩ := uleb_inv h1
      unfold Reader.read at h2
      split at h2
      case isFalse => cases h2
      case isTrue =>
      injection h2 with h2
      injection h2 with h5 h6
      simp only [Reader.check] at h3
      split at h3
      case isFalse => cases h3
      case isTrue hd =>
      injection h3 with h3
      injection h3 with _ h7
      have h8 : s4 = s3 := by
        simp only [Reader.liftE] at h4
        split at h4
        · injection h4 with h4; injection h4 with _ h4; exact h4.symm
        · cases h4
      subst h8; subst h7; subst h6; subst h5
      obtain ⟨fs, hf, he, hl, hr⟩ := ih hq
      refine ⟨(id, g, s1.take n) :: fs, ?_, ?_, by simpa using hl, ?_⟩
      · intro f hf'
        rcases List.mem_cons.1 hf' with rfl | hf'
        · show U (s1.take n).length g
          rw [show (s1.take n).length = n by simpa using hd]; exact hg
        · exact hf f hf'
      · simp only [List.map_cons, List.flatten_cons, frame, List.cons_append, List.append_assoc, ← he,
          List.take_append_drop]
      · rcases hr with hr | hr
        · exact .inl hr
        · exact .inr (by simp [hr])

/-- C59: a file is only accepted if it is the header followed by complete sections; nothing can follow them unless
there are 32 of them.  In particular a file cut off inside a section is rejected. -/
theorem C59_only_complete_sections (lim : Nat) (s r : Bytes) (m : ModuleDesc)
    (h : ModuleDesc.fromReader lim s = .ok (m, r)) :
    ∃ fs : List (UInt8 × Bytes × Bytes), (∀ f ∈ fs, Framed f) ∧
      s = [0x00, 0x61, 0x73, 0x6D, 0x01, 0x00, 0x00, 0x00] ++ (fs.map frame).flatten ++ r ∧ fs.length ≤ 32 ∧
      (r = [] ∨ fs.length = 32) := by
  have h8 : s.take 8 = [0x00, 0x61, 0x73, 0x6D, 0x01, 0x00, 0x00, 0x00] := by
    by_contra hc
    rw [C30_wrong_header_rejected lim s hc] at h
    cases h
  have e : s = [0x00, 0x61, 0x73, 0x6D, 0x01, 0x00, 0x00, 0x00] ++ s.drop 8 := by
    rw [← h8, List.take_append_drop]
  rw [e] at h
  obtain ⟨fs, h1, h2, h3, h4⟩ := sections_framed ((header_run lim (s.drop 8)).symm.trans h)
  exact ⟨fs, h1, by rw [List.append_assoc, ← h2]; exact e, h3, h4⟩

/-- C59, contrapositive: after complete sections, a proper part of a section is rejected. -/
theorem C59_truncated_rejected (lim : Nat) (fs : List (UInt8 × Bytes × Bytes)) (g : UInt8 × Bytes × Bytes) (c : Nat)
    (hf : ∀ f ∈ fs, Framed f) (hg : Framed g) (hl : fs.length < 32) (h0 : 0 < c) (hc : c < (frame g).length) :
    ∃ err, ModuleDesc.fromReader lim ([0x00, 0x61, 0x73, 0x6D, 0x01, 0x00, 0x00, 0x00] ++
      ((fs.map frame).flatten ++ (frame g).take c)) = .error err := by
  cases h : ModuleDesc.fromReader lim ([0x00, 0x61, 0x73, 0x6D, 0x01, 0x00, 0x00, 0x00] ++
      ((fs.map frame).flatten ++ (frame g).take c)) with
  | error e => exact ⟨e, rfl⟩
  | ok p =>
    exfalso
    obtain ⟨gs, h1, h2, h3, h4⟩ := C59_only_complete_sections lim _ p.2 p.1 h
    rw [List.append_assoc] at h2
    exact frames_no_cut (List.append_cancel_left h2) hf h1 hg hl h4 h0 hc

/-- C60 fails: a data segment that declares 5 bytes but of which the section only holds one is accepted, with one byte. -/
theorem C60_short_data_accepted (lim : Nat) :
    ModuleDesc.fromReader lim ([0x00, 0x61, 0x73, 0x6D, 0x01, 0x00, 0x00, 0x00] ++ [0x0B, 0x04, 0x01, 0x01, 0x05, 0xAA]) =
      .ok ({ data := [⟨1, [], [0xAA]⟩] }, []) := rfl

/-- C60 fails: bytes after the entries of a section are ignored. -/
theorem C60_trailing_bytes_accepted (lim : Nat) (junk : Bytes) (h : junk.length < 127) :
    ModuleDesc.fromReader lim ([0x00, 0x61, 0x73, 0x6D, 0x01, 0x00, 0x00, 0x00] ++
      ([0x03, UInt8.ofNat (1 + junk.length), 0x00] ++ junk)) = .ok ({}, []) := by
  refine (header_run lim _).trans ?_
  have hb : (UInt8.ofNat (1 + junk.length)).toNat = ([0x00] ++ junk).length := by simp; omega
  have hs : Section 0x03 ([0x00] ++ junk) ([0x03, UInt8.ofNat (1 + junk.length), 0x00] ++ junk) :=
    ⟨[UInt8.ofNat (1 + junk.length)], hb ▸ u_byte (by rw [hb]; simp; omega), by simp; omega, rfl⟩
  have := sections_cons (lim := lim) (k := 31) (m := {}) (m' := {}) hs ⟨junk, rfl⟩ []
  rw [List.append_nil] at this
  rw [this]; rfl

/-! ## Concrete cases -/

/-- `(block (loop (br 1)) (if (result i32) (then (i32.const -5)) (else (f32.load align=4 offset=300))) (i8x16.shuffle …))` -/
def demoExpr : Expr :=
  [.block .empty [.loop .empty [.br 1],
    .ifThen (.val .i32) [.i32Const (-5)] [.load .f32_load 2 300],
    .num (.vec .i16x8_abs), .brTable [0, 1] 0]]

def demoBytes : Bytes :=
  [0x02, 0x40, 0x03, 0x40, 0x0C, 0x01, 0x0B, 0x04, 0x7F, 0x41, 0x7B, 0x05, 0x2A, 0x02, 0xAC, 0x02, 0x0B,
    0xFD, 0x80, 0x01, 0x0E, 0x02, 0x00, 0x01, 0x00, 0x0B, 0x0B]

theorem demo_encoding : EncE demoExpr demoBytes := by
  have u (b : UInt8) (h : b.toNat < 128 := by decide) : U b.toNat [b] := u_byte h
  have h1 : EncI (.loop .empty [.br 1]) [0x03, 0x40, 0x0C, 0x01, 0x0B] :=
    .loop (op := [0x03]) (t := [0x40]) (b := [0x0C, 0x01]) (.byte rfl) .empty
      (.cons (a := [0x0C, 0x01]) (b := []) (.leaf (.br (op := [0x0C]) (.byte rfl) (u 1))) .nil)
  have h2 : EncI (.i32Const (-5)) [0x41, 0x7B] :=
    .leaf (.i32Const (op := [0x41]) (x := [0x7B]) (.byte rfl) ⟨⟨[], 0x7B, rfl, by simp, by decide⟩, by decide⟩)
  have h3 : EncI (.load .f32_load 2 300) [0x2A, 0x02, 0xAC, 0x02] :=
    .leaf (.load (op := [0x2A]) (.byte rfl)
      ⟨[0x02], [0xAC, 0x02], u 2, ⟨⟨[0xAC], 0x02, rfl, by decide, by decide⟩, by decide⟩, rfl⟩ (by decide))
  have h4 : EncI (.ifThen (.val .i32) [.i32Const (-5)] [.load .f32_load 2 300])
      [0x04, 0x7F, 0x41, 0x7B, 0x05, 0x2A, 0x02, 0xAC, 0x02, 0x0B] :=
    .ifElse (op := [0x04]) (t := [0x7F]) (b := [0x41, 0x7B]) (c := [0x2A, 0x02, 0xAC, 0x02]) (.byte rfl) (.val .i32)
      (.cons (a := [0x41, 0x7B]) (b := []) h2 .nil) (.cons (a := [0x2A, 0x02, 0xAC, 0x02]) (b := []) h3 .nil)
  have h5 : EncI (.num (.vec .i16x8_abs)) [0xFD, 0x80, 0x01] :=
    .leaf (.vec (.fd (n := 128) (g := [0x80, 0x01]) rfl ⟨⟨[0x80], 0x01, rfl, by decide, by decide⟩, by decide⟩))
  have h6 : EncI (.brTable [0, 1] 0) [0x0E, 0x02, 0x00, 0x01, 0x00] :=
    .leaf (.brTable (op := [0x0E]) (x := [0x02, 0x00, 0x01]) (y := [0x00]) (.byte rfl)
      ⟨[0x02], [[0x00], [0x01]], u 2, .cons (u 0) (.cons (u 1) .nil), rfl⟩ (u 0))
  refine ⟨demoBytes.dropLast, .cons (b := []) (.block (op := [0x02]) (t := [0x40]) (.byte rfl) .empty
    (.cons h1 (.cons h4 (.cons h5 (.cons h6 .nil))))) .nil, rfl⟩

/-- C29 applies to it, with any recursion limit above 2. -/
example (rest : Bytes) : Expr.fromReader 3 (demoBytes ++ rest) = .ok (demoExpr, rest) :=
  C29_decode_inverts_encoding 3 _ _ rest demo_encoding (by decide +kernel) (by decide)

/-- A module with a type, an import, a function with that body, an export and a custom section in between. -/
def demoModule : ModuleDesc where
  type := [⟨[.i32], []⟩]
  func := [⟨0, [(2, .i64)], demoExpr⟩]
  imps := [⟨"m", "g", .glob ⟨.f64, true⟩⟩]
  exps := [⟨"f", .func, 0⟩]
  star := some 0

def demoFile : Bytes :=
  [0x00, 0x61, 0x73, 0x6D, 0x01, 0x00, 0x00, 0x00] ++
  ([0x01, 0x05, 0x01, 0x60, 0x01, 0x7F, 0x00] ++
  (emptyCustom ++
  ([0x02, 0x08, 0x01, 0x01, 0x6D, 0x01, 0x67, 0x03, 0x7C, 0x01] ++
  ([0x03, 0x02, 0x01, 0x00] ++
  ([0x07, 0x05, 0x01, 0x01, 0x66, 0x00, 0x00] ++
  ([0x08, 0x01, 0x00] ++
  ([0x0A, 0x20, 0x01, 0x1E, 0x01, 0x02, 0x7E] ++ demoBytes)))))))

theorem demoModule_encoding : EncModule demoModule 7 demoFile := by
  have u (b : UInt8) (h : b.toNat < 128 := by decide) : U b.toNat [b] := u_byte h
  refine ⟨_, ?_, rfl⟩
  refine .sect (id := 1) (c := [0x01, 0x60, 0x01, 0x7F, 0x00]) ?_ ⟨[0x05], u 5, by decide, rfl⟩ ?_
  · exact ⟨[0x01], [[0x60, 0x01, 0x7F, 0x00]], u 1, .cons ⟨[0x01, 0x7F], [0x00], ⟨[0x01], [[0x7F]], u 1, .cons rfl .nil, rfl⟩,
      ⟨[0x00], [], u 0, .nil, rfl⟩, rfl⟩ .nil, rfl⟩
  refine .custom emptyCustom_section.1 emptyCustom_section.2 ?_
  refine .sect (id := 2) (c := [0x01, 0x01, 0x6D, 0x01, 0x67, 0x03, 0x7C, 0x01]) ?_ ⟨[0x08], u 8, by decide, rfl⟩ ?_
  · exact ⟨[0x01], [[0x01, 0x6D, 0x01, 0x67, 0x03, 0x7C, 0x01]], u 1, .cons ⟨[0x01, 0x6D], [0x01, 0x67], [0x03, 0x7C, 0x01],
      ⟨[0x01], u 1, by decide +kernel⟩, ⟨[0x01], u 1, by decide +kernel⟩, .glob (x := [0x7C, 0x01]) rfl, rfl⟩ .nil, rfl⟩
  refine .sect (id := 3) (c := [0x01, 0x00]) ?_ ⟨[0x02], u 2, by decide, rfl⟩ ?_
  · exact ⟨[0x01], [[0x00]], u 1, .cons (u 0) .nil, rfl⟩
  refine .skip rfl (.skip rfl (.skip rfl ?_))
  refine .sect (id := 7) (c := [0x01, 0x01, 0x66, 0x00, 0x00]) ?_ ⟨[0x05], u 5, by decide, rfl⟩ ?_
  · exact ⟨[0x01], [[0x01, 0x66, 0x00, 0x00]], u 1, .cons ⟨[0x01, 0x66], [0x00], ⟨[0x01], u 1, by decide +kernel⟩, u 0, rfl⟩ .nil, rfl⟩
  refine .sect (id := 8) (c := [0x00]) ⟨0, rfl, u 0⟩ ⟨[0x01], u 1, by decide, rfl⟩ ?_
  refine .skip rfl (.skip trivial ?_)
  refine .sect (id := 10) (c := [0x01, 0x1E, 0x01, 0x02, 0x7E] ++ demoBytes) (b := []) ?_
    ⟨[0x20], by
      rw [show List.length (([0x01, 0x1E, 0x01, 0x02, 0x7E] : Bytes) ++ demoBytes) = 32 by decide]; exact u 0x20, by decide, rfl⟩ ?_
  · exact ⟨[0x01], [[0x1E, 0x01, 0x02, 0x7E] ++ demoBytes], u 1, .cons ⟨by decide +kernel, [0x1E], [0x01, 0x02, 0x7E], demoBytes,
      ⟨[0x01], [[0x02, 0x7E]], u 1, .cons ⟨[0x02], u 2, rfl⟩ .nil, rfl⟩, demo_encoding, u 0x1E, rfl⟩ .nil, rfl⟩
  exact .skip rfl .nil

/-- C30 applies to it. -/
example : ModuleDesc.fromReader 3 demoFile = .ok (demoModule, []) :=
  C30_decode_inverts_encoding_partial 3 demoModule 7 demoFile demoModule_encoding (by decide) (by decide +kernel)

/-- C30's rejection and C59's apply to truncations of it. -/
example : ModuleDesc.fromReader 3 (demoFile.take 7) = .error .assertion :=
  C30_wrong_header_rejected 3 _ (by decide)

example : ∃ err, ModuleDesc.fromReader 3 ([0x00, 0x61, 0x73, 0x6D, 0x01, 0x00, 0x00, 0x00] ++
    (([(0x03, [0x02], [0x01, 0x00])].map frame).flatten ++ (frame (0x07, [0x01], [0x00])).take 2)) = .error err :=
  C59_truncated_rejected 3 _ _ 2 (by simpa using (show Framed (0x03, [0x02], [0x01, 0x00]) from u_byte (b := 2) (by decide)))
    (show Framed (0x07, [0x01], [0x00]) from u_byte (b := 1) (by decide)) (by decide) (by decide) (by decide)

/-- C31's counterexample for it: 32 custom sections in front and the module is lost. -/
example : ∃ b', EncModule demoModule 39 b' ∧ ∃ r, ModuleDesc.fromReader 3 b' = .ok ({}, r) :=
  C31_refuted 3 demoModule 7 demoFile demoModule_encoding
example := (C31_refuted 3 demoModule 7 demoFile demoModule_encoding).imp fun b' h =>
  C31_boundary 3 demoModule 39 b' h.1 (by decide) (by decide +kernel)

/-! ## The hypotheses are met -/

example (rest : Bytes) : Inst.fromReader 1 ([0x2A, 0x02, 0xAC, 0x02] ++ rest) = .ok (.load .f32_load 2 300, rest) :=
  C29_decode_inst 1 (.load .f32_load 2 300) [0x2A, 0x02, 0xAC, 0x02] rest (.leaf (.load (op := [0x2A]) (.byte rfl)
    ⟨[0x02], [0xAC, 0x02], u_byte (b := 2) (by decide), ⟨⟨[0xAC], 0x02, rfl, by decide, by decide⟩, by decide⟩, rfl⟩ (by decide))) (by decide) (by decide)
example (r : Bytes) := C29_unambiguous demoExpr demoExpr demoBytes demoBytes r r demo_encoding demo_encoding (by decide) (by decide) rfl
example := C59_only_complete_sections 3 demoFile [] demoModule
  (C30_decode_inverts_encoding_partial 3 demoModule 7 demoFile demoModule_encoding (by decide) (by decide +kernel))
example (lim : Nat) := C60_trailing_bytes_accepted lim [0xDE, 0xAD] (by decide)
example := demoModule_encoding.imp fun _ h => C31_custom_sections_ignored_partial 3 demoModule 7 12 demoFile _ demoModule_encoding
  ⟨_, encSections_customs h.1 5, rfl⟩ (by decide) (by decide) (by decide +kernel)

end Pywasm.Props
