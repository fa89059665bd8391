import Verif.Lemmas.Disasm
import Verif.Lemmas.DecodeInst

/-!
# Decoding of modules
-/

namespace Pywasm
open Reader Spec.Bin Spec.Leb

theorem Reads.vecB {α} {R : α → Bytes → Prop} {rd : Reader α} {xs : List α} {b : Bytes} (h : Vec R xs b)
    (hr : ∀ x c, x ∈ xs → c.length ≤ b.length → R x c → Reads rd c x) : Reads (Reader.vec rd) b xs := by
  obtain ⟨len, bs, hl, hf, rfl⟩ := h
  refine bind (uleb hl) (times ?_)
  clear hl
  have hr' : ∀ x c, x ∈ xs → c.length ≤ bs.flatten.length → R x c → Reads rd c x := fun x c hx hc => hr x c hx (by
    simp only [List.length_append]; omega)
  clear hr
  induction hf with
  | nil => exact .nil
  | @cons a c as cs h _ ih =>
    refine .cons (hr' _ _ (by simp) (by simp) h) (ih fun x b hx hb => hr' x b (by simp [hx]) ?_)
    simp only [List.flatten_cons, List.length_append]; omega

theorem reads_vals {ts : List ValType} {b : Bytes} (h : Vec EncVal ts b) : Reads (Reader.vec ValType.fromReader) b ts :=
  .vec h fun t b _ hb => by rw [hb]; exact reads_val t

theorem reads_functype {t : FuncType} {b : Bytes} (h : EncFuncType t b) : Reads FuncType.fromReader b t := by
  obtain ⟨x, y, hx, hy, rfl⟩ := h
  rw [List.append_assoc]
  exact .bind (.ordByte _) (.bind1 (.check (by decide)) (.bind (reads_vals hx) (.bind0 (reads_vals hy) (.pure _))))

theorem reads_limits {l : Limits} {b : Bytes} (h : EncLimits l b) : Reads Limits.fromReader b l := by
  cases h with
  | min hx => exact .bind (.ordByte _) (.bind0 (.uleb hx) (.pure _))
  | minmax hx hy => rw [List.append_assoc]; exact .bind (.ordByte _) (.bind (.uleb hx) (.bind0 (.uleb hy) (.pure _)))

theorem reads_tabletype {t : TableType} {b : Bytes} (h : EncTableType t b) : Reads TableType.fromReader b t := by
  obtain ⟨ht, x, hx, rfl⟩ := h
  refine .bind (reads_val _) (.bind0 (reads_limits hx) (.bind1 (.check ?_) (.pure _)))
  rcases ht with ht | ht <;> rw [ht] <;> rfl

theorem reads_globaltype {t : GlobalType} {b : Bytes} (h : EncGlobalType t b) : Reads GlobalType.fromReader b t := by
  obtain ⟨ty, m⟩ := t
  rw [h]
  cases m
  · exact .bind (b := [valByte ty]) (reads_val _) (.bind0 (.ordByte 0) (.bind1 (.check rfl) (.pure _)))
  · exact .bind (b := [valByte ty]) (reads_val _) (.bind0 (.ordByte 1) (.bind1 (.check rfl) (.pure _)))

theorem reads_import {i : Import} {b : Bytes} (h : EncImport i b) : Reads Import.fromReader b i := by
  obtain ⟨mo, na, d⟩ := i
  obtain ⟨x, y, z, hx, hy, hz, rfl⟩ := h
  rw [List.append_assoc]
  refine .bind (reads_name hx) (.bind (reads_name hy) ?_)
  cases hz with
  | func h => exact .bind (.ordByte _) (.bind0 (.uleb1 _ h) (.pure _))
  | table h => exact .bind (.ordByte _) (.bind0 (.bind0 (reads_tabletype h) (.pure _)) (.pure _))
  | mem h => exact .bind (.ordByte _) (.bind0 (.bind0 (reads_limits h) (.pure _)) (.pure _))
  | glob h => exact .bind (.ordByte _) (.bind0 (.bind0 (reads_globaltype h) (.pure _)) (.pure _))

theorem reads_export {e : ExportDesc} {b : Bytes} (h : EncExport e b) : Reads ExportDesc.fromReader b e := by
  obtain ⟨na, k, d⟩ := e
  obtain ⟨x, y, hx, hy, rfl⟩ := h
  rw [List.append_assoc]
  exact .bind (reads_name hx) (.bind (.ordByte _) (.bind0 (.uleb hy) (.bind1 (a := k) (.liftE (by cases k <;> rfl))
    (.pure _))))

theorem reads_global {lim : Nat} {g : GlobalDesc} {b : Bytes} (h : EncGlobal g b) (hn : nestL g.init < lim)
    (hl : b.length ≤ 2 ^ 32) : Reads (GlobalDesc.fromReader lim) b g := by
  obtain ⟨x, y, hx, hy, rfl⟩ := h
  simp only [List.length_append] at hl
  exact .bind (reads_globaltype hx) (.bind0 (reads_expr hy hn (by omega)) (.pure _))

theorem reads_funcref {e : Expr} {b : Bytes} (h : EncFuncRef e b) : Reads funcExprFromReader b e := by
  obtain ⟨f, rfl, hf⟩ := h
  exact .uleb1 _ hf

theorem reads_funcrefs {l : List Expr} {b : Bytes} (h : Vec EncFuncRef l b) :
    Reads (Reader.vec funcExprFromReader) b l := .vec h fun _ _ _ h => reads_funcref h

theorem reads_exprs {lim : Nat} {l : List Expr} {b : Bytes} (h : Vec EncE l b) (hn : ∀ e ∈ l, nestL e < lim)
    (hl : b.length ≤ 2 ^ 32) : Reads (Reader.vec (Expr.fromReader lim)) b l :=
  .vecB h fun _ _ hx hc h => reads_expr h (hn _ hx) (by omega)

theorem reads_elem {lim : Nat} {e : ElemDesc} {b : Bytes} (h : EncElem e b) (ho : nestL e.offset < lim)
    (hi : ∀ x ∈ e.init, nestL x < lim) (hl : b.length ≤ 2 ^ 32) : Reads (ElemDesc.fromReader lim) b e := by
  cases h with
  | active0 hk hx hy =>
    simp only [List.length_append] at hl
    rw [List.append_assoc]
    exact .bind (.uleb hk) (.bind (reads_expr hx ho (by omega)) (.bind0 (reads_funcrefs hy) (.pure _)))
  | passive1 hk hy =>
    rw [List.append_assoc]
    exact .bind (.uleb hk) (.bind .zeroByte (.bind0 (reads_funcrefs hy) (.pure _)))
  | active2 hk hw hx hy =>
    simp only [List.length_append] at hl
    simp only [List.append_assoc]
    exact .bind (.uleb hk) (.bind (.uleb hw) (.bind (reads_expr hx ho (by omega)) (.bind .zeroByte
      (.bind0 (reads_funcrefs hy) (.pure _)))))
  | declarative3 hk hy =>
    rw [List.append_assoc]
    exact .bind (.uleb hk) (.bind .zeroByte (.bind0 (reads_funcrefs hy) (.pure _)))
  | active4 hk hx hy =>
    simp only [List.length_append] at hl
    rw [List.append_assoc]
    exact .bind (.uleb hk) (.bind (reads_expr hx ho (by omega)) (.bind0 (reads_exprs hy hi (by omega)) (.pure _)))
  | passive5 hk _ hy =>
    simp only [List.length_append] at hl
    rw [List.append_assoc]
    exact .bind (.uleb hk) (.bind (reads_val _) (.bind0 (reads_exprs hy hi (by omega)) (.pure _)))
  | active6 hk hw hx _ hy =>
    simp only [List.length_append] at hl
    simp only [List.append_assoc]
    exact .bind (.uleb hk) (.bind (.uleb hw) (.bind (reads_expr hx ho (by omega)) (.bind (reads_val _)
      (.bind0 (reads_exprs hy hi (by omega)) (.pure _)))))
  | declarative7 hk _ hy =>
    simp only [List.length_append] at hl
    rw [List.append_assoc]
    exact .bind (.uleb hk) (.bind (reads_val _) (.bind0 (reads_exprs hy hi (by omega)) (.pure _)))

theorem reads_blob {d b : Bytes} (h : EncBlob d b) : Reads Reader.blob b d := by
  obtain ⟨len, hl, rfl⟩ := h
  exact .bind (.uleb hl) (.read rfl)

theorem reads_data {lim : Nat} {d : DataDesc} {b : Bytes} (h : EncData d b) (ho : nestL d.offset < lim)
    (hl : b.length ≤ 2 ^ 32) : Reads (DataDesc.fromReader lim) b d := by
  cases h with
  | active hk hx hy =>
    simp only [List.length_append] at hl
    rw [List.append_assoc]
    exact .bind (.uleb hk) (.bind (reads_expr hx ho (by omega)) (.bind0 (reads_blob hy) (.pure _)))
  | passive hk hy => exact .bind (.uleb hk) (.bind0 (reads_blob hy) (.pure _))
  | active2 hk hw hx hy =>
    simp only [List.length_append] at hl
    simp only [List.append_assoc]
    exact .bind (.uleb hk) (.bind (.uleb hw) (.bind (reads_expr hx ho (by omega)) (.bind0 (reads_blob hy)
      (.bind1 (.check (by decide)) (.pure _)))))

theorem reads_locals {l : Nat × ValType} {b : Bytes} (h : EncLocals l b) : Reads localsFromReader b l := by
  obtain ⟨n, t⟩ := l
  obtain ⟨x, hx, rfl⟩ := h
  exact .bind (.uleb hx) (.bind0 (reads_val _) (.pure _))

/-- a function whose body has not been read -/
def blank (f : FuncDesc) : FuncDesc := ⟨f.type, [], []⟩

theorem reads_funcidx {f : FuncDesc} {b : Bytes} (h : EncFuncIdx f b) : Reads FuncDesc.fromReaderType b (blank f) :=
  .uleb1 _ h

theorem reads_codeEntry {lim : Nat} {f : FuncDesc} {b : Bytes} (h : EncCode f b) (hn : nestL f.expr < lim)
    (hl : b.length ≤ 2 ^ 32) (done todo : List FuncDesc) :
    Reads (codeEntry lim (done ++ blank f :: todo) done.length) b (done ++ f :: todo) := by
  obtain ⟨hr, size, x, y, hx, hy, hs, rfl⟩ := h
  simp only [List.length_append] at hl
  have hc : Reads (FuncDesc.fromReaderCode lim) (x ++ y) ⟨0, f.locals, f.expr⟩ :=
    .bind (.vec hx fun _ _ _ h => reads_locals h) (.bind0 (reads_expr hy hn (by omega)) (.pure _))
  have hc := hc []
  rw [List.append_nil] at hc
  refine .bind (.uleb hs) (.bind0 (.read rfl) (.bind1 (.liftE hc) ?_))
  rw [List.getElem?_append_right (by omega)]
  simp only [Nat.sub_self, List.getElem?_cons_zero]
  rw [List.set_append_right _ _ (by omega)]
  simp only [Nat.sub_self, List.set_cons_zero]
  exact .bind1 (.liftE (disasm_ok_iff.mpr (listable_of_range hr))) (.pure _)

theorem reads_codeEntries {lim : Nat} {todo : List FuncDesc} {bs : List Bytes} (h : List.Forall₂ EncCode todo bs)
    (hn : ∀ f ∈ todo, nestL f.expr < lim) (hl : bs.flatten.length ≤ 2 ^ 32) (done : List FuncDesc) :
    Reads (codeEntries lim todo.length done.length (done ++ todo.map blank)) bs.flatten (done ++ todo) := by
  induction h generalizing done with
  | nil => simp only [List.map_nil, List.append_nil]; exact .pure _
  | @cons f b fs bs h _ ih =>
    simp only [List.flatten_cons, List.length_append] at hl
    refine .bind (reads_codeEntry h (hn _ (by simp)) (by omega) done (fs.map blank)) ?_
    have := ih (fun g hg => hn g (by simp [hg])) (by omega) (done ++ [f])
    simpa using this

/-! ## Sections -/

/-- the part of `m` that has been read when the sections `ids` are still to come -/
def secStage (m : ModuleDesc) (ids : List Nat) : ModuleDesc where
  type := if 1 ∈ ids then [] else m.type
  imps := if 2 ∈ ids then [] else m.imps
  func := if 3 ∈ ids then [] else if 10 ∈ ids then m.func.map blank else m.func
  tabl := if 4 ∈ ids then [] else m.tabl
  mems := if 5 ∈ ids then [] else m.mems
  glob := if 6 ∈ ids then [] else m.glob
  exps := if 7 ∈ ids then [] else m.exps
  star := if 8 ∈ ids then none else m.star
  elem := if 9 ∈ ids then [] else m.elem
  data := if 11 ∈ ids then [] else m.data

theorem suffix_cases {id : Nat} {ids : List Nat} (h : id :: ids <:+ sectionOrder) :
    (id = 1 ∧ ids = [2, 3, 4, 5, 6, 7, 8, 9, 12, 10, 11]) ∨ (id = 2 ∧ ids = [3, 4, 5, 6, 7, 8, 9, 12, 10, 11]) ∨
    (id = 3 ∧ ids = [4, 5, 6, 7, 8, 9, 12, 10, 11]) ∨ (id = 4 ∧ ids = [5, 6, 7, 8, 9, 12, 10, 11]) ∨
    (id = 5 ∧ ids = [6, 7, 8, 9, 12, 10, 11]) ∨ (id = 6 ∧ ids = [7, 8, 9, 12, 10, 11]) ∨
    (id = 7 ∧ ids = [8, 9, 12, 10, 11]) ∨ (id = 8 ∧ ids = [9, 12, 10, 11]) ∨ (id = 9 ∧ ids = [12, 10, 11]) ∨
    (id = 12 ∧ ids = [10, 11]) ∨ (id = 10 ∧ ids = [11]) ∨ (id = 11 ∧ ids = []) := by
  unfold sectionOrder at h
  simpa [List.suffix_cons_iff] using h

theorem secStage_omit {m : ModuleDesc} {id : Nat} {ids : List Nat} (h : id :: ids <:+ sectionOrder)
    (ho : Omissible m id) : secStage m (id :: ids) = secStage m ids := by
  rcases suffix_cases h with ⟨rfl, rfl⟩ | ⟨rfl, rfl⟩ | ⟨rfl, rfl⟩ | ⟨rfl, rfl⟩ | ⟨rfl, rfl⟩ | ⟨rfl, rfl⟩ | ⟨rfl, rfl⟩ |
    ⟨rfl, rfl⟩ | ⟨rfl, rfl⟩ | ⟨rfl, rfl⟩ | ⟨rfl, rfl⟩ | ⟨rfl, rfl⟩ <;> simp only [Omissible] at ho <;> simp [secStage, ho]

theorem mem_exprs {m : ModuleDesc} {lim : Nat} (h : ∀ e ∈ exprs m, nestL e < lim) :
    (∀ g ∈ m.glob, nestL g.init < lim) ∧ (∀ g ∈ m.elem, nestL g.offset < lim) ∧
    (∀ g ∈ m.elem, ∀ x ∈ g.init, nestL x < lim) ∧ (∀ g ∈ m.data, nestL g.offset < lim) ∧
    (∀ g ∈ m.func, nestL g.expr < lim) := by
  unfold exprs at h
  simp only [List.mem_append, List.mem_map, List.mem_flatMap] at h
  exact ⟨fun g hg => h _ (.inl (.inl (.inl (.inl ⟨g, hg, rfl⟩)))), fun g hg => h _ (.inl (.inl (.inl (.inr ⟨g, hg, rfl⟩)))),
    fun g hg x hx => h _ (.inl (.inl (.inr ⟨g, hg, hx⟩))), fun g hg => h _ (.inl (.inr ⟨g, hg, rfl⟩)),
    fun g hg => h _ (.inr ⟨g, hg, rfl⟩)⟩

theorem forall₂_blank {fs : List FuncDesc} {bs : List Bytes} (h : List.Forall₂ EncFuncIdx fs bs) :
    Reads (Reader.times FuncDesc.fromReaderType fs.length) bs.flatten (fs.map blank) := by
  induction h with
  | nil => exact .pure _
  | cons h _ ih => exact .bind (reads_funcidx h) (.bind0 ih (.pure _))

theorem reads_section {m : ModuleDesc} {lim id : Nat} {ids : List Nat} {c : Bytes} (h : id :: ids <:+ sectionOrder)
    (hn : ∀ e ∈ exprs m, nestL e < lim) (hl : c.length ≤ 2 ^ 32) (hc : Content m id c) :
    Reads (sectionBody lim (UInt8.ofNat id) (secStage m (id :: ids))) c (secStage m ids) := by
  obtain ⟨n1, n2, n3, n4, n5⟩ := mem_exprs hn
  rcases suffix_cases h with ⟨rfl, rfl⟩ | ⟨rfl, rfl⟩ | ⟨rfl, rfl⟩ | ⟨rfl, rfl⟩ | ⟨rfl, rfl⟩ | ⟨rfl, rfl⟩ | ⟨rfl, rfl⟩ |
    ⟨rfl, rfl⟩ | ⟨rfl, rfl⟩ | ⟨rfl, rfl⟩ | ⟨rfl, rfl⟩ | ⟨rfl, rfl⟩
  · exact .bind0 (.vec hc fun _ _ _ h => reads_functype h) (.pure _)
  · exact .bind0 (.vec hc fun _ _ _ h => reads_import h) (.pure _)
  · obtain ⟨len, bs, h1, h2, rfl⟩ := hc
    exact .bind0 (.bind (.uleb h1) (forall₂_blank h2)) (.pure _)
  · exact .bind0 (.vec hc fun _ _ _ h => reads_tabletype h) (.pure _)
  · exact .bind0 (.vec hc fun _ _ _ h => reads_limits h) (.pure _)
  · exact .bind0 (.vecB hc fun _ _ hx hb h => reads_global h (n1 _ hx) (by omega)) (.pure _)
  · exact .bind0 (.vec hc fun _ _ _ h => reads_export h) (.pure _)
  · obtain ⟨f, hf, hu⟩ := hc
    have e : secStage m [9, 12, 10, 11] = { secStage m [8, 9, 12, 10, 11] with star := some f } := by
      simp [secStage, hf]
    rw [e]
    exact .bind0 (.uleb hu) (.pure _)
  · exact .bind0 (.vecB hc fun _ _ hx hb h => reads_elem h (n2 _ hx) (n3 _ hx) (by omega)) (.pure _)
  · exact .bind0 (.uleb hc) (.pure _)
  · obtain ⟨len, bs, h1, h2, rfl⟩ := hc
    simp only [List.length_append] at hl
    exact .bind (.uleb h1) (.bind0 (reads_codeEntries h2 n5 (by omega) []) (.pure _))
  · exact .bind0 (.vecB hc fun _ _ hx hb h => reads_data h (n4 _ hx) (by omega)) (.pure _)

theorem bind_run {α β} {rd : Reader α} {f : α → Reader β} {s s' : Bytes} {a : α} (h : rd s = .ok (a, s')) :
    (rd >>= f) s = f a s' := by
  show (rd s >>= fun p => f p.1 p.2) = _
  rw [h]; rfl

theorem bind_inv {α β} {rd : Reader α} {f : α → Reader β} {s r : Bytes} {y : β} (h : (rd >>= f) s = .ok (y, r)) :
    ∃ a s', rd s = .ok (a, s') ∧ f a s' = .ok (y, r) := by
  replace h : (rd s >>= fun p => f p.1 p.2) = .ok (y, r) := h
  cases hr : rd s with
  | error e => rw [hr] at h; cases h
  | ok p => rw [hr] at h; exact ⟨p.1, p.2, rfl, h⟩

theorem uleb_inv {s r : Bytes} {n : Nat} (h : Reader.uleb s = .ok (n, r)) : ∃ g, U n g ∧ s = g ++ r := by
  obtain ⟨⟨v, l⟩, s', h1, h2⟩ := bind_inv (show (Leb128.uDecodeReader >>= _) s = _ from h)
  injection h2 with h2
  injection h2 with h3 h4
  subst h4
  simp only [Leb128.uDecodeReader] at h1
  split at h1
  · rename_i a q hq
    injection h1 with h1
    injection h1 with h5 h6
    injection h5 with h5 _
    subst h6
    obtain ⟨e, hg⟩ := Leb128.readGroup_ok hq
    refine ⟨a, ⟨hg, ?_⟩, e⟩
    rw [Leb128.uDecode_eq] at h5
    rw [← h3, ← h5]; rfl
  · cases h1

theorem sections_cons {lim k : Nat} {m m' : ModuleDesc} {id : UInt8} {c x : Bytes} (h : Section id c x)
    (hr : ∃ r, (sectionBody lim id m) c = .ok (m', r)) (rest : Bytes) :
    sections lim (k + 1) m (x ++ rest) = sections lim k m' rest := by
  obtain ⟨size, hs, -, rfl⟩ := h
  obtain ⟨r, hr⟩ := hr
  rw [List.append_assoc, List.append_assoc]
  show (uleb >>= _) (size ++ (c ++ rest)) = _
  rw [bind_run (Reads.uleb hs _), bind_run (Reads.read rfl _), bind_run (s' := rest) (a := ()) (by simp [Reader.check]),
    bind_run (a := (m', r)) (s' := rest) (by show Reader.liftE ((sectionBody lim id m) c) rest = _; rw [hr]; rfl)]

theorem reads_sections {m : ModuleDesc} {lim : Nat} (hn : ∀ e ∈ exprs m, nestL e < lim) {ids : List Nat} {n : Nat}
    {b : Bytes} (h : EncSections m ids n b) (hs : ids <:+ sectionOrder) (k : Nat) (hk : n ≤ k) :
    sections lim k (secStage m ids) b = .ok (m, []) := by
  induction h generalizing k with
  | nil =>
    cases k <;> rfl
  | @custom ids n c x b hc hx _ ih =>
    obtain ⟨k, rfl⟩ : ∃ j, k = j + 1 := ⟨k - 1, by omega⟩
    rw [sections_cons hx (m' := secStage m ids)]
    · exact ih hs k (by omega)
    · obtain ⟨na, y, d, hy, rfl⟩ := hc
      refine ⟨[], ?_⟩
      have : customFromReader (y ++ d) = .ok ((na, d), []) := by
        unfold customFromReader
        rw [bind_run (reads_name hy _)]; rfl
      show (customFromReader >>= _) _ = _
      rw [bind_run this]; rfl
  | @skip id ids n b ho _ ih =>
    rw [secStage_omit hs ho]
    exact ih ((List.suffix_cons _ _).trans hs) k hk
  | @sect id ids n c x b hc hx _ ih =>
    obtain ⟨k, rfl⟩ : ∃ j, k = j + 1 := ⟨k - 1, by omega⟩
    rw [sections_cons hx (m' := secStage m ids)]
    · exact ih ((List.suffix_cons _ _).trans hs) k (by omega)
    · obtain ⟨-, -, hlt, -⟩ := hx
      have := reads_section hs hn (by omega) hc []
      rw [List.append_nil] at this
      exact ⟨_, this⟩

/-- The loop over the sections stops after `k` of them. -/
theorem reads_some_sections {m : ModuleDesc} {lim : Nat} (hn : ∀ e ∈ exprs m, nestL e < lim) {ids : List Nat} {n : Nat}
    {b : Bytes} (h : EncSections m ids n b) (hs : ids <:+ sectionOrder) (k : Nat) (hk : k ≤ n) :
    ∃ ids' r, sections lim k (secStage m ids) b = .ok (secStage m ids', r) ∧ EncSections m ids' (n - k) r := by
  induction h generalizing k with
  | nil =>
    obtain rfl : k = 0 := by omega
    exact ⟨_, _, rfl, .nil⟩
  | @custom ids n c x b hc hx hb ih =>
    cases k with
    | zero => exact ⟨ids, _, rfl, .custom hc hx hb⟩
    | succ k =>
      rw [sections_cons hx (m' := secStage m ids)]
      · rw [show n + 1 - (k + 1) = n - k by omega]
        exact ih hs k (by omega)
      · obtain ⟨na, y, d, hy, rfl⟩ := hc
        refine ⟨[], ?_⟩
        have : customFromReader (y ++ d) = .ok ((na, d), []) := by
          unfold customFromReader
          rw [bind_run (reads_name hy _)]; rfl
        show (customFromReader >>= _) _ = _
        rw [bind_run this]; rfl
  | @skip id ids n b ho _ ih =>
    rw [secStage_omit hs ho]
    exact ih ((List.suffix_cons _ _).trans hs) k hk
  | @sect id ids n c x b hc hx hb ih =>
    cases k with
    | zero => exact ⟨id :: ids, _, rfl, .sect hc hx hb⟩
    | succ k =>
      rw [sections_cons hx (m' := secStage m ids)]
      · rw [show n + 1 - (k + 1) = n - k by omega]
        exact ih ((List.suffix_cons _ _).trans hs) k (by omega)
      · obtain ⟨-, -, hlt, -⟩ := hx
        have := reads_section hs hn (by omega) hc []
        rw [List.append_nil] at this
        exact ⟨_, this⟩

theorem encSections_ne_nil {m : ModuleDesc} {ids : List Nat} {n : Nat} {b : Bytes} (h : EncSections m ids n b) (hn : 0 < n) : b ≠ [] := by
  induction h with
  | nil => omega
  | custom _ hx => obtain ⟨_, _, _, rfl⟩ := hx; simp
  | skip _ _ ih => exact ih hn
  | sect _ hx => obtain ⟨_, _, _, rfl⟩ := hx; simp

theorem secStage_all (m : ModuleDesc) : secStage m sectionOrder = {} := rfl

end Pywasm
