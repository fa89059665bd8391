import Verif.Lemmas.Disasm
import Verif.Lemmas.AcceptBody

/-!
# What the decoder of modules accepts
-/

namespace Pywasm
open Reader Spec.Bin Spec.Leb

theorem u_ne_nil {n : Nat} {g : Bytes} (h : U n g) : g ≠ [] := Reads.isGroup_ne_nil h.1

theorem uleb_nil {r : Bytes} {n : Nat} : Reader.uleb [] ≠ .ok (n, r) := by
  intro h
  obtain ⟨g, hg, e⟩ := uleb_iff.mp h
  exact u_ne_nil hg (List.append_eq_nil_iff.mp e.symm).1

theorem decodeUtf8_iff {b : Bytes} {s : String} : Py.decodeUtf8 b = .ok s ↔ b = s.toUTF8.data.toList := by
  refine ⟨fun h => ?_, fun h => h ▸ decodeUtf8_toUTF8 s⟩
  unfold Py.decodeUtf8 String.fromUTF8? at h
  split at h
  · rename_i t ht
    cases h
    split at ht
    · cases ht
      rfl
    · cases ht
  · cases h

/-- A name is read; if there are fewer bytes than it says, nothing is left. -/
theorem name_iff {s r : Bytes} {x : String} :
    Reader.name s = .ok (x, r) ↔ ∃ n len, U n len ∧ Short n x.toUTF8.data.toList r ∧ s = len ++ x.toUTF8.data.toList ++ r := by
  unfold Reader.name
  rw [bind_iff]
  constructor
  · rintro ⟨n, s1, h1, h2⟩
    obtain ⟨g, hg, rfl⟩ := uleb_iff.mp h1
    obtain ⟨d, s2, h3, h4⟩ := bind_iff.mp h2
    obtain ⟨rfl, h5⟩ := read_iff.mp h3
    obtain ⟨h6, rfl⟩ := liftE_iff.mp h4
    obtain rfl := decodeUtf8_iff.mp h6
    exact ⟨n, g, hg, h5, by simp⟩
  · rintro ⟨n, g, hg, h, rfl⟩
    exact ⟨n, _, uleb_iff.mpr ⟨g, hg, List.append_assoc ..⟩, bind_iff.mpr ⟨_, _, read_iff.mpr ⟨rfl, h⟩,
      liftE_iff.mpr ⟨decodeUtf8_iff.mpr rfl, rfl⟩⟩⟩

/-- A name after which there is something. -/
theorem name_got {s r : Bytes} {x : String} (h : Reader.name s = .ok (x, r)) (hr : r ≠ []) : ∃ b, s = b ++ r ∧ EncName x b := by
  obtain ⟨n, len, h1, h2 | ⟨-, -, h2⟩, rfl⟩ := name_iff.mp h
  · exact ⟨_, rfl, len, by rw [← h2] at h1; simpa using h1, rfl⟩
  · exact absurd h2 hr

theorem vals_iff {s r : Bytes} {ts : List ValType} (hs : s.length < 2 ^ 32) :
    Reader.vec ValType.fromReader s = .ok (ts, r) ↔ ∃ b, s = b ++ r ∧ Vec EncVal ts b :=
  vecS_iff (fun s a r _ => by
    rw [valtype_iff]
    exact ⟨fun h => ⟨_, h, rfl⟩, fun ⟨b, h, e⟩ => by rw [h, e]; rfl⟩) hs

theorem functype_iff {s r : Bytes} {t : FuncType} (hs : s.length < 2 ^ 32) :
    FuncType.fromReader s = .ok (t, r) ↔ ∃ b, s = b ++ r ∧ EncFuncType t b := by
  refine ⟨fun h => ?_, fun ⟨b, e, h⟩ => e ▸ reads_functype h r⟩
  obtain ⟨b, s1, h1, h2⟩ := bind_iff.mp h
  obtain rfl := ordByte_iff.mp h1
  obtain ⟨_, s2, h3, h4⟩ := bind_iff.mp h2
  obtain ⟨h5, rfl⟩ := check_iff.mp h3
  obtain rfl := eq_of_beq h5
  obtain ⟨as, s3, h6, h7⟩ := bind_iff.mp h4
  obtain ⟨x, rfl, hx⟩ := (vals_iff (by simp only [List.length_cons] at hs; omega)).mp h6
  obtain ⟨rs, s4, h8, h9⟩ := bind_iff.mp h7
  obtain ⟨y, rfl, hy⟩ := (vals_iff (by simp only [List.length_cons, List.length_append] at hs; omega)).mp h8
  obtain ⟨rfl, rfl⟩ := pure_iff.mp h9
  exact ⟨[0x60] ++ x ++ y, by simp, x, y, hx, hy, rfl⟩

theorem limits_iff {s r : Bytes} {l : Limits} : Limits.fromReader s = .ok (l, r) ↔ ∃ b, s = b ++ r ∧ AccLimits l b := by
  constructor
  · intro h
    obtain ⟨f, s1, h1, h2⟩ := bind_iff.mp h
    obtain rfl := ordByte_iff.mp h1
    obtain ⟨n, s2, h3, h4⟩ := bind_iff.mp h2
    obtain ⟨g, hg, rfl⟩ := uleb_iff.mp h3
    by_cases hf : f = 0
    · subst hf
      obtain ⟨rfl, rfl⟩ := pure_iff.mp h4
      exact ⟨[0x00] ++ g, rfl, .min hg⟩
    · rw [if_pos hf] at h4
      obtain ⟨m, s3, h5, h6⟩ := bind_iff.mp h4
      obtain ⟨k, hk, rfl⟩ := uleb_iff.mp h5
      obtain ⟨rfl, rfl⟩ := pure_iff.mp h6
      exact ⟨[f] ++ g ++ k, by simp, .minmax hf hg hk⟩
  · rintro ⟨b, rfl, h⟩
    cases h with
    | min hx =>
      exact reads_limits (.min hx) r
    | minmax hf hx hy =>
      rw [List.append_assoc [_]]
      refine Reads.bind (.ordByte _) (.bind (.uleb hx) ?_) r
      rw [if_pos hf]
      exact .bind0 (.uleb hy) (.pure _)

theorem tabletype_iff {s r : Bytes} {t : TableType} : TableType.fromReader s = .ok (t, r) ↔ ∃ b, s = b ++ r ∧ AccTableType t b := by
  constructor
  · intro h
    obtain ⟨ty, s1, h1, h2⟩ := bind_iff.mp h
    obtain rfl := valtype_iff.mp h1
    obtain ⟨l, s2, h3, h4⟩ := bind_iff.mp h2
    obtain ⟨x, rfl, hx⟩ := limits_iff.mp h3
    obtain ⟨_, s3, h5, h6⟩ := bind_iff.mp h4
    obtain ⟨h7, rfl⟩ := check_iff.mp h5
    obtain ⟨rfl, rfl⟩ := pure_iff.mp h6
    refine ⟨[valByte ty] ++ x, rfl, ?_, x, hx, rfl⟩
    simpa using h7
  · rintro ⟨_, rfl, ht, x, hx, rfl⟩
    rw [List.append_assoc]
    refine bind_iff.mpr ⟨t.type, _, valtype_iff.mpr rfl, bind_iff.mpr ⟨t.limits, r, limits_iff.mpr ⟨x, rfl, hx⟩, bind_iff.mpr ⟨(), r, check_iff.mpr ⟨?_, rfl⟩, rfl⟩⟩⟩
    rcases ht with ht | ht <;> rw [ht] <;> rfl

theorem globaltype_iff {s r : Bytes} {t : GlobalType} : GlobalType.fromReader s = .ok (t, r) ↔ ∃ b, s = b ++ r ∧ EncGlobalType t b := by
  refine ⟨fun h => ?_, fun ⟨b, e, h⟩ => e ▸ reads_globaltype h r⟩
  obtain ⟨ty, s1, h1, h2⟩ := bind_iff.mp h
  obtain rfl := valtype_iff.mp h1
  obtain ⟨b, s2, h3, h4⟩ := bind_iff.mp h2
  obtain rfl := ordByte_iff.mp h3
  obtain ⟨_, s3, h5, h6⟩ := bind_iff.mp h4
  obtain ⟨h7, rfl⟩ := check_iff.mp h5
  obtain ⟨rfl, rfl⟩ := pure_iff.mp h6
  refine ⟨[valByte ty, b], rfl, ?_⟩
  simp only [Bool.or_eq_true, beq_iff_eq] at h7
  rcases h7 with rfl | rfl <;> rfl

theorem global_iff {lim : Nat} {s r : Bytes} {g : GlobalDesc} (hs : s.length < 2 ^ 32) :
    GlobalDesc.fromReader lim s = .ok (g, r) ↔ ∃ b, s = b ++ r ∧ AccGlobal lim g b := by
  constructor
  · intro h
    obtain ⟨t, s1, h1, h2⟩ := bind_iff.mp h
    obtain ⟨x, rfl, hx⟩ := globaltype_iff.mp h1
    obtain ⟨e, s2, h3, h4⟩ := bind_iff.mp h2
    obtain ⟨y, rfl, hy⟩ := (expr_iff (by simp only [List.length_append] at hs; omega)).mp h3
    obtain ⟨rfl, rfl⟩ := pure_iff.mp h4
    exact ⟨x ++ y, by simp, x, y, hx, hy, rfl⟩
  · rintro ⟨_, rfl, x, y, hx, hy, rfl⟩
    rw [List.append_assoc] at hs ⊢
    exact bind_iff.mpr ⟨_, _, globaltype_iff.mpr ⟨x, rfl, hx⟩, bind_iff.mpr ⟨_, r, (expr_iff (by simp only [List.length_append] at hs ⊢; omega)).mpr ⟨y, rfl, hy⟩, rfl⟩⟩

theorem importdesc_got {k : UInt8} {s r : Bytes} {d : ImportDesc} (h : ImportDesc.fromReader k s = .ok (d, r)) :
    ∃ b, k :: s = b ++ r ∧ AccImportDesc d b := by
  unfold ImportDesc.fromReader at h
  split at h
  · rename_i hk
    subst hk
    obtain ⟨n, s1, h1, h2⟩ := bind_iff.mp h
    obtain ⟨g, hg, rfl⟩ := uleb_iff.mp h1
    obtain ⟨rfl, rfl⟩ := pure_iff.mp h2
    exact ⟨_, rfl, .func hg⟩
  split at h
  · rename_i hk
    subst hk
    obtain ⟨n, s1, h1, h2⟩ := bind_iff.mp h
    obtain ⟨g, rfl, hg⟩ := tabletype_iff.mp h1
    obtain ⟨rfl, rfl⟩ := pure_iff.mp h2
    exact ⟨_, rfl, .table hg⟩
  split at h
  · rename_i hk
    subst hk
    obtain ⟨n, s1, h1, h2⟩ := bind_iff.mp h
    obtain ⟨g, rfl, hg⟩ := limits_iff.mp h1
    obtain ⟨rfl, rfl⟩ := pure_iff.mp h2
    exact ⟨_, rfl, .mem hg⟩
  split at h
  · rename_i hk
    subst hk
    obtain ⟨n, s1, h1, h2⟩ := bind_iff.mp h
    obtain ⟨g, rfl, hg⟩ := globaltype_iff.mp h1
    obtain ⟨rfl, rfl⟩ := pure_iff.mp h2
    exact ⟨_, rfl, .glob hg⟩
  · cases h

theorem import_iff {s r : Bytes} {i : Import} : Import.fromReader s = .ok (i, r) ↔ ∃ b, s = b ++ r ∧ AccImport i b := by
  constructor
  · intro h
    obtain ⟨m, s1, h1, h2⟩ := bind_iff.mp h
    obtain ⟨n, s2, h3, h4⟩ := bind_iff.mp h2
    obtain ⟨k, s3, h5, h6⟩ := bind_iff.mp h4
    obtain rfl := ordByte_iff.mp h5
    obtain ⟨y, rfl, hy⟩ := name_got h3 (by simp)
    obtain ⟨x, rfl, hx⟩ := name_got h1 (by simp)
    obtain ⟨d, s4, h7, h8⟩ := bind_iff.mp h6
    obtain ⟨z, e, hz⟩ := importdesc_got h7
    obtain ⟨rfl, rfl⟩ := pure_iff.mp h8
    exact ⟨x ++ y ++ z, by rw [e]; simp, x, y, z, hx, hy, hz, rfl⟩
  · obtain ⟨mo, na, d⟩ := i
    rintro ⟨_, rfl, x, y, z, hx, hy, hz, rfl⟩
    rw [List.append_assoc x]
    refine Reads.bind (reads_name hx) (.bind (reads_name hy) ?_) r
    cases hz with
    | func h => exact .bind (.ordByte _) (.bind0 (.uleb1 _ h) (.pure _))
    | table h => exact .bind (.ordByte _) (.bind0 (.bind0 (fun _ => tabletype_iff.mpr ⟨_, rfl, h⟩) (.pure _)) (.pure _))
    | mem h => exact .bind (.ordByte _) (.bind0 (.bind0 (fun _ => limits_iff.mpr ⟨_, rfl, h⟩) (.pure _)) (.pure _))
    | glob h => exact .bind (.ordByte _) (.bind0 (.bind0 (reads_globaltype h) (.pure _)) (.pure _))

theorem exKind_iff {b : UInt8} {k : ExKind} : ExKind.ofByte b = .ok k ↔ b = exByte k := by
  constructor
  · intro h
    unfold ExKind.ofByte at h
    repeat' split at h
    all_goals first | (cases h; subst_vars; rfl) | cases h
  · rintro rfl
    cases k <;> rfl

theorem export_iff {s r : Bytes} {e : ExportDesc} : ExportDesc.fromReader s = .ok (e, r) ↔ ∃ b, s = b ++ r ∧ EncExport e b := by
  refine ⟨fun h => ?_, fun ⟨b, e, h⟩ => e ▸ reads_export h r⟩
  obtain ⟨n, s1, h1, h2⟩ := bind_iff.mp h
  obtain ⟨k, s2, h3, h4⟩ := bind_iff.mp h2
  obtain rfl := ordByte_iff.mp h3
  obtain ⟨x, rfl, hx⟩ := name_got h1 (by simp)
  obtain ⟨d, s3, h5, h6⟩ := bind_iff.mp h4
  obtain ⟨y, hy, rfl⟩ := uleb_iff.mp h5
  obtain ⟨k', s4, h7, h8⟩ := bind_iff.mp h6
  obtain ⟨h9, rfl⟩ := liftE_iff.mp h7
  obtain rfl := exKind_iff.mp h9
  obtain ⟨rfl, rfl⟩ := pure_iff.mp h8
  exact ⟨x ++ [exByte k'] ++ y, by simp, x, y, hx, hy, rfl⟩

theorem funcrefs_iff {s r : Bytes} {l : List Expr} (hs : s.length < 2 ^ 32) :
    Reader.vec funcExprFromReader s = .ok (l, r) ↔ ∃ b, s = b ++ r ∧ Vec EncFuncRef l b :=
  vecS_iff (fun s a r _ => by
    refine ⟨fun h => ?_, fun ⟨b, e, h⟩ => e ▸ reads_funcref h r⟩
    obtain ⟨f, s1, h1, h2⟩ := bind_iff.mp h
    obtain ⟨g, hg, rfl⟩ := uleb_iff.mp h1
    obtain ⟨rfl, rfl⟩ := pure_iff.mp h2
    exact ⟨g, rfl, f, rfl, hg⟩) hs

theorem exprs_iff {lim : Nat} {s r : Bytes} {l : List Expr} (hs : s.length < 2 ^ 32) :
    Reader.vec (Expr.fromReader lim) s = .ok (l, r) ↔ ∃ b, s = b ++ r ∧ Vec (AccE lim) l b :=
  vecS_iff (fun _ _ _ h => expr_iff h) hs

section
/-- the lengths of suffixes -/
local macro "len" : tactic => `(tactic| (simp only [List.length_append, List.length_cons, List.length_nil] at *; omega))

theorem elem_iff {lim : Nat} {s r : Bytes} {e : ElemDesc} (hs : s.length < 2 ^ 32) :
    ElemDesc.fromReader lim s = .ok (e, r) ↔ ∃ b, s = b ++ r ∧ AccElem lim e b := by
  constructor
  · intro h
    obtain ⟨k, s1, h1, h2⟩ := bind_iff.mp h
    obtain ⟨g, hg, rfl⟩ := uleb_iff.mp h1
    clear h h1
    split at h2
    · rename_i hk; subst hk
      obtain ⟨o, s2, h3, h4⟩ := bind_iff.mp h2
      obtain ⟨x, rfl, hx⟩ := (expr_iff (by len)).mp h3
      obtain ⟨l, s3, h5, h6⟩ := bind_iff.mp h4
      obtain ⟨y, rfl, hy⟩ := (funcrefs_iff (by len)).mp h5
      obtain ⟨rfl, rfl⟩ := pure_iff.mp h6
      exact ⟨_, by rw [← List.append_assoc, ← List.append_assoc], .active0 hg hx hy⟩
    split at h2
    · rename_i hk; subst hk
      obtain ⟨_, s2, h3, h4⟩ := bind_iff.mp h2
      obtain rfl := zeroByte_iff.mp h3
      obtain ⟨l, s3, h5, h6⟩ := bind_iff.mp h4
      obtain ⟨y, rfl, hy⟩ := (funcrefs_iff (by len)).mp h5
      obtain ⟨rfl, rfl⟩ := pure_iff.mp h6
      exact ⟨g ++ [0x00] ++ y, by simp, .passive1 hg hy⟩
    split at h2
    · rename_i hk; subst hk
      obtain ⟨t, s2, h3, h4⟩ := bind_iff.mp h2
      obtain ⟨w, hw, rfl⟩ := uleb_iff.mp h3
      obtain ⟨o, s3, h5, h6⟩ := bind_iff.mp h4
      obtain ⟨x, rfl, hx⟩ := (expr_iff (by len)).mp h5
      obtain ⟨_, s4, h7, h8⟩ := bind_iff.mp h6
      obtain rfl := zeroByte_iff.mp h7
      obtain ⟨l, s5, h9, h10⟩ := bind_iff.mp h8
      obtain ⟨y, rfl, hy⟩ := (funcrefs_iff (by len)).mp h9
      obtain ⟨rfl, rfl⟩ := pure_iff.mp h10
      exact ⟨g ++ w ++ x ++ [0x00] ++ y, by simp, .active2 hg hw hx hy⟩
    split at h2
    · rename_i hk; subst hk
      obtain ⟨_, s2, h3, h4⟩ := bind_iff.mp h2
      obtain rfl := zeroByte_iff.mp h3
      obtain ⟨l, s3, h5, h6⟩ := bind_iff.mp h4
      obtain ⟨y, rfl, hy⟩ := (funcrefs_iff (by len)).mp h5
      obtain ⟨rfl, rfl⟩ := pure_iff.mp h6
      exact ⟨g ++ [0x00] ++ y, by simp, .declarative3 hg hy⟩
    split at h2
    · rename_i hk; subst hk
      obtain ⟨o, s2, h3, h4⟩ := bind_iff.mp h2
      obtain ⟨x, rfl, hx⟩ := (expr_iff (by len)).mp h3
      obtain ⟨l, s3, h5, h6⟩ := bind_iff.mp h4
      obtain ⟨y, rfl, hy⟩ := (exprs_iff (by len)).mp h5
      obtain ⟨rfl, rfl⟩ := pure_iff.mp h6
      exact ⟨_, by rw [← List.append_assoc, ← List.append_assoc], .active4 hg hx hy⟩
    split at h2
    · rename_i hk; subst hk
      obtain ⟨t, s2, h3, h4⟩ := bind_iff.mp h2
      obtain rfl := valtype_iff.mp h3
      obtain ⟨l, s3, h5, h6⟩ := bind_iff.mp h4
      obtain ⟨y, rfl, hy⟩ := (exprs_iff (by len)).mp h5
      obtain ⟨rfl, rfl⟩ := pure_iff.mp h6
      exact ⟨g ++ [valByte t] ++ y, by simp, .passive5 hg hy⟩
    split at h2
    · rename_i hk; subst hk
      obtain ⟨i, s2, h3, h4⟩ := bind_iff.mp h2
      obtain ⟨w, hw, rfl⟩ := uleb_iff.mp h3
      obtain ⟨o, s3, h5, h6⟩ := bind_iff.mp h4
      obtain ⟨x, rfl, hx⟩ := (expr_iff (by len)).mp h5
      obtain ⟨t, s4, h7, h8⟩ := bind_iff.mp h6
      obtain rfl := valtype_iff.mp h7
      obtain ⟨l, s5, h9, h10⟩ := bind_iff.mp h8
      obtain ⟨y, rfl, hy⟩ := (exprs_iff (by len)).mp h9
      obtain ⟨rfl, rfl⟩ := pure_iff.mp h10
      exact ⟨g ++ w ++ x ++ [valByte t] ++ y, by simp, .active6 hg hw hx hy⟩
    split at h2
    · rename_i hk; subst hk
      obtain ⟨t, s2, h3, h4⟩ := bind_iff.mp h2
      obtain rfl := valtype_iff.mp h3
      obtain ⟨l, s3, h5, h6⟩ := bind_iff.mp h4
      obtain ⟨y, rfl, hy⟩ := (exprs_iff (by len)).mp h5
      obtain ⟨rfl, rfl⟩ := pure_iff.mp h6
      exact ⟨g ++ [valByte t] ++ y, by simp, .declarative7 hg hy⟩
    · cases h2
  · rintro ⟨b, rfl, h⟩
    cases h with
    | active0 hk hx hy =>
      simp only [List.append_assoc] at hs ⊢
      exact bind_iff.mpr ⟨_, _, uleb_iff.mpr ⟨_, hk, rfl⟩, bind_iff.mpr ⟨_, _, (expr_iff (by len)).mpr ⟨_, rfl, hx⟩,
        bind_iff.mpr ⟨_, _, (funcrefs_iff (by len)).mpr ⟨_, rfl, hy⟩, rfl⟩⟩⟩
    | passive1 hk hy =>
      simp only [List.append_assoc, List.cons_append, List.nil_append] at hs ⊢
      exact bind_iff.mpr ⟨_, _, uleb_iff.mpr ⟨_, hk, rfl⟩, bind_iff.mpr ⟨(), _, zeroByte_iff.mpr rfl,
        bind_iff.mpr ⟨_, _, (funcrefs_iff (by len)).mpr ⟨_, rfl, hy⟩, rfl⟩⟩⟩
    | active2 hk hw hx hy =>
      simp only [List.append_assoc, List.cons_append, List.nil_append] at hs ⊢
      exact bind_iff.mpr ⟨_, _, uleb_iff.mpr ⟨_, hk, rfl⟩, bind_iff.mpr ⟨_, _, uleb_iff.mpr ⟨_, hw, rfl⟩,
        bind_iff.mpr ⟨_, _, (expr_iff (by len)).mpr ⟨_, rfl, hx⟩, bind_iff.mpr ⟨(), _, zeroByte_iff.mpr rfl,
        bind_iff.mpr ⟨_, _, (funcrefs_iff (by len)).mpr ⟨_, rfl, hy⟩, rfl⟩⟩⟩⟩⟩
    | declarative3 hk hy =>
      simp only [List.append_assoc, List.cons_append, List.nil_append] at hs ⊢
      exact bind_iff.mpr ⟨_, _, uleb_iff.mpr ⟨_, hk, rfl⟩, bind_iff.mpr ⟨(), _, zeroByte_iff.mpr rfl,
        bind_iff.mpr ⟨_, _, (funcrefs_iff (by len)).mpr ⟨_, rfl, hy⟩, rfl⟩⟩⟩
    | active4 hk hx hy =>
      simp only [List.append_assoc] at hs ⊢
      exact bind_iff.mpr ⟨_, _, uleb_iff.mpr ⟨_, hk, rfl⟩, bind_iff.mpr ⟨_, _, (expr_iff (by len)).mpr ⟨_, rfl, hx⟩,
        bind_iff.mpr ⟨_, _, (exprs_iff (by len)).mpr ⟨_, rfl, hy⟩, rfl⟩⟩⟩
    | passive5 hk hy =>
      simp only [List.append_assoc, List.cons_append, List.nil_append] at hs ⊢
      exact bind_iff.mpr ⟨_, _, uleb_iff.mpr ⟨_, hk, rfl⟩, bind_iff.mpr ⟨_, _, valtype_iff.mpr rfl,
        bind_iff.mpr ⟨_, _, (exprs_iff (by len)).mpr ⟨_, rfl, hy⟩, rfl⟩⟩⟩
    | active6 hk hw hx hy =>
      simp only [List.append_assoc, List.cons_append, List.nil_append] at hs ⊢
      exact bind_iff.mpr ⟨_, _, uleb_iff.mpr ⟨_, hk, rfl⟩, bind_iff.mpr ⟨_, _, uleb_iff.mpr ⟨_, hw, rfl⟩,
        bind_iff.mpr ⟨_, _, (expr_iff (by len)).mpr ⟨_, rfl, hx⟩, bind_iff.mpr ⟨_, _, valtype_iff.mpr rfl,
        bind_iff.mpr ⟨_, _, (exprs_iff (by len)).mpr ⟨_, rfl, hy⟩, rfl⟩⟩⟩⟩⟩
    | declarative7 hk hy =>
      simp only [List.append_assoc, List.cons_append, List.nil_append] at hs ⊢
      exact bind_iff.mpr ⟨_, _, uleb_iff.mpr ⟨_, hk, rfl⟩, bind_iff.mpr ⟨_, _, valtype_iff.mpr rfl,
        bind_iff.mpr ⟨_, _, (exprs_iff (by len)).mpr ⟨_, rfl, hy⟩, rfl⟩⟩⟩

theorem blob_iff {s r d : Bytes} : Reader.blob s = .ok (d, r) ↔ ∃ b, s = b ++ r ∧ AccBlob d b r := by
  unfold Reader.blob
  rw [bind_iff]
  constructor
  · rintro ⟨n, s1, h1, h2⟩
    obtain ⟨g, hg, rfl⟩ := uleb_iff.mp h1
    obtain ⟨rfl, h⟩ := read_iff.mp h2
    exact ⟨g ++ d, by simp, n, g, hg, h, rfl⟩
  · rintro ⟨_, rfl, n, g, hg, h, rfl⟩
    exact ⟨n, d ++ r, uleb_iff.mpr ⟨g, hg, by simp⟩, read_iff.mpr ⟨rfl, h⟩⟩

theorem data_iff {lim : Nat} {s r : Bytes} {d : DataDesc} (hs : s.length < 2 ^ 32) :
    DataDesc.fromReader lim s = .ok (d, r) ↔ ∃ b, s = b ++ r ∧ AccData lim d b r := by
  constructor
  · intro h
    obtain ⟨k, s1, h1, h2⟩ := bind_iff.mp h
    obtain ⟨g, hg, rfl⟩ := uleb_iff.mp h1
    clear h h1
    split at h2
    · rename_i hk; subst hk
      obtain ⟨o, s2, h3, h4⟩ := bind_iff.mp h2
      obtain ⟨x, rfl, hx⟩ := (expr_iff (by len)).mp h3
      obtain ⟨l, s3, h5, h6⟩ := bind_iff.mp h4
      obtain ⟨y, rfl, hy⟩ := blob_iff.mp h5
      obtain ⟨rfl, rfl⟩ := pure_iff.mp h6
      exact ⟨_, by rw [← List.append_assoc, ← List.append_assoc], .active hg hx hy⟩
    split at h2
    · rename_i hk; subst hk
      obtain ⟨l, s3, h5, h6⟩ := bind_iff.mp h2
      obtain ⟨y, rfl, hy⟩ := blob_iff.mp h5
      obtain ⟨rfl, rfl⟩ := pure_iff.mp h6
      exact ⟨_, by rw [← List.append_assoc], .passive hg hy⟩
    split at h2
    · rename_i hk; subst hk
      obtain ⟨t, s2, h3, h4⟩ := bind_iff.mp h2
      obtain ⟨w, hw, rfl⟩ := uleb_iff.mp h3
      obtain ⟨o, s3, h5, h6⟩ := bind_iff.mp h4
      obtain ⟨x, rfl, hx⟩ := (expr_iff (by len)).mp h5
      obtain ⟨d, s4, h7, h8⟩ := bind_iff.mp h6
      obtain ⟨y, rfl, hy⟩ := blob_iff.mp h7
      obtain ⟨_, s5, h9, h10⟩ := bind_iff.mp h8
      obtain ⟨h11, rfl⟩ := check_iff.mp h9
      obtain rfl := eq_of_beq h11
      obtain ⟨rfl, rfl⟩ := pure_iff.mp h10
      exact ⟨g ++ w ++ x ++ y, by simp, .active2 hg hw hx hy⟩
    · cases h2
  · rintro ⟨b, rfl, h⟩
    cases h with
    | active hk hx hy =>
      simp only [List.append_assoc] at hs ⊢
      exact bind_iff.mpr ⟨_, _, uleb_iff.mpr ⟨_, hk, rfl⟩, bind_iff.mpr ⟨_, _, (expr_iff (by len)).mpr ⟨_, rfl, hx⟩,
        bind_iff.mpr ⟨_, _, blob_iff.mpr ⟨_, rfl, hy⟩, rfl⟩⟩⟩
    | passive hk hy =>
      simp only [List.append_assoc] at hs ⊢
      exact bind_iff.mpr ⟨_, _, uleb_iff.mpr ⟨_, hk, rfl⟩, bind_iff.mpr ⟨_, _, blob_iff.mpr ⟨_, rfl, hy⟩, rfl⟩⟩
    | active2 hk hw hx hy =>
      simp only [List.append_assoc] at hs ⊢
      exact bind_iff.mpr ⟨_, _, uleb_iff.mpr ⟨_, hk, rfl⟩, bind_iff.mpr ⟨_, _, uleb_iff.mpr ⟨_, hw, rfl⟩,
        bind_iff.mpr ⟨_, _, (expr_iff (by len)).mpr ⟨_, rfl, hx⟩, bind_iff.mpr ⟨_, _, blob_iff.mpr ⟨_, rfl, hy⟩,
        bind_iff.mpr ⟨(), _, check_iff.mpr ⟨rfl, rfl⟩, rfl⟩⟩⟩⟩⟩

theorem locals_iff {s r : Bytes} {l : Nat × ValType} : localsFromReader s = .ok (l, r) ↔ ∃ b, s = b ++ r ∧ EncLocals l b := by
  refine ⟨fun h => ?_, fun ⟨b, e, h⟩ => e ▸ reads_locals h r⟩
  obtain ⟨n, s1, h1, h2⟩ := bind_iff.mp h
  obtain ⟨g, hg, rfl⟩ := uleb_iff.mp h1
  obtain ⟨t, s2, h3, h4⟩ := bind_iff.mp h2
  obtain rfl := valtype_iff.mp h3
  obtain ⟨rfl, rfl⟩ := pure_iff.mp h4
  exact ⟨g ++ [valByte t], by simp, g, hg, rfl⟩

theorem fromReaderCode_iff {lim : Nat} {s r : Bytes} {d : FuncDesc} (hs : s.length < 2 ^ 32) :
    FuncDesc.fromReaderCode lim s = .ok (d, r) ↔ ∃ x y, s = x ++ y ++ r ∧ Vec EncLocals d.locals x ∧ AccE lim d.expr y ∧ d.type = 0 := by
  constructor
  · intro h
    obtain ⟨ls, s1, h1, h2⟩ := bind_iff.mp h
    obtain ⟨x, rfl, hx⟩ := (vecS_iff (fun _ _ _ _ => locals_iff) hs).mp h1
    obtain ⟨e, s2, h3, h4⟩ := bind_iff.mp h2
    obtain ⟨y, rfl, hy⟩ := (expr_iff (by len)).mp h3
    obtain ⟨rfl, rfl⟩ := pure_iff.mp h4
    exact ⟨x, y, by simp, hx, hy, rfl⟩
  · obtain ⟨t, ls, e⟩ := d
    rintro ⟨x, y, rfl, hx, hy, rfl⟩
    rw [List.append_assoc] at hs ⊢
    exact bind_iff.mpr ⟨_, _, (vecS_iff (fun _ _ _ _ => locals_iff) hs).mpr ⟨x, rfl, hx⟩,
      bind_iff.mpr ⟨_, _, (expr_iff (by len)).mpr ⟨y, rfl, hy⟩, rfl⟩⟩

theorem codeEntry_iff {lim i : Nat} {s r : Bytes} {func func' : List FuncDesc} (hs : s.length < 2 ^ 32) :
    codeEntry lim func i s = .ok (func', r) ↔
      ∃ c b f, s = b ++ r ∧ AccCode lim c b r ∧ func[i]? = some f ∧ func' = func.set i ⟨f.type, c.1, c.2⟩ := by
  constructor
  · intro h
    obtain ⟨n, s1, h1, h2⟩ := bind_iff.mp h
    obtain ⟨g, hg, rfl⟩ := uleb_iff.mp h1
    obtain ⟨d, s2, h3, h4⟩ := bind_iff.mp h2
    obtain ⟨rfl, hd⟩ := read_iff.mp h3
    obtain ⟨⟨c, z⟩, s3, h5, h6⟩ := bind_iff.mp h4
    obtain ⟨h7, rfl⟩ := liftE_iff.mp h5
    obtain ⟨x, y, rfl, hx, hy, h8⟩ := (fromReaderCode_iff (by len)).mp (show FuncDesc.fromReaderCode lim d = .ok (c, z) from h7)
    rcases hf : func[i]? with _ | f <;> rw [hf] at h6
    · cases h6
    · obtain ⟨_, s4, h9, h10⟩ := bind_iff.mp h6
      obtain ⟨h11, rfl⟩ := liftE_iff.mp h9
      obtain ⟨rfl, rfl⟩ := pure_iff.mp h10
      exact ⟨(c.locals, c.expr), g ++ (x ++ y ++ z), f, by simp, ⟨disasm_ok_iff.mp h11, n, g, x, y, z, hg, hx, hy, hd, rfl⟩, rfl, rfl⟩
  · rintro ⟨c, _, f, rfl, ⟨hl, n, g, x, y, z, hg, hx, hy, hd, rfl⟩, hf, rfl⟩
    rw [List.append_assoc] at hs ⊢
    refine bind_iff.mpr ⟨n, _, uleb_iff.mpr ⟨g, hg, rfl⟩, bind_iff.mpr ⟨x ++ y ++ z, r, read_iff.mpr ⟨rfl, hd⟩,
      bind_iff.mpr ⟨(⟨0, c.1, c.2⟩, z), r, liftE_iff.mpr ⟨?_, rfl⟩, ?_⟩⟩⟩
    · exact (fromReaderCode_iff (by len)).mpr ⟨x, y, rfl, hx, hy, rfl⟩
    · rw [hf]
      exact bind_iff.mpr ⟨(), r, liftE_iff.mpr ⟨disasm_ok_iff.mpr hl, rfl⟩, rfl⟩

theorem codeEntries_iff {lim n : Nat} {s r : Bytes} {done todo func' : List FuncDesc} (hs : s.length < 2 ^ 32) :
    codeEntries lim n done.length (done ++ todo) s = .ok (func', r) ↔
      ∃ l b, s = b ++ r ∧ l.length = n ∧ Seq (AccCode lim) l b r ∧ l.length ≤ todo.length ∧ func' = done ++ withCode todo l := by
  induction n generalizing s done todo func' with
  | zero =>
    rw [codeEntries, pure_iff]
    constructor
    · rintro ⟨rfl, rfl⟩
      exact ⟨[], [], rfl, rfl, .nil, by simp, by simp [withCode]⟩
    · rintro ⟨l, b, rfl, hl, h, -, rfl⟩
      obtain rfl := List.length_eq_zero_iff.mp hl
      cases h
      exact ⟨by simp [withCode], rfl⟩
  | succ n ih =>
    rw [codeEntries, bind_iff]
    constructor
    · rintro ⟨f1, s1, h1, h2⟩
      obtain ⟨c, b, f, rfl, hc, hf, rfl⟩ := (codeEntry_iff hs).mp h1
      rw [List.getElem?_append_right (by omega), Nat.sub_self] at hf
      cases todo with
      | nil => cases hf
      | cons t todo =>
        injection hf with hf
        subst hf
        rw [List.set_append_right _ _ (by omega), Nat.sub_self, List.set_cons_zero] at h2
        have h2 : codeEntries lim n (done ++ [(⟨t.type, c.1, c.2⟩ : FuncDesc)]).length ((done ++ [(⟨t.type, c.1, c.2⟩ : FuncDesc)]) ++ todo) s1 = .ok (func', r) := by
          simpa using h2
        obtain ⟨l, b', rfl, hl, h3, h4, rfl⟩ := (ih (by len)).mp h2
        exact ⟨c :: l, b ++ b', by simp, by simp [hl], .cons hc h3, by simpa using h4, by simp [withCode]⟩
    · rintro ⟨l, b, rfl, hl, h, hle, rfl⟩
      cases h with
      | nil => cases hl
      | @cons c l b b' _ hc h =>
        cases todo with
        | nil => simp at hle
        | cons t todo =>
          rw [List.append_assoc] at hs ⊢
          refine ⟨done ++ ⟨t.type, c.1, c.2⟩ :: todo, b' ++ r, (codeEntry_iff hs).mpr ⟨c, b, t, rfl, hc, ?_, ?_⟩, ?_⟩
          · rw [List.getElem?_append_right (by omega), Nat.sub_self]; rfl
          · rw [List.set_append_right _ _ (by omega), Nat.sub_self, List.set_cons_zero]
          · have := (ih (s := b' ++ r) (done := done ++ [⟨t.type, c.1, c.2⟩]) (todo := todo) (func' := done ++ withCode (t :: todo) (c :: l)) (by len)).mpr
              ⟨l, b', rfl, by simpa using hl, h, by simpa using hle, by simp [withCode]⟩
            simpa using this

theorem funcs_iff {s r : Bytes} {l : List FuncDesc} (hs : s.length < 2 ^ 32) :
    Reader.vec FuncDesc.fromReaderType s = .ok (l, r) ↔ ∃ ts b, s = b ++ r ∧ Vec U ts b ∧ l = ts.map fun t => ⟨t, [], []⟩ := by
  rw [vecS_iff (R := fun f b => ∃ t, f = ⟨t, [], []⟩ ∧ U t b) (fun s a r _ => by
    refine ⟨fun h => ?_, fun ⟨b, e, t, h1, h2⟩ => ?_⟩
    · obtain ⟨f, s1, h1, h2⟩ := bind_iff.mp h
      obtain ⟨g, hg, rfl⟩ := uleb_iff.mp h1
      obtain ⟨rfl, rfl⟩ := pure_iff.mp h2
      exact ⟨g, rfl, f, rfl, hg⟩
    · subst e h1
      exact bind_iff.mpr ⟨t, r, uleb_iff.mpr ⟨b, h2, rfl⟩, rfl⟩) hs]
  have : ∀ {bs : List Bytes} {l : List FuncDesc}, List.Forall₂ (fun f b => ∃ t, f = (⟨t, [], []⟩ : FuncDesc) ∧ U t b) l bs ↔
      ∃ ts, List.Forall₂ U ts bs ∧ l = ts.map fun t => ⟨t, [], []⟩ := by
    intro bs l
    constructor
    · intro h
      induction h with
      | nil => exact ⟨[], .nil, rfl⟩
      | cons h _ ih =>
        obtain ⟨t, rfl, h1⟩ := h
        obtain ⟨ts, h2, rfl⟩ := ih
        exact ⟨t :: ts, .cons h1 h2, rfl⟩
    · rintro ⟨ts, h, rfl⟩
      induction h with
      | nil => exact .nil
      | cons h _ ih => exact .cons ⟨_, rfl, h⟩ ih
  constructor
  · rintro ⟨_, rfl, len, bs, h1, h2, rfl⟩
    obtain ⟨ts, h3, rfl⟩ := this.mp h2
    exact ⟨ts, _, rfl, ⟨len, bs, by simpa using h1, h3, rfl⟩, rfl⟩
  · rintro ⟨ts, _, rfl, ⟨len, bs, h1, h2, rfl⟩, rfl⟩
    exact ⟨_, rfl, len, bs, by simpa using h1, this.mpr ⟨ts, h2, rfl⟩, rfl⟩

/-- The contents of a section. -/
theorem sectionBody_iff {lim : Nat} {id : UInt8} {m m' : ModuleDesc} {c : Bytes} (hs : c.length < 2 ^ 32) :
    (∃ r, sectionBody lim id m c = .ok (m', r)) ↔ AccBody lim m id c m' := by
  constructor
  · rintro ⟨r, h⟩
    by_cases h0 : id = 0
    · subst h0
      obtain ⟨⟨n, d⟩, s1, h1, h2⟩ := bind_iff.mp h
      obtain ⟨n', s2, h3, h4⟩ := bind_iff.mp h1
      obtain ⟨k, len, hk, hx, rfl⟩ := name_iff.mp h3
      obtain ⟨rfl, rfl⟩ := pure_iff.mp h2
      exact .custom hk hx
    by_cases h1' : id = 1
    · subst h1'
      obtain ⟨l, s1, h1, h2⟩ := bind_iff.mp h
      obtain ⟨b, rfl, hb⟩ := (vecS_iff (fun _ _ _ h => functype_iff h) hs).mp h1
      obtain ⟨rfl, rfl⟩ := pure_iff.mp h2
      exact .type hb
    by_cases h2' : id = 2
    · subst h2'
      obtain ⟨l, s1, h1, h2⟩ := bind_iff.mp h
      obtain ⟨b, rfl, hb⟩ := (vecS_iff (fun _ _ _ _ => import_iff) hs).mp h1
      obtain ⟨rfl, rfl⟩ := pure_iff.mp h2
      exact .imps hb
    by_cases h3' : id = 3
    · subst h3'
      obtain ⟨l, s1, h1, h2⟩ := bind_iff.mp h
      obtain ⟨ts, b, rfl, hb, rfl⟩ := (funcs_iff hs).mp h1
      obtain ⟨rfl, rfl⟩ := pure_iff.mp h2
      exact .func hb
    by_cases h4' : id = 4
    · subst h4'
      obtain ⟨l, s1, h1, h2⟩ := bind_iff.mp h
      obtain ⟨b, rfl, hb⟩ := (vecS_iff (fun _ _ _ _ => tabletype_iff) hs).mp h1
      obtain ⟨rfl, rfl⟩ := pure_iff.mp h2
      exact .tabl hb
    by_cases h5' : id = 5
    · subst h5'
      obtain ⟨l, s1, h1, h2⟩ := bind_iff.mp h
      obtain ⟨b, rfl, hb⟩ := (vecS_iff (fun _ _ _ _ => limits_iff) hs).mp h1
      obtain ⟨rfl, rfl⟩ := pure_iff.mp h2
      exact .mems hb
    by_cases h6' : id = 6
    · subst h6'
      obtain ⟨l, s1, h1, h2⟩ := bind_iff.mp h
      obtain ⟨b, rfl, hb⟩ := (vecS_iff (fun _ _ _ h => global_iff h) hs).mp h1
      obtain ⟨rfl, rfl⟩ := pure_iff.mp h2
      exact .glob hb
    by_cases h7' : id = 7
    · subst h7'
      obtain ⟨l, s1, h1, h2⟩ := bind_iff.mp h
      obtain ⟨b, rfl, hb⟩ := (vecS_iff (fun _ _ _ _ => export_iff) hs).mp h1
      obtain ⟨rfl, rfl⟩ := pure_iff.mp h2
      exact .exps hb
    by_cases h8' : id = 8
    · subst h8'
      obtain ⟨l, s1, h1, h2⟩ := bind_iff.mp h
      obtain ⟨b, hb, rfl⟩ := uleb_iff.mp h1
      obtain ⟨rfl, rfl⟩ := pure_iff.mp h2
      exact .star hb
    by_cases h9' : id = 9
    · subst h9'
      obtain ⟨l, s1, h1, h2⟩ := bind_iff.mp h
      obtain ⟨b, rfl, hb⟩ := (vecS_iff (fun _ _ _ h => elem_iff h) hs).mp h1
      obtain ⟨rfl, rfl⟩ := pure_iff.mp h2
      exact .elem hb
    by_cases h10' : id = 10
    · subst h10'
      obtain ⟨n, s1, h1, h2⟩ := bind_iff.mp h
      obtain ⟨g, hg, rfl⟩ := uleb_iff.mp h1
      obtain ⟨f, s2, h3, h4⟩ := bind_iff.mp h2
      obtain ⟨l, b, rfl, rfl, h5, h6, rfl⟩ := (codeEntries_iff (done := []) (todo := m.func) (by len)).mp h3
      obtain ⟨rfl, rfl⟩ := pure_iff.mp h4
      rw [← List.append_assoc]
      exact .code ⟨g, b, hg, h5, rfl⟩ h6
    by_cases h11' : id = 11
    · subst h11'
      obtain ⟨l, s1, h1, h2⟩ := bind_iff.mp h
      obtain ⟨b, rfl, hb⟩ := (vec_iff (fun _ _ _ h => data_iff h) hs).mp h1
      obtain ⟨rfl, rfl⟩ := pure_iff.mp h2
      exact .data hb
    by_cases h12' : id = 12
    · subst h12'
      obtain ⟨l, s1, h1, h2⟩ := bind_iff.mp h
      obtain ⟨b, hb, rfl⟩ := uleb_iff.mp h1
      obtain ⟨rfl, rfl⟩ := pure_iff.mp h2
      exact .dataCount hb
    · unfold sectionBody at h
      rw [if_neg h0, if_neg h1', if_neg h2', if_neg h3', if_neg h4', if_neg h5', if_neg h6', if_neg h7', if_neg h8', if_neg h9', if_neg h10', if_neg h11', if_neg h12'] at h
      obtain ⟨rfl, rfl⟩ := pure_iff.mp h
      refine .unknown ?_
      simp only [← UInt8.toNat_inj, UInt8.reduceToNat] at h0 h1' h2' h3' h4' h5' h6' h7' h8' h9' h10' h11' h12'
      omega
  · intro h
    cases h with
    | @custom n len s d hu hn => exact ⟨[], bind_iff.mpr ⟨(s, d), [], bind_iff.mpr ⟨s, d, name_iff.mpr ⟨n, len, hu, hn, rfl⟩, rfl⟩, rfl⟩⟩
    | type h => exact ⟨_, bind_iff.mpr ⟨_, _, (vecS_iff (fun _ _ _ h => functype_iff h) hs).mpr ⟨_, rfl, h⟩, rfl⟩⟩
    | imps h => exact ⟨_, bind_iff.mpr ⟨_, _, (vecS_iff (fun _ _ _ _ => import_iff) hs).mpr ⟨_, rfl, h⟩, rfl⟩⟩
    | func h => exact ⟨_, bind_iff.mpr ⟨_, _, (funcs_iff hs).mpr ⟨_, _, rfl, h, rfl⟩, rfl⟩⟩
    | tabl h => exact ⟨_, bind_iff.mpr ⟨_, _, (vecS_iff (fun _ _ _ _ => tabletype_iff) hs).mpr ⟨_, rfl, h⟩, rfl⟩⟩
    | mems h => exact ⟨_, bind_iff.mpr ⟨_, _, (vecS_iff (fun _ _ _ _ => limits_iff) hs).mpr ⟨_, rfl, h⟩, rfl⟩⟩
    | glob h => exact ⟨_, bind_iff.mpr ⟨_, _, (vecS_iff (fun _ _ _ h => global_iff h) hs).mpr ⟨_, rfl, h⟩, rfl⟩⟩
    | exps h => exact ⟨_, bind_iff.mpr ⟨_, _, (vecS_iff (fun _ _ _ _ => export_iff) hs).mpr ⟨_, rfl, h⟩, rfl⟩⟩
    | star h => exact ⟨_, bind_iff.mpr ⟨_, _, uleb_iff.mpr ⟨_, h, rfl⟩, rfl⟩⟩
    | elem h => exact ⟨_, bind_iff.mpr ⟨_, _, (vecS_iff (fun _ _ _ h => elem_iff h) hs).mpr ⟨_, rfl, h⟩, rfl⟩⟩
    | @code l b r h hl =>
      obtain ⟨g, b, hg, h1, rfl⟩ := h
      rw [List.append_assoc] at hs ⊢
      refine ⟨r, bind_iff.mpr ⟨_, _, uleb_iff.mpr ⟨g, hg, rfl⟩, bind_iff.mpr ⟨withCode m.func l, r, ?_, rfl⟩⟩⟩
      exact (codeEntries_iff (done := []) (todo := m.func) (by len)).mpr ⟨l, b, rfl, rfl, h1, hl, rfl⟩
    | data h => exact ⟨_, bind_iff.mpr ⟨_, _, (vec_iff (fun _ _ _ h => data_iff h) hs).mpr ⟨_, rfl, h⟩, rfl⟩⟩
    | dataCount h => exact ⟨_, bind_iff.mpr ⟨_, _, uleb_iff.mpr ⟨_, h, rfl⟩, rfl⟩⟩
    | unknown h =>
      refine ⟨c, ?_⟩
      unfold sectionBody
      have hn : ∀ k : UInt8, k.toNat ≤ 12 → ¬ id = k := by rintro k hk rfl; omega
      rw [if_neg (hn 0 (by decide)), if_neg (hn 1 (by decide)), if_neg (hn 2 (by decide)), if_neg (hn 3 (by decide)), if_neg (hn 4 (by decide)), if_neg (hn 5 (by decide)), if_neg (hn 6 (by decide)), if_neg (hn 7 (by decide)), if_neg (hn 8 (by decide)), if_neg (hn 9 (by decide)), if_neg (hn 10 (by decide)), if_neg (hn 11 (by decide)), if_neg (hn 12 (by decide))]
      rfl

theorem sections_iff {lim k : Nat} {m m' : ModuleDesc} {s r : Bytes} (hs : s.length < 2 ^ 32) :
    sections lim k m s = .ok (m', r) ↔ AccSections lim k m s m' r := by
  induction k generalizing m s with
  | zero =>
    rw [sections, pure_iff]
    constructor
    · rintro ⟨rfl, rfl⟩; exact .full
    · intro h; cases h <;> exact ⟨rfl, rfl⟩
  | succ k ih =>
    cases s with
    | nil =>
      constructor
      · intro h; cases h; exact .done
      · intro h
        generalize hx : ([] : Bytes) = x at h
        cases h with
        | done => rfl
        | sect => cases hx
    | cons id s =>
      constructor
      · intro h
        obtain ⟨n, s1, h1, h2⟩ := bind_iff.mp (show (Reader.uleb >>= _) s = .ok (m', r) from h)
        obtain ⟨g, hg, rfl⟩ := uleb_iff.mp h1
        obtain ⟨c, s2, h3, h4⟩ := bind_iff.mp h2
        obtain ⟨rfl, hc⟩ := read_iff.mp h3
        obtain ⟨_, s3, h5, h6⟩ := bind_iff.mp h4
        obtain ⟨h7, rfl⟩ := check_iff.mp h5
        obtain rfl := eq_of_beq h7
        obtain ⟨⟨m1, r1⟩, s4, h8, h9⟩ := bind_iff.mp h6
        obtain ⟨h10, rfl⟩ := liftE_iff.mp h8
        have hb := (sectionBody_iff (by len)).mp ⟨r1, h10⟩
        have := AccSections.sect hg hb ((ih (by len)).mp h9)
        simpa using this
      · intro h
        generalize hx : id :: s = x at h
        rw [hx] at hs
        cases h with
        | done => cases hx
        | @sect _ _ m1 _ id' size c b _ hu hb hr =>
          rw [List.append_assoc, List.append_assoc] at hs ⊢
          obtain ⟨r1, h1⟩ := (sectionBody_iff (by len)).mpr hb
          show (Reader.uleb >>= _) (size ++ (c ++ b)) = _
          exact bind_iff.mpr ⟨c.length, _, uleb_iff.mpr ⟨size, hu, rfl⟩, bind_iff.mpr ⟨c, b, read_iff.mpr ⟨rfl, .inl rfl⟩,
            bind_iff.mpr ⟨(), b, check_iff.mpr ⟨by simp, rfl⟩, bind_iff.mpr ⟨(m1, r1), b, liftE_iff.mpr ⟨h1, rfl⟩, (ih (by len)).mpr hr⟩⟩⟩⟩

theorem module_iff {lim : Nat} {m : ModuleDesc} {s r : Bytes} (hs : s.length < 2 ^ 32) :
    ModuleDesc.fromReader lim s = .ok (m, r) ↔ AccModule lim m s r := by
  constructor
  · intro h
    obtain ⟨a, s1, h1, h2⟩ := bind_iff.mp h
    obtain ⟨rfl, -⟩ := read_iff.mp h1
    obtain ⟨_, s2, h3, h4⟩ := bind_iff.mp h2
    obtain ⟨h5, rfl⟩ := check_iff.mp h3
    obtain rfl := eq_of_beq h5
    obtain ⟨b, s3, h6, h7⟩ := bind_iff.mp h4
    obtain ⟨rfl, -⟩ := read_iff.mp h6
    obtain ⟨_, s4, h8, h9⟩ := bind_iff.mp h7
    obtain ⟨h10, rfl⟩ := check_iff.mp h8
    obtain rfl := eq_of_beq h10
    exact ⟨_, (sections_iff (by len)).mp h9, by rw [List.append_assoc]⟩
  · rintro ⟨x, h, rfl⟩
    rw [List.append_assoc] at hs ⊢
    exact bind_iff.mpr ⟨_, _, read_iff.mpr ⟨rfl, .inl rfl⟩, bind_iff.mpr ⟨(), _, check_iff.mpr ⟨rfl, rfl⟩,
      bind_iff.mpr ⟨_, _, read_iff.mpr ⟨rfl, .inl rfl⟩, bind_iff.mpr ⟨(), _, check_iff.mpr ⟨rfl, rfl⟩, (sections_iff (by len)).mpr h⟩⟩⟩⟩

end

end Pywasm
