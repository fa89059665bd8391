import Verif.Lemmas.Listing

/-!
# The lines that are printed of a module: sections
-/

namespace Pywasm
open Reader Spec.Bin Spec
open Spec.Listing (num list words)

/-- what a reader that prints returns from an encoding, and prints -/
def LReads {α} (x : LReader α) (b : Bytes) (a : α) (l : List Str) : Prop := ∀ rest, x (b ++ rest) = (l, .ok (a, rest))

namespace LReads
variable {α β : Type}

theorem pure (a : α) : LReads (Pure.pure a) [] a [] := fun _ => rfl

theorem quiet {rd : Reader α} {b : Bytes} {a : α} (h : Reads rd b a) : LReads (LReader.quiet rd) b a [] := fun rest => by
  unfold LReader.quiet
  rw [h rest]

theorem bind {x : LReader α} {f : α → LReader β} {b c : Bytes} {a : α} {y : β} {l l' : List Str} (h1 : LReads x b a l)
    (h2 : LReads (f a) c y l') : LReads (x >>= f) (b ++ c) y (l ++ l') := by
  intro rest
  show Log.bind (x (b ++ c ++ rest)) (fun p => f p.1 p.2) = _
  rw [List.append_assoc, h1]
  show (l ++ (f a (c ++ rest)).1, (f a (c ++ rest)).2) = _
  rw [h2 rest]

theorem bind0 {x : LReader α} {f : α → LReader β} {b : Bytes} {a : α} {y : β} {l l' : List Str} (h1 : LReads x b a l)
    (h2 : LReads (f a) [] y l') : LReads (x >>= f) b y (l ++ l') := by simpa using bind h1 h2

theorem bind1 {x : LReader α} {f : α → LReader β} {c : Bytes} {a : α} {y : β} {l l' : List Str} (h1 : LReads x [] a l)
    (h2 : LReads (f a) c y l') : LReads (x >>= f) c y (l ++ l') := by simpa using bind h1 h2

theorem post {x : LReader α} {b : Bytes} {a : α} {l : List Str} (F : α → β) (h : LReads x b a l) :
    LReads (x >>= fun a => Pure.pure (F a)) b (F a) l := by
  have := h.bind0 (f := fun a => Pure.pure (F a)) (.pure _)
  rwa [List.append_nil] at this

theorem say {x : Log α} {a : α} {l : List Str} (h : x = (l, .ok a)) : LReads (LReader.say x) [] a l := fun rest => by
  subst h
  show (l ++ [], _) = _
  rw [List.append_nil]; rfl

theorem line {lvl : Int} (hl : 0 < lvl) {k : String} {x : Except Err Str} {s : Str} (h : x = .ok s) :
    logLine lvl k x = ([k.toList ++ ' ' :: s], .ok ()) := by
  subst h
  simp [logLine, debugObj, hl, Except.map]
  rfl

theorem times {lvl : Int} (hl : 0 < lvl) {rd : Reader α} {xs : List α} {bs : List Bytes} {k : String} {p : α → Except Err Str} {g : α → Str}
    (h : List.Forall₂ (fun x b => Reads rd b x) xs bs) (hg : ∀ x ∈ xs, p x = .ok (g x)) :
    LReads (LReader.times rd (fun a => logLine lvl k (p a)) xs.length) bs.flatten xs (xs.map fun x => k.toList ++ ' ' :: g x) := by
  induction h with
  | nil => exact .pure _
  | @cons x b xs bs h _ ih =>
    have h3 : LReads (LReader.times rd (fun a => logLine lvl k (p a)) (xs.length + 1)) (b ++ bs.flatten) (x :: xs)
        ([] ++ ([k.toList ++ ' ' :: g x] ++ (xs.map (fun x => k.toList ++ ' ' :: g x) ++ []))) := by
      rw [LReader.times]
      exact (quiet h).bind ((say (line hl (hg x (by simp)))).bind1 ((ih fun y hy => hg y (by simp [hy])).bind0 (.pure _)))
    simpa using h3

theorem vecB {lvl : Int} (hl : 0 < lvl) {R : α → Bytes → Prop} {rd : Reader β} {xs : List α} {b : Bytes} {k : String} {φ : α → β}
    {p : β → Except Err Str} {g : β → Str} (h : Vec R xs b)
    (hr : ∀ x c, x ∈ xs → c.length ≤ b.length → R x c → Reads rd c (φ x)) (hg : ∀ x ∈ xs, p (φ x) = .ok (g (φ x))) :
    LReads (LReader.vec rd fun a => logLine lvl k (p a)) b (xs.map φ) (xs.map fun x => k.toList ++ ' ' :: g (φ x)) := by
  obtain ⟨len, bs, hlen, hf, rfl⟩ := h
  have hf' : List.Forall₂ (fun x b => Reads rd b x) (xs.map φ) bs := by
    have hr' : ∀ x c, x ∈ xs → c.length ≤ bs.flatten.length → R x c → Reads rd c (φ x) := fun x c hx hc => hr x c hx (by
      simp only [List.length_append]; omega)
    clear hr hg hlen
    induction hf with
    | nil => exact .nil
    | @cons a c as cs h _ ih =>
      refine .cons (hr' _ _ (by simp) (by simp) h) (ih fun x b hx hb => hr' x b (by simp [hx]) ?_)
      simp only [List.flatten_cons, List.length_append]; omega
  have := (quiet (Reads.uleb hlen)).bind (f := LReader.times rd fun a => logLine lvl k (p a))
    (by have := times (k := k) (p := p) (g := g) hl hf' (by
          intro y hy
          obtain ⟨x, hx, rfl⟩ := List.mem_map.mp hy
          exact hg x hx)
        rwa [List.length_map] at this)
  have e : LReader.vec rd (fun a => logLine lvl k (p a)) = (LReader.quiet Reader.uleb >>= LReader.times rd fun a => logLine lvl k (p a)) := rfl
  rw [e]
  simpa [Function.comp_def] using this

end LReads

section
variable {lvl : Int}

theorem lreads_codeEntry (hlv : 0 < lvl) {lim : Nat} {f : FuncDesc} {b : Bytes} (h : EncCode f b) (hn : nestL f.expr < lim)
    (hl : b.length ≤ 2 ^ 32) (hs : ∀ l ∈ f.locals, l.1 < long) (done todo : List FuncDesc) :
    LReads (Logged.codeEntry lvl lim (done ++ blank f :: todo) done.length) b (done ++ f :: todo) (Listing.codeLines f) := by
  obtain ⟨hr, size, x, y, hx, hy, hsz, rfl⟩ := h
  simp only [List.length_append] at hl
  have hc : Reads (FuncDesc.fromReaderCode lim) (x ++ y) ⟨0, f.locals, f.expr⟩ :=
    .bind (.vec hx fun _ _ _ h => reads_locals h) (.bind0 (reads_expr hy hn (by omega)) (.pure _))
  have hc := hc []
  rw [List.append_nil] at hc
  have hb := disasm_text hlv 1 f.expr (listable_of_range hr)
  have ht := func_text (f := ⟨0, f.locals, f.expr⟩) rfl hs
  have : LReads (Logged.codeEntry lvl lim (done ++ blank f :: todo) done.length) (size ++ (x ++ y)) (done ++ f :: todo)
      ([] ++ ([] ++ ([] ++ (["section code".toList ++ ' ' :: ("0 ".toList ++ list (f.locals.map fun l => num l.1 ++ 'x' :: (Listing.valType l.2).toList))] ++
        (Listing.exprLines 1 f.expr ++ []))))) := by
    refine .bind (.quiet (.uleb hsz)) (.bind0 (.quiet (.read rfl)) (.bind1 (.quiet (.liftE hc)) ?_))
    rw [List.getElem?_append_right (by omega)]
    simp only [Nat.sub_self, List.getElem?_cons_zero]
    rw [List.set_append_right _ _ (by omega)]
    simp only [Nat.sub_self, List.set_cons_zero]
    exact .bind1 (.say (LReads.line hlv ht)) (.bind1 (.say hb) (.pure _))
  have e : Listing.codeLines f = [] ++ ([] ++ ([] ++ (["section code".toList ++ ' ' :: ("0 ".toList ++ list (f.locals.map fun l => num l.1 ++ 'x' :: (Listing.valType l.2).toList))] ++
        (Listing.exprLines 1 f.expr ++ [])))) := by
    rw [List.append_nil]; rfl
  rw [e]
  exact this

theorem lreads_codeEntries (hlv : 0 < lvl) {lim : Nat} {todo : List FuncDesc} {bs : List Bytes} (h : List.Forall₂ EncCode todo bs)
    (hn : ∀ f ∈ todo, nestL f.expr < lim) (hl : bs.flatten.length ≤ 2 ^ 32) (hs : ∀ f ∈ todo, ∀ l ∈ f.locals, l.1 < long)
    (done : List FuncDesc) :
    LReads (Logged.codeEntries lvl lim todo.length done.length (done ++ todo.map blank)) bs.flatten (done ++ todo)
      (todo.flatMap Listing.codeLines) := by
  induction h generalizing done with
  | nil => simp only [List.map_nil, List.append_nil]; exact .pure _
  | @cons f b fs bs h _ ih =>
    simp only [List.flatten_cons, List.length_append] at hl
    rw [List.flatMap_cons]
    refine .bind (lreads_codeEntry hlv h (hn _ (by simp)) (by omega) (hs _ (by simp)) done (fs.map blank)) ?_
    have := ih (fun g hg => hn g (by simp [hg])) (by omega) (fun g hg => hs g (by simp [hg])) (done ++ [f])
    simpa using this

/-- the lines of the section with a given id -/
def sectionLines (m : ModuleDesc) : Nat → List Str
  | 1 => m.type.map (fun t => "section type ".toList ++ Listing.funcType t)
  | 2 => m.imps.map (fun i => "section import ".toList ++ Listing.importText i)
  | 3 => m.func.map (fun f => "section func ".toList ++ num f.type)
  | 4 => m.tabl.map (fun t => "section table ".toList ++ Listing.tableType t)
  | 5 => m.mems.map (fun l => "section memory ".toList ++ Listing.limits l)
  | 6 => m.glob.map (fun g => "section global ".toList ++ Listing.globalType g.type)
  | 7 => m.exps.map (fun e => "section export ".toList ++ Listing.exportText e)
  | 8 => m.star.toList.map (fun f => "section start ".toList ++ num f)
  | 9 => m.elem.map (fun e => "section elem ".toList ++ num e.tidx)
  | 10 => m.func.flatMap Listing.codeLines
  | 11 => m.data.map (fun _ => "section data 0".toList)
  | _ => []

theorem sectionLines_all (m : ModuleDesc) : sectionOrder.flatMap (sectionLines m) = Listing.module m := by
  simp [sectionOrder, sectionLines, Listing.module]

theorem sectionLines_omit {m : ModuleDesc} {id : Nat} (h : Omissible m id) : sectionLines m id = [] := by
  unfold Omissible at h
  split at h <;> simp_all [sectionLines]

/-- the numbers -/
theorem moduleNums_mem {m : ModuleDesc} (h : ∀ n ∈ Listing.moduleNums m, n < long) :
    (∀ i ∈ m.imps, ∀ n ∈ Listing.importNums i, n < long) ∧ (∀ f ∈ m.func, f.type < long) ∧
    (∀ t ∈ m.tabl, ∀ n ∈ Listing.limitNums t.limits, n < long) ∧ (∀ l ∈ m.mems, ∀ n ∈ Listing.limitNums l, n < long) ∧
    (∀ e ∈ m.exps, e.desc < long) ∧ (∀ f, m.star = some f → f < long) ∧ (∀ e ∈ m.elem, e.tidx < long) ∧
    (∀ f ∈ m.func, ∀ l ∈ f.locals, l.1 < long) ∧ m.data.length < long := by
  unfold Listing.moduleNums at h
  simp only [List.mem_append, List.mem_flatMap, List.mem_map, List.mem_singleton, Option.mem_toList] at h
  refine ⟨fun i hi n hn => h n ?_, fun f hf => h _ ?_, fun t ht n hn => h n ?_, fun t ht n hn => h n ?_, fun e he => h _ ?_,
    fun f hf => h _ ?_, fun e he => h _ ?_, fun f hf l hl => h _ ?_, h _ ?_⟩
  · exact .inl (.inl (.inl (.inl (.inl (.inl (.inl (.inl ⟨i, hi, hn⟩)))))))
  · exact .inl (.inl (.inl (.inl (.inl (.inl (.inl (.inr ⟨f, hf, rfl⟩)))))))
  · exact .inl (.inl (.inl (.inl (.inl (.inl (.inr ⟨t, ht, hn⟩))))))
  · exact .inl (.inl (.inl (.inl (.inl (.inr ⟨t, ht, hn⟩)))))
  · exact .inl (.inl (.inl (.inl (.inr ⟨e, he, rfl⟩))))
  · exact .inl (.inl (.inl (.inr hf)))
  · exact .inl (.inl (.inr ⟨e, he, rfl⟩))
  · exact .inl (.inr ⟨f, hf, ⟨l, hl, rfl⟩⟩)
  · exact .inr rfl

theorem lreads_section (hlv : 0 < lvl) {m : ModuleDesc} {lim id : Nat} {ids : List Nat} {c : Bytes} (h : id :: ids <:+ sectionOrder)
    (hn : ∀ e ∈ exprs m, nestL e < lim) (hs : ∀ n ∈ Listing.moduleNums m, n < long) (hl : c.length ≤ 2 ^ 32) (hc : Content m id c) :
    LReads (Logged.sectionBody lvl lim (UInt8.ofNat id) (secStage m (id :: ids))) c (secStage m ids)
      (if id = 12 then ["section data count ".toList ++ num m.data.length] else sectionLines m id) := by
  obtain ⟨n1, n2, n3, n4, n5⟩ := mem_exprs hn
  obtain ⟨s1, s2, s3, s4, s5, s6, s7, s8, s9⟩ := moduleNums_mem hs
  rcases suffix_cases h with ⟨rfl, rfl⟩ | ⟨rfl, rfl⟩ | ⟨rfl, rfl⟩ | ⟨rfl, rfl⟩ | ⟨rfl, rfl⟩ | ⟨rfl, rfl⟩ | ⟨rfl, rfl⟩ |
    ⟨rfl, rfl⟩ | ⟨rfl, rfl⟩ | ⟨rfl, rfl⟩ | ⟨rfl, rfl⟩ | ⟨rfl, rfl⟩
  · have := LReads.vecB (k := "section type") (p := fun x : FuncType => .ok x.repr) (g := Listing.funcType) (φ := id) hlv hc
      (fun _ _ hx hb h => reads_functype h) fun x _ => by rw [funcType_text]
    rw [List.map_id] at this
    exact this.post fun l => { secStage m [1, 2, 3, 4, 5, 6, 7, 8, 9, 12, 10, 11] with type := [] ++ l }
  · have := LReads.vecB (k := "section import") (p := Import.repr) (g := Listing.importText) (φ := id) hlv hc
      (fun _ _ hx hb h => reads_import h) fun x hx => import_text (s1 x hx)
    rw [List.map_id] at this
    exact this.post fun l => { secStage m [2, 3, 4, 5, 6, 7, 8, 9, 12, 10, 11] with imps := [] ++ l }
  · have := LReads.vecB (k := "section func") (p := fun x : FuncDesc => Py.reprInt x.type) (g := fun f => num f.type) (φ := blank) hlv hc
      (fun _ _ hx hb h => reads_funcidx h) fun x hx => nat_text (s2 x hx)
    exact this.post fun l => { secStage m [3, 4, 5, 6, 7, 8, 9, 12, 10, 11] with func := [] ++ l }
  · have := LReads.vecB (k := "section table") (p := TableType.repr) (g := Listing.tableType) (φ := id) hlv hc
      (fun _ _ hx hb h => reads_tabletype h) fun x hx => table_text (s3 x hx)
    rw [List.map_id] at this
    exact this.post fun l => { secStage m [4, 5, 6, 7, 8, 9, 12, 10, 11] with tabl := [] ++ l }
  · have := LReads.vecB (k := "section memory") (p := Limits.repr) (g := Listing.limits) (φ := id) hlv hc
      (fun _ _ hx hb h => reads_limits h) fun x hx => limits_text (s4 x hx)
    rw [List.map_id] at this
    exact this.post fun l => { secStage m [5, 6, 7, 8, 9, 12, 10, 11] with mems := [] ++ l }
  · have := LReads.vecB (k := "section global") (p := fun x : GlobalDesc => .ok x.type.repr) (g := fun g => Listing.globalType g.type) (φ := id) hlv hc
      (fun _ _ hx hb h => reads_global h (n1 _ hx) (by omega)) fun x _ => by rw [global_text]
    rw [List.map_id] at this
    exact this.post fun l => { secStage m [6, 7, 8, 9, 12, 10, 11] with glob := [] ++ l }
  · have := LReads.vecB (k := "section export") (p := ExportDesc.repr) (g := Listing.exportText) (φ := id) hlv hc
      (fun _ _ hx hb h => reads_export h) fun x hx => export_text (s5 x hx)
    rw [List.map_id] at this
    exact this.post fun l => { secStage m [7, 8, 9, 12, 10, 11] with exps := [] ++ l }
  · obtain ⟨f, hf, hu⟩ := hc
    have e : secStage m [9, 12, 10, 11] = { secStage m [8, 9, 12, 10, 11] with star := some f } := by
      simp [secStage, hf]
    have e2 : (if 8 = 12 then ["section data count ".toList ++ num m.data.length] else sectionLines m 8) =
        [] ++ (["section start".toList ++ ' ' :: num f] ++ []) := by
      simp [sectionLines, hf]
    rw [e, e2]
    exact .bind0 (.quiet (.uleb hu)) (.bind1 (.say (LReads.line hlv (nat_text (s6 f hf)))) (.pure _))
  · have := LReads.vecB (k := "section elem") (p := fun x : ElemDesc => Py.reprInt x.tidx) (g := fun e => num e.tidx) (φ := id) hlv hc
      (fun _ _ hx hb h => reads_elem h (n2 _ hx) (n3 _ hx) (by omega)) fun x hx => nat_text (s7 x hx)
    rw [List.map_id] at this
    exact this.post fun l => { secStage m [9, 12, 10, 11] with elem := [] ++ l }
  · have e2 : (if 12 = 12 then ["section data count ".toList ++ num m.data.length] else sectionLines m 12) =
        [] ++ (["section data count".toList ++ ' ' :: num m.data.length] ++ []) := by simp
    rw [e2]
    exact .bind0 (.quiet (.uleb hc)) (.bind1 (.say (LReads.line hlv (nat_text s9))) (.pure _))
  · obtain ⟨len, bs, h1, h2, rfl⟩ := hc
    simp only [List.length_append] at hl
    have e2 : (if 10 = 12 then ["section data count ".toList ++ num m.data.length] else sectionLines m 10) =
        [] ++ (m.func.flatMap Listing.codeLines) := by simp [sectionLines]
    rw [e2]
    have := (lreads_codeEntries hlv h2 n5 (by omega) s8 []).post fun f => { secStage m [10, 11] with func := f }
    exact .bind (.quiet (.uleb h1)) this
  · have := LReads.vecB (k := "section data") (p := fun _ : DataDesc => Py.reprInt 0) (g := fun _ => num 0) (φ := id) hlv hc
      (fun _ _ hx hb h => reads_data h (n4 _ hx) (by omega)) fun x hx => nat_text long_pos
    rw [List.map_id] at this
    exact this.post fun l => { secStage m [11] with data := [] ++ l }

/-! ## Modules -/

theorem kept_cons {k r : Str} (h : Listing.extra (k ++ r) = false) : ([k ++ r].filter fun x => !Listing.extra x) = [k ++ r] := by
  simp [h]

theorem kept_map {α} {l : List α} {g : α → Str} (h : ∀ a, Listing.extra (g a) = false) :
    ((l.map g).filter fun x => !Listing.extra x) = l.map g := by
  rw [List.filter_eq_self]
  intro x hx
  obtain ⟨a, _, rfl⟩ := List.mem_map.mp hx
  rw [h a]; rfl

mutual
theorem kept_inst (d : Nat) (i : Inst) : ∀ x ∈ Listing.instLines (d + 1) i, Listing.extra x = false := by
  have h1 : ∀ s : Str, Listing.extra (List.replicate (4 * (d + 1)) ' ' ++ s) = false := fun s => rfl
  cases i with
  | block bt b =>
    rw [Listing.instLines]
    intro x hx
    rcases List.mem_cons.mp hx with rfl | hx
    exacts [h1 _, kept_expr (d + 1) b x hx]
  | loop bt b =>
    rw [Listing.instLines]
    intro x hx
    rcases List.mem_cons.mp hx with rfl | hx
    exacts [h1 _, kept_expr (d + 1) b x hx]
  | ifThen bt a b =>
    rw [Listing.instLines]
    intro x hx
    rcases List.mem_cons.mp hx with rfl | hx
    exacts [h1 _, kept_expr (d + 1) a x hx]
  | _ =>
    rw [Listing.instLines] <;> first
      | (intro x hx; rw [List.mem_singleton] at hx; subst hx; exact h1 _)
      | (intros; exact Inst.noConfusion ‹_›)
theorem kept_expr (d : Nat) (e : List Inst) : ∀ x ∈ Listing.exprLines (d + 1) e, Listing.extra x = false := by
  cases e with
  | nil => rw [Listing.exprLines]; nofun
  | cons i is =>
    rw [Listing.exprLines]
    intro x hx
    rcases List.mem_append.mp hx with hx | hx
    exacts [kept_inst d i x hx, kept_expr d is x hx]
end

theorem kept_section (m : ModuleDesc) (id : Nat) : ((sectionLines m id).filter fun x => !Listing.extra x) = sectionLines m id := by
  unfold sectionLines
  split
  · exact kept_map fun _ => rfl
  · exact kept_map fun _ => rfl
  · exact kept_map fun _ => rfl
  · exact kept_map fun _ => rfl
  · exact kept_map fun _ => rfl
  · exact kept_map fun _ => rfl
  · exact kept_map fun _ => rfl
  · exact kept_map fun _ => rfl
  · exact kept_map fun _ => rfl
  · rw [List.filter_eq_self]
    intro x hx
    obtain ⟨f, _, hx⟩ := List.mem_flatMap.mp hx
    have : Listing.extra x = false := by
      rcases List.mem_cons.mp hx with rfl | hx
      · rfl
      · exact kept_expr 0 _ x hx
    rw [this]; rfl
  · exact kept_map fun _ => rfl
  · rfl

theorem log_bind_run {α β} {x : LReader α} {f : α → LReader β} {s s' : Bytes} {a : α} {l : List Str} (h : x s = (l, .ok (a, s'))) :
    (x >>= f) s = (l ++ (f a s').1, (f a s').2) := by
  show Log.bind (x s) (fun p => f p.1 p.2) = _
  rw [h]; rfl

theorem lsections_cons {lim k : Nat} {m m' : ModuleDesc} {id : UInt8} {c x : Bytes} {l : List Str} (h : Section id c x)
    (hr : ∃ r, (Logged.sectionBody lvl lim id m) c = (l, .ok (m', r))) (rest : Bytes) :
    Logged.sections lvl lim (k + 1) m (x ++ rest) =
      (l ++ (Logged.sections lvl lim k m' rest).1, (Logged.sections lvl lim k m' rest).2) := by
  obtain ⟨size, hs, -, rfl⟩ := h
  obtain ⟨r, hr⟩ := hr
  rw [List.append_assoc, List.append_assoc]
  show (LReader.quiet uleb >>= _) (size ++ (c ++ rest)) = _
  rw [log_bind_run (LReads.quiet (Reads.uleb hs) _), log_bind_run (LReads.quiet (Reads.read rfl) _),
    log_bind_run (s := rest) (s' := rest) (a := ()) (l := []) (LReads.quiet (Reads.check (by simp)) rest),
    log_bind_run (s := rest) (a := (m', r)) (s' := rest) (l := l) (by
      rw [hr]
      exact LReads.say rfl rest)]
  rfl

theorem lreads_sections (hlv : 0 < lvl) {m : ModuleDesc} {lim : Nat} (hn : ∀ e ∈ exprs m, nestL e < lim)
    (hnum : ∀ n ∈ Listing.moduleNums m, n < long) {ids : List Nat} {n : Nat} {b : Bytes} (h : EncSections m ids n b)
    (hs : ids <:+ sectionOrder) (k : Nat) (hk : n ≤ k) :
    ∃ l, Logged.sections lvl lim k (secStage m ids) b = (l, .ok (m, [])) ∧
      (l.filter fun x => !Listing.extra x) = ids.flatMap (sectionLines m) := by
  induction h generalizing k with
  | nil => cases k <;> exact ⟨[], rfl, rfl⟩
  | @custom ids n c x b hc hx _ ih =>
    obtain ⟨k, rfl⟩ : ∃ j, k = j + 1 := ⟨k - 1, by omega⟩
    obtain ⟨l, h1, h2⟩ := ih hs k (by omega)
    obtain ⟨na, y, d, hy, rfl⟩ := hc
    have hc : customFromReader (y ++ d) = .ok ((na, d), []) := by
      unfold customFromReader
      rw [bind_run (reads_name hy _)]; rfl
    have hb : Logged.sectionBody lvl lim 0 (secStage m ids) (y ++ d) =
        (["section custom".toList ++ ' ' :: na.toList], .ok (secStage m ids, [])) := by
      have h1 : LReads (LReader.say (logLine lvl "section custom" (.ok na.toList)) >>= fun _ => Pure.pure (secStage m ids)) [] (secStage m ids)
          (["section custom".toList ++ ' ' :: na.toList] ++ []) := (LReads.say (LReads.line hlv rfl)).bind1 (.pure _)
      have h1 := h1 []
      have h2 : LReader.quiet customFromReader (y ++ d) = ([], .ok ((na, d), [])) := by unfold LReader.quiet; rw [hc]
      have h3 := log_bind_run (f := fun c : String × Bytes => do
        LReader.say (logLine lvl "section custom" (.ok c.1.toList)); return (secStage m ids)) h2
      rw [show ([] : Bytes) ++ [] = [] from rfl] at h1
      simp only [h1] at h3
      exact h3
    refine ⟨["section custom".toList ++ ' ' :: na.toList] ++ l, ?_, ?_⟩
    · rw [lsections_cons hx ⟨[], hb⟩, h1]
    · rw [List.filter_append, h2]
      have : Listing.extra ("section custom".toList ++ ' ' :: na.toList) = true := by
        have e : "section custom".toList ++ ' ' :: na.toList = "section custom ".toList ++ na.toList := rfl
        rw [e]; unfold Listing.extra; simp
      rw [List.filter_cons_of_neg (by rw [this]; decide)]
      rfl
  | @skip id ids n b ho _ ih =>
    rw [secStage_omit hs ho, List.flatMap_cons, sectionLines_omit ho]
    exact ih ((List.suffix_cons _ _).trans hs) k hk
  | @sect id ids n c x b hc hx _ ih =>
    obtain ⟨k, rfl⟩ : ∃ j, k = j + 1 := ⟨k - 1, by omega⟩
    obtain ⟨l, h1, h2⟩ := ih ((List.suffix_cons _ _).trans hs) k (by omega)
    have hx' := hx
    obtain ⟨-, -, hlt, -⟩ := hx'
    have hr := lreads_section hlv hs hn hnum (by omega) hc []
    rw [List.append_nil] at hr
    refine ⟨_, by rw [lsections_cons hx ⟨_, hr⟩, h1], ?_⟩
    rw [List.filter_append, h2, List.flatMap_cons]
    congr 1
    split
    · rename_i h12
      subst h12
      have : Listing.extra ("section data count ".toList ++ num m.data.length) = true := by
        unfold Listing.extra; simp
      rw [List.filter_cons_of_neg (by rw [this]; decide)]
      rfl
    · exact kept_section m id

theorem lreads_module (hlv : 0 < lvl) {m : ModuleDesc} {lim n : Nat} {file : Bytes} (h : EncModule m n file) (hk : n ≤ 32)
    (hn : ∀ e ∈ exprs m, nestL e < lim) (hnum : ∀ n ∈ Listing.moduleNums m, n < long) :
    ∃ l, Logged.fromReader lvl lim file = (l, .ok (m, [])) ∧ (l.filter fun x => !Listing.extra x) = Listing.module m := by
  obtain ⟨x, hx, rfl⟩ := h
  obtain ⟨l, h1, h2⟩ := lreads_sections hlv hn hnum hx (List.suffix_refl _) 32 hk
  rw [sectionLines_all] at h2
  refine ⟨l, ?_, h2⟩
  rw [secStage_all] at h1
  rw [List.append_assoc]
  unfold Logged.fromReader
  rw [log_bind_run (LReads.quiet (Reads.read (b := [0x00, 0x61, 0x73, 0x6D]) (n := 4) rfl) _)]
  rw [log_bind_run (s := [0x01, 0x00, 0x00, 0x00] ++ x) (s' := [0x01, 0x00, 0x00, 0x00] ++ x) (l := []) (a := ())
    (LReads.quiet (Reads.check (by decide)) _)]
  rw [log_bind_run (LReads.quiet (Reads.read (b := [0x01, 0x00, 0x00, 0x00]) (n := 4) rfl) _)]
  rw [log_bind_run (s := x) (s' := x) (l := []) (a := ()) (LReads.quiet (Reads.check (by decide)) _), h1]
  rfl

end
end Pywasm
