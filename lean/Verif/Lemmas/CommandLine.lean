import Verif.Props.Cli
import Verif.Spec.CommandLine

/-!
# Reading the arguments of the command line

The classification of words (`classify`) and the scan, against the items of `Verif/Spec/CommandLine.lean`.
-/

namespace Pywasm.Cli
open Spec.CommandLine Props

/-! ## Negative numbers -/

/-- `negative` after the dash and without the newline. -/
def negBody (l : Str) : Bool :=
  match l.dropWhile Char.isDigit with
  | [] => l ≠ []
  | '.' :: r => r ≠ [] && r.all Char.isDigit
  | _ => false

theorem negative_eq (l : Str) : negative ('-' :: l) = negBody (if l.getLast? = some '\n' then l.dropLast else l) := by
  unfold negative negBody
  rfl

theorem dropWhile_all {p : Char → Bool} {a b : Str} (ha : ∀ c ∈ a, p c = true) : (a ++ b).dropWhile p = b.dropWhile p := by
  induction a with
  | nil => rfl
  | cons x a ih => rw [List.cons_append, List.dropWhile_cons_of_pos (ha x (by simp)), ih fun c hc => ha c (by simp [hc])]

theorem negBody_iff (l : Str) : negBody l = true ↔ NegNum ('-' :: l) := by
  have hs := List.takeWhile_append_dropWhile (p := Char.isDigit) (l := l)
  have ht : ∀ c ∈ l.takeWhile Char.isDigit, c.isDigit = true := fun c hc => List.all_eq_true.mp (List.all_takeWhile (p := Char.isDigit) (l := l)) c hc
  constructor
  · intro h
    unfold negBody at h
    split at h
    · rename_i hd
      rw [hd, List.append_nil] at hs
      rw [hs] at ht
      exact .inl ⟨l, rfl, by simpa using h, ht⟩
    · rename_i r hd
      rw [hd] at hs
      rw [Bool.and_eq_true] at h
      refine .inr ⟨l.takeWhile Char.isDigit, r, by rw [List.cons_append, hs], by simpa using h.1, ht, by simpa using h.2⟩
    · cases h
  · rintro (⟨a, h, h1, h2⟩ | ⟨a, b, h, h1, h2, h3⟩)
    · injection h with _ h
      subst h
      unfold negBody
      have : l.dropWhile Char.isDigit = [] := by simpa using dropWhile_all (b := []) h2
      rw [this]
      simpa using h1
    · rw [List.cons_append] at h
      injection h with _ h
      subst h
      unfold negBody
      rw [dropWhile_all h2, List.dropWhile_cons_of_neg (by decide)]
      simp only [ne_eq, decide_not, Bool.and_eq_true, Bool.not_eq_eq_eq_not, Bool.not_true, decide_eq_false_iff_not, List.all_eq_true]
      exact ⟨h1, h3⟩

theorem negNum_last {v : Str} (h : NegNum v) : v.getLast? ≠ some '\n' := by
  have key : ∀ {b : Str}, b ≠ [] → (∀ c ∈ b, c.isDigit = true) → b.getLast? ≠ some '\n' := by
    intro b _ hb h
    have := hb _ (List.mem_of_getLast? h)
    revert this
    decide
  rcases h with ⟨a, rfl, h1, h2⟩ | ⟨a, b, rfl, h1, h2, h3⟩
  · obtain ⟨x, a', rfl⟩ := List.exists_cons_of_ne_nil h1
    rw [List.getLast?_cons_cons]
    exact key h1 h2
  · obtain ⟨x, b', rfl⟩ := List.exists_cons_of_ne_nil h1
    rw [List.getLast?_append, List.getLast?_cons_cons]
    intro h
    cases hx : (x :: b').getLast? with
    | none => simp at hx
    | some y =>
      rw [hx] at h
      exact key h1 h3 (hx.trans h)

theorem negative_iff (s : Str) : negative s = true ↔ NegNum s ∨ ∃ u, NegNum u ∧ s = u ++ ['\n'] := by
  match s with
  | [] =>
    constructor
    · intro h; cases h
    · rintro ((⟨a, h, _⟩ | ⟨a, b, h, _⟩) | ⟨u, -, h⟩)
      · cases h
      · cases h
      · exact absurd h.symm (by simp)
  | c :: l =>
    by_cases hc : c = '-'
    · subst hc
      rw [negative_eq]
      split
      · rename_i hl
        rw [negBody_iff]
        have e : l = l.dropLast ++ ['\n'] := by
          have := List.dropLast_append_getLast? _ hl
          exact this.symm
        constructor
        · intro h
          exact .inr ⟨_, h, by rw [List.cons_append, ← e]⟩
        · rintro (h | ⟨u, h, h'⟩)
          · exfalso
            refine negNum_last h ?_
            rw [e]
            rw [← List.cons_append, List.getLast?_append]
            rfl
          · have : u = '-' :: l.dropLast := by
              rw [e, ← List.cons_append] at h'
              exact (List.append_inj_left' h' rfl).symm
            rwa [this] at h
      · rename_i hl
        rw [negBody_iff]
        constructor
        · exact .inl
        · rintro (h | ⟨u, h, h'⟩)
          · exact h
          · exfalso
            cases u with
            | nil =>
              rcases h with ⟨a, h, _⟩ | ⟨a, b, h, _⟩
              · cases h
              · cases h
            | cons x u =>
              injection h' with _ h'
              refine hl ?_
              rw [h']
              show (u ++ ['\n']).getLast? = _
              rw [List.getLast?_append]
              rfl
    · constructor
      · intro h
        unfold negative at h
        split at h
        · rename_i heq
          injection heq with h1 _
          exact absurd h1 hc
        · cases h
      · rintro ((⟨a, h, _⟩ | ⟨a, b, h, _⟩) | ⟨u, (⟨a, h, _⟩ | ⟨a, b, h, _⟩), h'⟩)
        · injection h with h _; exact absurd h hc
        · rw [List.cons_append] at h; injection h with h _; exact absurd h hc
        · rw [h, List.cons_append] at h'; injection h' with h _; exact absurd h hc
        · rw [h, List.cons_append, List.cons_append] at h'; injection h' with h _; exact absurd h hc

/-! ## Classification -/

theorem partition_none {s : Str} (h : '=' ∉ s) : Cli.partition s = (s, none) := by
  unfold Cli.partition
  rw [split1_none h]

theorem partition_some {k v : Str} (h : '=' ∉ k) : Cli.partition (k ++ '=' :: v) = (k, some v) := by
  unfold Cli.partition
  rw [split1_some h]

/-- The long names with their options. -/
def longTable : List (Str × Opt) :=
  [("--help".toList, .help), ("--version".toList, .version), ("--func".toList, .func),
   ("--func-args".toList, .funcArgs), ("--wasi-envs".toList, .wasiEnvs), ("--wasi-dirs".toList, .wasiDirs),
   ("--wasi-args".toList, .wasiArgs), ("--wasi".toList, .wasi)]

theorem longTable_names : longTable.map Prod.fst = names := rfl

theorem longTable_eq : ∀ p ∈ longTable, '=' ∉ p.1 := by decide

theorem optTable_eq : ∀ p ∈ optTable, '=' ∉ p.1 := by decide

/-- What a name beginning with two dashes stands for: an option, none, or several. -/
def resolve (w : Str) : Option (Option Opt) :=
  match longTable.lookup w with
  | some o => some (some o)
  | none =>
    match longTable.filter fun p => w.isPrefixOf p.1 with
    | _ :: _ :: _ => none
    | [p] => some (some p.2)
    | [] => some none

theorem lookup_long (t : Str) : optTable.lookup ('-' :: '-' :: t) = longTable.lookup ('-' :: '-' :: t) := by
  have h1 : (('-' :: '-' :: t) == "-h".toList) = false := by rfl
  have h2 : (('-' :: '-' :: t) == "-v".toList) = false := by rfl
  unfold optTable longTable
  simp only [List.lookup_cons, h1, h2]

theorem filter_long (t : Str) : (optTable.filter fun p => ('-' :: '-' :: t).isPrefixOf p.1) =
    longTable.filter fun p => ('-' :: '-' :: t).isPrefixOf p.1 := by
  unfold optTable longTable
  have h1 : ('-' :: '-' :: t).isPrefixOf "-h".toList = false := rfl
  have h2 : ('-' :: '-' :: t).isPrefixOf "-v".toList = false := rfl
  rw [List.filter_cons_of_neg (by simp)]
  rw [List.filter_cons, List.filter_cons, List.filter_cons_of_neg (a := ("-v".toList, Opt.version)) (by simp)]
  symm
  rw [List.filter_cons, List.filter_cons]

theorem lookup_mem {l : List (Str × Opt)} {s : Str} {o : Opt} (h : l.lookup s = some o) : (s, o) ∈ l := by
  induction l with
  | nil => cases h
  | cons p l ih =>
    rw [List.lookup_cons] at h
    split at h
    · rename_i hp
      injection h with h
      have : s = p.1 := by simpa using hp
      subst h this
      exact List.mem_cons_self
    · exact List.mem_cons_of_mem _ (ih h)

theorem negative_long (t : Str) : negative ('-' :: '-' :: t) = false := by
  rw [Bool.eq_false_iff]
  intro h
  rw [negative_iff] at h
  have key : ∀ u : Str, NegNum u → ∀ r, '-' :: '-' :: t = u ++ r → False := by
    rintro u (⟨a, rfl, h1, h2⟩ | ⟨a, b, rfl, h1, h2, h3⟩) r h
    · cases a with
      | nil => exact h1 rfl
      | cons x a =>
        injection h with _ h
        injection h with h _
        have := h2 x (by simp)
        rw [← h] at this
        revert this
        decide
    · cases a with
      | nil =>
        injection h with _ h
        injection h with h _
        revert h
        decide
      | cons x a =>
        injection h with _ h
        injection h with h _
        have := h2 x (by simp)
        rw [← h] at this
        revert this
        decide
  rcases h with h | ⟨u, h, h'⟩
  · exact key _ h [] (by simp)
  · exact key _ h _ h'

/-- A word that begins with two dashes. -/
theorem classify_long (t : Str) (e : Option Str) (h : '=' ∉ t) :
    classify (('-' :: '-' :: t) ++ (e.map fun v => '=' :: v).getD []) =
      match resolve ('-' :: '-' :: t) with
      | none => none
      | some (some o) => some (.opt o false (e.map fun v => (true, v)))
      | some none => some (if ' ' ∈ ('-' :: '-' :: t) ++ (e.map fun v => '=' :: v).getD [] then
          .arg (('-' :: '-' :: t) ++ (e.map fun v => '=' :: v).getD []) else .unknown) := by
  have hq : '=' ∉ '-' :: '-' :: t := by simp [h]
  have hp : Cli.partition (('-' :: '-' :: t) ++ (e.map fun v => '=' :: v).getD []) = ('-' :: '-' :: t, e) := by
    cases e with
    | none => simpa using partition_none hq
    | some v => exact partition_some hq
  have hneg : negative (('-' :: '-' :: t) ++ (e.map fun v => '=' :: v).getD []) = false := negative_long _
  have hlook : optTable.lookup (('-' :: '-' :: t) ++ (e.map fun v => '=' :: v).getD []) = if e.isSome then none else longTable.lookup ('-' :: '-' :: t) := by
    cases e with
    | none => simpa using lookup_long t
    | some v =>
      rw [if_pos (show (some v).isSome = true from rfl)]
      cases hl : optTable.lookup (('-' :: '-' :: t) ++ (Option.map (fun v => '=' :: v) (some v)).getD []) with
      | none => rfl
      | some o =>
        exfalso
        refine optTable_eq _ (lookup_mem hl) ?_
        simp
  generalize hs : ('-' :: '-' :: t) ++ (e.map fun v => '=' :: v).getD [] = s at *
  have hs' : s = '-' :: '-' :: (t ++ (e.map fun v => '=' :: v).getD []) := hs.symm
  unfold classify
  rw [hs']
  simp only []
  rw [← hs', hlook, hp]
  unfold resolve
  cases hl : longTable.lookup ('-' :: '-' :: t) with
  | some o =>
    cases e with
    | none => simp
    | some v =>
      simp only [Option.isSome_some, if_true]
      rw [lookup_long, hl]
      simp
  | none =>
    have : (if e.isSome = true then (none : Option Opt) else none) = none := by split <;> rfl
    rw [this]
    simp only []
    have h2 : (if e.isSome = true then List.lookup ('-' :: '-' :: t) optTable else none) = none := by rw [lookup_long, hl]; split <;> rfl
    rw [h2]
    simp only [if_true]
    rw [filter_long, hneg]
    cases longTable.filter fun p => ('-' :: '-' :: t).isPrefixOf p.1 with
    | nil => simp
    | cons p l =>
      cases l with
      | nil => simp
      | cons q l => simp

theorem filter_single {l : List (Str × Opt)} (hn : l.Nodup) {P : Str × Opt → Bool} {p : Str × Opt} :
    l.filter P = [p] ↔ p ∈ l ∧ ∀ q ∈ l, P q = true ↔ q = p := by
  constructor
  · intro h
    have hp : p ∈ l.filter P := by rw [h]; exact List.mem_cons_self
    rw [List.mem_filter] at hp
    refine ⟨hp.1, fun q hq => ⟨fun h' => ?_, fun h' => h' ▸ hp.2⟩⟩
    have : q ∈ l.filter P := List.mem_filter.mpr ⟨hq, h'⟩
    rw [h] at this
    exact List.mem_singleton.mp this
  · rintro ⟨h1, h2⟩
    have hnd : (l.filter P).Nodup := hn.filter _
    have hall : ∀ q ∈ l.filter P, q = p := fun q hq => (h2 q (List.mem_filter.mp hq).1).mp (List.mem_filter.mp hq).2
    have hmem : p ∈ l.filter P := List.mem_filter.mpr ⟨h1, (h2 p h1).mpr rfl⟩
    match hf : l.filter P with
    | [] => rw [hf] at hmem; cases hmem
    | [a] => rw [hall a (by rw [hf]; simp)]
    | a :: b :: r =>
      exfalso
      rw [hf] at hnd
      have e1 := hall a (by rw [hf]; simp)
      have e2 := hall b (by rw [hf]; simp)
      rw [List.nodup_cons] at hnd
      exact hnd.1 (by rw [e1, e2]; simp)

theorem long_nodup : longTable.Nodup := by decide
theorem long_keys : ∀ p ∈ longTable, ∀ q ∈ longTable, p.1 = q.1 → p = q := by decide
theorem lookup_self : ∀ p ∈ longTable, longTable.lookup p.1 = some p.2 := by decide

theorem resolve_some {w : Str} {o : Opt} (hw : "--".toList <+: w) : resolve w = some (some o) ↔ ∃ n, (n, o) ∈ longTable ∧ Names w n := by
  unfold resolve
  constructor
  · intro h
    split at h
    · rename_i o' hl
      injection h with h; injection h with h; subst h
      exact ⟨w, lookup_mem hl, .inl rfl⟩
    · split at h
      · cases h
      · rename_i p hf
        injection h with h; injection h with h; subst h
        rw [filter_single long_nodup] at hf
        refine ⟨p.1, hf.1, .inr ⟨hw, fun m hm => ?_⟩⟩
        rw [← longTable_names, List.mem_map] at hm
        obtain ⟨q, hq, rfl⟩ := hm
        have := hf.2 q hq
        rw [List.isPrefixOf_iff_prefix] at this
        exact this.trans ⟨fun h => by rw [h], fun h => long_keys q hq p hf.1 h⟩
      · injection h with h; cases h
  · rintro ⟨n, hn, hN⟩
    rcases hN with rfl | ⟨-, hN⟩
    · rw [lookup_self _ hn]
    · cases hl : longTable.lookup w with
      | some o' =>
        simp only []
        have hm := lookup_mem hl
        have hm' : w ∈ names := by rw [← longTable_names]; exact List.mem_map.mpr ⟨_, hm, rfl⟩
        have := (hN w hm').mp (List.prefix_refl _)
        subst this
        have := long_keys _ hm _ hn rfl
        injection this with _ h
        rw [h]
      | none =>
        simp only []
        have : (longTable.filter fun p => w.isPrefixOf p.1) = [(n, o)] := by
          rw [filter_single long_nodup]
          refine ⟨hn, fun q hq => ?_⟩
          rw [List.isPrefixOf_iff_prefix, hN q.1 (by rw [← longTable_names]; exact List.mem_map.mpr ⟨_, hq, rfl⟩)]
          exact ⟨fun h => long_keys q hq _ hn h, fun h => by rw [h]⟩
        rw [this]

theorem resolve_nothing {w : Str} : resolve w = some none ↔ ∀ m ∈ names, ¬ w <+: m := by
  unfold resolve
  constructor
  · intro h
    split at h
    · injection h with h; cases h
    · split at h
      · cases h
      · injection h with h; cases h
      · rename_i hf
        intro m hm hp
        rw [← longTable_names, List.mem_map] at hm
        obtain ⟨q, hq, rfl⟩ := hm
        have : q ∈ longTable.filter fun p => w.isPrefixOf p.1 := List.mem_filter.mpr ⟨hq, by rwa [List.isPrefixOf_iff_prefix]⟩
        rw [hf] at this
        cases this
  · intro h
    cases hl : longTable.lookup w with
    | some o' =>
      exfalso
      exact h w (by rw [← longTable_names]; exact List.mem_map.mpr ⟨_, lookup_mem hl, rfl⟩) (List.prefix_refl _)
    | none =>
      simp only []
      have : (longTable.filter fun p => w.isPrefixOf p.1) = [] := by
        rw [List.filter_eq_nil_iff]
        intro q hq
        rw [List.isPrefixOf_iff_prefix]
        exact h _ (by rw [← longTable_names]; exact List.mem_map.mpr ⟨_, hq, rfl⟩)
      rw [this]

theorem second : ∀ p ∈ optTable, ∃ c t, p.1 = '-' :: c :: t ∧ (c = '-' ∨ c = 'h' ∨ c = 'v') := by
  intro p hp
  have : ∀ p ∈ optTable, (p.1.head? = some '-') ∧ (p.1.tail.head? = some '-' ∨ p.1.tail.head? = some 'h' ∨ p.1.tail.head? = some 'v') := by decide
  obtain ⟨h1, h2⟩ := this p hp
  match hp : p.1, h1, h2 with
  | [], h1, _ => cases h1
  | [_], _, h2 => simp at h2
  | a :: b :: t, h1, h2 =>
    injection h1 with h1
    subst h1
    refine ⟨b, t, rfl, ?_⟩
    simpa using h2

/-- A word that begins with one dash and a letter that is no option. -/
theorem classify_plain (c : Char) (t : Str) (h1 : c ≠ '-') (h2 : c ≠ 'h') (h3 : c ≠ 'v') :
    classify ('-' :: c :: t) = some (if negative ('-' :: c :: t) || ' ' ∈ '-' :: c :: t then .arg ('-' :: c :: t) else .unknown) := by
  have key : ∀ u : Str, (∀ d r, u = '-' :: d :: r → d = c) → optTable.lookup u = none := by
    intro u hu
    cases hl : optTable.lookup u with
    | none => rfl
    | some o =>
      exfalso
      obtain ⟨d, r, e, h⟩ := second _ (lookup_mem hl)
      have := hu d r e
      subst this
      rcases h with h | h | h
      · exact h1 h
      · exact h2 h
      · exact h3 h
  unfold classify
  have a1 : optTable.lookup ('-' :: c :: t) = none := key _ fun d r h => by injection h with _ h; injection h with h _; exact h.symm
  have a2 : optTable.lookup (Cli.partition ('-' :: c :: t)).1 = none := by
    apply key
    intro d r h
    by_cases he : '=' ∈ '-' :: c :: t
    · obtain ⟨k, v, hk, hkv⟩ := cut he
      rw [hk, partition_some hkv] at h
      change k = _ at h
      rw [h] at hk
      injection hk with _ hk
      injection hk with hk _
      exact hk.symm
    · rw [partition_none he] at h
      injection h with _ h; injection h with h _; exact h.symm
  have a3 : (optTable.filter fun p => decide (p.1 = ['-', c])) = [] := by
    rw [List.filter_eq_nil_iff]
    intro p hp hpc
    have hpc : p.1 = ['-', c] := by simpa using hpc
    obtain ⟨d, r, e, h⟩ := second p hp
    rw [hpc] at e
    injection e with _ e
    injection e with e _
    subst e
    rcases h with h | h | h
    · exact h1 h
    · exact h2 h
    · exact h3 h
  rw [a1]
  simp only []
  rw [a2]
  have a4 : (if (Cli.partition ('-' :: c :: t)).2.isSome = true then (none : Option Opt) else none) = none := by split <;> rfl
  rw [a4, if_neg h1, a3]
  rfl

/-- A word that begins with `-h` or `-v` is one of the options without a value. -/
theorem classify_flag (c : Char) (t : Str) (h : c = 'h' ∨ c = 'v') : ∃ o e, o.flag.isSome = true ∧ classify ('-' :: c :: t) = some (.opt o true e) := by
  have key : ∀ (r : Str) (o : Opt), optTable.lookup ('-' :: c :: r) = some o → o.flag.isSome = true := by
    intro r o hl
    have := lookup_mem hl
    have hh : ∀ p ∈ optTable, p.1.tail.head? = some 'h' ∨ p.1.tail.head? = some 'v' → p.2.flag.isSome = true := by decide
    exact hh _ this (by rcases h with rfl | rfl; exact .inl rfl; exact .inr rfl)
  have hc : c ≠ '-' := by rcases h with rfl | rfl <;> decide
  unfold classify
  simp only []
  cases hl : optTable.lookup ('-' :: c :: t) with
  | some o =>
    refine ⟨o, none, key _ _ hl, ?_⟩
    simp [hc]
  | none =>
    simp only []
    cases hl2 : (if (Cli.partition ('-' :: c :: t)).2.isSome = true then optTable.lookup (Cli.partition ('-' :: c :: t)).1 else none) with
    | some o =>
      simp only []
      refine ⟨o, (Cli.partition ('-' :: c :: t)).2.map fun x => (true, x), ?_, by simp [hc]⟩
      split at hl2
      · rename_i hp
        by_cases he : '=' ∈ '-' :: c :: t
        · obtain ⟨k, v, hk, hkv⟩ := cut he
          rw [hk, partition_some hkv] at hl2
          obtain ⟨d, r, e, -⟩ := second _ (lookup_mem hl2)
          change k = _ at e
          rw [e] at hk hl2
          injection hk with _ hk
          injection hk with hk _
          subst hk
          exact key _ _ hl2
        · rw [partition_none he] at hp
          cases hp
      · cases hl2
    | none =>
      simp only []
      rw [if_neg hc]
      rcases h with rfl | rfl
      · exact ⟨.help, some (false, t), rfl, rfl⟩
      · exact ⟨.version, some (false, t), rfl, rfl⟩

/-! ## Words and options -/

theorem long_split (r : Str) : ∃ t e, '=' ∉ t ∧ '-' :: '-' :: r = ('-' :: '-' :: t) ++ ((e : Option Str).map fun v => '=' :: v).getD [] := by
  by_cases h : '=' ∈ r
  · obtain ⟨k, v, hk, hkv⟩ := cut h
    exact ⟨k, some v, hkv, by rw [hk]; rfl⟩
  · exact ⟨r, none, h, by simp⟩

theorem prefix_long (t : Str) : "--".toList <+: '-' :: '-' :: t := ⟨t, rfl⟩

theorem prefix_names {w m : Str} (hm : m ∈ names) (h : w <+: m) : '=' ∉ w := by
  intro he
  have : ∀ m ∈ names, '=' ∉ m := by decide
  exact this m hm (h.subset he)

theorem known_long {t : Str} {e : Option Str} (ht : '=' ∉ t) :
    Known (('-' :: '-' :: t) ++ (e.map fun v => '=' :: v).getD []) ↔ ∃ m ∈ names, '-' :: '-' :: t <+: m := by
  constructor
  · rintro (⟨r, h⟩ | ⟨r, h⟩ | ⟨s, h1, h2, m, hm, h3⟩)
    · injection h with _ h; injection h with h _; exact absurd h (by decide)
    · injection h with _ h; injection h with h _; exact absurd h (by decide)
    · refine ⟨m, hm, ?_⟩
      have hs := prefix_names hm h3
      rcases h2 with h2 | ⟨r, h2⟩
      · cases e with
        | none => rw [h2] at h3; simpa using h3
        | some v => exfalso; apply hs; rw [h2]; simp
      · cases e with
        | none =>
          exfalso
          have : '=' ∈ s ++ '=' :: r := by simp
          rw [← h2] at this
          simp [ht] at this
        | some v =>
          have hk : '=' ∉ '-' :: '-' :: t := by simp [ht]
          change ('-' :: '-' :: t) ++ '=' :: v = _ at h2
          have : s = '-' :: '-' :: t := cut_unique hk hs (v := v) ⟨r, by rw [h2]; simp⟩
          rwa [this] at h3
  · rintro ⟨m, hm, h⟩
    refine .inr (.inr ⟨'-' :: '-' :: t, prefix_long t, ?_, m, hm, h⟩)
    cases e with
    | none => exact .inl (by simp)
    | some v => exact .inr ⟨v, rfl⟩

theorem known_plain {c : Char} {t : Str} (hc : c ≠ '-') : Known ('-' :: c :: t) ↔ c = 'h' ∨ c = 'v' := by
  constructor
  · rintro (⟨r, h⟩ | ⟨r, h⟩ | ⟨s, h1, h2, -⟩)
    · injection h with _ h; injection h with h _; exact .inl h.symm
    · injection h with _ h; injection h with h _; exact .inr h.symm
    · exfalso
      obtain ⟨r, h1⟩ := h1
      rcases h2 with h2 | ⟨r', h2⟩
      · rw [h2] at h1; injection h1 with _ h; injection h with h _; exact hc h.symm
      · rw [← h1] at h2; injection h2 with _ h; injection h with h _; exact hc h
  · rintro (rfl | rfl)
    · exact .inl ⟨t, rfl⟩
    · exact .inr (.inl ⟨t, rfl⟩)

theorem word_dash {s : Str} {r : Str} (hs : s = '-' :: r) (hr : r ≠ []) : Word s ↔ ¬ Known s ∧ (negative s = true ∨ ' ' ∈ s) := by
  unfold Word
  rw [negative_iff]
  constructor
  · rintro (h | h | ⟨h, h'⟩)
    · rw [hs] at h; exact absurd rfl h
    · rw [hs] at h; injection h with _ h; exact absurd h hr
    · exact ⟨h, by rwa [or_assoc]⟩
  · rintro ⟨h, h'⟩
    exact .inr (.inr ⟨h, by rwa [or_assoc] at h'⟩)

theorem classify_arg (s s' : Str) : classify s = some (.arg s') ↔ s' = s ∧ Word s := by
  match s with
  | [] => exact ⟨fun h => by injection h with h; injection h with h; exact ⟨h.symm, .inl nofun⟩, fun h => by rw [h.1]; rfl⟩
  | c :: r =>
    by_cases hc : c = '-'
    · subst hc
      match r with
      | [] => exact ⟨fun h => by injection h with h; injection h with h; exact ⟨h.symm, .inr (.inl rfl)⟩, fun h => by rw [h.1]; rfl⟩
      | c :: t =>
        rw [word_dash rfl (by simp)]
        by_cases hd : c = '-'
        · subst hd
          obtain ⟨t', e, ht, hs⟩ := long_split t
          rw [hs, known_long ht, classify_long t' e ht]
          have hneg : negative (('-' :: '-' :: t') ++ (e.map fun v => '=' :: v).getD []) = false := negative_long _
          rw [hneg]
          generalize ('-' :: '-' :: t') ++ (e.map fun v => '=' :: v).getD [] = s
          constructor
          · intro h
            split at h
            · cases h
            · injection h with h; cases h
            · rename_i hr
              rw [resolve_nothing] at hr
              injection h with h
              split at h
              · rename_i hsp
                injection h with h
                exact ⟨h.symm, fun ⟨m, hm, h⟩ => hr m hm h, .inr hsp⟩
              · cases h
          · rintro ⟨rfl, h1, h2 | h2⟩
            · cases h2
            · have : resolve ('-' :: '-' :: t') = some none := resolve_nothing.mpr fun m hm h => h1 ⟨m, hm, h⟩
              rw [this]
              simp only []
              rw [if_pos h2]
        · rw [known_plain hd]
          by_cases hf : c = 'h' ∨ c = 'v'
          · obtain ⟨o, e, -, h⟩ := classify_flag c t hf
            rw [h]
            exact ⟨fun h => (by injection h with h; cases h), fun h => absurd hf h.2.1⟩
          · rw [classify_plain c t hd (fun h => hf (.inl h)) (fun h => hf (.inr h))]
            constructor
            · intro h
              injection h with h
              split at h
              · rename_i hx
                injection h with h
                exact ⟨h.symm, hf, by simpa using hx⟩
              · cases h
            · rintro ⟨rfl, -, h⟩
              rw [if_pos (by simpa using h)]
    · have hcl : classify (c :: r) = some (.arg (c :: r)) := by
        unfold classify
        split
        · rename_i heq
          injection heq with h _
          exact absurd h hc
        · rfl
      rw [hcl]
      refine ⟨fun h => ?_, fun h => by rw [h.1]⟩
      injection h with h
      injection h with h
      refine ⟨h.symm, .inl ?_⟩
      simpa using hc

theorem names_long {w n : Str} {o : Opt} (hn : (n, o) ∈ longTable) (h : Names w n) : ∃ t, w = '-' :: '-' :: t ∧ '=' ∉ t := by
  have hm : n ∈ names := by rw [← longTable_names]; exact List.mem_map.mpr ⟨_, hn, rfl⟩
  have hp : w <+: n := by
    rcases h with rfl | ⟨-, h⟩
    · exact List.prefix_refl _
    · exact (h n hm).mpr rfl
  have he := prefix_names hm hp
  have hd : "--".toList <+: w := by
    rcases h with rfl | ⟨h, -⟩
    · have : ∀ m ∈ names, "--".toList.isPrefixOf m = true := by decide
      exact List.isPrefixOf_iff_prefix.mp (this w hm)
    · exact h
  obtain ⟨t, rfl⟩ := hd
  exact ⟨t, rfl, fun h => he (by simp [h])⟩

theorem classify_opt {s : Str} {o : Opt} (ho : o.flag = none) (b : Bool) (e : Option (Bool × Str)) :
    classify s = some (.opt o b e) ↔ b = false ∧ ∃ w n, (n, o) ∈ longTable ∧ Names w n ∧
      ((e = none ∧ s = w) ∨ ∃ v, e = some (true, v) ∧ s = w ++ '=' :: v) := by
  constructor
  · intro h
    match s with
    | [] => injection h with h; cases h
    | c :: r =>
      by_cases hc : c = '-'
      · subst hc
        match r with
        | [] => injection h with h; cases h
        | c :: t =>
          by_cases hd : c = '-'
          · subst hd
            obtain ⟨t', e', ht, hs⟩ := long_split t
            rw [hs, classify_long t' e' ht] at h
            split at h
            · cases h
            · rename_i o' hr
              injection h with h
              injection h with h1 h2 h3
              subst h1 h2 h3
              refine ⟨rfl, '-' :: '-' :: t', ?_⟩
              obtain ⟨n, hn, hN⟩ := (resolve_some (prefix_long t')).mp hr
              refine ⟨n, hn, hN, ?_⟩
              rw [hs]
              cases e' with
              | none => exact .inl ⟨rfl, by simp⟩
              | some v => exact .inr ⟨v, rfl, rfl⟩
            · injection h with h
              split at h <;> cases h
          · by_cases hf : c = 'h' ∨ c = 'v'
            · obtain ⟨o', e', h1, h2⟩ := classify_flag c t hf
              rw [h2] at h
              injection h with h
              injection h with h _ _
              rw [h, ho] at h1
              cases h1
            · rw [classify_plain c t hd (fun h => hf (.inl h)) (fun h => hf (.inr h))] at h
              injection h with h
              split at h <;> cases h
      · unfold classify at h
        split at h
        · rename_i heq
          injection heq with h _
          exact absurd h hc
        · injection h with h; cases h
  · rintro ⟨rfl, w, n, hn, hN, h⟩
    obtain ⟨t, rfl, ht⟩ := names_long hn hN
    have hr := (resolve_some (o := o) (prefix_long t)).mpr ⟨n, hn, hN⟩
    rcases h with ⟨rfl, rfl⟩ | ⟨v, rfl, rfl⟩
    · have := classify_long t none ht
      rw [hr] at this
      simpa using this
    · have := classify_long t (some v) ht
      rw [hr] at this
      exact this

theorem classify_dash (s : Str) : classify s ≠ some .dash := by
  intro h
  match s with
  | [] => injection h with h; cases h
  | c :: r =>
    by_cases hc : c = '-'
    · subst hc
      match r with
      | [] => injection h with h; cases h
      | c :: t =>
        by_cases hd : c = '-'
        · subst hd
          obtain ⟨t', e', ht, hs⟩ := long_split t
          rw [hs, classify_long t' e' ht] at h
          split at h
          · cases h
          · injection h with h; cases h
          · injection h with h
            split at h <;> cases h
        · by_cases hf : c = 'h' ∨ c = 'v'
          · obtain ⟨o', e', h1, h2⟩ := classify_flag c t hf
            rw [h2] at h
            injection h with h
            cases h
          · rw [classify_plain c t hd (fun h => hf (.inl h)) (fun h => hf (.inr h))] at h
            injection h with h
            split at h <;> cases h
    · unfold classify at h
      split at h
      · rename_i heq
        injection heq with h _
        exact absurd h hc
      · injection h with h; cases h

/-- `--` is no word and no option. -/
theorem classify_dashes : classify "--".toList = none := by decide

/-! ## The scan -/

/-- What an item does to the namespace. -/
def Item.apply (n : Namespace) : Item → Namespace
  | .file f => { n with file := some f }
  | .func v => { n with func := v }
  | .funcArg v => { n with funcArgs := n.funcArgs ++ [v] }
  | .env v => { n with wasiEnvs := n.wasiEnvs ++ [v] }
  | .dir v => { n with wasiDirs := n.wasiDirs ++ [v] }
  | .arg v => { n with wasiArgs := n.wasiArgs ++ [v] }
  | .wasi => { n with wasi := true }

theorem take_item {n n' : Namespace} {o : Opt} {nm v : Str} (hn : (nm, o) ∈ longTable) (h : n.take o v = some n') :
    ∃ it : Item, it.option = some (nm, v) ∧ n' = Item.apply n it ∧ Item.asFile it = none := by
  have : ∀ p ∈ longTable, p.2.flag = none → p.1 = match p.2 with
    | .func => "--func".toList | .funcArgs => "--func-args".toList | .wasiEnvs => "--wasi-envs".toList | .wasiDirs => "--wasi-dirs".toList
    | .wasiArgs => "--wasi-args".toList | .wasi => "--wasi".toList | _ => [] := by decide
  have hp := this _ hn
  cases o with
  | help => cases h
  | version => cases h
  | func => injection h with h; exact ⟨.func v, by rw [show nm = _ from hp rfl]; rfl, h.symm, rfl⟩
  | funcArgs => injection h with h; exact ⟨.funcArg v, by rw [show nm = _ from hp rfl]; rfl, h.symm, rfl⟩
  | wasiEnvs => injection h with h; exact ⟨.env v, by rw [show nm = _ from hp rfl]; rfl, h.symm, rfl⟩
  | wasiDirs => injection h with h; exact ⟨.dir v, by rw [show nm = _ from hp rfl]; rfl, h.symm, rfl⟩
  | wasiArgs => injection h with h; exact ⟨.arg v, by rw [show nm = _ from hp rfl]; rfl, h.symm, rfl⟩
  | wasi =>
    unfold Namespace.take at h
    simp only [] at h
    split at h
    · rename_i hv
      injection h with h
      exact ⟨.wasi, by rw [show nm = _ from hp rfl, hv]; rfl, h.symm, rfl⟩
    · cases h

theorem item_take {it : Item} {nm v : Str} (h : it.option = some (nm, v)) :
    ∃ o : Opt, (nm, o) ∈ longTable ∧ o.flag = none ∧ ∀ n : Namespace, n.take o v = some (Item.apply n it) := by
  cases it with
  | file f => cases h
  | func x => injection h with h; injection h with h1 h2; subst h1 h2; exact ⟨.func, by decide, rfl, fun _ => rfl⟩
  | funcArg x => injection h with h; injection h with h1 h2; subst h1 h2; exact ⟨.funcArgs, by decide, rfl, fun _ => rfl⟩
  | env x => injection h with h; injection h with h1 h2; subst h1 h2; exact ⟨.wasiEnvs, by decide, rfl, fun _ => rfl⟩
  | dir x => injection h with h; injection h with h1 h2; subst h1 h2; exact ⟨.wasiDirs, by decide, rfl, fun _ => rfl⟩
  | arg x => injection h with h; injection h with h1 h2; subst h1 h2; exact ⟨.wasiArgs, by decide, rfl, fun _ => rfl⟩
  | wasi => injection h with h; injection h with h1 h2; subst h1 h2; exact ⟨.wasi, by decide, rfl, fun _ => rfl⟩

theorem tokens_cons {argv : List Str} {t : Tok} {ts : List Tok} (h : tokens argv = some (t :: ts)) :
    ∃ a l, argv = a :: l ∧ ((a = "--".toList ∧ t = .dash ∧ ts = l.map .arg) ∨ (a ≠ "--".toList ∧ classify a = some t ∧ tokens l = some ts)) := by
  cases argv with
  | nil => cases h
  | cons a l =>
    refine ⟨a, l, rfl, ?_⟩
    unfold tokens at h
    split at h
    · rename_i ha
      injection h with h
      injection h with h1 h2
      exact .inl ⟨ha, h1.symm, h2.symm⟩
    · rename_i ha
      cases hc : classify a with
      | none => rw [hc] at h; cases h
      | some t' =>
        cases hl : tokens l with
        | none => rw [hc, hl] at h; cases h
        | some r =>
          rw [hc, hl] at h
          injection h with h
          injection h with h1 h2
          subst h1 h2
          exact .inr ⟨ha, rfl, rfl⟩

theorem tokens_nil {argv : List Str} (h : tokens argv = some []) : argv = [] := by
  cases argv with
  | nil => rfl
  | cons a l =>
    unfold tokens at h
    split at h
    · cases h
    · cases hc : classify a with
      | none => rw [hc] at h; cases h
      | some t' =>
        cases hl : tokens l with
        | none => rw [hc, hl] at h; cases h
        | some r => rw [hc, hl] at h; cases h

theorem tokens_word {a : Str} {l : List Str} {t : Tok} {ts : List Tok} (h : classify a = some t) (hl : tokens l = some ts) :
    tokens (a :: l) = some (t :: ts) := by
  unfold tokens
  rw [if_neg (fun e => by rw [e, classify_dashes] at h; cases h), h, hl]
  rfl

theorem done_extra {n : Namespace} {o : Options} {w : Bool} (h : n.done = .run o w) : n.extra = false ∧ ∃ f, n.file = some f := by
  unfold Namespace.done at h
  split at h
  · rename_i f hf
    split at h
    · cases h
    · rename_i he
      exact ⟨by simpa using he, f, hf⟩
  · cases h

theorem flag_run {o : Opt} {r : Parsed} (h : o.flag = some r) {o' : Options} {w : Bool} : r ≠ .run o' w := by
  cases o <;> unfold Opt.flag at h <;> cases h <;> exact nofun

theorem apply_extra (n : Namespace) (it : Item) : (Item.apply n it).extra = n.extra := by cases it <;> rfl

theorem apply_file (n : Namespace) {it : Item} (h : Item.asFile it = none) : (Item.apply n it).file = n.file := by
  cases it with
  | file f => cases h
  | _ => rfl

/-- How many files: the one already found, and those of the items. -/
def files (n : Namespace) (items : List Item) : Nat := n.file.toList.length + (items.filterMap Item.asFile).length

theorem files_apply {n : Namespace} {it : Item} {items : List Item} (h : Item.asFile it = none) :
    files (Item.apply n it) items = files n (it :: items) := by
  unfold files
  rw [apply_file n h, List.filterMap_cons, h]

/-- What the scan accepts is a command line. -/
theorem scan_sound (toks : List Tok) (n : Namespace) : ∀ o w, scan toks n = .run o w → n.extra = false ∧
    ∀ argv, tokens argv = some toks → ∃ items, Line items argv ∧ files n items = 1 ∧ (items.foldl Item.apply n).done = .run o w := by
  induction toks, n using scan.induct with
  | case1 n =>
    intro o w h
    unfold scan at h
    obtain ⟨h1, f, h2⟩ := done_extra h
    refine ⟨h1, fun argv ha => ⟨[], ?_, by unfold files; rw [h2]; rfl, h⟩⟩
    rw [tokens_nil ha]
    exact .nil
  | case2 f l n hf =>
    intro o w h
    unfold scan at h
    rw [hf] at h
    obtain ⟨h1, -⟩ := done_extra h
    simp only [Bool.or_eq_false_iff, Bool.not_eq_eq_eq_not, Bool.not_false, List.isEmpty_iff] at h1
    obtain ⟨h1, rfl⟩ := h1
    refine ⟨h1, fun argv ha => ⟨[.file f], ?_, by unfold files; rw [hf]; rfl, ?_⟩⟩
    · obtain ⟨a, r, rfl, ⟨-, h2, -⟩ | ⟨-, h2, h3⟩⟩ := tokens_cons ha
      · cases h2
      · obtain ⟨hfa, hw⟩ := (classify_arg a f).mp h2
        subst hfa
        obtain ⟨b, r', rfl, ⟨rfl, -, h5⟩ | ⟨-, h5, -⟩⟩ := tokens_cons h3
        · have : r' = [] := by cases r' with | nil => rfl | cons _ _ => cases h5
          subst this
          exact .closed hw
        · exact absurd h5 (classify_dash b)
    · rw [← h]
      simp [Item.apply, h1]
  | case3 f l n x hf => intro o w h; unfold scan at h; rw [hf] at h; cases h
  | case4 f l n hne hf ih =>
    intro o w h
    rw [scan.eq_3 _ _ _ hne] at h
    simp only [hf] at h
    obtain ⟨h1, h2⟩ := ih o w (by simpa only [hf] using h)
    refine ⟨h1, fun argv ha => ?_⟩
    obtain ⟨a, r, rfl, ⟨-, h3, -⟩ | ⟨-, h3, h4⟩⟩ := tokens_cons ha
    · cases h3
    · obtain ⟨rfl, hw⟩ := (classify_arg a f).mp h3
      obtain ⟨items, h5, h6, h7⟩ := h2 r h4
      refine ⟨.file f :: items, .file hw h5, ?_, ?_⟩
      · unfold files at h6 ⊢
        rw [hf]
        simpa [Item.asFile] using h6
      · simpa [Item.apply] using h7
  | case5 f l n hne x hf ih =>
    intro o w h
    rw [scan.eq_3 _ _ _ hne] at h
    simp only [hf] at h
    have := (ih o w (by simpa only [hf] using h)).1
    cases this
  | case6 n f hf =>
    intro o w h
    unfold scan at h
    simp only [hf] at h
    obtain ⟨h1, -⟩ := done_extra h
    refine ⟨h1, fun argv ha => ⟨[.file f], ?_, by unfold files; rw [hf]; rfl, by rw [← h]; simp [Item.apply]⟩⟩
    obtain ⟨a, r, rfl, ⟨rfl, -, h3⟩ | ⟨-, h3, -⟩⟩ := tokens_cons ha
    · match r, h3 with
      | [x], h3 => injection h3 with h3; injection h3 with h3; subst h3; exact .marked f
    · exact absurd h3 (classify_dash a)
  | case7 l n hne =>
    intro o w h
    unfold scan at h
    split at h
    · rename_i h1; exact (hne _ h1 rfl).elim
    · cases h
  | case8 l n ih =>
    intro o w h
    unfold scan at h
    have := (ih o w h).1
    cases this
  | case9 op short sep v l n r hr hf =>
    intro o w h
    unfold scan at h
    simp only [hr, hf, if_true] at h
    exact absurd h (flag_run hr)
  | case10 op short sep v l n r hr hf =>
    intro o w h
    unfold scan at h
    simp only [hr, if_neg hf] at h
    cases h
  | case11 op short sep v l n hr n' ht ih =>
    intro o w h
    unfold scan at h
    simp only [hr, ht] at h
    obtain ⟨h1, h2⟩ := ih o w h
    have key : ∀ nm, (nm, op) ∈ longTable → n.extra = false := by
      intro nm hnm
      obtain ⟨it, -, rfl, -⟩ := take_item hnm ht
      rwa [apply_extra] at h1
    refine ⟨key (longTable.find? (fun p => p.2 = op) |>.map Prod.fst |>.getD []) (by cases op <;> first | decide | cases hr), fun argv ha => ?_⟩
    obtain ⟨a, r, rfl, ⟨-, h3, -⟩ | ⟨-, h3, h4⟩⟩ := tokens_cons ha
    · cases h3
    · obtain ⟨-, wd, nm, hnm, hN, ⟨h5, -⟩ | ⟨v', h5, rfl⟩⟩ := (classify_opt hr _ _).mp h3
      · cases h5
      · injection h5 with h5
        injection h5 with _ h5
        subst h5
        obtain ⟨it, h6, rfl, h7⟩ := take_item hnm ht
        obtain ⟨items, h8, h9, h10⟩ := h2 r h4
        exact ⟨it :: items, .joined h6 hN h8, by rw [← files_apply h7]; exact h9, h10⟩
  | case12 op short sep v l n hr ht =>
    intro o w h
    unfold scan at h
    simp only [hr, ht] at h
    cases h
  | case13 op short v l n r hr =>
    intro o w h
    unfold scan at h
    simp only [hr] at h
    exact absurd h (flag_run hr)
  | case14 op short v l n hr n' ht ih =>
    intro o w h
    unfold scan at h
    simp only [hr, ht] at h
    obtain ⟨h1, h2⟩ := ih o w h
    have key : ∀ nm, (nm, op) ∈ longTable → n.extra = false := by
      intro nm hnm
      obtain ⟨it, -, rfl, -⟩ := take_item hnm ht
      rwa [apply_extra] at h1
    refine ⟨key (longTable.find? (fun p => p.2 = op) |>.map Prod.fst |>.getD []) (by cases op <;> first | decide | cases hr), fun argv ha => ?_⟩
    obtain ⟨a, r, rfl, ⟨-, h3, -⟩ | ⟨-, h3, h4⟩⟩ := tokens_cons ha
    · cases h3
    · obtain ⟨-, wd, nm, hnm, hN, ⟨-, rfl⟩ | ⟨v', h5, -⟩⟩ := (classify_opt hr _ _).mp h3
      · obtain ⟨b, r', rfl, ⟨-, h5, -⟩ | ⟨-, h5, h6⟩⟩ := tokens_cons h4
        · cases h5
        · obtain ⟨rfl, hw⟩ := (classify_arg b v).mp h5
          obtain ⟨it, h7, rfl, h8⟩ := take_item hnm ht
          obtain ⟨items, h9, h10, h11⟩ := h2 r' h6
          exact ⟨it :: items, .split h7 hN hw h9, by rw [← files_apply h8]; exact h10, h11⟩
      · cases h5
  | case15 op short v l n hr ht =>
    intro o w h
    unfold scan at h
    simp only [hr, ht] at h
    cases h
  | case16 op short l n hne =>
    intro o w h
    rw [scan.eq_9 _ _ _ _ hne] at h
    cases hr : op.flag with
    | none => rw [hr] at h; cases h
    | some r => rw [hr] at h; exact absurd h (flag_run hr)

/-- A command line is accepted by the scan. -/
theorem scan_complete {items : List Item} {argv : List Str} (h : Line items argv) : ∀ n : Namespace, n.extra = false → files n items = 1 →
    ∃ toks, tokens argv = some toks ∧ scan toks n = (items.foldl Item.apply n).done ∧ (toks.head? = some .dash → ∃ f, Item.file f ∈ items) := by
  induction h with
  | nil => intro n _ _; exact ⟨[], rfl, by unfold scan; rfl, nofun⟩
  | marked f =>
    intro n hn hf
    have hnone : n.file = none := by
      unfold files at hf
      cases hx : n.file with
      | none => rfl
      | some y => rw [hx] at hf; simp [Item.asFile] at hf
    refine ⟨[.dash, .arg f], by unfold tokens; rw [if_pos rfl]; rfl, ?_, fun _ => ⟨f, by simp⟩⟩
    unfold scan
    rw [hnone]
    rfl
  | @closed f hw =>
    intro n hn hf
    have hnone : n.file = none := by
      unfold files at hf
      cases hx : n.file with
      | none => rfl
      | some y => rw [hx] at hf; simp [Item.asFile] at hf
    refine ⟨[.arg f, .dash], tokens_word ((classify_arg f f).mpr ⟨rfl, hw⟩) (by unfold tokens; rw [if_pos rfl]; rfl), ?_, nofun⟩
    unfold scan
    rw [hnone]
    simp [Item.apply, hn]
  | @file f l r hw hl ih =>
    intro n hn hf
    have hnone : n.file = none := by
      unfold files at hf
      cases hx : n.file with
      | none => rfl
      | some y => rw [hx] at hf; simp [Item.asFile] at hf
    obtain ⟨toks, h1, h2, h3⟩ := ih { n with file := some f } hn (by unfold files at hf ⊢; rw [hnone] at hf; simpa [Item.asFile] using hf)
    refine ⟨.arg f :: toks, tokens_word ((classify_arg f f).mpr ⟨rfl, hw⟩) h1, ?_, nofun⟩
    have hne : ∀ l', toks = .dash :: l' → False := by
      rintro l' rfl
      obtain ⟨g, hg⟩ := h3 rfl
      unfold files at hf
      rw [hnone] at hf
      simp only [Option.toList_none, List.length_nil, List.filterMap_cons, Item.asFile, List.length_cons] at hf
      have : (l.filterMap Item.asFile) ≠ [] := List.ne_nil_of_mem (List.mem_filterMap.mpr ⟨_, hg, rfl⟩)
      have := List.length_pos_of_ne_nil this
      omega
    rw [scan.eq_3 _ _ _ hne]
    simp only [hnone]
    simpa [Item.apply, hnone] using h2
  | @joined it w nm v l r ho hN hl ih =>
    intro n hn hf
    obtain ⟨op, h1, h2, h3⟩ := item_take ho
    have hfile : Item.asFile it = none := by cases it <;> first | rfl | cases ho
    obtain ⟨toks, h4, h5, -⟩ := ih (Item.apply n it) (by rw [apply_extra]; exact hn) (by rw [files_apply hfile]; exact hf)
    refine ⟨.opt op false (some (true, v)) :: toks, tokens_word ((classify_opt h2 _ _).mpr ⟨rfl, w, nm, h1, hN, .inr ⟨v, rfl, rfl⟩⟩) h4, ?_, nofun⟩
    unfold scan
    simp only [h2, h3]
    exact h5
  | @split it w nm v l r ho hN hw hl ih =>
    intro n hn hf
    obtain ⟨op, h1, h2, h3⟩ := item_take ho
    have hfile : Item.asFile it = none := by cases it <;> first | rfl | cases ho
    obtain ⟨toks, h4, h5, -⟩ := ih (Item.apply n it) (by rw [apply_extra]; exact hn) (by rw [files_apply hfile]; exact hf)
    refine ⟨.opt op false none :: .arg v :: toks, tokens_word ((classify_opt h2 _ _).mpr ⟨rfl, w, nm, h1, hN, .inl ⟨rfl, rfl⟩⟩)
      (tokens_word ((classify_arg v v).mpr ⟨rfl, hw⟩) h4), ?_, nofun⟩
    unfold scan
    simp only [h2, h3]
    exact h5

/-! ## The namespace at the end -/

theorem fold_fields : ∀ (items : List Item) (n : Namespace), let m := items.foldl Item.apply n
    m.file = ((items.filterMap Item.asFile).getLast?.or n.file) ∧
    m.func = ((items.filterMap Item.asFunc).getLast?.getD n.func) ∧
    m.funcArgs = n.funcArgs ++ (items.filterMap Item.asFuncArg) ∧
    m.wasiEnvs = n.wasiEnvs ++ (items.filterMap Item.asEnv) ∧
    m.wasiDirs = n.wasiDirs ++ (items.filterMap Item.asDir) ∧
    m.wasiArgs = n.wasiArgs ++ (items.filterMap Item.asArg) ∧
    (m.wasi = true ↔ n.wasi = true ∨ .wasi ∈ items) ∧ m.extra = n.extra
  | [], n => by simp
  | it :: items, n => by
    have ih := fold_fields items (Item.apply n it)
    simp only [List.foldl_cons]
    simp only [] at ih
    obtain ⟨h1, h2, h3, h4, h5, h6, h7, h8⟩ := ih
    rw [h1, h2, h3, h4, h5, h6, h7, h8]
    cases it with
    | file f =>
      refine ⟨?_, rfl, rfl, rfl, rfl, rfl, by simp [Item.apply], rfl⟩
      show _ = ((f :: items.filterMap Item.asFile).getLast?.or n.file)
      cases items.filterMap Item.asFile with
      | nil => rfl
      | cons a l => simp [List.getLast?_cons_cons]; cases h : (a :: l).getLast? with
        | none => simp at h
        | some x => rfl
    | func v =>
      refine ⟨rfl, ?_, rfl, rfl, rfl, rfl, by simp [Item.apply], rfl⟩
      show _ = ((v :: items.filterMap _).getLast?.getD n.func)
      cases (items.filterMap Item.asFunc) with
      | nil => rfl
      | cons a l => rw [List.getLast?_cons_cons]; cases h : (a :: l).getLast? with
        | none => simp at h
        | some x => rfl
    | funcArg v => exact ⟨rfl, rfl, by simp [Item.apply]; rfl, rfl, rfl, rfl, by simp [Item.apply], rfl⟩
    | env v => exact ⟨rfl, rfl, rfl, by simp [Item.apply]; rfl, rfl, rfl, by simp [Item.apply], rfl⟩
    | dir v => exact ⟨rfl, rfl, rfl, rfl, by simp [Item.apply]; rfl, rfl, by simp [Item.apply], rfl⟩
    | arg v => exact ⟨rfl, rfl, rfl, rfl, rfl, by simp [Item.apply]; rfl, by simp [Item.apply], rfl⟩
    | wasi => exact ⟨rfl, rfl, rfl, rfl, rfl, rfl, by simp [Item.apply], rfl⟩

theorem done_iff {items : List Item} {o : Options} {w : Bool} (h : files {} items = 1) :
    (items.foldl Item.apply {}).done = .run o w ↔ Means items o w := by
  obtain ⟨h1, h2, h3, h4, h5, h6, h7, h8⟩ := fold_fields items {}
  have hl : (items.filterMap Item.asFile).length = 1 := by simpa [files] using h
  obtain ⟨f, hf⟩ := List.length_eq_one_iff.mp hl
  rw [hf] at h1
  unfold Namespace.done
  rw [show (items.foldl Item.apply {}).file = some f from h1]
  simp only [show (items.foldl Item.apply {}).extra = false from h8, Bool.false_eq_true, if_false]
  constructor
  · intro hx
    injection hx with hx hw
    subst hx hw
    exact ⟨hf, by rw [h2], by simp only [h3]; rfl, by simp only [h4]; rfl, by simp only [h5]; rfl, by simp only [h6]; rfl, by simpa using h7⟩
  · rintro ⟨m1, m2, m3, m4, m5, m6, m7⟩
    rw [hf] at m1
    injection m1 with m1 _
    cases o
    simp only at m1 m2 m3 m4 m5 m6
    subst m1 m2 m3 m4 m5 m6
    rw [h2, h3, h4, h5, h6]
    have : (items.foldl Item.apply {}).wasi = w := by
      rw [Bool.eq_iff_iff, h7, m7]
      simp
    rw [this]
    rfl

end Pywasm.Cli
