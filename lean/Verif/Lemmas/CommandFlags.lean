import Verif.Lemmas.CommandLine

/-!
# Reading `--help` and `--version`

Which command lines end with the help or the version (`Stops` of `Verif/Spec/CommandLine.lean`).
-/

namespace Pywasm.Cli
open Spec.CommandLine Props

/-- The explicit argument of a word that begins with `-h` or `-v`. -/
def attached : Str → Option (Bool × Str)
  | [] => none
  | '=' :: v => some (true, v)
  | t => some (false, t)

theorem lookup_short {c x : Char} {r : Str} (h : c = 'h' ∨ c = 'v') : optTable.lookup ('-' :: c :: x :: r) = none := by
  cases hl : optTable.lookup ('-' :: c :: x :: r) with
  | none => rfl
  | some o =>
    have hh : ∀ p ∈ optTable, p.1.tail.head? = some 'h' ∨ p.1.tail.head? = some 'v' → p.1.length = 2 := by decide
    have := hh _ (lookup_mem hl) (by rcases h with rfl | rfl; exact .inl rfl; exact .inr rfl)
    simp at this

theorem classify_short {o : Opt} {c : Char} (h : (c = 'h' ∧ o = .help) ∨ (c = 'v' ∧ o = .version)) (t : Str) :
    classify ('-' :: c :: t) = some (.opt o true (attached t)) := by
  have hc : c = 'h' ∨ c = 'v' := by rcases h with h | h; exact .inl h.1; exact .inr h.1
  have hd : c ≠ '-' := by rcases hc with rfl | rfl <;> decide
  match t with
  | [] => rcases h with ⟨rfl, rfl⟩ | ⟨rfl, rfl⟩ <;> rfl
  | x :: r =>
    have h1 := lookup_short (x := x) (r := r) hc
    unfold classify
    simp only [h1]
    by_cases hx : x = '='
    · subst hx
      have hp : Cli.partition ('-' :: c :: '=' :: r) = (['-', c], some r) :=
        partition_some (k := ['-', c]) (by rcases hc with rfl | rfl <;> decide)
      rw [hp]
      rcases h with ⟨rfl, rfl⟩ | ⟨rfl, rfl⟩ <;> rfl
    · have h2 : (if (Cli.partition ('-' :: c :: x :: r)).2.isSome = true then optTable.lookup (Cli.partition ('-' :: c :: x :: r)).1 else none) = none := by
        split
        · by_cases he : '=' ∈ '-' :: c :: x :: r
          · have he' : '=' ∈ r := by
              have : c ≠ '=' := by rcases hc with rfl | rfl <;> decide
              simpa [hx, Ne.symm hx, Ne.symm this] using he
            obtain ⟨k, v, hk, hkv⟩ := cut he'
            have hp : Cli.partition ('-' :: c :: x :: r) = ('-' :: c :: x :: k, some v) := by
              rw [hk]
              refine partition_some (k := '-' :: c :: x :: k) ?_
              have : c ≠ '=' := by rcases hc with rfl | rfl <;> decide
              simp [hkv, Ne.symm hx, Ne.symm this]
            rw [hp]
            exact lookup_short hc
          · rw [partition_none he]
            exact h1
        · rfl
      rw [h2]
      simp only []
      rw [if_neg hd]
      have h3 : attached (x :: r) = some (false, x :: r) := by
        unfold attached
        split
        · cases ‹_›
        · rename_i heq; injection heq with heq _; exact absurd heq hx
        · rfl
      rw [h3]
      rcases h with ⟨rfl, rfl⟩ | ⟨rfl, rfl⟩ <;> rfl

theorem flags_sep (short : Bool) : ∀ t, flags short true t = false
  | [] => rfl
  | [x] => by unfold flags; simp
  | x :: y :: r => by unfold flags; simp

theorem flags_long (sep : Bool) : ∀ t, flags false sep t = false
  | [] => rfl
  | [x] => by unfold flags; simp
  | x :: y :: r => by unfold flags; simp

theorem cluster_cons {x : Char} {t : Str} (h : x = 'h' ∨ x = 'v') : Cluster (x :: t) ↔ Cluster t := by
  constructor
  · rintro ⟨a, b, e, h1, h2⟩
    cases a with
    | nil =>
      have := h2 x (by rw [show b = x :: t from e.symm]; rfl)
      rcases h with h | h
      · exact absurd h this.1
      · exact absurd h this.2.1
    | cons y a =>
      injection e with _ e
      exact ⟨a, b, e, fun c hc => h1 c (by simp [hc]), h2⟩
  · rintro ⟨a, b, e, h1, h2⟩
    refine ⟨x :: a, b, by rw [e]; rfl, ?_, h2⟩
    intro c hc
    rcases List.mem_cons.mp hc with rfl | hc
    · exact h
    · exact h1 c hc

theorem cluster_other {x : Char} {t : Str} (h1 : x ≠ 'h') (h2 : x ≠ 'v') : Cluster (x :: t) ↔ x ≠ '-' ∧ x ≠ '=' := by
  constructor
  · rintro ⟨a, b, e, h3, h4⟩
    cases a with
    | nil => exact (h4 x (by rw [show b = x :: t from e.symm]; rfl)).2.2
    | cons y a =>
      injection e with e _
      subst e
      rcases h3 x (by simp) with h | h
      · exact absurd h h1
      · exact absurd h h2
  · intro h
    refine ⟨[], x :: t, rfl, nofun, ?_⟩
    rintro y hy
    injection hy with hy
    subst hy
    exact ⟨h1, h2, h.1, h.2⟩

theorem cluster_nil : Cluster [] := ⟨[], [], rfl, nofun, nofun⟩

theorem flags_iff : ∀ (x : Char) (t : Str), x ≠ '=' → (flags true false (x :: t) = true ↔ Cluster (x :: t))
  | x, [], hx => by
    unfold flags
    by_cases hh : x = 'h' ∨ x = 'v'
    · rw [cluster_cons hh]
      have : x ≠ '-' := by rcases hh with rfl | rfl <;> decide
      simp [this, cluster_nil]
    · rw [cluster_other (fun h => hh (.inl h)) (fun h => hh (.inr h))]
      simp [hx]
  | x, y :: r, hx => by
    unfold flags
    by_cases hh : x = 'h' ∨ x = 'v'
    · have hd : x ≠ '-' := by rcases hh with rfl | rfl <;> decide
      rw [cluster_cons hh, if_pos (by simp [hd]), if_pos (by simpa using hh)]
      by_cases hy : y = '='
      · subst hy
        rw [if_pos rfl, flags_sep, cluster_other (by decide) (by decide)]
        simp
      · rw [if_neg hy]
        exact flags_iff y r hy
    · rw [cluster_other (fun h => hh (.inl h)) (fun h => hh (.inr h))]
      by_cases hd : x = '-'
      · subst hd; simp
      · rw [if_pos (by simp [hd]), if_neg (by simpa using hh)]
        simp [hd, hx]

theorem attached_flags (t : Str) :
    (attached t = none ∨ ∃ sep v, attached t = some (sep, v) ∧ flags true sep v = true) ↔ Cluster t := by
  match t with
  | [] => exact ⟨fun _ => cluster_nil, fun _ => .inl rfl⟩
  | x :: r =>
    by_cases hx : x = '='
    · subst hx
      rw [cluster_other (by decide) (by decide)]
      constructor
      · rintro (h | ⟨sep, v, h, h'⟩)
        · cases h
        · injection h with h; injection h with h _; subst h; rw [flags_sep] at h'; cases h'
      · exact fun h => absurd rfl h.2
    · have h3 : attached (x :: r) = some (false, x :: r) := by
        unfold attached
        split
        · cases ‹_›
        · rename_i heq; injection heq with heq _; exact absurd heq hx
        · rfl
      rw [h3, ← flags_iff x r hx]
      constructor
      · rintro (h | ⟨sep, v, h, h'⟩)
        · cases h
        · injection h with h; injection h with h h2; subst h h2; exact h'
      · exact fun h => .inr ⟨_, _, rfl, h⟩

/-- Everything that a word can be. -/
theorem word_cases (s : Str) : (∃ t' e, '=' ∉ t' ∧ s = ('-' :: '-' :: t') ++ ((e : Option Str).map fun v => '=' :: v).getD []) ∨
    (∃ c t, s = '-' :: c :: t ∧ c ≠ '-' ∧ (c = 'h' ∨ c = 'v')) ∨ (∃ c t, s = '-' :: c :: t ∧ c ≠ '-' ∧ ¬(c = 'h' ∨ c = 'v')) ∨
    (classify s = some (.arg s) ∧ Word s ∧ ∀ t, s ≠ '-' :: '-' :: t) := by
  match s with
  | [] => exact .inr (.inr (.inr ⟨rfl, .inl nofun, nofun⟩))
  | c :: r =>
    by_cases hc : c = '-'
    · subst hc
      match r with
      | [] => exact .inr (.inr (.inr ⟨rfl, .inr (.inl rfl), nofun⟩))
      | c :: t =>
        by_cases hd : c = '-'
        · subst hd
          obtain ⟨t', e, ht, hs⟩ := long_split t
          exact .inl ⟨t', e, ht, hs⟩
        · by_cases hf : c = 'h' ∨ c = 'v'
          · exact .inr (.inl ⟨c, t, rfl, hd, hf⟩)
          · exact .inr (.inr (.inl ⟨c, t, rfl, hd, hf⟩))
    · have hw : Word (c :: r) := .inl (by simpa using hc)
      exact .inr (.inr (.inr ⟨(classify_arg _ _).mpr ⟨rfl, hw⟩, hw, fun t h => by injection h with h _; exact hc h⟩))

theorem classify_unknown (s : Str) : classify s = some .unknown ↔ ¬ Known s ∧ ¬ Word s := by
  have harg : Word s → classify s = some (.arg s) := fun h => (classify_arg s s).mpr ⟨rfl, h⟩
  constructor
  · intro h
    have hw : ¬ Word s := fun hw => by rw [harg hw] at h; cases h
    refine ⟨?_, hw⟩
    rcases word_cases s with ⟨t, e, ht, rfl⟩ | ⟨c, t, rfl, hd, hf⟩ | ⟨c, t, rfl, hd, hf⟩ | ⟨-, hw', -⟩
    · rw [known_long ht]
      rw [classify_long t e ht] at h
      split at h
      · cases h
      · injection h with h; cases h
      · rename_i hr
        rintro ⟨m, hm, hp⟩
        exact resolve_nothing.mp hr m hm hp
    · obtain ⟨o, e, -, h'⟩ := classify_flag c t hf
      rw [h'] at h; injection h with h; cases h
    · rw [known_plain hd]; exact hf
    · exact absurd hw' hw
  · rintro ⟨h1, h2⟩
    rcases word_cases s with ⟨t, e, ht, rfl⟩ | ⟨c, t, rfl, hd, hf⟩ | ⟨c, t, rfl, hd, hf⟩ | ⟨-, hw', -⟩
    · rw [known_long ht] at h1
      have hr : resolve ('-' :: '-' :: t) = some none := resolve_nothing.mpr fun m hm hp => h1 ⟨m, hm, hp⟩
      have hcl := classify_long t e ht
      rw [hr] at hcl
      simp only [] at hcl
      split at hcl
      · exact absurd ((classify_arg _ _).mp hcl).2 h2
      · exact hcl
    · exact absurd ((known_plain hd).mpr hf) h1
    · have hcl := classify_plain c t hd (fun h => hf (.inl h)) (fun h => hf (.inr h))
      split at hcl
      · exact absurd ((classify_arg _ _).mp hcl).2 h2
      · exact hcl
    · exact absurd hw' h2

theorem classify_none (s : Str) : classify s = none ↔ Ambiguous s := by
  constructor
  · intro h
    rcases word_cases s with ⟨t, e, ht, rfl⟩ | ⟨c, t, rfl, hd, hf⟩ | ⟨c, t, rfl, hd, hf⟩ | ⟨hw', -⟩
    · rw [classify_long t e ht] at h
      split at h
      · rename_i hr
        refine ⟨'-' :: '-' :: t, prefix_long t, ?_, ?_, ?_⟩
        · cases e with
          | none => exact .inl (by simp)
          | some v => exact .inr ⟨v, rfl⟩
        · by_contra hx
          have : resolve ('-' :: '-' :: t) = some none := resolve_nothing.mpr fun m hm hp => hx ⟨m, hm, hp⟩
          rw [this] at hr; cases hr
        · intro m hm hN
          rw [← longTable_names] at hm
          obtain ⟨p, hp, rfl⟩ := List.mem_map.mp hm
          have := (resolve_some (prefix_long t)).mpr ⟨p.1, hp, hN⟩
          rw [this] at hr; cases hr
      · cases h
      · cases h
    · obtain ⟨o, e, -, h'⟩ := classify_flag c t hf
      rw [h'] at h; cases h
    · rw [classify_plain c t hd (fun h => hf (.inl h)) (fun h => hf (.inr h))] at h
      cases h
    · rw [hw'] at h; cases h
  · rintro ⟨u, ⟨t, rfl⟩, h1, ⟨m, hm, hp⟩, h3⟩
    have he := prefix_names hm hp
    have ht : '=' ∉ t := fun h => he (by simp [h])
    have hr : resolve ('-' :: '-' :: t) = none := by
      cases hr : resolve ('-' :: '-' :: t) with
      | none => rfl
      | some x =>
        cases x with
        | none => exact absurd hp (resolve_nothing.mp hr m hm)
        | some o =>
          obtain ⟨n, hn, hN⟩ := (resolve_some (prefix_long t)).mp hr
          exact absurd hN (h3 n (by rw [← longTable_names]; exact List.mem_map.mpr ⟨_, hn, rfl⟩))
    rcases h1 with rfl | ⟨r, rfl⟩
    · have := classify_long t none ht
      rw [hr] at this
      simpa using this
    · have := classify_long t (some r) ht
      rw [hr] at this
      exact this

/-- The option without value `o`, with its names and what it does. -/
structure IsFlag (o : Opt) (short long : Str) (r : Parsed) : Prop where
  flag : o.flag = some r
  only : ∀ o', o'.flag = some r → o' = o
  isLong : (long, o) ∈ longTable
  longOnly : ∀ n, (n, o) ∈ longTable → n = long
  isShort : ∃ c, short = ['-', c] ∧ ((c = 'h' ∧ o = .help) ∨ (c = 'v' ∧ o = .version))
  usage : r ≠ .usage
  run : ∀ x w, r ≠ .run x w

theorem help_flag : IsFlag .help "-h".toList "--help".toList .help where
  flag := rfl
  only := by intro o' h; cases o' <;> first | rfl | cases h
  isLong := by decide
  longOnly := by
    intro n hn
    have : ∀ p ∈ longTable, p.2 = .help → p.1 = "--help".toList := by decide
    exact this _ hn rfl
  isShort := ⟨'h', rfl, .inl ⟨rfl, rfl⟩⟩
  usage := nofun
  run := nofun

theorem version_flag : IsFlag .version "-v".toList "--version".toList .version where
  flag := rfl
  only := by intro o' h; cases o' <;> first | rfl | cases h
  isLong := by decide
  longOnly := by
    intro n hn
    have : ∀ p ∈ longTable, p.2 = .version → p.1 = "--version".toList := by decide
    exact this _ hn rfl
  isShort := ⟨'v', rfl, .inr ⟨rfl, rfl⟩⟩
  usage := nofun
  run := nofun

variable {o : Opt} {short long : Str} {r : Parsed}

/-- The words that are the option and are taken. -/
theorem classify_asks (hF : IsFlag o short long r) (s : Str) :
    (∃ b e, classify s = some (.opt o b e) ∧ (e = none ∨ ∃ sep v, e = some (sep, v) ∧ flags b sep v = true)) ↔ Asks short long s := by
  obtain ⟨c, hs, hc⟩ := hF.isShort
  constructor
  · rintro ⟨b, e, h, he⟩
    rcases word_cases s with ⟨t, e', ht, rfl⟩ | ⟨d, t, rfl, hd, hf⟩ | ⟨d, t, rfl, hd, hf⟩ | ⟨hw', -⟩
    · rw [classify_long t e' ht] at h
      split at h
      · cases h
      · rename_i o' hr
        injection h with h
        injection h with h1 h2 h3
        subst h1 h2 h3
        obtain ⟨n, hn, hN⟩ := (resolve_some (prefix_long t)).mp hr
        have := hF.longOnly n hn
        subst this
        cases e' with
        | none => exact .inl (by simpa using hN)
        | some v =>
          rcases he with he | ⟨sep, v', -, he⟩
          · cases he
          · rw [flags_long] at he; cases he
      · injection h with h
        split at h <;> cases h
    · rcases hf with rfl | rfl
      · rw [classify_short (.inl ⟨rfl, rfl⟩)] at h
        injection h with h
        injection h with h1 h2 h3
        subst h1 h2 h3
        rcases hc with ⟨rfl, -⟩ | ⟨-, h⟩
        · exact .inr ⟨t, by rw [hs]; rfl, (attached_flags t).mp he⟩
        · cases h
      · rw [classify_short (.inr ⟨rfl, rfl⟩)] at h
        injection h with h
        injection h with h1 h2 h3
        subst h1 h2 h3
        rcases hc with ⟨-, h⟩ | ⟨rfl, -⟩
        · cases h
        · exact .inr ⟨t, by rw [hs]; rfl, (attached_flags t).mp he⟩
    · rw [classify_plain d t hd (fun h => hf (.inl h)) (fun h => hf (.inr h))] at h
      injection h with h
      split at h <;> cases h
    · rw [hw'] at h; injection h with h; cases h
  · rintro (hN | ⟨t, rfl, ht⟩)
    · obtain ⟨t, rfl, ht⟩ := names_long hF.isLong hN
      have hr := (resolve_some (o := o) (prefix_long t)).mpr ⟨long, hF.isLong, hN⟩
      have := classify_long t none ht
      rw [hr] at this
      exact ⟨false, none, by simpa using this, .inl rfl⟩
    · rw [hs]
      exact ⟨true, attached t, classify_short hc t, (attached_flags t).mpr ht⟩

theorem tokens_clear : ∀ l : List Str, (∃ ts, tokens l = some ts) ↔ ∀ u ∈ l.takeWhile (· ≠ "--".toList), ¬ Ambiguous u
  | [] => ⟨fun _ => nofun, fun _ => ⟨[], rfl⟩⟩
  | a :: l => by
    unfold tokens
    by_cases ha : a = "--".toList
    · rw [if_pos ha, List.takeWhile_cons_of_neg (by simp [ha])]
      exact ⟨fun _ => nofun, fun _ => ⟨_, rfl⟩⟩
    · rw [if_neg ha, List.takeWhile_cons_of_pos (by simpa using ha), List.forall_mem_cons, ← tokens_clear l, ← classify_none]
      cases hc : classify a with
      | none => exact ⟨fun ⟨ts, h⟩ => (by cases h), fun h => absurd rfl h.1⟩
      | some t =>
        cases hl : tokens l with
        | none => exact ⟨fun ⟨ts, h⟩ => (by cases h), fun ⟨_, ts, h⟩ => (by cases h)⟩
        | some ts => exact ⟨fun _ => ⟨nofun, ts, rfl⟩, fun _ => ⟨t :: ts, rfl⟩⟩

theorem done_flag (hF : IsFlag o short long r) (n : Namespace) : n.done ≠ r := by
  unfold Namespace.done
  split
  · split
    · exact fun h => hF.usage h.symm
    · exact fun h => hF.run _ _ h.symm
  · exact fun h => hF.usage h.symm

theorem scan_stops (hF : IsFlag o short long r) (toks : List Tok) (n : Namespace) : scan toks n = r →
    ∀ argv, tokens argv = some toks → Stops short long argv := by
  have clear : ∀ {l : List Str} {ts : List Tok}, tokens l = some ts → ∀ u ∈ l.takeWhile (· ≠ "--".toList), ¬ Ambiguous u :=
    fun h => (tokens_clear _).mp ⟨_, h⟩
  induction toks, n using scan.induct with
  | case1 n => intro h; unfold scan at h; exact absurd h (done_flag hF _)
  | case2 f l n hf => intro h; unfold scan at h; rw [hf] at h; exact absurd h (done_flag hF _)
  | case3 f l n x hf => intro h; unfold scan at h; rw [hf] at h; exact absurd h.symm hF.usage
  | case4 f l n hne hf ih =>
    intro h argv ha
    rw [scan.eq_3 _ _ _ hne] at h
    simp only [hf] at h
    obtain ⟨a, t, rfl, ⟨-, h3, -⟩ | ⟨-, h3, h4⟩⟩ := tokens_cons ha
    · cases h3
    · obtain ⟨rfl, hw⟩ := (classify_arg a f).mp h3
      refine .file hw ?_ (ih (by simpa only [hf] using h) t h4)
      intro hx
      cases t with
      | nil => cases hx
      | cons b t =>
        injection hx with hx
        subst hx
        unfold tokens at h4
        rw [if_pos rfl] at h4
        injection h4 with h4
        exact hne _ h4.symm
  | case5 f l n hne x hf ih =>
    intro h argv ha
    rw [scan.eq_3 _ _ _ hne] at h
    simp only [hf] at h
    obtain ⟨a, t, rfl, ⟨-, h3, -⟩ | ⟨-, h3, h4⟩⟩ := tokens_cons ha
    · cases h3
    · obtain ⟨rfl, hw⟩ := (classify_arg a f).mp h3
      refine .file hw ?_ (ih (by simpa only [hf] using h) t h4)
      intro hx
      cases t with
      | nil => cases hx
      | cons b t =>
        injection hx with hx
        subst hx
        unfold tokens at h4
        rw [if_pos rfl] at h4
        injection h4 with h4
        exact hne _ h4.symm
  | case6 n f hf => intro h; unfold scan at h; simp only [hf] at h; exact absurd h (done_flag hF _)
  | case7 l n hne =>
    intro h
    unfold scan at h
    split at h
    · rename_i h1; exact (hne _ h1 rfl).elim
    · exact absurd h.symm hF.usage
  | case8 l n ih =>
    intro h argv ha
    unfold scan at h
    obtain ⟨a, t, rfl, ⟨-, h3, -⟩ | ⟨-, h3, h4⟩⟩ := tokens_cons ha
    · cases h3
    · obtain ⟨h5, h6⟩ := (classify_unknown a).mp h3
      exact .unknown h5 h6 (ih h t h4)
  | case9 op sh sep v l n r' hr hf =>
    intro h argv ha
    unfold scan at h
    simp only [hr, hf, if_true] at h
    subst h
    have := hF.only op hr
    subst this
    obtain ⟨a, t, rfl, ⟨-, h3, -⟩ | ⟨-, h3, h4⟩⟩ := tokens_cons ha
    · cases h3
    · exact .here ((classify_asks hF a).mp ⟨_, _, h3, .inr ⟨_, _, rfl, hf⟩⟩) (clear h4)
  | case10 op sh sep v l n r' hr hf =>
    intro h
    unfold scan at h
    simp only [hr, if_neg hf] at h
    exact absurd h.symm hF.usage
  | case11 op sh sep v l n hr n' ht ih =>
    intro h argv ha
    unfold scan at h
    simp only [hr, ht] at h
    obtain ⟨a, t, rfl, ⟨-, h3, -⟩ | ⟨-, h3, h4⟩⟩ := tokens_cons ha
    · cases h3
    · obtain ⟨-, wd, nm, hnm, hN, ⟨h5, -⟩ | ⟨v', h5, rfl⟩⟩ := (classify_opt hr _ _).mp h3
      · cases h5
      · injection h5 with h5
        injection h5 with _ h5
        subst h5
        obtain ⟨it, h6, -, -⟩ := take_item hnm ht
        exact .joined h6 hN (ih h t h4)
  | case12 op sh sep v l n hr ht =>
    intro h
    unfold scan at h
    simp only [hr, ht] at h
    exact absurd h.symm hF.usage
  | case13 op sh v l n r' hr =>
    intro h argv ha
    unfold scan at h
    simp only [hr] at h
    subst h
    have := hF.only op hr
    subst this
    obtain ⟨a, t, rfl, ⟨-, h3, -⟩ | ⟨-, h3, h4⟩⟩ := tokens_cons ha
    · cases h3
    · exact .here ((classify_asks hF a).mp ⟨_, _, h3, .inl rfl⟩) (clear h4)
  | case14 op sh v l n hr n' ht ih =>
    intro h argv ha
    unfold scan at h
    simp only [hr, ht] at h
    obtain ⟨a, t, rfl, ⟨-, h3, -⟩ | ⟨-, h3, h4⟩⟩ := tokens_cons ha
    · cases h3
    · obtain ⟨-, wd, nm, hnm, hN, ⟨-, rfl⟩ | ⟨v', h5, -⟩⟩ := (classify_opt hr _ _).mp h3
      · obtain ⟨b, t', rfl, ⟨-, h5, -⟩ | ⟨-, h5, h6⟩⟩ := tokens_cons h4
        · cases h5
        · obtain ⟨rfl, hw⟩ := (classify_arg b v).mp h5
          obtain ⟨it, h7, -, -⟩ := take_item hnm ht
          exact .split h7 hN hw (ih h t' h6)
      · cases h5
  | case15 op sh v l n hr ht =>
    intro h
    unfold scan at h
    simp only [hr, ht] at h
    exact absurd h.symm hF.usage
  | case16 op sh l n hne =>
    intro h argv ha
    rw [scan.eq_9 _ _ _ _ hne] at h
    cases hr : op.flag with
    | none => rw [hr] at h; exact absurd h.symm hF.usage
    | some r' =>
      rw [hr] at h
      have h : r' = r := h
      subst h
      have := hF.only op hr
      subst this
      obtain ⟨a, t, rfl, ⟨-, h3, -⟩ | ⟨-, h3, h4⟩⟩ := tokens_cons ha
      · cases h3
      · exact .here ((classify_asks hF a).mp ⟨_, _, h3, .inl rfl⟩) (clear h4)

theorem stops_scan (hF : IsFlag o short long r) {argv : List Str} (h : Stops short long argv) :
    ∀ n : Namespace, ∃ toks, tokens argv = some toks ∧ scan toks n = r := by
  induction h with
  | here ha hc =>
    intro n
    obtain ⟨ts, hts⟩ := (tokens_clear _).mpr hc
    obtain ⟨b, e, h1, h2⟩ := (classify_asks hF _).mpr ha
    refine ⟨_, tokens_word h1 hts, ?_⟩
    rcases h2 with rfl | ⟨sep, v, rfl, h2⟩
    · by_cases hx : ∃ x l, ts = .arg x :: l
      · obtain ⟨x, l, rfl⟩ := hx
        unfold scan
        simp only [hF.flag]
      · rw [scan.eq_9 _ _ _ _ (fun x l h => hx ⟨x, l, h⟩), hF.flag]
        rfl
    · unfold scan
      simp only [hF.flag, h2, if_true]
  | @file f l hw hh _ ih =>
    intro n
    have key : ∀ n' : Namespace, ∃ ts, tokens l = some ts ∧ scan ts n' = r ∧ ∀ l', ts = .dash :: l' → False := by
      intro n'
      obtain ⟨ts, h1, h2⟩ := ih n'
      refine ⟨ts, h1, h2, ?_⟩
      rintro l' rfl
      obtain ⟨a, t, rfl, ⟨rfl, -, -⟩ | ⟨-, h3, -⟩⟩ := tokens_cons h1
      · exact hh rfl
      · exact classify_dash a h3
    cases hf : n.file with
    | none =>
      obtain ⟨ts, h1, h2, h3⟩ := key { n with file := some f }
      refine ⟨_, tokens_word ((classify_arg f f).mpr ⟨rfl, hw⟩) h1, ?_⟩
      rw [scan.eq_3 _ _ _ h3]
      simp only [hf]
      exact h2
    | some g =>
      obtain ⟨ts, h1, h2, h3⟩ := key { n with extra := true }
      refine ⟨_, tokens_word ((classify_arg f f).mpr ⟨rfl, hw⟩) h1, ?_⟩
      rw [scan.eq_3 _ _ _ h3]
      simp only [hf]
      simpa only [hf] using h2
  | unknown h1 h2 _ ih =>
    intro n
    obtain ⟨ts, h3, h4⟩ := ih { n with extra := true }
    refine ⟨_, tokens_word ((classify_unknown _).mpr ⟨h1, h2⟩) h3, ?_⟩
    unfold scan
    exact h4
  | @joined it w nm v l ho hN _ ih =>
    intro n
    obtain ⟨op, h1, h2, h3⟩ := item_take ho
    obtain ⟨ts, h4, h5⟩ := ih (Item.apply n it)
    refine ⟨_, tokens_word ((classify_opt h2 _ _).mpr ⟨rfl, w, nm, h1, hN, .inr ⟨v, rfl, rfl⟩⟩) h4, ?_⟩
    unfold scan
    simp only [h2, h3]
    exact h5
  | @split it w nm v l ho hN hw _ ih =>
    intro n
    obtain ⟨op, h1, h2, h3⟩ := item_take ho
    obtain ⟨ts, h4, h5⟩ := ih (Item.apply n it)
    refine ⟨_, tokens_word ((classify_opt h2 _ _).mpr ⟨rfl, w, nm, h1, hN, .inl ⟨rfl, rfl⟩⟩)
      (tokens_word ((classify_arg v v).mpr ⟨rfl, hw⟩) h4), ?_⟩
    unfold scan
    simp only [h2, h3]
    exact h5

theorem parse_flag (hF : IsFlag o short long r) (argv : List Str) : parse argv = r ↔ Stops short long argv := by
  constructor
  · intro h
    unfold parse at h
    split at h
    · rename_i ts ht
      exact scan_stops hF ts {} h argv ht
    · exact absurd h.symm hF.usage
  · intro h
    obtain ⟨ts, h1, h2⟩ := stops_scan hF h {}
    unfold parse
    rw [h1]
    exact h2

end Pywasm.Cli
