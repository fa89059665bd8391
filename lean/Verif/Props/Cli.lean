import Mathlib.Data.Nat.Digits.Lemmas
import Mathlib.Data.List.TakeWhile
import Verif.Model.Cli
import Verif.Props.WasiProgram
import Verif.Lemmas.WasiConfig
import Verif.Props.WasiArgs

/-!
# C80: the command line
-/

namespace Pywasm.Props
open Spec Spec.Typing Spec.Bin M WasiSpec

/-! ## The options `--wasi-envs` and `--wasi-dirs` -/

theorem split1_none {c : Char} : ∀ {s : Str}, c ∉ s → Cli.split1 c s = [s]
  | [], _ => rfl
  | x :: s, h => by
    have h1 : x ≠ c := fun e => h (by simp [e])
    have h2 : c ∉ s := fun e => h (by simp [e])
    unfold Cli.split1
    rw [if_neg h1, split1_none h2]
theorem split1_some {c : Char} {v : Str} : ∀ {k : Str}, c ∉ k → Cli.split1 c (k ++ c :: v) = [k, v]
  | [], _ => by simp [Cli.split1]
  | x :: k, h => by
    have h1 : x ≠ c := fun e => h (by simp [e])
    have h2 : c ∉ k := fun e => h (by simp [e])
    rw [List.cons_append]
    unfold Cli.split1
    rw [if_neg h1, split1_some h2]
theorem cut {c : Char} : ∀ {s : Str}, c ∈ s → ∃ k v, s = k ++ c :: v ∧ c ∉ k
  | x :: s, h => by
    by_cases hx : x = c
    · exact ⟨[], s, by simp [hx], by simp⟩
    · obtain ⟨k, v, rfl, hk⟩ := cut (List.mem_of_ne_of_mem (Ne.symm hx) h)
      exact ⟨x :: k, v, rfl, by simp [hk, Ne.symm hx]⟩
theorem cut_unique {c : Char} {k k' v : Str} (hk : c ∉ k) (hk' : c ∉ k') (h : k' ++ [c] <+: k ++ c :: v) : k' = k := by
  obtain ⟨r, hr⟩ := h
  have h1 : k' ++ c :: r = k ++ c :: v := by rw [← hr]; simp
  clear hr
  induction k generalizing k' with
  | nil =>
    cases k' with
    | nil => rfl
    | cons x k' => injection h1 with h2 _; exact absurd (by simp [h2]) hk'
  | cons y k ih =>
    cases k' with
    | nil => injection h1 with h2 _; exact absurd (by simp [h2]) hk
    | cons x k' =>
      injection h1 with h2 h3
      rw [h2, ih (fun h => hk (by simp [h])) (fun h => hk' (by simp [h])) h3]

theorem mem_dictSet {d : List (Str × Str)} {k0 v0 k v : Str} :
    (k, v) ∈ Wasi.dictSet d k0 v0 ↔ (k = k0 ∧ v = v0) ∨ (k ≠ k0 ∧ (k, v) ∈ d) := by
  unfold Wasi.dictSet
  split
  · rename_i h
    simp only [List.any_eq_true, decide_eq_true_eq] at h
    obtain ⟨p, hp, rfl⟩ := h
    simp only [List.mem_map]
    constructor
    · rintro ⟨q, hq, h⟩
      split at h
      · cases h; exact .inl ⟨rfl, rfl⟩
      · subst h; rename_i h; exact .inr ⟨h, hq⟩
    · rintro (⟨rfl, rfl⟩ | ⟨h1, h2⟩)
      · exact ⟨p, hp, by rw [if_pos rfl]⟩
      · exact ⟨(k, v), h2, by rw [if_neg h1]⟩
  · rename_i h
    simp only [List.any_eq_true, decide_eq_true_eq, not_exists, not_and] at h
    simp only [List.mem_append, List.mem_singleton, Prod.mk.injEq]
    constructor
    · rintro (h1 | h1)
      · exact .inr ⟨h _ h1, h1⟩
      · exact .inl h1
    · rintro (h1 | h1)
      · exact .inr h1
      · exact .inl h1.2
theorem nodup_dictSet {d : List (Str × Str)} {k0 v0 : Str} (hd : (d.map Prod.fst).Nodup) : ((Wasi.dictSet d k0 v0).map Prod.fst).Nodup := by
  unfold Wasi.dictSet
  split
  · rw [List.map_map, show (Prod.fst ∘ fun p : Str × Str => if p.1 = k0 then (k0, v0) else p) = Prod.fst by
      funext p; simp only [Function.comp]; split <;> simp_all]
    exact hd
  · rename_i h
    simp only [List.any_eq_true, decide_eq_true_eq, not_exists, not_and] at h
    rw [List.map_append, List.nodup_append]
    refine ⟨hd, by simp, ?_⟩
    intro a ha b hb e
    simp only [List.map_cons, List.map_nil, List.mem_singleton] at hb
    obtain ⟨p, hp, rfl⟩ := List.mem_map.mp ha
    exact h p hp (e.trans hb)

theorem pairs_gen {c : Char} : ∀ (l : List Str) (d : List (Str × Str)), (d.map Prod.fst).Nodup → (∀ e ∈ l, c ∈ e) →
    ∃ d', Cli.pairs c d l = .ok d' ∧ (d'.map Prod.fst).Nodup ∧ ∀ k v, (k, v) ∈ d' ↔
      (∃ pre post, l = pre ++ (k ++ c :: v) :: post ∧ c ∉ k ∧ ∀ e ∈ post, ¬ k ++ [c] <+: e) ∨
      ((k, v) ∈ d ∧ (c ∉ k → ∀ e ∈ l, ¬ k ++ [c] <+: e))
  | [], d, hd, _ => ⟨d, rfl, hd, fun k v => by simp⟩
  | e :: l, d, hd, hl => by
    obtain ⟨k0, v0, rfl, hk0⟩ := cut (hl e (by simp))
    obtain ⟨d', h1, h2, h3⟩ := pairs_gen l (Wasi.dictSet d k0 v0) (nodup_dictSet hd) fun e he => hl e (by simp [he])
    refine ⟨d', by unfold Cli.pairs; rw [split1_some hk0]; exact h1, h2, fun k v => ?_⟩
    rw [h3, mem_dictSet]
    constructor
    · rintro (⟨pre, post, rfl, h4, h5⟩ | ⟨⟨rfl, rfl⟩ | ⟨h4, h5⟩, h6⟩)
      · exact .inl ⟨_ :: pre, post, rfl, h4, h5⟩
      · exact .inl ⟨[], l, rfl, hk0, h6 hk0⟩
      · refine .inr ⟨h5, fun hk e he hp => ?_⟩
        rcases List.mem_cons.mp he with rfl | he
        · exact h4 (cut_unique hk0 hk hp)
        · exact h6 hk e he hp
    · rintro (⟨pre, post, h4, h5, h6⟩ | ⟨h4, h5⟩)
      · cases pre with
        | nil =>
          injection h4 with h7 h8
          have hk : k = k0 := cut_unique hk0 h5 ⟨v, by rw [h7]; simp⟩
          subst hk
          injection List.append_cancel_left h7 with _ h9
          subst h9 h8
          exact .inr ⟨.inl ⟨rfl, rfl⟩, fun _ => h6⟩
        | cons x pre =>
          injection h4 with _ h7
          exact .inl ⟨pre, post, h7, h5, h6⟩
      · refine .inr ⟨.inr ⟨?_, h4⟩, fun hk e he => h5 hk e (by simp [he])⟩
        rintro rfl
        exact h5 hk0 (k ++ c :: v0) (by simp) ⟨v0, by simp⟩

/-- **C80** The options `--wasi-envs key=val` (`c` is `=`) and `--wasi-dirs dir:dir` (`c` is `:`): if every one contains the separator,
each key has one value, that of its last occurrence; the key ends at the first separator. -/
theorem C80_options (c : Char) (l : List Str) (h : ∀ e ∈ l, c ∈ e) :
    ∃ d, Cli.pairs c [] l = .ok d ∧ (d.map Prod.fst).Nodup ∧ ∀ k v, (k, v) ∈ d ↔
      ∃ pre post, l = pre ++ (k ++ c :: v) :: post ∧ c ∉ k ∧ ∀ e ∈ post, ¬ k ++ [c] <+: e := by
  obtain ⟨d, h1, h2, h3⟩ := pairs_gen l [] (by simp) h
  exact ⟨d, h1, h2, fun k v => by rw [h3]; simp⟩

/-- **C80** Otherwise the program raises before it does anything. -/
theorem C80_options_bad (c : Char) (l : List Str) (d : List (Str × Str)) (h : ∃ e ∈ l, c ∉ e) : Cli.pairs c d l = .error .index := by
  induction l generalizing d with
  | nil => obtain ⟨e, he, -⟩ := h; cases he
  | cons x l ih =>
    by_cases hx : c ∈ x
    · obtain ⟨k, v, rfl, hk⟩ := cut hx
      unfold Cli.pairs
      rw [split1_some hk]
      obtain ⟨e, he, hc⟩ := h
      rcases List.mem_cons.mp he with rfl | he
      · exact absurd hx hc
      · exact ih _ ⟨e, he, hc⟩
    · unfold Cli.pairs
      rw [split1_none hx]

example : Cli.pairs '=' [] ["A=1".toList, "B=x=y".toList, "A=2".toList] = .ok [("A".toList, "2".toList), ("B".toList, "x=y".toList)] := by decide
example : Cli.pairs ':' [] ["/data:/srv".toList, "tmp".toList] = .error .index := by decide

/-! ## The arguments `--func-args` -/

theorem digit_range {c : Char} (h : c.isDigit = true) : 48 ≤ c.toNat ∧ c.toNat ≤ 57 := by
  simp only [Char.isDigit, Bool.and_eq_true, decide_eq_true_eq, ge_iff_le, UInt32.le_iff_toNat_le] at h
  exact h
theorem digit_ne {c d : Char} (h : c.isDigit = true) (hd : d.toNat < 48 ∨ 57 < d.toNat) : c ≠ d := by
  rintro rfl
  have := digit_range h
  omega
theorem digit_not_space {c : Char} (h : c.isDigit = true) : Cli.isSpace c = false := by
  have h1 := digit_ne (d := ' ') h (by decide)
  have := digit_range h
  simp only [Cli.isSpace, h1, decide_false, Bool.false_or, Bool.or_eq_false_iff, Bool.and_eq_false_iff, decide_eq_false_iff_not]
  omega

theorem digits_all : ∀ {l : List Char}, (∀ c ∈ l, c.isDigit = true) → l ≠ [] → Cli.digits l = some l
  | [], _, h => absurd rfl h
  | [c], h, _ => by simp [Cli.digits, h c (by simp)]
  | c :: d :: l, h, _ => by
    have hd : d ≠ '_' := digit_ne (h d (by simp)) (by decide)
    have ih := digits_all (l := d :: l) (fun c hc => h c (by simp [hc])) (by simp)
    unfold Cli.digits
    split
    · rename_i h1; cases h1
    · rename_i h1; cases h1
    · rename_i h1; cases h1; exact absurd rfl hd
    · rename_i h1
      cases h1
      rw [ih, if_pos (h _ (by simp))]
      rfl
theorem natOf_eq (l : List Char) : Cli.natOf l = Nat.ofDigitChars 10 l 0 := by
  rw [Nat.ofDigitChars_eq_foldl]
  unfold Cli.natOf
  congr 1
  funext n c
  rw [Nat.mul_comm]
  rfl
theorem parseNat_toDigits {n : Nat} (h : n < 10 ^ 4300) : Cli.parseNat (Nat.toDigits 10 n) = .ok n := by
  unfold Cli.parseNat
  rw [digits_all (fun c hc => Nat.isDigit_of_mem_toDigits (by decide) (by decide) hc) Nat.toDigits_ne_nil]
  dsimp only
  rw [if_pos ((Nat.length_toDigits_le_iff (by decide) (by decide)).mpr h), natOf_eq, Nat.ofDigitChars_ten_toDigits]

theorem dropWhile_id {p : Char → Bool} {l : List Char} (h : ∀ c ∈ l, p c = false) : l.dropWhile p = l := by
  cases l with
  | nil => rfl
  | cons c l => rw [List.dropWhile_cons_of_neg]; simp [h c (by simp)]
theorem strip_id {s : Str} (h : ∀ c ∈ s, Cli.isSpace c = false) : Cli.strip s = s := by
  unfold Cli.strip
  rw [dropWhile_id h, dropWhile_id (fun c hc => h c (List.mem_reverse.mp hc)), List.reverse_reverse]

theorem parseInt_numeral (n : Int) (h : n.natAbs < 10 ^ 4300) : Cli.parseInt (toString n).toList = .ok n := by
  have hd : ∀ k : Nat, ∀ c ∈ Nat.toDigits 10 k, c.isDigit = true := fun k c hc => Nat.isDigit_of_mem_toDigits (by decide) (by decide) hc
  cases n with
  | ofNat k =>
    have hs : (toString (Int.ofNat k)).toList = Nat.toDigits 10 k := by
      show (Nat.repr k).toList = _
      exact Nat.toList_repr
    rw [hs]
    unfold Cli.parseInt
    rw [strip_id fun c hc => digit_not_space (hd k c hc)]
    have hp := parseNat_toDigits (n := k) h
    split
    · rename_i l hl
      exact absurd rfl (digit_ne (d := '-') (hd k '-' (by rw [hl]; simp)) (by decide))
    · rename_i l hl
      exact absurd rfl (digit_ne (d := '+') (hd k '+' (by rw [hl]; simp)) (by decide))
    · rw [hp]; rfl
  | negSucc k =>
    have hs : (toString (Int.negSucc k)).toList = '-' :: Nat.toDigits 10 (k + 1) := by
      show ("-" ++ Nat.repr (k + 1)).toList = _
      rw [String.toList_append, Nat.toList_repr]
      rfl
    rw [hs]
    unfold Cli.parseInt
    rw [strip_id (by
      intro c hc
      rcases List.mem_cons.mp hc with rfl | hc
      · decide
      · exact digit_not_space (hd _ c hc))]
    show (Cli.parseNat (Nat.toDigits 10 (k + 1))).map (fun n : Nat => -(n : Int)) = _
    rw [parseNat_toDigits (n := k + 1) h]
    rfl

example : Cli.parseInt " -1_000 ".toList = .ok (-1000) := by decide +kernel
example : Cli.parseInt "1.5".toList = .error .value := by decide +kernel

/-! ### Integers -/

/-- The decimal digits, written out with single underscores allowed between them. -/
inductive DigitText : Str → List Nat → Prop
  | one {c : Char} {d : Nat} (h : "0123456789".toList[d]? = some c) : DigitText [c] [d]
  | more {c : Char} {d : Nat} {l : Str} {ds : List Nat} (h : "0123456789".toList[d]? = some c) (ht : DigitText l ds) : DigitText (c :: l) (d :: ds)
  | underscore {c : Char} {d : Nat} {l : Str} {ds : List Nat} (h : "0123456789".toList[d]? = some c) (ht : DigitText l ds) :
      DigitText (c :: '_' :: l) (d :: ds)

/-- The ASCII blanks of Python. -/
def Blank (c : Char) : Prop := c ∈ [' ', '\t', '\n', '\x0b', '\x0c', '\r', '\x1c', '\x1d', '\x1e', '\x1f']

/-- `s` is an integer literal for `n`: blanks, perhaps a sign, at most 4300 digits, blanks. -/
def IntText (s : Str) (n : Int) : Prop :=
  ∃ pre sign body post ds, s = pre ++ (sign ++ body) ++ post ∧ (∀ c ∈ pre, Blank c) ∧ (∀ c ∈ post, Blank c) ∧
    DigitText body ds ∧ ds.length ≤ 4300 ∧
    ((sign = [] ∨ sign = ['+']) ∧ n = (Nat.ofDigits 10 ds.reverse : Nat) ∨ sign = ['-'] ∧ n = -(Nat.ofDigits 10 ds.reverse : Nat))

theorem digit_char {c : Char} {d : Nat} (h : "0123456789".toList[d]? = some c) : c.isDigit = true ∧ c.toNat - 48 = d ∧ c ≠ '_' ∧ d < 10 := by
  have hd : d < 10 := by
    have := (List.getElem?_eq_some_iff.mp h).1
    simpa using this
  have : ∀ d < 10, ∀ c ∈ "0123456789".toList[d]?, c.isDigit = true ∧ c.toNat - 48 = d ∧ c ≠ '_' := by decide
  obtain ⟨h1, h2, h3⟩ := this d hd c h
  exact ⟨h1, h2, h3, hd⟩

theorem char_digit {c : Char} (h : c.isDigit = true) : "0123456789".toList[c.toNat - 48]? = some c := by
  obtain ⟨h1, h2⟩ := Char.isDigit_iff_toNat.mp h
  have : ∀ n, 48 ≤ n → n ≤ 57 → "0123456789".toList[n - 48]? = some (Char.ofNat n) := by
    intro n h1 h2
    interval_cases n <;> rfl
  have := this c.toNat h1 h2
  rwa [Char.ofNat_toNat] at this

theorem digits_text {s : Str} {ds : List Nat} (h : DigitText s ds) :
    ∃ l, Cli.digits s = some l ∧ l.map (fun c => c.toNat - 48) = ds := by
  induction h with
  | @one c d h =>
    obtain ⟨h1, h2, -, -⟩ := digit_char h
    exact ⟨[c], by simp only [Cli.digits, h1, if_true], by simp [h2]⟩
  | @more c d l ds h ht ih =>
    obtain ⟨h1, h2, -, -⟩ := digit_char h
    obtain ⟨r, hr, hm⟩ := ih
    have hne : ∀ x, l.head? = some x → x ≠ '_' := by
      intro x hx
      cases ht with
      | one h => cases hx; exact (digit_char h).2.2.1
      | more h => cases hx; exact (digit_char h).2.2.1
      | underscore h => cases hx; exact (digit_char h).2.2.1
    refine ⟨c :: r, ?_, by simp [h2, hm]⟩
    cases l with
    | nil => cases ht
    | cons x l =>
      rw [Cli.digits, if_pos h1, hr]
      · rfl
      · exact nofun
      · intro l' he
        injection he with he
        exact hne x rfl he
  | @underscore c d l ds h ht ih =>
    obtain ⟨h1, h2, -, -⟩ := digit_char h
    obtain ⟨r, hr, hm⟩ := ih
    exact ⟨c :: r, by rw [Cli.digits, if_pos h1, hr]; rfl, by simp [h2, hm]⟩

theorem text_digits (s : Str) : ∀ {l : List Char}, Cli.digits s = some l → DigitText s (l.map fun c => c.toNat - 48) := by
  induction s using Cli.digits.induct with
  | case1 => intro l h; cases h
  | case2 c hc =>
    intro l h
    rw [Cli.digits, if_pos hc] at h
    cases h
    exact .one (char_digit hc)
  | case3 c hc => intro l h; rw [Cli.digits, if_neg hc] at h; cases h
  | case4 c s hc ih =>
    intro l h
    rw [Cli.digits, if_pos hc] at h
    obtain ⟨r, hr, rfl⟩ := Option.map_eq_some_iff.mp h
    exact .underscore (char_digit hc) (ih hr)
  | case5 c s hc => intro l h; rw [Cli.digits, if_neg hc] at h; cases h
  | case6 c s h1 h2 hc ih =>
    intro l h
    rw [Cli.digits.eq_4 c s h1 h2, if_pos hc] at h
    obtain ⟨r, hr, rfl⟩ := Option.map_eq_some_iff.mp h
    exact .more (char_digit hc) (ih hr)
  | case7 c s h1 h2 hc =>
    intro l h
    rw [Cli.digits.eq_4 c s h1 h2, if_neg hc] at h
    cases h

theorem natOf_digits (l : List Char) : Cli.natOf l = Nat.ofDigits 10 (l.map fun c => c.toNat - 48).reverse := by
  unfold Cli.natOf
  suffices ∀ k : Nat, l.foldl (fun n c => n * 10 + (c.toNat - 48)) k = k * 10 ^ l.length + Nat.ofDigits 10 (l.map fun c => c.toNat - 48).reverse by
    simpa using this 0
  induction l with
  | nil => intro k; simp
  | cons c l ih =>
    intro k
    rw [List.foldl_cons, ih, List.map_cons, List.reverse_cons, Nat.ofDigits_append, Nat.ofDigits_singleton]
    simp only [List.length_cons, List.length_reverse, List.length_map]
    ring

theorem parseNat_iff (s : Str) (n : Nat) :
    Cli.parseNat s = .ok n ↔ ∃ ds, DigitText s ds ∧ ds.length ≤ 4300 ∧ n = Nat.ofDigits 10 ds.reverse := by
  unfold Cli.parseNat
  constructor
  · intro h
    cases hd : Cli.digits s with
    | none => rw [hd] at h; cases h
    | some l =>
      rw [hd] at h
      dsimp only at h
      split at h
      · injection h with h
        exact ⟨_, text_digits s hd, by simpa, by rw [← h, natOf_digits]⟩
      · cases h
  · rintro ⟨ds, ht, hl, rfl⟩
    obtain ⟨l, hd, rfl⟩ := digits_text ht
    rw [hd]
    simp only [List.length_map] at hl
    rw [← natOf_digits]
    exact if_pos hl

theorem blank_iff (c : Char) : Cli.isSpace c = true ↔ Blank c := by
  constructor
  · intro h
    have h' : c = ' ' ∨ (9 ≤ c.toNat ∧ c.toNat ≤ 13) ∨ 28 ≤ c.toNat ∧ c.toNat ≤ 31 := by
      simpa [Cli.isSpace, or_assoc] using h
    have key : ∀ n, (9 ≤ n ∧ n ≤ 13) ∨ (28 ≤ n ∧ n ≤ 31) → Blank (Char.ofNat n) := by
      rintro n (⟨h1, h2⟩ | ⟨h1, h2⟩) <;> interval_cases n <;> unfold Blank <;> decide
    rcases h' with rfl | h'
    · unfold Blank; decide
    · have := key c.toNat h'
      rwa [Char.ofNat_toNat] at this
  · intro h
    simp only [Blank, List.mem_cons, List.not_mem_nil, or_false] at h
    rcases h with rfl | rfl | rfl | rfl | rfl | rfl | rfl | rfl | rfl | rfl <;> decide

theorem strip_mid {pre mid post : Str} (h1 : ∀ c ∈ pre, Cli.isSpace c = true) (h2 : ∀ c ∈ post, Cli.isSpace c = true)
    (h3 : ∀ c ∈ mid, Cli.isSpace c = false) (h4 : mid ≠ []) : Cli.strip (pre ++ mid ++ post) = mid := by
  have drop : ∀ (a b : Str), (∀ c ∈ a, Cli.isSpace c = true) → (∀ c ∈ b.head?, Cli.isSpace c = false) →
      (a ++ b).dropWhile Cli.isSpace = b := by
    intro a b ha hb
    rw [List.dropWhile_append_of_pos ha]
    cases b with
    | nil => rfl
    | cons c b => rw [List.dropWhile_cons_of_neg]; simp [hb c rfl]
  unfold Cli.strip
  rw [List.append_assoc, drop pre _ h1, List.reverse_append, drop, List.reverse_reverse]
  · intro c hc; exact h2 c (List.mem_reverse.mp hc)
  · intro c hc
    exact h3 c (List.mem_reverse.mp (List.mem_of_mem_head? hc))
  · intro c hc
    rw [List.head?_append_of_ne_nil _ h4] at hc
    exact h3 c (List.mem_of_mem_head? hc)

theorem strip_split (s : Str) : ∃ pre post, s = pre ++ Cli.strip s ++ post ∧ (∀ c ∈ pre, Cli.isSpace c = true) ∧ (∀ c ∈ post, Cli.isSpace c = true) := by
  refine ⟨s.takeWhile Cli.isSpace, ((s.dropWhile Cli.isSpace).reverse.takeWhile Cli.isSpace).reverse, ?_, ?_, ?_⟩
  · unfold Cli.strip
    rw [List.append_assoc, ← List.reverse_append, List.takeWhile_append_dropWhile, List.reverse_reverse, List.takeWhile_append_dropWhile]
  · exact fun c hc => List.mem_takeWhile_imp hc
  · exact fun c hc => List.mem_takeWhile_imp (List.mem_reverse.mp hc)

theorem text_chars {s : Str} {ds : List Nat} (h : DigitText s ds) : s ≠ [] ∧ ∀ c ∈ s, c.isDigit = true ∨ c = '_' := by
  induction h with
  | one h => exact ⟨nofun, by simp [(digit_char h).1]⟩
  | more h _ ih =>
    refine ⟨nofun, fun c hc => ?_⟩
    rcases List.mem_cons.mp hc with rfl | hc
    · exact .inl (digit_char h).1
    · exact ih.2 c hc
  | underscore h _ ih =>
    refine ⟨nofun, fun c hc => ?_⟩
    rcases List.mem_cons.mp hc with rfl | hc
    · exact .inl (digit_char h).1
    · rcases List.mem_cons.mp hc with rfl | hc
      · exact .inr rfl
      · exact ih.2 c hc

theorem parseInt_iff (s : Str) (n : Int) : Cli.parseInt s = .ok n ↔ IntText s n := by
  have mp : ∀ {x : Except Err Nat} {f : Nat → Int}, x.map f = .ok n ↔ ∃ k, x = .ok k ∧ n = f k := by
    intro x f
    cases x with
    | error e => exact ⟨fun h => (by cases h), fun ⟨_, h, _⟩ => by cases h⟩
    | ok k => exact ⟨fun h => (by injection h with h; exact ⟨k, rfl, h.symm⟩), fun ⟨_, h, e⟩ => by cases h; rw [e]; rfl⟩
  constructor
  · intro h
    obtain ⟨pre, post, hs, hpre, hpost⟩ := strip_split s
    unfold Cli.parseInt at h
    split at h
    · rename_i l hl
      obtain ⟨k, hk, rfl⟩ := mp.mp h
      obtain ⟨ds, ht, hlen, rfl⟩ := (parseNat_iff _ _).mp hk
      rw [hl] at hs
      exact ⟨pre, ['-'], l, post, ds, hs, fun c hc => (blank_iff c).mp (hpre c hc), fun c hc => (blank_iff c).mp (hpost c hc), ht, hlen, .inr ⟨rfl, rfl⟩⟩
    · rename_i l hl
      obtain ⟨k, hk, rfl⟩ := mp.mp h
      obtain ⟨ds, ht, hlen, rfl⟩ := (parseNat_iff _ _).mp hk
      rw [hl] at hs
      exact ⟨pre, ['+'], l, post, ds, hs, fun c hc => (blank_iff c).mp (hpre c hc), fun c hc => (blank_iff c).mp (hpost c hc), ht, hlen, .inl ⟨.inr rfl, rfl⟩⟩
    · obtain ⟨k, hk, rfl⟩ := mp.mp h
      obtain ⟨ds, ht, hlen, rfl⟩ := (parseNat_iff _ _).mp hk
      exact ⟨pre, [], Cli.strip s, post, ds, hs, fun c hc => (blank_iff c).mp (hpre c hc), fun c hc => (blank_iff c).mp (hpost c hc), ht, hlen, .inl ⟨.inl rfl, rfl⟩⟩
  · rintro ⟨pre, sign, body, post, ds, rfl, hpre, hpost, ht, hlen, hn⟩
    obtain ⟨hne, hch⟩ := text_chars ht
    have hsp : ∀ c ∈ body, Cli.isSpace c = false := by
      intro c hc
      rcases hch c hc with h | rfl
      · exact digit_not_space h
      · decide
    have hk := (parseNat_iff body _).mpr ⟨ds, ht, hlen, rfl⟩
    have hsgn : ∀ c ∈ sign, Cli.isSpace c = false := by
      rcases hn with ⟨rfl | rfl, -⟩ | ⟨rfl, -⟩ <;> decide
    have hst : Cli.strip (pre ++ (sign ++ body) ++ post) = sign ++ body :=
      strip_mid (fun c hc => (blank_iff c).mpr (hpre c hc)) (fun c hc => (blank_iff c).mpr (hpost c hc))
        (fun c hc => (List.mem_append.mp hc).elim (hsgn c) (hsp c)) (by simp [hne])
    unfold Cli.parseInt
    rw [hst]
    rcases hn with ⟨rfl | rfl, rfl⟩ | ⟨rfl, rfl⟩
    · rw [List.nil_append]
      split
      · exact absurd (hch '-' (by simp)) (by decide)
      · exact absurd (hch '+' (by simp)) (by decide)
      · rw [hk]; rfl
    · show (Cli.parseNat body).map _ = _
      rw [hk]; rfl
    · show (Cli.parseNat body).map _ = _
      rw [hk]; rfl

/-- **C80** Integer arguments: the command line accepts exactly the decimal literals, and gives the function that number. -/
theorem C80_int_argument_exact (pf : Str → Except Err F64) {t : ValType} (ht : t = .i32 ∨ t = .i64) (s : Str) (n : Int) :
    Cli.convert pf t s = .ok (.int n) ↔ IntText s n := by
  have : Cli.convert pf t s = (Cli.parseInt s).map .int := by rcases ht with rfl | rfl <;> rfl
  rw [this, ← parseInt_iff]
  cases Cli.parseInt s with
  | error e => exact ⟨fun h => (by cases h), fun h => by cases h⟩
  | ok k => exact ⟨fun h => (by cases h; rfl), fun h => by cases h; rfl⟩

/-- **C80** In particular the numeral of every integer is read as that integer. -/
theorem C80_int_argument (pf : Str → Except Err F64) {t : ValType} (ht : t = .i32 ∨ t = .i64) (n : Int) (h : n.natAbs < 10 ^ 4300) :
    Cli.convert pf t (toString n).toList = .ok (.int n) := by
  have : Cli.convert pf t (toString n).toList = (Cli.parseInt (toString n).toList).map .int := by rcases ht with rfl | rfl <;> rfl
  rw [this, parseInt_numeral n h]
  rfl

example : IntText " -1_000 ".toList (-1000) := (parseInt_iff _ _).mp (by decide +kernel)
example : ¬ ∃ n, IntText "1.5".toList n := fun ⟨n, h⟩ => by
  have h := (parseInt_iff _ _).mpr h
  rw [show Cli.parseInt "1.5".toList = .error .value by decide +kernel] at h
  cases h

/-! ### Vectors -/

/-- Pairs of hexadecimal digits, upper or lower case, with blanks between the pairs. -/
inductive HexText : Str → Bytes → Prop
  | nil : HexText [] []
  | blank {c : Char} {l : Str} {b : Bytes} (hc : c ∈ [' ', '\t', '\n', '\x0b', '\x0c', '\r']) (h : HexText l b) : HexText (c :: l) b
  | byte {c d : Char} {x : UInt8} {l : Str} {b : Bytes}
      (hc : "0123456789abcdef".toList[x.toNat / 16]? = some c ∨ "0123456789ABCDEF".toList[x.toNat / 16]? = some c)
      (hd : "0123456789abcdef".toList[x.toNat % 16]? = some d ∨ "0123456789ABCDEF".toList[x.toNat % 16]? = some d)
      (h : HexText l b) : HexText (c :: d :: l) (x :: b)

theorem hexVal_iff (c : Char) (n : Nat) :
    Cli.hexVal c = some n ↔ "0123456789abcdef".toList[n]? = some c ∨ "0123456789ABCDEF".toList[n]? = some c := by
  constructor
  · intro h
    unfold Cli.hexVal at h
    split at h
    · rename_i hd
      cases h
      obtain ⟨h1, h2⟩ := Char.isDigit_iff_toNat.mp hd
      have : ∀ n, 48 ≤ n → n ≤ 57 → "0123456789abcdef".toList[n - 48]? = some (Char.ofNat n) := by
        intro n h1 h2
        interval_cases n <;> rfl
      have := this c.toNat h1 h2
      rw [Char.ofNat_toNat] at this
      exact .inl this
    · split at h
      · rename_i hd
        cases h
        have : ∀ n, 97 ≤ n → n ≤ 102 → "0123456789abcdef".toList[n - 97 + 10]? = some (Char.ofNat n) := by
          intro n h1 h2
          interval_cases n <;> rfl
        have := this c.toNat hd.1 hd.2
        rw [Char.ofNat_toNat] at this
        exact .inl this
      · split at h
        · rename_i hd
          cases h
          have : ∀ n, 65 ≤ n → n ≤ 70 → "0123456789ABCDEF".toList[n - 65 + 10]? = some (Char.ofNat n) := by
            intro n h1 h2
            interval_cases n <;> rfl
          have := this c.toNat hd.1 hd.2
          rw [Char.ofNat_toNat] at this
          exact .inr this
        · cases h
  · intro h
    have hn : n < 16 := by
      rcases h with h | h <;> simpa using (List.getElem?_eq_some_iff.mp h).1
    have key : ∀ n < 16, (∀ c ∈ "0123456789abcdef".toList[n]?, Cli.hexVal c = some n) ∧ ∀ c ∈ "0123456789ABCDEF".toList[n]?, Cli.hexVal c = some n := by
      decide
    rcases h with h | h
    · exact (key n hn).1 c h
    · exact (key n hn).2 c h

theorem hexBlank_iff (c : Char) : (c = ' ' || (9 ≤ c.toNat && c.toNat ≤ 13)) = true ↔ c ∈ [' ', '\t', '\n', '\x0b', '\x0c', '\r'] := by
  constructor
  · intro h
    have h' : c = ' ' ∨ (9 ≤ c.toNat ∧ c.toNat ≤ 13) := by simpa using h
    have key : ∀ n, (9 ≤ n ∧ n ≤ 13) → Char.ofNat n ∈ [' ', '\t', '\n', '\x0b', '\x0c', '\r'] := by
      rintro n ⟨h1, h2⟩; interval_cases n <;> decide
    rcases h' with rfl | h'
    · decide
    · have := key c.toNat h'
      rwa [Char.ofNat_toNat] at this
  · intro h
    simp only [List.mem_cons, List.not_mem_nil, or_false] at h
    rcases h with rfl | rfl | rfl | rfl | rfl | rfl <;> decide

theorem hexVal_lt {c : Char} {n : Nat} (h : Cli.hexVal c = some n) : n < 16 := by
  rcases (hexVal_iff c n).mp h with h | h <;> simpa using (List.getElem?_eq_some_iff.mp h).1

theorem fromHex_blank {c : Char} {l : Str} (hc : (c = ' ' || (9 ≤ c.toNat && c.toNat ≤ 13)) = true) : Cli.fromHex (c :: l) = Cli.fromHex l := by
  rw [Cli.fromHex.eq_def]
  exact if_pos hc
theorem fromHex_one {c : Char} (hc : ¬ (c = ' ' || (9 ≤ c.toNat && c.toNat ≤ 13)) = true) : Cli.fromHex [c] = .error .value := by
  rw [Cli.fromHex.eq_def]
  exact if_neg hc
theorem fromHex_pair {c d : Char} {l : Str} (hc : ¬ (c = ' ' || (9 ≤ c.toNat && c.toNat ≤ 13)) = true) :
    Cli.fromHex (c :: d :: l) = (match Cli.hexVal c, Cli.hexVal d with
      | some a, some b => (Cli.fromHex l).map fun r => UInt8.ofNat (16 * a + b) :: r
      | _, _ => .error .value) := by
  rw [Cli.fromHex.eq_def]
  exact if_neg hc

theorem fromHex_iff (s : Str) (b : Bytes) : Cli.fromHex s = .ok b ↔ HexText s b := by
  constructor
  · intro h
    induction s using Cli.fromHex.induct generalizing b with
    | case1 => cases h; exact .nil
    | case2 c l hc ih =>
      rw [fromHex_blank hc] at h
      exact .blank ((hexBlank_iff c).mp hc) (ih b h)
    | case3 c hc => rw [fromHex_one hc] at h; cases h
    | case4 c hc d l x y hy hx ih =>
      rw [fromHex_pair hc] at h
      simp only [hx, hy] at h
      cases hr : Cli.fromHex l with
      | error e => rw [hr] at h; cases h
      | ok r =>
        rw [hr] at h
        cases h
        have := hexVal_lt hx
        have := hexVal_lt hy
        have hv : (UInt8.ofNat (16 * x + y)).toNat = 16 * x + y := by
          rw [UInt8.toNat_ofNat']; omega
        refine .byte ((hexVal_iff _ _).mp ?_) ((hexVal_iff _ _).mp ?_) (ih r hr)
        · rw [hv, hx]; congr 1; omega
        · rw [hv, hy]; congr 1; omega
    | case5 c hc d l hn =>
      rw [fromHex_pair hc] at h
      split at h
      · rename_i h1 h2
        exact (hn _ _ h1 h2).elim
      · cases h
  · intro h
    induction h with
    | nil => rfl
    | blank hc _ ih => rw [fromHex_blank ((hexBlank_iff _).mpr hc), ih]
    | @byte c d x l b hc hd _ ih =>
      have h1 := (hexVal_iff c _).mpr hc
      have h2 := (hexVal_iff d _).mpr hd
      have hb : ¬ (c = ' ' || (9 ≤ c.toNat && c.toNat ≤ 13)) = true := by
        rw [hexBlank_iff]
        intro hm
        simp only [List.mem_cons, List.not_mem_nil, or_false] at hm
        rcases hm with rfl | rfl | rfl | rfl | rfl | rfl <;> cases h1
      rw [fromHex_pair hb]
      simp only [h1, h2, ih]
      rw [show 16 * (x.toNat / 16) + x.toNat % 16 = x.toNat by omega]
      simp [Except.map]

/-- **C80** Vector arguments: after a prefix of two characters, which is not looked at, the command line accepts exactly
pairs of hexadecimal digits, and gives the function these bytes. -/
theorem C80_hex_argument_exact (pf : Str → Except Err F64) (c d : Char) (s : Str) (b : Bytes) :
    Cli.convert pf .v128 (c :: d :: s) = .ok (.bytes b) ↔ HexText s b := by
  have : Cli.convert pf .v128 (c :: d :: s) = (Cli.fromHex s).map .bytes := rfl
  rw [this, ← fromHex_iff]
  cases Cli.fromHex s with
  | error e => exact ⟨fun h => (by cases h), fun h => by cases h⟩
  | ok k => exact ⟨fun h => (by cases h; rfl), fun h => by cases h; rfl⟩

/-- The hexadecimal digits of bytes. -/
def hexDigits (b : Bytes) : Str := b.flatMap fun x => [Nat.digitChar (x.toNat / 16), Nat.digitChar (x.toNat % 16)]

/-- **C80** In particular `0x` followed by the hexadecimal digits of any bytes is read as these bytes. -/
theorem C80_hex_argument (pf : Str → Except Err F64) (b : Bytes) : Cli.convert pf .v128 ("0x".toList ++ hexDigits b) = .ok (.bytes b) := by
  refine (C80_hex_argument_exact pf '0' 'x' (hexDigits b) b).mpr ?_
  have key : ∀ n < 16, "0123456789abcdef".toList[n]? = some (Nat.digitChar n) := by decide
  induction b with
  | nil => exact .nil
  | cons x b ih =>
    have hx : x.toNat < 256 := x.toNat_lt
    exact .byte (.inl (key _ (by omega))) (.inl (key _ (by omega))) ih

example : HexText "Ff 0a".toList [255, 10] := (fromHex_iff _ _).mp (by decide +kernel)

/-! ## `python -m pywasm --func NAME file` -/

variable {m m' : Machine} {N lim n : Nat} {C : Typing.Ctx} {d : ModuleDesc} {file : Bytes} {mod : ModuleInst} {o : Cli.Options}
  {pf : Str → Except Err F64}

theorem cliHost_ok (B : Nat → FuncType → Prop) : HostOk B Cli.noHost := by
  intro S s t c caller args xs _ hS _ _ _
  exact ⟨S, .refl S, hS⟩
theorem cliHost_covered (nd : Bool) : HostCovered nd Cli.noHost := by
  intro c mod xs s hs
  exact ⟨nofun, fun e s' h => by cases h; exact hs⟩

/-- What `main_wasm` does once the file has been loaded. -/
theorem mainWasm_loaded (hx : Runtime.instanceFromFile Cli.noHost lim N [] file {} = .ok mod m') :
    Cli.mainWasm pf lim N o (.ok file) {} = (do
      let addr := (← lift (findExport mod o.func)).addr
      let func ← idx (← get).store.func addr
      assert (decide (func.type.args.length = o.funcArgs.length))
      let args ← lift ((func.type.args.zip o.funcArgs).mapM fun p => Cli.convert pf p.1 p.2)
      Runtime.invocate Cli.noHost N mod o.func args : M (List HVal)) m' := by
  unfold Cli.mainWasm
  rw [bind_lift_ok, bind_ok hx]

/-- **C80** With the wrong number of arguments, nothing is called: the machine is as loading the file left it. -/
theorem C80_arity {a : Nat} {f : FuncInst} (hx : Runtime.instanceFromFile Cli.noHost lim N [] file {} = .ok mod m')
    (he : findExport mod o.func = .ok (.func a)) (hf : m'.store.func[a]? = some f) (hlen : o.funcArgs.length ≠ f.type.args.length) :
    Cli.mainWasm pf lim N o (.ok file) {} = .error .assertion m' := by
  rw [mainWasm_loaded hx, he, bind_lift_ok, bind_get_run]
  show (M.idx m'.store.func a >>= _) m' = _
  rw [bind_idx_some hf, bind_assert, if_neg (by simpa using Ne.symm hlen)]

/-- **C80** An argument that cannot be read as its type raises before anything is called. -/
theorem C80_unreadable {a : Nat} {f : FuncInst} {e : Err} (hx : Runtime.instanceFromFile Cli.noHost lim N [] file {} = .ok mod m')
    (he : findExport mod o.func = .ok (.func a)) (hf : m'.store.func[a]? = some f) (hlen : o.funcArgs.length = f.type.args.length)
    (hc : ((f.type.args.zip o.funcArgs).mapM fun p => Cli.convert pf p.1 p.2) = .error e) :
    Cli.mainWasm pf lim N o (.ok file) {} = .error e m' := by
  rw [mainWasm_loaded hx, he, bind_lift_ok, bind_get_run]
  show (M.idx m'.store.func a >>= _) m' = _
  rw [bind_idx_some hf, bind_assert, if_pos (by simp [hlen])]
  show (lift ((f.type.args.zip o.funcArgs).mapM fun p => Cli.convert pf p.1 p.2) >>= _) m' = _
  rw [hc, bind_lift_err]

theorem call_read {P : Option Bool} {r : Bytes} (hD : ModuleDesc.fromReader lim file = .ok (d, r)) (hV : ValidModule C d) (hd : CoveredBy P d) (hfew : d.func.length ≤ 2 ^ 31)
    {N₁ : Nat} (hx : ∀ N ≥ N₁, Runtime.instanceFromFile Cli.noHost lim N [] file {} = .ok mod m')
    (hr : P = none → ∃ extern, supplied [] d = some extern ∧
      StartReturns Cli.noHost (loaded {} d).store d (loadedBufs {} d) extern mod m'.store)
    {e : ExportDesc} {t : FuncType} (he : e ∈ d.exps) (hk : e.kind = .func) (hname : o.func = e.name)
    (huniq : ∀ x ∈ d.exps, x.name = e.name → x = e) (ht : C.funcs[e.desc]? = some t) (hnum : ∀ ty ∈ t.args ++ t.rets, ty.isRef = false)
    (hlen : o.funcArgs.length = t.args.length) {xs : List HVal} {args : List Val}
    (hc : ((t.args.zip o.funcArgs).mapM fun p => Cli.convert pf p.1 p.2) = .ok xs)
    (hv : ((t.args.zip xs).mapM fun p => Val.fromAll p.1 p.2) = .ok args) :
    ∃ a k code, findExport mod e.name = .ok (.func a) ∧ m'.store.func[a]? = some (.wasm t k code) ∧
      ((∃ N₀ fuel st ys, (∀ N ≥ N₀, Cli.mainWasm pf lim N o (.ok file) {} = .ok ys { store := st.store }) ∧
        Ref.invoke Cli.noHost fuel a args m'.store = .norm st ∧ st.vs.reverse.mapM Val.intoAll = .ok ys ∧ List.Forall₂ pyKind t.rets ys) ∨
      (∃ N₀ e' m1 fuel, (∀ N ≥ N₀, Cli.mainWasm pf lim N o (.ok file) {} = .error e' m1) ∧
        Ref.invoke Cli.noHost fuel a args m'.store = .trap m1.store) ∨
      (∀ N, ∃ mo m1, m'.store.mods[k]? = some mo ∧ StepsN Cli.noHost N (started m' t mo code args) m1) ∨
      (∃ mo, m'.store.mods[k]? = some mo ∧ Meets Cli.noHost (Dev P) (started m' t mo code args) ∧
        (P ≠ none → ∃ N₀ m1, ∀ N ≥ N₀, Cli.mainWasm pf lim N o (.ok file) {} = .error .overflow m1))) := by
  have hO := cliHost_ok fun _ _ => False
  have hH : ∀ nd, P = some nd → HostCovered nd Cli.noHost := fun nd _ => cliHost_covered nd
  have hfew' : ({} : Machine).store.func.length + d.func.length ≤ 2 ^ 31 := by simpa using hfew
  obtain ⟨a, f, h1, h2, h3, h4⟩ := program_read hO hH .new hD hV hd hfew' (hx N₁ (Nat.le_refl _)) hr he hk huniq ht
  have hs : Session P (fun _ _ => False) Cli.noHost m' := by
    have h5 := hx N₁ (Nat.le_refl _)
    rw [file_read hD] at h5
    exact .instance .new hV hd hfew' (m0 := loaded {} d) rfl h5 hr
  obtain ⟨-, -, S, hSB, hS⟩ := C24_session_partial hO hH hs
  have hfo := hS.code f (List.mem_of_getElem? h2)
  cases f with
  | host t' c =>
    change S.hosts c t' at hfo
    rw [hSB] at hfo
    exact hfo.elim
  | wasm t' k code =>
    change t' = t at h3
    subst h3
    have hxl : xs.length = t'.args.length := by
      have : ∀ (l : List (ValType × Str)) xs, l.mapM (fun p => Cli.convert pf p.1 p.2) = .ok xs → xs.length = l.length := by
        intro l
        induction l with
        | nil => intro xs h; cases h; rfl
        | cons p l ih =>
          intro xs h
          rw [List.mapM_cons] at h
          cases hp : Cli.convert pf p.1 p.2 with
          | error e => rw [hp] at h; cases h
          | ok x =>
            rw [hp] at h
            change ((l.mapM fun p => Cli.convert pf p.1 p.2) >>= fun r => Pure.pure (x :: r)) = _ at h
            cases hr : l.mapM fun p => Cli.convert pf p.1 p.2 with
            | error e => rw [hr] at h; cases h
            | ok r => rw [hr] at h; cases h; rw [List.length_cons, List.length_cons, ih r hr]
      rw [this _ _ hc, List.length_zip, hlen, Nat.min_self]
    have heq : ∀ N ≥ N₁, Cli.mainWasm pf lim N o (.ok file) {} = Runtime.invocate Cli.noHost N mod e.name xs m' := by
      intro N hN
      rw [mainWasm_loaded (hx N hN), hname, h1, bind_lift_ok, bind_get_run]
      show (M.idx m'.store.func a >>= _) m' = _
      rw [bind_idx_some h2, bind_assert, if_pos (by simp [FuncInst.type, hlen])]
      show (lift ((t'.args.zip o.funcArgs).mapM fun p => Cli.convert pf p.1 p.2) >>= _) m' = _
      rw [hc, bind_lift_ok]
    refine ⟨a, k, code, h1, h2, ?_⟩
    rcases h4 k code rfl hnum xs args hxl hv with ⟨N₀, fuel, st, ys, h5, h6⟩ | ⟨N₀, e', m1, fuel, h5, h6⟩ | h5 | ⟨mo, h5, h6, h7⟩
    · exact .inl ⟨max N₀ N₁, fuel, st, ys, fun N hN => by rw [heq N (by omega), h5 N (by omega)], h6⟩
    · exact .inr (.inl ⟨max N₀ N₁, e', m1, fuel, fun N hN => by rw [heq N (by omega), h5 N (by omega)], h6⟩)
    · exact .inr (.inr (.inl h5))
    · refine .inr (.inr (.inr ⟨mo, h5, h6, fun hP => ?_⟩))
      obtain ⟨N₀, m1, h7⟩ := h7 hP
      exact ⟨max N₀ N₁, m1, fun N hN => by rw [heq N (by omega), h7 N (by omega)]⟩

/-- **C80** `python -m pywasm --func NAME --func-args … file`, for a file that encodes a valid module whose instantiation returns, and an
exported function of numbers and vectors: if the arguments can be read (`xs`) and have values of the parameter types (`args`), what is
printed is what the reference interpreter computes; or the program ends with an exception exactly where the reference interpreter traps;
or it runs forever; or it meets one of the two deviations: an `i64.div_u` with a quotient of `2^63` or more, where it raises `OverflowError`,
and, unless the module is known to have none, a branch to a function's own label.  Python's `float` is the arbitrary function `pf`.
Missing: as in `C79_program_partial`. -/
theorem C80_call_partial {P : Option Bool} (hE : EncModule d n file) (hn : n ≤ 32)
    (hl : ∀ e ∈ exprs d, nestL e < lim) (hV : ValidModule C d) (hd : CoveredBy P d) (hfew : d.func.length ≤ 2 ^ 31)
    {N₁ : Nat} (hx : ∀ N ≥ N₁, Runtime.instanceFromFile Cli.noHost lim N [] file {} = .ok mod m')
    (hr : P = none → ∃ extern, supplied [] d = some extern ∧
      StartReturns Cli.noHost (loaded {} d).store d (loadedBufs {} d) extern mod m'.store)
    {e : ExportDesc} {t : FuncType} (he : e ∈ d.exps) (hk : e.kind = .func) (hname : o.func = e.name)
    (huniq : ∀ x ∈ d.exps, x.name = e.name → x = e) (ht : C.funcs[e.desc]? = some t) (hnum : ∀ ty ∈ t.args ++ t.rets, ty.isRef = false)
    (hlen : o.funcArgs.length = t.args.length) {xs : List HVal} {args : List Val}
    (hc : ((t.args.zip o.funcArgs).mapM fun p => Cli.convert pf p.1 p.2) = .ok xs)
    (hv : ((t.args.zip xs).mapM fun p => Val.fromAll p.1 p.2) = .ok args) :
    ∃ a k code, findExport mod e.name = .ok (.func a) ∧ m'.store.func[a]? = some (.wasm t k code) ∧
      ((∃ N₀ fuel st ys, (∀ N ≥ N₀, Cli.mainWasm pf lim N o (.ok file) {} = .ok ys { store := st.store }) ∧
        Ref.invoke Cli.noHost fuel a args m'.store = .norm st ∧ st.vs.reverse.mapM Val.intoAll = .ok ys ∧ List.Forall₂ pyKind t.rets ys) ∨
      (∃ N₀ e' m1 fuel, (∀ N ≥ N₀, Cli.mainWasm pf lim N o (.ok file) {} = .error e' m1) ∧
        Ref.invoke Cli.noHost fuel a args m'.store = .trap m1.store) ∨
      (∀ N, ∃ mo m1, m'.store.mods[k]? = some mo ∧ StepsN Cli.noHost N (started m' t mo code args) m1) ∨
      (∃ mo, m'.store.mods[k]? = some mo ∧ Meets Cli.noHost (Dev P) (started m' t mo code args) ∧
        (P ≠ none → ∃ N₀ m1, ∀ N ≥ N₀, Cli.mainWasm pf lim N o (.ok file) {} = .error .overflow m1))) :=
  call_read (C30_decode_inverts_encoding_partial lim d n file hE hn hl) hV hd hfew hx hr he hk hname huniq ht hnum hlen hc hv

/-! ## `python -m pywasm --wasi preview1 file` -/

section wasi
open Wasi

variable {os : Os} {fds : Int × Int × Int} {names : Str × Str × Str}

theorem closeAll_config : ∀ (n i : Nat) (s : St), SameConfig s (after (closeAll os n i) s)
  | 0, _, s => .refl s
  | n + 1, i, s => by
    unfold closeAll
    rw [after_bind]
    have h1 : ∀ (k : Int) (s : St), after (Wasi.file k) s = s := by
      intro k s
      unfold after Wasi.file
      rw [Wasi.bind_get]
      cases Py.getItem s.fd k <;> rfl
    have h2 := h1 i s
    unfold after at h2
    cases hf : Wasi.file i s with
    | error e t => rw [hf] at h2; dsimp only at h2 ⊢; rw [h2]; exact .refl s
    | ok f t =>
      rw [hf] at h2
      dsimp only at h2 ⊢
      rw [h2]
      split
      · exact closeAll_config n (i + 1) s
      · split
        · rw [after_bind, sys_run]
          cases os.run s.log (.close f.hostFd) with
          | error e => exact ⟨rfl, rfl, rfl, rfl⟩
          | ok u =>
            dsimp only
            rw [after_bind]
            unfold Wasi.setFile
            rw [Wasi.bind_get]
            cases hs : Py.setItem (s.event (.close f.hostFd) (.ok u)).fd i { f with hostOpen := false } with
            | error e => exact ⟨rfl, rfl, rfl, rfl⟩
            | ok l =>
              have := closeAll_config n (i + 1) { s.event (.close f.hostFd) (.ok u) with fd := l }
              exact ⟨this.args, this.ndirs, this.envs, this.exit⟩
        · exact closeAll_config n (i + 1) s
theorem rewind_config : ∀ (l : List File) (s : St), SameConfig s (after (rewind os l) s)
  | [], s => .refl s
  | f :: l, s => by
    unfold rewind
    cases f.pipe with
    | none => exact rewind_config l s
    | some p =>
      dsimp only
      rw [after_bind, sys_run]
      cases os.run s.log (.pipeSeek p) with
      | error e => exact ⟨rfl, rfl, rfl, rfl⟩
      | ok u =>
        have := rewind_config l (s.event (.pipeSeek p) (.ok u))
        exact ⟨this.args, this.ndirs, this.envs, this.exit⟩
theorem finish_config (s : St) : SameConfig s (after (Wasi.finish os) s) := by
  unfold Wasi.finish
  rw [after_bind, Wasi.get_run]
  dsimp only
  rw [after_bind]
  have h1 := rewind_config (os := os) (Py.slice s.fd 1 3) s
  unfold after at h1
  cases h : rewind os (Py.slice s.fd 1 3) s with
  | error e t => rw [h] at h1; exact h1
  | ok u t =>
    rw [h] at h1
    dsimp only at h1 ⊢
    rw [after_bind, Wasi.get_run]
    exact h1.trans (closeAll_config _ _ t)

theorem cliHost_apart : Apart Cli.noHost := ⟨nofun, fun _ _ _ _ _ _ h => by cases h; exact ⟨rfl, rfl⟩⟩

theorem keeps_config {A E : List Str} {H : Host} (hH : Apart H) : HostW (fun w => w.args = A ∧ w.envs = E) (host os H) := by
  intro k mo xs s hs
  rcases host_cases (os := os) (H := H) k mo xs with ⟨c, t, -, -, h⟩ | ⟨j, h⟩ | h
  · rw [h]
    have hc := SameConfig.change (change_call os c (s.wasi.st (callerMem mo s)))
    unfold after at hc
    unfold runCall
    cases hr : c.run os (s.wasi.st (callerMem mo s)) with
    | ok r t =>
      rw [hr] at hc
      exact ⟨fun r s' h => by cases h; exact ⟨hc.args.trans hs.1, hc.envs.trans hs.2⟩, nofun⟩
    | error e t =>
      rw [hr] at hc
      exact ⟨nofun, fun e s' h => by cases h; exact ⟨hc.args.trans hs.1, hc.envs.trans hs.2⟩⟩
  · rw [h]
    exact ⟨fun r s' hr => by rw [hH.ok _ _ _ _ _ _ hr]; exact hs, fun e s' hr => by rw [(hH.err _ _ _ _ _ _ hr).1]; exact hs⟩
  · rw [h]
    exact ⟨nofun, fun e s' hr => by cases hr; exact hs⟩

theorem keeps_main {A E : List Str} {H : Host} (hH : Apart H) (mo : ModuleInst) : KeepsW (fun w => w.args = A ∧ w.envs = E) (main os H N mo) := by
  intro m hm
  have h1 := KeepsW.final (KeepsW.runtimeInvocate (keeps_config (os := os) hH) N mo "_start" []) m hm
  have h2 : (final (start (host os H) N mo) m).store.wasi = (final (Runtime.invocate (host os H) N mo "_start" []) m).store.wasi := by
    unfold final start
    cases Runtime.invocate (host os H) N mo "_start" [] m with
    | ok r m1 => rfl
    | error e m1 => cases e <;> rfl
  have h3 := main_world (os := os) (H := H) (N := N) mo m
  have h4 := finish_config (os := os) ((final (start (host os H) N mo) m).store.wasi.st none)
  have h5 : (final (main os H N mo) m).store.wasi.args = A ∧ (final (main os H N mo) m).store.wasi.envs = E := by
    rw [h3]
    refine ⟨h4.args.trans ?_, h4.envs.trans ?_⟩
    · show (final (start (host os H) N mo) m).store.wasi.args = A
      rw [h2]; exact h1.1
    · show (final (start (host os H) N mo) m).store.wasi.envs = E
      rw [h2]; exact h1.2
  unfold Wp
  unfold final at h5
  cases h6 : main os H N mo m with
  | ok z m1 => rw [h6] at h5; exact h5
  | error e m1 => rw [h6] at h5; exact h5

theorem keeps_bindRows {P : World → Prop} : ∀ (l : List (String × FuncType)) (i : Nat), KeepsW P (bindRows l i)
  | [], _ => .pure _
  | (n, t) :: l, i => by
    unfold bindRows
    exact (KeepsW.allocateFuncHost t i).bind fun _ => (keeps_bindRows l (i + 1)).bind fun _ => .pure _
theorem keeps_bind {P : World → Prop} (imports : Imports) : KeepsW P (Wasi.bind imports) :=
  (keeps_bindRows table 0).bind fun _ => .pure _
theorem keeps_file {P : World → Prop} {H : Host} (hH : HostW P H) (imports : Imports) (file : Bytes) :
    KeepsW P (Runtime.instanceFromFile H lim N imports file) :=
  (KeepsW.lift _).bind fun _ => (KeepsW.loadBuffers _).bind fun _ => KeepsW.runtimeInstance hH N imports _ _

/-- What `main_wasi` does when the options can be read and the directories can be opened. -/
theorem mainWasi_eq {dirs envs : List (Str × Str)} {s0 : St} {content : Except Err Bytes} (h1 : Cli.pairs ':' [] o.wasiDirs = .ok dirs)
    (h2 : Cli.pairs '=' [] o.wasiEnvs = .ok envs) (h3 : Wasi.init os (o.file :: o.wasiArgs) dirs envs fds names = (.ok (), s0)) :
    Cli.mainWasi os fds names lim N o content {} = (do
      let imports ← Wasi.bind []
      let file ← lift content
      let mod ← Runtime.instanceFromFile (Wasi.host os Cli.noHost) lim N imports file
      Wasi.main os Cli.noHost N mod : M Int) { store := { wasi := s0.world } } := by
  unfold Cli.mainWasi
  rw [h1, bind_lift_ok, h2, bind_lift_ok]
  have h4 : Cli.preview1 os (o.file :: o.wasiArgs) dirs envs fds names {} = .ok () { store := { wasi := s0.world } } := by
    unfold Cli.preview1
    rw [h3]
  rw [bind_ok h4]

/-- **C80** The guest's arguments are the file name and the `--wasi-args`, and its environment is what the `--wasi-envs` say, at every moment
of the run (the run may be stopped after any number `N` of instructions), whatever the guest does. -/
theorem C80_environment {dirs envs : List (Str × Str)} {s0 : St} (content : Except Err Bytes) (h1 : Cli.pairs ':' [] o.wasiDirs = .ok dirs)
    (h2 : Cli.pairs '=' [] o.wasiEnvs = .ok envs) (h3 : Wasi.init os (o.file :: o.wasiArgs) dirs envs fds names = (.ok (), s0)) :
    (final (Cli.mainWasi os fds names lim N o content) {}).store.wasi.args = o.file :: o.wasiArgs ∧
    (final (Cli.mainWasi os fds names lim N o content) {}).store.wasi.envs.Perm (envs.map fun p => p.1 ++ '=' :: p.2) := by
  have hg := wasi_args_given os (o.file :: o.wasiArgs) dirs envs fds names s0 (by rw [h3]; exact .refl _)
  have hk : KeepsW (fun w => w.args = s0.args ∧ w.envs = s0.envs) (do
      let imports ← Wasi.bind []
      let file ← lift content
      let mod ← Runtime.instanceFromFile (Wasi.host os Cli.noHost) lim N imports file
      Wasi.main os Cli.noHost N mod : M Int) :=
    (keeps_bind []).bind fun imports => (KeepsW.lift content).bind fun file =>
      (keeps_file (keeps_config cliHost_apart) imports file).bind fun mo => keeps_main cliHost_apart mo
  have := KeepsW.final hk { store := { wasi := s0.world } } ⟨rfl, rfl⟩
  have he : final (Cli.mainWasi os fds names lim N o content) {} = final (do
      let imports ← Wasi.bind []
      let file ← lift content
      let mod ← Runtime.instanceFromFile (Wasi.host os Cli.noHost) lim N imports file
      Wasi.main os Cli.noHost N mod : M Int) { store := { wasi := s0.world } } := by
    unfold final
    rw [mainWasi_eq h1 h2 h3]
  rw [he, this.1, this.2]
  exact hg

theorem ownHost_ok (B : Nat → FuncType → Prop) : HostOk B (own Cli.noHost) := by
  intro S s t c caller args xs _ hS _ _ _
  unfold own
  by_cases hc : c < 46
  · rw [if_pos hc]; exact ⟨S, .refl S, hS⟩
  · rw [if_neg hc]; exact ⟨S, .refl S, hS⟩

theorem bind_new (w : World) : ∃ imports m1, Wasi.bind [] { store := { wasi := w } } = .ok imports m1 ∧ m1.store.func.length = 46 := by
  unfold Wasi.bind
  rw [bind_ok (bindRows_run table 0 _)]
  refine ⟨_, _, rfl, ?_⟩
  show ([] ++ List.zipWith _ _ _ : List FuncInst).length = 46
  rw [List.nil_append, List.length_zipWith, List.length_range]
  decide

theorem wasi_read {P : Option Bool} {dirs envs : List (Str × Str)} {s0 : St} (h1 : Cli.pairs ':' [] o.wasiDirs = .ok dirs)
    (h2 : Cli.pairs '=' [] o.wasiEnvs = .ok envs) (h3 : Wasi.init os (o.file :: o.wasiArgs) dirs envs fds names = (.ok (), s0))
    {r : Bytes} (hD : ModuleDesc.fromReader lim file = .ok (d, r)) (hV : ValidModule C d) (hd : CoveredBy P d)
    (hfew : d.func.length + 46 ≤ 2 ^ 31) {e : ExportDesc} (he : e ∈ d.exps) (hk : e.kind = .func) (hname : e.name = "_start")
    (huniq : ∀ x ∈ d.exps, x.name = e.name → x = e) (ht : C.funcs[e.desc]? = some ⟨[], []⟩) :
    ∃ imports m1, Wasi.bind [] { store := { wasi := s0.world } } = .ok imports m1 ∧
      (∀ N, Cli.mainWasi os fds names lim N o (.ok file) {} =
        (Runtime.instanceFromFile (host os Cli.noHost) lim N imports file >>= fun mod => main os Cli.noHost N mod) m1) ∧
      ∀ N mod m2, Runtime.instanceFromFile (host os Cli.noHost) lim N imports file m1 = .ok mod m2 →
        (P = none → ∃ extern, supplied imports d = some extern ∧
          StartReturns (host os Cli.noHost) (loaded m1 d).store d (loadedBufs m1 d) extern mod m2.store) →
        ∃ a f, findExport mod "_start" = .ok (.func a) ∧ m2.store.func[a]? = some f ∧
          ∀ k code, f = .wasm ⟨[], []⟩ k code → MainOutcome P os Cli.noHost mod m2 a k code := by
  obtain ⟨imports, m1, hb, hlen⟩ := bind_new s0.world
  have hO := wasi_host_ok (os := os) (B := WasiTypes) (H := Cli.noHost) (fun _ _ _ h => h) (ownHost_ok _)
  have hH : ∀ nd, P = some nd → HostCovered nd (host os Cli.noHost) := fun nd _ => wasi_host_covered (os := os) (cliHost_covered nd)
  have hs1 : Session P WasiTypes (host os Cli.noHost) m1 := session_bind (fun _ _ h => h) (.preview1 s0.world .new) (by show 0 + 46 ≤ 2 ^ 31; decide) hb
  refine ⟨imports, m1, hb, fun N => ?_, ?_⟩
  · rw [mainWasi_eq h1 h2 h3, bind_ok hb, bind_lift_ok]
  · intro N mod m2 hx hr
    obtain ⟨a, f, h4, h5, h6, -⟩ := program_read hO hH hs1 hD hV hd (by omega) hx hr he hk huniq ht
    rw [hname] at h4
    refine ⟨a, f, h4, h5, ?_⟩
    rintro k code rfl
    have hs2 : Session P WasiTypes (host os Cli.noHost) m2 := by
      rw [file_read hD] at hx
      exact .instance hs1 hV hd (by omega) (m0 := loaded m1 d) rfl hx hr
    exact C81_main_partial (fun _ _ _ h => h) (ownHost_ok _) (fun nd _ => cliHost_covered nd) hs2 h4 h5

/-- **C80** `python -m pywasm --wasi preview1 file`, for options that can be read, directories that can be opened, and a file that encodes a
valid module: the WASI functions are bound (`m1`) and the file is loaded; once that has returned (`m2`), the exported `_start` is run with
the outcomes of `C81_main_partial`, and the exit code is the one `Preview1.main` returns.
Missing: as in `C79_program_partial` and `C81_main_partial`. -/
theorem C80_wasi_partial {P : Option Bool} {dirs envs : List (Str × Str)} {s0 : St} (h1 : Cli.pairs ':' [] o.wasiDirs = .ok dirs)
    (h2 : Cli.pairs '=' [] o.wasiEnvs = .ok envs) (h3 : Wasi.init os (o.file :: o.wasiArgs) dirs envs fds names = (.ok (), s0))
    (hE : EncModule d n file) (hn : n ≤ 32) (hl : ∀ e ∈ exprs d, nestL e < lim) (hV : ValidModule C d) (hd : CoveredBy P d)
    (hfew : d.func.length + 46 ≤ 2 ^ 31) {e : ExportDesc} (he : e ∈ d.exps) (hk : e.kind = .func) (hname : e.name = "_start")
    (huniq : ∀ x ∈ d.exps, x.name = e.name → x = e) (ht : C.funcs[e.desc]? = some ⟨[], []⟩) :
    ∃ imports m1, Wasi.bind [] { store := { wasi := s0.world } } = .ok imports m1 ∧
      (∀ N, Cli.mainWasi os fds names lim N o (.ok file) {} =
        (Runtime.instanceFromFile (host os Cli.noHost) lim N imports file >>= fun mod => main os Cli.noHost N mod) m1) ∧
      ∀ N mod m2, Runtime.instanceFromFile (host os Cli.noHost) lim N imports file m1 = .ok mod m2 →
        (P = none → ∃ extern, supplied imports d = some extern ∧
          StartReturns (host os Cli.noHost) (loaded m1 d).store d (loadedBufs m1 d) extern mod m2.store) →
        ∃ a f, findExport mod "_start" = .ok (.func a) ∧ m2.store.func[a]? = some f ∧
          ∀ k code, f = .wasm ⟨[], []⟩ k code → MainOutcome P os Cli.noHost mod m2 a k code :=
  wasi_read h1 h2 h3 (C30_decode_inverts_encoding_partial lim d n file hE hn hl) hV hd hfew he hk hname huniq ht

end wasi

/-! ## Non-vacuity -/

/-- `python -m pywasm --func f --func-args 21 twice.wasm` -/
def twiceOptions (l : List String) : Cli.Options where
  file := "twice.wasm".toList
  func := "f"
  funcArgs := l.map String.toList

def noFloat : Str → Except Err F64 := fun _ => .error .value

example : (match Cli.mainWasm noFloat 3 1000 (twiceOptions ["21"]) (.ok twiceFile) {} with | .ok r _ => some r | .error _ _ => none) =
    some [.int 42] := by decide +kernel
example : (match Cli.mainWasm noFloat 3 1000 (twiceOptions []) (.ok twiceFile) {} with | .ok _ _ => none | .error e _ => some e) =
    some .assertion := by decide +kernel
example : (match Cli.mainWasm noFloat 3 1000 (twiceOptions ["2x"]) (.ok twiceFile) {} with | .ok _ _ => none | .error e _ => some e) =
    some .value := by decide +kernel

/-- What instantiating the module of the file returns. -/
def twiceInst : ModuleInst := { type := [⟨[.i32], [.i32]⟩], func := [0], exps := [⟨"f", .func 0⟩] }
theorem twice_loads : ∃ m', (∀ N, Runtime.instanceFromFile Cli.noHost 3 N [] twiceFile {} = .ok twiceInst m') ∧
    m'.store.func = [.wasm ⟨[.i32], [.i32]⟩ 0 ⟨0, [], [.localGet 0, .localGet 0, .num (.int .i32_add)]⟩] := by
  have hl : ∀ e ∈ exprs twiceModule, nestL e < 3 := by decide +kernel
  refine ⟨final (Runtime.instance Cli.noHost 0 [] twiceModule (loadedBufs {} twiceModule)) (loaded {} twiceModule), fun N => ?_, rfl⟩
  rw [file_run twice_encoding (by decide) hl]
  rfl


example := C80_arity (pf := noFloat) (o := twiceOptions []) (twice_loads.choose_spec.1 5) (a := 0) rfl
  (by rw [twice_loads.choose_spec.2]; rfl) (by decide)
example := C80_unreadable (pf := noFloat) (o := twiceOptions ["2x"]) (e := .value) (twice_loads.choose_spec.1 5) (a := 0) rfl
  (by rw [twice_loads.choose_spec.2]; rfl) (by decide) (by decide +kernel)
example := C80_call_partial (P := none) (pf := noFloat) (o := twiceOptions ["21"]) twice_encoding (by decide) (by decide +kernel) twice_valid
  (coveredBy_none _) (by decide) (N₁ := 0) (fun N _ => twice_loads.choose_spec.1 N) (fun _ => ⟨[], rfl, nofun⟩) (e := ⟨"f", .func, 0⟩) (by decide) rfl rfl
  (by decide) rfl (by decide) rfl (xs := [.int 21]) (args := [⟨.i32, 21 :: List.replicate 15 0, rfl⟩]) (by decide +kernel) rfl

/-- `(module (import "wasi_snapshot_preview1" "proc_exit" (func (param i32))) (func (export "_start") i32.const 7 call 0))` -/
def quitModule : ModuleDesc where
  type := [⟨[.i32], []⟩, ⟨[], []⟩]
  imps := [⟨"wasi_snapshot_preview1", "proc_exit", .func 0⟩]
  func := [⟨1, [], [.i32Const 7, .call 0]⟩]
  exps := [⟨"_start", .func, 1⟩]

def quitImport : Bytes :=
  ([0x16] ++ "wasi_snapshot_preview1".toUTF8.data.toList) ++ ([0x09] ++ "proc_exit".toUTF8.data.toList) ++ [0x00, 0x00]

def quitFile : Bytes :=
  [0x00, 0x61, 0x73, 0x6D, 0x01, 0x00, 0x00, 0x00] ++
  ([0x01, 0x08, 0x02, 0x60, 0x01, 0x7F, 0x00, 0x60, 0x00, 0x00] ++
  ([0x02, 0x24, 0x01] ++ quitImport ++
  ([0x03, 0x02, 0x01, 0x01] ++
  ([0x07, 0x0A, 0x01, 0x06, 0x5F, 0x73, 0x74, 0x61, 0x72, 0x74, 0x00, 0x01] ++
  [0x0A, 0x08, 0x01, 0x06, 0x00, 0x41, 0x07, 0x10, 0x00, 0x0B]))))

theorem quit_encoding : EncModule quitModule 5 quitFile := by
  have u (b : UInt8) (h : b.toNat < 128 := by decide) : U b.toNat [b] := u_byte h
  refine ⟨_, ?_, rfl⟩
  refine .sect (id := 1) (c := [0x02, 0x60, 0x01, 0x7F, 0x00, 0x60, 0x00, 0x00]) ?_ ⟨[0x08], u 8, by decide, rfl⟩ ?_
  · exact ⟨[0x02], [[0x60, 0x01, 0x7F, 0x00], [0x60, 0x00, 0x00]], u 2,
      .cons ⟨[0x01, 0x7F], [0x00], ⟨[0x01], [[0x7F]], u 1, .cons rfl .nil, rfl⟩, ⟨[0x00], [], u 0, .nil, rfl⟩, rfl⟩
      (.cons ⟨[0x00], [0x00], ⟨[0x00], [], u 0, .nil, rfl⟩, ⟨[0x00], [], u 0, .nil, rfl⟩, rfl⟩ .nil), rfl⟩
  refine .sect (id := 2) (c := [0x01] ++ quitImport) ?_ ⟨[0x24], by
    show U (([0x01] ++ quitImport : Bytes).length) _
    rw [show ([0x01] ++ quitImport : Bytes).length = 36 by decide +kernel]; exact u 36, by decide, rfl⟩ ?_
  · refine ⟨[0x01], [quitImport], u 1, .cons ⟨[0x16] ++ "wasi_snapshot_preview1".toUTF8.data.toList, [0x09] ++ "proc_exit".toUTF8.data.toList, [0x00, 0x00],
      ⟨[0x16], ?_, rfl⟩, ⟨[0x09], ?_, rfl⟩, .func (u 0), rfl⟩ .nil, ?_⟩
    · rw [show "wasi_snapshot_preview1".toUTF8.size = 22 by decide +kernel]; exact u 22
    · rw [show "proc_exit".toUTF8.size = 9 by decide +kernel]; exact u 9
    · simp
  refine .sect (id := 3) (c := [0x01, 0x01]) ?_ ⟨[0x02], u 2, by decide, rfl⟩ ?_
  · exact ⟨[0x01], [[0x01]], u 1, .cons (u 1) .nil, rfl⟩
  refine .skip rfl (.skip rfl (.skip rfl ?_))
  refine .sect (id := 7) (c := [0x01, 0x06, 0x5F, 0x73, 0x74, 0x61, 0x72, 0x74, 0x00, 0x01]) ?_ ⟨[0x0A], u 10, by decide, rfl⟩ ?_
  · exact ⟨[0x01], [[0x06, 0x5F, 0x73, 0x74, 0x61, 0x72, 0x74, 0x00, 0x01]], u 1,
      .cons ⟨[0x06, 0x5F, 0x73, 0x74, 0x61, 0x72, 0x74], [0x01], ⟨[0x06], u 6, by decide +kernel⟩, u 1, rfl⟩ .nil, rfl⟩
  refine .skip rfl (.skip rfl (.skip trivial ?_))
  refine .sect (id := 10) (c := [0x01, 0x06, 0x00, 0x41, 0x07, 0x10, 0x00, 0x0B]) (b := []) ?_ ⟨[0x08], u 8, by decide, rfl⟩ ?_
  · refine ⟨[0x01], [[0x06, 0x00, 0x41, 0x07, 0x10, 0x00, 0x0B]], u 1, .cons ⟨by decide +kernel, [0x06], [0x00], [0x41, 0x07, 0x10, 0x00, 0x0B],
      ⟨[0x00], [], u 0, .nil, rfl⟩, ?_, u 6, rfl⟩ .nil, rfl⟩
    refine ⟨[0x41, 0x07, 0x10, 0x00], ?_, rfl⟩
    have hc : EncI (.i32Const 7) [0x41, 0x07] := .leaf (.i32Const (op := [0x41]) (.byte rfl) ⟨⟨[], 7, rfl, nofun, by decide⟩, by decide +kernel⟩)
    exact .cons (a := [0x41, 0x07]) hc (.cons (a := [0x10, 0x00]) (b := []) (.leaf (.call (op := [0x10]) (.byte rfl) (u 0))) .nil)
  exact .skip rfl .nil

def quitCtx : Typing.Ctx where
  types := [⟨[.i32], []⟩, ⟨[], []⟩]
  funcs := [⟨[.i32], []⟩, ⟨[], []⟩]
  tables := []
  mems := 0
  globals := []
  elems := []
  datas := 0

theorem quit_valid : ValidModule quitCtx quitModule where
  types := rfl
  funcs := .cons rfl (.cons rfl .nil)
  tables := rfl
  mems := rfl
  globals := rfl
  elems := rfl
  datas := rfl
  code := by
    intro f hf t ht
    simp only [quitModule, List.mem_cons, List.not_mem_nil, or_false] at hf
    subst hf
    cases ht
    refine .cons [] (.i32Const (by decide)) ?_
    exact .cons (a := [.i32]) (b := []) [] (.call (t := ⟨[.i32], []⟩) rfl) (.nil _)
  table := nofun
  mem := nofun
  glob := nofun
  elem := nofun
  activeElem := nofun
  activeData := nofun
  limits := ⟨nofun, nofun⟩
  refs := nofun
  exps := by intro e he; simp [quitModule] at he; subst he; show _ < 2; decide
  start := nofun

/-- `python -m pywasm --wasi preview1 --wasi-dirs d:/ --wasi-envs A=B=C quit.wasm x` -/
def quitOptions : Cli.Options where
  file := "quit.wasm".toList
  wasiEnvs := ["A=B=C".toList]
  wasiDirs := ["d:/".toList]
  wasiArgs := ["x".toList]

def quitSt : Wasi.St := (Wasi.init (demoOs .dir) ["quit.wasm".toList, "x".toList] [("d".toList, "/".toList)] [("A".toList, "B=C".toList)] (0, 1, 2)
  ("a".toList, "b".toList, "c".toList)).2
theorem quit_init : Wasi.init (demoOs .dir) ["quit.wasm".toList, "x".toList] [("d".toList, "/".toList)] [("A".toList, "B=C".toList)] (0, 1, 2)
  ("a".toList, "b".toList, "c".toList) = (.ok (), quitSt) := by
  have : (Wasi.init (demoOs .dir) ["quit.wasm".toList, "x".toList] [("d".toList, "/".toList)] [("A".toList, "B=C".toList)] (0, 1, 2)
    ("a".toList, "b".toList, "c".toList)).1 = .ok () := by decide +kernel
  exact Prod.ext this rfl

/-- The program asks to exit with 7. -/
example : (match Cli.mainWasi (demoOs .dir) (0, 1, 2) ("a".toList, "b".toList, "c".toList) 3 1000 quitOptions (.ok quitFile) {} with
    | .ok r _ => some r | .error _ _ => none) = some 7 := by decide +kernel

example := C80_environment (N := 7) (lim := 3) (o := quitOptions) (.ok quitFile) (by decide +kernel) (by decide +kernel) quit_init
example := C80_wasi_partial (P := none) (lim := 3) (o := quitOptions) (by decide +kernel) (by decide +kernel) quit_init quit_encoding (by decide)
  (by decide +kernel) quit_valid (coveredBy_none _) (by decide) (e := ⟨"_start", .func, 1⟩) (by decide) rfl rfl (by decide) rfl

end Pywasm.Props
