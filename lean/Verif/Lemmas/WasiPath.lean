import Verif.Spec.WasiPath
import Verif.Lemmas.WasiOpen
import Verif.Lemmas.Decode
import Verif.Lemmas.WasiLive

/-!
# Paths: `join`, `normpath` and the escape check
-/

namespace Pywasm.Wasi
open WasiSpec

/-! ## Names in guest memory -/

theorem decodeUtf8_encode (s : Str) : Py.decodeUtf8 (Py.encodeUtf8 s) = .ok (String.ofList s) := by
  rw [← decodeUtf8_toUTF8 (String.ofList s)]
  congr 1
  have : (String.ofList s).toUTF8 = (Py.encodeUtf8 s).toByteArray := by
    show (String.ofList s).toByteArray = _
    rw [String.toByteArray_ofList]; rfl
  rw [this]
  simp [List.data_toByteArray]

theorem getName_run {s : St} {p n : Nat} {name : Str} (h : InMem s p n)
    (hn : Spec.range (bytes s) p n = Py.encodeUtf8 name) : getName p n s = .ok name s := by
  unfold getName
  rw [bind_ok (getB_run h), hn, decodeUtf8_encode, bind_ok (lift_ok _ _)]
  simp [pure_run]

/-! ## Lexical -/

theorem pieces_ne (s : Str) : pieces s ≠ [] := by
  cases s with
  | nil => simp [pieces]
  | cons c r =>
    unfold pieces
    split
    · simp
    · split <;> simp

theorem splitSlash_eq (s : Str) : Py.splitSlash s = pieces s := by
  induction s with
  | nil => rfl
  | cons c r ih =>
    unfold Py.splitSlash pieces
    rw [ih]
    split
    · rfl
    · cases pieces r <;> rfl

theorem pieces_noSlash {c : Str} (h : '/' ∉ c) : pieces c = [c] := by
  induction c with
  | nil => rfl
  | cons a r ih =>
    have ha : a ≠ '/' := fun e => h (by simp [e])
    have hr : '/' ∉ r := fun e => h (by simp [e])
    unfold pieces
    rw [if_neg ha, ih hr]

theorem pieces_append {c r : Str} (h : '/' ∉ c) : pieces (c ++ '/' :: r) = c :: pieces r := by
  induction c with
  | nil => simp [pieces]
  | cons a c ih =>
    have ha : a ≠ '/' := fun e => h (by simp [e])
    have hr : '/' ∉ c := fun e => h (by simp [e])
    show pieces (a :: (c ++ '/' :: r)) = _
    rw [pieces, if_neg ha, ih hr]

theorem mem_pieces {s p : Str} (h : p ∈ pieces s) : '/' ∉ p := by
  induction s generalizing p with
  | nil => simp [pieces] at h; subst h; simp
  | cons c r ih =>
    unfold pieces at h
    split at h
    · rcases List.mem_cons.mp h with rfl | h
      · simp
      · exact ih h
    · rename_i hc
      split at h
      · rename_i e; exact absurd e (pieces_ne r)
      · rename_i w ws e
        rcases List.mem_cons.mp h with rfl | h
        · have := ih (p := w) (by rw [e]; simp)
          intro hh
          rcases List.mem_cons.mp hh with hh | hh
          · exact hc hh.symm
          · exact this hh
        · exact ih (by rw [e]; simp [h])

/-- The pieces of `a/b/…/name`. -/
theorem pieces_path {cs : List Str} (h : ∀ c ∈ cs, '/' ∉ c) (r : Str) :
    pieces (absPath cs ++ '/' :: r) = [] :: (cs ++ pieces r) := by
  induction cs with
  | nil => simp [absPath, pieces]
  | cons c cs ih =>
    have := ih fun x hx => h x (List.mem_cons_of_mem _ hx)
    show pieces ('/' :: ((c ++ absPath cs) ++ '/' :: r)) = _
    rw [pieces, if_pos rfl, List.append_assoc]
    cases cs with
    | nil => 
      show [] :: pieces (c ++ '/' :: r) = _
      rw [pieces_append (h c (by simp))]; rfl
    | cons d cs =>
      show [] :: pieces (c ++ '/' :: ((d ++ absPath cs) ++ '/' :: r)) = _
      rw [pieces_append (h c (by simp))]
      have h2 : pieces ('/' :: ((d ++ absPath cs) ++ '/' :: r)) = [] :: (d :: cs ++ pieces r) := this
      rw [pieces, if_pos rfl] at h2
      rw [List.cons.inj h2 |>.2]; rfl

theorem walk_append (d ps qs : List Str) : walk d (ps ++ qs) = walk (walk d ps) qs := by
  induction ps generalizing d with
  | nil => rfl
  | cons p ps ih =>
    simp only [List.cons_append, walk]
    split
    · exact ih _
    · split <;> exact ih _

theorem walk_entries {cs : List Str} (h : ∀ c ∈ cs, IsEntry c) (d : List Str) : walk d cs = d ++ cs := by
  induction cs generalizing d with
  | nil => simp [walk]
  | cons c cs ih =>
    have hc := h c (by simp)
    rw [walk, if_neg (by rintro (e | e); exact hc.1 e; exact hc.2 e), if_neg hc.3, ih fun x hx => h x (List.mem_cons_of_mem _ hx)]
    simp

theorem walk_isEntry {ps : List Str} (hp : ∀ p ∈ ps, '/' ∉ p) {d : List Str} (hd : ∀ c ∈ d, IsEntry c) :
    ∀ c ∈ walk d ps, IsEntry c := by
  induction ps generalizing d with
  | nil => exact hd
  | cons p ps ih =>
    have hps : ∀ q ∈ ps, '/' ∉ q := fun q hq => hp q (List.mem_cons_of_mem _ hq)
    rw [walk]
    split
    · exact ih hps hd
    · rename_i h1
      split
      · exact ih hps fun c hc => hd c (List.dropLast_subset _ hc)
      · rename_i h2
        refine ih hps fun c hc => ?_
        rcases List.mem_append.mp hc with hc | hc
        · exact hd c hc
        · obtain rfl := List.mem_singleton.mp hc
          exact ⟨fun e => h1 (.inl e), fun e => h1 (.inr e), h2, hp _ (by simp)⟩

/-- The loop of `normpath` for a path with a root is `walk`. -/
theorem normComps_walk {ps : List Str} (hp : ∀ p ∈ ps, '/' ∉ p) (d : List Str) (hd : ∀ c ∈ d, IsEntry c) :
    Py.normComps true ps d.reverse = walk d ps := by
  induction ps generalizing d with
  | nil => simp [Py.normComps, walk]
  | cons p ps ih =>
    have hps : ∀ q ∈ ps, '/' ∉ q := fun q hq => hp q (List.mem_cons_of_mem _ hq)
    unfold Py.normComps walk
    split
    · exact ih hps d hd
    · rename_i h1
      by_cases h2 : p = ['.', '.']
      · rw [if_pos h2, if_neg]
        · rw [← ih hps d.dropLast fun c hc => hd c (List.dropLast_subset _ hc)]
          congr 1
          simp
        · rintro (h | ⟨h, -⟩ | h)
          · exact h h2
          · cases h
          · have := List.mem_of_mem_head? (by rw [h]; rfl)
            exact (hd _ (List.mem_reverse.mp this)).3 rfl
      · rw [if_neg h2, if_pos (.inl h2)]
        have := ih hps (d ++ [p]) fun c hc => by
          rcases List.mem_append.mp hc with hc | hc
          · exact hd c hc
          · obtain rfl := List.mem_singleton.mp hc
            exact ⟨fun e => h1 (.inl e), fun e => h1 (.inr e), h2, hp _ (by simp)⟩
        rw [List.reverse_append] at this
        exact this

theorem joinSlash_cons (ts : List Str) : ∀ t : Str, '/' :: Py.joinSlash (t :: ts) = absPath (t :: ts) := by
  induction ts with
  | nil => intro t; simp [Py.joinSlash, absPath]
  | cons u ts ih =>
    intro t
    show '/' :: (t ++ '/' :: Py.joinSlash (u :: ts)) = _
    rw [ih u]; simp [absPath]

/-- `'/'`, or the components each after a slash. -/
def normal (ts : List Str) : Str := if ts = [] then ['/'] else absPath ts

theorem joinSlash_eq (ts : List Str) : '/' :: Py.joinSlash ts = normal ts := by
  cases ts with
  | nil => rfl
  | cons t ts => exact joinSlash_cons ts t

theorem normComps_pieces (r : Str) : Py.normComps true (Py.splitSlash r) [] = walk [] (pieces r) := by
  rw [splitSlash_eq]
  exact normComps_walk (fun p hp => mem_pieces hp) [] (by simp)

/-- `normpath` of a path that starts with one slash. -/
theorem normpath_one {r : Str} (h : r.head? ≠ some '/') : Py.normpath ('/' :: r) = normal (walk [] (pieces ('/' :: r))) := by
  have hs : Py.splitRoot ('/' :: r) = (['/'], r) := by
    cases r with
    | nil => rfl
    | cons c r =>
      have hc : c ≠ '/' := fun e => h (by simp [e])
      unfold Py.splitRoot
      split
      · rename_i e; injection e with _ e; injection e with e _; exact absurd e hc
      · rename_i e; injection e with _ e; injection e with e _; exact absurd e hc
      · rename_i e; injection e with _ e; rw [e]
      · rename_i e; exact absurd rfl (e _)
  have hw : walk [] (pieces ('/' :: r)) = walk [] (pieces r) := by
    rw [pieces, if_pos rfl, walk, if_pos (.inl rfl)]
  unfold Py.normpath
  rw [if_neg (by simp)]
  simp only [hs]
  rw [show (!(['/'] : Str).isEmpty) = true from rfl, normComps_pieces, ← hw]
  show (if ('/' :: Py.joinSlash _) = [] then _ else '/' :: Py.joinSlash _) = _
  rw [if_neg (by simp), joinSlash_eq]

/-- `normpath` of a path that starts with three slashes. -/
theorem normpath_three (r : Str) :
    Py.normpath ('/' :: '/' :: '/' :: r) = normal (walk [] (pieces ('/' :: '/' :: '/' :: r))) := by
  have hs : Py.splitRoot ('/' :: '/' :: '/' :: r) = (['/'], '/' :: '/' :: r) := rfl
  have hw : walk [] (pieces ('/' :: '/' :: '/' :: r)) = walk [] (pieces ('/' :: '/' :: r)) := by
    rw [pieces, if_pos rfl, walk, if_pos (.inl rfl)]
  unfold Py.normpath
  rw [if_neg (by simp)]
  simp only [hs]
  rw [show (!(['/'] : Str).isEmpty) = true from rfl, normComps_pieces, ← hw]
  show (if ('/' :: Py.joinSlash _) = [] then _ else '/' :: Py.joinSlash _) = _
  rw [if_neg (by simp), joinSlash_eq]

/-- `normpath` of a path that starts with exactly two slashes keeps them. -/
theorem normpath_two {r : Str} (h : r.head? ≠ some '/') : ∃ t, Py.normpath ('/' :: '/' :: r) = '/' :: '/' :: t := by
  have hs : Py.splitRoot ('/' :: '/' :: r) = (['/', '/'], r) := by
    cases r with
    | nil => rfl
    | cons c r =>
      have hc : c ≠ '/' := fun e => h (by simp [e])
      unfold Py.splitRoot
      split
      · rename_i e
        injection e with _ e; injection e with _ e; injection e with e _; exact absurd e hc
      · rename_i e; injection e with _ e; injection e with _ e; rw [e]
      · rename_i h1 h2 e; injection e with _ e; exact absurd e.symm (h2 _)
      · rename_i h1 h2 e; exact absurd rfl (e _)
  refine ⟨Py.joinSlash (Py.normComps true (Py.splitSlash r) []), ?_⟩
  unfold Py.normpath
  rw [if_neg (by simp)]
  simp only [hs]
  rfl

theorem absPath_append (a b : List Str) : absPath (a ++ b) = absPath a ++ absPath b := by simp [absPath]

theorem absPath_ne {cs : List Str} (h : cs ≠ []) : ∃ c r, cs = c :: r ∧ absPath cs = '/' :: (c ++ absPath r) := by
  cases cs with
  | nil => exact absurd rfl h
  | cons c r => exact ⟨c, r, rfl, rfl⟩

theorem absPath_last {cs : List Str} (h : cs ≠ []) (hc : ∀ c ∈ cs, IsEntry c) : ['/'].isSuffixOf (absPath cs) = false := by
  obtain ⟨up, last, rfl⟩ : ∃ up last, cs = up ++ [last] := ⟨_, _, (List.dropLast_append_getLast h).symm⟩
  have hl := hc last (by simp)
  obtain ⟨pre, x, rfl⟩ : ∃ pre x, last = pre ++ [x] := ⟨_, _, (List.dropLast_append_getLast hl.1).symm⟩
  have hx : x ≠ '/' := fun e => hl.4 (by simp [e])
  have e : absPath (up ++ [pre ++ [x]]) = (absPath up ++ '/' :: pre) ++ [x] := by simp [absPath]
  rw [e]
  cases hb : ['/'].isSuffixOf ((absPath up ++ '/' :: pre) ++ [x]) with
  | false => rfl
  | true =>
    obtain ⟨t, ht⟩ := List.isSuffixOf_iff_suffix.mp hb
    exact absurd (List.append_inj_right' ht rfl |> List.cons.inj |>.1).symm hx

/-- `join` of an absolute directory and a relative name. -/
theorem join_rel {cs : List Str} (h : cs ≠ []) (hc : ∀ c ∈ cs, IsEntry c) {name : Str} (hn : name.head? ≠ some '/') :
    Py.join (absPath cs) name = absPath cs ++ '/' :: name := by
  unfold Py.join
  rw [if_neg, if_neg]
  · rintro (e | e)
    · obtain ⟨c, r, -, h2⟩ := absPath_ne h
      rw [h2] at e; cases e
    · rw [absPath_last h hc] at e; cases e
  · intro e
    obtain ⟨t, ht⟩ := List.isPrefixOf_iff_prefix.mp e
    exact hn (by rw [← ht]; rfl)

theorem join_abs {a name : Str} (hn : name.head? = some '/') : Py.join a name = name := by
  unfold Py.join
  rw [if_pos]
  cases name with
  | nil => cases hn
  | cons c r =>
    simp only [List.head?_cons, Option.some.injEq] at hn
    subst hn; rfl

/-- `normpath(join(dir, name))` for a relative name. -/
theorem norm_join_rel {cs : List Str} (h : cs ≠ []) (hc : ∀ c ∈ cs, IsEntry c) {name : Str} (hn : name.head? ≠ some '/') :
    Py.normpath (Py.join (absPath cs) name) = normal (target cs name) := by
  rw [join_rel h hc hn]
  obtain ⟨c, r, rfl, h2⟩ := absPath_ne h
  have hh : (c ++ absPath r ++ '/' :: name).head? ≠ some '/' := by
    have := hc c (by simp)
    cases c with
    | nil => exact absurd rfl this.1
    | cons a c =>
      have h4 := this.4
      simp only [List.cons_append, List.head?_cons, ne_eq, Option.some.injEq]
      exact fun e => h4 (by simp [e])
  have := normpath_one hh
  rw [show '/' :: (c ++ absPath r ++ '/' :: name) = absPath (c :: r) ++ '/' :: name by rw [h2]; rfl] at this
  rw [this, pieces_path (fun x hx => (hc x hx).4), walk, if_pos (.inl rfl), walk_append, walk_entries hc]
  unfold target
  rw [if_neg hn]; rfl

theorem prefix_normal {cs ts : List Str} (h : cs ≠ []) (hc : ∀ c ∈ cs, IsEntry c) :
    absPath cs <+: normal ts ↔ absPath cs <+: absPath ts := by
  unfold normal
  split
  · rename_i e
    subst e
    obtain ⟨c, r, rfl, h2⟩ := absPath_ne h
    constructor
    · rintro ⟨t, ht⟩
      rw [h2] at ht
      have : (c ++ absPath r) ++ t = [] := (List.cons.inj ht).2
      exact absurd (List.append_eq_nil_iff.mp (List.append_eq_nil_iff.mp this).1).1 (hc c (by simp)).1
    · rintro ⟨t, ht⟩
      rw [h2] at ht; cases ht
  · rfl

/-- The escape check for a relative name compares strings. -/
theorem helpEscp_rel {cs : List Str} (h : cs ≠ []) (hc : ∀ c ∈ cs, IsEntry c) {name : Str} (hn : name.head? ≠ some '/') :
    helpEscp (absPath cs) name = false ↔ absPath cs <+: absPath (target cs name) := by
  unfold helpEscp Py.startswith
  rw [norm_join_rel h hc hn, Bool.not_eq_false', List.isPrefixOf_iff_prefix, prefix_normal h hc]

/-- An accepted name, relative or absolute. -/
theorem helpEscp_prefix {cs : List Str} (h : cs ≠ []) (hc : ∀ c ∈ cs, IsEntry c) {name : Str}
    (hh : helpEscp (absPath cs) name = false) :
    Py.normpath (Py.join (absPath cs) name) = absPath (target cs name) ∧ absPath cs <+: absPath (target cs name) := by
  have key : Py.normpath (Py.join (absPath cs) name) = normal (target cs name) ∧
      absPath cs <+: absPath (target cs name) := by
    by_cases hn : name.head? = some '/'
    · have ht : target cs name = walk [] (pieces name) := by unfold target; rw [if_pos hn]
      have hr : ∃ r, name = '/' :: r := by
        cases name with
        | nil => cases hn
        | cons c r => simp only [List.head?_cons, Option.some.injEq] at hn; exact ⟨r, by rw [hn]⟩
      obtain ⟨r, rfl⟩ := hr
      unfold helpEscp Py.startswith at hh
      rw [join_abs hn, Bool.not_eq_false', List.isPrefixOf_iff_prefix] at hh
      rw [join_abs hn]
      by_cases h1 : r.head? = some '/'
      · have hr : ∃ q, r = '/' :: q := by
          cases r with
          | nil => cases h1
          | cons c r => simp only [List.head?_cons, Option.some.injEq] at h1; exact ⟨r, by rw [h1]⟩
        obtain ⟨q, rfl⟩ := hr
        by_cases h2 : q.head? = some '/'
        · have hr : ∃ u, q = '/' :: u := by
            cases q with
            | nil => cases h2
            | cons c r => simp only [List.head?_cons, Option.some.injEq] at h2; exact ⟨r, by rw [h2]⟩
          obtain ⟨u, rfl⟩ := hr
          rw [normpath_three, prefix_normal h hc] at hh
          rw [normpath_three, ht]
          exact ⟨rfl, hh⟩
        · obtain ⟨t, e⟩ := normpath_two h2
          rw [e] at hh
          obtain ⟨c, r, rfl, h4⟩ := absPath_ne h
          rw [h4] at hh
          have he := hc c (by simp)
          cases c with
          | nil => exact absurd rfl he.1
          | cons a c =>
            obtain ⟨z, hz⟩ := hh
            injection hz with _ hz
            injection hz with hz _
            exact absurd (by simp [hz]) he.4
      · rw [normpath_one h1, prefix_normal h hc] at hh
        rw [normpath_one h1, ht]
        exact ⟨rfl, hh⟩
    · exact ⟨norm_join_rel h hc hn, (helpEscp_rel h hc hn).mp hh⟩
  refine ⟨key.1.trans ?_, key.2⟩
  unfold normal
  rw [if_neg]
  intro e
  have := key.2
  rw [e] at this
  obtain ⟨c, r, -, h4⟩ := absPath_ne h
  rw [h4] at this
  obtain ⟨z, hz⟩ := this
  cases hz

/-- A string prefix, in terms of components. -/
theorem prefix_cases {up : List Str} {last : Str} {ts : List Str} (hu : ∀ c ∈ up ++ [last], '/' ∉ c)
    (ht : ∀ c ∈ ts, '/' ∉ c) (h : absPath (up ++ [last]) <+: absPath ts) :
    ∃ more rest, ts = up ++ (last ++ more) :: rest := by
  -- a slash-free prefix of a component followed by slash
  have split1 : ∀ (c d x y z : Str), '/' ∉ c → '/' ∉ d → (c ++ x) ++ z = d ++ y → x = [] ∨ x.head? = some '/' →
      y = [] ∨ y.head? = some '/' → c <+: d := by
    intro c
    induction c with
    | nil => intro d _ _ _ _ _ _ _ _; exact List.nil_prefix
    | cons a c ih =>
      intro d x y z hc hd e hx hy
      cases d with
      | nil =>
        rcases hy with rfl | hy
        · cases e
        · cases y with
          | nil => cases hy
          | cons b y =>
            simp only [List.head?_cons, Option.some.injEq] at hy
            subst hy
            injection e with e _
            exact absurd (by simp [e]) hc
      | cons b d =>
        injection e with e1 e2
        subst e1
        have := ih d x y z (fun h => hc (by simp [h])) (fun h => hd (by simp [h])) e2 hx hy
        exact (List.cons_prefix_cons).mpr ⟨rfl, this⟩
  have hhead : ∀ l : List Str, absPath l = [] ∨ (absPath l).head? = some '/' := by
    intro l
    cases l with
    | nil => exact .inl rfl
    | cons c l => exact .inr rfl
  induction up generalizing ts with
  | nil =>
    cases ts with
    | nil => obtain ⟨z, hz⟩ := h; cases hz
    | cons t ts =>
      obtain ⟨z, hz⟩ := h
      have e : (last ++ []) ++ z = t ++ absPath ts := by
        exact (List.cons.inj hz).2
      obtain ⟨more, hm⟩ := split1 last t [] (absPath ts) z (hu _ (by simp)) (ht _ (by simp)) e (.inl rfl) (hhead ts)
      exact ⟨more, ts, by rw [hm]; rfl⟩
  | cons c up ih =>
    cases ts with
    | nil => obtain ⟨z, hz⟩ := h; cases hz
    | cons t ts =>
      obtain ⟨z, hz⟩ := h
      have e : (c ++ absPath (up ++ [last])) ++ z = t ++ absPath ts := (List.cons.inj hz).2
      have h1 := split1 c t _ (absPath ts) z (hu _ (by simp)) (ht _ (by simp)) e (hhead _) (hhead ts)
      obtain ⟨w, hw⟩ := h1
      -- the component must be the same, because a slash follows
      have hw0 : w = [] := by
        subst hw
        rw [List.append_assoc, List.append_assoc] at e
        have e := List.append_cancel_left e
        cases w with
        | nil => rfl
        | cons b w =>
          have hb : b ≠ '/' := fun hb => ht (c ++ b :: w) (by simp) (by simp [hb])
          obtain ⟨c', r', -, h4⟩ := absPath_ne (cs := up ++ [last]) (by simp)
          rw [h4] at e
          injection e with e _
          exact absurd e.symm hb
      subst hw0
      rw [List.append_nil] at hw
      subst hw
      rw [List.append_assoc] at e
      have e := List.append_cancel_left e
      obtain ⟨more, rest, hr⟩ := ih (ts := ts) (fun x hx => hu x (by simp at hx ⊢; rcases hx with h | h <;> simp [h]))
        (fun x hx => ht x (List.mem_cons_of_mem _ hx)) ⟨z, e⟩
      exact ⟨more, rest, by rw [hr]; rfl⟩

theorem target_isEntry {cs : List Str} (hc : ∀ c ∈ cs, IsEntry c) (name : Str) : ∀ c ∈ target cs name, IsEntry c := by
  unfold target
  split
  · exact walk_isEntry (fun p hp => mem_pieces hp) (by simp)
  · exact walk_isEntry (fun p hp => mem_pieces hp) hc

/-- What is accepted is inside, or beside with a longer name. -/
theorem helpEscp_cases {cs : List Str} (h : cs ≠ []) (hc : ∀ c ∈ cs, IsEntry c) {name : Str}
    (hh : helpEscp (absPath cs) name = false) : Inside cs name ∨ Beside cs name := by
  obtain ⟨up, last, rfl⟩ : ∃ up last, cs = up ++ [last] := ⟨_, _, (List.dropLast_append_getLast h).symm⟩
  obtain ⟨more, rest, e⟩ := prefix_cases (fun c hx => (hc c hx).4) (fun c hx => (target_isEntry hc name c hx).4)
    (helpEscp_prefix h hc hh).2
  by_cases hm : more = []
  · subst hm
    refine .inl ⟨rest, ?_⟩
    rw [e]; simp
  · exact .inr ⟨up, last, more, rest, rfl, hm, e⟩

/-- What is inside, and named by a relative path, is accepted. -/
theorem helpEscp_inside {cs : List Str} (h : cs ≠ []) (hc : ∀ c ∈ cs, IsEntry c) {name : Str} (hn : name.head? ≠ some '/')
    (hi : Inside cs name) : helpEscp (absPath cs) name = false := by
  rw [helpEscp_rel h hc hn]
  obtain ⟨t, ht⟩ := hi
  rw [← ht, absPath_append]
  exact List.prefix_append _ _

/-! ## Refusing -/

/-- A call that does not succeed and changes nothing. -/
structure Stops (c : W Int) (s : St) : Prop where
  same : after c s = s
  fails : ∀ s', c s ≠ .ok 0 s'

theorem Stops.pure {e : Int} (h : e ≠ 0) (s : St) : Stops (Pure.pure e) s :=
  ⟨rfl, fun s' hh => by injection hh with hh; exact h hh⟩
theorem Stops.bind {α} {x : W α} {f : α → W Int} {s : St} (hx : Reads x) (hf : ∀ a, x s = .ok a s → Stops (f a) s) :
    Stops (x >>= f) s := by
  have hr := hx.run s
  unfold after at hr
  cases hxs : x s with
  | ok a t =>
    rw [hxs] at hr
    have hr : t = s := hr
    subst hr
    refine ⟨?_, ?_⟩
    · rw [after_ok hxs]; exact (hf a hxs).1
    · intro s' hh; rw [bind_ok hxs] at hh; exact (hf a hxs).2 s' hh
  | error e t =>
    rw [hxs] at hr
    have hr : t = s := hr
    subst hr
    refine ⟨?_, ?_⟩
    · rw [after_err hxs]
    · intro s' hh; rw [bind_err hxs] at hh; cases hh
theorem Stops.ite {p : Prop} [Decidable p] {x y : W Int} {s : St} (hx : p → Stops x s) (hy : ¬p → Stops y s) :
    Stops (if p then x else y) s := by
  split
  · exact hx ‹_›
  · exact hy ‹_›

/-! ## The host names of the directories -/

/-- Every entry that may be used to open something has an absolute host name that begins like one of the roots. -/
structure Rooted (roots : List (List Str)) (s : St) : Prop where
  all : ∀ f ∈ s.fd, has f.base 13 = true → ∃ dir, dir ≠ [] ∧ (∀ c ∈ dir, IsEntry c) ∧ f.hostName = absPath dir ∧
    ∃ r ∈ roots, absPath r <+: absPath dir

theorem Rooted.change {roots : List (List Str)} {os : Os} {c : Call} {s s' : St} (h : Rooted roots s)
    (hc : Change os c s s') : Rooted roots s' := by
  have keep : ∀ {f f' : File}, f ∈ s.fd → (has f'.base 13 = true → has f.base 13 = true) → f'.hostName = f.hostName →
      has f'.base 13 = true → ∃ dir, dir ≠ [] ∧ (∀ c ∈ dir, IsEntry c) ∧ f'.hostName = absPath dir ∧
        ∃ r ∈ roots, absPath r <+: absPath dir := by
    intro f f' hm hb hn hh
    rw [hn]; exact h.all f hm (hb hh)
  have mem : ∀ {n : Nat} {f : File}, s.fd[n]? = some f → f ∈ s.fd := fun h => List.mem_of_getElem? h
  cases hc with
  | quiet q => exact ⟨by rw [q.fd]; exact h.all⟩
  | edit n f f' hn ho hf hr hq =>
    refine ⟨fun x hx => ?_⟩
    rw [hq.fd] at hx
    rcases List.mem_or_eq_of_mem_set hx with hx | rfl
    · exact h.all x hx
    · exact keep (mem hn) (hr 13).1 (by rw [hf])
  | drop n f hn ho ht =>
    refine ⟨fun x hx => ?_⟩
    rcases List.mem_or_eq_of_mem_set hx with hx | rfl
    · exact h.all x hx
    · exact keep (mem hn) id rfl
  | dropErr n f e hn ho ht => exact ⟨h.all⟩
  | dropChr n f hn ho ht =>
    refine ⟨fun x hx => ?_⟩
    rcases List.mem_or_eq_of_mem_set hx with hx | rfl
    · exact h.all x hx
    · exact keep (mem hn) id rfl
  | move m n f g hc hm hn =>
    refine ⟨fun x hx => ?_⟩
    rcases List.mem_or_eq_of_mem_set hx with hx | rfl
    · rcases List.mem_or_eq_of_mem_set hx with hx | rfl
      · exact h.all x hx
      · exact keep (mem hm) id rfl
    · exact keep (mem hm) id rfl
  | moveChr m n f g hc hm hn =>
    refine ⟨fun x hx => ?_⟩
    rcases List.mem_or_eq_of_mem_set hx with hx | rfl
    · rcases List.mem_or_eq_of_mem_set hx with hx | rfl
      · exact h.all x hx
      · exact keep (mem hm) id rfl
    · exact keep (mem hm) id rfl
  | openErr => exact ⟨h.all⟩
  | openLeak name fl mo d x hos hq _ => exact ⟨by rw [hq.fd]; exact h.all⟩
  | opened name fl mo d x new hos hq hh ho hw hp hn ht hd hq' =>
    refine ⟨fun x hx => ?_⟩
    rw [hq'.fd] at hx
    rcases List.mem_append.mp hx with hx | hx
    · rw [hq.fd] at hx; exact h.all x hx
    · obtain rfl := List.mem_singleton.mp hx
      intro _
      obtain ⟨a0, dir, h1, h2, -, h4, h5⟩ := hd
      obtain ⟨n, -, h6, -⟩ := openFile_nat h1
      obtain ⟨cs, hne, hent, hname, r, hr, hpre⟩ := h.all dir (mem h6) h2
      rw [hname] at h4 h5
      obtain ⟨k1, k2⟩ := helpEscp_prefix hne hent h4
      refine ⟨target cs name, ?_, target_isEntry hent name, by rw [h5, k1], r, hr, hpre.trans k2⟩
      intro e
      rw [e] at k2
      obtain ⟨c, t, -, h9⟩ := absPath_ne hne
      rw [h9] at k2
      obtain ⟨z, hz⟩ := k2
      cases hz

theorem Rooted.reach {roots : List (List Str)} {os : Os} {s s' : St} (h : Rooted roots s) (hr : Reach os s s') :
    Rooted roots s' := by
  induction hr with
  | refl => exact h
  | step _ hs ih =>
    cases hs with
    | call c t => exact ih.change (change_call os c _)
    | guest t m => exact ⟨ih.all⟩
    | pipe t n p =>
      refine ⟨fun x hx => ?_⟩
      obtain ⟨i, hi⟩ := List.mem_iff_getElem?.mp hx
      rw [List.getElem?_modify] at hi
      obtain ⟨y, hy, hxy⟩ := Option.map_eq_some_iff.mp hi
      have := ih.all y (List.mem_of_getElem? hy)
      split at hxy
      · subst hxy; exact this
      · subst hxy; exact this

theorem pieces_abs {cs : List Str} (h : ∀ c ∈ cs, '/' ∉ c) : pieces (absPath cs) = [] :: cs := by
  by_cases hne : cs = []
  · subst hne; rfl
  · obtain ⟨up, last, rfl⟩ : ∃ up last, cs = up ++ [last] := ⟨_, _, (List.dropLast_append_getLast hne).symm⟩
    have e : absPath (up ++ [last]) = absPath up ++ '/' :: last := by simp [absPath]
    rw [e, pieces_path (fun c hc => h c (by simp [hc])), pieces_noSlash (h last (by simp))]

theorem normpath_abs {cs : List Str} (h : cs ≠ []) (hc : ∀ c ∈ cs, IsEntry c) : Py.normpath (absPath cs) = absPath cs := by
  have hw : walk [] (pieces (absPath cs)) = cs := by
    rw [pieces_abs fun c hx => (hc c hx).4, walk, if_pos (.inl rfl), walk_entries hc]; rfl
  obtain ⟨c, r, e, h2⟩ := absPath_ne h
  have hh : (c ++ absPath r).head? ≠ some '/' := by
    have := hc c (by rw [e]; simp)
    cases c with
    | nil => exact absurd rfl this.1
    | cons a c =>
      have h4 := this.4
      simp only [List.cons_append, List.head?_cons, ne_eq, Option.some.injEq]
      exact fun e => h4 (by simp [e])
  rw [h2] at hw ⊢
  rw [normpath_one hh, hw]
  unfold normal
  rw [if_neg h, h2]

theorem mem_normDirs {dirs : List (Str × Str)} {q : Str × Str} (h : q ∈ normDirs dirs) :
    ∃ p ∈ dirs, q.2 = Py.normpath p.2 := by
  have key : ∀ (l acc : List (Str × Str)), (∀ q ∈ acc, ∃ p ∈ dirs, q.2 = Py.normpath p.2) → (∀ p ∈ l, p ∈ dirs) →
      ∀ q ∈ l.foldl (fun l p => dictSet l (Py.normpath p.1) (Py.normpath p.2)) acc, ∃ p ∈ dirs, q.2 = Py.normpath p.2 := by
    intro l
    induction l with
    | nil => intro acc h _; exact h
    | cons p l ih =>
      intro acc h hl
      refine ih _ ?_ fun p hp => hl p (List.mem_cons_of_mem _ hp)
      intro q hq
      unfold dictSet at hq
      beta_reduce at hq
      split at hq
      · obtain ⟨y, hy, rfl⟩ := List.mem_map.mp hq
        split
        · exact ⟨p, hl p (by simp), rfl⟩
        · exact h y hy
      · rcases List.mem_append.mp hq with hq | hq
        · exact h q hq
        · obtain rfl := List.mem_singleton.mp hq
          exact ⟨p, hl p (by simp), rfl⟩
  exact key dirs [] (by simp) (fun p hp => hp) q h

theorem _root_.Pywasm.WasiSpec.GoodDir.norm {v : Str} (h : GoodDir v) (cwd : Str) : Py.abspath cwd (Py.normpath (Py.normpath v)) = absPath (target [] v) := by
  obtain ⟨h1, h2, h3⟩ := h
  cases v with
  | nil => cases h1
  | cons c w =>
    simp only [List.head?_cons, Option.some.injEq] at h1
    subst h1
    have ht : target [] ('/' :: w) = walk [] (pieces ('/' :: w)) := by unfold target; split <;> rfl
    have he := target_isEntry (cs := []) (by simp) ('/' :: w)
    have hn : Py.normpath ('/' :: w) = absPath (target [] ('/' :: w)) := by
      rw [normpath_one (r := w) h2, ht]
      unfold normal
      rw [if_neg (by rw [← ht]; exact h3)]
    rw [hn, normpath_abs h3 he]
    unfold Py.abspath
    rw [if_pos, normpath_abs h3 he]
    obtain ⟨c, r, -, h4⟩ := absPath_ne h3
    rw [h4]; rfl

theorem Rooted.preopens {roots : List (List Str)} {os : Os} (l : List (Str × Str)) {s : St} (h : Rooted roots s)
    (hl : ∀ q ∈ l, ∃ v, GoodDir v ∧ q.2 = Py.normpath v ∧ target [] v ∈ roots) :
    Rooted roots (after (Wasi.preopens os l) s) := by
  induction l generalizing s with
  | nil => exact h
  | cons q l ih =>
    obtain ⟨k, w⟩ := q
    have one : Rooted roots (after (Wasi.preopen os k w) s) := by
      obtain ⟨v, hv, hq, hr⟩ := hl (k, w) (by simp)
      have hq : w = Py.normpath v := hq
      unfold Wasi.preopen
      rw [after_bind, sys_run]
      cases h1 : os.run s.log .getcwd with
      | error e => exact ⟨h.all⟩
      | ok cwd =>
        simp only
        rw [hq, hv.norm cwd]
        generalize hfl : Py.or os.c.oRdonly os.c.oDirectory = fl
        rw [after_bind, sys_run]
        cases h2 : os.run (s.event .getcwd (.ok cwd)).log (.open (absPath (target [] v)) fl 511 none) with
        | error e => exact ⟨h.all⟩
        | ok x =>
          simp only
          rw [after_ok (get_run _)]
          refine ⟨fun f hf => ?_⟩
          rcases List.mem_append.mp hf with hf | hf
          · exact h.all f hf
          · obtain rfl := List.mem_singleton.mp hf
            exact fun _ => ⟨_, hv.below, target_isEntry (by simp) v, rfl, _, hr, List.prefix_refl _⟩
    unfold Wasi.preopens
    rw [after_bind]
    unfold after at one
    cases hr : Wasi.preopen os k w s with
    | ok a s' => rw [hr] at one; exact ih one fun q hq => hl q (List.mem_cons_of_mem _ hq)
    | error e s' => rw [hr] at one; exact one

theorem Rooted.init {os : Os} (args : List Str) (dirs envs : List (Str × Str))
    (fds : Int × Int × Int) (names : Str × Str × Str) (hd : ∀ p ∈ dirs, GoodDir p.2) :
    Rooted (dirs.map fun p => target [] p.2) (Wasi.init os args dirs envs fds names).2 := by
  have h0 : Rooted (dirs.map fun p => target [] p.2) { args, ndirs := (normDirs dirs).length, envs := (sortPairs envs).map fun p => Py.joinEq p.1 p.2, fd := stdio fds names, mem := none, log := [] } := by
    refine ⟨fun f hf hh => ?_⟩
    simp only [stdio, List.mem_cons, List.not_mem_nil, or_false] at hf
    have h1 : has (RIGHTS_POLL_FD_READWRITE + RIGHTS_FD_READ) 13 = false := by decide +kernel
    have h2 : has (RIGHTS_POLL_FD_READWRITE + RIGHTS_FD_WRITE) 13 = false := by decide +kernel
    rcases hf with rfl | rfl | rfl
    · exact absurd hh (by simp [h1])
    · exact absurd hh (by simp [h2])
    · exact absurd hh (by simp [h2])
  have := Rooted.preopens (os := os) (sortPairs (normDirs dirs)) h0 (by
    intro q hq
    have hq : q ∈ normDirs dirs := by
      unfold sortPairs at hq
      exact List.mem_mergeSort.mp hq
    obtain ⟨p, hp, e⟩ := mem_normDirs hq
    exact ⟨p.2, hd p hp, e, List.mem_map.mpr ⟨p, hp, rfl⟩⟩)
  unfold Wasi.init
  unfold after at this
  simp only
  split
  · rename_i hr; rw [hr] at this; exact this
  · rename_i hr; rw [hr] at this; exact this

end Pywasm.Wasi
