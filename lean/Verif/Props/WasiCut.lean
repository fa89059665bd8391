import Verif.Props.WasiArgs
import Verif.Spec.WasiNamed

/-!
# C43 for arbitrary strings

`wasi_args_refuted` shows that strings that are not ASCII are not stored as C strings.  Here is what is stored instead: each string is cut
to as many bytes as it has characters.
-/

namespace Pywasm.WasiSpec

/-- What a guest finds of a string: as many bytes of its UTF-8 encoding as it has characters, and a zero. -/
def cut (e : Str) : Bytes := (e.flatMap String.utf8EncodeChar).take e.length ++ [0]
/-- The bytes from the first string's address on that are written: those that are meant, and the encodings that do not fit. -/
def touched : List Str → Nat
  | [] => 0
  | e :: l => max (e.flatMap String.utf8EncodeChar).length (e.length + 1 + touched l)

end Pywasm.WasiSpec

namespace Pywasm.Props
open Wasi WasiSpec Spec

theorem utf8_length_ge (e : Str) : e.length ≤ (e.flatMap String.utf8EncodeChar).length := by
  induction e with
  | nil => simp
  | cons c e ih =>
    have := c.utf8Size_pos
    simp only [List.flatMap_cons, List.length_append, String.length_utf8EncodeChar, List.length_cons]
    omega
theorem cut_length (e : Str) : (cut e).length = e.length + 1 := by
  have := utf8_length_ge e
  rw [cut, List.length_append, List.length_take, List.length_singleton]
  omega

/-- All bytes that are written from the first string's address on. -/
def image : List Str → Bytes
  | [] => []
  | e :: l => cut e ++ (image l ++ ((e.flatMap String.utf8EncodeChar).drop (e.length + 1)).drop (image l).length)
theorem image_length (l : List Str) : (image l).length = touched l := by
  induction l with
  | nil => rfl
  | cons e l ih => simp only [image, touched, List.length_append, cut_length, List.length_drop, ih]; omega

theorem patch_over (d a b : Bytes) (p k : Nat) (hk : k ≤ a.length) :
    patch (patch d p a) (p + k) b = patch d p (a.take k ++ (b ++ a.drop (k + b.length))) := by
  apply List.ext_getElem?
  intro i
  simp only [getElem?_patch, Py.patch_length, List.length_append, List.length_take, List.length_drop]
  by_cases h1 : p + k ≤ i ∧ i < p + k + b.length ∧ i < d.length
  · rw [if_pos h1, if_pos (by omega), List.getElem?_append_right (by simp; omega), List.getElem?_append_left (by simp; omega)]
    congr 1
    simp; omega
  · rw [if_neg h1]
    by_cases h2 : p ≤ i ∧ i < p + a.length ∧ i < d.length
    · rw [if_pos h2, if_pos (by omega)]
      by_cases h3 : i < p + k
      · rw [List.getElem?_append_left (by simp; omega), List.getElem?_take, if_pos (by omega)]
      · rw [List.getElem?_append_right (by simp; omega), List.getElem?_append_right (by simp; omega), List.getElem?_drop]
        congr 1
        simp; omega
    · rw [if_neg h2, if_neg (by omega)]
theorem write_over (s : St) (a b : Bytes) (p k : Nat) (hk : k ≤ a.length) (hd : InMem s p (max a.length (k + b.length))) :
    write (write s p a) (p + k) b = write s p (a.take k ++ (b ++ a.drop (k + b.length))) := by
  obtain ⟨m, hm, -⟩ := hd.some
  unfold write
  rw [hm]
  simp only [Option.map_some]
  rw [patch_over _ _ _ _ _ hk]

/-- The pointers, by recursion. -/
def cutPtrs (q : Nat) : List Str → Bytes
  | [] => []
  | e :: l => bytesLE 4 q ++ cutPtrs (q + (e.length + 1)) l
theorem cutPtrs_length (q : Nat) (l : List Str) : (cutPtrs q l).length = 4 * l.length := by
  induction l generalizing q with
  | nil => rfl
  | cons e l ih => rw [cutPtrs, List.length_append, ih, bytesLE_length, List.length_cons]; omega

theorem putStrs_cut (l : List Str) (p q : Nat) (s : St) (hp : InMem s p (4 * l.length)) (hq : InMem s q (touched l))
    (hd : p + 4 * l.length ≤ q ∨ q + touched l ≤ p) (hm : (bytes s).length ≤ 2 ^ 32) :
    putStrs l p q s = .ok () (write (write s p (cutPtrs q l)) q (image l)) := by
  induction l generalizing p q s with
  | nil => simp [putStrs, cutPtrs, image, write_nil, pure_run]
  | cons e l ih =>
    have hge := utf8_length_ge e
    set u := e.flatMap String.utf8EncodeChar with hu
    have ht : touched (e :: l) = max u.length (e.length + 1 + touched l) := rfl
    rw [ht] at hq hd
    rw [List.length_cons] at hp hd
    have hp2 := hp.2
    have hq2 := hq.2
    unfold putStrs
    rw [bind_ok (putU_run ⟨hp.1, by omega⟩ (by show q < 4294967296; omega))]
    have h1 : InMem (write s p (bytesLE 4 q)) q (Py.encodeUtf8 e).length := InMem.write ⟨hp.1, by show q + u.length ≤ _; omega⟩ _ _
    rw [bind_ok (put_run h1)]
    have h2 : InMem (write (write s p (bytesLE 4 q)) q (Py.encodeUtf8 e)) (q + e.length) 1 :=
      InMem.write (InMem.write ⟨hp.1, by omega⟩ _ _) _ _
    have h3 := putU8_run h2 (v := 0) (by decide)
    rw [show ((q + e.length : Nat) : Int) = (q : Int) + (e.length : Int) by push_cast; rfl, show ((0 : Nat) : Int) = 0 from rfl] at h3
    rw [bind_ok h3]
    rw [write_over _ (Py.encodeUtf8 e) _ _ _ hge (InMem.write ⟨hp.1, by show q + max u.length (e.length + 1) ≤ _; omega⟩ _ _)]
    rw [show List.take e.length (Py.encodeUtf8 e) ++ ([UInt8.ofNat 0] ++ List.drop (e.length + [UInt8.ofNat 0].length) (Py.encodeUtf8 e)) =
      cut e ++ u.drop (e.length + 1) by rw [← List.append_assoc]; rfl]
    set a := cut e ++ u.drop (e.length + 1) with ha
    have hal : a.length = max u.length (e.length + 1) := by
      rw [ha, List.length_append, cut_length, List.length_drop]; omega
    have hlen : (bytes (write (write s p (bytesLE 4 q)) q a)).length = (bytes s).length := by
      rw [length_write, length_write]
    have := ih (p + 4) (q + (e.length + 1)) (write (write s p (bytesLE 4 q)) q a)
      (InMem.write (InMem.write ⟨hp.1, by omega⟩ _ _) _ _) (InMem.write (InMem.write ⟨hp.1, by omega⟩ _ _) _ _)
      (by omega) (by rw [hlen]; exact hm)
    rw [show ((p + 4 : Nat) : Int) = (p : Int) + 4 by push_cast; rfl,
      show ((q + (e.length + 1) : Nat) : Int) = (q : Int) + e.length + 1 by push_cast; omega] at this
    rw [this]
    congr 1
    have hil := image_length l
    rw [write_comm (write s p (bytesLE 4 q)) a (cutPtrs (q + (e.length + 1)) l) q (p + 4) (by rw [hal, cutPtrs_length]; omega)]
    rw [write_over _ _ _ _ _ (by rw [hal]; omega) (InMem.write (InMem.write ⟨hp.1, by rw [hal, hil]; omega⟩ _ _) _ _)]
    rw [show p + 4 = p + (bytesLE 4 q).length by rw [bytesLE_length], write_append]
    have e1 : a.take (e.length + 1) = cut e := by rw [ha, List.take_left' (cut_length e)]
    have e2 : a.drop (e.length + 1 + (image l).length) = (u.drop (e.length + 1)).drop (image l).length := by
      rw [← List.drop_drop, ha, List.drop_left' (cut_length e)]
    rw [e1, e2]
    rfl

theorem cutPtrs_get (q : Nat) (l : List Str) (i : Nat) (hi : i < l.length) :
    ((cutPtrs q l).drop (4 * i)).take 4 = bytesLE 4 (q + strsSize (l.take i)) := by
  induction l generalizing q i with
  | nil => simp at hi
  | cons e l ih =>
    unfold cutPtrs
    cases i with
    | zero =>
      rw [Nat.mul_zero, List.drop_zero, List.take_left' (bytesLE_length _ _)]
      simp [strsSize]
    | succ i =>
      rw [show 4 * (i + 1) = (bytesLE 4 q).length + 4 * i by rw [bytesLE_length]; omega, List.drop_length_add_append]
      rw [ih _ i (by simpa using hi), List.take_succ_cons]
      simp [strsSize, Nat.add_assoc]

theorem image_get (l : List Str) (i : Nat) (e : Str) (h : l[i]? = some e) :
    strsSize (l.take i) + (cut e).length ≤ (image l).length ∧ ((image l).drop (strsSize (l.take i))).take (cut e).length = cut e := by
  induction l generalizing i with
  | nil => simp at h
  | cons x l ih =>
    cases i with
    | zero =>
      simp only [List.getElem?_cons_zero, Option.some.injEq] at h
      subst h
      simp only [List.take_zero, strsSize, List.map_nil, List.sum_nil, List.drop_zero, image]
      exact ⟨by simp only [List.length_append]; omega, List.take_left' rfl⟩
    | succ i =>
      obtain ⟨h1, h2⟩ := ih i (by simpa using h)
      have hs : strsSize ((x :: l).take (i + 1)) = (cut x).length + strsSize (l.take i) := by
        simp [strsSize, cut_length]
      rw [hs]
      simp only [image]
      refine ⟨by simp only [List.length_append]; omega, ?_⟩
      rw [List.drop_length_add_append, List.drop_append_of_le_length (by omega), List.take_append_of_le_length (by simp; omega), h2]

theorem putStrs_cut_layout (l : List Str) (p q : Nat) (s : St) (hp : InMem s p (4 * l.length)) (hq : InMem s q (touched l))
    (hd : p + 4 * l.length ≤ q ∨ q + touched l ≤ p) (hm : (bytes s).length ≤ 2 ^ 32) :
    ∃ s', putStrs l p q s = .ok () s' ∧
      (∀ i e, l[i]? = some e → numAt s' (p + 4 * i) 4 = q + ((l.take i).map fun e => e.length + 1).sum ∧
        range (bytes s') (q + ((l.take i).map fun e => e.length + 1).sum) (cut e).length = cut e) ∧
      (∀ a, a < p ∨ p + 4 * l.length ≤ a → a < q ∨ q + touched l ≤ a → (bytes s')[a]? = (bytes s)[a]?) ∧
      (bytes s').length = (bytes s).length ∧ s' = { s with mem := s'.mem } := by
  refine ⟨_, putStrs_cut l p q s hp hq hd hm, ?_, ?_, by rw [length_write, length_write], rfl⟩
  · intro i e he
    obtain ⟨hi, _⟩ := List.getElem?_eq_some_iff.mp he
    obtain ⟨c1, c2⟩ := image_get l i e he
    have hp2 := hp.2
    have hq2 := hq.2
    have hpl := cutPtrs_length q l
    have hil := image_length l
    have hc := cut_length e
    show numAt _ _ 4 = q + strsSize (l.take i) ∧ range _ (q + strsSize (l.take i)) _ = _
    rw [numAt_write_other (by omega)]
    refine ⟨?_, ?_⟩
    · unfold numAt
      rw [bytes_write hp.1, range_patch_sub (by rw [hpl]; exact hp2) (by omega), cutPtrs_get _ _ _ hi,
        readLE_bytesLE _ _ (by show _ < 4294967296; omega)]
    · rw [bytes_write ((write_mem _ _).mpr hp.1),
        range_patch_sub (by rw [length_write, hil]; exact hq2) c1, c2]
  · intro a h1 h2
    have hil := image_length l
    rw [bytes_write ((write_mem _ _).mpr hp.1), getElem?_patch, if_neg (by omega), bytes_write hp.1, getElem?_patch,
      if_neg (by rw [cutPtrs_length]; omega)]

/-- C43, what the code does with any strings: `args_get` stores every argument cut to as many bytes as it has characters, at the
addresses in the table; the encodings that do not fit are written over what follows, up to `touched`, and nothing else changes. -/
theorem wasi_args_get_cut (os : Os) (s : St) (p q : Nat) (hp : InMem s p (4 * s.args.length)) (hq : InMem s q (touched s.args))
    (hd : p + 4 * s.args.length ≤ q ∨ q + touched s.args ≤ p) (hm : (bytes s).length ≤ 2 ^ 32) :
    ∃ s', (Call.argsGet p q).run os s = .ok 0 s' ∧
      (∀ i e, s.args[i]? = some e → numAt s' (p + 4 * i) 4 = q + ((s.args.take i).map fun e => e.length + 1).sum ∧
        Spec.range (bytes s') (q + ((s.args.take i).map fun e => e.length + 1).sum) (cut e).length = cut e) ∧
      (∀ a, a < p ∨ p + 4 * s.args.length ≤ a → a < q ∨ q + touched s.args ≤ a → (bytes s')[a]? = (bytes s)[a]?) ∧
      (bytes s').length = (bytes s).length ∧ s' = { s with mem := s'.mem } := by
  obtain ⟨s', h, rest⟩ := putStrs_cut_layout s.args p q s hp hq hd hm
  refine ⟨s', ?_, rest⟩
  obtain ⟨m, hm, -⟩ := hp.some
  show argsGet p q s = _
  unfold argsGet
  rw [bind_ok (mems_run hm), bind_ok (get_run _), bind_ok h]
  rfl

/-- The same for `environ_get`. -/
theorem wasi_environ_get_cut (os : Os) (s : St) (p q : Nat) (hp : InMem s p (4 * s.envs.length)) (hq : InMem s q (touched s.envs))
    (hd : p + 4 * s.envs.length ≤ q ∨ q + touched s.envs ≤ p) (hm : (bytes s).length ≤ 2 ^ 32) :
    ∃ s', (Call.environGet p q).run os s = .ok 0 s' ∧
      (∀ i e, s.envs[i]? = some e → numAt s' (p + 4 * i) 4 = q + ((s.envs.take i).map fun e => e.length + 1).sum ∧
        Spec.range (bytes s') (q + ((s.envs.take i).map fun e => e.length + 1).sum) (cut e).length = cut e) ∧
      (∀ a, a < p ∨ p + 4 * s.envs.length ≤ a → a < q ∨ q + touched s.envs ≤ a → (bytes s')[a]? = (bytes s)[a]?) ∧
      (bytes s').length = (bytes s).length ∧ s' = { s with mem := s'.mem } := by
  obtain ⟨s', h, rest⟩ := putStrs_cut_layout s.envs p q s hp hq hd hm
  refine ⟨s', ?_, rest⟩
  obtain ⟨m, hm, -⟩ := hp.some
  show environGet p q s = _
  unfold environGet
  rw [bind_ok (mems_run hm), bind_ok (get_run _), bind_ok h]
  rfl

/-- C43: and the sizes it tells are the number of strings and the number of their characters and zeros. -/
theorem wasi_args_sizes_cut (os : Os) (s : St) (p q : Nat) (hp : InMem s p 4) (hq : InMem s q 4) (hn : s.args.length < 2 ^ 32)
    (hz : (s.args.map fun e => e.length + 1).sum < 2 ^ 32) :
    (Call.argsSizesGet p q).run os s =
      .ok 0 (write (write s p (Spec.bytesLE 4 s.args.length)) q (Spec.bytesLE 4 (s.args.map fun e => e.length + 1).sum)) := by
  obtain ⟨m, hm, -⟩ := hp.some
  show argsSizesGet p q s = _
  unfold argsSizesGet
  rw [bind_ok (mems_run hm), bind_ok (get_run _), bind_ok (putU_run hp hn), bind_ok (get_run _)]
  rw [bind_ok (putU_run (v := strsSize (write s p (bytesLE 4 s.args.length)).args) (hq.write _ _) hz)]
  rfl
/-- The same for `environ_sizes_get`. -/
theorem wasi_environ_sizes_cut (os : Os) (s : St) (p q : Nat) (hp : InMem s p 4) (hq : InMem s q 4) (hn : s.envs.length < 2 ^ 32)
    (hz : (s.envs.map fun e => e.length + 1).sum < 2 ^ 32) :
    (Call.environSizesGet p q).run os s =
      .ok 0 (write (write s p (Spec.bytesLE 4 s.envs.length)) q (Spec.bytesLE 4 (s.envs.map fun e => e.length + 1).sum)) := by
  obtain ⟨m, hm, -⟩ := hp.some
  show environSizesGet p q s = _
  unfold environSizesGet
  rw [bind_ok (mems_run hm), bind_ok (get_run _), bind_ok (putU_run hp hn), bind_ok (get_run _)]
  rw [bind_ok (putU_run (v := strsSize (write s p (bytesLE 4 s.envs.length)).envs) (hq.write _ _) hz)]
  rfl

/-- A guest finds a string whole exactly if it is ASCII. -/
theorem wasi_cut_iff (e : Str) : cut e = cStr e ↔ Ascii e := by
  constructor
  · intro h c hc
    have h1 := congrArg List.length h
    rw [cut_length] at h1
    have h2 : (e.flatMap String.utf8EncodeChar).length = e.length := by
      simp only [cStr, List.length_append, List.length_singleton] at h1; omega
    clear h h1
    induction e with
    | nil => cases hc
    | cons x e ih =>
      have := utf8_length_ge e
      simp only [List.flatMap_cons, List.length_append, String.length_utf8EncodeChar, List.length_cons] at h2
      have hx := x.utf8Size_pos
      have h3 : x.utf8Size = 1 := by omega
      rcases List.mem_cons.mp hc with rfl | hc
      · have : c.val ≤ 127 := Char.utf8Size_eq_one_iff.mp h3
        rw [UInt32.le_iff_toNat_le] at this
        show c.val.toNat < 128
        have h4 : (127 : UInt32).toNat = 127 := rfl
        omega
      · exact ih hc (by omega)
  · intro h
    have := ascii_length h
    unfold Py.encodeUtf8 at this
    unfold cut cStr
    rw [List.take_of_length_le (by omega)]

-- The argument `é`: two bytes are meant, of which the guest finds the first byte of the letter; nothing is written behind them.
example : cut ['é'] = [0xC3, 0] ∧ touched [['é']] = 2 ∧ touched [['é', 'é']] = 4 ∧ touched [['a', 'b']] = 3 := by decide +kernel
example : accentSt.args = [['é']] ∧ InMem accentSt 0 4 ∧ InMem accentSt 8 2 ∧ (bytes accentSt).length ≤ 2 ^ 32 := by
  refine ⟨?_, ⟨?_, ?_⟩, ⟨?_, ?_⟩, ?_⟩ <;> decide +kernel

/-! ## The hypotheses are met -/

example := wasi_args_get_cut (demoOs .dir) accentSt 0 8 (inMem _ _ _) (inMem _ _ _) (.inl (by decide +kernel)) (by decide +kernel)
example := wasi_environ_get_cut (demoOs .dir) (demoSt .dir) 0 8 (inMem _ _ _) (inMem _ _ _) (.inl (by decide +kernel)) (by decide +kernel)
example := wasi_args_sizes_cut (demoOs .dir) accentSt 0 8 (inMem _ _ _) (inMem _ _ _) (by decide +kernel) (by decide +kernel)
example := wasi_environ_sizes_cut (demoOs .dir) (demoSt .dir) 0 8 (inMem _ _ _) (inMem _ _ _) (by decide +kernel) (by decide +kernel)

end Pywasm.Props
