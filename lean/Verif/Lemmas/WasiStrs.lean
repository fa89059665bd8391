import Verif.Lemmas.WasiMem

/-!
# Argument and environment strings in guest memory
-/

namespace Pywasm.Wasi
open WasiSpec Spec

theorem patch_append (d a b : Bytes) (p : Nat) : patch (patch d p a) (p + a.length) b = patch d p (a ++ b) := by
  apply List.ext_getElem?
  intro i
  simp only [getElem?_patch, Py.patch_length, List.length_append]
  by_cases h1 : i < d.length
  · by_cases h2 : p + a.length ≤ i
    · by_cases h3 : i < p + a.length + b.length
      · rw [if_pos ⟨h2, h3, h1⟩, if_pos ⟨by omega, by omega, h1⟩, List.getElem?_append_right (by omega)]
        congr 1; omega
      · rw [if_neg (by omega), if_neg (by omega), if_neg (by omega)]
    · rw [if_neg (by omega)]
      by_cases h3 : p ≤ i
      · rw [if_pos ⟨h3, by omega, h1⟩, if_pos ⟨h3, by omega, h1⟩, List.getElem?_append_left (by omega)]
      · rw [if_neg (by omega), if_neg (by omega)]
  · rw [if_neg (by omega), if_neg (by omega), if_neg (by omega)]

theorem patch_comm (d a b : Bytes) (p q : Nat) (h : p + a.length ≤ q ∨ q + b.length ≤ p) :
    patch (patch d p a) q b = patch (patch d q b) p a := by
  apply List.ext_getElem?
  intro i
  simp only [getElem?_patch, Py.patch_length]
  by_cases h1 : q ≤ i ∧ i < q + b.length ∧ i < d.length
  · rw [if_pos h1, if_neg (by omega), if_pos h1]
  · rw [if_neg h1]
    split
    · rfl
    · rfl

theorem write_append (s : St) (a b : Bytes) (p : Nat) : write (write s p a) (p + a.length) b = write s p (a ++ b) := by
  unfold write
  cases s.mem with
  | none => rfl
  | some m => simp only [Option.map_some, patch_append]
theorem write_comm (s : St) (a b : Bytes) (p q : Nat) (h : p + a.length ≤ q ∨ q + b.length ≤ p) :
    write (write s p a) q b = write (write s q b) p a := by
  unfold write
  cases s.mem with
  | none => rfl
  | some m => simp only [Option.map_some, patch_comm _ _ _ _ _ h]
theorem write_nil (s : St) (p : Nat) : write s p [] = s := by
  have : ∀ d : Bytes, patch d p [] = d := by
    intro d
    apply List.ext_getElem?
    intro i
    rw [getElem?_patch, if_neg (by simp; omega)]
  obtain ⟨a, n, e, r, f, m, l⟩ := s
  cases m <;> simp [write, this]

/-! ## The loop -/

/-- The pointers, by recursion. -/
def ptrs (q : Nat) : List Str → Bytes
  | [] => []
  | e :: l => bytesLE 4 q ++ ptrs (q + (cStr e).length) l

theorem ptrs_eq (q : Nat) (l : List Str) : ptrs q l = strTable q l := by
  induction l generalizing q with
  | nil => rfl
  | cons e l ih =>
    rw [ptrs, ih]
    unfold strTable
    rw [List.length_cons, List.range_succ_eq_map, List.flatMap_cons, List.flatMap_map]
    congr 1
    apply List.flatMap_congr
    intro i _
    rw [List.take_succ_cons]
    simp [cStrs, Nat.add_assoc]

theorem ptrs_length (q : Nat) (l : List Str) : (ptrs q l).length = 4 * l.length := by
  induction l generalizing q with
  | nil => rfl
  | cons e l ih => rw [ptrs, List.length_append, ih, bytesLE_length, List.length_cons]; omega

theorem ascii_length {e : Str} (h : Ascii e) : (Py.encodeUtf8 e).length = e.length := by
  induction e with
  | nil => rfl
  | cons c e ih =>
    have hc : c.utf8Size = 1 := by
      have := h c (by simp)
      unfold Char.utf8Size
      rw [if_pos]
      have : c.val.toNat < 128 := this
      rw [UInt32.le_iff_toNat_le]
      show c.val.toNat ≤ 127
      omega
    show (String.utf8EncodeChar c ++ Py.encodeUtf8 e).length = _
    rw [List.length_append, ih fun x hx => h x (List.mem_cons_of_mem _ hx), String.length_utf8EncodeChar, hc, List.length_cons]
    omega

theorem cStr_length {e : Str} (h : Ascii e) : (cStr e).length = e.length + 1 := by
  have := ascii_length h
  unfold Py.encodeUtf8 at this
  simp [cStr, this]

theorem putStrs_run (l : List Str) (hl : ∀ e ∈ l, Ascii e) (p q : Nat) (s : St) (hp : InMem s p (4 * l.length))
    (hq : InMem s q (cStrs l).length) (hd : p + 4 * l.length ≤ q ∨ q + (cStrs l).length ≤ p)
    (hm : (bytes s).length ≤ 2 ^ 32) :
    putStrs l p q s = .ok () (write (write s p (ptrs q l)) q (cStrs l)) := by
  induction l generalizing p q s with
  | nil => simp [putStrs, ptrs, cStrs, write_nil, pure_run]
  | cons e l ih =>
    have he := hl e (by simp)
    have hcl : (cStrs (e :: l)).length = e.length + 1 + (cStrs l).length := by
      simp only [cStrs, List.flatMap_cons, List.length_append, cStr_length he]
    rw [hcl] at hq hd
    rw [List.length_cons] at hp hd
    have hp2 := hp.2
    have hq2 := hq.2
    unfold putStrs
    rw [bind_ok (putU_run ⟨hp.1, by omega⟩ (by show q < 4294967296; omega))]
    have h1 : InMem (write s p (bytesLE 4 q)) q (Py.encodeUtf8 e).length :=
      InMem.write ⟨hp.1, by rw [ascii_length he]; omega⟩ _ _
    rw [bind_ok (put_run h1)]
    have h2 : InMem (write (write s p (bytesLE 4 q)) q (Py.encodeUtf8 e)) (q + e.length) 1 :=
      InMem.write (InMem.write ⟨hp.1, by omega⟩ _ _) _ _
    have h3 := putU8_run h2 (v := 0) (by decide)
    rw [show ((q + e.length : Nat) : Int) = (q : Int) + (e.length : Int) by push_cast; rfl, show ((0 : Nat) : Int) = 0 from rfl] at h3
    rw [bind_ok h3]
    rw [← ascii_length he, write_append]
    rw [show Py.encodeUtf8 e ++ [UInt8.ofNat 0] = cStr e from rfl]
    have hlen : (bytes (write (write s p (bytesLE 4 q)) q (cStr e))).length = (bytes s).length := by
      rw [length_write, length_write]
    have := ih (fun x hx => hl x (List.mem_cons_of_mem _ hx)) (p + 4) (q + (e.length + 1))
      (write (write s p (bytesLE 4 q)) q (cStr e))
      (InMem.write (InMem.write ⟨hp.1, by omega⟩ _ _) _ _) (InMem.write (InMem.write ⟨hp.1, by omega⟩ _ _) _ _)
      (by omega) (by rw [hlen]; exact hm)
    rw [show ((p + 4 : Nat) : Int) = (p : Int) + 4 by push_cast; rfl,
      show ((q + (e.length + 1) : Nat) : Int) = (q : Int) + e.length + 1 by push_cast; omega] at this
    rw [ascii_length he, this]
    congr 1
    have e1 : q + (e.length + 1) = q + (cStr e).length := by rw [cStr_length he]
    rw [e1]
    rw [write_comm (write s p (bytesLE 4 q)) (cStr e) (ptrs (q + (cStr e).length) l) q (p + 4)
      (by rw [cStr_length he, ptrs_length]; omega)]
    rw [write_append]
    rw [show p + 4 = p + (bytesLE 4 q).length by rw [bytesLE_length], write_append]
    rfl

theorem strsSize_eq {l : List Str} (hl : ∀ e ∈ l, Ascii e) : strsSize l = (cStrs l).length := by
  induction l with
  | nil => rfl
  | cons e l ih =>
    have := ih fun x hx => hl x (List.mem_cons_of_mem _ hx)
    unfold strsSize at this ⊢
    simp only [List.map_cons, List.sum_cons, this, cStrs, List.flatMap_cons, List.length_append, cStr_length (hl e (by simp))]

/-! ## Reading back -/

theorem range_patch_sub {d T : Bytes} {p k n : Nat} (h : p + T.length ≤ d.length) (hk : k + n ≤ T.length) :
    range (patch d p T) (p + k) n = (T.drop k).take n := by
  apply List.ext_getElem?
  intro i
  unfold range
  simp only [List.getElem?_take, List.getElem?_drop, getElem?_patch]
  split
  · rw [if_pos (by omega)]
    congr 1; omega
  · rfl

theorem ptrs_get (q : Nat) (l : List Str) (i : Nat) (hi : i < l.length) :
    ((ptrs q l).drop (4 * i)).take 4 = bytesLE 4 (q + (cStrs (l.take i)).length) := by
  induction l generalizing q i with
  | nil => simp at hi
  | cons e l ih =>
    unfold ptrs
    cases i with
    | zero => 
      rw [Nat.mul_zero, List.drop_zero, List.take_left' (bytesLE_length _ _)]
      simp [cStrs]
    | succ i =>
      rw [show 4 * (i + 1) = (bytesLE 4 q).length + 4 * i by rw [bytesLE_length]; omega, List.drop_length_add_append]
      rw [ih _ i (by simpa using hi), List.take_succ_cons]
      simp [cStrs, Nat.add_assoc]

theorem cStrs_get (l : List Str) (i : Nat) (e : Str) (h : l[i]? = some e) :
    (cStrs (l.take i)).length + (cStr e).length ≤ (cStrs l).length ∧
      ((cStrs l).drop (cStrs (l.take i)).length).take (cStr e).length = cStr e := by
  have hl : l = l.take i ++ e :: l.drop (i + 1) := by
    obtain ⟨hi, h⟩ := List.getElem?_eq_some_iff.mp h
    subst h
    rw [← List.drop_eq_getElem_cons, List.take_append_drop]
  have hc : cStrs l = cStrs (l.take i) ++ (cStr e ++ cStrs (l.drop (i + 1))) := by
    conv => lhs; rw [hl]
    simp [cStrs]
  rw [hc]
  refine ⟨by simp only [List.length_append]; omega, ?_⟩
  rw [List.drop_left, List.take_left]

theorem putStrs_layout (l : List Str) (hl : ∀ e ∈ l, Ascii e) (p q : Nat) (s : St) (hp : InMem s p (4 * l.length))
    (hq : InMem s q (cStrs l).length) (hd : p + 4 * l.length ≤ q ∨ q + (cStrs l).length ≤ p)
    (hm : (bytes s).length ≤ 2 ^ 32) :
    ∃ s', putStrs l p q s = .ok () s' ∧
      (∀ i e, l[i]? = some e → numAt s' (p + 4 * i) 4 = q + (cStrs (l.take i)).length ∧
        range (bytes s') (q + (cStrs (l.take i)).length) (cStr e).length = cStr e) ∧
      (∀ a, a < p ∨ p + 4 * l.length ≤ a → a < q ∨ q + (cStrs l).length ≤ a → (bytes s')[a]? = (bytes s)[a]?) ∧
      (bytes s').length = (bytes s).length ∧ s' = { s with mem := s'.mem } := by
  refine ⟨_, putStrs_run l hl p q s hp hq hd hm, ?_, ?_, by rw [length_write, length_write], rfl⟩
  · intro i e he
    obtain ⟨hi, _⟩ := List.getElem?_eq_some_iff.mp he
    obtain ⟨c1, c2⟩ := cStrs_get l i e he
    have hp2 := hp.2
    have hq2 := hq.2
    have hpl := ptrs_length q l
    have hc1 : 1 ≤ (cStr e).length := by simp [cStr]
    rw [numAt_write_other (by omega)]
    refine ⟨?_, ?_⟩
    · unfold numAt
      rw [bytes_write hp.1, range_patch_sub (by rw [hpl]; exact hp2) (by omega), ptrs_get _ _ _ hi,
        readLE_bytesLE _ _ (by show _ < 4294967296; omega)]
    · rw [bytes_write ((write_mem _ _).mpr hp.1),
        range_patch_sub (by rw [length_write]; exact hq2) c1, c2]
  · intro a h1 h2
    rw [bytes_write ((write_mem _ _).mpr hp.1), getElem?_patch, if_neg (by omega), bytes_write hp.1, getElem?_patch,
      if_neg (by rw [ptrs_length]; omega)]

end Pywasm.Wasi
