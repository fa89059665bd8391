import Verif.Lemmas.WasiHonest
import Verif.Props.WasiIo

/-!
# Reading a regular file piece by piece
-/

namespace Pywasm.Wasi
open WasiSpec

theorem _root_.Pywasm.WasiSpec.Genuine.at {os : Os} {l1 l2 : List Event} {x : Sys} {r : Except Err x.Ans}
    (h : Genuine os (l1 ++ ⟨x, r⟩ :: l2)) : os.run l1 x = r := (h l1 ⟨x, r⟩ l2 rfl).symm

variable {os : Os} {h : Int} {content : List Event → Bytes} {offset : List Event → Nat}

/-- What the loop of `fd_pread` gets from a regular file. -/
theorem pieces_pread (hf : RegularFile os h content offset) (off : Nat) {l : List (Nat × Nat)} {ds : List Bytes} (hp : Pieces l ds)
    (hz : ∀ b ∈ l, b.2 ≠ 0) (k : Nat) (log : List Event)
    (hg : Genuine os (log ++ pieceEvents (fun len k d => ⟨.pread h len ((off : Int) + k), .ok d⟩) k l ds)) :
    ds.flatten = ((content log).drop (off + k)).take (l.map (·.2)).sum := by
  induction hp generalizing k log with
  | none => simp
  | short b l d hd =>
    have h1 := hg.at
    rw [show os.run log (.pread h (b.2 : Nat) ((off : Int) + k)) = _ from hf.pread log b.2 (off + k)] at h1
    have h1 : ((content log).drop (off + k)).take b.2 = d := Except.ok.inj h1
    have hb := hz b List.mem_cons_self
    have hd : d.length < b.2 := by omega
    rw [← h1, List.length_take] at hd
    simp only [List.flatten_cons, List.flatten_nil, List.append_nil, List.map_cons, List.sum_cons]
    rw [← h1, List.take_of_length_le (by omega), List.take_of_length_le (by omega)]
  | full b l d ds hd _ _ ih =>
    have h1 := hg.at
    rw [show os.run log (.pread h (b.2 : Nat) ((off : Int) + k)) = _ from hf.pread log b.2 (off + k)] at h1
    have h1 : ((content log).drop (off + k)).take b.2 = d := Except.ok.inj h1
    have h2 := ih (fun c hc => hz c (List.mem_cons_of_mem _ hc)) (k + d.length)
      (log ++ [⟨.pread h (b.2 : Nat) ((off : Int) + k), .ok d⟩]) (by simpa [pieceEvents] using hg)
    rw [show content (log ++ [⟨.pread h (b.2 : Nat) ((off : Int) + k), .ok d⟩]) = content log from
      (hf.after_pread log b.2 (off + k) _).1] at h2
    simp only [List.flatten_cons, List.map_cons, List.sum_cons]
    rw [h2, hd, List.take_add, h1, List.drop_drop, Nat.add_assoc]

/-- What the loop of `fd_read` gets from a regular file. -/
theorem pieces_read (hf : RegularFile os h content offset) {l : List (Nat × Nat)} {ds : List Bytes} (hp : Pieces l ds)
    (hz : ∀ b ∈ l, b.2 ≠ 0) (k : Nat) (log : List Event)
    (hg : Genuine os (log ++ pieceEvents (fun len _ d => ⟨.read h len, .ok d⟩) k l ds)) :
    ds.flatten = ((content log).drop (offset log)).take (l.map (·.2)).sum := by
  induction hp generalizing k log with
  | none => simp
  | short b l d hd =>
    have h1 := hg.at
    rw [hf.read log b.2] at h1
    have h1 : ((content log).drop (offset log)).take b.2 = d := Except.ok.inj h1
    have hb := hz b List.mem_cons_self
    have hd : d.length < b.2 := by omega
    rw [← h1, List.length_take] at hd
    simp only [List.flatten_cons, List.flatten_nil, List.append_nil, List.map_cons, List.sum_cons]
    rw [← h1, List.take_of_length_le (by omega), List.take_of_length_le (by omega)]
  | full b l d ds hd _ _ ih =>
    have h1 := hg.at
    rw [hf.read log b.2] at h1
    have h1 : ((content log).drop (offset log)).take b.2 = d := Except.ok.inj h1
    have h2 := ih (fun c hc => hz c (List.mem_cons_of_mem _ hc)) (k + d.length)
      (log ++ [⟨.read h (b.2 : Nat), .ok d⟩]) (by simpa [pieceEvents] using hg)
    rw [(hf.after_read log b.2 d).1, (hf.after_read log b.2 d).2] at h2
    simp only [List.flatten_cons, List.map_cons, List.sum_cons]
    rw [h2, hd, List.take_add, h1, List.drop_drop]

/-- Reading leaves the file as it is. -/
theorem pieces_pread_after (hf : RegularFile os h content offset) (off : Nat) {l : List (Nat × Nat)} {ds : List Bytes} (hp : Pieces l ds)
    (k : Nat) (log : List Event) :
    content (log ++ pieceEvents (fun len k d => ⟨.pread h len ((off : Int) + k), .ok d⟩) k l ds) = content log ∧
      offset (log ++ pieceEvents (fun len k d => ⟨.pread h len ((off : Int) + k), .ok d⟩) k l ds) = offset log := by
  induction hp generalizing k log with
  | none => simp [pieceEvents]
  | short b l d hd => simpa [pieceEvents] using hf.after_pread log b.2 (off + k) (.ok d)
  | full b l d ds hd _ _ ih =>
    have h1 := hf.after_pread log b.2 (off + k) (.ok d)
    have h2 := ih (k + d.length) (log ++ [⟨.pread h (b.2 : Nat) ((off + k : Nat) : Int), .ok d⟩])
    rw [h1.1, h1.2, List.append_assoc] at h2
    exact h2

/-- Reading moves the offset behind what was read. -/
theorem pieces_read_after (hf : RegularFile os h content offset) {l : List (Nat × Nat)} {ds : List Bytes} (hp : Pieces l ds)
    (k : Nat) (log : List Event) :
    content (log ++ pieceEvents (fun len _ d => ⟨.read h len, .ok d⟩) k l ds) = content log ∧
      offset (log ++ pieceEvents (fun len _ d => ⟨.read h len, .ok d⟩) k l ds) = offset log + ds.flatten.length := by
  induction hp generalizing k log with
  | none => simp [pieceEvents]
  | short b l d hd => simpa [pieceEvents] using hf.after_read log b.2 d
  | full b l d ds hd _ _ ih =>
    have h1 := hf.after_read log b.2 d
    have h2 := ih (k + d.length) (log ++ [⟨.read h (b.2 : Nat), .ok d⟩])
    rw [h1.1, h1.2, List.append_assoc] at h2
    refine ⟨h2.1, h2.2.trans ?_⟩
    rw [List.flatten_cons, List.length_append, Nat.add_assoc]

/-- The bytes read are the first in the buffers. -/
theorem gathered_pieces {t : St} {l : List (Nat × Nat)} {ds : List Bytes} (hp : Pieces l ds)
    (h : ∀ (i : Nat) (d : Bytes), ds[i]? = some d → ∃ b, l[i]? = some b ∧ d.length ≤ b.2 ∧ Spec.range (bytes t) b.1 d.length = d) :
    (gathered t l).take ds.flatten.length = ds.flatten := by
  have key : ∀ (b : Nat × Nat) (d : Bytes), d.length ≤ b.2 → Spec.range (bytes t) b.1 d.length = d →
      (Spec.range (bytes t) b.1 b.2).take d.length = d := by
    intro b d h1 h2
    unfold Spec.range at *
    rw [List.take_take, Nat.min_eq_left h1]
    exact h2
  induction hp with
  | none => simp
  | short b l d hd =>
    obtain ⟨b', hb, h1, h2⟩ := h 0 d rfl
    cases hb
    have h3 := key b d h1 h2
    have h4 := congrArg List.length h3
    rw [List.length_take] at h4
    simp only [List.flatten_cons, List.flatten_nil, List.append_nil, gathered, List.flatMap_cons]
    rw [List.take_append_of_le_length (by omega), h3]
  | full b l d ds hd _ _ ih =>
    obtain ⟨b', hb, h1, h2⟩ := h 0 d rfl
    cases hb
    have h3 := key b d h1 h2
    rw [hd, List.take_of_length_le (by unfold Spec.range; rw [List.length_take]; omega)] at h3
    have h4 := ih fun i d hi => h (i + 1) d hi
    simp only [List.flatten_cons, List.length_append, gathered, List.flatMap_cons] at h4 ⊢
    rw [h3, List.take_append, List.take_of_length_le (by omega), Nat.add_sub_cancel_left, h4]

/-- Pieces that are as long as the buffers together fill each of them. -/
theorem pieces_full {l : List (Nat × Nat)} {ds : List Bytes} (hp : Pieces l ds) (hz : ∀ b ∈ l, b.2 ≠ 0)
    (h : ds.flatten.length = (l.map (·.2)).sum) : ds.map List.length = l.map (·.2) := by
  induction hp with
  | none => rfl
  | short b l d hd =>
    have hb := hz b List.mem_cons_self
    simp only [List.flatten_cons, List.flatten_nil, List.append_nil, List.map_cons, List.sum_cons] at h
    omega
  | full b l d ds hd _ _ ih =>
    simp only [List.flatten_cons, List.length_append, List.map_cons, List.sum_cons] at h ⊢
    rw [hd, ih (fun c hc => hz c (List.mem_cons_of_mem _ hc)) (by omega)]

/-- The bytes just stored are found in the buffers. -/
theorem gathered_stored {s : St} (hs : s.mem ≠ none) {l : List (Nat × Nat)} {ds : List Bytes} (hp : Pieces l ds) (hz : ∀ b ∈ l, b.2 ≠ 0)
    (hb : ∀ b ∈ l, b.1 + b.2 ≤ (bytes s).length) (hd : l.Pairwise fun a b => a.1 + a.2 ≤ b.1 ∨ b.1 + b.2 ≤ a.1)
    (h : ds.flatten.length = (l.map (·.2)).sum) {r : Nat} {n : Bytes} (hr : ∀ b ∈ l, b.1 + b.2 ≤ r ∨ r + n.length ≤ b.1) :
    gathered (write (stored s l ds) r n) l = ds.flatten := by
  have hl := pieces_full hp hz h
  have hw := (Props.wasi_stored s hs l ds hp hb hd).1
  unfold gathered
  rw [List.flatMap_def]
  congr 1
  apply List.ext_getElem?
  intro i
  rw [List.getElem?_map]
  have hi := congrArg (·[i]?) hl
  simp only [List.getElem?_map] at hi
  cases hdi : ds[i]? with
  | none =>
    rw [hdi] at hi
    cases hli : l[i]? with
    | none => rfl
    | some b => rw [hli] at hi; cases hi
  | some d =>
    obtain ⟨b, hb1, hb2, hb3⟩ := hw i d hdi
    rw [hdi, hb1] at hi
    have hi : d.length = b.2 := Option.some.inj hi
    rw [hb1]
    refine congrArg some ?_
    beta_reduce
    rw [bytes_write ((stored_mem _ _ _).mpr hs), range_patch_other (hr b (List.mem_of_getElem? hb1)), ← hi]
    exact hb3

theorem overwrite_drop (c : Bytes) (o : Nat) (d : Bytes) : ((overwrite c o d).drop o).take d.length = d := by
  unfold overwrite
  split
  · next h => subst h; simp
  · rw [List.append_assoc, List.drop_append_of_le_length (by simp; omega), List.drop_eq_nil_of_le (by simp; omega)]
    simp

end Pywasm.Wasi
