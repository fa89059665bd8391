import Verif.Lemmas.WasiStrs
import Verif.Lemmas.WasiTable

/-!
# The loops over iovecs
-/

namespace Pywasm.Wasi
open WasiSpec Spec

theorem iovecs_succ (s : St) (p n : Nat) :
    iovecs s p (n + 1) = (numAt s p 4, numAt s (p + 4) 4) :: iovecs s (p + 8) n := by
  unfold iovecs
  rw [List.range_succ_eq_map, List.map_cons, List.map_map]
  congr 1
  apply List.map_congr_left
  intro i _
  show (numAt s (p + 8 * (i + 1)) 4, numAt s (p + 8 * (i + 1) + 4) 4) = _
  rw [show p + 8 * (i + 1) = p + 8 + 8 * i by omega]

theorem iovecs_length (s : St) (p n : Nat) : (iovecs s p n).length = n := by simp [iovecs]

theorem gather_run (n : Nat) (p : Nat) (d : Bytes) (s : St) (hp : InMem s p (8 * n))
    (hb : ∀ b ∈ iovecs s p n, b.1 + b.2 ≤ (bytes s).length) :
    gather n p d s = .ok (d ++ gathered s (iovecs s p n)) s := by
  induction n generalizing p d with
  | zero => simp [gather, gathered, iovecs, pure_run]
  | succ n ih =>
    rw [iovecs_succ] at hb ⊢
    have hp2 := hp.2
    unfold gather
    rw [bind_ok (getU_run (k := 4) ⟨hp.1, by omega⟩)]
    have h2 := getU_run (s := s) (k := 4) (p := p + 4) ⟨hp.1, by omega⟩
    rw [show ((p + 4 : Nat) : Int) = (p : Int) + 4 from rfl] at h2
    rw [bind_ok h2]
    rw [bind_ok (getB_run ⟨hp.1, hb _ List.mem_cons_self⟩)]
    have := ih (p + 8) (d ++ range (bytes s) (numAt s p 4) (numAt s (p + 4) 4)) ⟨hp.1, by omega⟩
      fun b hb' => hb b (List.mem_cons_of_mem _ hb')
    rw [show ((p + 8 : Nat) : Int) = (p : Int) + 8 from rfl] at this
    rw [this]
    simp [gathered]

/-- The buffers lie in memory and do not touch the bytes from `p` to `e`. -/
def Clear (s : St) (p e : Nat) (l : List (Nat × Nat)) : Prop :=
  ∀ b ∈ l, b.1 + b.2 ≤ (bytes s).length ∧ (b.1 + b.2 ≤ p ∨ e ≤ b.1)

theorem iovecs_write (s : St) (p n q : Nat) (d : Bytes) (h : q + d.length ≤ p ∨ p + 8 * n ≤ q) :
    iovecs (write s q d) p n = iovecs s p n := by
  unfold iovecs
  apply List.map_congr_left
  intro i hi
  have := List.mem_range.mp hi
  rw [numAt_write_other (by omega), numAt_write_other (by omega)]

theorem readLoop_run (rd : Int → Int → W Bytes) (ans : List Event → Nat → Nat → Bytes) (ev : Nat → Nat → Bytes → Event)
    (fd : List File)
    (hans : ∀ l len k, (ans l len k).length ≤ len)
    (hrd : ∀ (t : St) (len k : Nat), t.fd = fd → rd len k t =
      .ok (ans t.log len k) { t with log := t.log ++ [ev len k (ans t.log len k)] })
    (n p k : Nat) (s : St) (hs : s.fd = fd) (hp : InMem s p (8 * n)) (hc : Clear s p (p + 8 * n) (iovecs s p n)) :
    ∃ ds, Pieces (iovecs s p n) ds ∧
      readLoop rd n p k s = .ok ((k + ds.flatten.length : Nat) : Int)
        (stored { s with log := s.log ++ pieceEvents ev k (iovecs s p n) ds } (iovecs s p n) ds) := by
  induction n generalizing p k s with
  | zero =>
    refine ⟨[], .none, ?_⟩
    simp [readLoop, pure_run, iovecs, pieceEvents, stored]
  | succ n ih =>
    rw [iovecs_succ] at hc ⊢
    have hp2 := hp.2
    obtain ⟨hc1, hc2⟩ := hc _ List.mem_cons_self
    generalize he1 : numAt s p 4 = ptr at *
    generalize he2 : numAt s (p + 4) 4 = len at *
    have hd := hans s.log len k
    have hr := hrd s len k hs
    generalize hda : ans s.log len k = d at hd hr
    have r1 := getU_run (s := s) (k := 4) (p := p) ⟨hp.1, by omega⟩
    have r2 := getU_run (s := s) (k := 4) (p := p + 4) ⟨hp.1, by omega⟩
    rw [show ((p + 4 : Nat) : Int) = (p : Int) + 4 from rfl, he2] at r2
    rw [he1] at r1
    unfold readLoop
    rw [bind_ok r1, bind_ok r2, bind_ok hr]
    by_cases h0 : d.length = 0
    · rw [if_pos h0]
      have hd0 : d = [] := List.length_eq_zero_iff.mp h0
      refine ⟨[d], .short _ _ _ ?_, ?_⟩
      · show d.length < len ∨ len = 0 ∧ d = []
        rcases Nat.eq_zero_or_pos len with h | h
        · exact .inr ⟨h, hd0⟩
        · exact .inl (by omega)
      · rw [hd0]
        simp [pure_run, stored, pieceEvents, write_nil]
    · rw [if_neg h0]
      have hput := put_run (s := { s with log := s.log ++ [ev len k d] }) (p := ptr) (d := d)
        ⟨hp.1, Nat.le_trans (by omega : ptr + d.length ≤ ptr + len) hc1⟩
      rw [bind_ok hput]
      by_cases hlt : (d.length : Int) < len
      · rw [if_pos hlt]
        refine ⟨[d], .short _ _ _ (.inl (by show d.length < len; omega)), ?_⟩
        simp [pure_run, stored, pieceEvents]
      · rw [if_neg hlt]
        have hdl : d.length = len := by omega
        have hioe : iovecs (write { s with log := s.log ++ [ev len k d] } ptr d) (p + 8) n = iovecs s (p + 8) n := by
          rw [iovecs_write _ _ _ _ _ (by omega)]; rfl
        obtain ⟨ds, hds, hrun⟩ := ih (p + 8) (k + d.length) (write { s with log := s.log ++ [ev len k d] } ptr d) hs
          (InMem.write ⟨hp.1, by show _ ≤ (bytes s).length; omega⟩ _ _) (by
            rw [hioe]
            intro b hb
            obtain ⟨g1, g2⟩ := hc b (List.mem_cons_of_mem _ hb)
            rw [length_write]
            exact ⟨g1, by omega⟩)
        rw [hioe] at hds hrun
        refine ⟨d :: ds, .full _ _ _ _ hdl (fun h => h0 (by rw [h]; rfl)) hds, ?_⟩
        rw [show ((p + 8 : Nat) : Int) = (p : Int) + 8 from rfl,
          show ((k + d.length : Nat) : Int) = (k : Int) + d.length from rfl] at hrun
        rw [hrun]
        simp only [List.flatten_cons, List.length_append, pieceEvents, stored, Nat.add_assoc]
        congr 2
        show ({ s with mem := _, log := _ } : St) = { s with mem := _, log := _ }
        simp [write]

theorem stored_fd (s : St) (l : List (Nat × Nat)) (ds : List Bytes) : (stored s l ds).fd = s.fd := by
  induction l generalizing s ds with
  | nil => rfl
  | cons b l ih =>
    cases ds with
    | nil => rfl
    | cons d ds => exact ih _ _

theorem stored_length (s : St) (l : List (Nat × Nat)) (ds : List Bytes) :
    (bytes (stored s l ds)).length = (bytes s).length := by
  induction l generalizing s ds with
  | nil => rfl
  | cons b l ih =>
    cases ds with
    | nil => rfl
    | cons d ds => exact (ih _ _).trans (length_write _ _ _)

theorem stored_mem (s : St) (l : List (Nat × Nat)) (ds : List Bytes) : (stored s l ds).mem ≠ none ↔ s.mem ≠ none := by
  induction l generalizing s ds with
  | nil => rfl
  | cons b l ih =>
    cases ds with
    | nil => rfl
    | cons d ds => exact (ih _ _).trans (write_mem _ _)

end Pywasm.Wasi
