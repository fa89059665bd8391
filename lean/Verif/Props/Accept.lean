import Verif.Lemmas.AcceptModule
import Verif.Props.File

/-!
# C82: which files are accepted

`Spec/Binary.lean` is the grammar of the specification, `Spec/Accepted.lean` the grammar of what the decoder accepts: it has the rules of
the former and the rules marked *loose*.  `AccModule lim m file r`: the file is accepted and `m` is what it is taken to describe; `r`
are the bytes after the 32nd section, which are not looked at.  `lim` is the number of nested calls Python's recursion limit leaves to
the decoder.
-/

namespace Pywasm.Props
open Reader Spec.Bin Spec.Leb

/-- **C82** A file of less than 4 GiB is accepted exactly if it is in the grammar, and then the module is the one the grammar assigns.
Missing from the claim that only encodings of modules are accepted: it is false, see `C82_refuted`. -/
theorem C82_accepted_partial (lim : Nat) (file : Bytes) (m : ModuleDesc) (r : Bytes) (h : file.length < 2 ^ 32) :
    ModuleDesc.fromReader lim file = .ok (m, r) ↔ AccModule lim m file r := module_iff h

/-- **C82** Likewise for expressions: the decoder reads from the front of a string of bytes exactly the expressions of the grammar. -/
theorem C82_expression (lim : Nat) (s r : Bytes) (e : Expr) (h : s.length < 2 ^ 32) :
    Expr.fromReader lim s = .ok (e, r) ↔ ∃ b, s = b ++ r ∧ AccE lim e b := expr_iff h

/-- **C82** The grammar contains the one of the specification: an encoding of a module, in at most 32 sections, is accepted, and all of it
is read. -/
theorem C82_encodings_accepted (lim : Nat) (m : ModuleDesc) (n : Nat) (b : Bytes) (h : EncModule m n b) (hc : n ≤ 32)
    (hn : ∀ e ∈ exprs m, nestL e < lim) (hl : b.length < 2 ^ 32) : AccModule lim m b [] :=
  (module_iff hl).mp (C30_decode_inverts_encoding_partial lim m n b h hc hn)

/-- **C82** The grammar is unambiguous. -/
theorem C82_unambiguous (lim : Nat) (m m' : ModuleDesc) (b r r' : Bytes) (h : AccModule lim m b r) (h' : AccModule lim m' b r')
    (hl : b.length < 2 ^ 32) : m = m' ∧ r = r' := by
  have h1 := (module_iff hl).mpr h
  rw [(module_iff hl).mpr h'] at h1
  injection h1 with h1
  injection h1 with h1 h2
  exact ⟨h1.symm, h2.symm⟩

/-- **C82** Loading any other file raises and changes nothing. -/
theorem C82_rejected (H : Host) (lim N : Nat) (imports : Imports) (file : Bytes) (s : Machine) (hl : file.length < 2 ^ 32)
    (h : ∀ m r, ¬ AccModule lim m file r) : ∃ e, Runtime.instanceFromFile H lim N imports file s = .error e s := by
  unfold Runtime.instanceFromFile
  rcases hd : ModuleDesc.fromReader lim file with e | ⟨m, r⟩
  · exact ⟨e, rfl⟩
  · exact absurd ((module_iff hl).mp hd) (h m r)

/-- **C82** Loading a file that is accepted is the same as instantiating the module it is taken to describe. -/
theorem C82_loaded (H : Host) (lim N : Nat) (imports : Imports) (file r : Bytes) (d : ModuleDesc) (s : Machine) (hl : file.length < 2 ^ 32)
    (h : AccModule lim d file r) :
    Runtime.instanceFromFile H lim N imports file s = Runtime.instance H N imports d (loadedBufs s d) (loaded s d) := by
  unfold Runtime.instanceFromFile
  rw [(module_iff hl).mpr h, M.bind_lift_ok]
  rfl

theorem not_encSections_unknown {m : ModuleDesc} {ids : List Nat} {n : Nat} {b : Bytes} (h : EncSections m ids n b) (t : Bytes) :
    b ≠ 0x0D :: t := by
  induction h with
  | nil => nofun
  | custom _ hx =>
    obtain ⟨_, _, _, rfl⟩ := hx
    intro h
    injection h with h _
    exact absurd h (by decide)
  | skip _ _ ih => exact ih
  | @sect id ids n c x b hc hx =>
    obtain ⟨_, _, _, rfl⟩ := hx
    intro h
    injection h with h _
    have : id ≤ 12 := by
      by_contra hi
      obtain ⟨k, rfl⟩ : ∃ k, id = k + 13 := ⟨id - 13, by omega⟩
      exact hc
    interval_cases id <;> exact absurd h (by decide)

/-- **C82** fails: the header followed by a section with an unknown id and any contents encodes no module, but is accepted. -/
theorem C82_refuted (lim : Nat) (c size : Bytes) (hs : U c.length size) (hc : c.length < 2 ^ 31) (hz : size.length < 10) :
    ModuleDesc.fromReader lim ([0x00, 0x61, 0x73, 0x6D] ++ [0x01, 0x00, 0x00, 0x00] ++ ([0x0D] ++ size ++ c)) = .ok ({}, []) ∧
      ∀ m n, ¬ EncModule m n ([0x00, 0x61, 0x73, 0x6D] ++ [0x01, 0x00, 0x00, 0x00] ++ ([0x0D] ++ size ++ c)) := by
  constructor
  · refine (module_iff ?_).mpr ⟨_, ?_, rfl⟩
    · simp only [List.length_append, List.length_cons, List.length_nil]; omega
    · have := AccSections.sect (lim := lim) (k := 31) (m := {}) (id := 0x0D) hs (.unknown (by decide)) .done
      simpa using this
  · rintro m n ⟨x, hx, e⟩
    have e := List.append_cancel_left e
    exact not_encSections_unknown hx (size ++ c) (by rw [← e]; rfl)

/-! ## Concrete cases -/

/-- The module of `Props/Decode.lean` is in the grammar. -/
example : AccModule 3 demoModule demoFile [] :=
  C82_encodings_accepted 3 demoModule 7 demoFile demoModule_encoding (by decide) (by decide +kernel) (by decide +kernel)

example := C82_refuted 3 [1, 2, 3] [3] (u_byte (b := 3) (by decide)) (by decide) (by decide)

/-- A function type that ends too early: not in the grammar, because the decoder rejects it. -/
example : ∃ e, Runtime.instanceFromFile noHost 3 5 [] [0x00, 0x61, 0x73, 0x6D, 0x01, 0x00, 0x00, 0x00, 0x01, 0x02, 0x01, 0x60] {} = .error e {} :=
  C82_rejected _ _ _ _ _ _ (by decide) (fun m r h => by
    have := (C82_accepted_partial _ _ _ _ (by decide)).mpr h
    rw [show ModuleDesc.fromReader 3 _ = .error .type from rfl] at this
    cases this)

/-- `else` outside `if` and `memory.grow` on memory 9 are accepted. -/
example : Expr.fromReader 2 [0x02, 0x7B, 0x05, 0x40, 0x09, 0x0B, 0x0B] = .ok ([.block (.val .v128) [.elseFi, .memoryGrow 9]], []) := rfl

/-- `block` with the type -10 is accepted. -/
example : AccE 2 [.block (.idx (-10)) [.elseFi, .memoryGrow 9]] [0x02, 0x76, 0x05, 0x40, 0x09, 0x0B, 0x0B] := by
  obtain ⟨b, e, h⟩ := (C82_expression 2 [0x02, 0x76, 0x05, 0x40, 0x09, 0x0B, 0x0B] [] [.block (.idx (-10)) [.elseFi, .memoryGrow 9]] (by decide)).mp rfl
  rw [List.append_nil] at e
  rwa [← e] at h

/-- A file with one function, whose body is `body ++ [0x0B]` (2051 bytes). -/
def longFile (body : Bytes) : Bytes :=
  [0x00, 0x61, 0x73, 0x6D, 0x01, 0x00, 0x00, 0x00, 0x01, 0x04, 0x01, 0x60, 0x00, 0x00, 0x03, 0x02, 0x01, 0x00, 0x0A, 0x87, 0x10, 0x01, 0x84, 0x10,
    0x00] ++ body ++ [0x0B]

/-- `i64.const` with a number of 4301 digits -/
def longConst : Bytes := 0x42 :: List.replicate 2041 0x80 ++ [0x01]

/-- A number of more than 4300 digits is refused, because the text of the instruction is made whether or not it is printed. -/
theorem C82_long_number (m : ModuleDesc) (r : Bytes) : ¬ AccModule 3 m (longFile (longConst ++ [0x1A, 0x01, 0x01, 0x01, 0x01, 0x01, 0x01])) r := by
  intro h
  have h1 := (C82_accepted_partial _ _ _ _ (by decide +kernel)).mpr h
  have h2 : (match ModuleDesc.fromReader 3 (longFile (longConst ++ [0x1A, 0x01, 0x01, 0x01, 0x01, 0x01, 0x01])) with
    | .error .value => true | _ => false) = true := by decide +kernel
  rw [h1] at h2
  cases h2

/-- The same number behind an `else`, which is not printed, is accepted. -/
theorem C82_long_number_else :
    ∃ m, AccModule 3 m (longFile ([0x41, 0x00, 0x04, 0x40, 0x05] ++ longConst ++ [0x1A, 0x0B])) [] ∧
      m.func.map (fun f => match f.expr with | [_, .ifThen _ [] [.i64Const k, _]] => k | _ => (0 : Int)) = [(2 : Int) ^ 14287] := by
  have h : (match ModuleDesc.fromReader 3 (longFile ([0x41, 0x00, 0x04, 0x40, 0x05] ++ longConst ++ [0x1A, 0x0B])) with
    | .ok (m, []) => decide (m.func.map (fun f => match f.expr with | [_, .ifThen _ [] [.i64Const k, _]] => k | _ => (0 : Int)) = [(2 : Int) ^ 14287])
    | _ => false) = true := by decide +kernel
  split at h
  · rename_i m hm
    exact ⟨m, (C82_accepted_partial _ _ _ _ (by decide +kernel)).mp hm, of_decide_eq_true h⟩
  · cases h

example (s : Machine) (m' : ModuleDesc) (r' : Bytes) (h : AccModule 3 m' twiceFile r') : twiceModule = m' ∧ [] = r' ∧
    Runtime.instanceFromFile noHost 3 9 [] twiceFile s = Runtime.instance noHost 9 [] twiceModule (loadedBufs s twiceModule) (loaded s twiceModule) := by
  have h0 := C82_encodings_accepted 3 _ _ _ twice_encoding (by decide) (by decide) (by decide)
  have h1 := C82_unambiguous 3 _ _ _ _ _ h0 h (by decide)
  exact ⟨h1.1, h1.2, C82_loaded noHost 3 9 [] twiceFile [] twiceModule s (by decide) h0⟩

end Pywasm.Props
