import Verif.Lemmas.CommandFlags

/-!
# C89: which command lines are accepted, and what they mean

The words of a command line (`Line`), the options they stand for (`Means`): `Verif/Spec/CommandLine.lean`.
-/

namespace Pywasm.Props
open Spec.CommandLine M

variable {argv : List Str} {o : Cli.Options} {w : Bool}

/-- **C89** The command line is accepted exactly if its words say items with one file among them, and the options are those the items stand
for: the last `--func`, and the other options collected in the order of the words. -/
theorem C89_reads : Cli.parse argv = .run o w ↔ ∃ items, Line items argv ∧ Means items o w := by
  have hone : ∀ items, Means items o w → Cli.files {} items = 1 := by
    intro items h
    unfold Cli.files
    rw [h.file]
    rfl
  constructor
  · intro h
    unfold Cli.parse at h
    split at h
    · rename_i toks ht
      obtain ⟨-, h2⟩ := Cli.scan_sound toks {} o w h
      obtain ⟨items, h3, h4, h5⟩ := h2 argv ht
      exact ⟨items, h3, (Cli.done_iff h4).mp h5⟩
    · cases h
  · rintro ⟨items, h1, h2⟩
    obtain ⟨toks, h3, h4, -⟩ := Cli.scan_complete h1 {} rfl (hone _ h2)
    unfold Cli.parse
    rw [h3]
    exact h4.trans ((Cli.done_iff (hone _ h2)).mpr h2)

variable {os : Wasi.Os} {fds : Int × Int × Int} {names : Str × Str × Str} {pf : Str → Except Err F64} {lim N : Nat}
  {content : Str → Except Err Bytes}

/-- **C89** A command line with `--wasi preview1` exits with what the WASI program returns, and nothing is printed after it. -/
theorem C89_wasi {items : List Item} (h : Line items argv) (hm : Means items o w) (hw : .wasi ∈ items) :
    Cli.command os fds names pf lim N content argv =
      (Cli.mainWasi os fds names lim N o (content o.file) >>= fun c => Pure.pure (.exit c)) := by
  have : w = true := hm.wasi.mpr hw
  subst this
  unfold Cli.command
  rw [C89_reads.mpr ⟨items, h, hm⟩]

/-- **C89** A command line without `--wasi` calls the function and prints its results. -/
theorem C89_wasm {items : List Item} (h : Line items argv) (hm : Means items o w) (hw : .wasi ∉ items) :
    Cli.command os fds names pf lim N content argv =
      (Cli.mainWasm pf lim N o (content o.file) >>= fun r => Pure.pure (.prints r)) := by
  have : w = false := by
    cases w with
    | false => rfl
    | true => exact absurd (hm.wasi.mp rfl) hw
  subst this
  unfold Cli.command
  rw [C89_reads.mpr ⟨items, h, hm⟩]

/-- **C89** Every other command line exits, with 0 after the help or the version and with 2 otherwise: no file is read and nothing runs,
whatever the files hold. -/
theorem C89_refuses (h : ∀ items o w, Line items argv → ¬ Means items o w) :
    ∃ c, (c = 0 ∨ c = 2) ∧ ∀ content m, Cli.command os fds names pf lim N content argv m = .ok (.exit c) m := by
  unfold Cli.command
  cases hp : Cli.parse argv with
  | run o w =>
    obtain ⟨items, h1, h2⟩ := C89_reads.mp hp
    exact absurd h2 (h items o w h1)
  | help => exact ⟨0, .inl rfl, fun _ _ => rfl⟩
  | version => exact ⟨0, .inl rfl, fun _ _ => rfl⟩
  | usage => exact ⟨2, .inr rfl, fun _ _ => rfl⟩

/-- **C89** The help is printed exactly if `-h` or `--help` comes, before a `-v` or `--version`, after words that say items or are no known
option, and no word is ambiguous. -/
theorem C89_help : Cli.parse argv = .help ↔ Stops "-h".toList "--help".toList argv := Cli.parse_flag Cli.help_flag argv

/-- **C89** The same for the version. -/
theorem C89_version : Cli.parse argv = .version ↔ Stops "-v".toList "--version".toList argv := Cli.parse_flag Cli.version_flag argv

/-- **C89** The exit code of the command lines that run nothing: 0 after the help or the version, 2 otherwise. -/
theorem C89_exit_code (h : ∀ items o w, Line items argv → ¬ Means items o w) (m : Machine) :
    (Stops "-h".toList "--help".toList argv ∨ Stops "-v".toList "--version".toList argv →
      Cli.command os fds names pf lim N content argv m = .ok (.exit 0) m) ∧
    (¬ Stops "-h".toList "--help".toList argv → ¬ Stops "-v".toList "--version".toList argv →
      Cli.command os fds names pf lim N content argv m = .ok (.exit 2) m) := by
  rw [← C89_help, ← C89_version]
  unfold Cli.command
  cases hp : Cli.parse argv with
  | run o w =>
    obtain ⟨items, h1, h2⟩ := C89_reads.mp hp
    exact absurd h2 (h items o w h1)
  | help => exact ⟨fun _ => rfl, fun h => absurd rfl h⟩
  | version => exact ⟨fun _ => rfl, fun _ h => absurd rfl h⟩
  | usage => exact ⟨fun h => (by rcases h with h | h <;> cases h), fun _ _ => rfl⟩

/-- **C89** An option that needs a value, followed by a word that cannot stand alone, is an error (exit code 2), wherever the option comes
first. `-inf` and `-1e5`, which are values of float parameters, are such words: they have to be joined to the option with `=`. -/
theorem C89_dashed {it : Item} {wd nm v u : Str} {rest : List Str} (ho : it.option = some (nm, v)) (hN : Names wd nm) (hu : ¬ Word u) (m : Machine) :
    Cli.command os fds names pf lim N content (wd :: u :: rest) m = .ok (.exit 2) m := by
  have hp : Cli.parse (wd :: u :: rest) = .usage := by
    unfold Cli.parse
    split
    · rename_i toks ht
      obtain ⟨op, h1, h2, -⟩ := Cli.item_take ho
      have hc : Cli.classify wd = some (.opt op false none) := (Cli.classify_opt h2 _ _).mpr ⟨rfl, wd, nm, h1, hN, .inl ⟨rfl, rfl⟩⟩
      cases toks with
      | nil => exact absurd (Cli.tokens_nil ht) (by simp)
      | cons t ts =>
        obtain ⟨a, l, e, ⟨ha, -, -⟩ | ⟨-, h3, h4⟩⟩ := Cli.tokens_cons ht
        · injection e with e _
          rw [e, ha, Cli.classify_dashes] at hc
          cases hc
        · injection e with e1 e2
          subst e1 e2
          rw [hc] at h3
          injection h3 with h3
          subst h3
          have hne : ∀ x l, ts = .arg x :: l → False := by
            rintro x l rfl
            obtain ⟨a, l', e, ⟨-, h5, -⟩ | ⟨-, h5, -⟩⟩ := Cli.tokens_cons h4
            · cases h5
            · injection e with e _
              rw [← e] at h5
              exact hu ((Cli.classify_arg u x).mp h5).2
          rw [Cli.scan.eq_9 _ _ _ _ hne, h2]
          rfl
    · rfl
  unfold Cli.command
  rw [hp]
  rfl

/-! ## Non-vacuity -/

/-- `-1e5` cannot stand alone. -/
theorem exp_not_word : ¬ Word "-1e5".toList := by
  rintro (h | h | ⟨-, h⟩)
  · exact h rfl
  · revert h; decide
  · have : Cli.negative "-1e5".toList = false := by decide
    rw [← or_assoc, ← Cli.negative_iff, this] at h
    revert h
    decide

/-- `python -m pywasm --func f --func-args 3 --func-args=-1e5 --wasi-a x file.wasm` -/
theorem demo_line : Line [.func "f".toList, .funcArg "3".toList, .funcArg "-1e5".toList, .arg "x".toList, .file "file.wasm".toList]
    ["--func".toList, "f".toList, "--func-args".toList, "3".toList, "--func-args=-1e5".toList, "--wasi-a".toList, "x".toList, "file.wasm".toList] :=
  .split rfl (.inl rfl) (.inl (by decide)) <| .split rfl (.inl rfl) (.inl (by decide)) <|
    .joined (w := "--func-args".toList) rfl (.inl rfl) <|
    .split rfl (.inr ⟨⟨"wasi-a".toList, rfl⟩, by decide⟩) (.inl (by decide)) <| .file (.inl (by decide)) .nil

theorem demo_means : Means [.func "f".toList, .funcArg "3".toList, .funcArg "-1e5".toList, .arg "x".toList, .file "file.wasm".toList]
    { file := "file.wasm".toList, func := "f", funcArgs := ["3".toList, "-1e5".toList], wasiArgs := ["x".toList] } false where
  file := rfl
  func := by decide
  funcArgs := rfl
  envs := rfl
  dirs := rfl
  args := rfl
  wasi := by simp

example : Cli.parse ["--func".toList, "f".toList, "--func-args".toList, "3".toList, "--func-args=-1e5".toList, "--wasi-a".toList, "x".toList,
    "file.wasm".toList] = .run { file := "file.wasm".toList, func := "f", funcArgs := ["3".toList, "-1e5".toList], wasiArgs := ["x".toList] } false :=
  C89_reads.mpr ⟨_, demo_line, demo_means⟩
example := C89_wasm (os := Pywasm.WasiSpec.demoOs .dir) (fds := (0, 1, 2)) (names := ([], [], [])) (pf := noFloat) (lim := 3) (N := 5)
  (content := fun _ => .ok []) demo_line demo_means (by simp)
/-- `python -m pywasm --wasi preview1 -- -x.wasm` -/
example := C89_wasi (os := Pywasm.WasiSpec.demoOs .dir) (fds := (0, 1, 2)) (names := ([], [], [])) (pf := noFloat) (lim := 3) (N := 5)
  (content := fun _ => .ok []) (argv := ["--wasi".toList, "preview1".toList, "--".toList, "-x.wasm".toList]) (w := true)
  (o := { file := "-x.wasm".toList }) (.split (it := .wasi) rfl (.inl rfl) (.inl (by decide)) (.marked _))
  ⟨rfl, by decide, rfl, rfl, rfl, rfl, by simp⟩ (by simp)
/-- Without a file, nothing is accepted. -/
example := C89_refuses (os := Pywasm.WasiSpec.demoOs .dir) (fds := (0, 1, 2)) (names := ([], [], [])) (pf := noFloat) (lim := 3) (N := 5) (argv := [])
  (by rintro items o w h hm
      have := C89_reads.mpr ⟨items, h, hm⟩
      cases this)
/-- `python -m pywasm --func f a b --nope -vh` prints the version, `python -m pywasm --func f -vh=` is an error. -/
example : Cli.parse ["--func".toList, "f".toList, "a".toList, "b".toList, "-x".toList, "-vh".toList] = .version :=
  C89_version.mpr (.split (it := .func "f".toList) rfl (.inl rfl) (.inl (by decide)) <| .file (.inl (by decide)) (by decide) <|
    .file (.inl (by decide)) (by decide) <| .unknown
      (by rintro (⟨r, h⟩ | ⟨r, h⟩ | ⟨s, ⟨t, rfl⟩, h | ⟨r, h⟩, -⟩) <;> injection h with _ h <;> injection h with h _ <;> revert h <;> decide)
      (by rintro (h | h | ⟨-, h⟩)
          · exact h rfl
          · revert h; decide
          · have : Cli.negative "-x".toList = false := by decide
            rw [← or_assoc, ← Cli.negative_iff, this] at h
            revert h
            decide) <|
    .here (.inr ⟨['h'], rfl, ['h'], [], rfl, by decide, nofun⟩) nofun)
example : ¬ Stops "-v".toList "--version".toList ["--func".toList, "f".toList, "-vh=".toList] := fun h => by
  have := C89_version.mpr h
  have h2 : Cli.parse ["--func".toList, "f".toList, "-vh=".toList] = .usage := by rfl
  rw [h2] at this
  cases this
example := C89_exit_code (os := Pywasm.WasiSpec.demoOs .dir) (fds := (0, 1, 2)) (names := ([], [], [])) (pf := noFloat) (lim := 3) (N := 5) (argv := ["-h".toList])
  (content := fun _ => .ok [])
  (by rintro items o w h hm
      have h1 := C89_reads.mpr ⟨items, h, hm⟩
      have h2 : Cli.parse ["-h".toList] = .help := C89_help.mpr (.here (.inr ⟨[], rfl, Cli.cluster_nil⟩) (by simp))
      rw [h2] at h1
      cases h1)
/-- `python -m pywasm --func-args -1e5 file.wasm` -/
example := C89_dashed (os := Pywasm.WasiSpec.demoOs .dir) (fds := (0, 1, 2)) (names := ([], [], [])) (pf := noFloat) (lim := 3) (N := 5)
  (content := fun _ => .ok []) (it := .funcArg []) (rest := ["file.wasm".toList]) rfl (.inl rfl) exp_not_word {}

end Pywasm.Props
