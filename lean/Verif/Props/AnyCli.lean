import Verif.Props.Cli
import Verif.Props.AnyFile

/-!
# C80 for arbitrary files, and for options and files that are not there

`Props/Cli.lean` speaks of files that encode a module.  Here the file is any string of bytes of less than 4 GiB.
-/

namespace Pywasm.Props
open Spec Spec.Typing Spec.Bin M WasiSpec

variable {m' : Machine} {lim : Nat} {C : Typing.Ctx} {d : ModuleDesc} {file r : Bytes} {mod : ModuleInst} {o : Cli.Options}
  {pf : Str → Except Err F64}

/-- **C80** `python -m pywasm --func NAME --func-args … file`: if the file cannot be read, or is not in the grammar of the decoder, an exception
is raised and nothing has changed. -/
theorem C80_any_file (N : Nat) (content : Except Err Bytes)
    (h : ∀ file, content = .ok file → file.length < 2 ^ 32 ∧ ∀ d r, ¬ AccModule lim d file r) (m : Machine) :
    ∃ e, Cli.mainWasm pf lim N o content m = .error e m := by
  unfold Cli.mainWasm
  cases content with
  | error e => exact ⟨e, by rw [bind_lift_err]⟩
  | ok file =>
    rw [bind_lift_ok]
    obtain ⟨hl, hn⟩ := h file rfl
    obtain ⟨e, he⟩ := C82_rejected Cli.noHost lim N [] file m hl hn
    exact ⟨e, bind_err he⟩

/-- **C80** Likewise `C80_call_partial` for any file of less than 4 GiB that is accepted and describes a valid module. -/
theorem C80_any_call_partial {P : Option Bool} (hl : file.length < 2 ^ 32) (hA : AccModule lim d file r) (hV : ValidModule C d) (hd : CoveredBy P d)
    (hfew : d.func.length ≤ 2 ^ 31)
    {N₁ : Nat} (hx : ∀ N ≥ N₁, Runtime.instanceFromFile Cli.noHost lim N [] file {} = .ok mod m')
    (hr : P = none → ∃ extern, supplied [] d = some extern ∧
      StartReturns Cli.noHost (loaded {} d).store d (loadedBufs {} d) extern mod m'.store)
    {e : ExportDesc} {t : FuncType} (he : e ∈ d.exps) (hk : e.kind = .func) (hname : o.func = e.name)
    (huniq : ∀ x ∈ d.exps, x.name = e.name → x = e) (ht : C.funcs[e.desc]? = some t) (hnum : ∀ ty ∈ t.args ++ t.rets, ty.isRef = false)
    (hlen : o.funcArgs.length = t.args.length) {xs : List HVal} {args : List Val}
    (hc : ((t.args.zip o.funcArgs).mapM fun p => Cli.convert pf p.1 p.2) = .ok xs)
    (hv : ((t.args.zip xs).mapM fun p => Val.fromAll p.1 p.2) = .ok args) :
    ∃ a k code, findExport mod e.name = .ok (.func a) ∧ m'.store.func[a]? = some (.wasm t k code) ∧
      ((∃ N₀ fuel st ys, (∀ N ≥ N₀, Cli.mainWasm pf lim N o (.ok file) {} = .ok ys { store := st.store }) ∧
        Ref.invoke Cli.noHost fuel a args m'.store = .norm st ∧ st.vs.reverse.mapM Val.intoAll = .ok ys ∧ List.Forall₂ pyKind t.rets ys) ∨
      (∃ N₀ e' m1 fuel, (∀ N ≥ N₀, Cli.mainWasm pf lim N o (.ok file) {} = .error e' m1) ∧
        Ref.invoke Cli.noHost fuel a args m'.store = .trap m1.store) ∨
      (∀ N, ∃ mo m1, m'.store.mods[k]? = some mo ∧ StepsN Cli.noHost N (started m' t mo code args) m1) ∨
      (∃ mo, m'.store.mods[k]? = some mo ∧ Meets Cli.noHost (Dev P) (started m' t mo code args) ∧
        (P ≠ none → ∃ N₀ m1, ∀ N ≥ N₀, Cli.mainWasm pf lim N o (.ok file) {} = .error .overflow m1))) :=
  call_read ((C82_accepted_partial lim file d r hl).mpr hA) hV hd hfew hx hr he hk hname huniq ht hnum hlen hc hv

section wasi
open Wasi

variable {os : Os} {fds : Int × Int × Int} {names : Str × Str × Str}

/-- **C80** `python -m pywasm --wasi preview1 …`: a directory without `:` or a variable without `=` raises `IndexError` before anything is done:
the host is not asked for anything. -/
theorem C80_wasi_bad_options (N : Nat) (content : Except Err Bytes) (h : (∃ e ∈ o.wasiDirs, ':' ∉ e) ∨ ∃ e ∈ o.wasiEnvs, '=' ∉ e) (m : Machine) :
    Cli.mainWasi os fds names lim N o content m = .error .index m := by
  unfold Cli.mainWasi
  by_cases hd : ∃ e ∈ o.wasiDirs, ':' ∉ e
  · rw [C80_options_bad ':' o.wasiDirs [] hd, bind_lift_err]
  · obtain ⟨dirs, h1, -⟩ := C80_options ':' o.wasiDirs fun e he => by
      by_contra hc
      exact hd ⟨e, he, hc⟩
    rw [h1, bind_lift_ok, C80_options_bad '=' o.wasiEnvs [] (h.resolve_left hd), bind_lift_err]

/-- **C80** A directory that cannot be opened: the exception of the host ends the program. -/
theorem C80_wasi_no_directory (N : Nat) (content : Except Err Bytes) {dirs envs : List (Str × Str)} {s0 : St} {e : Err}
    (h1 : Cli.pairs ':' [] o.wasiDirs = .ok dirs) (h2 : Cli.pairs '=' [] o.wasiEnvs = .ok envs)
    (h3 : Wasi.init os (o.file :: o.wasiArgs) dirs envs fds names = (.error e, s0)) :
    Cli.mainWasi os fds names lim N o content {} = .error e { store := { wasi := s0.world } } := by
  unfold Cli.mainWasi
  rw [h1, bind_lift_ok, h2, bind_lift_ok]
  refine bind_err ?_
  unfold Cli.preview1
  rw [h3]

/-- **C80** A file that cannot be read or that is not in the grammar of the decoder: an exception ends the program, and the host has been
asked for nothing since the directories were opened. -/
theorem C80_wasi_any_file (N : Nat) (content : Except Err Bytes) {dirs envs : List (Str × Str)} {s0 : St}
    (h1 : Cli.pairs ':' [] o.wasiDirs = .ok dirs) (h2 : Cli.pairs '=' [] o.wasiEnvs = .ok envs)
    (h3 : Wasi.init os (o.file :: o.wasiArgs) dirs envs fds names = (.ok (), s0))
    (h : ∀ file, content = .ok file → file.length < 2 ^ 32 ∧ ∀ d r, ¬ AccModule lim d file r) :
    ∃ e m1, Cli.mainWasi os fds names lim N o content {} = .error e m1 ∧ m1.store.wasi = s0.world := by
  obtain ⟨imports, m1, hb, -⟩ := bind_new s0.world
  have hw : m1.store.wasi = s0.world := by
    have := keeps_bind (P := fun w => w = s0.world) [] { store := { wasi := s0.world } } rfl
    unfold Wp at this
    rw [hb] at this
    exact this
  rw [mainWasi_eq h1 h2 h3, bind_ok hb]
  cases content with
  | error e => exact ⟨e, m1, by rw [bind_lift_err], hw⟩
  | ok file =>
    rw [bind_lift_ok]
    obtain ⟨hl, hn⟩ := h file rfl
    obtain ⟨e, he⟩ := C82_rejected (host os Cli.noHost) lim N imports file m1 hl hn
    exact ⟨e, m1, bind_err he, hw⟩

/-- **C80** Likewise `C80_wasi_partial` for any file of less than 4 GiB that is accepted and describes a valid module. -/
theorem C80_any_wasi_partial {P : Option Bool} {dirs envs : List (Str × Str)} {s0 : St} (h1 : Cli.pairs ':' [] o.wasiDirs = .ok dirs)
    (h2 : Cli.pairs '=' [] o.wasiEnvs = .ok envs) (h3 : Wasi.init os (o.file :: o.wasiArgs) dirs envs fds names = (.ok (), s0))
    (hl : file.length < 2 ^ 32) (hA : AccModule lim d file r) (hV : ValidModule C d) (hd : CoveredBy P d)
    (hfew : d.func.length + 46 ≤ 2 ^ 31) {e : ExportDesc} (he : e ∈ d.exps) (hk : e.kind = .func) (hname : e.name = "_start")
    (huniq : ∀ x ∈ d.exps, x.name = e.name → x = e) (ht : C.funcs[e.desc]? = some ⟨[], []⟩) :
    ∃ imports m1, Wasi.bind [] { store := { wasi := s0.world } } = .ok imports m1 ∧
      (∀ N, Cli.mainWasi os fds names lim N o (.ok file) {} =
        (Runtime.instanceFromFile (host os Cli.noHost) lim N imports file >>= fun mod => main os Cli.noHost N mod) m1) ∧
      ∀ N mod m2, Runtime.instanceFromFile (host os Cli.noHost) lim N imports file m1 = .ok mod m2 →
        (P = none → ∃ extern, supplied imports d = some extern ∧
          StartReturns (host os Cli.noHost) (loaded m1 d).store d (loadedBufs m1 d) extern mod m2.store) →
        ∃ a f, findExport mod "_start" = .ok (.func a) ∧ m2.store.func[a]? = some f ∧
          ∀ k code, f = .wasm ⟨[], []⟩ k code → MainOutcome P os Cli.noHost mod m2 a k code :=
  wasi_read h1 h2 h3 ((C82_accepted_partial lim file d r hl).mpr hA) hV hd hfew he hk hname huniq ht

end wasi

/-! ## Non-vacuity -/

theorem odd_loads : ∃ m', (∀ N, Runtime.instanceFromFile Cli.noHost 3 N [] oddFile {} = .ok twiceInst m') := by
  refine ⟨final (Runtime.instance Cli.noHost 0 [] twiceModule (loadedBufs {} twiceModule)) (loaded {} twiceModule), fun N => ?_⟩
  rw [C82_loaded Cli.noHost 3 N [] oddFile [] twiceModule {} (by decide) odd_accepted]
  rfl

example := C80_any_call_partial (P := none) (pf := noFloat) (o := twiceOptions ["21"]) (file := oddFile) (by decide) odd_accepted twice_valid
  (coveredBy_none _) (by decide) (N₁ := 0) (fun N _ => odd_loads.choose_spec N) (fun _ => ⟨[], rfl, nofun⟩) (e := ⟨"f", .func, 0⟩) (by decide) rfl rfl
  (by decide) rfl (by decide) rfl (xs := [.int 21]) (args := [⟨.i32, 21 :: List.replicate 15 0, rfl⟩]) (by decide +kernel) rfl
example : (match Cli.mainWasm noFloat 3 1000 (twiceOptions ["21"]) (.ok oddFile) {} with | .ok r _ => some r | .error _ _ => none) =
    some [.int 42] := by decide +kernel

/-- The file of `Props/Cli.lean` with an unknown section in front. -/
def oddQuitFile : Bytes := [0x00, 0x61, 0x73, 0x6D, 0x01, 0x00, 0x00, 0x00, 0x0D, 0x01, 0x2A] ++ quitFile.drop 8
set_option exponentiation.threshold 5000 in
theorem oddQuit_accepted : AccModule 3 quitModule oddQuitFile [] :=
  (C82_accepted_partial 3 oddQuitFile quitModule [] (by decide +kernel)).mp (by with_unfolding_all rfl)

example := C80_any_wasi_partial (P := none) (lim := 3) (o := quitOptions) (by decide +kernel) (by decide +kernel) quit_init (by decide +kernel)
  oddQuit_accepted quit_valid (coveredBy_none _) (by decide) (e := ⟨"_start", .func, 1⟩) (by decide) rfl rfl (by decide) rfl
example : (match Cli.mainWasi (demoOs .dir) (0, 1, 2) ("a".toList, "b".toList, "c".toList) 3 1000 quitOptions (.ok oddQuitFile) {} with
    | .ok r _ => some r | .error _ _ => none) = some 7 := by decide +kernel

/-- Four bytes that are no module. -/
theorem junk_refused (lim : Nat) : ∀ file, (Except.ok [1, 2, 3, 4] : Except Err Bytes) = .ok file →
    file.length < 2 ^ 32 ∧ ∀ d r, ¬ AccModule lim d file r := by
  rintro _ ⟨⟩
  refine ⟨by decide, fun d r h => ?_⟩
  have := (C82_accepted_partial lim [1, 2, 3, 4] d r (by decide)).mpr h
  have h2 : ModuleDesc.fromReader lim [1, 2, 3, 4] = .error .assertion := rfl
  rw [h2] at this
  cases this

example := C80_any_file (pf := noFloat) (o := twiceOptions ["21"]) 7 _ (junk_refused 3) {}
example := C80_wasi_any_file (os := demoOs .dir) (o := quitOptions) 7 _ (by decide +kernel) (by decide +kernel) quit_init (junk_refused 3)
example := C80_wasi_bad_options (os := demoOs .dir) (fds := (0, 1, 2)) (names := ([], [], [])) (lim := 3) (o := { file := [], wasiDirs := ["/tmp".toList] }) 7
  (.ok quitFile) (.inl ⟨"/tmp".toList, by decide, by decide⟩) {}

/-- A host that has no such directory. -/
def bareOs : Wasi.Os where
  plat := .linux
  c := linux
  run l x :=
    match x with
    | .open .. => .error (.os 2)
    | x => (demoOs .dir).run l x
example : (Wasi.init bareOs ["quit.wasm".toList, "x".toList] [("d".toList, "/".toList)] [("A".toList, "B=C".toList)] (0, 1, 2)
    ("a".toList, "b".toList, "c".toList)).1 = .error (.os 2) := by decide +kernel
example := fun h => C80_wasi_no_directory (os := bareOs) (fds := (0, 1, 2)) (names := ("a".toList, "b".toList, "c".toList)) (lim := 3) (o := quitOptions) 7
  (.ok quitFile) (dirs := [("d".toList, "/".toList)]) (envs := [("A".toList, "B=C".toList)]) (e := .os 2) (by decide +kernel) (by decide +kernel)
  (Prod.ext h rfl)

end Pywasm.Props
