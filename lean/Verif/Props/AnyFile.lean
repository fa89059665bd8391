import Verif.Props.Accept

/-!
# C79 for arbitrary files

`Props/File.lean` speaks of files that encode a module.  The decoder accepts more (C82), so here the file is any string of bytes.
-/

namespace Pywasm.Props
open Spec Spec.Typing Spec.Bin Spec.Leb M

variable {P : Option Bool} {B : Nat → FuncType → Prop} {H : Host} {m m' : Machine} {N lim : Nat} {C : Typing.Ctx} {d : ModuleDesc} {file r : Bytes}
  {imports : Imports} {mod : ModuleInst}

/-- **C79** In a session of an embedder who checks modules and arguments, load any file of less than 4 GiB.  If it is not in the grammar of
the decoder then an exception is raised and nothing has changed.  Otherwise it describes exactly one module; if that is valid, then an import
is missing or does not match, or an active segment does not fit, and an exception is raised; or the state of the specification is
reached and the start function decides, and if it returns then that is a session again.
Missing: modules that are not valid, stores with more than 2^31 functions, runs that meet a deviation (`C79_file_partial`). -/
theorem C79_any_file_partial (hO : HostOk B H) (hH : ∀ nd, P = some nd → HostCovered nd H) (h : Session P B H m) (hl : file.length < 2 ^ 32) :
    ((∀ d r, ¬ AccModule lim d file r) ∧ ∀ N, ∃ e, Runtime.instanceFromFile H lim N imports file m = .error e m) ∨
    ∃ d r, AccModule lim d file r ∧ (∀ d' r', AccModule lim d' file r' → d' = d ∧ r' = r) ∧
      ∀ C, ValidModule C d → CoveredBy P d → m.store.func.length + d.func.length ≤ 2 ^ 31 →
        ((∀ extern, supplied imports d = some extern → Linked (loaded m d).store d extern →
            prepared (loaded m d).store d (loadedBufs m d) extern = none) ∧
          ∀ N, ∃ e m', Runtime.instanceFromFile H lim N imports file m = .error e m') ∨
        ∃ extern mod s, supplied imports d = some extern ∧ Linked (loaded m d).store d extern ∧
          prepared (loaded m d).store d (loadedBufs m d) extern = some (mod, s) ∧
          StartOutcomes P H (fun N => Runtime.instanceFromFile H lim N imports file m) d mod s (fun s' => Session P B H { store := s' }) := by
  by_cases ha : ∃ d r, AccModule lim d file r
  · obtain ⟨d, r, ha⟩ := ha
    refine .inr ⟨d, r, ha, fun d' r' h' => C82_unambiguous lim d' d file r' r h' ha hl, fun C hV hd hfew => ?_⟩
    simp only [C82_loaded H lim _ imports file r d m hl ha]
    exact C78_session_partial hO hH h hV hd hfew rfl
  · have hn : ∀ d r, ¬ AccModule lim d file r := fun d r h => ha ⟨d, r, h⟩
    exact .inl ⟨hn, fun N => C82_rejected H lim N imports file m hl hn⟩

/-- **C79** Likewise for calls: load any file of less than 4 GiB that is accepted and describes a valid module.  When that has returned an
instance, every exported function can be found under its name and has the type the module declares, and calling it does what
`C79_program_partial` says. -/
theorem C79_any_program_partial (hO : HostOk B H) (hH : ∀ nd, P = some nd → HostCovered nd H) (h : Session P B H m) (hl : file.length < 2 ^ 32)
    (hA : AccModule lim d file r) (hV : ValidModule C d) (hd : CoveredBy P d) (hfew : m.store.func.length + d.func.length ≤ 2 ^ 31)
    (hx : Runtime.instanceFromFile H lim N imports file m = .ok mod m')
    (hr : P = none → ∃ extern, supplied imports d = some extern ∧
      StartReturns H (loaded m d).store d (loadedBufs m d) extern mod m'.store)
    {e : ExportDesc} {t : FuncType} (he : e ∈ d.exps) (hk : e.kind = .func) (huniq : ∀ x ∈ d.exps, x.name = e.name → x = e)
    (ht : C.funcs[e.desc]? = some t) :
    ∃ a f, findExport mod e.name = .ok (.func a) ∧ m'.store.func[a]? = some f ∧ f.type = t ∧
      ∀ k code, f = .wasm t k code → (∀ ty ∈ t.args ++ t.rets, ty.isRef = false) →
        ∀ xs args, xs.length = t.args.length → ((t.args.zip xs).mapM fun p => Val.fromAll p.1 p.2) = .ok args →
          (∃ N₀ fuel st ys, (∀ N ≥ N₀, Runtime.invocate H N mod e.name xs m' = .ok ys { store := st.store }) ∧
            Ref.invoke H fuel a args m'.store = .norm st ∧ st.vs.reverse.mapM Val.intoAll = .ok ys ∧ List.Forall₂ pyKind t.rets ys) ∨
          (∃ N₀ e' m1 fuel, (∀ N ≥ N₀, Runtime.invocate H N mod e.name xs m' = .error e' m1) ∧
            Ref.invoke H fuel a args m'.store = .trap m1.store) ∨
          (∀ N, ∃ mo m1, m'.store.mods[k]? = some mo ∧ StepsN H N (started m' t mo code args) m1) ∨
          (∃ mo, m'.store.mods[k]? = some mo ∧ Meets H (Dev P) (started m' t mo code args) ∧
            (P ≠ none → ∃ N₀ m1, ∀ N ≥ N₀, Runtime.invocate H N mod e.name xs m' = .error .overflow m1)) :=
  program_read hO hH h ((C82_accepted_partial lim file d r hl).mpr hA) hV hd hfew hx hr he hk huniq ht

/-! ## Non-vacuity -/

/-- The file of `Props/File.lean` with an unknown section in front: no encoding of a module, but accepted. -/
def oddFile : Bytes := [0x00, 0x61, 0x73, 0x6D, 0x01, 0x00, 0x00, 0x00, 0x0D, 0x01, 0x2A] ++ twiceFile.drop 8

set_option exponentiation.threshold 5000 in
theorem odd_accepted : AccModule 3 twiceModule oddFile [] :=
  (C82_accepted_partial 3 oddFile twiceModule [] (by decide)).mp (by with_unfolding_all rfl)

example := C79_any_file_partial (P := none) (lim := 3) (imports := []) (H := noHost) (noHost_ok fun _ _ => False) nofun .new
  (file := oddFile) (by decide)

/-- Read that file and call the function with 21. -/
def oddRun : M (List HVal) := do
  let mod ← Runtime.instanceFromFile noHost 3 1000 [] oddFile
  Runtime.invocate noHost 1000 mod "f" [.int 21]
example : (match oddRun {} with | .ok r _ => some r | .error _ _ => none) = some [.int 42] := by decide +kernel
example := fun mod m' hx hr => C79_any_program_partial (P := none) (lim := 3) (imports := []) (H := noHost) (noHost_ok fun _ _ => False) nofun .new
  (file := oddFile) (by decide) odd_accepted twice_valid (coveredBy_none _) (by decide) (N := 1000) (mod := mod) (m' := m') hx hr
  (e := ⟨"f", .func, 0⟩) (by decide) rfl (by decide) rfl

end Pywasm.Props
