import Verif.Model.File
import Verif.Props.Decode
import Verif.Props.Instantiate

/-!
# C79: from a file to the results of calls

The theorems on decoding (C30), instantiation (C78) and whole invocations (C24) put together.
-/

namespace Pywasm.Props
open Spec Spec.Typing Spec.Bin Spec.Leb M

variable {P : Option Bool} {B : Nat → FuncType → Prop} {H : Host} {m m' : Machine} {N lim n : Nat} {C : Typing.Ctx} {d : ModuleDesc} {file : Bytes}
  {imports : Imports} {mod : ModuleInst}

/-- The machine after the file has been read: the contents of data segments are new byte arrays. -/
def loaded (m : Machine) (d : ModuleDesc) : Machine :=
  { m with store := { m.store with bufs := m.store.bufs ++ d.data.map (·.init) } }
def loadedBufs (m : Machine) (d : ModuleDesc) : List Nat := (List.range d.data.length).map (m.store.bufs.length + ·)

theorem file_read {r : Bytes} (hD : ModuleDesc.fromReader lim file = .ok (d, r)) :
    Runtime.instanceFromFile H lim N imports file m = Runtime.instance H N imports d (loadedBufs m d) (loaded m d) := by
  unfold Runtime.instanceFromFile
  rw [hD, bind_lift_ok]
  rfl
theorem file_run (hE : EncModule d n file) (hn : n ≤ 32) (hl : ∀ e ∈ exprs d, nestL e < lim) :
    Runtime.instanceFromFile H lim N imports file m = Runtime.instance H N imports d (loadedBufs m d) (loaded m d) :=
  file_read (C30_decode_inverts_encoding_partial lim d n file hE hn hl)

/-- **C79** (`Runtime.instance_from_file`) In a session of an embedder who checks modules and arguments, load any file that encodes a valid
module.  It raises because an import is missing or does not match or because an active segment does not fit; or the state of the
specification is reached and the start function decides, and if it returns then that is a session again.
Missing: files with more than 32 sections or with code nested deeper than Python's recursion limit (C31, C29), stores with
more than 2^31 functions. -/
theorem C79_file_partial (hO : HostOk B H) (hH : ∀ nd, P = some nd → HostCovered nd H) (h : Session P B H m) (hE : EncModule d n file) (hn : n ≤ 32)
    (hl : ∀ e ∈ exprs d, nestL e < lim) (hV : ValidModule C d) (hd : CoveredBy P d) (hfew : m.store.func.length + d.func.length ≤ 2 ^ 31) :
    ((∀ extern, supplied imports d = some extern → Linked (loaded m d).store d extern →
        prepared (loaded m d).store d (loadedBufs m d) extern = none) ∧
      ∀ N, ∃ e m', Runtime.instanceFromFile H lim N imports file m = .error e m') ∨
    ∃ extern mod s, supplied imports d = some extern ∧ Linked (loaded m d).store d extern ∧
      prepared (loaded m d).store d (loadedBufs m d) extern = some (mod, s) ∧
      StartOutcomes P H (fun N => Runtime.instanceFromFile H lim N imports file m) d mod s (fun s' => Session P B H { store := s' }) := by
  simp only [file_run hE hn hl]
  exact C78_session_partial hO hH h hV hd hfew rfl

theorem program_read (hO : HostOk B H) (hH : ∀ nd, P = some nd → HostCovered nd H) (h : Session P B H m) {r : Bytes}
    (hD : ModuleDesc.fromReader lim file = .ok (d, r)) (hV : ValidModule C d) (hd : CoveredBy P d) (hfew : m.store.func.length + d.func.length ≤ 2 ^ 31)
    (hx : Runtime.instanceFromFile H lim N imports file m = .ok mod m')
    (hr : P = none → ∃ extern, supplied imports d = some extern ∧
      StartReturns H (loaded m d).store d (loadedBufs m d) extern mod m'.store)
    {e : ExportDesc} {t : FuncType} (he : e ∈ d.exps) (hk : e.kind = .func) (huniq : ∀ x ∈ d.exps, x.name = e.name → x = e)
    (ht : C.funcs[e.desc]? = some t) :
    ∃ a f, findExport mod e.name = .ok (.func a) ∧ m'.store.func[a]? = some f ∧ f.type = t ∧
      ∀ k code, f = .wasm t k code → (∀ ty ∈ t.args ++ t.rets, ty.isRef = false) →
        ∀ xs args, xs.length = t.args.length → ((t.args.zip xs).mapM fun p => Val.fromAll p.1 p.2) = .ok args →
          (∃ N₀ fuel st ys, (∀ N ≥ N₀, Runtime.invocate H N mod e.name xs m' = .ok ys { store := st.store }) ∧
            Ref.invoke H fuel a args m'.store = .norm st ∧ st.vs.reverse.mapM Val.intoAll = .ok ys ∧ List.Forall₂ pyKind t.rets ys) ∨
          (∃ N₀ e' m1 fuel, (∀ N ≥ N₀, Runtime.invocate H N mod e.name xs m' = .error e' m1) ∧
            Ref.invoke H fuel a args m'.store = .trap m1.store) ∨
          (∀ N, ∃ mo m1, m'.store.mods[k]? = some mo ∧ StepsN H N (started m' t mo code args) m1) ∨
          (∃ mo, m'.store.mods[k]? = some mo ∧ Meets H (Dev P) (started m' t mo code args) ∧
            (P ≠ none → ∃ N₀ m1, ∀ N ≥ N₀, Runtime.invocate H N mod e.name xs m' = .error .overflow m1)) := by
  rw [file_read hD] at hx
  have h' : Session P B H m' := .instance h hV hd hfew (m0 := loaded m d) rfl hx hr
  obtain ⟨hc, hcov, S, rfl, hS⟩ := C24_session_partial hO hH h
  have hb : FreshBuffers (loaded m d).store d (loadedBufs m d) := fresh_loadBuffers (m := m) rfl
  have hS0 : StoreOk S (loaded m d).store :=
    ⟨hS.funcs, hS.code, hS.few, hS.tables, hS.mems, hS.globals, hS.elems, hS.datas.1, fun b hb => by
      have := hS.datas.2 b hb
      simp only [loaded, List.length_append]
      omega⟩
  obtain ⟨extern, hsup, hx⟩ := instance_instantiate hx
  have hL : Linked (loaded m d).store d extern := by
    by_contra hn
    obtain ⟨e, he⟩ := C25_reject_partial (H := H) (N := N) (m := loaded m d) (bufs := loadedBufs m d) hn
    rw [hx] at he
    cases he
  have hI := validInit (m := loaded m d) hV hS0 hL hfew
  obtain ⟨_, s, hp⟩ := instantiate_prepared (m := loaded m d) hc hI hb hx
  obtain ⟨_, _, _, ⟨exs, h1, hmod⟩, _⟩ := prepared_parts hp
  obtain ⟨_, _, T, hT, h2, h3⟩ := C24_instance_partial (m := loaded m d) hO hH hc hcov hS0 hV hd hfew hb hx fun hP => by
    obtain ⟨x, h4, h5⟩ := hr hP
    rw [hsup] at h4
    cases h4
    exact h5
  obtain ⟨a, ha, hTa⟩ : ∃ a, mod.func[e.desc]? = some a ∧ T.funcs[a]? = some t := by
    obtain ⟨i, hi⟩ := f2_get h3.funcs ht
    exact ⟨i, hi.1, hi.2⟩
  have hfind : findExport mod e.name = .ok (.func a) := by
    have hexp : exported mod e = some (.func a) := by unfold exported; rw [hk]; simp [ha]
    have hexps : mod.exps = exs := by rw [hmod]; rfl
    have key : ∀ (l : List ExportDesc) (r : List ExportInst),
        List.Forall₂ (fun (e : ExportDesc) (x : ExportInst) => x.name = e.name ∧ exported mod e = some x.data) l r → e ∈ l →
        (∀ x ∈ l, x.name = e.name → x = e) → ∃ x rest, r.filter (fun x => x.name = e.name) = x :: rest ∧ x.data = .func a := by
      intro l r hlr
      induction hlr with
      | nil => intro hm; cases hm
      | @cons y x l r hy hlr ih =>
        intro hm hu
        by_cases hn : y.name = e.name
        · obtain rfl := hu y (by simp) hn
          refine ⟨x, _, List.filter_cons_of_pos (by simp [hy.1]), ?_⟩
          have := hy.2
          rw [hexp] at this
          exact (Option.some.inj this).symm
        · rw [List.filter_cons_of_neg (by simp [hy.1, hn])]
          rcases List.mem_cons.mp hm with rfl | hm
          · exact absurd rfl hn
          · exact ih hm fun x hx => hu x (by simp [hx])
    obtain ⟨x, rest, h4, h5⟩ := key d.exps exs h1 he huniq
    unfold findExport
    rw [hexps, h4]
    simp [h5]
  have hfm : (m'.store.func.map FuncInst.type)[a]? = some t := by rw [h2.funcs]; exact hTa
  rw [List.getElem?_map, Option.map_eq_some_iff] at hfm
  obtain ⟨f, hf, hft⟩ := hfm
  refine ⟨a, f, hfind, hf, hft, ?_⟩
  rintro k code rfl hnum xs args hlen hconv
  exact C24_exported_call_partial hO hH h' hfind hf hnum hlen hconv

/-- **C79** Load any file that encodes a valid module.  When that has returned an instance, every exported function can be found under its
name and has the type the module declares.  If its parameters and results are numbers or vectors and it is not a host function,
then calling it with Python values that can be converted returns what the reference interpreter computes; or it raises exactly
where the reference interpreter traps; or it runs forever; or its run meets one of the two deviations: an `i64.div_u` with a quotient
of `2^63` or more, where it raises `OverflowError`, and, unless the modules are known to have none, a branch to a function's own label.
Missing: as in `C79_file_partial`; two exports with the same name. -/
theorem C79_program_partial (hO : HostOk B H) (hH : ∀ nd, P = some nd → HostCovered nd H) (h : Session P B H m) (hE : EncModule d n file) (hn : n ≤ 32)
    (hl : ∀ e ∈ exprs d, nestL e < lim) (hV : ValidModule C d) (hd : CoveredBy P d) (hfew : m.store.func.length + d.func.length ≤ 2 ^ 31)
    (hx : Runtime.instanceFromFile H lim N imports file m = .ok mod m')
    (hr : P = none → ∃ extern, supplied imports d = some extern ∧
      StartReturns H (loaded m d).store d (loadedBufs m d) extern mod m'.store)
    {e : ExportDesc} {t : FuncType} (he : e ∈ d.exps) (hk : e.kind = .func) (huniq : ∀ x ∈ d.exps, x.name = e.name → x = e)
    (ht : C.funcs[e.desc]? = some t) :
    ∃ a f, findExport mod e.name = .ok (.func a) ∧ m'.store.func[a]? = some f ∧ f.type = t ∧
      ∀ k code, f = .wasm t k code → (∀ ty ∈ t.args ++ t.rets, ty.isRef = false) →
        ∀ xs args, xs.length = t.args.length → ((t.args.zip xs).mapM fun p => Val.fromAll p.1 p.2) = .ok args →
          (∃ N₀ fuel st ys, (∀ N ≥ N₀, Runtime.invocate H N mod e.name xs m' = .ok ys { store := st.store }) ∧
            Ref.invoke H fuel a args m'.store = .norm st ∧ st.vs.reverse.mapM Val.intoAll = .ok ys ∧ List.Forall₂ pyKind t.rets ys) ∨
          (∃ N₀ e' m1 fuel, (∀ N ≥ N₀, Runtime.invocate H N mod e.name xs m' = .error e' m1) ∧
            Ref.invoke H fuel a args m'.store = .trap m1.store) ∨
          (∀ N, ∃ mo m1, m'.store.mods[k]? = some mo ∧ StepsN H N (started m' t mo code args) m1) ∨
          (∃ mo, m'.store.mods[k]? = some mo ∧ Meets H (Dev P) (started m' t mo code args) ∧
            (P ≠ none → ∃ N₀ m1, ∀ N ≥ N₀, Runtime.invocate H N mod e.name xs m' = .error .overflow m1)) :=
  program_read hO hH h (C30_decode_inverts_encoding_partial lim d n file hE hn hl) hV hd hfew hx hr he hk huniq ht

/-! ## Non-vacuity -/

/-- `(module (func (export "f") (param i32) (result i32) local.get 0 local.get 0 i32.add))` -/
def twiceModule : ModuleDesc where
  type := [⟨[.i32], [.i32]⟩]
  func := [⟨0, [], [.localGet 0, .localGet 0, .num (.int .i32_add)]⟩]
  exps := [⟨"f", .func, 0⟩]

def twiceFile : Bytes :=
  [0x00, 0x61, 0x73, 0x6D, 0x01, 0x00, 0x00, 0x00] ++
  ([0x01, 0x06, 0x01, 0x60, 0x01, 0x7F, 0x01, 0x7F] ++
  ([0x03, 0x02, 0x01, 0x00] ++
  ([0x07, 0x05, 0x01, 0x01, 0x66, 0x00, 0x00] ++
  ([0x0A, 0x09, 0x01, 0x07, 0x00] ++ [0x20, 0x00, 0x20, 0x00, 0x6A, 0x0B]))))

theorem twice_encoding : EncModule twiceModule 4 twiceFile := by
  have u (b : UInt8) (h : b.toNat < 128 := by decide) : U b.toNat [b] := u_byte h
  refine ⟨_, ?_, rfl⟩
  refine .sect (id := 1) (c := [0x01, 0x60, 0x01, 0x7F, 0x01, 0x7F]) ?_ ⟨[0x06], u 6, by decide, rfl⟩ ?_
  · exact ⟨[0x01], [[0x60, 0x01, 0x7F, 0x01, 0x7F]], u 1, .cons ⟨[0x01, 0x7F], [0x01, 0x7F], ⟨[0x01], [[0x7F]], u 1, .cons rfl .nil, rfl⟩,
      ⟨[0x01], [[0x7F]], u 1, .cons rfl .nil, rfl⟩, rfl⟩ .nil, rfl⟩
  refine .skip rfl ?_
  refine .sect (id := 3) (c := [0x01, 0x00]) ?_ ⟨[0x02], u 2, by decide, rfl⟩ ?_
  · exact ⟨[0x01], [[0x00]], u 1, .cons (u 0) .nil, rfl⟩
  refine .skip rfl (.skip rfl (.skip rfl ?_))
  refine .sect (id := 7) (c := [0x01, 0x01, 0x66, 0x00, 0x00]) ?_ ⟨[0x05], u 5, by decide, rfl⟩ ?_
  · exact ⟨[0x01], [[0x01, 0x66, 0x00, 0x00]], u 1, .cons ⟨[0x01, 0x66], [0x00], ⟨[0x01], u 1, by decide +kernel⟩, u 0, rfl⟩ .nil, rfl⟩
  refine .skip rfl (.skip rfl (.skip trivial ?_))
  refine .sect (id := 10) (c := [0x01, 0x07, 0x00] ++ [0x20, 0x00, 0x20, 0x00, 0x6A, 0x0B]) (b := []) ?_
    ⟨[0x09], by rw [show List.length (([0x01, 0x07, 0x00] : Bytes) ++ [0x20, 0x00, 0x20, 0x00, 0x6A, 0x0B]) = 9 by decide]; exact u 9, by decide, rfl⟩ ?_
  · refine ⟨[0x01], [[0x07, 0x00] ++ [0x20, 0x00, 0x20, 0x00, 0x6A, 0x0B]], u 1, .cons ⟨by decide +kernel, [0x07], [0x00], [0x20, 0x00, 0x20, 0x00, 0x6A, 0x0B],
      ⟨[0x00], [], u 0, .nil, rfl⟩, ?_, u 7, rfl⟩ .nil, rfl⟩
    refine ⟨[0x20, 0x00, 0x20, 0x00, 0x6A], ?_, rfl⟩
    have hg : EncI (.localGet 0) [0x20, 0x00] := .leaf (.localGet (op := [0x20]) (.byte rfl) (u 0))
    exact .cons (a := [0x20, 0x00]) hg (.cons (a := [0x20, 0x00]) hg (.cons (a := [0x6A]) (b := []) (.leaf (.int (.byte rfl))) .nil))
  exact .skip rfl .nil

def twiceCtx : Typing.Ctx where
  types := [⟨[.i32], [.i32]⟩]
  funcs := [⟨[.i32], [.i32]⟩]
  tables := []
  mems := 0
  globals := []
  elems := []
  datas := 0

theorem twice_valid : ValidModule twiceCtx twiceModule where
  types := rfl
  funcs := .cons rfl .nil
  tables := rfl
  mems := rfl
  globals := rfl
  elems := rfl
  datas := rfl
  code := by
    intro f hf t ht
    simp only [twiceModule, List.mem_cons, List.not_mem_nil, or_false] at hf
    subst hf
    cases ht
    refine .cons [] (.localGet (t := .i32) rfl) ?_
    refine .cons [.i32] (.localGet (t := .i32) rfl) ?_
    exact .cons (a := [.i32, .i32]) (b := [.i32]) [] (.num trivial) (.nil _)
  table := nofun
  mem := nofun
  glob := nofun
  elem := nofun
  activeElem := nofun
  activeData := nofun
  limits := ⟨nofun, nofun⟩
  refs := nofun
  exps := by intro e he; simp [twiceModule] at he; subst he; show _ < 1; decide
  start := nofun

/-- `C79_file_partial` applies to this file in a new runtime; the state can be prepared and there is no start function, so it returns. -/
example := C79_file_partial (P := none) (lim := 3) (imports := []) (H := noHost) (noHost_ok fun _ _ => False) nofun .new twice_encoding (by decide)
  (by decide +kernel) twice_valid (coveredBy_none _) (by decide)
example : supplied [] twiceModule = some [] ∧ Linked {} twiceModule [] ∧ (prepared {} twiceModule [] []).isSome :=
  ⟨rfl, .nil, by decide +kernel⟩

/-- Read the file and call the function with 21. -/
def twiceRun : M (List HVal) := do
  let mod ← Runtime.instanceFromFile noHost 3 1000 [] twiceFile
  Runtime.invocate noHost 1000 mod "f" [.int 21]

example : (match twiceRun {} with | .ok r _ => some r | .error _ _ => none) = some [.int 42] := by decide +kernel

/-- It returns an instance, to which `C79_program_partial` applies. -/
example : ∃ mod m', Runtime.instanceFromFile noHost 3 10 [] twiceFile {} = .ok mod m' ∧ ∃ a f, findExport mod "f" = .ok (.func a) ∧ m'.store.func[a]? = some f ∧ f.type = ⟨[.i32], [.i32]⟩ := by
  obtain ⟨mod, m', h⟩ := returns (x := Runtime.instanceFromFile noHost 3 10 [] twiceFile) (m := {}) (by decide +kernel)
  refine ⟨mod, m', h, ?_⟩
  obtain ⟨a, f, h1, h2, h3, -⟩ := C79_program_partial (P := some true) (H := noHost) (B := fun _ _ => False) (noHost_ok _) (by rintro _ ⟨⟩; exact noHost_covered _) .new twice_encoding (by decide)
    (by decide +kernel) twice_valid (by unfold CoveredBy; decide) (by decide) h nofun (e := ⟨"f", .func, 0⟩) (by decide) rfl (by decide) rfl
  exact ⟨a, f, h1, h2, h3⟩

end Pywasm.Props
