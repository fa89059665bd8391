import Verif.Lemmas.FloatTotal
import Verif.Lemmas.RefBelow
import Verif.Lemmas.RefAgree
import Verif.Props.AnyFile

/-!
# C84: programs compute what the specification allows, float instructions included

The reference interpreter of C17, C24 and C79 takes the results of numeric instructions from pywasm, which C83 compares with the
specification.  Here it takes them from any numeric semantics whose results the specification allows (`Spec/Conforming.lean`).
-/

namespace Pywasm.Props
open Spec Spec.Typing Spec.Bin Spec.Leb M

/-- There are numeric semantics that conform, and among them some that agree with pywasm on all operands that are not listed. -/
theorem C84_conforming : ∃ N : Ref.Numerics, Ref.Conforms N ∧ ∀ op vs, ¬ NumDev op vs → N.sem op vs = Ref.numSem op vs := by
  choose f hf using NumSpec_total
  open Classical in
  refine ⟨⟨fun op vs => if NumDev op vs then f op vs else Ref.numSem op vs⟩, fun op vs => ?_, fun op vs h => if_neg h⟩
  show NumSpec op vs (if NumDev op vs then f op vs else Ref.numSem op vs)
  split
  · exact hf op vs
  · exact (C83_numeric op vs).mpr ‹_›

/-- **C84** (calls) What the reference interpreter computes with pywasm's numeric results it computes also with some that the
specification allows, or the call comes to a numeric instruction with listed operands.
Missing: those, where the claim is false (`C84_wrong`). -/
theorem C84_invoke_partial (H : Host) (fuel a : Nat) (args : List Val) (s : Store) :
    Ref.Allowed H fuel a args s (Ref.invoke H fuel a args s) ∨ Ref.MeetsListed H fuel a args s := by
  obtain ⟨N, hN, hagree⟩ := C84_conforming
  have h1 : Ref.Below Ref.strict N := fun op vs => by
    rcases Ref.strict_cases op vs with ⟨_, e⟩ | ⟨h, e⟩
    · exact .inl e
    · exact .inr (e.trans (hagree op vs h).symm)
  have h2 : Ref.Below Ref.strict Ref.pywasmNumerics := fun op vs => by
    rcases Ref.strict_cases op vs with ⟨_, e⟩ | ⟨_, e⟩
    · exact .inl e
    · exact .inr e
  rcases Ref.invoke_below h1 H fuel a args s with e | e
  · exact .inr e
  · rcases Ref.invoke_below h2 H fuel a args s with e' | e'
    · exact .inr e'
    · exact .inl ⟨N, hN, e.symm.trans e'⟩
theorem allowed_or {H : Host} {fuel a : Nat} {args : List Val} {s : Store} {r : Ref.Res} (h : Ref.invoke H fuel a args s = r) :
    Ref.Allowed H fuel a args s r ∨ Ref.MeetsListed H fuel a args s := h ▸ C84_invoke_partial H fuel a args s

theorem dev_listed {op : NumOp} {vs : List Val} (h : NumDev op vs) : Ref.listed op = true := by
  cases op with
  | flt op => cases op <;> first | rfl | (exfalso; revert h; unfold NumDev; simp only [fltDev]; exact id)
  | vec op => cases op <;> first | rfl | exact h.elim
  | _ => exact h.elim

/-- **C84** (code without the 31 instructions that have listed operands) What the reference interpreter computes with pywasm's numeric
results it computes also with some that the specification allows. -/
theorem C84_unlisted (H : Host) (hH : Ref.NumericHost (fun op => !Ref.listed op) H) (fuel a : Nat) (args : List Val) (s : Store)
    (hs : Ref.NumericStore (fun op => !Ref.listed op) s) : Ref.Allowed H fuel a args s (Ref.invoke H fuel a args s) := by
  obtain ⟨N, hN, hagree⟩ := C84_conforming
  refine ⟨N, hN, Ref.invoke_agree (A := N) (B := Ref.pywasmNumerics) (Q := fun op => !Ref.listed op)
    (fun op hop => funext fun vs => (hagree op vs fun h => ?_ : N.sem op vs = Ref.numSem op vs)) hH fuel a args s hs⟩
  rw [dev_listed h] at hop
  cases hop

variable {P : Option Bool} {B : Nat → FuncType → Prop} {H : Host} {m m' : Machine} {N lim a : Nat} {C : Typing.Ctx} {d : ModuleDesc} {file r : Bytes}
  {imports : Imports} {mod : ModuleInst}

/-- **C84** (sessions) `C24_exported_call_partial` for the reference interpreter with numeric results the specification allows.
Missing: runs that meet a deviation or listed operands. -/
theorem C84_exported_call_partial (hO : HostOk B H) (hH : ∀ nd, P = some nd → HostCovered nd H) (h : Session P B H m) {name : String} {t : FuncType} {k : Nat}
    {code : FuncDesc} {xs : List HVal} {args : List Val} (he : findExport mod name = .ok (.func a))
    (hf : m.store.func[a]? = some (.wasm t k code)) (hnum : ∀ ty ∈ t.args ++ t.rets, ty.isRef = false) (hlen : xs.length = t.args.length)
    (hconv : ((t.args.zip xs).mapM fun p => Val.fromAll p.1 p.2) = .ok args) :
    (∃ N₀ fuel st ys, (∀ N ≥ N₀, Runtime.invocate H N mod name xs m = .ok ys { store := st.store }) ∧
      (Ref.Allowed H fuel a args m.store (.norm st) ∨ Ref.MeetsListed H fuel a args m.store) ∧
      st.vs.reverse.mapM Val.intoAll = .ok ys ∧ List.Forall₂ pyKind t.rets ys) ∨
    (∃ N₀ e m' fuel, (∀ N ≥ N₀, Runtime.invocate H N mod name xs m = .error e m') ∧
      (Ref.Allowed H fuel a args m.store (.trap m'.store) ∨ Ref.MeetsListed H fuel a args m.store)) ∨
    (∀ N, ∃ mod m1, m.store.mods[k]? = some mod ∧ StepsN H N (started m t mod code args) m1) ∨
    (∃ mo, m.store.mods[k]? = some mo ∧ Meets H (Dev P) (started m t mo code args) ∧
      (P ≠ none → ∃ N₀ m', ∀ N ≥ N₀, Runtime.invocate H N mod name xs m = .error .overflow m')) := by
  rcases C24_exported_call_partial hO hH h he hf hnum hlen hconv with ⟨N₀, fuel, st, ys, h1, h2, h3⟩ | ⟨N₀, e, m', fuel, h1, h2⟩ | h
  · exact .inl ⟨N₀, fuel, st, ys, h1, allowed_or h2, h3⟩
  · exact .inr (.inl ⟨N₀, e, m', fuel, h1, allowed_or h2⟩)
  · exact .inr (.inr h)

/-- **C84** (programs) From the bytes of the file to the results: load any file that the decoder accepts as a valid module, and call an
exported function with Python values.  The results are those of the reference interpreter with numeric results the specification
allows, or an exception is raised where that traps, or the call never ends.
Missing: runs that meet a deviation or listed operands (`C84_wrong`); modules that are not valid. -/
theorem C84_program_partial (hO : HostOk B H) (hH : ∀ nd, P = some nd → HostCovered nd H) (h : Session P B H m) (hl : file.length < 2 ^ 32)
    (hA : AccModule lim d file r) (hV : ValidModule C d) (hd : CoveredBy P d) (hfew : m.store.func.length + d.func.length ≤ 2 ^ 31)
    (hx : Runtime.instanceFromFile H lim N imports file m = .ok mod m')
    (hr : P = none → ∃ extern, supplied imports d = some extern ∧
      StartReturns H (loaded m d).store d (loadedBufs m d) extern mod m'.store)
    {e : ExportDesc} {t : FuncType} (he : e ∈ d.exps) (hk : e.kind = .func) (huniq : ∀ x ∈ d.exps, x.name = e.name → x = e)
    (ht : C.funcs[e.desc]? = some t) :
    ∃ a f, findExport mod e.name = .ok (.func a) ∧ m'.store.func[a]? = some f ∧ f.type = t ∧
      ∀ k code, f = .wasm t k code → (∀ ty ∈ t.args ++ t.rets, ty.isRef = false) →
        ∀ xs args, xs.length = t.args.length → ((t.args.zip xs).mapM fun p => Val.fromAll p.1 p.2) = .ok args →
          (∃ N₀ fuel st ys, (∀ N ≥ N₀, Runtime.invocate H N mod e.name xs m' = .ok ys { store := st.store }) ∧
            (Ref.Allowed H fuel a args m'.store (.norm st) ∨ Ref.MeetsListed H fuel a args m'.store) ∧
            st.vs.reverse.mapM Val.intoAll = .ok ys ∧ List.Forall₂ pyKind t.rets ys) ∨
          (∃ N₀ e' m1 fuel, (∀ N ≥ N₀, Runtime.invocate H N mod e.name xs m' = .error e' m1) ∧
            (Ref.Allowed H fuel a args m'.store (.trap m1.store) ∨ Ref.MeetsListed H fuel a args m'.store)) ∨
          (∀ N, ∃ mo m1, m'.store.mods[k]? = some mo ∧ StepsN H N (started m' t mo code args) m1) ∨
          (∃ mo, m'.store.mods[k]? = some mo ∧ Meets H (Dev P) (started m' t mo code args) ∧
            (P ≠ none → ∃ N₀ m1, ∀ N ≥ N₀, Runtime.invocate H N mod e.name xs m' = .error .overflow m1)) := by
  obtain ⟨a, f, h1, h2, h3, h4⟩ := C79_any_program_partial hO hH h hl hA hV hd hfew hx hr he hk huniq ht
  refine ⟨a, f, h1, h2, h3, fun k code hf hnum xs args hlen hconv => ?_⟩
  rcases h4 k code hf hnum xs args hlen hconv with ⟨N₀, fuel, st, ys, h1, h2, h3⟩ | ⟨N₀, e, m', fuel, h1, h2⟩ | h
  · exact .inl ⟨N₀, fuel, st, ys, h1, allowed_or h2, h3⟩
  · exact .inr (.inl ⟨N₀, e, m', fuel, h1, allowed_or h2⟩)
  · exact .inr (.inr h)

/-- **C84** (sessions, code that has no branches to a function's own label, no `i64.div_u` and none of the 31 instructions) A call of an
exported function returns what the reference interpreter with numeric results the specification allows returns, or raises where that
traps, or never ends. -/
theorem C84_exported_call (hO : HostOk B H) (hH : HostCovered true H) (hN : Ref.NumericHost (fun op => !Ref.listed op) H) (h : Session (some true) B H m)
    (hs : Ref.NumericStore (fun op => !Ref.listed op) m.store) {name : String} {t : FuncType} {k : Nat}
    {code : FuncDesc} {xs : List HVal} {args : List Val} (he : findExport mod name = .ok (.func a))
    (hf : m.store.func[a]? = some (.wasm t k code)) (hnum : ∀ ty ∈ t.args ++ t.rets, ty.isRef = false) (hlen : xs.length = t.args.length)
    (hconv : ((t.args.zip xs).mapM fun p => Val.fromAll p.1 p.2) = .ok args) :
    (∃ N₀ fuel st ys, (∀ N ≥ N₀, Runtime.invocate H N mod name xs m = .ok ys { store := st.store }) ∧
      Ref.Allowed H fuel a args m.store (.norm st) ∧ st.vs.reverse.mapM Val.intoAll = .ok ys ∧ List.Forall₂ pyKind t.rets ys) ∨
    (∃ N₀ e m' fuel, (∀ N ≥ N₀, Runtime.invocate H N mod name xs m = .error e m') ∧ Ref.Allowed H fuel a args m.store (.trap m'.store)) ∨
    (∀ N, ∃ mod m1, m.store.mods[k]? = some mod ∧ StepsN H N (started m t mod code args) m1) := by
  rcases C24_exported_call_partial hO (by rintro _ ⟨⟩; exact hH) h he hf hnum hlen hconv with
    ⟨N₀, fuel, st, ys, h1, h2, h3⟩ | ⟨N₀, e, m', fuel, h1, h2⟩ | h1 | ⟨mo, -, ⟨_, _, _, h1⟩, -⟩
  · exact .inl ⟨N₀, fuel, st, ys, h1, h2 ▸ C84_unlisted H hN fuel a args m.store hs, h3⟩
  · exact .inr (.inl ⟨N₀, e, m', fuel, h1, h2 ▸ C84_unlisted H hN fuel a args m.store hs⟩)
  · exact .inr (.inr h1)
  · exact (dev_strict h1).elim

/-! ## Non-vacuity -/

theorem noHost_numeric (Q : NumOp → Bool) : Ref.NumericHost Q noHost := by
  intro c mod xs s hs
  refine ⟨nofun, ?_⟩
  rintro _ _ ⟨⟩
  exact hs
/-- `(module (func (export "f") (param f64 f64) (result f64) local.get 0 local.get 1 f64.add f64.sqrt))` -/
def hypDesc : ModuleDesc where
  type := [⟨[.f64, .f64], [.f64]⟩]
  func := [⟨0, [], [.localGet 0, .localGet 1, .num (.flt .f64_add), .num (.flt .f64_sqrt)]⟩]
  exps := [⟨"f", .func, 0⟩]
def hypInst : ModuleInst where
  type := [⟨[.f64, .f64], [.f64]⟩]
  func := [0]
  exps := [⟨"f", .func 0⟩]
def hypStore : Store where
  func := [.wasm ⟨[.f64, .f64], [.f64]⟩ 0 ⟨0, [], [.localGet 0, .localGet 1, .num (.flt .f64_add), .num (.flt .f64_sqrt)]⟩]
  mods := [hypInst]
theorem hyp_numeric : Ref.NumericStore (fun op => !Ref.listed op) hypStore := by
  intro a t k code h
  rcases a with _ | a
  · injection h with h
    injection h with _ _ h
    subst h
    decide
  · cases h
theorem hyp_valid : ValidModule ⟨hypDesc.type, hypDesc.type, [], 0, [], [], 0, [], [], []⟩ hypDesc where
  types := rfl
  funcs := .cons rfl .nil
  tables := rfl
  mems := rfl
  globals := rfl
  elems := rfl
  datas := rfl
  code := by
    intro f hf t ht
    simp only [hypDesc, List.mem_cons, List.not_mem_nil, or_false] at hf
    subst hf
    cases ht
    refine .cons [] (.localGet (t := .f64) rfl) ?_
    refine .cons [.f64] (.localGet (t := .f64) rfl) ?_
    refine .cons (a := [.f64, .f64]) (b := [.f64]) [] (.num trivial) ?_
    exact .cons (a := [.f64]) (b := [.f64]) [] (.num trivial) (.nil _)
  table := nofun
  mem := nofun
  glob := nofun
  elem := nofun
  activeElem := nofun
  activeData := nofun
  limits := ⟨nofun, nofun⟩
  refs := nofun
  exps := by intro e he; simp [hypDesc] at he; subst he; show _ < 1; decide
  start := nofun
theorem hyp_session : Session (some true) (fun _ _ => False) noHost { store := hypStore } :=
  .instance (m := {}) (m0 := {}) (imports := []) (d := hypDesc) (bufs := []) (mod := hypInst) (N := 6)
    .new hyp_valid (by rintro _ ⟨⟩; decide) (by decide) rfl rfl nofun
/-- The square root of 9 + 16. -/
def hypCall : M (List HVal) := Runtime.invocate noHost 100 hypInst "f" [.float 0x4022000000000000, .float 0x4030000000000000]
example : (match hypCall { store := hypStore } with | .ok r _ => some r | .error _ _ => none) = some [.float 0x4014000000000000] := by decide +kernel
example := C84_exported_call (noHost_ok fun _ _ => False) (noHost_covered true) (noHost_numeric _) hyp_session hyp_numeric (mod := hypInst) (name := "f")
  (a := 0) (t := ⟨[.f64, .f64], [.f64]⟩) (xs := [.float 0x4022000000000000, .float 0x4030000000000000]) rfl rfl (by decide) rfl rfl
example := fun he => C84_exported_call_partial (P := some true) (noHost_ok fun _ _ => False) (by rintro _ ⟨⟩; exact noHost_covered true) hyp_session (mod := hypInst)
  (name := "f") (a := 0) (xs := [.float 0x4022000000000000, .float 0x4030000000000000]) he rfl (by decide) rfl rfl
example := fun mod m' hx hr => C84_program_partial (P := none) (lim := 3) (imports := []) (H := noHost) (noHost_ok fun _ _ => False) nofun .new
  (file := oddFile) (by decide) odd_accepted twice_valid (coveredBy_none _) (by decide) (N := 1000) (mod := mod) (m' := m') hx hr
  (e := ⟨"f", .func, 0⟩) (by decide) rfl (by decide) rfl

/-! ## A wrong result -/

/-- `(func (result f32) f32.const 0 f32.const -0 f32.min)` -/
def minStore : Store where
  func := [.wasm ⟨[], [.f32]⟩ 0 ⟨0, [], [.f32Const 0, .f32Const (-0x80000000), .num (.flt .f32_min)]⟩,
    .wasm ⟨[], [.f32]⟩ 0 ⟨0, [], [.f32Const 0x40000000, .f32Const 0x3f800000, .num (.flt .f32_min)]⟩]
  mods := [{}]

def afterMin : Out → Ref.Res
  | .ok s => if s.length = 1 then .norm ⟨minStore, [], s⟩ else .stuck
  | .trap => .trap minStore
  | .stuck => .stuck
theorem min_run (N : Ref.Numerics) (fuel : Nat) :
    @Ref.invoke N noHost (fuel + 4) 0 [] minStore = afterMin (N.sem (.flt .f32_min) [f32 0x80000000, f32 0]) := by
  generalize h : N.sem (.flt .f32_min) [f32 0x80000000, f32 0] = o
  have h1 : @Ref.plain N {} ⟨minStore, [], [f32 0x80000000, f32 0]⟩ (.num (.flt .f32_min)) =
      match (generalizing := false) o with | .ok s => Ref.Plain.ok ⟨minStore, [], s⟩ | .trap => .trap | .stuck => .stuck := by
    show (match N.sem (.flt .f32_min) [f32 0x80000000, f32 0] with | .ok s => Ref.Plain.ok ⟨minStore, [], s⟩ | .trap => .trap | .stuck => .stuck) = _
    rw [h]
  have h2 : @Ref.instr N noHost (fuel + 1) 1 {} (.num (.flt .f32_min)) ⟨minStore, [], [f32 0x80000000, f32 0]⟩ =
      match (generalizing := false) o with | .ok s => Ref.Res.norm ⟨minStore, [], s⟩ | .trap => .trap minStore | .stuck => .stuck := by
    show (match @Ref.plain N {} ⟨minStore, [], [f32 0x80000000, f32 0]⟩ (.num (.flt .f32_min)) with
      | .ok st' => Ref.Res.norm st' | .trap => .trap minStore | .stuck => .stuck) = _
    rw [h1]
    cases o <;> rfl
  have h3 : @Ref.run N noHost (fuel + 4) 1 {} [.f32Const 0, .f32Const (-0x80000000), .num (.flt .f32_min)] ⟨minStore, [], []⟩ =
      match (generalizing := false) o with | .ok s => Ref.Res.norm ⟨minStore, [], s⟩ | .trap => .trap minStore | .stuck => .stuck := by
    show (match @Ref.instr N noHost (fuel + 1) 1 {} (.num (.flt .f32_min)) ⟨minStore, [], [f32 0x80000000, f32 0]⟩ with
      | .norm st' => @Ref.run N noHost (fuel + 1) 1 {} [] st' | r => r) = _
    rw [h2]
    cases o <;> rfl
  show (match @Ref.run N noHost (fuel + 4) 1 {} [.f32Const 0, .f32Const (-0x80000000), .num (.flt .f32_min)] ⟨minStore, [], []⟩ with
    | .norm st' => if st'.vs.length = 1 then Ref.Res.norm ⟨st'.store, [], st'.vs ++ []⟩ else .stuck
    | .br 0 st' | .ret st' => if st'.vs.length < 1 then .stuck else .norm ⟨st'.store, [], st'.vs.take 1 ++ []⟩
    | .br (_ + 1) _ => .stuck
    | r => r) = _
  rw [h3]
  cases o with
  | ok s => simp only [List.append_nil]; rfl
  | _ => rfl

/-- pywasm returns `+0`, and with no numeric semantics that conforms does the reference interpreter return that. -/
theorem C84_wrong : (match Pywasm.invocate noHost 100 0 [] { store := minStore } with | .ok r _ => some r | .error _ _ => none) = some [f32 0] ∧
    ∀ fuel st, Ref.Allowed noHost fuel 0 [] minStore (.norm st) → st.vs ≠ [f32 0] := by
  refine ⟨by decide +kernel, ?_⟩
  rintro fuel st ⟨N, hN, h⟩ hst
  rcases fuel with _ | _ | _ | _ | fuel
  iterate 4 exact absurd h nofun
  obtain ⟨r, ⟨-, hr, -⟩, e⟩ := hN (.flt .f32_min) [f32 0x80000000, f32 0]
  rw [min_run, e] at h
  injection h with h
  subst h
  injection hst with hst _
  subst hst
  rw [numAt_f32, numAt_f32] at hr
  revert hr
  unfold MinSpec
  decide +kernel
/-- `C84_invoke_partial`: the operands that call meets. -/
example : Ref.MeetsListed noHost 100 0 [] minStore := by
  have h : Ref.strict.sem (.flt .f32_min) [f32 0x80000000, f32 0] = .stuck :=
    (Ref.strict_cases _ _).elim (·.2) fun h => absurd (show NumDev (.flt .f32_min) [f32 0x80000000, f32 0] from
      ⟨by rw [numAt_f32]; decide +kernel, by rw [numAt_f32]; decide +kernel⟩) h.1
  show @Ref.invoke Ref.strict noHost (96 + 4) 0 [] minStore = .stuck
  rw [min_run, h]
  rfl

/-! ## Results that are not floats -/

theorem compares_one {w : FW} {f : Num → Num → Bool} {vs : List Val} {o o' : Out} (h : compares w f vs o) (h' : compares w f vs o') : o = o' := by
  match vs, h, h' with
  | [], h, h' => exact h.trans h'.symm
  | [_], h, h' => exact h.trans h'.symm
  | _ :: _ :: _, ⟨_, rfl, e⟩, ⟨_, rfl, e'⟩ => exact e.trans e'.symm
theorem isTrunc_one {w : FW} {u k k' : Int} (h : IsTrunc (one w) u k) (h' : IsTrunc (one w) u k') : k = k' := by
  refine isTrunc_unique ?_ h h'
  cases w
  · exact pow_pos (by decide) 149
  · exact pow_pos (by decide) 1074
theorem truncates_one {w : FW} {lo hi : Int} {mk : Int → Val} {vs : List Val} {o o' : Out} (h : truncates w lo hi mk vs o)
    (h' : truncates w lo hi mk vs o') : o = o' := by
  cases vs with
  | nil => exact h.trans h'.symm
  | cons v s =>
    simp only [truncates] at h h'
    cases hv : numAt w v with
    | fin g m =>
      rw [hv] at h h'
      obtain ⟨k, hk, e⟩ := h
      obtain ⟨k', hk', e'⟩ := h'
      rw [e, e', isTrunc_one hk hk']
    | _ => rw [hv] at h h'; exact h.trans h'.symm
theorem saturates_one {w : FW} {lo hi : Int} {mk : Int → Val} {vs : List Val} {o o' : Out} (h : saturates w lo hi mk vs o)
    (h' : saturates w lo hi mk vs o') : o = o' := by
  cases vs with
  | nil => exact h.trans h'.symm
  | cons v s =>
    simp only [saturates] at h h'
    cases hv : numAt w v with
    | fin g m =>
      rw [hv] at h h'
      obtain ⟨k, hk, e⟩ := h
      obtain ⟨k', hk', e'⟩ := h'
      rw [e, e', isTrunc_one hk hk']
    | _ => rw [hv] at h h'; exact h.trans h'.symm
theorem flt_one {op : FOp} (hop : Ref.exact (.flt op) = true) {vs : List Val} {o o' : Out} (h : fltSpec op vs o) (h' : fltSpec op vs o') : o = o' := by
    cases op with
    | f32_eq => exact compares_one (show compares .w32 Num.equal vs o from h) h'
    | f32_ne => exact compares_one (show compares .w32 (fun x y => !x.equal y) vs o from h) h'
    | f32_lt => exact compares_one (show compares .w32 Num.less vs o from h) h'
    | f32_gt => exact compares_one (show compares .w32 (fun x y => y.less x) vs o from h) h'
    | f32_le => exact compares_one (show compares .w32 (fun x y => x.less y || x.equal y) vs o from h) h'
    | f32_ge => exact compares_one (show compares .w32 (fun x y => y.less x || y.equal x) vs o from h) h'
    | f64_eq => exact compares_one (show compares .w64 Num.equal vs o from h) h'
    | f64_ne => exact compares_one (show compares .w64 (fun x y => !x.equal y) vs o from h) h'
    | f64_lt => exact compares_one (show compares .w64 Num.less vs o from h) h'
    | f64_gt => exact compares_one (show compares .w64 (fun x y => y.less x) vs o from h) h'
    | f64_le => exact compares_one (show compares .w64 (fun x y => x.less y || x.equal y) vs o from h) h'
    | f64_ge => exact compares_one (show compares .w64 (fun x y => y.less x || y.equal x) vs o from h) h'
    | i32_trunc_f32_s => exact truncates_one (show truncates .w32 (-2 ^ 31) (2 ^ 31 - 1) (fun k => i32 (BitVec.ofInt 32 k)) vs o from h) h'
    | i32_trunc_f32_u => exact truncates_one (show truncates .w32 0 (2 ^ 32 - 1) (fun k => i32 (BitVec.ofInt 32 k)) vs o from h) h'
    | i32_trunc_f64_s => exact truncates_one (show truncates .w64 (-2 ^ 31) (2 ^ 31 - 1) (fun k => i32 (BitVec.ofInt 32 k)) vs o from h) h'
    | i32_trunc_f64_u => exact truncates_one (show truncates .w64 0 (2 ^ 32 - 1) (fun k => i32 (BitVec.ofInt 32 k)) vs o from h) h'
    | i64_trunc_f32_s => exact truncates_one (show truncates .w32 (-2 ^ 63) (2 ^ 63 - 1) (fun k => i64 (BitVec.ofInt 64 k)) vs o from h) h'
    | i64_trunc_f32_u => exact truncates_one (show truncates .w32 0 (2 ^ 64 - 1) (fun k => i64 (BitVec.ofInt 64 k)) vs o from h) h'
    | i64_trunc_f64_s => exact truncates_one (show truncates .w64 (-2 ^ 63) (2 ^ 63 - 1) (fun k => i64 (BitVec.ofInt 64 k)) vs o from h) h'
    | i64_trunc_f64_u => exact truncates_one (show truncates .w64 0 (2 ^ 64 - 1) (fun k => i64 (BitVec.ofInt 64 k)) vs o from h) h'
    | i32_trunc_sat_f32_s => exact saturates_one (show saturates .w32 (-2 ^ 31) (2 ^ 31 - 1) (fun k => i32 (BitVec.ofInt 32 k)) vs o from h) h'
    | i32_trunc_sat_f32_u => exact saturates_one (show saturates .w32 0 (2 ^ 32 - 1) (fun k => i32 (BitVec.ofInt 32 k)) vs o from h) h'
    | i32_trunc_sat_f64_s => exact saturates_one (show saturates .w64 (-2 ^ 31) (2 ^ 31 - 1) (fun k => i32 (BitVec.ofInt 32 k)) vs o from h) h'
    | i32_trunc_sat_f64_u => exact saturates_one (show saturates .w64 0 (2 ^ 32 - 1) (fun k => i32 (BitVec.ofInt 32 k)) vs o from h) h'
    | i64_trunc_sat_f32_s => exact saturates_one (show saturates .w32 (-2 ^ 63) (2 ^ 63 - 1) (fun k => i64 (BitVec.ofInt 64 k)) vs o from h) h'
    | i64_trunc_sat_f32_u => exact saturates_one (show saturates .w32 0 (2 ^ 64 - 1) (fun k => i64 (BitVec.ofInt 64 k)) vs o from h) h'
    | i64_trunc_sat_f64_s => exact saturates_one (show saturates .w64 (-2 ^ 63) (2 ^ 63 - 1) (fun k => i64 (BitVec.ofInt 64 k)) vs o from h) h'
    | i64_trunc_sat_f64_u => exact saturates_one (show saturates .w64 0 (2 ^ 64 - 1) (fun k => i64 (BitVec.ofInt 64 k)) vs o from h) h'
    | _ => exact absurd hop (by decide)
theorem exact_one {op : NumOp} (hop : Ref.exact op = true) {vs : List Val} {o o' : Out} (h : NumSpec op vs o) (h' : NumSpec op vs o') : o = o' := by
  cases op with
  | flt op =>
    exact flt_one hop h h'
  | vec op =>
    obtain ⟨f, hf⟩ := Option.isSome_iff_exists.mp (show (vecSem op).isSome = true from hop)
    have key : ∀ o, NumSpec (.vec op) vs o → o = f vs := fun o h => by
      revert h
      show (match vecSem op with | some f => o = f vs | none => fvecSpec op vs o) → _
      rw [hf]
      exact id
    exact (key _ h).trans (key _ h').symm
  | int _ => exact Eq.trans h (Eq.symm h')
  | lane _ _ => exact Eq.trans h (Eq.symm h')
  | shuffle _ => exact Eq.trans h (Eq.symm h')
theorem exact_ok {op : NumOp} (hop : Ref.exact op = true) (vs : List Val) : ¬ NumDev op vs := fun h => by
  have := dev_listed h
  revert this hop
  cases op with
  | flt op => cases op <;> decide
  | vec op => cases op <;> decide
  | _ => nofun

/-- **C84** (code whose numeric results are not floats) There is one outcome: that of the reference interpreter with any numeric
semantics that conforms. -/
theorem C84_exact (H : Host) (hH : Ref.NumericHost Ref.exact H) (fuel a : Nat) (args : List Val) (s : Store)
    (hs : Ref.NumericStore Ref.exact s) (N : Ref.Numerics) (hN : Ref.Conforms N) :
    @Ref.invoke N H fuel a args s = @Ref.invoke Ref.pywasmNumerics H fuel a args s :=
  Ref.invoke_agree (A := N) (B := Ref.pywasmNumerics) (Q := Ref.exact)
    (fun op hop => funext fun vs => exact_one hop (hN op vs) ((C83_numeric op vs).mpr (exact_ok hop vs))) hH fuel a args s hs
/-- `C84_exact` applies to the store of `Props/Control.lean` with a factorial and a sum. -/
example : Ref.NumericStore Ref.exact factStore := by
  intro a t k code h
  rcases a with _ | _ | _ | a
  iterate 3
    · injection h with h
      injection h with _ _ h
      subst h
      decide
  · cases h

end Pywasm.Props
