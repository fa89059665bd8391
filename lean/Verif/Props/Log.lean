import Verif.Lemmas.LogTrace
import Verif.Lemmas.LogDecode
import Verif.Props.File
import Verif.Props.Accept

/-!
# C85–C87: logging

With `pywasm.log.lvl` above 0 the module is listed while it is loaded, and every instruction is printed before it is executed.
`Model/LogDecode.lean` and `Model/LogRun.lean` are the model with the calls of `debugln`; `Spec/Log.lean` and `Spec/Listing.lean` say
what is to be printed.  `withOut r out`: the result, the exception and the machine are those of the run `r` without logging, and `out` has been
printed.
-/

namespace Pywasm.Props
open Spec Spec.Bin Spec.Log

/-! ## C85: logging changes nothing -/

/-- **C85** At a level of at most 0, loading a module, instantiating it and calling a function print nothing, and do what they do in the
model without logging. -/
theorem C85_off {lvl : Int} (hlv : lvl ≤ 0) :
    (∀ lim file, Logged.fromReader lvl lim file = ([], ModuleDesc.fromReader lim file)) ∧
    (∀ H lim N imports file (t : Talk),
      Logged.instanceFromFile lvl H lim N imports file t = withOut (Runtime.instanceFromFile H lim N imports file t.m) t.out) ∧
    ∀ fr H N mod name args (t : Talk),
      Logged.runtimeInvocate fr lvl H N mod name args t = withOut (Runtime.invocate H N mod name args t.m) t.out := by
  have hr : ∀ lim file, Logged.fromReader lvl lim file = ([], ModuleDesc.fromReader lim file) := by
    intro lim file
    rcases tracks_fromReader lvl lim file with ⟨l, hl, h⟩ | ⟨h, -⟩
    · rw [h, hl hlv]
    · omega
  have hf : Free lvl False := .inl hlv
  refine ⟨hr, fun H lim N imports file t => ?_, fun fr H N mod name args t => ?_⟩
  · obtain ⟨l, hl, h, -⟩ := (tracks_file (H := H) (.inl hf) lim N imports file (.inl ⟨[], fun _ => rfl, hr lim file⟩) (.inl hf)).same t (.inl hf)
    rw [h, hl hlv, List.append_nil]
  · obtain ⟨l, hl, h, -⟩ := (tracks_runtimeInvocate fr (H := H) (.inl hf) N mod name args).same t ⟨.inl hf, .inl hf⟩
    rw [h, hl hlv, List.append_nil]

/-- **C85** At any level, they do what they do in the model without logging and print something, or they raise a `ValueError`. -/
theorem C85_on (lvl : Int) :
    (∀ lim file, (∃ l, Logged.fromReader lvl lim file = (l, ModuleDesc.fromReader lim file)) ∨
      ∃ l, Logged.fromReader lvl lim file = (l, .error .value)) ∧
    (∀ H lim N imports file (t : Talk),
      (∃ l, Logged.instanceFromFile lvl H lim N imports file t = withOut (Runtime.instanceFromFile H lim N imports file t.m) (t.out ++ l)) ∨
      ∃ m l, Logged.instanceFromFile lvl H lim N imports file t = .error .value ⟨m, t.out ++ l⟩) ∧
    ∀ fr H N mod name args (t : Talk),
      (∃ l, Logged.runtimeInvocate fr lvl H N mod name args t = withOut (Runtime.invocate H N mod name args t.m) (t.out ++ l)) ∨
      ∃ m l, Logged.runtimeInvocate fr lvl H N mod name args t = .error .value ⟨m, t.out ++ l⟩ := by
  have hf : Free lvl True := .inr trivial
  have hr : ∀ lim file, (∃ l, (lvl ≤ 0 → l = []) ∧ Logged.fromReader lvl lim file = (l, ModuleDesc.fromReader lim file)) ∨
      (True ∧ ∃ l, Logged.fromReader lvl lim file = (l, .error .value)) := by
    intro lim file
    exact (tracks_fromReader lvl lim file).imp_right fun h => ⟨trivial, h.2⟩
  refine ⟨fun lim file => ?_, fun H lim N imports file t => ?_, fun fr H N mod name args t => ?_⟩
  · exact (hr lim file).imp (fun ⟨l, _, h⟩ => ⟨l, h⟩) And.right
  · exact ((tracks_file (H := H) (.inl hf) lim N imports file (hr lim file) (.inl hf)).withOut_or t (.inl hf)).imp
      (fun ⟨l, _, h, _⟩ => ⟨l, h⟩) And.right
  · exact ((tracks_runtimeInvocate fr (H := H) (.inl hf) N mod name args).withOut_or t ⟨.inl hf, .inl hf⟩).imp
      (fun ⟨l, _, h, _⟩ => ⟨l, h⟩) And.right

/-- the invariant of a run that may not raise a `ValueError` of its own -/
theorem inv_false {lvl : Int} (hlv : 0 < lvl) {m : Machine} : Inv lvl False m ↔ ShortMachine m := by
  refine ⟨fun h => plain_iff.mp (h.resolve_left fun h => ?_), fun h => .inr (plain_iff.mpr h)⟩
  rcases h with h | h
  · omega
  · exact h

/-- **C85** Loading a module whose numbers have at most 4300 digits, into a machine whose functions are like that, does with logging
what it does without; and the machine stays like that.  Missing from the claim that this holds of all modules: it does not, see
`C85_refuted`. -/
theorem C85_load_partial {lvl : Int} {H : Host} (hlv : 0 < lvl) (hH : ShortHost H) {lim N n : Nat} {imports : Imports} {file : Bytes}
    {d : ModuleDesc} (hE : EncModule d n file) (hn : n ≤ 32) (hl : ∀ e ∈ exprs d, nestL e < lim)
    (hnum : ∀ n ∈ Listing.moduleNums d, n < long) (hd : ShortModule d) (t : Talk) (hm : ShortMachine t.m) :
    (∃ l, Logged.instanceFromFile lvl H lim N imports file t = withOut (Runtime.instanceFromFile H lim N imports file t.m) (t.out ++ l)) ∧
    ∀ mod m', Runtime.instanceFromFile H lim N imports file t.m = .ok mod m' → ShortMachine m' := by
  have hr := C30_decode_inverts_encoding_partial lim d n file hE hn hl
  obtain ⟨l, h1, -⟩ := lreads_module hlv hE hn hl hnum
  obtain ⟨l, -, h, hq⟩ := (tracks_file (lvl := lvl) (bad := False) (.inr hH) lim N imports file
    (.inl ⟨l, fun h => by omega, by rw [h1, hr]⟩) (.inr fun r h => by rw [hr] at h; injection h with h; subst h; exact hd)).same t
    ((inv_false hlv).mpr hm)
  exact ⟨⟨l, h⟩, fun mod m' h => (inv_false hlv).mp (hq _ _ h)⟩

/-- **C85** Calling a function of such a machine does with logging what it does without; and the machine stays like that. -/
theorem C85_call_partial {lvl : Int} {H : Host} (hlv : 0 < lvl) (hH : ShortHost H) (fr : F64 → Str) (N : Nat) (mod : ModuleInst)
    (name : String) (args : List HVal) (t : Talk) (hm : ShortMachine t.m) (hf : t.m.store.func.length ≤ long) :
    (∃ l, Logged.runtimeInvocate fr lvl H N mod name args t = withOut (Runtime.invocate H N mod name args t.m) (t.out ++ l)) ∧
    ∀ ys m', Runtime.invocate H N mod name args t.m = .ok ys m' → ShortMachine m' := by
  obtain ⟨l, -, h, hq⟩ := (tracks_runtimeInvocate (lvl := lvl) (bad := False) fr (.inr hH) N mod name args).same t
    ⟨(inv_false hlv).mpr hm, .inr hf⟩
  exact ⟨⟨l, h⟩, fun mod m' h => (inv_false hlv).mp (hq _ _ h)⟩

/-- A file with only a data count section, in which the number is written with 2042 bytes. -/
def longCount : Bytes :=
  [0x00, 0x61, 0x73, 0x6D, 0x01, 0x00, 0x00, 0x00, 0x0C, 0xFA, 0x0F] ++ (List.replicate 2041 0xFF ++ [0x7F])

/-- **C85 does not hold**: this file is loaded without logging, and raises a `ValueError` with it. -/
theorem C85_refuted (out : List Str) :
    (∃ mod m', Runtime.instanceFromFile noHost 3 0 [] longCount {} = .ok mod m') ∧
    ∃ l, Logged.instanceFromFile 1 noHost 3 0 [] longCount ⟨{}, out⟩ = .error .value ⟨{}, out ++ l⟩ := by
  have h1 : (match ModuleDesc.fromReader 3 longCount with
    | .ok (⟨[], [], [], [], [], [], [], none, [], []⟩, []) => true | _ => false) = true := by decide +kernel
  have h2 : (match Logged.fromReader 1 3 longCount with | (_, .error .value) => true | _ => false) = true := by decide +kernel
  constructor
  · split at h1
    · rename_i h
      unfold Runtime.instanceFromFile
      rw [h]
      exact ⟨_, _, rfl⟩
    · cases h1
  · split at h2
    · rename_i l h
      exact ⟨l, by unfold Logged.instanceFromFile; rw [h]; rfl⟩
    · cases h2

/-! ### Non-vacuity -/

theorem shortHost_noHost : ShortHost noHost := fun _ _ _ _ _ _ h => by cases h

set_option exponentiation.threshold 5000 in
theorem twice_short : ShortModule twiceModule where
  exprs := by unfold exprs; decide +kernel
  tidx := nofun
  star := nofun
  elems := ⟨long_pos, nofun⟩
  datas := ⟨long_pos, nofun⟩

theorem twice_nums : ∀ n ∈ Listing.moduleNums twiceModule, n < long := by
  have h : ∀ n ∈ Listing.moduleNums twiceModule, n ≤ 1 := by decide
  exact fun n hn => Nat.lt_of_le_of_lt (h n hn) (Nat.lt_trans (by decide) long_big)

example : ∃ l, Logged.instanceFromFile 1 noHost 3 0 [] twiceFile ⟨{}, []⟩ =
    withOut (Runtime.instanceFromFile noHost 3 0 [] twiceFile {}) ([] ++ l) :=
  (C85_load_partial (by decide) shortHost_noHost twice_encoding (by decide) (by decide) twice_nums twice_short ⟨{}, []⟩
    ⟨⟨nofun, nofun⟩, nofun⟩).1

/-! ## C86: the listing -/

/-- **C86** When a module is loaded with logging, the lines printed are, apart from those on custom sections and the number of data segments,
exactly those of `Spec.Listing.module`: one for each type, import, function, table, memory, global, export, start function, element
segment, function body and data segment, in the order of the sections, and after that of a function body one for each of its
instructions, with its name and its immediates.  Missing: the lines of `else` branches, which are not printed (`C86_refuted`), and the
type of a function body, which is printed as 0. -/
theorem C86_listing_partial {lvl : Int} (hlv : 0 < lvl) {m : ModuleDesc} {lim n : Nat} {file : Bytes} (h : EncModule m n file) (hk : n ≤ 32)
    (hn : ∀ e ∈ exprs m, nestL e < lim) (hnum : ∀ n ∈ Listing.moduleNums m, n < long) :
    ∃ l, Logged.fromReader lvl lim file = (l, .ok (m, [])) ∧ (l.filter fun x => !Listing.extra x) = Listing.module m :=
  lreads_module hlv h hk hn hnum

theorem encLeaf_opcode {i : Inst} {b : Bytes} (h : EncLeaf i b) : ∃ op r, b = op ++ r ∧ EncOp (Listing.opcode i) op := by
  cases h <;> first
    | exact ⟨_, [], (List.append_nil _).symm, by assumption⟩
    | exact ⟨_, _, rfl, by assumption⟩
    | (rw [List.append_assoc]; exact ⟨_, _, rfl, by assumption⟩)

/-- **C86** The name at the front of the line of an instruction is the one the specification gives to the opcode with which the bytes of the
instruction start. -/
theorem C86_names {i : Inst} {b : Bytes} (h : EncI i b) :
    ∃ o op r name, b = op ++ r ∧ EncOp o op ∧ mnemonic (code o) = some name ∧
      Listing.instruction i = Listing.words (name.toList :: Listing.immediates i) := by
  have : ∃ op r, b = op ++ r ∧ EncOp (Listing.opcode i) op := by
    cases h with
    | leaf h => exact encLeaf_opcode h
    | block h => exact ⟨_, _, by rw [List.append_assoc, List.append_assoc], h⟩
    | loop h => exact ⟨_, _, by rw [List.append_assoc, List.append_assoc], h⟩
    | ifThen h => exact ⟨_, _, by rw [List.append_assoc, List.append_assoc], h⟩
    | ifElse h => exact ⟨_, _, by rw [List.append_assoc, List.append_assoc, List.append_assoc, List.append_assoc], h⟩
  obtain ⟨op, r, hb, ho⟩ := this
  exact ⟨_, op, r, _, hb, ho, mnemonic_eq _, by unfold Listing.instruction; rw [mnemonic_eq]; rfl⟩

/-- A file with one function, `if (result i32) (i32.const 1) else (i32.const x)`. -/
def elseFile (x : UInt8) : Bytes :=
  [0x00, 0x61, 0x73, 0x6D, 0x01, 0x00, 0x00, 0x00, 0x01, 0x05, 0x01, 0x60, 0x00, 0x01, 0x7F, 0x03, 0x02, 0x01, 0x00,
    0x0A, 0x0E, 0x01, 0x0C, 0x00, 0x41, 0x00, 0x04, 0x7F, 0x41, 0x01, 0x05, 0x41, x, 0x0B, 0x0B]

/-- What is printed of a file, if it is accepted; and the three constants in its functions if they are like the one above. -/
def listed (file : Bytes) : Option (List Str × List (List Int)) :=
  match Logged.fromReader 1 3 file with
  | (l, .ok (m, [])) => some (l, m.func.map fun f => match f.expr with
    | [.i32Const a, .ifThen (.val .i32) [.i32Const b] [.i32Const c]] => [a, b, c]
    | _ => [])
  | _ => none

/-- **C86 does not hold of all instructions**: two files that differ only in an `else` branch have the same listing. -/
theorem C86_refuted : ∃ l : List Str, listed (elseFile 2) = some (l, [[0, 1, 2]]) ∧ listed (elseFile 3) = some (l, [[0, 1, 3]]) :=
  ⟨["section type [] -> [i32]", "section func 0", "section code 0 []", "    i32.const 0", "    if i32", "        i32.const 1"].map (·.toList),
    by decide +kernel, by decide +kernel⟩

/-! ### Non-vacuity -/

example : ∃ l, Logged.fromReader 1 3 twiceFile = (l, .ok (twiceModule, [])) ∧
    (l.filter fun x => !Listing.extra x) = ["section type [i32] -> [i32]", "section func 0", "section export f func 0", "section code 0 []",
      "    local.get 0", "    local.get 0", "    i32.add"].map (·.toList) :=
  C86_listing_partial (by decide) twice_encoding (by decide) (by decide) twice_nums

example : EncI (.load .i64_load32_u 2 16) [0x35, 0x02, 0x10] ∧
    Listing.instruction (.load .i64_load32_u 2 16) = "i64.load32_u 2 16".toList :=
  ⟨.leaf (.load (o := .i64_load32_u) (op := [0x35]) (.byte rfl) ⟨[0x02], [0x10], u_byte (b := 2) (by decide), u_byte (b := 16) (by decide), rfl⟩ (by decide)), by decide +kernel⟩

/-! ## C87: the trace -/

/-- **C87** With logging, a run prints one line for each instruction it executes, in order, with the name and the immediates of the
instruction. -/
theorem C87_trace {lvl : Int} (hlv : 0 < lvl) {H : Host} (hH : ShortHost H) (n : Nat) (m : Machine) (out : List Str) (hm : ShortMachine m) :
    Logged.evaluate lvl H n ⟨m, out⟩ = withOut (evaluate H n m) (out ++ (executed H n m).map Listing.traceLine) :=
  evaluate_lines hlv hH n m out (plain_iff.mpr hm)

theorem fromAll_intoAll {ty : ValType} {x : HVal} {v : Val} (h : Val.fromAll ty x = .ok v) : ∃ y, v.intoAll = .ok y := by
  have ht := Makes.fromAll ty x v h
  unfold Val.intoAll
  rw [ht]
  have href (hb : v.byte 4 = 1) : ∃ y, v.intoRef.map HVal.int = .ok y :=
    ⟨.int v.intoI32, by simp [Val.intoRef, hb, Py.assert, bind, Except.bind, pure, Except.pure, Except.map]⟩
  cases ty with
  | funcref => cases x <;> first | exact href (fromRef_byte h) | cases h
  | externref => cases x <;> first | exact href (fromRef_byte h) | cases h
  | _ => exact ⟨_, rfl⟩

theorem mapM_fromAll_intoAll {l : List (ValType × HVal)} {vs : List Val} (h : l.mapM (fun p => Val.fromAll p.1 p.2) = .ok vs) :
    ∃ ys, vs.mapM Val.intoAll = .ok ys := by
  induction l generalizing vs with
  | nil => injection h with h; subst h; exact ⟨[], rfl⟩
  | cons p l ih =>
    rw [List.mapM_cons] at h
    cases h1 : Val.fromAll p.1 p.2 with
    | error e => rw [h1] at h; cases h
    | ok v =>
      cases h2 : l.mapM (fun p => Val.fromAll p.1 p.2) with
      | error e => rw [h1, h2] at h; cases h
      | ok r =>
        rw [h1, h2] at h
        injection h with h
        subst h
        obtain ⟨y, hy⟩ := fromAll_intoAll h1
        obtain ⟨ys, hys⟩ := ih h2
        exact ⟨y :: ys, by rw [List.mapM_cons, hy, hys]; rfl⟩

/-- **C87** A call from Python prints the address of the function and its arguments, as the host would get them back, and then the
instructions it executes. -/
theorem C87_call {lvl : Int} (hlv : 0 < lvl) {H : Host} (hH : ShortHost H) (fr : F64 → Str) (N : Nat) {mod : ModuleInst} {name : String}
    {a : Nat} {args : List HVal} {vs : List Val} {m : Machine} (out : List Str) {t : FuncType} {k : Nat} {code : FuncDesc}
    {mo : ModuleInst} (hm : ShortMachine m) (hlen : m.store.func.length ≤ long) (hn : ExportsFunc mod name a)
    (hf : m.store.func[a]? = some (.wasm t k code)) (hk : m.store.mods[k]? = some mo) (hl : args.length = t.args.length)
    (ht : (t.args.zip args).mapM (fun p => Val.fromAll p.1 p.2) = .ok vs) :
    ∃ xs, vs.mapM Val.intoAll = .ok xs ∧
      Logged.runtimeInvocate fr lvl H N mod name args ⟨m, out⟩ = withOut (Runtime.invocate H N mod name args m)
        (out ++ Listing.callLine fr a (t.args.zip xs) :: (executed H N (started m t mo code vs)).map Listing.traceLine) := by
  obtain ⟨xs, hx⟩ := mapM_fromAll_intoAll ht
  obtain ⟨ha, -⟩ := List.getElem?_eq_some_iff.mp hf
  exact ⟨xs, hx, runtimeInvocate_lines fr hlv hH N out (plain_iff.mpr hm) (by omega) hn hf hk hl ht hx⟩

/-- **C87** If an instruction raises an exception, it is the last one that was printed. -/
theorem C87_last {H : Host} {n k : Nat} {m m1 m2 : Machine} {i : Inst} {e : Err} (hs : StepsN H k m m1) (hk : k < n) (hi : next m1 = some i)
    (he : step H m1 = .error e m2) : ∃ is, executed H n m = is ++ [i] := by
  induction hs generalizing n with
  | refl m =>
    obtain ⟨n, rfl⟩ : ∃ j, n = j + 1 := ⟨n - 1, by omega⟩
    exact ⟨[], by unfold executed; rw [hi, he]; rfl⟩
  | @head k m m' m'' h _ ih =>
    obtain ⟨n, rfl⟩ : ∃ j, n = j + 1 := ⟨n - 1, by omega⟩
    obtain ⟨is, h'⟩ := ih (n := n) (by omega) hi he
    exact ⟨(next m).toList ++ is, by unfold executed; rw [h]; simp only; rw [h', List.append_assoc]⟩

/-! ### Non-vacuity -/

theorem demo_short : ShortMachine { store := demoStore } := by
  refine ⟨⟨fun t k code h => ?_, fun b h => ?_⟩, nofun⟩
  · rcases List.mem_singleton.mp h with h
    injection h with _ _ h
    subst h
    decide +kernel
  · rcases List.mem_singleton.mp h with rfl
    exact Nat.lt_trans (by decide) long_big

theorem demo_args : ([ValType.i32].zip [HVal.int (-3)]).mapM (fun p => Val.fromAll p.1 p.2) = .ok [i32 (-3)] := by with_unfolding_all rfl

/-- A call of the demo function with -3: the call and three instructions are printed. -/
example (fr : F64 → Str) (mod : ModuleInst) (hn : ExportsFunc mod "f" 0) := C87_call (lvl := 1) (H := noHost) (by decide) shortHost_noHost fr 10
  (m := { store := demoStore }) (args := [.int (-3)]) [] (t := ⟨[.i32], [.i32]⟩) demo_short (Nat.le_of_lt (Nat.lt_trans (by decide) long_big)) hn
  rfl rfl rfl demo_args
example : ExportsFunc { exps := [⟨"f", .func 0⟩] } "f" 0 := by unfold ExportsFunc; decide

example : Listing.callLine (fun _ => []) 0 ([ValType.i32].zip [HVal.int (-3)]) :: (executed noHost 10 (started { store := demoStore } ⟨[.i32], [.i32]⟩
    Spec.demoModule ⟨0, [(1, .i64)], [.localGet 0, .i32Const 1, .num (.int .i32_add)]⟩ [i32 (-3)])).map Listing.traceLine =
    ["invocate 0 [i32 -3]", "     local.get 0", "     i32.const 1", "     i32.add"].map (·.toList) := by decide +kernel

example : ∃ is, executed noHost 1 (demo [.unreachable] []) = is ++ [.unreachable] :=
  C87_last (.refl _) (by decide) rfl (e := .assertion) (m2 := _) (by with_unfolding_all rfl)

example (fr : F64 → Str) (mod : ModuleInst) : ∃ l, Logged.runtimeInvocate fr 1 noHost 10 mod "f" [.int (-3)] ⟨{ store := demoStore }, []⟩ =
    withOut (Runtime.invocate noHost 10 mod "f" [.int (-3)] { store := demoStore }) ([] ++ l) :=
  (C85_call_partial (by decide) shortHost_noHost fr 10 mod "f" [.int (-3)] ⟨{ store := demoStore }, []⟩ demo_short (Nat.le_of_lt (Nat.lt_trans (by decide) long_big))).1

/-- A run of three instructions. -/
example (out : List Str) := C87_trace (lvl := 1) (by decide) shortHost_noHost 10 (demo [.localGet 0, .i32Const 1, .num (.int .i32_add)] []) out
  ⟨demo_short.1, fun lab h => by rcases List.mem_singleton.mp h with rfl; decide +kernel⟩

end Pywasm.Props
