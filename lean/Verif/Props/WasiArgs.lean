import Verif.Lemmas.WasiStrs
import Verif.Lemmas.WasiConfig
import Verif.Spec.WasiDemo
import Verif.Spec.WasiNamed

/-!
# WASI: arguments and environment

C43: args_get and environ_get store the strings as C strings, with a table of pointers to them.
-/

namespace Pywasm.Props
open Wasi WasiSpec

/-- The arguments the calls below speak of are the ones the embedder gave, after any history; the environment strings
are `key=value` for the pairs the embedder gave (in some order). -/
theorem wasi_args_given (os : Os) (args : List Str) (dirs envs : List (Str × Str)) (fds : Int × Int × Int)
    (names : Str × Str × Str) (s : St) (h : Reach os (init os args dirs envs fds names).2 s) :
    s.args = args ∧ s.envs.Perm (envs.map fun p => p.1 ++ '=' :: p.2) := by
  have c := SameConfig.reach h
  have i := init_config os args dirs envs fds names
  rw [c.args, c.envs, i.1, i.2.2]
  exact ⟨rfl, (List.mergeSort_perm _ _).map _⟩

/-- C43, the sizes, for ASCII strings: `args_sizes_get` stores the number of arguments and the size of the buffer that
their C strings need, and changes nothing else. -/
theorem wasi_args_sizes_partial (os : Os) (s : St) (ha : ∀ e ∈ s.args, Ascii e) (p q : Nat) (hp : InMem s p 4)
    (hq : InMem s q 4) (hn : s.args.length < 2 ^ 32) (hz : (cStrs s.args).length < 2 ^ 32) :
    (Call.argsSizesGet p q).run os s =
      .ok 0 (write (write s p (Spec.bytesLE 4 s.args.length)) q (Spec.bytesLE 4 (cStrs s.args).length)) := by
  obtain ⟨m, hm, -⟩ := hp.some
  show argsSizesGet p q s = _
  unfold argsSizesGet
  rw [bind_ok (mems_run hm), bind_ok (get_run _), bind_ok (putU_run hp hn), bind_ok (get_run _)]
  show (putU 4 _ ((strsSize s.args : Nat) : Int) >>= _) _ = _
  rw [strsSize_eq ha, bind_ok (putU_run (hq.write _ _) hz)]
  rfl

/-- The same for `environ_sizes_get`. -/
theorem wasi_environ_sizes_partial (os : Os) (s : St) (ha : ∀ e ∈ s.envs, Ascii e) (p q : Nat) (hp : InMem s p 4)
    (hq : InMem s q 4) (hn : s.envs.length < 2 ^ 32) (hz : (cStrs s.envs).length < 2 ^ 32) :
    (Call.environSizesGet p q).run os s =
      .ok 0 (write (write s p (Spec.bytesLE 4 s.envs.length)) q (Spec.bytesLE 4 (cStrs s.envs).length)) := by
  obtain ⟨m, hm, -⟩ := hp.some
  show environSizesGet p q s = _
  unfold environSizesGet
  rw [bind_ok (mems_run hm), bind_ok (get_run _), bind_ok (putU_run hp hn), bind_ok (get_run _)]
  show (putU 4 _ ((strsSize s.envs : Nat) : Int) >>= _) _ = _
  rw [strsSize_eq ha, bind_ok (putU_run (hq.write _ _) hz)]
  rfl

/-- C43, the strings, for ASCII strings: `args_get` with a table and a buffer of the sizes `args_sizes_get` tells, which
lie in memory and do not overlap, succeeds; then pointer `i` of the table points to the C string of argument `i`, the
C strings lie one after the other in the buffer, and no byte outside the table and the buffer has changed.

What is missing, and false: other strings (`wasi_args_refuted`).  Pointers outside memory are the subject of C49. -/
theorem wasi_args_get_partial (os : Os) (s : St) (ha : ∀ e ∈ s.args, Ascii e) (p q : Nat)
    (hp : InMem s p (4 * s.args.length)) (hq : InMem s q (cStrs s.args).length)
    (hd : p + 4 * s.args.length ≤ q ∨ q + (cStrs s.args).length ≤ p) (hm : (bytes s).length ≤ 2 ^ 32) :
    ∃ s', (Call.argsGet p q).run os s = .ok 0 s' ∧
      (∀ i e, s.args[i]? = some e → numAt s' (p + 4 * i) 4 = q + (cStrs (s.args.take i)).length ∧
        Spec.range (bytes s') (q + (cStrs (s.args.take i)).length) (cStr e).length = cStr e) ∧
      (∀ a, a < p ∨ p + 4 * s.args.length ≤ a → a < q ∨ q + (cStrs s.args).length ≤ a →
        (bytes s')[a]? = (bytes s)[a]?) ∧
      (bytes s').length = (bytes s).length ∧ s' = { s with mem := s'.mem } := by
  obtain ⟨s', h, rest⟩ := putStrs_layout s.args ha p q s hp hq hd hm
  refine ⟨s', ?_, rest⟩
  obtain ⟨m, hm, -⟩ := hp.some
  show argsGet p q s = _
  unfold argsGet
  rw [bind_ok (mems_run hm), bind_ok (get_run _), bind_ok h]
  rfl

/-- The same for `environ_get`. -/
theorem wasi_environ_get_partial (os : Os) (s : St) (ha : ∀ e ∈ s.envs, Ascii e) (p q : Nat)
    (hp : InMem s p (4 * s.envs.length)) (hq : InMem s q (cStrs s.envs).length)
    (hd : p + 4 * s.envs.length ≤ q ∨ q + (cStrs s.envs).length ≤ p) (hm : (bytes s).length ≤ 2 ^ 32) :
    ∃ s', (Call.environGet p q).run os s = .ok 0 s' ∧
      (∀ i e, s.envs[i]? = some e → numAt s' (p + 4 * i) 4 = q + (cStrs (s.envs.take i)).length ∧
        Spec.range (bytes s') (q + (cStrs (s.envs.take i)).length) (cStr e).length = cStr e) ∧
      (∀ a, a < p ∨ p + 4 * s.envs.length ≤ a → a < q ∨ q + (cStrs s.envs).length ≤ a →
        (bytes s')[a]? = (bytes s)[a]?) ∧
      (bytes s').length = (bytes s).length ∧ s' = { s with mem := s'.mem } := by
  obtain ⟨s', h, rest⟩ := putStrs_layout s.envs ha p q s hp hq hd hm
  refine ⟨s', ?_, rest⟩
  obtain ⟨m, hm, -⟩ := hp.some
  show environGet p q s = _
  unfold environGet
  rw [bind_ok (mems_run hm), bind_ok (get_run _), bind_ok h]
  rfl

/-- Preview1 with the one argument `é` and a guest memory of 64 bytes. -/
def accentSt : St :=
  { (init (demoOs .dir) [['é']] [] [] (0, 1, 2) (['i'], ['o'], ['e'])).2 with mem := some (zeroMem 64) }

/-- C43 fails for the argument `é`: the size reported is 2, its C string needs 3 bytes, and the two bytes stored are the
first byte of the letter and a zero.  wasi.py:490-494, 500 count characters where they mean bytes. -/
theorem wasi_args_refuted :
    Reach (demoOs .dir) (init (demoOs .dir) [['é']] [] [] (0, 1, 2) (['i'], ['o'], ['e'])).2 accentSt ∧
      numAt (after ((Call.argsSizesGet 0 4).run (demoOs .dir)) accentSt) 4 4 = 2 ∧ (cStr ['é']).length = 3 ∧
      returns (demoOs .dir) (.argsGet 0 8) accentSt 0 = true ∧
      Spec.range (bytes (after ((Call.argsGet 0 8).run (demoOs .dir)) accentSt)) 8 3 = [0xC3, 0, 0] ∧
      cStr ['é'] = [0xC3, 0xA9, 0] :=
  ⟨.step (.refl _) (.guest _ _), by decide +kernel, by decide +kernel, by decide +kernel, by decide +kernel,
    by decide +kernel⟩

-- The demo instance has the arguments `a`, `bc` and the variable `k=v`: the table at 16, the strings at 32.
example : (demoSt .dir).args = [['a'], ['b', 'c']] ∧ (demoSt .dir).envs = [['k', '=', 'v']] := by decide +kernel
example : InMem (demoSt .dir) 16 8 ∧ InMem (demoSt .dir) 32 5 := by
  refine ⟨⟨?_, ?_⟩, ⟨?_, ?_⟩⟩ <;> decide +kernel
example : ∀ e ∈ (demoSt .dir).args, ∀ c ∈ e, c.toNat < 128 := by decide +kernel
example : Spec.range (bytes (after ((Call.argsGet 16 32).run (demoOs .dir)) (demoSt .dir))) 16 21 =
    [32, 0, 0, 0, 34, 0, 0, 0, 0, 0, 0, 0, 0, 0, 0, 0, 97, 0, 98, 99, 0] := by decide +kernel
example : Spec.range (bytes (after ((Call.argsSizesGet 16 20).run (demoOs .dir)) (demoSt .dir))) 16 8 =
    [2, 0, 0, 0, 5, 0, 0, 0] := by decide +kernel
example : Spec.range (bytes (after ((Call.environGet 16 32).run (demoOs .dir)) (demoSt .dir))) 16 20 =
    [32, 0, 0, 0, 0, 0, 0, 0, 0, 0, 0, 0, 0, 0, 0, 0, 107, 61, 118, 0] := by decide +kernel

/-! ## The hypotheses are met -/

example := wasi_args_given (demoOs .dir) [['a'], ['b', 'c']] [(['/'], ['/', 's', 'r', 'v'])] [(['k'], ['v'])] (0, 1, 2) (['i'], ['o'], ['e'])
  _ (memSt_reach .dir [] [.fdClose 3])
example := wasi_args_sizes_partial (demoOs .dir) (demoSt .dir) (by unfold Ascii; decide +kernel) 16 20 (inMem _ _ _) (inMem _ _ _)
  (by decide +kernel) (by decide +kernel)
example := wasi_environ_sizes_partial (demoOs .dir) (demoSt .dir) (by unfold Ascii; decide +kernel) 16 20 (inMem _ _ _) (inMem _ _ _)
  (by decide +kernel) (by decide +kernel)
example := wasi_args_get_partial (demoOs .dir) (demoSt .dir) (by unfold Ascii; decide +kernel) 16 32 (inMem _ _ _) (inMem _ _ _)
  (.inl (by decide +kernel)) (by decide +kernel)
example := wasi_environ_get_partial (demoOs .dir) (demoSt .dir) (by unfold Ascii; decide +kernel) 16 32 (inMem _ _ _) (inMem _ _ _)
  (.inl (by decide +kernel)) (by decide +kernel)

end Pywasm.Props
