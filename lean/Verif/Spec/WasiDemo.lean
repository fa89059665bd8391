import Verif.Spec.Wasi

/-!
# A concrete WASI host

A small host used by the examples beside the WASI theorems and as the witness where a property fails.
-/

namespace Pywasm.WasiSpec
open Wasi

/-- The largest host descriptor handed out so far (the standard streams are 0, 1, 2). -/
def maxFd (l : List Event) : Int :=
  l.foldl (fun m e => match e with | ⟨.open .., .ok x⟩ => max m x | _ => m) 2

/-- Linux constants. -/
def linux : Consts :=
  ⟨0, 1, 2, 0o2000, 0o4000, 0o400000, 0o100, 0o200000, 0o200, 0o1000, 2, 0x100, 0, 1, 2, 1, 2⟩

/-- A host with one kind of file whose content is always the byte 7. -/
def demoOs (kind : Kind) : Os where
  plat := .linux
  c := linux
  run l x :=
    match x with
    | .open .. => .ok (maxFd l + 1)
    | .close _ | .setfl .. | .utime .. | .mkdir .. | .unlink .. | .pipeSeek _ => .ok ()
    | .stat _ => .ok ⟨kind, 9, 1, 100, 10, 20, 30⟩
    | .statName _ => .ok ⟨kind, 9, 1, 100, 10, 20, 30⟩
    | .isdir _ => .ok (decide (kind = .dir))
    | .isfile _ => .ok (decide (kind = .reg))
    | .getcwd => .ok ['/']
    | .lseek _ off _ => .ok off
    | .read _ n => .ok (List.replicate n.toNat 7)
    | .pread _ n _ => .ok (List.replicate n.toNat 7)
    | .write _ d => .ok d.length
    | .pwrite _ d _ => .ok d.length
    | .time _ => .ok 1000
    | .select r w _ => .ok (r, w)
    | .listdir _ => .ok [['b'], ['a']]
    | _ => .error (.os 5)

theorem demo_fresh (kind : Kind) : Fresh (demoOs kind) := by
  intro l name fl mo d h hr
  have hm : h = maxFd l + 1 := by
    simp only [demoOs] at hr
    exact (Except.ok.inj hr).symm
  subst hm
  have key : ∀ (l : List Event) (b : Bool) (m x : Int), (b = true → x ≤ m) →
      l.foldl (fun b e => match e with
        | ⟨.open .., .ok y⟩ => b || decide (y = x)
        | ⟨.close y, .ok _⟩ => b && decide (y ≠ x)
        | _ => b) b = true →
      x ≤ l.foldl (fun m e => match e with | ⟨.open .., .ok y⟩ => max m y | _ => m) m := by
    intro l
    induction l with
    | nil => intro b m x h1 h2; exact h1 h2
    | cons e l ih =>
      intro b m x h1 h2
      rw [List.foldl_cons] at h2 ⊢
      refine ih _ _ x ?_ h2
      obtain ⟨c, a⟩ := e
      cases c <;> cases a <;> (try exact h1)
      · intro hb
        rcases Bool.or_eq_true _ _ ▸ hb with hb | hb
        · exact Int.le_trans (h1 hb) (Int.le_max_left _ _)
        · exact Int.le_trans (Int.le_of_eq (of_decide_eq_true hb).symm) (Int.le_max_right _ _)
      · intro hb
        exact h1 (Bool.and_eq_true _ _ ▸ hb).1
  cases hb : isOpen l (maxFd l + 1) with
  | false => rfl
  | true =>
    have := key l false 2 (maxFd l + 1) (by simp) hb
    unfold maxFd at this
    omega

/-- A guest memory of `n` bytes, all zero. -/
def zeroMem (n : Nat) : MemInst := ⟨⟨1, 0⟩, List.replicate n 0, 1⟩

/-- Preview1 with the directory `/srv` of the host visible as `/`, the arguments `a` and `bc`, one variable, and a
guest memory of 256 bytes. -/
def demoSt (kind : Kind) : St :=
  { (init (demoOs kind) [['a'], ['b', 'c']] [(['/'], ['/', 's', 'r', 'v'])] [(['k'], ['v'])] (0, 1, 2)
      (['i'], ['o'], ['e'])).2 with mem := some (zeroMem 256) }

/-- Result and open descriptors after some calls, for the examples. -/
def results (os : Os) : List Call → St → List (Option Int) × List Bool
  | [], s => ([], s.fd.map (·.wasmOpen))
  | c :: l, s =>
    let r := results os l (after (c.run os) s)
    ((match c.run os s with | .ok e _ => some e | .error _ _ => none) :: r.1, r.2)

/-- Whether a call returns a given errno. -/
def returns (os : Os) (c : Call) (s : St) (e : Int) : Bool :=
  match c.run os s with
  | .ok r _ => decide (r = e)
  | .error _ _ => false

theorem of_returns {os : Os} {c : Call} {s : St} {e : Int} (h : returns os c s e = true) :
    c.run os s = .ok e (after (c.run os) s) := by
  unfold returns at h
  unfold after
  cases hr : c.run os s with
  | error e t => rw [hr] at h; cases h
  | ok r t => rw [hr] at h; rw [of_decide_eq_true h]

/-- The state after some calls, from a given memory. -/
def runs (os : Os) : List Call → St → St
  | [], s => s
  | c :: l, s => runs os l (after (c.run os) s)

theorem Reach.trans {os : Os} {s t u : St} (h : Reach os s t) (h' : Reach os t u) : Reach os s u := by
  induction h' with
  | refl => exact h
  | step _ hs ih => exact .step ih hs
theorem Reach.runs (os : Os) (l : List Call) (s : St) : Reach os s (WasiSpec.runs os l s) := by
  induction l generalizing s with
  | nil => exact .refl s
  | cons c l ih => exact (Reach.step (.refl s) (.call c s)).trans (ih _)

/-- The initial state behind `demoSt`, before the guest has a memory. -/
def demoInit (kind : Kind) : St :=
  (init (demoOs kind) [['a'], ['b', 'c']] [(['/'], ['/', 's', 'r', 'v'])] [(['k'], ['v'])] (0, 1, 2)
      (['i'], ['o'], ['e'])).2

theorem demo_reach (kind : Kind) (l : List Call) :
    Reach (demoOs kind) (demoInit kind) (WasiSpec.runs (demoOs kind) l (demoSt kind)) :=
  (Reach.step (.refl _) (.guest _ (some (zeroMem 256)))).trans (Reach.runs _ _ _)

end Pywasm.WasiSpec
