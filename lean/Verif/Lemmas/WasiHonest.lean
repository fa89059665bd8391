import Verif.Lemmas.WasiShape
import Verif.Spec.WasiHistory

/-!
# WASI calls keep the host history genuine
-/

namespace Pywasm.Wasi
open WasiSpec

theorem _root_.Pywasm.WasiSpec.Genuine.snoc {os : Os} {l : List Event} (h : Genuine os l) (x : Sys) : Genuine os (l ++ [⟨x, os.run l x⟩]) := by
  intro l1 e l2 he
  rcases List.eq_nil_or_concat l2 with rfl | ⟨l3, y, rfl⟩
  · obtain ⟨rfl, h2⟩ := List.append_inj' he rfl
    cases h2
    rfl
  · have he' : l ++ [⟨x, os.run l x⟩] = (l1 ++ e :: l3) ++ [y] := by rw [he]; simp
    exact h l1 e l3 (List.append_inj' he' rfl).1

/-- A computation that keeps the history genuine. -/
structure Keeps {α} (os : Os) (c : W α) : Prop where
  run : ∀ s, Genuine os s.log → Genuine os (after c s).log

variable {os : Os}
namespace Keeps
theorem bind {α β} {x : W α} {f : α → W β} (hx : Keeps os x) (hf : ∀ a, Keeps os (f a)) : Keeps os (x >>= f) := by
  constructor
  intro s hs
  rw [after_bind]
  have := hx.run s hs
  unfold after at this
  cases h : x s with
  | ok a s' => rw [h] at this; exact (hf a).run s' this
  | error e s' => rw [h] at this; exact this
theorem pure {α} (a : α) : Keeps os (pure a : W α) := ⟨fun _ h => h⟩
theorem throw {α} (e : Err) : Keeps os (throw e : W α) := ⟨fun _ h => h⟩
theorem get : Keeps os (get : W St) := ⟨fun _ h => h⟩
theorem lift {α} (e : Except Err α) : Keeps os (lift e) := by constructor; intro s h; cases e <;> exact h
theorem attempt (os : Os) (x : Sys) : Keeps os (attempt os x) := ⟨fun _ h => h.snoc x⟩
theorem sys (os : Os) (x : Sys) : Keeps os (sys os x) := (attempt os x).bind fun r => lift r
theorem mems : Keeps os mems := by
  constructor; intro s hs
  unfold Wasi.mems after
  dsimp only
  cases h : s.mem <;> simpa only [h] using hs
theorem setMems (m : MemInst) : Keeps os (setMems m) := ⟨fun _ h => h⟩
theorem put (a : Int) (d : Bytes) : Keeps os (put a d) := mems.bind fun _ => setMems _
theorem putU8 (a v : Int) : Keeps os (putU8 a v) := mems.bind fun _ => (lift _).bind fun _ => setMems _
theorem putU (k : Nat) (a v : Int) : Keeps os (putU k a v) := mems.bind fun _ => (lift _).bind fun _ => setMems _
theorem getU (k : Nat) (a : Int) : Keeps os (getU k a) := mems.bind fun _ => lift _
theorem getU8 (a : Int) : Keeps os (getU8 a) := mems.bind fun _ => lift _
theorem getB (a n : Int) : Keeps os (getB a n) := mems.bind fun _ => pure _
theorem getName (a n : Int) : Keeps os (getName a n) := (getB a n).bind fun _ => (lift _).bind fun _ => pure _
theorem file (i : Int) : Keeps os (file i) := get.bind fun _ => lift _
theorem setFile (i : Int) (f : File) : Keeps os (setFile i f) := get.bind fun _ => (lift _).bind fun _ => ⟨fun _ h => h⟩
theorem appendFile (f : File) : Keeps os (appendFile f) := ⟨fun _ h => h⟩
theorem ite {α} {p : Prop} [Decidable p] {x y : W α} (hx : Keeps os x) (hy : Keeps os y) : Keeps os (if p then x else y) := by
  split
  · exact hx
  · exact hy
theorem helpBadf (fd : Int) : Keeps os (helpBadf fd) :=
  ite (pure _) (get.bind fun _ => ite (pure _) ((file _).bind fun _ => pure _))
theorem helpPerm (fd p : Int) : Keeps os (helpPerm fd p) := (file _).bind fun _ => pure _
theorem helpIdir (fd : Int) : Keeps os (helpIdir fd) := (file _).bind fun _ => pure _
theorem helpSock (fd : Int) : Keeps os (helpSock fd) := (file _).bind fun _ => pure _
theorem helpPipe (fd : Int) : Keeps os (helpPipe fd) := ite ((file _).bind fun _ => pure _) (pure _)
theorem helpTime (os : Os) (i : Int) : Keeps os (helpTime os i) := ite (sys _ _) (ite (sys _ _) (ite (sys _ _) (ite (sys _ _) (pure _))))
theorem onErr {α} (r : Except Err α) (t : List (Nat × Int)) {k : α → W Int} (h : ∀ a, Keeps os (k a)) : Keeps os (onErr r t k) := by
  unfold Wasi.onErr
  split
  · exact h _
  · split
    · exact pure _
    · exact throw _
  · exact throw _
end Keeps

/-- Proves `Keeps` goals by following the program text. -/
macro "keeps" : tactic => `(tactic| repeat' (first
  | with_reducible exact Keeps.pure _ | with_reducible exact Keeps.throw _ | with_reducible exact Keeps.get
  | with_reducible exact Keeps.lift _ | with_reducible exact Keeps.attempt _ _
  | with_reducible exact Keeps.sys _ _ | with_reducible exact Keeps.mems | with_reducible exact Keeps.put _ _
  | with_reducible exact Keeps.putU8 _ _ | with_reducible exact Keeps.putU _ _ _
  | with_reducible exact Keeps.getU _ _ | with_reducible exact Keeps.getU8 _ | with_reducible exact Keeps.getB _ _
  | with_reducible exact Keeps.getName _ _ | with_reducible exact Keeps.file _
  | with_reducible exact Keeps.setFile _ _ | with_reducible exact Keeps.appendFile _
  | with_reducible exact Keeps.helpBadf _ | with_reducible exact Keeps.helpPerm _ _
  | with_reducible exact Keeps.helpIdir _ | with_reducible exact Keeps.helpSock _
  | with_reducible exact Keeps.helpPipe _ | with_reducible exact Keeps.helpTime _ _
  | with_reducible assumption
  | with_reducible apply Keeps.bind | with_reducible apply Keeps.ite | with_reducible apply Keeps.onErr | intro _
  | split | with_reducible apply_assumption))

theorem Keeps.putStrs : ∀ (l : List Str) (a b : Int), Keeps os (putStrs l a b)
  | [], _, _ => Keeps.pure _
  | e :: l, a, b => by
    unfold Wasi.putStrs
    have := Keeps.putStrs l
    keeps
theorem Keeps.readLoop {rd : Int → Int → W Bytes} (h : ∀ a b, Keeps os (rd a b)) :
    ∀ (n : Nat) (a b : Int), Keeps os (readLoop rd n a b)
  | 0, _, _ => Keeps.pure _
  | n + 1, a, b => by
    unfold Wasi.readLoop
    have := Keeps.readLoop h n
    keeps
theorem Keeps.gather : ∀ (n : Nat) (a : Int) (d : Bytes), Keeps os (gather n a d)
  | 0, _, _ => Keeps.pure _
  | n + 1, a, d => by
    unfold Wasi.gather
    have := Keeps.gather n
    keeps
theorem Keeps.readdirLoop (os : Os) (h : Str) (e : Int) :
    ∀ (l : List Str) (a b : Int), Keeps os (readdirLoop os h e l a b)
  | [], _, _ => Keeps.pure _
  | x :: l, a, b => by
    unfold Wasi.readdirLoop
    have := Keeps.readdirLoop os h e l
    keeps
theorem Keeps.readSub (os : Os) (a : Int) : Keeps os (readSub os a) := by
  unfold Wasi.readSub; keeps
theorem Keeps.readSubs (os : Os) : ∀ (n : Nat) (a : Int), Keeps os (readSubs os n a)
  | 0, _ => Keeps.pure _
  | n + 1, a => by
    unfold Wasi.readSubs
    have := Keeps.readSubs os n
    have := Keeps.readSub os
    keeps
theorem Keeps.putEvent (a b c : Int) : Keeps os (putEvent a b c) := by unfold Wasi.putEvent; keeps
theorem Keeps.putClocks (os : Os) : ∀ (l : List (Int × Int × Int)) (a b : Int), Keeps os (putClocks os l a b)
  | [], _, _ => Keeps.pure _
  | (_, _, _) :: l, a, b => by
    unfold Wasi.putClocks
    have := Keeps.putClocks os l
    have := @Keeps.putEvent os
    keeps
theorem Keeps.putFds (t : Int) (y : List Int) : ∀ (l : List (Int × Int)) (a b : Int), Keeps os (putFds t y l a b)
  | [], _, _ => Keeps.pure _
  | (_, _) :: l, a, b => by
    unfold Wasi.putFds
    have := Keeps.putFds t y l
    have := @Keeps.putEvent os
    keeps
theorem Keeps.hostFds : ∀ (l : List (Int × Int)), Keeps os (hostFds l)
  | [] => Keeps.pure _
  | (_, _) :: l => by
    unfold Wasi.hostFds
    have := Keeps.hostFds l
    keeps
theorem Keeps.iovsSize : ∀ (n : Nat) (a : Int), Keeps os (iovsSize n a)
  | 0, _ => Keeps.pure _
  | n + 1, a => by
    unfold Wasi.iovsSize
    have := Keeps.iovsSize n
    keeps
theorem Keeps.scatter : ∀ (n : Nat) (a : Int) (d : Bytes), Keeps os (scatter n a d)
  | 0, _, _ => Keeps.pure _
  | n + 1, a, d => by
    unfold Wasi.scatter
    have := Keeps.scatter n
    keeps
theorem Keeps.putStat (a t : Int) (i : Stat) : Keeps os (putStat a t i) := by unfold Wasi.putStat; keeps

set_option linter.unusedTactic false in
theorem Keeps.call (os : Os) (c : Call) : Keeps os (c.run os) := by
  cases c
  all_goals simp only [Call.run]
  all_goals first
    | (unfold Wasi.argsGet; keeps; exact Keeps.putStrs _ _ _)
    | (unfold Wasi.environGet; keeps; exact Keeps.putStrs _ _ _)
    | (unfold Wasi.fdClose; keeps; done) | (unfold Wasi.fdFdstatSetFlags; keeps; done) | (unfold Wasi.fdFdstatSetRights; keeps; done)
    | (unfold Wasi.fdRenumber; keeps; done) | (unfold Wasi.pathOpen Wasi.opened; keeps; done)
    | (unfold Wasi.argsSizesGet; keeps; done) | (unfold Wasi.environSizesGet; keeps; done)
    | (unfold Wasi.clockResGet; keeps; done) | (unfold Wasi.clockTimeGet; keeps; done)
    | (unfold Wasi.fdAdvise; keeps; done) | (unfold Wasi.fdAllocate; keeps; done) | (unfold Wasi.fdDatasync; keeps; done)
    | (unfold Wasi.fdFdstatGet; keeps; done)
    | (unfold Wasi.fdFilestatGet; keeps; exact Keeps.putStat _ _ _)
    | (unfold Wasi.fdFilestatSetSize; keeps; done) | (unfold Wasi.fdFilestatSetTimes; keeps; done)
    | (unfold Wasi.fdPread; keeps; exact Keeps.readLoop (fun _ _ => Keeps.sys _ _) _ _ _)
    | (unfold Wasi.fdPrestatDirName; keeps; done) | (unfold Wasi.fdPrestatGet; keeps; done)
    | (unfold Wasi.fdPwrite; keeps; exact Keeps.gather _ _ _)
    | (unfold Wasi.fdRead; keeps; exact Keeps.readLoop (fun _ _ => by keeps) _ _ _)
    | (unfold Wasi.fdReaddir; keeps; exact Keeps.readdirLoop _ _ _ _ _ _)
    | (unfold Wasi.fdSeek; keeps; done) | (unfold Wasi.fdSync; keeps; done) | (unfold Wasi.fdTell; keeps; done)
    | (unfold Wasi.fdWrite; keeps; exact Keeps.gather _ _ _)
    | (unfold Wasi.pathCreateDirectory; keeps; done)
    | (unfold Wasi.pathFilestatGet; keeps; exact Keeps.putStat _ _ _)
    | (unfold Wasi.pathFilestatSetTimes; keeps; done)
    | (unfold Wasi.pathLink; keeps; done) | (unfold Wasi.pathReadlink; keeps; done)
    | (unfold Wasi.pathRemoveDirectory; keeps; done) | (unfold Wasi.pathRename; keeps; done)
    | (unfold Wasi.pathSymlink; keeps; done) | (unfold Wasi.pathUnlinkFile; keeps; done)
    | (unfold Wasi.pollOneoff; keeps
       all_goals first | exact Keeps.readSubs _ _ _ | exact Keeps.hostFds _ | exact Keeps.putClocks _ _ _ _
                       | exact Keeps.putFds _ _ _ _ _)
    | (unfold Wasi.procExit; keeps; done) | (unfold Wasi.procRaise; keeps; done) | (unfold Wasi.randomGet; keeps; done)
    | (unfold Wasi.schedYield; keeps; done) | (unfold Wasi.sockAccept; keeps; done)
    | (unfold Wasi.sockRecv; keeps
       all_goals first | exact Keeps.iovsSize _ _ | exact Keeps.scatter _ _ _)
    | (unfold Wasi.sockSend; keeps; exact Keeps.gather _ _ _)
    | (unfold Wasi.sockShutdown; keeps; done)

end Pywasm.Wasi
