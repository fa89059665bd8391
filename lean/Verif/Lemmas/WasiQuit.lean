import Verif.Lemmas.WasiTable
import Verif.Lemmas.Own
import Verif.Spec.WasiMain

/-!
# Only `proc_exit` ends the program
-/

namespace Pywasm.Wasi
open WasiSpec

/-- A computation that does not end the program. -/
structure NoQuit {α} (c : W α) : Prop where
  run : ∀ s e s', c s = .error e s' → e.quits = false

theorem quits_of_own {e : Err} (h : e.own = true) : e.quits = false := by cases e <;> first | rfl | cases h

namespace NoQuit
theorem bind {α β} {x : W α} {f : α → W β} (hx : NoQuit x) (hf : ∀ a, NoQuit (f a)) : NoQuit (x >>= f) := by
  constructor
  intro s e s' h
  rw [bind_run] at h
  cases hr : x s with
  | ok a s1 => rw [hr] at h; exact (hf a).run s1 e s' h
  | error e1 s1 => rw [hr] at h; cases h; exact hx.run _ _ _ hr
theorem pure {α} (a : α) : NoQuit (pure a : W α) := ⟨fun s e s' h => by cases h⟩
theorem throw {α} {e : Err} (he : e.quits = false) : NoQuit (throw e : W α) := ⟨fun s e s' h => by cases h; exact he⟩
theorem get : NoQuit (get : W St) := ⟨fun s e s' h => by cases h⟩
theorem lift {α} {x : Except Err α} (hx : OwnE x) : NoQuit (lift x) := by
  constructor
  intro s e s' h
  cases x with
  | ok a => cases h
  | error e => cases h; exact quits_of_own (hx _ rfl)
theorem attempt {os : Os} {x : Sys} : NoQuit (attempt os x) := ⟨fun s e s' h => by cases h⟩
theorem sys {os : Os} (ho : Proper os) {x : Sys} : NoQuit (sys os x) := by
  constructor
  intro s e s' h
  unfold Wasi.sys at h
  rw [bind_run] at h
  change Wasi.lift (os.run s.log x) _ = _ at h
  cases hr : os.run s.log x with
  | ok a => rw [hr] at h; cases h
  | error e1 => rw [hr] at h; cases h; exact ho _ _ _ hr
theorem mems : NoQuit mems := by
  constructor
  intro s e s' h
  unfold Wasi.mems at h
  cases hm : s.mem with
  | some m => rw [hm] at h; cases h
  | none => rw [hm] at h; cases h; rfl
theorem setMems (m : MemInst) : NoQuit (setMems m) := ⟨fun s e s' h => by cases h⟩
theorem modify (f : St → St) : NoQuit (modify f : W PUnit) := ⟨fun s e s' h => by cases h⟩
theorem putU_own (m : MemInst) (k : Nat) (a v : Int) : OwnE (m.putU k a v) := by
  unfold MemInst.putU
  own_expr
theorem putU8_own (m : MemInst) (a v : Int) : OwnE (m.putU8 a v) := by
  unfold MemInst.putU8
  own_expr
  all_goals exact .err rfl
theorem getU_own (m : MemInst) (k : Nat) (a : Int) : OwnE (m.getU k a) := by
  unfold MemInst.getU
  own_expr
theorem getU8_own (m : MemInst) (a : Int) : OwnE (m.getU8 a) := by
  unfold MemInst.getU8
  own_expr
theorem decode_own (b : Bytes) : OwnE (Py.decodeUtf8 b) := by
  unfold Py.decodeUtf8
  split
  · exact .ok _
  · exact .err rfl
theorem put (a : Int) (d : Bytes) : NoQuit (put a d) := mems.bind fun _ => setMems _
theorem putU8 (a v : Int) : NoQuit (putU8 a v) := mems.bind fun _ => (lift (putU8_own _ _ _)).bind fun _ => setMems _
theorem putU (k : Nat) (a v : Int) : NoQuit (putU k a v) := mems.bind fun _ => (lift (putU_own _ _ _ _)).bind fun _ => setMems _
theorem getU (k : Nat) (a : Int) : NoQuit (getU k a) := mems.bind fun _ => lift (getU_own _ _ _)
theorem getU8 (a : Int) : NoQuit (getU8 a) := mems.bind fun _ => lift (getU8_own _ _)
theorem getB (a n : Int) : NoQuit (getB a n) := mems.bind fun _ => pure _
theorem getName (a n : Int) : NoQuit (getName a n) := (getB a n).bind fun _ => (lift (decode_own _)).bind fun _ => pure _
theorem file (i : Int) : NoQuit (file i) := get.bind fun _ => lift (.getItem _ _)
theorem setFile (i : Int) (f : File) : NoQuit (setFile i f) :=
  get.bind fun _ => (lift (.setItem _ _ _)).bind fun _ => modify _
theorem appendFile (f : File) : NoQuit (appendFile f) := modify _
theorem ite {α} {p : Prop} [Decidable p] {x y : W α} (hx : NoQuit x) (hy : NoQuit y) : NoQuit (if p then x else y) := by
  split
  · exact hx
  · exact hy
theorem helpBadf (fd : Int) : NoQuit (helpBadf fd) :=
  ite (pure _) (get.bind fun _ => ite (pure _) ((file _).bind fun _ => pure _))
theorem helpPerm (fd p : Int) : NoQuit (helpPerm fd p) := (file _).bind fun _ => pure _
theorem helpIdir (fd : Int) : NoQuit (helpIdir fd) := (file _).bind fun _ => pure _
theorem helpSock (fd : Int) : NoQuit (helpSock fd) := (file _).bind fun _ => pure _
theorem helpPipe (fd : Int) : NoQuit (helpPipe fd) := ite ((file _).bind fun _ => pure _) (pure _)
theorem helpTime {os : Os} (ho : Proper os) (i : Int) : NoQuit (helpTime os i) :=
  ite (sys ho) (ite (sys ho) (ite (sys ho) (ite (sys ho) (pure _))))
theorem sockKind_own (c : Consts) (f : File) : OwnE (sockKind c f) := .ite (.ok _) (.ite (.ok _) (.err rfl))
theorem onErr {α} {r : Except Err α} (hr : ∀ e, r = .error e → e.quits = false) {t : List (Nat × Int)} {k : α → W Int}
    (h : ∀ a, NoQuit (k a)) : NoQuit (onErr r t k) := by
  unfold Wasi.onErr
  split
  · exact h _
  · split
    · exact pure _
    · exact throw rfl
  · exact throw (hr _ rfl)
/-- The answer of the host. -/
theorem tried {os : Os} (ho : Proper os) {x : Sys} {t : List (Nat × Int)} {k : x.Ans → W Int} (h : ∀ a, NoQuit (k a)) :
    NoQuit (Wasi.attempt os x >>= fun r => Wasi.onErr r t k) := by
  constructor
  intro s e s' hr
  rw [bind_run] at hr
  exact (onErr (fun e he => ho _ _ _ he) h).run _ _ _ hr

/-- Proves `NoQuit` goals by following the program text. -/
macro "noquit" ho:term:max : tactic => `(tactic| repeat' (first
  | with_reducible exact NoQuit.pure _ | (with_reducible refine NoQuit.throw ?_); rfl | with_reducible exact NoQuit.get
  | with_reducible exact NoQuit.sys $ho | with_reducible exact NoQuit.mems | with_reducible exact NoQuit.put _ _
  | with_reducible exact NoQuit.putU8 _ _ | with_reducible exact NoQuit.putU _ _ _
  | with_reducible exact NoQuit.getU _ _ | with_reducible exact NoQuit.getU8 _ | with_reducible exact NoQuit.getB _ _
  | with_reducible exact NoQuit.getName _ _ | with_reducible exact NoQuit.file _
  | with_reducible exact NoQuit.setFile _ _ | with_reducible exact NoQuit.appendFile _
  | with_reducible exact NoQuit.helpBadf _ | with_reducible exact NoQuit.helpPerm _ _
  | with_reducible exact NoQuit.helpIdir _ | with_reducible exact NoQuit.helpSock _
  | with_reducible exact NoQuit.helpPipe _ | with_reducible exact NoQuit.helpTime $ho _
  | with_reducible exact NoQuit.lift (NoQuit.sockKind_own _ _)
  | with_reducible assumption
  | with_reducible apply NoQuit.tried $ho
  | with_reducible apply NoQuit.bind | with_reducible apply NoQuit.ite | intro _
  | split | with_reducible apply_assumption))

variable {os : Os} (ho : Proper os)

theorem putStrs : ∀ (l : List Str) (a b : Int), NoQuit (putStrs l a b)
  | [], _, _ => pure _
  | e :: l, a, b => by
    unfold Wasi.putStrs
    have := putStrs l
    exact (putU _ _ _).bind fun _ => (put _ _).bind fun _ => (putU8 _ _).bind fun _ => this _ _
theorem readLoop {rd : Int → Int → W Bytes} (h : ∀ a b, NoQuit (rd a b)) :
    ∀ (n : Nat) (a b : Int), NoQuit (readLoop rd n a b)
  | 0, _, _ => pure _
  | n + 1, a, b => by
    unfold Wasi.readLoop
    have := readLoop h n
    refine (getU _ _).bind fun _ => (getU _ _).bind fun _ => (h _ _).bind fun _ => ite (pure _) ?_
    exact (put _ _).bind fun _ => ite (pure _) (this _ _)
theorem gather : ∀ (n : Nat) (a : Int) (d : Bytes), NoQuit (gather n a d)
  | 0, _, _ => pure _
  | n + 1, a, d => by
    unfold Wasi.gather
    have := gather n
    exact (getU _ _).bind fun _ => (getU _ _).bind fun _ => (getB _ _).bind fun _ => this _ _
include ho in
theorem readdirLoop (h : Str) (e : Int) :
    ∀ (l : List Str) (a b : Int), NoQuit (readdirLoop os h e l a b)
  | [], _, _ => pure _
  | x :: l, a, b => by
    unfold Wasi.readdirLoop
    have := readdirLoop h e l
    noquit ho
include ho in
theorem readSub (a : Int) : NoQuit (readSub os a) := by
  unfold Wasi.readSub; noquit ho
include ho in
theorem readSubs : ∀ (n : Nat) (a : Int), NoQuit (readSubs os n a)
  | 0, _ => pure _
  | n + 1, a => by
    unfold Wasi.readSubs
    have := readSubs n
    have := readSub ho
    noquit ho
theorem putEvent (a b c : Int) : NoQuit (putEvent a b c) :=
  (putU _ _ _).bind fun _ => (putU _ _ _).bind fun _ => putU8 _ _
include ho in
theorem putClocks : ∀ (l : List (Int × Int × Int)) (a b : Int), NoQuit (putClocks os l a b)
  | [], _, _ => pure _
  | (_, _, _) :: l, a, b => by
    unfold Wasi.putClocks
    have := putClocks l
    have := putEvent
    noquit ho
theorem putFds (t : Int) (y : List Int) : ∀ (l : List (Int × Int)) (a b : Int), NoQuit (putFds t y l a b)
  | [], _, _ => pure _
  | (_, _) :: l, a, b => by
    unfold Wasi.putFds
    have := putFds t y l
    exact (file _).bind fun _ => ite ((putEvent _ _ _).bind fun _ => this _ _) (this _ _)
theorem hostFds : ∀ (l : List (Int × Int)), NoQuit (hostFds l)
  | [] => pure _
  | (_, _) :: l => by
    unfold Wasi.hostFds
    have := hostFds l
    exact (file _).bind fun _ => this.bind fun _ => pure _
theorem iovsSize : ∀ (n : Nat) (a : Int), NoQuit (iovsSize n a)
  | 0, _ => pure _
  | n + 1, a => by
    unfold Wasi.iovsSize
    have := iovsSize n
    exact (getU _ _).bind fun _ => (this _).bind fun _ => pure _
theorem scatter : ∀ (n : Nat) (a : Int) (d : Bytes), NoQuit (scatter n a d)
  | 0, _, _ => pure _
  | n + 1, a, d => by
    unfold Wasi.scatter
    have := scatter n
    refine ite (pure _) ((getU _ _).bind fun _ => (getU _ _).bind fun _ => ?_)
    dsimp only
    split
    · exact (put _ _).bind fun _ => this _ _
    · exact (pure _).bind fun _ => this _ _
theorem putStat (a t : Int) (i : Stat) : NoQuit (putStat a t i) :=
  (putU _ _ _).bind fun _ => (putU _ _ _).bind fun _ => (putU8 _ _).bind fun _ => (putU _ _ _).bind fun _ =>
    (putU _ _ _).bind fun _ => (putU _ _ _).bind fun _ => (putU _ _ _).bind fun _ => putU _ _ _
include ho in
theorem opened (a b : Int) (c d : Str) (e f g h : Int) (i : Nat) : NoQuit (opened os a b c d e f g h i) := by
  unfold Wasi.opened; noquit ho

set_option linter.unusedTactic false in
include ho in
theorem call (c : Call) (h : ∀ n, c ≠ .procExit n) : NoQuit (c.run os) := by
  cases c
  case procExit n => exact absurd rfl (h n)
  all_goals clear h
  all_goals simp only [Call.run]
  all_goals first
    | (unfold Wasi.argsGet; noquit ho; exact putStrs _ _ _)
    | (unfold Wasi.environGet; noquit ho; exact putStrs _ _ _)
    | (unfold Wasi.argsSizesGet; noquit ho; done) | (unfold Wasi.environSizesGet; noquit ho; done)
    | (unfold Wasi.clockResGet; noquit ho; done) | (unfold Wasi.clockTimeGet; noquit ho; done)
    | (unfold Wasi.fdAdvise; noquit ho; done) | (unfold Wasi.fdAllocate; noquit ho; done) | (unfold Wasi.fdDatasync; noquit ho; done)
    | (unfold Wasi.fdFdstatGet; noquit ho; done) | (unfold Wasi.fdClose; noquit ho; done)
    | (unfold Wasi.fdFdstatSetFlags; noquit ho; done) | (unfold Wasi.fdFdstatSetRights; noquit ho; done)
    | (unfold Wasi.fdRenumber; noquit ho; done)
    | (unfold Wasi.pathOpen; noquit ho; exact opened ho _ _ _ _ _ _ _ _ _)
    | (unfold Wasi.fdFilestatGet; noquit ho; exact putStat _ _ _)
    | (unfold Wasi.fdFilestatSetSize; noquit ho; done) | (unfold Wasi.fdFilestatSetTimes; noquit ho; done)
    | (unfold Wasi.fdPread; noquit ho; exact readLoop (fun _ _ => sys ho) _ _ _)
    | (unfold Wasi.fdPrestatDirName; noquit ho; done) | (unfold Wasi.fdPrestatGet; noquit ho; done)
    | (unfold Wasi.fdPwrite; noquit ho; exact gather _ _ _)
    | (unfold Wasi.fdRead; noquit ho; exact readLoop (fun _ _ => by noquit ho) _ _ _)
    | (unfold Wasi.fdReaddir; noquit ho; exact readdirLoop ho _ _ _ _ _)
    | (unfold Wasi.fdSeek; noquit ho; done) | (unfold Wasi.fdSync; noquit ho; done) | (unfold Wasi.fdTell; noquit ho; done)
    | (unfold Wasi.fdWrite; noquit ho; exact gather _ _ _)
    | (unfold Wasi.pathCreateDirectory; noquit ho; done)
    | (unfold Wasi.pathFilestatGet; noquit ho; exact putStat _ _ _)
    | (unfold Wasi.pathFilestatSetTimes; noquit ho; done)
    | (unfold Wasi.pathLink; noquit ho; done) | (unfold Wasi.pathReadlink; noquit ho; done)
    | (unfold Wasi.pathRemoveDirectory; noquit ho; done) | (unfold Wasi.pathRename; noquit ho; done)
    | (unfold Wasi.pathSymlink; noquit ho; done) | (unfold Wasi.pathUnlinkFile; noquit ho; done)
    | (unfold Wasi.pollOneoff; noquit ho
       all_goals first | exact readSubs ho _ _ | exact hostFds _ | exact putClocks ho _ _ _
                       | exact putFds _ _ _ _ _)
    | (unfold Wasi.procRaise; noquit ho; done) | (unfold Wasi.randomGet; noquit ho; done)
    | (unfold Wasi.schedYield; noquit ho; done) | (unfold Wasi.sockAccept; noquit ho; done)
    | (unfold Wasi.sockRecv; noquit ho
       all_goals first | exact iovsSize _ _ | exact scatter _ _ _)
    | (unfold Wasi.sockSend; noquit ho; exact gather _ _ _)
    | (unfold Wasi.sockShutdown; noquit ho; done)
end NoQuit

end Pywasm.Wasi
