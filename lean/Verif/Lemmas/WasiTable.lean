import Verif.Lemmas.Wasi
import Verif.Lemmas.WasiBits

/-!
# What a WASI call can do to the descriptor table

Every call either leaves the table alone and neither opens nor closes a host descriptor (`Quiet`), or makes one of the
few changes listed by `Change`.
-/

namespace Pywasm.Wasi
open WasiSpec

/-- Nothing happened to the table, the configuration or the set of open host descriptors. -/
structure Quiet (s s' : St) : Prop where
  fd : s'.fd = s.fd
  args : s'.args = s.args
  ndirs : s'.ndirs = s.ndirs
  envs : s'.envs = s.envs
  exit : s'.returnOnExit = s.returnOnExit
  log : ∃ l, s'.log = s.log ++ l ∧ ∀ e ∈ l, opensOrCloses e.call = false

theorem Quiet.refl (s : St) : Quiet s s := ⟨rfl, rfl, rfl, rfl, rfl, [], by simp⟩
theorem Quiet.trans {a b c : St} (h : Quiet a b) (k : Quiet b c) : Quiet a c := by
  obtain ⟨l, hl, hl'⟩ := h.log
  obtain ⟨m, hm, hm'⟩ := k.log
  refine ⟨k.fd.trans h.fd, k.args.trans h.args, k.ndirs.trans h.ndirs, k.envs.trans h.envs, k.exit.trans h.exit,
    l ++ m, by rw [hm, hl, List.append_assoc], ?_⟩
  intro e he
  rcases List.mem_append.mp he with he | he
  · exact hl' e he
  · exact hm' e he

/-- A computation that leaves the table alone. -/
structure Calm {α} (c : W α) : Prop where
  run : ∀ s, Quiet s (after c s)

theorem after_bind {α β} (x : W α) (f : α → W β) (s : St) :
    after (x >>= f) s = match x s with
      | .ok a s' => after (f a) s'
      | .error _ s' => s' := by
  unfold after
  rw [bind_run]
  cases x s <;> rfl

theorem Calm.bind {α β} {x : W α} {f : α → W β} (hx : Calm x) (hf : ∀ a, Calm (f a)) : Calm (x >>= f) := by
  constructor
  intro s
  rw [after_bind]
  have := hx.run s
  unfold after at this
  cases h : x s with
  | ok a s' => rw [h] at this; exact this.trans ((hf a).run s')
  | error e s' => rw [h] at this; exact this
theorem Calm.pure {α} (a : α) : Calm (pure a : W α) := ⟨fun s => Quiet.refl s⟩
theorem Calm.throw {α} (e : Err) : Calm (throw e : W α) := ⟨fun s => Quiet.refl s⟩
theorem Calm.get : Calm (get : W St) := ⟨fun s => Quiet.refl s⟩
theorem Calm.lift {α} (e : Except Err α) : Calm (lift e) := by
  constructor; intro s; cases e <;> exact Quiet.refl s
theorem Calm.attempt {os : Os} {x : Sys} (h : opensOrCloses x = false) : Calm (attempt os x) :=
  ⟨fun _ => ⟨rfl, rfl, rfl, rfl, rfl, [_], rfl, by simpa using h⟩⟩
theorem Calm.sys {os : Os} {x : Sys} (h : opensOrCloses x = false) : Calm (sys os x) :=
  (Calm.attempt h).bind fun r => Calm.lift r
theorem Calm.mems : Calm mems := by
  constructor; intro s
  have : after Wasi.mems s = s := by
    unfold Wasi.mems after; dsimp only
    cases h : s.mem <;> rfl
  rw [this]; exact Quiet.refl s
theorem Calm.setMems (m : MemInst) : Calm (setMems m) :=
  ⟨fun s => ⟨rfl, rfl, rfl, rfl, rfl, [], (List.append_nil _).symm, by simp⟩⟩
theorem Calm.put (a : Int) (d : Bytes) : Calm (put a d) := Calm.mems.bind fun _ => Calm.setMems _
theorem Calm.putU8 (a v : Int) : Calm (putU8 a v) :=
  Calm.mems.bind fun _ => (Calm.lift _).bind fun _ => Calm.setMems _
theorem Calm.putU (k : Nat) (a v : Int) : Calm (putU k a v) :=
  Calm.mems.bind fun _ => (Calm.lift _).bind fun _ => Calm.setMems _
theorem Calm.getU (k : Nat) (a : Int) : Calm (getU k a) := Calm.mems.bind fun _ => Calm.lift _
theorem Calm.getU8 (a : Int) : Calm (getU8 a) := Calm.mems.bind fun _ => Calm.lift _
theorem Calm.getB (a n : Int) : Calm (getB a n) := Calm.mems.bind fun _ => Calm.pure _
theorem Calm.getName (a n : Int) : Calm (getName a n) :=
  (Calm.getB a n).bind fun _ => (Calm.lift _).bind fun _ => Calm.pure _
theorem Calm.file (i : Int) : Calm (file i) := Calm.get.bind fun _ => Calm.lift _
theorem Calm.ite {α} {p : Prop} [Decidable p] {x y : W α} (hx : Calm x) (hy : Calm y) : Calm (if p then x else y) := by
  split
  · exact hx
  · exact hy
theorem Calm.helpBadf (fd : Int) : Calm (helpBadf fd) :=
  Calm.ite (Calm.pure _) (Calm.get.bind fun _ => Calm.ite (Calm.pure _) ((Calm.file _).bind fun _ => Calm.pure _))
theorem Calm.helpPerm (fd p : Int) : Calm (helpPerm fd p) := (Calm.file _).bind fun _ => Calm.pure _
theorem Calm.helpIdir (fd : Int) : Calm (helpIdir fd) := (Calm.file _).bind fun _ => Calm.pure _
theorem Calm.helpSock (fd : Int) : Calm (helpSock fd) := (Calm.file _).bind fun _ => Calm.pure _
theorem Calm.helpPipe (fd : Int) : Calm (helpPipe fd) :=
  Calm.ite ((Calm.file _).bind fun _ => Calm.pure _) (Calm.pure _)
theorem Calm.helpTime (os : Os) (i : Int) : Calm (helpTime os i) :=
  Calm.ite (Calm.sys rfl) (Calm.ite (Calm.sys rfl) (Calm.ite (Calm.sys rfl) (Calm.ite (Calm.sys rfl) (Calm.pure _))))
theorem Calm.onErr {α} (r : Except Err α) (t : List (Nat × Int)) {k : α → W Int} (h : ∀ a, Calm (k a)) :
    Calm (onErr r t k) := by
  unfold Wasi.onErr
  split
  · exact h _
  · split
    · exact Calm.pure _
    · exact Calm.throw _
  · exact Calm.throw _

/-- Proves `Calm` goals by following the program text. -/
macro "calm" : tactic => `(tactic| repeat' (first
  | with_reducible exact Calm.pure _ | with_reducible exact Calm.throw _ | with_reducible exact Calm.get
  | with_reducible exact Calm.lift _ | (with_reducible refine Calm.attempt ?_); rfl
  | (with_reducible refine Calm.sys ?_); rfl | with_reducible exact Calm.mems | with_reducible exact Calm.put _ _
  | with_reducible exact Calm.putU8 _ _ | with_reducible exact Calm.putU _ _ _
  | with_reducible exact Calm.getU _ _ | with_reducible exact Calm.getU8 _ | with_reducible exact Calm.getB _ _
  | with_reducible exact Calm.getName _ _ | with_reducible exact Calm.file _
  | with_reducible exact Calm.helpBadf _ | with_reducible exact Calm.helpPerm _ _
  | with_reducible exact Calm.helpIdir _ | with_reducible exact Calm.helpSock _
  | with_reducible exact Calm.helpPipe _ | with_reducible exact Calm.helpTime _ _
  | with_reducible assumption
  | with_reducible apply Calm.bind | with_reducible apply Calm.ite | with_reducible apply Calm.onErr | intro _
  | split | with_reducible apply_assumption))

theorem Calm.putStrs : ∀ (l : List Str) (a b : Int), Calm (putStrs l a b)
  | [], _, _ => Calm.pure _
  | e :: l, a, b => by
    unfold Wasi.putStrs
    have := Calm.putStrs l
    calm
theorem Calm.readLoop {rd : Int → Int → W Bytes} (h : ∀ a b, Calm (rd a b)) :
    ∀ (n : Nat) (a b : Int), Calm (readLoop rd n a b)
  | 0, _, _ => Calm.pure _
  | n + 1, a, b => by
    unfold Wasi.readLoop
    have := Calm.readLoop h n
    calm
theorem Calm.gather : ∀ (n : Nat) (a : Int) (d : Bytes), Calm (gather n a d)
  | 0, _, _ => Calm.pure _
  | n + 1, a, d => by
    unfold Wasi.gather
    have := Calm.gather n
    calm
theorem Calm.readdirLoop (os : Os) (h : Str) (e : Int) :
    ∀ (l : List Str) (a b : Int), Calm (readdirLoop os h e l a b)
  | [], _, _ => Calm.pure _
  | x :: l, a, b => by
    unfold Wasi.readdirLoop
    have := Calm.readdirLoop os h e l
    calm
theorem Calm.readSub (os : Os) (a : Int) : Calm (readSub os a) := by
  unfold Wasi.readSub; calm
theorem Calm.readSubs (os : Os) : ∀ (n : Nat) (a : Int), Calm (readSubs os n a)
  | 0, _ => Calm.pure _
  | n + 1, a => by
    unfold Wasi.readSubs
    have := Calm.readSubs os n
    have := Calm.readSub os
    calm
theorem Calm.putEvent (a b c : Int) : Calm (putEvent a b c) := by unfold Wasi.putEvent; calm
theorem Calm.putClocks (os : Os) : ∀ (l : List (Int × Int × Int)) (a b : Int), Calm (putClocks os l a b)
  | [], _, _ => Calm.pure _
  | (_, _, _) :: l, a, b => by
    unfold Wasi.putClocks
    have := Calm.putClocks os l
    have := Calm.putEvent
    calm
theorem Calm.putFds (t : Int) (y : List Int) : ∀ (l : List (Int × Int)) (a b : Int), Calm (putFds t y l a b)
  | [], _, _ => Calm.pure _
  | (_, _) :: l, a, b => by
    unfold Wasi.putFds
    have := Calm.putFds t y l
    have := Calm.putEvent
    calm
theorem Calm.hostFds : ∀ (l : List (Int × Int)), Calm (hostFds l)
  | [] => Calm.pure _
  | (_, _) :: l => by
    unfold Wasi.hostFds
    have := Calm.hostFds l
    calm
theorem Calm.iovsSize : ∀ (n : Nat) (a : Int), Calm (iovsSize n a)
  | 0, _ => Calm.pure _
  | n + 1, a => by
    unfold Wasi.iovsSize
    have := Calm.iovsSize n
    calm
theorem Calm.scatter : ∀ (n : Nat) (a : Int) (d : Bytes), Calm (scatter n a d)
  | 0, _, _ => Calm.pure _
  | n + 1, a, d => by
    unfold Wasi.scatter
    have := Calm.scatter n
    calm
theorem Calm.putStat (a t : Int) (i : Stat) : Calm (putStat a t i) := by unfold Wasi.putStat; calm

/-- The calls that may change the table. -/
def changes : Call → Bool
  | .fdClose .. | .fdFdstatSetFlags .. | .fdFdstatSetRights .. | .fdRenumber .. | .pathOpen .. => true
  | _ => false

set_option linter.unusedTactic false in
theorem Calm.call (os : Os) (c : Call) (h : changes c = false) : Calm (c.run os) := by
  cases c
  all_goals first | (exact Bool.noConfusion h) | skip
  all_goals simp only [Call.run]
  all_goals first
    | (unfold Wasi.argsGet; calm; exact Calm.putStrs _ _ _)
    | (unfold Wasi.environGet; calm; exact Calm.putStrs _ _ _)
    | (unfold Wasi.argsSizesGet; calm; done) | (unfold Wasi.environSizesGet; calm; done)
    | (unfold Wasi.clockResGet; calm; done) | (unfold Wasi.clockTimeGet; calm; done)
    | (unfold Wasi.fdAdvise; calm; done) | (unfold Wasi.fdAllocate; calm; done) | (unfold Wasi.fdDatasync; calm; done)
    | (unfold Wasi.fdFdstatGet; calm; done)
    | (unfold Wasi.fdFilestatGet; calm; exact Calm.putStat _ _ _)
    | (unfold Wasi.fdFilestatSetSize; calm; done) | (unfold Wasi.fdFilestatSetTimes; calm; done)
    | (unfold Wasi.fdPread; calm; exact Calm.readLoop (fun _ _ => Calm.sys rfl) _ _ _)
    | (unfold Wasi.fdPrestatDirName; calm; done) | (unfold Wasi.fdPrestatGet; calm; done)
    | (unfold Wasi.fdPwrite; calm; exact Calm.gather _ _ _)
    | (unfold Wasi.fdRead; calm; exact Calm.readLoop (fun _ _ => by calm) _ _ _)
    | (unfold Wasi.fdReaddir; calm; exact Calm.readdirLoop _ _ _ _ _ _)
    | (unfold Wasi.fdSeek; calm; done) | (unfold Wasi.fdSync; calm; done) | (unfold Wasi.fdTell; calm; done)
    | (unfold Wasi.fdWrite; calm; exact Calm.gather _ _ _)
    | (unfold Wasi.pathCreateDirectory; calm; done)
    | (unfold Wasi.pathFilestatGet; calm; exact Calm.putStat _ _ _)
    | (unfold Wasi.pathFilestatSetTimes; calm; done)
    | (unfold Wasi.pathLink; calm; done) | (unfold Wasi.pathReadlink; calm; done)
    | (unfold Wasi.pathRemoveDirectory; calm; done) | (unfold Wasi.pathRename; calm; done)
    | (unfold Wasi.pathSymlink; calm; done) | (unfold Wasi.pathUnlinkFile; calm; done)
    | (unfold Wasi.pollOneoff; calm
       all_goals first | exact Calm.readSubs _ _ _ | exact Calm.hostFds _ | exact Calm.putClocks _ _ _ _
                       | exact Calm.putFds _ _ _ _ _)
    | (unfold Wasi.procExit; calm; done) | (unfold Wasi.procRaise; calm; done) | (unfold Wasi.randomGet; calm; done)
    | (unfold Wasi.schedYield; calm; done) | (unfold Wasi.sockAccept; calm; done)
    | (unfold Wasi.sockRecv; calm
       all_goals first | exact Calm.iovsSize _ _ | exact Calm.scatter _ _ _)
    | (unfold Wasi.sockSend; calm; exact Calm.gather _ _ _)
    | (unfold Wasi.sockShutdown; calm; done)

/-! ## The changes -/

/-- The entry after its descriptor was closed. -/
def File.shut (f : File) : File := { f with hostOpen := false, wasmOpen := false }

/-- The host answered a call. -/
def St.event (s : St) (x : Sys) (r : Except Err x.Ans) : St := { s with log := s.log ++ [⟨x, r⟩] }

/-- What one call can do to the table and to the set of open host descriptors. -/
inductive Change (os : Os) (c : Call) : St → St → Prop
  | quiet {s s'} (h : Quiet s s') : Change os c s s'
  /-- flags or rights of an open entry are replaced -/
  | edit {s s'} (n : Nat) (f f' : File) (h : s.fd[n]? = some f) (ho : f.wasmOpen = true)
      (hf : f' = { f with hostFlag := f'.hostFlag, wasmFlag := f'.wasmFlag, base := f'.base, root := f'.root })
      (hr : ∀ b : Nat, (has f'.base b → has f.base b) ∧ (has f'.root b → has f.root b))
      (hq : Quiet { s with fd := s.fd.set n f' } s') : Change os c s s'
  /-- an open entry is closed together with its host descriptor -/
  | drop {s} (n : Nat) (f : File) (h : s.fd[n]? = some f) (ho : f.wasmOpen = true)
      (ht : f.wasmType ≠ FILETYPE_CHARACTER_DEVICE) :
      Change os c s { s.event (.close f.hostFd) (.ok ()) with fd := s.fd.set n f.shut }
  /-- closing the host descriptor raised -/
  | dropErr {s} (n : Nat) (f : File) (e : Err) (h : s.fd[n]? = some f) (ho : f.wasmOpen = true)
      (ht : f.wasmType ≠ FILETYPE_CHARACTER_DEVICE) : Change os c s (s.event (.close f.hostFd) (.error e))
  /-- a character device is closed for the guest only -/
  | dropChr {s} (n : Nat) (f : File) (h : s.fd[n]? = some f) (ho : f.wasmOpen = true)
      (ht : f.wasmType = FILETYPE_CHARACTER_DEVICE) :
      Change os c s { s with fd := s.fd.set n { f with wasmOpen := false } }
  /-- entry `m` moves to the place of entry `n`, whose host descriptor is closed -/
  | move {s} (m n : Nat) (f g : File) (hc : c = .fdRenumber m n) (hm : s.fd[m]? = some f) (hn : s.fd[n]? = some g) (hf : f.wasmOpen = true)
      (hg : g.wasmOpen = true) (ht : g.wasmType ≠ FILETYPE_CHARACTER_DEVICE) :
      Change os c s { s.event (.close g.hostFd) (.ok ()) with fd := (s.fd.set n f).set m f.shut }
  /-- entry `m` moves to the place of a character device -/
  | moveChr {s} (m n : Nat) (f g : File) (hc : c = .fdRenumber m n) (hm : s.fd[m]? = some f) (hn : s.fd[n]? = some g) (hf : f.wasmOpen = true)
      (hg : g.wasmOpen = true) (ht : g.wasmType = FILETYPE_CHARACTER_DEVICE) :
      Change os c s { s with fd := (s.fd.set n f).set m f.shut }
  /-- the host refused to open -/
  | openErr {s} (name : Str) (fl mo : Int) (d : Option Int) (e : Err) : Change os c s (s.event (.open name fl mo d) (.error e))
  /-- the host opened, but a later host call raised -/
  | openLeak {s s'} (name : Str) (fl mo : Int) (d : Option Int) (h : Int)
      (hos : os.run s.log (.open name fl mo d) = .ok h)
      (hq : Quiet (s.event (.open name fl mo d) (.ok h)) s')
      (hl : ∃ l e, os.run l (.isdir h) = .error e ∨ os.run l (.isfile h) = .error e ∨ os.run l (.stat h) = .error e) :
      Change os c s s'
  /-- a new entry is appended -/
  | opened {s s1 s'} (name : Str) (fl mo : Int) (d : Option Int) (h : Int) (new : File)
      (hos : os.run s.log (.open name fl mo d) = .ok h)
      (hq : Quiet (s.event (.open name fl mo d) (.ok h)) s1) (hh : new.hostFd = h) (ho : new.hostOpen = true)
      (hw : new.wasmOpen = true) (hp : new.pipe = none) (hn : new.wasmFd = s.fd.length)
      (ht : ∃ l i, os.run l (.stat h) = .ok i ∧ new.wasmType = helpWasmType i)
      (hd : ∃ (a0 : Int) (dir : File), openFile s a0 = some dir ∧ has dir.base 13 = true ∧ d = some dir.hostFd ∧
        helpEscp dir.hostName name = false ∧ new.hostName = Py.normpath (Py.join dir.hostName name))
      (hq' : Quiet { s1 with fd := s1.fd ++ [new] } s') : Change os c s s'

theorem after_ok {α β} {x : W α} {f : α → W β} {s s' : St} {a} (h : x s = .ok a s') :
    after (x >>= f) s = after (f a) s' := by rw [after_bind, h]
theorem after_err {α β} {x : W α} {f : α → W β} {s s' : St} {e} (h : x s = .error e s') :
    after (x >>= f) s = s' := by rw [after_bind, h]
theorem after_gate {s : St} {fd : Int} {x : File} (h : openFile s fd = some x) (f : Bool → W Int) :
    after (helpBadf fd >>= f) s = after (f false) s := by rw [after_ok (helpBadf_run s fd), h]; rfl
theorem after_bad {os : Os} {c : Call} {s : St} (h : ∃ fd ∈ fds c, openFile s fd = none) :
    after (c.run os) s = s := by unfold after; rw [bad_fd os c s h]
theorem after_pure {α} (a : α) (s : St) : after (Pure.pure a : W α) s = s := rfl

theorem setFile_nat {s : St} {n : Nat} (f : File) (h : n < s.fd.length) :
    setFile n f s = .ok () { s with fd := s.fd.set n f } := by
  unfold setFile
  rw [bind_get, Py.setItem_ok f h, bind_ok (lift_ok _ _)]; rfl

theorem sys_run (os : Os) (x : Sys) (s : St) :
    sys os x s = match os.run s.log x with
      | .ok a => .ok a (s.event x (os.run s.log x))
      | .error e => .error e (s.event x (os.run s.log x)) := by
  unfold sys
  rw [bind_ok (by rfl : attempt os x s = .ok (os.run s.log x) (s.event x (os.run s.log x)))]
  cases os.run s.log x <;> rfl

theorem sys_ok {os : Os} {x : Sys} {s : St} {a} (h : os.run s.log x = .ok a) : sys os x s = .ok a (s.event x (.ok a)) := by
  rw [sys_run, h]
theorem sys_err {os : Os} {x : Sys} {s : St} {e} (h : os.run s.log x = .error e) :
    sys os x s = .error e (s.event x (.error e)) := by
  rw [sys_run, h]

theorem change_close (os : Os) (a : Int) (s : St) : Change os (.fdClose a) s (after (fdClose os a) s) := by
  cases h : openFile s a with
  | none =>
    rw [show after (fdClose os a) s = s from after_bad (os := os) (c := .fdClose a) ⟨a, by simp [fds], h⟩]
    exact .quiet (.refl s)
  | some f =>
    obtain ⟨n, rfl, hn, ho⟩ := openFile_nat h
    have hl : n < s.fd.length := (List.getElem?_eq_some_iff.mp hn).1
    unfold fdClose
    rw [after_gate h, if_neg Bool.false_ne_true, after_ok (file_open h)]
    by_cases ht : f.wasmType = FILETYPE_CHARACTER_DEVICE
    · rw [if_neg (by simpa using ht), after_ok (setFile_nat _ hl)]
      exact .dropChr n f hn ho ht
    · rw [if_pos ht]
      cases hr : os.run s.log (.close f.hostFd) with
      | error er =>
        rw [after_err (sys_err hr)]
        exact .dropErr n f er hn ho ht
      | ok u =>
        rw [after_ok (sys_ok hr), after_ok (setFile_nat _ (by exact hl))]
        exact .drop n f hn ho ht

theorem change_flags (os : Os) (a b : Int) (s : St) : Change os (.fdFdstatSetFlags a b) s (after (fdFdstatSetFlags os a b) s) := by
  cases h : openFile s a with
  | none =>
    rw [show after (fdFdstatSetFlags os a b) s = s from
      after_bad (os := os) (c := .fdFdstatSetFlags a b) ⟨a, by simp [fds], h⟩]
    exact .quiet (.refl s)
  | some f =>
    obtain ⟨n, rfl, hn, ho⟩ := openFile_nat h
    have hl : n < s.fd.length := (List.getElem?_eq_some_iff.mp hn).1
    unfold fdFdstatSetFlags
    rw [after_gate h, if_neg Bool.false_ne_true, after_ok (helpPerm_run h _)]
    split
    · exact .quiet (.refl s)
    · rw [after_ok (file_open h)]
      split
      · exact .quiet (.refl s)
      · simp only
        rw [after_ok (setFile_nat _ hl)]
        refine .edit n f (newFlags os.c b f) hn ho ?_ ?_ ?_
        · simp only [newFlags]
        · intro i; simp [newFlags]
        · exact ((Calm.sys (x := .setfl _ _) rfl).bind fun _ => Calm.pure ERRNO_SUCCESS).run _

theorem change_rights (os : Os) (a b c : Int) (s : St) : Change os (.fdFdstatSetRights a b c) s (after (fdFdstatSetRights a b c) s) := by
  cases h : openFile s a with
  | none =>
    rw [show after (fdFdstatSetRights a b c) s = s from
      after_bad (os := os) (c := .fdFdstatSetRights a b c) ⟨a, by simp [fds], h⟩]
    exact .quiet (.refl s)
  | some f =>
    obtain ⟨n, rfl, hn, ho⟩ := openFile_nat h
    have hl : n < s.fd.length := (List.getElem?_eq_some_iff.mp hn).1
    unfold fdFdstatSetRights
    rw [after_gate h, if_neg Bool.false_ne_true, after_ok (file_open h)]
    split
    · exact .quiet (.refl s)
    · split
      · exact .quiet (.refl s)
      · rename_i h1 h2
        rw [after_ok (setFile_nat _ hl)]
        refine .edit n f { f with base := b, root := c } hn ho rfl ?_ (Quiet.refl _)
        intro i
        exact ⟨(and_eq_right _ _).mp (not_not.mp h1) i, (and_eq_right _ _).mp (not_not.mp h2) i⟩

theorem change_renumber (os : Os) (a b : Int) (s : St) : Change os (.fdRenumber a b) s (after (fdRenumber os a b) s) := by
  cases h : openFile s a with
  | none =>
    rw [show after (fdRenumber os a b) s = s from
      after_bad (os := os) (c := .fdRenumber a b) ⟨a, by simp [fds], h⟩]
    exact .quiet (.refl s)
  | some f =>
    cases h2 : openFile s b with
    | none =>
      rw [show after (fdRenumber os a b) s = s from
        after_bad (os := os) (c := .fdRenumber a b) ⟨b, by simp [fds], h2⟩]
      exact .quiet (.refl s)
    | some g =>
      obtain ⟨m, rfl, hm, ho⟩ := openFile_nat h
      obtain ⟨n, rfl, hn, ho'⟩ := openFile_nat h2
      have hl : n < s.fd.length := (List.getElem?_eq_some_iff.mp hn).1
      have hl' : m < s.fd.length := (List.getElem?_eq_some_iff.mp hm).1
      have hmm : (s.fd.set n f)[m]? = some f := by
        by_cases hnm : n = m
        · subst hnm; simp [hl]
        · rw [List.getElem?_set_ne hnm]; exact hm
      unfold fdRenumber
      rw [after_gate h, if_neg Bool.false_ne_true, after_gate h2, if_neg Bool.false_ne_true, after_ok (file_open h),
        after_ok (file_open h2)]
      by_cases ht : g.wasmType = FILETYPE_CHARACTER_DEVICE
      · rw [if_neg (by simpa using ht)]
        beta_reduce
        rw [after_ok (setFile_nat _ hl), after_ok (file_nat (by exact hmm)), after_ok (setFile_nat _ (by simpa using hl'))]
        exact .moveChr m n f g rfl hm hn ho ho' ht
      · rw [if_pos ht]
        cases hr : os.run s.log (.close g.hostFd) with
        | error er =>
          rw [after_err (sys_err hr)]
          exact .dropErr n g er hn ho' ht
        | ok u =>
          rw [after_ok (sys_ok hr), after_ok (setFile_nat _ (by exact hl)), after_ok (file_nat (by exact hmm)),
            after_ok (setFile_nat _ (by rw [List.length_set]; exact hl'))]
          exact .move m n f g rfl hm hn ho ho' ht

theorem change_opened (os : Os) (c : Call) (s : St) (name : Str) (fl mo : Int) (d : Option Int) (h : Int)
    (flag : Int) (hn wn : Str) (a5 a6 a7 a8 : Int) (hos : os.run s.log (.open name fl mo d) = .ok h)
    (hd : ∃ (a0 : Int) (dir : File), openFile s a0 = some dir ∧ has dir.base 13 = true ∧ d = some dir.hostFd ∧
        helpEscp dir.hostName name = false ∧ hn = Py.normpath (Py.join dir.hostName name)) :
    Change os c s (after (opened os h flag hn wn a5 a6 a7 a8 s.fd.length) (s.event (.open name fl mo d) (.ok h))) := by
  unfold opened
  rw [after_bind, sys_run]
  have q0 := Quiet.refl (s.event (.open name fl mo d) (.ok h))
  have step : ∀ {t : St} (x : Sys), opensOrCloses x = false → Quiet (s.event (.open name fl mo d) (.ok h)) t →
      ∀ r, Quiet (s.event (.open name fl mo d) (.ok h)) (t.event x r) := by
    intro t x hx hq r
    exact hq.trans ⟨rfl, rfl, rfl, rfl, rfl, [_], rfl, by simpa using hx⟩
  cases h1 : os.run (s.event (.open name fl mo d) (.ok h)).log (.isdir h) with
  | error e => exact .openLeak name fl mo d h hos (step _ rfl q0 _) ⟨_, e, .inl h1⟩
  | ok isd =>
    have q1 := step (.isdir h) rfl q0 (.ok isd)
    simp only
    rw [after_bind, sys_run]
    cases h2 : os.run ((s.event (.open name fl mo d) (.ok h)).event (.isdir h) (.ok isd)).log (.isfile h) with
    | error e => exact .openLeak name fl mo d h hos (step _ rfl q1 _) ⟨_, e, .inr (.inl h2)⟩
    | ok isf =>
      have q2 := step (.isfile h) rfl q1 (.ok isf)
      simp only
      rw [after_bind, sys_run]
      cases h3 : os.run (((s.event (.open name fl mo d) (.ok h)).event (.isdir h) (.ok isd)).event (.isfile h)
          (.ok isf)).log (.stat h) with
      | error e => exact .openLeak name fl mo d h hos (step _ rfl q2 _) ⟨_, e, .inr (.inr h3)⟩
      | ok info =>
        have q3 := step (.stat h) rfl q2 (.ok info)
        simp only
        rw [after_bind]
        exact .opened name fl mo d h _ hos q3 rfl rfl rfl rfl rfl ⟨_, info, h3, rfl⟩ hd
          (((Calm.putU 4 a8 s.fd.length).bind fun _ => Calm.pure ERRNO_SUCCESS).run _)

/-- A run of a calm prefix. -/
theorem Calm.then {os : Os} {c : Call} {α} {x : W α} (hx : Calm x) (f : α → W Int) (s : St)
    (hf : ∀ a s', x s = .ok a s' → Quiet s s' → Change os c s (after (f a) s')) : Change os c s (after (x >>= f) s) := by
  rw [after_bind]
  have := hx.run s
  unfold after at this
  cases h : x s with
  | ok a s' => rw [h] at this; exact hf a s' h this
  | error e s' => rw [h] at this; exact .quiet this

theorem getName_state {a n : Int} {s s' : St} {x : Str} (h : getName a n s = .ok x s') : s' = s := by
  unfold getName getB at h
  rw [bind_run, bind_run] at h
  unfold mems at h
  cases hm : s.mem with
  | none => simp [hm] at h
  | some m =>
    simp only [hm, pure_run] at h
    rw [bind_run] at h
    cases hd : Py.decodeUtf8 (m.get a n) with
    | error e => rw [hd] at h; simp [lift] at h
    | ok b => rw [hd] at h; simp [lift, pure_run] at h; exact h.2.symm

theorem mems_state {s s' : St} {m : MemInst} (h : mems s = .ok m s') : s' = s ∧ s.mem = some m := by
  unfold mems at h
  cases hm : s.mem with
  | none => simp [hm] at h
  | some m => simp [hm] at h; exact ⟨h.2.symm, by rw [h.1]⟩

theorem after_onErr {α} (r : Except Err α) (t : List (Nat × Int)) (k : α → W Int) (e : Err) (hr : r = .error e) (s : St) :
    after (onErr r t k) s = s := by
  subst hr
  unfold onErr
  cases e
  case os n => simp only; cases List.lookup n t <;> rfl
  all_goals rfl

theorem change_open (os : Os) (a0 a1 a2 a3 a4 a5 a6 a7 a8 : Int) (s : St) :
    Change os (.pathOpen a0 a1 a2 a3 a4 a5 a6 a7 a8) s (after (pathOpen os a0 a1 a2 a3 a4 a5 a6 a7 a8) s) := by
  cases h : openFile s a0 with
  | none =>
    rw [show after (pathOpen os a0 a1 a2 a3 a4 a5 a6 a7 a8) s = s from
      after_bad (os := os) (c := .pathOpen a0 a1 a2 a3 a4 a5 a6 a7 a8) ⟨a0, by simp [fds], h⟩]
    exact .quiet (.refl s)
  | some f =>
    unfold pathOpen
    rw [after_gate h, if_neg Bool.false_ne_true, after_ok (helpPerm_run h _)]
    split
    · exact .quiet (.refl s)
    · rename_i hp
      have hp : has f.base 13 = true := by
        cases hh : has f.base 13 with
        | true => rfl
        | false => exact absurd (decide_eq_true ((and_pow_eq_zero _ 13).mpr hh)) hp
      refine Calm.mems.then _ s ?_
      intro m s' hm _
      obtain ⟨rfl, -⟩ := mems_state hm
      rw [after_ok (file_open h)]
      refine (Calm.getName a2 a3).then _ s' ?_
      intro name s2 hname _
      obtain rfl := getName_state hname
      simp only
      split
      · exact .quiet (.refl _)
      · split
        · exact .quiet (.refl _)
        · rename_i hesc
          split
          · exact .quiet (.refl _)
          · rw [after_ok (get_run _)]
            generalize openFlags os.c a1 a4 a5 a7 = fl
            rw [after_ok (by rfl : attempt os (.open name fl 0o644 (some f.hostFd)) s2 =
              .ok (os.run s2.log (.open name fl 0o644 (some f.hostFd)))
                (s2.event _ (os.run s2.log (.open name fl 0o644 (some f.hostFd)))))]
            cases hr : os.run s2.log (.open name fl 0o644 (some f.hostFd)) with
            | ok hfd =>
              exact change_opened os _ s2 name _ _ _ hfd _ _ _ a5 a6 a7 a8 hr
                ⟨a0, f, h, hp, rfl, by simpa using hesc, rfl⟩
            | error e =>
              rw [after_onErr _ _ _ e rfl]
              exact .openErr name _ _ _ e

/-- Every call makes one of the listed changes. -/
theorem change_call (os : Os) (c : Call) (s : St) : Change os c s (after (c.run os) s) := by
  by_cases hc : changes c = true
  · cases c
    all_goals first | (exact Bool.noConfusion hc) | skip
    · exact change_close os _ s
    · exact change_flags os _ _ s
    · exact change_rights os _ _ _ s
    · exact change_renumber os _ _ s
    · exact change_open os _ _ _ _ _ _ _ _ _ s
  · exact .quiet ((Calm.call os c (by simpa using hc)).run s)

end Pywasm.Wasi
