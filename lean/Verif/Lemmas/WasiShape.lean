import Verif.Lemmas.WasiTable

/-!
# WASI calls keep the limits and the size of memories
-/

namespace Pywasm.Wasi
open WasiSpec

/-- The limits and the size in pages of a memory. -/
def shape (m : Option MemInst) : Option (Limits × Nat) := m.map fun m => (m.limits, m.size)

/-- A computation that keeps the shape of the memory. -/
structure Shaped {α} (c : W α) : Prop where
  run : ∀ s, shape (after c s).mem = shape s.mem

namespace Shaped
theorem bind {α β} {x : W α} {f : α → W β} (hx : Shaped x) (hf : ∀ a, Shaped (f a)) : Shaped (x >>= f) := by
  constructor
  intro s
  rw [after_bind]
  have := hx.run s
  unfold after at this
  cases h : x s with
  | ok a s' => rw [h] at this; exact ((hf a).run s').trans this
  | error e s' => rw [h] at this; exact this
theorem pure {α} (a : α) : Shaped (pure a : W α) := ⟨fun _ => rfl⟩
theorem throw {α} (e : Err) : Shaped (throw e : W α) := ⟨fun _ => rfl⟩
theorem get : Shaped (get : W St) := ⟨fun _ => rfl⟩
theorem lift {α} (e : Except Err α) : Shaped (lift e) := by constructor; intro s; cases e <;> rfl
theorem attempt (os : Os) (x : Sys) : Shaped (attempt os x) := ⟨fun _ => rfl⟩
theorem sys (os : Os) (x : Sys) : Shaped (sys os x) := (attempt os x).bind fun r => lift r
theorem mems : Shaped mems := by
  constructor; intro s
  unfold Wasi.mems after
  dsimp only
  cases h : s.mem <;> simp only [h]
/-- Replacing the memory by one of the same shape. -/
theorem edit {f : MemInst → Except Err MemInst} (h : ∀ m m', f m = .ok m' → (m'.limits, m'.size) = (m.limits, m.size)) :
    Shaped (Wasi.mems >>= fun m => Wasi.lift (f m) >>= fun m => Wasi.setMems m) := by
  constructor; intro s
  rw [after_bind]
  unfold Wasi.mems
  cases hm : s.mem with
  | none => simp only [hm]
  | some m =>
    simp only
    rw [after_bind]
    cases hf : f m with
    | error e => show shape s.mem = _; rw [hm]
    | ok m' => exact congrArg some (h m m' hf)
theorem put (a : Int) (d : Bytes) : Shaped (put a d) :=
  edit (f := fun m => .ok (m.put a d)) fun m m' h => by injection h with h; subst h; rfl
theorem putU8 (a v : Int) : Shaped (putU8 a v) := by
  refine edit (f := fun m => m.putU8 a v) fun m m' h => ?_
  unfold MemInst.putU8 at h
  cases h1 : Py.setItem m.data a (UInt8.ofNat v.toNat) with
  | error e => rw [h1] at h; cases h
  | ok d =>
    rw [h1] at h
    change (if 0 ≤ v ∧ v < 256 then Except.ok { m with data := d } else .error Err.value) = _ at h
    split at h
    · injection h with h; subst h; rfl
    · cases h
theorem putU (k : Nat) (a v : Int) : Shaped (putU k a v) := by
  refine edit (f := fun m => m.putU k a v) fun m m' h => ?_
  unfold MemInst.putU at h
  cases h1 : Py.packU k v with
  | error e => rw [h1] at h; cases h
  | ok d =>
    rw [h1] at h
    change Except.ok { m with data := Py.sliceSet m.data a (a + k) d } = _ at h
    injection h with h; subst h; rfl
theorem getU (k : Nat) (a : Int) : Shaped (getU k a) := mems.bind fun _ => lift _
theorem getU8 (a : Int) : Shaped (getU8 a) := mems.bind fun _ => lift _
theorem getB (a n : Int) : Shaped (getB a n) := mems.bind fun _ => pure _
theorem getName (a n : Int) : Shaped (getName a n) := (getB a n).bind fun _ => (lift _).bind fun _ => pure _
theorem file (i : Int) : Shaped (file i) := get.bind fun _ => lift _
theorem setFile (i : Int) (f : File) : Shaped (setFile i f) := get.bind fun _ => (lift _).bind fun _ => ⟨fun _ => rfl⟩
theorem appendFile (f : File) : Shaped (appendFile f) := ⟨fun _ => rfl⟩
theorem ite {α} {p : Prop} [Decidable p] {x y : W α} (hx : Shaped x) (hy : Shaped y) : Shaped (if p then x else y) := by
  split
  · exact hx
  · exact hy
theorem helpBadf (fd : Int) : Shaped (helpBadf fd) :=
  ite (pure _) (get.bind fun _ => ite (pure _) ((file _).bind fun _ => pure _))
theorem helpPerm (fd p : Int) : Shaped (helpPerm fd p) := (file _).bind fun _ => pure _
theorem helpIdir (fd : Int) : Shaped (helpIdir fd) := (file _).bind fun _ => pure _
theorem helpSock (fd : Int) : Shaped (helpSock fd) := (file _).bind fun _ => pure _
theorem helpPipe (fd : Int) : Shaped (helpPipe fd) := ite ((file _).bind fun _ => pure _) (pure _)
theorem helpTime (os : Os) (i : Int) : Shaped (helpTime os i) := ite (sys _ _) (ite (sys _ _) (ite (sys _ _) (ite (sys _ _) (pure _))))
theorem onErr {α} (r : Except Err α) (t : List (Nat × Int)) {k : α → W Int} (h : ∀ a, Shaped (k a)) : Shaped (onErr r t k) := by
  unfold Wasi.onErr
  split
  · exact h _
  · split
    · exact pure _
    · exact throw _
  · exact throw _
end Shaped

/-- Proves `Shaped` goals by following the program text. -/
macro "shaped" : tactic => `(tactic| repeat' (first
  | with_reducible exact Shaped.pure _ | with_reducible exact Shaped.throw _ | with_reducible exact Shaped.get
  | with_reducible exact Shaped.lift _ | with_reducible exact Shaped.attempt _ _
  | with_reducible exact Shaped.sys _ _ | with_reducible exact Shaped.mems | with_reducible exact Shaped.put _ _
  | with_reducible exact Shaped.putU8 _ _ | with_reducible exact Shaped.putU _ _ _
  | with_reducible exact Shaped.getU _ _ | with_reducible exact Shaped.getU8 _ | with_reducible exact Shaped.getB _ _
  | with_reducible exact Shaped.getName _ _ | with_reducible exact Shaped.file _
  | with_reducible exact Shaped.setFile _ _ | with_reducible exact Shaped.appendFile _
  | with_reducible exact Shaped.helpBadf _ | with_reducible exact Shaped.helpPerm _ _
  | with_reducible exact Shaped.helpIdir _ | with_reducible exact Shaped.helpSock _
  | with_reducible exact Shaped.helpPipe _ | with_reducible exact Shaped.helpTime _ _
  | with_reducible assumption
  | with_reducible apply Shaped.bind | with_reducible apply Shaped.ite | with_reducible apply Shaped.onErr | intro _
  | split | with_reducible apply_assumption))

theorem Shaped.putStrs : ∀ (l : List Str) (a b : Int), Shaped (putStrs l a b)
  | [], _, _ => Shaped.pure _
  | e :: l, a, b => by
    unfold Wasi.putStrs
    have := Shaped.putStrs l
    shaped
theorem Shaped.readLoop {rd : Int → Int → W Bytes} (h : ∀ a b, Shaped (rd a b)) :
    ∀ (n : Nat) (a b : Int), Shaped (readLoop rd n a b)
  | 0, _, _ => Shaped.pure _
  | n + 1, a, b => by
    unfold Wasi.readLoop
    have := Shaped.readLoop h n
    shaped
theorem Shaped.gather : ∀ (n : Nat) (a : Int) (d : Bytes), Shaped (gather n a d)
  | 0, _, _ => Shaped.pure _
  | n + 1, a, d => by
    unfold Wasi.gather
    have := Shaped.gather n
    shaped
theorem Shaped.readdirLoop (os : Os) (h : Str) (e : Int) :
    ∀ (l : List Str) (a b : Int), Shaped (readdirLoop os h e l a b)
  | [], _, _ => Shaped.pure _
  | x :: l, a, b => by
    unfold Wasi.readdirLoop
    have := Shaped.readdirLoop os h e l
    shaped
theorem Shaped.readSub (os : Os) (a : Int) : Shaped (readSub os a) := by
  unfold Wasi.readSub; shaped
theorem Shaped.readSubs (os : Os) : ∀ (n : Nat) (a : Int), Shaped (readSubs os n a)
  | 0, _ => Shaped.pure _
  | n + 1, a => by
    unfold Wasi.readSubs
    have := Shaped.readSubs os n
    have := Shaped.readSub os
    shaped
theorem Shaped.putEvent (a b c : Int) : Shaped (putEvent a b c) := by unfold Wasi.putEvent; shaped
theorem Shaped.putClocks (os : Os) : ∀ (l : List (Int × Int × Int)) (a b : Int), Shaped (putClocks os l a b)
  | [], _, _ => Shaped.pure _
  | (_, _, _) :: l, a, b => by
    unfold Wasi.putClocks
    have := Shaped.putClocks os l
    have := Shaped.putEvent
    shaped
theorem Shaped.putFds (t : Int) (y : List Int) : ∀ (l : List (Int × Int)) (a b : Int), Shaped (putFds t y l a b)
  | [], _, _ => Shaped.pure _
  | (_, _) :: l, a, b => by
    unfold Wasi.putFds
    have := Shaped.putFds t y l
    have := Shaped.putEvent
    shaped
theorem Shaped.hostFds : ∀ (l : List (Int × Int)), Shaped (hostFds l)
  | [] => Shaped.pure _
  | (_, _) :: l => by
    unfold Wasi.hostFds
    have := Shaped.hostFds l
    shaped
theorem Shaped.iovsSize : ∀ (n : Nat) (a : Int), Shaped (iovsSize n a)
  | 0, _ => Shaped.pure _
  | n + 1, a => by
    unfold Wasi.iovsSize
    have := Shaped.iovsSize n
    shaped
theorem Shaped.scatter : ∀ (n : Nat) (a : Int) (d : Bytes), Shaped (scatter n a d)
  | 0, _, _ => Shaped.pure _
  | n + 1, a, d => by
    unfold Wasi.scatter
    have := Shaped.scatter n
    shaped
theorem Shaped.putStat (a t : Int) (i : Stat) : Shaped (putStat a t i) := by unfold Wasi.putStat; shaped

set_option linter.unusedTactic false in
theorem Shaped.call (os : Os) (c : Call) : Shaped (c.run os) := by
  cases c
  all_goals simp only [Call.run]
  all_goals first
    | (unfold Wasi.argsGet; shaped; exact Shaped.putStrs _ _ _)
    | (unfold Wasi.environGet; shaped; exact Shaped.putStrs _ _ _)
    | (unfold Wasi.fdClose; shaped; done) | (unfold Wasi.fdFdstatSetFlags; shaped; done) | (unfold Wasi.fdFdstatSetRights; shaped; done)
    | (unfold Wasi.fdRenumber; shaped; done) | (unfold Wasi.pathOpen Wasi.opened; shaped; done)
    | (unfold Wasi.argsSizesGet; shaped; done) | (unfold Wasi.environSizesGet; shaped; done)
    | (unfold Wasi.clockResGet; shaped; done) | (unfold Wasi.clockTimeGet; shaped; done)
    | (unfold Wasi.fdAdvise; shaped; done) | (unfold Wasi.fdAllocate; shaped; done) | (unfold Wasi.fdDatasync; shaped; done)
    | (unfold Wasi.fdFdstatGet; shaped; done)
    | (unfold Wasi.fdFilestatGet; shaped; exact Shaped.putStat _ _ _)
    | (unfold Wasi.fdFilestatSetSize; shaped; done) | (unfold Wasi.fdFilestatSetTimes; shaped; done)
    | (unfold Wasi.fdPread; shaped; exact Shaped.readLoop (fun _ _ => Shaped.sys _ _) _ _ _)
    | (unfold Wasi.fdPrestatDirName; shaped; done) | (unfold Wasi.fdPrestatGet; shaped; done)
    | (unfold Wasi.fdPwrite; shaped; exact Shaped.gather _ _ _)
    | (unfold Wasi.fdRead; shaped; exact Shaped.readLoop (fun _ _ => by shaped) _ _ _)
    | (unfold Wasi.fdReaddir; shaped; exact Shaped.readdirLoop _ _ _ _ _ _)
    | (unfold Wasi.fdSeek; shaped; done) | (unfold Wasi.fdSync; shaped; done) | (unfold Wasi.fdTell; shaped; done)
    | (unfold Wasi.fdWrite; shaped; exact Shaped.gather _ _ _)
    | (unfold Wasi.pathCreateDirectory; shaped; done)
    | (unfold Wasi.pathFilestatGet; shaped; exact Shaped.putStat _ _ _)
    | (unfold Wasi.pathFilestatSetTimes; shaped; done)
    | (unfold Wasi.pathLink; shaped; done) | (unfold Wasi.pathReadlink; shaped; done)
    | (unfold Wasi.pathRemoveDirectory; shaped; done) | (unfold Wasi.pathRename; shaped; done)
    | (unfold Wasi.pathSymlink; shaped; done) | (unfold Wasi.pathUnlinkFile; shaped; done)
    | (unfold Wasi.pollOneoff; shaped
       all_goals first | exact Shaped.readSubs _ _ _ | exact Shaped.hostFds _ | exact Shaped.putClocks _ _ _ _
                       | exact Shaped.putFds _ _ _ _ _)
    | (unfold Wasi.procExit; shaped; done) | (unfold Wasi.procRaise; shaped; done) | (unfold Wasi.randomGet; shaped; done)
    | (unfold Wasi.schedYield; shaped; done) | (unfold Wasi.sockAccept; shaped; done)
    | (unfold Wasi.sockRecv; shaped
       all_goals first | exact Shaped.iovsSize _ _ | exact Shaped.scatter _ _ _)
    | (unfold Wasi.sockSend; shaped; exact Shaped.gather _ _ _)
    | (unfold Wasi.sockShutdown; shaped; done)

end Pywasm.Wasi
