import Verif.Lemmas.WasiLive
import Verif.Lemmas.WasiOpen

/-!
# The configuration of a WASI instance never changes
-/

namespace Pywasm.Wasi
open WasiSpec

/-- The same arguments, number of preopened directories, variables and exit mode. -/
structure SameConfig (s s' : St) : Prop where
  args : s'.args = s.args
  ndirs : s'.ndirs = s.ndirs
  envs : s'.envs = s.envs
  exit : s'.returnOnExit = s.returnOnExit

theorem SameConfig.refl (s : St) : SameConfig s s := ⟨rfl, rfl, rfl, rfl⟩
theorem SameConfig.trans {a b c : St} (h : SameConfig a b) (k : SameConfig b c) : SameConfig a c :=
  ⟨k.args.trans h.args, k.ndirs.trans h.ndirs, k.envs.trans h.envs, k.exit.trans h.exit⟩
theorem Quiet.config {s s' : St} (h : Quiet s s') : SameConfig s s' := ⟨h.args, h.ndirs, h.envs, h.exit⟩

theorem SameConfig.change {os : Os} {c : Call} {s s' : St} (h : Change os c s s') : SameConfig s s' := by
  cases h with
  | quiet h => exact h.config
  | edit n f f' h ho hf hr hq => exact ⟨hq.args, hq.ndirs, hq.envs, hq.exit⟩
  | drop => exact ⟨rfl, rfl, rfl, rfl⟩
  | dropErr => exact ⟨rfl, rfl, rfl, rfl⟩
  | dropChr => exact ⟨rfl, rfl, rfl, rfl⟩
  | move => exact ⟨rfl, rfl, rfl, rfl⟩
  | moveChr => exact ⟨rfl, rfl, rfl, rfl⟩
  | openErr => exact ⟨rfl, rfl, rfl, rfl⟩
  | openLeak name fl mo d h hos hq _ => exact ⟨hq.args, hq.ndirs, hq.envs, hq.exit⟩
  | opened name fl mo d h new hos hq hh ho hw hp hn ht hd hq' =>
    exact (⟨hq.args, hq.ndirs, hq.envs, hq.exit⟩ : SameConfig s _).trans
      ⟨hq'.args, hq'.ndirs, hq'.envs, hq'.exit⟩

theorem SameConfig.reach {os : Os} {s s' : St} (r : Reach os s s') : SameConfig s s' := by
  induction r with
  | refl => exact .refl _
  | step _ h ih =>
    refine ih.trans ?_
    cases h with
    | call c => exact .change (change_call os c _)
    | guest => exact ⟨rfl, rfl, rfl, rfl⟩
    | pipe => exact ⟨rfl, rfl, rfl, rfl⟩

theorem preopen_ok {os : Os} {k v : Str} {s s' : St} {a : Unit} (h : preopen os k v s = .ok a s') :
    SameConfig s s' ∧ ∃ f : File, s'.fd = s.fd ++ [f] ∧ f.wasmName = Py.normpath k ∧ f.wasmOpen = true ∧ f.hostOpen = true ∧
      f.wasmType = FILETYPE_DIRECTORY ∧ f.wasmFd = s.fd.length := by
  unfold preopen at h
  obtain ⟨cwd, s1, h1, h⟩ := bind_inv h
  obtain ⟨x, s2, h2, h⟩ := bind_inv h
  obtain ⟨t, s3, h3, h⟩ := bind_inv h
  obtain ⟨-, rfl⟩ := sys_inv h1
  obtain ⟨-, rfl⟩ := sys_inv h2
  have e3 : t = s3 := by
    injection h3 with h3 h3'; exact h3.symm.trans h3'
  injection h3 with _ h3
  subst h3
  injection h with _ h
  subst h
  exact ⟨⟨rfl, rfl, rfl, rfl⟩, _, rfl, rfl, rfl, rfl, rfl, by rw [e3]; rfl⟩

theorem preopen_config (os : Os) (k v : Str) (s : St) : SameConfig s (after (preopen os k v) s) := by
  unfold preopen
  rw [after_bind, sys_run]
  cases h1 : os.run s.log .getcwd with
  | error e => exact ⟨rfl, rfl, rfl, rfl⟩
  | ok cwd =>
    simp only
    have h' : SameConfig s (s.event .getcwd (.ok cwd)) := ⟨rfl, rfl, rfl, rfl⟩
    refine h'.trans ?_
    generalize s.event .getcwd (.ok cwd) = t at h' ⊢
    rw [after_bind, sys_run]
    cases os.run t.log (.open (Py.abspath cwd (Py.normpath v)) (Py.or os.c.oRdonly os.c.oDirectory) 0o777 none) with
    | error e => exact ⟨rfl, rfl, rfl, rfl⟩
    | ok x => exact ⟨rfl, rfl, rfl, rfl⟩

theorem preopens_config (os : Os) (l : List (Str × Str)) (s : St) : SameConfig s (after (preopens os l) s) := by
  induction l generalizing s with
  | nil => exact .refl s
  | cons p l ih =>
    obtain ⟨k, v⟩ := p
    unfold preopens
    rw [after_bind]
    have := preopen_config os k v s
    unfold after at this
    cases hr : preopen os k v s with
    | ok a s' => rw [hr] at this; exact this.trans (ih s')
    | error e s' => rw [hr] at this; exact this

theorem preopens_ok {os : Os} {l : List (Str × Str)} {s s' : St} {a : Unit} (h : preopens os l s = .ok a s') :
    ∃ new : List File, s'.fd = s.fd ++ new ∧ new.map (·.wasmName) = l.map (fun p => Py.normpath p.1) ∧
      (∀ f ∈ new, f.wasmOpen = true ∧ f.wasmType = FILETYPE_DIRECTORY) ∧
      ∀ i f, new[i]? = some f → f.wasmFd = s.fd.length + i := by
  induction l generalizing s with
  | nil =>
    injection h with _ h
    subst h
    exact ⟨[], by simp, rfl, by simp, by simp⟩
  | cons p l ih =>
    obtain ⟨k, v⟩ := p
    unfold preopens at h
    obtain ⟨_, s1, h1, h⟩ := bind_inv h
    obtain ⟨-, f, e1, e2, e3, e4, e5, e6⟩ := preopen_ok h1
    obtain ⟨new, i1, i2, i3, i4⟩ := ih h
    refine ⟨f :: new, by rw [i1, e1, List.append_assoc]; rfl, by simp [e2, i2], ?_, ?_⟩
    · intro g hg
      rcases List.mem_cons.mp hg with rfl | hg
      · exact ⟨e3, e5⟩
      · exact i3 g hg
    · intro i g hg
      cases i with
      | zero => 
        rw [List.getElem?_cons_zero] at hg
        injection hg with hg
        subst hg
        simpa using e6
      | succ i =>
        rw [List.getElem?_cons_succ] at hg
        have := i4 i g hg
        rw [e1, List.length_append, List.length_singleton] at this
        rw [this]; omega

theorem init_config (os : Os) (args : List Str) (dirs envs : List (Str × Str)) (fds : Int × Int × Int)
    (names : Str × Str × Str) : (init os args dirs envs fds names).2.args = args ∧
      (init os args dirs envs fds names).2.ndirs = (normDirs dirs).length ∧
      (init os args dirs envs fds names).2.envs = (sortPairs envs).map fun p => Py.joinEq p.1 p.2 := by
  have := preopens_config os (sortPairs (normDirs dirs))
    { args, ndirs := (normDirs dirs).length, envs := (sortPairs envs).map fun p => Py.joinEq p.1 p.2,
      fd := stdio fds names, mem := none, log := [] }
  unfold Wasi.init
  unfold after at this
  simp only
  split
  · rename_i hr; rw [hr] at this; exact ⟨this.args, this.ndirs, this.envs⟩
  · rename_i hr; rw [hr] at this; exact ⟨this.args, this.ndirs, this.envs⟩

theorem keys_normDirs (dirs : List (Str × Str)) (k : Str) :
    k ∈ (normDirs dirs).map Prod.fst ↔ ∃ p ∈ dirs, k = Py.normpath p.1 := by
  have key : ∀ (l acc : List (Str × Str)),
      k ∈ (l.foldl (fun l p => dictSet l (Py.normpath p.1) (Py.normpath p.2)) acc).map Prod.fst ↔
        k ∈ acc.map Prod.fst ∨ ∃ p ∈ l, k = Py.normpath p.1 := by
    intro l
    induction l with
    | nil => intro acc; simp
    | cons p l ih =>
      intro acc
      rw [List.foldl_cons, ih]
      have : k ∈ (dictSet acc (Py.normpath p.1) (Py.normpath p.2)).map Prod.fst ↔
          k ∈ acc.map Prod.fst ∨ k = Py.normpath p.1 := by
        unfold dictSet
        split
        · next hany =>
          have e : (acc.map fun q => if q.1 = Py.normpath p.1 then (Py.normpath p.1, Py.normpath p.2) else q).map Prod.fst =
              acc.map Prod.fst := by
            rw [List.map_map]
            apply List.map_congr_left
            intro q _
            simp only [Function.comp]
            split
            · next h => exact h.symm
            · rfl
          rw [e]
          constructor
          · exact .inl
          · rintro (h | rfl)
            · exact h
            · obtain ⟨q, hq, hq'⟩ := List.any_eq_true.mp hany
              exact List.mem_map.mpr ⟨q, hq, of_decide_eq_true hq'⟩
        · simp
      rw [this]
      simp only [List.mem_cons, exists_eq_or_imp, or_assoc]
  have := key dirs []
  simpa [normDirs] using this

end Pywasm.Wasi
