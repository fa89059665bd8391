import Verif.Spec.Wasi
import Verif.Lemmas.Mem

/-!
# Running WASI code
-/

namespace Pywasm.Wasi
open WasiSpec

theorem bind_run {α β} (x : W α) (f : α → W β) (s : St) :
    (x >>= f) s = match x s with
      | .ok a s' => f a s'
      | .error e s' => .error e s' := by
  show EStateM.bind x f s = _
  unfold EStateM.bind
  cases x s <;> rfl
theorem bind_ok {α β} {x : W α} {f : α → W β} {s a s'} (h : x s = .ok a s') : (x >>= f) s = f a s' := by
  rw [bind_run, h]
theorem bind_err {α β} {x : W α} {f : α → W β} {s e s'} (h : x s = .error e s') : (x >>= f) s = .error e s' := by
  rw [bind_run, h]
theorem pure_run {α} (a : α) (s : St) : (pure a : W α) s = .ok a s := rfl
theorem throw_run {α} (e : Err) (s : St) : (throw e : W α) s = .error e s := rfl
theorem get_run (s : St) : (get : W St) s = .ok s s := rfl
theorem modify_run (f : St → St) (s : St) : (modify f : W Unit) s = .ok () (f s) := rfl
theorem lift_ok {α} (a : α) (s : St) : lift (.ok a) s = .ok a s := rfl
theorem lift_err {α} (e : Err) (s : St) : (lift (.error e) : W α) s = .error e s := rfl
theorem bind_pure {α β} (a : α) (f : α → W β) (s : St) : ((pure a : W α) >>= f) s = f a s := rfl
theorem bind_get {β} (f : St → W β) (s : St) : ((get : W St) >>= f) s = f s s := rfl

/-! ## What a descriptor denotes -/

theorem openFile_nat {s : St} {fd : Int} {f : File} (h : openFile s fd = some f) :
    ∃ n : Nat, fd = n ∧ s.fd[n]? = some f ∧ f.wasmOpen = true := by
  unfold openFile at h
  split at h
  · cases h
  · refine ⟨fd.toNat, by omega, ?_⟩
    simpa [Option.filter_eq_some_iff] using h

theorem openFile_of {s : St} {n : Nat} {f : File} (h : s.fd[n]? = some f) (ho : f.wasmOpen = true) :
    openFile s n = some f := by
  unfold openFile
  rw [if_neg (by omega)]
  simp [h, ho]

theorem file_nat {s : St} {n : Nat} {f : File} (h : s.fd[n]? = some f) : file n s = .ok f s := by
  unfold file
  rw [bind_get, Py.getItem_some h]; rfl

theorem file_open {s : St} {fd : Int} {f : File} (h : openFile s fd = some f) : file fd s = .ok f s := by
  obtain ⟨n, rfl, hn, -⟩ := openFile_nat h
  exact file_nat hn

theorem helpBadf_run (s : St) (fd : Int) : helpBadf fd s = .ok (openFile s fd).isNone s := by
  unfold helpBadf openFile
  by_cases h0 : fd < 0
  · simp [h0, pure_run]
  · rw [if_neg h0, if_neg h0, bind_get]
    by_cases h1 : (s.fd.length : Int) ≤ fd
    · rw [if_pos h1, pure_run]
      rw [List.getElem?_eq_none (by omega)]; rfl
    · rw [if_neg h1]
      obtain ⟨n, rfl⟩ : ∃ n : Nat, fd = n := ⟨fd.toNat, by omega⟩
      have hn : n < s.fd.length := by omega
      have he := List.getElem?_eq_getElem hn
      rw [bind_ok (file_nat he), pure_run]
      simp only [Int.toNat_natCast, he, Option.filter]
      by_cases hw : (s.fd[n]).wasmOpen = true <;> simp [hw]

theorem helpPerm_run {s : St} {fd : Int} {f : File} (h : openFile s fd = some f) (p : Int) :
    helpPerm fd p s = .ok (decide (Py.and f.base p = 0)) s := by
  unfold helpPerm; rw [bind_ok (file_open h)]; rfl
theorem helpIdir_run {s : St} {fd : Int} {f : File} (h : openFile s fd = some f) :
    helpIdir fd s = .ok (decide (f.wasmType = FILETYPE_DIRECTORY)) s := by
  unfold helpIdir; rw [bind_ok (file_open h)]; rfl
theorem helpSock_run {s : St} {fd : Int} {f : File} (h : openFile s fd = some f) :
    helpSock fd s = .ok (decide (f.wasmType ≠ FILETYPE_SOCKET_DGRAM ∧ f.wasmType ≠ FILETYPE_SOCKET_STREAM)) s := by
  unfold helpSock; rw [bind_ok (file_open h)]; rfl

/-- The first check of every call that takes a descriptor. -/
theorem gate_bad {s : St} {fd : Int} (h : openFile s fd = none) (f : Bool → W Int)
    (hf : f true = pure ERRNO_BADF) : (helpBadf fd >>= f) s = .ok ERRNO_BADF s := by
  rw [bind_ok (helpBadf_run s fd), h]
  simp [hf, pure_run]
theorem gate_open {s : St} {fd : Int} {x : File} (h : openFile s fd = some x) (f : Bool → W Int) :
    (helpBadf fd >>= f) s = f false s := by
  rw [bind_ok (helpBadf_run s fd), h]; rfl
theorem gate_perm {s : St} {fd : Int} {x : File} (h : openFile s fd = some x) (p : Int) (f : Bool → W Int) :
    (helpPerm fd p >>= f) s = f (decide (Py.and x.base p = 0)) s := by
  rw [bind_ok (helpPerm_run h p)]
theorem gate_idir {s : St} {fd : Int} {x : File} (h : openFile s fd = some x) (f : Bool → W Int) :
    (helpIdir fd >>= f) s = f (decide (x.wasmType = FILETYPE_DIRECTORY)) s := by
  rw [bind_ok (helpIdir_run h)]
theorem gate_sock {s : St} {fd : Int} {x : File} (h : openFile s fd = some x) (f : Bool → W Int) :
    (helpSock fd >>= f) s =
      f (decide (x.wasmType ≠ FILETYPE_SOCKET_DGRAM ∧ x.wasmType ≠ FILETYPE_SOCKET_STREAM)) s := by
  rw [bind_ok (helpSock_run h)]

/-- A call on a descriptor that is not open fails with BADF and has no effect. -/
theorem bad_fd (os : Os) (c : Call) (s : St) (h : ∃ fd ∈ fds c, openFile s fd = none) :
    c.run os s = .ok ERRNO_BADF s := by
  obtain ⟨fd, hm, hn⟩ := h
  have key : ∀ fd, helpBadf fd s = .ok (openFile s fd).isNone s := helpBadf_run s
  cases c
  case fdRenumber a b =>
    simp only [fds, List.mem_cons, List.not_mem_nil, or_false] at hm
    simp only [Call.run, fdRenumber]
    rw [bind_ok (key a)]
    rcases hm with rfl | rfl
    · simp [hn, pure_run]
    · cases ha : openFile s a
      · simp [pure_run]
      · simp only [Option.isNone_some, Bool.false_eq_true, if_false]
        rw [bind_ok (key _), hn]; simp [pure_run]
  case pathLink a _ _ _ b _ _ =>
    simp only [fds, List.mem_cons, List.not_mem_nil, or_false] at hm
    simp only [Call.run, pathLink]
    rw [bind_ok (key a)]
    rcases hm with rfl | rfl
    · simp [hn, pure_run]
    · cases ha : openFile s a
      · simp [pure_run]
      · simp only [Option.isNone_some, Bool.false_eq_true, if_false]
        rw [bind_ok (key _), hn]; simp [pure_run]
  case pathRename a _ _ b _ _ =>
    simp only [fds, List.mem_cons, List.not_mem_nil, or_false] at hm
    simp only [Call.run, pathRename]
    rw [bind_ok (key a)]
    rcases hm with rfl | rfl
    · simp [hn, pure_run]
    · cases ha : openFile s a
      · simp [pure_run]
      · simp only [Option.isNone_some, Bool.false_eq_true, if_false]
        rw [bind_ok (key _), hn]; simp [pure_run]
  all_goals
    simp only [fds, List.mem_cons, List.not_mem_nil, or_false] at hm
  all_goals
    subst hm
    simp only [Call.run, fdAdvise, fdAllocate, fdClose, fdDatasync, fdFdstatGet, fdFdstatSetFlags, fdFdstatSetRights,
      fdFilestatGet, fdFilestatSetSize, fdFilestatSetTimes, fdPread, fdPrestatDirName, fdPrestatGet, fdPwrite, fdRead,
      fdReaddir, fdSeek, fdSync, fdTell, fdWrite, pathCreateDirectory, pathFilestatGet, pathFilestatSetTimes, pathOpen,
      pathReadlink, pathRemoveDirectory, pathSymlink, pathUnlinkFile, sockAccept, sockRecv, sockSend, sockShutdown]
    rw [bind_ok (key _), hn]
    simp [pure_run]

end Pywasm.Wasi
