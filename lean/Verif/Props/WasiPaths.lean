import Verif.Lemmas.WasiPath
import Verif.Lemmas.WasiLive
import Verif.Spec.WasiDemo
import Verif.Spec.Returns
import Verif.Spec.WasiNamed

/-!
# WASI: paths

C42: paths cannot escape the preopened directory.
-/

namespace Pywasm.Props
open Wasi WasiSpec

/-- C42, in part: a call with a path is given a name whose lexical target is neither inside the directory nor in
something beside it whose name begins with the directory's name.  Then the call does not succeed and changes nothing;
in particular the host is not called.

"The directory" is the host's directory for `path_open` and the guest's name of it for all other calls (`rootOf`); the
directory must be an absolute path other than `/`.  What is missing, and false: something beside the directory whose
name is longer is not refused (`wasi_beside_refuted`); for the calls that look at the guest's name a name can stay inside
it and yet leave the host's directory (`wasi_guest_name_refuted`), and nothing leaves a guest directory called `/`
(`wasi_guest_root_refuted`). -/
theorem wasi_escape_partial (os : Os) (c : Call) (s : St) (fd : Int) (p n : Nat) (hc : (fd, (p : Int), (n : Int)) ∈ paths c)
    (f : File) (hf : openFile s fd = some f) (dir : List Str) (hd : dir ≠ []) (he : ∀ x ∈ dir, IsEntry x)
    (hr : rootOf c f = absPath dir) (name : Str) (hm : InMem s p n)
    (hn : Spec.range (bytes s) p n = Py.encodeUtf8 name) (hi : ¬Inside dir name) (hb : ¬Beside dir name) :
    after (c.run os) s = s ∧ ∀ s', c.run os s ≠ .ok 0 s' := by
  have hesc : helpEscp (rootOf c f) name = true := by
    cases h : helpEscp (rootOf c f) name with
    | true => rfl
    | false =>
      rw [hr] at h
      rcases helpEscp_cases hd he h with h | h
      · exact absurd h hi
      · exact absurd h hb
  have hget := getName_run hm hn
  have hfile := file_open hf
  have key : Stops (c.run os) s := by
    cases c <;> simp only [paths, List.mem_cons, List.not_mem_nil, or_false, Prod.mk.injEq] at hc
    all_goals
      try refine Or.elim hc (fun hc => ?_) (fun hc => ?_)
    all_goals
      obtain ⟨rfl, rfl, rfl⟩ := hc
    all_goals
      simp only [Call.run, rootOf] at hesc ⊢
      first
        | unfold pathCreateDirectory | unfold pathFilestatGet | unfold pathFilestatSetTimes | unfold pathLink
        | unfold pathOpen | unfold pathReadlink | unfold pathRemoveDirectory | unfold pathRename | unfold pathSymlink
        | unfold pathUnlinkFile
      repeat
        first
          | exact .ite (fun _ => .pure (by decide) s) fun h => absurd hesc h
          | refine .ite (fun _ => .pure (by decide) s) fun _ => ?_
          | refine .bind (helpBadf_read _) fun b hb => ?_
          | refine .bind (helpPerm_read _ _) fun b hb => ?_
          | refine .bind .mems fun m hm => ?_
          | (refine .bind (file_read _) fun g hg => ?_
             try
               rw [hfile] at hg
               injection hg with hg
               subst hg)
          | (refine .bind (getName_read _ _) fun nm hnm => ?_
             try
               rw [hget] at hnm
               injection hnm with hnm
               subst hnm)
  exact ⟨key.1, key.2⟩

theorem unlink_run (os : Os) (s : St) (fd : Int) (p n : Nat)
    (f : File) (hf : openFile s fd = some f) (hp : has f.base 26 = true) (name : Str) (hm : InMem s p n)
    (hn : Spec.range (bytes s) p n = Py.encodeUtf8 name) (hesc : helpEscp f.wasmName name = false)
    (ho : os.run s.log (.unlink name f.hostFd) = .ok ()) :
    Call.run os (.pathUnlinkFile fd p n) s = .ok 0 { s with log := s.log ++ [⟨.unlink name f.hostFd, .ok ()⟩] } := by
  obtain ⟨m, hmm, -, -⟩ := hm.some
  simp only [Call.run]
  unfold pathUnlinkFile
  rw [gate_open hf, if_neg Bool.false_ne_true, gate_perm hf, decide_eq_false, if_neg Bool.false_ne_true,
    bind_ok (mems_run hmm), bind_ok (file_open hf), bind_ok (getName_run hm hn), hesc, if_neg Bool.false_ne_true]
  · have : attempt os (.unlink name f.hostFd) s = .ok (.ok ()) { s with log := s.log ++ [⟨.unlink name f.hostFd, .ok ()⟩] } := by
      unfold attempt; rw [ho]
    rw [bind_ok this]; rfl
  · intro h
    rw [(and_pow_eq_zero _ _).mp h] at hp; cases hp

/-- C42: conversely, a relative name that stays inside is not refused on account of the path: `path_unlink_file` asks the
host to remove it, in the directory behind the descriptor. -/
theorem wasi_inside_unlink (os : Os) (s : St) (fd : Int) (p n : Nat)
    (f : File) (hf : openFile s fd = some f) (hp : has f.base 26 = true) (dir : List Str) (hd : dir ≠ [])
    (he : ∀ x ∈ dir, IsEntry x) (hr : f.wasmName = absPath dir) (name : Str) (hm : InMem s p n)
    (hn : Spec.range (bytes s) p n = Py.encodeUtf8 name) (hrel : name.head? ≠ some '/') (hi : Inside dir name)
    (ho : os.run s.log (.unlink name f.hostFd) = .ok ()) :
    Call.run os (.pathUnlinkFile fd p n) s = .ok 0 { s with log := s.log ++ [⟨.unlink name f.hostFd, .ok ()⟩] } :=
  unlink_run os s fd p n f hf hp name hm hn (by rw [hr]; exact helpEscp_inside hd he hrel hi) ho

/-- C42 for `path_open`, in every history: if every preopened host directory is an absolute path other than `/`, then
whatever the guest does, a successful `path_open` opened a name whose lexical target, from the host directory behind the
descriptor, is inside that directory or in something beside it with a longer name; and the path of the target begins,
as a string, like the path of a preopened directory.

Missing, and false: that it is always inside (`wasi_beside_refuted`). -/
theorem wasi_open_confined_partial (os : Os) (args : List Str) (dirs envs : List (Str × Str)) (sfds : Int × Int × Int)
    (names : Str × Str × Str) (hd : ∀ p ∈ dirs, GoodDir p.2) (s s' : St)
    (hr : Reach os (init os args dirs envs sfds names).2 s) (a0 a1 a2 a3 a4 a5 a6 a7 a8 : Int)
    (h : Call.run os (.pathOpen a0 a1 a2 a3 a4 a5 a6 a7 a8) s = .ok 0 s') :
    ∃ (f : File) (dir : List Str) (name : Str) (flags host : Int),
      openFile s a0 = some f ∧ f.hostName = absPath dir ∧
      (⟨.open name flags 0o644 (some f.hostFd), .ok host⟩ : Event) ∈ s'.log ∧
      (Inside dir name ∨ Beside dir name) ∧ ∃ p ∈ dirs, absPath (target [] p.2) <+: absPath (target dir name) := by
  have hroot := (Rooted.init (os := os) args dirs envs sfds names hd).reach hr
  obtain ⟨o⟩ := pathOpen_ok h
  obtain ⟨n, -, h6, -⟩ := openFile_nat o.open0
  have h13 : has o.dir.base 13 = true := by
    cases hh : has o.dir.base 13 with
    | true => rfl
    | false => exact absurd ((and_pow_eq_zero _ 13).mpr hh) o.perm
  obtain ⟨cs, hne, hent, hname, r, hr, hpre⟩ := hroot.all o.dir (List.mem_of_getElem? h6) h13
  have hin := o.inside
  rw [hname] at hin
  obtain ⟨p, hp, rfl⟩ := List.mem_map.mp hr
  refine ⟨o.dir, cs, o.name, openFlags os.c a1 a4 a5 a7, o.host, o.open0, hname, ?_, helpEscp_cases hne hent hin, p, hp, hpre.trans (helpEscp_prefix hne hent hin).2⟩
  have hq := (Calm.putU 4 a8 s.fd.length).run o.mid
  unfold after at hq
  rw [o.store] at hq
  obtain ⟨t, ht, -⟩ := hq.log
  rw [ht, o.log]
  simp

/-- The guest writes `name` to its memory at address 32. -/
def withName (s : St) (name : Str) : St := write s 32 (Py.encodeUtf8 name)

theorem withName_reach (kind : Kind) (name : Str) : Reach (demoOs kind) (demoInit kind) (withName (demoSt kind) name) :=
  .step (.step (.refl _) (.guest _ (some (zeroMem 256)))) (.guest _ _)

/-- C42 fails for a sibling directory: the guest, given `/srv`, opens `../srv2`. -/
theorem wasi_beside_refuted :
    ∃ (os : Os) (s0 s : St) (f : File) (name : Str),
      s0 = (init os [['a'], ['b', 'c']] [(['/'], "/srv".toList)] [(['k'], ['v'])] (0, 1, 2) (['i'], ['o'], ['e'])).2 ∧
      Reach os s0 s ∧ openFile s 3 = some f ∧ f.hostName = absPath ["srv".toList] ∧
      Spec.range (bytes s) 32 7 = Py.encodeUtf8 name ∧ ¬Inside ["srv".toList] name ∧
      ∃ s', Call.run os (.pathOpen 3 0 32 7 0 2 0 0 16) s = .ok 0 s' := by
  refine ⟨demoOs .reg, _, withName (demoSt .reg) "../srv2".toList,
    ⟨3, 0o200000, "/srv".toList, true, none, 3, 0, ['/'], 0b00000111101111111111111000000000,
      0b00001111111111111111111111111111, true, 3⟩,
    "../srv2".toList, rfl, withName_reach _ _, by decide +kernel, by decide +kernel, by decide +kernel, ?_, _,
    of_returns (by decide +kernel)⟩
  unfold Inside; decide +kernel

/-- C42 fails when the guest's name of the directory is `/`: the guest, given `/srv` as `/`, removes `../x`. -/
theorem wasi_guest_root_refuted :
    ∃ (os : Os) (s0 s : St) (f : File) (name : Str),
      s0 = (init os [['a'], ['b', 'c']] [(['/'], "/srv".toList)] [(['k'], ['v'])] (0, 1, 2) (['i'], ['o'], ['e'])).2 ∧
      Reach os s0 s ∧ openFile s 3 = some f ∧ f.hostName = absPath ["srv".toList] ∧
      Spec.range (bytes s) 32 4 = Py.encodeUtf8 name ∧ ¬Inside ["srv".toList] name ∧ ¬Beside ["srv".toList] name ∧
      Call.run os (.pathUnlinkFile 3 32 4) s = .ok 0 { s with log := s.log ++ [⟨.unlink name f.hostFd, .ok ()⟩] } := by
  refine ⟨demoOs .reg, _, withName (demoSt .reg) "../x".toList,
    ⟨3, 0o200000, "/srv".toList, true, none, 3, 0, ['/'], 0b00000111101111111111111000000000,
      0b00001111111111111111111111111111, true, 3⟩,
    "../x".toList, rfl, withName_reach _ _, by decide +kernel, by decide +kernel, by decide +kernel, ?_, ?_, ?_⟩
  · unfold Inside; decide +kernel
  · rintro ⟨up, last, more, rest, h1, -, h2⟩
    have h3 : target ["srv".toList] "../x".toList = [['x']] := by decide +kernel
    rw [h3] at h2
    cases up with
    | nil =>
      injection h1 with h1 _
      injection h2 with h2 _
      rw [← h1] at h2
      exact absurd (congrArg List.length h2) (by simp)
    | cons u up => exact absurd (congrArg List.length h1) (by simp)
  · exact unlink_run _ _ 3 32 4 _ (by decide +kernel) (by decide +kernel) _
      ⟨by simp [withName, write, demoSt], by decide +kernel⟩ (by decide +kernel) (by decide +kernel) rfl

/-- C42 fails when the guest's name of the directory is not the host's: the guest, given `/srv` as `/data`, removes
`../data/x`. -/
theorem wasi_guest_name_refuted :
    ∃ (os : Os) (s0 s : St) (f : File) (name : Str),
      s0 = (init os [] [("/data".toList, "/srv".toList)] [] (0, 1, 2) (['i'], ['o'], ['e'])).2 ∧
      Reach os s0 s ∧ openFile s 3 = some f ∧ f.hostName = absPath ["srv".toList] ∧
      Spec.range (bytes s) 32 9 = Py.encodeUtf8 name ∧ ¬Inside ["srv".toList] name ∧
      Call.run os (.pathUnlinkFile 3 32 9) s = .ok 0 { s with log := s.log ++ [⟨.unlink name f.hostFd, .ok ()⟩] } := by
  refine ⟨demoOs .reg, _, withName { (init (demoOs .reg) [] [("/data".toList, "/srv".toList)] [] (0, 1, 2)
      (['i'], ['o'], ['e'])).2 with mem := some (zeroMem 256) } "../data/x".toList,
    ⟨3, 0o200000, "/srv".toList, true, none, 3, 0, "/data".toList, 0b00000111101111111111111000000000,
      0b00001111111111111111111111111111, true, 3⟩,
    "../data/x".toList, rfl, .step (.step (.refl _) (.guest _ (some (zeroMem 256)))) (.guest _ _), by decide +kernel,
    by decide +kernel, by decide +kernel, ?_, ?_⟩
  · unfold Inside; decide +kernel
  · exact unlink_run _ _ 3 32 9 _ (by decide +kernel) (by decide +kernel) _
      ⟨by simp [withName, write], by decide +kernel⟩ (by decide +kernel) (by decide +kernel) rfl

-- Names inside, outside and beside `/srv/www`.
example : target ["srv".toList, "www".toList] "a/./../b//c".toList = ["srv", "www", "b", "c"].map String.toList := by decide
example : ¬Inside ["srv".toList, "www".toList] "a/../../x".toList := by unfold Inside; decide
example : Beside ["srv".toList, "www".toList] "../www2/x".toList :=
  ⟨["srv".toList], "www".toList, ['2'], [['x']], rfl, by decide, by decide⟩
example : ¬Beside ["srv".toList, "www".toList] "../x".toList := by
  rintro ⟨up, last, more, rest, h1, -, h2⟩
  have h3 : target ["srv".toList, "www".toList] "../x".toList = [['s', 'r', 'v'], ['x']] := by decide
  rw [h3] at h2
  obtain ⟨h1a, h1b⟩ := List.append_inj' (s₁ := [['s', 'r', 'v']]) (t₁ := [['w', 'w', 'w']]) h1 rfl
  subst h1a
  injection h1b with h1b
  subst h1b
  injection h2 with _ h2
  injection h2 with h2
  cases h2

-- `path_open` and `path_unlink_file` of `../x` on a directory the guest calls `/data`: PERM, and the host is not called.
example : (results (demoOs .reg) [.pathOpen 3 0 32 4 0 2 0 0 16, .pathUnlinkFile 3 32 4] (withName { (init (demoOs .reg) []
    [("/data".toList, "/srv".toList)] [] (0, 1, 2) (['i'], ['o'], ['e'])).2 with mem := some (zeroMem 256) }
    "../x".toList)).1 = [some 63, some 63] := by decide +kernel
example : GoodDir "/srv/../srv//www".toList := ⟨by decide, by decide, by decide⟩
example : IsEntry "srv".toList := ⟨by decide, by decide, by decide, by decide⟩

/-! ## The hypotheses are met -/

/-- Opening `../x` under `/srv`. -/
example := wasi_escape_partial (demoOs .reg) (.pathOpen 3 0 32 4 0 2 0 0 16) (withName (demoSt .reg) "../x".toList) 3 32 4 (by simp [paths])
  _ (fileAt_eq (withName (demoSt .reg) "../x".toList) 3) ["srv".toList] (by simp)
  (by intro x hx; simp only [List.mem_singleton] at hx; subst hx; exact ⟨by decide, by decide, by decide, by decide⟩)
  (by decide +kernel) "../x".toList (inMem _ _ _) (by decide +kernel) (by unfold Inside; decide) (by
    rintro ⟨up, last, more, rest, h1, h2, h3⟩
    have h4 : target ["srv".toList] "../x".toList = [['x']] := by decide
    rw [h4] at h3
    rcases up with _ | ⟨u, up⟩
    · simp only [List.nil_append, List.cons.injEq] at h1 h3
      rw [← h1.1] at h3
      exact absurd h3.1 (by simp)
    · simp at h1)
/-- Removing `x` in the directory the guest sees as `/data`. -/
def dataSt : St := withName { (init (demoOs .reg) [] [("/data".toList, "/srv".toList)] [] (0, 1, 2) (['i'], ['o'], ['e'])).2 with
  mem := some (zeroMem 256) } "a/../x".toList
example := wasi_inside_unlink (demoOs .reg) dataSt 3 32 6 _ (fileAt_eq dataSt 3) (by decide +kernel) ["data".toList] (by simp)
  (by intro x hx; simp only [List.mem_singleton] at hx; subst hx; exact ⟨by decide, by decide, by decide, by decide⟩)
  (by decide +kernel) "a/../x".toList (inMem _ _ _) (by decide +kernel) (by decide) (by unfold Inside; decide) rfl
example := wasi_open_confined_partial (demoOs .reg) [['a'], ['b', 'c']] [(['/'], "/srv".toList)] [(['k'], ['v'])] (0, 1, 2) (['i'], ['o'], ['e'])
  (by intro p hp; simp only [List.mem_singleton] at hp; subst hp; exact ⟨by decide, by decide, by decide⟩)
  (withName (demoSt .reg) "d/x".toList) _ (withName_reach .reg _) 3 0 32 3 0 2 0 0 16 (of_returns (by decide +kernel))

end Pywasm.Props
