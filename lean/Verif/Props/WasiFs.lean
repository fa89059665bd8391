import Verif.Lemmas.WasiFs
import Verif.Lemmas.WasiOpen
import Verif.Props.WasiFdstat
import Verif.Spec.WasiNamed

/-!
# WASI: path operations

C71 (a call on paths performs the host operation it names) and C72 (errors of the host reach the guest as the matching
error number).
-/

namespace Pywasm.Props
open Wasi WasiSpec

/-! ## C71 -/

/-- The calls whose only effect is the host operation. -/
def onlyHost : Call → Bool
  | .pathReadlink .. | .pathFilestatGet .. | .pathOpen .. => false
  | _ => true

/-- C71: a well-formed call on paths asks the host for the operation it names, once, and for nothing else.  If the host does
it, the call returns 0 (the calls that bring back data are below); if the host refuses, the call does not return 0.
In both cases nothing else changes. -/
theorem C71_path_operation (os : Os) (s : St) (c : Call) (x : Sys) (h : Asks os.c s c x) :
    (∀ a, os.run s.log x = .ok a → onlyHost c = true → c.run os s = .ok 0 (answered s x (.ok a))) ∧
      ∀ e, os.run s.log x = .error e →
        after (c.run os) s = answered s x (.error e) ∧ ∀ s', c.run os s ≠ .ok 0 s' := by
  constructor
  · intro a ha hc
    rw [asks_run os h, ha]
    cases h <;> first | rfl | cases hc
  · intro e he
    have hr := asks_run os h
    rw [he] at hr
    cases e with
    | os n =>
      have hne : ∀ v, (caught os.plat x).lookup n = some v → v ≠ 0 := by
        intro v hv
        have hm : ∃ k, (k, v) ∈ caught os.plat x := by
          clear hr he h
          generalize caught os.plat x = l at hv
          induction l with
          | nil => cases hv
          | cons p l ih =>
            obtain ⟨k, w⟩ := p
            rw [List.lookup_cons] at hv
            split at hv
            · injection hv with hv; subst hv; exact ⟨_, List.mem_cons_self⟩
            · obtain ⟨k, hk⟩ := ih hv; exact ⟨k, List.mem_cons_of_mem _ hk⟩
        obtain ⟨k, hk⟩ := hm
        have key : ∀ p ∈ caught os.plat x, p.2 ≠ 0 := by
          unfold caught
          split <;> cases os.plat <;> decide
        exact key _ hk
      unfold onErr at hr
      dsimp only at hr
      cases hl : (caught os.plat x).lookup n with
      | none =>
        rw [hl] at hr
        refine ⟨by unfold after; rw [hr]; rfl, fun s' hs => ?_⟩
        rw [hr] at hs
        cases hs
      | some v =>
        rw [hl] at hr
        refine ⟨by unfold after; rw [hr]; rfl, fun s' hs => ?_⟩
        rw [hr] at hs
        injection hs with hs
        exact hne v hl hs
    | _ =>
      refine ⟨by unfold after; rw [hr]; rfl, fun s' hs => ?_⟩
      rw [hr] at hs
      cases hs

/-- What `path_readlink` does for any target, which is not C71: it stores the bytes of the first characters of the target, as
many characters as the buffer has bytes, and the number of these characters. -/
theorem C71_readlink_any (os : Os) (s : St) (fd : Int) (p n q m r : Nat) (x : Sys)
    (h : Asks os.c s (.pathReadlink fd p n q m r) x) (name target : Str) (dir : Int) (hx : x = .readlink name dir)
    (ha : os.run s.log (.readlink name dir) = .ok target) (hl : target.length < 2 ^ 32)
    (hq : InMem s q ((target.take m).flatMap String.utf8EncodeChar).length) (hr : InMem s r 4) :
    (Call.pathReadlink fd p n q m r).run os s = .ok 0 (write (write (answered s (.readlink name dir) (.ok target))
      q ((target.take m).flatMap String.utf8EncodeChar)) r (Spec.bytesLE 4 (min target.length m))) := by
  subst hx
  rw [asks_run os h, ha]
  show rest os s (.pathReadlink fd p n q m r) (.readlink name dir) target _ = _
  have hs : Py.slice target 0 (min (target.length : Int) m) = target.take m := by
    have : ((min target.length m : Nat) : Int) = min (target.length : Int) m := by omega
    rw [← this]
    have := Py.slice_nat target 0 (min target.length m) (by omega)
    rw [Nat.zero_add] at this
    rw [Nat.cast_zero] at this
    rw [this, Spec.range, List.drop_zero, Nat.min_comm, ← List.take_eq_take_min]
  rw [rest_readlink, hs]
  have hq' : InMem (answered s (.readlink name dir) (.ok target)) q (Py.encodeUtf8 (target.take m)).length := hq
  rw [bind_ok (put_run hq'), show (min (target.length : Int) m) = ((min target.length m : Nat) : Int) by omega]
  have hr' : InMem (answered s (.readlink name dir) (.ok target)) r 4 := hr
  rw [bind_ok (putU_run (hr'.write _ _) (by omega))]
  rfl

/-- C71, the target of a link: `path_readlink` stores the bytes of the target, cut to the length `m` of the buffer `q`, and
their number.  This holds for targets in ASCII.

What is missing, and false: for other targets the call counts characters instead of bytes
(`C71_readlink_refuted`). -/
theorem C71_readlink_partial (os : Os) (s : St) (fd : Int) (p n q m r : Nat) (x : Sys)
    (h : Asks os.c s (.pathReadlink fd p n q m r) x) (name target : Str) (dir : Int) (hx : x = .readlink name dir)
    (ha : os.run s.log (.readlink name dir) = .ok target) (ht : Ascii target) (hl : target.length < 2 ^ 32)
    (hq : InMem s q m) (hr : InMem s r 4) :
    (Call.pathReadlink fd p n q m r).run os s = .ok 0 (write (write (answered s (.readlink name dir) (.ok target))
      q ((target.flatMap String.utf8EncodeChar).take m)) r (Spec.bytesLE 4 (min target.length m))) := by
  subst hx
  rw [asks_run os h, ha]
  show rest os s (.pathReadlink fd p n q m r) (.readlink name dir) target _ = _
  have hs : Py.slice target 0 (min (target.length : Int) m) = target.take (min target.length m) := by
    have : ((min target.length m : Nat) : Int) = min (target.length : Int) m := by omega
    rw [← this]
    have := Py.slice_nat target 0 (min target.length m) (by omega)
    rw [Nat.zero_add] at this
    simpa [Spec.range] using this
  have he : (target.flatMap String.utf8EncodeChar).take m = (target.flatMap String.utf8EncodeChar).take (min target.length m) := by
    have : (target.flatMap String.utf8EncodeChar).length = target.length := ascii_length ht
    rw [← this, List.take_eq_take_min, Nat.min_comm]
  have hlen : ((target.flatMap String.utf8EncodeChar).take (min target.length m)).length ≤ m := by
    rw [List.length_take]; omega
  rw [rest_readlink, hs, encode_take ht _ (by omega), ← he]
  rw [← he] at hlen
  have hq' : InMem (answered s (.readlink name dir) (.ok target)) q ((target.flatMap String.utf8EncodeChar).take m).length :=
    ⟨hq.1, by have := hq.2; show _ ≤ (bytes s).length; omega⟩
  rw [bind_ok (put_run hq'), show (min (target.length : Int) m) = ((min target.length m : Nat) : Int) by omega]
  have hr' : InMem (answered s (.readlink name dir) (.ok target)) r 4 := hr
  rw [bind_ok (putU_run (hr'.write _ _) (by omega))]
  rfl

/-- C71, attributes: `path_filestat_get` stores the attributes the host reports for the name. -/
theorem C71_filestat (os : Os) (s : St) (fd fl : Int) (p n q : Nat) (x : Sys)
    (h : Asks os.c s (.pathFilestatGet fd fl p n q) x) (name : Str) (dir f : Int) (hx : x = .statAt name dir f) (i : Stat)
    (ha : os.run s.log (.statAt name dir f) = .ok i) (hi : Fits i) (hq : InMem s q 64) (t : Nat) (ht : fileType i.kind = some t) :
    ∃ s', (Call.pathFilestatGet fd fl p n q).run os s = .ok 0 s' ∧
      StatRecord (answered s (.statAt name dir f) (.ok i)) s' q t i := by
  subst hx
  have htype : helpWasmType i = t := by
    unfold helpWasmType
    cases hk : i.kind <;> rw [hk] at ht <;> first | (injection ht with ht; subst ht; rfl) | cases ht
  have hq' : InMem (answered s (.statAt name dir f) (.ok i)) q 64 := hq
  have ht' : (0 : Int) ≤ t ∧ (t : Int) < 256 := by
    cases hk : i.kind <;> rw [hk] at ht <;> first | (injection ht with ht; subst ht; decide) | cases ht
  obtain ⟨s', h1, h2⟩ := putStat_record hq' ht' hi
  refine ⟨s', ?_, h2⟩
  rw [asks_run os h, ha]
  show rest os s (.pathFilestatGet fd fl p n q) (.statAt name dir f) i _ = _
  rw [rest_stat, htype, bind_ok h1]
  rfl

/-- C71, opening: `path_open` asks the host to open the named file with the flags asked for and, if it does, what kind of file
it is.  The file gets the next free descriptor, whose number is stored at `q`. -/
theorem C71_open (os : Os) (s : St) (fd fl ofl base inh fdfl : Int) (p n q : Nat) (x : Sys)
    (h : Asks os.c s (.pathOpen fd fl p n ofl base inh fdfl q) x) (name : Str) (g m : Int) (dir : Option Int)
    (hx : x = .open name g m dir) (hfd : Int) (d r : Bool) (i : Stat)
    (h1 : os.run s.log (.open name g m dir) = .ok hfd)
    (h2 : os.run (s.log ++ [⟨.open name g m dir, .ok hfd⟩]) (.isdir hfd) = .ok d)
    (h3 : os.run (s.log ++ [⟨.open name g m dir, .ok hfd⟩, ⟨.isdir hfd, .ok d⟩]) (.isfile hfd) = .ok r)
    (h4 : os.run (s.log ++ [⟨.open name g m dir, .ok hfd⟩, ⟨.isdir hfd, .ok d⟩, ⟨.isfile hfd, .ok r⟩]) (.stat hfd) = .ok i)
    (hq : InMem s q 4) (hl : s.fd.length < 2 ^ 32) :
    ∃ f : File, f.hostFd = hfd ∧ f.hostOpen = true ∧ f.wasmOpen = true ∧ f.wasmFlag = fdfl ∧
      (∀ t, fileType i.kind = some t → f.wasmType = t) ∧
      (Call.pathOpen fd fl p n ofl base inh fdfl q).run os s = .ok 0 (write { s with
        fd := s.fd ++ [f]
        log := s.log ++ [⟨.open name g m dir, .ok hfd⟩, ⟨.isdir hfd, .ok d⟩, ⟨.isfile hfd, .ok r⟩, ⟨.stat hfd, .ok i⟩] }
        q (Spec.bytesLE 4 s.fd.length)) := by
  subst hx
  have hrun := asks_run os h
  rw [h1] at hrun
  have hrun' : (Call.pathOpen fd fl p n ofl base inh fdfl q).run os s =
    rest os s (.pathOpen fd fl p n ofl base inh fdfl q) (.open name g m dir) hfd (s.event (.open name g m dir) (.ok hfd)) := hrun
  clear hrun
  cases h with
  | @«open» _ _ _ _ _ _ _ _ _ f _ hf hr ht hn hz =>
    rw [rest_open _ _ _ _ _ _ _ _ _ _ _ _ _ _ _ _ hf] at hrun'
    obtain ⟨b, c, ho⟩ := opened_run (t := s.event (.open name (hostFlags os.c fl ofl base fdfl) 420 (some f.hostFd)) (.ok hfd))
      (g := hostFlags os.c fl ofl base fdfl) (hn := Py.normpath (Py.join f.hostName name))
      (wn := Py.normpath (Py.join f.wasmName name)) (base := base) (inh := inh) (fdfl := fdfl)
      h2 (by simpa [St.event] using h3) (by simpa [St.event] using h4) hq hl
    refine ⟨⟨hfd, hostFlags os.c fl ofl base fdfl, Py.normpath (Py.join f.hostName name), true, none, s.fd.length, fdfl,
      Py.normpath (Py.join f.wasmName name), b, c, true, helpWasmType i⟩, rfl, rfl, rfl, rfl, ?_, hrun'.trans (ho.trans ?_)⟩
    rotate_left 1
    · simp only [St.event, List.append_assoc, List.cons_append, List.nil_append]
    · intro t ht
      show helpWasmType i = t
      unfold helpWasmType
      cases hk : i.kind <;> rw [hk] at ht <;> first | (injection ht with ht; subst ht; rfl) | cases ht

/-- C71, times: `path_filestat_set_times` on a name whose link is to be followed sets the times the flags ask for: the given
time, the current time, or the time the file had.

What is missing, and false: for the link itself, a time that is not to change becomes that of the link's target
(`C71_times_refuted`). -/
theorem C71_times_partial (os : Os) (s : St) (fd lk : Int) (p n : Nat) (f : File) (name : Str) (hf : openFile s fd = some f)
    (hr : has f.base 20 = true) (hn : Names s f.wasmName p n name) (hlk : has lk 0 = true)
    (at_ mt fl now now' : Int) (h01 : ¬(has fl 0 = true ∧ has fl 1 = true)) (h23 : ¬(has fl 2 = true ∧ has fl 3 = true))
    (i : Stat) (h1 : os.run s.log (.statAt name f.hostFd 1) = .ok i)
    (l1 l2 : List Event)
    (hl1 : l1 = s.log ++ [⟨.statAt name f.hostFd 1, .ok i⟩] ++ (if has fl 1 then [⟨.time .real, .ok now⟩] else []))
    (h2 : has fl 1 = true → os.run (s.log ++ [⟨.statAt name f.hostFd 1, .ok i⟩]) (.time .real) = .ok now)
    (hl2 : l2 = l1 ++ (if has fl 3 then [⟨.time .real, .ok now'⟩] else []))
    (h3 : has fl 3 = true → os.run l1 (.time .real) = .ok now') (x : Sys)
    (hx : x = .utimeAt name (newAtime fl at_ now i.atime) (newMtime fl mt now' i.mtime) f.hostFd 1) (u : x.Ans)
    (h4 : os.run l2 x = .ok u) :
    (Call.pathFilestatSetTimes fd lk p n at_ mt fl).run os s = .ok 0 { s with log := l2 ++ [⟨x, .ok u⟩] } := by
  obtain ⟨m, hm, -, -⟩ := hn.mem.some
  show pathFilestatSetTimes os fd lk p n at_ mt fl s = _
  unfold pathFilestatSetTimes
  rw [gate_open hf, if_neg Bool.false_ne_true, show RIGHTS_PATH_FILESTAT_SET_TIMES = 2 ^ 20 from rfl, gate_perm hf,
    not_zero hr, if_neg Bool.false_ne_true]
  rw [show FSTFLAGS_ATIM = 2 ^ 0 from rfl, show FSTFLAGS_ATIM_NOW = 2 ^ 1 from rfl, show FSTFLAGS_MTIM = 2 ^ 2 from rfl,
    show FSTFLAGS_MTIM_NOW = 2 ^ 3 from rfl]
  simp only [bit_two_pow]
  rw [if_neg (by simpa using h01), if_neg (by simpa using h23), bind_ok (mems_run hm), bind_ok (file_open hf), bind_ok hn.get,
    hn.stays, if_neg Bool.false_ne_true, bind_ok (sys_ok h1), follow_eq,
    show follow lk = 1 from by unfold follow; rw [hlk, if_pos rfl]]
  have step : ∀ (b : Bool) (t : St) (l : List Event) (v now : Int), t.log = l → (b = true → os.run l (.time .real) = .ok now) →
      (if b = true then sys os (.time .real) else pure v : W Int) t =
        .ok (if b then now else v) { t with log := l ++ (if b then [⟨.time .real, .ok now⟩] else []) } := by
    intro b t l v now ht hb
    subst ht
    cases b with
    | false => simp only [Bool.false_eq_true, if_false, List.append_nil]; rfl
    | true => simp only [if_true]; exact sys_ok (hb rfl)
  subst hx
  have e2 := step (has fl 1) (s.event (.statAt name f.hostFd 1) (.ok i)) _ (if has fl 0 then at_ else i.atime) now rfl h2
  have e3 := step (has fl 3) { s with log := l1 } _ (if has fl 2 then mt else i.mtime) now' rfl h3
  have push : ∀ (b : Bool) (x y : W Int) (k : Int → W Int),
      (if b = true then x >>= k else y >>= k) = ((if b = true then x else y) >>= k) := by
    intro b; cases b <;> intros <;> rfl
  rw [push, bind_ok e2]
  rw [show ({ s.event (.statAt name f.hostFd 1) (.ok i) with log := (s.event (.statAt name f.hostFd 1) (.ok i)).log ++
    (if has fl 1 then [⟨.time .real, .ok now⟩] else []) } : St) = { s with log := l1 } by rw [hl1]; rfl]
  rw [push, bind_ok e3]
  rw [show ({ ({ s with log := l1 } : St) with log := l1 ++ (if has fl 3 then [⟨.time .real, .ok now'⟩] else []) } : St) =
    { s with log := l2 } by rw [hl2]]
  rw [bind_ok (attempt_run os _ _)]
  have h4' : os.run ({ s with log := l2 } : St).log (.utimeAt name (if has fl 1 then now else if has fl 0 then at_ else i.atime)
    (if has fl 3 then now' else if has fl 2 then mt else i.mtime) f.hostFd 1) = .ok u := h4
  rw [h4']
  rfl

/-! ### Witnesses -/

/-- A host where every name is a link: the link is called `é`, was last modified at 5, and its target at 20. -/
def linksOs : Os where
  plat := .linux
  c := linux
  run l x :=
    match x with
    | .readlink .. => .ok ['é']
    | .statAt _ _ f => .ok ⟨if f = 0 then .lnk else .reg, 9, 1, 100, 10, if f = 0 then 5 else 20, 30⟩
    | .utimeAt .. => .ok ()
    | x => (demoOs .dir).run l x

/-- The guest knows the directory `/srv` as `/`, descriptor 3; the name `x` is in its memory at address 0. -/
def fsSt : St := write (demoSt .dir) 0 [120]

/-- The name in that memory. -/
theorem fsSt_names : Names fsSt ['/'] 0 1 ['x'] where
  mem := by unfold InMem; decide +kernel
  utf8 := by decide +kernel
  relative := by decide
  inside := ⟨[], by simp, by unfold Inside; decide, rfl⟩

/-- The directory. -/
def fsDir : File := (openFile fsSt 3).getD ⟨0, 0, [], false, none, 0, 0, [], 0, 0, false, 0⟩

theorem fsDir_open : openFile fsSt 3 = some fsDir ∧ fsDir.wasmName = ['/'] ∧ fsDir.base = 0x7bffe00 ∧ fsDir.hostFd = 3 := by
  refine ⟨?_, ?_, ?_, ?_⟩ <;> decide +kernel

-- The hypotheses of the theorems above are met, and the calls do what they should.
example : Asks linux fsSt (.pathCreateDirectory 3 0 1) (.mkdir ['x'] fsDir.hostFd) :=
  .createDirectory (p := 0) (n := 1) fsDir_open.1 (by decide +kernel) (fsDir_open.2.1 ▸ fsSt_names)
example : Asks linux fsSt (.pathUnlinkFile 3 0 1) (.unlink ['x'] fsDir.hostFd) :=
  .unlinkFile (p := 0) (n := 1) fsDir_open.1 (by decide +kernel) (fsDir_open.2.1 ▸ fsSt_names)
example : Asks linux fsSt (.pathRename 3 0 1 3 0 1) (.rename ['x'] ['x'] fsDir.hostFd fsDir.hostFd) :=
  .rename (p := 0) (n := 1) (q := 0) (m := 1) fsDir_open.1 (by decide +kernel) (fsDir_open.2.1 ▸ fsSt_names)
    fsDir_open.1 (by decide +kernel) (fsDir_open.2.1 ▸ fsSt_names)
example : Asks linux fsSt (.pathLink 3 1 0 1 3 0 1) (.link ['x'] ['x'] fsDir.hostFd fsDir.hostFd 1) :=
  .link (fl := 1) (p := 0) (n := 1) (q := 0) (m := 1) fsDir_open.1 (by decide +kernel) (fsDir_open.2.1 ▸ fsSt_names)
    fsDir_open.1 (by decide +kernel) (fsDir_open.2.1 ▸ fsSt_names)
/-- Reading the link `x`. -/
theorem fsSt_readlink : Asks linksOs.c fsSt (.pathReadlink 3 0 1 20 1 40) (.readlink ['x'] fsDir.hostFd) :=
  .readlink (p := 0) (n := 1) (q := 20) (m := 1) (r := 40) fsDir_open.1 (by decide +kernel) (fsDir_open.2.1 ▸ fsSt_names)
example : Asks linux fsSt (.pathFilestatGet 3 0 0 1 64) (.statAt ['x'] fsDir.hostFd 0) :=
  .filestatGet (fl := 0) (p := 0) (n := 1) (q := 64) fsDir_open.1 (by decide +kernel) (fsDir_open.2.1 ▸ fsSt_names)
example : Asks linux fsSt (.pathOpen 3 1 0 1 1 66 0 1 64) (.open ['x'] 0o2102 0o644 (some fsDir.hostFd)) :=
  .open (fl := 1) (ofl := 1) (base := 66) (inh := 0) (fdfl := 1) (p := 0) (n := 1) (q := 64) fsDir_open.1 (by decide +kernel)
    (by intro; decide +kernel)
    { mem := by unfold InMem; decide +kernel
      utf8 := by decide +kernel
      relative := by decide
      inside := ⟨[['s', 'r', 'v']], by
        intro x hx
        rw [List.mem_singleton.mp hx]
        exact ⟨by decide, by decide, by decide, by decide⟩, by unfold Inside; decide, by decide +kernel⟩ } (by decide)
example : returns (demoOs .reg) (.pathOpen 3 1 0 1 1 66 0 1 64) fsSt 0 = true ∧
    numAt (after ((Call.pathOpen 3 1 0 1 1 66 0 1 64).run (demoOs .reg)) fsSt) 64 4 = 4 := by
  refine ⟨?_, ?_⟩ <;> decide +kernel
example : returns linksOs (.pathFilestatGet 3 0 0 1 64) fsSt 0 = true ∧
    numAt (after ((Call.pathFilestatGet 3 0 0 1 64).run linksOs) fsSt) 80 1 = 7 ∧
    numAt (after ((Call.pathFilestatGet 3 0 0 1 64).run linksOs) fsSt) 112 8 = 5 := by
  refine ⟨?_, ?_, ?_⟩ <;> decide +kernel

/-- C71 fails for links whose target is not in ASCII: the target `é` has the two bytes c3 a9.  Read into a buffer of one
byte, the call stores both, one of them behind the buffer, and says that the target has one byte.  wasi.py:1262-1264 count
characters. -/
theorem C71_readlink_refuted :
    Asks linksOs.c fsSt (.pathReadlink 3 0 1 20 1 40) (.readlink ['x'] fsDir.hostFd) ∧
      (['é'] : Str).flatMap String.utf8EncodeChar = [0xc3, 0xa9] ∧
      returns linksOs (.pathReadlink 3 0 1 20 1 40) fsSt 0 = true ∧
      Spec.range (bytes (after ((Call.pathReadlink 3 0 1 20 1 40).run linksOs) fsSt)) 20 2 = [0xc3, 0xa9] ∧
      numAt (after ((Call.pathReadlink 3 0 1 20 1 40).run linksOs) fsSt) 40 4 = 1 := by
  refine ⟨fsSt_readlink, ?_, ?_, ?_, ?_⟩ <;> decide +kernel

/-- The last thing the host was told, if it was to set the times of a name. -/
def lastTimesAt (s : St) : Option (Int × Int × Int) :=
  match s.log.getLast? with
  | some ⟨.utimeAt _ a m _ f, _⟩ => some (a, m, f)
  | _ => none

/-- C71 fails for the times of a link: the link was last modified at 5, its target at 20.  Setting the access time of the link
itself (no flag to follow links) to 55 also sets its modification time to 20.  wasi.py:1105 always follows links. -/
theorem C71_times_refuted :
    (linksOs.run [] (.statAt ['x'] 3 0)).toOption.map (·.mtime) = some 5 ∧
      returns linksOs (.pathFilestatSetTimes 3 0 0 1 55 77 1) fsSt 0 = true ∧
      lastTimesAt (after ((Call.pathFilestatSetTimes 3 0 0 1 55 77 1).run linksOs) fsSt) = some (55, 20, 0) := by
  refine ⟨?_, ?_, ?_⟩ <;> decide +kernel

example : lastTimesAt (after ((Call.pathFilestatSetTimes 3 1 0 1 55 77 1).run linksOs) fsSt) = some (55, 20, 1) ∧
    lastTimesAt (after ((Call.pathFilestatSetTimes 3 1 0 1 55 77 10).run linksOs) fsSt) = some (1000, 1000, 1) := by
  refine ⟨?_, ?_⟩ <;> decide +kernel

/-! ## C73 -/

/-- C73, in part: on Linux, `path_open` without the flags `DSYNC`, `NONBLOCK`, `RSYNC` and `SYNC` (bits 1 to 4) asks the host
for the access and the flags the guest asked for.

What is missing, and false: those four flags (`C73_flags_refuted`). -/
theorem C73_open_flags_partial (os : Os) (hos : os.c = linux) (s : St) (fd fl ofl base inh fdfl : Int) (p n q : Nat)
    (name : Str) (g m : Int) (dir : Option Int) (h : Asks os.c s (.pathOpen fd fl p n ofl base inh fdfl q) (.open name g m dir))
    (h1 : has fdfl 1 = false) (h2 : has fdfl 2 = false) (h3 : has fdfl 3 = false) (h4 : has fdfl 4 = false) (k : Nat) :
    has g k = linuxOpen fl ofl base fdfl k := by
  have hfold : ∀ (l : List Int) (a : Int), has (l.foldl Py.or a) k = (has a k || l.any (has · k)) := by
    intro l
    induction l with
    | nil => intro a; simp
    | cons b l ih => intro a; rw [List.foldl_cons, ih, has_or, List.any_cons, Bool.or_assoc]
  rw [hos] at h
  have hg : g = hostFlags linux fl ofl base fdfl := by cases h; rfl
  rw [hg]
  unfold hostFlags
  rw [hfold, has_zero, Bool.false_or]
  simp only [List.any_append]
  have c0 : has linux.oRdonly k = false := has_zero k
  have c1 : has linux.oWronly k = decide (0 = k) := has_pow 0 k
  have c2 : has linux.oRdwr k = decide (1 = k) := has_pow 1 k
  have c6 : has linux.oCreat k = decide (6 = k) := has_pow 6 k
  have c7 : has linux.oExcl k = decide (7 = k) := has_pow 7 k
  have c9 : has linux.oTrunc k = decide (9 = k) := has_pow 9 k
  have c10 : has linux.oAppend k = decide (10 = k) := has_pow 10 k
  have c16 : has linux.oDirectory k = decide (16 = k) := has_pow 16 k
  have c17 : has linux.oNofollow k = decide (17 = k) := has_pow 17 k
  have one : ∀ (b : Bool) (c : Int), (if b = true then [c] else []).any (has · k) = (b && has c k) := by
    intro b c; cases b <;> simp
  have one' : ∀ (b : Bool) (c : Int), (if b = true then [] else [c]).any (has · k) = (!b && has c k) := by
    intro b c; cases b <;> simp
  have acc : (hostFlags.access linux base).any (has · k) =
      (has base 6 && has base 1 && decide (1 = k) || has base 6 && !has base 1 && decide (0 = k)) := by
    unfold hostFlags.access
    cases has base 1 <;> cases has base 6 <;> simp [c0, c1, c2]
  simp only [one, one', c6, c7, c9, c10, c16, c17]
  rw [acc]
  by_cases k0 : k = 0
  · subst k0; simp [linuxOpen]
  by_cases k1 : k = 1
  · subst k1; simp [linuxOpen]
  by_cases k6 : k = 6
  · subst k6; simp [linuxOpen]
  by_cases k7 : k = 7
  · subst k7; simp [linuxOpen]
  by_cases k9 : k = 9
  · subst k9; simp [linuxOpen]
  by_cases k10 : k = 10
  · subst k10; simp [linuxOpen]
  by_cases k11 : k = 11
  · subst k11; simp [linuxOpen, h2]
  by_cases k12 : k = 12
  · subst k12; simp [linuxOpen, h1, h3, h4]
  by_cases k16 : k = 16
  · subst k16; simp [linuxOpen]
  by_cases k17 : k = 17
  · subst k17; simp [linuxOpen]
  by_cases k20 : k = 20
  · subst k20; simp [linuxOpen, h3, h4]
  have hr : linuxOpen fl ofl base fdfl k = false := by unfold linuxOpen; split <;> first | rfl | (exfalso; omega)
  rw [hr]
  simp [Ne.symm k0, Ne.symm k1, Ne.symm k6, Ne.symm k7, Ne.symm k9, Ne.symm k10, Ne.symm k16, Ne.symm k17]

/-- The flags of the last file the host opened. -/
def lastOpen (s : St) : Option Int :=
  s.log.foldl (fun r e => match e with | ⟨.open _ g _ _, _⟩ => some g | _ => r) none

/-- C73 fails for `NONBLOCK`: opening with that flag (4) succeeds, and `fd_fdstat_get` reports the flag, but the host was not
asked for it (bit 11).  wasi.py:1185-1186 only looks at `APPEND`. -/
theorem C73_flags_refuted :
    let s := after ((Call.pathOpen 3 1 0 1 1 66 0 4 64).run (demoOs .reg)) fsSt
    returns (demoOs .reg) (.pathOpen 3 1 0 1 1 66 0 4 64) fsSt 0 = true ∧
      numAt (after ((Call.fdFdstatGet 4 128).run (demoOs .reg)) s) 130 2 = 4 ∧
      linuxOpen 1 1 66 4 11 = true ∧ lastOpen s = some 0o102 ∧ has 0o102 11 = false := by
  refine ⟨?_, ?_, ?_, ?_, ?_⟩ <;> decide +kernel

-- The same without the flag, and with `APPEND`.
example : lastOpen (after ((Call.pathOpen 3 0 0 1 9 64 0 1 64).run (demoOs .reg)) fsSt) = some 0o403101 := by decide +kernel

/-! ## C72 -/

/-- C72, in part: the host refuses an operation with one of the errors in `reported`.  The call returns the number WASI has
for that error, and nothing else changes.

What is missing, and false: other errors (`C72_raised`, `C72_missing_refuted`, `C72_access_refuted`). -/
theorem C72_reported_partial (os : Os) (s : St) (c : Call) (x : Sys) (h : Asks os.c s c x) (n : Nat)
    (he : os.run s.log x = .error (.os n)) (hn : n ∈ reported os.plat x) :
    ∃ e, wasiErrno os.plat n = some e ∧ c.run os s = .ok e (answered s x (.error (.os n))) := by
  have key : ∀ n ∈ reported os.plat x, (wasiErrno os.plat n).isSome = true ∧ (caught os.plat x).lookup n = wasiErrno os.plat n := by
    clear he
    cases h <;> simp only [caught, reported, reported.notEmpty, notEmptyErr, loopErr] <;> cases os.plat <;> decide
  obtain ⟨h1, h2⟩ := key n hn
  obtain ⟨e, h1⟩ := Option.isSome_iff_exists.mp h1
  rw [h1] at h2
  refine ⟨e, h1, ?_⟩
  rw [asks_run os h, he]
  unfold onErr
  dsimp only
  rw [h2]
  rfl

/-- C72 fails for all other errors but permission errors (13, and 1 where it counts as one): the call raises the host's
error, which ends the guest. -/
theorem C72_raised (os : Os) (s : St) (c : Call) (x : Sys) (h : Asks os.c s c x) (n : Nat)
    (he : os.run s.log x = .error (.os n)) (hn : n ∉ reported os.plat x) (h13 : n ≠ 13) :
    c.run os s = .error (.os n) (answered s x (.error (.os n))) := by
  have key : (caught os.plat x).lookup n = none := by
    have h0 : ∀ p ∈ caught os.plat x, p.1 ∈ reported os.plat x ∨ p.1 = 13 := by
      cases h <;> simp only [caught, reported, reported.notEmpty, notEmptyErr, loopErr] <;> cases os.plat <;> decide
    rw [List.lookup_eq_none_iff]
    intro p hp
    rcases h0 p hp with h | h
    · simp only [ne_eq, bne_iff_ne]; rintro rfl; exact hn h
    · simp only [ne_eq, bne_iff_ne]; omega
  rw [asks_run os h, he]
  unfold onErr
  dsimp only
  rw [key]
  rfl

/-- A host where every operation on names fails with the error `n`. -/
def failOs (n : Nat) : Os where
  plat := .linux
  c := linux
  run l x :=
    match x with
    | .mkdir .. | .rmdir .. | .unlink .. | .rename .. | .link .. | .symlink .. | .readlink .. | .statAt .. => .error (.os n)
    | x => (demoOs .dir).run l x

/-- C72 fails for missing files: removing a file that does not exist, removing a directory that does not exist, making a
directory in one that does not exist, and setting the times of a file that does not exist raise `FileNotFoundError` instead
of returning `NOENT` (44).  wasi.py:1105 and 1360-1367 do not handle it. -/
theorem C72_missing_refuted :
    wasiErrno .linux 2 = some 44 ∧
      (results (failOs 2) [.pathUnlinkFile 3 0 1, .pathRemoveDirectory 3 0 1, .pathCreateDirectory 3 0 1,
        .pathFilestatSetTimes 3 1 0 1 55 77 1] fsSt).1 = [none, none, none, none] := by
  refine ⟨?_, ?_⟩ <;> decide +kernel

/-- C72 fails for refused access: the host's `EACCES` (13) is returned as `PERM` (63), not as `ACCES` (2), and by other calls
raised. -/
theorem C72_access_refuted :
    wasiErrno .linux 13 = some 2 ∧
      (results (failOs 13) [.pathUnlinkFile 3 0 1, .pathLink 3 1 0 1 3 0 1, .pathCreateDirectory 3 0 1] fsSt).1 =
        [some 63, some 63, none] := by
  refine ⟨?_, ?_⟩ <;> decide +kernel

-- Errors that are reported.
example : (results (failOs 17) [.pathCreateDirectory 3 0 1, .pathRename 3 0 1 3 0 1] fsSt).1 = [some 20, some 20] ∧
    (results (failOs 39) [.pathRemoveDirectory 3 0 1] fsSt).1 = [some 55] ∧
    (results (failOs 2) [.pathFilestatGet 3 0 0 1 64, .pathReadlink 3 0 1 20 1 40] fsSt).1 = [some 44, some 44] := by
  refine ⟨?_, ?_, ?_⟩ <;> decide +kernel

/-! ## The hypotheses are met -/

theorem fsSt_mkdir : Asks linux fsSt (.pathCreateDirectory 3 0 1) (.mkdir ['x'] fsDir.hostFd) :=
  .createDirectory (p := 0) (n := 1) fsDir_open.1 (by decide +kernel) (fsDir_open.2.1 ▸ fsSt_names)
theorem fsSt_unlink : Asks linux fsSt (.pathUnlinkFile 3 0 1) (.unlink ['x'] fsDir.hostFd) :=
  .unlinkFile (p := 0) (n := 1) fsDir_open.1 (by decide +kernel) (fsDir_open.2.1 ▸ fsSt_names)
example := (C71_path_operation (demoOs .dir) fsSt _ _ fsSt_mkdir).1 () rfl rfl
example := (C71_path_operation (failOs 5) fsSt _ _ fsSt_mkdir).2 _ rfl
example := C72_reported_partial (failOs 17) fsSt _ _ fsSt_mkdir 17 rfl (by decide)
example := C72_raised (failOs 2) fsSt _ _ fsSt_unlink 2 rfl (by decide) (by decide)
example := C71_filestat linksOs fsSt 3 0 0 1 64 _
  (.filestatGet (fl := 0) (p := 0) (n := 1) (q := 64) fsDir_open.1 (by decide +kernel) (fsDir_open.2.1 ▸ fsSt_names))
  ['x'] _ 0 rfl ⟨.lnk, 9, 1, 100, 10, 5, 30⟩ rfl (by constructor <;> decide) (inMem _ _ _) 7 rfl
theorem fsSt_open : Asks linux fsSt (.pathOpen 3 1 0 1 1 66 0 1 64) (.open ['x'] 0o2102 0o644 (some fsDir.hostFd)) :=
  .open (fl := 1) (ofl := 1) (base := 66) (inh := 0) (fdfl := 1) (p := 0) (n := 1) (q := 64) fsDir_open.1 (by decide +kernel)
    (by intro; decide +kernel)
    { mem := by unfold InMem; decide +kernel
      utf8 := by decide +kernel
      relative := by decide
      inside := ⟨[['s', 'r', 'v']], by
        intro x hx
        rw [List.mem_singleton.mp hx]
        exact ⟨by decide, by decide, by decide, by decide⟩, by unfold Inside; decide, by decide +kernel⟩ } (by decide)
example := C71_open (demoOs .reg) fsSt 3 1 1 66 0 1 0 1 64 _ fsSt_open _ _ _ _ rfl 4 false true _ (by decide +kernel) rfl rfl rfl
  (inMem _ _ _) (by decide +kernel)
example := C73_open_flags_partial (demoOs .reg) rfl fsSt 3 1 1 66 0 1 0 1 64 _ _ _ _ fsSt_open
example := C71_times_partial linksOs fsSt 3 1 0 1 fsDir ['x'] fsDir_open.1 (by decide +kernel) (fsDir_open.2.1 ▸ fsSt_names) rfl
  77 88 9 0 1000 (by decide) (by decide) ⟨.reg, 9, 1, 100, 10, 20, 30⟩ rfl _ _ rfl (by decide) rfl (fun _ => rfl) _ rfl () rfl
/-- The host of the examples with a link to `y`. -/
def asciiOs : Os where
  plat := .linux
  c := linux
  run l x :=
    match x with
    | .readlink .. => .ok ['y']
    | x => (demoOs .dir).run l x
example := C71_readlink_partial asciiOs fsSt 3 0 1 20 1 40 _ fsSt_readlink _ ['y'] _ rfl rfl (by unfold Ascii; decide) (by decide)
  (inMem _ _ _) (inMem _ _ _)

example := C71_readlink_any linksOs fsSt 3 0 1 20 1 40 _ fsSt_readlink _ ['é'] _ rfl rfl (by decide) (inMem _ _ _) (inMem _ _ _)

end Pywasm.Props
