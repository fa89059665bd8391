import Verif.Spec.WasiFs
import Verif.Lemmas.WasiPath
import Verif.Lemmas.WasiStrs
import Verif.Lemmas.WasiBits
import Verif.Lemmas.WasiOpen

/-! Running the path functions, for C71–C74. -/

namespace Pywasm.Wasi
open WasiSpec

theorem normpath_rooted (r : Str) : ∃ t, Py.normpath ('/' :: r) = '/' :: t := by
  unfold Py.normpath
  rw [if_neg (by simp)]
  have : ∃ t, (Py.splitRoot ('/' :: r)).1 = '/' :: t := by
    unfold Py.splitRoot
    split
    · exact ⟨_, rfl⟩
    · exact ⟨_, rfl⟩
    · exact ⟨_, rfl⟩
    · rename_i h; exact absurd rfl (h r)
  obtain ⟨t, ht⟩ := this
  simp only [ht, List.cons_append]
  rw [if_neg (by simp)]
  exact ⟨_, rfl⟩

/-- Nothing leaves `/`. -/
theorem helpEscp_root {name : Str} (h : name.head? ≠ some '/') : helpEscp ['/'] name = false := by
  unfold helpEscp Py.join
  have h1 : (['/'].isPrefixOf name) = false := by
    cases name with
    | nil => rfl
    | cons c r =>
      simp only [List.head?_cons, ne_eq, Option.some.injEq] at h
      simpa [List.isPrefixOf] using Ne.symm h
  rw [h1, if_neg Bool.false_ne_true, if_pos (.inr rfl)]
  obtain ⟨t, ht⟩ := normpath_rooted name
  rw [show ['/'] ++ name = '/' :: name from rfl, ht]
  rfl

theorem _root_.Pywasm.WasiSpec.Names.get {s : St} {root : Str} {p n : Nat} {name : Str} (h : Names s root p n name) :
    getName p n s = .ok name s := getName_run h.mem h.utf8

theorem _root_.Pywasm.WasiSpec.Names.stays {s : St} {root : Str} {p n : Nat} {name : Str} (h : Names s root p n name) :
    helpEscp root name = false := by
  obtain ⟨dir, he, hi, rfl⟩ := h.inside
  split
  · exact helpEscp_root h.relative
  · exact helpEscp_inside ‹_› he h.relative hi

theorem not_zero {r : Int} {k : Nat} (h : has r k = true) : decide (Py.and r (2 ^ k) = 0) = false := by
  rw [decide_eq_false]
  intro hz
  rw [(and_pow_eq_zero _ _).mp hz] at h; cases h

theorem follow_eq (fl : Int) : Py.and fl LOOKUPFLAGS_SYMLINK_FOLLOW = follow fl := by
  apply has_ext
  intro k
  rw [has_and, show LOOKUPFLAGS_SYMLINK_FOLLOW = 2 ^ 0 from rfl, has_pow]
  unfold follow
  by_cases hk : 0 = k
  · subst hk
    cases has fl 0 <;> decide
  · cases has fl 0
    · simp [hk, has_zero]
    · rw [if_pos rfl, show (1 : Int) = 2 ^ 0 from rfl, has_pow]; simp [hk]

theorem openFlags_eq (c : Consts) (fl ofl rights fdfl : Int) : openFlags c fl ofl rights fdfl = hostFlags c fl ofl rights fdfl := by
  have hrw : Py.and rights (RIGHTS_FD_READ + RIGHTS_FD_WRITE) =
      (if has rights 1 then 2 else 0) + (if has rights 6 then 64 else 0) := by
    apply has_ext
    intro k
    have h66 : RIGHTS_FD_READ + RIGHTS_FD_WRITE = Py.or (2 ^ 1) (2 ^ 6) := by decide
    have hsum : ((if has rights 1 then 2 else 0) + (if has rights 6 then 64 else 0) : Int)
        = Py.or (if has rights 1 then 2 ^ 1 else 0) (if has rights 6 then 2 ^ 6 else 0) := by
      cases has rights 1 <;> cases has rights 6 <;> decide
    rw [hsum, has_and, h66, has_or, has_or, has_pow, has_pow]
    by_cases h1 : 1 = k
    · subst h1; cases has rights 1 <;> cases has rights 6 <;> decide
    · by_cases h6 : 6 = k
      · subst h6; cases has rights 1 <;> cases has rights 6 <;> decide
      · have a1 : has 2 k = false := by rw [show (2 : Int) = 2 ^ 1 from rfl, has_pow]; simp [h1]
        have a6 : has 64 k = false := by rw [show (64 : Int) = 2 ^ 6 from rfl, has_pow]; simp [h6]
        cases has rights 1 <;> cases has rights 6 <;> simp [h1, h6, has_zero, a1, a6]
  have hfl : (Py.and fl LOOKUPFLAGS_SYMLINK_FOLLOW = 0) = (has fl 0 = false) := by
    rw [show LOOKUPFLAGS_SYMLINK_FOLLOW = 2 ^ 0 from rfl, and_pow_eq_zero]
  unfold openFlags hostFlags hostFlags.access
  simp only [hrw, hfl, show OFLAGS_CREAT = 2 ^ 0 from rfl, show OFLAGS_DIRECTORY = 2 ^ 1 from rfl,
    show OFLAGS_EXCL = 2 ^ 2 from rfl, show OFLAGS_TRUNC = 2 ^ 3 from rfl, show FDFLAGS_APPEND = 2 ^ 0 from rfl, bit_two_pow]
  simp only [List.foldl_append]
  cases has fl 0 <;> cases has ofl 0 <;> cases has ofl 1 <;> cases has ofl 2 <;> cases has ofl 3 <;> cases has rights 1 <;>
    cases has rights 6 <;> cases has fdfl 0 <;> rfl

/-- The `except` clauses of the calls. -/
def caught (plat : Plat) : Sys → List (Nat × Int)
  | .mkdir .. => [(17, ERRNO_EXIST)]
  | .rmdir .. => (20, ERRNO_NOTDIR) :: notEmptyErr plat
  | .unlink .. => [(21, ERRNO_ISDIR), (20, ERRNO_NOTDIR), (1, ERRNO_PERM), (13, ERRNO_PERM)]
  | .symlink .. => [(17, ERRNO_EXIST), (2, ERRNO_NOENT), (20, ERRNO_NOTDIR)]
  | .rename .. => [(17, ERRNO_EXIST), (2, ERRNO_NOENT), (21, ERRNO_ISDIR), (20, ERRNO_NOTDIR)] ++ notEmptyErr plat
  | .link .. => [(17, ERRNO_EXIST), (2, ERRNO_NOENT), (1, ERRNO_PERM), (13, ERRNO_PERM)]
  | .readlink .. | .statAt .. | .utimeAt .. => [(2, ERRNO_NOENT)]
  | .open .. => [(17, ERRNO_EXIST), (2, ERRNO_NOENT), (21, ERRNO_ISDIR), (20, ERRNO_NOTDIR)] ++ loopErr plat
  | _ => []

theorem attempt_run (os : Os) (x : Sys) (s : St) :
    attempt os x s = .ok (os.run s.log x) (answered s x (os.run s.log x)) := rfl

/-- What the calls do with the answer of the host. -/
def rest (os : Os) (s : St) : Call → (x : Sys) → x.Ans → W Int
  | .pathReadlink _ _ _ q m r, .readlink _ _, data => do
    let size : Int := min (data.length : Int) m
    put q (Py.encodeUtf8 (Py.slice data 0 size))
    putU 4 r size
    return ERRNO_SUCCESS
  | .pathFilestatGet _ _ _ _ q, .statAt _ _ _, info => do
    putStat q (helpWasmType info) info
    return ERRNO_SUCCESS
  | .pathOpen fd _ _ _ _ base inh fdfl q, .open name flag _ _, h =>
    match openFile s fd with
    | some f => opened os h flag (Py.normpath (Py.join f.hostName name)) (Py.normpath (Py.join f.wasmName name)) base inh fdfl q s.fd.length
    | none => pure 0
  | _, _, _ => pure ERRNO_SUCCESS

theorem rest_readlink (os : Os) (s : St) (fd p n q m r : Int) (name : Str) (dir : Int) (data : Str) :
    rest os s (.pathReadlink fd p n q m r) (.readlink name dir) data = (do
      put q (Py.encodeUtf8 (Py.slice data 0 (min (data.length : Int) m)))
      putU 4 r (min (data.length : Int) m)
      return ERRNO_SUCCESS) := rfl
theorem rest_stat (os : Os) (s : St) (fd fl p n q : Int) (name : Str) (dir f : Int) (i : Stat) :
    rest os s (.pathFilestatGet fd fl p n q) (.statAt name dir f) i = (do
      putStat q (helpWasmType i) i
      return ERRNO_SUCCESS) := rfl
theorem rest_open (os : Os) (s : St) (fd fl p n ofl base inh fdfl q : Int) (name : Str) (g m : Int) (dir : Option Int) (h : Int)
    {f : File} (hf : openFile s fd = some f) :
    rest os s (.pathOpen fd fl p n ofl base inh fdfl q) (.open name g m dir) h =
      opened os h g (Py.normpath (Py.join f.hostName name)) (Py.normpath (Py.join f.wasmName name)) base inh fdfl q s.fd.length := by
  unfold rest
  simp only [hf]

/-- A well-formed call is its host operation. -/
theorem asks_run (os : Os) {s : St} {c : Call} {x : Sys} (h : Asks os.c s c x) :
    c.run os s = onErr (os.run s.log x) (caught os.plat x) (rest os s c x) (answered s x (os.run s.log x)) := by
  cases h with
  | createDirectory hf hr hn =>
    obtain ⟨m, hm, -, -⟩ := hn.mem.some
    simp only [Call.run]
    unfold pathCreateDirectory
    rw [gate_open hf, if_neg Bool.false_ne_true, gate_perm hf, show RIGHTS_PATH_CREATE_DIRECTORY = 2 ^ 9 from rfl, not_zero hr,
      if_neg Bool.false_ne_true, bind_ok (mems_run hm), bind_ok (file_open hf), bind_ok hn.get, hn.stays,
      if_neg Bool.false_ne_true, bind_ok (attempt_run os _ s)]
    rfl
  | removeDirectory hf hr hn =>
    obtain ⟨m, hm, -, -⟩ := hn.mem.some
    simp only [Call.run]
    unfold pathRemoveDirectory
    rw [gate_open hf, if_neg Bool.false_ne_true, gate_perm hf, show RIGHTS_PATH_REMOVE_DIRECTORY = 2 ^ 25 from rfl, not_zero hr,
      if_neg Bool.false_ne_true, bind_ok (mems_run hm), bind_ok (file_open hf), bind_ok hn.get, hn.stays,
      if_neg Bool.false_ne_true, bind_ok (attempt_run os _ s)]
    rfl
  | unlinkFile hf hr hn =>
    obtain ⟨m, hm, -, -⟩ := hn.mem.some
    simp only [Call.run]
    unfold pathUnlinkFile
    rw [gate_open hf, if_neg Bool.false_ne_true, gate_perm hf, show RIGHTS_PATH_UNLINK_FILE = 2 ^ 26 from rfl, not_zero hr,
      if_neg Bool.false_ne_true, bind_ok (mems_run hm), bind_ok (file_open hf), bind_ok hn.get, hn.stays,
      if_neg Bool.false_ne_true, bind_ok (attempt_run os _ s)]
    rfl
  | symlink hf hr ho hn =>
    obtain ⟨m, hm, -, -⟩ := hn.mem.some
    simp only [Call.run]
    unfold pathSymlink
    rw [gate_open hf, if_neg Bool.false_ne_true, gate_perm hf, show RIGHTS_PATH_SYMLINK = 2 ^ 24 from rfl, not_zero hr,
      if_neg Bool.false_ne_true, bind_ok (mems_run hm), bind_ok (file_open hf), bind_ok ho.get, bind_ok hn.get, ho.stays,
      if_neg Bool.false_ne_true, hn.stays, if_neg Bool.false_ne_true, bind_ok (attempt_run os _ s)]
    rfl
  | rename hf hr ho hg hr' hn =>
    obtain ⟨m, hm, -, -⟩ := hn.mem.some
    simp only [Call.run]
    unfold pathRename
    rw [gate_open hf, if_neg Bool.false_ne_true, gate_open hg, if_neg Bool.false_ne_true, gate_perm hf,
      show RIGHTS_PATH_RENAME_SOURCE = 2 ^ 16 from rfl, not_zero hr, if_neg Bool.false_ne_true, gate_perm hg,
      show RIGHTS_PATH_RENAME_TARGET = 2 ^ 17 from rfl, not_zero hr', if_neg Bool.false_ne_true, bind_ok (mems_run hm),
      bind_ok (file_open hf), bind_ok (file_open hg), bind_ok ho.get, bind_ok hn.get, ho.stays,
      if_neg Bool.false_ne_true, hn.stays, if_neg Bool.false_ne_true, bind_ok (attempt_run os _ s)]
    rfl
  | link hf hr ho hg hr' hn =>
    obtain ⟨m, hm, -, -⟩ := hn.mem.some
    simp only [Call.run]
    unfold pathLink
    rw [gate_open hf, if_neg Bool.false_ne_true, gate_open hg, if_neg Bool.false_ne_true, gate_perm hf,
      show RIGHTS_PATH_LINK_SOURCE = 2 ^ 11 from rfl, not_zero hr, if_neg Bool.false_ne_true, gate_perm hg,
      show RIGHTS_PATH_LINK_TARGET = 2 ^ 12 from rfl, not_zero hr', if_neg Bool.false_ne_true, bind_ok (mems_run hm),
      bind_ok (file_open hf), bind_ok (file_open hg), bind_ok ho.get, bind_ok hn.get, ho.stays,
      if_neg Bool.false_ne_true, hn.stays, if_neg Bool.false_ne_true, follow_eq, bind_ok (attempt_run os _ s)]
    rfl
  | readlink hf hr hn =>
    obtain ⟨m, hm, -, -⟩ := hn.mem.some
    simp only [Call.run]
    unfold pathReadlink
    rw [gate_open hf, if_neg Bool.false_ne_true, gate_perm hf, show RIGHTS_PATH_READLINK = 2 ^ 15 from rfl, not_zero hr,
      if_neg Bool.false_ne_true, bind_ok (mems_run hm), bind_ok (file_open hf), bind_ok hn.get, hn.stays,
      if_neg Bool.false_ne_true, bind_ok (attempt_run os _ s)]
    rfl
  | filestatGet hf hr hn =>
    obtain ⟨m, hm, -, -⟩ := hn.mem.some
    simp only [Call.run]
    unfold pathFilestatGet
    rw [gate_open hf, if_neg Bool.false_ne_true, gate_perm hf, show RIGHTS_PATH_FILESTAT_GET = 2 ^ 18 from rfl, not_zero hr,
      if_neg Bool.false_ne_true, bind_ok (mems_run hm), bind_ok (file_open hf), bind_ok hn.get, hn.stays,
      if_neg Bool.false_ne_true, follow_eq, bind_ok (attempt_run os _ s)]
    rfl
  | @«open» fd fl ofl base inh fdfl p n q f name hf hr ht hn hz =>
    obtain ⟨m, hm, -, -⟩ := hn.mem.some
    simp only [Call.run]
    unfold pathOpen
    have hz' : name.contains (Char.ofNat 0) = false := by simpa using hz
    have ht' : (bit ofl OFLAGS_TRUNC && decide (Py.and f.base RIGHTS_PATH_FILESTAT_SET_SIZE = 0)) = false := by
      rw [show OFLAGS_TRUNC = 2 ^ 3 from rfl, bit_two_pow, show RIGHTS_PATH_FILESTAT_SET_SIZE = 2 ^ 19 from rfl]
      cases h3 : has ofl 3 with
      | false => rfl
      | true => rw [not_zero (ht h3)]; rfl
    rw [gate_open hf, if_neg Bool.false_ne_true, gate_perm hf, show RIGHTS_PATH_OPEN = 2 ^ 13 from rfl, not_zero hr,
      if_neg Bool.false_ne_true, bind_ok (mems_run hm), bind_ok (file_open hf), bind_ok hn.get]
    simp only
    rw [hz', if_neg Bool.false_ne_true, hn.stays, if_neg Bool.false_ne_true, ht', if_neg Bool.false_ne_true, bind_get,
      openFlags_eq, bind_ok (attempt_run os _ s)]
    have hrest : rest os s (.pathOpen fd fl p n ofl base inh fdfl q) (.open name (hostFlags os.c fl ofl base fdfl) 420 (some f.hostFd)) =
        fun h => opened os h (hostFlags os.c fl ofl base fdfl) (Py.normpath (Py.join f.hostName name))
          (Py.normpath (Py.join f.wasmName name)) base inh fdfl q s.fd.length :=
      funext fun h => rest_open _ _ _ _ _ _ _ _ _ _ _ _ _ _ _ _ hf
    rw [hrest]
    rfl

theorem appendFile_run (f : File) (s : St) : appendFile f s = .ok () { s with fd := s.fd ++ [f] } := rfl

theorem opened_run {os : Os} {t : St} {h g : Int} {hn wn : Str} {base inh fdfl : Int} {q k : Nat} {d r : Bool} {i : Stat}
    (h2 : os.run t.log (.isdir h) = .ok d) (h3 : os.run (t.log ++ [⟨.isdir h, .ok d⟩]) (.isfile h) = .ok r)
    (h4 : os.run (t.log ++ [⟨.isdir h, .ok d⟩, ⟨.isfile h, .ok r⟩]) (.stat h) = .ok i) (hq : InMem t q 4) (hk : k < 2 ^ 32) :
    ∃ b c, opened os h g hn wn base inh fdfl q k t = .ok 0 (write { t with
      fd := t.fd ++ [⟨h, g, hn, true, none, k, fdfl, wn, b, c, true, helpWasmType i⟩]
      log := t.log ++ [⟨.isdir h, .ok d⟩, ⟨.isfile h, .ok r⟩, ⟨.stat h, .ok i⟩] } q (Spec.bytesLE 4 k)) := by
  have e2 := sys_ok h2
  have e3 := sys_ok (s := t.event (.isdir h) (.ok d)) (x := .isfile h) h3
  have h4' : os.run ((t.event (.isdir h) (.ok d)).event (.isfile h) (.ok r)).log (.stat h) = .ok i := by
    simpa [St.event] using h4
  have e4 := sys_ok h4'
  have hl : t.log ++ [⟨.isdir h, .ok d⟩, ⟨.isfile h, .ok r⟩, ⟨.stat h, .ok i⟩] =
      (((t.event (.isdir h) (.ok d)).event (.isfile h) (.ok r)).event (.stat h) (.ok i)).log := by simp [St.event]
  rw [hl]
  unfold opened
  rw [bind_ok e2, bind_ok e3, bind_ok e4]
  refine ⟨Py.and (Py.and base (Py.inv (if d = true then RIGHTS_FD_SEEK else 0))) (Py.inv (if r = true then pathRights else 0)),
    Py.and (Py.and inh (Py.inv (if d = true then RIGHTS_FD_SEEK else 0))) (Py.inv (if r = true then pathRights else 0)), ?_⟩
  have hin : ∀ u : St, u.mem = t.mem → InMem u q 4 := fun u hu => by unfold InMem bytes; rw [hu]; exact hq
  rw [bind_ok (appendFile_run _ _)]
  refine (bind_ok (putU_run (hin _ ?_) hk)).trans ?_
  · rfl
  · rfl

theorem encode_take {e : Str} (h : Ascii e) (n : Nat) (hn : n ≤ e.length) :
    Py.encodeUtf8 (e.take n) = (e.flatMap String.utf8EncodeChar).take n := by
  have h1 : (Py.encodeUtf8 (e.take n)).length = n := by
    rw [ascii_length fun c hc => h c (List.mem_of_mem_take hc), List.length_take, Nat.min_eq_left hn]
  have h2 : e.flatMap String.utf8EncodeChar = Py.encodeUtf8 (e.take n) ++ Py.encodeUtf8 (e.drop n) := by
    unfold Py.encodeUtf8
    rw [← List.flatMap_append, List.take_append_drop]
  rw [h2]
  exact (List.take_left' h1).symm

/-- The record of `fd_filestat_get` and `path_filestat_get`. -/
def statBytes (s : St) (p type ino nlink size at_ mt ct : Nat) : St :=
  write (write (write (write (write (write (write (write s p (Spec.bytesLE 8 1)) (p + 8) (Spec.bytesLE 8 ino))
    (p + 16) [UInt8.ofNat type]) (p + 24) (Spec.bytesLE 8 nlink)) (p + 32) (Spec.bytesLE 8 size))
    (p + 40) (Spec.bytesLE 8 at_)) (p + 48) (Spec.bytesLE 8 mt)) (p + 56) (Spec.bytesLE 8 ct)

theorem putStat_run {s : St} {p : Nat} (hp : InMem s p 64) {type ino nlink size at_ mt ct : Nat} (k : Kind) (ht : type < 256)
    (h1 : ino < 2 ^ 64) (h2 : nlink < 2 ^ 64) (h3 : size < 2 ^ 64) (h4 : at_ < 2 ^ 64) (h5 : mt < 2 ^ 64)
    (h6 : ct < 2 ^ 64) :
    putStat p type ⟨k, ino, nlink, size, at_, mt, ct⟩ s = .ok () (statBytes s p type ino nlink size at_ mt ct) := by
  have hp2 := hp.2
  have i : ∀ j n, j + n ≤ 64 → InMem s (p + j) n := fun j n h => ⟨hp.1, by omega⟩
  unfold putStat statBytes
  have e1 : putU 8 p 1 s = .ok () (write s p (Spec.bytesLE 8 1)) := putU_run (p := p) (v := 1) ⟨hp.1, by omega⟩ (by decide)
  rw [bind_ok e1]
  rw [show (p : Int) + 8 = ((p + 8 : Nat) : Int) from rfl, bind_ok (putU_run ((i 8 8 (by omega)).write _ _) h1)]
  rw [show (p : Int) + 16 = ((p + 16 : Nat) : Int) from rfl, bind_ok (putU8_run (((i 16 1 (by omega)).write _ _).write _ _) ht)]
  rw [show (p : Int) + 24 = ((p + 24 : Nat) : Int) from rfl,
    bind_ok (putU_run ((((i 24 8 (by omega)).write _ _).write _ _).write _ _) h2)]
  rw [show (p : Int) + 32 = ((p + 32 : Nat) : Int) from rfl,
    bind_ok (putU_run (((((i 32 8 (by omega)).write _ _).write _ _).write _ _).write _ _) h3)]
  rw [show (p : Int) + 40 = ((p + 40 : Nat) : Int) from rfl,
    bind_ok (putU_run ((((((i 40 8 (by omega)).write _ _).write _ _).write _ _).write _ _).write _ _) h4)]
  rw [show (p : Int) + 48 = ((p + 48 : Nat) : Int) from rfl,
    bind_ok (putU_run (((((((i 48 8 (by omega)).write _ _).write _ _).write _ _).write _ _).write _ _).write _ _) h5)]
  rw [show (p : Int) + 56 = ((p + 56 : Nat) : Int) from rfl]
  exact putU_run ((((((((i 56 8 (by omega)).write _ _).write _ _).write _ _).write _ _).write _ _).write _ _).write _ _) h6

theorem bytesLE_one (v : Nat) : Spec.bytesLE 1 v = [UInt8.ofNat v] := by
  simp [Spec.bytesLE, Spec.byteAt]

theorem write_other {s : St} {p a : Nat} {d : Bytes} (h : a < p ∨ p + d.length ≤ a) :
    (bytes (write s p d))[a]? = (bytes s)[a]? := by
  cases hm : s.mem with
  | none => simp [bytes, write, hm]
  | some m =>
    rw [bytes_write (by simp [hm]), getElem?_patch, if_neg (by omega)]

theorem bytesLE_length (k v : Nat) : (Spec.bytesLE k v).length = k := by simp [Spec.bytesLE]

/-- Only bytes of guest memory from `lo` up to `hi` differ. -/
structure Kept (s t : St) (lo hi : Nat) : Prop where
  rest : t = { s with mem := t.mem }
  length : (bytes t).length = (bytes s).length
  outside : ∀ a, a < lo ∨ hi ≤ a → (bytes t)[a]? = (bytes s)[a]?
theorem Kept.refl (s : St) (lo hi : Nat) : Kept s s lo hi := ⟨rfl, rfl, fun _ _ => rfl⟩
theorem Kept.write {s t : St} {lo hi : Nat} (h : Kept s t lo hi) {p : Nat} {d : Bytes} (h1 : lo ≤ p) (h2 : p + d.length ≤ hi) :
    Kept s (write t p d) lo hi :=
  ⟨congrArg (fun u : St => { u with mem := (WasiSpec.write t p d).mem }) h.rest, (length_write t p d).trans h.length,
    fun a ha => (write_other (by omega)).trans (h.outside a ha)⟩

/-- Storing the attributes stores the record. -/
theorem putStat_record {s : St} {p : Nat} (hp : InMem s p 64) {type : Int} (ht : 0 ≤ type ∧ type < 256) {i : Stat} (hi : Fits i) :
    ∃ s', putStat p type i s = .ok () s' ∧ StatRecord s s' p type i := by
  obtain ⟨k, ino, nlink, size, at_, mt, ct⟩ := i
  obtain ⟨h1, h2, h3, h4, h5, h6⟩ := hi
  dsimp only at h1 h2 h3 h4 h5 h6
  obtain ⟨type, rfl⟩ : ∃ n : Nat, type = n := ⟨type.toNat, by omega⟩
  obtain ⟨ino, rfl⟩ : ∃ n : Nat, ino = n := ⟨ino.toNat, by omega⟩
  obtain ⟨nlink, rfl⟩ : ∃ n : Nat, nlink = n := ⟨nlink.toNat, by omega⟩
  obtain ⟨size, rfl⟩ : ∃ n : Nat, size = n := ⟨size.toNat, by omega⟩
  obtain ⟨at_, rfl⟩ : ∃ n : Nat, at_ = n := ⟨at_.toNat, by omega⟩
  obtain ⟨mt, rfl⟩ : ∃ n : Nat, mt = n := ⟨mt.toNat, by omega⟩
  obtain ⟨ct, rfl⟩ : ∃ n : Nat, ct = n := ⟨ct.toNat, by omega⟩
  have hp2 := hp.2
  have i : ∀ j n, j + n ≤ 64 → InMem s (p + j) n := fun j n h => ⟨hp.1, by omega⟩
  have w : ∀ {t : St} {q n : Nat} (a : Nat) (d : Bytes), InMem t q n → InMem (write t a d) q n := fun a d h => h.write a d
  have l1 : ∀ v, (Spec.bytesLE 8 v).length = 8 := bytesLE_length 8
  refine ⟨_, putStat_run hp k (by omega) (by omega) (by omega) (by omega) (by omega) (by omega) (by omega), ?_⟩
  have kept : Kept s (statBytes s p type ino nlink size at_ mt ct) p (p + 64) := by
    unfold statBytes
    refine .write (.write (.write (.write (.write (.write (.write (.write (.refl s _ _) ?_ ?_) ?_ ?_) ?_ ?_) ?_ ?_) ?_ ?_) ?_ ?_) ?_ ?_) ?_ ?_
    all_goals first | (rw [l1]; omega) | (rw [List.length_singleton]; omega) | omega | rw [l1]
  refine ⟨kept.rest, kept.length, kept.outside, ?_, ?_, ?_, ?_, ?_, ?_, ?_⟩
  all_goals unfold statBytes; rw [← bytesLE_one]
  · iterate 6 rw [numAt_write_other (by rw [bytesLE_length]; omega)]
    rw [numAt_write_self (w _ _ (i _ _ (by omega))) (by omega)]
  · iterate 5 rw [numAt_write_other (by rw [bytesLE_length]; omega)]
    rw [numAt_write_self (w _ _ (w _ _ (i _ _ (by omega)))) (by omega)]
  · iterate 4 rw [numAt_write_other (by rw [bytesLE_length]; omega)]
    rw [numAt_write_self (w _ _ (w _ _ (w _ _ (i _ _ (by omega))))) (by omega)]
  · iterate 3 rw [numAt_write_other (by rw [bytesLE_length]; omega)]
    rw [numAt_write_self (w _ _ (w _ _ (w _ _ (w _ _ (i _ _ (by omega)))))) (by omega)]
  · iterate 2 rw [numAt_write_other (by rw [bytesLE_length]; omega)]
    rw [numAt_write_self (w _ _ (w _ _ (w _ _ (w _ _ (w _ _ (i _ _ (by omega))))))) (by omega)]
  · rw [numAt_write_other (by rw [bytesLE_length]; omega)]
    rw [numAt_write_self (w _ _ (w _ _ (w _ _ (w _ _ (w _ _ (w _ _ (i _ _ (by omega)))))))) (by omega)]
  · rw [numAt_write_self (w _ _ (w _ _ (w _ _ (w _ _ (w _ _ (w _ _ (w _ _ (i _ _ (by omega))))))))) (by omega)]

end Pywasm.Wasi
