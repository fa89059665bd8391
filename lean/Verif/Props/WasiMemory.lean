import Verif.Lemmas.WasiStay
import Verif.Props.WasiIo
import Verif.Props.WasiDir

/-!
# WASI: guest memory

C49: "No WASI call changes the byte length of guest memory or writes outside the ranges its arguments name; a pointer
outside memory is an error."

`WasiSpec.outs` lists the ranges the arguments of each call name.  Proved: when those ranges are inside memory, a call
keeps the length and changes no other byte, whatever it returns or raises.  The last part of the property is false of the
code: a pointer outside memory makes a call lengthen memory, or (seen as negative) insert bytes.
-/

namespace Pywasm.Wasi
open WasiSpec

theorem Stays.call (os : Os) (hos : Bounded os) (c : Call) (ha : AsciiNames os c) (s : St) (hm : s.mem ≠ none) (R : Nat → Prop)
    (hr : ∀ r ∈ outs s c, Okay (len s.mem) R r.1 r.2)
    (hi : ∀ a ∈ outIovs c, 0 ≤ a.1 ∧ 0 ≤ a.2 ∧ a.1 + 8 * a.2 ≤ len s.mem ∧
      ∀ b ∈ iovecs s a.1.toNat a.2.toNat, (b.1 : Int) + b.2 ≤ a.1 ∨ a.1 + 8 * a.2 ≤ b.1) :
    Keep R s (after (c.run os) s) := by
  have done : ∀ {x : W Int}, Stays (Len (len s.mem)) R x → Keep R s (after x s) := fun h => h.run s rfl
  obtain ⟨m, hm'⟩ := Option.ne_none_iff_exists'.mp hm
  have good : ∀ (p n : Int), 0 ≤ p ∧ 0 ≤ n ∧ p + 8 * n ≤ len s.mem ∧
      (∀ b ∈ iovecs s p.toNat n.toNat, (b.1 : Int) + b.2 ≤ p ∨ p + 8 * n ≤ b.1) →
      (∀ b ∈ iovecs s p.toNat n.toNat, Okay (len s.mem) R b.1 b.2) →
      ∃ (p' : Nat) (n' : Nat), p = p' ∧ n = n' ∧ Good (len s.mem) R p' n' s.mem := by
    intro p n ⟨h1, h2, h3, h4⟩ h5
    obtain ⟨p', rfl⟩ : ∃ k : Nat, p = k := ⟨p.toNat, by omega⟩
    obtain ⟨n', rfl⟩ : ∃ k : Nat, n = k := ⟨n.toNat, by omega⟩
    refine ⟨p', n', rfl, rfl, s, rfl, hm, rfl, by omega, fun b hb => ⟨h5 b hb, ?_⟩⟩
    have := h4 b hb
    omega
  cases c
  all_goals simp only [outs, outIovs, List.forall_mem_cons, List.not_mem_nil, false_implies, implies_true, and_true,
    List.mem_map, forall_exists_index, and_imp, forall_apply_eq_imp_iff₂] at hr hi
  all_goals simp only [Call.run]
  case argsGet a b =>
    unfold Wasi.argsGet
    rw [after_ok (mems_run hm'), after_ok (get_run s)]
    exact done (Stays.bind' (Stays.putStrs _ _ _ hr.1 hr.2) fun _ => (Still.pure _).stays)
  case environGet a b =>
    unfold Wasi.environGet
    rw [after_ok (mems_run hm'), after_ok (get_run s)]
    exact done (Stays.bind' (Stays.putStrs _ _ _ hr.1 hr.2) fun _ => (Still.pure _).stays)
  case fdPread a p n o r =>
    obtain ⟨p, n, rfl, rfl, hg⟩ := good p n hi hr.2
    exact (Stays.fdPread os _ _ _ hos hr.1).run s hg
  case fdRead a p n r =>
    obtain ⟨p, n, rfl, rfl, hg⟩ := good p n hi hr.2
    exact (Stays.fdRead os _ _ hos hr.1).run s hg
  case sockRecv a p n o q r =>
    obtain ⟨p, n, rfl, rfl, hg⟩ := good p n hi hr.2.2
    exact (Stays.sockRecv os _ _ _ _ hr.1 hr.2.1).run s hg
  all_goals refine done ?_
  case argsSizesGet => exact Stays.argsSizesGet _ _ hr.1 hr.2
  case environSizesGet => exact Stays.environSizesGet _ _ hr.1 hr.2
  case clockResGet => exact Stays.clockResGet _ _ hr
  case clockTimeGet => exact Stays.clockTimeGet _ _ _ _ hr
  case fdFdstatGet => exact Stays.fdFdstatGet _ _ hr
  case fdFilestatGet => exact Stays.fdFilestatGet _ _ _ hr
  case fdPrestatDirName => exact Stays.fdPrestatDirName _ _ _ hr
  case fdPrestatGet => exact Stays.fdPrestatGet _ _ hr
  case fdPwrite => exact Stays.fdPwrite _ _ _ _ _ _ hr
  case fdReaddir => exact Stays.fdReaddir _ _ _ _ _ _ (ha.listdir ⟨_, _, _, _, _, rfl⟩) hr.1 hr.2
  case fdSeek => exact Stays.fdSeek _ _ _ _ _ hr
  case fdTell => exact Stays.fdTell _ _ _ hr
  case fdWrite => exact Stays.fdWrite _ _ _ _ _ hr
  case pathFilestatGet => exact Stays.pathFilestatGet _ _ _ _ _ _ hr
  case pathOpen => exact Stays.pathOpen _ _ _ _ _ _ _ _ _ _ hr
  case pathReadlink => exact Stays.pathReadlink _ _ _ _ _ _ _ (ha.readlink ⟨_, _, _, _, _, _, rfl⟩) hr.1 hr.2
  case pollOneoff => exact Stays.pollOneoff _ _ _ _ _ hr.1 hr.2
  case randomGet => exact Stays.randomGet _ _ _ hos hr
  case sockSend => exact Stays.sockSend _ _ _ _ _ _ hr
  all_goals refine Still.stays ?_
  case fdAdvise => exact Still.fdAdvise _ _ _ _
  case fdAllocate => exact Still.fdAllocate _ _ _ _
  case fdClose => exact Still.fdClose _ _
  case fdDatasync => exact Still.fdDatasync _
  case fdFdstatSetFlags => exact Still.fdFdstatSetFlags _ _ _
  case fdFdstatSetRights => exact Still.fdFdstatSetRights _ _ _
  case fdFilestatSetSize => exact Still.fdFilestatSetSize _ _ _
  case fdFilestatSetTimes => exact Still.fdFilestatSetTimes _ _ _ _ _
  case fdRenumber => exact Still.fdRenumber _ _ _
  case fdSync => exact Still.fdSync _ _
  case pathCreateDirectory => exact Still.pathCreateDirectory _ _ _ _
  case pathFilestatSetTimes => exact Still.pathFilestatSetTimes _ _ _ _ _ _ _ _
  case pathLink => exact Still.pathLink _ _ _ _ _ _ _ _
  case pathRemoveDirectory => exact Still.pathRemoveDirectory _ _ _ _
  case pathRename => exact Still.pathRename _ _ _ _ _ _ _
  case pathSymlink => exact Still.pathSymlink _ _ _ _ _ _
  case pathUnlinkFile => exact Still.pathUnlinkFile _ _ _ _
  case procExit => exact Still.procExit _
  case procRaise => exact Still.procRaise _
  case schedYield => exact Still.schedYield
  case sockAccept => exact Still.sockAccept _ _ _ _
  case sockShutdown => exact Still.sockShutdown _ _ _

end Pywasm.Wasi

namespace Pywasm.Props
open Wasi WasiSpec

/-- C49 (partial): when every range the arguments of a WASI call name lies inside memory, the call keeps the length of
memory and changes no byte outside these ranges, whether it returns or raises.  For calls that fill buffers named by an
array of iovecs, the array has to be in memory and apart from the buffers.  The host is assumed to give at most the bytes
asked for (`Bounded`), and for `fd_readdir` and `path_readlink` to have ASCII names (`AsciiNames`).

Missing: "a pointer outside memory is an error", which is false (`wasi_memory_grows_refuted`,
`wasi_memory_inserts_refuted`), and names outside ASCII, for which the code overruns the buffer
(`wasi_readdir_buffer_refuted`, `wasi_readlink_buffer_refuted`). -/
theorem wasi_memory_partial (os : Os) (hos : Bounded os) (c : Call) (ha : AsciiNames os c) (s : St) (hm : s.mem ≠ none)
    (hr : ∀ r ∈ outs s c, 0 ≤ r.1 ∧ 0 ≤ r.2 ∧ r.1 + r.2 ≤ (bytes s).length)
    (hi : ∀ a ∈ outIovs c, 0 ≤ a.1 ∧ 0 ≤ a.2 ∧ a.1 + 8 * a.2 ≤ (bytes s).length ∧
      ∀ b ∈ iovecs s a.1.toNat a.2.toNat, (b.1 : Int) + b.2 ≤ a.1 ∨ a.1 + 8 * a.2 ≤ b.1) :
    (bytes (after (c.run os) s)).length = (bytes s).length ∧
    ∀ i : Nat, (∀ r ∈ outs s c, (i : Int) < r.1 ∨ r.1 + r.2 ≤ i) →
      (bytes (after (c.run os) s))[i]? = (bytes s)[i]? := by
  have h := Stays.call os hos c ha s hm (fun i => ∃ r ∈ outs s c, r.1 ≤ (i : Int) ∧ (i : Int) < r.1 + r.2)
    (fun r hr' => ⟨(hr r hr').1, (hr r hr').2.1, (hr r hr').2.2, fun i h1 h2 => ⟨r, hr', h1, h2⟩⟩) hi
  refine ⟨h.length, fun i hi' => h.same i ?_⟩
  rintro ⟨r, hr', h1, h2⟩
  rcases hi' r hr' with h3 | h3 <;> omega

/-- The host of the examples is bounded and has ASCII names. -/
theorem demo_bounded (kind : Kind) : Bounded (demoOs kind) := by
  constructor
  · intro l fd n d h
    simp only [demoOs] at h
    rw [← Except.ok.inj h, List.length_replicate]
  · intro l fd n o d h
    simp only [demoOs] at h
    rw [← Except.ok.inj h, List.length_replicate]
  · intro l p n d h
    simp only [demoOs] at h
    cases h
  · intro l n d h
    simp only [demoOs] at h
    cases h
theorem demo_asciiNames (kind : Kind) (c : Call) : AsciiNames (demoOs kind) c := by
  constructor
  · intro _ l fd x h
    simp only [demoOs] at h
    rw [← Except.ok.inj h]
    show ∀ e ∈ ([['b'], ['a']] : List Str), ∀ c ∈ e, c.toNat < 128
    decide
  · intro _ l name fd x h
    simp only [demoOs] at h
    cases h

/-- `fd_read` with the two buffers of `ioSt` meets the hypotheses, and it does write (`[7, 7, 7]` at 64, see
`Props/WasiIo.lean`). -/
example : (bytes (after ((Call.fdRead 4 16 2 120).run (demoOs .reg)) ioSt)).length = 256 ∧
    ∀ i : Nat, ¬ (64 ≤ i ∧ i < 67) → ¬ (80 ≤ i ∧ i < 85) → ¬ (120 ≤ i ∧ i < 124) →
      (bytes (after ((Call.fdRead 4 16 2 120).run (demoOs .reg)) ioSt))[i]? = (bytes ioSt)[i]? := by
  have ho : outs ioSt (.fdRead 4 16 2 120) = [(120, 4), (64, 3), (80, 5)] := by decide +kernel
  have hl : (bytes ioSt).length = 256 := by decide +kernel
  obtain ⟨h1, h2⟩ := wasi_memory_partial (demoOs .reg) (demo_bounded _) (.fdRead 4 16 2 120) (demo_asciiNames _ _) ioSt
    (by have : ioSt.mem.isSome = true := by decide +kernel
        intro h; rw [h] at this; cases this)
    (by rw [ho, hl]; decide)
    (by rw [hl]; decide +kernel)
  rw [ho] at h2
  refine ⟨h1.trans hl, fun i g1 g2 g3 => h2 i ?_⟩
  simp only [List.forall_mem_cons, List.not_mem_nil, false_implies, implies_true, and_true]
  omega

/-- C49 fails: in every state, `clock_res_get` with a pointer whose 8 bytes reach over the end of memory succeeds and
makes memory longer (the bytes go to the pointer, or to the end if it lies behind it). -/
theorem wasi_memory_grows_refuted (os : Os) (s : St) (hm : s.mem ≠ none) (id : Int) (p : Nat)
    (h : (bytes s).length < p + 8) :
    (Call.clockResGet id p).run os s = .ok 0 (after ((Call.clockResGet id p).run os) s) ∧
    (bytes (after ((Call.clockResGet id p).run os) s)).length = min p (bytes s).length + 8 := by
  obtain ⟨m, hm'⟩ := Option.ne_none_iff_exists'.mp hm
  have hb : bytes s = m.data := by unfold bytes; rw [hm']; rfl
  have hp : m.putU 8 (p : Int) 1 = .ok { m with data := Py.sliceSet m.data p (p + 8) (Py.leBytes 8 1) } := rfl
  have hr : Wasi.putU 8 (p : Int) 1 s =
      .ok () { s with mem := some { m with data := Py.sliceSet m.data p (p + 8) (Py.leBytes 8 1) } } := by
    unfold Wasi.putU
    rw [bind_ok (mems_run hm'), hp]
    rfl
  have hc : (Call.clockResGet id p).run os s =
      .ok 0 { s with mem := some { m with data := Py.sliceSet m.data p (p + 8) (Py.leBytes 8 1) } } := by
    show Wasi.clockResGet id p s = _
    unfold Wasi.clockResGet
    rw [bind_ok (mems_run hm'), bind_ok hr]
    rfl
  unfold after
  rw [hc]
  refine ⟨rfl, ?_⟩
  rw [hb] at h ⊢
  show (Py.sliceSet m.data p (p + 8) (Py.leBytes 8 1)).length = _
  unfold Py.sliceSet Py.clamp
  rw [if_neg (by omega), if_neg (by omega)]
  simp only [List.length_append, List.length_take, List.length_drop, Py.leBytes_length, Int.toNat_natCast]
  omega
/-- A pointer to the last byte of the memory of the example. -/
example : (demoSt .reg).mem.isSome = true ∧ (bytes (demoSt .reg)).length < 255 + 8 := by decide +kernel

/-- C49 fails: a pointer from 0xFFFFFFF9 on (seen as negative) makes `clock_res_get` insert 8 bytes: every byte after it
moves. -/
theorem wasi_memory_inserts_refuted :
    let s := after ((Call.clockResGet 0 (-1)).run (demoOs .reg)) (demoSt .reg)
    returns (demoOs .reg) (.clockResGet 0 (-1)) (demoSt .reg) 0 = true ∧ (bytes s).length = 264 := by
  decide +kernel

/-- The demonstration host with symbolic links to `é`. -/
def linkOs : Os where
  plat := .linux
  c := linux
  run l x :=
    match x with
    | .readlink .. => .ok ['é']
    | x => (demoOs .dir).run l x
/-- C49 fails for names outside ASCII: `path_readlink` with a buffer of 1 byte at 16 writes the byte at 17. -/
theorem wasi_readlink_buffer_refuted :
    let s : St := { demoSt .dir with mem := some { zeroMem 256 with data := 97 :: List.replicate 255 0 } }
    returns linkOs (.pathReadlink 3 0 1 16 1 32) s 0 = true ∧
    outs s (.pathReadlink 3 0 1 16 1 32) = [(16, 1), (32, 4)] ∧
    (bytes s)[17]? = some 0 ∧ (bytes (after ((Call.pathReadlink 3 0 1 16 1 32).run linkOs) s))[17]? = some 0xA9 := by
  decide +kernel

end Pywasm.Props
