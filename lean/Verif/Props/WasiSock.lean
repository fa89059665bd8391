import Verif.Props.WasiStat
import Verif.Spec.WasiNamed

/-!
# WASI: sockets the embedder added to the table (C77)

`Preview1` itself makes no sockets (`C77_no_sockets`).  An embedder may append an entry to `Preview1.fd` (as
example/wasi_httpbin.py does); these theorems are about such entries.
-/

namespace Pywasm.Wasi
open WasiSpec

theorem dealt_nil (l : List (Nat × Nat)) (s : St) : stored s l (dealt l []) = s := by
  induction l generalizing s with
  | nil => rfl
  | cons b l ih =>
    unfold dealt stored
    rw [List.take_nil, List.drop_nil, write_nil]
    exact ih s

theorem iovsSize_run (n p : Nat) (s : St) (hp : InMem s p (8 * n)) :
    iovsSize n p s = .ok (((iovecs s p n).map (·.2)).sum : Nat) s := by
  induction n generalizing p with
  | zero => simp [iovsSize, iovecs, pure_run]
  | succ n ih =>
    have hp2 := hp.2
    rw [iovecs_succ]
    unfold iovsSize
    have h2 := getU_run (s := s) (k := 4) (p := p + 4) ⟨hp.1, by omega⟩
    rw [show ((p + 4 : Nat) : Int) = (p : Int) + 4 from rfl] at h2
    have h3 := ih (p + 8) ⟨hp.1, by omega⟩
    rw [show ((p + 8 : Nat) : Int) = (p : Int) + 8 from rfl] at h3
    rw [bind_ok h2, bind_ok h3, List.map_cons, List.sum_cons, Nat.cast_add]
    rfl

theorem scatter_run (n p : Nat) (d : Bytes) (s : St) (hp : InMem s p (8 * n)) (hc : Clear s p (p + 8 * n) (iovecs s p n)) :
    scatter n p d s = .ok () (stored s (iovecs s p n) (dealt (iovecs s p n) d)) := by
  induction n generalizing p d s with
  | zero => simp [scatter, iovecs, pure_run, stored]
  | succ n ih =>
    have hp2 := hp.2
    rw [iovecs_succ] at hc ⊢
    obtain ⟨hc1, hc2⟩ := hc _ List.mem_cons_self
    generalize he1 : numAt s p 4 = ptr at *
    generalize he2 : numAt s (p + 4) 4 = len at *
    have r1 := getU_run (s := s) (k := 4) (p := p) ⟨hp.1, by omega⟩
    have r2 := getU_run (s := s) (k := 4) (p := p + 4) ⟨hp.1, by omega⟩
    rw [show ((p + 4 : Nat) : Int) = (p : Int) + 4 from rfl, he2] at r2
    rw [he1] at r1
    unfold scatter
    by_cases h0 : d.length = 0
    · rw [if_pos h0, List.length_eq_zero_iff.mp h0, dealt_nil]
      rfl
    · rw [if_neg h0, bind_ok r1, bind_ok r2]
      dsimp only
      rw [Int.toNat_natCast]
      have htk : d.take (min len d.length) = d.take len := by
        rw [List.take_eq_take_iff]; omega
      have hdr : d.drop (min len d.length) = d.drop len := by
        by_cases hl : len ≤ d.length
        · rw [Nat.min_eq_left hl]
        · rw [Nat.min_eq_right (by omega), List.drop_of_length_le (by omega), List.drop_of_length_le (by omega)]
      have hput : ∀ k : W Unit, (if 0 < min len d.length then (do put ptr (d.take (min len d.length)); k) else k) s =
          k (write s ptr (d.take len)) := by
        intro k
        rw [htk]
        by_cases hl : 0 < min len d.length
        · rw [if_pos hl]
          exact bind_ok (put_run ⟨hp.1, by rw [List.length_take]; show _ ≤ (bytes s).length; simp only at hc1; omega⟩)
        · rw [if_neg hl]
          have : d.take len = [] := by
            apply List.length_eq_zero_iff.mp
            rw [List.length_take]; omega
          rw [this, write_nil]
      refine (hput _).trans ?_
      rw [hdr]
      have hio : iovecs (write s ptr (d.take len)) (p + 8) n = iovecs s (p + 8) n :=
        iovecs_write _ _ _ _ _ (by rw [List.length_take]; omega)
      have := ih (p + 8) (d.drop len) (write s ptr (d.take len))
        (InMem.write ⟨hp.1, by omega⟩ _ _) (by
          rw [hio]
          intro b hb
          obtain ⟨g1, g2⟩ := hc b (List.mem_cons_of_mem _ hb)
          rw [length_write]
          exact ⟨g1, by omega⟩)
      rw [show ((p + 8 : Nat) : Int) = (p : Int) + 8 from rfl] at this
      rw [this, hio]
      rfl

/-- The three checks at the start of the socket calls. -/
theorem gate_socket {s : St} {fd : Int} {f : File} {k : Nat} (h : openFile s fd = some f)
    (ht : f.wasmType = 5 ∨ f.wasmType = 6) (hr : has f.base k = true) (x : W Int) :
    (do
      if ← helpBadf fd then return ERRNO_BADF
      if ← helpSock fd then return ERRNO_NOTSOCK
      if ← helpPerm fd (2 ^ k) then return ERRNO_NOTCAPABLE
      x) s = x s := by
  have hs : helpSock fd s = .ok false s := by
    unfold helpSock
    rw [bind_ok (file_open h)]
    show EStateM.Result.ok (decide (f.wasmType ≠ 5 ∧ f.wasmType ≠ 6)) s = _
    rw [decide_eq_false (by omega)]
  rw [gate_open h, if_neg Bool.false_ne_true, bind_ok hs, if_neg Bool.false_ne_true, gate_perm h, not_zero hr,
    if_neg Bool.false_ne_true]

theorem sockKind_run {c : Consts} {f : File} {s : St} (ht : f.wasmType = 5 ∨ f.wasmType = 6) :
    (lift (sockKind c f)) s = .ok (kindOf c f.wasmType) s := by
  unfold sockKind kindOf
  rcases ht with ht | ht <;> rw [ht] <;> rfl

theorem or_zero' (a : Int) : Py.or a 0 = a := has_ext fun k => by rw [has_or, has_zero, Bool.or_false]
theorem zero_or' (a : Int) : Py.or 0 a = a := has_ext fun k => by rw [has_or, has_zero, Bool.false_or]

theorem recvFlags_eq (c : Consts) (fl : Int) (b : Bool) :
    (let ri := if bit fl 1 then Py.or 0 c.msgPeek else 0
     if bit fl 2 && b then Py.or ri c.msgWaitall else ri) = recvFlags c fl b := by
  unfold recvFlags
  rw [show bit fl 1 = has fl 0 from bit_two_pow fl 0, show bit fl 2 = has fl 1 from bit_two_pow fl 1, zero_or']
  dsimp only
  by_cases h : (has fl 1 && b) = true
  · rw [if_pos h, if_pos h]
  · rw [if_neg h, if_neg h, or_zero']

end Pywasm.Wasi

namespace Pywasm.Props
open Wasi WasiSpec

/-- C77, `sock_send`: the concatenation of the buffers is sent, in one piece, on a socket of the kind of the descriptor, and
the number of bytes the host took is stored. -/
theorem C77_send (os : Os) (s : St) (fd fl : Int) (f : File) (hf : openFile s fd = some f)
    (ht : f.wasmType = 5 ∨ f.wasmType = 6) (hr : has f.base 6 = true) (p n r : Nat) (hp : InMem s p (8 * n))
    (hb : ∀ b ∈ iovecs s p n, b.1 + b.2 ≤ (bytes s).length) (hr4 : InMem s r 4) (h : Int) (k : Nat) (hk : k < 2 ^ 32)
    (h1 : os.run s.log (.sockDup f.hostFd (kindOf os.c f.wasmType)) = .ok h)
    (h2 : os.run (s.log ++ [⟨.sockDup f.hostFd (kindOf os.c f.wasmType), .ok h⟩])
      (.sockSend h (gathered s (iovecs s p n))) = .ok (k : Int)) :
    (Call.sockSend fd p n fl r).run os s = .ok 0 (write { s with log := s.log ++
      [⟨.sockDup f.hostFd (kindOf os.c f.wasmType), .ok h⟩, ⟨.sockSend h (gathered s (iovecs s p n)), .ok (k : Int)⟩] }
      r (Spec.bytesLE 4 k)) := by
  obtain ⟨m, hm, -⟩ := hr4.some
  show sockSend os fd p n fl r s = _
  unfold sockSend
  rw [show RIGHTS_FD_WRITE = 2 ^ 6 from rfl, gate_socket hf ht hr, bind_ok (mems_run hm), bind_ok (file_open hf),
    bind_ok (sockKind_run ht)]
  refine (bind_ok (sys_ok h1)).trans ?_
  rw [Int.toNat_natCast]
  refine (bind_ok (gather_run n p [] (answered s (.sockDup f.hostFd (kindOf os.c f.wasmType)) (.ok h)) hp hb)).trans ?_
  rw [List.nil_append]
  refine (bind_ok (attempt_run os _ _)).trans ?_
  have h2' : os.run (answered s (.sockDup f.hostFd (kindOf os.c f.wasmType)) (.ok h)).log
      (.sockSend h (gathered s (iovecs s p n))) = .ok (k : Int) := h2
  have hg : gathered (answered s (.sockDup f.hostFd (kindOf os.c f.wasmType)) (.ok h))
      (iovecs (answered s (.sockDup f.hostFd (kindOf os.c f.wasmType)) (.ok h)) p n) = gathered s (iovecs s p n) := rfl
  rw [hg, h2']
  refine (bind_ok (putU_run (s := answered (answered s _ _) _ _) hr4 hk)).trans ?_
  simp only [answered, List.append_assoc]
  rfl

/-- C77, `sock_recv`: the host is asked for as many bytes as the buffers take, with the flags that were given; the bytes are
dealt out to the buffers in order and their number is stored.  The flags it stores are `1` (truncated) unless the buffers were
filled. -/
theorem C77_recv_partial (os : Os) (s : St) (fd fl : Int) (f : File) (hf : openFile s fd = some f)
    (ht : f.wasmType = 5 ∨ f.wasmType = 6) (hr : has f.base 1 = true) (p n r q : Nat) (hp : InMem s p (8 * n))
    (hb : ∀ b ∈ iovecs s p n, b.1 + b.2 ≤ (bytes s).length ∧ (b.1 + b.2 ≤ p ∨ p + 8 * n ≤ b.1))
    (hr4 : InMem s r 4) (hq4 : InMem s q 4) (total : Nat) (htotal : total = ((iovecs s p n).map (·.2)).sum)
    (h : Int) (d : Bytes) (hd : d.length < 2 ^ 32)
    (h1 : os.run s.log (.sockDup f.hostFd (kindOf os.c f.wasmType)) = .ok h)
    (h2 : os.run (s.log ++ [⟨.sockDup f.hostFd (kindOf os.c f.wasmType), .ok h⟩])
      (.sockRecv h total (recvFlags os.c fl (f.wasmType = 6))) = .ok d) :
    (Call.sockRecv fd p n fl r q).run os s = .ok 0 (write (write (stored { s with log := s.log ++
      [⟨.sockDup f.hostFd (kindOf os.c f.wasmType), .ok h⟩,
        ⟨.sockRecv h total (recvFlags os.c fl (f.wasmType = 6)), .ok d⟩] } (iovecs s p n) (dealt (iovecs s p n) d))
      r (Spec.bytesLE 4 d.length)) q
      (Spec.bytesLE 4 (if d.length < total ∨ d.length = 0 ∧ f.wasmType = 6 then 1 else 0))) := by
  obtain ⟨m, hm, -⟩ := hr4.some
  show sockRecv os fd p n fl r q s = _
  unfold sockRecv
  rw [show RIGHTS_FD_READ = 2 ^ 1 from rfl, gate_socket hf ht hr, bind_ok (mems_run hm), bind_ok (file_open hf),
    bind_ok (sockKind_run ht)]
  refine (bind_ok (sys_ok h1)).trans ?_
  have hfl := recvFlags_eq os.c fl (decide (f.wasmType = 6))
  dsimp only at hfl ⊢
  rw [show FILETYPE_SOCKET_STREAM = 6 from rfl, hfl, Int.toNat_natCast]
  refine (bind_ok (iovsSize_run n p (answered s (.sockDup f.hostFd (kindOf os.c f.wasmType)) (.ok h)) hp)).trans ?_
  refine (bind_ok (attempt_run os _ _)).trans ?_
  have hio : iovecs (answered s (.sockDup f.hostFd (kindOf os.c f.wasmType)) (.ok h)) p n = iovecs s p n := rfl
  rw [hio, ← htotal]
  have h2' : os.run (answered s (.sockDup f.hostFd (kindOf os.c f.wasmType)) (.ok h)).log
      (.sockRecv h total (recvFlags os.c fl (f.wasmType = 6))) = .ok d := h2
  rw [h2']
  have hlog : answered (answered s (.sockDup f.hostFd (kindOf os.c f.wasmType)) (.ok h))
      (.sockRecv h total (recvFlags os.c fl (f.wasmType = 6))) (.ok d) = { s with log := s.log ++
      [⟨.sockDup f.hostFd (kindOf os.c f.wasmType), .ok h⟩,
        ⟨.sockRecv h total (recvFlags os.c fl (f.wasmType = 6)), .ok d⟩] } := by
    simp only [answered, List.append_assoc]; rfl
  rw [hlog]
  have hsc := scatter_run n p d { s with log := s.log ++
      [⟨.sockDup f.hostFd (kindOf os.c f.wasmType), .ok h⟩,
        ⟨.sockRecv h total (recvFlags os.c fl (f.wasmType = 6)), .ok d⟩] } hp hb
  refine (bind_ok hsc).trans ?_
  refine (bind_ok (putU_run (stored_inMem hr4 _ _ _) hd)).trans ?_
  have hro : (if (d.length : Int) < (total : Int) then Py.or (if d.length = 0 ∧ f.wasmType = 6 then 1 else 0) 1
      else (if d.length = 0 ∧ f.wasmType = 6 then 1 else 0)) =
      (((if d.length < total ∨ d.length = 0 ∧ f.wasmType = 6 then 1 else 0) : Nat) : Int) := by
    by_cases g1 : d.length < total
    · have g1' : d.length < total ∨ d.length = 0 ∧ f.wasmType = 6 := .inl g1
      rw [if_pos (show (d.length : Int) < (total : Int) by omega), if_pos g1']
      split <;> rfl
    · rw [if_neg (show ¬(d.length : Int) < (total : Int) by omega)]
      by_cases g2 : d.length = 0 ∧ f.wasmType = 6
      · rw [if_pos g2, if_pos (show d.length < total ∨ d.length = 0 ∧ f.wasmType = 6 from .inr g2)]; rfl
      · rw [if_neg g2, if_neg (show ¬(d.length < total ∨ d.length = 0 ∧ f.wasmType = 6) by tauto)]; rfl
  rw [hro]
  refine (bind_ok (putU_run (InMem.write (stored_inMem hq4 _ _ _) _ _) (by split <;> decide))).trans ?_
  rfl

/-- C77, `sock_shutdown`: the host shuts down reading (1), writing (2) or both (3). -/
theorem C77_shutdown (os : Os) (s : St) (fd how : Int) (f : File) (hf : openFile s fd = some f)
    (ht : f.wasmType = 5 ∨ f.wasmType = 6) (hr : has f.base 28 = true) (hw : how = 1 ∨ how = 2 ∨ how = 3) (h : Int)
    (h1 : os.run s.log (.sockDup f.hostFd (kindOf os.c f.wasmType)) = .ok h)
    (h2 : os.run (s.log ++ [⟨.sockDup f.hostFd (kindOf os.c f.wasmType), .ok h⟩])
      (.sockShutdown h (if how = 1 then os.c.shutRd else if how = 2 then os.c.shutWr else os.c.shutRdwr)) = .ok ()) :
    (Call.sockShutdown fd how).run os s = .ok 0 { s with log := s.log ++
      [⟨.sockDup f.hostFd (kindOf os.c f.wasmType), .ok h⟩,
        ⟨.sockShutdown h (if how = 1 then os.c.shutRd else if how = 2 then os.c.shutWr else os.c.shutRdwr), .ok ()⟩] } := by
  show sockShutdown os fd how s = _
  unfold sockShutdown
  rw [show RIGHTS_SOCK_SHUTDOWN = 2 ^ 28 from rfl, gate_socket hf ht hr, bind_ok (file_open hf), bind_ok (sockKind_run ht)]
  refine (bind_ok (sys_ok h1)).trans ?_
  rw [if_pos hw]
  refine (bind_ok (attempt_run os _ _)).trans ?_
  have h2' : os.run (answered s (.sockDup f.hostFd (kindOf os.c f.wasmType)) (.ok h)).log
      (.sockShutdown h (if how = 1 then os.c.shutRd else if how = 2 then os.c.shutWr else os.c.shutRdwr)) = .ok () := h2
  have he : s.event (.sockDup f.hostFd (kindOf os.c f.wasmType)) (.ok h) =
    answered s (.sockDup f.hostFd (kindOf os.c f.wasmType)) (.ok h) := rfl
  rw [he, h2']
  simp only [answered, List.append_assoc]
  rfl

/-- C77 fails for messages that fit: whenever the host delivers fewer bytes than the buffers take, so that nothing was cut off,
`sock_recv` reports that the message was truncated (wasi.py:1555). -/
theorem C77_truncated_refuted (os : Os) (s : St) (fd fl : Int) (f : File) (hf : openFile s fd = some f)
    (ht : f.wasmType = 5 ∨ f.wasmType = 6) (hr : has f.base 1 = true) (p n r q : Nat) (hp : InMem s p (8 * n))
    (hb : ∀ b ∈ iovecs s p n, b.1 + b.2 ≤ (bytes s).length ∧ (b.1 + b.2 ≤ p ∨ p + 8 * n ≤ b.1))
    (hr4 : InMem s r 4) (hq4 : InMem s q 4) (total : Nat) (htotal : total = ((iovecs s p n).map (·.2)).sum)
    (h : Int) (d : Bytes) (hd : d.length < 2 ^ 32)
    (h1 : os.run s.log (.sockDup f.hostFd (kindOf os.c f.wasmType)) = .ok h)
    (h2 : os.run (s.log ++ [⟨.sockDup f.hostFd (kindOf os.c f.wasmType), .ok h⟩])
      (.sockRecv h total (recvFlags os.c fl (f.wasmType = 6))) = .ok d) (hlt : d.length < total) :
    ∃ s', (Call.sockRecv fd p n fl r q).run os s = .ok 0 s' ∧ numAt s' q 4 = 1 := by
  refine ⟨_, C77_recv_partial os s fd fl f hf ht hr p n r q hp hb hr4 hq4 total htotal h d hd h1 h2, ?_⟩
  rw [if_pos (.inl hlt)]
  have := numAt_write_self (s := write (stored { s with log := s.log ++
      [⟨.sockDup f.hostFd (kindOf os.c f.wasmType), .ok h⟩,
        ⟨.sockRecv h total (recvFlags os.c fl (f.wasmType = 6)), .ok d⟩] } (iovecs s p n) (dealt (iovecs s p n) d))
      r (Spec.bytesLE 4 d.length)) (p := q) (k := 4) (v := 1) (InMem.write (stored_inMem hq4 _ _ _) _ _) (by decide)
  exact this

/-- C77 fails for `sock_accept`: whatever the descriptor, the host and the history, it never returns success. -/
theorem C77_accept_refuted (os : Os) (s : St) (fd fl p : Int) : ∀ s', (Call.sockAccept fd fl p).run os s ≠ .ok 0 s' := by
  intro s' h
  have h : sockAccept os fd fl p s = .ok 0 s' := h
  unfold sockAccept at h
  obtain ⟨b, s1, -, h⟩ := bind_inv h
  cases b
  case true => injection h with h _; exact absurd h (by decide)
  rw [if_neg Bool.false_ne_true] at h
  obtain ⟨b, s2, -, h⟩ := bind_inv h
  cases b
  case true => injection h with h _; exact absurd h (by decide)
  rw [if_neg Bool.false_ne_true] at h
  obtain ⟨b, s3, -, h⟩ := bind_inv h
  cases b
  case true => injection h with h _; exact absurd h (by decide)
  rw [if_neg Bool.false_ne_true] at h
  obtain ⟨m, s4, -, h⟩ := bind_inv h
  obtain ⟨f, s5, -, h⟩ := bind_inv h
  obtain ⟨k, s6, -, h⟩ := bind_inv h
  obtain ⟨x, s7, -, h⟩ := bind_inv h
  split at h
  · obtain ⟨u, s8, -, h⟩ := bind_inv h
    obtain ⟨y, s9, -, h⟩ := bind_inv h
    cases h
  · obtain ⟨y, s9, -, h⟩ := bind_inv h
    cases h

/-- A host with sockets: what is received is the three bytes 1, 2, 3. -/
def sockOs : Os where
  plat := .linux
  c := linux
  run l x :=
    match x with
    | .sockDup .. => .ok 9
    | .sockSend _ d => .ok d.length
    | .sockRecv .. => .ok [1, 2, 3]
    | .sockShutdown .. => .ok ()
    | .sockAccept _ => .ok 10
    | x => (demoOs .reg).run l x

/-- Descriptor 4 is a stream socket that the embedder added; two iovecs at 0: 2 bytes at 32, 8 bytes at 40. -/
def sockSt : St :=
  { demoSt .reg with
    fd := (demoSt .reg).fd ++ [⟨7, 0, ['s'], true, none, 4, 0, ['s'], 2 ^ 30 - 1, 0, true, 6⟩]
    mem := some ⟨⟨1, 0⟩, [32, 0, 0, 0, 2, 0, 0, 0, 40, 0, 0, 0, 8, 0, 0, 0] ++ List.replicate 112 5, 1⟩ }

example : returns sockOs (.sockRecv 4 0 2 0 100 104) sockSt 0 = true ∧ returns sockOs (.sockSend 4 0 2 0 100) sockSt 0 = true ∧
    returns sockOs (.sockShutdown 4 3) sockSt 0 = true ∧ (results sockOs [.sockAccept 4 0 100] sockSt).1 = [none] := by
  refine ⟨?_, ?_, ?_, ?_⟩ <;> decide +kernel
example : let s := after ((Call.sockRecv 4 0 2 0 100 104).run sockOs) sockSt
    (numAt s 32 2, numAt s 34 1, numAt s 40 1, numAt s 41 1, numAt s 100 4, numAt s 104 4) = (513, 5, 3, 5, 3, 1) := by
  decide +kernel

/-! ## The hypotheses are met -/

example := C77_send sockOs sockSt 4 0 _ (fileAt_eq sockSt 4) (by decide +kernel) (by decide +kernel) 0 2 100 (inMem _ _ _)
  (by decide +kernel) (inMem _ _ _) 9 10 (by decide) rfl rfl
example := C77_recv_partial sockOs sockSt 4 0 _ (fileAt_eq sockSt 4) (by decide +kernel) (by decide +kernel) 0 2 100 104 (inMem _ _ _)
  (by decide +kernel) (inMem _ _ _) (inMem _ _ _) 10 (by decide +kernel) 9 [1, 2, 3] (by decide) rfl rfl
example := C77_shutdown sockOs sockSt 4 3 _ (fileAt_eq sockSt 4) (by decide +kernel) (by decide +kernel) (by decide) 9 rfl rfl

end Pywasm.Props
