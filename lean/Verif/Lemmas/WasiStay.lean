import Verif.Lemmas.WasiIov

/-!
# Where WASI calls write

`Stays P R c`: started with a memory for which `P` holds, `c` keeps the length of the memory and writes only at addresses
in `R`.  `Still c`: `c` does not write to memory.
-/

namespace Pywasm.Wasi
open WasiSpec Spec

/-- The length of a memory. -/
def len (m : Option MemInst) : Nat := ((m.map (·.data)).getD []).length
theorem bytes_len (s : St) : (bytes s).length = len s.mem := rfl

/-- The same length, and the same bytes outside `R`. -/
structure Keep (R : Nat → Prop) (s t : St) : Prop where
  mem : t.mem ≠ none ↔ s.mem ≠ none
  length : len t.mem = len s.mem
  same : ∀ i, ¬ R i → (bytes t)[i]? = (bytes s)[i]?

theorem Keep.of_mem {R : Nat → Prop} {s t : St} (h : t.mem = s.mem) : Keep R s t :=
  ⟨by rw [h], by rw [h], fun i _ => by unfold bytes; rw [h]⟩
theorem Keep.trans {R : Nat → Prop} {s t u : St} (h : Keep R s t) (k : Keep R t u) : Keep R s u :=
  ⟨k.mem.trans h.mem, k.length.trans h.length, fun i hi => (k.same i hi).trans (h.same i hi)⟩

structure Stays {α} (P : Option MemInst → Prop) (R : Nat → Prop) (c : W α) : Prop where
  run : ∀ s, P s.mem → Keep R s (after c s)
structure Still {α} (c : W α) : Prop where
  run : ∀ s, (after c s).mem = s.mem

/-- The memory has length `L`. -/
def Len (L : Nat) (m : Option MemInst) : Prop := len m = L

theorem Still.ok {α} {c : W α} (h : Still c) {s s' : St} {a : α} (hr : c s = .ok a s') : s'.mem = s.mem := by
  have := h.run s
  unfold after at this
  rw [hr] at this
  exact this
theorem Still.stays {α} {P : Option MemInst → Prop} {R : Nat → Prop} {c : W α} (h : Still c) : Stays P R c :=
  ⟨fun s _ => .of_mem (h.run s)⟩

theorem Still.bind {α β} {x : W α} {f : α → W β} (hx : Still x) (hf : ∀ a, Still (f a)) : Still (x >>= f) := by
  constructor
  intro s
  rw [after_bind]
  have := hx.run s
  unfold after at this
  cases h : x s with
  | ok a s' => rw [h] at this; exact ((hf a).run s').trans this
  | error e s' => rw [h] at this; exact this
theorem Stays.still_bind {α β} {P : Option MemInst → Prop} {R : Nat → Prop} {x : W α} {f : α → W β} (hx : Still x)
    (hf : ∀ a, Stays P R (f a)) : Stays P R (x >>= f) := by
  constructor
  intro s hP
  rw [after_bind]
  have := hx.run s
  unfold after at this
  cases h : x s with
  | ok a s' =>
    rw [h] at this
    exact (Keep.of_mem this).trans ((hf a).run s' (by rw [this]; exact hP))
  | error e s' => rw [h] at this; exact .of_mem this
/-- The same, knowing something about the value. -/
theorem Stays.still_post {α β} {P : Option MemInst → Prop} {R : Nat → Prop} {x : W α} {f : α → W β} (Q : α → Prop)
    (hx : Still x) (hQ : ∀ s a s', x s = .ok a s' → Q a) (hf : ∀ a, Q a → Stays P R (f a)) : Stays P R (x >>= f) := by
  constructor
  intro s hP
  rw [after_bind]
  have := hx.run s
  unfold after at this
  cases h : x s with
  | ok a s' =>
    rw [h] at this
    exact (Keep.of_mem this).trans ((hf a (hQ s a s' h)).run s' (by rw [this]; exact hP))
  | error e s' => rw [h] at this; exact .of_mem this
theorem Stays.bind {α β} {P : Option MemInst → Prop} {R : Nat → Prop} {L : Nat} {x : W α} {f : α → W β}
    (hP : ∀ m, P m → Len L m) (hx : Stays P R x) (hf : ∀ a, Stays (Len L) R (f a)) : Stays P R (x >>= f) := by
  constructor
  intro s hs
  rw [after_bind]
  have := hx.run s hs
  unfold after at this
  cases h : x s with
  | ok a s' =>
    rw [h] at this
    exact this.trans ((hf a).run s' (by show len s'.mem = L; rw [this.length]; exact hP _ hs))
  | error e s' => rw [h] at this; exact this
theorem Stays.bind_post {α β} {R : Nat → Prop} {L : Nat} {x : W α} {f : α → W β} (Q : α → Prop)
    (hx : Stays (Len L) R x) (hQ : ∀ s a s', x s = .ok a s' → Q a) (hf : ∀ a, Q a → Stays (Len L) R (f a)) :
    Stays (Len L) R (x >>= f) := by
  constructor
  intro s hs
  rw [after_bind]
  have := hx.run s hs
  unfold after at this
  cases h : x s with
  | ok a s' =>
    rw [h] at this
    exact this.trans ((hf a (hQ s a s' h)).run s' (by show len s'.mem = L; rw [this.length]; exact hs))
  | error e s' => rw [h] at this; exact this
theorem Stays.bind' {α β} {R : Nat → Prop} {L : Nat} {x : W α} {f : α → W β}
    (hx : Stays (Len L) R x) (hf : ∀ a, Stays (Len L) R (f a)) : Stays (Len L) R (x >>= f) :=
  Stays.bind (fun _ h => h) hx hf

theorem Still.pure {α} (a : α) : Still (pure a : W α) := ⟨fun _ => rfl⟩
theorem Still.throw {α} (e : Err) : Still (throw e : W α) := ⟨fun _ => rfl⟩
theorem Still.get : Still (get : W St) := ⟨fun _ => rfl⟩
theorem Still.lift {α} (e : Except Err α) : Still (lift e) := by constructor; intro s; cases e <;> rfl
theorem Still.attempt {os : Os} {x : Sys} : Still (attempt os x) := ⟨fun _ => rfl⟩
theorem Still.sys {os : Os} {x : Sys} : Still (sys os x) := Still.attempt.bind fun r => Still.lift r
theorem Still.mems : Still mems := by
  constructor; intro s
  unfold Wasi.mems after; dsimp only
  cases h : s.mem <;> exact h
theorem Still.getU (k : Nat) (a : Int) : Still (getU k a) := Still.mems.bind fun _ => Still.lift _
theorem Still.getU8 (a : Int) : Still (getU8 a) := Still.mems.bind fun _ => Still.lift _
theorem Still.getB (a n : Int) : Still (getB a n) := Still.mems.bind fun _ => Still.pure _
theorem Still.getName (a n : Int) : Still (getName a n) :=
  (Still.getB a n).bind fun _ => (Still.lift _).bind fun _ => Still.pure _
theorem Still.file (i : Int) : Still (file i) := Still.get.bind fun _ => Still.lift _
theorem Still.modify {f : St → St} (h : ∀ s, (f s).mem = s.mem) : Still (modify f : W Unit) := ⟨fun s => h s⟩
theorem Still.setFile (i : Int) (f : File) : Still (setFile i f) :=
  Still.get.bind fun _ => (Still.lift _).bind fun _ => Still.modify fun _ => rfl
theorem Still.appendFile (f : File) : Still (appendFile f) := Still.modify fun _ => rfl
theorem Still.ite {α} {p : Prop} [Decidable p] {x y : W α} (hx : Still x) (hy : Still y) : Still (if p then x else y) := by
  split
  · exact hx
  · exact hy
theorem Still.helpBadf (fd : Int) : Still (helpBadf fd) :=
  Still.ite (Still.pure _) (Still.get.bind fun _ => Still.ite (Still.pure _) ((Still.file _).bind fun _ => Still.pure _))
theorem Still.helpPerm (fd p : Int) : Still (helpPerm fd p) := (Still.file _).bind fun _ => Still.pure _
theorem Still.helpIdir (fd : Int) : Still (helpIdir fd) := (Still.file _).bind fun _ => Still.pure _
theorem Still.helpSock (fd : Int) : Still (helpSock fd) := (Still.file _).bind fun _ => Still.pure _
theorem Still.helpPipe (fd : Int) : Still (helpPipe fd) :=
  Still.ite ((Still.file _).bind fun _ => Still.pure _) (Still.pure _)
theorem Still.helpTime (os : Os) (i : Int) : Still (helpTime os i) :=
  Still.ite Still.sys (Still.ite Still.sys (Still.ite Still.sys (Still.ite Still.sys (Still.pure _))))
theorem Still.onErr {α} (r : Except Err α) (t : List (Nat × Int)) {k : α → W Int} (h : ∀ a, Still (k a)) :
    Still (onErr r t k) := by
  unfold Wasi.onErr
  split
  · exact h _
  · split
    · exact Still.pure _
    · exact Still.throw _
  · exact Still.throw _

/-- Proves `Still` goals by following the program text. -/
macro "still" : tactic => `(tactic| repeat' (first
  | with_reducible exact Still.pure _ | with_reducible exact Still.throw _ | with_reducible exact Still.get
  | with_reducible exact Still.lift _ | with_reducible exact Still.attempt
  | with_reducible exact Still.sys | with_reducible exact Still.mems
  | with_reducible exact Still.getU _ _ | with_reducible exact Still.getU8 _ | with_reducible exact Still.getB _ _
  | with_reducible exact Still.getName _ _ | with_reducible exact Still.file _
  | with_reducible exact Still.setFile _ _ | with_reducible exact Still.appendFile _
  | with_reducible exact Still.helpBadf _ | with_reducible exact Still.helpPerm _ _
  | with_reducible exact Still.helpIdir _ | with_reducible exact Still.helpSock _
  | with_reducible exact Still.helpPipe _ | with_reducible exact Still.helpTime _ _
  | with_reducible assumption
  | with_reducible apply Still.bind | with_reducible apply Still.ite | with_reducible apply Still.onErr | intro _
  | split | with_reducible apply_assumption))

theorem Still.gather : ∀ (n : Nat) (a : Int) (d : Bytes), Still (gather n a d)
  | 0, _, _ => Still.pure _
  | n + 1, a, d => by
    unfold Wasi.gather
    have := Still.gather n
    still
theorem Still.iovsSize : ∀ (n : Nat) (a : Int), Still (iovsSize n a)
  | 0, _ => Still.pure _
  | n + 1, a => by
    unfold Wasi.iovsSize
    have := Still.iovsSize n
    still
theorem Still.readSub (os : Os) (a : Int) : Still (readSub os a) := by
  unfold Wasi.readSub; still
theorem Still.readSubs (os : Os) : ∀ (n : Nat) (a : Int), Still (readSubs os n a)
  | 0, _ => Still.pure _
  | n + 1, a => by
    unfold Wasi.readSubs
    have := Still.readSubs os n
    have := Still.readSub os
    still
theorem Still.hostFds : ∀ (l : List (Int × Int)), Still (hostFds l)
  | [] => Still.pure _
  | (_, _) :: l => by
    unfold Wasi.hostFds
    have := Still.hostFds l
    still

/-! ## Writing -/

/-- The `n` bytes from `p` on are inside a memory of length `L` and in `R`. -/
structure Okay (L : Nat) (R : Nat → Prop) (p n : Int) : Prop where
  low : 0 ≤ p
  nonneg : 0 ≤ n
  high : p + n ≤ L
  within : ∀ i : Nat, p ≤ i → (i : Int) < p + n → R i

theorem Okay.sub {L : Nat} {R : Nat → Prop} {p n q m : Int} (h : Okay L R p n) (h1 : p ≤ q) (h0 : 0 ≤ m) (h2 : q + m ≤ p + n) :
    Okay L R q m :=
  ⟨Int.le_trans h.low h1, h0, Int.le_trans h2 h.high, fun i hi hi' => h.within i (by omega) (by omega)⟩

theorem keep_write {R : Nat → Prop} (s : St) (p : Nat) (d : Bytes) (h : ∀ i, p ≤ i → i < p + d.length → R i) :
    Keep R s (write s p d) := by
  refine ⟨write_mem _ _, length_write s p d, fun i hi => ?_⟩
  cases hm : s.mem with
  | none => simp [bytes, write, hm]
  | some m =>
    rw [bytes_write (by simp [hm]), getElem?_patch, if_neg]
    intro hc
    exact hi (h i hc.1 hc.2.1)

theorem Stays.put {L : Nat} {R : Nat → Prop} {p : Int} {d : Bytes} (h : Okay L R p d.length) : Stays (Len L) R (put p d) := by
  constructor
  intro s hs
  obtain ⟨n, rfl⟩ : ∃ n : Nat, p = n := ⟨p.toNat, by have := h.low; omega⟩
  cases hm : s.mem with
  | none =>
    apply Keep.of_mem
    have : Wasi.mems s = .error .index s := by unfold Wasi.mems; simp only [hm]
    unfold Wasi.put after
    rw [bind_err this]
  | some m =>
    have hin : InMem s n d.length := ⟨by simp [hm], by rw [bytes_len]; have := h.high; unfold Len at hs; omega⟩
    unfold after
    rw [put_run hin]
    exact keep_write s n d fun i h1 h2 => h.within i (by omega) (by omega)

theorem Stays.putU {L : Nat} {R : Nat → Prop} {k : Nat} {p v : Int} (h : Okay L R p k) : Stays (Len L) R (putU k p v) := by
  constructor
  intro s hs
  obtain ⟨n, rfl⟩ : ∃ n : Nat, p = n := ⟨p.toNat, by have := h.low; omega⟩
  cases hm : s.mem with
  | none =>
    apply Keep.of_mem
    have : Wasi.mems s = .error .index s := by unfold Wasi.mems; simp only [hm]
    unfold Wasi.putU after
    rw [bind_err this]
  | some m =>
    have hin : InMem s n k := ⟨by simp [hm], by rw [bytes_len]; have := h.high; unfold Len at hs; omega⟩
    by_cases hv : 0 ≤ v ∧ v < 256 ^ k
    · obtain ⟨w, rfl⟩ : ∃ n : Nat, v = n := ⟨v.toNat, by omega⟩
      unfold after
      rw [putU_run hin (by exact_mod_cast hv.2)]
      refine keep_write s n _ fun i h1 h2 => h.within i (by omega) ?_
      rw [bytesLE_length] at h2; omega
    · apply Keep.of_mem
      have : m.putU k (n : Int) v = .error .struct := by
        unfold MemInst.putU Py.packU
        rw [if_neg hv]; rfl
      unfold Wasi.putU after
      rw [bind_ok (mems_run hm), this, bind_err (lift_err _ _)]

theorem Stays.putU8 {L : Nat} {R : Nat → Prop} {p v : Int} (h : Okay L R p 1) : Stays (Len L) R (putU8 p v) := by
  constructor
  intro s hs
  obtain ⟨n, rfl⟩ : ∃ n : Nat, p = n := ⟨p.toNat, by have := h.low; omega⟩
  cases hm : s.mem with
  | none =>
    apply Keep.of_mem
    have : Wasi.mems s = .error .index s := by unfold Wasi.mems; simp only [hm]
    unfold Wasi.putU8 after
    rw [bind_err this]
  | some m =>
    have hin : InMem s n 1 := ⟨by simp [hm], by rw [bytes_len]; have := h.high; unfold Len at hs; omega⟩
    by_cases hv : 0 ≤ v ∧ v < 256
    · obtain ⟨w, rfl⟩ : ∃ n : Nat, v = n := ⟨v.toNat, by omega⟩
      unfold after
      rw [putU8_run hin (by omega)]
      refine keep_write s n _ fun i h1 h2 => h.within i (by omega) ?_
      simp only [List.length_singleton] at h2; omega
    · apply Keep.of_mem
      obtain ⟨m', hm', hb, hl⟩ := hin.some
      have hmm : m' = m := Option.some.inj (hm'.symm.trans hm)
      subst hmm
      have : m'.putU8 (n : Int) v = .error .value := by
        unfold MemInst.putU8
        rw [Py.setItem_ok _ (by omega), except_bind, if_neg hv]; rfl
      unfold Wasi.putU8 after
      rw [bind_ok (mems_run hm), this, bind_err (lift_err _ _)]

theorem Stays.ite {α} {P : Option MemInst → Prop} {R : Nat → Prop} {p : Prop} [Decidable p] {x y : W α} (hx : Stays P R x)
    (hy : Stays P R y) : Stays P R (if p then x else y) := by
  split
  · exact hx
  · exact hy
theorem Stays.onErr {α} {P : Option MemInst → Prop} {R : Nat → Prop} (r : Except Err α) (t : List (Nat × Int)) {k : α → W Int}
    (h : ∀ a, r = .ok a → Stays P R (k a)) : Stays P R (onErr r t k) := by
  unfold Wasi.onErr
  split
  · exact h _ rfl
  · split
    · exact (Still.pure _).stays
    · exact (Still.throw _).stays
  · exact (Still.throw _).stays

/-- Proves `Stays` goals by following the program text; leaves the ranges of the writes. -/
macro "stays" : tactic => `(tactic| repeat' (first
  | (with_reducible apply Stays.put) | (with_reducible apply Stays.putU) | (with_reducible apply Stays.putU8)
  | with_reducible assumption
  | ((with_reducible refine Stays.still_bind ?_ ?_); (· still; done))
  | with_reducible apply Stays.bind' | with_reducible apply Stays.ite
  | (with_reducible apply Stays.onErr) | intro _
  | (with_reducible refine Still.stays ?_; still; done)
  | split))

theorem Stays.putStat {L : Nat} {R : Nat → Prop} {p : Int} (h : Okay L R p 64) (t : Int) (i : Stat) :
    Stays (Len L) R (putStat p t i) := by
  unfold Wasi.putStat
  stays
  all_goals exact h.sub (by omega) (by omega) (by omega)

theorem length_le_encode (e : Str) : e.length ≤ (Py.encodeUtf8 e).length := by
  induction e with
  | nil => exact Nat.le_refl _
  | cons c e ih =>
    have : 0 < (String.utf8EncodeChar c).length := by rw [String.length_utf8EncodeChar]; exact Char.utf8Size_pos c
    unfold Py.encodeUtf8 at ih ⊢
    rw [List.flatMap_cons, List.length_append, List.length_cons]
    omega

theorem Stays.putStrs {L : Nat} {R : Nat → Prop} : ∀ (l : List Str) (p q : Int), Okay L R p (4 * l.length) →
    Okay L R q (cStrs l).length → Stays (Len L) R (putStrs l p q)
  | [], _, _, _, _ => (Still.pure _).stays
  | e :: l, p, q, hp, hq => by
    have h1 := length_le_encode e
    have h2 : (cStrs (e :: l)).length = (Py.encodeUtf8 e).length + 1 + (cStrs l).length := by
      simp [cStrs, cStr, Py.encodeUtf8]; omega
    rw [h2] at hq
    rw [List.length_cons] at hp
    unfold Wasi.putStrs
    refine Stays.bind' (Stays.putU (hp.sub (by omega) (by omega) (by omega))) fun _ => Stays.bind' (Stays.put ?_) fun _ =>
      Stays.bind' (Stays.putU8 ?_) fun _ => Stays.putStrs l _ _ (hp.sub (by omega) (by omega) (by omega)) ?_
    · exact hq.sub (by omega) (by omega) (by omega)
    · exact hq.sub (by omega) (by omega) (by omega)
    · exact hq.sub (by omega) (by omega) (by omega)

theorem Stays.readdirLoop {L : Nat} {R : Nat → Prop} (os : Os) (h : Str) (e : Int) :
    ∀ (l : List Str) (d c : Int), (∀ x ∈ l, Ascii x) → 0 ≤ d → e ≤ L → (∀ i : Nat, d ≤ i → (i : Int) < e → R i) →
      Stays (Len L) R (readdirLoop os h e l d c)
  | [], _, _, _, _, _, _ => (Still.pure _).stays
  | x :: l, d, c, hx, hd, he, hR => by
    unfold Wasi.readdirLoop
    refine (dite (e < d + 24) (fun h => ?_) fun h => ?_)
    · rw [if_pos h]; exact (Still.pure _).stays
    rw [if_neg h]
    have hok : Okay L R d (e - d) := ⟨hd, by omega, by omega, fun i h1 h2 => hR i h1 (by omega)⟩
    refine Stays.still_bind Still.sys fun info => ?_
    refine Stays.bind' (Stays.putU (hok.sub (by omega) (by omega) (by omega))) fun _ => ?_
    refine Stays.bind' (Stays.putU (hok.sub (by omega) (by omega) (by omega))) fun _ => ?_
    refine Stays.bind' (Stays.putU (hok.sub (by omega) (by omega) (by omega))) fun _ => ?_
    refine Stays.bind' (Stays.putU8 (hok.sub (by omega) (by omega) (by omega))) fun _ => ?_
    refine (dite (e < d + 24 + x.length) (fun h => ?_) fun h => ?_)
    · rw [if_pos h]; exact (Still.pure _).stays
    rw [if_neg h]
    have hl := ascii_length (hx x List.mem_cons_self)
    refine Stays.bind' (Stays.put (hok.sub (by omega) (by omega) (by omega))) fun _ => ?_
    exact Stays.readdirLoop os _ e l _ _ (fun y hy => hx y (List.mem_cons_of_mem _ hy)) (by omega) he
      fun i h1 h2 => hR i (by omega) h2

theorem Stays.putEvent {L : Nat} {R : Nat → Prop} {p : Int} (h : Okay L R p 32) (u t : Int) :
    Stays (Len L) R (putEvent p u t) := by
  unfold Wasi.putEvent
  stays
  all_goals exact h.sub (by omega) (by omega) (by omega)

theorem Stays.putClocks {L : Nat} {R : Nat → Prop} (os : Os) : ∀ (l : List (Int × Int × Int)) (p n : Int),
    Okay L R p (32 * l.length) → Stays (Len L) R (putClocks os l p n)
  | [], _, _, _ => (Still.pure _).stays
  | (_, _, _) :: l, p, n, h => by
    rw [List.length_cons] at h
    unfold Wasi.putClocks
    refine Stays.still_bind (Still.helpTime _ _) fun t => Stays.ite ?_ ?_
    · exact Stays.putClocks os l p n (h.sub (by omega) (by omega) (by omega))
    · refine Stays.bind' (Stays.putEvent (h.sub (by omega) (by omega) (by omega)) _ _) fun _ => ?_
      exact Stays.putClocks os l _ _ (h.sub (by omega) (by omega) (by omega))

theorem Stays.putFds {L : Nat} {R : Nat → Prop} (t : Int) (y : List Int) : ∀ (l : List (Int × Int)) (p n : Int),
    Okay L R p (32 * l.length) → Stays (Len L) R (putFds t y l p n)
  | [], _, _, _ => (Still.pure _).stays
  | (_, _) :: l, p, n, h => by
    rw [List.length_cons] at h
    unfold Wasi.putFds
    refine Stays.still_bind (Still.file _) fun t => Stays.ite ?_ ?_
    · refine Stays.bind' (Stays.putEvent (h.sub (by omega) (by omega) (by omega)) _ _) fun _ => ?_
      exact Stays.putFds _ y l _ _ (h.sub (by omega) (by omega) (by omega))
    · exact Stays.putFds _ y l p n (h.sub (by omega) (by omega) (by omega))

theorem bind_inv' {α β} {x : W α} {f : α → W β} {s s' : St} {b : β} (h : (x >>= f) s = .ok b s') :
    ∃ a t, x s = .ok a t ∧ f a t = .ok b s' := by
  rw [bind_run] at h
  cases hx : x s with
  | ok a t => rw [hx] at h; exact ⟨a, t, rfl, h⟩
  | error e t => rw [hx] at h; cases h

theorem putClocks_end (os : Os) : ∀ (l : List (Int × Int × Int)) (p n : Int) (s : St) (a : Int × Int) (s' : St),
    putClocks os l p n s = .ok a s' → p ≤ a.1 ∧ a.1 ≤ p + 32 * l.length
  | [], p, n, s, a, s', h => by
    injection h with h _; subst h
    exact ⟨Int.le_refl _, by simp⟩
  | (_, _, _) :: l, p, n, s, a, s', h => by
    unfold putClocks at h
    obtain ⟨t, s1, -, h⟩ := bind_inv' h
    rw [List.length_cons]
    split at h
    · have := putClocks_end os l _ _ _ _ _ h; omega
    · obtain ⟨_, s2, -, h⟩ := bind_inv' h
      have := putClocks_end os l _ _ _ _ _ h; omega

theorem putFds_end (t : Int) (y : List Int) : ∀ (l : List (Int × Int)) (p n : Int) (s : St) (a : Int × Int) (s' : St),
    putFds t y l p n s = .ok a s' → p ≤ a.1 ∧ a.1 ≤ p + 32 * l.length
  | [], p, n, s, a, s', h => by
    injection h with h _; subst h
    exact ⟨Int.le_refl _, by simp⟩
  | (_, _) :: l, p, n, s, a, s', h => by
    unfold putFds at h
    obtain ⟨t, s1, -, h⟩ := bind_inv' h
    rw [List.length_cons]
    split at h
    · obtain ⟨_, s2, -, h⟩ := bind_inv' h
      have := putFds_end _ y l _ _ _ _ _ h; omega
    · have := putFds_end _ y l _ _ _ _ _ h; omega

theorem readSubs_length (os : Os) : ∀ (n : Nat) (a : Int) (s : St) (l : List Sub) (s' : St),
    readSubs os n a s = .ok (.ok l) s' → l.length ≤ n
  | 0, a, s, l, s', h => by
    injection h with h _
    injection h with h
    subst h
    simp
  | n + 1, a, s, l, s', h => by
    unfold readSubs at h
    obtain ⟨x, s1, -, h⟩ := bind_inv' h
    cases x with
    | error e => injection h with h _; cases h
    | ok o =>
      dsimp only at h
      obtain ⟨y, s2, h2, h⟩ := bind_inv' h
      cases y with
      | error e => injection h with h _; cases h
      | ok l' =>
        injection h with h _
        injection h with h
        subst h
        have := readSubs_length os n _ _ _ _ h2
        cases o <;> simp <;> omega

theorem subs_lengths (l : List Sub) : (clocksOf l).length + (readsOf l).length + (writesOf l).length ≤ l.length := by
  induction l with
  | nil => simp [clocksOf, readsOf, writesOf]
  | cons x l ih =>
    cases x <;> simp only [clocksOf, readsOf, writesOf, List.filterMap_cons, List.length_cons] at ih ⊢ <;> omega

/-- The iovecs at `p` lie in memory and name writable buffers apart from themselves. -/
def GoodIovs (L : Nat) (R : Nat → Prop) (p n : Nat) (s : St) : Prop :=
  s.mem ≠ none ∧ len s.mem = L ∧ p + 8 * n ≤ L ∧
    ∀ b ∈ iovecs s p n, Okay L R b.1 b.2 ∧ (b.1 + b.2 ≤ p ∨ p + 8 * n ≤ b.1)

theorem numAt_mem {s t : St} (h : t.mem = s.mem) (p k : Nat) : numAt t p k = numAt s p k := by
  unfold numAt bytes; rw [h]
theorem iovecs_mem {s t : St} (h : t.mem = s.mem) (p n : Nat) : iovecs t p n = iovecs s p n := by
  unfold iovecs
  simp only [numAt_mem h]
theorem GoodIovs.of_mem {L : Nat} {R : Nat → Prop} {p n : Nat} {s t : St} (h : GoodIovs L R p n s) (e : t.mem = s.mem) :
    GoodIovs L R p n t :=
  ⟨by rw [e]; exact h.1, by rw [e]; exact h.2.1, h.2.2.1, by rw [iovecs_mem e]; exact h.2.2.2⟩

theorem keep_readLoop {L : Nat} {R : Nat → Prop} {rd : Int → Int → W Bytes} (hst : ∀ a b, Still (rd a b))
    (hlen : ∀ a b s d s', rd a b s = .ok d s' → d.length ≤ a.toNat) :
    ∀ (n p : Nat) (k : Int) (s : St), GoodIovs L R p n s → Keep R s (after (readLoop rd n p k) s)
  | 0, _, _, _, _ => .of_mem rfl
  | n + 1, p, k, s, h => by
    obtain ⟨h1, h2, h3, h4⟩ := h
    rw [iovecs_succ] at h4
    obtain ⟨hb1, hb2⟩ := h4 _ List.mem_cons_self
    have hL : (bytes s).length = L := h2
    have r1 := getU_run (s := s) (k := 4) (p := p) ⟨h1, by omega⟩
    have r2 := getU_run (s := s) (k := 4) (p := p + 4) ⟨h1, by omega⟩
    rw [show ((p + 4 : Nat) : Int) = (p : Int) + 4 from rfl] at r2
    generalize he1 : numAt s p 4 = ptr at *
    generalize he2 : numAt s (p + 4) 4 = len at *
    dsimp only at hb1 hb2
    unfold readLoop
    rw [after_ok r1, after_ok r2, after_bind]
    have hs := (hst len k).run s
    unfold after at hs
    cases hrd : rd len k s with
    | error e t => rw [hrd] at hs; exact .of_mem hs
    | ok d t =>
      rw [hrd] at hs
      have hd := hlen _ _ _ _ _ hrd
      dsimp only at hs ⊢
      split
      · exact .of_mem hs
      have hput := put_run (s := t) (p := ptr) (d := d) ⟨by rw [hs]; exact h1, by
        rw [bytes_len, hs, ← bytes_len, hL]; have := hb1.high; omega⟩
      rw [after_ok hput]
      have hk : Keep R s (write t ptr d) := (Keep.of_mem hs).trans (keep_write t ptr d fun i hi1 hi2 =>
        hb1.within i (by omega) (by omega))
      split
      · exact hk
      refine hk.trans ?_
      have := keep_readLoop hst hlen n (p + 8) (k + d.length) (write t ptr d) ⟨hk.mem.mpr h1, hk.length.trans h2, by omega, by
        rw [iovecs_write _ _ _ _ _ (by omega), iovecs_mem hs]
        intro b hb
        obtain ⟨g1, g2⟩ := h4 b (List.mem_cons_of_mem _ hb)
        exact ⟨g1, by omega⟩⟩
      exact this

theorem keep_scatter {L : Nat} {R : Nat → Prop} :
    ∀ (n p : Nat) (d : Bytes) (s : St), GoodIovs L R p n s → Keep R s (after (scatter n p d) s)
  | 0, _, _, _, _ => .of_mem rfl
  | n + 1, p, d, s, h => by
    obtain ⟨h1, h2, h3, h4⟩ := h
    rw [iovecs_succ] at h4
    obtain ⟨hb1, hb2⟩ := h4 _ List.mem_cons_self
    have hL : (bytes s).length = L := h2
    have r1 := getU_run (s := s) (k := 4) (p := p) ⟨h1, by omega⟩
    have r2 := getU_run (s := s) (k := 4) (p := p + 4) ⟨h1, by omega⟩
    rw [show ((p + 4 : Nat) : Int) = (p : Int) + 4 from rfl] at r2
    generalize he1 : numAt s p 4 = ptr at *
    generalize he2 : numAt s (p + 4) 4 = len at *
    dsimp only at hb1 hb2
    unfold scatter
    split
    · exact .of_mem rfl
    rw [after_ok r1, after_ok r2, Int.toNat_natCast]
    dsimp only
    have hput := put_run (s := s) (p := ptr) (d := d.take (min len d.length)) ⟨h1, by
        rw [hL, List.length_take]; have := hb1.high; omega⟩
    have hk : Keep R s (write s ptr (d.take (min len d.length))) := keep_write _ ptr _ fun i hi1 hi2 => by
      rw [List.length_take] at hi2
      exact hb1.within i (by omega) (by omega)
    have hgood : ∀ t, Keep R s t → iovecs t (p + 8) n = iovecs s (p + 8) n → GoodIovs L R (p + 8) n t := by
      intro t ht he
      refine ⟨ht.mem.mpr h1, ht.length.trans h2, by omega, ?_⟩
      rw [he]
      intro b hb
      obtain ⟨g1, g2⟩ := h4 b (List.mem_cons_of_mem _ hb)
      exact ⟨g1, by omega⟩
    split
    · rw [after_ok hput]
      refine hk.trans ?_
      exact keep_scatter n (p + 8) _ _ (hgood _ hk (iovecs_write _ _ _ _ _ (by rw [List.length_take]; omega)))
    · exact keep_scatter n (p + 8) _ _ (hgood _ (.of_mem rfl) rfl)

/-! ## The calls -/

section
variable {L : Nat} {R : Nat → Prop} (os : Os) (a b c d e f : Int)

theorem Stays.argsSizesGet (h1 : Okay L R a 4) (h2 : Okay L R b 4) : Stays (Len L) R (argsSizesGet a b) := by
  unfold Wasi.argsSizesGet; stays; all_goals assumption
theorem Stays.environSizesGet (h1 : Okay L R a 4) (h2 : Okay L R b 4) : Stays (Len L) R (environSizesGet a b) := by
  unfold Wasi.environSizesGet; stays; all_goals assumption
theorem Stays.clockResGet (h : Okay L R b 8) : Stays (Len L) R (clockResGet a b) := by
  unfold Wasi.clockResGet; stays; all_goals assumption
theorem Stays.clockTimeGet (h : Okay L R c 8) : Stays (Len L) R (clockTimeGet os a b c) := by
  unfold Wasi.clockTimeGet; stays; all_goals assumption
theorem Stays.fdFdstatGet (h : Okay L R b 24) : Stays (Len L) R (fdFdstatGet a b) := by
  unfold Wasi.fdFdstatGet; stays
  all_goals exact h.sub (by omega) (by omega) (by omega)
theorem Stays.fdFilestatGet (h : Okay L R b 64) : Stays (Len L) R (fdFilestatGet os a b) := by
  have := fun t i => Stays.putStat h t i
  unfold Wasi.fdFilestatGet; stays
  all_goals apply this
theorem Stays.fdPrestatDirName (h : Okay L R b c) : Stays (Len L) R (fdPrestatDirName a b c) := by
  unfold Wasi.fdPrestatDirName
  refine Stays.still_bind (Still.helpBadf _) fun _ => Stays.ite (Still.pure _).stays ?_
  refine Stays.still_bind Still.get fun _ => Stays.ite (Still.pure _).stays ?_
  refine Stays.still_bind Still.mems fun _ => Stays.still_bind (Still.file _) fun f => ?_
  dsimp only
  split
  · exact (Still.pure _).stays
  · exact Stays.bind' (Stays.put (h.sub (by omega) (by omega) (by omega))) fun _ => (Still.pure _).stays
theorem Stays.fdPrestatGet (h : Okay L R b 8) : Stays (Len L) R (fdPrestatGet a b) := by
  unfold Wasi.fdPrestatGet; stays
  all_goals exact h.sub (by omega) (by omega) (by omega)
theorem Stays.fdPwrite (h : Okay L R e 4) : Stays (Len L) R (fdPwrite os a b c d e) := by
  have := Still.gather
  unfold Wasi.fdPwrite; stays; all_goals assumption
theorem Stays.fdSeek (h : Okay L R d 8) : Stays (Len L) R (fdSeek os a b c d) := by
  unfold Wasi.fdSeek; stays; all_goals assumption
theorem Stays.fdTell (h : Okay L R b 8) : Stays (Len L) R (fdTell os a b) := by
  unfold Wasi.fdTell; stays; all_goals assumption
theorem Stays.fdWrite (h : Okay L R d 4) : Stays (Len L) R (fdWrite os a b c d) := by
  have := Still.gather
  unfold Wasi.fdWrite; stays; all_goals assumption
theorem Stays.pathFilestatGet (h : Okay L R e 64) : Stays (Len L) R (pathFilestatGet os a b c d e) := by
  have := fun t i => Stays.putStat h t i
  unfold Wasi.pathFilestatGet; stays
  all_goals apply this
theorem Stays.opened (m n : Str) (k : Nat) (h : Okay L R f 4) :
    Stays (Len L) R (opened os a b m n c d e f k) := by
  unfold Wasi.opened; stays; all_goals assumption
theorem Stays.pathOpen (a0 a1 a2 a3 a4 a5 a6 a7 a8 : Int) (h : Okay L R a8 4) :
    Stays (Len L) R (pathOpen os a0 a1 a2 a3 a4 a5 a6 a7 a8) := by
  unfold Wasi.pathOpen; stays
  all_goals exact Stays.opened _ _ _ _ _ _ _ _ _ _ h
theorem Stays.sockSend (h : Okay L R e 4) : Stays (Len L) R (sockSend os a b c d e) := by
  have := Still.gather
  unfold Wasi.sockSend; stays; all_goals assumption

theorem Still.fdAdvise : Still (fdAdvise a b c d) := by unfold Wasi.fdAdvise; still
theorem Still.fdAllocate : Still (fdAllocate os a b c) := by unfold Wasi.fdAllocate; still
theorem Still.fdClose : Still (fdClose os a) := by unfold Wasi.fdClose; still
theorem Still.fdDatasync : Still (fdDatasync a) := by unfold Wasi.fdDatasync; still
theorem Still.fdFdstatSetFlags : Still (fdFdstatSetFlags os a b) := by unfold Wasi.fdFdstatSetFlags; still
theorem Still.fdFdstatSetRights : Still (fdFdstatSetRights a b c) := by unfold Wasi.fdFdstatSetRights; still
theorem Still.fdFilestatSetSize : Still (fdFilestatSetSize os a b) := by unfold Wasi.fdFilestatSetSize; still
theorem Still.fdFilestatSetTimes : Still (fdFilestatSetTimes os a b c d) := by unfold Wasi.fdFilestatSetTimes; still
theorem Still.fdRenumber : Still (fdRenumber os a b) := by unfold Wasi.fdRenumber; still
theorem Still.fdSync : Still (fdSync os a) := by unfold Wasi.fdSync; still
theorem Still.pathCreateDirectory : Still (pathCreateDirectory os a b c) := by unfold Wasi.pathCreateDirectory; still
theorem Still.pathFilestatSetTimes (g : Int) : Still (pathFilestatSetTimes os a b c d e f g) := by
  unfold Wasi.pathFilestatSetTimes; still
theorem Still.pathLink (g : Int) : Still (pathLink os a b c d e f g) := by unfold Wasi.pathLink; still
theorem Still.pathRemoveDirectory : Still (pathRemoveDirectory os a b c) := by unfold Wasi.pathRemoveDirectory; still
theorem Still.pathRename : Still (pathRename os a b c d e f) := by unfold Wasi.pathRename; still
theorem Still.pathSymlink : Still (pathSymlink os a b c d e) := by unfold Wasi.pathSymlink; still
theorem Still.pathUnlinkFile : Still (pathUnlinkFile os a b c) := by unfold Wasi.pathUnlinkFile; still
theorem Still.procExit : Still (procExit a) := by unfold Wasi.procExit; still
theorem Still.procRaise : Still (procRaise a) := by unfold Wasi.procRaise; still
theorem Still.schedYield : Still schedYield := by unfold Wasi.schedYield; still
theorem Still.sockAccept : Still (sockAccept os a b c) := by unfold Wasi.sockAccept; still
theorem Still.sockShutdown : Still (sockShutdown os a b) := by unfold Wasi.sockShutdown; still

/-- `GoodIovs` as a property of the memory. -/
def Good (L : Nat) (R : Nat → Prop) (p n : Nat) (m : Option MemInst) : Prop := ∃ s, s.mem = m ∧ GoodIovs L R p n s
theorem Good.len {p n : Nat} {m : Option MemInst} (h : Good L R p n m) : Len L m := by
  obtain ⟨s, rfl, h⟩ := h; exact h.2.1

theorem sys_value {os : Os} {x : Sys} {s s' : St} {a} (h : sys os x s = .ok a s') : ∃ l, os.run l x = .ok a := by
  rw [sys_run] at h
  cases hr : os.run s.log x with
  | ok b => rw [hr] at h; injection h with h _; subst h; exact ⟨_, hr⟩
  | error e => rw [hr] at h; cases h
theorem attempt_value {os : Os} {x : Sys} {s s' : St} {a} (h : attempt os x s = .ok a s') : ∃ l, os.run l x = a := by
  unfold attempt at h
  injection h with h _
  exact ⟨_, h⟩

theorem slice_ascii {d : Str} (h : Ascii d) (n : Int) (hn : 0 ≤ n) :
    (Py.encodeUtf8 (Py.slice d 0 (min (d.length : Int) n))).length ≤ n := by
  obtain ⟨k, rfl⟩ : ∃ k : Nat, n = k := ⟨n.toNat, by omega⟩
  have hs : Py.slice d 0 (min (d.length : Int) (k : Int)) = d.take (min d.length k) := by
    have h0 := Py.slice_nat d 0 (min d.length k) (by omega)
    rw [Nat.zero_add] at h0
    rw [show (min (d.length : Int) (k : Int)) = ((min d.length k : Nat) : Int) by omega]
    exact h0
  rw [hs, ascii_length fun c hc => h c (List.mem_of_mem_take hc), List.length_take]
  omega

theorem slice_mem {α} {l : List α} {i j : Int} {x : α} (h : x ∈ Py.slice l i j) : x ∈ l := by
  unfold Py.slice at h
  exact List.mem_of_mem_take (List.mem_of_mem_drop h)

theorem Stays.readLoop {rd : Int → Int → W Bytes} (hst : ∀ a b, Still (rd a b))
    (hlen : ∀ a b s d s', rd a b s = .ok d s' → d.length ≤ a.toNat) (n p : Nat) (k : Int) :
    Stays (Good L R p n) R (readLoop rd n p k) :=
  ⟨fun s ⟨_, hs, h⟩ => keep_readLoop hst hlen n p k s (h.of_mem hs.symm)⟩
theorem Stays.scatter (n p : Nat) (x : Bytes) : Stays (Good L R p n) R (scatter n p x) :=
  ⟨fun s ⟨_, hs, h⟩ => keep_scatter n p x s (h.of_mem hs.symm)⟩

theorem Stays.fdPread (hos : Bounded os) {p n : Nat} (h : Okay L R e 4) :
    Stays (Good L R p n) R (fdPread os a p n d e) := by
  unfold Wasi.fdPread
  refine Stays.still_bind (Still.helpBadf _) fun _ => Stays.ite (Still.pure _).stays ?_
  refine Stays.still_bind (Still.helpIdir _) fun _ => Stays.ite (Still.pure _).stays ?_
  refine Stays.still_bind (Still.helpPerm _ _) fun _ => Stays.ite (Still.pure _).stays ?_
  refine Stays.still_bind Still.mems fun _ => Stays.still_bind (Still.file _) fun f => ?_
  refine Stays.bind (fun _ => Good.len) (Stays.readLoop (fun _ _ => Still.sys) (fun x y s v s' hv => ?_) _ _ _) fun _ =>
    Stays.bind' (Stays.putU h) fun _ => (Still.pure _).stays
  obtain ⟨l, hl⟩ := sys_value hv
  exact hos.pread _ _ _ _ _ hl
theorem Stays.fdRead (hos : Bounded os) {p n : Nat} (h : Okay L R e 4) :
    Stays (Good L R p n) R (fdRead os a p n e) := by
  unfold Wasi.fdRead
  refine Stays.still_bind (Still.helpBadf _) fun _ => Stays.ite (Still.pure _).stays ?_
  refine Stays.still_bind (Still.helpIdir _) fun _ => Stays.ite (Still.pure _).stays ?_
  refine Stays.still_bind (Still.helpPerm _ _) fun _ => Stays.ite (Still.pure _).stays ?_
  refine Stays.still_bind Still.mems fun _ => Stays.still_bind (Still.file _) fun f => ?_
  refine Stays.bind (fun _ => Good.len) (Stays.readLoop (fun _ _ => (Still.helpPipe _).bind fun o => ?_)
    (fun x y s v s' hv => ?_) _ _ _) fun _ => Stays.bind' (Stays.putU h) fun _ => (Still.pure _).stays
  · cases o <;> exact Still.sys
  · obtain ⟨o, s1, -, hv⟩ := bind_inv' hv
    cases o with
    | none =>
      obtain ⟨l, hl⟩ := sys_value hv
      exact hos.read _ _ _ _ hl
    | some q =>
      obtain ⟨l, hl⟩ := sys_value hv
      exact hos.pipeRead _ _ _ _ hl
theorem Stays.sockRecv {p n : Nat} (h : Okay L R e 4) (h' : Okay L R f 4) :
    Stays (Good L R p n) R (sockRecv os a p n d e f) := by
  unfold Wasi.sockRecv
  refine Stays.still_bind (Still.helpBadf _) fun _ => Stays.ite (Still.pure _).stays ?_
  refine Stays.still_bind (Still.helpSock _) fun _ => Stays.ite (Still.pure _).stays ?_
  refine Stays.still_bind (Still.helpPerm _ _) fun _ => Stays.ite (Still.pure _).stays ?_
  refine Stays.still_bind Still.mems fun _ => Stays.still_bind (Still.file _) fun f => ?_
  refine Stays.still_bind (Still.lift _) fun _ => Stays.still_bind Still.sys fun _ => ?_
  refine Stays.still_bind (Still.iovsSize _ _) fun _ => Stays.still_bind Still.attempt fun _ => Stays.onErr _ _ fun x _ => ?_
  refine Stays.bind (fun _ => Good.len) (Stays.scatter _ _ _) fun _ =>
    Stays.bind' (Stays.putU h) fun _ => Stays.bind' (Stays.putU h') fun _ => (Still.pure _).stays

theorem Stays.fdReaddir (hos : ∀ l fd x, os.run l (.listdir fd) = .ok x → ∀ e ∈ x, Ascii e) (h : Okay L R b c) (h' : Okay L R e 4) :
    Stays (Len L) R (fdReaddir os a b c d e) := by
  unfold Wasi.fdReaddir
  refine Stays.still_bind (Still.helpBadf _) fun _ => Stays.ite (Still.pure _).stays ?_
  refine Stays.still_bind (Still.helpPerm _ _) fun _ => Stays.ite (Still.pure _).stays ?_
  refine Stays.still_bind Still.mems fun _ => Stays.still_bind (Still.file _) fun f => ?_
  refine Stays.still_post (fun l => ∀ x ∈ l, Ascii x) Still.sys (fun s v s' hv => ?_) fun l hl => ?_
  · obtain ⟨_, hx⟩ := sys_value hv
    exact hos _ _ _ hx
  refine Stays.bind' (Stays.readdirLoop _ _ _ _ _ _ (fun x hx => ?_) h.low h.high h.within) fun r => ?_
  · have hx : x ∈ dirResult l := slice_mem hx
    unfold dirResult at hx
    rcases List.mem_cons.mp hx with rfl | hx
    · unfold Ascii; decide
    rcases List.mem_cons.mp hx with rfl | hx
    · unfold Ascii; decide
    · exact hl x ((List.mergeSort_perm _ _).mem_iff.mp hx)
  · exact Stays.bind' (Stays.putU h') fun _ => (Still.pure _).stays

theorem Stays.pathReadlink (hos : ∀ l name fd x, os.run l (.readlink name fd) = .ok x → Ascii x) (h : Okay L R d e) (h' : Okay L R f 4) :
    Stays (Len L) R (pathReadlink os a b c d e f) := by
  unfold Wasi.pathReadlink
  refine Stays.still_bind (Still.helpBadf _) fun _ => Stays.ite (Still.pure _).stays ?_
  refine Stays.still_bind (Still.helpPerm _ _) fun _ => Stays.ite (Still.pure _).stays ?_
  refine Stays.still_bind Still.mems fun _ => Stays.still_bind (Still.file _) fun f => ?_
  refine Stays.still_bind (Still.getName _ _) fun _ => Stays.ite (Still.pure _).stays ?_
  refine Stays.still_post (fun r => ∀ x, r = .ok x → Ascii x) Still.attempt (fun s v s' hv x hx => ?_) fun r hr =>
    Stays.onErr _ _ fun x hx => ?_
  · obtain ⟨_, hv⟩ := attempt_value hv
    exact hos _ _ _ _ (hv.trans hx)
  have := slice_ascii (hr x hx) e h.nonneg
  exact Stays.bind' (Stays.put (h.sub (by omega) (by omega) (by omega))) fun _ =>
    Stays.bind' (Stays.putU h') fun _ => (Still.pure _).stays

theorem Stays.randomGet (hos : Bounded os) (h : Okay L R a b) : Stays (Len L) R (randomGet os a b) := by
  unfold Wasi.randomGet
  refine Stays.still_bind Still.mems fun _ => ?_
  refine Stays.still_post (fun x => x.length ≤ b.toNat) Still.sys (fun s v s' hv => ?_) fun x hx => ?_
  · obtain ⟨_, hv⟩ := sys_value hv
    exact hos.random _ _ _ hv
  · exact Stays.bind' (Stays.put (h.sub (by omega) (by omega) (by have := h.nonneg; omega))) fun _ => (Still.pure _).stays

theorem Stays.pollOneoff (h : Okay L R b (32 * c.toNat)) (h' : Okay L R d 4) :
    Stays (Len L) R (pollOneoff os a b c d) := by
  unfold Wasi.pollOneoff
  refine Stays.still_bind Still.mems fun _ => ?_
  refine Stays.still_post (fun r => ∀ l, r = .ok l → l.length ≤ c.toNat) (Still.readSubs _ _ _) (fun s v s' hv l hl => ?_)
    fun r hr => ?_
  · subst hl; exact readSubs_length _ _ _ _ _ _ hv
  cases r with
  | error e => exact (Still.pure _).stays
  | ok l =>
    have h1 := hr l rfl
    have h2 := subs_lengths l
    refine Stays.still_bind (Still.hostFds _) fun _ => Stays.still_bind (Still.hostFds _) fun _ =>
      Stays.still_bind Still.sys fun y => ?_
    refine Stays.bind_post (fun r => b ≤ r.1 ∧ r.1 ≤ b + 32 * (clocksOf l).length)
      (Stays.putClocks _ _ _ _ (h.sub (by omega) (by omega) (by omega))) (putClocks_end _ _ _ _) fun r1 hr1 => ?_
    refine Stays.bind_post (fun r => r1.1 ≤ r.1 ∧ r.1 ≤ r1.1 + 32 * (readsOf l).length)
      (Stays.putFds _ _ _ _ _ (h.sub (by omega) (by omega) (by omega))) (putFds_end _ _ _ _ _) fun r2 hr2 => ?_
    refine Stays.bind' (Stays.putFds _ _ _ _ _ (h.sub (by omega) (by omega) (by omega))) fun r3 => ?_
    exact Stays.bind' (Stays.putU h') fun _ => (Still.pure _).stays
end

end Pywasm.Wasi
