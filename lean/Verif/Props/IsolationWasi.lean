import Verif.Props.Isolation
import Verif.Props.WasiMain
import Verif.Spec.Instantiate

/-!
# C88 for WASI programs
-/

namespace Pywasm.Props
open Spec Spec.Typing M Wasi

variable {W : Part} {os : Os} {H : Host} {m m' : Machine} {N a : Nat} {d : ModuleDesc} {bufs : List Nat} {extern : List Extern}

/-- The host functions of the part are WASI functions. -/
def WasiOnly (W : Part) : Prop := ∀ c t, W.host c t → ∃ name, table[c]? = some (name, t)

theorem wasiTable_rets : ∀ p ∈ table, ∀ r ∈ p.2.rets, r.isRef = false := by decide

/-- **C88** The WASI functions keep to the part of their caller: they read and write no memory but its own, whatever the host
system answers. -/
theorem C88_wasi_keeps {strict : Bool} (hW : WasiOnly W) : W.HostKeeps strict (Wasi.host os H) := by
  intro a ty c caller args xs s t hcl hag hh _ _ hcaller _ _
  obtain ⟨name, hrow⟩ := hW c ty hh
  have hc : c < 46 := (List.getElem?_eq_some_iff.mp hrow).1
  have hrets := wasiTable_rets _ (List.mem_of_getElem? hrow)
  unfold Wasi.host
  rw [if_pos hc]
  generalize (intArgs xs).bind (callOf c) = q
  cases q with
  | none => exact ⟨rfl, hag, Iso.Part.Untouched.refl _ _, Iso.Part.Untouched.refl _ _, hcl⟩
  | some call =>
    have hmem : callerMem caller t = callerMem caller s := by
      unfold callerMem
      cases caller with
      | none => rfl
      | some mod =>
        show (mod.mems[0]?.bind fun a => t.mems[a]?) = mod.mems[0]?.bind fun a => s.mems[a]?
        cases hx : mod.mems[0]? with
        | none => rfl
        | some b => exact hag.mems b ((hcaller mod rfl).mems b (List.mem_of_getElem? hx))
    have hkept : ∀ st : St, W.Kept strict s t (putBack caller s st) (putBack caller t st) := by
      intro st
      unfold putBack
      cases hx : (caller.bind fun mod => mod.mems[0]?) with
      | none =>
        exact ⟨⟨hag.func, hag.tabl, hag.mems, hag.glob, hag.elem, hag.data, hag.mods, hag.bufs, rfl, hag.priv⟩,
          ⟨fun _ _ => rfl, fun _ _ => rfl, fun _ _ => rfl, fun _ _ => rfl, fun _ _ => rfl, fun _ _ => rfl, fun _ _ => rfl, fun _ _ => rfl⟩,
          ⟨fun _ _ => rfl, fun _ _ => rfl, fun _ _ => rfl, fun _ _ => rfl, fun _ _ => rfl, fun _ _ => rfl, fun _ _ => rfl, fun _ _ => rfl⟩,
          hcl.host, hcl.func, hcl.mods, hcl.tabl, hcl.glob, hcl.elem, hcl.data⟩
      | some b =>
        have hb : W.mems b := by
          cases caller with
          | none => cases hx
          | some mod => exact (hcaller mod rfl).mems b (List.mem_of_getElem? hx)
        cases st.mem with
        | none =>
          exact ⟨⟨hag.func, hag.tabl, hag.mems, hag.glob, hag.elem, hag.data, hag.mods, hag.bufs, rfl, hag.priv⟩,
            ⟨fun _ _ => rfl, fun _ _ => rfl, fun _ _ => rfl, fun _ _ => rfl, fun _ _ => rfl, fun _ _ => rfl, fun _ _ => rfl, fun _ _ => rfl⟩,
            ⟨fun _ _ => rfl, fun _ _ => rfl, fun _ _ => rfl, fun _ _ => rfl, fun _ _ => rfl, fun _ _ => rfl, fun _ _ => rfl, fun _ _ => rfl⟩,
            hcl.host, hcl.func, hcl.mods, hcl.tabl, hcl.glob, hcl.elem, hcl.data⟩
        | some mem =>
          have hset : ∀ (l : List MemInst) x, ¬ W.mems x → (l.set b mem)[x]? = l[x]? := by
            intro l x hx
            exact List.getElem?_set_ne (show b ≠ x from fun h => hx (h ▸ hb))
          refine ⟨⟨hag.func, hag.tabl, fun x hx => ?_, hag.glob, hag.elem, hag.data, hag.mods, hag.bufs, rfl, hag.priv⟩,
            ⟨fun _ _ => rfl, fun _ _ => rfl, hset _, fun _ _ => rfl, fun _ _ => rfl, fun _ _ => rfl, fun _ _ => rfl, fun _ _ => rfl⟩,
            ⟨fun _ _ => rfl, fun _ _ => rfl, hset _, fun _ _ => rfl, fun _ _ => rfl, fun _ _ => rfl, fun _ _ => rfl, fun _ _ => rfl⟩,
            hcl.host, hcl.func, hcl.mods, hcl.tabl, hcl.glob, hcl.elem, hcl.data⟩
          have h1 := hag.mems x hx
          show (t.mems.set b mem)[x]? = (s.mems.set b mem)[x]?
          by_cases hxb : b = x
          · subst hxb
            have : b < t.mems.length ↔ b < s.mems.length := by
              constructor <;> intro h
              · rw [List.getElem?_eq_getElem h] at h1
                exact (List.getElem?_eq_some_iff.mp h1.symm).1
              · rw [List.getElem?_eq_getElem h] at h1
                exact (List.getElem?_eq_some_iff.mp h1).1
            by_cases hlt : b < s.mems.length
            · rw [List.getElem?_set_self hlt, List.getElem?_set_self (this.mpr hlt)]
            · rw [List.getElem?_eq_none (by simp; omega), List.getElem?_eq_none (by simp; omega)]
          · rw [List.getElem?_set_ne hxb, List.getElem?_set_ne hxb, h1]
    simp only [runCall, hmem, hag.wasi]
    generalize call.run os (s.wasi.st (callerMem caller s)) = r
    cases r with
    | error e st => exact ⟨rfl, hkept st⟩
    | ok r st =>
      refine ⟨rfl, hkept st, fun p hp v hv => Iso.holds_num ?_⟩
      rw [Makes.fromAll _ _ _ hv]
      exact hrets _ (List.of_mem_zip hp).1

theorem optionMapM_mem {α β : Type} {f : α → Option β} : ∀ {l : List α} {r : List β}, l.mapM f = some r → ∀ b ∈ r, ∃ a ∈ l, f a = some b := by
  intro l
  induction l with
  | nil => intro r h b hb; rw [List.mapM_nil] at h; cases h; cases hb
  | cons a l ih =>
    intro r h b hb
    rw [List.mapM_cons] at h
    cases ha : f a with
    | none => rw [ha] at h; cases h
    | some x =>
      cases hl : l.mapM f with
      | none => rw [ha, hl] at h; cases h
      | some y =>
        rw [ha, hl] at h
        cases h
        rcases List.mem_cons.mp hb with rfl | hb
        · exact ⟨a, by simp, ha⟩
        · obtain ⟨a', h1, h2⟩ := ih hl b hb
          exact ⟨a', by simp [h1], h2⟩

theorem lookup_mem {β : Type} {k : String} {v : β} : ∀ {l : List (String × β)}, List.lookup k l = some v → ∃ k', (k', v) ∈ l := by
  intro l
  induction l with
  | nil => intro h; cases h
  | cons p l ih =>
    intro h
    rw [List.lookup_cons] at h
    split at h
    · cases h; exact ⟨p.1, by simp⟩
    · obtain ⟨k', hk⟩ := ih h
      exact ⟨k', by simp [hk]⟩

/-- The functions that `Preview1.bind` makes when the store has `base` functions. -/
def wasiPart (base : Nat) : Part :=
  { Part.none with
    host := fun c t => ∃ name, table[c]? = some (name, t)
    func := fun a => base ≤ a ∧ a < base + table.length }

/-- **C88** A program that imports only WASI functions, whatever the host system answers: `Preview1.bind`, instantiating the
program and any number of calls of its functions, with any of these raising, leave everything that was in the machine before
as it was.  Missing: as for `C88_untouched_partial`. -/
theorem C88_wasi_partial {imports imports' : Imports} {m1 m2 m3 : Machine} (hc : Clean m) (hb : Wasi.bind imports m = .ok imports' m1)
    (hp : PlainModule d) (hi : ∀ i ∈ d.imps, i.module = "wasi_snapshot_preview1") (hx : supplied imports' d = some extern)
    (h1 : Reaches (instantiate (Wasi.host os H) N d bufs extern) m1 m2)
    (h2 : Calls ((wasiPart m.store.func.length).grow m1.store d bufs) (Wasi.host os H) N m2 m3) : StillThere bufs m.store m3.store := by
  unfold Wasi.bind at hb
  rw [bind_ok (bindRows_run table 0 m)] at hb
  injection hb with e1 e2
  subst e1 e2
  have hsup : (wasiPart m.store.func.length).Supplies extern := by
    intro x hxm
    obtain ⟨i, him, hl⟩ := optionMapM_mem hx x hxm
    rw [hi i him, lookup_assocSet] at hl
    obtain ⟨k, hk⟩ := lookup_mem hl
    obtain ⟨j, hj⟩ := List.mem_iff_getElem?.mp hk
    rw [List.getElem?_zipWith] at hj
    cases hr : (List.range table.length)[j]? with
    | none => simp [hr] at hj
    | some j' =>
      cases ht : table[j]? with
      | none => simp [ht] at hj
      | some p =>
        simp only [hr, ht, Option.some.injEq, Prod.mk.injEq] at hj
        rw [← hj.2]
        have := List.mem_range.mp (List.mem_of_getElem? hr)
        exact ⟨by omega, by omega⟩
  have hfun : ∀ a f, m.store.func.length ≤ a →
      (m.store.func ++ (List.range table.length).zipWith (fun j (p : String × FuncType) => FuncInst.host p.2 (0 + j)) table)[a]? = some f →
      ∃ name t, table[a - m.store.func.length]? = some (name, t) ∧ f = .host t (a - m.store.func.length) := by
    intro a f ha hf
    rw [List.getElem?_append_right ha, List.getElem?_zipWith] at hf
    cases hr : (List.range table.length)[a - m.store.func.length]? with
    | none => simp [hr] at hf
    | some j' =>
      cases ht : table[a - m.store.func.length]? with
      | none => simp [ht] at hf
      | some p =>
        simp only [hr, ht, Option.some.injEq] at hf
        have := (List.getElem?_eq_some_iff.mp hr).2
        rw [List.getElem_range] at this
        exact ⟨p.1, p.2, rfl, by rw [← hf, ← this, Nat.zero_add]⟩
  have hcl : (wasiPart m.store.func.length).Closed true { m.store with
      func := m.store.func ++ (List.range table.length).zipWith (fun j (p : String × FuncType) => FuncInst.host p.2 (0 + j)) table } := by
    refine ⟨fun a t c ha hg => ?_, fun a t k code ha hg => ?_, nofun, nofun, nofun, nofun, nofun⟩
    · obtain ⟨name, t', ht, e⟩ := hfun a _ ha.1 hg
      injection e with e1 e2
      subst e1 e2
      exact ⟨name, ht⟩
    · obtain ⟨name, t', ht, e⟩ := hfun a _ ha.1 hg
      cases e
  have hH : ∀ s, ((wasiPart m.store.func.length).grow s d bufs).HostKeeps true (Wasi.host os H) := fun s => C88_wasi_keeps (fun c t h => h)
  have r1 := C88_instantiate_partial (hH _) (by exact hc) hcl hp hsup h1
  have r2 := r1.1.trans (C88_calls_partial (hH _) r1.2.1 h2).1
  refine ⟨prefix_of_get fun i hi => ?_, prefix_of_get fun i hi => r2.tabl i ?_, prefix_of_get fun i hi => r2.mems i ?_,
    prefix_of_get fun i hi => r2.glob i ?_, prefix_of_get fun i hi => r2.elem i ?_, prefix_of_get fun i hi => r2.data i ?_,
    prefix_of_get fun i hi => r2.mods i ?_, fun b hb => r2.bufs b ?_⟩
  · rw [r2.func i ?_]
    · exact List.getElem?_append_left hi
    · rintro (h | h)
      · have := h.1; omega
      · have := h.1
        simp only [List.length_append] at this
        omega
  all_goals
    intro hx
    rcases hx with hx | hx
    · exact hx
    · first
      | exact hb hx
      | (simp only at hx; omega)

/-! ## The hypotheses can be met -/

/-- A program that calls `sched_yield`. -/
def isoYield : ModuleDesc where
  type := [⟨[], [.i32]⟩, ⟨[], []⟩]
  imps := [⟨"wasi_snapshot_preview1", "sched_yield", .func 0⟩]
  func := [⟨1, [], [.call 0, .drop]⟩]

theorem isoYield_plain : PlainModule isoYield := by
  refine ⟨?_, nofun, nofun, nofun, nofun⟩
  intro f hf
  simp only [isoYield, List.mem_cons, List.not_mem_nil, or_false] at hf
  subst hf; rfl

example : ∃ imports' m1 extern m2 m3, Wasi.bind [] isoFirst = .ok imports' m1 ∧ supplied imports' isoYield = some extern ∧
    extern = [.func 42] ∧ Reaches (instantiate (Wasi.host os H) 100 isoYield [] extern) m1 m2 ∧
    Reaches (invocate (Wasi.host os H) 100 47 []) m2 m3 ∧ StillThere [] isoFirst.store m3.store := by
  obtain ⟨imports', m1, hb, hx, hlen⟩ : ∃ imports' m1, Wasi.bind [] isoFirst = .ok imports' m1 ∧
      supplied imports' isoYield = some [.func 42] ∧ m1.store.func.length = 47 := by
    have h : (match Wasi.bind [] isoFirst with | .ok i m => some (supplied i isoYield, m.store.func.length) | .error _ _ => none) =
        some (some [.func 42], 47) := by decide +kernel
    cases hx : Wasi.bind [] isoFirst with
    | error e m => rw [hx] at h; cases h
    | ok i m =>
      rw [hx] at h
      injection h with h
      injection h with h1 h2
      exact ⟨i, m, rfl, h1, h2⟩
  obtain ⟨m2, h2⟩ := reaches_some (instantiate (Wasi.host os H) 100 isoYield [] [.func 42]) m1
  obtain ⟨m3, h3⟩ := reaches_some (invocate (Wasi.host os H) 100 47 []) m2
  refine ⟨_, _, _, m2, m3, hb, hx, rfl, h2, h3, ?_⟩
  refine C88_wasi_partial (os := os) (H := H) (N := 100) ⟨rfl, rfl, rfl⟩ hb isoYield_plain (by simp [isoYield]) hx h2
    (.call (a := 47) (.inr ⟨by rw [hlen], by rw [hlen]; decide⟩) (by simp) h3 (.done _))

/-- The 46 functions of WASI, and nothing else. -/
example (os : Os) (H : Host) := C88_wasi_keeps (os := os) (H := H) (strict := true) (W := { Part.none with host := fun c t => ∃ name, table[c]? = some (name, t) }) fun _ _ h => h

end Pywasm.Props
