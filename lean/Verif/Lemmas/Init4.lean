import Verif.Lemmas.Init3

namespace Pywasm
open Spec M Props

variable {H : Host} {m m' : Machine} {N : Nat}

theorem addresses_get {b n k : Nat} (h : k < n) : (addresses b n)[k]? = some (b + k) := by
  unfold addresses; rw [List.getElem?_range' h]; simp

theorem linked_mem {s : Store} {d : ModuleDesc} {l : List Import} {extern : List Extern}
    (h : List.Forall₂ (fun i x => ImportMatches s d i.desc x) l extern) {x : Extern} (hx : x ∈ extern) :
    ∃ i, ImportMatches s d i x := by
  induction h with
  | nil => cases hx
  | cons h1 _ ih =>
    rcases List.mem_cons.mp hx with rfl | hx
    · exact ⟨_, h1⟩
    · exact ih hx

theorem imported_table {s : Store} {d : ModuleDesc} {extern : List Extern} (h : Linked s d extern) {a : Nat}
    (ha : a ∈ importedTables extern) : a < s.tabl.length := by
  unfold importedTables at ha
  rw [List.mem_filterMap] at ha
  obtain ⟨x, hx, hxa⟩ := ha
  obtain ⟨i, hi⟩ := linked_mem h hx
  cases hi <;> simp at hxa
  subst hxa
  rename_i h1 _ _
  exact (List.getElem?_eq_some_iff.mp h1).1

theorem imported_mem {s : Store} {d : ModuleDesc} {extern : List Extern} (h : Linked s d extern) {a : Nat}
    (ha : a ∈ importedMems extern) : a < s.mems.length := by
  unfold importedMems at ha
  rw [List.mem_filterMap] at ha
  obtain ⟨x, hx, hxa⟩ := ha
  obtain ⟨i, hi⟩ := linked_mem h hx
  cases hi <;> simp at hxa
  subst hxa
  rename_i h1 _
  exact (List.getElem?_eq_some_iff.mp h1).1

/-- Entry `k` of an index space. -/
theorem space_get {l : List Nat} {b n k len : Nat} (hl : ∀ a ∈ l, a < b) (hk : k < l.length + n) (hb : len = b + n) :
    ∃ a, (l ++ addresses b n)[k]? = some a ∧ a < len := by
  by_cases h : k < l.length
  · refine ⟨l[k], by rw [List.getElem?_append_left h, List.getElem?_eq_getElem h], ?_⟩
    have := hl _ (List.getElem_mem h)
    omega
  · refine ⟨b + (k - l.length), ?_, by omega⟩
    rw [List.getElem?_append_right (by omega), addresses_get (by omega)]

/-- The store after instantiation, before the start function. -/
structure Segments (m : Machine) (d : ModuleDesc) (bufs : List Nat) (mod : ModuleInst) (m1 m' : Machine) : Prop where
  frame : m'.frame = m1.frame
  label : m'.label = []
  value : m'.value = []
  tabl : initElems m.store mod d m1.store.tabl = some m'.store.tabl
  mems : initDatas m.store mod d m1.store.mems = some m'.store.mems
  rest : m'.store.func = m1.store.func ∧ m'.store.glob = m1.store.glob ∧ m'.store.mods = m1.store.mods ∧ m'.store.data = m1.store.data
  dropped : ∀ (k x : Nat) e, d.data[k]? = some e → bufs[k]? = some x → m'.store.bufs[x]? = some (if e.kind % 2 = 0 then [] else e.init)
  keep : ∀ x, x ∉ bufs → m'.store.bufs[x]? = m.store.bufs[x]?
  elem : Shrunk m1.store.elem m'.store.elem
  elemEq : m'.store.elem = d.elem.zipIdx.foldl (dropStep m.store.elem.length (·.kind % 4 = 3))
    (d.elem.zipIdx.foldl (dropStep m.store.elem.length (·.kind % 2 = 0)) m1.store.elem)
  bufsEq : m'.store.bufs = (d.data.zip bufs).foldl (fun B p => if p.1.kind % 2 = 0 then B.set p.2 [] else B) m1.store.bufs
  other : m'.store = { m1.store with tabl := m'.store.tabl, mems := m'.store.mems, elem := m'.store.elem, bufs := m'.store.bufs }
  bufs : m'.store.bufs.length = m1.store.bufs.length

theorem initSegments_wp {d : ModuleDesc} {bufs : List Nat} {extern : List Extern} {mod : ModuleInst} {m1 : Machine} (hc : Clean m)
    (hlink : Linked m.store d extern) (hd : ValidInit m.store d extern) (hb : FreshBuffers m.store d bufs)
    (h : Built m d bufs extern mod m1) :
    Wp (initSegments H N d bufs) (fun _ m' => Segments m d bufs mod { m1 with frame := ⟨mod, [], 0, 0, 0⟩ :: m1.frame } m')
      (fun _ => ¬ (5 < N ∧ (∃ T, initElems m.store mod d m1.store.tabl = some T) ∧ ∃ T, initDatas m.store mod d m1.store.mems = some T)) { m1 with frame := ⟨mod, [], 0, 0, 0⟩ :: m1.frame } := by
  obtain ⟨xs, hxs, hmod⟩ := h.inst
  obtain ⟨gs, hgs, hglob⟩ := h.glob
  obtain ⟨es, hes, helem⟩ := h.elem
  obtain ⟨ds, hds, hdata⟩ := h.data
  have hmf : mod.func = importedFuncs extern ++ addresses m.store.func.length d.func.length := by rw [hmod]; rfl
  have hmg : mod.glob = importedGlobs extern ++ addresses m.store.glob.length d.glob.length := by rw [hmod]; rfl
  have hcv : ∀ e v, constVal m.store mod.func mod.glob e = some v →
      constVal m1.store mod.func mod.glob e = some v := by
    intro e v hv
    have := constVal_mono (G' := []) hv (s' := m1.store) (fun i x hx => by rw [hglob]; exact append_getElem? gs hx)
    simpa using this
  have hcv' : ∀ e v, constVal m.store mod.func (importedGlobs extern) e = some v →
      constVal m.store mod.func mod.glob e = some v := by
    intro e v hv
    rw [hmg]
    exact constVal_mono hv fun _ _ h => h
  have hf : m1.frame = [] := h.frame.trans hc.1
  have hl : m1.label = [] := h.label.trans hc.2.1
  have hv : m1.value = [] := h.value.trans hc.2.2
  unfold initSegments
  apply wp_bind
  refine wp_mono (elemLoop_wp (H := H) (N := N) (d := d) (f := ⟨mod, [], 0, 0, 0⟩) (b := m.store.elem.length) (s0 := m.store)
    (by simp [hf]) hl hv hcv ?_ (fun e he => (hd.elem e he).1) ?_) (fun _ m2 h2 => ?_) (fun _ h hg => h ⟨hg.1, hg.2.1⟩)
  · intro e he hk
    obtain ⟨ht, v, hv⟩ := hd.active e he hk
    refine ⟨⟨v, hcv' _ _ (hmf ▸ hv)⟩, ?_⟩
    rw [show (⟨mod, [], 0, 0, 0⟩ : Frame).module.tabl = importedTables extern ++ addresses m.store.tabl.length d.tabl.length by rw [hmod]; rfl]
    exact space_get (fun a ha => imported_table hlink ha) ht (by simp [h.tabl])
  · intro k e hk
    have hk' : k < d.elem.length := (List.getElem?_eq_some_iff.mp hk).1
    refine ⟨by rw [show (⟨mod, [], 0, 0, 0⟩ : Frame).module.elem = addresses m.store.elem.length d.elem.length by rw [hmod]; rfl]; exact addresses_get hk', ?_⟩
    have hlen := hes.length_eq
    refine ⟨es[k], by simp [helem, List.getElem?_append_right, List.getElem?_eq_getElem (show k < es.length by omega)], ?_⟩
    obtain ⟨vs, h1, h2⟩ := (List.forall₂_iff_get.mp hes).2 k hk' (by omega)
    simp only [List.get_eq_getElem] at h1 h2
    rw [h2]
    have : e = d.elem[k] := by rw [List.getElem?_eq_getElem hk'] at hk; exact (Option.some.inj hk).symm
    rw [this]
    exact forall₂_imp' h1 fun a b h => hcv' a b h
  obtain ⟨T, E, hT, hTl, hEl, hEq, rfl⟩ := h2
  apply wp_bind
  refine wp_mono (dropLoop_wp (H := H) (N := N) (d := d) (f := ⟨mod, [], 0, 0, 0⟩) (b := m.store.elem.length)
    (by simp [hf]) hl hv ?_) (fun _ m2 h2 => ?_) (fun _ h hg => h hg.1)
  · intro k e hk
    have hk' : k < d.elem.length := (List.getElem?_eq_some_iff.mp hk).1
    refine ⟨by rw [show (⟨mod, [], 0, 0, 0⟩ : Frame).module.elem = addresses m.store.elem.length d.elem.length by rw [hmod]; rfl]; exact addresses_get hk', ?_⟩
    have := hes.length_eq
    simp only at hEl ⊢
    rw [← hEl.length_eq, helem, List.length_append]
    omega
  obtain ⟨E', hE', hEq', rfl⟩ := h2
  apply wp_bind
  refine wp_mono (dataLoop_wp (H := H) (N := N) (d := d) (f := ⟨mod, [], 0, 0, 0⟩) (b := m.store.data.length) (s0 := m.store)
    (bufs := bufs) (by simp [hf]) hl hv hcv ?_ hb.1 ?_) (fun _ m2 h2 => ?_) (fun _ h hg => h ⟨hg.1, hg.2.2⟩)
  · intro e he hk
    obtain ⟨hs, ht, v, hv⟩ := hd.data e he hk
    refine ⟨hs, ⟨v, hcv' _ _ (hmf ▸ hv)⟩, ?_⟩
    rw [show (⟨mod, [], 0, 0, 0⟩ : Frame).module.mems = importedMems extern ++ addresses m.store.mems.length d.mems.length by rw [hmod]; rfl]
    exact space_get (fun a ha => imported_mem hlink ha) ht (by simp [h.mems])
  · intro k e hk
    have hk' : k < d.data.length := (List.getElem?_eq_some_iff.mp hk).1
    have hlen := hds.length_eq
    simp only [List.length_zipIdx] at hlen
    have h3 := (List.forall₂_iff_get.mp hds).2 k (by simpa using hk') (by omega)
    simp only [List.get_eq_getElem, List.getElem_zipIdx, Nat.zero_add] at h3
    refine ⟨by rw [show (⟨mod, [], 0, 0, 0⟩ : Frame).module.data = addresses m.store.data.length d.data.length by rw [hmod]; rfl]; exact addresses_get hk', ds[k], h3,
      by simp [hdata, List.getElem?_append_right, List.getElem?_eq_getElem (show k < ds.length by omega)], ?_⟩
    have hb2 := hb.2
    have hbl := hb2.length_eq
    have h4 := (List.forall₂_iff_get.mp hb2).2 k hk' (by omega)
    simp only [List.get_eq_getElem] at h4
    rw [List.getElem?_eq_getElem (show k < bufs.length by omega), Option.some.injEq] at h3
    have : e = d.data[k] := by rw [List.getElem?_eq_getElem hk'] at hk; exact (Option.some.inj hk).symm
    simp only
    rw [h.bufs, ← h3, h4, this]
  obtain ⟨T2, B, hT2, hB1, hB2, hBl, hBq, rfl⟩ := h2
  refine wp_pure ⟨rfl, hl, hv, hT, hT2, ⟨rfl, rfl, rfl, rfl⟩, hB1, fun x hx => ?_, hEl.trans hE', ?_, hBq, rfl, hBl⟩
  swap
  · rw [← hEq]; exact hEq' 
  simp only
  rw [hB2 x hx]
  simp only
  rw [h.bufs]

/-- Nothing prevents the instantiation: the imports match, everything can be made, the segments fit and the start function
returns. -/
structure InstOk (H : Host) (N : Nat) (m : Machine) (d : ModuleDesc) (bufs : List Nat) (extern : List Extern) : Prop where
  link : Linked m.store d extern
  steps : 5 < N
  build : BuildOk N m.store d bufs extern
  fits : ∀ mod m1, Built m d bufs extern mod m1 →
    (∃ T, initElems m.store mod d m1.store.tabl = some T) ∧ (∃ T, initDatas m.store mod d m1.store.mems = some T)
  start : ∀ mod m1 m2, Built m d bufs extern mod m1 → Segments m d bufs mod { m1 with frame := ⟨mod, [], 0, 0, 0⟩ :: m1.frame } m2 →
    ∃ m3, runStart H N d m2 = .ok () m3

/-- What `Machine.instance` does: it builds the instance, copies the segments, runs the start function.  It raises only if
something prevents this. -/
theorem instantiate_wp {d : ModuleDesc} {bufs : List Nat} {extern : List Extern} (hc : Clean m)
    (hd : ValidInit m.store d extern) (hb : FreshBuffers m.store d bufs) :
    Wp (instantiate H N d bufs extern) (fun mod m' => Linked m.store d extern ∧ ∃ m1 m2, Built m d bufs extern mod m1 ∧
      Segments m d bufs mod { m1 with frame := ⟨mod, [], 0, 0, 0⟩ :: m1.frame } m2 ∧
      ∃ m3, runStart H N d m2 = .ok () m3 ∧ m' = { m3 with frame := m3.frame.tail }) (fun _ => ¬ InstOk H N m d bufs extern) m := by
  unfold instantiate
  by_cases hlink : Linked m.store d extern
  swap
  · obtain ⟨e, he⟩ := linkImports_run.2 hlink
    unfold Wp
    rw [bind_err he]
    exact fun h => hlink h.link
  have h0 := linkImports_run.1 hlink
  have : ∀ {Q E} {x : M ModuleInst}, Wp x Q E m → Wp (linkImports d extern >>= fun _ => x) Q E m := by
    intro Q E x hx
    unfold Wp at *
    rw [bind_ok h0]
    exact hx
  apply this
  apply wp_bind
  refine wp_mono (buildInstance_wp hc hd) (fun mod m1 h1 => ?_) (fun _ h hg => h hg.build)
  apply wp_bind; apply wp_modify; apply wp_bind
  refine wp_mono (initSegments_wp hc hlink hd hb h1) (fun _ m2 h2 => ?_) (fun _ h hg => h ⟨hg.steps, hg.fits mod m1 h1⟩)
  apply wp_bind
  have h3 : Wp (runStart H N d) (fun _ m3 => runStart H N d m2 = .ok () m3) (fun _ => ¬ InstOk H N m d bufs extern) m2 := by
    unfold Wp
    cases hx : runStart H N d m2 with
    | ok _ _ => rfl
    | error _ _ =>
      intro hg
      obtain ⟨m3, h3⟩ := hg.start mod m1 m2 h1 h2
      rw [hx] at h3
      cases h3
  refine wp_mono h3 (fun _ m3 h3 => ?_) (fun _ h => h)
  apply wp_bind; apply wp_modify
  exact wp_pure ⟨hlink, m1, m2, h1, h2, m3, h3, rfl⟩

end Pywasm
