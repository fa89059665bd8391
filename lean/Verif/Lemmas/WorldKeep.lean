import Verif.Lemmas.Wp
import Verif.Model.Instance
import Verif.Spec.History

/-!
# Only host functions change the private state of host functions
-/

namespace Pywasm
open Spec M

variable {H : Host} {P : Wasi.World → Prop}

/-- running `x` keeps `P` of the private state -/
def KeepsW {α} (P : Wasi.World → Prop) (x : M α) : Prop :=
  ∀ m : Machine, P m.store.wasi → Wp x (fun _ m' => P m'.store.wasi) (fun m' => P m'.store.wasi) m

/-- host functions keep `P` -/
def HostW (P : Wasi.World → Prop) (H : Host) : Prop :=
  ∀ c mod args s, P s.wasi → (∀ r s', H c mod args s = .ok r s' → P s'.wasi) ∧ (∀ e s', H c mod args s = .error e s' → P s'.wasi)

namespace KeepsW
theorem bind {α β} {x : M α} {f : α → M β} (hx : KeepsW P x) (hf : ∀ a, KeepsW P (f a)) : KeepsW P (x >>= f) := fun m h =>
  wp_bind (wp_mono (hx m h) (fun a m' h' => hf a m' h') (fun _ h' => h'))

theorem evaluateBr (l : Nat) : KeepsW P (evaluateBr l) := by
  intro m h
  unfold Pywasm.evaluateBr
  wp_run
  all_goals try exact h
  split <;> wp_run <;> exact h
theorem evaluateBype (b : Bype) : KeepsW P (evaluateBype b) := by
  intro m h
  cases b <;> unfold Pywasm.evaluateBype <;> wp_run <;> exact h
theorem evaluateCall (hH : HostW P H) (addr : Int) : KeepsW P (evaluateCall H addr) := by
  intro m h
  unfold Pywasm.evaluateCall
  wp_run
  all_goals try exact h
  split
  · wp_run
    all_goals exact h
  · wp_run
    all_goals try exact h
    all_goals first
      | exact (hH _ _ _ _ h).1 _ _ (by assumption)
      | exact (hH _ _ _ _ h).2 _ _ (by assumption)
theorem memLoad (off k : Nat) : KeepsW P (evaluateMemLoad off k) := by
  intro m h
  unfold evaluateMemLoad
  wp_run <;> exact h
theorem memSave (off k : Nat) : KeepsW P (evaluateMemSave off k) := by
  intro m h
  unfold evaluateMemSave
  wp_run <;> exact h
theorem pushBlock (lab : Label) (bt : FuncType) (body : List Inst) : KeepsW P (pushBlock lab bt body) := by
  intro m h
  unfold Pywasm.pushBlock
  wp_run <;> exact h
theorem setLocal (i : Nat) (a : Val) : KeepsW P (exec.setLocal i a) := by
  intro m h
  unfold exec.setLocal
  wp_run <;> exact h

theorem exec (hH : HostW P H) (lab : Label) (f : Frame) (i : Inst) : KeepsW P (exec H lab f i) := by
  cases i with
  | block bt body =>
    simp only [Pywasm.exec]
    exact (evaluateBype bt).bind fun bt => pushBlock lab bt body
  | loop bt body =>
    simp only [Pywasm.exec]
    refine (evaluateBype bt).bind fun bt m h => ?_
    wp_run <;> exact h
  | ifThen bt thn els =>
    simp only [Pywasm.exec]
    refine (evaluateBype bt).bind fun bt m h => ?_
    wp_run
    · exact pushBlock lab bt _ _ h
    · exact h
  | br l => exact evaluateBr l
  | brIf l =>
    intro m h
    simp only [Pywasm.exec]
    wp_run
    · exact evaluateBr l _ h
    all_goals exact h
  | brTable ls d =>
    intro m h
    simp only [Pywasm.exec]
    wp_run
    · exact evaluateBr _ _ h
    all_goals exact h
  | call k =>
    intro m h
    simp only [Pywasm.exec]
    wp_run
    · exact evaluateCall hH _ _ h
    all_goals exact h
  | callIndirect t tab =>
    intro m h
    simp only [Pywasm.exec]
    wp_run
    · exact evaluateCall hH _ _ h
    all_goals exact h
  | localSet i =>
    intro m h
    simp only [Pywasm.exec]
    wp_run
    · exact setLocal _ _ _ h
    all_goals exact h
  | localTee i =>
    intro m h
    simp only [Pywasm.exec]
    wp_run
    · exact setLocal _ _ _ h
    all_goals exact h
  | load op al off =>
    simp only [Pywasm.exec]
    refine (memLoad off _).bind fun b m h => ?_
    wp_run <;> exact h
  | store op al off =>
    simp only [Pywasm.exec]
    exact memSave off _
  | loadLane w al off l =>
    intro m h
    simp only [Pywasm.exec]
    wp_run
    · refine wp_mono (memLoad (P := P) off _ _ h) (fun b m' h' => ?_) (fun _ h' => h')
      wp_run <;> exact h'
    · exact h
  | storeLane w al off l =>
    intro m h
    simp only [Pywasm.exec]
    wp_run
    · exact memSave off _ _ h
    all_goals exact h
  | _ =>
    intro m h
    simp only [Pywasm.exec]
    wp_run <;> exact h

theorem step (hH : HostW P H) : KeepsW P (step H) := by
  intro m h
  unfold Pywasm.step
  wp_run
  all_goals try exact h
  exact exec hH _ _ _ _ h

theorem evaluate (hH : HostW P H) (N : Nat) : KeepsW P (evaluate H N) := by
  induction N with
  | zero => intro m h; exact wp_pure h
  | succ N ih =>
    intro m h
    unfold Pywasm.evaluate
    wp_run
    · exact h
    · exact wp_mono (step hH m h) (fun _ m' h' => ih m' h') (fun _ h' => h')

theorem invocate (hH : HostW P H) (N : Nat) (addr : Int) (args : List Val) : KeepsW P (invocate H N addr args) := by
  intro m h
  unfold Pywasm.invocate
  wp_run
  · split
    · wp_run; exact h
    · wp_run
      · refine wp_mono (evaluate (P := P) hH N _ h) (fun _ m' h' => ?_) (fun _ h' => h')
        wp_run <;> exact h'
      all_goals exact h
  · exact h

theorem pure {α} (a : α) : KeepsW P (pure a : M α) := fun _ h => wp_pure h
theorem forIn {α β} (l : List α) (f : α → β → M (ForInStep β)) (hf : ∀ a b, KeepsW P (f a b)) :
    ∀ b : β, KeepsW P (forIn l b f) := by
  induction l with
  | nil => intro b; rw [List.forIn_nil]; exact pure b
  | cons a l ih =>
    intro b
    rw [List.forIn_cons]
    refine (hf a b).bind fun r => ?_
    cases r with
    | done b => exact pure b
    | yield b => exact ih b
theorem mapM {α β} (l : List α) (f : α → M β) (hf : ∀ a, KeepsW P (f a)) : KeepsW P (l.mapM f) := by
  induction l with
  | nil => rw [List.mapM_nil]; exact pure _
  | cons a l ih =>
    rw [List.mapM_cons]
    exact (hf a).bind fun _ => ih.bind fun _ => pure _
theorem get : KeepsW P (get : M Machine) := fun _ h => wp_get h
theorem idx {α} (l : List α) (i : Nat) : KeepsW P (idx l i) := fun _ h => wp_idx (fun _ _ => h) h
theorem lift {α} (e : Except Err α) : KeepsW P (lift e) := fun _ h => wp_lift (fun _ _ => h) h
theorem assert (c : Bool) : KeepsW P (assert c) := fun _ h => wp_assert (fun _ => h) h
theorem pop : KeepsW P pop := fun _ h => wp_pop (fun _ _ _ => h) h
theorem modify (f : Machine → Machine) (hf : ∀ m, (f m).store.wasi = m.store.wasi) : KeepsW P (modify f) :=
  fun m h => wp_modify (by rw [hf]; exact h)
theorem ite {α} {c : Prop} [Decidable c] {x y : M α} (hx : KeepsW P x) (hy : KeepsW P y) :
    KeepsW P (if c then x else y) := by
  split
  · exact hx
  · exact hy
theorem loadBuffers (d : ModuleDesc) : KeepsW P (loadBuffers d) := by
  intro m h
  unfold Wp Pywasm.loadBuffers
  exact h
theorem editMod (k : Nat) (f : ModuleInst → ModuleInst) : KeepsW P (editMod k f) := modify _ fun _ => rfl
theorem allocateFuncWasm (k : Nat) (f : FuncDesc) : KeepsW P (allocateFuncWasm k f) := by
  intro m h
  unfold Pywasm.allocateFuncWasm
  wp_run <;> exact h
theorem allocateFuncHost (t : FuncType) (c : Nat) : KeepsW P (allocateFuncHost t c) := by
  intro m h
  unfold Pywasm.allocateFuncHost
  wp_run; exact h
theorem allocateTable (t : TableType) : KeepsW P (allocateTable t) := by
  intro m h
  unfold Pywasm.allocateTable
  wp_run <;> exact h
theorem allocateMemory (t : Limits) : KeepsW P (allocateMemory t) := by
  intro m h
  unfold Pywasm.allocateMemory
  wp_run <;> exact h
theorem allocateGlobal (t : GlobalType) (v : Val) : KeepsW P (allocateGlobal t v) := by
  intro m h
  unfold Pywasm.allocateGlobal
  wp_run; exact h
theorem allocateElem (t : ValType) (v : List Val) : KeepsW P (allocateElem t v) := by
  intro m h
  unfold Pywasm.allocateElem
  wp_run <;> exact h
theorem allocateData (b : Nat) : KeepsW P (allocateData b) := by
  intro m h
  unfold Pywasm.allocateData
  wp_run; exact h
theorem resolveExport (i : ModuleInst) (e : ExportDesc) : KeepsW P (resolveExport i e) := by
  unfold Pywasm.resolveExport
  split <;> exact (idx _ _).bind fun _ => pure _

theorem allocate (d : ModuleDesc) (bufs : List Nat) (extern : List Extern)
    (globin : List Val) (elemin : List (List Val)) : KeepsW P (allocate d bufs extern globin elemin) := by
  unfold Pywasm.allocate
  refine get.bind fun _ => (modify _ (by intro; rfl)).bind fun _ => ?_
  refine (forIn _ _ (fun _ _ => (editMod _ _).bind fun _ => pure _) _).bind fun _ => ?_
  refine (forIn _ _ (fun _ _ => (allocateFuncWasm _ _).bind fun _ =>
    (editMod _ _).bind fun _ => pure _) _).bind fun _ => ?_
  refine (forIn _ _ (fun _ _ => (allocateTable _).bind fun _ =>
    (editMod _ _).bind fun _ => pure _) _).bind fun _ => ?_
  refine (forIn _ _ (fun _ _ => (allocateMemory _).bind fun _ =>
    (editMod _ _).bind fun _ => pure _) _).bind fun _ => ?_
  refine (forIn _ _ (fun _ _ => (idx _ _).bind fun _ => (allocateGlobal _ _).bind fun _ =>
    (editMod _ _).bind fun _ => pure _) _).bind fun _ => ?_
  refine (forIn _ _ (fun _ _ => (idx _ _).bind fun _ => (allocateElem _ _).bind fun _ =>
    (editMod _ _).bind fun _ => pure _) _).bind fun _ => ?_
  refine (forIn _ _ (fun _ _ => (idx _ _).bind fun _ => (allocateData _).bind fun _ =>
    (editMod _ _).bind fun _ => pure _) _).bind fun _ => ?_
  refine (forIn _ _ (fun _ _ => get.bind fun _ => (idx _ _).bind fun _ =>
    (resolveExport _ _).bind fun _ => (editMod _ _).bind fun _ => pure _) _).bind fun _ => ?_
  exact get.bind fun _ => idx _ _

theorem checkImport (d : ModuleDesc) (a : Import) (b : Extern) : KeepsW P (checkImport d a b) := by
  unfold Pywasm.checkImport
  split
  · exact get.bind fun _ => (idx _ _).bind fun _ => (idx _ _).bind fun _ => assert _
  · exact get.bind fun _ => (idx _ _).bind fun _ => (assert _).bind fun _ => assert _
  · exact get.bind fun _ => (idx _ _).bind fun _ => assert _
  · exact get.bind fun _ => (idx _ _).bind fun _ => (assert _).bind fun _ => assert _
  · exact assert _
theorem runInit (hH : HostW P H) (N : Nat) (e : Expr) (k : Nat) : KeepsW P (runInit H N e k) := by
  unfold Pywasm.runInit
  refine (modify _ (by intro; rfl)).bind fun _ => (evaluate hH N).bind fun _ => ?_
  exact get.bind fun _ => (assert _).bind fun _ => get.bind fun _ => (assert _).bind fun _ =>
    get.bind fun _ => assert _
theorem runConst (hH : HostW P H) (N : Nat) (e : Expr) : KeepsW P (runConst H N e) :=
  (runInit hH N e 1).bind fun _ => pop
theorem linkImports (d : ModuleDesc) (extern : List Extern) : KeepsW P (linkImports d extern) := by
  unfold Pywasm.linkImports
  exact (assert _).bind fun _ =>
    (forIn _ _ (fun _ _ => (checkImport _ _ _).bind fun _ => pure _) _).bind fun _ => pure _
theorem buildInstance (hH : HostW P H) (N : Nat) (d : ModuleDesc) (bufs : List Nat)
    (extern : List Extern) : KeepsW P (buildInstance H N d bufs extern) := by
  unfold Pywasm.buildInstance
  refine get.bind fun _ => (modify _ (by intro; rfl)).bind fun _ => ?_
  refine (mapM _ _ fun _ => runConst hH _ _).bind fun _ => ?_
  refine (mapM _ _ fun _ => mapM _ _ fun _ => runConst hH _ _).bind fun _ => ?_
  refine (modify _ (by intro; rfl)).bind fun _ => ?_
  refine (allocate _ _ _ _ _).bind fun _ => ?_
  exact (assert _).bind fun _ => pure _
theorem initSegments (hH : HostW P H) (N : Nat) (d : ModuleDesc) (bufs : List Nat) :
    KeepsW P (initSegments H N d bufs) := by
  unfold Pywasm.initSegments
  refine (forIn _ _ (fun _ _ => ?_) _).bind fun _ => ?_
  · exact ite ((runInit hH _ _ _).bind fun _ => pure _) (pure _)
  refine (forIn _ _ (fun _ _ => ?_) _).bind fun _ => ?_
  · exact ite ((runInit hH _ _ _).bind fun _ => pure _) (pure _)
  refine (forIn _ _ (fun _ _ => ?_) _).bind fun _ => pure _
  exact ite ((idx _ _).bind fun _ => get.bind fun _ => (idx _ _).bind fun _ => (runInit hH _ _ _).bind fun _ => pure _) (pure _)
theorem runStart (hH : HostW P H) (N : Nat) (d : ModuleDesc) : KeepsW P (runStart H N d) := by
  unfold Pywasm.runStart
  split
  · exact runInit hH _ _ _
  · exact pure _
theorem instantiate (hH : HostW P H) (N : Nat) (d : ModuleDesc) (bufs : List Nat)
    (extern : List Extern) : KeepsW P (instantiate H N d bufs extern) := by
  unfold Pywasm.instantiate
  refine (linkImports _ _).bind fun _ => (buildInstance hH _ _ _ _).bind fun _ => ?_
  refine (modify _ (by intro; rfl)).bind fun _ => (initSegments hH _ _ _).bind fun _ => ?_
  exact (runStart hH _ _).bind fun _ => (modify _ (by intro; rfl)).bind fun _ => pure _
theorem runtimeInstance (hH : HostW P H) (N : Nat) (imports : Imports) (d : ModuleDesc)
    (bufs : List Nat) : KeepsW P (Runtime.instance H N imports d bufs) :=
  (mapM _ _ fun _ => lift _).bind fun _ => instantiate hH _ _ _ _
theorem runtimeInvocate (hH : HostW P H) (N : Nat) (mod : ModuleInst) (name : String) (args : List HVal) :
    KeepsW P (Runtime.invocate H N mod name args) := by
  unfold Runtime.invocate
  exact (lift _).bind fun _ => get.bind fun _ => (idx _ _).bind fun _ => (assert _).bind fun _ =>
    (lift _).bind fun _ => (invocate hH _ _ _).bind fun _ => lift _

theorem final {α} {x : M α} (h : KeepsW P x) (m : Machine) (hm : P m.store.wasi) : P (Spec.final x m).store.wasi := by
  have := h m hm
  unfold Wp at this
  unfold Spec.final
  cases hx : x m <;> simp only [hx] at this ⊢ <;> exact this

omit H in
theorem onMemory (f : MemInst → Option MemInst) (a : Nat) (m : Machine) (hm : P m.store.wasi) : P (Spec.onMemory f a m).store.wasi := by
  unfold Spec.onMemory
  split <;> exact hm

theorem perform (hH : HostW P H) (N : Nat) (a : Action) (m : Machine) (hm : P m.store.wasi) :
    P (a.perform H N m).store.wasi := by
  cases a with
  | decode d => exact final (loadBuffers d) m hm
  | «instance» i d b => exact final (runtimeInstance hH N i d b) m hm
  | invocate mod name args => exact final (runtimeInvocate hH N mod name args) m hm
  | newMemory l => exact final (allocateMemory l) m hm
  | newTable t => exact final (allocateTable t) m hm
  | newGlobal t v => exact final (allocateGlobal t v) m hm
  | newHostFunc t c => exact final (allocateFuncHost t c) m hm
  | putMemory a p d => exact onMemory _ a m hm
  | growMemory a n => exact onMemory _ a m hm
theorem history (hH : HostW P H) (N : Nat) (acts : List Action) (m : Machine) (hm : P m.store.wasi) :
    P (history H N acts m).store.wasi := by
  induction acts generalizing m with
  | nil => exact hm
  | cons a acts ih => exact ih _ (perform hH N a m hm)
end KeepsW
end Pywasm
