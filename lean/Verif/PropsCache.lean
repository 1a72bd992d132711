import Verif.Cache
import Verif.Demo
import Verif.StepLemmas
import Verif.WrapLemmas

/-!
# Function cache: C29, C30
-/

namespace Mbd

open Real Classical

variable {Q : Type}

theorem touch_same {κ α : Type} [DecidableEq κ] (tr : κ → Option α) (k : κ) (v : α) :
    touch tr k v k = some ((tr k).getD v) := by simp [touch]

theorem touch_ne {κ α : Type} [DecidableEq κ] (tr : κ → Option α) {k j : κ} (h : j ≠ k) (v : α) :
    touch tr k v j = tr j := by simp [touch, h]

/-- A trace table entry is absent or equal to `v`. -/
def Agrees {α : Type} (t : Option α) (v : α) : Prop := t = none ∨ t = some v

theorem Agrees.getD {α : Type} {t : Option α} {v : α} (h : Agrees t v) : t.getD v = v := by
  rcases h with rfl | rfl <;> rfl

theorem Agrees.touch {κ α : Type} [DecidableEq κ] {tr : κ → Option α} {o : κ} {v : α}
    (h : Agrees (tr o) v) (k : κ) (x : α) (hx : k = o → x = v) : Agrees (touch tr k x o) v := by
  by_cases hk : o = k
  · subst hk
    rw [touch_same, hx rfl, h.getD]
    exact Or.inr rfl
  · rw [touch_ne tr hk]; exact h

/-! ## The planner reads the reference data only when the demonstration is on -/

/-- Equal in everything but the reference data and the visualisation step. -/
structure SameCore (E E' : PlanEnv Q) : Prop where
  step : E.step = E'.step
  terminal : E.terminal = E'.terminal
  terminalWeight : E.terminalWeight = E'.terminalWeight
  steeringWeight : E.steeringWeight = E'.steeringWeight
  deltaMax : E.deltaMax = E'.deltaMax

theorem evalBatch_core {E E' : PlanEnv Q} (h : SameCore E E') (cfg : Cfg)
    (hd : cfg.enableDemo = true → E.xrefLogpd = E'.xrefLogpd ∧ E.rewXref = E'.rewXref)
    (s0 : St Q) (Ys : List (List U)) :
    (evalBatch E cfg s0 Ys).ybar = (evalBatch E' cfg s0 Ys).ybar ∧
    (evalBatch E cfg s0 Ys).combined = (evalBatch E' cfg s0 Ys).combined := by
  simp only [evalBatch, h.step, h.terminal, h.terminalWeight, h.steeringWeight, h.deltaMax, and_true]
  cases hc : cfg.enableDemo with
  | true => rw [(hd hc).1, (hd hc).2]
  | false => simp [logWeights]

theorem reverseOnce_core {E E' : PlanEnv Q} (h : SameCore E E') (S : Schedule)
    (normal : Key → ℕ → ℕ → ℕ → ℕ → U) (cfg : Cfg)
    (hd : cfg.enableDemo = true → E.xrefLogpd = E'.xrefLogpd ∧ E.rewXref = E'.rewXref)
    (s0 : St Q) : reverseOnce E S normal cfg s0 = reverseOnce E' S normal cfg s0 := by
  funext carry
  simp only [reverseOnce]
  rw [(evalBatch_core h cfg hd s0 _).1, (evalBatch_core h cfg hd s0 _).2]

namespace World

/-- `x` is `x0` up to the reference data stored by demonstrations. -/
def Core (x x0 : Obj Q) : Prop :=
  x.cls = x0.cls ∧ (x.demo = x0.demo ∧ x.stepOff = x0.stepOff) ∧ ∃ a b, x.view = { x0.view with xrefLogpd := a, rewXref := b }

theorem Core.refl (x : Obj Q) : Core x x := ⟨rfl, ⟨rfl, rfl⟩, x.view.xrefLogpd, x.view.rewXref, rfl⟩

theorem Core.withDemo {x x0 : Obj Q} (h : Core x x0) (cfg : Cfg) : Core (withDemo x cfg) x0 := by
  obtain ⟨h1, h2, a, b, h3⟩ := h
  unfold World.withDemo
  split
  · exact ⟨h1, h2, _, _, by simp only [h3]; rfl⟩
  · exact ⟨h1, h2, a, b, h3⟩

/-- Well-formed handle numbers. -/
structure WF (w : World Q) : Prop where
  roll : ∀ k, w.nextHandle ≤ k → ∀ H, w.rollTr k H = none
  funcs : ∀ c h, w.funcs c = some h → h.1 < w.nextHandle
  rev : ∀ r, w.rev = some r → r.handle.1 < w.nextHandle

/-- Object `o` still has the attributes `x0`, and every trace recorded for it used them. -/
structure Clean (w : World Q) (o : ℕ) (x0 : Obj Q) : Prop where
  core : Core (w.heap o) x0
  reset : Agrees (w.resetTr o) x0.view.reset
  step : Agrees (w.stepTr o) x0.view.step
  viz : Agrees (w.vizTr o) x0.view.stepViz
  term : Agrees (w.termTr o) x0.view.terminal

theorem init_wf (heap : ℕ → Obj Q) : WF (init heap) :=
  ⟨fun _ _ _ => rfl, fun _ _ h => by simp [init] at h, fun _ h => by simp [init] at h⟩

theorem clear_wf {w : World Q} (h : WF w) : WF w.clear :=
  ⟨h.roll, fun _ _ h => by simp [clear] at h, fun _ h => by simp [clear] at h⟩

theorem handle_lt {w : World Q} (h : WF w) (o : ℕ) (c : String) :
    ((w.funcs c).getD (w.nextHandle, o)).1 <
      if (w.funcs c).isSome then w.nextHandle else w.nextHandle + 1 := by
  rcases hf : w.funcs c with _ | k
  · simp
  · simpa using h.funcs c k hf

theorem run_wf {w : World Q} (h : WF w) (o : ℕ) (normal : Key → ℕ → ℕ → ℕ → ℕ → U) (cfg : Cfg) :
    WF (w.run o normal cfg).1 := by
  have hh := handle_lt h o (Function.update w.heap o (withDemo (w.heap o) cfg) o).cls
  have hle : w.nextHandle ≤ (w.run o normal cfg).1.nextHandle := by
    simp only [run]; split <;> omega
  have hr : (w.rev.getD { sched := mkSchedule cfg.beta0 cfg.betaT cfg.Ndiffuse, env := o
                          handle := (w.funcs (Function.update w.heap o
                            (withDemo (w.heap o) cfg) o).cls).getD (w.nextHandle, o)
                          traces := fun _ => none }).handle.1 < (w.run o normal cfg).1.nextHandle := by
    rcases hf : w.rev with _ | r
    · simpa only [run, Option.getD_none] using hh
    · have := h.rev r hf
      simp only [Option.getD_some]
      omega
  refine ⟨?_, ?_, ?_⟩
  · intro k hk H
    have e1 : k ≠ ((w.funcs (Function.update w.heap o (withDemo (w.heap o) cfg) o).cls).getD
        (w.nextHandle, o)).1 := by
      have : ((w.funcs (Function.update w.heap o (withDemo (w.heap o) cfg) o).cls).getD
        (w.nextHandle, o)).1 < (w.run o normal cfg).1.nextHandle := hh
      omega
    have e2 := ne_of_gt (lt_of_lt_of_le hr hk)
    have e3 : w.rollTr k H = none := h.roll k (by omega) H
    simp only [run]
    rw [Function.update_of_ne e2, Function.update_of_ne e1, e3]
  · intro c k hk
    simp only [run] at hk
    split at hk
    · simp at hk
    · by_cases hc : c = (Function.update w.heap o (withDemo (w.heap o) cfg) o).cls
      · subst hc
        rw [Function.update_self] at hk
        simp only [Option.some.injEq] at hk
        rw [← hk]
        exact hh
      · rw [Function.update_of_ne hc] at hk
        have := h.funcs c k hk
        omega
  · intro r hr'
    simp only [run] at hr'
    split at hr'
    · simp at hr'
    · simp only [Option.some.injEq] at hr'
      rw [← hr']
      exact hr

theorem exec_wf {w : World Q} (h : WF w) (op : Op Q) : WF (w.exec op) := by
  cases op with
  | run o n c => exact run_wf h o n c
  | clear => exact clear_wf h
  | set o x => exact ⟨h.roll, h.funcs, h.rev⟩

theorem history_wf (ops : List (Op Q)) : ∀ {w : World Q}, WF w → WF (w.history ops) := by
  induction ops with
  | nil => intro w h; exact h
  | cons op ops ih => intro w h; exact ih (exec_wf h op)

/-! ## A run with an empty dictionary on a clean object -/

theorem run_fresh {w : World Q} (hw : WF w) (hf : w.funcs = fun _ => none) (hr : w.rev = none)
    {o : ℕ} {x0 : Obj Q} (hc : Clean w o x0) (normal : Key → ℕ → ℕ → ℕ → ℕ → U) (cfg : Cfg) :
    (w.run o normal cfg).2 = runDiffusion (withDemo x0 cfg).view normal cfg := by
  obtain ⟨a, b, hv⟩ := (hc.core.withDemo cfg).2.2
  obtain ⟨a0, b0, hv0⟩ := ((Core.refl x0).withDemo cfg).2.2
  have hd : cfg.enableDemo = true → a = a0 ∧ b = b0 := by
    intro h
    have e1 : (withDemo (w.heap o) cfg).view.xrefLogpd = a := by rw [hv]
    have e2 : (withDemo (w.heap o) cfg).view.rewXref = b := by rw [hv]
    have e3 : (withDemo x0 cfg).view.xrefLogpd = a0 := by rw [hv0]
    have e4 : (withDemo x0 cfg).view.rewXref = b0 := by rw [hv0]
    simp only [withDemo, h, if_true, hc.core.2.1.1] at e1 e2 e3 e4
    exact ⟨e1.symm.trans e3, e2.symm.trans e4⟩
  have hro : w.rollTr w.nextHandle cfg.Hsample = none := hw.roll _ le_rfl _
  simp only [run, runDiffusion, hf, hr, Option.getD_none, Function.update_self, hv, hv0,
    hc.reset.getD, hc.step.getD, hc.term.getD, hc.viz.getD, hro]
  rw [reverseOnce_core
    (E := { reset := x0.view.reset, step := x0.view.step, stepViz := x0.view.step
            terminal := x0.view.terminal, terminalWeight := x0.view.terminalWeight
            steeringWeight := x0.view.steeringWeight, deltaMax := x0.view.deltaMax
            xrefLogpd := a, rewXref := b })
    (E' := { x0.view with xrefLogpd := a0, rewXref := b0 })
    ⟨rfl, rfl, rfl, rfl, rfl⟩ _ normal cfg hd]

/-! ## Preservation -/

theorem run_clean {w : World Q} {o : ℕ} {x0 : Obj Q} (hc : Clean w o x0) (p : ℕ)
    (normal : Key → ℕ → ℕ → ℕ → ℕ → U) (cfg : Cfg)
    (hg : p = o → cfg.enableGuidance = true → x0.stepOff = x0.view.step ∨
      ((w.funcs x0.cls).getD (w.nextHandle, o)).2 = o) : Clean (w.run p normal cfg).1 o x0 := by
  have hcore : Core (Function.update w.heap p (withDemo (w.heap p) cfg) o) x0 := by
    by_cases h : o = p
    · subst h; rw [Function.update_self]; exact hc.core.withDemo cfg
    · rw [Function.update_of_ne h]; exact hc.core
  have hcore' := hcore
  obtain ⟨hcls, ⟨_, hoff⟩, a, b, hv⟩ := hcore'
  have live : ∀ k, k = o → (Function.update w.heap p (withDemo (w.heap p) cfg) k).view =
      { x0.view with xrefLogpd := a, rewXref := b } := by rintro k rfl; exact hv
  refine ⟨hcore, ?_, ?_, ?_, ?_⟩
  · simp only [run]
    exact hc.reset.touch _ _ (fun h => by rw [live _ h])
  · simp only [run]
    have h1 := (hc.step.touch ((w.funcs (Function.update w.heap p (withDemo (w.heap p) cfg) p).cls).getD
      (w.nextHandle, p)).2 (Function.update w.heap p (withDemo (w.heap p) cfg)
        ((w.funcs (Function.update w.heap p (withDemo (w.heap p) cfg) p).cls).getD
      (w.nextHandle, p)).2).view.step (fun h => by rw [live _ h]))
    split
    · rename_i hgd
      have h2 := h1.touch (w.rev.getD
        { sched := mkSchedule cfg.beta0 cfg.betaT cfg.Ndiffuse, env := p
          handle := (w.funcs (Function.update w.heap p (withDemo (w.heap p) cfg) p).cls).getD
            (w.nextHandle, p)
          traces := fun _ => none }).handle.2
        (Function.update w.heap p (withDemo (w.heap p) cfg) (w.rev.getD
        { sched := mkSchedule cfg.beta0 cfg.betaT cfg.Ndiffuse, env := p
          handle := (w.funcs (Function.update w.heap p (withDemo (w.heap p) cfg) p).cls).getD
            (w.nextHandle, p)
          traces := fun _ => none }).handle.2).view.step (fun h => by rw [live _ h])
      by_cases hpo : p = o
      · subst hpo
        rcases hg rfl hgd with hs | hs
        · exact h2.touch _ _ (fun _ => by rw [hoff, hs])
        · rw [hcls] at h2 ⊢
          rw [hs] at h2 ⊢
          refine Or.inr ?_
          rw [touch_same]
          have h3 : ∃ y, touch w.stepTr p (Function.update w.heap p (withDemo (w.heap p) cfg)
              p).view.step p = some y := ⟨_, touch_same _ _ _⟩
          obtain ⟨y, hy⟩ := h3
          rcases h2 with h2 | h2
          · exfalso
            revert h2
            by_cases hh : p = (w.rev.getD
              { sched := mkSchedule cfg.beta0 cfg.betaT cfg.Ndiffuse, env := p
                handle := (w.funcs x0.cls).getD (w.nextHandle, p)
                traces := fun _ => none }).handle.2
            · rw [← hh, touch_same]; simp
            · rw [touch_ne _ hh, hy]; simp
          · rw [h2]; rfl
      · exact h2.touch _ _ (fun h => absurd h hpo)
    · exact h1.touch _ _ (fun h => by rw [live _ h])
  · simp only [run]
    split
    · exact hc.viz.touch _ _ (fun h => by rw [live _ h])
    · exact hc.viz
  · simp only [run]
    exact (hc.term.touch _ _ (fun h => by rw [live _ h])).touch _ _ (fun h => by rw [live _ h])

end World

/-- The operation does not assign attributes of object `o` and, if `o` itself has guidance switched on
(its step without guidance is different), it is not a run on `o` with guidance in the
configuration: such a run switches the flag off temporarily. -/
def Op.Keeps (o : ℕ) (x : Obj Q) : Op Q → Prop
  | .set p _ => p ≠ o
  | .run p _ cfg => p = o → cfg.enableGuidance = true → x.stepOff = x.view.step
  | .clear => True

/-- The operation does not run the planner on object `o`. -/
def Op.NotUsing (o : ℕ) : Op Q → Prop
  | .run p _ _ => p ≠ o
  | _ => True

namespace World

theorem exec_clean {w : World Q} {o : ℕ} {x0 : Obj Q} (hc : Clean w o x0) {op : Op Q}
    (hk : op.Keeps o x0) : Clean (w.exec op) o x0 := by
  cases op with
  | run p n c => exact run_clean hc p n c (fun h1 h2 => Or.inl (hk h1 h2))
  | clear => exact ⟨hc.core, hc.reset, hc.step, hc.viz, hc.term⟩
  | set p x =>
    refine ⟨?_, hc.reset, hc.step, hc.viz, hc.term⟩
    show Core (Function.update w.heap p x o) x0
    rw [Function.update_of_ne (Ne.symm hk)]
    exact hc.core

theorem history_clean {o : ℕ} {x0 : Obj Q} (ops : List (Op Q)) :
    ∀ {w : World Q}, Clean w o x0 → (∀ op ∈ ops, Op.Keeps o x0 op) → Clean (w.history ops) o x0 := by
  induction ops with
  | nil => intro w h _; exact h
  | cons op ops ih =>
    intro w h hk
    exact ih (exec_clean h (hk op (by simp))) (fun p hp => hk p (by simp [hp]))

/-- Nothing was recorded for object `o`, and no handle belongs to it. -/
structure Unused (w : World Q) (o : ℕ) : Prop where
  reset : w.resetTr o = none
  step : w.stepTr o = none
  viz : w.vizTr o = none
  term : w.termTr o = none
  funcs : ∀ c h, w.funcs c = some h → h.2 ≠ o
  rev : ∀ r, w.rev = some r → r.handle.2 ≠ o

theorem run_unused {w : World Q} {o : ℕ} (hu : Unused w o) {p : ℕ} (hp : p ≠ o)
    (normal : Key → ℕ → ℕ → ℕ → ℕ → U) (cfg : Cfg) : Unused (w.run p normal cfg).1 o := by
  have hh : ((w.funcs (Function.update w.heap p (withDemo (w.heap p) cfg) p).cls).getD
      (w.nextHandle, p)).2 ≠ o := by
    rcases hf : w.funcs (Function.update w.heap p (withDemo (w.heap p) cfg) p).cls with _ | k
    · exact hp
    · exact hu.funcs _ k hf
  have hr : (w.rev.getD { sched := mkSchedule cfg.beta0 cfg.betaT cfg.Ndiffuse, env := p
                          handle := (w.funcs (Function.update w.heap p
                            (withDemo (w.heap p) cfg) p).cls).getD (w.nextHandle, p)
                          traces := fun _ => none }).handle.2 ≠ o := by
    rcases hf : w.rev with _ | r
    · exact hh
    · exact hu.rev r hf
  refine ⟨?_, ?_, ?_, ?_, ?_, ?_⟩
  · simp only [run]; rw [touch_ne _ hp.symm]; exact hu.reset
  · simp only [run]
    split
    · rw [touch_ne _ hp.symm, touch_ne _ hr.symm, touch_ne _ hh.symm]; exact hu.step
    · rw [touch_ne _ hr.symm, touch_ne _ hh.symm]; exact hu.step
  · simp only [run]
    split
    · rw [touch_ne _ hp.symm]; exact hu.viz
    · exact hu.viz
  · simp only [run]
    rw [touch_ne _ hr.symm, touch_ne _ hh.symm]; exact hu.term
  · intro c k hk
    simp only [run] at hk
    split at hk
    · simp at hk
    · by_cases hc : c = (Function.update w.heap p (withDemo (w.heap p) cfg) p).cls
      · subst hc
        rw [Function.update_self] at hk
        simp only [Option.some.injEq] at hk
        rw [← hk]
        exact hh
      · rw [Function.update_of_ne hc] at hk
        exact hu.funcs c k hk
  · intro r hr'
    simp only [run] at hr'
    split at hr'
    · simp at hr'
    · simp only [Option.some.injEq] at hr'
      rw [← hr']
      exact hr

theorem history_unused {o : ℕ} (ops : List (Op Q)) :
    ∀ {w : World Q}, Unused w o → (∀ op ∈ ops, Op.NotUsing o op) → Unused (w.history ops) o := by
  induction ops with
  | nil => intro w h _; exact h
  | cons op ops ih =>
    intro w h hk
    refine ih ?_ (fun p hp => hk p (by simp [hp]))
    have := hk op (by simp)
    cases op with
    | run p n c => exact run_unused h this n c
    | clear => exact ⟨h.reset, h.step, h.viz, h.term, fun _ _ hh => by simp [exec, clear] at hh,
        fun _ hh => by simp [exec, clear] at hh⟩
    | set p x => exact ⟨h.reset, h.step, h.viz, h.term, h.funcs, h.rev⟩

theorem init_unused (heap : ℕ → Obj Q) (o : ℕ) : Unused (init heap) o :=
  ⟨rfl, rfl, rfl, rfl, fun _ _ h => by simp [init] at h, fun _ h => by simp [init] at h⟩

theorem Unused.clean {w : World Q} {o : ℕ} (h : Unused w o) : Clean w o (w.heap o) :=
  ⟨Core.refl _, Or.inl h.reset, Or.inl h.step, Or.inl h.viz, Or.inl h.term⟩

theorem history_append (w : World Q) (a b : List (Op Q)) :
    w.history (a ++ b) = (w.history a).history b := by simp [history, List.foldl_append]

end World

/-! ## C29 -/

/-- **C29.** Take any history: `before` (anything, but the planner is not run on `o`) and `after`
(anything, including runs on `o` and on other robots, but `o`'s attributes are not assigned any
more). After `clear_jit_cache` the result of a run on `o` is the cache-free result for `o`'s
attributes, this run's random numbers and this run's configuration. -/
theorem C29_cleared (heap : ℕ → Obj Q) (o : ℕ) (before after : List (Op Q))
    (hb : ∀ op ∈ before, Op.NotUsing o op) (ha : ∀ op ∈ after, Op.Keeps o (((World.init heap).history before).heap o) op)
    (normal : Key → ℕ → ℕ → ℕ → ℕ → U) (cfg : Cfg) :
    ((((World.init heap).history before).history after).clear.run o normal cfg).2 =
      runDiffusion (World.withDemo (((World.init heap).history before).heap o) cfg).view normal cfg := by
  have hu := World.history_unused before (World.init_unused heap o) hb
  have hc := World.history_clean after hu.clean ha
  have hw := World.history_wf after (World.history_wf before (World.init_wf heap))
  exact World.run_fresh (World.clear_wf hw) rfl rfl
    ⟨hc.core, hc.reset, hc.step, hc.viz, hc.term⟩ normal cfg

/-- **C29, two runs agree**: two processes with different histories but equal robots give equal
results for equal random numbers and configuration. -/
theorem C29_history_independent (heap heap' : ℕ → Obj Q) (o o' : ℕ) (h : heap o = heap' o')
    (ops ops' : List (Op Q)) (ha : ∀ op ∈ ops, Op.Keeps o (heap o) op)
    (ha' : ∀ op ∈ ops', Op.Keeps o' (heap' o') op)
    (normal : Key → ℕ → ℕ → ℕ → ℕ → U) (cfg : Cfg) :
    (((World.init heap).history ops).clear.run o normal cfg).2 =
      (((World.init heap').history ops').clear.run o' normal cfg).2 := by
  have e1 := C29_cleared heap o [] ops (by simp) ha normal cfg
  have e2 := C29_cleared heap' o' [] ops' (by simp) ha' normal cfg
  simp only [World.history, List.foldl_nil] at e1 e2 ⊢
  rw [e1, e2]
  show runDiffusion (World.withDemo (heap o) cfg).view normal cfg =
    runDiffusion (World.withDemo (heap' o') cfg).view normal cfg
  rw [h]

/-! ## C30 -/

namespace World

/-- Everything in the dictionary that a run on `o` would reuse was built from `o` with its present
attributes and with the schedule `S`. -/
structure Warm (w : World Q) (o : ℕ) (x0 : Obj Q) (S : Schedule) : Prop where
  wf : WF w
  clean : Clean w o x0
  funcs : ∀ h, w.funcs x0.cls = some h → h.2 = o ∧
    ∀ H, Agrees (w.rollTr h.1 H) x0.view.terminalWeight
  rev : ∀ r, w.rev = some r → r.sched = S ∧ r.env = o ∧ r.handle.2 = o ∧
    (∀ H, Agrees (w.rollTr r.handle.1 H) x0.view.terminalWeight) ∧
    ∀ k at', r.traces k = some at' → at'.steeringWeight = x0.view.steeringWeight ∧
      at'.deltaMax = x0.view.deltaMax ∧
      (k.2.2.1 = true → at'.xrefLogpd = (x0.demo k.1).1 ∧ at'.rewXref = (x0.demo k.1).2)

theorem clear_warm {w : World Q} (hw : WF w) {o : ℕ} {x0 : Obj Q} (hc : Clean w o x0)
    (S : Schedule) : Warm w.clear o x0 S :=
  ⟨clear_wf hw, ⟨hc.core, hc.reset, hc.step, hc.viz, hc.term⟩,
    fun _ h => by simp [clear] at h, fun _ h => by simp [clear] at h⟩

/-- The handle and the `reverse_once` a run on `o` uses. -/
theorem warm_handles {w : World Q} {o : ℕ} {x0 : Obj Q} (cfg : Cfg)
    (h : Warm w o x0 (mkSchedule cfg.beta0 cfg.betaT cfg.Ndiffuse)) :
    ∃ k : ℕ, (w.funcs x0.cls).getD (w.nextHandle, o) = (k, o) ∧
      (∀ H, Agrees (w.rollTr k H) x0.view.terminalWeight) ∧
    ∃ j tr, w.rev.getD { sched := mkSchedule cfg.beta0 cfg.betaT cfg.Ndiffuse, env := o
                         handle := (k, o), traces := fun _ => none } =
        { sched := mkSchedule cfg.beta0 cfg.betaT cfg.Ndiffuse, env := o, handle := (j, o)
          traces := tr } ∧
      (∀ H, Agrees (w.rollTr j H) x0.view.terminalWeight) ∧
      ∀ k at', tr k = some at' → at'.steeringWeight = x0.view.steeringWeight ∧
        at'.deltaMax = x0.view.deltaMax ∧
        (k.2.2.1 = true → at'.xrefLogpd = (x0.demo k.1).1 ∧ at'.rewXref = (x0.demo k.1).2) := by
  obtain ⟨k, hk1, hk2⟩ : ∃ k : ℕ, (w.funcs x0.cls).getD (w.nextHandle, o) = (k, o) ∧
      (∀ H, Agrees (w.rollTr k H) x0.view.terminalWeight) := by
    rcases hf : w.funcs x0.cls with _ | ⟨k, p⟩
    · exact ⟨w.nextHandle, rfl, fun H => Or.inl (h.wf.roll _ le_rfl H)⟩
    · obtain ⟨h1, h2⟩ := h.funcs _ hf
      simp only at h1 h2
      subst h1
      exact ⟨k, rfl, h2⟩
  refine ⟨k, hk1, hk2, ?_⟩
  rcases hr : w.rev with _ | r
  · exact ⟨k, fun _ => none, rfl, hk2, fun _ _ hh => by simp at hh⟩
  · obtain ⟨h1, h2, h3, h4, h5⟩ := h.rev r hr
    refine ⟨r.handle.1, r.traces, ?_, h4, h5⟩
    rw [Option.getD_some]
    obtain ⟨a, b, ⟨c, d⟩, e⟩ := r
    simp only at h1 h2 h3
    subst h1 h2 h3
    rfl

theorem agrees_update_touch {rt : ℕ → ℕ → Option ℝ} {v : ℝ} {k : ℕ}
    (h : ∀ H, Agrees (rt k H) v) (j H0 : ℕ) (x : ℝ) (hx : x = v) :
    ∀ H, Agrees (Function.update rt j (touch (rt j) H0 x) k H) v := by
  intro H
  by_cases hj : k = j
  · subst hj
    rw [Function.update_self]
    by_cases hH : H = H0
    · subst hH
      rw [touch_same, hx, (h H).getD]
      exact Or.inr rfl
    · rw [touch_ne _ hH]; exact h H
  · rw [Function.update_of_ne hj]; exact h H

theorem run_warm {w : World Q} {o : ℕ} {x0 : Obj Q} (normal : Key → ℕ → ℕ → ℕ → ℕ → U) (cfg : Cfg)
    (h : Warm w o x0 (mkSchedule cfg.beta0 cfg.betaT cfg.Ndiffuse)) :
    (w.run o normal cfg).2 = runDiffusion (withDemo x0 cfg).view normal cfg ∧
    Warm (w.run o normal cfg).1 o x0 (mkSchedule cfg.beta0 cfg.betaT cfg.Ndiffuse) := by
  obtain ⟨k, hk, hkr, j, tr, hr, hjr, htr⟩ := warm_handles cfg h
  have hc := h.clean
  obtain ⟨hcls, hdem, a, b, hv⟩ := hc.core.withDemo cfg
  obtain ⟨hcls0, hdem0, a0, b0, hv0⟩ := (Core.refl x0).withDemo cfg
  have hd : cfg.enableDemo = true → a = (x0.demo cfg.motionPreference).1 ∧
      b = (x0.demo cfg.motionPreference).2 ∧ a0 = (x0.demo cfg.motionPreference).1 ∧
      b0 = (x0.demo cfg.motionPreference).2 := by
    intro hh
    have e1 : (withDemo (w.heap o) cfg).view.xrefLogpd = a := by rw [hv]
    have e2 : (withDemo (w.heap o) cfg).view.rewXref = b := by rw [hv]
    have e3 : (withDemo x0 cfg).view.xrefLogpd = a0 := by rw [hv0]
    have e4 : (withDemo x0 cfg).view.rewXref = b0 := by rw [hv0]
    simp only [withDemo, hh, if_true, hc.core.2.1.1] at e1 e2 e3 e4
    exact ⟨e1.symm, e2.symm, e3.symm, e4.symm⟩
  set at' : RevAttrs Q := (tr (revKey cfg)).getD
    ⟨x0.view.steeringWeight, x0.view.deltaMax, a, b⟩ with hat
  have hattr : at'.steeringWeight = x0.view.steeringWeight ∧ at'.deltaMax = x0.view.deltaMax ∧
      (cfg.enableDemo = true → at'.xrefLogpd = (x0.demo cfg.motionPreference).1 ∧
        at'.rewXref = (x0.demo cfg.motionPreference).2) := by
    rcases ht : tr (revKey cfg) with _ | y
    · rw [ht, Option.getD_none] at hat
      rw [hat]
      exact ⟨rfl, rfl, fun hh => ⟨(hd hh).1, (hd hh).2.1⟩⟩
    · rw [ht, Option.getD_some] at hat
      rw [hat]
      exact htr _ y ht
  constructor
  · simp only [run, runDiffusion, Function.update_self, hcls, hk, hr, hv, hv0, hc.reset.getD,
      hc.step.getD, hc.term.getD, hc.viz.getD, (hkr _).getD, (hjr _).getD]
    rw [← hat]
    rw [reverseOnce_core
      (E := { reset := x0.view.reset, step := x0.view.step, stepViz := x0.view.step
              terminal := x0.view.terminal, terminalWeight := x0.view.terminalWeight
              steeringWeight := at'.steeringWeight, deltaMax := at'.deltaMax
              xrefLogpd := at'.xrefLogpd, rewXref := at'.rewXref })
      (E' := { x0.view with xrefLogpd := a0, rewXref := b0 })
      ⟨rfl, rfl, rfl, hattr.1, hattr.2.1⟩ _ normal cfg
      (fun hh => ⟨(hattr.2.2 hh).1.trans (hd hh).2.2.1.symm,
        (hattr.2.2 hh).2.trans (hd hh).2.2.2.symm⟩)]
  · refine ⟨run_wf h.wf o normal cfg, run_clean hc o normal cfg (fun _ _ => Or.inr (by rw [hk])),
      ?_, ?_⟩
    · intro p hp
      simp only [run, Function.update_self, hcls, hk, hr, hv] at hp ⊢
      split at hp
      · simp at hp
      · rw [Function.update_self] at hp
        simp only [Option.some.injEq] at hp
        subst hp
        exact ⟨rfl, agrees_update_touch (agrees_update_touch hkr _ _ _ rfl) _ _ _ rfl⟩
    · intro r hr'
      simp only [run, Function.update_self, hcls, hk, hr, hv] at hr' ⊢
      split at hr'
      · simp at hr'
      · simp only [Option.some.injEq] at hr'
        subst hr'
        refine ⟨rfl, rfl, rfl, agrees_update_touch (agrees_update_touch hjr _ _ _ rfl) _ _ _ rfl, ?_⟩
        intro key y hy
        simp only at hy
        rw [← hat] at hy
        by_cases hkey : key = revKey cfg
        · subst hkey
          rw [Function.update_self] at hy
          simp only [Option.some.injEq] at hy
          subst hy
          exact hattr
        · rw [Function.update_of_ne hkey] at hy
          exact htr key y hy

end World

/-- Operations allowed between the last `clear_jit_cache` and the run: runs on the same object with
the same noise schedule (all other settings may differ), clearing, assigning attributes of other
objects. -/
def Op.Repeats (o : ℕ) (beta0 betaT : ℝ) (n : ℕ) : Op Q → Prop
  | .run p _ cfg => p = o ∧ cfg.beta0 = beta0 ∧ cfg.betaT = betaT ∧ cfg.Ndiffuse = n
  | .clear => True
  | .set p _ => p ≠ o

theorem World.history_warm {o : ℕ} {x0 : Obj Q} {b0 bT : ℝ} {n : ℕ} (ops : List (Op Q)) :
    ∀ {w : World Q}, World.Warm w o x0 (mkSchedule b0 bT n) →
      (∀ op ∈ ops, Op.Repeats o b0 bT n op) →
      World.Warm (w.history ops) o x0 (mkSchedule b0 bT n) := by
  induction ops with
  | nil => intro w h _; exact h
  | cons op ops ih =>
    intro w h hk
    refine ih ?_ (fun p hp => hk p (by simp [hp]))
    have := hk op (by simp)
    cases op with
    | run p nm c =>
      obtain ⟨rfl, rfl, rfl, rfl⟩ := this
      exact (World.run_warm nm c h).2
    | clear => exact World.clear_warm h.wf h.clean _
    | set p x =>
      refine ⟨World.exec_wf h.wf (.set p x), World.exec_clean h.clean (op := .set p x) this,
        h.funcs, h.rev⟩

/-- **C30, partial.** Reused functions do not change the result when everything run since the last
clearing used the same, unmodified robot object and the same noise schedule; preference,
temperature, demonstration, guidance, sample count and horizon may differ from run to run, and
anything may have happened before. Missing: other robots of the same class and other schedules
(refuted below). -/
theorem C30_same_robot_partial (heap : ℕ → Obj Q) (o : ℕ) (before after repeats : List (Op Q))
    (cfg : Cfg) (hb : ∀ op ∈ before, Op.NotUsing o op) (ha : ∀ op ∈ after, Op.Keeps o (((World.init heap).history before).heap o) op)
    (hr : ∀ op ∈ repeats, Op.Repeats o cfg.beta0 cfg.betaT cfg.Ndiffuse op)
    (normal : Key → ℕ → ℕ → ℕ → ℕ → U) :
    (((((World.init heap).history before).history after).clear.history repeats).run o normal cfg).2 =
      runDiffusion (World.withDemo (((World.init heap).history before).heap o) cfg).view normal cfg := by
  have hu := World.history_unused before (World.init_unused heap o) hb
  have hc := World.history_clean after hu.clean ha
  have hw := World.history_wf after (World.history_wf before (World.init_wf heap))
  have h0 := World.clear_warm hw hc (mkSchedule cfg.beta0 cfg.betaT cfg.Ndiffuse)
  exact (World.run_warm normal cfg (World.history_warm repeats h0 hr)).1

/-! ### Other robots of the same class -/

/-- Planning for `E` with a given noise schedule, whatever the configuration's own is (specification:
the planner of Planner.lean with the schedule as a parameter). -/
noncomputable def _root_.Spec.planWith (E : PlanEnv Q) (S : Schedule)
    (normal : Key → ℕ → ℕ → ℕ → ℕ → U) (cfg : Cfg) : Result Q :=
  let s0 := E.reset keyReset
  let lp := reverseLoop (reverseOnce E S normal cfg s0) cfg (zeroPlan cfg) keyExp
  let roll := rolloutUsWithTerminal E.step E.terminal E.terminalWeight s0
  let Y0 := (roll lp.Y).2.2
  { rew := (roll Y0).1
    Y0 := Y0
    xs := s0.q :: (scanStates (if cfg.enableGuidance then E.stepViz else E.step) s0 Y0).map St.q
    hist := lp.hist }

theorem planWith_own (E : PlanEnv Q) (normal : Key → ℕ → ℕ → ℕ → ℕ → U) (cfg : Cfg) :
    runDiffusion E normal cfg =
      Spec.planWith E (mkSchedule cfg.beta0 cfg.betaT cfg.Ndiffuse) normal cfg := rfl

/-- What actually happens without clearing, exactly, for any two configurations without guidance: after
one run on robot `a`, a run on another robot `b` of the same class keeps only `b`'s initial state and its
own configuration's sample count, horizon, number of levels, temperature and preference; noise schedule,
transitions, terminal reward, weights and reference data are those of `a`'s run. -/
theorem C30_stale_schedule (heap : ℕ → Obj Q) {a b : ℕ} (hab : a ≠ b)
    (hcls : (heap a).cls = (heap b).cls) (n1 n2 : Key → ℕ → ℕ → ℕ → ℕ → U) (c1 c2 : Cfg)
    (hg1 : c1.enableGuidance = false) (hg2 : c2.enableGuidance = false) :
    (((World.init heap).history [.run a n1 c1]).run b n2 c2).2 =
      Spec.planWith { (World.withDemo (heap a) c1).view with reset := (heap b).view.reset }
        (mkSchedule c1.beta0 c1.betaT c1.Ndiffuse) n2 c2 := by
  have hc1 : ∀ (x : Obj Q) (c : Cfg), (World.withDemo x c).cls = x.cls := fun x c =>
    ((World.Core.refl x).withDemo c).1
  have hre : ∀ (x : Obj Q) (c : Cfg), (World.withDemo x c).view.reset = x.view.reset := fun x c => by
    obtain ⟨p, q, h⟩ := ((World.Core.refl x).withDemo c).2.2
    rw [h]
  have hw : (World.init heap).history [.run a n1 c1] = ((World.init heap).run a n1 c1).1 := rfl
  rw [hw]
  have hb : ((World.init heap).run a n1 c1).1.heap b = heap b := by
    simp only [World.run, World.init]
    rw [Function.update_of_ne hab.symm]
  have ha : ((World.init heap).run a n1 c1).1.heap a = World.withDemo (heap a) c1 := by
    simp only [World.run, World.init]
    rw [Function.update_self]
  have hfu : ((World.init heap).run a n1 c1).1.funcs (heap b).cls = some (0, a) := by
    simp only [World.run, World.init, hg1, Function.update_self, hc1, hcls]
    simp
  have hrv : ((World.init heap).run a n1 c1).1.rev = some
      { sched := mkSchedule c1.beta0 c1.betaT c1.Ndiffuse, env := a, handle := (0, a)
        traces := Function.update (fun _ => none) (World.revKey c1)
          (some ⟨(World.withDemo (heap a) c1).view.steeringWeight,
            (World.withDemo (heap a) c1).view.deltaMax, (World.withDemo (heap a) c1).view.xrefLogpd,
            (World.withDemo (heap a) c1).view.rewXref⟩) } := by
    simp only [World.run, World.init, hg1, Function.update_self, Option.getD_none]
    simp
  have hst : ((World.init heap).run a n1 c1).1.stepTr a =
      some (World.withDemo (heap a) c1).view.step := by
    simp only [World.run, World.init, hg1, Function.update_self, Option.getD_none]
    simp [touch_same]
  have hte : ((World.init heap).run a n1 c1).1.termTr a =
      some (World.withDemo (heap a) c1).view.terminal := by
    simp only [World.run, World.init, Function.update_self, Option.getD_none, touch_same]
    simp
  have hrs : ((World.init heap).run a n1 c1).1.resetTr b = none := by
    simp only [World.run, World.init]
    rw [touch_ne _ hab.symm]
  have hrl : ((World.init heap).run a n1 c1).1.rollTr 0 c2.Hsample = none ∨
      ((World.init heap).run a n1 c1).1.rollTr 0 c2.Hsample =
        some (World.withDemo (heap a) c1).view.terminalWeight := by
    have h0 : ∀ H, Agrees ((fun _ _ => none : ℕ → ℕ → Option ℝ) 0 H)
        (World.withDemo (heap a) c1).view.terminalWeight := fun _ => Or.inl rfl
    simp only [World.run, World.init]
    refine World.agrees_update_touch (World.agrees_update_touch h0 _ _ _ ?_) _ _ _ ?_ _ <;>
      simp
  have hrl' : Agrees (((World.init heap).run a n1 c1).1.rollTr 0 c2.Hsample)
      (World.withDemo (heap a) c1).view.terminalWeight := hrl
  generalize ((World.init heap).run a n1 c1).1 = w at *
  have hat : (Function.update (fun _ => none) (World.revKey c1)
      (some (⟨(World.withDemo (heap a) c1).view.steeringWeight,
        (World.withDemo (heap a) c1).view.deltaMax, (World.withDemo (heap a) c1).view.xrefLogpd,
        (World.withDemo (heap a) c1).view.rewXref⟩ : RevAttrs Q)) (World.revKey c2)).getD
      ⟨(World.withDemo (heap a) c1).view.steeringWeight,
        (World.withDemo (heap a) c1).view.deltaMax, (World.withDemo (heap a) c1).view.xrefLogpd,
        (World.withDemo (heap a) c1).view.rewXref⟩ =
      (⟨(World.withDemo (heap a) c1).view.steeringWeight,
        (World.withDemo (heap a) c1).view.deltaMax, (World.withDemo (heap a) c1).view.xrefLogpd,
        (World.withDemo (heap a) c1).view.rewXref⟩ : RevAttrs Q) := by
    by_cases hk : World.revKey c2 = World.revKey c1
    · rw [hk, Function.update_self]; rfl
    · rw [Function.update_of_ne hk]; rfl
  simp only [World.run, Spec.planWith, Function.update_self, hb, hc1, hfu, hrv, Option.getD_some,
    Function.update_of_ne hab, ha, hst, hte, hrs, Option.getD_none, hrl'.getD, hat, hre, hg2,
    Bool.false_eq_true, if_false]
  rw [reverseOnce_core
    (E := { reset := (heap b).view.reset, step := (World.withDemo (heap a) c1).view.step
            stepViz := (World.withDemo (heap a) c1).view.step
            terminal := (World.withDemo (heap a) c1).view.terminal
            terminalWeight := (World.withDemo (heap a) c1).view.terminalWeight
            steeringWeight := (World.withDemo (heap a) c1).view.steeringWeight
            deltaMax := (World.withDemo (heap a) c1).view.deltaMax
            xrefLogpd := (World.withDemo (heap a) c1).view.xrefLogpd
            rewXref := (World.withDemo (heap a) c1).view.rewXref })
    (E' := { (World.withDemo (heap a) c1).view with reset := (heap b).view.reset })
    ⟨rfl, rfl, rfl, rfl, rfl⟩ _ n2 c2 (fun _ => ⟨rfl, rfl⟩)]

/-- The same with one noise schedule for both runs: the second run is the cache-free run of the first
robot's functions from the second robot's start. -/
theorem C30_second_robot (heap : ℕ → Obj Q) {a b : ℕ} (hab : a ≠ b)
    (hcls : (heap a).cls = (heap b).cls) (n1 n2 : Key → ℕ → ℕ → ℕ → ℕ → U) (c1 c2 : Cfg)
    (hg1 : c1.enableGuidance = false) (hg2 : c2.enableGuidance = false)
    (hs : c1.beta0 = c2.beta0 ∧ c1.betaT = c2.betaT ∧ c1.Ndiffuse = c2.Ndiffuse) :
    (((World.init heap).history [.run a n1 c1]).run b n2 c2).2 =
      runDiffusion { (World.withDemo (heap a) c1).view with reset := (heap b).view.reset } n2 c2 := by
  rw [C30_stale_schedule heap hab hcls n1 n2 c1 c2 hg1 hg2, hs.1, hs.2.1, hs.2.2]
  rfl

/-! ### A robot whose attributes change -/

/-- The initial state returned by a run is the one the object had at its first run, whatever happens
in between, `clear_jit_cache` included: `reset` is compiled with the object as static argument and
never recompiled. -/
theorem C29_reset_frozen (heap : ℕ → Obj Q) (o : ℕ) (n1 n2 : Key → ℕ → ℕ → ℕ → ℕ → U) (c1 c2 : Cfg)
    (ops : List (Op Q)) :
    ((((World.init heap).history [.run o n1 c1]).history ops).run o n2 c2).2.xs.head? =
      some ((heap o).view.reset keyReset).q := by
  have h0 : ((World.init heap).history [.run o n1 c1]).resetTr o = some (heap o).view.reset := by
    obtain ⟨p, q, h⟩ := ((World.Core.refl (heap o)).withDemo c1).2.2
    show ((World.init heap).run o n1 c1).1.resetTr o = _
    simp only [World.run, World.init, Function.update_self, touch_same, Option.getD_none]
    rw [h]
  have hk : ∀ (ops : List (Op Q)) (w : World Q), w.resetTr o = some (heap o).view.reset →
      (w.history ops).resetTr o = some (heap o).view.reset := by
    intro ops
    induction ops with
    | nil => intro w h; exact h
    | cons op ops ih =>
      intro w h
      refine ih (w.exec op) ?_
      cases op with
      | run p n c =>
        show (touch w.resetTr p _) o = _
        by_cases hp : o = p
        · subst hp; rw [touch_same, h]; rfl
        · rw [touch_ne _ hp]; exact h
      | clear => exact h
      | set p x => exact h
  simp only [World.run, hk ops _ h0, Option.getD_some, List.head?_cons]

/-! ### Concrete robots -/

/-- A default tractor-trailer at the origin in an empty map with its goal at `(gx, 0)`. -/
noncomputable def goalRobot (gx : ℝ) : TT2d :=
  { Params.default [] [] with x0 := ⟨0, 0, 0, 0⟩, xg := ⟨gx, 0, 0, 0⟩ }

/-- Nothing moves and no noise is drawn: one diffusion level, one action. -/
noncomputable def stillCfg : Cfg :=
  { motionPreference := 0, temp := 1, enableDemo := false, enableGuidance := false, Nsample := 1
    Hsample := 1, Ndiffuse := 1, beta0 := 0.1, betaT := 0.2 }

theorem goalRobot_step (gx : ℝ) (ext : Ext Q4) (s : St Q4) (hq : s.q = ⟨0, 0, 0, 0⟩)
    (hb : s.inBackup = false) :
    ((goalRobot gx).step ext s (0, 0)) =
      { q := ⟨0, 0, 0, 0⟩, obs := ⟨0, 0, 0, 0⟩
        reward := TT2d.getReward (goalRobot gx).toParams ⟨gx, 0, 0, 0⟩ ⟨0, 0, 0, 0⟩
        done := 0, applied := (0, 0), inBackup := false } := by
  have hc : clip 0 (-1 : ℝ) 1 = 0 := clip_of_mem (by norm_num) (by norm_num)
  have hhi : ¬ TT2d.checkHitch (goalRobot gx).toParams ⟨0, 0, 0, 0⟩ := by
    simp only [TT2d.checkHitch, sub_zero, wrapPi_zero, abs_zero, Params.phiMax, deg2rad, gt_iff_lt,
      not_lt]
    positivity
  have hco : ¬ TT2d.checkObstacle (goalRobot gx).toParams ⟨0, 0, 0, 0⟩ := by
    simp [TT2d.checkObstacle, goalRobot, Params.default]
  have he : TT2d.euler (goalRobot gx).toParams ⟨0, 0, 0, 0⟩ (0, 0) = ⟨0, 0, 0, 0⟩ := by
    simp [TT2d.euler, TT2d.dynamics, Q4.axpy]
  have hsc : (goalRobot gx).inputScaler (0, 0) = (0, 0) := by simp [Params.inputScaler]
  have hp : (goalRobot gx).enableProjection = false := rfl
  have hgd : (goalRobot gx).enableGuidance = false := rfl
  have hm : (goalRobot gx).motionPreference = 0 := rfl
  unfold TT2d.step TT2d.stepInternal
  simp only [clipU, hc, hq, hb, hp, hgd, hm, hsc, he, kinShieldedRollout, kinNaive, hhi, hco,
    Bool.false_eq_true, if_false, decide_false, Bool.and_false, Bool.or_false, ite_self,
    ne_eq, not_true_eq_false]
  rfl

/-- Reward of the resting robot as a function of the distance of the goal. -/
theorem goalRobot_reward (gx : ℝ) :
    TT2d.getReward (goalRobot gx).toParams ⟨gx, 0, 0, 0⟩ ⟨0, 0, 0, 0⟩ =
      0.8 * ((1 - TT2d.wTheta (goalRobot gx).toParams |gx|) * Params.posReward |gx| 25 +
        TT2d.wTheta (goalRobot gx).toParams |gx|) + 0.2 ∧
    TT2d.getTerminalReward (goalRobot gx).toParams ⟨gx, 0, 0, 0⟩ ⟨0, 0, 0, 0⟩ =
      Params.posReward |gx| 10 := by
  have hm : (goalRobot gx).motionPreference = 0 := rfl
  have hd : TT2d.posDist (goalRobot gx).toParams ⟨gx, 0, 0, 0⟩ ⟨0, 0, 0, 0⟩ = |gx| := by
    simp only [TT2d.posDist, Params.tracksTractor, hm]
    norm_num [TT2d.trailerPos, TT2d.hitchPoint, norm2, Real.sqrt_sq_eq_abs]
    rw [← abs_neg]
    congr 1
    ring
  have h1 : |wrapPi (0 - 0 - π)| = π := by
    rw [sub_zero, zero_sub, wrapPi_of_mem le_rfl (by linarith [pi_pos]), abs_neg,
      abs_of_pos pi_pos]
  constructor
  · unfold TT2d.getReward
    simp only [hd]
    have he : TT2d.headingErr (goalRobot gx).toParams ⟨gx, 0, 0, 0⟩ ⟨0, 0, 0, 0⟩ = (0, 0) := by
      unfold TT2d.headingErr
      simp only [hm, if_true, h1]
      simp [pi_pos]
    rw [he]
    simp only [goalRobot, Params.default, sub_zero, wrapPi_zero, abs_zero]
    norm_num
  · unfold TT2d.getTerminalReward
    rw [hd]
    rfl

theorem goalRobot_run (g h : ℝ) (ext : Ext Q4) (normal : Key → ℕ → ℕ → ℕ → ℕ → U) :
    (runDiffusion { (TT2d.obj (goalRobot g) ext).view with
      reset := (TT2d.obj (goalRobot h) ext).view.reset } normal stillCfg).rew =
    TT2d.getReward (goalRobot g).toParams ⟨g, 0, 0, 0⟩ ⟨0, 0, 0, 0⟩ +
    TT2d.getTerminalReward (goalRobot g).toParams ⟨g, 0, 0, 0⟩ ⟨0, 0, 0, 0⟩ := by
  have e := fun s hq hb => goalRobot_step g ext s hq hb
  have e1 := e (goalRobot h).reset rfl rfl
  have e2 := e { q := ⟨0, 0, 0, 0⟩, obs := ⟨0, 0, 0, 0⟩
                 reward := TT2d.getReward (goalRobot g).toParams ⟨g, 0, 0, 0⟩ ⟨0, 0, 0, 0⟩
                 done := 0, applied := (0, 0), inBackup := false } rfl rfl
  simp only [runDiffusion, rolloutUsWithTerminal, reverseLoop, stillCfg, zeroPlan, warmState,
    TT2d.obj, TT2d.planEnv, Nat.sub_self, List.range_zero, List.foldl_nil, List.replicate_succ,
    List.replicate_zero, scanStates, finalState, e1, e2, List.map_cons, List.map_nil]
  simp [mean, goalRobot, Params.default]

/-- The whole claim of C30 is false: robot 0 with its goal at the start, robot 1 identical but for a
goal 100 m ahead; planning for robot 1 after robot 0 without clearing returns robot 0's reward. -/
theorem C30_other_robot_refuted :
    ¬ (∀ (heap : ℕ → Obj Q4) (o : ℕ) (ops : List (Op Q4)) (cfg : Cfg)
      (_ : ∀ op ∈ ops, ∀ p x, op ≠ .set p x) (normal : Key → ℕ → ℕ → ℕ → ℕ → U),
      (((World.init heap).history ops).run o normal cfg).2 =
        runDiffusion (World.withDemo (heap o) cfg).view normal cfg) := by
  intro hall
  let ext : Ext Q4 := ⟨fun _ u => u, id⟩
  let nz : Key → ℕ → ℕ → ℕ → ℕ → U := fun _ _ _ _ _ => (0, 0)
  let heap : ℕ → Obj Q4 := fun k => TT2d.obj (goalRobot (if k = 0 then 0 else 100)) ext
  have h1 := hall heap 1 [.run 0 nz stillCfg] stillCfg (by simp) nz
  rw [C30_second_robot heap (by norm_num : (0 : ℕ) ≠ 1) rfl nz nz stillCfg stillCfg rfl rfl
    ⟨rfl, rfl, rfl⟩] at h1
  have h2 := congrArg Result.rew h1
  have e1 := goalRobot_run 0 100 ext nz
  have e2 := goalRobot_run 100 100 ext nz
  have d0 : World.withDemo (heap 0) stillCfg = TT2d.obj (goalRobot 0) ext := by
    simp [World.withDemo, stillCfg, heap]
  have d1 : World.withDemo (heap 1) stillCfg = TT2d.obj (goalRobot 100) ext := by
    simp [World.withDemo, stillCfg, heap]
  have d2 : heap 1 = TT2d.obj (goalRobot 100) ext := by simp [heap]
  rw [d0, d1, d2, e1] at h2
  have e3 : (runDiffusion (TT2d.obj (goalRobot 100) ext).view nz stillCfg).rew =
    TT2d.getReward (goalRobot 100).toParams ⟨100, 0, 0, 0⟩ ⟨0, 0, 0, 0⟩ +
    TT2d.getTerminalReward (goalRobot 100).toParams ⟨100, 0, 0, 0⟩ ⟨0, 0, 0, 0⟩ := e2
  rw [e3, (goalRobot_reward 0).1, (goalRobot_reward 0).2, (goalRobot_reward 100).1,
    (goalRobot_reward 100).2] at h2
  have hw : TT2d.wTheta (goalRobot 100).toParams |100| ≤ 0.75 := by
    unfold TT2d.wTheta clip
    exact min_le_right _ _
  have c1 : Params.posReward |(0 : ℝ)| 25 = 1 := by simp [Params.posReward, clip]
  have c2 : Params.posReward |(0 : ℝ)| 10 = 1 := by simp [Params.posReward, clip]
  have c3 : Params.posReward |(100 : ℝ)| 25 = 0 := by norm_num [Params.posReward, clip]
  have c4 : Params.posReward |(100 : ℝ)| 10 = 0 := by norm_num [Params.posReward, clip]
  rw [c1, c2, c3, c4] at h2
  linarith

/-- The claim of C29 without the restriction on attribute changes is false: plan once, move the
start with the setter, clear the cache, plan again. The result starts at the old pose. -/
theorem C29_moved_start_refuted :
    ¬ (∀ (heap : ℕ → Obj Q4) (o : ℕ) (ops : List (Op Q4)) (cfg : Cfg)
      (normal : Key → ℕ → ℕ → ℕ → ℕ → U),
      (((World.init heap).history ops).clear.run o normal cfg).2 =
        runDiffusion (World.withDemo (((World.init heap).history ops).heap o) cfg).view normal cfg) := by
  intro hall
  let ext : Ext Q4 := ⟨fun _ u => u, id⟩
  let nz : Key → ℕ → ℕ → ℕ → ℕ → U := fun _ _ _ _ _ => (0, 0)
  let heap : ℕ → Obj Q4 := fun _ => TT2d.obj (goalRobot 0) ext
  let moved : TT2d := { goalRobot 0 with x0 := ⟨1, 0, 0, 0⟩ }
  let ops : List (Op Q4) := [.run 0 nz stillCfg, .set 0 (moved.obj ext)]
  have h1 := hall heap 0 ops stillCfg nz
  have h2 := C29_reset_frozen heap 0 nz nz stillCfg stillCfg [.set 0 (moved.obj ext), .clear]
  have h3 : (((World.init heap).history ops).clear.run 0 nz stillCfg).2.xs.head? =
      some (⟨0, 0, 0, 0⟩ : Q4) := h2
  have h4 : ((World.init heap).history ops).heap 0 = moved.obj ext := by
    simp [ops, World.history, World.exec, World.set]
  rw [h1, h4] at h3
  have h5 : (runDiffusion (World.withDemo (moved.obj ext) stillCfg).view nz stillCfg).xs.head? =
      some (⟨1, 0, 0, 0⟩ : Q4) := rfl
  rw [h5] at h3
  simp at h3

/-- Non-vacuity of `C29_cleared` and `C30_same_robot_partial`: a history with runs on two robots. -/
example (ext : Ext Q4) (n : Key → ℕ → ℕ → ℕ → ℕ → U) :
    let heap : ℕ → Obj Q4 := fun k => TT2d.obj (goalRobot k) ext
    let ops : List (Op Q4) := [.run 0 n stillCfg, .run 1 n stillCfg, .clear, .run 1 n stillCfg]
    (((World.init heap).history ops).clear.run 1 n stillCfg).2 =
      runDiffusion (World.withDemo (heap 1) stillCfg).view n stillCfg := by
  intro heap ops
  exact C29_cleared heap 1 [] ops (by simp)
    (by simp [ops, Op.Keeps, stillCfg]) n stillCfg

example (ext : Ext Q4) (n : Key → ℕ → ℕ → ℕ → ℕ → U) :
    let heap : ℕ → Obj Q4 := fun k => TT2d.obj (goalRobot k) ext
    ((((World.init heap).history [.run 0 n stillCfg]).clear.history
      [.run 1 n stillCfg, .run 1 n { stillCfg with Nsample := 5 }]).run 1 n stillCfg).2 =
      runDiffusion (World.withDemo (heap 1) stillCfg).view n stillCfg := by
  intro heap
  exact C30_same_robot_partial heap 1 [] [.run 0 n stillCfg] _ stillCfg (by simp)
    (by simp [Op.Keeps, stillCfg]) (by simp [Op.Repeats, stillCfg]) n

/-- Two robots with different goals, same class, same schedule. -/
example (ext : Ext Q4) (n : Key → ℕ → ℕ → ℕ → ℕ → U) :=
  C30_second_robot (fun k => TT2d.obj (goalRobot k) ext) (a := 0) (b := 1) (by norm_num) rfl n n stillCfg
    stillCfg rfl rfl ⟨rfl, rfl, rfl⟩

/-- Two robots of the same class, the second planned with a different noise schedule. -/
example (ext : Ext Q4) (n : Key → ℕ → ℕ → ℕ → ℕ → U) (robots : ℕ → TT2d) (cfg : Cfg)
    (hg : cfg.enableGuidance = false) :=
  C30_stale_schedule (fun k => TT2d.obj (robots k) ext) (a := 0) (b := 1) (by norm_num) rfl n n cfg
    { cfg with Ndiffuse := 2 * cfg.Ndiffuse } hg hg

end Mbd
