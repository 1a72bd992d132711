import Verif.PropsCache
import Verif.PropsWeights
import Verif.PropsPlanner
import Verif.Stat

/-!
# C61: several robots planned one after another in one process
-/

namespace Mbd

open Real Classical

variable {Q : Type}

namespace World

/-- The dictionary and the traces are those left by a first run on object `a` (attributes `x` after
its demonstration) with configuration `cfg`. -/
structure Primed (w : World Q) (k a : ℕ) (x : Obj Q) (cfg : Cfg) : Prop where
  heap : w.heap a = x
  funcs : w.funcs x.cls = some (k, a)
  rev : ∃ tr, w.rev = some ⟨mkSchedule cfg.beta0 cfg.betaT cfg.Ndiffuse, a, (k, a), tr⟩ ∧
    tr (revKey cfg) = some ⟨x.view.steeringWeight, x.view.deltaMax, x.view.xrefLogpd, x.view.rewXref⟩
  step : w.stepTr a = some x.view.step
  term : w.termTr a = some x.view.terminal
  roll : w.rollTr k cfg.Hsample = some x.view.terminalWeight

theorem withDemo_cls (x : Obj Q) (c : Cfg) : (withDemo x c).cls = x.cls :=
  ((Core.refl x).withDemo c).1

theorem withDemo_reset (x : Obj Q) (c : Cfg) : (withDemo x c).view.reset = x.view.reset := by
  obtain ⟨p, q, h⟩ := ((Core.refl x).withDemo c).2.2
  rw [h]

theorem touch_some {κ α : Type} [DecidableEq κ] {tr : κ → Option α} {k : κ} {v : α} (h : tr k = some v)
    (j : κ) (y : α) : touch tr j y k = some v := by
  by_cases hj : k = j
  · subst hj; rw [touch_same, h]; rfl
  · rw [touch_ne _ hj, h]

/-- The first run with an empty dictionary primes the process. -/
theorem primed_first {w : World Q} (hw : WF w) (hf : w.funcs = fun _ => none) (hr : w.rev = none)
    {a : ℕ} (hu : Unused w a) (normal : Key → ℕ → ℕ → ℕ → ℕ → U) (cfg : Cfg)
    (hg : cfg.enableGuidance = false) :
    Primed (w.run a normal cfg).1 w.nextHandle a (withDemo (w.heap a) cfg) cfg := by
  have hro : w.rollTr w.nextHandle cfg.Hsample = none := hw.roll _ le_rfl _
  refine ⟨?_, ?_, ?_, ?_, ?_, ?_⟩
  · simp [run]
  · simp [run, hf, hg]
  · refine ⟨Function.update (fun _ => none) (revKey cfg) _, ?_, Function.update_self ..⟩
    simp only [run, hf, hr, hg, Function.update_self, Option.getD_none]
    simp
  · simp only [run, hf, hr, hg, Function.update_self, Option.getD_none]
    simp [touch_same, hu.step]
  · simp only [run, hf, hr, Function.update_self, Option.getD_none]
    simp [touch_same, hu.term]
  · simp only [run, hf, hr, Function.update_self, Option.getD_none, touch_same, hro]
    simp

/-- A later run on another object of the class keeps the process primed. -/
theorem primed_next {w : World Q} {k a b : ℕ} {x : Obj Q} {cfg : Cfg} (hp : Primed w k a x cfg)
    (hab : a ≠ b) (hcls : (w.heap b).cls = x.cls) (hg : cfg.enableGuidance = false)
    (normal : Key → ℕ → ℕ → ℕ → ℕ → U) : Primed (w.run b normal cfg).1 k a x cfg := by
  obtain ⟨tr, hr, htr⟩ := hp.rev
  have hc : (withDemo (w.heap b) cfg).cls = x.cls := (withDemo_cls _ _).trans hcls
  refine ⟨?_, ?_, ?_, ?_, ?_, ?_⟩
  · simp only [run]
    rw [Function.update_of_ne hab]
    exact hp.heap
  · simp only [run, hg, Function.update_self, hc, hp.funcs]
    simp
  · refine ⟨Function.update tr (revKey cfg) _, ?_, Function.update_self ..⟩
    simp only [run, hg, Function.update_self, hr, Option.getD_some, htr]
    simp
  · simp only [run, hg, Bool.false_eq_true, if_false]
    exact touch_some (touch_some hp.step _ _) _ _
  · simp only [run]
    exact touch_some (touch_some hp.term _ _) _ _
  · simp only [run, Function.update_self, hc, hp.funcs, hr, Option.getD_some]
    exact touch_some (touch_some hp.roll _ _) _ _

/-- What a run in a primed process computes. -/
theorem primed_result {w : World Q} {k a b : ℕ} {x : Obj Q} {cfg : Cfg} (hp : Primed w k a x cfg)
    (hcls : (w.heap b).cls = x.cls) (hrs : w.resetTr b = none)
    (hg : cfg.enableGuidance = false) (normal : Key → ℕ → ℕ → ℕ → ℕ → U) :
    (w.run b normal cfg).2 =
      runDiffusion { x.view with reset := (w.heap b).view.reset } normal cfg := by
  obtain ⟨tr, hr, htr⟩ := hp.rev
  have hc : (withDemo (w.heap b) cfg).cls = x.cls := (withDemo_cls _ _).trans hcls
  simp only [run, runDiffusion, Function.update_self, hc, hp.funcs, hr, Option.getD_some, htr,
    hp.step, hp.term, hp.roll, hrs, Option.getD_none, hg, withDemo_reset,
    Bool.false_eq_true, if_false]
  rw [reverseOnce_core
    (E := { reset := (w.heap b).view.reset, step := x.view.step
            stepViz := x.view.step
            terminal := x.view.terminal
            terminalWeight := x.view.terminalWeight
            steeringWeight := x.view.steeringWeight
            deltaMax := x.view.deltaMax
            xrefLogpd := x.view.xrefLogpd
            rewXref := x.view.rewXref })
    (E' := { x.view with reset := (w.heap b).view.reset })
    ⟨rfl, rfl, rfl, rfl, rfl⟩ _ normal cfg (fun _ => ⟨rfl, rfl⟩)]

theorem run_heap_other {w : World Q} {b o : ℕ} (h : o ≠ b) (normal : Key → ℕ → ℕ → ℕ → ℕ → U)
    (cfg : Cfg) : (w.run b normal cfg).1.heap o = w.heap o := by
  simp only [run]
  rw [Function.update_of_ne h]

theorem run_resetTr_other {w : World Q} {b o : ℕ} (h : o ≠ b) (normal : Key → ℕ → ℕ → ℕ → ℕ → U)
    (cfg : Cfg) : (w.run b normal cfg).1.resetTr o = w.resetTr o := by
  simp only [run]
  rw [touch_ne _ h]

theorem batch_primed {k a : ℕ} {x : Obj Q} {cfg : Cfg} (hg : cfg.enableGuidance = false)
    (normal : Key → ℕ → ℕ → ℕ → ℕ → U) (os : List ℕ) : ∀ {w : World Q}, Primed w k a x cfg →
    (a :: os).Nodup → (∀ o ∈ os, (w.heap o).cls = x.cls ∧ w.resetTr o = none) →
    batch normal cfg w os = os.map fun o =>
      runDiffusion { x.view with reset := (w.heap o).view.reset } normal cfg := by
  induction os with
  | nil => intros; rfl
  | cons b os ih =>
    intro w hp hn ho
    have hab : a ≠ b := fun h => by simp [h] at hn
    have hb := ho b (by simp)
    have hn' : (a :: os).Nodup := by
      simp only [List.nodup_cons, List.mem_cons, not_or] at hn ⊢
      exact ⟨hn.1.2, hn.2.2⟩
    have hne : ∀ o ∈ os, o ≠ b := by
      intro o h1 h2
      simp only [List.nodup_cons] at hn
      exact hn.2.1 (h2 ▸ h1)
    rw [batch, List.map_cons, primed_result hp hb.1 hb.2 hg normal,
      ih (primed_next hp hab hb.1 hg normal) hn' ?_]
    · congr 1
      apply List.map_congr_left
      intro o h
      rw [run_heap_other (hne o h)]
    · intro o h
      rw [run_heap_other (hne o h), run_resetTr_other (hne o h)]
      exact ho o (by simp [h])

/-- A batch started with an empty dictionary on objects that were never used. -/
theorem batch_cleared {w : World Q} (hw : WF w) (hf : w.funcs = fun _ => none) (hr : w.rev = none)
    (a : ℕ) (os : List ℕ) (hn : (a :: os).Nodup) (hu : ∀ o ∈ a :: os, Unused w o)
    (hcls : ∀ o ∈ os, (w.heap o).cls = (w.heap a).cls) (normal : Key → ℕ → ℕ → ℕ → ℕ → U) (cfg : Cfg)
    (hg : cfg.enableGuidance = false) :
    batch normal cfg w (a :: os) =
      runDiffusion (withDemo (w.heap a) cfg).view normal cfg ::
      os.map fun o => runDiffusion { (withDemo (w.heap a) cfg).view with
        reset := (w.heap o).view.reset } normal cfg := by
  have hne : ∀ o ∈ os, o ≠ a := by
    intro o h1 h2
    simp only [List.nodup_cons] at hn
    exact hn.1 (h2 ▸ h1)
  have hua := hu a (by simp)
  rw [batch]
  congr 1
  · exact run_fresh hw hf hr hua.clean normal cfg
  · rw [batch_primed hg normal os (primed_first hw hf hr hua normal cfg hg) hn]
    · apply List.map_congr_left
      intro o h
      rw [run_heap_other (hne o h)]
    · intro o h
      rw [run_heap_other (hne o h), run_resetTr_other (hne o h), withDemo_cls]
      exact ⟨hcls o h, (hu o (by simp [h])).reset⟩

end World

/-- **C61 (what a batch computes).** Robots `a, b, c, …` (different objects of one class, attributes
not assigned in between) planned one after another in a new process with one configuration without
guidance: the first result is the cache-free one, every later result is the cache-free result for the
*first* robot's transition function, rewards, weights and reference data, started at the later
robot's own initial state. -/
theorem C61_batch (heap : ℕ → Obj Q) (a : ℕ) (os : List ℕ) (hn : (a :: os).Nodup)
    (hcls : ∀ o ∈ os, (heap o).cls = (heap a).cls) (normal : Key → ℕ → ℕ → ℕ → ℕ → U) (cfg : Cfg)
    (hg : cfg.enableGuidance = false) :
    World.batch normal cfg (World.init heap) (a :: os) =
      runDiffusion (World.withDemo (heap a) cfg).view normal cfg ::
      os.map fun o => runDiffusion { (World.withDemo (heap a) cfg).view with
        reset := (heap o).view.reset } normal cfg :=
  World.batch_cleared (World.init_wf heap) rfl rfl a os hn (fun o _ => World.init_unused heap o) hcls
    normal cfg hg

example (ext : Ext Q4) (robots : ℕ → TT2d) (normal : Key → ℕ → ℕ → ℕ → ℕ → U) (cfg : Cfg)
    (hg : cfg.enableGuidance = false) :=
  C61_batch (fun i => (robots i).obj ext) 0 [1, 2, 3] (by decide) (fun _ _ => rfl) normal cfg hg

/-- **C61 (no demonstration).** If the robots differ only in their initial state and the demonstration
is off, every robot of the batch gets exactly the result it would get alone in a new process. -/
theorem C61_no_demo (heap : ℕ → Obj Q) (os : List ℕ) (hn : os.Nodup)
    (hsame : ∀ o ∈ os, ∀ p ∈ os, (heap o).cls = (heap p).cls ∧
      (heap o).view = { (heap p).view with reset := (heap o).view.reset })
    (normal : Key → ℕ → ℕ → ℕ → ℕ → U) (cfg : Cfg) (hg : cfg.enableGuidance = false)
    (hd : cfg.enableDemo = false) :
    World.batch normal cfg (World.init heap) os =
      os.map fun o => ((World.init heap).run o normal cfg).2 := by
  have hfresh : ∀ o, ((World.init heap).run o normal cfg).2 = runDiffusion (heap o).view normal cfg := by
    intro o
    rw [World.run_fresh (World.init_wf heap) rfl rfl (World.init_unused heap o).clean normal cfg]
    simp [World.withDemo, hd, World.init]
  have hw : ∀ x : Obj Q, World.withDemo x cfg = x := fun x => by simp [World.withDemo, hd]
  simp only [hfresh]
  cases os with
  | nil => rfl
  | cons a os =>
    rw [C61_batch heap a os hn (fun o ho => (hsame o (by simp [ho]) a (by simp)).1) normal cfg hg,
      hw, List.map_cons]
    congr 1
    apply List.map_congr_left
    intro o ho
    rw [← (hsame o (by simp [ho]) a (by simp)).2]


namespace World

theorem batch_guided {cfg : Cfg} (hg : cfg.enableGuidance = true)
    (normal : Key → ℕ → ℕ → ℕ → ℕ → U) (os : List ℕ) : ∀ {w : World Q}, WF w →
    (w.funcs = fun _ => none) → w.rev = none → os.Nodup → (∀ o ∈ os, Unused w o) →
    batch normal cfg w os = os.map fun o => runDiffusion (withDemo (w.heap o) cfg).view normal cfg := by
  induction os with
  | nil => intros; rfl
  | cons b os ih =>
    intro w hw hf hr hn ho
    rw [List.nodup_cons] at hn
    have hne : ∀ o ∈ os, b ≠ o := fun o h1 h2 => hn.1 (h2 ▸ h1)
    rw [batch, List.map_cons, run_fresh hw hf hr (ho b (by simp)).clean normal cfg,
      ih (run_wf hw b normal cfg) (by simp [run, hg]) (by simp [run, hg]) hn.2
        (fun o h => run_unused (ho o (by simp [h])) (hne o h) normal cfg)]
    congr 1
    apply List.map_congr_left
    intro o h
    rw [run_heap_other (hne o h).symm]

end World

/-- **C61 (guidance).** With guidance in the configuration the dictionary is emptied by every run, so
every robot of the batch, whatever its attributes and class, gets the result it would get alone. -/
theorem C61_guided (heap : ℕ → Obj Q) (os : List ℕ) (hn : os.Nodup)
    (normal : Key → ℕ → ℕ → ℕ → ℕ → U) (cfg : Cfg) (hg : cfg.enableGuidance = true) :
    World.batch normal cfg (World.init heap) os =
      os.map fun o => ((World.init heap).run o normal cfg).2 := by
  rw [World.batch_guided hg normal os (World.init_wf heap) rfl rfl hn
    (fun o _ => World.init_unused heap o)]
  apply List.map_congr_left
  intro o _
  rw [World.run_fresh (World.init_wf heap) rfl rfl (World.init_unused heap o).clean normal cfg]

example (ext : Ext Q4) (robots : ℕ → TT2d) (normal : Key → ℕ → ℕ → ℕ → ℕ → U) (cfg : Cfg)
    (hg : cfg.enableGuidance = true) :=
  C61_guided (fun i => (robots i).obj ext) [0, 1, 2, 3] (by decide) normal cfg hg

/-! ### With demonstrations the later trials follow the first trial's reference -/

/-- A robot in an empty map, heading along x, goal far away and heading along y. Reaching the
goal, steering and hitch angle play no role for this short plan; only the heading reward is on. -/
noncomputable def refRobot (x : ℝ) : TT2d :=
  { Params.default [] [] with
    dt := 1, H := 1, vMax := 1, motionPreference := 1, rewardThreshold := 1
    terminalRewardThreshold := 1, hitchAngleWeight := 0, steeringWeight := 0
    preferencePenaltyWeight := 0, refRewardThreshold := 10, refPosWeight := 1
    refTheta1Weight := 0, refTheta2Weight := 0
    x0 := ⟨x, 0, 0, 0⟩, xg := ⟨1000, 1000, π / 2, π / 2⟩ }

/-- Two samples, one action, one reverse step, demonstration on. -/
noncomputable def refCfg : Cfg :=
  { motionPreference := 1, temp := 1, enableDemo := true, enableGuidance := false, Nsample := 2
    Hsample := 1, Ndiffuse := 2, beta0 := 3 / 4, betaT := 3 / 4 }

/-- Noise that proposes "full speed ahead" as the first and "stay" as the second sample. -/
def refNoise : Key → ℕ → ℕ → ℕ → ℕ → U := fun _ _ _ n _ => if n = 0 then (1, 0) else (0, 0)

theorem refRobot_dist (x y t : ℝ) (hy : y ≤ 900) :
    1 ≤ TT2d.posDist (refRobot x).toParams (refRobot x).xg ⟨y, 0, t, t⟩ := by
  have hm : (refRobot x).motionPreference = 1 := rfl
  simp only [TT2d.posDist, Params.tracksTractor, hm, true_or, if_true, Params.tractorPos, norm2]
  apply Real.le_sqrt_of_sq_le
  have h1 : (refRobot x).l1 = 3.23 := rfl
  have hx : (refRobot x).xg.px = 1000 := rfl
  simp only [Prod.fst_sub, Prod.snd_sub, h1, hx]
  have hc := Real.cos_le_one t
  have : y + 3.23 * cos t - 1000 ≤ -90 := by linarith
  nlinarith [sq_nonneg (0 + 3.23 * sin t - (refRobot x).xg.py)]

theorem posReward_far {d thr : ℝ} (ht : 0 < thr) (h : thr ≤ d) : Params.posReward d thr = 0 := by
  have : clip d 0 thr = thr := by
    unfold clip
    rw [max_eq_left (by linarith), min_eq_right h]
  rw [Params.posReward, this, div_self ht.ne']
  norm_num

theorem refRobot_terminal (x y t : ℝ) (hy : y ≤ 900) :
    TT2d.getTerminalReward (refRobot x).toParams (refRobot x).xg ⟨y, 0, t, t⟩ = 0 :=
  posReward_far (by norm_num [refRobot]) (refRobot_dist x y t hy)

/-- Reward of a state heading along x: zero; of a reference row heading along y: positive. -/
theorem refRobot_reward (x y : ℝ) (hy : y ≤ 900) :
    TT2d.getReward (refRobot x).toParams (refRobot x).xg ⟨y, 0, 0, 0⟩ = 0 ∧
    0 < TT2d.getReward (refRobot x).toParams (refRobot x).xg ⟨y, 0, π / 2, π / 2⟩ := by
  have hm : (refRobot x).motionPreference = 1 := rfl
  have hg : (refRobot x).xg.th1 = π / 2 := rfl
  have hp : (0 : ℝ) < π := pi_pos
  have hw0 : wrapPi (0 - π / 2) = -(π / 2) := by
    rw [zero_sub, wrapPi_of_mem (by linarith) (by linarith)]
  have hr : (refRobot x).rewardThreshold = 1 := rfl
  constructor
  · unfold TT2d.getReward
    simp only [posReward_far (show (0 : ℝ) < (refRobot x).rewardThreshold by rw [hr]; norm_num)
      (refRobot_dist x y 0 hy), TT2d.headingErr, hm, hg, one_ne_zero, if_false, hw0, abs_neg,
      abs_of_pos (show (0 : ℝ) < π / 2 by positivity), Params.thetaMax,
      div_self (show (π / 2 : ℝ) ≠ 0 by positivity)]
    have hh : (refRobot x).hitchAngleWeight = 0 := rfl
    rw [hh]
    norm_num
  · unfold TT2d.getReward
    simp only [posReward_far (show (0 : ℝ) < (refRobot x).rewardThreshold by rw [hr]; norm_num)
      (refRobot_dist x y (π / 2) hy), TT2d.headingErr, hm, hg, one_ne_zero, if_false, sub_self,
      wrapPi_zero, abs_zero]
    have hh : (refRobot x).hitchAngleWeight = 0 := rfl
    have hq : (refRobot x).headingRewardWeight = 0.5 := rfl
    have hw : (refRobot x).maxWTheta = 0.75 := rfl
    rw [hh, hq]
    have : 0 < TT2d.wTheta (refRobot x).toParams
        (TT2d.posDist (refRobot x).toParams (refRobot x).xg ⟨y, 0, π / 2, π / 2⟩) := by
      unfold TT2d.wTheta clip
      rw [hw]
      refine lt_min (lt_max_of_lt_left ?_) (by norm_num)
      unfold sigmoid
      positivity
    norm_num
    exact this

theorem refRobot_step (x : ℝ) (ext : Ext Q4) (y u : ℝ) (hy : y + u ≤ 900) (hu0 : -1 ≤ u) (hu1 : u ≤ 1)
    (s : St Q4) (hq : s.q = ⟨y, 0, 0, 0⟩) (hb : s.inBackup = false) :
    (refRobot x).step ext s (u, 0) =
      { q := ⟨y + u, 0, 0, 0⟩, obs := ⟨y + u, 0, 0, 0⟩, reward := 0, done := 0, applied := (u, 0)
        inBackup := false } := by
  have hc : clip 0 (-1 : ℝ) 1 = 0 := clip_of_mem (by norm_num) (by norm_num)
  have hcu : clip u (-1 : ℝ) 1 = u := clip_of_mem hu0 hu1
  have hhi : ¬ TT2d.checkHitch (refRobot x).toParams ⟨y + u, 0, 0, 0⟩ := by
    simp only [TT2d.checkHitch, sub_zero, wrapPi_zero, abs_zero, Params.phiMax, deg2rad, gt_iff_lt,
      not_lt]
    positivity
  have hco : ¬ TT2d.checkObstacle (refRobot x).toParams ⟨y + u, 0, 0, 0⟩ := by
    simp [TT2d.checkObstacle, refRobot, Params.default]
  have he : TT2d.euler (refRobot x).toParams ⟨y, 0, 0, 0⟩ (u, 0) = ⟨y + u, 0, 0, 0⟩ := by
    simp [TT2d.euler, TT2d.dynamics, Q4.axpy, refRobot]
  have hsc : (refRobot x).inputScaler (u, 0) = (u, 0) := by
    simp [Params.inputScaler, refRobot]
  have hp : (refRobot x).enableProjection = false := rfl
  have hgd : (refRobot x).enableGuidance = false := rfl
  have hm : (refRobot x).motionPreference = 1 := rfl
  have hpp : (refRobot x).prefPenaltyU (u, 0) = 0 := by
    have : (refRobot x).preferencePenaltyWeight = 0 := rfl
    simp [Params.prefPenaltyU, Params.prefPenaltyV, this]
  unfold TT2d.step TT2d.stepInternal
  simp only [clipU, hc, hcu, hq, hb, hp, hgd, hm, hsc, he, kinShieldedRollout, kinNaive, hhi, hco,
    Bool.false_eq_true, if_false, decide_false, Bool.and_false, Bool.or_false, ite_self,
    ne_eq, (refRobot_reward x (y + u) hy).1, hpp, sub_zero]

/-- The demonstration of one row is the start position with the goal's headings. -/
theorem refRobot_demo (x : ℝ) (_hx : x ≤ 900) (pref : ℤ) :
    (refRobot x).demo pref = .ok [(⟨x, 0, π / 2, π / 2⟩, true)] := by
  have hw : Demo.waypoints (refRobot x).toParams true (x, 0) (1000, 1000) = [(x, 0), (1000, 1000)] := by
    simp [Demo.waypoints, Demo.lineCollides, refRobot, Params.default]
  have hl : 0 < norm2 ((1000 : ℝ) - x, (1000 : ℝ)) := by
    unfold norm2
    apply Real.sqrt_pos.2
    positivity
  have hn : Demo.pointsPerSegment 1 [norm2 ((1000 : ℝ) - x, (1000 : ℝ))] = [1] := by
    have h1 : ((1 : ℕ) : ℝ) * norm2 ((1000 : ℝ) - x, (1000 : ℝ)) /
        [norm2 ((1000 : ℝ) - x, (1000 : ℝ))].sum = 1 := by
      rw [Nat.cast_one, one_mul, List.sum_singleton, div_self hl.ne']
    simp only [Demo.pointsPerSegment, List.map_cons, List.map_nil, h1]
    have h2 : Demo.roundEven 1 = 1 := by
      simp [Demo.roundEven]
    simp [h2, Demo.argmax]
  unfold TT2d.demo Demo.generate
  have hH : (refRobot x).H = 1 := rfl
  have hx0 : ((refRobot x).x0.px, (refRobot x).x0.py) = (x, 0) := rfl
  have hxg : ((refRobot x).xg.px, (refRobot x).xg.py) = (1000, 1000) := rfl
  have h1 : (refRobot x).xg.th1 = π / 2 := rfl
  have h2 : (refRobot x).xg.th2 = π / 2 := rfl
  simp only [hx0, hxg, hw, hH, Demo.points, Demo.segs, List.tail_cons, List.zip_cons_cons,
    List.map_cons, Demo.segLen, Prod.mk_sub_mk, sub_zero, List.zip_nil_right, List.map_nil, hn,
    List.sum_singleton, hl, true_and, Demo.discretise, List.length_cons, List.length_nil]
  simp [linspace, Demo.segPoint, Demo.angles, h1, h2]

/-! The plan that each reference produces. -/

/-- Log weights and weights for two samples with equal rewards. -/
theorem softmax_two (a b : ℝ) : ∃ w : ℝ, softmax [a, b] = [w, 1 - w] ∧ (b < a → 1 / 2 < w) ∧
    (a < b → w < 1 / 2) := by
  have hs : 0 < exp (a - listMax [a, b]) + exp (b - listMax [a, b]) := by positivity
  refine ⟨exp (a - listMax [a, b]) / (exp (a - listMax [a, b]) + exp (b - listMax [a, b])), ?_, ?_, ?_⟩
  · simp only [softmax, List.map_cons, List.map_nil, List.sum_cons, List.sum_nil, add_zero]
    congr 2
    field_simp
    ring
  · intro h
    have : exp (b - listMax [a, b]) < exp (a - listMax [a, b]) := exp_lt_exp.2 (by linarith)
    rw [lt_div_iff₀ hs]
    linarith
  · intro h
    have : exp (a - listMax [a, b]) < exp (b - listMax [a, b]) := exp_lt_exp.2 (by linarith)
    rw [div_lt_iff₀ hs]
    linarith

/-- The view of robot `x` after the demonstration, started at 0. -/
theorem refRobot_run (x : ℝ) (hx0 : 0 ≤ x) (hx : x ≤ 5) (ext : Ext Q4) :
    ∃ w : ℝ, (runDiffusion { (World.withDemo ((refRobot x).obj ext) refCfg).view with
      reset := ((refRobot 0).obj ext).view.reset } refNoise refCfg).Y0 = [(w, 0)] ∧
      (x = 0 → w < 1 / 2) ∧ (x = 5 → 1 / 2 < w) := by
  set E : PlanEnv Q4 := { (World.withDemo ((refRobot x).obj ext) refCfg).view with
      reset := ((refRobot 0).obj ext).view.reset } with hE
  have hd := refRobot_demo x (by linarith) 1
  have hstep : E.step = (refRobot x).step ext := by
    simp [hE, World.withDemo, refCfg, TT2d.obj, TT2d.planEnv]
  have hterm : E.terminal = TT2d.getTerminalReward (refRobot x).toParams (refRobot x).xg := by
    simp [hE, World.withDemo, refCfg, TT2d.obj, TT2d.planEnv]
  have hsw : E.steeringWeight = 0 := by
    simp [hE, World.withDemo, refCfg, TT2d.obj, TT2d.planEnv, refRobot]
  have hxr : E.xrefLogpd = Demo.evalXref (refRobot x).toParams [(⟨x, 0, π / 2, π / 2⟩, true)] := by
    simp only [hE, World.withDemo, refCfg, if_true, TT2d.obj, hd]
    rfl
  have hrx : E.rewXref = Demo.rewardOf (TT2d.getReward (refRobot x).toParams (refRobot x).xg)
      (TT2d.getTerminalReward (refRobot x).toParams (refRobot x).xg) (refRobot x).terminalRewardWeight
      [⟨x, 0, π / 2, π / 2⟩] := by
    simp only [hE, World.withDemo, refCfg, if_true, TT2d.obj, hd]
    rfl
  have hR : 0 < E.rewXref := by
    rw [hrx]
    simp only [Demo.rewardOf, List.map_cons, List.map_nil, mean, List.sum_singleton,
      List.getLast?_singleton, Option.map_some, Option.getD_some, List.length_singleton,
      refRobot_terminal x x (π / 2) (by linarith)]
    have := (refRobot_reward x x (by linarith)).2
    norm_num
    exact this
  have hs0 : E.reset keyReset = (refRobot 0).reset := rfl
  set s0 : St Q4 := (refRobot 0).reset with hs0d
  -- the two rollouts
  have hroll : ∀ u : ℝ, -1 ≤ u → u ≤ 1 →
      rolloutUsWithTerminal E.step E.terminal E.terminalWeight s0 [(u, 0)] =
        (0, [⟨u, 0, 0, 0⟩], [(u, 0)]) := by
    intro u h1 h2
    have e1 : E.step s0 (0, 0) = { q := ⟨0, 0, 0, 0⟩, obs := ⟨0, 0, 0, 0⟩, reward := 0, done := 0
                                   applied := (0, 0), inBackup := false } := by
      rw [hstep, refRobot_step x ext 0 0 (by norm_num) (by norm_num) (by norm_num) s0 rfl rfl]
      norm_num
    simp only [rolloutUsWithTerminal, warmState, e1, scanStates, finalState]
    rw [hstep, refRobot_step x ext 0 u (by linarith) h1 h2 _ rfl rfl, hterm]
    simp only [zero_add, List.map_cons, List.map_nil, mean, List.sum_singleton,
      List.length_singleton, refRobot_terminal x u 0 (by linarith)]
    norm_num
  -- scores of the two end points
  have hscore : ∀ u : ℝ, 0 ≤ u → u ≤ 1 → E.xrefLogpd 1 [⟨u, 0, 0, 0⟩] = -(|u - x| / 10) ^ 2 := by
    intro u h1 h2
    rw [hxr]
    have a1 : (refRobot x).refPosWeight = 1 := rfl
    have a2 : (refRobot x).refTheta1Weight = 0 := rfl
    have a3 : (refRobot x).refTheta2Weight = 0 := rfl
    have a4 : (refRobot x).refRewardThreshold = 10 := rfl
    have a5 : |u - x| ≤ 10 := by rw [abs_le]; constructor <;> linarith
    simp only [Demo.evalXref, List.zipWith_cons_cons, List.zipWith_nil_left, mean, List.sum_singleton,
      List.length_singleton, Demo.rowLogpd, a1, a2, a3, a4, true_or, if_true, Prod.mk_sub_mk,
      sub_self, norm2, Demo.quadTerm]
    have : √((u - x) ^ 2 + 0 ^ 2) = |u - x| := by
      rw [zero_pow two_ne_zero, add_zero, Real.sqrt_sq_eq_abs]
    rw [this, clip_of_mem (abs_nonneg _) a5]
    norm_num
  -- the samples
  have hsched := C21_reverse_step E (b0 := 3 / 4) (bT := 3 / 4) (by norm_num) (by norm_num) (by norm_num)
    refNoise refCfg s0 1 le_rfl (by norm_num [refCfg]) keyExp (zeroPlan refCfg) (by simp [zeroPlan])
  have hscale : 1 ≤ (mkSchedule (3 / 4) (3 / 4) 2).sigmas.getD 1 0 /
      √((mkSchedule (3 / 4) (3 / 4) 2).alphasBar.getD (1 - 1) 0) := by
    have e1 : (mkSchedule (3 / 4) (3 / 4) 2).sigmas.getD 1 0 = √(15 / 16) := by
      norm_num [mkSchedule, linspace, cumprodFrom, List.range_succ]
    have e2 : (mkSchedule (3 / 4) (3 / 4) 2).alphasBar.getD (1 - 1) 0 = 1 / 4 := by
      norm_num [mkSchedule, linspace, cumprodFrom, List.range_succ]
    rw [e1, e2, one_le_div (Real.sqrt_pos.2 (by norm_num))]
    exact Real.sqrt_le_sqrt (by norm_num)
  have hsam : samplePlans refCfg ((mkSchedule (3 / 4) (3 / 4) refCfg.Ndiffuse).sigmas.getD 1 0 /
      √((mkSchedule (3 / 4) (3 / 4) refCfg.Ndiffuse).alphasBar.getD (1 - 1) 0))
      (refNoise (keyExp ++ [1]) refCfg.Nsample refCfg.Hsample) (zeroPlan refCfg) =
      [[(1, 0)], [(0, 0)]] := by
    have h2 : refCfg.Ndiffuse = 2 := rfl
    rw [h2]
    generalize (mkSchedule (3 / 4) (3 / 4) 2).sigmas.getD 1 0 /
      √((mkSchedule (3 / 4) (3 / 4) 2).alphasBar.getD (1 - 1) 0) = sc at hscale
    have hN : refCfg.Nsample = 2 := rfl
    have hm : refCfg.motionPreference = 1 := rfl
    have hz : zeroPlan refCfg = [(0, 0)] := rfl
    have c0 : clip 0 (-1 : ℝ) 1 = 0 := clip_of_mem (by norm_num) (by norm_num)
    have c1 : clip sc (-1 : ℝ) 1 = 1 := by
      unfold clip
      rw [max_eq_left (by linarith), min_eq_right hscale]
    simp [samplePlans, hN, hm, hz, List.range_succ, refNoise, clipSample, clipU, c0, c1]
  have hdm : refCfg.enableDemo = true := rfl
  have hmp : refCfg.motionPreference = 1 := rfl
  have htp : refCfg.temp = 1 := rfl
  -- the log weights of the batch
  set B := evalBatch E refCfg s0 [[(1, 0)], [(0, 0)]] with hB
  have heff : B.eff = [[(1, 0)], [(0, 0)]] := by
    simp only [hB, evalBatch, List.map_cons, List.map_nil, hroll 1 (by norm_num) le_rfl,
      hroll 0 (by norm_num) (by norm_num)]
  have hlogw : B.logw = logWeights 1 true E.rewXref [0, 0]
      [-(|1 - x| / 10) ^ 2, -(|0 - x| / 10) ^ 2] := by
    simp only [hB, evalBatch, List.map_cons, List.map_nil, hroll 1 (by norm_num) le_rfl,
      hroll 0 (by norm_num) (by norm_num), hdm, hmp, htp, hsw, zero_mul, add_zero,
      List.zipWith_cons_cons, List.zipWith_nil_left, hscore 1 zero_le_one le_rfl,
      hscore 0 le_rfl zero_le_one]
  have hstd : guardedStd [0, 0] = 1 := by
    norm_num [guardedStd, std, mean]
  obtain ⟨a, b, hab, hlt0, hlt5⟩ : ∃ a b : ℝ, B.logw = [a, b] ∧ (x = 0 → a < b) ∧ (x = 5 → b < a) := by
    set R := E.rewXref
    refine ⟨if (-(|1 - x| / 10) ^ 2 - listMax [-(|1 - x| / 10) ^ 2, -(|0 - x| / 10) ^ 2]) + R > 0
        then (-(|1 - x| / 10) ^ 2 - listMax [-(|1 - x| / 10) ^ 2, -(|0 - x| / 10) ^ 2]) + R else 0,
      if (-(|0 - x| / 10) ^ 2 - listMax [-(|1 - x| / 10) ^ 2, -(|0 - x| / 10) ^ 2]) + R > 0
        then (-(|0 - x| / 10) ^ 2 - listMax [-(|1 - x| / 10) ^ 2, -(|0 - x| / 10) ^ 2]) + R else 0,
      ?_, ?_, ?_⟩
    · rw [hlogw]
      have hmz : mean [0, 0] = 0 := by norm_num [mean]
      simp only [logWeights, if_true, logpDemo, logp0, hstd, hmz, List.map_cons, List.map_nil,
        List.zipWith_cons_cons, List.zipWith_nil_left, sub_zero, div_one]
    · rintro rfl
      have hmx : listMax [-(|(1 : ℝ) - 0| / 10) ^ 2, -(|(0 : ℝ) - 0| / 10) ^ 2] = 0 := by
        norm_num [listMax]
      rw [hmx]
      norm_num
      rw [if_pos hR]
      split_ifs <;> linarith
    · rintro rfl
      have hmx : listMax [-(|(1 : ℝ) - 5| / 10) ^ 2, -(|(0 : ℝ) - 5| / 10) ^ 2] = -(4 / 25) := by
        norm_num [listMax, abs_of_nonneg, abs_of_neg]
      rw [hmx]
      norm_num [abs_of_nonneg, abs_of_neg]
      rw [if_pos hR]
      split_ifs <;> linarith
  obtain ⟨w, hw, hw1, hw2⟩ := softmax_two a b
  have hwt : B.weights = [w, 1 - w] := by
    have : B.weights = softmax B.logw := rfl
    rw [this, hab, hw]
  have hwr : 0 ≤ w ∧ w ≤ 1 := by
    have p1 := softmax_pos (l := [a, b]) (w := w) (by rw [hw]; simp)
    have p2 := softmax_pos (l := [a, b]) (w := 1 - w) (by rw [hw]; simp)
    constructor <;> linarith
  have hY : (reverseLoop (reverseOnce E (mkSchedule refCfg.beta0 refCfg.betaT refCfg.Ndiffuse) refNoise
      refCfg s0) refCfg (zeroPlan refCfg) keyExp).Y = [(w, 0)] := by
    have h1 : refCfg.Ndiffuse - 1 = 1 := rfl
    have h2 : refCfg.Hsample = 1 := rfl
    have h3 : refCfg.beta0 = 3 / 4 := rfl
    have h4 : refCfg.betaT = 3 / 4 := rfl
    simp only [hsam] at hsched
    simp only [reverseLoop, h1, List.range_one, List.foldl_cons, List.foldl_nil, reverseBody,
      Nat.sub_zero, h3, h4, hsched]
    rw [← hB, heff, hwt, h2]
    simp
  refine ⟨w, ?_, fun h => hw2 (hlt0 h), fun h => hw1 (hlt5 h)⟩
  simp only [runDiffusion, hs0, hY, hroll w (by linarith [hwr.1]) hwr.2]

/-- **C61 refuted (demonstrations).** Two robots that differ only in their start (x = 5 and x = 0), one
configuration with demonstrations on: planned after the first robot in the same process, the second
robot does not get the plan it gets alone, because its plan is drawn towards the first robot's
reference. -/
theorem C61_demo_refuted (ext : Ext Q4) : ∃ (robots : ℕ → TT2d) (cfg : Cfg)
    (normal : Key → ℕ → ℕ → ℕ → ℕ → U),
    (∀ i, robots i = { robots 0 with x0 := (robots i).x0 }) ∧ cfg.enableGuidance = false ∧
    World.batch normal cfg (World.init fun i => (robots i).obj ext) [0, 1] ≠
      [0, 1].map fun o => ((World.init fun i => (robots i).obj ext).run o normal cfg).2 := by
  refine ⟨fun i => refRobot (if i = 0 then 5 else 0), refCfg, refNoise, fun i => rfl, rfl, ?_⟩
  intro h
  rw [C61_batch _ 0 [1] (by simp) (by simp [TT2d.obj]) refNoise refCfg rfl] at h
  simp only [List.map_cons, List.map_nil, List.cons.injEq, and_true] at h
  have h2 := congrArg Result.Y0 h.2
  rw [World.run_fresh (World.init_wf _) rfl rfl (World.init_unused _ 1).clean refNoise refCfg] at h2
  obtain ⟨w5, e5, -, l5⟩ := refRobot_run 5 (by norm_num) le_rfl ext
  obtain ⟨w0, e0, l0, -⟩ := refRobot_run 0 le_rfl (by norm_num) ext
  have e0' : (runDiffusion (World.withDemo ((refRobot 0).obj ext) refCfg).view refNoise refCfg).Y0 =
      [(w0, 0)] := by
    rw [← e0]
    congr 2
  simp only [if_true, one_ne_zero, if_false, World.init] at h2
  rw [e5, e0'] at h2
  simp only [List.cons.injEq, Prod.mk.injEq, and_true] at h2
  have := l5 rfl
  have := l0 rfl
  linarith

/-- Non-vacuity of `C61_no_demo`: twenty robots in a row. -/
example (ext : Ext Q4) (normal : Key → ℕ → ℕ → ℕ → ℕ → U) :
    World.batch normal stillCfg (World.init fun i => (refRobot i).obj ext) (List.range 20) =
      (List.range 20).map fun o =>
        ((World.init fun i => (refRobot i).obj ext).run o normal stillCfg).2 :=
  C61_no_demo _ _ List.nodup_range (fun _ _ _ _ => ⟨rfl, rfl⟩) _ _ rfl rfl

end Mbd
