import Verif.PropsCache
import Verif.PropsGuidance

/-!
# Function cache and guidance: C29 (continued)

A run with `enable_guidance` in its configuration is followed by an unguided comparison run that
switches the robot's flag off for a moment (mbd_planner.py:573-605). If the robot's own `step` was
not compiled before (because the run used the functions of an earlier robot of the same class), the
comparison run compiles it with the flag off, and that trace stays.
-/

namespace Mbd

open Real Classical

variable {Q : Type}

/-- After planning for robot `a`, then for robot `b` of the same class with guidance, and clearing
the cache, every later run on `b` uses `b`'s step function **without** guidance. -/
theorem C29_guidance_trace (heap : ℕ → Obj Q) {a b : ℕ} (hab : a ≠ b)
    (hcls : (heap a).cls = (heap b).cls) (n1 n2 n3 : Key → ℕ → ℕ → ℕ → ℕ → U) (c1 c2 c3 : Cfg)
    (hg1 : c1.enableGuidance = false) (hg2 : c2.enableGuidance = true)
    (hd2 : c2.enableDemo = false) (hd3 : c3.enableDemo = false) (hg3 : c3.enableGuidance = false) :
    (((World.init heap).history [.run a n1 c1, .run b n2 c2]).clear.run b n3 c3).2 =
      runDiffusion { (heap b).view with step := (heap b).stepOff } n3 c3 := by
  have hw : (World.init heap).history [.run a n1 c1, .run b n2 c2] =
      (((World.init heap).run a n1 c1).1.run b n2 c2).1 := rfl
  rw [hw]
  have hc1 : ∀ (x : Obj Q) (c : Cfg), (World.withDemo x c).cls = x.cls := fun x c =>
    ((World.Core.refl x).withDemo c).1
  have wf1 := World.run_wf (World.init_wf heap) a n1 c1
  have hb : ((World.init heap).run a n1 c1).1.heap b = heap b := by
    simp only [World.run, World.init]
    rw [Function.update_of_ne hab.symm]
  have hfu : ((World.init heap).run a n1 c1).1.funcs (heap b).cls = some (0, a) := by
    simp only [World.run, World.init, hg1, Function.update_self, hc1, hcls]
    simp
  have hrv : ∃ r, ((World.init heap).run a n1 c1).1.rev = some r ∧ r.handle = (0, a) := by
    simp only [World.run, World.init, hg1, Option.getD_none, Bool.false_eq_true,
      if_false, Option.some.injEq, exists_eq_left']
  have hst : ((World.init heap).run a n1 c1).1.stepTr b = none := by
    simp only [World.run, World.init, hg1, Option.getD_none, Bool.false_eq_true, if_false]
    rw [touch_ne _ hab.symm, touch_ne _ hab.symm]
  have hte : ((World.init heap).run a n1 c1).1.termTr b = none := by
    simp only [World.run, World.init, Option.getD_none]
    rw [touch_ne _ hab.symm, touch_ne _ hab.symm]
  have hrs : ((World.init heap).run a n1 c1).1.resetTr b = none := by
    simp only [World.run, World.init]
    rw [touch_ne _ hab.symm]
  generalize ((World.init heap).run a n1 c1).1 = w at *
  obtain ⟨r, hr, hrh⟩ := hrv
  have hd : World.withDemo (heap b) c2 = heap b := by simp [World.withDemo, hd2]
  have wf2 := World.run_wf wf1 b n2 c2
  have hb2 : (w.run b n2 c2).1.heap b = heap b := by
    simp only [World.run]
    rw [Function.update_self, hb, hd]
  have hst2 : (w.run b n2 c2).1.stepTr b = some (heap b).stepOff := by
    simp only [World.run, hg2, if_true, Function.update_self, hb, hd, hfu, Option.getD_some, hr, hrh]
    rw [touch_same, touch_ne _ hab.symm, touch_ne _ hab.symm, hst]
    rfl
  have hte2 : (w.run b n2 c2).1.termTr b = none := by
    simp only [World.run, Function.update_self, hb, hd, hfu, Option.getD_some, hr, hrh]
    rw [touch_ne _ hab.symm, touch_ne _ hab.symm, hte]
  have hrs2 : (w.run b n2 c2).1.resetTr b = some (heap b).view.reset := by
    simp only [World.run, Function.update_self, hb, hd]
    rw [touch_same, hrs]
    rfl
  generalize (w.run b n2 c2).1 = v at *
  have hro : v.rollTr v.nextHandle c3.Hsample = none := wf2.roll _ le_rfl _
  have hd' : World.withDemo (heap b) c3 = heap b := by simp [World.withDemo, hd3]
  simp only [World.run, World.clear, runDiffusion, Option.getD_none, Function.update_self, hb2, hd',
    hst2, hte2, hrs2, hro, Option.getD_some, hg3, Bool.false_eq_true, if_false]
  rw [reverseOnce_core
    (E := { reset := (heap b).view.reset, step := (heap b).stepOff, stepViz := (heap b).stepOff
            terminal := (heap b).view.terminal, terminalWeight := (heap b).view.terminalWeight
            steeringWeight := (heap b).view.steeringWeight, deltaMax := (heap b).view.deltaMax
            xrefLogpd := (heap b).view.xrefLogpd, rewXref := (heap b).view.rewXref })
    (E' := { (heap b).view with step := (heap b).stepOff })
    ⟨rfl, rfl, rfl, rfl, rfl⟩ _ n3 c3 (fun _ => ⟨rfl, rfl⟩)]

example (ext : Ext Q4) (robots : ℕ → TT2d) (n : Key → ℕ → ℕ → ℕ → ℕ → U) (cfg : Cfg) :=
  C29_guidance_trace (fun i => (robots i).obj ext) (a := 0) (b := 1) (by norm_num) rfl n n n
    { cfg with enableGuidance := false } { cfg with enableGuidance := true, enableDemo := false }
    { cfg with enableGuidance := false, enableDemo := false } rfl rfl rfl rfl rfl

/-! ### Concrete robots -/

/-- A default tractor-trailer resting at `(200, 0)` with its goal at `(100, 0)`, guidance on. -/
noncomputable def farRobot (g : Bool) : TT2d :=
  { Params.default [] [] with x0 := ⟨200, 0, 0, 0⟩, xg := ⟨100, 0, 0, 0⟩, enableGuidance := g }

/-- The modelled guidance as external part of the step function. -/
noncomputable def farExt : Ext Q4 :=
  ⟨fun _ u => u, Guide.apply (farRobot true).toParams 0.05 3⟩

theorem farRobot_guided : Guide.apply (farRobot true).toParams 0.05 3 ⟨200, 0, 0, 0⟩ =
    ⟨100, 0, 0, 0⟩ := by
  have hp := pi_pos
  have hg : ∀ x : ℝ, Guide.grad (farRobot true).toParams ⟨x, 0, 0, 0⟩ = (some 0, some 0, some 0, some 0) := by
    intro x
    have h0 : Guide.hitchGrad (farRobot true).phiMax 0 = 0 :=
      Guide.hitchGrad_zero (Guide.hitchMin_zero.mpr (Or.inl (by
        rw [abs_zero]; exact (Guide.phi_pos (farRobot true).toParams).le)))
    unfold Guide.grad
    simp [Guide.sumGrad, farRobot, Params.default]
    simp [farRobot, Params.default] at h0
    simp [h0]
  have h1 : Guide.stepOnce (farRobot true).toParams 0.05 ⟨200, 0, 0, 0⟩ = ⟨100, 0, 0, 0⟩ := by
    unfold Guide.stepOnce
    rw [hg]
    have e1 : Guide.comp 0.05 200 (some 0) 100 = 100 := by norm_num [Guide.comp, clip]
    have e2 : Guide.comp 0.05 0 (some 0) 100 = 0 := Guide.comp_zero (by norm_num)
    have e3 : Guide.comp 0.05 0 (some 0) (2 * π) = 0 := Guide.comp_zero (by
      rw [abs_zero]; positivity)
    simp only [e1, e2, e3]
  have h2 : Guide.stepOnce (farRobot true).toParams 0.05 ⟨100, 0, 0, 0⟩ = ⟨100, 0, 0, 0⟩ := by
    unfold Guide.stepOnce
    rw [hg]
    have e1 : Guide.comp 0.05 100 (some 0) 100 = 100 := Guide.comp_zero (by norm_num)
    have e2 : Guide.comp 0.05 0 (some 0) 100 = 0 := Guide.comp_zero (by norm_num)
    have e3 : Guide.comp 0.05 0 (some 0) (2 * π) = 0 := Guide.comp_zero (by
      rw [abs_zero]; positivity)
    simp only [e1, e2, e3]
  unfold Guide.apply
  rw [if_pos (show (farRobot true).enableGuidance = true from rfl)]
  simp only [Function.iterate_succ, Function.iterate_zero, Function.comp_apply, id_eq, h1, h2]

/-- One zero action at the start, guidance on or off. -/
theorem farRobot_step (g : Bool) (s : St Q4) (hq : s.q = ⟨200, 0, 0, 0⟩) (hb : s.inBackup = false) :
    (farRobot g).step farExt s (0, 0) =
      { q := ⟨200, 0, 0, 0⟩, obs := ⟨200, 0, 0, 0⟩
        reward := TT2d.getReward (farRobot g).toParams ⟨100, 0, 0, 0⟩
          ⟨if g then 100 else 200, 0, 0, 0⟩
        done := 0, applied := (0, 0), inBackup := false } := by
  have hc : clip 0 (-1 : ℝ) 1 = 0 := clip_of_mem (by norm_num) (by norm_num)
  have hhi : ∀ x : ℝ, ¬ TT2d.checkHitch (farRobot g).toParams ⟨x, 0, 0, 0⟩ := by
    intro x
    simp only [TT2d.checkHitch, sub_zero, wrapPi_zero, abs_zero, Params.phiMax, deg2rad, gt_iff_lt,
      not_lt]
    positivity
  have hco : ∀ x : ℝ, ¬ TT2d.checkObstacle (farRobot g).toParams ⟨x, 0, 0, 0⟩ := by
    intro x
    simp [TT2d.checkObstacle, farRobot, Params.default]
  have he : TT2d.euler (farRobot g).toParams ⟨200, 0, 0, 0⟩ (0, 0) = ⟨200, 0, 0, 0⟩ := by
    simp [TT2d.euler, TT2d.dynamics, Q4.axpy]
  have hsc : (farRobot g).inputScaler (0, 0) = (0, 0) := by simp [Params.inputScaler]
  have hp : (farRobot g).enableProjection = false := rfl
  have hgd : (farRobot g).enableGuidance = g := rfl
  have hm : (farRobot g).motionPreference = 0 := rfl
  have hx : farExt.guide ⟨200, 0, 0, 0⟩ = ⟨100, 0, 0, 0⟩ := farRobot_guided
  unfold TT2d.step TT2d.stepInternal
  cases g with
  | true =>
    simp only [clipU, hc, hq, hb, hp, hgd, hm, hsc, he, hhi, hco, hx,
      Bool.false_eq_true, if_false, if_true, decide_false, ne_eq, not_true_eq_false]
    rfl
  | false =>
    simp only [clipU, hc, hq, hb, hp, hgd, hm, hsc, he, kinShieldedRollout, kinNaive, hhi, hco,
      Bool.false_eq_true, if_false, decide_false, Bool.and_false, Bool.or_false, ite_self,
      ne_eq, not_true_eq_false]
    rfl

theorem farRobot_reward (g : Bool) (x : ℝ) :
    TT2d.getReward (farRobot g).toParams ⟨100, 0, 0, 0⟩ ⟨x, 0, 0, 0⟩ =
      0.8 * ((1 - TT2d.wTheta (farRobot g).toParams |x - 100|) * Params.posReward |x - 100| 25 +
        TT2d.wTheta (farRobot g).toParams |x - 100|) + 0.2 := by
  have hm : (farRobot g).motionPreference = 0 := rfl
  have hd : TT2d.posDist (farRobot g).toParams ⟨100, 0, 0, 0⟩ ⟨x, 0, 0, 0⟩ = |x - 100| := by
    simp only [TT2d.posDist, Params.tracksTractor, hm]
    norm_num [TT2d.trailerPos, TT2d.hitchPoint, norm2, Real.sqrt_sq_eq_abs]
  have h1 : |wrapPi (0 - 0 - π)| = π := by
    rw [sub_zero, zero_sub, wrapPi_of_mem le_rfl (by linarith [pi_pos]), abs_neg,
      abs_of_pos pi_pos]
  unfold TT2d.getReward
  simp only [hd]
  have he : TT2d.headingErr (farRobot g).toParams ⟨100, 0, 0, 0⟩ ⟨x, 0, 0, 0⟩ = (0, 0) := by
    unfold TT2d.headingErr
    simp only [hm, if_true, h1]
    simp [pi_pos]
  rw [he]
  simp only [farRobot, Params.default, sub_zero, wrapPi_zero, abs_zero]
  norm_num

theorem farRobot_run (E : PlanEnv Q4) (g : Bool) (normal : Key → ℕ → ℕ → ℕ → ℕ → U)
    (hreset : E.reset = fun _ => (farRobot true).reset) (hstep : E.step = (farRobot g).step farExt)
    (hterm : E.terminal = TT2d.getTerminalReward (farRobot true).toParams ⟨100, 0, 0, 0⟩)
    (hwt : E.terminalWeight = 1) :
    (runDiffusion E normal stillCfg).rew =
      TT2d.getReward (farRobot g).toParams ⟨100, 0, 0, 0⟩ ⟨if g then 100 else 200, 0, 0, 0⟩ +
      TT2d.getTerminalReward (farRobot true).toParams ⟨100, 0, 0, 0⟩ ⟨200, 0, 0, 0⟩ := by
  have e := fun s hq hb => farRobot_step g s hq hb
  have e1 := e (farRobot true).reset rfl rfl
  have e2 := e { q := ⟨200, 0, 0, 0⟩, obs := ⟨200, 0, 0, 0⟩
                 reward := TT2d.getReward (farRobot g).toParams ⟨100, 0, 0, 0⟩
                   ⟨if g then 100 else 200, 0, 0, 0⟩
                 done := 0, applied := (0, 0), inBackup := false } rfl rfl
  simp only [runDiffusion, rolloutUsWithTerminal, reverseLoop, stillCfg, zeroPlan, warmState,
    hreset, hstep, hterm, hwt, Nat.sub_self, List.range_zero, List.foldl_nil, List.replicate_succ,
    List.replicate_zero, scanStates, finalState, e1, e2, List.map_cons, List.map_nil]
  simp [mean]

/-- Attribute assignments are not the only way to spoil C29: planning for one robot, then for a
second one with guidance, changes what the second robot does for the rest of the process; clearing
does not help. -/
theorem C29_guidance_refuted :
    ¬ (∀ (heap : ℕ → Obj Q4) (o : ℕ) (ops : List (Op Q4)) (cfg : Cfg)
      (_ : ∀ op ∈ ops, ∀ p x, op ≠ .set p x) (normal : Key → ℕ → ℕ → ℕ → ℕ → U),
      (((World.init heap).history ops).clear.run o normal cfg).2 =
        runDiffusion (World.withDemo (heap o) cfg).view normal cfg) := by
  intro hall
  let nz : Key → ℕ → ℕ → ℕ → ℕ → U := fun _ _ _ _ _ => (0, 0)
  let heap : ℕ → Obj Q4 := fun _ => TT2d.obj (farRobot true) farExt
  let gCfg : Cfg := { stillCfg with enableGuidance := true }
  have h1 := hall heap 1 [.run 0 nz stillCfg, .run 1 nz gCfg] stillCfg (by simp) nz
  rw [C29_guidance_trace heap (by norm_num : (0 : ℕ) ≠ 1) rfl nz nz nz stillCfg gCfg stillCfg rfl
    rfl rfl rfl rfl] at h1
  have h2 := congrArg Result.rew h1
  have d1 : World.withDemo (heap 1) stillCfg = TT2d.obj (farRobot true) farExt := by
    simp [World.withDemo, stillCfg, heap]
  have hwt : (farRobot true).terminalRewardWeight = 1 := rfl
  rw [d1, farRobot_run _ false nz rfl rfl rfl rfl, farRobot_run _ true nz rfl rfl rfl rfl,
    farRobot_reward, farRobot_reward] at h2
  have hw : TT2d.wTheta (farRobot false).toParams |200 - 100| ≤ 0.75 := by
    unfold TT2d.wTheta clip
    exact min_le_right _ _
  have c1 : Params.posReward |(100 : ℝ) - 100| 25 = 1 := by simp [Params.posReward, clip]
  have c3 : Params.posReward |(200 : ℝ) - 100| 25 = 0 := by norm_num [Params.posReward, clip]
  simp only [Bool.false_eq_true, if_false, if_true] at h2
  rw [c1, c3] at h2
  linarith

end Mbd
