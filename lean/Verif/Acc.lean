import Verif.TT2d

/-!
# The acceleration-controlled tractor-trailer (mbd/robots/acc_tt2d.py)
-/

namespace Mbd

open Real Classical

/-- 6D state `[px, py, theta1, theta2, v, delta]` (acc_tt2d.py:22). -/
@[ext] structure Q6 where
  px : ℝ
  py : ℝ
  th1 : ℝ
  th2 : ℝ
  v : ℝ
  delta : ℝ

/-- `q[:4]`. -/
def Q6.pose (q : Q6) : Q4 := ⟨q.px, q.py, q.th1, q.th2⟩

/-- `x + dt * k` on 6-vectors. (tt2d.py:29-31) -/
def Q6.axpy (x : Q6) (dt : ℝ) (k : Q6) : Q6 :=
  ⟨x.px + dt * k.px, x.py + dt * k.py, x.th1 + dt * k.th1, x.th2 + dt * k.th2,
   x.v + dt * k.v, x.delta + dt * k.delta⟩

/-- `AccTractorTrailer2d` instance (acc_tt2d.py:26-53). -/
structure Acc extends Params where
  aMax : ℝ
  omegaMax : ℝ
  x0 : Q6
  xg : Q6

namespace Acc

/-- `_rollout_dt = 1.0` (acc_tt2d.py:36). -/
def rolloutDt : ℝ := 1

/-- `_v_threshold = 0.01` (acc_tt2d.py:37). -/
noncomputable def vThr : ℝ := 0.01

/-- `_max_rollout_steps = int(2*(v_max-0)/(a_max*rollout_dt))` (acc_tt2d.py:38); `int` truncates,
which is the floor for the non-negative arguments used. -/
noncomputable def maxRolloutSteps (T : Acc) : ℕ := ⌊2 * (T.vMax - 0) / (T.aMax * rolloutDt)⌋₊

/-- `input_scaler` (acc_tt2d.py:83-87). -/
def inputScaler (T : Acc) (u : U) : U := (u.1 * T.aMax, u.2 * T.omegaMax)

/-- `tractor_trailer_dynamics` (acc_tt2d.py:90-116). -/
noncomputable def dynamics (T : Acc) (x : Q6) (u : U) : Q6 :=
  let v := clip x.v (-T.vMax) T.vMax
  let delta := clip x.delta (-T.deltaMax) T.deltaMax
  { px := v * cos x.th1
    py := v * sin x.th1
    th1 := (v / T.l1) * tan delta
    th2 := (v / T.l2) *
      (sin (x.th1 - x.th2) - (T.lh / T.l1) * cos (x.th1 - x.th2) * tan delta)
    v := u.1
    delta := u.2 }

/-- `euler` (tt2d.py:29-31) with the acceleration dynamics and time step `dt`. -/
noncomputable def euler (T : Acc) (q : Q6) (u : U) (dt : ℝ) : Q6 := q.axpy dt (T.dynamics q u)

/-- `check_obstacle_collision(q[:4], ..)` (inherited). -/
noncomputable def checkObstacle (T : Acc) (q : Q6) : Prop := TT2d.checkObstacle T.toParams q.pose

/-- `check_hitch_violation(q[:4])` (inherited). -/
noncomputable def checkHitch (T : Acc) (q : Q6) : Prop := TT2d.checkHitch T.toParams q.pose

/-- `where(v > thr, -1, where(w < -thr, 1, 0))`: in `_step_internal` (130) and
`_check_safety_with_rollout` (309) both arguments are the same velocity; in `shielded_rollout`
(255) the second is the *proposed* velocity. (acc_tt2d.py:130, 255, 309) -/
noncomputable def decelSign (v w : ℝ) : ℝ := if v > vThr then -1 else if w < -vThr then 1 else 0

/-- `clip(abs(v/dt), 0, a_max)` (acc_tt2d.py:131, 256, 310). -/
noncomputable def aBackup (T : Acc) (v : ℝ) : ℝ := clip |v / T.dt| 0 T.aMax

/-- `u_backup_norm` recorded by `_step_internal` (acc_tt2d.py:129-132). -/
noncomputable def uBackupNorm (T : Acc) (v : ℝ) : U := (decelSign v v * T.aBackup v / T.aMax, 0)

/-- Carry of `_rollout_step` (acc_tt2d.py:277-297) without `u_stop`. -/
structure RCarry where
  q : Q6
  stopped : Bool
  oc : Bool
  hv : Bool

/-- `_rollout_step` (acc_tt2d.py:277-297). -/
noncomputable def rolloutStep (T : Acc) (uStop : U) (c : RCarry) : RCarry :=
  let qNext := if |c.q.v| > vThr then T.euler c.q uStop rolloutDt else c.q
  { q := qNext
    stopped := c.stopped || decide (|qNext.v| ≤ vThr)
    oc := c.oc || decide (T.checkObstacle qNext)
    hv := c.hv || decide (T.checkHitch qNext) }

/-- `u_stop` of `_check_safety_with_rollout` (acc_tt2d.py:308-311). -/
noncomputable def uStop (T : Acc) (vNew : ℝ) : U := (decelSign vNew vNew * T.aBackup vNew, 0)

/-- The scan of `_check_safety_with_rollout` (acc_tt2d.py:313-317), `n` iterations. -/
noncomputable def rolloutScan (T : Acc) (qNew : Q6) (n : ℕ) : RCarry :=
  (T.rolloutStep (T.uStop qNew.v))^[n]
    { q := qNew, stopped := false, oc := decide (T.checkObstacle qNew),
      hv := decide (T.checkHitch qNew) }

/-- The safety check of `shielded_rollout` (acc_tt2d.py:247-252, 269-275, 300-319). -/
noncomputable def checkSafety (T : Acc) (qNew : Q6) : Bool × Bool :=
  if |qNew.v| ≤ vThr then (decide (T.checkObstacle qNew), decide (T.checkHitch qNew))
  else
    let c := T.rolloutScan qNew T.maxRolloutSteps
    (c.oc, c.hv)

/-- `u_backup_scaled` of `shielded_rollout` (acc_tt2d.py:255-257). -/
noncomputable def uBackupScaled (T : Acc) (vCur vNew : ℝ) : U :=
  (decelSign vCur vNew * T.aBackup vCur, 0)

/-- `shielded_rollout` (acc_tt2d.py:228-266). -/
noncomputable def shieldedRollout (T : Acc) (q qProp : Q6) : Q6 × Bool × Bool :=
  let f := T.checkSafety qProp
  let qBackup := T.euler q (T.uBackupScaled q.v qProp.v) T.dt
  let useBackup := (T.shieldCollision && f.1) || (T.shieldHitch && f.2)
  (if useBackup then qBackup else qProp, f.1, f.2)

/-- `_step_without_shielded_rollout` (acc_tt2d.py:219-225). -/
noncomputable def naive (T : Acc) (qProp : Q6) : Q6 × Bool × Bool :=
  (qProp, decide (T.checkObstacle qProp), decide (T.checkHitch qProp))

/-- `get_reward` (acc_tt2d.py: "Calculate reward using parent method with 4D state slicing").
The goal used by the parent is `xg[:3]` / `xg[:4]`. -/
noncomputable def getReward (T : Acc) (q : Q6) : ℝ :=
  TT2d.getReward T.toParams T.xg.pose q.pose

/-- `get_terminal_reward` (same slicing). (acc_tt2d.py:391-393) -/
noncomputable def getTerminalReward (T : Acc) (q : Q6) : ℝ :=
  TT2d.getTerminalReward T.toParams T.xg.pose q.pose

/-- `reset` (acc_tt2d.py:77-80). -/
def reset (T : Acc) : St Q6 :=
  { q := T.x0, obs := T.x0, reward := 0, done := 0, applied := (0, 0), inBackup := false }

/-- `_step_internal` (acc_tt2d.py:124-210).  The preference penalty is evaluated with the velocity
`q_final[4]` (tt2d.py:436-437). -/
noncomputable def stepInternal (T : Acc) (ext : Ext Q6) (viz : Bool) (s : St Q6) (a : U) : St Q6 :=
  let action := clipU a
  let prev := s.inBackup
  let uBackup := T.uBackupNorm s.q.v
  let actionEff := if prev then uBackup else action
  let uScaled := T.inputScaler actionEff
  let q := s.q
  let r : Q6 × Q6 × Bool × Bool × U :=
    if T.enableProjection then
      let uSafe := ext.project q action
      let qFinal := T.euler q (T.inputScaler uSafe) T.dt
      (qFinal, qFinal, false, false, uSafe)
    else if T.enableGuidance then
      let qProp := T.euler q uScaled T.dt
      let qReward := ext.guide qProp
      let qFinal := if viz then qReward else qProp
      (qFinal, qReward, decide (T.checkObstacle qReward), decide (T.checkHitch qReward), actionEff)
    else
      let qProp := T.euler q uScaled T.dt
      let useShield := T.shieldCollision || T.shieldHitch
      let t := if useShield then T.shieldedRollout q qProp else T.naive qProp
      let fallback := (T.shieldCollision && t.2.1) || (T.shieldHitch && t.2.2)
      let backupNext := prev || fallback
      (t.1, t.1, t.2.1, t.2.2, if backupNext then uBackup else action)
  let qFinal := r.1
  let qReward := r.2.1
  let oc := r.2.2.1
  let hv := r.2.2.2.1
  let applied := r.2.2.2.2
  let r0 := T.getReward qReward
  let r1 := if oc then r0 - T.collisionPenalty else r0
  let r2 := if hv then r1 - T.hitchPenalty else r1
  let pen := T.prefPenaltyV qFinal.v
  let r3 := if T.motionPreference ≠ 0 then r2 - pen else r2
  { q := qFinal, obs := qFinal, reward := r3, done := 0, applied := applied, inBackup := prev }

/-- `step` (acc_tt2d.py:119-121). -/
noncomputable def step (T : Acc) (ext : Ext Q6) (s : St Q6) (a : U) : St Q6 :=
  T.stepInternal ext false s a

end Acc

end Mbd
