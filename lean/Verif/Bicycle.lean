import Verif.TT2d

/-!
# The kinematic bicycle (mbd/robots/kinematic_bicycle2d.py)
-/

namespace Mbd

open Real Classical

/-- 3D state `[px, py, theta1]` (kinematic_bicycle2d.py:23). -/
@[ext] structure Q3 where
  px : ℝ
  py : ℝ
  th1 : ℝ

/-- `x + dt * k` on 3-vectors. (tt2d.py:29-31) -/
def Q3.axpy (x : Q3) (dt : ℝ) (k : Q3) : Q3 :=
  ⟨x.px + dt * k.px, x.py + dt * k.py, x.th1 + dt * k.th1⟩

/-- `KinematicBicycle2d` instance (kinematic_bicycle2d.py:30-38). -/
structure Bicycle extends Params where
  x0 : Q3
  xg : Q3

namespace Bicycle

/-- `bicycle_dynamics` (kinematic_bicycle2d.py:83-97); `tractor_trailer_dynamics` is overridden to
call it (100-102). -/
noncomputable def dynamics (P : Params) (x : Q3) (u : U) : Q3 :=
  { px := u.1 * cos x.th1, py := u.1 * sin x.th1, th1 := (u.1 / P.l1) * tan u.2 }

/-- `euler` (tt2d.py:29-31) with the bicycle dynamics. -/
noncomputable def euler (P : Params) (q : Q3) (u : U) : Q3 := q.axpy P.dt (dynamics P q u)

/-- `check_obstacle_collision` (kinematic_bicycle2d.py:135-191): tractor only. -/
noncomputable def checkObstacle (P : Params) (q : Q3) : Prop :=
  let k := P.tractorCorners q.px q.py q.th1
  (∃ c ∈ P.circles, rectCircle k (c.x, c.y) c.r) ∨ (∃ o ∈ P.rects, rectRect k o.corners)

/-- `check_hitch_violation` (kinematic_bicycle2d.py:194-196): always `False`. -/
def checkHitch (_ : Params) (_ : Q3) : Prop := False

/-- `get_trailer_back_position` (kinematic_bicycle2d.py:262-269): the tractor's hitch point. -/
noncomputable def trailerBackPos (P : Params) (q : Q3) : V2 :=
  (q.px - P.lh * cos q.th1, q.py - P.lh * sin q.th1)

/-- Distance of the front axle to the goal's reference point (kinematic_bicycle2d.py:280-284). -/
noncomputable def posDist (P : Params) (xg : Q3) (q : Q3) : ℝ :=
  norm2 (P.tractorPos q.px q.py q.th1 - (xg.px, xg.py))

/-- Heading error (kinematic_bicycle2d.py:287-303). -/
noncomputable def headingErr (P : Params) (xg : Q3) (q : Q3) : ℝ :=
  let d := wrapPi (q.th1 - xg.th1)
  let o := wrapPi (q.th1 - xg.th1 - π)
  let w := if |d| < |o| then d else o
  if P.motionPreference = 0 then w else d

/-- `get_reward` (kinematic_bicycle2d.py:273-316). -/
noncomputable def getReward (P : Params) (xg : Q3) (q : Q3) : ℝ :=
  let d := posDist P xg q
  let rPos := Params.posReward d P.rewardThreshold
  let rHdg := 1 - (|headingErr P xg q| / P.thetaMax) ^ 2
  let w := TT2d.wTheta P d
  (1 - w) * rPos + w * rHdg

/-- `get_terminal_reward` (kinematic_bicycle2d.py:319-329). -/
noncomputable def getTerminalReward (P : Params) (xg : Q3) (q : Q3) : ℝ :=
  Params.posReward (posDist P xg q) P.terminalRewardThreshold

/-- `reset` (kinematic_bicycle2d.py:77-80). -/
def reset (T : Bicycle) : St Q3 :=
  { q := T.x0, obs := T.x0, reward := 0, done := 0, applied := (0, 0), inBackup := false }

/-- `_step_internal` (kinematic_bicycle2d.py:204-259).  Unlike tt2d the projection branch evaluates
the checks (214-222). -/
noncomputable def stepInternal (T : Bicycle) (ext : Ext Q3) (viz : Bool) (s : St Q3) (a : U) :
    St Q3 :=
  let P := T.toParams
  let action := clipU a
  let prev := s.inBackup
  let uBackup : U := (0, 0)
  let actionEff := if prev then uBackup else action
  let uScaled := P.inputScaler actionEff
  let q := s.q
  let r : Q3 × Q3 × Bool × Bool × U :=
    if P.enableProjection then
      let uSafe := ext.project q action
      let qFinal := euler P q (P.inputScaler uSafe)
      (qFinal, qFinal, decide (checkObstacle P qFinal), decide (checkHitch P qFinal), uSafe)
    else if P.enableGuidance then
      let qProp := euler P q uScaled
      let qReward := ext.guide qProp
      let qFinal := if viz then qReward else qProp
      (qFinal, qReward, decide (checkObstacle P qReward), decide (checkHitch P qReward), actionEff)
    else
      let qProp := euler P q uScaled
      let useShield := P.shieldCollision || P.shieldHitch
      let t := if useShield then kinShieldedRollout P (checkObstacle P) (checkHitch P) q qProp
        else kinNaive (checkObstacle P) (checkHitch P) qProp
      let fallback := (P.shieldCollision && t.2.1) || (P.shieldHitch && t.2.2)
      let backupNext := prev || fallback
      (t.1, t.1, t.2.1, t.2.2, if backupNext then uBackup else action)
  let qFinal := r.1
  let qReward := r.2.1
  let oc := r.2.2.1
  let hv := r.2.2.2.1
  let applied := r.2.2.2.2
  let r0 := getReward P T.xg qReward
  let r1 := if oc then r0 - P.collisionPenalty else r0
  let r2 := if hv then r1 - P.hitchPenalty else r1
  let pen := P.prefPenaltyU (P.inputScaler applied)
  let r3 := if P.motionPreference ≠ 0 then r2 - pen else r2
  { q := qFinal, obs := qFinal, reward := r3, done := 0, applied := applied, inBackup := prev }

/-- `step` (inherited, tt2d.py:297-299). -/
noncomputable def step (T : Bicycle) (ext : Ext Q3) (s : St Q3) (a : U) : St Q3 :=
  T.stepInternal ext false s a

end Bicycle

end Mbd
