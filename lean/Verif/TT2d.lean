import Verif.Geom

/-!
# The kinematic tractor-trailer (mbd/robots/tt2d.py)
-/

namespace Mbd

open Real Classical

/-- Constructor parameters shared by all robots (tt2d.py:49-58, 59-107, 117-119).  `circles` and
`rects` are `obs_circles` / `obs_rectangles`, taken from the environment.  `dt`, ... as in the code;
`x0`/`xg` are kept in the robot structures. -/
structure Params where
  dt : ℝ
  H : ℕ
  motionPreference : ℤ
  collisionPenalty : ℝ
  shieldCollision : Bool
  hitchPenalty : ℝ
  shieldHitch : Bool
  enableProjection : Bool
  enableGuidance : Bool
  rewardThreshold : ℝ
  refRewardThreshold : ℝ
  maxWTheta : ℝ
  hitchAngleWeight : ℝ
  l1 : ℝ
  l2 : ℝ
  lh : ℝ
  lf1 : ℝ
  lr : ℝ
  lf2 : ℝ
  lr2 : ℝ
  tractorWidth : ℝ
  trailerWidth : ℝ
  vMax : ℝ
  deltaMaxDeg : ℝ
  dThrFactor : ℝ
  kSwitch : ℝ
  steeringWeight : ℝ
  preferencePenaltyWeight : ℝ
  headingRewardWeight : ℝ
  terminalRewardThreshold : ℝ
  terminalRewardWeight : ℝ
  refPosWeight : ℝ
  refTheta1Weight : ℝ
  refTheta2Weight : ℝ
  circles : List Circle
  rects : List Rect

namespace Params

/-- `self.delta_max = delta_max_deg * pi / 180` (tt2d.py:100). -/
noncomputable def deltaMax (P : Params) : ℝ := P.deltaMaxDeg * π / 180

/-- `self.theta_max = pi / 2` (tt2d.py:103). -/
noncomputable def thetaMax (_ : Params) : ℝ := π / 2

/-- `self.phi_max = deg2rad(40)` (tt2d.py:104). -/
noncomputable def phiMax (_ : Params) : ℝ := deg2rad 40

/-- `self.d_thr = d_thr_factor * (l1 + lh + l2)` (tt2d.py:105). -/
noncomputable def dThr (P : Params) : ℝ := P.dThrFactor * (P.l1 + P.lh + P.l2)

/-- Constructor defaults (tt2d.py:49-58) with the given obstacles. -/
noncomputable def default (circles : List Circle) (rects : List Rect) : Params :=
  { dt := 0.2, H := 50, motionPreference := 0, collisionPenalty := 0.15, shieldCollision := true
    hitchPenalty := 0.10, shieldHitch := true, enableProjection := false, enableGuidance := false
    rewardThreshold := 25, refRewardThreshold := 5, maxWTheta := 0.75, hitchAngleWeight := 0.2
    l1 := 3.23, l2 := 2.9, lh := 1.15, lf1 := 0.9, lr := 1.848, lf2 := 1.42, lr2 := 3.225
    tractorWidth := 2, trailerWidth := 2.5, vMax := 3, deltaMaxDeg := 55
    dThrFactor := 1, kSwitch := 2.5, steeringWeight := 0.05, preferencePenaltyWeight := 0.05
    headingRewardWeight := 0.5, terminalRewardThreshold := 10, terminalRewardWeight := 1
    refPosWeight := 0.3, refTheta1Weight := 0.5, refTheta2Weight := 0.2
    circles := circles, rects := rects }

/-- `input_scaler` of the kinematic robots (tt2d.py:269-273; n_trailer2d.py:57-59). -/
noncomputable def inputScaler (P : Params) (u : U) : U := (u.1 * P.vMax, u.2 * P.deltaMax)

/-- `get_preference_penalty` as a function of the velocity it extracts (tt2d.py:439-464,
n_trailer2d.py:196-208; the two are textually equivalent). -/
noncomputable def prefPenaltyV (P : Params) (v : ℝ) : ℝ :=
  let fwd := if v < 0 then P.preferencePenaltyWeight * |v| else 0
  let bwd := if v > 0 then P.preferencePenaltyWeight * |v| else 0
  if P.motionPreference = 1 then fwd else
  if P.motionPreference = -1 then bwd else
  if P.motionPreference = 2 ∨ P.motionPreference = -2 then 0 else 0

/-- `get_preference_penalty(u)` for kinematic robots: `v, delta = u` (tt2d.py:430-432). -/
noncomputable def prefPenaltyU (P : Params) (u : U) : ℝ := P.prefPenaltyV u.1

/-- Position reward `1 - (clip(d,0,thr)/thr)^2` (tt2d.py:741-742, 821; n_trailer2d.py:268, 376;
kinematic_bicycle2d.py:284-285, 326). -/
noncomputable def posReward (d thr : ℝ) : ℝ := 1 - (clip d 0 thr / thr) ^ 2

/-- `use_tractor_tracking` (tt2d.py:733, 813): preference 1 or 2. -/
def tracksTractor (P : Params) : Prop := P.motionPreference = 1 ∨ P.motionPreference = 2

/-- The tractor rectangle (tt2d.py:890-905; same block in n_trailer2d.py:290-300,
kinematic_bicycle2d.py:110-126). -/
noncomputable def tractorCorners (P : Params) (px py th : ℝ) : Corners :=
  boxCorners
    (px + 0.5 * (P.l1 + P.lf1 - P.lr) * cos th, py + 0.5 * (P.l1 + P.lf1 - P.lr) * sin th)
    th ((P.l1 + P.lf1 + P.lr) / 2) (P.tractorWidth / 2)

/-- Front-axle point used as "tractor position" by the rewards (tt2d.py:720, 806;
n_trailer2d.py:257, 368; kinematic_bicycle2d.py:280, 322). -/
noncomputable def tractorPos (P : Params) (px py th : ℝ) : V2 :=
  (px + P.l1 * cos th, py + P.l1 * sin th)

end Params

/-- The simulator state (`State`, tt2d.py:34-40), for a vehicle state type `Q`. -/
structure St (Q : Type) where
  q : Q
  obs : Q
  reward : ℝ
  done : ℝ
  applied : U
  inBackup : Bool

/-- External computations used by `_step_internal`, kept as parameters here:
`project` is `project_control_to_safe_set` (tt2d.py:1688-1716), `guide` is `apply_guidance`
(tt2d.py:1784-1822).  Concrete models: `Verif/Projection.lean`, `Verif/Guidance.lean`. -/
structure Ext (Q : Type) where
  project : Q → U → U
  guide : Q → Q

/-- 4D vehicle state `[px, py, theta1, theta2]` (tt2d.py:45); also used for its derivative. -/
@[ext] structure Q4 where
  px : ℝ
  py : ℝ
  th1 : ℝ
  th2 : ℝ

/-- `x + dt * k` on 4-vectors. (tt2d.py:29-31) -/
def Q4.axpy (x : Q4) (dt : ℝ) (k : Q4) : Q4 :=
  ⟨x.px + dt * k.px, x.py + dt * k.py, x.th1 + dt * k.th1, x.th2 + dt * k.th2⟩

/-- `TractorTrailer2d` instance: parameters, initial and goal state (tt2d.py:43-165). -/
structure TT2d extends Params where
  x0 : Q4
  xg : Q4

/-- `_step_with_shielded_rollout` / `shielded_rollout` of the kinematic robots (tt2d.py:387-391,
402-415; n_trailer2d.py:171-187), given the two checks. -/
noncomputable def kinShieldedRollout {Q : Type} (P : Params) (coll hitch : Q → Prop) (q qProp : Q) :
    Q × Bool × Bool :=
  let oc := decide (coll qProp)
  let hv := decide (hitch qProp)
  let qSh := if P.shieldCollision && oc then q else qProp
  let qFin := if P.shieldHitch && hv then q else qSh
  (qFin, oc, hv)

/-- `_step_without_shielded_rollout` of the kinematic robots (tt2d.py:393-400;
n_trailer2d.py:176-179). -/
noncomputable def kinNaive {Q : Type} (coll hitch : Q → Prop) (qProp : Q) : Q × Bool × Bool :=
  (qProp, decide (coll qProp), decide (hitch qProp))

namespace TT2d

/-- `tractor_trailer_dynamics` (tt2d.py:276-294). -/
noncomputable def dynamics (P : Params) (x : Q4) (u : U) : Q4 :=
  let v := u.1
  let delta := u.2
  { px := v * cos x.th1
    py := v * sin x.th1
    th1 := (v / P.l1) * tan delta
    th2 := (v / P.l2) *
      (sin (x.th1 - x.th2) - (P.lh / P.l1) * cos (x.th1 - x.th2) * tan delta) }

/-- `euler(self.tractor_trailer_dynamics, q, u, self.dt)` (tt2d.py:29-31). -/
noncomputable def euler (P : Params) (q : Q4) (u : U) : Q4 := q.axpy P.dt (dynamics P q u)

/-- Hitch point (tt2d.py:860-861, 908-909). -/
noncomputable def hitchPoint (P : Params) (q : Q4) : V2 :=
  (q.px - P.lh * cos q.th1, q.py - P.lh * sin q.th1)

/-- `get_trailer_position` (tt2d.py:855-867). -/
noncomputable def trailerPos (P : Params) (q : Q4) : V2 :=
  ((hitchPoint P q).1 - P.l2 * cos q.th2, (hitchPoint P q).2 - P.l2 * sin q.th2)

/-- `get_trailer_back_position` (tt2d.py:870-882). -/
noncomputable def trailerBackPos (P : Params) (q : Q4) : V2 :=
  ((hitchPoint P q).1 - (P.l2 + P.lr2) * cos q.th2,
   (hitchPoint P q).2 - (P.l2 + P.lr2) * sin q.th2)

/-- Trailer part of `get_tractor_trailer_rectangles` (tt2d.py:907-926). -/
noncomputable def trailerCorners (P : Params) (q : Q4) : Corners :=
  boxCorners
    ((hitchPoint P q).1 + (0.5 * (P.lf2 - P.lr2) - P.l2) * cos q.th2,
     (hitchPoint P q).2 + (0.5 * (P.lf2 - P.lr2) - P.l2) * sin q.th2)
    q.th2 ((P.lf2 + P.lr2) / 2) (P.trailerWidth / 2)

/-- `check_obstacle_collision(x, obs_circles, obs_rectangles)` (tt2d.py:1013-1080).
`jnp.any(vmap(...))` is `∃` over the rows; the `shape[0] > 0` guards make the empty case `False`,
which `∃` also gives. -/
noncomputable def checkObstacle (P : Params) (q : Q4) : Prop :=
  let k₁ := P.tractorCorners q.px q.py q.th1
  let k₂ := trailerCorners P q
  (∃ c ∈ P.circles, rectCircle k₁ (c.x, c.y) c.r ∨ rectCircle k₂ (c.x, c.y) c.r) ∨
  (∃ o ∈ P.rects, rectRect k₁ o.corners ∨ rectRect k₂ o.corners)

/-- `check_hitch_violation` (tt2d.py:1005-1010). -/
noncomputable def checkHitch (P : Params) (q : Q4) : Prop := |wrapPi (q.th1 - q.th2)| > P.phiMax

/-- `check_collision` (tt2d.py:1083-1087). -/
noncomputable def checkCollision (P : Params) (q : Q4) : Prop := checkObstacle P q ∨ checkHitch P q

/-- The distance the rewards use (tt2d.py:720-740; 806-820): front axle to the goal's reference
point for preference 1/2, trailer axle to the goal's trailer axle otherwise. -/
noncomputable def posDist (P : Params) (xg : Q4) (q : Q4) : ℝ :=
  let dTractor := norm2 (P.tractorPos q.px q.py q.th1 - (xg.px, xg.py))
  let dTrailer := norm2 (trailerPos P q - trailerPos P xg)
  if P.tracksTractor then dTractor else dTrailer

/-- Heading errors `(e_theta1, e_theta2)` (tt2d.py:744-774): both headings against
`thetag = xg[2]`; without preference the better of the direct and the pi-offset orientation. -/
noncomputable def headingErr (P : Params) (xg : Q4) (q : Q4) : ℝ × ℝ :=
  let d1 := wrapPi (q.th1 - xg.th1)
  let d2 := wrapPi (q.th2 - xg.th1)
  let o1 := wrapPi (q.th1 - xg.th1 - π)
  let o2 := wrapPi (q.th2 - xg.th1 - π)
  let useDirect := |d1| + |d2| < |o1| + |o2|
  let w1 := if useDirect then d1 else o1
  let w2 := if useDirect then d2 else o2
  if P.motionPreference = 0 then (w1, w2) else (d1, d2)

/-- `w_theta` (tt2d.py:783-788). -/
noncomputable def wTheta (P : Params) (d : ℝ) : ℝ :=
  clip (sigmoid ((P.dThr - d) / P.kSwitch)) 0 P.maxWTheta

/-- `get_reward` (tt2d.py:706-793). -/
noncomputable def getReward (P : Params) (xg : Q4) (q : Q4) : ℝ :=
  let d := posDist P xg q
  let rPos := Params.posReward d P.rewardThreshold
  let e := headingErr P xg q
  let rHdg := P.headingRewardWeight *
    (1 - (|e.1| / P.thetaMax) ^ 2 + 1 - (|e.2| / P.thetaMax) ^ 2)
  let rArt := 1 - (|wrapPi (q.th1 - q.th2)| / P.phiMax) ^ 2
  let w := wTheta P d
  (1 - P.hitchAngleWeight) * ((1 - w) * rPos + w * rHdg) + P.hitchAngleWeight * rArt

/-- `get_terminal_reward` (tt2d.py:796-851). -/
noncomputable def getTerminalReward (P : Params) (xg : Q4) (q : Q4) : ℝ :=
  Params.posReward (posDist P xg q) P.terminalRewardThreshold

/-- `reset` (tt2d.py:263-266). -/
def reset (T : TT2d) : St Q4 :=
  { q := T.x0, obs := T.x0, reward := 0, done := 0, applied := (0, 0), inBackup := false }

/-- `_step_internal` (tt2d.py:302-384). -/
noncomputable def stepInternal (T : TT2d) (ext : Ext Q4) (viz : Bool) (s : St Q4) (a : U) : St Q4 :=
  let P := T.toParams
  let action := clipU a
  let prev := s.inBackup
  let uBackup : U := (0, 0)
  let actionEff := if prev then uBackup else action
  let uScaled := P.inputScaler actionEff
  let q := s.q
  let r : Q4 × Q4 × Bool × Bool × U :=
    if P.enableProjection then
      let uSafe := ext.project q action
      let qFinal := euler P q (P.inputScaler uSafe)
      (qFinal, qFinal, false, false, uSafe)
    else if P.enableGuidance then
      let qProp := euler P q uScaled
      let qReward := ext.guide qProp
      let qFinal := if viz then qReward else qProp
      (qFinal, qReward, decide (checkObstacle P qReward), decide (checkHitch P qReward), actionEff)
    else
      let qProp := euler P q uScaled
      let useShield := P.shieldCollision || P.shieldHitch
      let t := if useShield then kinShieldedRollout P (checkObstacle P) (checkHitch P) q qProp
        else kinNaive (checkObstacle P) (checkHitch P) qProp
      let fallback := (P.shieldCollision && t.2.1) || (P.shieldHitch && t.2.2)
      let backupNext := prev || fallback
      (t.1, t.1, t.2.1, t.2.2, if backupNext then uBackup else action)
  let qFinal := r.1
  let qReward := r.2.1
  let oc := r.2.2.1
  let hv := r.2.2.2.1
  let applied := r.2.2.2.2
  let r0 := getReward P T.xg qReward
  let r1 := if oc then r0 - P.collisionPenalty else r0
  let r2 := if hv then r1 - P.hitchPenalty else r1
  let pen := P.prefPenaltyU (P.inputScaler applied)
  let r3 := if P.motionPreference ≠ 0 then r2 - pen else r2
  { q := qFinal, obs := qFinal, reward := r3, done := 0, applied := applied, inBackup := prev }

/-- `step` (tt2d.py:297-299): `visualization_mode` is the instance attribute, initialised to
`False` (tt2d.py:77) and never changed by the code. -/
noncomputable def step (T : TT2d) (ext : Ext Q4) (s : St Q4) (a : U) : St Q4 :=
  T.stepInternal ext false s a

end TT2d

end Mbd
