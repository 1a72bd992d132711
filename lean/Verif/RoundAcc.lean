import Verif.Rounded
import Verif.Acc

/-!
# The acceleration-controlled tractor-trailer with an arbitrary arithmetic

Motion, stopping manoeuvre and shield of `acc_tt2d.py` with an arbitrary implementation of the array arithmetic (see `Rounded.lean`).
-/

namespace Mbd

open Real Classical

namespace Rounded

variable (A : Arith)

/-- `tractor_trailer_dynamics` (acc_tt2d.py:90-116) and `euler` (tt2d.py:29-31) with time step `dt`. -/
noncomputable def eulerA (T : Acc) (x : Q6) (u : U) (dt : ℝ) : Q6 :=
  let h := A.const dt
  let v := clip x.v (-A.const T.vMax) (A.const T.vMax)
  let delta := clip x.delta (-A.const T.deltaMax) (A.const T.deltaMax)
  let t := A.tan delta
  let d := A.sub x.th1 x.th2
  { px := A.mulAdd h (A.mul v (A.cos x.th1)) x.px
    py := A.mulAdd h (A.mul v (A.sin x.th1)) x.py
    th1 := A.mulAdd h (A.mul (A.div v (A.const T.l1)) t) x.th1
    th2 := A.mulAdd h (A.mul (A.div v (A.const T.l2))
      (A.mulAdd (-A.mul (A.const (T.lh / T.l1)) (A.cos d)) t (A.sin d))) x.th2
    v := A.mulAdd h u.1 x.v
    delta := A.mulAdd h u.2 x.delta }

/-- `input_scaler` (acc_tt2d.py:83-87). -/
noncomputable def inputScalerA (T : Acc) (u : U) : U := (A.mul u.1 (A.const T.aMax), A.mul u.2 (A.const T.omegaMax))

/-- `clip(abs(v/dt), 0, a_max)` (acc_tt2d.py:131, 256, 310). -/
noncomputable def aBackup (T : Acc) (v : ℝ) : ℝ := clip |A.div v (A.const T.dt)| 0 (A.const T.aMax)

/-- The sign of the stopping acceleration (acc_tt2d.py:130, 255, 309). -/
noncomputable def decelSign (v w : ℝ) : ℝ :=
  if v > A.const Acc.vThr then -1 else if w < -A.const Acc.vThr then 1 else 0

/-- `u_backup_norm` (acc_tt2d.py:129-132). -/
noncomputable def uBackupNorm (T : Acc) (v : ℝ) : U :=
  (A.div (A.mul (decelSign A v v) (aBackup A T v)) (A.const T.aMax), 0)

/-- `_rollout_step` (acc_tt2d.py:277-297). -/
noncomputable def rolloutStep (T : Acc) (uStop : U) (c : Acc.RCarry) : Acc.RCarry :=
  let qNext := if |c.q.v| > A.const Acc.vThr then eulerA A T c.q uStop Acc.rolloutDt else c.q
  { q := qNext
    stopped := c.stopped || decide (|qNext.v| ≤ A.const Acc.vThr)
    oc := c.oc || decide (checkObstacle A T.toParams qNext.pose)
    hv := c.hv || decide (checkHitch A T.toParams qNext.pose) }

/-- The safety check of `shielded_rollout` (acc_tt2d.py:247-252, 269-319). -/
noncomputable def checkSafety (T : Acc) (q : Q6) : Bool × Bool :=
  if |q.v| ≤ A.const Acc.vThr then
    (decide (checkObstacle A T.toParams q.pose), decide (checkHitch A T.toParams q.pose))
  else
    let uStop : U := (A.mul (decelSign A q.v q.v) (aBackup A T q.v), 0)
    let c := (rolloutStep A T uStop)^[T.maxRolloutSteps]
      { q := q, stopped := false, oc := decide (checkObstacle A T.toParams q.pose),
        hv := decide (checkHitch A T.toParams q.pose) }
    (c.oc, c.hv)

/-- Vehicle state after one `step`, neither projection nor guidance (acc_tt2d.py:124-266).  Simplification: rewards and flags
are left out. -/
noncomputable def stepA (T : Acc) (q : Q6) (backup : Bool) (a : U) : Q6 :=
  let act := if backup then uBackupNorm A T q.v else clipU a
  let qProp := eulerA A T q (inputScalerA A T act) T.dt
  if T.shieldCollision || T.shieldHitch then
    let f := checkSafety A T qProp
    let qBackup := eulerA A T q (A.mul (decelSign A q.v qProp.v) (aBackup A T q.v), 0) T.dt
    if (T.shieldCollision && f.1) || (T.shieldHitch && f.2) then qBackup else qProp
  else qProp

end Rounded

end Mbd
