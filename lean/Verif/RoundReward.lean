import Verif.RoundPlan
import Verif.RoundTrain

/-!
# The rewards with an arbitrary arithmetic

Stage and terminal reward of tractor-trailer, bicycle and train and the steering reward of the planner, with an arbitrary
implementation of the array arithmetic (see `Rounded.lean` and `RoundPlan.lean`).  Exact, as in IEEE arithmetic: negation, absolute
value, comparison, `min`, `clip`, `where`.  Attributes of the robot are Python numbers; they are combined in Python before they enter
an array expression.
-/

namespace Mbd

open Real Classical

namespace Rounded

variable (A : PlanArith)

/-- `jnp.linalg.norm(a - b)` (tt2d.py:727, 736-737). -/
noncomputable def dist (a b : V2) : ℝ :=
  A.sqrt (A.sum2 (A.sub a.1 b.1) (A.sub a.1 b.1) (A.sub a.2 b.2) (A.sub a.2 b.2))

/-- `x ** 2` (tt2d.py:742). -/
noncomputable def square (a : ℝ) : ℝ := A.mul a a

/-- Position reward (tt2d.py:741-742, 821; n_trailer2d.py:268, 376; kinematic_bicycle2d.py:284-285, 326). -/
noncomputable def posReward (d thr : ℝ) : ℝ :=
  A.sub 1 (square A (A.div (clip d 0 (A.const thr)) (A.const thr)))

/-- Front axle of the tractor (tt2d.py:717, 802; n_trailer2d.py:254; kinematic_bicycle2d.py:280). -/
noncomputable def tractorPos (P : Params) (px py th : ℝ) : V2 :=
  (A.mulAdd (A.const P.l1) (A.cos th) px, A.mulAdd (A.const P.l1) (A.sin th) py)

/-- `get_trailer_position` (tt2d.py:855-867). -/
noncomputable def trailerPos (P : Params) (q : Q4) : V2 :=
  (A.mulAdd (-A.const P.l2) (A.cos q.th2) (A.mulAdd (-A.const P.lh) (A.cos q.th1) q.px),
   A.mulAdd (-A.const P.l2) (A.sin q.th2) (A.mulAdd (-A.const P.lh) (A.sin q.th1) q.py))

/-- `d_pos` (tt2d.py:733-740, 813-820). -/
noncomputable def posDist (P : Params) (xg q : Q4) : ℝ :=
  if P.tracksTractor then dist A (tractorPos A P q.px q.py q.th1) (xg.px, xg.py)
  else dist A (trailerPos A P q) (trailerPos A P xg)

/-- Heading errors (tt2d.py:744-774). -/
noncomputable def headingErr (P : Params) (xg q : Q4) : ℝ × ℝ :=
  let d1 := wrapPi A.toArith (A.sub q.th1 xg.th1)
  let d2 := wrapPi A.toArith (A.sub q.th2 xg.th1)
  let o1 := wrapPi A.toArith (A.sub (A.sub q.th1 xg.th1) (A.const π))
  let o2 := wrapPi A.toArith (A.sub (A.sub q.th2 xg.th1) (A.const π))
  let direct := A.add |d1| |d2| < A.add |o1| |o2|
  if P.motionPreference = 0 then (if direct then d1 else o1, if direct then d2 else o2) else (d1, d2)

/-- `w_theta` (tt2d.py:783-788). -/
noncomputable def wTheta (P : Params) (d : ℝ) : ℝ :=
  clip (A.div 1 (A.add 1 (A.exp (-A.div (A.sub (A.const P.dThr) d) (A.const P.kSwitch))))) 0 (A.const P.maxWTheta)

/-- `get_reward` (tt2d.py:706-793). -/
noncomputable def getReward (P : Params) (xg q : Q4) : ℝ :=
  let d := posDist A P xg q
  let e := headingErr A P xg q
  let rHdg := A.mul (A.const P.headingRewardWeight)
    (A.sub (A.add (A.sub 1 (square A (A.div |e.1| (A.const P.thetaMax)))) 1) (square A (A.div |e.2| (A.const P.thetaMax))))
  let rArt := A.sub 1 (square A (A.div |wrapPi A.toArith (A.sub q.th1 q.th2)| (A.const P.phiMax)))
  let w := wTheta A P d
  A.sum2 (A.const (1 - P.hitchAngleWeight)) (A.sum2 (A.sub 1 w) (posReward A d P.rewardThreshold) w rHdg)
    (A.const P.hitchAngleWeight) rArt

/-- `get_terminal_reward` (tt2d.py:796-851). -/
noncomputable def getTerminalReward (P : Params) (xg q : Q4) : ℝ :=
  posReward A (posDist A P xg q) P.terminalRewardThreshold

/-- Distance to the goal, bicycle (kinematic_bicycle2d.py:280-284). -/
noncomputable def posDistB (P : Params) (xg q : Q3) : ℝ := dist A (tractorPos A P q.px q.py q.th1) (xg.px, xg.py)

/-- Heading error, bicycle (kinematic_bicycle2d.py:287-303). -/
noncomputable def headingErrB (P : Params) (xg q : Q3) : ℝ :=
  let d := wrapPi A.toArith (A.sub q.th1 xg.th1)
  let o := wrapPi A.toArith (A.sub (A.sub q.th1 xg.th1) (A.const π))
  if P.motionPreference = 0 then (if |d| < |o| then d else o) else d

/-- `get_reward` of the bicycle (kinematic_bicycle2d.py:273-316). -/
noncomputable def getRewardB (P : Params) (xg q : Q3) : ℝ :=
  let d := posDistB A P xg q
  let w := wTheta A P d
  A.sum2 (A.sub 1 w) (posReward A d P.rewardThreshold) w
    (A.sub 1 (square A (A.div |headingErrB A P xg q| (A.const P.thetaMax))))

/-- `get_terminal_reward` of the bicycle (kinematic_bicycle2d.py:319-329). -/
noncomputable def getTerminalRewardB (P : Params) (xg q : Q3) : ℝ :=
  posReward A (posDistB A P xg q) P.terminalRewardThreshold

/-- Loop of `get_last_trailer_position`: next hitch and axle after `i` trailers (n_trailer2d.py:233-249). -/
noncomputable def lastPosLoopN (T : NTrailer) (x : QN) : ℕ → V2 × V2
  | 0 => (leverN A.toArith (-A.const T.lh) x.th0 (x.px, x.py), leverN A.toArith (-A.const T.lh) x.th0 (x.px, x.py))
  | i + 1 =>
    let c := leverN A.toArith (-lengthN A.toArith T i) (T.theta x i) (lastPosLoopN T x i).1
    (leverN A.toArith (frontN A.toArith T i) (T.theta x i) c, c)

/-- `d` (n_trailer2d.py:254-267, 366-375). -/
noncomputable def posDistN (T : NTrailer) (q : QN) : ℝ :=
  let dTractor := dist A (tractorPos A T.toParams q.px q.py q.th0) (T.xg.px, T.xg.py)
  let dLast := dist A (lastPosLoopN A T q T.N).2 (lastPosLoopN A T T.xg T.N).2
  if T.motionPreference = 1 ∨ T.motionPreference = 2 then dTractor
  else if T.motionPreference = -1 ∨ T.motionPreference = -2 then dLast
  else min dTractor dLast

/-- `get_reward` of the train (n_trailer2d.py:253-268). -/
noncomputable def getRewardN (T : NTrailer) (q : QN) : ℝ := posReward A (posDistN A T q) T.rewardThreshold

/-- `get_terminal_reward` of the train (n_trailer2d.py:365-377). -/
noncomputable def getTerminalRewardN (T : NTrailer) (q : QN) : ℝ := posReward A (posDistN A T q) T.terminalRewardThreshold

/-- `-(clip(e, 0, thr) / thr) ** 2` (tt2d.py:1118, 1149-1150). -/
noncomputable def quadTerm (e thr : ℝ) : ℝ := -square A (A.div (clip e 0 (A.const thr)) (A.const thr))

/-- `theta1_err, theta2_err` before the mask (tt2d.py:1124-1146). -/
noncomputable def headErr (pref : ℤ) (a1 a2 r1 r2 : ℝ) : ℝ × ℝ :=
  let d1 := wrapPi A.toArith (A.sub a1 r1)
  let d2 := wrapPi A.toArith (A.sub a2 r2)
  let o1 := wrapPi A.toArith (A.sub (A.sub a1 r1) (A.const π))
  let o2 := wrapPi A.toArith (A.sub (A.sub a2 r2) (A.const π))
  let direct := A.add |d1| |d2| < A.add |o1| |o2|
  if pref = 0 then (if direct then d1 else o1, if direct then d2 else o2) else (d1, d2)

/-- `eval_xref_logpd` (tt2d.py:1089-1166). -/
noncomputable def evalXref (P : Params) (xref : List (Q4 × Bool)) (pref : ℤ) (xs : List Q4) : ℝ :=
  mean A (List.zipWith (fun q ref =>
    let pos := if pref = 1 ∨ pref = 2 then (q.px, q.py) else trailerPos A P q
    let e := headErr A pref q.th1 q.th2 ref.1.th1 ref.1.th2
    A.add (A.sum2 (A.const P.refPosWeight) (quadTerm A (dist A pos (ref.1.px, ref.1.py)) P.refRewardThreshold)
      (A.const P.refTheta1Weight) (quadTerm A |if ref.2 then e.1 else 0| P.phiMax))
      (A.mul (A.const P.refTheta2Weight) (quadTerm A |if ref.2 then e.2 else 0| P.phiMax))) xs xref)

/-- `compute_steering_reward` for one action sequence (mbd_planner.py:305-336). -/
noncomputable def steeringReward (deltaMax : ℝ) (Y : List U) : ℝ :=
  let deltas := Y.map Prod.snd
  let scaled := deltas.map fun d => A.mul d (A.const deltaMax)
  let rDelta := deltas.map fun d => A.sub 1 (square A |d|)
  let diffs := List.zipWith (fun a b => A.sub b a) scaled scaled.tail
  let thr := A.const (0.1 * deltaMax)
  let rDot := diffs.map fun d => A.sub 1 (clip (square A (A.div |d| thr)) 0 1)
  mean A (List.zipWith (fun a b => A.mul 0.5 (A.add a b)) rDelta (1 :: rDot))

end Rounded

end Mbd
