import Verif.TT2d

/-!
# The N-trailer robot (mbd/robots/n_trailer2d.py)
-/

namespace Mbd

open Real Classical

/-- State `[px, py, theta0, theta1 .. thetaN]` (n_trailer2d.py:14); `ths` are the trailer angles. -/
@[ext] structure QN where
  px : ℝ
  py : ℝ
  th0 : ℝ
  ths : List ℝ

/-- `x + dt * k` on arrays of equal length. (tt2d.py:29-31) -/
def QN.axpy (x : QN) (dt : ℝ) (k : QN) : QN :=
  ⟨x.px + dt * k.px, x.py + dt * k.py, x.th0 + dt * k.th0,
   List.zipWith (fun a b => a + dt * b) x.ths k.ths⟩

/-- `NTrailer2d` instance (n_trailer2d.py:18-55): `N = num_trailers`, per-trailer arrays
`trailer_lengths`, `trailer_front_offsets`, `trailer_rear_offsets`. -/
structure NTrailer extends Params where
  N : ℕ
  lengths : List ℝ
  fronts : List ℝ
  rears : List ℝ
  x0 : QN
  xg : QN

/-- Runtime errors of the N-trailer step (n_trailer2d.py:133, 135). -/
inductive NErr where
  | stateLength
  | projectionUnsupported
deriving DecidableEq

namespace NTrailer

/-- `thetas = x[3 : 3+N]` (n_trailer2d.py:66, 231, 274, 303). -/
def slice (T : NTrailer) (x : QN) : List ℝ := x.ths.take T.N

/-- The `i`-th loop read `thetas[i]` (index clamped by JAX, see `clampGet`).
(n_trailer2d.py:75-93) -/
def theta (T : NTrailer) (x : QN) (i : ℕ) : ℝ := clampGet (T.slice x) i

/-- Loop carry of `n_trailer_dynamics`: `(prev_theta, prev_dot, prev_axle_speed)`.
(n_trailer2d.py:75-93) -/
structure Carry where
  theta : ℝ
  dot : ℝ
  speed : ℝ

/-- Body of the `fori_loop` (n_trailer2d.py:75-95); returns the next carry, whose `dot` is the
value written to `dots[i]`. -/
noncomputable def loopBody (T : NTrailer) (x : QN) (v delta th0dot : ℝ) (i : ℕ) (c : Carry) :
    Carry :=
  let thI := T.theta x i
  let L := clampGet T.lengths i
  let d := c.theta - thI
  { theta := thI
    dot := if i = 0 then (v / L) * (sin d - (T.lh / T.l1) * cos d * tan delta)
      else (c.speed / L) * sin d - (T.lh / L) * c.dot * cos d
    speed := if i = 0 then v * cos d + T.lh * th0dot * sin d
      else c.speed * cos d + T.lh * c.dot * sin d }

/-- Carry after `i` iterations of the loop (n_trailer2d.py:94-95). -/
noncomputable def carryAt (T : NTrailer) (x : QN) (v delta : ℝ) : ℕ → Carry
  | 0 => { theta := x.th0, dot := (v / T.l1) * tan delta, speed := v }
  | i + 1 => T.loopBody x v delta ((v / T.l1) * tan delta) i (carryAt T x v delta i)

/-- `n_trailer_dynamics` (n_trailer2d.py:62-100). -/
noncomputable def dynamics (T : NTrailer) (x : QN) (u : U) : QN :=
  { px := u.1 * cos x.th0
    py := u.1 * sin x.th0
    th0 := (u.1 / T.l1) * tan u.2
    ths := (List.range T.N).map fun i => (T.carryAt x u.1 u.2 (i + 1)).dot }

/-- `euler(self.n_trailer_dynamics, q, u, self.dt)` (tt2d.py:29-31). -/
noncomputable def euler (T : NTrailer) (q : QN) (u : U) : QN := q.axpy T.dt (T.dynamics q u)

/-- Tractor hitch (n_trailer2d.py:233, 304). -/
noncomputable def hitch0 (T : NTrailer) (x : QN) : V2 :=
  (x.px - T.lh * cos x.th0, x.py - T.lh * sin x.th0)

/-- Loop of `get_last_trailer_position` (n_trailer2d.py:235-248): `(next hitch, centre)` after
`i` iterations. -/
noncomputable def lastPosLoop (T : NTrailer) (x : QN) : ℕ → V2 × V2
  | 0 => (T.hitch0 x, T.hitch0 x)
  | i + 1 =>
    let prev := (lastPosLoop T x i).1
    let th := T.theta x i
    let L := clampGet T.lengths i
    let lf := clampGet T.fronts i
    let c : V2 := (prev.1 - L * cos th, prev.2 - L * sin th)
    ((c.1 + lf * cos th, c.2 + lf * sin th), c)

/-- `get_last_trailer_position` (n_trailer2d.py:228-250); `get_trailer_position` is an alias
(387-389). -/
noncomputable def lastTrailerPos (T : NTrailer) (x : QN) : V2 := (T.lastPosLoop x T.N).2

/-- Front-axle distance used by the rewards (n_trailer2d.py:257-261, 368-372). -/
noncomputable def dTractor (T : NTrailer) (q : QN) : ℝ :=
  norm2 (T.tractorPos q.px q.py q.th0 - (T.xg.px, T.xg.py))

/-- Last-trailer distance used by the rewards (n_trailer2d.py:258-262, 369-373). -/
noncomputable def dLast (T : NTrailer) (q : QN) : ℝ :=
  norm2 (T.lastTrailerPos q - T.lastTrailerPos T.xg)

/-- Distance selection (n_trailer2d.py:262-267, 373-375). -/
noncomputable def posDist (T : NTrailer) (q : QN) : ℝ :=
  if T.motionPreference = 1 ∨ T.motionPreference = 2 then T.dTractor q
  else if T.motionPreference = -1 ∨ T.motionPreference = -2 then T.dLast q
  else min (T.dTractor q) (T.dLast q)

/-- `get_reward` (n_trailer2d.py:253-268). -/
noncomputable def getReward (T : NTrailer) (q : QN) : ℝ :=
  Params.posReward (T.posDist q) T.rewardThreshold

/-- `get_terminal_reward` (n_trailer2d.py:365-377). -/
noncomputable def getTerminalReward (T : NTrailer) (q : QN) : ℝ :=
  Params.posReward (T.posDist q) T.terminalRewardThreshold

/-- The scan of `check_hitch_violation` over `thetas[1:]` (n_trailer2d.py:279-283). -/
noncomputable def hitchScan (phi : ℝ) : ℝ → Prop → List ℝ → Prop
  | _, viol, [] => viol
  | prev, viol, th :: rest => hitchScan phi th (viol ∨ |wrapPi (prev - th)| > phi) rest

/-- `check_hitch_violation` (n_trailer2d.py:271-284).  `thetas[0]` of an empty slice is an error
in the code; the model then compares with `0` (never reached: `N ≥ 2`). -/
noncomputable def checkHitch (T : NTrailer) (x : QN) : Prop :=
  let ths := T.slice x
  let h0 := |wrapPi (x.th0 - ths.headD 0)| > T.phiMax
  hitchScan T.phiMax (ths.headD 0) h0 ths.tail

/-- Hitch from which trailer `i` is placed in `get_tractor_trailer_rectangles_all`
(n_trailer2d.py:304-327): next hitch is the rear face minus `lh`. -/
noncomputable def rectHitch (T : NTrailer) (x : QN) : ℕ → V2
  | 0 => T.hitch0 x
  | i + 1 =>
    let h := rectHitch T x i
    let th := T.theta x i
    let L := clampGet T.lengths i
    let lf := clampGet T.fronts i
    let lr := clampGet T.rears i
    let sC := 0.5 * (lf - lr) - L
    let c : V2 := (h.1 + sC * cos th, h.2 + sC * sin th)
    let hl := 0.5 * (lf + lr)
    let rear : V2 := (c.1 - hl * cos th, c.2 - hl * sin th)
    (rear.1 - T.lh * cos th, rear.2 - T.lh * sin th)

/-- Corner array of trailer `i` (n_trailer2d.py:306-318). -/
noncomputable def trailerCorners (T : NTrailer) (x : QN) (i : ℕ) : Corners :=
  let h := T.rectHitch x i
  let th := T.theta x i
  let L := clampGet T.lengths i
  let lf := clampGet T.fronts i
  let lr := clampGet T.rears i
  let sC := 0.5 * (lf - lr) - L
  boxCorners (h.1 + sC * cos th, h.2 + sC * sin th) th (0.5 * (lf + lr)) (T.trailerWidth / 2)

/-- `corners_out` of `get_tractor_trailer_rectangles_all` (n_trailer2d.py:305-328). -/
noncomputable def allTrailerCorners (T : NTrailer) (x : QN) : List Corners :=
  (List.range T.N).map (T.trailerCorners x)

/-- `check_obstacle_collision` (n_trailer2d.py:331-362). -/
noncomputable def checkObstacle (T : NTrailer) (x : QN) : Prop :=
  let k := T.tractorCorners x.px x.py x.th0
  let ks := T.allTrailerCorners x
  ((∃ c ∈ T.circles, rectCircle k (c.x, c.y) c.r) ∨
    (∃ kt ∈ ks, ∃ c ∈ T.circles, rectCircle kt (c.x, c.y) c.r)) ∨
  ((∃ o ∈ T.rects, rectRect k o.corners) ∨ (∃ kt ∈ ks, ∃ o ∈ T.rects, rectRect kt o.corners))

/-- `reset` (n_trailer2d.py:102-103). -/
def reset (T : NTrailer) : St QN :=
  { q := T.x0, obs := T.x0, reward := 0, done := 0, applied := (0, 0), inBackup := false }

/-- `_step_internal` (n_trailer2d.py:126-168).  The length assertion and the unsupported
projection branch are error values.  The preference penalty uses `u_scaled`, not the applied
action (163). -/
noncomputable def stepInternal (T : NTrailer) (guide : QN → QN) (viz : Bool) (s : St QN) (a : U) :
    Except NErr (St QN) :=
  let action := clipU a
  let prev := s.inBackup
  let uBackup : U := (0, 0)
  let actionEff := if prev then uBackup else action
  let uScaled := T.inputScaler actionEff
  let q := s.q
  if 3 + q.ths.length ≠ 3 + T.N then .error .stateLength
  else if T.enableProjection then .error .projectionUnsupported
  else
    let r : QN × QN × Bool × Bool × U :=
      if T.enableGuidance then
        let qProp := T.euler q uScaled
        let qReward := guide qProp
        let qFinal := if viz then qReward else qProp
        (qFinal, qReward, decide (T.checkObstacle qReward), decide (T.checkHitch qReward),
          actionEff)
      else
        let qProp := T.euler q uScaled
        let useShield := T.shieldCollision || T.shieldHitch
        let t := if useShield then
            kinShieldedRollout T.toParams T.checkObstacle T.checkHitch q qProp
          else kinNaive T.checkObstacle T.checkHitch qProp
        let fallback := (T.shieldCollision && t.2.1) || (T.shieldHitch && t.2.2)
        let backupNext := prev || fallback
        (t.1, t.1, t.2.1, t.2.2, if backupNext then uBackup else action)
    let qFinal := r.1
    let qReward := r.2.1
    let oc := r.2.2.1
    let hv := r.2.2.2.1
    let applied := r.2.2.2.2
    let r0 := T.getReward qReward
    let r1 := if oc then r0 - T.collisionPenalty else r0
    let r2 := if hv then r1 - T.hitchPenalty else r1
    let pen := T.prefPenaltyU uScaled
    let r3 := if T.motionPreference ≠ 0 then r2 - pen else r2
    .ok { q := qFinal, obs := qFinal, reward := r3, done := 0, applied := applied,
          inBackup := prev }

/-- `step` (n_trailer2d.py:120-123). -/
noncomputable def step (T : NTrailer) (guide : QN → QN) (s : St QN) (a : U) :
    Except NErr (St QN) :=
  T.stepInternal guide false s a

end NTrailer

end Mbd
