import Verif.Env
import Verif.Cache

/-!
# Statistical evaluation (tests/stat_mbd.py)

Sampling of initial conditions, construction of the trial robots, the verdict on one trajectory and
the aggregated statistics.  The random generator is a parameter: `draws a` are the five uniform
numbers in `[0, 1)` consumed by attempt `a`.  Printing and plotting are not modelled.
-/

namespace Mbd

open Real Classical

/-! ## Initial conditions -/

/-- `TrialConfig` (stat_mbd.py:53-60). -/
structure Trial where
  dx : ℝ
  dy : ℝ
  theta1 : ℝ
  theta2 : ℝ
  id : ℕ

/-- The five numbers one attempt draws from the generator, in order: dx, dy, coin, theta1, hitch
angle (stat_mbd.py:84-94; in the conditional expression the coin is drawn before the branch). -/
structure Draw where
  u0 : ℝ
  u1 : ℝ
  u2 : ℝ
  u3 : ℝ
  u4 : ℝ

/-- `rng.uniform(a, b)` from a uniform number in `[0, 1)`. (stat_mbd.py:63-108) -/
noncomputable def uniform (a b u : ℝ) : ℝ := a + (b - a) * u

/-- The configuration proposed by one attempt (stat_mbd.py:84-98). -/
noncomputable def propose (d : Draw) (id : ℕ) : Trial :=
  let theta1 := if d.u2 < 0.5 then uniform (-π / 10) (π / 10) d.u3
    else uniform (π - π / 10) (π + π / 10) d.u3
  { dx := uniform (-12) 12 d.u0
    dy := uniform 2 7 d.u1
    theta1 := theta1
    theta2 := theta1 + uniform (-π / 10) (π / 10) d.u4
    id := id }

/-- The sampling loop (stat_mbd.py:76-105).  `fuel` is the number of attempts left
(`max_attempts - attempts`), `a` the number of attempts made; returns the configurations and the
final value of `attempts`. -/
noncomputable def sampleLoop (valid : Trial → Prop) (draws : ℕ → Draw) (n : ℕ) :
    ℕ → ℕ → List Trial → List Trial × ℕ
  | 0, a, cs => (cs, a)
  | fuel + 1, a, cs =>
    if cs.length < n then
      let t := propose (draws a) cs.length
      sampleLoop valid draws n fuel (a + 1) (if valid t then cs ++ [t] else cs)
    else (cs, a)

/-- `sample_initial_conditions(num_trials, seed)` (stat_mbd.py:63-108) with the number of attempts. -/
noncomputable def sampleInitialConditions (valid : Trial → Prop) (draws : ℕ → Draw) (n : ℕ) :
    List Trial × ℕ :=
  sampleLoop valid draws n (n * 10) 0 []

/-! ## The trial environment -/

/-- `get_default_parking_config` of the evaluation module (stat_mbd.py:111-126). -/
noncomputable def statParking : ParkingConfig :=
  { rows := 2, cols := 8, spaceWidth := 3.5, spaceLength := 7, yOffset := 4
    occupied := [1, 2, 3, 5, 6, 7, 9, 10, 11, 13, 14, 15], target := [4, 12], radius := 1 }

/-- `create_rectangular_obstacles` (stat_mbd.py:128-141): only the bottom wall. -/
noncomputable def statRects : List Rect := [⟨0, -14, 30, 1, 0⟩]

/-- A robot of the given class in the evaluation's parking lot with its rectangles overridden and
the trial's start (stat_mbd.py:158-186 and 220-275): `Env(case="parking", parking_config=...)`,
`get_env(...)`, obstacle override, `set_init_pos`. -/
noncomputable def statRobot (k : Kind) (case : String) (l1 : ℝ) (t : Trial) : Except EnvErr Robot :=
  match Env.new 32 32 "parking" (some statParking) with
  | .error e => .error e
  | .ok env =>
    match Robot.new k env case l1 with
    | .error e => .error e
    | .ok r =>
      let r' := { r with rects := statRects, env := { r.env with rects := statRects } }
      match r'.setInitPos { dx := some t.dx, dy := some t.dy, theta1 := t.theta1, theta2 := t.theta2 }
        with
      | (_, .error e) => .error e
      | (r'', .ok _) => .ok r''

/-- The state array of a tractor-trailer as a structure. (stat_mbd.py:289-348) -/
def asQ4 : List ℝ → Option Q4
  | [a, b, c, d] => some ⟨a, b, c, d⟩
  | _ => none

/-- `is_valid_initial_condition` (stat_mbd.py:144-202): a default tractor-trailer (whatever vehicle
is evaluated) in the same lot; any exception counts as invalid.  The environment object's own
rectangle list is not overridden here, which does not matter for the checks. -/
noncomputable def isValidStart (t : Trial) : Prop :=
  match statRobot .tractorTrailer "parking" 3.23 t with
  | .error _ => False
  | .ok r =>
    match asQ4 r.x0 with
    | none => False
    | some q =>
      ¬ (TT2d.checkObstacle (Params.default r.circles r.rects) q ∨
         TT2d.checkHitch (Params.default r.circles r.rects) q)

/-- `create_trial_environment` for the tractor-trailer (stat_mbd.py:205-286): parameters from the
base configuration, obstacles of the lot, start of the trial, goal heading `-pi/2`. -/
noncomputable def trialTT2d (base : Params) (t : Trial) : Except EnvErr TT2d :=
  match statRobot .tractorTrailer "parking" base.l1 t with
  | .error e => .error e
  | .ok r =>
    let r' := r.setGoalPos { theta1 := some (-π / 2), theta2 := some (-π / 2) }
    match asQ4 r'.x0, asQ4 r'.xg with
    | some x0, some xg =>
      .ok { toParams := { base with circles := r'.circles, rects := r'.rects }, x0 := x0, xg := xg }
    | _, _ => .error .indexError

/-! ## The verdict on a trajectory -/

/-- What `evaluate_trial_result` uses of a robot; all functions receive the first four entries of
a state (stat_mbd.py:305-306, 328). -/
structure EvalEnv (Q : Type) where
  coll : Q → Prop
  hitch : Q → Prop
  ref : Q → V2
  back : Q → V2
  goal : V2

/-- The result dictionary (stat_mbd.py:340-348). -/
structure Verdict where
  success : Bool
  positionError : ℝ
  tractorError : ℝ
  trailerError : ℝ
  collision : Bool
  jackknife : Bool

/-- The loop over the trajectory with its early exit (stat_mbd.py:324-335). -/
noncomputable def flagLoop {Q : Type} (coll hitch : Q → Prop) : Bool → Bool → List Q → Bool × Bool
  | oc, hv, [] => (oc, hv)
  | oc, hv, q :: qs =>
    let oc' := if coll q then true else oc
    let hv' := if hitch q then true else hv
    if oc' && hv' then (oc', hv') else flagLoop coll hitch oc' hv' qs

/-- Euclidean distance as computed at stat_mbd.py:313 and 318. -/
noncomputable def dist2 (a b : V2) : ℝ := √((a.1 - b.1) ^ 2 + (a.2 - b.2) ^ 2)

/-- `evaluate_trial_result(trajectory_states, env, goal_position_threshold)` (stat_mbd.py:289-348);
`trajectory_states[-1]` of an empty array raises (`none`). -/
noncomputable def evaluateTrial {Q : Type} (E : EvalEnv Q) (thr : ℝ) (xs : List Q) : Option Verdict :=
  match xs.getLast? with
  | none => none
  | some q =>
    let te := dist2 (E.ref q) E.goal
    let le := dist2 (E.back q) E.goal
    let pe := min te le
    let f := flagLoop E.coll E.hitch false false xs
    some { success := decide (pe ≤ thr) && !f.1 && !f.2
           positionError := pe, tractorError := te, trailerError := le
           collision := f.1, jackknife := f.2 }

/-- The default threshold (stat_mbd.py:291). -/
def goalThreshold : ℝ := 4

/-- Evaluation of a `TractorTrailer2d`: the first four entries are the whole state.
(stat_mbd.py:289-348) -/
noncomputable def TT2d.evalEnv (T : TT2d) : EvalEnv Q4 :=
  { coll := TT2d.checkObstacle T.toParams, hitch := TT2d.checkHitch T.toParams
    ref := fun q => (q.px, q.py), back := TT2d.trailerBackPos T.toParams
    goal := (T.xg.px, T.xg.py) }

/-- Evaluation of an `AccTractorTrailer2d`: the first four entries are the pose, which is all that
its checks read (acc_tt2d.py inherits tt2d.py:1005-1080). -/
noncomputable def Acc.evalEnv (T : Acc) : EvalEnv Q6 :=
  { coll := fun q => TT2d.checkObstacle T.toParams q.pose
    hitch := fun q => TT2d.checkHitch T.toParams q.pose
    ref := fun q => (q.px, q.py), back := fun q => TT2d.trailerBackPos T.toParams q.pose
    goal := (T.xg.px, T.xg.py) }

/-- Evaluation of a `KinematicBicycle2d`: slicing a 3-entry state to four entries keeps it whole.
(stat_mbd.py:289-348) -/
noncomputable def Bicycle.evalEnv (T : Bicycle) : EvalEnv Q3 :=
  { coll := Bicycle.checkObstacle T.toParams, hitch := Bicycle.checkHitch T.toParams
    ref := fun q => (q.px, q.py), back := Bicycle.trailerBackPos T.toParams
    goal := (T.xg.px, T.xg.py) }

/-- `state[:4]` of a train: position, tractor heading and the first trailer's heading
(stat_mbd.py:306, 328). -/
def QN.slice4 (q : QN) : QN := { q with ths := q.ths.take 1 }

/-- Evaluation of an `NTrailer2d`: its checks receive the sliced state (missing headings are read
with clamped indices, see `clampGet`), and the inherited `get_trailer_back_position`
(tt2d.py:870-882) reads entries 2 and 3. -/
noncomputable def NTrailer.evalEnv (T : NTrailer) : EvalEnv QN :=
  { coll := fun q => T.checkObstacle q.slice4
    hitch := fun q => T.checkHitch q.slice4
    ref := fun q => (q.px, q.py)
    back := fun q => TT2d.trailerBackPos T.toParams ⟨q.px, q.py, q.th0, q.ths.headD 0⟩
    goal := (T.xg.px, T.xg.py) }

/-! ## Aggregation -/

/-- One entry of `individual_results`: verdict and pure diffusion time (stat_mbd.py:399-406). -/
structure TrialResult where
  verdict : Verdict
  time : ℝ

/-- `StatisticalResults` (stat_mbd.py:39-50).  `avgPositionError = none` is `inf`; a rate `none` is
the `nan` that `np.mean([])` gives. -/
structure Stats where
  successRate : ℝ
  avgPositionError : Option ℝ
  collisionRate : Option ℝ
  jackknifeRate : Option ℝ
  avgTime : ℝ
  stdTime : ℝ
  numTrials : ℕ
  successfulTrials : ℕ
  results : List TrialResult

/-- `np.mean` of a list: `nan` (`none`) for the empty list. (stat_mbd.py:455-480) -/
noncomputable def npMean (l : List ℝ) : Option ℝ := if l = [] then none else some (mean l)

/-- `np.mean` of Booleans. (stat_mbd.py:455-480) -/
noncomputable def boolMean (l : List Bool) : Option ℝ := npMean (l.map fun b => if b then 1 else 0)

/-- The aggregation of `run_statistical_evaluation` (stat_mbd.py:382-386, 410-411, 452-485);
`num_trials = 0` raises `ZeroDivisionError` (`none`). -/
noncomputable def aggregate (numTrials : ℕ) (rs : List TrialResult) : Option Stats :=
  if numTrials = 0 then none else
  let succ := rs.filter fun r => r.verdict.success
  let completed := (rs.map TrialResult.time).filter fun t => decide (t > 0)
  some
    { successRate := (succ.length : ℝ) / numTrials
      avgPositionError := if succ = [] then none else
        some (mean (succ.map fun r => r.verdict.positionError))
      collisionRate := boolMean (rs.map fun r => r.verdict.collision)
      jackknifeRate := boolMean (rs.map fun r => r.verdict.jackknife)
      avgTime := if completed = [] then 0 else mean completed
      stdTime := if completed = [] then 0 else std completed
      numTrials := numTrials
      successfulTrials := succ.length
      results := rs }

/-- The trials of one evaluation as runs of the planner in one process (stat_mbd.py:391-401): one new
robot object per trial, the same configuration and seed, no clearing of the function cache in
between (the call is commented out, stat_mbd.py:373-374). -/
noncomputable def World.batch {Q : Type} (normal : Key → ℕ → ℕ → ℕ → ℕ → U) (cfg : Cfg) :
    World Q → List ℕ → List (Result Q)
  | _, [] => []
  | w, o :: os => (w.run o normal cfg).2 :: World.batch normal cfg (w.run o normal cfg).1 os

/-- `run_statistical_evaluation` for the tractor-trailer (stat_mbd.py:351-507) in a fresh process;
`times i` are the measured pure diffusion times.  The robot of trial `i` is object number `i` (other
numbers are never used).  `none` stands for an exception that escapes.  Simplification: the robots
are built before the first run instead of one by one, which makes no difference because building
them neither runs the planner nor touches the other robots. -/
noncomputable def evaluateTT2d (base : Params) (ext : Ext Q4) (normal : Key → ℕ → ℕ → ℕ → ℕ → U)
    (cfg : Cfg) (times : ℕ → ℝ) (draws : ℕ → Draw) (n : ℕ) : Option Stats :=
  let trials := (sampleInitialConditions isValidStart draws n).1
  match trials.mapM (fun t => (trialTT2d base t).toOption) with
  | none => none
  | some robots =>
    let robot := fun (i : ℕ) => robots.getD i { toParams := base, x0 := ⟨0, 0, 0, 0⟩, xg := ⟨0, 0, 0, 0⟩ }
    let runs := World.batch normal cfg (World.init fun i => (robot i).obj ext)
      (List.range robots.length)
    let outcome := fun (p : ℕ × Result Q4) =>
      (evaluateTrial (robot p.1).evalEnv goalThreshold p.2.xs).map
        fun v => (⟨v, times p.1⟩ : TrialResult)
    match ((List.range robots.length).zip runs).mapM outcome with
    | none => none
    | some rs => aggregate n rs

end Mbd
