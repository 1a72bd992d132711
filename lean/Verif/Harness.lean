import Verif.Stat

/-!
# The integration-test fixtures and their verdict (tests/test_planners)

Construction of the robot of a test scenario and the checks on the planned trajectory.  Logging, saving
of results and the time limit are not modelled.
-/

namespace Mbd

open Real Classical

/-- The test-specific settings of a `TestConfig` (test_configs.py:25-66).  `None` and `[]` are treated
alike for the obstacle lists; `init` and `goal` are `none` unless all their parts are given
(test_environments.py:122-138). -/
structure TestSetup where
  parking : Option ParkingConfig := none
  circles : List Circle := []
  rects : List Rect := []
  init : Option (ℝ × ℝ × ℝ × ℝ) := none
  goal : Option (ℝ × ℝ) := none
  expectedMin : ℝ := 0
  expectedMax : ℝ := 4
  limit : ℝ := 4

/-- `setup_parking_environment` (test_environments.py:27-55).  (`parking_config = {}` counts as not given;
the model's records are never empty.) -/
noncomputable def setupParkingEnvironment (s : TestSetup) : Except EnvErr Env :=
  match Env.new 32 32 "parking" s.parking with
  | .error e => .error e
  | .ok e =>
    let e1 := if s.circles = [] then e
      else { e with circles := (e.circles.filter fun o => decide (0 < o.r)) ++ s.circles }
    .ok (if s.rects = [] then e1 else { e1 with rects := e1.rects ++ s.rects })

/-- `create_test_tt2d_environment` (test_environments.py:58-153), poses and obstacles: the robot is built
in a default environment, which is then replaced by the customised one. -/
noncomputable def fixtureRobot (k : Kind) (case : String) (l1 : ℝ) (s : TestSetup) : Except EnvErr Robot :=
  match setupParkingEnvironment s with
  | .error e => .error e
  | .ok custom =>
    match Env.new 32 32 case none with
    | .error e => .error e
    | .ok own =>
      match Robot.new k own case l1 with
      | .error e => .error e
      | .ok r =>
        let r1 := { r with env := custom, circles := custom.circles, rects := custom.rects }
        let r2 : Robot × Except EnvErr Unit := match s.init with
          | none => (r1, .ok ())
          | some (dx, dy, t1, t2) => r1.setInitPos { dx := some dx, dy := some dy, theta1 := t1, theta2 := t2 }
        match r2.2 with
        | .error e => .error e
        | .ok () => .ok (match s.goal with
          | none => r2.1
          | some (g1, g2) => r2.1.setGoalPos { theta1 := some g1, theta2 := some g2 })

/-- `create_tight_parking_config`. (test_environments.py:175-190) -/
noncomputable def tightParking : ParkingConfig :=
  { rows := 3, cols := 6, spaceWidth := 3, spaceLength := 6.5, yOffset := 3
    occupied := [1, 2, 4, 5, 7, 8, 10, 11, 13, 14, 16, 17], target := [6, 12], radius := 1 }

/-- The tractor-trailer of a scenario: `base` are the remaining settings, the start and goal are those of
`fixtureRobot` (test_environments.py:58-153). -/
noncomputable def fixtureTT2d (base : Params) (case : String) (s : TestSetup) : Except EnvErr TT2d :=
  match fixtureRobot .tractorTrailer case base.l1 s with
  | .error e => .error e
  | .ok r =>
    match asQ4 r.x0, asQ4 r.xg with
    | some x0, some xg =>
      .ok { toParams := { base with circles := r.circles, rects := r.rects }, x0 := x0, xg := xg }
    | _, _ => .error .indexError

/-- `check_trajectory_violations` (test_base.py:166-197): hitch, collision; no early exit. -/
noncomputable def trajectoryViolations {Q : Type} (E : EvalEnv Q) : List Q → Bool × Bool
  | [] => (false, false)
  | q :: qs =>
    let r := trajectoryViolations E qs
    (decide (E.hitch q) || r.1, decide (E.coll q) || r.2)

/-- `check_position_success` (test_base.py:199-235). -/
noncomputable def positionSuccess {Q : Type} (E : EvalEnv Q) (limit : ℝ) (q : Q) : Bool :=
  decide (dist2 (E.ref q) E.goal ≤ limit) || decide (dist2 (E.back q) E.goal ≤ limit)

/-- `compute_final_min_distance` (test_base.py:237-256). -/
noncomputable def finalMinDistance {Q : Type} (E : EvalEnv Q) (q : Q) : ℝ :=
  min (dist2 (E.ref q) E.goal) (dist2 (E.back q) E.goal)

/-- What a run of `run_mbd_test` reports: whether the test passes, and the logged violations
(hitch, collision). (test_base.py:65-164) -/
structure TestReport where
  passed : Bool
  distance : ℝ
  hitch : Bool
  collision : Bool

/-- The verdict of `run_mbd_test` on planned actions and states (test_base.py:92-164); `none` for an empty
trajectory (`states[-1]` raises).  The assertion on the width of an action holds by the type `U`. -/
noncomputable def testReport {Q : Type} (E : EvalEnv Q) (s : TestSetup) (H : ℕ) (actions : List U)
    (states : List Q) : Option TestReport :=
  match states.getLast? with
  | none => none
  | some q =>
    let d := finalMinDistance E q
    let v := trajectoryViolations E states
    some { passed := decide (s.expectedMin ≤ d) && decide (d ≤ s.expectedMax) && positionSuccess E s.limit q
             && decide (actions.length = H) && decide (states.length = H + 1)
           distance := d, hitch := v.1, collision := v.2 }

end Mbd
