import Verif.NTrailer
import Verif.Bicycle
import Verif.Acc
import Mathlib.Data.List.Sort

/-!
# Environment, obstacle registration, pose setters and factory
(mbd/envs/env.py, mbd/envs/__init__.py, setters of the robots)

Python exceptions are values of `EnvErr`.  A method that mutates `self` is a function returning the
new object together with its outcome, so that "raises and leaves the object unchanged" is a
statement about the model.
-/

namespace Mbd

open Real

/-- Exceptions raised by the modelled environment code (env.py:38, 129, 159, 171, 248, 258, 279;
envs/__init__.py:287; n_trailer2d.py:23; `IndexError` of `target_spaces[0]`, env.py:166). -/
inductive EnvErr where
  | unknownCase
  | notParking
  | obstacleArity
  | coordinateMode
  | indexError
  | unknownEnvironment
  | assertion
deriving DecidableEq

/-- `parking_config` (env.py:44-57): integers for counts and (1-indexed) space numbers. -/
structure ParkingConfig where
  rows : ℤ
  cols : ℤ
  spaceWidth : ℝ
  spaceLength : ℝ
  yOffset : ℝ
  occupied : List ℤ
  target : List ℤ
  radius : ℝ

/-- `get_default_parking_config` (env.py:44-57). -/
noncomputable def ParkingConfig.default : ParkingConfig :=
  { rows := 2, cols := 8, spaceWidth := 3.5, spaceLength := 7, yOffset := 4
    occupied := [1, 2, 4, 5, 6, 7, 9, 10, 12, 13, 14, 15], target := [3, 11], radius := 1 }

/-- `Env` instance (env.py:14-42).  `config` is `none` when the attribute `parking_config` is not
set (navigation).  Not modelled: `resolution`, `obs_boundary` (always `[]`). -/
structure Env where
  case : String
  xRange : ℝ × ℝ
  yRange : ℝ × ℝ
  config : Option ParkingConfig
  circles : List Circle
  rects : List Rect

namespace Env

/-- Centre of a space (env.py:93-108 and, textually the same, env.py:138-146).  Python's integer
`//` and `%` are floor division and floor modulus. -/
noncomputable def spaceCenter (yLow : ℝ) (c : ParkingConfig) (num : ℤ) : ℝ × ℝ :=
  let startX := -((c.cols : ℝ) * c.spaceWidth) / 2
  let startY := yLow + c.yOffset
  let idx := num - 1
  let row := idx.fdiv c.cols
  let col := idx.fmod c.cols
  (startX + ((col : ℝ) + 0.5) * c.spaceWidth, startY + ((row : ℝ) + 0.5) * c.spaceLength)

/-- `set_obs_circle_parking` (env.py:81-119): three discs per occupied space, in list order.
(`ZeroDivisionError` for `cols = 0` is not modelled.) -/
noncomputable def obsCircleParking (yLow : ℝ) (c : ParkingConfig) : List Circle :=
  c.occupied.flatMap fun num =>
    let p := spaceCenter yLow c num
    [⟨p.1, p.2, c.radius⟩, ⟨p.1, p.2 + 2, c.radius⟩, ⟨p.1, p.2 - 2, c.radius⟩]

/-- `set_obs_rectangle_parking` (env.py:71-79). -/
noncomputable def obsRectangleParking : List Rect := [⟨0, 15, 30, 1, 0⟩, ⟨0, -14, 30, 1, 0⟩]

/-- `Env.__init__` (env.py:15-42). -/
noncomputable def new (width height : ℝ) (case : String) (pc : Option ParkingConfig) :
    Except EnvErr Env :=
  let xr := (-width / 2, width / 2)
  let yr := (-height / 2, height / 2)
  let built : Except EnvErr Env :=
    if case = "parking" then
      let c := pc.getD ParkingConfig.default
      .ok ⟨case, xr, yr, some c, obsCircleParking yr.1 c, obsRectangleParking⟩
    else if case = "navigation" then
      .ok ⟨case, xr, yr, none, [], []⟩
    else .error .unknownCase
  match built with
  | .error e => .error e
  | .ok e => .ok (if e.circles.length = 0 then { e with circles := [⟨0, 0, 0⟩] } else e)

/-- `get_parking_space_center` (env.py:121-148).  A parking environment without `parking_config`
cannot be built by the constructor; that `AttributeError` is mapped to `notParking`. -/
noncomputable def getParkingSpaceCenter (e : Env) (num : ℤ) : Except EnvErr (ℝ × ℝ) :=
  if e.case ≠ "parking" then .error .notParking else
  match e.config with
  | none => .error .notParking
  | some c => .ok (spaceCenter e.yRange.1 c num)

/-- `get_default_init_pos` (env.py:150-161). -/
noncomputable def getDefaultInitPos (e : Env) (case : String) : Except EnvErr (List ℝ) :=
  if case = "parking" then .ok [e.xRange.1 + 2, e.yRange.2 - 2, 0.1, 0.1] else .error .unknownCase

/-- `get_default_goal_pos` (env.py:163-172). -/
noncomputable def getDefaultGoalPos (e : Env) (case : String) : Except EnvErr (List ℝ) :=
  if case = "parking" then
    match e.config with
    | none => .error .notParking
    | some c =>
      match c.target with
      | [] => .error .indexError
      | t :: _ =>
        match e.getParkingSpaceCenter t with
        | .error err => .error err
        | .ok p => .ok [p.1, p.2, -π / 2, -π / 2]
  else .error .unknownCase

/-- `is_in_bounds` (env.py:190-193). -/
def inBounds (e : Env) (x y : ℝ) : Prop :=
  e.xRange.1 ≤ x ∧ x ≤ e.xRange.2 ∧ e.yRange.1 ≤ y ∧ y ≤ e.yRange.2

/-- One pass of the loop body of `set_rectangle_obs` (env.py:243-258). -/
noncomputable def convertRect (mode : String) (pad : ℝ) (obs : List ℝ) : Except EnvErr Rect :=
  let parsed : Except EnvErr (ℝ × ℝ × ℝ × ℝ × ℝ) :=
    match obs with
    | [x, y, w, h] => .ok (x, y, w, h, 0)
    | [x, y, w, h, r] => .ok (x, y, w, h, r)
    | _ => .error .obstacleArity
  match parsed with
  | .error e => .error e
  | .ok (x, y, w, h, r) =>
    if mode = "left-top" then .ok ⟨x + w / 2, y - h / 2, w + pad * 2, h + pad * 2, r⟩
    else if mode = "center" then .ok ⟨x, y, w + pad * 2, h + pad * 2, r⟩
    else .error .coordinateMode

/-- The `for` loops of the setters: stop at the first exception. (env.py:229-292) -/
def convertAll {α β : Type} (f : α → Except EnvErr β) : List α → Except EnvErr (List β)
  | [] => .ok []
  | a :: l =>
    match f a with
    | .error e => .error e
    | .ok b =>
      match convertAll f l with
      | .error e => .error e
      | .ok bs => .ok (b :: bs)

/-- `set_rectangle_obs` (env.py:229-266): the attribute is assigned after the loop. -/
noncomputable def setRectangleObs (e : Env) (obs : List (List ℝ)) (mode : String) (pad : ℝ) :
    Env × Except EnvErr (List Rect) :=
  match convertAll (convertRect mode pad) obs with
  | .error err => (e, .error err)
  | .ok l => ({ e with rects := l }, .ok l)

/-- Loop body of `set_circle_obs` (env.py:283-288). -/
noncomputable def convertCircle (pad : ℝ) (obs : List ℝ) : Except EnvErr Circle :=
  match obs with
  | [x, y, r] => .ok ⟨x, y, r + pad⟩
  | _ => .error .obstacleArity

/-- `set_circle_obs` (env.py:268-292). -/
noncomputable def setCircleObs (e : Env) (obs : List (List ℝ)) (pad : ℝ) :
    Env × Except EnvErr (List Circle) :=
  match convertAll (convertCircle pad) obs with
  | .error err => (e, .error err)
  | .ok l => ({ e with circles := l }, .ok l)

/-- `set_plot_limits` (env.py:294-298). -/
def setPlotLimits (e : Env) (xr yr : ℝ × ℝ) : Env := { e with xRange := xr, yRange := yr }

end Env

/-! ## Factory -/

/-- Robot classes; the acceleration model carries `a_max`, `omega_max`, the train its size.
(envs/__init__.py:6-288) -/
inductive Kind where
  | tractorTrailer
  | bicycle
  | nTrailer (n : ℕ)
  | acc
deriving DecidableEq

/-- `get_env`: which class is instantiated (envs/__init__.py:6-287) and the assertion of
`NTrailer2d.__init__` (n_trailer2d.py:23). -/
def getEnvKind (name : String) (numTrailers : ℤ) : Except EnvErr Kind :=
  let mkN : Except EnvErr Kind :=
    if numTrailers ≥ 2 then .ok (.nTrailer numTrailers.toNat) else .error .assertion
  if name = "tt2d" then
    if numTrailers = 0 then .ok .bicycle
    else if numTrailers ≥ 2 then mkN
    else .ok .tractorTrailer
  else if name = "n_trailer2d" then mkN
  else if name = "acc_tt2d" then .ok .acc
  else if name = "kinematic_bicycle2d" then .ok .bicycle
  else .error .unknownEnvironment

/-- The attribute `num_trailers` of the constructed robot: only the N-trailer branches pass it
(envs/__init__.py:89-90, 167-168), all others use the constructor default 1 (tt2d.py:56, 62). -/
def Kind.numTrailers : Kind → ℕ
  | .nTrailer n => n
  | _ => 1

/-- `observation_size` (tt2d.py:1173, acc_tt2d.py:400, kinematic_bicycle2d.py:332,
n_trailer2d.py:380). -/
def Kind.obsSize : Kind → ℕ
  | .tractorTrailer => 4
  | .bicycle => 3
  | .nTrailer n => 3 + n
  | .acc => 6

/-! ## Pose setters -/

/-- The robot attributes the setters use: environment, `l1`, stored arrays `x0`, `xg` and the
robot's obstacle arrays. (tt2d.py:49-165) -/
structure Robot where
  kind : Kind
  env : Env
  l1 : ℝ
  x0 : List ℝ
  xg : List ℝ
  circles : List Circle
  rects : List Rect

namespace Robot

/-- `_augment_state` and the tail of the N-trailer setters (n_trailer2d.py:42-49, 109-111,
116-118): `x[:3]` followed by `n` copies of `x[3]`. -/
def augment (n : ℕ) (x : List ℝ) : List ℝ :=
  x.take 3 ++ ([x.getD 3 0] ++ List.replicate (n - 1) (x.getD 3 0))

/-- What each class does to a 4-vector pose: nothing (tt2d), keep three entries (bicycle:
kinematic_bicycle2d.py:35-38, 49), augment (N-trailer), append `[v, delta]` (acceleration model:
acc_tt2d.py:44, 51, 64, 75). -/
def adapt (k : Kind) (v delta : ℝ) (x : List ℝ) : List ℝ :=
  match k with
  | .tractorTrailer => x
  | .bicycle => x.take 3
  | .nTrailer n => augment n x
  | .acc => x ++ [v, delta]

/-- `__init__` from tt2d.py:117-145 and the overriding constructors (acc_tt2d.py:41-53,
kinematic_bicycle2d.py:31-38, n_trailer2d.py:42-51): environment given (`env_config`), no explicit
`x0`/`xg`. -/
noncomputable def new (k : Kind) (e : Env) (case : String) (l1 : ℝ) : Except EnvErr Robot :=
  let x0 : Except EnvErr (List ℝ) :=
    if case = "parking" then e.getDefaultInitPos case else .ok [0, 0, 0, 0]
  let xg : Except EnvErr (List ℝ) :=
    if case = "parking" then e.getDefaultGoalPos case else .ok [0, 0, π, π]
  match x0 with
  | .error err => .error err
  | .ok a =>
    match xg with
    | .error err => .error err
    | .ok b => .ok ⟨k, e, l1, adapt k 0 0 a, adapt k 0 0 b, e.circles, e.rects⟩

/-- Keyword arguments of `set_init_pos` (defaults: `None`, headings and rates 0).
(tt2d.py:170, acc_tt2d.py:55) -/
structure InitArgs where
  x : Option ℝ := none
  y : Option ℝ := none
  dx : Option ℝ := none
  dy : Option ℝ := none
  theta1 : ℝ := 0
  theta2 : ℝ := 0
  v : ℝ := 0
  delta : ℝ := 0

/-- `sorted(target_centers, key=lambda p: p[1])` (tt2d.py:197): stable insertion sort by y. -/
noncomputable def sortByY (l : List (ℝ × ℝ)) : List (ℝ × ℝ) :=
  l.insertionSort (fun a b => a.2 ≤ b.2)

/-- The 4-vector computed by the base `set_init_pos` (tt2d.py:181-222). -/
noncomputable def initPose (r : Robot) (a : InitArgs) : Except EnvErr (List ℝ) :=
    if r.env.case = "parking" ∧ a.dx.isSome ∧ a.dy.isSome then
      match r.env.config with
      | none => .error .notParking
      | some c =>
        let centers := sortByY (c.target.map (Env.spaceCenter r.env.yRange.1 c))
        match centers with
        | [] => .error .indexError
        | lo :: rest =>
          let hi := (lo :: rest).getLast (by simp)
          let entranceY := hi.2 + c.spaceLength / 2
          .ok [lo.1 + a.dx.getD 0 - r.l1 * cos a.theta1, entranceY + a.dy.getD 0,
            a.theta1, a.theta2]
    else if a.x.isSome ∧ a.y.isSome then .ok [a.x.getD 0, a.y.getD 0, a.theta1, a.theta2]
    else .ok [a.x.getD (-3), a.y.getD 0, a.theta1, a.theta2]

/-- `set_init_pos` of the four classes (tt2d.py:170-222; acc_tt2d.py:55-64;
kinematic_bicycle2d.py:40-56; n_trailer2d.py:105-111).  The bicycle passes `theta2 = 0` to the base
in the parking branch; the value is dropped anyway. -/
noncomputable def setInitPos (r : Robot) (a : InitArgs) : Robot × Except EnvErr Unit :=
  match r.initPose a with
  | .error e => (r, .error e)
  | .ok p => ({ r with x0 := adapt r.kind a.v a.delta p }, .ok ())

/-- Keyword arguments of `set_goal_pos`. (tt2d.py:227) -/
structure GoalArgs where
  x : Option ℝ := none
  y : Option ℝ := none
  theta1 : Option ℝ := none
  theta2 : Option ℝ := none
  v : ℝ := 0
  delta : ℝ := 0

/-- `set_goal_pos` (tt2d.py:227-253; acc_tt2d.py:66-75; kinematic_bicycle2d.py:58-76;
n_trailer2d.py:113-118).  `xg` always exists after construction, so the `hasattr` branch is the
first one.  Reading `self.xg[i]` beyond the array (never happening after construction, see
`C42_dims`) is modelled by 0. -/
noncomputable def setGoalPos (r : Robot) (a : GoalArgs) : Robot :=
  let nx := a.x.getD (r.xg.getD 0 0)
  let ny := a.y.getD (r.xg.getD 1 0)
  let n1 := a.theta1.getD (r.xg.getD 2 0)
  let n2 := a.theta2.getD (r.xg.getD 3 0)
  { r with xg := adapt r.kind a.v a.delta [nx, ny, n1, n2] }

/-- `robot.set_rectangle_obs` (tt2d.py:255-257): environment and robot attribute. -/
noncomputable def setRectangleObs (r : Robot) (obs : List (List ℝ)) (mode : String) (pad : ℝ) :
    Robot × Except EnvErr Unit :=
  match r.env.setRectangleObs obs mode pad with
  | (e, .error err) => ({ r with env := e }, .error err)
  | (e, .ok l) => ({ r with env := e, rects := l }, .ok ())

/-- `robot.set_circle_obs` (tt2d.py:259-261). -/
noncomputable def setCircleObs (r : Robot) (obs : List (List ℝ)) (pad : ℝ) :
    Robot × Except EnvErr Unit :=
  match r.env.setCircleObs obs pad with
  | (e, .error err) => ({ r with env := e }, .error err)
  | (e, .ok l) => ({ r with env := e, circles := l }, .ok ())

/-- The setter calls a user can make, in any order. (tt2d.py:170-261) -/
inductive Call where
  | init (a : InitArgs)
  | goal (a : GoalArgs)
  | rects (obs : List (List ℝ)) (mode : String) (pad : ℝ)
  | circles (obs : List (List ℝ)) (pad : ℝ)

/-- Effect of one call on the object (a raised exception is caught by the caller).
(tt2d.py:170-261) -/
noncomputable def call (r : Robot) : Call → Robot
  | .init a => (r.setInitPos a).1
  | .goal a => r.setGoalPos a
  | .rects o m p => (r.setRectangleObs o m p).1
  | .circles o p => (r.setCircleObs o p).1

end Robot

end Mbd
