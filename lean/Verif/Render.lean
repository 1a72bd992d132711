import Verif.NTrailer
import Verif.Bicycle
import Verif.Acc
import Verif.Env
import Verif.Planner

/-!
# Drawing the vehicle, the obstacles and the parking lot

Model of the matplotlib calls of the robots (`tt2d.py:1176-1446`, `kinematic_bicycle2d.py:418-592`,
`n_trailer2d.py:392-538`) and of `create_animation`/`create_denoising_animation` (`mbd/utils.py:170-645`).

What is modelled of matplotlib: a `plt.Rectangle((x, y), w, h)` covers the points between its corner and
the opposite corner; `Affine2D().rotate(a).translate(c)` maps a point to its rotation about the origin by
`a`, shifted by `c`; `plt.Circle(c, r)` covers the closed disc; a patch keeps its size when its
transform is set.  Colours (except the choice of the label colour), line widths, legends, files and the
video encoder are not modelled.
-/

namespace Mbd

open Real

/-- A `plt.Rectangle((x, y), w, h)` together with its transform
`Affine2D().rotate(ang).translate(center)` (tt2d.py:1284-1288, 1369-1371). -/
structure Patch where
  x : ℝ
  y : ℝ
  w : ℝ
  h : ℝ
  ang : ℝ
  center : V2

/-- A rectangle centred at the origin of its own coordinates, not yet transformed
(tt2d.py:1285-1286: `plt.Rectangle((-l/2, -w/2), l, w)`). -/
noncomputable def Patch.centred (l w : ℝ) : Patch := ⟨-l / 2, -w / 2, l, w, 0, (0, 0)⟩

/-- The points covered by a patch on the axes (tt2d.py:1284-1288). -/
def Patch.region (p : Patch) : Set V2 :=
  {z | ∃ a b : ℝ, min p.x (p.x + p.w) ≤ a ∧ a ≤ max p.x (p.x + p.w) ∧
    min p.y (p.y + p.h) ≤ b ∧ b ≤ max p.y (p.y + p.h) ∧ z = placePoint p.center p.ang (a, b)}

/-- `patch.set_transform(Affine2D().rotate(ang).translate(center))` (tt2d.py:1430-1437). -/
def Patch.setTransform (p : Patch) (t : ℝ × V2) : Patch := { p with ang := t.1, center := t.2 }

/-- The wheel rectangle, 0.8 m by 0.45 m (tt2d.py:1299-1310). -/
noncomputable def wheelPatch : Patch := Patch.centred 0.8 0.45

/-- `for i, wheel in enumerate(wheels): wheel.set_transform(transforms[i])` (tt2d.py:1434-1437);
`none` is the `IndexError` when there are more patches than transforms. -/
def setTransforms : List Patch → List (ℝ × V2) → Option (List Patch)
  | [], _ => some []
  | _ :: _, [] => none
  | p :: ps, t :: ts => (setTransforms ps ts).map (p.setTransform t :: ·)

/-- Centre of the drawn tractor body (tt2d.py:1367-1368, kinematic_bicycle2d.py:555-556,
n_trailer2d.py:445-446). -/
noncomputable def Params.drawnTractorCenter (P : Params) (px py th : ℝ) : V2 :=
  (px + 0.5 * (P.l1 + P.lf1 - P.lr) * cos th, py + 0.5 * (P.l1 + P.lf1 - P.lr) * sin th)

/-- Front axle (tt2d.py:1333-1334, kinematic_bicycle2d.py:538-539, n_trailer2d.py:456). -/
noncomputable def Params.drawnFrontAxle (P : Params) (px py th : ℝ) : V2 :=
  (px + P.l1 * cos th, py + P.l1 * sin th)

/-- The calls a frame loop makes on the drawing attributes `A` of a robot: one `update` per frame,
starting from the attributes as they are (utils.py:388-401).  Result: the pictures in order and the
attributes afterwards; `none` when a call raises. -/
def framesOf {A X : Type} (update : A → X → Option A) : A → List X → Option (List A × A)
  | a, [] => some ([], a)
  | a, x :: xs =>
    match update a x with
    | none => none
    | some a' => (framesOf update a' xs).map fun r => (a' :: r.1, r.2)

/-- One animation on a robot whose attributes are `a`: `setup_animation_patches`, then the frames
(utils.py:288, 388-401). -/
def animate {A X : Type} (setup : A → A) (update : A → X → Option A) (a : A) (fs : List X) :
    Option (List A × A) :=
  framesOf update (setup a) fs

/-! ## Tractor with one trailer (and the acceleration model, which inherits all of this) -/

/-- The drawing attributes of a `TractorTrailer2d` (tt2d.py:156-162, 1278-1322).  `none`: not set up. -/
structure AnimTT where
  tractorBody : Option Patch
  trailerBody : Option Patch
  tractorWheels : List Patch
  trailerWheels : List Patch
  tractorHitch : Option (V2 × V2)
  trailerHitch : Option (V2 × V2)

/-- The attributes after construction (tt2d.py:156-162). -/
def AnimTT.new : AnimTT := ⟨none, none, [], [], none, none⟩

/-- `setup_animation_patches(ax)` (tt2d.py:1278-1322): bodies are replaced, wheels are appended. -/
noncomputable def AnimTT.setup (P : Params) (a : AnimTT) : AnimTT :=
  { tractorBody := some (Patch.centred (P.l1 + P.lf1 + P.lr) P.tractorWidth)
    trailerBody := some (Patch.centred (P.lf2 + P.lr2) P.trailerWidth)
    tractorWheels := a.tractorWheels ++ [wheelPatch, wheelPatch]
    trailerWheels := a.trailerWheels ++ [wheelPatch]
    tractorHitch := none
    trailerHitch := none }

/-- The hitch of `get_tractor_trailer_positions` (tt2d.py:1337-1338). -/
noncomputable def drawnHitch (P : Params) (q : Q4) : V2 :=
  (q.px - P.lh * cos q.th1, q.py - P.lh * sin q.th1)

/-- `trailer_rear` of `get_tractor_trailer_positions` (tt2d.py:1341-1342). -/
noncomputable def drawnTrailerAxle (P : Params) (q : Q4) : V2 :=
  ((drawnHitch P q).1 - P.l2 * cos q.th2, (drawnHitch P q).2 - P.l2 * sin q.th2)

/-- `trailer_front` of `get_tractor_trailer_positions` (tt2d.py:1345-1346). -/
noncomputable def drawnTrailerFront (P : Params) (q : Q4) : V2 :=
  ((drawnHitch P q).1 - (P.l2 - P.lf2) * cos q.th2, (drawnHitch P q).2 - (P.l2 - P.lf2) * sin q.th2)

/-- Centre of the drawn trailer body (tt2d.py:1375-1379). -/
noncomputable def drawnTrailerCenter (P : Params) (q : Q4) : V2 :=
  ((drawnHitch P q).1 + (0.5 * (P.lf2 - P.lr2) - P.l2) * cos q.th2,
   (drawnHitch P q).2 + (0.5 * (P.lf2 - P.lr2) - P.l2) * sin q.th2)

/-- The steering angle of the drawn front wheel, four-entry states (tt2d.py:1391-1402): the second
entry of the action as it is handed in, 0 without an action. -/
def steerOfAction : Option U → ℝ
  | none => 0
  | some u => u.2

/-- `update_animation_patches(x, u)` of `TractorTrailer2d` (tt2d.py:1358-1446) with the steering angle
of the front wheel; `none` when it raises (bodies not set up, more wheels than transforms). -/
noncomputable def AnimTT.updateWith (P : Params) (a : AnimTT) (q : Q4) (steer : ℝ) : Option AnimTT :=
  match a.tractorBody, a.trailerBody with
  | some tb, some lb =>
    match setTransforms a.tractorWheels
        [(q.th1, (q.px, q.py)), (q.th1 + steer, P.drawnFrontAxle q.px q.py q.th1)],
      setTransforms a.trailerWheels [(q.th2, drawnTrailerAxle P q)] with
    | some tw, some lw => some
        { tractorBody := some (tb.setTransform (q.th1, P.drawnTractorCenter q.px q.py q.th1))
          trailerBody := some (lb.setTransform (q.th2, drawnTrailerCenter P q))
          tractorWheels := tw
          trailerWheels := lw
          tractorHitch := some ((q.px, q.py), drawnHitch P q)
          trailerHitch := some (drawnTrailerFront P q, drawnHitch P q) }
    | _, _ => none
  | _, _ => none

/-- `update_animation_patches` of the kinematic tractor-trailer (tt2d.py:1425-1446). -/
noncomputable def AnimTT.update (P : Params) (a : AnimTT) (q : Q4) (u : Option U) : Option AnimTT :=
  a.updateWith P q (steerOfAction u)

/-- `update_animation_patches` of the acceleration model (inherited; tt2d.py:1393-1395: the steering
angle is entry 5 of the state). -/
noncomputable def AnimTT.updateAcc (P : Params) (a : AnimTT) (q : Q6) (_ : Option U) : Option AnimTT :=
  a.updateWith P q.pose q.delta

/-! ## Bicycle -/

/-- The drawing attributes of a `KinematicBicycle2d` (kinematic_bicycle2d.py:503-525). -/
structure AnimBike where
  body : Option Patch
  wheels : List Patch

/-- The attributes after construction (tt2d.py:156-162, inherited). -/
def AnimBike.new : AnimBike := ⟨none, []⟩

/-- `setup_animation_patches` (kinematic_bicycle2d.py:503-525): the wheel list is started anew. -/
noncomputable def AnimBike.setup (P : Params) (_ : AnimBike) : AnimBike :=
  ⟨some (Patch.centred (P.l1 + P.lf1 + P.lr) P.tractorWidth), [wheelPatch, wheelPatch]⟩

/-- `update_animation_patches` (kinematic_bicycle2d.py:547-592). -/
noncomputable def AnimBike.update (P : Params) (a : AnimBike) (q : Q3) (u : Option U) :
    Option AnimBike :=
  match a.body with
  | none => none
  | some b =>
    (setTransforms a.wheels [(q.th1, (q.px, q.py)),
        (q.th1 + steerOfAction u, P.drawnFrontAxle q.px q.py q.th1)]).map fun ws =>
      ⟨some (b.setTransform (q.th1, P.drawnTractorCenter q.px q.py q.th1)), ws⟩

/-! ## Train -/

/-- The drawing attributes of an `NTrailer2d` (n_trailer2d.py:48-55, 392-440). -/
structure AnimN where
  tractorBody : Option Patch
  bodies : List Patch
  wheels : List Patch
  tractorWheels : List Patch
  tractorHitch : Option (V2 × V2)
  front : List (V2 × V2)
  back : List (V2 × V2)

/-- The attributes after construction (n_trailer2d.py:48-55). -/
def AnimN.new : AnimN := ⟨none, [], [], [], none, [], []⟩

/-- `setup_animation_patches` (n_trailer2d.py:392-440); hitch lines start without data. -/
noncomputable def AnimN.setup (T : NTrailer) (_ : AnimN) : AnimN :=
  { tractorBody := some (Patch.centred (T.l1 + T.lf1 + T.lr) T.tractorWidth)
    bodies := (List.range T.N).map fun i =>
      Patch.centred (clampGet T.fronts i + clampGet T.rears i) T.trailerWidth
    wheels := (List.range T.N).map fun _ => wheelPatch
    tractorWheels := [wheelPatch, wheelPatch]
    tractorHitch := none
    front := []
    back := [] }

/-- Heading of trailer `i` as drawn (n_trailer2d.py:459-464): missing headings repeat the last one
(or the tractor's, when there is none), surplus ones are cut off. -/
noncomputable def NTrailer.drawnTheta (T : NTrailer) (x : QN) (i : ℕ) : ℝ :=
  let thetas := if x.ths.length < T.N
    then x.ths ++ List.replicate (T.N - x.ths.length) (x.ths.getLastD x.th0)
    else x.ths.take T.N
  thetas.getD i 0

/-- `prev_hitch` before iteration `i` of the drawing loop (n_trailer2d.py:466-467, 472, 492-495, 502). -/
noncomputable def NTrailer.drawnHitchN (T : NTrailer) (x : QN) : ℕ → V2
  | 0 => (x.px - T.lh * cos x.th0, x.py - T.lh * sin x.th0)
  | i + 1 =>
    let h := T.drawnHitchN x i
    let th := T.drawnTheta x i
    let s := 0.5 * (clampGet T.fronts i - clampGet T.rears i) - clampGet T.lengths i
    let c : V2 := (h.1 + s * cos th, h.2 + s * sin th)
    let half := 0.5 * (clampGet T.fronts i + clampGet T.rears i)
    let r : V2 := (c.1 - half * cos th, c.2 - half * sin th)
    (r.1 - T.lh * cos th, r.2 - T.lh * sin th)

/-- Centre of the drawn body of trailer `i` (n_trailer2d.py:474-481). -/
noncomputable def NTrailer.drawnCenter (T : NTrailer) (x : QN) (i : ℕ) : V2 :=
  let h := T.drawnHitchN x i
  let th := T.drawnTheta x i
  let s := 0.5 * (clampGet T.fronts i - clampGet T.rears i) - clampGet T.lengths i
  (h.1 + s * cos th, h.2 + s * sin th)

/-- Rear face of trailer `i` as drawn (n_trailer2d.py:489-491). -/
noncomputable def NTrailer.drawnRear (T : NTrailer) (x : QN) (i : ℕ) : V2 :=
  let c := T.drawnCenter x i
  let half := 0.5 * (clampGet T.fronts i + clampGet T.rears i)
  (c.1 - half * cos (T.drawnTheta x i), c.2 - half * sin (T.drawnTheta x i))

/-- Front face of trailer `i` as drawn (n_trailer2d.py:495-497). -/
noncomputable def NTrailer.drawnFront (T : NTrailer) (x : QN) (i : ℕ) : V2 :=
  let c := T.drawnCenter x i
  let half := 0.5 * (clampGet T.fronts i + clampGet T.rears i)
  (c.1 + half * cos (T.drawnTheta x i), c.2 + half * sin (T.drawnTheta x i))

/-- `update_animation_patches` of `NTrailer2d` (n_trailer2d.py:442-538).  The transform of a trailer's
wheel is that of its body (n_trailer2d.py:482-487). -/
noncomputable def AnimN.update (T : NTrailer) (a : AnimN) (x : QN) (u : Option U) : Option AnimN :=
  match a.tractorBody with
  | none => none
  | some tb =>
    let tf := (List.range T.N).map fun i => (T.drawnTheta x i, T.drawnCenter x i)
    match setTransforms a.tractorWheels [(x.th0, (x.px, x.py)),
        (x.th0 + steerOfAction u, T.toParams.drawnFrontAxle x.px x.py x.th0)],
      setTransforms a.bodies tf, setTransforms a.wheels tf with
    | some tw, some bs, some ws => some
        { tractorBody := some (tb.setTransform (x.th0, T.toParams.drawnTractorCenter x.px x.py x.th0))
          bodies := bs
          wheels := ws
          tractorWheels := tw
          tractorHitch := some ((x.px, x.py), T.drawnHitchN x 0)
          front := (List.range T.N).map fun i => (T.drawnHitchN x i, T.drawnFront x i)
          back := (List.range (T.N - 1)).map fun i => (T.drawnRear x i, T.drawnHitchN x (i + 1)) }
    | _, _, _ => none

/-! ## Obstacles and the parking lot -/

/-- The patch drawn for a rectangular obstacle (tt2d.py:1236-1248, kinematic_bicycle2d.py:472-483,
utils.py:251-266, 552-566). -/
noncomputable def Rect.patch (o : Rect) : Patch :=
  ⟨-o.w / 2, -o.h / 2, o.w, o.h, o.ang, (o.x, o.y)⟩

/-- The points covered by `plt.Circle(c, r)` drawn for a circular obstacle (tt2d.py:1227-1233,
utils.py:242-248); a negative radius draws the same disc as its absolute value. -/
def Circle.drawn (o : Circle) : Set V2 := {z | (z.1 - o.x) ^ 2 + (z.2 - o.y) ^ 2 ≤ o.r ^ 2}

/-- A scene of obstacles: everything covered by an obstacle patch (tt2d.py:1226-1248). -/
def drawnObstacles (cs : List Circle) (rs : List Rect) : Set V2 :=
  {z | (∃ c ∈ cs, z ∈ c.drawn) ∨ ∃ r ∈ rs, z ∈ r.patch.region}

/-- Obstacles in `render` (tt2d.py:1226-1248): the robot's own arrays. -/
noncomputable def Robot.renderObstacles (r : Robot) : Set V2 := drawnObstacles r.circles r.rects

/-- Obstacles in the animations (utils.py:239-266, 540-566): the arrays of the environment object
(`env.env.get_obstacles()`, env.py:174-180). -/
noncomputable def Robot.animationObstacles (r : Robot) : Set V2 :=
  drawnObstacles r.env.circles r.env.rects

/-- Background of a number label (tt2d.py:1210-1218): target before occupied before free. -/
inductive LabelColor where
  | lightgreen
  | lightcoral
  | lightblue
deriving DecidableEq

/-- A number label (tt2d.py:1203-1223). -/
structure Label where
  num : ℤ
  pos : V2
  color : LabelColor

/-- The labels drawn for a lot whose plot starts at `yLow`: row by row, occupied spaces have none
(tt2d.py:1203-1223, kinematic_bicycle2d.py:443-464, utils.py:214-237, 516-538). -/
noncomputable def drawnLabels (yLow : ℝ) (c : ParkingConfig) : List Label :=
  let startX := -((c.cols : ℝ) * c.spaceWidth) / 2
  let startY := yLow + c.yOffset
  (List.range c.rows.toNat).flatMap fun row : ℕ =>
    ((List.range c.cols.toNat).filter fun col : ℕ =>
        decide ((row * c.cols + col + 1 : ℤ) ∉ c.occupied)).map fun col : ℕ =>
      { num := row * c.cols + col + 1
        pos := (startX + ((col : ℝ) + 0.5) * c.spaceWidth, startY + ((row : ℝ) + 0.5) * c.spaceLength)
        color := if (row * c.cols + col + 1 : ℤ) ∈ c.target then .lightgreen
          else if (row * c.cols + col + 1 : ℤ) ∈ c.occupied then .lightcoral else .lightblue }

/-- The lines drawn between the spaces: horizontal ones, then vertical ones, each as its two end points
(tt2d.py:1195-1201, utils.py:206-212). -/
noncomputable def drawnLines (yLow : ℝ) (c : ParkingConfig) : List (V2 × V2) :=
  let startX := -((c.cols : ℝ) * c.spaceWidth) / 2
  let startY := yLow + c.yOffset
  ((List.range (c.rows + 1).toNat).map fun row : ℕ =>
    ((startX, startY + row * c.spaceLength),
     (startX + c.cols * c.spaceWidth, startY + row * c.spaceLength))) ++
  ((List.range (c.cols + 1).toNat).map fun col : ℕ =>
    ((startX + col * c.spaceWidth, startY), (startX + col * c.spaceWidth, startY + c.rows * c.spaceLength)))

/-! ## Frames of the animation -/

/-- What one frame of `create_animation` shows (utils.py:388-460): the state that is drawn, the action
used for the front wheel, the two violation marks, the traced path and the overlaid path. -/
structure Frame (Q : Type) where
  state : Q
  action : Option U
  collisionMark : Prop
  hitchMark : Prop
  trace : List V2
  overlay : List V2

/-- What `create_animation` uses of a robot: the position entries and the two checks applied to the
(possibly sliced) state (utils.py:403-422). -/
structure AnimEnv (Q : Type) where
  pos : Q → V2
  coll : Q → Prop
  hitch : Q → Prop

/-- The point added to the overlaid path in frame `k`, if there is one (utils.py:436-441). -/
def overlayPoint {Q : Type} (E : AnimEnv Q) (overlay : Option (List Q)) (k : ℕ) : List V2 :=
  match overlay with
  | none => []
  | some g => match g[k]? with
    | none => []
    | some s => [E.pos s]

/-- The animation loop (utils.py:388-460): `zip` stops at the shorter list; `overlay` is the guided
trajectory (`none` without guidance), of which the first `frame_idx + 1` positions are shown as long
as there are that many. -/
def animLoop {Q : Type} (E : AnimEnv Q) (overlay : Option (List Q)) :
    ℕ → List V2 → List V2 → List Q → List (Option U) → List (Frame Q)
  | k, tr, ov, q :: qs, u :: us =>
    let tr' := tr ++ [E.pos q]
    let ov' := ov ++ overlayPoint E overlay k
    ⟨q, u, E.coll q, E.hitch q, tr', ov'⟩ :: animLoop E overlay (k + 1) tr' ov' qs us
  | _, _, _, _, _ => []

/-- `create_animation(env, states, actions, args, guided_trajectory_overlay)` (utils.py:170-472). -/
def createAnimation {Q : Type} (E : AnimEnv Q) (states : List Q) (actions : List (Option U))
    (overlay : Option (List Q)) : List (Frame Q) :=
  animLoop E overlay 0 [] [] states actions

/-- The animation shown by `run_diffusion` (mbd_planner.py:688-726) and by the evaluation
(stat_mbd.py:428-448): the final plan's actions followed by `None`. -/
def plannerAnimation {Q : Type} (E : AnimEnv Q) (states : List Q) (plan : List U)
    (overlay : Option (List Q)) : List (Frame Q) :=
  createAnimation E states (plan.map some ++ [none]) overlay

/-- `is_bicycle` of `create_animation` (utils.py:404). -/
def animIsBicycle (envName : String) : Bool := envName == "kinematic_bicycle2d"

/-- The checks of a tractor-trailer on `state[:4]`, i.e. the whole state (utils.py:409-422). -/
noncomputable def TT2d.animEnv (P : Params) : AnimEnv Q4 :=
  { pos := fun q => (q.px, q.py), coll := TT2d.checkObstacle P, hitch := TT2d.checkHitch P }

/-- The checks of the acceleration model on `state[:4]` (utils.py:409-422). -/
noncomputable def Acc.animEnv (P : Params) : AnimEnv Q6 :=
  { pos := fun q => (q.px, q.py), coll := fun q => TT2d.checkObstacle P q.pose
    hitch := fun q => TT2d.checkHitch P q.pose }

/-- The checks of a bicycle (utils.py:405-422): by name `hitch_violation = False`; when the robot was
built as a tractor-trailer with no trailers the robot's own (constant) check is called. -/
noncomputable def Bicycle.animEnv (P : Params) (envName : String) : AnimEnv Q3 :=
  { pos := fun q => (q.px, q.py), coll := Bicycle.checkObstacle P
    hitch := fun q => if animIsBicycle envName then False else Bicycle.checkHitch P q }

/-- The checks of a train on the full state when `num_trailers ≥ 2`, on `state[:4]` otherwise
(utils.py:405-422). -/
noncomputable def NTrailer.animEnv (T : NTrailer) : AnimEnv QN :=
  let cut : QN → QN := fun q => if 2 ≤ T.N then q else { q with ths := q.ths.take 1 }
  { pos := fun q => (q.px, q.py), coll := fun q => T.checkObstacle (cut q)
    hitch := fun q => T.checkHitch (cut q) }

/-- One frame of `create_denoising_animation` (utils.py:591-636): the number in the title, the number of
the saved picture and the path shown. -/
structure DenoiseFrame where
  title : ℤ
  file : ℕ
  path : List V2

/-- The path of one row of the plan history: start, then one step per action (utils.py:599-611). -/
def denoisePath {S : Type} (pos : S → V2) (step : S → U → S) (s : S) : List U → List V2
  | [] => [pos s]
  | u :: us => pos s :: denoisePath pos step (step s u) us

/-- The loop over the plan history (utils.py:583-638); `frame_skip = 0` raises `ZeroDivisionError`
(if there is a row at all). -/
def denoiseLoop {S : Type} (pos : S → V2) (step : S → U → S) (s0 : S) (nDiffuse : ℤ) (skip : ℕ) :
    ℕ → ℕ → List (List U) → Option (List DenoiseFrame)
  | _, _, [] => some []
  | k, f, row :: rows =>
    if skip = 0 then none
    else if k % skip = 0 then
      (denoiseLoop pos step s0 nDiffuse skip (k + 1) (f + 1) rows).map
        (⟨nDiffuse - 1 - k, f, denoisePath pos step s0 row⟩ :: ·)
    else denoiseLoop pos step s0 nDiffuse skip (k + 1) f rows

/-- `create_denoising_animation(env, Ybars, args, step, state_init, frame_skip)` (utils.py:475-645). -/
def createDenoising {S : Type} (pos : S → V2) (step : S → U → S) (s0 : S) (nDiffuse : ℤ) (skip : ℕ)
    (history : List (List U)) : Option (List DenoiseFrame) :=
  denoiseLoop pos step s0 nDiffuse skip 0 0 history

/-! ## What a planning run shows -/

/-- The animation created at the end of `run_diffusion` (mbd_planner.py:688-726). Without guidance the
states are computed again from the reset state with the planner's step function; with guidance the vehicle
is shown along the comparison run (mbd_planner.py:573-605, `stepOff` is whatever
`_step_internal(.., False)` does then; `Verif/Comparison.lean` derives which function that is) and the
returned states are the overlay. -/
def runAnimation {Q : Type} (E : PlanEnv Q) (stepOff : St Q → U → St Q) (A : AnimEnv Q) (cfg : Cfg)
    (R : Result Q) : List (Frame Q) :=
  let s0 := E.reset keyReset
  if cfg.enableGuidance then
    plannerAnimation A (s0.q :: (scanStates stepOff s0 R.Y0).map St.q) R.Y0 (some R.xs)
  else plannerAnimation A (s0.q :: (scanStates E.step s0 R.Y0).map St.q) R.Y0 none

/-- The denoising animation of `run_diffusion` (mbd_planner.py:728-730).  With guidance the variable
`step_env_jit` holds the unguided step function by then (mbd_planner.py:588). -/
def runDenoising {Q : Type} (E : PlanEnv Q) (stepOff : St Q → U → St Q) (pos : Q → V2) (cfg : Cfg)
    (skip : ℕ) (R : Result Q) : Option (List DenoiseFrame) :=
  createDenoising (fun s => pos s.q) (if cfg.enableGuidance then stepOff else E.step)
    (E.reset keyReset) cfg.Ndiffuse skip R.hist

/-- The path plotted by `render(ax, xs)` of the tractor-trailers (tt2d.py:1251-1254): the
scatter plot gets `self.H + 1` colours and raises when there are not that many states. -/
def renderPath {Q : Type} (H : ℕ) (pos : Q → V2) (xs : List Q) : Option (List V2) :=
  if xs = [] then some [] else if xs.length = H + 1 then some (xs.map pos) else none

/-- The path plotted by `render(ax, xs)` of the bicycle, with one colour per state
(kinematic_bicycle2d.py:490-493). -/
def renderPathBike {Q : Type} (pos : Q → V2) (xs : List Q) : Option (List V2) := some (xs.map pos)

end Mbd
