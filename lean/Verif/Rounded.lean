import Verif.TT2d
import Verif.Bicycle

/-!
# The simulator with rounded arithmetic

The other files read `float32` as `ℝ`.  This file models the collision checks, the hitch check, the
motion and the shield of the kinematic tractor-trailer and bicycle with an arbitrary implementation of
the arithmetic (`Arith`), as XLA may choose it: every operation may be off by a rounding error, products
and sums may be contracted to fused operations, and the matrix products (`@`, `jnp.dot`) may have an
accuracy of their own (TF32 on some devices).  A number is represented by the real number it stands
for; overflow and NaN do not occur in this model.

Exact in the model (as in IEEE arithmetic): negation, comparison, `min`, `max`, `clip`, `where`.
-/

namespace Mbd

open Real Classical

/-- An implementation of the array arithmetic used by the simulator (tt2d.py:29-31, 269-294, 885-1010). -/
structure Arith where
  /-- a Python number entering an array expression -/
  const : ℝ → ℝ
  /-- `a + b` -/
  add : ℝ → ℝ → ℝ
  /-- `a - b` -/
  sub : ℝ → ℝ → ℝ
  /-- `a * b` -/
  mul : ℝ → ℝ → ℝ
  /-- `a / b` -/
  div : ℝ → ℝ → ℝ
  /-- `a * b + c`, contracted or not -/
  mulAdd : ℝ → ℝ → ℝ → ℝ
  /-- `a * b + c * d`, elementwise products summed by `jnp.sum`, contracted or not -/
  sum2 : ℝ → ℝ → ℝ → ℝ → ℝ
  /-- `a * b + c * d`, as an entry of a matrix product -/
  mm : ℝ → ℝ → ℝ → ℝ → ℝ
  /-- `a % b` -/
  rem : ℝ → ℝ → ℝ
  sqrt : ℝ → ℝ
  sin : ℝ → ℝ
  cos : ℝ → ℝ
  tan : ℝ → ℝ

namespace Rounded

variable (A : Arith)

/-- One row of `local_corners @ R.T + center` (tt2d.py:903-905). -/
noncomputable def placePoint (center : V2) (ang : ℝ) (loc : V2) : V2 :=
  (A.add (A.mm loc.1 (A.cos ang) loc.2 (-A.sin ang)) center.1,
   A.add (A.mm loc.1 (A.sin ang) loc.2 (A.cos ang)) center.2)

/-- The corner array of a box with half sizes `hl`, `hw` (tt2d.py:893-905, 914-926, 1048-1062). -/
noncomputable def boxCorners (center : V2) (ang hl hw : ℝ) : Corners :=
  { c0 := placePoint A center ang (-hl, -hw)
    c1 := placePoint A center ang (-hl, hw)
    c2 := placePoint A center ang (hl, hw)
    c3 := placePoint A center ang (hl, -hw) }

/-- Tractor corners (tt2d.py:890-905; kinematic_bicycle2d.py:110-126). The lengths are Python numbers;
they are combined in Python and then enter the array expressions. -/
noncomputable def tractorCorners (P : Params) (px py th : ℝ) : Corners :=
  let k := A.const (0.5 * (P.l1 + P.lf1 - P.lr))
  boxCorners A (A.mulAdd k (A.cos th) px, A.mulAdd k (A.sin th) py) th
    (A.const ((P.l1 + P.lf1 + P.lr) / 2)) (A.const (P.tractorWidth / 2))

/-- Trailer corners (tt2d.py:907-926). -/
noncomputable def trailerCorners (P : Params) (q : Q4) : Corners :=
  let h : V2 := (A.mulAdd (-A.const P.lh) (A.cos q.th1) q.px, A.mulAdd (-A.const P.lh) (A.sin q.th1) q.py)
  let k := A.const (0.5 * (P.lf2 - P.lr2) - P.l2)
  boxCorners A (A.mulAdd k (A.cos q.th2) h.1, A.mulAdd k (A.sin q.th2) h.2) q.th2
    (A.const ((P.lf2 + P.lr2) / 2)) (A.const (P.trailerWidth / 2))

/-- Corners of a rectangular obstacle (tt2d.py:1045-1062). -/
noncomputable def rectCorners (o : Rect) : Corners :=
  boxCorners A (o.x, o.y) o.ang (A.div o.w 2) (A.div o.h 2)

/-- Squared distance of the circle's centre to one edge (tt2d.py:943-960). -/
noncomputable def edgeDistSq (s e c : V2) : ℝ :=
  let edge : V2 := (A.sub e.1 s.1, A.sub e.2 s.2)
  let toC : V2 := (A.sub c.1 s.1, A.sub c.2 s.2)
  let lenSq0 := A.sum2 edge.1 edge.1 edge.2 edge.2
  let lenSq := if lenSq0 < 1e-8 then 1e-8 else lenSq0
  let t := clip (A.div (A.sum2 toC.1 edge.1 toC.2 edge.2) lenSq) 0 1
  let p : V2 := (A.mulAdd t edge.1 s.1, A.mulAdd t edge.2 s.2)
  let d : V2 := (A.sub c.1 p.1, A.sub c.2 p.2)
  A.sum2 d.1 d.1 d.2 d.2

/-- `check_rectangle_circle_collision` (tt2d.py:939-963). -/
noncomputable def rectCircle (k : Corners) (c : V2) (r : ℝ) : Prop :=
  min (min (edgeDistSq A k.c0 k.c1 c) (edgeDistSq A k.c1 k.c2 c))
      (min (edgeDistSq A k.c2 k.c3 c) (edgeDistSq A k.c3 k.c0 c)) ≤ A.mul r r

/-- One row of `get_axes` (tt2d.py:970-980). -/
noncomputable def edgeNormal (s e : V2) : V2 :=
  let n : V2 := (-A.sub e.2 s.2, A.sub e.1 s.1)
  let nn := A.sqrt (A.sum2 n.1 n.1 n.2 n.2)
  let d := if nn < 1e-8 then 1 else nn
  (A.div n.1 d, A.div n.2 d)

/-- One entry of `jnp.dot(corners, axis)` (tt2d.py:984). -/
noncomputable def proj (p axis : V2) : ℝ := A.mm p.1 axis.1 p.2 axis.2

/-- `jnp.min(projections)` (tt2d.py:982-985). -/
noncomputable def projMin (k : Corners) (axis : V2) : ℝ :=
  min (min (proj A k.c0 axis) (proj A k.c1 axis)) (min (proj A k.c2 axis) (proj A k.c3 axis))

/-- `jnp.max(projections)` (tt2d.py:982-985). -/
noncomputable def projMax (k : Corners) (axis : V2) : ℝ :=
  max (max (proj A k.c0 axis) (proj A k.c1 axis)) (max (proj A k.c2 axis) (proj A k.c3 axis))

/-- `check_axis_separation` (tt2d.py:993-997). -/
def axisSeparated (k₁ k₂ : Corners) (axis : V2) : Prop :=
  projMax A k₁ axis < projMin A k₂ axis ∨ projMax A k₂ axis < projMin A k₁ axis

/-- `check_rectangle_rectangle_collision` (tt2d.py:966-1002). -/
noncomputable def rectRect (k₁ k₂ : Corners) : Prop :=
  ¬ (axisSeparated A k₁ k₂ (edgeNormal A k₁.c0 k₁.c1) ∨
     axisSeparated A k₁ k₂ (edgeNormal A k₁.c1 k₁.c2) ∨
     axisSeparated A k₁ k₂ (edgeNormal A k₂.c0 k₂.c1) ∨
     axisSeparated A k₁ k₂ (edgeNormal A k₂.c1 k₂.c2))

/-- `check_obstacle_collision` of the tractor-trailer (tt2d.py:1013-1080). -/
noncomputable def checkObstacle (P : Params) (q : Q4) : Prop :=
  let k₁ := tractorCorners A P q.px q.py q.th1
  let k₂ := trailerCorners A P q
  (∃ c ∈ P.circles, rectCircle A k₁ (c.x, c.y) c.r ∨ rectCircle A k₂ (c.x, c.y) c.r) ∨
  (∃ o ∈ P.rects, rectRect A k₁ (rectCorners A o) ∨ rectRect A k₂ (rectCorners A o))

/-- `check_obstacle_collision` of the bicycle (kinematic_bicycle2d.py:135-191). -/
noncomputable def checkObstacleB (P : Params) (q : Q3) : Prop :=
  let k := tractorCorners A P q.px q.py q.th1
  (∃ c ∈ P.circles, rectCircle A k (c.x, c.y) c.r) ∨ (∃ o ∈ P.rects, rectRect A k (rectCorners A o))

/-- `wrap_pi` (tt2d.py:1008). -/
noncomputable def wrapPi (a : ℝ) : ℝ :=
  A.sub (A.rem (A.add a (A.const π)) (A.const (2 * π))) (A.const π)

/-- `check_hitch_violation` (tt2d.py:1005-1010). -/
noncomputable def checkHitch (P : Params) (q : Q4) : Prop :=
  A.const P.phiMax < |wrapPi A (A.sub q.th1 q.th2)|

/-- `input_scaler` (tt2d.py:269-273). -/
noncomputable def inputScaler (P : Params) (u : U) : U :=
  (A.mul u.1 (A.const P.vMax), A.mul u.2 (A.const P.deltaMax))

/-- `tractor_trailer_dynamics` (tt2d.py:276-294). -/
noncomputable def dynamics (P : Params) (x : Q4) (u : U) : Q4 :=
  let v := u.1
  let t := A.tan u.2
  let d := A.sub x.th1 x.th2
  { px := A.mul v (A.cos x.th1)
    py := A.mul v (A.sin x.th1)
    th1 := A.mul (A.div v (A.const P.l1)) t
    th2 := A.mul (A.div v (A.const P.l2))
      (A.mulAdd (-A.mul (A.const (P.lh / P.l1)) (A.cos d)) t (A.sin d)) }

/-- `euler` (tt2d.py:29-31). -/
noncomputable def euler (P : Params) (q : Q4) (u : U) : Q4 :=
  let k := dynamics A P q u
  let h := A.const P.dt
  ⟨A.mulAdd h k.px q.px, A.mulAdd h k.py q.py, A.mulAdd h k.th1 q.th1, A.mulAdd h k.th2 q.th2⟩

/-- `bicycle_dynamics` (kinematic_bicycle2d.py:83-97) and `euler` (tt2d.py:29-31). -/
noncomputable def eulerB (P : Params) (q : Q3) (u : U) : Q3 :=
  let v := u.1
  let h := A.const P.dt
  ⟨A.mulAdd h (A.mul v (A.cos q.th1)) q.px, A.mulAdd h (A.mul v (A.sin q.th1)) q.py,
   A.mulAdd h (A.mul (A.div v (A.const P.l1)) (A.tan u.2)) q.th1⟩

/-- Vehicle state after one `step` in shield mode, neither projection nor guidance, backup flag not set
(tt2d.py:302-391, 402-415).  Simplification: rewards and flags are left out. -/
noncomputable def step (P : Params) (q : Q4) (a : U) : Q4 :=
  (kinShieldedRollout P (checkObstacle A P) (checkHitch A P) q
    (euler A P q (inputScaler A P (clipU a)))).1

/-- The same for the bicycle (kinematic_bicycle2d.py:204-259); its hitch check is constantly `False`. -/
noncomputable def stepB (P : Params) (q : Q3) (a : U) : Q3 :=
  (kinShieldedRollout P (checkObstacleB A P) (Bicycle.checkHitch P) q
    (eulerB A P q (inputScaler A P (clipU a)))).1

/-- The vehicle states of a rollout (`rollout_us`, utils.py:18-51, reduced to the states). -/
noncomputable def states {Q : Type} (f : Q → U → Q) : Q → List U → List Q
  | _, [] => []
  | q, a :: us => f q a :: states f (f q a) us

end Rounded

end Mbd
