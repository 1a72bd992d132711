import Verif.Prim

/-!
# Collision geometry (tt2d.py:885-1002)
-/

namespace Mbd

open Real

/-- A circular obstacle `[x, y, r]` (rows of `obs_circles`). (env.py:268-292) -/
structure Circle where
  x : ℝ
  y : ℝ
  r : ℝ

/-- A rectangular obstacle `[x, y, width, height, angle]` (rows of `obs_rectangles`).
(env.py:229-266) -/
structure Rect where
  x : ℝ
  y : ℝ
  w : ℝ
  h : ℝ
  ang : ℝ

/-- A `(4,2)` array of corners, in array order. (tt2d.py:885-936) -/
structure Corners where
  c0 : V2
  c1 : V2
  c2 : V2
  c3 : V2

/-- One row of `local_corners @ R.T + center` with `R = [[cos,-sin],[sin,cos]]`
(tt2d.py:903-905). -/
noncomputable def placePoint (center : V2) (ang : ℝ) (loc : V2) : V2 :=
  (loc.1 * cos ang - loc.2 * sin ang + center.1,
   loc.1 * sin ang + loc.2 * cos ang + center.2)

/-- The corner array built for tractor (tt2d.py:893-905), trailer (tt2d.py:914-926), obstacle
rectangles (tt2d.py:1048-1062) and their copies in n_trailer2d.py:293-300,312-317,347-351 and
kinematic_bicycle2d.py:114-126,163-176: rows `(-hl,-hw), (-hl,hw), (hl,hw), (hl,-hw)` rotated by
`ang` and translated to `center`.  (The code inlines this block at each use.) -/
noncomputable def boxCorners (center : V2) (ang hl hw : ℝ) : Corners :=
  { c0 := placePoint center ang (-hl, -hw)
    c1 := placePoint center ang (-hl, hw)
    c2 := placePoint center ang (hl, hw)
    c3 := placePoint center ang (hl, -hw) }

open Classical in
/-- Squared distance from `c` to the closest point of the edge from `s` to `e`
(tt2d.py:943-960, one row of the vectorised computation). -/
noncomputable def edgeDistSq (s e c : V2) : ℝ :=
  let edge : V2 := (e.1 - s.1, e.2 - s.2)
  let toC : V2 := (c.1 - s.1, c.2 - s.2)
  let lenSq0 := edge.1 ^ 2 + edge.2 ^ 2
  let lenSq := if lenSq0 < 1e-8 then 1e-8 else lenSq0
  let t := clip ((toC.1 * edge.1 + toC.2 * edge.2) / lenSq) 0 1
  let p : V2 := (s.1 + t * edge.1, s.2 + t * edge.2)
  (c.1 - p.1) ^ 2 + (c.2 - p.2) ^ 2

/-- `check_rectangle_circle_collision` (tt2d.py:939-963): edges are `roll(corners,-1) - corners`. -/
noncomputable def rectCircle (k : Corners) (c : V2) (r : ℝ) : Prop :=
  min (min (edgeDistSq k.c0 k.c1 c) (edgeDistSq k.c1 k.c2 c))
      (min (edgeDistSq k.c2 k.c3 c) (edgeDistSq k.c3 k.c0 c)) ≤ r ^ 2

open Classical in
/-- One row of `get_axes` (tt2d.py:970-980): the normal `(-ey, ex)` of the edge from `s` to `e`,
divided by its norm (by 1 when the norm is below 1e-8). -/
noncomputable def edgeNormal (s e : V2) : V2 :=
  let n : V2 := (-(e.2 - s.2), e.1 - s.1)
  let nn := norm2 n
  let d := if nn < 1e-8 then 1 else nn
  (n.1 / d, n.2 / d)

/-- `jnp.min(jnp.dot(corners, axis))` (tt2d.py:982-985). -/
def projMin (k : Corners) (axis : V2) : ℝ :=
  min (min (dot k.c0 axis) (dot k.c1 axis)) (min (dot k.c2 axis) (dot k.c3 axis))

/-- `jnp.max(jnp.dot(corners, axis))` (tt2d.py:982-985). -/
def projMax (k : Corners) (axis : V2) : ℝ :=
  max (max (dot k.c0 axis) (dot k.c1 axis)) (max (dot k.c2 axis) (dot k.c3 axis))

/-- `check_axis_separation` (tt2d.py:993-997). -/
def axisSeparated (k₁ k₂ : Corners) (axis : V2) : Prop :=
  projMax k₁ axis < projMin k₂ axis ∨ projMax k₂ axis < projMin k₁ axis

/-- `check_rectangle_rectangle_collision` (tt2d.py:966-1002): normals of the first two edges of
both rectangles; collision iff none separates. -/
noncomputable def rectRect (k₁ k₂ : Corners) : Prop :=
  ¬ (axisSeparated k₁ k₂ (edgeNormal k₁.c0 k₁.c1) ∨ axisSeparated k₁ k₂ (edgeNormal k₁.c1 k₁.c2) ∨
     axisSeparated k₁ k₂ (edgeNormal k₂.c0 k₂.c1) ∨ axisSeparated k₁ k₂ (edgeNormal k₂.c1 k₂.c2))

/-- Corner array of a rectangular obstacle (tt2d.py:1045-1062): half sizes `w/2`, `h/2`. -/
noncomputable def Rect.corners (o : Rect) : Corners :=
  boxCorners (o.x, o.y) o.ang (o.w / 2) (o.h / 2)

end Mbd
