import Verif.Spec
import Verif.NTrailer
import Verif.Bicycle
import Verif.Acc
import Mathlib.Analysis.Convex.Hull

/-!
# Specification of vehicle bodies and obstacles as point sets

Written from the documentation of the parameters (README, docstrings), not from the corner
computations.  Only the parameter records of the model are used.
-/

namespace Spec

open Real Mbd

/-- Region enclosed by a corner array. -/
def hull (k : Corners) : Set Pt := convexHull ℝ {k.c0, k.c1, k.c2, k.c3}

/-- Body of the towing vehicle: rear axle at `(px,py)`, from `lr` behind the rear axle to `lf1`
ahead of the front axle, which is `l1` ahead of the rear axle. -/
def tractorBody (P : Params) (px py th : ℝ) : Set Pt :=
  body (px, py) th P.lr (P.l1 + P.lf1) P.tractorWidth

/-- Axle of the single trailer: `l2` behind the hitch along the trailer, the hitch `lh` behind the
tractor's rear axle along the tractor. -/
noncomputable def trailerAxle (P : Params) (q : Q4) : Pt :=
  frame (frame (q.px, q.py) q.th1 (-P.lh) 0) q.th2 (-P.l2) 0

/-- Body of the single trailer. -/
noncomputable def trailerBody (P : Params) (q : Q4) : Set Pt :=
  body (trailerAxle P q) q.th2 P.lr2 P.lf2 P.trailerWidth

/-- Hitch in front of trailer `i` of the train: `lh` behind the tractor axle, respectively `lh`
behind the rear face of the previous trailer; the trailer axle is its length behind its hitch. -/
noncomputable def hitchN (T : NTrailer) (x : QN) : ℕ → Pt
  | 0 => frame (x.px, x.py) x.th0 (-T.lh) 0
  | i + 1 => frame (frame (hitchN T x i) (x.ths.getD i 0) (-T.lengths.getD i 0) 0)
      (x.ths.getD i 0) (-(T.rears.getD i 0 + T.lh)) 0

/-- Axle of trailer `i`. -/
noncomputable def axleN (T : NTrailer) (x : QN) (i : ℕ) : Pt :=
  frame (hitchN T x i) (x.ths.getD i 0) (-T.lengths.getD i 0) 0

/-- Body of trailer `i`. -/
noncomputable def trailerBodyN (T : NTrailer) (x : QN) (i : ℕ) : Set Pt :=
  body (axleN T x i) (x.ths.getD i 0) (T.rears.getD i 0) (T.fronts.getD i 0) T.trailerWidth

/-- Well-formed N-trailer data: one entry per trailer. -/
structure WellSized (T : NTrailer) (x : QN) : Prop where
  ths : x.ths.length = T.N
  lengths : T.lengths.length = T.N
  fronts : T.fronts.length = T.N
  rears : T.rears.length = T.N

/-- Region of a rectangular obstacle. -/
def rectRegion (o : Rect) : Set Pt := solidRect (o.x, o.y) o.ang (o.w / 2) (o.h / 2)

/-- Region of a circular obstacle. -/
def circleRegion (c : Circle) : Set Pt := disc (c.x, c.y) c.r

/-- Rigid motion: rotate by `α` about the origin, then translate by `d`. -/
noncomputable def move (α : ℝ) (d : Pt) (p : Pt) : Pt := frame d α p.1 p.2

end Spec

namespace Spec

open Real Mbd

/-- One explicit Euler step of the kinematic tractor-trailer with normalised input `u`: speed
`u.1 * v_max`, steering angle `u.2 * delta_max` (degrees). -/
def EulerTT (P : Params) (q : Q4) (u : U) (q' : Q4) : Prop :=
  let v := u.1 * P.vMax
  let δ := u.2 * (P.deltaMaxDeg * π / 180)
  q'.px = q.px + P.dt * (v * cos q.th1) ∧
  q'.py = q.py + P.dt * (v * sin q.th1) ∧
  q'.th1 = q.th1 + P.dt * (v / P.l1 * tan δ) ∧
  q'.th2 = q.th2 + P.dt * (v / P.l2 * (sin (q.th1 - q.th2)
    - P.lh / P.l1 * cos (q.th1 - q.th2) * tan δ))

/-- One explicit Euler step of the bicycle. -/
def EulerBicycle (P : Params) (q : Q3) (u : U) (q' : Q3) : Prop :=
  let v := u.1 * P.vMax
  let δ := u.2 * (P.deltaMaxDeg * π / 180)
  q'.px = q.px + P.dt * (v * cos q.th1) ∧
  q'.py = q.py + P.dt * (v * sin q.th1) ∧
  q'.th1 = q.th1 + P.dt * (v / P.l1 * tan δ)

/-- Soft motion preference: with preference `1` reverse motion, with `-1` forward motion is
penalised proportionally to the speed; other settings have no penalty. -/
noncomputable def prefPenalty (w : ℝ) (pref : ℤ) (v : ℝ) : ℝ :=
  if pref = 1 then w * max 0 (-v) else if pref = -1 then w * max 0 v else 0

/-- A normalised action. -/
def InBox (u : ℝ × ℝ) : Prop := |u.1| ≤ 1 ∧ |u.2| ≤ 1

end Spec

namespace Spec

open Real Mbd

/-- Vehicle bodies (tractor and trailer) and obstacles share no point. -/
def SafeTT (P : Params) (q : Q4) : Prop :=
  (∀ c ∈ P.circles, Apart (tractorBody P q.px q.py q.th1) (circleRegion c) ∧
    Apart (trailerBody P q) (circleRegion c)) ∧
  (∀ o ∈ P.rects, Apart (tractorBody P q.px q.py q.th1) (rectRegion o) ∧
    Apart (trailerBody P q) (rectRegion o))

/-- Bicycle body and obstacles share no point. -/
def SafeBicycle (P : Params) (q : Q3) : Prop :=
  (∀ c ∈ P.circles, Apart (tractorBody P q.px q.py q.th1) (circleRegion c)) ∧
  (∀ o ∈ P.rects, Apart (tractorBody P q.px q.py q.th1) (rectRegion o))

/-- Train bodies and obstacles share no point. -/
def SafeN (T : NTrailer) (x : QN) : Prop :=
  (∀ c ∈ T.circles, Apart (tractorBody T.toParams x.px x.py x.th0) (circleRegion c) ∧
    ∀ i < T.N, Apart (trailerBodyN T x i) (circleRegion c)) ∧
  (∀ o ∈ T.rects, Apart (tractorBody T.toParams x.px x.py x.th0) (rectRegion o) ∧
    ∀ i < T.N, Apart (trailerBodyN T x i) (rectRegion o))

/-- Admissible sizes: sides of the bodies at least `1e-4`, obstacle rectangles with positive sides,
non-negative radii. -/
structure SidesOK (P : Params) : Prop where
  tractorLen : 1e-4 ≤ P.l1 + P.lf1 + P.lr
  tractorWid : 1e-4 ≤ P.tractorWidth
  trailerLen : 1e-4 ≤ P.lf2 + P.lr2
  trailerWid : 1e-4 ≤ P.trailerWidth
  radii : ∀ c ∈ P.circles, 0 ≤ c.r
  sides : ∀ o ∈ P.rects, 0 < o.w ∧ 0 < o.h

/-- Upper bound for the distance a point of the tractor body can move in one step, for points at
least `r` inside the body. -/
noncomputable def tractorShift (P : Params) (r : ℝ) : ℝ :=
  let w := P.vMax * P.dt
  let Δ := w * tan (P.deltaMaxDeg * π / 180) / P.l1
  w + (max P.lr (P.l1 + P.lf1) + P.tractorWidth / 2 - 2 * r) * Δ

/-- Upper bound for the distance a point of the trailer body can move in one step, for points at
least `r` inside the body. -/
noncomputable def trailerShift (P : Params) (r : ℝ) : ℝ :=
  let w := P.vMax * P.dt
  let tn := tan (P.deltaMaxDeg * π / 180)
  let κ := √(1 + (P.lh * tn / P.l1) ^ 2)
  let Δ₁ := w * tn / P.l1
  let Δ₂ := w * κ / P.l2
  w * κ + P.lh * (Δ₁ ^ 2 / 2 + Δ₁ ^ 3 / 6) + P.l2 * (Δ₂ ^ 2 / 2 + Δ₂ ^ 3 / 6)
    + (max P.lr2 P.lf2 + P.trailerWidth / 2 - 2 * r) * Δ₂

end Spec
