import Verif.TT2d
import Verif.Bicycle
import Verif.Acc

/-!
# Projection of controls (tt2d.py:1448-1716; acc_tt2d.py:343-358; kinematic_bicycle2d.py:596-771)

The optimiser (`scipy.optimize.minimize`, method `trust-constr`) is external: its outcome is an
arbitrary value of `Outcome`. Modelled are the problem handed to it (scaling, prediction, constraint
values) and what the code does with the outcome.
-/

namespace Mbd

open Real

namespace Proj

/-- Outcome of `minimize`: `result.success` with `result.x`, no success, or an exception
(tt2d.py:1661-1686). -/
inductive Outcome where
  | success (x : U)
  | failure
  | raised

/-- What the callback returns (tt2d.py:1677-1686; kinematic_bicycle2d.py:765-771). -/
def result (o : Outcome) (u : U) : U :=
  match o with
  | .success x => x
  | .failure => u
  | .raised => u

/-- `_sdf_oriented_box_np` (tt2d.py:1518-1539; kinematic_bicycle2d.py:651-672). -/
noncomputable def sdfBox (p c half : V2) (ang : ℝ) : ℝ :=
  let d : V2 := (dot (p - c) (cos ang, sin ang), dot (p - c) (-sin ang, cos ang))
  let q : V2 := (|d.1| - half.1, |d.2| - half.2)
  norm2 (max q.1 0, max q.2 0) + min (max q.1 q.2) 0

/-- `gap_on_axis` (tt2d.py:1552-1560). -/
noncomputable def gapOnAxis (c1 h1 : V2) (a1 : ℝ) (c2 h2 : V2) (a2 : ℝ) (n : V2) : ℝ :=
  let p1 := dot c1 n
  let p2 := dot c2 n
  let r1 := h1.1 * |dot (cos a1, sin a1) n| + h1.2 * |dot (-sin a1, cos a1) n|
  let r2 := h2.1 * |dot (cos a2, sin a2) n| + h2.2 * |dot (-sin a2, cos a2) n|
  max ((p2 - r2) - (p1 + r1)) ((p1 - r1) - (p2 + r2))

/-- `_sdf_two_boxes_np` (tt2d.py:1541-1564; kinematic_bicycle2d.py:674-695). -/
noncomputable def gapBoxes (c1 h1 : V2) (a1 : ℝ) (c2 h2 : V2) (a2 : ℝ) : ℝ :=
  max (max (gapOnAxis c1 h1 a1 c2 h2 a2 (cos a1, sin a1))
      (gapOnAxis c1 h1 a1 c2 h2 a2 (-sin a1, cos a1)))
    (max (gapOnAxis c1 h1 a1 c2 h2 a2 (cos a2, sin a2))
      (gapOnAxis c1 h1 a1 c2 h2 a2 (-sin a2, cos a2)))

/-- Tractor centre (tt2d.py:1502-1503; kinematic_bicycle2d.py:642-643). -/
noncomputable def tractorCenter (P : Params) (px py th : ℝ) : V2 :=
  (px + 0.5 * (P.l1 + P.lf1 - P.lr) * cos th, py + 0.5 * (P.l1 + P.lf1 - P.lr) * sin th)

/-- Trailer centre (tt2d.py:1506-1509). -/
noncomputable def trailerCenter (P : Params) (q : Q4) : V2 :=
  (q.px - P.lh * cos q.th1 + (0.5 * (P.lf2 - P.lr2) - P.l2) * cos q.th2,
   q.py - P.lh * sin q.th1 + (0.5 * (P.lf2 - P.lr2) - P.l2) * sin q.th2)

/-- `_signed_dist_rect_circle_np` (tt2d.py:1566-1582): half lengths `l1/2` and `l2/2`. -/
noncomputable def distCircle (P : Params) (q : Q4) (c : Circle) : ℝ :=
  min (sdfBox (c.x, c.y) (tractorCenter P q.px q.py q.th1) (P.l1 / 2, P.tractorWidth / 2) q.th1)
    (sdfBox (c.x, c.y) (trailerCenter P q) (P.l2 / 2, P.trailerWidth / 2) q.th2) - c.r

/-- `_signed_dist_rect_rect_np` (tt2d.py:1584-1606). -/
noncomputable def distRect (P : Params) (q : Q4) (o : Rect) : ℝ :=
  min (gapBoxes (tractorCenter P q.px q.py q.th1) (P.l1 / 2, P.tractorWidth / 2) q.th1
      (o.x, o.y) (o.w / 2, o.h / 2) o.ang)
    (gapBoxes (trailerCenter P q) (P.l2 / 2, P.trailerWidth / 2) q.th2
      (o.x, o.y) (o.w / 2, o.h / 2) o.ang)

/-- `constraint_function_np` (tt2d.py:1608-1632). -/
noncomputable def constraints (P : Params) (q : Q4) : List ℝ :=
  P.circles.map (distCircle P q) ++ P.rects.map (distRect P q) ++
    [P.phiMax - |wrapPi (q.th1 - q.th2)|]

/-- `euler_np` (tt2d.py:1483-1489), which is the classical Runge-Kutta step. -/
noncomputable def rk4 (P : Params) (x : Q4) (u : U) : Q4 :=
  let k1 := TT2d.dynamics P x u
  let k2 := TT2d.dynamics P (x.axpy (P.dt / 2) k1) u
  let k3 := TT2d.dynamics P (x.axpy (P.dt / 2) k2) u
  let k4 := TT2d.dynamics P (x.axpy P.dt k3) u
  x.axpy (P.dt / 6) ⟨k1.px + 2 * k2.px + 2 * k3.px + k4.px, k1.py + 2 * k2.py + 2 * k3.py + k4.py,
    k1.th1 + 2 * k2.th1 + 2 * k3.th1 + k4.th1, k1.th2 + 2 * k2.th2 + 2 * k3.th2 + k4.th2⟩

/-- The problem handed to the optimiser accepts `x` strictly: bounds, and all constraint values at
the predicted state positive (tt2d.py:1638-1659; the code asks for `≥ 0`). -/
def Accepts (P : Params) (q : Q4) (x : U) : Prop :=
  (-1 ≤ x.1 ∧ x.1 ≤ 1) ∧ (-1 ≤ x.2 ∧ x.2 ≤ 1) ∧
    ∀ g ∈ constraints P (rk4 P q (P.inputScaler x)), 0 < g

/-- Projection of the tractor-trailer as external part of the step (tt2d.py:1688-1716). -/
def ext (solver : Q4 → U → Outcome) (guide : Q4 → Q4) : Ext Q4 :=
  { project := fun q u => result (solver q u) u, guide := guide }

/-- Acceleration model (acc_tt2d.py:343-358): the parent's callback on `q[:4]` with the normalised
acceleration and steering rate. -/
def extAcc (solver : Q4 → U → Outcome) (guide : Q6 → Q6) : Ext Q6 :=
  { project := fun q u => result (solver q.pose u) u, guide := guide }

/-! ### Bicycle -/

/-- Constraint values of the bicycle (kinematic_bicycle2d.py:697-731). -/
noncomputable def constraintsB (P : Params) (q : Q3) : List ℝ :=
  let c := tractorCenter P q.px q.py q.th1
  let half : V2 := ((P.l1 + P.lf1 + P.lr) / 2, P.tractorWidth / 2)
  let cs := P.circles.map (fun o => sdfBox (o.x, o.y) c half q.th1 - o.r) ++
    P.rects.map (fun o => gapBoxes c half q.th1 (o.x, o.y) (o.w / 2, o.h / 2) o.ang)
  if cs.isEmpty then [1] else cs

/-- `euler_np` of the bicycle (kinematic_bicycle2d.py:625-631). -/
noncomputable def rk4B (P : Params) (x : Q3) (u : U) : Q3 :=
  let k1 := Bicycle.dynamics P x u
  let k2 := Bicycle.dynamics P (x.axpy (P.dt / 2) k1) u
  let k3 := Bicycle.dynamics P (x.axpy (P.dt / 2) k2) u
  let k4 := Bicycle.dynamics P (x.axpy P.dt k3) u
  x.axpy (P.dt / 6) ⟨k1.px + 2 * k2.px + 2 * k3.px + k4.px, k1.py + 2 * k2.py + 2 * k3.py + k4.py,
    k1.th1 + 2 * k2.th1 + 2 * k3.th1 + k4.th1⟩

/-- As `Accepts`, bicycle (kinematic_bicycle2d.py:733-752). -/
def AcceptsB (P : Params) (q : Q3) (x : U) : Prop :=
  (-1 ≤ x.1 ∧ x.1 ≤ 1) ∧ (-1 ≤ x.2 ∧ x.2 ≤ 1) ∧
    ∀ g ∈ constraintsB P (rk4B P q (P.inputScaler x)), 0 < g

/-- Projection of the bicycle. (kinematic_bicycle2d.py:596-771) -/
def extB (solver : Q3 → U → Outcome) (guide : Q3 → Q3) : Ext Q3 :=
  { project := fun q u => result (solver q u) u, guide := guide }

end Proj

end Mbd
