import Verif.TT2d
import Verif.Bicycle
import Verif.NTrailer
import Verif.Acc

/-!
# Guidance (tt2d.py:1718-1822; acc_tt2d.py:361-381; n_trailer2d.py:210-226;
kinematic_bicycle2d.py:774-841)

`jax.grad` is modelled by explicit formulas, component by component; `none` is a non-finite
component (the derivative of `norm` at 0 is `nan` in JAX, and `nan` absorbs everything it is added
to or multiplied with). `Verif/PropsGuidance.lean` proves that the formulas are the derivatives
of the cost wherever it is differentiable. Conventions of JAX at kinks: `maximum(0, x)` passes half
of the cotangent at a tie (the cotangent is 0 there, because the result is squared), `abs` has
derivative `sign`, `min` over an array splits the cotangent equally among the minimal entries.
Over `ℝ` the updated state is always finite, so the last `where(isfinite(..))` never acts.
-/

namespace Mbd

open Real Classical

namespace Guide

/-- `jnp.maximum(0.0, x)` (tt2d.py:1749, 1753, 1766). -/
noncomputable def hinge (x : ℝ) : ℝ := max 0 x

/-- Squared violation of one point by one circle, `safety_margin = 2` (tt2d.py:1735, 1744-1756). -/
noncomputable def circlePen (c : Circle) (p : V2) : ℝ :=
  hinge (c.r + 2 - norm2 (p - (c.x, c.y))) ^ 2

/-- Squared hitch violation of one reading of the angle (tt2d.py:1764-1767). -/
noncomputable def hitchPen (phi a : ℝ) : ℝ := hinge (|a| - phi) ^ 2

/-- The three readings of the hitch angle (tt2d.py:1763-1764). -/
noncomputable def readings (a : ℝ) : List ℝ := [a + 0, a + 2 * π, a + -(2 * π)]

/-- `jnp.min` of the three penalties (tt2d.py:1770). -/
noncomputable def hitchMin (phi a : ℝ) : ℝ :=
  min (hitchPen phi (a + 0)) (min (hitchPen phi (a + 2 * π)) (hitchPen phi (a + -(2 * π))))

/-- `hitch_weight` (tt2d.py:1773-1774). -/
noncomputable def hitchWeight (P : Params) : ℝ :=
  max 1 (((P.circles.length + P.rects.length : ℕ) : ℝ) * 0.05)

/-- Trailer axle of the guidance function (tt2d.py:1730-1732). -/
noncomputable def trailerPos (P : Params) (q : Q4) : V2 :=
  (q.px - P.lh * cos q.th1 - P.l2 * cos q.th2, q.py - P.lh * sin q.th1 - P.l2 * sin q.th2)

/-- `_guidance_function` (tt2d.py:1719-1781). -/
noncomputable def cost (P : Params) (q : Q4) : ℝ :=
  (P.circles.map fun c => circlePen c (q.px, q.py) + circlePen c (trailerPos P q)).sum +
    hitchWeight P * hitchMin P.phiMax (q.th1 - q.th2)

/-- `_guidance_function` of the bicycle (kinematic_bicycle2d.py:774-801). -/
noncomputable def costBicycle (P : Params) (q : Q3) : ℝ :=
  (P.circles.map fun c => circlePen c (q.px, q.py)).sum

/-! ### Gradient -/

/-- Gradient of `circlePen` with respect to the point; `none` at the centre.
(`jax.grad` of tt2d.py:1719-1781) -/
noncomputable def circleGrad (c : Circle) (p : V2) : Option V2 :=
  let d := norm2 (p - (c.x, c.y))
  if d = 0 then none
  else
    let k := -(2 * hinge (c.r + 2 - d) / d)
    some (k * (p.1 - c.x), k * (p.2 - c.y))

/-- Sum of the gradients over the circles; one `nan` makes it `nan`.
(`jax.grad` of tt2d.py:1719-1781) -/
noncomputable def sumGrad (cs : List Circle) (p : V2) : Option V2 :=
  cs.foldr (fun c acc =>
    match circleGrad c p, acc with
    | some g, some a => some (g.1 + a.1, g.2 + a.2)
    | _, _ => none) (some (0, 0))

/-- Derivative of `hitchPen`. (`jax.grad` of tt2d.py:1719-1781) -/
noncomputable def hitchPenGrad (phi a : ℝ) : ℝ := 2 * hinge (|a| - phi) * SignType.sign a

/-- Derivative of `hitchMin`: equal split among the minimal readings. (`jax.grad` of tt2d.py:1770) -/
noncomputable def hitchGrad (phi a : ℝ) : ℝ :=
  let m := (readings a).filter fun b => decide (hitchPen phi b = hitchMin phi a)
  (m.map (hitchPenGrad phi)).sum / m.length

/-- `jax.grad(_guidance_function)` by component `px, py, theta1, theta2` (tt2d.py:1801). -/
noncomputable def grad (P : Params) (q : Q4) :
    Option ℝ × Option ℝ × Option ℝ × Option ℝ :=
  let gt := sumGrad P.circles (q.px, q.py)
  let gr := sumGrad P.circles (trailerPos P q)
  let h := hitchWeight P * hitchGrad P.phiMax (q.th1 - q.th2)
  let pos := match gt, gr with
    | some a, some b => some (a.1 + b.1, a.2 + b.2)
    | _, _ => none
  (pos.map Prod.fst, pos.map Prod.snd,
   gr.map fun b => b.1 * (P.lh * sin q.th1) + b.2 * -(P.lh * cos q.th1) + h,
   gr.map fun b => b.1 * (P.l2 * sin q.th2) + b.2 * -(P.l2 * cos q.th2) - h)

/-- One component of the update: non-finite gradient entries become 0, descent, clipping
(tt2d.py:1804-1813). -/
noncomputable def comp (stepSize x : ℝ) (g : Option ℝ) (lim : ℝ) : ℝ :=
  clip (x - stepSize * g.getD 0) (-lim) lim

/-- `guidance_step` (tt2d.py:1799-1818). -/
noncomputable def stepOnce (P : Params) (stepSize : ℝ) (q : Q4) : Q4 :=
  let g := grad P q
  ⟨comp stepSize q.px g.1 100, comp stepSize q.py g.2.1 100, comp stepSize q.th1 g.2.2.1 (2 * π),
   comp stepSize q.th2 g.2.2.2 (2 * π)⟩

/-- `apply_guidance` (tt2d.py:1784-1822); the caller uses the defaults `step_size = 0.05`,
`max_steps = 3` (tt2d.py:329). -/
noncomputable def apply (P : Params) (stepSize : ℝ) (maxSteps : ℕ) (q : Q4) : Q4 :=
  if P.enableGuidance then (stepOnce P stepSize)^[maxSteps] q else q

/-- Acceleration model: pose guided, speed and steering kept (acc_tt2d.py:361-381). -/
noncomputable def applyAcc (P : Params) (stepSize : ℝ) (maxSteps : ℕ) (q : Q6) : Q6 :=
  if P.enableGuidance then
    let g := apply P stepSize maxSteps q.pose
    ⟨g.px, g.py, g.th1, g.th2, q.v, q.delta⟩
  else q

/-- `guidance_step` of the bicycle (kinematic_bicycle2d.py:820-837). The heading has gradient 0. -/
noncomputable def stepBicycle (P : Params) (stepSize : ℝ) (q : Q3) : Q3 :=
  let g := sumGrad P.circles (q.px, q.py)
  ⟨comp stepSize q.px (g.map Prod.fst) 100, comp stepSize q.py (g.map Prod.snd) 100,
   comp stepSize q.th1 (some 0) (2 * π)⟩

/-- `apply_guidance` of the bicycle (kinematic_bicycle2d.py:803-841). -/
noncomputable def applyBicycle (P : Params) (stepSize : ℝ) (maxSteps : ℕ) (q : Q3) : Q3 :=
  if P.enableGuidance then (stepBicycle P stepSize)^[maxSteps] q else q

/-- `guidance_step` of the train (n_trailer2d.py:214-224). The inherited cost reads `x[:4]`: the
tractor and the first trailer; later angles have gradient 0. -/
noncomputable def stepN (P : Params) (stepSize : ℝ) (q : QN) : QN :=
  let g := grad P ⟨q.px, q.py, q.th0, q.ths.getD 0 0⟩
  ⟨comp stepSize q.px g.1 100, comp stepSize q.py g.2.1 100, comp stepSize q.th0 g.2.2.1 (2 * π),
   q.ths.mapIdx fun i a => comp stepSize a (if i = 0 then g.2.2.2 else some 0) (2 * π)⟩

/-- `apply_guidance` of the train (n_trailer2d.py:210-226). -/
noncomputable def applyN (P : Params) (stepSize : ℝ) (maxSteps : ℕ) (q : QN) : QN :=
  if P.enableGuidance then (stepN P stepSize)^[maxSteps] q else q

end Guide

end Mbd
