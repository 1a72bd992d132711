import Mathlib.Analysis.SpecialFunctions.Trigonometric.Basic
import Mathlib.Analysis.SpecialFunctions.Sqrt
import Mathlib.Algebra.BigOperators.Group.List.Basic

/-!
# Numeric primitives used by the Python code

JAX/NumPy primitives, over the reals.  Simplification everywhere: `float32` is
modelled by `ℝ` (no rounding, no NaN/inf).
-/

namespace Mbd

open Real

/-- `jnp.clip(x, lo, hi)` (used e.g. in tt2d.py:304, mbd_planner.py:366): `minimum(maximum(x, lo), hi)`. -/
noncomputable def clip (x lo hi : ℝ) : ℝ := min (max x lo) hi

/-- Python/JAX float `a % b` for `b > 0`: the floor-modulus (tt2d.py:746, 1008). -/
noncomputable def fmod (a b : ℝ) : ℝ := a - b * ⌊a / b⌋

/-- `wrap_pi = lambda a: (a + pi) % (2*pi) - pi` (tt2d.py:746, 1008, 1121; n_trailer2d.py:276;
kinematic_bicycle2d.py:288). -/
noncomputable def wrapPi (a : ℝ) : ℝ := fmod (a + π) (2 * π) - π

/-- `sigmoid = lambda z: 1/(1+exp(-z))` (tt2d.py:785). -/
noncomputable def sigmoid (z : ℝ) : ℝ := 1 / (1 + exp (-z))

/-- Degrees to radians: `deg * pi / 180` (tt2d.py:100), `jnp.deg2rad` (tt2d.py:104). -/
noncomputable def deg2rad (d : ℝ) : ℝ := d * π / 180

/-- Points and vectors in the plane (`jnp` arrays of length 2).
(rows of the arrays of tt2d.py:885-1002) -/
abbrev V2 := ℝ × ℝ

/-- Control inputs `[u0, u1]` (`jnp` arrays of length 2). (argument of tt2d.py:297-299) -/
abbrev U := ℝ × ℝ

/-- `jnp.dot` of two 2-vectors. (tt2d.py:939-1002) -/
def dot (a b : V2) : ℝ := a.1 * b.1 + a.2 * b.2

/-- `jnp.linalg.norm` of a 2-vector. (tt2d.py:706-851) -/
noncomputable def norm2 (v : V2) : ℝ := √(v.1 ^ 2 + v.2 ^ 2)

/-- `jnp.clip(action, -1.0, 1.0)` on a 2-vector (tt2d.py:304). -/
noncomputable def clipU (a : U) : U := (clip a.1 (-1) 1, clip a.2 (-1) 1)

/-- `xs.mean()` of a list (division by the length). (utils.py:18-51) -/
noncomputable def mean (l : List ℝ) : ℝ := l.sum / l.length

/-- Array read with JAX's clamping of an out-of-range dynamic index (`thetas[i]` inside
`fori_loop`, n_trailer2d.py:77-79). The default `0` is only used for an empty array. -/
def clampGet (l : List ℝ) (i : ℕ) : ℝ := l.getD (min i (l.length - 1)) 0

end Mbd
