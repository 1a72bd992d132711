import Verif.Rounded
import Verif.NTrailer

/-!
# The train with rounded arithmetic

The collision check, the hitch check, the motion and the shield of `n_trailer2d.py` with an arbitrary implementation
of the arithmetic (see `Rounded.lean`).  The per-trailer lengths are arrays (n_trailer2d.py:30-38): their entries are rounded first
and combined in array arithmetic.
-/

namespace Mbd

open Real Classical

namespace Rounded

variable (A : Arith)

/-- `trailer_lengths[i]` (n_trailer2d.py:30, 78, 308). -/
noncomputable def lengthN (T : NTrailer) (i : ℕ) : ℝ := A.const (clampGet T.lengths i)

/-- `trailer_front_offsets[i]` (n_trailer2d.py:31, 309). -/
noncomputable def frontN (T : NTrailer) (i : ℕ) : ℝ := A.const (clampGet T.fronts i)

/-- `trailer_rear_offsets[i]` (n_trailer2d.py:32-38, 310). -/
noncomputable def rearN (T : NTrailer) (i : ℕ) : ℝ := A.const (clampGet T.rears i)

/-- `s_center` (n_trailer2d.py:311). -/
noncomputable def midN (T : NTrailer) (i : ℕ) : ℝ :=
  A.sub (A.mul 0.5 (A.sub (frontN A T i) (rearN A T i))) (lengthN A T i)

/-- `half_len` (n_trailer2d.py:314). -/
noncomputable def halfN (T : NTrailer) (i : ℕ) : ℝ := A.mul 0.5 (A.add (frontN A T i) (rearN A T i))

/-- `point + len * (cos, sin)`: the form in which hitches and centres are computed (n_trailer2d.py:304, 312-313, 321-323). -/
noncomputable def leverN (len th : ℝ) (p : V2) : V2 := (A.mulAdd len (A.cos th) p.1, A.mulAdd len (A.sin th) p.2)

/-- Centre of the box of trailer `i`, given its hitch (n_trailer2d.py:311-313). -/
noncomputable def centerN (T : NTrailer) (x : QN) (i : ℕ) (h : V2) : V2 := leverN A (midN A T i) (T.theta x i) h

/-- The hitch in front of trailer `i` (n_trailer2d.py:304-327). -/
noncomputable def rectHitchN (T : NTrailer) (x : QN) : ℕ → V2
  | 0 => leverN A (-A.const T.lh) x.th0 (x.px, x.py)
  | i + 1 => leverN A (-A.const T.lh) (T.theta x i)
      (leverN A (-halfN A T i) (T.theta x i) (centerN A T x i (rectHitchN T x i)))

/-- Corner array of trailer `i` (n_trailer2d.py:306-320). -/
noncomputable def trailerCornersN (T : NTrailer) (x : QN) (i : ℕ) : Corners :=
  boxCorners A (centerN A T x i (rectHitchN A T x i)) (T.theta x i) (halfN A T i) (A.const (T.trailerWidth / 2))

/-- `check_obstacle_collision` of the train (n_trailer2d.py:331-362). -/
noncomputable def checkObstacleN (T : NTrailer) (x : QN) : Prop :=
  let k := tractorCorners A T.toParams x.px x.py x.th0
  ((∃ c ∈ T.circles, rectCircle A k (c.x, c.y) c.r) ∨
    (∃ i < T.N, ∃ c ∈ T.circles, rectCircle A (trailerCornersN A T x i) (c.x, c.y) c.r)) ∨
  ((∃ o ∈ T.rects, rectRect A k (rectCorners A o)) ∨
    (∃ i < T.N, ∃ o ∈ T.rects, rectRect A (trailerCornersN A T x i) (rectCorners A o)))

/-- The scan of `check_hitch_violation` over `thetas[1:]` (n_trailer2d.py:279-283). -/
noncomputable def hitchScanN (P : Params) : ℝ → Prop → List ℝ → Prop
  | _, viol, [] => viol
  | prev, viol, th :: rest => hitchScanN P th (viol ∨ A.const P.phiMax < |wrapPi A (A.sub prev th)|) rest

/-- `check_hitch_violation` (n_trailer2d.py:271-284). -/
noncomputable def checkHitchN (T : NTrailer) (x : QN) : Prop :=
  let ths := T.slice x
  hitchScanN A T.toParams (ths.headD 0) (A.const T.phiMax < |wrapPi A (A.sub x.th0 (ths.headD 0))|) ths.tail

/-- Body of the loop of `n_trailer_dynamics` (n_trailer2d.py:75-95). Sums of two products may be contracted (`sum2`). -/
noncomputable def loopBodyN (T : NTrailer) (x : QN) (v delta th0dot : ℝ) (i : ℕ) (c : NTrailer.Carry) : NTrailer.Carry :=
  let thI := T.theta x i
  let L := lengthN A T i
  let d := A.sub c.theta thI
  { theta := thI
    dot := if i = 0 then A.mul (A.div v L)
        (A.mulAdd (-A.mul (A.const (T.lh / T.l1)) (A.cos d)) (A.tan delta) (A.sin d))
      else A.sum2 (A.div c.speed L) (A.sin d) (-A.mul (A.div (A.const T.lh) L) c.dot) (A.cos d)
    speed := if i = 0 then A.sum2 v (A.cos d) (A.mul (A.const T.lh) th0dot) (A.sin d)
      else A.sum2 c.speed (A.cos d) (A.mul (A.const T.lh) c.dot) (A.sin d) }

/-- The carry after `i` iterations (n_trailer2d.py:94-95). -/
noncomputable def carryAtN (T : NTrailer) (x : QN) (v delta : ℝ) : ℕ → NTrailer.Carry
  | 0 => { theta := x.th0, dot := A.mul (A.div v (A.const T.l1)) (A.tan delta), speed := v }
  | i + 1 => loopBodyN A T x v delta (A.mul (A.div v (A.const T.l1)) (A.tan delta)) i (carryAtN T x v delta i)

/-- `n_trailer_dynamics` (n_trailer2d.py:62-100) and `euler` (tt2d.py:29-31). -/
noncomputable def eulerN (T : NTrailer) (x : QN) (u : U) : QN :=
  let h := A.const T.dt
  { px := A.mulAdd h (A.mul u.1 (A.cos x.th0)) x.px
    py := A.mulAdd h (A.mul u.1 (A.sin x.th0)) x.py
    th0 := A.mulAdd h (A.mul (A.div u.1 (A.const T.l1)) (A.tan u.2)) x.th0
    ths := List.zipWith (fun a b => A.mulAdd h b a) x.ths
      ((List.range T.N).map fun i => (carryAtN A T x u.1 u.2 (i + 1)).dot) }

/-- Vehicle state after one `step` of the train in shield mode, no guidance, backup flag not set
(n_trailer2d.py:126-168).  Simplification: rewards and flags are left out, the state has the right length. -/
noncomputable def stepN (T : NTrailer) (x : QN) (a : U) : QN :=
  (kinShieldedRollout T.toParams (checkObstacleN A T) (checkHitchN A T) x
    (eulerN A T x (inputScaler A T.toParams (clipU a)))).1

end Rounded

end Mbd
