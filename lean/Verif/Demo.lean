import Verif.Planner
import Verif.NTrailer
import Verif.Bicycle
import Verif.Acc
import Mathlib.Analysis.SpecialFunctions.Complex.Arg

/-!
# Demonstration trajectories (tt2d.py:466-703, 1089-1166 and the overrides)
-/

namespace Mbd

open Real Classical

/-- Exceptions of `generate_demonstration_trajectory`: `np.linspace` with a negative count
(tt2d.py:600-602), `xref[-1, 2]` of an empty array (tt2d.py:670). -/
inductive DemoErr where
  | negativeCount
  | emptyTrajectory
deriving DecidableEq

namespace Demo

/-- `p1 + t * (p2 - p1)` (tt2d.py:496, 605). -/
def segPoint (p q : V2) (t : ℝ) : V2 := (p.1 + t * (q.1 - p.1), p.2 + t * (q.2 - p.2))

/-- The circle test of `check_line_collision` for one point (tt2d.py:499-505). -/
noncomputable def inCircle (c : Circle) (p : V2) : Prop := norm2 (p - (c.x, c.y)) ≤ c.r

/-- The rectangle test of `check_line_collision` for one point (tt2d.py:508-524). -/
noncomputable def inRect (o : Rect) (p : V2) : Prop :=
  let dx := p.1 - o.x
  let dy := p.2 - o.y
  let ca := cos (-o.ang)
  let sa := sin (-o.ang)
  |dx * ca - dy * sa| ≤ o.w / 2 ∧ |dx * sa + dy * ca| ≤ o.h / 2

/-- `check_line_collision(p1, p2)` with 50 samples (tt2d.py:490-526). -/
noncomputable def lineCollides (P : Params) (p q : V2) : Prop :=
  ∃ t ∈ linspace 0 1 50, (∃ c ∈ P.circles, inCircle c (segPoint p q t)) ∨
    ∃ o ∈ P.rects, inRect o (segPoint p q t)

/-- `waypoints` (tt2d.py:486, 528-562). `horizontal` is `search_direction == "horizontal"`. The
limit `num_waypoints_max` (564-568) has its default 4 and never applies to at most 3 waypoints. -/
noncomputable def waypoints (P : Params) (horizontal : Bool) (x0 xg : V2) : List V2 :=
  let hv : V2 := (xg.1, x0.2)
  let vh : V2 := (x0.1, xg.2)
  let first := if horizontal then hv else vh
  let second := if horizontal then vh else hv
  if ¬ lineCollides P x0 xg then [x0, xg]
  else if ¬ lineCollides P x0 first ∧ ¬ lineCollides P first xg then [x0, first, xg]
  else if ¬ lineCollides P x0 second ∧ ¬ lineCollides P second xg then [x0, second, xg]
  else [x0, xg]

/-- The segments `waypoints[i], waypoints[i+1]`. (tt2d.py:594-607) -/
def segs (w : List V2) : List (V2 × V2) := w.zip w.tail

/-- `np.linalg.norm(waypoints[i+1] - waypoints[i])` (tt2d.py:578). -/
noncomputable def segLen (s : V2 × V2) : ℝ := norm2 (s.2 - s.1)

/-- `int(np.round(x))`: round half to even (tt2d.py:591). -/
noncomputable def roundEven (x : ℝ) : ℤ :=
  if x - ⌊x⌋ < 1 / 2 then ⌊x⌋ else if x - ⌊x⌋ > 1 / 2 then ⌊x⌋ + 1
  else if Even ⌊x⌋ then ⌊x⌋ else ⌊x⌋ + 1

/-- `np.argmax` of an integer list: first position of the maximum (tt2d.py:598). -/
def argmax : List ℤ → ℕ
  | [] => 0
  | a :: l => if ∀ b ∈ l, b ≤ a then 0 else argmax l + 1

/-- `points_per_segment` with the adjustment of the longest segment (tt2d.py:589-599). -/
noncomputable def pointsPerSegment (H : ℕ) (lens : List ℝ) : List ℤ :=
  let total := lens.sum
  let n := lens.map fun l => max 2 (roundEven (H * l / total))
  if n.sum ≠ H then n.set (argmax n) (n.getD (argmax n) 0 + (H - n.sum)) else n

/-- `np.linspace(0, 1, n, endpoint=False)`. (tt2d.py:605) -/
noncomputable def linspaceOpen (n : ℕ) : List ℝ := (List.range n).map fun k : ℕ => (k : ℝ) / n

/-- Points of all segments with their segment index (tt2d.py:601-613). -/
noncomputable def discretise (w : List V2) (n : List ℤ) : List (V2 × ℕ) :=
  (((segs w).zip n).mapIdx fun i sn =>
    let ts := if i + 2 < w.length then linspaceOpen sn.2.toNat else linspace 0 1 sn.2.toNat
    ts.map fun t => (segPoint sn.1.1 sn.1.2 t, i)).flatten

/-- `np.linspace(0, m, n, dtype=int)` (truncation) (tt2d.py:625). -/
noncomputable def intSpace (m n : ℕ) : List ℕ := (linspace 0 m n).map fun t => ⌊t⌋₊

/-- `points_2d, segment_indices` of length `H` (tt2d.py:583-634). -/
noncomputable def points (H : ℕ) (w : List V2) (xg : V2) : Except DemoErr (List (V2 × ℕ)) :=
  let lens := (segs w).map segLen
  let n := pointsPerSegment H lens
  if lens.sum > 0 ∧ ∃ k ∈ n, k < 0 then .error .negativeCount
  else
    let pts := if lens.sum > 0 then discretise w n
      else List.replicate H (w.headD (0, 0), 0)
    if pts.length > H then
      .ok ((intSpace (pts.length - 1) H).map fun i => pts.getD i ((0, 0), 0))
    else .ok (pts ++ List.replicate (H - pts.length) (xg, w.length - 2))

/-- `np.arctan2(dy, dx)`. (tt2d.py:654) -/
noncomputable def atan2 (dy dx : ℝ) : ℝ := Complex.arg ⟨dx, dy⟩

/-- The angle loop (tt2d.py:652-672). `prev` is `xref[i-1, 2]` (none for `i = 0`), `a`/`b` are
`xg[2]`/`xg[3]`. The Boolean of a row is `angle_mask`. -/
noncomputable def angles (pref : ℤ) (a b : ℝ) : Option ℝ → List (V2 × Bool) → List (Q4 × Bool)
  | _, [] => []
  | _, [r] => [(⟨r.1.1, r.1.2, a, b⟩, r.2)]
  | prev, r :: r' :: rest =>
    let dx := r'.1.1 - r.1.1
    let dy := r'.1.2 - r.1.2
    let theta := if |dx| > 1e-6 ∨ |dy| > 1e-6 then
        (if pref = -1 ∨ pref = -2 then atan2 dy dx + π else atan2 dy dx)
      else prev.getD a
    let th := if r.2 then theta else 0
    (⟨r.1.1, r.1.2, th, th⟩, r.2) :: angles pref a b (some th) (r' :: rest)

/-- `generate_demonstration_trajectory` (tt2d.py:466-683): rows of `xref` with `angle_mask`. -/
noncomputable def generate (P : Params) (horizontal : Bool) (pref : ℤ) (x0 : V2) (xg : Q4) :
    Except DemoErr (List (Q4 × Bool)) :=
  let w := waypoints P horizontal x0 (xg.px, xg.py)
  match points P.H w (xg.px, xg.py) with
  | .error e => .error e
  | .ok pts =>
    if P.H = 0 then .error .emptyTrajectory
    else .ok (angles pref xg.th1 xg.th2 none (pts.map fun p => (p.1, decide (p.2 = w.length - 2))))

/-- Position term of the score (tt2d.py:1118, kinematic_bicycle2d.py:383), for an error
norm `e` and threshold `thr`; also the angle terms with `e = |theta_err|` (1154-1155). -/
noncomputable def quadTerm (e thr : ℝ) : ℝ := -(clip e 0 thr / thr) ^ 2

/-- `theta1_err, theta2_err` before the mask (tt2d.py:1124-1146). -/
noncomputable def headErr (pref : ℤ) (a1 a2 r1 r2 : ℝ) : ℝ × ℝ :=
  let d1 := wrapPi (a1 - r1)
  let d2 := wrapPi (a2 - r2)
  let o1 := wrapPi (a1 - r1 - π)
  let o2 := wrapPi (a2 - r2 - π)
  let useDirect := |d1| + |d2| < |o1| + |o2|
  if pref = 0 then (if useDirect then d1 else o1, if useDirect then d2 else o2) else (d1, d2)

/-- One row of `combined_logpd` (tt2d.py:1103-1161): `tr` is the tractor reference point `xs[:, :2]`,
`tp` the result of `get_trailer_position`. -/
noncomputable def rowLogpd (P : Params) (pref : ℤ) (tr tp : V2) (a1 a2 : ℝ) (ref : Q4 × Bool) : ℝ :=
  let pos := if pref = 1 ∨ pref = 2 then tr else tp
  let e := headErr pref a1 a2 ref.1.th1 ref.1.th2
  P.refPosWeight * quadTerm (norm2 (pos - (ref.1.px, ref.1.py))) P.refRewardThreshold
    + P.refTheta1Weight * quadTerm |if ref.2 then e.1 else 0| P.phiMax
    + P.refTheta2Weight * quadTerm |if ref.2 then e.2 else 0| P.phiMax

/-- `eval_xref_logpd` (tt2d.py:1089-1166) with `xref` set; `xs` and `xref` have the same number of
rows (JAX rejects other shapes). -/
noncomputable def evalXref (P : Params) (xref : List (Q4 × Bool)) (pref : ℤ) (xs : List Q4) : ℝ :=
  mean (List.zipWith (fun q r => rowLogpd P pref (q.px, q.py) (TT2d.trailerPos P q) q.th1 q.th2 r)
    xs xref)

/-- One row for the bicycle (kinematic_bicycle2d.py:372-407). -/
noncomputable def rowLogpdBicycle (P : Params) (pref : ℤ) (q : Q3) (ref : Q3 × Bool) : ℝ :=
  let d := wrapPi (q.th1 - ref.1.th1)
  let o := wrapPi (q.th1 - ref.1.th1 - π)
  let e := if pref = 0 then (if |d| < |o| then d else o) else d
  P.refPosWeight * quadTerm (norm2 ((q.px, q.py) - (ref.1.px, ref.1.py))) P.refRewardThreshold
    + P.refTheta1Weight * quadTerm |if ref.2 then e else 0| P.phiMax

/-- `KinematicBicycle2d.eval_xref_logpd` (kinematic_bicycle2d.py:363-416). -/
noncomputable def evalXrefBicycle (P : Params) (xref : List (Q3 × Bool)) (pref : ℤ) (xs : List Q3) :
    ℝ :=
  mean (List.zipWith (fun q r => rowLogpdBicycle P pref q r) xs xref)

/-- Inherited `eval_xref_logpd` for the train: `get_trailer_position` is the last trailer
(n_trailer2d.py:386-389), `xs[:, 3]` the first trailer's heading. -/
noncomputable def evalXrefN (T : NTrailer) (xref : List (Q4 × Bool)) (pref : ℤ) (xs : List QN) : ℝ :=
  mean (List.zipWith (fun q r => rowLogpd T.toParams pref (q.px, q.py) (T.lastTrailerPos q) q.th0
    (q.ths.getD 0 0) r) xs xref)

/-- `compute_demonstration_reward` (tt2d.py:685-703) for given reward functions and rows. -/
noncomputable def rewardOf {Q : Type} (reward terminal : Q → ℝ) (w : ℝ) (rows : List Q) : ℝ :=
  mean (rows.map reward) + w * ((rows.getLast?).map terminal).getD 0

end Demo

/-! ## What the planner sees of each robot (mbd_planner.py:216-250) -/

/-- The demonstration `run_diffusion` generates first (mbd_planner.py:219-224), for a tractor-trailer:
rows and `rew_xref`; an exception aborts the run. -/
noncomputable def TT2d.demo (T : TT2d) (pref : ℤ) : Except DemoErr (List (Q4 × Bool)) :=
  Demo.generate T.toParams true pref (T.x0.px, T.x0.py) T.xg

/-- A `TractorTrailer2d` as the planner uses it. `xref` is its reference trajectory.
(the attributes used by mbd_planner.py:212-620) -/
noncomputable def TT2d.planEnv (T : TT2d) (ext : Ext Q4) (xref : List (Q4 × Bool)) : PlanEnv Q4 :=
  { reset := fun _ => T.reset
    step := T.step ext
    stepViz := T.stepInternal ext true
    terminal := TT2d.getTerminalReward T.toParams T.xg
    terminalWeight := T.terminalRewardWeight
    steeringWeight := T.steeringWeight
    deltaMax := T.deltaMax
    xrefLogpd := Demo.evalXref T.toParams xref
    rewXref := Demo.rewardOf (TT2d.getReward T.toParams T.xg)
      (TT2d.getTerminalReward T.toParams T.xg) T.terminalRewardWeight (xref.map Prod.fst) }

/-- `KinematicBicycle2d.generate_demonstration_trajectory` (kinematic_bicycle2d.py:335-361): the
parent with the goal extended by `theta2 = theta1`, cut to three columns. -/
noncomputable def Bicycle.demo (T : Bicycle) (pref : ℤ) : Except DemoErr (List (Q3 × Bool)) :=
  match Demo.generate T.toParams true pref (T.x0.px, T.x0.py)
      ⟨T.xg.px, T.xg.py, T.xg.th1, T.xg.th1⟩ with
  | .error e => .error e
  | .ok rows => .ok (rows.map fun r => (⟨r.1.px, r.1.py, r.1.th1⟩, r.2))

/-- A `KinematicBicycle2d` as the planner uses it. (the attributes used by mbd_planner.py:212-620) -/
noncomputable def Bicycle.planEnv (T : Bicycle) (ext : Ext Q3) (xref : List (Q3 × Bool)) :
    PlanEnv Q3 :=
  { reset := fun _ => T.reset
    step := T.step ext
    stepViz := T.stepInternal ext true
    terminal := Bicycle.getTerminalReward T.toParams T.xg
    terminalWeight := T.terminalRewardWeight
    steeringWeight := T.steeringWeight
    deltaMax := T.deltaMax
    xrefLogpd := Demo.evalXrefBicycle T.toParams xref
    rewXref := Demo.rewardOf (Bicycle.getReward T.toParams T.xg)
      (Bicycle.getTerminalReward T.toParams T.xg) T.terminalRewardWeight (xref.map Prod.fst) }

/-- `AccTractorTrailer2d.generate_demonstration_trajectory` (acc_tt2d.py:403-415). -/
noncomputable def Acc.demo (T : Acc) (pref : ℤ) : Except DemoErr (List (Q4 × Bool)) :=
  Demo.generate T.toParams true pref (T.x0.px, T.x0.py) T.xg.pose

/-- An `AccTractorTrailer2d` as the planner uses it (acc_tt2d.py:403-432). -/
noncomputable def Acc.planEnv (T : Acc) (ext : Ext Q6) (xref : List (Q4 × Bool)) : PlanEnv Q6 :=
  { reset := fun _ => T.reset
    step := T.step ext
    stepViz := T.stepInternal ext true
    terminal := T.getTerminalReward
    terminalWeight := T.terminalRewardWeight
    steeringWeight := T.steeringWeight
    deltaMax := T.deltaMax
    xrefLogpd := fun pref qs => Demo.evalXref T.toParams xref pref (qs.map Q6.pose)
    rewXref := Demo.rewardOf (TT2d.getReward T.toParams T.xg.pose)
      (TT2d.getTerminalReward T.toParams T.xg.pose) T.terminalRewardWeight (xref.map Prod.fst) }

/-- The train inherits the generator (tt2d.py:466-683): `xg[2], xg[3]` are the tractor's and first
trailer's goal headings. -/
noncomputable def NTrailer.demo (T : NTrailer) (pref : ℤ) : Except DemoErr (List (Q4 × Bool)) :=
  Demo.generate T.toParams true pref (T.x0.px, T.x0.py)
    ⟨T.xg.px, T.xg.py, T.xg.th0, T.xg.ths.getD 0 0⟩

/-- Step of the train with an exception replaced by the unchanged state. Only used where the step
cannot raise (`NTrailer.step_ok_iff`): projection off, state of the right length.
(n_trailer2d.py:121-168) -/
noncomputable def NTrailer.stepTotal (T : NTrailer) (guide : QN → QN) (viz : Bool) (s : St QN)
    (a : U) : St QN :=
  match T.stepInternal guide viz s a with
  | .ok s' => s'
  | .error _ => s

/-- An `NTrailer2d` as the planner uses it (with projection off, see `stepTotal`).
(the attributes used by mbd_planner.py:212-620) -/
noncomputable def NTrailer.planEnv (T : NTrailer) (guide : QN → QN) (xref : List (Q4 × Bool)) :
    PlanEnv QN :=
  { reset := fun _ => T.reset
    step := T.stepTotal guide false
    stepViz := T.stepTotal guide true
    terminal := T.getTerminalReward
    terminalWeight := T.terminalRewardWeight
    steeringWeight := T.steeringWeight
    deltaMax := T.deltaMax
    xrefLogpd := Demo.evalXrefN T xref
    rewXref := Demo.rewardOf T.getReward T.getTerminalReward T.terminalRewardWeight
      (xref.map fun r => ⟨r.1.px, r.1.py, r.1.th1, [r.1.th2]⟩) }

end Mbd
