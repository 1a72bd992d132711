import Verif.PropsScore
import Verif.PropsUpdate
import Verif.PropsShape

/-!
# C50, C70: the score against the demonstration and the rewards in closed form
-/

namespace Spec

open Mbd Real

/-- Size of an angle up to full turns. -/
noncomputable def turnGap (a : ℝ) : ℝ := sInf (Set.range fun k : ℤ => |a + 2 * π * k|)

/-- Squared share of the threshold, at most 1. -/
noncomputable def share (d thr : ℝ) : ℝ := (min d thr / thr) ^ 2

/-- Sizes of the two heading errors: directly, or, without preference, with both headings reversed if
that makes the total no larger. -/
noncomputable def headGaps (pref : ℤ) (d1 d2 : ℝ) : ℝ × ℝ :=
  if pref = 0 ∧ turnGap (d1 - π) + turnGap (d2 - π) ≤ turnGap d1 + turnGap d2
  then (turnGap (d1 - π), turnGap (d2 - π)) else (turnGap d1, turnGap d2)

/-- Score of one moment: minus the weighted shares of the position error and, in the final segment,
of the two heading errors. -/
noncomputable def momentScore (P : Params) (pref : ℤ) (final : Bool) (pos refPos : Pt)
    (a1 a2 r1 r2 : ℝ) : ℝ :=
  -(P.refPosWeight * share (dist pos refPos) P.refRewardThreshold +
    if final then P.refTheta1Weight * share (headGaps pref (a1 - r1) (a2 - r2)).1 P.phiMax +
      P.refTheta2Weight * share (headGaps pref (a1 - r1) (a2 - r2)).2 P.phiMax
    else 0)

/-- The same for one heading. -/
noncomputable def momentScore1 (P : Params) (pref : ℤ) (final : Bool) (pos refPos : Pt) (a r : ℝ) : ℝ :=
  -(P.refPosWeight * share (dist pos refPos) P.refRewardThreshold +
    if final then P.refTheta1Weight * share (if pref = 0 then
      min (turnGap (a - r)) (turnGap (a - r - π)) else turnGap (a - r)) P.phiMax else 0)

/-- Share of the heading part in the stage reward at distance `d` from the goal: a logistic switch
around the switching distance, capped. -/
noncomputable def headingShare (P : Params) (d : ℝ) : ℝ :=
  min (1 / (1 + exp ((d - P.dThrFactor * (P.l1 + P.lh + P.l2)) / P.kSwitch))) P.maxWTheta

/-- Stage reward from the distance to the goal, the misalignment and the hitch angle. -/
noncomputable def stageReward (P : Params) (d mis hitch : ℝ) : ℝ :=
  (1 - P.hitchAngleWeight) * ((1 - headingShare P d) * (1 - share d P.rewardThreshold) +
      headingShare P d * (P.headingRewardWeight * (2 - mis / (π / 2) ^ 2))) +
    P.hitchAngleWeight * (1 - (hitch / (2 * π / 9)) ^ 2)

end Spec

namespace Mbd

open Real Classical _root_.Spec

theorem abs_wrapPi_turnGap (a : ℝ) : |wrapPi a| = Spec.turnGap a := by
  symm
  apply IsLeast.csInf_eq
  constructor
  · obtain ⟨k, hk⟩ := wrapPi_congr a
    exact ⟨k, by rw [hk]⟩
  · rintro _ ⟨k, rfl⟩
    exact abs_wrapPi_le_turns a k

theorem quadTerm_share {e : ℝ} (he : 0 ≤ e) (thr : ℝ) : Demo.quadTerm e thr = -Spec.share e thr := by
  unfold Demo.quadTerm Spec.share clip
  rw [max_eq_left he]

theorem phiMax_pos' (P : Params) : 0 < P.phiMax := by
  unfold Params.phiMax deg2rad
  have := pi_pos
  positivity

theorem norm2_dist (a b : V2) : norm2 (a - b) = Spec.dist a b := by
  simp [norm2, Spec.dist]

theorem rowLogpd_moment (P : Params) (pref : ℤ) (tr tp : V2) (a1 a2 : ℝ) (ref : Q4 × Bool) :
    Demo.rowLogpd P pref tr tp a1 a2 ref = Spec.momentScore P pref ref.2 (Spec.tracked pref tr tp)
      (ref.1.px, ref.1.py) a1 a2 ref.1.th1 ref.1.th2 := by
  unfold Demo.rowLogpd Spec.momentScore Spec.tracked Spec.headGaps
  have z : Demo.quadTerm |(0 : ℝ)| P.phiMax = 0 := by
    rw [abs_zero, quadTerm_share le_rfl, Spec.share, min_eq_left (phiMax_pos' P).le]; simp
  have hd : 0 ≤ norm2 ((if pref = 1 ∨ pref = 2 then tr else tp) - (ref.1.px, ref.1.py)) := by
    unfold norm2; positivity
  rw [norm2_dist] at hd
  simp only [norm2_dist]
  simp only [quadTerm_share hd]
  cases ref.2
  · simp only [Bool.false_eq_true, if_false, z]
    ring
  · simp only [if_true, Demo.headErr, ← abs_wrapPi_turnGap]
    rw [quadTerm_share (abs_nonneg _), quadTerm_share (abs_nonneg _)]
    by_cases hp : pref = 0
    · simp only [hp, if_true, true_and]
      split_ifs with h1 h2 h2 <;> first | (exfalso; linarith) | (simp only; ring)
    · simp only [hp, if_false, false_and]
      ring

theorem rowLogpdBicycle_moment (P : Params) (pref : ℤ) (q : Q3) (ref : Q3 × Bool) :
    Demo.rowLogpdBicycle P pref q ref = Spec.momentScore1 P pref ref.2 (q.px, q.py)
      (ref.1.px, ref.1.py) q.th1 ref.1.th1 := by
  unfold Demo.rowLogpdBicycle Spec.momentScore1
  have z : Demo.quadTerm |(0 : ℝ)| P.phiMax = 0 := by
    rw [abs_zero, quadTerm_share le_rfl, Spec.share, min_eq_left (phiMax_pos' P).le]; simp
  have hd : 0 ≤ norm2 ((q.px, q.py) - (ref.1.px, ref.1.py)) := by unfold norm2; positivity
  rw [norm2_dist] at hd
  simp only [norm2_dist, quadTerm_share hd]
  cases ref.2
  · simp only [Bool.false_eq_true, if_false, z]
    ring
  · simp only [if_true, ← abs_wrapPi_turnGap]
    rw [quadTerm_share (abs_nonneg _)]
    by_cases hp : pref = 0
    · simp only [hp, if_true]
      split_ifs with h1
      · rw [min_eq_left h1.le]; ring
      · rw [min_eq_right (not_lt.mp h1)]; ring
    · simp only [hp, if_false]
      ring

theorem rewardOf_range {Q : Type} (rew term : Q → ℝ) (w : ℝ) (r : ℕ → Q) {H : ℕ} (hH : 0 < H) :
    Demo.rewardOf rew term w ((List.range H).map r) =
      Spec.avg H (fun t => rew (r t)) + w * term (r (H - 1)) := by
  unfold Demo.rewardOf
  rw [List.map_map, mean_range_map]
  have : ((List.range H).map r).getLast? = some (r (H - 1)) := by
    obtain ⟨n, rfl⟩ : ∃ n, H = n + 1 := ⟨H - 1, by omega⟩
    simp [List.range_succ]
  rw [this]
  rfl

/-- C50, closed form, tractor-trailer: the match of visited states `q 0, ..., q (H-1)` with the rows
`ref 0, ..., ref (H-1)` is the average score of the moments (tractor position for the forward
preferences, trailer axle otherwise), and what the planner takes as the demonstration's own reward is
the average reward of the rows plus the weighted terminal reward of the last one. -/
theorem C50_formula_tt2d (T : TT2d) (ext : Ext Q4) (ref : ℕ → Q4 × Bool) (pref : ℤ) (q : ℕ → Q4)
    (H : ℕ) :
    (T.planEnv ext ((List.range H).map ref)).xrefLogpd pref ((List.range H).map q) =
      Spec.avg H (fun t => Spec.momentScore T.toParams pref (ref t).2
        (Spec.tracked pref ((q t).px, (q t).py) (Spec.trailerAxle T.toParams (q t)))
        ((ref t).1.px, (ref t).1.py) (q t).th1 (q t).th2 (ref t).1.th1 (ref t).1.th2) ∧
    (0 < H → (T.planEnv ext ((List.range H).map ref)).rewXref =
      Spec.avg H (fun t => TT2d.getReward T.toParams T.xg (ref t).1) +
        T.terminalRewardWeight * TT2d.getTerminalReward T.toParams T.xg (ref (H - 1)).1) := by
  constructor
  · simp only [TT2d.planEnv, Demo.evalXref, zipWith_range, mean_range_map, rowLogpd_moment,
      Demo.trailerPos_eq]
  · intro hH
    simp only [TT2d.planEnv, List.map_map]
    exact rewardOf_range _ _ _ (fun t => (ref t).1) hH

/-- C50, closed form, acceleration-controlled tractor-trailer. -/
theorem C50_formula_acc (T : Acc) (ext : Ext Q6) (ref : ℕ → Q4 × Bool) (pref : ℤ) (q : ℕ → Q6)
    (H : ℕ) :
    (T.planEnv ext ((List.range H).map ref)).xrefLogpd pref ((List.range H).map q) =
      Spec.avg H (fun t => Spec.momentScore T.toParams pref (ref t).2
        (Spec.tracked pref ((q t).px, (q t).py) (Spec.trailerAxle T.toParams (q t).pose))
        ((ref t).1.px, (ref t).1.py) (q t).th1 (q t).th2 (ref t).1.th1 (ref t).1.th2) ∧
    (0 < H → (T.planEnv ext ((List.range H).map ref)).rewXref =
      Spec.avg H (fun t => TT2d.getReward T.toParams T.xg.pose (ref t).1) +
        T.terminalRewardWeight * TT2d.getTerminalReward T.toParams T.xg.pose (ref (H - 1)).1) := by
  constructor
  · simp only [Acc.planEnv, Demo.evalXref, List.map_map, zipWith_range, mean_range_map,
      rowLogpd_moment, Demo.trailerPos_eq]
    rfl
  · intro hH
    simp only [Acc.planEnv, List.map_map]
    exact rewardOf_range _ _ _ (fun t => (ref t).1) hH

/-- C50, closed form, bicycle: one heading, position of the vehicle. -/
theorem C50_formula_bicycle (T : Bicycle) (ext : Ext Q3) (ref : ℕ → Q3 × Bool) (pref : ℤ)
    (q : ℕ → Q3) (H : ℕ) :
    (T.planEnv ext ((List.range H).map ref)).xrefLogpd pref ((List.range H).map q) =
      Spec.avg H (fun t => Spec.momentScore1 T.toParams pref (ref t).2 ((q t).px, (q t).py)
        ((ref t).1.px, (ref t).1.py) (q t).th1 (ref t).1.th1) ∧
    (0 < H → (T.planEnv ext ((List.range H).map ref)).rewXref =
      Spec.avg H (fun t => Bicycle.getReward T.toParams T.xg (ref t).1) +
        T.terminalRewardWeight * Bicycle.getTerminalReward T.toParams T.xg (ref (H - 1)).1) := by
  constructor
  · simp only [Bicycle.planEnv, Demo.evalXrefBicycle, zipWith_range, mean_range_map,
      rowLogpdBicycle_moment]
  · intro hH
    simp only [Bicycle.planEnv, List.map_map]
    exact rewardOf_range _ _ _ (fun t => (ref t).1) hH

/-- C50, closed form, train: last trailer's axle, headings of tractor and first trailer. -/
theorem C50_formula_ntrailer (T : NTrailer) (guide : QN → QN) (ref : ℕ → Q4 × Bool) (pref : ℤ)
    (q : ℕ → QN) (H : ℕ) :
    (T.planEnv guide ((List.range H).map ref)).xrefLogpd pref ((List.range H).map q) =
      Spec.avg H (fun t => Spec.momentScore T.toParams pref (ref t).2
        (Spec.tracked pref ((q t).px, (q t).py) (T.lastTrailerPos (q t)))
        ((ref t).1.px, (ref t).1.py) (q t).th0 ((q t).ths.getD 0 0) (ref t).1.th1 (ref t).1.th2) ∧
    (0 < H → (T.planEnv guide ((List.range H).map ref)).rewXref =
      Spec.avg H (fun t => T.getReward ⟨(ref t).1.px, (ref t).1.py, (ref t).1.th1, [(ref t).1.th2]⟩) +
        T.terminalRewardWeight * T.getTerminalReward ⟨(ref (H - 1)).1.px, (ref (H - 1)).1.py,
          (ref (H - 1)).1.th1, [(ref (H - 1)).1.th2]⟩) := by
  constructor
  · simp only [NTrailer.planEnv, Demo.evalXrefN, zipWith_range, mean_range_map, rowLogpd_moment]
  · intro hH
    simp only [NTrailer.planEnv, List.map_map]
    exact rewardOf_range _ _ _ (fun t => (⟨(ref t).1.px, (ref t).1.py, (ref t).1.th1,
      [(ref t).1.th2]⟩ : QN)) hH

/-- Fifty rows along a line, the last ten on the final leg. -/
example (ext : Ext Q3) := C50_formula_bicycle Wit.bike ext
  (fun t => (⟨t, 0, 0⟩, decide (40 ≤ t))) 0 (fun t => ⟨t, 1, 0.1⟩) 50

/-! ## C70: the rewards -/

theorem posReward_share {d : ℝ} (hd : 0 ≤ d) (thr : ℝ) : Params.posReward d thr = 1 - Spec.share d thr := by
  unfold Params.posReward Spec.share clip
  rw [max_eq_left hd]

theorem wTheta_share (P : Params) (d : ℝ) : TT2d.wTheta P d = Spec.headingShare P d := by
  unfold TT2d.wTheta Spec.headingShare clip
  rw [max_eq_left (sigmoid_mem _).1.le]
  unfold sigmoid Params.dThr
  congr 4
  ring

/-- C70, closed form, tractor-trailer: stage and terminal reward. -/
theorem C70_formula_tt2d (P : Params) (xg q : Q4) :
    TT2d.getReward P xg q = Spec.stageReward P (Spec.goalDist P xg q)
      (Spec.misalign P.motionPreference q.th1 q.th2 xg.th1) (Spec.angle q.th1 q.th2) ∧
    TT2d.getTerminalReward P xg q =
      1 - Spec.share (Spec.goalDist P xg q) P.terminalRewardThreshold := by
  have h0 := goalDist_nonneg P xg q
  constructor
  · rw [getReward_shape, posReward_share h0, wTheta_share]
    unfold Spec.stageReward
    have : P.phiMax = 2 * π / 9 := by unfold Params.phiMax deg2rad; ring
    rw [this]
  · unfold TT2d.getTerminalReward
    rw [goalDist_eq, posReward_share h0]

/-- C70, closed form, acceleration control: the same function of the pose. -/
theorem C70_formula_acc (T : Acc) (q : Q6) :
    T.getReward q = Spec.stageReward T.toParams (Spec.goalDist T.toParams T.xg.pose q.pose)
      (Spec.misalign T.motionPreference q.th1 q.th2 T.xg.th1) (Spec.angle q.th1 q.th2) ∧
    T.getTerminalReward q =
      1 - Spec.share (Spec.goalDist T.toParams T.xg.pose q.pose) T.terminalRewardThreshold :=
  C70_formula_tt2d T.toParams T.xg.pose q.pose

/-- C70, closed form, bicycle: front axle, one heading, no hitch part. -/
theorem C70_formula_bicycle (P : Params) (xg q : Q3) :
    Bicycle.getReward P xg q =
      (1 - Spec.headingShare P (Spec.goalDist1 P xg q)) *
          (1 - Spec.share (Spec.goalDist1 P xg q) P.rewardThreshold) +
        Spec.headingShare P (Spec.goalDist1 P xg q) *
          (1 - Spec.misalign1 P.motionPreference q.th1 xg.th1 / (π / 2) ^ 2) ∧
    Bicycle.getTerminalReward P xg q =
      1 - Spec.share (Spec.goalDist1 P xg q) P.terminalRewardThreshold := by
  have h0 : 0 ≤ Spec.goalDist1 P xg q := dist_nonneg' _ _
  have hd : Bicycle.posDist P xg q = Spec.goalDist1 P xg q := by
    unfold Bicycle.posDist Spec.goalDist1 norm2 Spec.dist Params.tractorPos Spec.frame
    simp
  have hm : |Bicycle.headingErr P xg q| ^ 2 = Spec.misalign1 P.motionPreference q.th1 xg.th1 := by
    unfold Bicycle.headingErr Spec.misalign1
    have e1 : q.th1 - xg.th1 - π = q.th1 - (xg.th1 + π) := by ring
    simp only [e1, ← abs_wrapPi_angle]
    by_cases hp : P.motionPreference = 0
    · simp only [hp, if_true]
      split_ifs with h1
      · rw [min_eq_left (pow_le_pow_left₀ (abs_nonneg _) h1.le 2)]
      · rw [min_eq_right (pow_le_pow_left₀ (abs_nonneg _) (not_lt.mp h1) 2)]
    · simp only [hp, if_false]
  constructor
  · unfold Bicycle.getReward
    simp only [hd, posReward_share h0, wTheta_share, Params.thetaMax, div_pow, hm]
  · unfold Bicycle.getTerminalReward
    rw [hd, posReward_share h0]

/-- C70, closed form, train: only the distance of the front axle to the goal point (forward
preferences), of the last axle to its place in the goal pose (backward preferences), or the smaller
one (no preference). -/
theorem C70_formula_ntrailer (T : NTrailer) (q : QN) :
    let front := Spec.dist (Spec.frame (q.px, q.py) q.th0 T.l1 0) (T.xg.px, T.xg.py)
    let last := Spec.dist (T.lastTrailerPos q) (T.lastTrailerPos T.xg)
    let d := if T.motionPreference = 1 ∨ T.motionPreference = 2 then front
      else if T.motionPreference = -1 ∨ T.motionPreference = -2 then last else min front last
    T.getReward q = 1 - Spec.share d T.rewardThreshold ∧
    T.getTerminalReward q = 1 - Spec.share d T.terminalRewardThreshold := by
  intro front last d
  have h1 : T.dTractor q = front := by
    simp [NTrailer.dTractor, front, norm2, Spec.dist, Params.tractorPos, Spec.frame]
  have h2 : T.dLast q = last := by
    simp [NTrailer.dLast, last, norm2, Spec.dist]
  have hd : T.posDist q = d := by
    unfold NTrailer.posDist
    rw [h1, h2]
  have h0 : 0 ≤ d := by
    have a := dist_nonneg' (Spec.frame (q.px, q.py) q.th0 T.l1 0) (T.xg.px, T.xg.py)
    have b := dist_nonneg' (T.lastTrailerPos q) (T.lastTrailerPos T.xg)
    simp only [d]
    split_ifs
    · exact a
    · exact b
    · exact le_min a b
  unfold NTrailer.getReward NTrailer.getTerminalReward
  rw [hd, posReward_share h0, posReward_share h0]
  exact ⟨rfl, rfl⟩

/-- Half way to the goal with a quarter turn of misalignment. -/
example := C70_formula_tt2d Wit.params ⟨0, 0, 0, 0⟩ ⟨5, 0, π / 2, π / 2⟩

end Mbd
