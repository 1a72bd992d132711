import Verif.PropsReward
import Mathlib.Analysis.SpecialFunctions.Trigonometric.Inverse

/-!
# Shape of the rewards: C70

What the rewards prefer: nearer the goal, better aligned, straighter; and the direction in which a
robot without motion preference stands at the goal does not matter.
-/

namespace Spec

open Real Mbd

/-- Unsigned angle between two directions, in `[0, π]`. -/
noncomputable def angle (a b : ℝ) : ℝ := arccos (cos (a - b))

/-- Sum of squares of the angles of tractor and trailer to the goal heading `g`. -/
noncomputable def squares (t1 t2 g : ℝ) : ℝ := angle t1 g ^ 2 + angle t2 g ^ 2

/-- Misalignment of the tractor-trailer: with a motion preference the goal heading must be met;
without one (`0`) the opposite orientation is as good. -/
noncomputable def misalign (pref : ℤ) (t1 t2 g : ℝ) : ℝ :=
  if pref = 0 then min (squares t1 t2 g) (squares t1 t2 (g + π)) else squares t1 t2 g

/-- The same for a robot without trailer. -/
noncomputable def misalign1 (pref : ℤ) (t g : ℝ) : ℝ :=
  if pref = 0 then min (angle t g ^ 2) (angle t (g + π) ^ 2) else angle t g ^ 2

/-- Distance to the goal: of the front axle to the goal point if the robot prefers (1) or is made
(2) to drive forwards, else of the trailer axle to the trailer axle of the goal pose. -/
noncomputable def goalDist (P : Params) (xg q : Q4) : ℝ :=
  if P.motionPreference = 1 ∨ P.motionPreference = 2 then
    dist (frame (q.px, q.py) q.th1 P.l1 0) (xg.px, xg.py)
  else dist (trailerAxle P q) (trailerAxle P xg)

/-- Distance of the bicycle's front axle to the goal point. -/
noncomputable def goalDist1 (P : Params) (xg q : Q3) : ℝ :=
  dist (frame (q.px, q.py) q.th1 P.l1 0) (xg.px, xg.py)

/-- Both bodies turned round by half a turn about the trailer's axle. -/
noncomputable def aboutTurn (P : Params) (q : Q4) : Q4 :=
  let a := trailerAxle P q
  ⟨a.1 - (q.px - a.1), a.2 - (q.py - a.2), q.th1 + π, q.th2 + π⟩

end Spec

namespace Mbd

open Real Classical

theorem abs_wrapPi_angle (a b : ℝ) : |wrapPi (a - b)| = Spec.angle a b := by
  unfold Spec.angle
  obtain ⟨k, hk⟩ := wrapPi_congr (a - b)
  have h : cos (a - b) = cos |wrapPi (a - b)| := by
    rw [cos_abs, hk, cos_turn]
  rw [h, arccos_cos (abs_nonneg _) (abs_wrapPi_le _)]

theorem angle_mem (a b : ℝ) : 0 ≤ Spec.angle a b ∧ Spec.angle a b ≤ π :=
  ⟨arccos_nonneg _, arccos_le_pi _⟩

theorem angle_half (a b : ℝ) : Spec.angle a (b + π) = π - Spec.angle a b := by
  unfold Spec.angle
  rw [show a - (b + π) = a - b - π by ring, cos_sub_pi, arccos_neg]

theorem angle_half_left (a b : ℝ) : Spec.angle (a + π) b = π - Spec.angle a b := by
  unfold Spec.angle
  rw [show a + π - b = a - b + π by ring, cos_add_pi, arccos_neg]

theorem angle_both (a b c : ℝ) : Spec.angle (a + c) (b + c) = Spec.angle a b := by
  unfold Spec.angle; rw [show a + c - (b + c) = a - b by ring]

theorem angle_self (a : ℝ) : Spec.angle a a = 0 := by
  unfold Spec.angle; simp

theorem goalDist_eq (P : Params) (xg q : Q4) : TT2d.posDist P xg q = Spec.goalDist P xg q := by
  unfold TT2d.posDist Spec.goalDist Params.tracksTractor
  simp only [(C07_trailer_points P _).1]
  congr 1
  unfold norm2 Spec.dist Params.tractorPos Spec.frame
  simp

/-- The squares of the heading errors the code uses. -/
theorem headingErr_sq (P : Params) (xg q : Q4) :
    |(TT2d.headingErr P xg q).1| ^ 2 + |(TT2d.headingErr P xg q).2| ^ 2
      = Spec.misalign P.motionPreference q.th1 q.th2 xg.th1 := by
  unfold TT2d.headingErr Spec.misalign Spec.squares
  have e1 : q.th1 - xg.th1 - π = q.th1 - (xg.th1 + π) := by ring
  have e2 : q.th2 - xg.th1 - π = q.th2 - (xg.th1 + π) := by ring
  have hp := pi_pos
  simp only [e1, e2, abs_wrapPi_angle, angle_half]
  by_cases h0 : P.motionPreference = 0
  · rw [if_pos h0, if_pos h0]
    by_cases h : Spec.angle q.th1 xg.th1 + Spec.angle q.th2 xg.th1
        < π - Spec.angle q.th1 xg.th1 + (π - Spec.angle q.th2 xg.th1)
    · simp only [if_pos h, abs_wrapPi_angle]
      rw [min_eq_left]; nlinarith
    · simp only [if_neg h, abs_wrapPi_angle, angle_half]
      rw [min_eq_right]; nlinarith
  · rw [if_neg h0, if_neg h0]
    simp only [abs_wrapPi_angle]

/-- The stage reward in terms of distance, misalignment and articulation. -/
theorem getReward_shape (P : Params) (xg q : Q4) :
    TT2d.getReward P xg q =
      (1 - P.hitchAngleWeight) *
        ((1 - TT2d.wTheta P (Spec.goalDist P xg q)) *
            Params.posReward (Spec.goalDist P xg q) P.rewardThreshold
          + TT2d.wTheta P (Spec.goalDist P xg q) * (P.headingRewardWeight *
            (2 - Spec.misalign P.motionPreference q.th1 q.th2 xg.th1 / (π / 2) ^ 2)))
      + P.hitchAngleWeight * (1 - (Spec.angle q.th1 q.th2 / P.phiMax) ^ 2) := by
  unfold TT2d.getReward Params.thetaMax
  simp only [goalDist_eq, abs_wrapPi_angle, ← headingErr_sq]
  ring

theorem wTheta_pos {P : Params} (h : 0 < P.maxWTheta) (d : ℝ) : 0 < TT2d.wTheta P d := by
  unfold TT2d.wTheta clip
  exact lt_min (lt_of_lt_of_le (sigmoid_mem _).1 (le_max_left _ _)) h

theorem sigmoid_mono {a b : ℝ} (h : a ≤ b) : sigmoid a ≤ sigmoid b := by
  unfold sigmoid
  have := exp_pos (-b)
  exact one_div_le_one_div_of_le (by positivity) (by gcongr)

theorem wTheta_anti {P : Params} (hk : 0 < P.kSwitch) {d d' : ℝ} (h : d' ≤ d) :
    TT2d.wTheta P d ≤ TT2d.wTheta P d' := by
  unfold TT2d.wTheta clip
  have : sigmoid ((P.dThr - d) / P.kSwitch) ≤ sigmoid ((P.dThr - d') / P.kSwitch) :=
    sigmoid_mono (by gcongr)
  exact min_le_min (max_le_max this le_rfl) le_rfl

theorem posReward_anti {thr : ℝ} (ht : 0 < thr) {d d' : ℝ} (h : d' ≤ d) :
    Params.posReward d thr ≤ Params.posReward d' thr := by
  unfold Params.posReward
  have h0 : 0 ≤ clip d' 0 thr := by unfold clip; exact le_min (le_max_right _ _) ht.le
  have h1 : clip d' 0 thr ≤ clip d 0 thr := by
    unfold clip; exact min_le_min (max_le_max h le_rfl) le_rfl
  have : clip d' 0 thr / thr ≤ clip d 0 thr / thr := by gcongr
  have : 0 ≤ clip d' 0 thr / thr := by positivity
  nlinarith

theorem posReward_strict {thr : ℝ} (ht : 0 < thr) {d d' : ℝ} (h0 : 0 ≤ d') (h : d' < d)
    (h1 : d' < thr) : Params.posReward d thr < Params.posReward d' thr := by
  unfold Params.posReward
  have e : clip d' 0 thr = d' := by
    unfold clip; rw [max_eq_left h0, min_eq_left h1.le]
  have h1 : clip d' 0 thr < clip d 0 thr := by
    rw [e]; unfold clip; exact lt_min (lt_of_lt_of_le h (le_max_left _ _)) h1
  have : clip d' 0 thr / thr < clip d 0 thr / thr := by gcongr
  have : 0 ≤ clip d' 0 thr / thr := by rw [e]; positivity
  nlinarith

theorem dist_nonneg' (a b : V2) : 0 ≤ Spec.dist a b := sqrt_nonneg _

theorem goalDist_nonneg (P : Params) (xg q : Q4) : 0 ≤ Spec.goalDist P xg q := by
  unfold Spec.goalDist; split_ifs <;> exact dist_nonneg' _ _

theorem wit_rewardOK_pref (m : ℤ) : Spec.RewardOK { Wit.params with motionPreference := m } := by
  constructor <;> norm_num [Wit.params, Params.default]

/-! ## C70: better alignment -/

/-- C70, tractor-trailer: of two states equally far from the goal, one that is no worse aligned with
the goal heading and no more bent has no smaller stage reward; it has a larger one if it is strictly
better aligned, provided the weights of heading and pose are positive. -/
theorem C70_aligned_tt2d {P : Params} (h : Spec.RewardOK P) (xg q q' : Q4)
    (hd : Spec.goalDist P xg q' = Spec.goalDist P xg q)
    (ha : Spec.angle q'.th1 q'.th2 ≤ Spec.angle q.th1 q.th2) :
    (Spec.misalign P.motionPreference q'.th1 q'.th2 xg.th1
        ≤ Spec.misalign P.motionPreference q.th1 q.th2 xg.th1 →
      TT2d.getReward P xg q ≤ TT2d.getReward P xg q') ∧
    (Spec.misalign P.motionPreference q'.th1 q'.th2 xg.th1
        < Spec.misalign P.motionPreference q.th1 q.th2 xg.th1 →
      P.hitchAngleWeight < 1 → 0 < P.maxWTheta → 0 < P.headingRewardWeight →
      TT2d.getReward P xg q < TT2d.getReward P xg q') := by
  rw [getReward_shape, getReward_shape, hd]
  have hp := pi_pos
  have ha0 := (angle_mem q'.th1 q'.th2).1
  have hf : 0 < P.phiMax := by unfold Params.phiMax deg2rad; positivity
  have hart : (Spec.angle q'.th1 q'.th2 / P.phiMax) ^ 2 ≤ (Spec.angle q.th1 q.th2 / P.phiMax) ^ 2 := by
    gcongr
  have hw := (wTheta_mem h.w0 (Spec.goalDist P xg q)).1
  have h0 := h.h0
  have hart' := mul_le_mul_of_nonneg_left hart h0
  set R := Params.posReward (Spec.goalDist P xg q) P.rewardThreshold
  constructor
  · intro hm
    have hm' : Spec.misalign P.motionPreference q'.th1 q'.th2 xg.th1 / (π / 2) ^ 2
        ≤ Spec.misalign P.motionPreference q.th1 q.th2 xg.th1 / (π / 2) ^ 2 := by gcongr
    have := mul_nonneg (mul_nonneg (mul_nonneg (sub_nonneg.mpr h.h1) hw) h.k0) (sub_nonneg.mpr hm')
    nlinarith
  · intro hm hh hW hk
    have hm' : Spec.misalign P.motionPreference q'.th1 q'.th2 xg.th1 / (π / 2) ^ 2
        < Spec.misalign P.motionPreference q.th1 q.th2 xg.th1 / (π / 2) ^ 2 := by gcongr
    have := mul_pos (mul_pos (mul_pos (sub_pos.mpr hh)
      (wTheta_pos hW (Spec.goalDist P xg q))) hk) (sub_pos.mpr hm')
    nlinarith

theorem trailerAxle_aboutTurn (P : Params) (q : Q4) :
    Spec.trailerAxle P (Spec.aboutTurn P q) = Spec.trailerAxle P q := by
  unfold Spec.aboutTurn Spec.trailerAxle Spec.frame
  simp only [cos_add_pi, sin_add_pi]
  ext <;> simp <;> ring

/-- C70, no preference: turning the whole robot by half a turn about the trailer axle changes neither
the stage nor the terminal reward: driving in nose first or tail first is the same. -/
theorem C70_reversed_tt2d (P : Params) (h0 : P.motionPreference = 0) (xg q : Q4) :
    Spec.trailerAxle P (Spec.aboutTurn P q) = Spec.trailerAxle P q ∧
    (Spec.aboutTurn P q).th1 = q.th1 + π ∧ (Spec.aboutTurn P q).th2 = q.th2 + π ∧
    TT2d.getReward P xg (Spec.aboutTurn P q) = TT2d.getReward P xg q ∧
    TT2d.getTerminalReward P xg (Spec.aboutTurn P q) = TT2d.getTerminalReward P xg q := by
  have ht := trailerAxle_aboutTurn P q
  have hd : Spec.goalDist P xg (Spec.aboutTurn P q) = Spec.goalDist P xg q := by
    unfold Spec.goalDist
    rw [if_neg (by rw [h0]; norm_num), if_neg (by rw [h0]; norm_num), ht]
  have hm : Spec.misalign P.motionPreference (Spec.aboutTurn P q).th1 (Spec.aboutTurn P q).th2 xg.th1
      = Spec.misalign P.motionPreference q.th1 q.th2 xg.th1 := by
    unfold Spec.misalign Spec.squares
    rw [if_pos h0, if_pos h0]
    simp only [Spec.aboutTurn, angle_half_left, angle_half, sub_sub_cancel]
    exact min_comm _ _
  refine ⟨ht, rfl, rfl, ?_, ?_⟩
  · rw [getReward_shape, getReward_shape, hd, hm]
    simp only [Spec.aboutTurn, angle_both]
  · unfold TT2d.getTerminalReward; rw [goalDist_eq, goalDist_eq, hd]

/-- C70, with a preference (±1, ±2) the orientation matters: a straight robot pointing along the goal
heading has a strictly larger stage reward than one equally far away pointing the other way. -/
theorem C70_preferred_tt2d {P : Params} (h : Spec.RewardOK P) (hh : P.hitchAngleWeight < 1)
    (hW : 0 < P.maxWTheta) (hk : 0 < P.headingRewardWeight) (h0 : P.motionPreference ≠ 0)
    (xg q q' : Q4) (hd : Spec.goalDist P xg q' = Spec.goalDist P xg q)
    (h1 : q'.th1 = xg.th1) (h2 : q'.th2 = xg.th1) (h3 : q.th1 = xg.th1 + π)
    (h4 : q.th2 = xg.th1 + π) :
    TT2d.getReward P xg q < TT2d.getReward P xg q' := by
  refine (C70_aligned_tt2d h xg q q' hd ?_).2 ?_ hh hW hk
  · rw [h1, h2, h3, h4, angle_self, angle_self]
  · unfold Spec.misalign Spec.squares
    rw [if_neg h0, if_neg h0, h1, h2, h3, h4, angle_half_left, angle_self]
    have := pi_pos
    nlinarith

/-- The hypotheses are met: a robot that prefers driving forwards, 10 m from the goal, facing it and
facing away, with its front axle at the same point. -/
example : TT2d.getReward { Wit.params with motionPreference := 1 } ⟨9, 0, 0, 0⟩ ⟨2.23, 0, 0 + π, 0 + π⟩ <
    TT2d.getReward { Wit.params with motionPreference := 1 } ⟨9, 0, 0, 0⟩ ⟨-4.23, 0, 0, 0⟩ := by
  refine C70_preferred_tt2d (wit_rewardOK_pref 1) ?_ ?_ ?_ ?_ _ _ _ ?_ rfl rfl rfl rfl
  iterate 4 norm_num [Wit.params, Params.default]
  unfold Spec.goalDist
  rw [if_pos (Or.inl rfl), if_pos (Or.inl rfl)]
  congr 1
  unfold Spec.frame
  ext <;> norm_num [Wit.params, Params.default]

/-- Without preference: standing at the goal pose backwards earns the full reward 1 as well. -/
example : TT2d.getReward Wit.params ⟨9, 0, 0, 0⟩ (Spec.aboutTurn Wit.params ⟨9, 0, 0, 0⟩) = 1 := by
  rw [(C70_reversed_tt2d Wit.params rfl _ _).2.2.2.1]
  exact (C34_tt2d_partial wit_rewardOK (by unfold Params.tracksTractor; norm_num [Wit.params, Params.default])
    (by norm_num [Wit.params, Params.default]) ⟨9, 0, 0, 0⟩ 0 (by simp) ⟨0, 0, 0, 0⟩).2.2.1

/-! ## C70: nearer the goal -/

/-- C70, approaching: of two states with the same headings the one nearer the goal has no smaller
reward, as long as the heading part of the reward is not below the position part at the farther one
(a robot aligned with the goal meets this, see `C70_approach_aligned`). -/
theorem C70_approach_tt2d_partial {P : Params} (h : Spec.RewardOK P) (hk : 0 < P.kSwitch)
    (xg q q' : Q4) (h1 : q'.th1 = q.th1) (h2 : q'.th2 = q.th2)
    (hd : Spec.goalDist P xg q' ≤ Spec.goalDist P xg q)
    (hbest : 1 - (min (Spec.goalDist P xg q) P.rewardThreshold / P.rewardThreshold) ^ 2 ≤
      P.headingRewardWeight *
        (2 - Spec.misalign P.motionPreference q.th1 q.th2 xg.th1 / (π / 2) ^ 2)) :
    TT2d.getReward P xg q ≤ TT2d.getReward P xg q' := by
  rw [getReward_shape, getReward_shape, h1, h2]
  have e : 1 - (min (Spec.goalDist P xg q) P.rewardThreshold / P.rewardThreshold) ^ 2
      = Params.posReward (Spec.goalDist P xg q) P.rewardThreshold := by
    unfold Params.posReward clip
    rw [max_eq_left (goalDist_nonneg P xg q)]
  rw [e] at hbest
  have a := posReward_anti h.thr hd
  have b := wTheta_anti hk hd
  have c := (wTheta_mem h.w0 (Spec.goalDist P xg q')).2.2
  have d := (wTheta_mem h.w0 (Spec.goalDist P xg q)).1
  set S := P.headingRewardWeight *
        (2 - Spec.misalign P.motionPreference q.th1 q.th2 xg.th1 / (π / 2) ^ 2)
  set R := Params.posReward (Spec.goalDist P xg q) P.rewardThreshold
  set R' := Params.posReward (Spec.goalDist P xg q') P.rewardThreshold
  set w := TT2d.wTheta P (Spec.goalDist P xg q)
  set w' := TT2d.wTheta P (Spec.goalDist P xg q')
  have key : (1 - w) * R + w * S ≤ (1 - w') * R' + w' * S := by
    have := mul_nonneg (sub_nonneg.mpr c.le) (sub_nonneg.mpr a)
    have := mul_nonneg (sub_nonneg.mpr b) (sub_nonneg.mpr hbest)
    nlinarith
  have := mul_le_mul_of_nonneg_left key (sub_nonneg.mpr h.h1)
  linarith

/-- C70, approaching along the goal heading with the default heading weight: nearer is never worse,
and strictly better inside the reward radius. -/
theorem C70_approach_aligned {P : Params} (h : Spec.RewardOK P) (hk : 0 < P.kSwitch)
    (hw : P.headingRewardWeight = 1 / 2) (xg q q' : Q4) (h1 : q.th1 = xg.th1) (h2 : q.th2 = xg.th1)
    (h1' : q'.th1 = xg.th1) (h2' : q'.th2 = xg.th1)
    (hd : Spec.goalDist P xg q' ≤ Spec.goalDist P xg q) :
    TT2d.getReward P xg q ≤ TT2d.getReward P xg q' ∧
    (Spec.goalDist P xg q' < Spec.goalDist P xg q → Spec.goalDist P xg q' < P.rewardThreshold →
      P.hitchAngleWeight < 1 → TT2d.getReward P xg q < TT2d.getReward P xg q') := by
  have hm : Spec.misalign P.motionPreference q.th1 q.th2 xg.th1 = 0 := by
    unfold Spec.misalign Spec.squares
    rw [h1, h2, angle_self]
    split_ifs
    · rw [min_eq_left]
      · norm_num
      · norm_num; positivity
    · norm_num
  constructor
  · refine C70_approach_tt2d_partial h hk xg q q' (h1'.trans h1.symm) (h2'.trans h2.symm) hd ?_
    rw [hm, hw]
    norm_num
    positivity
  · intro hlt hthr hh
    rw [getReward_shape, getReward_shape, h1'.trans h1.symm, h2'.trans h2.symm, hm, hw]
    have a := posReward_strict h.thr (goalDist_nonneg P xg q') hlt hthr
    have b := wTheta_anti hk hlt.le
    have c := (wTheta_mem h.w0 (Spec.goalDist P xg q')).2.2
    have d := (posReward_mem h.thr (Spec.goalDist P xg q)).2
    set R := Params.posReward (Spec.goalDist P xg q) P.rewardThreshold
    set R' := Params.posReward (Spec.goalDist P xg q') P.rewardThreshold
    set w := TT2d.wTheta P (Spec.goalDist P xg q)
    set w' := TT2d.wTheta P (Spec.goalDist P xg q')
    have key : (1 - w) * R + w * 1 < (1 - w') * R' + w' * 1 := by
      have := mul_pos (sub_pos.mpr c) (sub_pos.mpr a)
      have := mul_nonneg (sub_nonneg.mpr b) (sub_nonneg.mpr d)
      nlinarith
    have := mul_lt_mul_of_pos_left key (sub_pos.mpr hh)
    norm_num at this ⊢
    linarith

/-- Driving straight in from 20 m to 10 m. -/
example : TT2d.getReward Wit.params ⟨0, 0, 0, 0⟩ ⟨-20, 0, 0, 0⟩ <
    TT2d.getReward Wit.params ⟨0, 0, 0, 0⟩ ⟨-10, 0, 0, 0⟩ := by
  have hd : ∀ x : ℝ, x ≤ 0 → Spec.goalDist Wit.params ⟨0, 0, 0, 0⟩ ⟨x, 0, 0, 0⟩ = -x := by
    intro x hx
    unfold Spec.goalDist
    rw [if_neg (by norm_num [Wit.params, Params.default])]
    unfold Spec.dist Spec.trailerAxle Spec.frame
    simp
    rw [sqrt_sq_eq_abs, abs_of_nonpos hx]
  refine (C70_approach_aligned wit_rewardOK ?_ ?_ ⟨0, 0, 0, 0⟩ ⟨-20, 0, 0, 0⟩ ⟨-10, 0, 0, 0⟩ rfl rfl rfl rfl ?_).2 ?_ ?_ ?_
  · norm_num [Wit.params, Params.default]
  · norm_num [Wit.params, Params.default]
  · rw [hd _ (by norm_num), hd _ (by norm_num)]; norm_num
  · rw [hd _ (by norm_num), hd _ (by norm_num)]; norm_num
  · rw [hd _ (by norm_num)]; norm_num [Wit.params, Params.default]
  · norm_num [Wit.params, Params.default]

/-- The full claim fails: with the default parameters a straight robot standing across the goal
heading is rewarded less with its trailer axle exactly at the goal than 7.28 m away. -/
theorem C70_approach_refuted :
    ¬ (∀ (P : Params) (xg q q' : Q4), Spec.RewardOK P → 0 < P.kSwitch → P.headingRewardWeight = 1 / 2 →
      q'.th1 = q.th1 → q'.th2 = q.th2 →
      Spec.goalDist P xg q' ≤ Spec.goalDist P xg q →
      TT2d.getReward P xg q ≤ TT2d.getReward P xg q') := by
  intro H
  let P := Params.default [] []
  have hP : Spec.RewardOK P := by constructor <;> norm_num [P, Params.default]
  let xg : Q4 := ⟨0, 0, 0, 0⟩
  let q : Q4 := ⟨3.23, 4.05, π / 2, π / 2⟩
  let q' : Q4 := ⟨-4.05, 4.05, π / 2, π / 2⟩
  have hax : Spec.trailerAxle P xg = (-4.05, 0) := by
    ext <;> norm_num [Spec.trailerAxle, Spec.frame, xg, P, Params.default]
  have hq : Spec.trailerAxle P q = (3.23, 0) := by
    ext <;> norm_num [Spec.trailerAxle, Spec.frame, q, P, Params.default]
  have hq' : Spec.trailerAxle P q' = (-4.05, 0) := by
    ext <;> norm_num [Spec.trailerAxle, Spec.frame, q', P, Params.default]
  have hm : ¬ (P.motionPreference = 1 ∨ P.motionPreference = 2) := by norm_num [P, Params.default]
  have d : Spec.goalDist P xg q = 7.28 := by
    unfold Spec.goalDist; rw [if_neg hm, hax, hq]; unfold Spec.dist
    rw [show (((3.23, 0) : V2).1 - ((-4.05, 0) : V2).1) ^ 2 + (((3.23, 0) : V2).2 - ((-4.05, 0) : V2).2) ^ 2
      = (7.28 : ℝ) ^ 2 by norm_num, sqrt_sq (by norm_num)]
  have d' : Spec.goalDist P xg q' = 0 := by
    unfold Spec.goalDist; rw [if_neg hm, hax, hq']; unfold Spec.dist; norm_num
  have h := H P xg q q' hP (by norm_num [P, Params.default]) (by norm_num [P, Params.default]) rfl rfl
    (by rw [d, d']; norm_num)
  have an : Spec.angle (π / 2) 0 = π / 2 := by
    unfold Spec.angle; rw [sub_zero, arccos_cos (by positivity) (by linarith [pi_pos])]
  have hmis : Spec.misalign 0 (π / 2) (π / 2) 0 = 2 * (π / 2) ^ 2 := by
    unfold Spec.misalign Spec.squares
    rw [if_pos rfl, angle_half, an, min_eq_left (by nlinarith)]; ring
  have w1 : TT2d.wTheta P 7.28 = 1 / 2 := by
    unfold TT2d.wTheta clip sigmoid Params.dThr
    norm_num [P, Params.default]
  have w0 : TT2d.wTheta P 0 = 3 / 4 := by
    have hs : (3 / 4 : ℝ) ≤ sigmoid ((P.dThr - 0) / P.kSwitch) := by
      have e : (P.dThr - 0) / P.kSwitch = 2.912 := by
        norm_num [Params.dThr, P, Params.default]
      rw [e]
      unfold sigmoid
      have h1 := add_one_le_exp (2.912 : ℝ)
      rw [exp_neg, le_div_iff₀ (by positivity)]
      have : (exp 2.912)⁻¹ ≤ 1 / 3 := by
        rw [inv_le_comm₀ (exp_pos _) (by norm_num)]; norm_num; linarith
      linarith
    unfold TT2d.wTheta clip
    rw [max_eq_left (sigmoid_mem _).1.le]
    rw [show P.maxWTheta = 3 / 4 by norm_num [P, Params.default]]
    exact min_eq_right hs
  rw [getReward_shape, getReward_shape, d, d', w1, w0] at h
  have e0 : P.motionPreference = 0 := rfl
  simp only [e0, q, q', xg, hmis, angle_self] at h
  have hpi : (π / 2) ^ 2 ≠ 0 := by positivity
  rw [mul_div_cancel_right₀ _ hpi] at h
  norm_num [P, Params.default, Params.posReward, clip] at h

/-! ## C70: terminal reward -/

/-- C70, terminal reward: it depends on the distance to the goal alone, grows as the distance
shrinks, strictly so inside its radius. -/
theorem C70_terminal_tt2d {P : Params} (h : 0 < P.terminalRewardThreshold) (xg q q' : Q4) :
    (Spec.goalDist P xg q' ≤ Spec.goalDist P xg q →
      TT2d.getTerminalReward P xg q ≤ TT2d.getTerminalReward P xg q') ∧
    (Spec.goalDist P xg q' < Spec.goalDist P xg q →
      Spec.goalDist P xg q' < P.terminalRewardThreshold →
      TT2d.getTerminalReward P xg q < TT2d.getTerminalReward P xg q') := by
  unfold TT2d.getTerminalReward
  rw [goalDist_eq, goalDist_eq]
  exact ⟨fun hd => posReward_anti h hd,
    fun hd ht => posReward_strict h (goalDist_nonneg P xg q') hd ht⟩

/-- The documented half weight on the heading (tt2d.py:798-799) is not there: it is false that of two
final states at the same distance, with a preference, the one aligned with the goal beats the one
standing the wrong way round. -/
theorem C70_terminal_heading_refuted :
    ¬ (∀ (P : Params) (xg q q' : Q4), Spec.RewardOK P → P.motionPreference ≠ 0 →
      Spec.goalDist P xg q' = Spec.goalDist P xg q →
      q'.th1 = xg.th1 → q'.th2 = xg.th1 → q.th1 = xg.th1 + π → q.th2 = xg.th1 + π →
      TT2d.getTerminalReward P xg q < TT2d.getTerminalReward P xg q') := by
  intro H
  let P : Params := { Params.default [] [] with motionPreference := -1 }
  have hP : Spec.RewardOK P := by constructor <;> norm_num [P, Params.default]
  let xg : Q4 := ⟨0, 0, 0, 0⟩
  have ht := trailerAxle_aboutTurn P xg
  have hd : Spec.goalDist P xg xg = Spec.goalDist P xg (Spec.aboutTurn P xg) := by
    unfold Spec.goalDist
    rw [if_neg (by norm_num [P]), if_neg (by norm_num [P]), ht]
  have h := H P xg (Spec.aboutTurn P xg) xg hP (by norm_num [P]) hd rfl rfl rfl rfl
  unfold TT2d.getTerminalReward at h
  rw [goalDist_eq, goalDist_eq, hd] at h
  exact lt_irrefl _ h

example : TT2d.getTerminalReward Wit.params ⟨0, 0, 0, 0⟩ ⟨-20, 0, 0, 0⟩ <
    TT2d.getTerminalReward Wit.params ⟨0, 0, 0, 0⟩ ⟨-5, 0, 0, 0⟩ := by
  have hd : ∀ x : ℝ, x ≤ 0 → Spec.goalDist Wit.params ⟨0, 0, 0, 0⟩ ⟨x, 0, 0, 0⟩ = -x := by
    intro x hx
    unfold Spec.goalDist
    rw [if_neg (by norm_num [Wit.params, Params.default])]
    unfold Spec.dist Spec.trailerAxle Spec.frame
    simp
    rw [sqrt_sq_eq_abs, abs_of_nonpos hx]
  refine (C70_terminal_tt2d (by norm_num [Wit.params, Params.default]) _ _ _).2 ?_ ?_
  · rw [hd _ (by norm_num), hd _ (by norm_num)]; norm_num
  · rw [hd _ (by norm_num)]; norm_num [Wit.params, Params.default]

/-! ## C70: the other robots -/

/-- C70, acceleration model: the rewards are those of the pose, so all of the above holds with the
goal pose and the pose of the state; speed and steering angle do not enter. -/
theorem C70_acc (T : Acc) (q q' : Q6) (h : q'.pose = q.pose) :
    T.getReward q' = T.getReward q ∧ T.getTerminalReward q' = T.getTerminalReward q ∧
    T.getReward q = TT2d.getReward T.toParams T.xg.pose q.pose ∧
    T.getTerminalReward q = TT2d.getTerminalReward T.toParams T.xg.pose q.pose := by
  unfold Acc.getReward Acc.getTerminalReward
  rw [h]; exact ⟨rfl, rfl, rfl, rfl⟩

example : Wit.acc.getReward ⟨9, 0, 0, 0, 3, 0.5⟩ = Wit.acc.getReward ⟨9, 0, 0, 0, 0, 0⟩ :=
  (C70_acc Wit.acc ⟨9, 0, 0, 0, 0, 0⟩ ⟨9, 0, 0, 0, 3, 0.5⟩ rfl).1

theorem goalDist1_eq (P : Params) (xg q : Q3) : Bicycle.posDist P xg q = Spec.goalDist1 P xg q := by
  unfold Bicycle.posDist Spec.goalDist1 norm2 Spec.dist Params.tractorPos Spec.frame
  simp

theorem bicycle_headingErr_sq (P : Params) (xg q : Q3) :
    |Bicycle.headingErr P xg q| ^ 2 = Spec.misalign1 P.motionPreference q.th1 xg.th1 := by
  unfold Bicycle.headingErr Spec.misalign1
  have e1 : q.th1 - xg.th1 - π = q.th1 - (xg.th1 + π) := by ring
  have hp := pi_pos
  have hm := angle_mem q.th1 xg.th1
  simp only [e1, abs_wrapPi_angle, angle_half]
  by_cases h0 : P.motionPreference = 0
  · rw [if_pos h0, if_pos h0]
    by_cases h : Spec.angle q.th1 xg.th1 < π - Spec.angle q.th1 xg.th1
    · simp only [if_pos h, abs_wrapPi_angle]
      rw [min_eq_left]; nlinarith
    · simp only [if_neg h, abs_wrapPi_angle, angle_half]
      rw [min_eq_right]; nlinarith
  · rw [if_neg h0, if_neg h0]
    simp only [abs_wrapPi_angle]

theorem bicycle_getReward_shape (P : Params) (xg q : Q3) :
    Bicycle.getReward P xg q =
      (1 - TT2d.wTheta P (Spec.goalDist1 P xg q)) *
          Params.posReward (Spec.goalDist1 P xg q) P.rewardThreshold
        + TT2d.wTheta P (Spec.goalDist1 P xg q) *
          (1 - Spec.misalign1 P.motionPreference q.th1 xg.th1 / (π / 2) ^ 2) := by
  unfold Bicycle.getReward Params.thetaMax
  simp only [goalDist1_eq, ← bicycle_headingErr_sq, div_pow]

theorem goalDist1_nonneg (P : Params) (xg q : Q3) : 0 ≤ Spec.goalDist1 P xg q := dist_nonneg' _ _

/-- C70, bicycle: at equal distance, better aligned (up to a reversal, if there is no preference)
means a larger stage reward; without preference a bicycle turned by half a turn about its front axle
has the same rewards. -/
theorem C70_aligned_bicycle {P : Params} (h : Spec.RewardOK P) (xg q q' : Q3)
    (hd : Spec.goalDist1 P xg q' = Spec.goalDist1 P xg q) :
    (Spec.misalign1 P.motionPreference q'.th1 xg.th1 ≤ Spec.misalign1 P.motionPreference q.th1 xg.th1 →
      Bicycle.getReward P xg q ≤ Bicycle.getReward P xg q') ∧
    (Spec.misalign1 P.motionPreference q'.th1 xg.th1 < Spec.misalign1 P.motionPreference q.th1 xg.th1 →
      0 < P.maxWTheta → Bicycle.getReward P xg q < Bicycle.getReward P xg q') ∧
    (P.motionPreference = 0 → q'.th1 = q.th1 + π → Bicycle.getReward P xg q' = Bicycle.getReward P xg q) ∧
    Bicycle.getTerminalReward P xg q' = Bicycle.getTerminalReward P xg q := by
  have hp := pi_pos
  rw [bicycle_getReward_shape, bicycle_getReward_shape, hd]
  have hw := (wTheta_mem h.w0 (Spec.goalDist1 P xg q)).1
  refine ⟨fun hm => ?_, fun hm hW => ?_, fun h0 ht => ?_, ?_⟩
  · gcongr
  · have := wTheta_pos hW (Spec.goalDist1 P xg q)
    gcongr
  · unfold Spec.misalign1
    rw [if_pos h0, if_pos h0, ht, angle_half, angle_half, angle_half_left, sub_sub_cancel, min_comm]
  · unfold Bicycle.getTerminalReward; rw [goalDist1_eq, goalDist1_eq, hd]

/-- Facing the goal beats standing across it, with the front axle at the same point. -/
example : Bicycle.getReward Wit.params ⟨0, 0, 0⟩ ⟨-10, -3.23, π / 2⟩ <
    Bicycle.getReward Wit.params ⟨0, 0, 0⟩ ⟨-13.23, 0, 0⟩ := by
  have an : Spec.angle (π / 2) 0 = π / 2 := by
    unfold Spec.angle; rw [sub_zero, arccos_cos (by positivity) (by linarith [pi_pos])]
  refine (C70_aligned_bicycle wit_rewardOK ⟨0, 0, 0⟩ ⟨-10, -3.23, π / 2⟩ ⟨-13.23, 0, 0⟩ ?_).2.1 ?_ ?_
  · unfold Spec.goalDist1
    congr 1
    unfold Spec.frame
    ext <;> norm_num [Wit.params, Params.default]
  · unfold Spec.misalign1
    rw [show Wit.params.motionPreference = 0 from rfl, if_pos rfl, if_pos rfl, angle_half, angle_half,
      angle_self, an, min_eq_left (by nlinarith [pi_pos]), min_eq_left (by nlinarith [pi_pos])]
    nlinarith [pi_pos]
  · norm_num [Wit.params, Params.default]

/-- C70, bicycle, approaching: nearer with the same heading is no worse as long as the heading part
of the reward is not below the position part; the terminal reward depends on the distance alone. -/
theorem C70_approach_bicycle_partial {P : Params} (h : Spec.RewardOK P) (hk : 0 < P.kSwitch)
    (xg q q' : Q3) (hd : Spec.goalDist1 P xg q' ≤ Spec.goalDist1 P xg q) :
    (q'.th1 = q.th1 →
      1 - (min (Spec.goalDist1 P xg q) P.rewardThreshold / P.rewardThreshold) ^ 2 ≤
        1 - Spec.misalign1 P.motionPreference q.th1 xg.th1 / (π / 2) ^ 2 →
      Bicycle.getReward P xg q ≤ Bicycle.getReward P xg q') ∧
    Bicycle.getTerminalReward P xg q ≤ Bicycle.getTerminalReward P xg q' ∧
    (Spec.goalDist1 P xg q' < Spec.goalDist1 P xg q →
      Spec.goalDist1 P xg q' < P.terminalRewardThreshold →
      Bicycle.getTerminalReward P xg q < Bicycle.getTerminalReward P xg q') := by
  refine ⟨fun h1 hbest => ?_, ?_, fun hlt ht => ?_⟩
  · rw [bicycle_getReward_shape, bicycle_getReward_shape, h1]
    have e : 1 - (min (Spec.goalDist1 P xg q) P.rewardThreshold / P.rewardThreshold) ^ 2
        = Params.posReward (Spec.goalDist1 P xg q) P.rewardThreshold := by
      unfold Params.posReward clip
      rw [max_eq_left (goalDist1_nonneg P xg q)]
    rw [e] at hbest
    have a := posReward_anti h.thr hd
    have b := wTheta_anti hk hd
    have c := (wTheta_mem h.w0 (Spec.goalDist1 P xg q')).2.2
    set S := 1 - Spec.misalign1 P.motionPreference q.th1 xg.th1 / (π / 2) ^ 2
    have := mul_nonneg (sub_nonneg.mpr c.le) (sub_nonneg.mpr a)
    have := mul_nonneg (sub_nonneg.mpr b) (sub_nonneg.mpr hbest)
    nlinarith
  · unfold Bicycle.getTerminalReward; rw [goalDist1_eq, goalDist1_eq]
    exact posReward_anti h.tthr hd
  · unfold Bicycle.getTerminalReward; rw [goalDist1_eq, goalDist1_eq]
    exact posReward_strict h.tthr (goalDist1_nonneg P xg q') hlt ht

example : Bicycle.getReward Wit.params ⟨0, 0, 0⟩ ⟨-23.23, 0, 0⟩ ≤
    Bicycle.getReward Wit.params ⟨0, 0, 0⟩ ⟨-13.23, 0, 0⟩ := by
  have hd : ∀ x : ℝ, x + 3.23 ≤ 0 → Spec.goalDist1 Wit.params ⟨0, 0, 0⟩ ⟨x, 0, 0⟩ = -(x + 3.23) := by
    intro x hx
    unfold Spec.goalDist1 Spec.dist Spec.frame
    rw [show Wit.params.l1 = 3.23 from rfl]
    simp [sqrt_sq_eq_abs]
    rw [abs_of_nonpos hx]; ring
  refine (C70_approach_bicycle_partial wit_rewardOK ?_ _ _ _ ?_).1 rfl ?_
  · norm_num [Wit.params, Params.default]
  · rw [hd _ (by norm_num), hd _ (by norm_num)]; norm_num
  · have : Spec.misalign1 Wit.params.motionPreference 0 0 = 0 := by
      unfold Spec.misalign1
      rw [angle_self]
      split_ifs
      · rw [min_eq_left (by nlinarith [sq_nonneg (Spec.angle 0 (0 + π))])]; norm_num
      · norm_num
    simp only [this]
    norm_num
    positivity

/-- C70, train: both rewards depend on the distances of the two ends of the train to the goal alone:
of the front axle with preference 1 or 2, of the last trailer with -1 or -2, of the nearer of both
otherwise; they grow as that distance shrinks, strictly so inside the reward radius.  (The point the
code takes for the last trailer is its own, see `C07`/`C54`.) -/
theorem C70_ntrailer (T : NTrailer) (h : 0 < T.rewardThreshold) (h' : 0 < T.terminalRewardThreshold)
    (d : QN → ℝ)
    (hd : ∀ q, d q =
      if T.motionPreference = 1 ∨ T.motionPreference = 2 then
        Spec.dist (Spec.frame (q.px, q.py) q.th0 T.l1 0) (T.xg.px, T.xg.py)
      else if T.motionPreference = -1 ∨ T.motionPreference = -2 then
        Spec.dist (T.lastTrailerPos q) (T.lastTrailerPos T.xg)
      else min (Spec.dist (Spec.frame (q.px, q.py) q.th0 T.l1 0) (T.xg.px, T.xg.py))
        (Spec.dist (T.lastTrailerPos q) (T.lastTrailerPos T.xg)))
    (q q' : QN) :
    (d q' ≤ d q → T.getReward q ≤ T.getReward q' ∧ T.getTerminalReward q ≤ T.getTerminalReward q') ∧
    (d q' < d q → d q' < T.rewardThreshold → T.getReward q < T.getReward q') ∧
    (d q' < d q → d q' < T.terminalRewardThreshold →
      T.getTerminalReward q < T.getTerminalReward q') := by
  have e : ∀ q, T.posDist q = d q := by
    intro q
    have e1 : T.dTractor q = Spec.dist (Spec.frame (q.px, q.py) q.th0 T.l1 0) (T.xg.px, T.xg.py) := by
      unfold NTrailer.dTractor norm2 Spec.dist Params.tractorPos Spec.frame
      simp
    have e2 : T.dLast q = Spec.dist (T.lastTrailerPos q) (T.lastTrailerPos T.xg) := rfl
    rw [hd]
    unfold NTrailer.posDist
    rw [e1, e2]
  have h0 : ∀ q, 0 ≤ d q := by
    intro q
    rw [hd]
    split_ifs
    · exact dist_nonneg' _ _
    · exact dist_nonneg' _ _
    · exact le_min (dist_nonneg' _ _) (dist_nonneg' _ _)
  unfold NTrailer.getReward NTrailer.getTerminalReward
  rw [e, e]
  exact ⟨fun hl => ⟨posReward_anti h hl, posReward_anti h' hl⟩, fun hl ht => posReward_strict h (h0 _) hl ht,
    fun hl ht => posReward_strict h' (h0 _) hl ht⟩

example := C70_ntrailer Wit.train wit_rewardOK.thr wit_rewardOK.tthr _ (fun _ => rfl)

/-- The heading of a train is not rewarded at all: it is false that with a preference a train whose
front axle is at the goal earns more pointing along the goal heading than the other way round. -/
theorem C70_ntrailer_heading_refuted :
    ¬ (∀ (T : NTrailer) (q q' : QN), Spec.WellSized T q → Spec.WellSized T q' →
      0 < T.rewardThreshold → T.motionPreference = 1 →
      Spec.frame (q.px, q.py) q.th0 T.l1 0 = (T.xg.px, T.xg.py) →
      Spec.frame (q'.px, q'.py) q'.th0 T.l1 0 = (T.xg.px, T.xg.py) →
      (∀ th ∈ q'.th0 :: q'.ths, th = T.xg.th0) → (∀ th ∈ q.th0 :: q.ths, th = T.xg.th0 + π) →
      T.getReward q < T.getReward q') := by
  intro H
  let T : NTrailer := { Wit.train with motionPreference := 1 }
  let q : QN := ⟨12.23, 0, 0 + π, [0 + π, 0 + π]⟩
  let q' : QN := ⟨5.77, 0, 0, [0, 0]⟩
  have e : T.l1 = 3.23 := rfl
  have f : Spec.frame (q.px, q.py) q.th0 T.l1 0 = (T.xg.px, T.xg.py) := by
    unfold Spec.frame; rw [e]; ext <;> norm_num [q, T, Wit.train]
  have f' : Spec.frame (q'.px, q'.py) q'.th0 T.l1 0 = (T.xg.px, T.xg.py) := by
    unfold Spec.frame; rw [e]; ext <;> norm_num [q', T, Wit.train]
  have hthr : 0 < T.rewardThreshold := wit_rewardOK.thr
  have h := H T q q' ⟨rfl, rfl, rfl, rfl⟩ ⟨rfl, rfl, rfl, rfl⟩ hthr rfl f f'
    (by simp [q', T, Wit.train]) (by simp [q, T, Wit.train])
  have := ((C70_ntrailer T hthr wit_rewardOK.tthr _ (fun _ => rfl) q' q).1 (by
    rw [if_pos (Or.inl rfl), if_pos (Or.inl rfl), f, f'])).1
  exact absurd h (not_lt.mpr this)

end Mbd
