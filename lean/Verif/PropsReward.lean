import Verif.PropsShield
import Verif.PropsMotion
import Verif.PropsTrailer

/-!
# Properties of the rewards: C33, C34, C35
-/

namespace Mbd

open Real Classical

/-! ## C33: bounds -/

theorem posReward_mem {thr : ℝ} (h : 0 < thr) (d : ℝ) :
    0 ≤ Params.posReward d thr ∧ Params.posReward d thr ≤ 1 := by
  unfold Params.posReward
  have h0 : 0 ≤ clip d 0 thr := by unfold clip; exact le_min (le_max_right _ _) h.le
  have h1 : clip d 0 thr ≤ thr := by unfold clip; exact min_le_right _ _
  have a : 0 ≤ clip d 0 thr / thr := by positivity
  have b : clip d 0 thr / thr ≤ 1 := by rw [div_le_one h]; exact h1
  constructor
  · nlinarith
  · nlinarith

theorem posReward_zero {thr : ℝ} (h : 0 < thr) : Params.posReward 0 thr = 1 := by
  unfold Params.posReward clip
  rw [max_self, min_eq_left h.le]; simp

theorem sigmoid_mem (z : ℝ) : 0 < sigmoid z ∧ sigmoid z < 1 := by
  unfold sigmoid
  have := exp_pos (-z)
  constructor
  · positivity
  · rw [div_lt_one (by positivity)]; linarith

theorem wTheta_mem {P : Params} (h : 0 ≤ P.maxWTheta) (d : ℝ) :
    0 ≤ TT2d.wTheta P d ∧ TT2d.wTheta P d ≤ P.maxWTheta ∧ TT2d.wTheta P d < 1 := by
  unfold TT2d.wTheta clip
  refine ⟨le_min (le_max_right _ _) h, min_le_right _ _, ?_⟩
  have := sigmoid_mem ((P.dThr - d) / P.kSwitch)
  rw [max_eq_left this.1.le]
  exact lt_of_le_of_lt (min_le_left _ _) this.2

theorem headTerm_mem {e : ℝ} (h : |e| ≤ π) :
    -3 ≤ 1 - (|e| / (π / 2)) ^ 2 ∧ 1 - (|e| / (π / 2)) ^ 2 ≤ 1 := by
  have hp := pi_pos
  have a : 0 ≤ |e| / (π / 2) := by positivity
  have b : |e| / (π / 2) ≤ 2 := by rw [div_le_iff₀ (by positivity)]; linarith
  constructor <;> nlinarith

theorem artTerm_mem (a : ℝ) (P : Params) :
    -19.25 ≤ 1 - (|wrapPi a| / P.phiMax) ^ 2 ∧ 1 - (|wrapPi a| / P.phiMax) ^ 2 ≤ 1 := by
  have hp := pi_pos
  have e : P.phiMax = 2 * π / 9 := by unfold Params.phiMax deg2rad; ring
  rw [e]
  have a1 : 0 ≤ |wrapPi a| / (2 * π / 9) := by positivity
  have b : |wrapPi a| / (2 * π / 9) ≤ 4.5 := by
    rw [div_le_iff₀ (by positivity)]
    have := abs_wrapPi_le a
    linarith
  constructor <;> nlinarith

theorem headingErr_le (P : Params) (xg q : Q4) :
    |(TT2d.headingErr P xg q).1| ≤ π ∧ |(TT2d.headingErr P xg q).2| ≤ π := by
  unfold TT2d.headingErr
  simp only
  split_ifs <;> exact ⟨abs_wrapPi_le _, abs_wrapPi_le _⟩

/-- Admissible reward weights: articulation weight and maximal heading weight in `[0,1]`, heading
factor in `[0,1/2]` (the two headings share weight one), positive thresholds. -/
structure Spec.RewardOK (P : Params) : Prop where
  h0 : 0 ≤ P.hitchAngleWeight
  h1 : P.hitchAngleWeight ≤ 1
  w0 : 0 ≤ P.maxWTheta
  w1 : P.maxWTheta ≤ 1
  k0 : 0 ≤ P.headingRewardWeight
  k1 : P.headingRewardWeight ≤ 1 / 2
  thr : 0 < P.rewardThreshold
  tthr : 0 < P.terminalRewardThreshold

/-- C33, tractor-trailer: the state reward is at most 1 and bounded below. -/
theorem C33_tt2d {P : Params} (h : Spec.RewardOK P) (xg q : Q4) :
    TT2d.getReward P xg q ≤ 1 ∧
    -(6 * P.maxWTheta * P.headingRewardWeight) - 19.25 * P.hitchAngleWeight
      ≤ TT2d.getReward P xg q ∧
    0 ≤ TT2d.getTerminalReward P xg q ∧ TT2d.getTerminalReward P xg q ≤ 1 := by
  have hp := posReward_mem h.thr (TT2d.posDist P xg q)
  have hw := wTheta_mem h.w0 (TT2d.posDist P xg q)
  have he := headingErr_le P xg q
  have e1 := headTerm_mem he.1
  have e2 := headTerm_mem he.2
  have ha := artTerm_mem (q.th1 - q.th2) P
  have hk0 := h.k0
  have hk1 := h.k1
  have hh0 := h.h0
  have hh1 := h.h1
  refine ⟨?_, ?_, (posReward_mem h.tthr _).1, (posReward_mem h.tthr _).2⟩
  all_goals
    unfold TT2d.getReward Params.thetaMax
    simp only
    set rp := Params.posReward (TT2d.posDist P xg q) P.rewardThreshold
    set w := TT2d.wTheta P (TT2d.posDist P xg q)
    set A := 1 - (|(TT2d.headingErr P xg q).1| / (π / 2)) ^ 2
    set B := (|(TT2d.headingErr P xg q).2| / (π / 2)) ^ 2
    set C := 1 - (|wrapPi (q.th1 - q.th2)| / P.phiMax) ^ 2
  · have r1 : P.headingRewardWeight * (A + 1 - B) ≤ 1 := by nlinarith
    have r2 : (1 - w) * rp + w * (P.headingRewardWeight * (A + 1 - B)) ≤ 1 := by nlinarith
    nlinarith
  · have r1 : -(6 * P.headingRewardWeight) ≤ P.headingRewardWeight * (A + 1 - B) := by nlinarith
    have r2 : -(6 * P.maxWTheta * P.headingRewardWeight)
        ≤ (1 - w) * rp + w * (P.headingRewardWeight * (A + 1 - B)) := by
      have s1 : 0 ≤ (1 - w) * rp := mul_nonneg (by linarith) hp.1
      have s2 : w * (-(6 * P.headingRewardWeight)) ≤ w * (P.headingRewardWeight * (A + 1 - B)) :=
        mul_le_mul_of_nonneg_left r1 hw.1
      nlinarith [mul_le_mul_of_nonneg_right hw.2.1 hk0]
    have r3 : 0 ≤ 6 * P.maxWTheta * P.headingRewardWeight := by
      have := h.w0; positivity
    have r4 : P.hitchAngleWeight * (-19.25) ≤ P.hitchAngleWeight * C :=
      mul_le_mul_of_nonneg_left ha.1 hh0
    nlinarith [mul_le_mul_of_nonneg_left r2 (show 0 ≤ 1 - P.hitchAngleWeight by linarith)]

theorem wit_rewardOK : Spec.RewardOK Wit.params := by
  constructor <;> norm_num [Wit.params, Params.default]

example := fun xg q => C33_tt2d wit_rewardOK xg q

/-- The constructor defaults are admissible. -/
theorem default_rewardOK (cs : List Circle) (rs : List Rect) :
    Spec.RewardOK (Params.default cs rs) := by
  constructor <;> norm_num [Params.default]

/-- C33, bicycle. -/
theorem C33_bicycle {P : Params} (h : Spec.RewardOK P) (xg q : Q3) :
    Bicycle.getReward P xg q ≤ 1 ∧ -(3 * P.maxWTheta) ≤ Bicycle.getReward P xg q ∧
    0 ≤ Bicycle.getTerminalReward P xg q ∧ Bicycle.getTerminalReward P xg q ≤ 1 := by
  have hp := posReward_mem h.thr (Bicycle.posDist P xg q)
  have hw := wTheta_mem h.w0 (Bicycle.posDist P xg q)
  have he : |Bicycle.headingErr P xg q| ≤ π := by
    unfold Bicycle.headingErr; simp only; split_ifs <;> exact abs_wrapPi_le _
  have e1 := headTerm_mem he
  refine ⟨?_, ?_, (posReward_mem h.tthr _).1, (posReward_mem h.tthr _).2⟩
  all_goals
    unfold Bicycle.getReward Params.thetaMax
    simp only
    set rp := Params.posReward (Bicycle.posDist P xg q) P.rewardThreshold
    set w := TT2d.wTheta P (Bicycle.posDist P xg q)
    set A := 1 - (|Bicycle.headingErr P xg q| / (π / 2)) ^ 2
  · nlinarith
  · have s1 : 0 ≤ (1 - w) * rp := mul_nonneg (by linarith) hp.1
    have s2 : w * (-3) ≤ w * A := mul_le_mul_of_nonneg_left e1.1 hw.1
    nlinarith

example := fun xg q => C33_bicycle wit_rewardOK xg q

/-- C33, N trailers: position-only rewards lie in `[0,1]`. -/
theorem C33_ntrailer (T : NTrailer) (h1 : 0 < T.rewardThreshold)
    (h2 : 0 < T.terminalRewardThreshold) (q : QN) :
    0 ≤ T.getReward q ∧ T.getReward q ≤ 1 ∧ 0 ≤ T.getTerminalReward q ∧
      T.getTerminalReward q ≤ 1 :=
  ⟨(posReward_mem h1 _).1, (posReward_mem h1 _).2, (posReward_mem h2 _).1, (posReward_mem h2 _).2⟩

example := fun q => C33_ntrailer Wit.train wit_rewardOK.thr wit_rewardOK.tthr q

/-- C33, acceleration model (state reward and terminal reward are those of the pose). -/
theorem C33_acc (T : Acc) (h : Spec.RewardOK T.toParams) (q : Q6) :
    T.getReward q ≤ 1 ∧
    -(6 * T.maxWTheta * T.headingRewardWeight) - 19.25 * T.hitchAngleWeight ≤ T.getReward q ∧
    0 ≤ T.getTerminalReward q ∧ T.getTerminalReward q ≤ 1 :=
  C33_tt2d h T.xg.pose q.pose

example := fun q => C33_acc Wit.acc wit_rewardOK q

/-- C33, step rewards: with non-negative penalties the reward of every step is at most 1 (naive or
shielded mode). -/
theorem C33_step_tt2d (T : TT2d) (ext : Ext Q4) (hp : T.enableProjection = false)
    (hg : T.enableGuidance = false) (h : Spec.RewardOK T.toParams) (hc : 0 ≤ T.collisionPenalty)
    (hh : 0 ≤ T.hitchPenalty) (hpref : 0 ≤ T.preferencePenaltyWeight) (s : St Q4) (a : U) :
    (T.step ext s a).reward ≤ 1 := by
  rw [TT2d.step_reward T ext hp hg]
  have h1 := (C33_tt2d h T.xg (T.step ext s a).q).1
  have h2 : 0 ≤ (if TT2d.checkObstacle T.toParams (T.proposal s a) then T.collisionPenalty else 0) := by
    split_ifs <;> linarith
  have h3 : 0 ≤ (if TT2d.checkHitch T.toParams (T.proposal s a) then T.hitchPenalty else 0) := by
    split_ifs <;> linarith
  have h4 : 0 ≤ (if T.motionPreference ≠ 0
      then T.prefPenaltyV ((T.step ext s a).applied.1 * T.vMax) else 0) := by
    split_ifs
    · unfold Params.prefPenaltyV
      simp only
      split_ifs <;> first | positivity | exact le_rfl
    · exact le_rfl
  linarith

example := fun ext s a => C33_step_tt2d Wit.tt ext rfl rfl wit_rewardOK
  (by norm_num [Wit.tt, Wit.params, Params.default]) (by norm_num [Wit.tt, Wit.params, Params.default])
  (by norm_num [Wit.tt, Wit.params, Params.default]) s a

/-- C33, rollouts: the score of a sample (mean stage reward plus weighted terminal reward) is at most
`1 + terminal_reward_weight`. -/
theorem C33_total_tt2d (T : TT2d) (ext : Ext Q4) (hp : T.enableProjection = false)
    (hg : T.enableGuidance = false) (h : Spec.RewardOK T.toParams) (hc : 0 ≤ T.collisionPenalty)
    (hh : 0 ≤ T.hitchPenalty) (hpref : 0 ≤ T.preferencePenaltyWeight)
    (hw : 0 ≤ T.terminalRewardWeight) (s : St Q4) (us : List U) :
    (rolloutUsWithTerminal (T.step ext) (TT2d.getTerminalReward T.toParams T.xg)
      T.terminalRewardWeight s us).1 ≤ 1 + T.terminalRewardWeight := by
  unfold rolloutUsWithTerminal mean
  simp only
  have hall : ∀ r ∈ (scanStates (T.step ext) (warmState (T.step ext) s) us).map St.reward, r ≤ 1 := by
    have := scanStates_forall (step := T.step ext) (fun s' => s'.reward ≤ 1)
      (fun s' a _ => C33_step_tt2d T ext hp hg h hc hh hpref s' a) us
      (warmState (T.step ext) s) (C33_step_tt2d T ext hp hg h hc hh hpref s (0, 0))
    intro r hr
    obtain ⟨s', hs', rfl⟩ := List.mem_map.mp hr
    exact this s' hs'
  generalize (scanStates (T.step ext) (warmState (T.step ext) s) us).map St.reward = l at hall
  have hm : l.sum / l.length ≤ 1 := by
    apply div_le_one_of_le₀ _ (Nat.cast_nonneg _)
    have := List.sum_le_card_nsmul l 1 hall
    simpa using this
  have ht := (C33_tt2d h T.xg (finalState (T.step ext) (warmState (T.step ext) s) us).q).2.2
  nlinarith

example := fun ext us => C33_total_tt2d Wit.tt ext rfl rfl wit_rewardOK
  (by norm_num [Wit.tt, Wit.params, Params.default]) (by norm_num [Wit.tt, Wit.params, Params.default])
  (by norm_num [Wit.tt, Wit.params, Params.default])
  (by norm_num [Wit.tt, Wit.params, Params.default]) Wit.tt.reset us

/-! ## C34: the goal maximises the reward -/

theorem norm2_zero : norm2 (0, 0) = 0 := by simp [norm2]

/-- C34, tractor-trailer, partial: for preferences 0, -1, -2 (trailer tracking), a straight goal
(both headings equal up to full turns) and heading factor 1/2 (the default), the goal attains
reward 1, the maximum over all states, and terminal reward 1.  Missing: preferences 1 and 2, where
it is false (`C34_tractor_refuted`). -/
theorem C34_tt2d_partial {P : Params} (h : Spec.RewardOK P) (hpref : ¬ P.tracksTractor)
    (hk : P.headingRewardWeight = 1 / 2) (xg : Q4) (k : ℤ) (hs : xg.th2 = xg.th1 + 2 * π * k) (q : Q4) :
    TT2d.getReward P xg q ≤ TT2d.getReward P xg xg ∧
    TT2d.getTerminalReward P xg q ≤ TT2d.getTerminalReward P xg xg ∧
    TT2d.getReward P xg xg = 1 ∧ TT2d.getTerminalReward P xg xg = 1 := by
  have hd : TT2d.posDist P xg xg = 0 := by
    unfold TT2d.posDist
    simp only [if_neg hpref, sub_self]
    exact norm2_zero
  have w2 : wrapPi (xg.th2 - xg.th1) = 0 := by
    rw [hs, show xg.th1 + 2 * π * k - xg.th1 = 0 + 2 * π * k by ring, wrapPi_add_turns, wrapPi_zero]
  have w3 : wrapPi (xg.th1 - xg.th2) = 0 := by
    rw [hs, show xg.th1 - (xg.th1 + 2 * π * k) = 0 + 2 * π * (-k : ℤ) by push_cast; ring,
      wrapPi_add_turns, wrapPi_zero]
  have he : TT2d.headingErr P xg xg = (0, 0) := by
    have hneg : wrapPi (xg.th1 - xg.th1 - π) = -π := by
      rw [sub_self, zero_sub, wrapPi_of_mem le_rfl (by linarith [pi_pos])]
    have hd : |wrapPi (xg.th1 - xg.th1)| + |wrapPi (xg.th2 - xg.th1)|
        < |wrapPi (xg.th1 - xg.th1 - π)| + |wrapPi (xg.th2 - xg.th1 - π)| := by
      rw [w2, sub_self, wrapPi_zero, zero_sub,
        wrapPi_of_mem (le_refl (-π)) (by linarith [pi_pos]), abs_zero, abs_neg, abs_of_pos pi_pos]
      have := abs_nonneg (wrapPi (xg.th2 - xg.th1 - π))
      linarith [pi_pos]
    unfold TT2d.headingErr
    simp only [if_pos hd]
    rw [ite_self, w2, sub_self, wrapPi_zero]
  have h1 : TT2d.getReward P xg xg = 1 := by
    unfold TT2d.getReward
    simp only [hd, he, w3, abs_zero, zero_div]
    rw [posReward_zero h.thr, hk]
    ring
  have h2 : TT2d.getTerminalReward P xg xg = 1 := by
    unfold TT2d.getTerminalReward
    rw [hd, posReward_zero h.tthr]
  rw [h1, h2]
  exact ⟨(C33_tt2d h xg q).1, (C33_tt2d h xg q).2.2.2, rfl, rfl⟩

/-- The default goal of the parking scenario satisfies the hypotheses of `C34_tt2d_partial`. -/
example : let P := Params.default [] []
    Spec.RewardOK P ∧ ¬ P.tracksTractor ∧ P.headingRewardWeight = 1 / 2 ∧
      (-π / 2 : ℝ) = -π / 2 + 2 * π * (0 : ℤ) :=
  ⟨default_rewardOK _ _, by simp [Params.tracksTractor, Params.default],
    by norm_num [Params.default], by simp⟩

theorem posReward_lt_one {d thr : ℝ} (h : 0 < thr) (hd : 0 < d) : Params.posReward d thr < 1 := by
  unfold Params.posReward
  have h0 : 0 < clip d 0 thr := by
    unfold clip; rw [max_eq_left hd.le]; exact lt_min hd h
  have : 0 < (clip d 0 thr / thr) ^ 2 := by positivity
  linarith

/-- C34 is false for preference 1 (default vehicle): at the goal pose the reward is below the reward
of the pose 3.23 m behind it, because the tracked point is the front axle while the target is the
goal's reference point. -/
theorem C34_tractor_refuted :
    ¬ (∀ (P : Params) (xg q : Q4), Spec.RewardOK P → P.headingRewardWeight = 1 / 2 →
      xg.th1 = xg.th2 → TT2d.getReward P xg q ≤ TT2d.getReward P xg xg) := by
  intro h
  let P : Params := { Params.default [] [] with motionPreference := 1 }
  have hP : Spec.RewardOK P := by constructor <;> norm_num [P, Params.default]
  have h1 := h P ⟨0, 0, 0, 0⟩ ⟨-3.23, 0, 0, 0⟩ hP (by norm_num [P, Params.default]) rfl
  have ht : P.tracksTractor := Or.inl rfl
  have dg : TT2d.posDist P ⟨0, 0, 0, 0⟩ ⟨0, 0, 0, 0⟩ = 3.23 := by
    unfold TT2d.posDist Params.tractorPos norm2
    simp only [if_pos ht]
    simp [P, Params.default]
    exact sqrt_sq (by norm_num)
  have dq : TT2d.posDist P ⟨0, 0, 0, 0⟩ ⟨-3.23, 0, 0, 0⟩ = 0 := by
    unfold TT2d.posDist Params.tractorPos norm2
    simp only [if_pos ht]
    simp [P, Params.default]
  have he : ∀ x, TT2d.headingErr P ⟨0, 0, 0, 0⟩ ⟨x, 0, 0, 0⟩ = (0, 0) := by
    intro x
    unfold TT2d.headingErr
    simp only
    rw [if_neg (by norm_num [P])]
    simp
  unfold TT2d.getReward at h1
  simp only [dg, dq, he, abs_zero, zero_div, sub_self, wrapPi_zero] at h1
  rw [posReward_zero hP.thr] at h1
  have hr := posReward_lt_one hP.thr (show (0 : ℝ) < 3.23 by norm_num)
  have hw := wTheta_mem hP.w0 (P := P) 3.23
  have e1 : P.headingRewardWeight = 1 / 2 := by norm_num [P, Params.default]
  have e2 : P.hitchAngleWeight = 0.2 := rfl
  rw [e1, e2] at h1
  norm_num at h1
  nlinarith [mul_pos (show 0 < 1 - TT2d.wTheta P 3.23 by linarith [hw.2.2])
    (show 0 < 1 - Params.posReward 3.23 P.rewardThreshold by linarith)]

/-- C34 is false for the bicycle under every preference (default vehicle). -/
theorem C34_bicycle_refuted (m : ℤ) :
    ¬ (∀ (P : Params) (xg q : Q3), Spec.RewardOK P → P.motionPreference = m →
      Bicycle.getReward P xg q ≤ Bicycle.getReward P xg xg) := by
  intro h
  let P : Params := { Params.default [] [] with motionPreference := m }
  have hP : Spec.RewardOK P := by constructor <;> norm_num [P, Params.default]
  have h1 := h P ⟨0, 0, 0⟩ ⟨-3.23, 0, 0⟩ hP rfl
  have dg : Bicycle.posDist P ⟨0, 0, 0⟩ ⟨0, 0, 0⟩ = 3.23 := by
    unfold Bicycle.posDist Params.tractorPos norm2
    simp [P, Params.default]
    exact sqrt_sq (by norm_num)
  have dq : Bicycle.posDist P ⟨0, 0, 0⟩ ⟨-3.23, 0, 0⟩ = 0 := by
    unfold Bicycle.posDist Params.tractorPos norm2
    simp [P, Params.default]
  have he : ∀ x, Bicycle.headingErr P ⟨0, 0, 0⟩ ⟨x, 0, 0⟩ = 0 := by
    intro x
    unfold Bicycle.headingErr
    have : |wrapPi (0 - 0)| < |wrapPi (0 - 0 - π)| := by
      rw [sub_self, wrapPi_zero, zero_sub, wrapPi_of_mem le_rfl (by linarith [pi_pos]), abs_zero,
        abs_neg, abs_of_pos pi_pos]
      exact pi_pos
    simp only [if_pos this]
    simp
  unfold Bicycle.getReward at h1
  simp only [dg, dq, he, abs_zero, zero_div] at h1
  rw [posReward_zero hP.thr] at h1
  have hr := posReward_lt_one hP.thr (show (0 : ℝ) < 3.23 by norm_num)
  have hw := wTheta_mem hP.w0 (P := P) 3.23
  norm_num at h1
  nlinarith [mul_pos (show 0 < 1 - TT2d.wTheta P 3.23 by linarith [hw.2.2])
    (show 0 < 1 - Params.posReward 3.23 P.rewardThreshold by linarith)]

/-- What holds for the front-axle tracking variants: the pose whose *front axle* is at the goal's
reference point, with the goal heading, attains the maximum 1 (tractor-trailer, preference 1/2;
straight). -/
theorem C34_front_axle_partial {P : Params} (h : Spec.RewardOK P) (hpref : P.tracksTractor)
    (hk : P.headingRewardWeight = 1 / 2) (xg : Q4) :
    let best : Q4 := ⟨xg.px - P.l1 * cos xg.th1, xg.py - P.l1 * sin xg.th1, xg.th1, xg.th1⟩
    TT2d.getReward P xg best = 1 ∧ ∀ q, TT2d.getReward P xg q ≤ TT2d.getReward P xg best := by
  intro best
  have hd : TT2d.posDist P xg best = 0 := by
    unfold TT2d.posDist
    simp only [if_pos hpref]
    have : P.tractorPos best.px best.py best.th1 - (xg.px, xg.py) = (0, 0) := by
      unfold Params.tractorPos
      ext <;> simp [best]
    rw [this, norm2_zero]
  have hm : P.motionPreference ≠ 0 := by
    rcases hpref with h | h <;> rw [h] <;> norm_num
  have he : TT2d.headingErr P xg best = (0, 0) := by
    unfold TT2d.headingErr
    simp only [if_neg hm]
    simp [best]
  have h1 : TT2d.getReward P xg best = 1 := by
    unfold TT2d.getReward
    simp only [hd, he, abs_zero, zero_div]
    rw [show best.th1 - best.th2 = 0 by simp [best], wrapPi_zero, posReward_zero h.thr, hk]
    simp
    ring
  exact ⟨h1, fun q => h1 ▸ (C33_tt2d h xg q).1⟩

example := fun xg => C34_front_axle_partial (P := { Wit.params with motionPreference := 1 })
  (by constructor <;> norm_num [Wit.params, Params.default]) (Or.inl rfl)
  (by norm_num [Wit.params, Params.default]) xg

/-- C34, N trailers, partial: for preferences 0, -1, -2 the goal attains the maximum 1. -/
theorem C34_ntrailer_partial (T : NTrailer) (h1 : 0 < T.rewardThreshold)
    (h2 : 0 < T.terminalRewardThreshold) (hp1 : T.motionPreference ≠ 1) (hp2 : T.motionPreference ≠ 2)
    (q : QN) :
    T.getReward q ≤ T.getReward T.xg ∧ T.getTerminalReward q ≤ T.getTerminalReward T.xg ∧
    T.getReward T.xg = 1 := by
  have hl : T.dLast T.xg = 0 := by
    unfold NTrailer.dLast; rw [sub_self]; exact norm2_zero
  have hd : T.posDist T.xg = 0 := by
    unfold NTrailer.posDist
    rw [if_neg (by tauto), hl]
    split_ifs
    · rfl
    · exact min_eq_right (by unfold NTrailer.dTractor norm2; exact sqrt_nonneg _)
  have g : T.getReward T.xg = 1 := by unfold NTrailer.getReward; rw [hd, posReward_zero h1]
  have g2 : T.getTerminalReward T.xg = 1 := by
    unfold NTrailer.getTerminalReward; rw [hd, posReward_zero h2]
  rw [g, g2]
  exact ⟨(posReward_mem h1 _).2, (posReward_mem h2 _).2, rfl⟩

example := fun q => C34_ntrailer_partial Wit.train wit_rewardOK.thr wit_rewardOK.tthr
  (by norm_num [Wit.train, Wit.params, Params.default])
  (by norm_num [Wit.train, Wit.params, Params.default]) q

/-! ## C35: full turns -/

theorem cos_turn (a : ℝ) (k : ℤ) : cos (a + 2 * π * k) = cos a := by
  rw [show a + 2 * π * k = a + k * (2 * π) by ring]; exact cos_add_int_mul_two_pi a k

theorem sin_turn (a : ℝ) (k : ℤ) : sin (a + 2 * π * k) = sin a := by
  rw [show a + 2 * π * k = a + k * (2 * π) by ring]; exact sin_add_int_mul_two_pi a k

theorem boxCorners_turn (c : V2) (a hl hw : ℝ) (k : ℤ) :
    boxCorners c (a + 2 * π * k) hl hw = boxCorners c a hl hw := by
  unfold boxCorners placePoint; simp only [cos_turn, sin_turn]

/-- The state with `k` full turns added to the tractor heading and `m` to the trailer heading. -/
noncomputable def Spec.turn4 (k m : ℤ) (q : Q4) : Q4 :=
  ⟨q.px, q.py, q.th1 + 2 * π * k, q.th2 + 2 * π * m⟩

section tt

variable (P : Params) (xg q : Q4) (k m : ℤ)

theorem turn_diff : q.th1 + 2 * π * k - (q.th2 + 2 * π * m)
    = (q.th1 - q.th2) + 2 * π * (k - m : ℤ) := by push_cast; ring

/-- C35, obstacle check, tractor-trailer. -/
theorem C35_obstacle_tt2d : TT2d.checkObstacle P (Spec.turn4 k m q) ↔ TT2d.checkObstacle P q := by
  unfold TT2d.checkObstacle Params.tractorCorners TT2d.trailerCorners TT2d.hitchPoint Spec.turn4
  simp only [cos_turn, sin_turn, boxCorners_turn]

/-- C35, jackknife check, tractor-trailer. -/
theorem C35_hitch_tt2d : TT2d.checkHitch P (Spec.turn4 k m q) ↔ TT2d.checkHitch P q := by
  unfold TT2d.checkHitch Spec.turn4
  simp only [turn_diff, wrapPi_add_turns]

/-- C35, rewards, tractor-trailer (turns of the state and of the goal's tractor heading). -/
theorem C35_reward_tt2d (k' m' : ℤ) :
    TT2d.getReward P (Spec.turn4 k' m' xg) (Spec.turn4 k m q) = TT2d.getReward P xg q ∧
    TT2d.getTerminalReward P (Spec.turn4 k' m' xg) (Spec.turn4 k m q)
      = TT2d.getTerminalReward P xg q := by
  have hd : TT2d.posDist P (Spec.turn4 k' m' xg) (Spec.turn4 k m q) = TT2d.posDist P xg q := by
    unfold TT2d.posDist Params.tractorPos TT2d.trailerPos TT2d.hitchPoint Spec.turn4
    simp only [cos_turn, sin_turn]
  have e1 : q.th1 + 2 * π * k - (xg.th1 + 2 * π * k') = (q.th1 - xg.th1) + 2 * π * (k - k' : ℤ) := by
    push_cast; ring
  have e2 : q.th2 + 2 * π * m - (xg.th1 + 2 * π * k') = (q.th2 - xg.th1) + 2 * π * (m - k' : ℤ) := by
    push_cast; ring
  have e3 : q.th1 + 2 * π * k - (xg.th1 + 2 * π * k') - π
      = (q.th1 - xg.th1 - π) + 2 * π * (k - k' : ℤ) := by push_cast; ring
  have e4 : q.th2 + 2 * π * m - (xg.th1 + 2 * π * k') - π
      = (q.th2 - xg.th1 - π) + 2 * π * (m - k' : ℤ) := by push_cast; ring
  have he : TT2d.headingErr P (Spec.turn4 k' m' xg) (Spec.turn4 k m q)
      = TT2d.headingErr P xg q := by
    unfold TT2d.headingErr Spec.turn4
    simp only [e3, e4]
    simp only [e1, e2, wrapPi_add_turns]
  constructor
  · unfold TT2d.getReward
    rw [hd, he]
    have : (Spec.turn4 k m q).th1 - (Spec.turn4 k m q).th2 = (q.th1 - q.th2) + 2 * π * (k - m : ℤ) :=
      turn_diff q k m
    rw [this, wrapPi_add_turns]
  · unfold TT2d.getTerminalReward; rw [hd]

/-- C35, dynamics, tractor-trailer: one Euler step commutes with adding full turns. -/
theorem C35_euler_tt2d (u : U) :
    TT2d.euler P (Spec.turn4 k m q) u = Spec.turn4 k m (TT2d.euler P q u) := by
  unfold TT2d.euler Q4.axpy TT2d.dynamics Spec.turn4
  simp only [turn_diff, cos_turn, sin_turn]
  ext <;> simp <;> ring

end tt

/-- C35, steps: from a state with full turns added the step returns the same reward and applied
action and the same state with the turns added (naive and shielded mode). -/
theorem C35_step_tt2d (T : TT2d) (ext : Ext Q4) (hp : T.enableProjection = false)
    (hg : T.enableGuidance = false) (s : St Q4) (a : U) (k m : ℤ) :
    (T.step ext { s with q := Spec.turn4 k m s.q } a).q = Spec.turn4 k m (T.step ext s a).q ∧
    (T.step ext { s with q := Spec.turn4 k m s.q } a).reward = (T.step ext s a).reward ∧
    (T.step ext { s with q := Spec.turn4 k m s.q } a).applied = (T.step ext s a).applied := by
  have hprop : T.proposal { s with q := Spec.turn4 k m s.q } a = Spec.turn4 k m (T.proposal s a) :=
    C35_euler_tt2d _ _ _ _ _
  have hrej : T.rejects (Spec.turn4 k m (T.proposal s a)) ↔ T.rejects (T.proposal s a) := by
    unfold TT2d.rejects; rw [C35_obstacle_tt2d, C35_hitch_tt2d]
  have hq : (T.step ext { s with q := Spec.turn4 k m s.q } a).q
      = Spec.turn4 k m (T.step ext s a).q := by
    rw [TT2d.step_q T ext hp hg, TT2d.step_q T ext hp hg, hprop]
    by_cases h : T.rejects (T.proposal s a)
    · rw [if_pos (hrej.mpr h), if_pos h]
    · rw [if_neg (fun h' => h (hrej.mp h')), if_neg h]
  have ha : (T.step ext { s with q := Spec.turn4 k m s.q } a).applied
      = (T.step ext s a).applied := by
    rw [TT2d.step_applied T ext hp hg, TT2d.step_applied T ext hp hg, hprop]
    simp only [hrej]
  refine ⟨hq, ?_, ha⟩
  rw [TT2d.step_reward T ext hp hg, TT2d.step_reward T ext hp hg, hq, ha, hprop]
  simp only [C35_obstacle_tt2d, C35_hitch_tt2d]
  have := (C35_reward_tt2d T.toParams T.xg (T.step ext s a).q k m 0 0).1
  have e : Spec.turn4 0 0 T.xg = T.xg := by unfold Spec.turn4; simp
  rw [e] at this
  rw [this]

example := fun ext a k m => C35_step_tt2d Wit.tt ext rfl rfl Wit.tt.reset a k m

/-- Full turns of the bicycle heading. -/
noncomputable def Spec.turn3 (k : ℤ) (q : Q3) : Q3 := ⟨q.px, q.py, q.th1 + 2 * π * k⟩

/-- C35, bicycle: checks, rewards and dynamics. -/
theorem C35_bicycle (P : Params) (xg q : Q3) (k k' : ℤ) (u : U) :
    (Bicycle.checkObstacle P (Spec.turn3 k q) ↔ Bicycle.checkObstacle P q) ∧
    Bicycle.getReward P (Spec.turn3 k' xg) (Spec.turn3 k q) = Bicycle.getReward P xg q ∧
    Bicycle.getTerminalReward P (Spec.turn3 k' xg) (Spec.turn3 k q)
      = Bicycle.getTerminalReward P xg q ∧
    Bicycle.euler P (Spec.turn3 k q) u = Spec.turn3 k (Bicycle.euler P q u) := by
  have hd : Bicycle.posDist P (Spec.turn3 k' xg) (Spec.turn3 k q) = Bicycle.posDist P xg q := by
    unfold Bicycle.posDist Params.tractorPos Spec.turn3
    simp only [cos_turn, sin_turn]
  have e1 : q.th1 + 2 * π * k - (xg.th1 + 2 * π * k') = (q.th1 - xg.th1) + 2 * π * (k - k' : ℤ) := by
    push_cast; ring
  have e3 : q.th1 + 2 * π * k - (xg.th1 + 2 * π * k') - π
      = (q.th1 - xg.th1 - π) + 2 * π * (k - k' : ℤ) := by push_cast; ring
  have he : Bicycle.headingErr P (Spec.turn3 k' xg) (Spec.turn3 k q)
      = Bicycle.headingErr P xg q := by
    unfold Bicycle.headingErr Spec.turn3
    simp only [e3]
    simp only [e1, wrapPi_add_turns]
  refine ⟨?_, ?_, ?_, ?_⟩
  · unfold Bicycle.checkObstacle Params.tractorCorners Spec.turn3
    simp only [cos_turn, sin_turn, boxCorners_turn]
  · unfold Bicycle.getReward; rw [hd, he]
  · unfold Bicycle.getTerminalReward; rw [hd]
  · unfold Bicycle.euler Q3.axpy Bicycle.dynamics Spec.turn3
    simp only [cos_turn, sin_turn]
    ext <;> simp <;> ring

/-- Full turns of the acceleration model's headings. -/
noncomputable def Spec.turn6 (k m : ℤ) (q : Q6) : Q6 :=
  ⟨q.px, q.py, q.th1 + 2 * π * k, q.th2 + 2 * π * m, q.v, q.delta⟩

/-- C35, acceleration model: checks, rewards, dynamics (any time step), and the whole predictive
safety check. -/
theorem C35_acc (T : Acc) (q : Q6) (k m : ℤ) (u : U) (dt : ℝ) :
    (T.checkObstacle (Spec.turn6 k m q) ↔ T.checkObstacle q) ∧
    (T.checkHitch (Spec.turn6 k m q) ↔ T.checkHitch q) ∧
    T.getReward (Spec.turn6 k m q) = T.getReward q ∧
    T.getTerminalReward (Spec.turn6 k m q) = T.getTerminalReward q ∧
    T.euler (Spec.turn6 k m q) u dt = Spec.turn6 k m (T.euler q u dt) := by
  have e : Spec.turn4 0 0 T.xg.pose = T.xg.pose := by unfold Spec.turn4; simp
  have r := C35_reward_tt2d T.toParams T.xg.pose q.pose k m 0 0
  rw [e] at r
  refine ⟨C35_obstacle_tt2d _ q.pose k m, C35_hitch_tt2d _ q.pose k m, r.1, r.2, ?_⟩
  have hdiff : q.th1 + 2 * π * k - (q.th2 + 2 * π * m)
    = (q.th1 - q.th2) + 2 * π * (k - m : ℤ) := by push_cast; ring
  unfold Acc.euler Q6.axpy Acc.dynamics Spec.turn6
  simp only [hdiff, cos_turn, sin_turn]
  ext <;> simp <;> ring

/-! ### N trailers -/

/-- Full turns of every heading of the train: `k` for the tractor, `m i` for trailer `i`. -/
noncomputable def Spec.turnN (k : ℤ) (m : ℕ → ℤ) (x : QN) : QN :=
  ⟨x.px, x.py, x.th0 + 2 * π * k, x.ths.mapIdx fun i t => t + 2 * π * m i⟩

theorem theta_turn (T : NTrailer) (x : QN) (k : ℤ) (m : ℕ → ℤ) (i : ℕ) :
    ∃ j : ℤ, T.theta (Spec.turnN k m x) i = T.theta x i + 2 * π * j := by
  unfold NTrailer.theta NTrailer.slice clampGet Spec.turnN
  simp only [List.length_take, List.length_mapIdx]
  set n := min i (min T.N x.ths.length - 1)
  by_cases h : n < min T.N x.ths.length
  · refine ⟨m n, ?_⟩
    have h1 : n < T.N := lt_of_lt_of_le h (min_le_left _ _)
    have h2 : n < x.ths.length := lt_of_lt_of_le h (min_le_right _ _)
    simp [List.getD_eq_getElem?_getD, List.getElem?_take, h1, h2]
  · refine ⟨0, ?_⟩
    have e1 : (List.take T.N (List.mapIdx (fun i t => t + 2 * π * (m i : ℝ)) x.ths)).getD n 0 = 0 := by
      rw [List.getD_eq_getElem?_getD, List.getElem?_eq_none (by
        rw [List.length_take, List.length_mapIdx]; omega)]; rfl
    have e2 : (List.take T.N x.ths).getD n 0 = 0 := by
      rw [List.getD_eq_getElem?_getD, List.getElem?_eq_none (by
        rw [List.length_take]; omega)]; rfl
    rw [e1, e2]; simp

theorem cos_theta_turn (T : NTrailer) (x : QN) (k : ℤ) (m : ℕ → ℤ) (i : ℕ) :
    cos (T.theta (Spec.turnN k m x) i) = cos (T.theta x i) ∧
    sin (T.theta (Spec.turnN k m x) i) = sin (T.theta x i) := by
  obtain ⟨j, h⟩ := theta_turn T x k m i
  rw [h, cos_turn, sin_turn]; exact ⟨rfl, rfl⟩

theorem hitch0_turn (T : NTrailer) (x : QN) (k : ℤ) (m : ℕ → ℤ) :
    T.hitch0 (Spec.turnN k m x) = T.hitch0 x := by
  unfold NTrailer.hitch0 Spec.turnN; simp only [cos_turn, sin_turn]

theorem lastPosLoop_turn (T : NTrailer) (x : QN) (k : ℤ) (m : ℕ → ℤ) :
    ∀ i, T.lastPosLoop (Spec.turnN k m x) i = T.lastPosLoop x i
  | 0 => by simp only [NTrailer.lastPosLoop, hitch0_turn]
  | i + 1 => by
    simp only [NTrailer.lastPosLoop, lastPosLoop_turn T x k m i, (cos_theta_turn T x k m i).1,
      (cos_theta_turn T x k m i).2]

theorem rectHitch_turn (T : NTrailer) (x : QN) (k : ℤ) (m : ℕ → ℤ) :
    ∀ i, T.rectHitch (Spec.turnN k m x) i = T.rectHitch x i
  | 0 => by simp only [NTrailer.rectHitch, hitch0_turn]
  | i + 1 => by
    simp only [NTrailer.rectHitch, rectHitch_turn T x k m i, (cos_theta_turn T x k m i).1,
      (cos_theta_turn T x k m i).2]

/-- C35, N trailers: obstacle check and rewards. -/
theorem C35_obstacle_ntrailer (T : NTrailer) (x : QN) (k : ℤ) (m : ℕ → ℤ) :
    (T.checkObstacle (Spec.turnN k m x) ↔ T.checkObstacle x) ∧
    T.getReward (Spec.turnN k m x) = T.getReward x ∧
    T.getTerminalReward (Spec.turnN k m x) = T.getTerminalReward x := by
  have hk : T.tractorCorners (Spec.turnN k m x).px (Spec.turnN k m x).py (Spec.turnN k m x).th0
      = T.tractorCorners x.px x.py x.th0 := by
    unfold Params.tractorCorners Spec.turnN
    simp only [cos_turn, sin_turn, boxCorners_turn]
  have ht : T.allTrailerCorners (Spec.turnN k m x) = T.allTrailerCorners x := by
    unfold NTrailer.allTrailerCorners
    apply List.map_congr_left
    intro i _
    obtain ⟨j, hj⟩ := theta_turn T x k m i
    unfold NTrailer.trailerCorners
    simp only [rectHitch_turn, hj, cos_turn, sin_turn, boxCorners_turn]
  have hd : T.posDist (Spec.turnN k m x) = T.posDist x := by
    unfold NTrailer.posDist NTrailer.dTractor NTrailer.dLast NTrailer.lastTrailerPos
      Params.tractorPos
    rw [lastPosLoop_turn]
    simp only [Spec.turnN, cos_turn, sin_turn]
  refine ⟨?_, ?_, ?_⟩
  · unfold NTrailer.checkObstacle
    simp only [hk, ht]
  · unfold NTrailer.getReward; rw [hd]
  · unfold NTrailer.getTerminalReward; rw [hd]

/-- C35, N trailers: derivatives of all states. -/
theorem C35_dynamics_ntrailer (T : NTrailer) (x : QN) (k : ℤ) (m : ℕ → ℤ) (u : U) :
    T.dynamics (Spec.turnN k m x) u = T.dynamics x u := by
  have hc : ∀ i, ∃ j : ℤ, T.carryAt (Spec.turnN k m x) u.1 u.2 i
      = { T.carryAt x u.1 u.2 i with theta := (T.carryAt x u.1 u.2 i).theta + 2 * π * j } := by
    intro i
    induction i with
    | zero => exact ⟨k, rfl⟩
    | succ i ih =>
      obtain ⟨j, hj⟩ := ih
      obtain ⟨l, hl⟩ := theta_turn T x k m i
      refine ⟨l, ?_⟩
      rw [NTrailer.carryAt, NTrailer.carryAt, hj]
      unfold NTrailer.loopBody
      have e : (T.carryAt x u.1 u.2 i).theta + 2 * π * j - (T.theta x i + 2 * π * l)
          = ((T.carryAt x u.1 u.2 i).theta - T.theta x i) + 2 * π * (j - l : ℤ) := by
        push_cast; ring
      simp only [hl, e, cos_turn, sin_turn]
  unfold NTrailer.dynamics
  ext1
  · simp only [Spec.turnN, cos_turn]
  · simp only [Spec.turnN, sin_turn]
  · rfl
  · apply List.map_congr_left
    intro i _
    obtain ⟨j, hj⟩ := hc (i + 1)
    rw [hj]

end Mbd
