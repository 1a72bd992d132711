import Verif.PropsAcc
import Verif.PropsShield
import Verif.PropsTrailer
import Verif.Witness
import Mathlib.Data.List.GetD

/-!
# C36, second part: penalty accounting of the acceleration model, of guidance and of projection; motion
# equations of the train for C09 and C36
-/

namespace Spec

open Real Mbd

/-- One explicit Euler step of length `h` of the acceleration-controlled tractor-trailer: acceleration
`a`, steering rate `ω`; speed and steering angle enter the motion limited to their bounds. -/
def EulerAcc (T : Acc) (q : Q6) (a ω h : ℝ) (q' : Q6) : Prop :=
  let v := min (max q.v (-T.vMax)) T.vMax
  let δ := min (max q.delta (-(T.deltaMaxDeg * π / 180))) (T.deltaMaxDeg * π / 180)
  q'.px = q.px + h * (v * cos q.th1) ∧
  q'.py = q.py + h * (v * sin q.th1) ∧
  q'.th1 = q.th1 + h * (v / T.l1 * tan δ) ∧
  q'.th2 = q.th2 + h * (v / T.l2 * (sin (q.th1 - q.th2)
    - T.lh / T.l1 * cos (q.th1 - q.th2) * tan δ)) ∧
  q'.v = q.v + h * a ∧
  q'.delta = q.delta + h * ω

/-- The predicted braking manoeuvre `p 0, p 1, ..` of the shield from state `q`: every second the vehicle
moves on under the braking acceleration `min (|v| / dt) a_max` against the speed `v` of `q`, until the
speed is at most 0.01. -/
structure Braking (T : Acc) (q : Q6) (p : ℕ → Q6) : Prop where
  start : p 0 = q
  move : ∀ k, 0.01 < |(p k).v| →
    EulerAcc T (p k) (if 0 < q.v then -(min (|q.v| / T.dt) T.aMax) else min (|q.v| / T.dt) T.aMax) 0 1
      (p (k + 1))
  rest : ∀ k, |(p k).v| ≤ 0.01 → p (k + 1) = p k

/-- One explicit Euler step of the train with normalised input `u`.  `s i`, `w i` are the speed and the
turning rate of unit `i` (0: tractor), every trailer follows from the unit in front of it. -/
def EulerN (T : NTrailer) (q : QN) (u : U) (q' : QN) : Prop :=
  ∃ s w : ℕ → ℝ,
    let v := u.1 * T.vMax
    let δ := u.2 * (T.deltaMaxDeg * π / 180)
    let heading := fun i => (q.th0 :: q.ths).getD i 0
    s 0 = v ∧ w 0 = v / T.l1 * tan δ ∧
    (∀ i < T.N,
      s (i + 1) = s i * cos (heading i - heading (i + 1)) + T.lh * w i * sin (heading i - heading (i + 1)) ∧
      w (i + 1) = (s i * sin (heading i - heading (i + 1))
        - T.lh * w i * cos (heading i - heading (i + 1))) / T.lengths.getD i 0) ∧
    q'.px = q.px + T.dt * (v * cos q.th0) ∧
    q'.py = q.py + T.dt * (v * sin q.th0) ∧
    q'.th0 = q.th0 + T.dt * w 0 ∧
    q'.ths.length = T.N ∧
    ∀ i < T.N, q'.ths.getD i 0 = q.ths.getD i 0 + T.dt * w (i + 1)

end Spec

namespace Mbd

open Real Classical

/-! ## Acceleration model -/

theorem eulerAcc_iff (T : Acc) (q : Q6) (a ω h : ℝ) (q' : Q6) :
    Spec.EulerAcc T q a ω h q' ↔ q' = T.euler q (a, ω) h := by
  unfold Spec.EulerAcc Acc.euler Q6.axpy Acc.dynamics clip Params.deltaMax
  rw [Q6.ext_iff]

/-- The states of the predictive rollout are the braking manoeuvre. -/
theorem rolloutScan_braking {T : Acc} (ha : 0 ≤ T.aMax) (hdt : 0 < T.dt) {q : Q6} (hq : 0.01 < |q.v|)
    {p : ℕ → Q6} (hp : Spec.Braking T q p) : ∀ n, (T.rolloutScan q n).q = p n ∧
      ((T.rolloutScan q n).oc = true ↔ ∃ k ≤ n, T.checkObstacle (p k)) ∧
      ((T.rolloutScan q n).hv = true ↔ ∃ k ≤ n, T.checkHitch (p k)) := by
  have hu : T.uStop q.v = (if 0 < q.v then -(min (|q.v| / T.dt) T.aMax) else min (|q.v| / T.dt) T.aMax, 0) := by
    unfold Acc.uStop Acc.decelSign Acc.vThr
    rw [Acc.aBackup_eq ha hdt]
    rcases abs_cases q.v with ⟨e, h0⟩ | ⟨e, h0⟩
    · rw [if_pos (by linarith), if_pos (by linarith)]
      simp
    · rw [if_neg (by linarith), if_pos (by linarith), if_neg (by linarith)]
      simp
  intro n
  induction n with
  | zero =>
    refine ⟨hp.start.symm, ?_, ?_⟩ <;> simp [Acc.rolloutScan, hp.start]
  | succ n ih =>
    obtain ⟨i1, i2, i3⟩ := ih
    have e : T.rolloutScan q (n + 1) = T.rolloutStep (T.uStop q.v) (T.rolloutScan q n) := by
      unfold Acc.rolloutScan
      rw [Function.iterate_succ_apply']
    have hnext : (T.rolloutScan q (n + 1)).q = p (n + 1) := by
      rw [e]
      unfold Acc.rolloutStep
      simp only [i1]
      by_cases hv : 0.01 < |(p n).v|
      · rw [if_pos (by unfold Acc.vThr; exact hv)]
        have := (eulerAcc_iff ..).mp (hp.move n hv)
        rw [this, hu]
        rfl
      · rw [if_neg (by unfold Acc.vThr; exact hv), hp.rest n (not_lt.mp hv)]
    have hoc : (T.rolloutScan q (n + 1)).oc =
        ((T.rolloutScan q n).oc || decide (T.checkObstacle (T.rolloutScan q (n + 1)).q)) := by
      rw [e]; rfl
    have hhv : (T.rolloutScan q (n + 1)).hv =
        ((T.rolloutScan q n).hv || decide (T.checkHitch (T.rolloutScan q (n + 1)).q)) := by
      rw [e]; rfl
    have split : ∀ P : ℕ → Prop, (∃ k ≤ n + 1, P k) ↔ (∃ k ≤ n, P k) ∨ P (n + 1) := by
      intro P
      constructor
      · rintro ⟨k, hk, h⟩
        rcases Nat.lt_or_ge n k with h1 | h1
        · have : k = n + 1 := by omega
          subst this; exact Or.inr h
        · exact Or.inl ⟨k, h1, h⟩
      · rintro (⟨k, hk, h⟩ | h)
        · exact ⟨k, by omega, h⟩
        · exact ⟨n + 1, le_rfl, h⟩
    refine ⟨hnext, ?_, ?_⟩
    · rw [hoc, Bool.or_eq_true, i2, decide_eq_true_eq, hnext, split]
    · rw [hhv, Bool.or_eq_true, i3, decide_eq_true_eq, hnext, split]

/-- Number of predicted seconds: none at standstill, else `2 v_max / a_max`. -/
noncomputable def predictedSeconds (T : Acc) (v : ℝ) : ℕ := if |v| ≤ 0.01 then 0 else ⌊2 * T.vMax / T.aMax⌋₊

theorem checkSafety_braking {T : Acc} (ha : 0 ≤ T.aMax) (hdt : 0 < T.dt) {q : Q6}
    {p : ℕ → Q6} (hp : Spec.Braking T q p) :
    ((T.checkSafety q).1 = true ↔ ∃ k ≤ predictedSeconds T q.v, T.checkObstacle (p k)) ∧
    ((T.checkSafety q).2 = true ↔ ∃ k ≤ predictedSeconds T q.v, T.checkHitch (p k)) := by
  unfold Acc.checkSafety predictedSeconds
  by_cases hv : |q.v| ≤ 0.01
  · rw [if_pos (by unfold Acc.vThr; exact hv), if_pos hv]
    simp [hp.start]
  · rw [if_neg (by unfold Acc.vThr; exact hv), if_neg hv]
    have hn : T.maxRolloutSteps = ⌊2 * T.vMax / T.aMax⌋₊ := by
      unfold Acc.maxRolloutSteps Acc.rolloutDt
      rw [sub_zero, mul_one]
    rw [hn]
    exact (rolloutScan_braking ha hdt (not_le.mp hv) hp _).2

/-- Every state has its braking manoeuvre. -/
theorem braking_exists (T : Acc) (q : Q6) : ∃ p, Spec.Braking T q p := by
  let a : ℝ := if 0 < q.v then -(min (|q.v| / T.dt) T.aMax) else min (|q.v| / T.dt) T.aMax
  let next : Q6 → Q6 := fun x => if 0.01 < |x.v| then T.euler x (a, 0) 1 else x
  refine ⟨fun k => next^[k] q, rfl, fun k hk => ?_, fun k hk => ?_⟩
  · rw [eulerAcc_iff]
    simp only [Function.iterate_succ_apply']
    exact if_pos hk
  · simp only [Function.iterate_succ_apply']
    exact if_neg (not_lt.mpr hk)

/-- **C36, acceleration model, no shield**: reward = state reward of the next state, minus the collision
penalty iff it collides, minus the hitch penalty iff it jackknifes, minus the preference penalty of its
speed. -/
theorem C36_acc (T : Acc) (ext : Ext Q6) (hp : T.enableProjection = false) (hg : T.enableGuidance = false)
    (h1 : T.shieldCollision = false) (h2 : T.shieldHitch = false) (s : St Q6) (hb : s.inBackup = false)
    (a : U) (q' : Q6) (hq : Spec.EulerAcc T s.q ((clipU a).1 * T.aMax) ((clipU a).2 * T.omegaMax) T.dt q') :
    (T.step ext s a).q = q' ∧
    (T.step ext s a).reward = T.getReward q'
      - (if T.checkObstacle q' then T.collisionPenalty else 0)
      - (if T.checkHitch q' then T.hitchPenalty else 0)
      - Spec.prefPenalty T.preferencePenaltyWeight T.motionPreference q'.v := by
  have e := (eulerAcc_iff ..).mp hq
  have hpref : ∀ x : ℝ, (if T.motionPreference ≠ 0 then x - T.prefPenaltyV q'.v else x) =
      x - Spec.prefPenalty T.preferencePenaltyWeight T.motionPreference q'.v := by
    intro x
    rw [prefPenaltyV_eq]
    by_cases h : T.motionPreference = 0 <;> simp [h, Spec.prefPenalty]
  have e' : T.euler s.q (T.inputScaler (clipU a)) T.dt = q' := e.symm
  unfold Acc.step Acc.stepInternal Acc.naive
  simp only [hp, hg, h1, h2, hb, Bool.false_eq_true, if_false, Bool.or_false, e', hpref, decide_eq_true_eq,
    true_and]
  split_ifs <;> ring

/-- **C36, acceleration model, with either shield**: the penalties are charged exactly when the predicted braking
manoeuvre from the requested state collides (jackknifes) at one of its full seconds; the state reward and
the preference penalty are those of the state actually reached. -/
theorem C36_acc_shielded {T : Acc} (hproj : T.enableProjection = false) (hguid : T.enableGuidance = false)
    (hsh : T.shieldCollision = true ∨ T.shieldHitch = true) (ha : 0 ≤ T.aMax) (hdt : 0 < T.dt) (ext : Ext Q6)
    (s : St Q6) (hb : s.inBackup = false) (a : U) (q' : Q6)
    (hq : Spec.EulerAcc T s.q ((clipU a).1 * T.aMax) ((clipU a).2 * T.omegaMax) T.dt q')
    (p : ℕ → Q6) (hp : Spec.Braking T q' p) :
    (T.step ext s a).reward = T.getReward (T.step ext s a).q
      - (if ∃ k ≤ predictedSeconds T q'.v, T.checkObstacle (p k) then T.collisionPenalty else 0)
      - (if ∃ k ≤ predictedSeconds T q'.v, T.checkHitch (p k) then T.hitchPenalty else 0)
      - Spec.prefPenalty T.preferencePenaltyWeight T.motionPreference (T.step ext s a).q.v := by
  have e' : T.euler s.q (T.inputScaler (clipU a)) T.dt = q' := ((eulerAcc_iff ..).mp hq).symm
  obtain ⟨k1, k2⟩ := checkSafety_braking ha hdt hp
  have hpref : ∀ x v : ℝ, (if T.motionPreference ≠ 0 then x - T.prefPenaltyV v else x) =
      x - Spec.prefPenalty T.preferencePenaltyWeight T.motionPreference v := by
    intro x v
    rw [prefPenaltyV_eq]
    by_cases h : T.motionPreference = 0 <;> simp [h, Spec.prefPenalty]
  rw [if_congr k1.symm rfl rfl, if_congr k2.symm rfl rfl]
  unfold Acc.step Acc.stepInternal Acc.shieldedRollout
  have hsh' : (T.shieldCollision || T.shieldHitch) = true := by
    rw [Bool.or_eq_true]; exact hsh
  simp only [hproj, hguid, hsh', hb, Bool.false_eq_true, if_false, if_true, e', hpref]
  generalize T.checkSafety q' = f
  obtain ⟨f1, f2⟩ := f
  cases f1 <;> cases f2 <;> simp

/-- Both kinds of acceleration vehicle meet the hypotheses: the default one (shields on). -/
example (ext : Ext Q6) (a : U) : ∃ q' p, Spec.Braking Wit.acc q' p ∧
    Spec.EulerAcc Wit.acc Wit.acc.reset.q ((clipU a).1 * Wit.acc.aMax) ((clipU a).2 * Wit.acc.omegaMax)
      Wit.acc.dt q' ∧
    (Wit.acc.step ext Wit.acc.reset a).reward ≤ Wit.acc.getReward (Wit.acc.step ext Wit.acc.reset a).q := by
  obtain ⟨p, hp⟩ := braking_exists Wit.acc
    (Wit.acc.euler Wit.acc.reset.q ((clipU a).1 * Wit.acc.aMax, (clipU a).2 * Wit.acc.omegaMax) Wit.acc.dt)
  refine ⟨_, p, hp, (eulerAcc_iff ..).mpr rfl, ?_⟩
  rw [C36_acc_shielded rfl rfl (Or.inl rfl) (by norm_num [Wit.acc]) (by norm_num [Wit.acc, Wit.params, Params.default])
    ext Wit.acc.reset rfl a _ ((eulerAcc_iff ..).mpr rfl) p hp]
  have h1 : (0 : ℝ) ≤ Wit.acc.collisionPenalty := by norm_num [Wit.acc, Wit.params, Params.default]
  have h2 : (0 : ℝ) ≤ Wit.acc.hitchPenalty := by norm_num [Wit.acc, Wit.params, Params.default]
  have h3 := (C36_pref Wit.acc.preferencePenaltyWeight Wit.acc.motionPreference
    (Wit.acc.step ext Wit.acc.reset a).q.v).1 (by norm_num [Wit.acc, Wit.params, Params.default])
  split_ifs <;> linarith

/-! ## Guidance: the guided state is evaluated -/

/-- **C36, guidance, tractor-trailer**: while planning, the state moves on to the requested state `qp`, but
reward and penalties are those of the guided state. -/
theorem C36_guided_tt2d (T : TT2d) (ext : Ext Q4) (hp : T.enableProjection = false)
    (hg : T.enableGuidance = true) (s : St Q4) (hb : s.inBackup = false) (a : U) (qp : Q4)
    (hq : Spec.EulerTT T.toParams s.q (clipU a) qp) :
    (T.step ext s a).q = qp ∧ (T.step ext s a).applied = clipU a ∧
    (T.step ext s a).reward = TT2d.getReward T.toParams T.xg (ext.guide qp)
      - (if TT2d.checkObstacle T.toParams (ext.guide qp) then T.collisionPenalty else 0)
      - (if TT2d.checkHitch T.toParams (ext.guide qp) then T.hitchPenalty else 0)
      - Spec.prefPenalty T.preferencePenaltyWeight T.motionPreference ((clipU a).1 * T.vMax) := by
  have e : TT2d.euler T.toParams s.q (T.inputScaler (clipU a)) = qp := ((eulerTT_iff ..).mp hq).symm
  have hpref : ∀ x : ℝ, (if T.motionPreference ≠ 0 then x - T.prefPenaltyU (T.inputScaler (clipU a)) else x) =
      x - Spec.prefPenalty T.preferencePenaltyWeight T.motionPreference ((clipU a).1 * T.vMax) := by
    intro x
    unfold Params.prefPenaltyU
    rw [prefPenaltyV_eq]
    by_cases h : T.motionPreference = 0 <;> simp [h, Spec.prefPenalty, Params.inputScaler]
  unfold TT2d.step TT2d.stepInternal
  simp only [hp, hg, hb, Bool.false_eq_true, if_false, if_true, e, hpref, decide_eq_true_eq, true_and]
  split_ifs <;> ring

/-- **C36, guidance, bicycle.** -/
theorem C36_guided_bicycle (T : Bicycle) (ext : Ext Q3) (hp : T.enableProjection = false)
    (hg : T.enableGuidance = true) (s : St Q3) (hb : s.inBackup = false) (a : U) (qp : Q3)
    (hq : Spec.EulerBicycle T.toParams s.q (clipU a) qp) :
    (T.step ext s a).q = qp ∧ (T.step ext s a).applied = clipU a ∧
    (T.step ext s a).reward = Bicycle.getReward T.toParams T.xg (ext.guide qp)
      - (if Bicycle.checkObstacle T.toParams (ext.guide qp) then T.collisionPenalty else 0)
      - Spec.prefPenalty T.preferencePenaltyWeight T.motionPreference ((clipU a).1 * T.vMax) := by
  have e : Bicycle.euler T.toParams s.q (T.inputScaler (clipU a)) = qp := ((eulerBicycle_iff ..).mp hq).symm
  have hpref : ∀ x : ℝ, (if T.motionPreference ≠ 0 then x - T.prefPenaltyU (T.inputScaler (clipU a)) else x) =
      x - Spec.prefPenalty T.preferencePenaltyWeight T.motionPreference ((clipU a).1 * T.vMax) := by
    intro x
    unfold Params.prefPenaltyU
    rw [prefPenaltyV_eq]
    by_cases h : T.motionPreference = 0 <;> simp [h, Spec.prefPenalty, Params.inputScaler]
  have hh : ∀ q, ¬ Bicycle.checkHitch T.toParams q := fun _ => id
  unfold Bicycle.step Bicycle.stepInternal
  simp only [hp, hg, hb, Bool.false_eq_true, if_false, if_true, e, hpref, decide_eq_true_eq, true_and, hh]
  split_ifs <;> ring

/-- **C36, guidance, acceleration model**: the preference penalty is that of the speed reached. -/
theorem C36_guided_acc (T : Acc) (ext : Ext Q6) (hp : T.enableProjection = false)
    (hg : T.enableGuidance = true) (s : St Q6) (hb : s.inBackup = false) (a : U) (qp : Q6)
    (hq : Spec.EulerAcc T s.q ((clipU a).1 * T.aMax) ((clipU a).2 * T.omegaMax) T.dt qp) :
    (T.step ext s a).q = qp ∧ (T.step ext s a).applied = clipU a ∧
    (T.step ext s a).reward = T.getReward (ext.guide qp)
      - (if T.checkObstacle (ext.guide qp) then T.collisionPenalty else 0)
      - (if T.checkHitch (ext.guide qp) then T.hitchPenalty else 0)
      - Spec.prefPenalty T.preferencePenaltyWeight T.motionPreference qp.v := by
  have e : T.euler s.q (T.inputScaler (clipU a)) T.dt = qp := ((eulerAcc_iff ..).mp hq).symm
  have hpref : ∀ x : ℝ, (if T.motionPreference ≠ 0 then x - T.prefPenaltyV qp.v else x) =
      x - Spec.prefPenalty T.preferencePenaltyWeight T.motionPreference qp.v := by
    intro x
    rw [prefPenaltyV_eq]
    by_cases h : T.motionPreference = 0 <;> simp [h, Spec.prefPenalty]
  unfold Acc.step Acc.stepInternal
  simp only [hp, hg, hb, Bool.false_eq_true, if_false, if_true, e, hpref, decide_eq_true_eq, true_and]
  split_ifs <;> ring

/-- The hypotheses can be met: the default vehicles with guidance switched on. -/
example (ext : Ext Q4) (a : U) :=
  C36_guided_tt2d { Wit.tt with enableGuidance := true } ext rfl rfl Wit.tt.reset rfl a _
    ((eulerTT_iff ..).mpr rfl)

example (ext : Ext Q3) (a : U) :=
  C36_guided_bicycle { Wit.bike with enableGuidance := true } ext rfl rfl Wit.bike.reset rfl a _
    ((eulerBicycle_iff ..).mpr rfl)

example (ext : Ext Q6) (a : U) :=
  C36_guided_acc { Wit.acc with enableGuidance := true } ext rfl rfl Wit.acc.reset rfl a _
    ((eulerAcc_iff ..).mpr rfl)

example (ext : Ext Q6) (a : U) :=
  C36_acc { Wit.acc with shieldCollision := false, shieldHitch := false } ext rfl rfl rfl rfl
    Wit.acc.reset rfl a _ ((eulerAcc_iff ..).mpr rfl)

/-! ## Projection: no penalty for a projected step -/

/-- **C36, projection, tractor-trailer**: the projected action is executed, its state is rewarded without
collision or hitch penalty, whether or not it collides. -/
theorem C36_projected_tt2d (T : TT2d) (ext : Ext Q4) (hp : T.enableProjection = true) (s : St Q4) (a : U)
    (q' : Q4) (hq : Spec.EulerTT T.toParams s.q (ext.project s.q (clipU a)) q') :
    (T.step ext s a).q = q' ∧ (T.step ext s a).applied = ext.project s.q (clipU a) ∧
    (T.step ext s a).reward = TT2d.getReward T.toParams T.xg q'
      - Spec.prefPenalty T.preferencePenaltyWeight T.motionPreference
          ((ext.project s.q (clipU a)).1 * T.vMax) := by
  have e : TT2d.euler T.toParams s.q (T.inputScaler (ext.project s.q (clipU a))) = q' :=
    ((eulerTT_iff ..).mp hq).symm
  unfold TT2d.step TT2d.stepInternal
  simp only [hp, if_true, e, Bool.false_eq_true, if_false, true_and]
  unfold Params.prefPenaltyU
  rw [prefPenaltyV_eq]
  by_cases h : T.motionPreference = 0 <;> simp [h, Spec.prefPenalty, Params.inputScaler]

/-- **C36, projection, bicycle**: here the projected state is still checked and a collision is charged. -/
theorem C36_projected_bicycle (T : Bicycle) (ext : Ext Q3) (hp : T.enableProjection = true) (s : St Q3)
    (a : U) (q' : Q3) (hq : Spec.EulerBicycle T.toParams s.q (ext.project s.q (clipU a)) q') :
    (T.step ext s a).q = q' ∧ (T.step ext s a).applied = ext.project s.q (clipU a) ∧
    (T.step ext s a).reward = Bicycle.getReward T.toParams T.xg q'
      - (if Bicycle.checkObstacle T.toParams q' then T.collisionPenalty else 0)
      - Spec.prefPenalty T.preferencePenaltyWeight T.motionPreference
          ((ext.project s.q (clipU a)).1 * T.vMax) := by
  have e : Bicycle.euler T.toParams s.q (T.inputScaler (ext.project s.q (clipU a))) = q' :=
    ((eulerBicycle_iff ..).mp hq).symm
  have hh : ∀ q, ¬ Bicycle.checkHitch T.toParams q := fun _ => id
  unfold Bicycle.step Bicycle.stepInternal
  simp only [hp, if_true, e, Bool.false_eq_true, if_false, true_and, decide_eq_true_eq, hh]
  unfold Params.prefPenaltyU
  rw [prefPenaltyV_eq]
  by_cases hc : Bicycle.checkObstacle T.toParams q' <;> by_cases h : T.motionPreference = 0 <;>
    simp [h, hc, Spec.prefPenalty, Params.inputScaler]

example (ext : Ext Q4) (a : U) :=
  C36_projected_tt2d { Wit.tt with enableProjection := true } ext rfl Wit.tt.reset a _
    ((eulerTT_iff ..).mpr rfl)

example (ext : Ext Q3) (a : U) :=
  C36_projected_bicycle { Wit.bike with enableProjection := true } ext rfl Wit.bike.reset a _
    ((eulerBicycle_iff ..).mpr rfl)

/-! ## The train -/

theorem carryAt_spec {T : NTrailer} {q : QN} (h : Spec.WellSized T q) (v δ : ℝ) : ∀ i ≤ T.N,
    (T.carryAt q v δ i).theta = (q.th0 :: q.ths).getD i 0 := by
  intro i hi
  cases i with
  | zero => rfl
  | succ i =>
    show T.theta q i = _
    rw [theta_of_lt h (by omega)]
    rfl

theorem eulerN_iff {T : NTrailer} {q : QN} (h : Spec.WellSized T q) (u : U) (q' : QN) :
    Spec.EulerN T q u q' ↔ q' = T.euler q (T.inputScaler u) := by
  have hs : T.inputScaler u = (u.1 * T.vMax, u.2 * (T.deltaMaxDeg * π / 180)) := rfl
  have hlen : (T.euler q (T.inputScaler u)).ths.length = T.N := by
    simp [NTrailer.euler, QN.axpy, NTrailer.dynamics, h.ths]
  have hget : ∀ i < T.N, (T.euler q (T.inputScaler u)).ths.getD i 0 = q.ths.getD i 0 +
      T.dt * (T.carryAt q (T.inputScaler u).1 (T.inputScaler u).2 (i + 1)).dot := by
    intro i hi
    have hi1 : i < (T.euler q (T.inputScaler u)).ths.length := by rw [hlen]; exact hi
    have hi2 : i < q.ths.length := by rw [h.ths]; exact hi
    rw [List.getD_eq_getElem _ _ hi1, List.getD_eq_getElem _ _ hi2]
    simp [NTrailer.euler, QN.axpy, NTrailer.dynamics]
  -- the carries are the speeds and rates of the specification
  have hrec : ∀ i < T.N,
      (T.carryAt q (T.inputScaler u).1 (T.inputScaler u).2 (i + 1)).speed =
        (T.carryAt q (T.inputScaler u).1 (T.inputScaler u).2 i).speed *
          cos ((q.th0 :: q.ths).getD i 0 - (q.th0 :: q.ths).getD (i + 1) 0) +
        T.lh * (T.carryAt q (T.inputScaler u).1 (T.inputScaler u).2 i).dot *
          sin ((q.th0 :: q.ths).getD i 0 - (q.th0 :: q.ths).getD (i + 1) 0) ∧
      (T.carryAt q (T.inputScaler u).1 (T.inputScaler u).2 (i + 1)).dot =
        ((T.carryAt q (T.inputScaler u).1 (T.inputScaler u).2 i).speed *
          sin ((q.th0 :: q.ths).getD i 0 - (q.th0 :: q.ths).getD (i + 1) 0) -
        T.lh * (T.carryAt q (T.inputScaler u).1 (T.inputScaler u).2 i).dot *
          cos ((q.th0 :: q.ths).getD i 0 - (q.th0 :: q.ths).getD (i + 1) 0)) / T.lengths.getD i 0 := by
    intro i hi
    have ht : T.theta q i = (q.th0 :: q.ths).getD (i + 1) 0 := by rw [theta_of_lt h hi]; rfl
    have hL : clampGet T.lengths i = T.lengths.getD i 0 := clampGet_of_lt (by rw [h.lengths]; exact hi)
    have hth := carryAt_spec h (T.inputScaler u).1 (T.inputScaler u).2 i (by omega)
    cases i with
    | zero =>
      simp only [NTrailer.carryAt, NTrailer.loopBody, ht, hL, if_true]
      simp only [NTrailer.carryAt] at hth
      constructor
      · rw [← hth]
      · rw [← hth]; ring
    | succ i =>
      rw [NTrailer.carryAt, NTrailer.loopBody]
      simp only [ht, hL, hth, Nat.succ_ne_zero, if_false, true_and]
      ring
  constructor
  · rintro ⟨s, w, h0, h1, hi, e1, e2, e3, e4, e5⟩
    have key : ∀ i ≤ T.N, s i = (T.carryAt q (T.inputScaler u).1 (T.inputScaler u).2 i).speed ∧
        w i = (T.carryAt q (T.inputScaler u).1 (T.inputScaler u).2 i).dot := by
      intro i
      induction i with
      | zero => intro _; exact ⟨h0, h1⟩
      | succ i ih =>
        intro hle
        obtain ⟨a, b⟩ := ih (by omega)
        obtain ⟨c, d⟩ := hrec i (by omega)
        obtain ⟨c', d'⟩ := hi i (by omega)
        rw [c, d, c', d', a, b]
        exact ⟨rfl, rfl⟩
    rw [QN.ext_iff]
    refine ⟨e1, e2, ?_, ?_⟩
    · rw [e3, h1]; rfl
    · apply List.ext_getElem
      · rw [e4, hlen]
      · intro i hi1 hi2
        have hN : i < T.N := by rw [← e4]; exact hi1
        have := e5 i hN
        rw [(key (i + 1) (by omega)).2, ← hget i hN, List.getD_eq_getElem _ _ hi1,
          List.getD_eq_getElem _ _ hi2] at this
        exact this
  · rintro rfl
    refine ⟨fun i => (T.carryAt q (T.inputScaler u).1 (T.inputScaler u).2 i).speed,
      fun i => (T.carryAt q (T.inputScaler u).1 (T.inputScaler u).2 i).dot, rfl, rfl, hrec, rfl, rfl, rfl,
      hlen, hget⟩

/-- **C36, train**, in terms of the motion equations: the penalties are those of the requested state, the
preference penalty is that of the *requested* speed. -/
theorem C36_train (T : NTrailer) (guide : QN → QN) (hg : T.enableGuidance = false)
    (s s' : St QN) (hw : Spec.WellSized T s.q) (hb : s.inBackup = false) (a : U)
    (h : T.step guide s a = .ok s') (qp : QN) (hq : Spec.EulerN T s.q (clipU a) qp) :
    s'.reward = T.getReward s'.q
      - (if T.checkObstacle qp then T.collisionPenalty else 0)
      - (if T.checkHitch qp then T.hitchPenalty else 0)
      - Spec.prefPenalty T.preferencePenaltyWeight T.motionPreference ((clipU a).1 * T.vMax) := by
  rw [(eulerN_iff hw _ _).mp hq]
  exact C36_ntrailer T guide hg s s' hb a h

/-- **C36, guidance, train.** -/
theorem C36_guided_train (T : NTrailer) (guide : QN → QN) (hg : T.enableGuidance = true)
    (s s' : St QN) (hw : Spec.WellSized T s.q) (hb : s.inBackup = false) (a : U)
    (h : T.step guide s a = .ok s') (qp : QN) (hq : Spec.EulerN T s.q (clipU a) qp) :
    s'.q = qp ∧ s'.applied = clipU a ∧
    s'.reward = T.getReward (guide qp)
      - (if T.checkObstacle (guide qp) then T.collisionPenalty else 0)
      - (if T.checkHitch (guide qp) then T.hitchPenalty else 0)
      - Spec.prefPenalty T.preferencePenaltyWeight T.motionPreference ((clipU a).1 * T.vMax) := by
  have e := ((eulerN_iff hw _ _).mp hq).symm
  obtain ⟨hl, hp⟩ := T.step_length guide s s' a h
  have hpref : ∀ x : ℝ, (if T.motionPreference ≠ 0 then x - T.prefPenaltyU (T.inputScaler (clipU a)) else x) =
      x - Spec.prefPenalty T.preferencePenaltyWeight T.motionPreference ((clipU a).1 * T.vMax) := by
    intro x
    unfold Params.prefPenaltyU
    rw [prefPenaltyV_eq]
    by_cases h : T.motionPreference = 0 <;> simp [h, Spec.prefPenalty, Params.inputScaler]
  unfold NTrailer.step NTrailer.stepInternal at h
  simp only [hl, hp, hg, hb, ne_eq, not_true_eq_false, Bool.false_eq_true, if_false, if_true, e,
    Except.ok.injEq] at h
  subst h
  simp only [ne_eq] at hpref
  simp only [hpref, decide_eq_true_eq, true_and]
  split_ifs <;> ring

example (guide : QN → QN) (a : U) : ∃ s', ({ Wit.train with enableGuidance := true } : NTrailer).step guide
    Wit.train.reset a = .ok s' ∧ s'.applied = clipU a := by
  obtain ⟨s', h⟩ := (({ Wit.train with enableGuidance := true } : NTrailer).step_ok_iff guide
    Wit.train.reset a).mpr ⟨rfl, rfl⟩
  exact ⟨s', h, (C36_guided_train _ guide rfl _ s' ⟨rfl, rfl, rfl, rfl⟩ rfl a h _
    ((eulerN_iff ⟨rfl, rfl, rfl, rfl⟩ _ _).mpr rfl)).2.1⟩

/-- **C09, train**, in terms of the motion equations: every recorded state follows from the one before
under the recorded action. -/
theorem C09_train (T : NTrailer) (guide : QN → QN) (s : St QN) (hw : Spec.WellSized T s.q) (us : List U)
    (tr : List (St QN)) (h : scanStatesE (T.step guide) s us = .ok tr) :
    List.IsChain (fun s s' : St QN => Spec.EulerN T s.q s'.applied s'.q) (s :: tr) := by
  have hc := C09_ntrailer T guide s us tr h
  clear h
  induction tr generalizing s with
  | nil => exact List.IsChain.singleton _
  | cons t tr ih =>
    rw [List.isChain_cons_cons] at hc ⊢
    have hw' : Spec.WellSized T t.q := by
      refine ⟨?_, hw.lengths, hw.fronts, hw.rears⟩
      rw [hc.1]
      simp [NTrailer.euler, QN.axpy, NTrailer.dynamics, hw.ths]
    exact ⟨(eulerN_iff hw _ _).mpr hc.1, ih t hw' hc.2⟩

example (guide : QN → QN) (us : List U) : ∃ tr, scanStatesE (Wit.train.step guide) Wit.train.reset us = .ok tr ∧
    tr.length = us.length ∧
    List.IsChain (fun s s' : St QN => Spec.EulerN Wit.train s.q s'.applied s'.q) (Wit.train.reset :: tr) := by
  obtain ⟨tr, h, hl⟩ := ntrailer_rollout_ok Wit.train guide rfl us Wit.train.reset rfl
  exact ⟨tr, h, hl, C09_train Wit.train guide Wit.train.reset ⟨rfl, rfl, rfl, rfl⟩ us tr h⟩

end Mbd
