import Verif.RoundReward
import Verif.RoundAcc
import Verif.RoundSingle
import Verif.PropsRoundTrain
import Verif.PropsRoundOrder
import Verif.PropsReward

/-!
# C82: no result rests on an undefined operation

Over `ℝ` a division by zero, the root of a negative number or the tangent of a right angle has some value; in `float32` it is `inf` or
`nan`.  Here the arithmetic is exact where an operation is defined and *arbitrary* where it is not; the results are those of the model.
-/

namespace Spec

open Mbd

/-- Exact where the operation is defined; nothing is said about a division or remainder by zero, the root of a negative number, the
tangent of a right angle. -/
structure DefinedOnly (A : Arith) : Prop where
  const : ∀ a, A.const a = a
  add : ∀ a b, A.add a b = a + b
  sub : ∀ a b, A.sub a b = a - b
  mul : ∀ a b, A.mul a b = a * b
  div : ∀ a b, b ≠ 0 → A.div a b = a / b
  mulAdd : ∀ a b c, A.mulAdd a b c = a * b + c
  sum2 : ∀ a b c d, A.sum2 a b c d = a * b + c * d
  mm : ∀ a b c d, A.mm a b c d = a * b + c * d
  rem : ∀ a b, b ≠ 0 → A.rem a b = fmod a b
  sqrt : ∀ a, 0 ≤ a → A.sqrt a = √a
  sin : ∀ a, A.sin a = Real.sin a
  cos : ∀ a, A.cos a = Real.cos a
  tan : ∀ a, Real.cos a ≠ 0 → A.tan a = Real.tan a

/-- The same for the arithmetic of the planner. -/
structure DefinedOnlyP (A : PlanArith) : Prop extends DefinedOnly A.toArith where
  exp : ∀ a, A.exp a = Real.exp a
  sum : ∀ l, A.sum l = l.sum
  dot : ∀ w y, A.dot w y = (List.zipWith (· * ·) w y).sum
  cumprod : ∀ l, A.cumprod l = cumprodFrom 1 l

/-- A vehicle whose motion is defined: no length of zero, steering limit below a right angle. -/
structure MotionDefined (P : Params) : Prop where
  l1 : P.l1 ≠ 0
  l2 : P.l2 ≠ 0
  steer : |P.deltaMaxDeg| < 90

end Spec

namespace Mbd

open Real Classical _root_.Spec

variable {A : Arith}

theorem exact_defined : DefinedOnly exactArith := by
  constructor <;> intros <;> rfl

/-! ## The checks: no hypothesis -/

theorem defined_box (h : DefinedOnly A) (c : V2) (a hl hw : ℝ) : Rounded.boxCorners A c a hl hw = boxCorners c a hl hw := by
  rw [← exact_box]
  unfold Rounded.boxCorners Rounded.placePoint
  simp only [h.add, h.mm, h.sin, h.cos, exactArith]

theorem defined_tractor (h : DefinedOnly A) (P : Params) (px py th : ℝ) :
    Rounded.tractorCorners A P px py th = P.tractorCorners px py th := by
  rw [← exact_tractor]
  unfold Rounded.tractorCorners
  simp only [defined_box h, exact_box]
  simp only [h.const, h.mulAdd, h.sin, h.cos, exactArith, id]

theorem defined_trailer (h : DefinedOnly A) (P : Params) (q : Q4) : Rounded.trailerCorners A P q = TT2d.trailerCorners P q := by
  rw [← exact_trailer]
  unfold Rounded.trailerCorners
  simp only [defined_box h, exact_box]
  simp only [h.const, h.mulAdd, h.sin, h.cos, exactArith, id]

theorem defined_rect (h : DefinedOnly A) (o : Rect) : Rounded.rectCorners A o = o.corners := by
  unfold Rounded.rectCorners Rect.corners
  rw [defined_box h, h.div _ _ (by norm_num), h.div _ _ (by norm_num)]

theorem guard_ne (l : ℝ) {b : ℝ} (hb : b ≠ 0) {d : Decidable (l < 1e-8)} : (if l < 1e-8 then b else l) ≠ 0 := by
  split_ifs with c
  · exact hb
  · intro e0
    rw [e0] at c
    exact c (by norm_num)

theorem defined_edge (h : DefinedOnly A) (s e c : V2) : Rounded.edgeDistSq A s e c = Rounded.edgeDistSq exactArith s e c := by
  unfold Rounded.edgeDistSq
  simp only [h.sub, h.sum2, h.mulAdd, exactArith]
  rw [h.div _ _ (guard_ne _ (by norm_num))]
  congr!

theorem defined_circleCheck (h : DefinedOnly A) (k : Corners) (c : V2) (r : ℝ) :
    Rounded.rectCircle A k c r ↔ rectCircle k c r := by
  rw [← exact_circleCheck]
  unfold Rounded.rectCircle
  simp only [defined_edge h, h.mul, exactArith]

theorem defined_normal (h : DefinedOnly A) (s e : V2) : Rounded.edgeNormal A s e = Rounded.edgeNormal exactArith s e := by
  unfold Rounded.edgeNormal
  simp only [h.sub, h.sum2, exactArith]
  rw [h.sqrt _ (add_nonneg (mul_self_nonneg _) (mul_self_nonneg _))]
  rw [h.div _ _ (guard_ne _ one_ne_zero), h.div _ _ (guard_ne _ one_ne_zero)]
  congr!

theorem defined_rectCheck (h : DefinedOnly A) (k₁ k₂ : Corners) : Rounded.rectRect A k₁ k₂ ↔ rectRect k₁ k₂ := by
  rw [← exact_rectCheck]
  unfold Rounded.rectRect Rounded.axisSeparated Rounded.projMin Rounded.projMax Rounded.proj
  simp only [defined_normal h, h.mm, exactArith]

theorem defined_wrap (h : DefinedOnly A) (a : ℝ) : Rounded.wrapPi A a = wrapPi a := by
  unfold Rounded.wrapPi wrapPi
  simp only [h.const, h.sub, h.add]
  rw [h.rem _ _ (by positivity)]

/-- C82: the collision and hitch checks of the tractor-trailer and of the bicycle never rest on an undefined operation, for any
vehicle, any obstacles (degenerate ones too) and any pose. -/
theorem C82_checks (h : DefinedOnly A) (P : Params) (q : Q4) (q3 : Q3) :
    (Rounded.checkObstacle A P q ↔ TT2d.checkObstacle P q) ∧ (Rounded.checkHitch A P q ↔ TT2d.checkHitch P q) ∧
    (Rounded.checkObstacleB A P q3 ↔ Bicycle.checkObstacle P q3) := by
  refine ⟨?_, ?_, ?_⟩
  · unfold Rounded.checkObstacle TT2d.checkObstacle
    simp only [defined_tractor h, defined_trailer h, defined_rect h, defined_circleCheck h, defined_rectCheck h]
  · unfold Rounded.checkHitch TT2d.checkHitch
    rw [defined_wrap h, h.const, h.sub]
  · unfold Rounded.checkObstacleB Bicycle.checkObstacle
    simp only [defined_tractor h, defined_rect h, defined_circleCheck h, defined_rectCheck h]

theorem defined_hitchN (h : DefinedOnly A) (T : NTrailer) (x : QN) : ∀ i,
    Rounded.rectHitchN A T x i = Rounded.rectHitchN exactArith T x i
  | 0 => by
    unfold Rounded.rectHitchN Rounded.leverN
    simp only [h.const, h.mulAdd, h.sin, h.cos, exactArith, id]
  | i + 1 => by
    unfold Rounded.rectHitchN Rounded.leverN Rounded.centerN Rounded.leverN Rounded.midN Rounded.halfN
      Rounded.lengthN Rounded.frontN Rounded.rearN
    rw [defined_hitchN h T x i]
    simp only [h.const, h.mulAdd, h.mul, h.sub, h.add, h.sin, h.cos, exactArith, id]

theorem defined_trailerN (h : DefinedOnly A) (T : NTrailer) (x : QN) (i : ℕ) :
    Rounded.trailerCornersN A T x i = T.trailerCorners x i := by
  rw [← exact_trailerN]
  unfold Rounded.trailerCornersN Rounded.centerN Rounded.leverN Rounded.midN Rounded.halfN
      Rounded.lengthN Rounded.frontN Rounded.rearN
  rw [defined_box h, exact_box, defined_hitchN h]
  simp only [h.const, h.mulAdd, h.mul, h.sub, h.add, h.sin, h.cos, exactArith, id]

theorem defined_hitchScan (h : DefinedOnly A) (P : Params) : ∀ (l : List ℝ) (prev : ℝ) (v : Prop),
    Rounded.hitchScanN A P prev v l ↔ NTrailer.hitchScan P.phiMax prev v l
  | [], _, _ => Iff.rfl
  | a :: l, prev, v => by
    unfold Rounded.hitchScanN NTrailer.hitchScan
    rw [defined_hitchScan h P l a, defined_wrap h, h.const, h.sub]

/-- C82: the same for the train. -/
theorem C82_checks_ntrailer (h : DefinedOnly A) (T : NTrailer) (x : QN) :
    (Rounded.checkObstacleN A T x ↔ T.checkObstacle x) ∧ (Rounded.checkHitchN A T x ↔ T.checkHitch x) := by
  constructor
  · unfold Rounded.checkObstacleN NTrailer.checkObstacle NTrailer.allTrailerCorners
    simp only [defined_tractor h, defined_trailerN h, defined_rect h, defined_circleCheck h, defined_rectCheck h, List.mem_map,
      List.mem_range, exists_exists_and_eq_and]
  · unfold Rounded.checkHitchN NTrailer.checkHitch
    simp only
    rw [defined_hitchScan h, defined_wrap h, h.const, h.sub]

/-! ## The motion -/

theorem cos_steer_ne {P : Params} (hs : |P.deltaMaxDeg| < 90) (a : U) : cos ((clipU a).2 * P.deltaMax) ≠ 0 := by
  have h1 : |(clipU a).2| ≤ 1 := by
    exact (inBox_eff false a).2
  have h2 : |P.deltaMax| < π / 2 := by
    unfold Params.deltaMax
    rw [abs_div, abs_mul, abs_of_pos pi_pos, abs_of_pos (by norm_num : (0:ℝ) < 180)]
    have := mul_lt_mul_of_pos_right hs pi_pos
    linarith
  have h3 : |(clipU a).2 * P.deltaMax| < π / 2 := by
    rw [abs_mul]
    have := mul_le_mul_of_nonneg_right h1 (abs_nonneg P.deltaMax)
    linarith
  exact (cos_pos_of_mem_Ioo ⟨(abs_lt.mp h3).1, (abs_lt.mp h3).2⟩).ne'

theorem defined_scaler (h : DefinedOnly A) (P : Params) (u : U) : Rounded.inputScaler A P u = (u.1 * P.vMax, u.2 * P.deltaMax) := by
  unfold Rounded.inputScaler
  simp only [h.mul, h.const]

/-- C82: a step of the tractor-trailer never rests on an undefined operation: whatever undefined operations return, the next state is
the one of the model, for every state, every action (clipped or not), in shield and in backup mode. -/
theorem C82_step (h : DefinedOnly A) (T : TT2d) (ext : Ext Q4) (hp : T.enableProjection = false) (hg : T.enableGuidance = false)
    (hm : MotionDefined T.toParams) (s : St Q4) (a : U) :
    Rounded.step A T.toParams s.q (effAction s.inBackup a) = (T.step ext s a).q := by
  rw [← C76_exact_step T ext hp hg]
  have he : ∀ a, Rounded.euler A T.toParams s.q (Rounded.inputScaler A T.toParams (clipU a)) =
      Rounded.euler exactArith T.toParams s.q (Rounded.inputScaler exactArith T.toParams (clipU a)) := by
    intro a
    rw [defined_scaler h]
    unfold Rounded.euler Rounded.dynamics Rounded.inputScaler
    simp only [h.const, h.mulAdd, h.mul, h.sub, h.sin, h.cos, exactArith, id]
    rw [h.div _ _ hm.l1, h.div _ _ hm.l2, h.tan _ (cos_steer_ne hm.steer a)]
  unfold Rounded.step
  rw [he]
  generalize Rounded.euler exactArith _ _ _ = z
  have h1 := (C82_checks h T.toParams z ⟨0, 0, 0⟩)
  have h2 := (C82_checks exact_defined T.toParams z ⟨0, 0, 0⟩)
  unfold kinShieldedRollout
  simp only [h1.1, h1.2.1, h2.1, h2.2.1]

/-- C82, bicycle. -/
theorem C82_step_bicycle (h : DefinedOnly A) (T : Bicycle) (ext : Ext Q3) (hp : T.enableProjection = false)
    (hg : T.enableGuidance = false) (h1 : T.l1 ≠ 0) (hs : |T.deltaMaxDeg| < 90) (s : St Q3) (a : U) :
    Rounded.stepB A T.toParams s.q (effAction s.inBackup a) = (T.step ext s a).q := by
  rw [← C76_exact_step_bicycle T ext hp hg]
  have he : ∀ a, Rounded.eulerB A T.toParams s.q (Rounded.inputScaler A T.toParams (clipU a)) =
      Rounded.eulerB exactArith T.toParams s.q (Rounded.inputScaler exactArith T.toParams (clipU a)) := by
    intro a
    rw [defined_scaler h]
    unfold Rounded.eulerB Rounded.inputScaler
    simp only [h.const, h.mulAdd, h.mul, h.sin, h.cos, exactArith, id]
    rw [h.div _ _ h1, h.tan _ (cos_steer_ne hs a)]
  unfold Rounded.stepB
  rw [he]
  generalize Rounded.eulerB exactArith _ _ _ = z
  have e1 := (C82_checks h T.toParams ⟨0, 0, 0, 0⟩ z).2.2
  have e2 := (C82_checks exact_defined T.toParams ⟨0, 0, 0, 0⟩ z).2.2
  unfold kinShieldedRollout
  simp only [e1, e2]

theorem defined_carryN (h : DefinedOnly A) (T : NTrailer) (x : QN) (v d : ℝ) (h1 : T.l1 ≠ 0) (hd : cos d ≠ 0) : ∀ i,
    (∀ j < i, clampGet T.lengths j ≠ 0) → Rounded.carryAtN A T x v d i = Rounded.carryAtN exactArith T x v d i
  | 0, _ => by
    unfold Rounded.carryAtN
    simp only [h.const, h.mul, h.div _ _ h1, h.tan _ hd, exactArith, id]
  | i + 1, hl => by
    rw [Rounded.carryAtN, Rounded.carryAtN, defined_carryN h T x v d h1 hd i fun j hj => hl j (by omega)]
    unfold Rounded.loopBodyN Rounded.lengthN
    have hi := hl i (by omega)
    simp only [h.const, h.mul, h.sub, h.mulAdd, h.sum2, h.sin, h.cos, h.div _ _ h1, h.div _ _ hi, h.tan _ hd, exactArith, id]

/-- C82, train. -/
theorem C82_step_ntrailer (h : DefinedOnly A) (T : NTrailer) (guide : QN → QN) (hg : T.enableGuidance = false)
    (h1 : T.l1 ≠ 0) (hl : ∀ i < T.N, clampGet T.lengths i ≠ 0) (hs : |T.deltaMaxDeg| < 90) (s s' : St QN) (a : U)
    (ok : T.step guide s a = .ok s') : Rounded.stepN A T s.q (effAction s.inBackup a) = s'.q := by
  rw [← C76_exact_step_ntrailer T guide hg s s' a ok]
  have he : ∀ a, Rounded.eulerN A T s.q (Rounded.inputScaler A T.toParams (clipU a)) =
      Rounded.eulerN exactArith T s.q (Rounded.inputScaler exactArith T.toParams (clipU a)) := by
    intro a
    have hd := cos_steer_ne (P := T.toParams) hs a
    rw [defined_scaler h]
    unfold Rounded.eulerN Rounded.inputScaler
    simp only [h.const, h.mulAdd, h.mul, h.sin, h.cos, h.div _ _ h1, h.tan _ hd, exactArith, id]
    congr 2
    refine List.map_congr_left fun i hi => ?_
    rw [defined_carryN h T s.q _ _ h1 hd (i + 1) fun j hj => hl j (by have := List.mem_range.mp hi; omega)]
    rfl
  unfold Rounded.stepN
  rw [he]
  generalize Rounded.eulerN exactArith _ _ _ = z
  have e1 := C82_checks_ntrailer h T z
  have e2 := C82_checks_ntrailer exact_defined T z
  unfold kinShieldedRollout
  simp only [e1.1, e1.2, e2.1, e2.2]

theorem abs_clip_le (x d : ℝ) : |clip x (-d) d| ≤ |d| := by
  unfold clip
  have h1 := min_le_right (max x (-d)) d
  have h2 : -|d| ≤ min (max x (-d)) d :=
    le_min ((neg_le_neg (le_abs_self d)).trans (le_max_right _ _)) (neg_abs_le d)
  exact abs_le.mpr ⟨h2, h1.trans (le_abs_self d)⟩

theorem defined_eulerA (h : DefinedOnly A) (T : Acc) (hm : MotionDefined T.toParams) (x : Q6) (u : U) (dt : ℝ) :
    Rounded.eulerA A T x u dt = T.euler x u dt := by
  have hd : cos (clip x.delta (-T.deltaMax) T.deltaMax) ≠ 0 := by
    have h2 : |T.toParams.deltaMax| < π / 2 := by
      unfold Params.deltaMax
      rw [abs_div, abs_mul, abs_of_pos pi_pos, abs_of_pos (by norm_num : (0:ℝ) < 180)]
      have := mul_lt_mul_of_pos_right hm.steer pi_pos
      linarith
    have h3 := (abs_clip_le x.delta T.toParams.deltaMax).trans_lt h2
    exact (cos_pos_of_mem_Ioo ⟨(abs_lt.mp h3).1, (abs_lt.mp h3).2⟩).ne'
  unfold Rounded.eulerA Acc.euler Q6.axpy Acc.dynamics
  simp only [h.const, h.mul, h.sub, h.mulAdd, h.sin, h.cos, h.div _ _ hm.l1, h.div _ _ hm.l2, h.tan _ hd]
  ext <;> simp only <;> ring

/-- C82, acceleration control: with a time step and an acceleration limit other than zero, a step, including the simulated stopping
manoeuvre of the shield and the backup, never rests on an undefined operation. -/
theorem C82_step_acc (h : DefinedOnly A) (T : Acc) (ext : Ext Q6) (hp : T.enableProjection = false) (hg : T.enableGuidance = false)
    (hm : MotionDefined T.toParams) (hdt : T.dt ≠ 0) (ha : T.aMax ≠ 0) (s : St Q6) (a : U) :
    Rounded.stepA A T s.q s.inBackup a = (T.step ext s a).q := by
  have eS : ∀ v w, Rounded.decelSign A v w = Acc.decelSign v w := by
    intro v w
    unfold Rounded.decelSign Acc.decelSign
    simp only [h.const]
  have eB : ∀ v, Rounded.aBackup A T v = T.aBackup v := by
    intro v
    unfold Rounded.aBackup Acc.aBackup
    simp only [h.const, h.div _ _ hdt]
  have eE := defined_eulerA h T hm
  have c1 : ∀ q, Rounded.checkObstacle A T.toParams q = TT2d.checkObstacle T.toParams q :=
    fun q => propext (C82_checks h T.toParams q ⟨0, 0, 0⟩).1
  have c2 : ∀ q, Rounded.checkHitch A T.toParams q = TT2d.checkHitch T.toParams q :=
    fun q => propext (C82_checks h T.toParams q ⟨0, 0, 0⟩).2.1
  have eR : ∀ u, Rounded.rolloutStep A T u = T.rolloutStep u := by
    intro u
    funext c
    unfold Rounded.rolloutStep Acc.rolloutStep Acc.checkObstacle Acc.checkHitch
    simp only [h.const, eE, c1, c2]
  have eC : ∀ q, Rounded.checkSafety A T q = T.checkSafety q := by
    intro q
    unfold Rounded.checkSafety Acc.checkSafety Acc.rolloutScan Acc.uStop Acc.checkObstacle Acc.checkHitch
    simp only [h.const, h.mul, eS, eB, eR, c1, c2]
  unfold Rounded.stepA Acc.step Acc.stepInternal Rounded.uBackupNorm Rounded.inputScalerA
  simp only [hp, hg, Bool.false_eq_true, if_false, eE, eS, eB, eC, h.const, h.mul, h.div _ _ ha]
  unfold Acc.shieldedRollout Acc.naive Acc.uBackupScaled Acc.uBackupNorm Acc.inputScaler
  cases T.shieldCollision <;> cases T.shieldHitch <;> simp

/-! ## Rewards -/

section
variable {A : PlanArith}

theorem exact_definedP : DefinedOnlyP Spec.exactArith where
  toDefinedOnly := by constructor <;> intros <;> rfl
  exp _ := rfl
  sum _ := rfl
  dot _ _ := rfl
  cumprod _ := rfl

theorem defined_dist (h : DefinedOnly A.toArith) (a b : V2) : Rounded.dist A a b = norm2 (a - b) := by
  unfold Rounded.dist norm2
  rw [h.sum2, h.sqrt _ (add_nonneg (mul_self_nonneg _) (mul_self_nonneg _))]
  simp only [h.sub, sq, Prod.fst_sub, Prod.snd_sub]

theorem defined_posReward (h : DefinedOnly A.toArith) (d : ℝ) {thr : ℝ} (ht : thr ≠ 0) :
    Rounded.posReward A d thr = Params.posReward d thr := by
  unfold Rounded.posReward Rounded.square Params.posReward
  rw [h.const, h.div _ _ ht, h.sub, h.mul, sq]

theorem defined_tractorPos (h : DefinedOnly A.toArith) (P : Params) (px py th : ℝ) :
    Rounded.tractorPos A P px py th = P.tractorPos px py th := by
  unfold Rounded.tractorPos Params.tractorPos
  simp only [h.mulAdd, h.const, h.sin, h.cos, add_comm]

theorem defined_trailerPos (h : DefinedOnly A.toArith) (P : Params) (q : Q4) :
    Rounded.trailerPos A P q = TT2d.trailerPos P q := by
  unfold Rounded.trailerPos TT2d.trailerPos TT2d.hitchPoint
  simp only [h.mulAdd, h.const, h.sin, h.cos]
  ext <;> simp only <;> ring

theorem defined_posDist (h : DefinedOnly A.toArith) (P : Params) (xg q : Q4) : Rounded.posDist A P xg q = TT2d.posDist P xg q := by
  unfold Rounded.posDist TT2d.posDist
  simp only [defined_dist h, defined_tractorPos h, defined_trailerPos h]

theorem defined_headingErr (h : DefinedOnly A.toArith) (P : Params) (xg q : Q4) :
    Rounded.headingErr A P xg q = TT2d.headingErr P xg q := by
  unfold Rounded.headingErr TT2d.headingErr
  simp only [defined_wrap h, h.sub, h.add, h.const]

theorem defined_wTheta (h : DefinedOnlyP A) (P : Params) (hk : P.kSwitch ≠ 0) (d : ℝ) :
    Rounded.wTheta A P d = TT2d.wTheta P d := by
  unfold Rounded.wTheta TT2d.wTheta sigmoid
  simp only [h.add, h.sub, h.const, h.exp]
  rw [h.div _ _ hk, h.div _ _ (by positivity)]

theorem phiMax_ne (P : Params) : P.phiMax ≠ 0 := by
  unfold Params.phiMax deg2rad
  positivity

theorem thetaMax_ne (P : Params) : P.thetaMax ≠ 0 := by
  unfold Params.thetaMax
  positivity

/-- C82: stage and terminal reward of tractor-trailer and bicycle, for thresholds and a switching width other than zero. -/
theorem C82_rewards (h : DefinedOnlyP A) (P : Params) (hr : P.rewardThreshold ≠ 0) (ht : P.terminalRewardThreshold ≠ 0)
    (hk : P.kSwitch ≠ 0) (xg q : Q4) (yg y : Q3) :
    Rounded.getReward A P xg q = TT2d.getReward P xg q ∧ Rounded.getTerminalReward A P xg q = TT2d.getTerminalReward P xg q ∧
    Rounded.getRewardB A P yg y = Bicycle.getReward P yg y ∧
    Rounded.getTerminalRewardB A P yg y = Bicycle.getTerminalReward P yg y := by
  have hd := h.toDefinedOnly
  have eB : Rounded.posDistB A P yg y = Bicycle.posDist P yg y := by
    unfold Rounded.posDistB Bicycle.posDist
    rw [defined_dist hd, defined_tractorPos hd]
  have eH : Rounded.headingErrB A P yg y = Bicycle.headingErr P yg y := by
    unfold Rounded.headingErrB Bicycle.headingErr
    simp only [defined_wrap hd, h.sub, h.const]
  refine ⟨?_, ?_, ?_, ?_⟩
  · unfold Rounded.getReward TT2d.getReward Rounded.square
    simp only [defined_posDist hd, defined_headingErr hd, defined_posReward hd _ hr, defined_wTheta h P hk, defined_wrap hd, h.sub,
      h.add, h.mul, h.sum2, h.const, h.div _ _ (thetaMax_ne P), h.div _ _ (phiMax_ne P), sq]
  · unfold Rounded.getTerminalReward TT2d.getTerminalReward
    rw [defined_posDist hd, defined_posReward hd _ ht]
  · unfold Rounded.getRewardB Bicycle.getReward Rounded.square
    simp only [eB, eH, defined_posReward hd _ hr, defined_wTheta h P hk, h.sub, h.mul, h.sum2, h.const,
      h.div _ _ (thetaMax_ne P), sq]
  · unfold Rounded.getTerminalRewardB Bicycle.getTerminalReward
    rw [eB, defined_posReward hd _ ht]

theorem defined_lastPos (h : DefinedOnly A.toArith) (T : NTrailer) (x : QN) : ∀ i,
    Rounded.lastPosLoopN A T x i = T.lastPosLoop x i
  | 0 => by
    unfold Rounded.lastPosLoopN NTrailer.lastPosLoop NTrailer.hitch0 Rounded.leverN
    simp only [h.const, h.mulAdd, h.sin, h.cos]
    ext <;> simp only <;> ring
  | i + 1 => by
    unfold Rounded.lastPosLoopN NTrailer.lastPosLoop Rounded.leverN Rounded.lengthN Rounded.frontN
    rw [defined_lastPos h T x i]
    simp only [h.const, h.mulAdd, h.sin, h.cos]
    ext <;> simp only <;> ring

/-- C82: rewards of the train. -/
theorem C82_rewards_ntrailer (h : DefinedOnly A.toArith) (T : NTrailer) (hr : T.rewardThreshold ≠ 0)
    (ht : T.terminalRewardThreshold ≠ 0) (q : QN) :
    Rounded.getRewardN A T q = T.getReward q ∧ Rounded.getTerminalRewardN A T q = T.getTerminalReward q := by
  have e : Rounded.posDistN A T q = T.posDist q := by
    unfold Rounded.posDistN NTrailer.posDist NTrailer.dTractor NTrailer.dLast NTrailer.lastTrailerPos
    simp only [defined_dist h, defined_tractorPos h, defined_lastPos h]
  unfold Rounded.getRewardN NTrailer.getReward Rounded.getTerminalRewardN NTrailer.getTerminalReward
  rw [e, defined_posReward h _ hr, defined_posReward h _ ht]
  exact ⟨rfl, rfl⟩

theorem defined_mean (h : DefinedOnlyP A) {l : List ℝ} (hl : l ≠ []) : Rounded.mean A l = mean l := by
  unfold Rounded.mean mean
  rw [h.sum, h.const, h.div]
  exact_mod_cast (List.length_pos_iff.mpr hl).ne'

/-- C82: the steering reward of a nonempty plan, for a steering limit other than zero. -/
theorem C82_steering (h : DefinedOnlyP A) {dm : ℝ} (hd : dm ≠ 0) {Y : List U} (hY : Y ≠ []) :
    Rounded.steeringReward A dm Y = steeringReward dm Y := by
  unfold Rounded.steeringReward steeringReward Rounded.square
  simp only
  have ht : (0.1 : ℝ) * dm ≠ 0 := mul_ne_zero (by norm_num) hd
  simp only [h.mul, h.const, h.sub, h.add, h.div _ _ ht, sq]
  rw [defined_mean h]
  cases Y with
  | nil => exact absurd rfl hY
  | cons a l => simp

/-- C82: the score against a demonstration. -/
theorem C82_score (h : DefinedOnlyP A) (P : Params) (hr : P.refRewardThreshold ≠ 0) (xref : List (Q4 × Bool)) (pref : ℤ)
    (xs : List Q4) (hx : xs ≠ []) (hxr : xref ≠ []) : Rounded.evalXref A P xref pref xs = Demo.evalXref P xref pref xs := by
  have hd := h.toDefinedOnly
  unfold Rounded.evalXref Demo.evalXref Demo.rowLogpd
  rw [defined_mean h]
  · congr 2
    funext q r
    have hq : ∀ e {thr : ℝ}, thr ≠ 0 → Rounded.quadTerm A e thr = Demo.quadTerm e thr := by
      intro e thr ht
      unfold Rounded.quadTerm Demo.quadTerm Rounded.square
      rw [h.const, h.div _ _ ht, h.mul, sq]
    have hh : ∀ a b c d, Rounded.headErr A pref a b c d = Demo.headErr pref a b c d := by
      intro a b c d
      unfold Rounded.headErr Demo.headErr
      simp only [defined_wrap hd, h.sub, h.add, h.const]
    simp only [hq _ hr, hq _ (phiMax_ne P), hh, defined_dist hd, defined_trailerPos hd, h.add, h.sum2, h.mul, h.const]
  · cases xs with
    | nil => exact absurd rfl hx
    | cons a l => cases xref with
      | nil => exact absurd rfl hxr
      | cons b m => simp

/-! ## The planner -/

theorem defined_guardedStd (h : DefinedOnlyP A) {l : List ℝ} (hl : l ≠ []) :
    Rounded.guardedStd A l = guardedStd l ∧ guardedStd l ≠ 0 := by
  have hm : Rounded.mean A (l.map fun r => A.mul (A.sub r (Rounded.mean A l)) (A.sub r (Rounded.mean A l))) =
      mean (l.map fun r => (r - mean l) ^ 2) := by
    rw [defined_mean h (by simpa using hl), defined_mean h hl]
    simp only [h.mul, h.sub, sq]
  have hn : 0 ≤ mean (l.map fun r => (r - mean l) ^ 2) := by
    unfold mean
    refine div_nonneg (List.sum_nonneg ?_) (Nat.cast_nonneg _)
    intro x hx
    obtain ⟨r, _, rfl⟩ := List.mem_map.mp hx
    positivity
  have hs : Rounded.std A l = std l := by
    unfold Rounded.std std
    rw [hm, h.sqrt _ hn]
  constructor
  · unfold Rounded.guardedStd guardedStd
    rw [hs, h.const]
  · unfold guardedStd
    split_ifs with c
    · exact one_ne_zero
    · intro e0
      rw [e0] at c
      exact c (by norm_num)

theorem defined_logWeights (h : DefinedOnlyP A) {temp : ℝ} (ht : temp ≠ 0) (d : Bool) (rx : ℝ) {rews : List ℝ} (hr : rews ≠ [])
    (xrefs : List ℝ) : Rounded.logWeights A temp d rx rews xrefs = logWeights temp d rx rews xrefs := by
  have hg := defined_guardedStd h hr
  unfold Rounded.logWeights logWeights Rounded.logpDemo logpDemo Rounded.logp0 logp0
  simp only [hg.1, defined_mean h hr, h.sub, h.add, h.const, h.div _ _ hg.2, h.div _ _ ht]

theorem defined_softmax (h : DefinedOnlyP A) (l : List ℝ) : Rounded.softmax A l = softmax l := by
  unfold Rounded.softmax softmax Rounded.softmaxExps
  simp only [h.exp, h.sub, h.sum]
  cases l with
  | nil => rfl
  | cons a l =>
    have hp : ((a :: l).map fun x => exp (x - listMax (a :: l))).sum ≠ 0 := by
      refine (List.sum_pos _ (fun x hx => ?_) (by simp)).ne'
      obtain ⟨r, _, rfl⟩ := List.mem_map.mp hx
      positivity
    simp only [h.div _ _ hp]

/-- C82: the weights of a batch, for any rewards, any scores and any temperature other than zero. -/
theorem C82_weights (h : DefinedOnlyP A) {temp : ℝ} (ht : temp ≠ 0) (d : Bool) (rx : ℝ) {rews : List ℝ} (hr : rews ≠ [])
    (xrefs : List ℝ) : Rounded.softmax A (Rounded.logWeights A temp d rx rews xrefs) = softmax (logWeights temp d rx rews xrefs) := by
  rw [defined_softmax h, defined_logWeights h ht d rx hr]

theorem cumprodFrom_pos_lt : ∀ (l : List ℝ) (c : ℝ), 0 < c → c ≤ 1 → (∀ a ∈ l, 0 < a ∧ a < 1) →
    ∀ b ∈ cumprodFrom c l, 0 < b ∧ b < 1
  | [], _, _, _, _ => by simp [cumprodFrom]
  | a :: l, c, h0, h1, ha => by
    have := ha a (by simp)
    have p0 : 0 < c * a := mul_pos h0 this.1
    have p1 : c * a < 1 := by
      calc c * a ≤ 1 * a := mul_le_mul_of_nonneg_right h1 this.1.le
        _ < 1 := by rw [one_mul]; exact this.2
    intro b hb
    simp only [cumprodFrom, List.mem_cons] at hb
    rcases hb with rfl | hb
    · exact ⟨p0, p1⟩
    · exact cumprodFrom_pos_lt l _ p0 p1.le (fun x hx => ha x (List.mem_cons_of_mem _ hx)) b hb

/-- Noise levels strictly between 0 and 1. -/
structure LevelsIn (S : Schedule) : Prop where
  alphas : ∀ i, 0 < clampGet S.alphas i
  bar : ∀ i, 0 < clampGet S.alphasBar i ∧ clampGet S.alphasBar i < 1

theorem clampGet_mem' {l : List ℝ} (hl : l ≠ []) (i : ℕ) : clampGet l i ∈ l := by
  have h1 : min i (l.length - 1) < l.length := by
    have := List.length_pos_iff.mpr hl
    omega
  rw [clampGet, List.getD_eq_getElem _ _ h1]
  exact List.getElem_mem _

theorem defined_schedule (h : DefinedOnlyP A) {betas : List ℝ} (hb : ∀ b ∈ betas, 0 < b ∧ b < 1) :
    Rounded.schedule A betas = Rounded.schedule Spec.exactArith betas := by
  have hc := cumprodFrom_pos_lt (betas.map fun b => 1 - b) 1 one_pos le_rfl (by
    intro a ha
    obtain ⟨b, hb', rfl⟩ := List.mem_map.mp ha
    have := hb b hb'
    exact ⟨by linarith, by linarith⟩)
  unfold Rounded.schedule
  simp only [h.sub, h.cumprod, Spec.exactArith]
  congr 1
  refine List.map_congr_left fun a ha => ?_
  have := hc a ha
  rw [h.sqrt _ (by linarith)]

theorem levelsIn {betas : List ℝ} (hne : betas ≠ []) (hb : ∀ b ∈ betas, 0 < b ∧ b < 1) :
    LevelsIn (Rounded.schedule Spec.exactArith betas) := by
  have ha : ∀ a ∈ betas.map fun b => 1 - b, 0 < a ∧ a < 1 := by
    intro a ha
    obtain ⟨b, hb', rfl⟩ := List.mem_map.mp ha
    have := hb b hb'
    exact ⟨by linarith, by linarith⟩
  have hl : cumprodFrom 1 (betas.map fun b => 1 - b) ≠ [] := by
    intro e
    have := congrArg List.length e
    rw [cumprodFrom_length] at this
    simp at this
    exact hne this
  refine ⟨fun i => (ha _ (clampGet_mem' (by simpa using hne) i)).1, fun i => ?_⟩
  exact cumprodFrom_pos_lt _ 1 one_pos le_rfl ha _ (clampGet_mem' hl i)

theorem defined_rescale (h : DefinedOnlyP A) {ab a abp : ℝ} (h1 : 0 < ab) (h2 : ab < 1) (h3 : 0 < a) (h4 : 0 < abp) (y b : ℝ) :
    Rounded.rescale A ab a abp y b = Rounded.rescale Spec.exactArith ab a abp y b := by
  have e1 : 1 - ab ≠ 0 := by linarith
  have e2 : √a ≠ 0 := (sqrt_pos.mpr h3).ne'
  have e3 : √abp ≠ 0 := (sqrt_pos.mpr h4).ne'
  unfold Rounded.rescale
  simp only [h.mul, h.add, h.sub, h.sqrt _ h1.le, h.sqrt _ h3.le, h.sqrt _ h4.le, h.div _ _ e1, h.div _ _ e2, h.div _ _ e3,
    Spec.exactArith]

theorem defined_reversePlan (h : DefinedOnlyP A) {S : Schedule} (hS : LevelsIn S) (cfg : Cfg) (ht : cfg.temp ≠ 0)
    (hN : 0 < cfg.Nsample) (sim : Sim) (rx : ℝ) (eps : ℕ → ℕ → U) (i : ℕ) (Y : List U) :
    Rounded.reversePlan A S cfg sim rx eps i Y = Rounded.reversePlan Spec.exactArith S cfg sim rx eps i Y := by
  have b0 := hS.bar i
  have b1 := hS.bar (i - 1)
  have e3 : √(clampGet S.alphasBar (i - 1)) ≠ 0 := (sqrt_pos.mpr b1.1).ne'
  have hs : ∀ sg, Rounded.samplePlans A cfg sg (clampGet S.alphasBar (i - 1)) eps Y =
      Rounded.samplePlans Spec.exactArith cfg sg (clampGet S.alphasBar (i - 1)) eps Y := by
    intro sg
    unfold Rounded.samplePlans
    simp only [h.mul, h.add, h.sqrt _ b1.1.le, h.div _ _ e3, Spec.exactArith]
  have hne : ∀ sg, Rounded.samplePlans Spec.exactArith cfg sg (clampGet S.alphasBar (i - 1)) eps Y ≠ [] := by
    intro sg e
    have := congrArg List.length e
    simp [Rounded.samplePlans] at this
    omega
  unfold Rounded.reversePlan
  simp only [hs]
  have hne' := hne (clampGet S.sigmas i)
  generalize Rounded.samplePlans Spec.exactArith cfg _ _ eps Y = Ys at hne'
  have hw : Rounded.batchWeights A cfg sim rx Ys = Rounded.batchWeights Spec.exactArith cfg sim rx Ys := by
    unfold Rounded.batchWeights
    rw [C82_weights h ht _ _ (by simpa using hne'), C82_weights exact_definedP ht _ _ (by simpa using hne')]
  have hp : ∀ w Zs, Rounded.weightedPlan A cfg.Hsample w Zs = Rounded.weightedPlan Spec.exactArith cfg.Hsample w Zs := by
    intro w Zs
    unfold Rounded.weightedPlan
    simp only [h.dot, Spec.exactArith]
  rw [hw, hp]
  simp only [defined_rescale h b0.1 b0.2 (hS.alphas i) b1.1]

/-- C82: planning.  With at least one sample, a temperature other than zero and noise levels strictly between 0 and 1 (as the default
schedule gives), every plan of the reverse process is the one of the model, whatever undefined operations return; for every rollout,
reward and demonstration score, every noise and every number of levels. -/
theorem C82_plans (h : DefinedOnlyP A) (betas : List ℝ) (hne : betas ≠ []) (hb : ∀ b ∈ betas, 0 < b ∧ b < 1) (cfg : Cfg)
    (ht : cfg.temp ≠ 0) (hN : 0 < cfg.Nsample) (sim : Sim) (rx : ℝ) (eps : ℕ → ℕ → ℕ → U) :
    Rounded.plans A betas cfg sim rx eps = Rounded.plans Spec.exactArith betas cfg sim rx eps := by
  unfold Rounded.plans
  rw [defined_schedule h hb]
  have hS := levelsIn hne hb
  generalize Rounded.schedule Spec.exactArith betas = S at hS
  have key : ∀ n Y, Rounded.plansFrom A S cfg sim rx eps n Y = Rounded.plansFrom Spec.exactArith S cfg sim rx eps n Y := by
    intro n
    induction n with
    | zero => intro Y; rfl
    | succ n ih =>
      intro Y
      unfold Rounded.plansFrom
      simp only [defined_reversePlan h hS cfg ht hN, ih]
  exact key _ _

/-- C82: one planning step of a robot's environment: the new plan computed with this arithmetic is the one the planner model computes. -/
theorem C82_plan_step {Q : Type} (h : DefinedOnlyP A) (E : PlanEnv Q) (normal : Key → ℕ → ℕ → ℕ → ℕ → U) (cfg : Cfg)
    (ht : cfg.temp ≠ 0) (hN : 0 < cfg.Nsample) (hn : cfg.Ndiffuse ≠ 0)
    (hb : ∀ b ∈ linspace cfg.beta0 cfg.betaT cfg.Ndiffuse, 0 < b ∧ b < 1) (s0 : St Q) (i : ℕ) (key : Key) (Y : List U) :
    Rounded.schedule A (linspace cfg.beta0 cfg.betaT cfg.Ndiffuse) = mkSchedule cfg.beta0 cfg.betaT cfg.Ndiffuse ∧
    Rounded.reversePlan A (mkSchedule cfg.beta0 cfg.betaT cfg.Ndiffuse) cfg (simOf E cfg s0) E.rewXref
        (normal (split key).2 cfg.Nsample cfg.Hsample) i Y =
      (reverseOnce E (mkSchedule cfg.beta0 cfg.betaT cfg.Ndiffuse) normal cfg s0 (i, key, Y)).1.2.2 := by
  have hx := C78_exact E normal cfg s0 i key Y
  have hne : linspace cfg.beta0 cfg.betaT cfg.Ndiffuse ≠ [] := by
    intro e
    have := congrArg List.length e
    rw [linspace_length] at this
    exact hn this
  have hS := levelsIn hne hb
  rw [hx.1] at hS
  exact ⟨(defined_schedule h hb).trans hx.1, (defined_reversePlan h hS cfg ht hN _ _ _ _ _).trans hx.2⟩

end

/-! ## Non-vacuity, and what happens outside the hypotheses -/

/-- An arithmetic that is exact where defined and returns `g` for every undefined operation. -/
noncomputable def poisonArith (g : ℝ) : PlanArith :=
  { Spec.exactArith with
    div := fun a b => if b = 0 then g else a / b
    rem := fun a b => if b = 0 then g else fmod a b
    sqrt := fun a => if a < 0 then g else √a
    tan := fun a => if cos a = 0 then g else tan a }

theorem poison_defined (g : ℝ) : DefinedOnlyP (poisonArith g) where
  toDefinedOnly :=
    { const := fun _ => rfl
      add := fun _ _ => rfl
      sub := fun _ _ => rfl
      mul := fun _ _ => rfl
      div := fun _ _ h => if_neg h
      mulAdd := fun _ _ _ => rfl
      sum2 := fun _ _ _ _ => rfl
      mm := fun _ _ _ _ => rfl
      rem := fun _ _ h => if_neg h
      sqrt := fun _ h => if_neg (not_lt.mpr h)
      sin := fun _ => rfl
      cos := fun _ => rfl
      tan := fun _ h => if_neg h }
  exp _ := rfl
  sum _ := rfl
  dot _ _ := rfl
  cumprod _ := rfl

/-- The hypotheses of `C82_step` are met by the default vehicle, whatever undefined operations return. -/
example (g : ℝ) (s : St Q4) (a : U) (ext : Ext Q4) :
    Rounded.step (poisonArith g).toArith Wit.tt.toParams s.q (effAction s.inBackup a) = (Wit.tt.step ext s a).q :=
  C82_step (poison_defined g).toDefinedOnly Wit.tt ext rfl rfl
    ⟨by norm_num [Wit.tt, Wit.params, Params.default], by norm_num [Wit.tt, Wit.params, Params.default],
      by norm_num [Wit.tt, Wit.params, Params.default]⟩ s a

example (g : ℝ) (s : St Q6) (a : U) (ext : Ext Q6) :
    Rounded.stepA (poisonArith g).toArith Wit.acc s.q s.inBackup a = (Wit.acc.step ext s a).q :=
  C82_step_acc (poison_defined g).toDefinedOnly Wit.acc ext rfl rfl
    ⟨by norm_num [Wit.acc, Wit.params, Params.default], by norm_num [Wit.acc, Wit.params, Params.default],
      by norm_num [Wit.acc, Wit.params, Params.default]⟩ (by norm_num [Wit.acc, Wit.params, Params.default])
    (by norm_num [Wit.acc, Wit.params, Params.default]) s a

/-- The default configuration of the planner meets the hypotheses of `C82_plan_step`. -/
example {Q : Type} (g : ℝ) (E : PlanEnv Q) (normal : Key → ℕ → ℕ → ℕ → ℕ → U) (s0 : St Q) (i : ℕ) (key : Key) (Y : List U) :
    Rounded.reversePlan (poisonArith g) (mkSchedule defaultCfg.beta0 defaultCfg.betaT defaultCfg.Ndiffuse) defaultCfg
        (simOf E defaultCfg s0) E.rewXref (normal (split key).2 defaultCfg.Nsample defaultCfg.Hsample) i Y =
      (reverseOnce E (mkSchedule defaultCfg.beta0 defaultCfg.betaT defaultCfg.Ndiffuse) normal defaultCfg s0 (i, key, Y)).1.2.2 := by
  refine (C82_plan_step (poison_defined g) E normal defaultCfg (by norm_num [defaultCfg]) (by norm_num [defaultCfg])
    (by norm_num [defaultCfg]) ?_ s0 i key Y).2
  intro b hb
  unfold linspace at hb
  obtain ⟨k, hk, rfl⟩ := List.mem_map.mp hb
  have hk' : (k : ℝ) + 1 ≤ 100 := by
    have := List.mem_range.mp hk
    norm_num [defaultCfg] at this
    exact_mod_cast this
  have h0 : (0 : ℝ) ≤ k := Nat.cast_nonneg k
  norm_num [defaultCfg]
  constructor <;> linarith

/-- C82 outside its hypotheses: a vehicle that may steer by a right angle.  The next heading is whatever the tangent of a right angle
returns: two such arithmetics disagree on it, in free space, from rest at the origin, for the action (1, 1). -/
theorem C82_right_angle : ∃ P : Params, P.deltaMaxDeg = 90 ∧ P.l1 ≠ 0 ∧ P.l2 ≠ 0 ∧
    ∃ q : Q3, Rounded.stepB (poisonArith 0).toArith P q (1, 1) ≠ Rounded.stepB (poisonArith 1).toArith P q (1, 1) := by
  refine ⟨{ Params.default [] [] with deltaMaxDeg := 90 }, rfl, by norm_num [Params.default], by norm_num [Params.default],
    ⟨0, 0, 0⟩, ?_⟩
  intro e
  have hc : ∀ g q, ¬ Rounded.checkObstacleB (poisonArith g).toArith { Params.default [] [] with deltaMaxDeg := 90 } q := by
    intro g q h
    rcases h with ⟨c, hc, _⟩ | ⟨o, ho, _⟩
    · exact absurd hc (by simp [Params.default])
    · exact absurd ho (by simp [Params.default])
  have hs : ∀ g : ℝ, (Rounded.stepB (poisonArith g).toArith { Params.default [] [] with deltaMaxDeg := 90 } ⟨0, 0, 0⟩ (1, 1)).th1 =
      0.2 * (3 / 3.23 * g) := by
    intro g
    have hd : cos ((1 : ℝ) * (90 * π / 180)) = 0 := by
      rw [show (1 : ℝ) * (90 * π / 180) = π / 2 by ring]
      exact cos_pi_div_two
    have e1 : clipU (1, 1) = (1, 1) := by unfold clipU clip; norm_num
    unfold Rounded.stepB kinShieldedRollout
    rw [e1]
    have hb : ∀ P q, ¬ Bicycle.checkHitch P q := fun _ _ => id
    simp only [hc, hb, decide_false, Bool.and_false, Bool.false_eq_true, if_false]
    simp [Rounded.eulerB, Rounded.inputScaler, poisonArith, Spec.exactArith, Params.deltaMax, Params.default]
    norm_num at hd ⊢
    intro hn
    exact absurd hd hn
  have h0 := hs 0
  have h1 := hs 1
  rw [e, h1] at h0
  norm_num at h0

end Mbd
