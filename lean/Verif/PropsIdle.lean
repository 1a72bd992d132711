import Verif.PropsBest

/-! # The collision shield is idle with nothing in reach: acceleration control and trains (C92) -/

namespace Mbd

open Real Classical _root_.Spec

/-! ## Acceleration control -/

theorem rolloutScan_empty {T T' : Acc} {b : Bool} {c : ℝ} (hT : T' = { T with shieldCollision := b, collisionPenalty := c })
    (h1 : T.circles = []) (h2 : T.rects = []) (q : Q6) (n : ℕ) :
    T'.rolloutScan q n = T.rolloutScan q n ∧ (T.rolloutScan q n).oc = false := by
  have hno : ∀ q, ¬ T.checkObstacle q := fun q => by
    unfold Acc.checkObstacle TT2d.checkObstacle
    simp [h1, h2]
  have he : ∀ q u dt, T'.euler q u dt = T.euler q u dt := by rw [hT]; exact fun _ _ _ => rfl
  have hh : ∀ q, T'.checkHitch q = T.checkHitch q := by rw [hT]; exact fun _ => rfl
  have ho : ∀ q, T'.checkObstacle q = T.checkObstacle q := by rw [hT]; exact fun _ => rfl
  have hu : ∀ v, T'.uStop v = T.uStop v := by rw [hT]; exact fun _ => rfl
  induction n with
  | zero =>
    unfold Acc.rolloutScan
    simp only [Function.iterate_zero, id_eq, hh, ho, hno, decide_false, and_self]
  | succ n ih =>
    obtain ⟨e1, e2⟩ := ih
    have s1 : T'.rolloutScan q (n + 1) = T'.rolloutStep (T'.uStop q.v) (T'.rolloutScan q n) := by
      unfold Acc.rolloutScan; rw [Function.iterate_succ_apply']
    have s2 : T.rolloutScan q (n + 1) = T.rolloutStep (T.uStop q.v) (T.rolloutScan q n) := by
      unfold Acc.rolloutScan; rw [Function.iterate_succ_apply']
    rw [s1, s2, hu]
    unfold Acc.rolloutStep
    simp only [e1, e2, he, hh, ho, hno, decide_false, Bool.or_false, and_self]

theorem acc_step_empty {T T' : Acc} {b : Bool} {c : ℝ} (hT : T' = { T with shieldCollision := b, collisionPenalty := c })
    (h1 : T.circles = []) (h2 : T.rects = []) (hp : T.enableProjection = false) (hg : T.enableGuidance = false)
    (hb0 : T.shieldHitch = true ∨ b = T.shieldCollision)
    (ext : Ext Q6) (viz : Bool) (s : St Q6) (u : U) : T'.stepInternal ext viz s u = T.stepInternal ext viz s u := by
  have hno : ∀ q, ¬ T.checkObstacle q := fun q => by
    unfold Acc.checkObstacle TT2d.checkObstacle
    simp [h1, h2]
  have hs := rolloutScan_empty hT h1 h2
  have he : ∀ q u dt, T'.euler q u dt = T.euler q u dt := by rw [hT]; exact fun _ _ _ => rfl
  have hi : ∀ u, T'.inputScaler u = T.inputScaler u := by rw [hT]; exact fun _ => rfl
  have hh : ∀ q, T'.checkHitch q = T.checkHitch q := by rw [hT]; exact fun _ => rfl
  have ho : ∀ q, T'.checkObstacle q = T.checkObstacle q := by rw [hT]; exact fun _ => rfl
  have hr : ∀ q, T'.getReward q = T.getReward q := by rw [hT]; exact fun _ => rfl
  have hb : ∀ v, T'.uBackupNorm v = T.uBackupNorm v := by rw [hT]; exact fun _ => rfl
  have hb2 : ∀ v w, T'.uBackupScaled v w = T.uBackupScaled v w := by rw [hT]; exact fun _ _ => rfl
  have hpen : ∀ v, T'.prefPenaltyV v = T.prefPenaltyV v := by rw [hT]; exact fun _ => rfl
  have f0 : T'.dt = T.dt := by rw [hT]
  have f1 : T'.enableProjection = false := by rw [hT]; exact hp
  have f2 : T'.enableGuidance = false := by rw [hT]; exact hg
  have f3 : T'.shieldCollision = b := by rw [hT]
  have f4 : T'.shieldHitch = T.shieldHitch := by rw [hT]
  have f6 : T'.hitchPenalty = T.hitchPenalty := by rw [hT]
  have f7 : T'.motionPreference = T.motionPreference := by rw [hT]
  have f8 : T'.maxRolloutSteps = T.maxRolloutSteps := by rw [hT]; rfl
  have hsafe : ∀ q, T'.checkSafety q = T.checkSafety q ∧ (T.checkSafety q).1 = false := by
    intro q
    unfold Acc.checkSafety
    simp only [f8, (hs q T.maxRolloutSteps).1, hh, ho, hno, decide_false]
    split_ifs
    · simp
    · exact ⟨trivial, (hs q T.maxRolloutSteps).2⟩
  have e1 := fun q => (hsafe q).1
  have e2 := fun q => (hsafe q).2
  cases b <;> cases hA : T.shieldCollision <;> cases hB : T.shieldHitch <;> simp only [hA, hB, Bool.false_eq_true, reduceCtorEq, or_self, or_false, false_or, Bool.true_eq_false] at hb0
  all_goals
    unfold Acc.stepInternal Acc.shieldedRollout Acc.naive
    simp only [f0, f1, f2, f3, f4, f6, f7, hp, hg, hA, hB, he, hi, hh, ho, hr, hb, hb2, hpen, e1, e2, hno, if_false,
      decide_false, Bool.false_eq_true, Bool.or_false, Bool.or_true, Bool.false_or, Bool.true_or, Bool.and_false, Bool.false_and,
      Bool.true_and, if_true]

/-- With every obstacle out of reach of the start (C91) a planning run depends neither on the collision penalty nor on the
collision shield: acceleration control.  If the hitch shield is off, switching the collision shield is excluded: the shielded
step judges jackknifing along the predicted stop, the unshielded one at the pose itself. -/
theorem C92_idle_acc (T : Acc) (b : Bool) (c : ℝ) (hb0 : T.shieldHitch = true ∨ b = T.shieldCollision)
    (hs : SidesOK T.toParams) (hv : 0 ≤ T.vMax) (hdt : 0 ≤ T.dt)
    (hp : T.enableProjection = false) (hg : T.enableGuidance = false) (ext : Ext Q6) (rows : List (Q4 × Bool)) (cfg : Cfg)
    (normal : Key → ℕ → ℕ → ℕ → ℕ → U)
    (h1 : ∀ o ∈ T.circles, FarFrom (T.x0.px, T.x0.py)
      ((cfg.Hsample + 1) * (T.vMax * T.dt) + ⌊2 * T.vMax / T.aMax⌋₊ * T.vMax + rigSize T.toParams) (circleRegion o))
    (h2 : ∀ o ∈ T.rects, FarFrom (T.x0.px, T.x0.py)
      ((cfg.Hsample + 1) * (T.vMax * T.dt) + ⌊2 * T.vMax / T.aMax⌋₊ * T.vMax + rigSize T.toParams) (rectRegion o)) :
    runDiffusion (Acc.planEnv { T with shieldCollision := b, collisionPenalty := c } ext rows) normal cfg =
      runDiffusion (T.planEnv ext rows) normal cfg := by
  have a1 := C91_acc T [] [] hs (by simp) hv hdt hp hg ext rows cfg normal (sameWithin_nil h1 h2)
  have a2 := C91_acc { T with shieldCollision := b, collisionPenalty := c } [] [] ⟨hs.1, hs.2, hs.3, hs.4, hs.5, hs.6⟩
    (by simp) hv hdt hp hg ext rows cfg normal (sameWithin_nil h1 h2)
  rw [← a1, ← a2]
  have hst : ∀ viz, Acc.stepInternal { T with shieldCollision := b, collisionPenalty := c, circles := [], rects := [] } ext
      viz = Acc.stepInternal { T with circles := [], rects := [] } ext viz := fun viz => by
    funext s u
    exact acc_step_empty (T := { T with circles := [], rects := [] }) rfl rfl rfl hp hg hb0 ext viz s u
  have hE : Acc.planEnv { T with shieldCollision := b, collisionPenalty := c, circles := [], rects := [] } ext rows =
      { Acc.planEnv { T with circles := [], rects := [] } ext rows with
        step := Acc.step { T with shieldCollision := b, collisionPenalty := c, circles := [], rects := [] } ext
        stepViz := Acc.stepInternal { T with shieldCollision := b, collisionPenalty := c, circles := [], rects := [] } ext
          true } := rfl
  rw [hE]
  have h3 : Acc.step { T with shieldCollision := b, collisionPenalty := c, circles := [], rects := [] } ext =
      Acc.step { T with circles := [], rects := [] } ext := by
    funext s u; exact congrFun (congrFun (hst false) s) u
  rw [h3, hst true]
  rfl

/-! ## Trains -/

/-- Collision shield and penalty changed. -/
def Reshielded (T T' : NTrailer) : Prop :=
  T' = { T with shieldCollision := T'.shieldCollision, collisionPenalty := T'.collisionPenalty }

theorem carryAt_resh {T T' : NTrailer} (h : Reshielded T T') (x : QN) (v δ : ℝ) (i : ℕ) :
    T'.carryAt x v δ i = T.carryAt x v δ i := by
  unfold Reshielded at h
  induction i with
  | zero => rw [h]; rfl
  | succ i ih => simp only [NTrailer.carryAt]; rw [ih, h]; rfl

theorem euler_resh {T T' : NTrailer} (h : Reshielded T T') (x : QN) (u : U) :
    T'.euler x (T'.inputScaler u) = T.euler x (T.inputScaler u) := by
  have hc := carryAt_resh h
  unfold Reshielded at h
  unfold NTrailer.euler NTrailer.dynamics
  simp only [hc]
  rw [h]
  rfl

theorem lastPosLoop_resh {T T' : NTrailer} (h : Reshielded T T') (x : QN) (i : ℕ) :
    T'.lastPosLoop x i = T.lastPosLoop x i := by
  unfold Reshielded at h
  induction i with
  | zero => rw [h]; rfl
  | succ i ih => simp only [NTrailer.lastPosLoop]; rw [ih, h]; rfl

theorem rewards_resh {T T' : NTrailer} (h : Reshielded T T') :
    T'.getReward = T.getReward ∧ T'.getTerminalReward = T.getTerminalReward := by
  have hl := lastPosLoop_resh h
  unfold Reshielded at h
  have t1 : T'.rewardThreshold = T.rewardThreshold := by rw [h]
  have t2 : T'.terminalRewardThreshold = T.terminalRewardThreshold := by rw [h]
  have hd : ∀ x, T'.posDist x = T.posDist x := by
    intro x
    unfold NTrailer.posDist NTrailer.dTractor NTrailer.dLast NTrailer.lastTrailerPos
    simp only [hl]
    rw [h]
    rfl
  constructor
  · funext q; unfold NTrailer.getReward; rw [hd, t1]
  · funext q; unfold NTrailer.getTerminalReward; rw [hd, t2]

theorem ntrailer_step_empty {T T' : NTrailer} (h : Reshielded T T') (h1 : T.circles = []) (h2 : T.rects = [])
    (hp : T.enableProjection = false) (hg : T.enableGuidance = false) (guide : QN → QN) (viz : Bool) :
    T'.stepTotal guide viz = T.stepTotal guide viz := by
  have hno : ∀ q, ¬ T.checkObstacle q := fun q => by
    unfold NTrailer.checkObstacle
    simp [h1, h2]
  have he := euler_resh h
  have hr := (rewards_resh h).1
  unfold Reshielded at h
  have hno' : ∀ q, ¬ T'.checkObstacle q := fun q => by
    have c1 : T'.circles = [] := by rw [h]; exact h1
    have c2 : T'.rects = [] := by rw [h]; exact h2
    unfold NTrailer.checkObstacle
    simp [c1, c2]
  have hh : ∀ q, T'.checkHitch q = T.checkHitch q := by rw [h]; exact fun _ => rfl
  have hpen : ∀ u, T'.prefPenaltyU (T'.inputScaler u) = T.prefPenaltyU (T.inputScaler u) := by rw [h]; exact fun _ => rfl
  have f1 : T'.enableProjection = false := by rw [h]; exact hp
  have f2 : T'.enableGuidance = false := by rw [h]; exact hg
  have f4 : T'.shieldHitch = T.shieldHitch := by rw [h]
  have f6 : T'.hitchPenalty = T.hitchPenalty := by rw [h]
  have f7 : T'.motionPreference = T.motionPreference := by rw [h]
  have f8 : T'.N = T.N := by rw [h]
  funext s u
  unfold NTrailer.stepTotal NTrailer.stepInternal kinShieldedRollout kinNaive
  simp only [f1, f2, f4, f6, f7, f8, hp, hg, if_false, Bool.false_eq_true, he, hh, hno, hno', hr, hpen, decide_false,
    Bool.and_false, Bool.false_or]
  cases T'.shieldCollision <;> cases T.shieldCollision <;> cases T.shieldHitch <;> simp

/-- The same for trains. -/
theorem C92_idle_ntrailer (T : NTrailer) (b : Bool) (c : ℝ) (hw : Spec.WellSized T T.x0) (hs : Spec.TrainSidesOK T)
    (hr : ∀ o ∈ T.rects, 0 < o.w ∧ 0 < o.h) (hv : 0 ≤ T.vMax) (hdt : 0 ≤ T.dt)
    (hp : T.enableProjection = false) (hg : T.enableGuidance = false) (guide : QN → QN) (rows : List (Q4 × Bool))
    (cfg : Cfg) (normal : Key → ℕ → ℕ → ℕ → ℕ → U)
    (h1 : ∀ o ∈ T.circles, FarFrom (T.x0.px, T.x0.py) ((cfg.Hsample + 1) * (T.vMax * T.dt) + trainSize T)
      (circleRegion o))
    (h2 : ∀ o ∈ T.rects, FarFrom (T.x0.px, T.x0.py) ((cfg.Hsample + 1) * (T.vMax * T.dt) + trainSize T)
      (rectRegion o)) :
    runDiffusion (NTrailer.planEnv { T with shieldCollision := b, collisionPenalty := c } guide rows) normal cfg =
      runDiffusion (T.planEnv guide rows) normal cfg := by
  have a1 := C91_ntrailer T [] [] hw hs (by simpa using hr) hv hdt hp hg guide rows cfg normal (sameWithin_nil h1 h2)
  have a2 := C91_ntrailer { T with shieldCollision := b, collisionPenalty := c } [] [] ⟨hw.1, hw.2, hw.3, hw.4⟩
    ⟨hs.1, hs.2, hs.3, hs.4⟩ (by simpa using hr) hv hdt hp hg guide rows cfg normal (sameWithin_nil h1 h2)
  rw [← a1, ← a2]
  obtain ⟨S, hS⟩ : ∃ S : NTrailer, S = { T with circles := [], rects := [] } := ⟨_, rfl⟩
  obtain ⟨S', hS'⟩ : ∃ S' : NTrailer, S' = { T with shieldCollision := b, collisionPenalty := c, circles := [], rects := [] } :=
    ⟨_, rfl⟩
  have hR : Reshielded S S' := by unfold Reshielded; rw [hS, hS']
  have p1 : S.enableProjection = false := by rw [hS]; exact hp
  have p2 : S.enableGuidance = false := by rw [hS]; exact hg
  have hst : ∀ viz, S'.stepTotal guide viz = S.stepTotal guide viz := fun viz =>
    ntrailer_step_empty hR (by rw [hS]) (by rw [hS]) p1 p2 guide viz
  have c3 : S'.reset = S.reset := by rw [hS, hS']; rfl
  have c5 : S'.N = S.N := by rw [hS, hS']
  have c6 : S'.terminalRewardWeight = S.terminalRewardWeight := by rw [hS, hS']
  have c7 : S'.steeringWeight = S.steeringWeight := by rw [hS, hS']
  have c8 : S'.deltaMax = S.deltaMax := by rw [hS, hS']; rfl
  have hrow : Demo.rowLogpd S'.toParams = Demo.rowLogpd S.toParams := by rw [hS, hS']; rfl
  have hx : Demo.evalXrefN S' rows = Demo.evalXrefN S rows := by
    have hlast : ∀ q, S'.lastTrailerPos q = S.lastTrailerPos q := by
      intro q; unfold NTrailer.lastTrailerPos; rw [lastPosLoop_resh hR, c5]
    funext pref xs
    unfold Demo.evalXrefN
    simp only [hrow, hlast]
  rw [← hS, ← hS']
  congr 1
  unfold NTrailer.planEnv
  simp only [c3, (rewards_resh hR).1, (rewards_resh hR).2, hx, hst]
  simp only [c6, c7, c8]

/-! ## Instances -/

/-- Nothing within a kilometre. -/
example (ext : Ext Q6) (rows : List (Q4 × Bool)) (normal : Key → ℕ → ℕ → ℕ → ℕ → U) :=
  C92_idle_acc { Wit.acc with circles := [⟨1000, 0, 1⟩], rects := [] } false 0 (Or.inl rfl)
    (by constructor <;> norm_num [Wit.acc, Wit.params, Params.default])
    (by norm_num [Wit.acc, Wit.params, Params.default]) (by norm_num [Wit.acc, Wit.params, Params.default])
    rfl rfl ext rows { defaultCfg with Hsample := 50 } normal
    (by
      intro o ho
      refine (wit_sameWithin ?_).1 o ?_
      · have : ⌊2 * Wit.acc.vMax / Wit.acc.aMax⌋₊ ≤ 10 := by
          apply Nat.floor_le_of_le
          norm_num [Wit.acc, Wit.params, Params.default]
        have : (⌊2 * Wit.acc.vMax / Wit.acc.aMax⌋₊ : ℝ) ≤ 10 := by exact_mod_cast this
        norm_num [Wit.acc, Wit.params, Params.default, rigSize, tractorSize, abs_of_nonneg] at this ⊢
      · rw [List.mem_singleton] at ho; subst ho; norm_num)
    (by simp)

example (guide : QN → QN) (rows : List (Q4 × Bool)) (normal : Key → ℕ → ℕ → ℕ → ℕ → U) :=
  C92_idle_ntrailer { Wit.train with circles := [⟨1000, 0, 1⟩], rects := [] } false 0
    ⟨rfl, rfl, rfl, rfl⟩
    (by
      constructor <;> norm_num [Wit.train, Wit.params, Params.default]
      intro i hi
      have h2 : i = 0 ∨ i = 1 := by omega
      rcases h2 with rfl | rfl <;> norm_num [clampGet])
    (by simp)
    (by norm_num [Wit.train, Wit.params, Params.default]) (by norm_num [Wit.train, Wit.params, Params.default])
    rfl rfl guide rows { defaultCfg with Hsample := 50 } normal
    (by
      intro o ho
      refine (wit_sameWithin ?_).1 o ?_
      · norm_num [Wit.train, Wit.params, Params.default, trainSize, tractorSize, carSum, carLen, List.range_succ, abs_of_nonneg]
      · rw [List.mem_singleton] at ho; subst ho; norm_num)
    (by simp)

end Mbd
