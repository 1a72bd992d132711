import Verif.PropsReach

/-! # Reward settings and the motion (C92) -/

namespace Spec

open Real Mbd

/-- The same vehicle, limits, obstacles and shields. All reward settings (preference, penalties, weights, thresholds) are
free. -/
structure SameMotion (P P' : Params) : Prop where
  dt : P'.dt = P.dt
  shieldCollision : P'.shieldCollision = P.shieldCollision
  shieldHitch : P'.shieldHitch = P.shieldHitch
  enableProjection : P'.enableProjection = P.enableProjection
  enableGuidance : P'.enableGuidance = P.enableGuidance
  l1 : P'.l1 = P.l1
  l2 : P'.l2 = P.l2
  lh : P'.lh = P.lh
  lf1 : P'.lf1 = P.lf1
  lr : P'.lr = P.lr
  lf2 : P'.lf2 = P.lf2
  lr2 : P'.lr2 = P.lr2
  tractorWidth : P'.tractorWidth = P.tractorWidth
  trailerWidth : P'.trailerWidth = P.trailerWidth
  vMax : P'.vMax = P.vMax
  deltaMaxDeg : P'.deltaMaxDeg = P.deltaMaxDeg
  circles : P'.circles = P.circles
  rects : P'.rects = P.rects

/-- What moves: pose, executed action, backup mode — everything in an environment state but its reward. -/
def motion {Q : Type} (s : St Q) : Q × Q × ℝ × U × Bool := (s.q, s.obs, s.done, s.applied, s.inBackup)

end Spec

namespace Mbd

open Real Classical _root_.Spec

/-! ## Lifting to rollouts -/

theorem motion_scan {Q : Type} {f f' : St Q → U → St Q}
    (h : ∀ s s' u, s'.q = s.q → s'.inBackup = s.inBackup → motion (f' s' u) = motion (f s u)) :
    ∀ (us : List U) (s s' : St Q), s'.q = s.q → s'.inBackup = s.inBackup →
      (scanStates f' s' us).map motion = (scanStates f s us).map motion := by
  intro us
  induction us with
  | nil => intro s s' _ _; rfl
  | cons u us ih =>
    intro s s' h1 h2
    have e := h s s' u h1 h2
    simp only [scanStates, List.map_cons, e]
    congr 1
    exact ih _ _ (congrArg (fun m => m.1) e) (congrArg (fun m => m.2.2.2.2) e)

theorem motion_rollout {Q : Type} {f f' : St Q → U → St Q}
    (h : ∀ s s' u, s'.q = s.q → s'.inBackup = s.inBackup → motion (f' s' u) = motion (f s u))
    (s : St Q) (us : List U) : (rolloutUs f' s us).2 = (rolloutUs f s us).2 := by
  have e := h s s (0, 0) rfl rfl
  have := motion_scan h us (warmState f s) (warmState f' s) (congrArg (fun m => m.1) e) (congrArg (fun m => m.2.2.2.2) e)
  unfold rolloutUs
  have a := congrArg (List.map fun m => m.1) this
  have b := congrArg (List.map fun m => m.2.2.2.1) this
  simp only [List.map_map] at a b
  exact Prod.ext a b

/-! ## Steps -/

theorem params_of_sameMotion {P P' : Params} (h : SameMotion P P') :
    P' = { P with
      H := P'.H, motionPreference := P'.motionPreference, collisionPenalty := P'.collisionPenalty
      hitchPenalty := P'.hitchPenalty, rewardThreshold := P'.rewardThreshold, refRewardThreshold := P'.refRewardThreshold
      maxWTheta := P'.maxWTheta, hitchAngleWeight := P'.hitchAngleWeight, dThrFactor := P'.dThrFactor
      kSwitch := P'.kSwitch, steeringWeight := P'.steeringWeight
      preferencePenaltyWeight := P'.preferencePenaltyWeight, headingRewardWeight := P'.headingRewardWeight
      terminalRewardThreshold := P'.terminalRewardThreshold, terminalRewardWeight := P'.terminalRewardWeight
      refPosWeight := P'.refPosWeight, refTheta1Weight := P'.refTheta1Weight, refTheta2Weight := P'.refTheta2Weight } := by
  obtain ⟨h1, h2, h3, h4, h5, h6, h7, h8, h9, h10, h11, h12, h13, h14, h15, h16, h17, h18⟩ := h
  cases P; cases P'
  simp_all

theorem tt2d_motion {T T' : TT2d} (h : SameMotion T.toParams T'.toParams) (ext : Ext Q4) (viz : Bool) (s s' : St Q4) (u : U)
    (h1 : s'.q = s.q) (h2 : s'.inBackup = s.inBackup) :
    motion (T'.stepInternal ext viz s' u) = motion (T.stepInternal ext viz s u) := by
  have he : ∀ q w, TT2d.euler T'.toParams q (T'.inputScaler w) = TT2d.euler T.toParams q (T.inputScaler w) := by
    intro q w; rw [params_of_sameMotion h]; rfl
  have ho : TT2d.checkObstacle T'.toParams = TT2d.checkObstacle T.toParams := by rw [params_of_sameMotion h]; rfl
  have hh : TT2d.checkHitch T'.toParams = TT2d.checkHitch T.toParams := by rw [params_of_sameMotion h]; rfl
  unfold TT2d.stepInternal motion kinShieldedRollout kinNaive
  simp only [h.enableProjection, h.enableGuidance, h.shieldCollision, h.shieldHitch, he, ho, hh, h1, h2]

theorem bicycle_motion {T T' : Bicycle} (h : SameMotion T.toParams T'.toParams) (ext : Ext Q3) (viz : Bool) (s s' : St Q3)
    (u : U) (h1 : s'.q = s.q) (h2 : s'.inBackup = s.inBackup) :
    motion (T'.stepInternal ext viz s' u) = motion (T.stepInternal ext viz s u) := by
  have he : ∀ q w, Bicycle.euler T'.toParams q (T'.inputScaler w) = Bicycle.euler T.toParams q (T.inputScaler w) := by
    intro q w; rw [params_of_sameMotion h]; rfl
  have ho : Bicycle.checkObstacle T'.toParams = Bicycle.checkObstacle T.toParams := by rw [params_of_sameMotion h]; rfl
  have hh : Bicycle.checkHitch T'.toParams = Bicycle.checkHitch T.toParams := by rw [params_of_sameMotion h]; rfl
  unfold Bicycle.stepInternal motion kinShieldedRollout kinNaive
  simp only [h.enableProjection, h.enableGuidance, h.shieldCollision, h.shieldHitch, he, ho, hh, h1, h2]

theorem acc_motion {T T' : Acc} (h : SameMotion T.toParams T'.toParams) (ha : T'.aMax = T.aMax)
    (hw : T'.omegaMax = T.omegaMax) (ext : Ext Q6) (viz : Bool) (s s' : St Q6) (u : U) (h1 : s'.q = s.q)
    (h2 : s'.inBackup = s.inBackup) :
    motion (T'.stepInternal ext viz s' u) = motion (T.stepInternal ext viz s u) := by
  have hT : T' = { toParams := T'.toParams, aMax := T.aMax, omegaMax := T.omegaMax, x0 := T'.x0, xg := T'.xg } := by
    rw [← ha, ← hw]
  rw [params_of_sameMotion h] at hT
  have f0 : T'.dt = T.dt := h.dt
  have f1 := h.enableProjection
  have f2 := h.enableGuidance
  have f3 := h.shieldCollision
  have f4 := h.shieldHitch
  have he : T'.euler = T.euler := by rw [hT]; rfl
  have hi : T'.inputScaler = T.inputScaler := by rw [hT]; rfl
  have hb : T'.uBackupNorm = T.uBackupNorm := by rw [hT]; rfl
  have hb2 : T'.uBackupScaled = T.uBackupScaled := by rw [hT]; rfl
  have ho : T'.checkObstacle = T.checkObstacle := by rw [hT]; rfl
  have hh : T'.checkHitch = T.checkHitch := by rw [hT]; rfl
  have hs : T'.checkSafety = T.checkSafety := by rw [hT]; rfl
  unfold Acc.stepInternal motion Acc.shieldedRollout Acc.naive
  simp only [f0, f1, f2, f3, f4, he, hi, hb, hb2, ho, hh, hs, h1, h2]

/-- **C92**, tractor-trailer: two tasks with the same vehicle, limits, obstacles and shields but any goals and any reward
settings execute every action sequence alike from every state, in planning and in visualisation mode, with and without
projection and guidance; so a rollout returns the same states and applied actions in both. -/
theorem C92_tt2d (T T' : TT2d) (h : SameMotion T.toParams T'.toParams) (ext : Ext Q4) (viz : Bool) (s : St Q4)
    (us : List U) :
    (scanStates (T'.stepInternal ext viz) s us).map motion = (scanStates (T.stepInternal ext viz) s us).map motion ∧
    (rolloutUs (T'.step ext) s us).2 = (rolloutUs (T.step ext) s us).2 :=
  ⟨motion_scan (fun s s' u => tt2d_motion h ext viz s s' u) us s s rfl rfl,
    motion_rollout (fun s s' u => tt2d_motion h ext false s s' u) s us⟩

/-- **C92**, bicycle. -/
theorem C92_bicycle (T T' : Bicycle) (h : SameMotion T.toParams T'.toParams) (ext : Ext Q3) (viz : Bool) (s : St Q3)
    (us : List U) :
    (scanStates (T'.stepInternal ext viz) s us).map motion = (scanStates (T.stepInternal ext viz) s us).map motion ∧
    (rolloutUs (T'.step ext) s us).2 = (rolloutUs (T.step ext) s us).2 :=
  ⟨motion_scan (fun s s' u => bicycle_motion h ext viz s s' u) us s s rfl rfl,
    motion_rollout (fun s s' u => bicycle_motion h ext false s s' u) s us⟩

/-- **C92**, acceleration control. -/
theorem C92_acc (T T' : Acc) (h : SameMotion T.toParams T'.toParams) (ha : T'.aMax = T.aMax)
    (hw : T'.omegaMax = T.omegaMax) (ext : Ext Q6) (viz : Bool) (s : St Q6) (us : List U) :
    (scanStates (T'.stepInternal ext viz) s us).map motion = (scanStates (T.stepInternal ext viz) s us).map motion ∧
    (rolloutUs (T'.step ext) s us).2 = (rolloutUs (T.step ext) s us).2 :=
  ⟨motion_scan (fun s s' u => acc_motion h ha hw ext viz s s' u) us s s rfl rfl,
    motion_rollout (fun s s' u => acc_motion h ha hw ext false s s' u) s us⟩

/-! ## Trains -/

/-- The same train, limits, obstacles and shields; start, goal and reward settings are free. -/
structure _root_.Spec.SameTrain (T T' : NTrailer) : Prop where
  params : SameMotion T.toParams T'.toParams
  N : T'.N = T.N
  lengths : T'.lengths = T.lengths
  fronts : T'.fronts = T.fronts
  rears : T'.rears = T.rears

theorem train_of_same {T T' : NTrailer} (h : Spec.SameTrain T T') :
    T' = { toParams := { T.toParams with
      H := T'.H, motionPreference := T'.motionPreference, collisionPenalty := T'.collisionPenalty
      hitchPenalty := T'.hitchPenalty, rewardThreshold := T'.rewardThreshold, refRewardThreshold := T'.refRewardThreshold
      maxWTheta := T'.maxWTheta, hitchAngleWeight := T'.hitchAngleWeight, dThrFactor := T'.dThrFactor
      kSwitch := T'.kSwitch, steeringWeight := T'.steeringWeight
      preferencePenaltyWeight := T'.preferencePenaltyWeight, headingRewardWeight := T'.headingRewardWeight
      terminalRewardThreshold := T'.terminalRewardThreshold, terminalRewardWeight := T'.terminalRewardWeight
      refPosWeight := T'.refPosWeight, refTheta1Weight := T'.refTheta1Weight, refTheta2Weight := T'.refTheta2Weight }
           N := T.N, lengths := T.lengths, fronts := T.fronts, rears := T.rears, x0 := T'.x0, xg := T'.xg } := by
  rw [← params_of_sameMotion h.params, ← h.N, ← h.lengths, ← h.fronts, ← h.rears]

theorem carryAt_same {T T' : NTrailer} (h : Spec.SameTrain T T') (x : QN) (v δ : ℝ) (i : ℕ) :
    T'.carryAt x v δ i = T.carryAt x v δ i := by
  have hT := train_of_same h
  induction i with
  | zero => rw [hT]; rfl
  | succ i ih => simp only [NTrailer.carryAt]; rw [ih, hT]; rfl

theorem rectHitch_same {T T' : NTrailer} (h : Spec.SameTrain T T') (x : QN) (i : ℕ) :
    T'.rectHitch x i = T.rectHitch x i := by
  have hT := train_of_same h
  induction i with
  | zero => rw [hT]; rfl
  | succ i ih => simp only [NTrailer.rectHitch]; rw [ih, hT]; rfl

theorem ntrailer_motion {T T' : NTrailer} (h : Spec.SameTrain T T') (guide : QN → QN) (viz : Bool) (s s' : St QN) (u : U)
    (h1 : s'.q = s.q) (h2 : s'.inBackup = s.inBackup) :
    (T'.stepInternal guide viz s' u).map motion = (T.stepInternal guide viz s u).map motion := by
  have hT := train_of_same h
  have hc := carryAt_same h
  have hr := rectHitch_same h
  have f1 := h.params.enableProjection
  have f2 := h.params.enableGuidance
  have f3 := h.params.shieldCollision
  have f4 := h.params.shieldHitch
  have he : ∀ q w, T'.euler q (T'.inputScaler w) = T.euler q (T.inputScaler w) := by
    intro q w
    unfold NTrailer.euler NTrailer.dynamics
    simp only [hc]
    rw [hT]; rfl
  have hk : ∀ x i, T'.trailerCorners x i = T.trailerCorners x i := by
    intro x i
    unfold NTrailer.trailerCorners
    simp only [hr]
    rw [hT]; rfl
  have ho : T'.checkObstacle = T.checkObstacle := by
    have e0 : T'.tractorCorners = T.tractorCorners := by rw [hT]; rfl
    funext x
    unfold NTrailer.checkObstacle NTrailer.allTrailerCorners
    simp only [e0, h.N, h.params.circles, h.params.rects, List.map_congr_left fun i _ => hk x i]
  have hh : T'.checkHitch = T.checkHitch := by rw [hT]; rfl
  unfold NTrailer.stepInternal kinShieldedRollout kinNaive
  simp only [f1, f2, f3, f4, h.N, he, ho, hh, h1, h2]
  by_cases hl : 3 + s.q.ths.length ≠ 3 + T.N
  · simp only [if_pos hl]
    try rfl
  · by_cases hp : T.enableProjection = true
    · simp only [if_neg hl, if_pos hp]
      try rfl
    · simp only [if_neg hl, if_neg hp, Except.map, motion]

theorem motion_scanE {Q E : Type} {f f' : St Q → U → Except E (St Q)}
    (h : ∀ s s' u, s'.q = s.q → s'.inBackup = s.inBackup → (f' s' u).map motion = (f s u).map motion) :
    ∀ (us : List U) (s s' : St Q), s'.q = s.q → s'.inBackup = s.inBackup →
      (scanStatesE f' s' us).map (List.map motion) = (scanStatesE f s us).map (List.map motion) := by
  intro us
  induction us with
  | nil => intro s s' _ _; rfl
  | cons u us ih =>
    intro s s' h1 h2
    have e := h s s' u h1 h2
    simp only [scanStatesE]
    cases ha : f s u with
    | error x =>
      cases hb : f' s' u with
      | error y => rw [ha, hb] at e; simpa [Except.map] using e
      | ok y => rw [ha, hb] at e; simp [Except.map] at e
    | ok x =>
      cases hb : f' s' u with
      | error y => rw [ha, hb] at e; simp [Except.map] at e
      | ok y =>
        rw [ha, hb] at e
        have e : motion y = motion x := by simpa [Except.map] using e
        have i := ih x y (congrArg (fun m => m.1) e) (congrArg (fun m => m.2.2.2.2) e)
        cases hc : scanStatesE f x us <;> cases hd : scanStatesE f' y us <;> rw [hc, hd] at i <;>
          simp_all [Except.map]

/-- **C92**, train of any number of trailers; exceptions included. -/
theorem C92_ntrailer (T T' : NTrailer) (h : Spec.SameTrain T T') (guide : QN → QN) (viz : Bool) (s : St QN) (us : List U) :
    (scanStatesE (T'.stepInternal guide viz) s us).map (List.map motion) =
      (scanStatesE (T.stepInternal guide viz) s us).map (List.map motion) :=
  motion_scanE (ntrailer_motion h guide viz) us s s rfl rfl

/-! ## With nothing in reach the collision shield and penalty are idle -/

theorem sameWithin_nil {p : Pt} {D : ℝ} {cs : List Circle} {rs : List Rect}
    (h1 : ∀ c ∈ cs, FarFrom p D (circleRegion c)) (h2 : ∀ o ∈ rs, FarFrom p D (rectRegion o)) :
    SameWithin p D cs [] rs [] := by
  constructor
  · intro c hc
    by_cases h : c ∈ cs
    · exact h1 c h
    · exact absurd (by simp [h]) hc
  · intro o ho
    by_cases h : o ∈ rs
    · exact h2 o h
    · exact absurd (by simp [h]) ho

theorem tt2d_step_idle (T T' : TT2d) (b : Bool) (c : ℝ) (hT : T' = { T with shieldCollision := b, collisionPenalty := c })
    (hp : T.enableProjection = false) (hg : T.enableGuidance = false) (ext : Ext Q4) (viz : Bool) (s : St Q4) (u : U)
    (hc : ¬ TT2d.checkObstacle T.toParams (TT2d.euler T.toParams s.q
        (T.inputScaler (if s.inBackup = true then (0, 0) else clipU u)))) :
    T'.stepInternal ext viz s u = T.stepInternal ext viz s u := by
  have f1 : T'.enableProjection = false := by rw [hT]; exact hp
  have f2 : T'.enableGuidance = false := by rw [hT]; exact hg
  have f3 : T'.shieldCollision = b := by rw [hT]
  have f4 : T'.shieldHitch = T.shieldHitch := by rw [hT]
  have f6 : T'.hitchPenalty = T.hitchPenalty := by rw [hT]
  have f7 : T'.motionPreference = T.motionPreference := by rw [hT]
  have hX : T'.xg = T.xg := by rw [hT]
  have he : ∀ q w, TT2d.euler T'.toParams q (T'.inputScaler w) = TT2d.euler T.toParams q (T.inputScaler w) := by
    rw [hT]; exact fun _ _ => rfl
  have ho : TT2d.checkObstacle T'.toParams = TT2d.checkObstacle T.toParams := by rw [hT]; rfl
  have hh : TT2d.checkHitch T'.toParams = TT2d.checkHitch T.toParams := by rw [hT]; rfl
  have hr : TT2d.getReward T'.toParams = TT2d.getReward T.toParams := by rw [hT]; rfl
  have hpen : ∀ w, T'.prefPenaltyU (T'.inputScaler w) = T.prefPenaltyU (T.inputScaler w) := by rw [hT]; exact fun _ => rfl
  unfold TT2d.stepInternal kinShieldedRollout kinNaive
  simp only [f1, f2, f3, f4, f6, f7, hp, hg, hX, he, ho, hh, hr, hpen, if_false, Bool.false_eq_true]
  cases b <;> cases T.shieldCollision <;> cases T.shieldHitch <;> simp [hc]

/-- With every obstacle out of reach of the start, a planning run does not depend on the collision shield or the collision
penalty: tractor-trailer. -/
theorem C92_idle_tt2d (T : TT2d) (b : Bool) (c : ℝ) (hs : SidesOK T.toParams) (hv : 0 ≤ T.vMax) (hdt : 0 ≤ T.dt)
    (hp : T.enableProjection = false) (hg : T.enableGuidance = false) (ext : Ext Q4) (rows : List (Q4 × Bool)) (cfg : Cfg)
    (normal : Key → ℕ → ℕ → ℕ → ℕ → U)
    (h1 : ∀ o ∈ T.circles, FarFrom (T.x0.px, T.x0.py) ((cfg.Hsample + 1) * (T.vMax * T.dt) + rigSize T.toParams)
      (circleRegion o))
    (h2 : ∀ o ∈ T.rects, FarFrom (T.x0.px, T.x0.py) ((cfg.Hsample + 1) * (T.vMax * T.dt) + rigSize T.toParams)
      (rectRegion o)) :
    runDiffusion (TT2d.planEnv { T with shieldCollision := b, collisionPenalty := c } ext rows) normal cfg =
      runDiffusion (T.planEnv ext rows) normal cfg := by
  have hw : 0 ≤ T.vMax * T.dt := by positivity
  have hst : ∀ viz, ∀ n < cfg.Hsample + 1, ∀ (s : St Q4) u,
      Spec.dist (s.q.px, s.q.py) (T.x0.px, T.x0.py) ≤ n * (T.vMax * T.dt) →
      TT2d.stepInternal { T with shieldCollision := b, collisionPenalty := c } ext viz s u = T.stepInternal ext viz s u ∧
      Spec.dist ((T.stepInternal ext viz s u).q.px, (T.stepInternal ext viz s u).q.py) (T.x0.px, T.x0.py) ≤
        (n + 1 : ℕ) * (T.vMax * T.dt) := by
    intro viz n hn s u hd
    have hviz : T.stepInternal ext viz s u = T.step ext s u := by
      unfold TT2d.step TT2d.stepInternal
      simp only [hp, hg, if_false, Bool.false_eq_true]
    have hm := shift_le hd (C15_tt2d T ext hv hdt (fun h => absurd (hp.symm.trans h) (by decide)) s u)
    refine ⟨?_, by rw [hviz]; exact hm⟩
    have hprop := shift_le hd (straight_shift hdt (scaled_speed hv (inBox_eff s.inBackup u)) s.q.px s.q.py s.q.th1)
    have hc := checkObstacle_far hs (by simp) (sameWithin_nil h1 h2)
      (TT2d.euler T.toParams s.q (T.inputScaler (effAction s.inBackup u))) (by
      have h1 : ((n + 1 : ℕ) : ℝ) * (T.vMax * T.dt) ≤ (cfg.Hsample + 1) * (T.vMax * T.dt) := by
        apply mul_le_mul_of_nonneg_right _ hw
        exact_mod_cast (by omega : n + 1 ≤ cfg.Hsample + 1)
      have h2 := hprop.trans h1
      have h3 : Spec.dist ((TT2d.euler T.toParams s.q (T.inputScaler (effAction s.inBackup u))).px,
        (TT2d.euler T.toParams s.q (T.inputScaler (effAction s.inBackup u))).py) (T.x0.px, T.x0.py) ≤ _ := h2
      linarith)
    unfold effAction at hc
    exact tt2d_step_idle T _ b c rfl hp hg ext viz s u (hc.not.mp (by simp [TT2d.checkObstacle]))
  exact plan_congr_n (T.planEnv ext rows) (TT2d.step { T with shieldCollision := b, collisionPenalty := c } ext)
    (TT2d.stepInternal { T with shieldCollision := b, collisionPenalty := c } ext true)
    (fun n s => Spec.dist (s.q.px, s.q.py) (T.x0.px, T.x0.py) ≤ n * (T.vMax * T.dt)) cfg
    (fun _ => by simp [TT2d.planEnv, TT2d.reset, dist_self'])
    (fun n hn s u h => hst false n hn s u h) (fun n hn s u h => hst true n hn s u h) normal

theorem bicycle_step_idle (T T' : Bicycle) (b : Bool) (c : ℝ)
    (hT : T' = { T with shieldCollision := b, collisionPenalty := c })
    (hp : T.enableProjection = false) (hg : T.enableGuidance = false) (ext : Ext Q3) (viz : Bool) (s : St Q3) (u : U)
    (hc : ¬ Bicycle.checkObstacle T.toParams (Bicycle.euler T.toParams s.q
        (T.inputScaler (if s.inBackup = true then (0, 0) else clipU u)))) :
    T'.stepInternal ext viz s u = T.stepInternal ext viz s u := by
  have f1 : T'.enableProjection = false := by rw [hT]; exact hp
  have f2 : T'.enableGuidance = false := by rw [hT]; exact hg
  have f3 : T'.shieldCollision = b := by rw [hT]
  have f4 : T'.shieldHitch = T.shieldHitch := by rw [hT]
  have f6 : T'.hitchPenalty = T.hitchPenalty := by rw [hT]
  have f7 : T'.motionPreference = T.motionPreference := by rw [hT]
  have hX : T'.xg = T.xg := by rw [hT]
  have he : ∀ q w, Bicycle.euler T'.toParams q (T'.inputScaler w) = Bicycle.euler T.toParams q (T.inputScaler w) := by
    rw [hT]; exact fun _ _ => rfl
  have ho : Bicycle.checkObstacle T'.toParams = Bicycle.checkObstacle T.toParams := by rw [hT]; rfl
  have hh : Bicycle.checkHitch T'.toParams = Bicycle.checkHitch T.toParams := by rw [hT]; rfl
  have hr : Bicycle.getReward T'.toParams = Bicycle.getReward T.toParams := by rw [hT]; rfl
  have hpen : ∀ w, T'.prefPenaltyU (T'.inputScaler w) = T.prefPenaltyU (T.inputScaler w) := by rw [hT]; exact fun _ => rfl
  unfold Bicycle.stepInternal kinShieldedRollout kinNaive
  simp only [f1, f2, f3, f4, f6, f7, hp, hg, hX, he, ho, hh, hr, hpen, if_false, Bool.false_eq_true]
  cases b <;> cases T.shieldCollision <;> cases T.shieldHitch <;> simp [hc]

/-- The same for the bicycle. -/
theorem C92_idle_bicycle (T : Bicycle) (b : Bool) (c : ℝ) (g1 : 1e-4 ≤ T.l1 + T.lf1 + T.lr) (g2 : 1e-4 ≤ T.tractorWidth)
    (hr : ∀ o ∈ T.rects, 0 < o.w ∧ 0 < o.h) (hv : 0 ≤ T.vMax) (hdt : 0 ≤ T.dt)
    (hp : T.enableProjection = false) (hg : T.enableGuidance = false) (ext : Ext Q3) (rows : List (Q3 × Bool)) (cfg : Cfg)
    (normal : Key → ℕ → ℕ → ℕ → ℕ → U)
    (h1 : ∀ o ∈ T.circles, FarFrom (T.x0.px, T.x0.py) ((cfg.Hsample + 1) * (T.vMax * T.dt) + tractorSize T.toParams)
      (circleRegion o))
    (h2 : ∀ o ∈ T.rects, FarFrom (T.x0.px, T.x0.py) ((cfg.Hsample + 1) * (T.vMax * T.dt) + tractorSize T.toParams)
      (rectRegion o)) :
    runDiffusion (Bicycle.planEnv { T with shieldCollision := b, collisionPenalty := c } ext rows) normal cfg =
      runDiffusion (T.planEnv ext rows) normal cfg := by
  have hw : 0 ≤ T.vMax * T.dt := by positivity
  have hst : ∀ viz, ∀ n < cfg.Hsample + 1, ∀ (s : St Q3) u,
      Spec.dist (s.q.px, s.q.py) (T.x0.px, T.x0.py) ≤ n * (T.vMax * T.dt) →
      Bicycle.stepInternal { T with shieldCollision := b, collisionPenalty := c } ext viz s u = T.stepInternal ext viz s u ∧
      Spec.dist ((T.stepInternal ext viz s u).q.px, (T.stepInternal ext viz s u).q.py) (T.x0.px, T.x0.py) ≤
        (n + 1 : ℕ) * (T.vMax * T.dt) := by
    intro viz n hn s u hd
    have hviz : T.stepInternal ext viz s u = T.step ext s u := by
      unfold Bicycle.step Bicycle.stepInternal
      simp only [hp, hg, if_false, Bool.false_eq_true]
    have hm := shift_le hd (C15_bicycle T ext hv hdt (fun h => absurd (hp.symm.trans h) (by decide)) s u)
    refine ⟨?_, by rw [hviz]; exact hm⟩
    have hprop := shift_le hd (straight_shift hdt (scaled_speed hv (inBox_eff s.inBackup u)) s.q.px s.q.py s.q.th1)
    have hc := bicycleObstacle_far g1 g2 (by simpa using hr) (sameWithin_nil h1 h2)
      (Bicycle.euler T.toParams s.q (T.inputScaler (effAction s.inBackup u))) (by
      have h1 : ((n + 1 : ℕ) : ℝ) * (T.vMax * T.dt) ≤ (cfg.Hsample + 1) * (T.vMax * T.dt) := by
        apply mul_le_mul_of_nonneg_right _ hw
        exact_mod_cast (by omega : n + 1 ≤ cfg.Hsample + 1)
      have h2 := hprop.trans h1
      have h3 : Spec.dist ((Bicycle.euler T.toParams s.q (T.inputScaler (effAction s.inBackup u))).px,
        (Bicycle.euler T.toParams s.q (T.inputScaler (effAction s.inBackup u))).py) (T.x0.px, T.x0.py) ≤ _ := h2
      linarith)
    unfold effAction at hc
    exact bicycle_step_idle T _ b c rfl hp hg ext viz s u (hc.not.mp (by simp [Bicycle.checkObstacle]))
  exact plan_congr_n (T.planEnv ext rows) (Bicycle.step { T with shieldCollision := b, collisionPenalty := c } ext)
    (Bicycle.stepInternal { T with shieldCollision := b, collisionPenalty := c } ext true)
    (fun n s => Spec.dist (s.q.px, s.q.py) (T.x0.px, T.x0.py) ≤ n * (T.vMax * T.dt)) cfg
    (fun _ => by simp [Bicycle.planEnv, Bicycle.reset, dist_self'])
    (fun n hn s u h => hst false n hn s u h) (fun n hn s u h => hst true n hn s u h) normal

/-! ## What the penalties cost -/

/-- Share of the members of a list with a property. -/
noncomputable def _root_.Spec.portion {α : Type} (p : α → Prop) (l : List α) : ℝ :=
  ((l.filter fun x => decide (p x)).length : ℝ) / l.length

/-- `aims` are the poses the vehicle is asked to go to: from the `i`-th pose of `path`, by the `i`-th action. -/
def _root_.Spec.Aims {Q : Type} (succ : Q → U → Q → Prop) (path : List Q) (us : List U) (aims : List Q) : Prop :=
  List.Forall₂ (fun (p : Q × U) x => succ p.1 (clipU p.2) x) (path.zip us) aims

theorem price_scan {Q : Type} {f f' : St Q → U → St Q} (succ : Q → U → Q → Prop) (A B : Q → Prop) (d e : ℝ)
    (h : ∀ s s' u x, s'.q = s.q → s.inBackup = false → s'.inBackup = false → succ s.q (clipU u) x →
      (f' s' u).q = (f s u).q ∧ (f s u).inBackup = false ∧ (f' s' u).inBackup = false ∧
      (f' s' u).reward = (f s u).reward - d * (if A x then 1 else 0) - e * (if B x then 1 else 0)) :
    ∀ (us : List U) (s s' : St Q) (aims : List Q), s'.q = s.q → s.inBackup = false → s'.inBackup = false →
      Spec.Aims succ (s.q :: (scanStates f s us).map St.q) us aims →
      ((scanStates f' s' us).map St.reward).sum = ((scanStates f s us).map St.reward).sum
        - d * ((aims.filter fun x => decide (A x)).length : ℝ) - e * ((aims.filter fun x => decide (B x)).length : ℝ) ∧
      (finalState f' s' us).q = (finalState f s us).q ∧ aims.length = us.length := by
  intro us
  induction us with
  | nil =>
    intro s s' aims h1 _ _ ha
    unfold Spec.Aims at ha
    simp only [List.zip_nil_right, List.forall₂_nil_left_iff] at ha
    subst ha
    simp [scanStates, finalState, h1]
  | cons u us ih =>
    intro s s' aims h1 h2 h3 ha
    unfold Spec.Aims at ha
    simp only [scanStates, List.map_cons, List.zip_cons_cons] at ha
    obtain ⟨x, as, hx, hr, rfl⟩ := List.forall₂_cons_left_iff.mp ha
    obtain ⟨e1, e2, e3, e4⟩ := h s s' u x h1 h2 h3 hx
    obtain ⟨i1, i2, i3⟩ := ih _ _ as e1 e2 e3 hr
    simp only [scanStates, finalState, List.map_cons, List.sum_cons, i1, i2, e4, List.length_cons, i3, and_true,
      List.filter_cons, decide_eq_true_eq]
    split_ifs <;> (try simp only [List.length_cons]) <;> push_cast <;> ring

theorem price_rollout {Q : Type} {f f' : St Q → U → St Q} (succ : Q → U → Q → Prop) (A B : Q → Prop) (d e : ℝ)
    (h : ∀ s s' u x, s'.q = s.q → s.inBackup = false → s'.inBackup = false → succ s.q (clipU u) x →
      (f' s' u).q = (f s u).q ∧ (f s u).inBackup = false ∧ (f' s' u).inBackup = false ∧
      (f' s' u).reward = (f s u).reward - d * (if A x then 1 else 0) - e * (if B x then 1 else 0))
    (s : St Q) (h0 : (f s (0, 0)).q = s.q) (h0' : (f' s (0, 0)).q = s.q) (b0 : (f s (0, 0)).inBackup = false)
    (b0' : (f' s (0, 0)).inBackup = false) (term : Q → ℝ) (w : ℝ) (us : List U) (aims : List Q)
    (ha : Spec.Aims succ (s.q :: (rolloutUs f s us).2.1) us aims) :
    (rolloutUsWithTerminal f' term w s us).1 = (rolloutUsWithTerminal f term w s us).1
      - d * Spec.portion A aims - e * Spec.portion B aims := by
  have ha' : Spec.Aims succ ((warmState f s).q :: (scanStates f (warmState f s) us).map St.q) us aims := by
    rw [show (warmState f s).q = s.q from h0]; exact ha
  obtain ⟨i1, i2, i3⟩ := price_scan succ A B d e h us (warmState f s) (warmState f' s) aims
    (by unfold warmState; rw [h0, h0']) b0 b0' ha'
  unfold rolloutUsWithTerminal mean Spec.portion
  simp only [i1, i2, List.length_map, scanStates_length, i3]
  ring

theorem tt2d_step_price (T T' : TT2d) (c h : ℝ) (hT : T' = { T with collisionPenalty := c, hitchPenalty := h })
    (hp : T.enableProjection = false) (hg : T.enableGuidance = false) (ext : Ext Q4) (s s' : St Q4) (u : U) (x : Q4)
    (h1 : s'.q = s.q) (h2 : s.inBackup = false) (h3 : s'.inBackup = false) (hx : Spec.EulerTT T.toParams s.q (clipU u) x) :
    (T'.step ext s' u).q = (T.step ext s u).q ∧ (T.step ext s u).inBackup = false ∧ (T'.step ext s' u).inBackup = false ∧
      (T'.step ext s' u).reward = (T.step ext s u).reward
        - (c - T.collisionPenalty) * (if TT2d.checkObstacle T.toParams x then 1 else 0)
        - (h - T.hitchPenalty) * (if TT2d.checkHitch T.toParams x then 1 else 0) := by
  have e : TT2d.euler T.toParams s.q (T.inputScaler (clipU u)) = x := ((eulerTT_iff ..).mp hx).symm
  have f1 : T'.enableProjection = false := by rw [hT]; exact hp
  have f2 : T'.enableGuidance = false := by rw [hT]; exact hg
  have f3 : T'.shieldCollision = T.shieldCollision := by rw [hT]
  have f4 : T'.shieldHitch = T.shieldHitch := by rw [hT]
  have f5 : T'.collisionPenalty = c := by rw [hT]
  have f6 : T'.hitchPenalty = h := by rw [hT]
  have f7 : T'.motionPreference = T.motionPreference := by rw [hT]
  have hX : T'.xg = T.xg := by rw [hT]
  have he : ∀ q w, TT2d.euler T'.toParams q (T'.inputScaler w) = TT2d.euler T.toParams q (T.inputScaler w) := by
    rw [hT]; exact fun _ _ => rfl
  have ho : TT2d.checkObstacle T'.toParams = TT2d.checkObstacle T.toParams := by rw [hT]; rfl
  have hh : TT2d.checkHitch T'.toParams = TT2d.checkHitch T.toParams := by rw [hT]; rfl
  have hr : TT2d.getReward T'.toParams = TT2d.getReward T.toParams := by rw [hT]; rfl
  have hpen : ∀ w, T'.prefPenaltyU (T'.inputScaler w) = T.prefPenaltyU (T.inputScaler w) := by rw [hT]; exact fun _ => rfl
  unfold TT2d.step TT2d.stepInternal kinShieldedRollout kinNaive
  simp only [f1, f2, f3, f4, f5, f6, f7, hp, hg, hX, he, ho, hh, hr, hpen, h1, h2, h3, e, if_false, Bool.false_eq_true,
    true_and]
  by_cases c1 : TT2d.checkObstacle T.toParams x <;> by_cases c2 : TT2d.checkHitch T.toParams x <;>
    by_cases c3 : T.motionPreference = 0 <;> by_cases c4 : T.shieldCollision || T.shieldHitch <;>
    simp [c1, c2, c3, c4] <;> ring

/-- Changing the penalties changes the reward of a rollout by the change times the share of its steps whose aim collides
(jackknifes), and nothing else: tractor-trailer, with any shields. -/
theorem C92_price_tt2d (T : TT2d) (c h : ℝ) (hp : T.enableProjection = false) (hg : T.enableGuidance = false)
    (ext : Ext Q4) (us : List U) (aims : List Q4)
    (ha : Spec.Aims (Spec.EulerTT T.toParams) (T.x0 :: (rolloutUs (T.step ext) T.reset us).2.1) us aims) :
    (rolloutUsWithTerminal (TT2d.step { T with collisionPenalty := c, hitchPenalty := h } ext)
        (TT2d.getTerminalReward T.toParams T.xg) T.terminalRewardWeight T.reset us).1 =
      (rolloutUsWithTerminal (T.step ext) (TT2d.getTerminalReward T.toParams T.xg) T.terminalRewardWeight T.reset us).1
        - (c - T.collisionPenalty) * Spec.portion (TT2d.checkObstacle T.toParams) aims
        - (h - T.hitchPenalty) * Spec.portion (TT2d.checkHitch T.toParams) aims := by
  have hz : ∀ T' : TT2d, T'.enableProjection = false → T'.enableGuidance = false → T'.x0 = T.x0 →
      (T'.step ext T.reset (0, 0)).q = T.reset.q ∧ (T'.step ext T.reset (0, 0)).inBackup = false := by
    intro T' hp' hg' _
    have : TT2d.euler T'.toParams T.x0 (T'.inputScaler (0, 0)) = T.x0 := TT2d.euler_zero _ _
    unfold TT2d.step TT2d.stepInternal kinShieldedRollout kinNaive TT2d.reset
    simp only [hp', hg', if_false, Bool.false_eq_true, clipU_zero, this, ite_self, and_self]
  exact price_rollout (Spec.EulerTT T.toParams) _ _ _ _
    (fun s s' u x h1 h2 h3 hx => tt2d_step_price T _ c h rfl hp hg ext s s' u x h1 h2 h3 hx) T.reset
    (hz T hp hg rfl).1 (hz _ hp hg rfl).1 (hz T hp hg rfl).2 (hz _ hp hg rfl).2 _ _ us aims ha

theorem bicycle_step_price (T T' : Bicycle) (c h : ℝ) (hT : T' = { T with collisionPenalty := c, hitchPenalty := h })
    (hp : T.enableProjection = false) (hg : T.enableGuidance = false) (ext : Ext Q3) (s s' : St Q3) (u : U) (x : Q3)
    (h1 : s'.q = s.q) (h2 : s.inBackup = false) (h3 : s'.inBackup = false) (hx : Spec.EulerBicycle T.toParams s.q (clipU u) x) :
    (T'.step ext s' u).q = (T.step ext s u).q ∧ (T.step ext s u).inBackup = false ∧ (T'.step ext s' u).inBackup = false ∧
      (T'.step ext s' u).reward = (T.step ext s u).reward
        - (c - T.collisionPenalty) * (if Bicycle.checkObstacle T.toParams x then 1 else 0)
        - (h - T.hitchPenalty) * (if Bicycle.checkHitch T.toParams x then 1 else 0) := by
  have e : Bicycle.euler T.toParams s.q (T.inputScaler (clipU u)) = x := ((eulerBicycle_iff ..).mp hx).symm
  have f1 : T'.enableProjection = false := by rw [hT]; exact hp
  have f2 : T'.enableGuidance = false := by rw [hT]; exact hg
  have f3 : T'.shieldCollision = T.shieldCollision := by rw [hT]
  have f4 : T'.shieldHitch = T.shieldHitch := by rw [hT]
  have f5 : T'.collisionPenalty = c := by rw [hT]
  have f6 : T'.hitchPenalty = h := by rw [hT]
  have f7 : T'.motionPreference = T.motionPreference := by rw [hT]
  have hX : T'.xg = T.xg := by rw [hT]
  have he : ∀ q w, Bicycle.euler T'.toParams q (T'.inputScaler w) = Bicycle.euler T.toParams q (T.inputScaler w) := by
    rw [hT]; exact fun _ _ => rfl
  have ho : Bicycle.checkObstacle T'.toParams = Bicycle.checkObstacle T.toParams := by rw [hT]; rfl
  have hh : Bicycle.checkHitch T'.toParams = Bicycle.checkHitch T.toParams := by rw [hT]; rfl
  have hr : Bicycle.getReward T'.toParams = Bicycle.getReward T.toParams := by rw [hT]; rfl
  have hpen : ∀ w, T'.prefPenaltyU (T'.inputScaler w) = T.prefPenaltyU (T.inputScaler w) := by rw [hT]; exact fun _ => rfl
  unfold Bicycle.step Bicycle.stepInternal kinShieldedRollout kinNaive
  simp only [f1, f2, f3, f4, f5, f6, f7, hp, hg, hX, he, ho, hh, hr, hpen, h1, h2, h3, e, if_false, Bool.false_eq_true,
    true_and]
  by_cases c1 : Bicycle.checkObstacle T.toParams x <;> by_cases c2 : Bicycle.checkHitch T.toParams x <;>
    by_cases c3 : T.motionPreference = 0 <;> by_cases c4 : T.shieldCollision || T.shieldHitch <;>
    simp [c1, c2, c3, c4] <;> ring

/-- The same for the bicycle. -/
theorem C92_price_bicycle (T : Bicycle) (c h : ℝ) (hp : T.enableProjection = false) (hg : T.enableGuidance = false)
    (ext : Ext Q3) (us : List U) (aims : List Q3)
    (ha : Spec.Aims (Spec.EulerBicycle T.toParams) (T.x0 :: (rolloutUs (T.step ext) T.reset us).2.1) us aims) :
    (rolloutUsWithTerminal (Bicycle.step { T with collisionPenalty := c, hitchPenalty := h } ext)
        (Bicycle.getTerminalReward T.toParams T.xg) T.terminalRewardWeight T.reset us).1 =
      (rolloutUsWithTerminal (T.step ext) (Bicycle.getTerminalReward T.toParams T.xg) T.terminalRewardWeight T.reset us).1
        - (c - T.collisionPenalty) * Spec.portion (Bicycle.checkObstacle T.toParams) aims
        - (h - T.hitchPenalty) * Spec.portion (Bicycle.checkHitch T.toParams) aims := by
  have hz : ∀ T' : Bicycle, T'.enableProjection = false → T'.enableGuidance = false → T'.x0 = T.x0 →
      (T'.step ext T.reset (0, 0)).q = T.reset.q ∧ (T'.step ext T.reset (0, 0)).inBackup = false := by
    intro T' hp' hg' _
    have : Bicycle.euler T'.toParams T.x0 (T'.inputScaler (0, 0)) = T.x0 := Bicycle.euler_zero _ _
    unfold Bicycle.step Bicycle.stepInternal kinShieldedRollout kinNaive Bicycle.reset
    simp only [hp', hg', if_false, Bool.false_eq_true, clipU_zero, this, ite_self, and_self]
  exact price_rollout (Spec.EulerBicycle T.toParams) _ _ _ _
    (fun s s' u x h1 h2 h3 hx => bicycle_step_price T _ c h rfl hp hg ext s s' u x h1 h2 h3 hx) T.reset
    (hz T hp hg rfl).1 (hz _ hp hg rfl).1 (hz T hp hg rfl).2 (hz _ hp hg rfl).2 _ _ us aims ha


/-! ## Instances -/

/-- Another goal, another preference and other weights. -/
example (ext : Ext Q4) (s : St Q4) (us : List U) :=
  C92_tt2d Wit.tt { Wit.tt with xg := ⟨-5, 3, 1, 1⟩, motionPreference := -2, collisionPenalty := 7, terminalRewardWeight := 3 }
    (by constructor <;> rfl) ext true s us

example (ext : Ext Q3) (s : St Q3) (us : List U) :=
  C92_bicycle Wit.bike { Wit.bike with xg := ⟨-5, 3, 1⟩, motionPreference := 1, rewardThreshold := 7 }
    (by constructor <;> rfl) ext false s us

example (ext : Ext Q6) (s : St Q6) (us : List U) :=
  C92_acc Wit.acc { Wit.acc with xg := ⟨-5, 3, 1, 1, 0, 0⟩, motionPreference := 1, headingRewardWeight := 0 }
    (by constructor <;> rfl) rfl rfl ext false s us

example (guide : QN → QN) (s : St QN) (us : List U) :=
  C92_ntrailer Wit.train { Wit.train with xg := ⟨-5, 3, 1, [1, 1]⟩, preferencePenaltyWeight := 2 }
    ⟨by constructor <;> rfl, rfl, rfl, rfl, rfl⟩ guide false s us

/-- Nothing within a kilometre. -/
example (ext : Ext Q4) (rows : List (Q4 × Bool)) (normal : Key → ℕ → ℕ → ℕ → ℕ → U) :=
  C92_idle_tt2d { Wit.tt with circles := [⟨1000, 0, 1⟩], rects := [] } false 0
    (by constructor <;> norm_num [Wit.tt, Wit.params, Params.default])
    (by norm_num [Wit.tt, Wit.params, Params.default]) (by norm_num [Wit.tt, Wit.params, Params.default])
    rfl rfl ext rows { defaultCfg with Hsample := 50 } normal
    (by
      intro o ho
      refine (wit_sameWithin ?_).1 o ?_
      · norm_num [Wit.tt, Wit.params, Params.default, rigSize, tractorSize, abs_of_nonneg]
      · rw [List.mem_singleton] at ho; subst ho; norm_num)
    (by simp)

example (ext : Ext Q3) (rows : List (Q3 × Bool)) (normal : Key → ℕ → ℕ → ℕ → ℕ → U) :=
  C92_idle_bicycle { Wit.bike with circles := [⟨1000, 0, 1⟩], rects := [] } false 0
    (by norm_num [Wit.bike, Wit.params, Params.default]) (by norm_num [Wit.bike, Wit.params, Params.default]) (by simp)
    (by norm_num [Wit.bike, Wit.params, Params.default]) (by norm_num [Wit.bike, Wit.params, Params.default])
    rfl rfl ext rows { defaultCfg with Hsample := 50 } normal
    (by
      intro o ho
      refine (wit_sameWithin ?_).1 o ?_
      · norm_num [Wit.bike, Wit.params, Params.default, tractorSize, abs_of_nonneg]
      · rw [List.mem_singleton] at ho; subst ho; norm_num)
    (by simp)

/-- Every rollout has aims, so the price formula applies to every action sequence. -/
theorem aims_exist_tt2d (T : TT2d) : ∀ (us : List U) (path : List Q4), path.length = us.length + 1 →
    ∃ aims, Spec.Aims (Spec.EulerTT T.toParams) path us aims ∧ aims.length = us.length := by
  intro us
  induction us with
  | nil => intro path _; exact ⟨[], by unfold Spec.Aims; simp, rfl⟩
  | cons u us ih =>
    intro path hl
    cases path with
    | nil => simp at hl
    | cons q path =>
      obtain ⟨aims, h, hl'⟩ := ih path (by simpa using hl)
      exact ⟨TT2d.euler T.toParams q (T.inputScaler (clipU u)) :: aims,
        List.Forall₂.cons ((eulerTT_iff ..).mpr rfl) h, by simp [hl']⟩

theorem aims_exist_bicycle (T : Bicycle) : ∀ (us : List U) (path : List Q3), path.length = us.length + 1 →
    ∃ aims, Spec.Aims (Spec.EulerBicycle T.toParams) path us aims ∧ aims.length = us.length := by
  intro us
  induction us with
  | nil => intro path _; exact ⟨[], by unfold Spec.Aims; simp, rfl⟩
  | cons u us ih =>
    intro path hl
    cases path with
    | nil => simp at hl
    | cons q path =>
      obtain ⟨aims, h, hl'⟩ := ih path (by simpa using hl)
      exact ⟨Bicycle.euler T.toParams q (T.inputScaler (clipU u)) :: aims,
        List.Forall₂.cons ((eulerBicycle_iff ..).mpr rfl) h, by simp [hl']⟩

example (ext : Ext Q4) (us : List U) : ∃ aims : List Q4, aims.length = us.length ∧
    (rolloutUsWithTerminal (TT2d.step { Wit.tt with collisionPenalty := 9, hitchPenalty := 0 } ext)
      (TT2d.getTerminalReward Wit.tt.toParams Wit.tt.xg) Wit.tt.terminalRewardWeight Wit.tt.reset us).1 =
    (rolloutUsWithTerminal (Wit.tt.step ext)
      (TT2d.getTerminalReward Wit.tt.toParams Wit.tt.xg) Wit.tt.terminalRewardWeight Wit.tt.reset us).1
      - (9 - 0.15) * Spec.portion (TT2d.checkObstacle Wit.tt.toParams) aims
      - (0 - 0.1) * Spec.portion (TT2d.checkHitch Wit.tt.toParams) aims := by
  obtain ⟨aims, h, hl⟩ := aims_exist_tt2d Wit.tt us (Wit.tt.x0 :: (rolloutUs (Wit.tt.step ext) Wit.tt.reset us).2.1)
    (by simp [rolloutUs, scanStates_length])
  have := C92_price_tt2d Wit.tt 9 0 rfl rfl ext us aims h
  refine ⟨aims, hl, this.trans ?_⟩
  norm_num [Wit.tt, Wit.params, Params.default]

example (ext : Ext Q3) (us : List U) : ∃ aims : List Q3, aims.length = us.length ∧
    (rolloutUsWithTerminal (Bicycle.step { Wit.bike with collisionPenalty := 9, hitchPenalty := 0 } ext)
      (Bicycle.getTerminalReward Wit.bike.toParams Wit.bike.xg) Wit.bike.terminalRewardWeight Wit.bike.reset us).1 =
    (rolloutUsWithTerminal (Wit.bike.step ext)
      (Bicycle.getTerminalReward Wit.bike.toParams Wit.bike.xg) Wit.bike.terminalRewardWeight Wit.bike.reset us).1
      - (9 - 0.15) * Spec.portion (Bicycle.checkObstacle Wit.bike.toParams) aims
      - (0 - 0.1) * Spec.portion (Bicycle.checkHitch Wit.bike.toParams) aims := by
  obtain ⟨aims, h, hl⟩ := aims_exist_bicycle Wit.bike us (Wit.bike.x0 :: (rolloutUs (Wit.bike.step ext) Wit.bike.reset us).2.1)
    (by simp [rolloutUs, scanStates_length])
  have := C92_price_bicycle Wit.bike 9 0 rfl rfl ext us aims h
  refine ⟨aims, hl, this.trans ?_⟩
  norm_num [Wit.bike, Wit.params, Params.default]

end Mbd
