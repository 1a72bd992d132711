import Verif.PropsSettings

/-! # Extra obstacles without a collision shield (C93) -/

namespace Mbd

open Real Classical _root_.Spec

/-! ## Lifting to rollouts -/

theorem crowd_scan {Q : Type} {f f' : St Q → U → St Q}
    (h : ∀ s s' u, s'.q = s.q → s'.inBackup = s.inBackup →
      motion (f' s' u) = motion (f s u) ∧ (f' s' u).reward ≤ (f s u).reward) :
    ∀ (us : List U) (s s' : St Q), s'.q = s.q → s'.inBackup = s.inBackup →
      List.Forall₂ (· ≤ ·) ((scanStates f' s' us).map St.reward) ((scanStates f s us).map St.reward) ∧
      (finalState f' s' us).q = (finalState f s us).q := by
  intro us
  induction us with
  | nil => intro s s' h1 _; exact ⟨List.Forall₂.nil, h1⟩
  | cons u us ih =>
    intro s s' h1 h2
    obtain ⟨e, l⟩ := h s s' u h1 h2
    obtain ⟨i1, i2⟩ := ih (f s u) (f' s' u) (congrArg (fun m => m.1) e) (congrArg (fun m => m.2.2.2.2) e)
    exact ⟨List.Forall₂.cons l i1, i2⟩

theorem sum_le_of_forall₂ {l l' : List ℝ} (h : List.Forall₂ (· ≤ ·) l l') : l.sum ≤ l'.sum ∧ l.length = l'.length := by
  induction h with
  | nil => simp
  | cons a _ ih => simp only [List.sum_cons, List.length_cons]; exact ⟨by linarith [ih.1], by rw [ih.2]⟩

/-- What a rollout in the crowded task `f'` shares with the rollout in the emptier task `f`: states and applied actions
agree, no reward is higher, and so no score. -/
def _root_.Spec.Crowded {Q : Type} (f f' : St Q → U → St Q) (term term' : Q → ℝ) (w w' : ℝ) (s : St Q) (us : List U) :
    Prop :=
  (rolloutUs f' s us).2 = (rolloutUs f s us).2 ∧
  List.Forall₂ (· ≤ ·) (rolloutUs f' s us).1 (rolloutUs f s us).1 ∧
  (rolloutUsWithTerminal f' term' w' s us).1 ≤ (rolloutUsWithTerminal f term w s us).1

theorem crowd_rollout {Q : Type} {f f' : St Q → U → St Q} {term term' : Q → ℝ} {w w' : ℝ} (ht : term' = term)
    (hw : w' = w)
    (h : ∀ s s' u, s'.q = s.q → s'.inBackup = s.inBackup →
      motion (f' s' u) = motion (f s u) ∧ (f' s' u).reward ≤ (f s u).reward)
    (s : St Q) (us : List U) : Spec.Crowded f f' term term' w w' s us := by
  subst ht hw
  have e := (h s s (0, 0) rfl rfl).1
  obtain ⟨i1, i2⟩ := crowd_scan h us (warmState f s) (warmState f' s) (congrArg (fun m => m.1) e)
    (congrArg (fun m => m.2.2.2.2) e)
  obtain ⟨j1, j2⟩ := sum_le_of_forall₂ i1
  refine ⟨motion_rollout (fun s s' u a b => (h s s' u a b).1) s us, i1, ?_⟩
  unfold rolloutUsWithTerminal mean
  simp only [i2, j2]
  have := div_le_div_of_nonneg_right j1 (Nat.cast_nonneg (α := ℝ) ((scanStates f (warmState f s) us).map St.reward).length)
  linarith

theorem params_of_covers {P P' : Params} (h : Covers P' P) : P' = { P with circles := P'.circles, rects := P'.rects } := by
  have := h.same
  cases P; cases P'
  simp_all

/-! ## Steps -/

theorem decide_imp_true {A A' : Prop} [Decidable A] [Decidable A'] (h : A → A') : decide A = true → decide A' = true := by
  simpa only [decide_eq_true_eq] using h

theorem crowd_arith {A A' B : Bool} {p : Prop} [Decidable p] {r c h n : ℝ} (hm : A = true → A' = true) (hc : 0 ≤ c) :
    (if p then (if B = true then (if A' = true then r - c else r) - h else if A' = true then r - c else r) - n
      else if B = true then (if A' = true then r - c else r) - h else if A' = true then r - c else r) ≤
    (if p then (if B = true then (if A = true then r - c else r) - h else if A = true then r - c else r) - n
      else if B = true then (if A = true then r - c else r) - h else if A = true then r - c else r) := by
  cases A <;> cases A' <;> cases B <;> by_cases p <;> simp_all

theorem tt2d_step_crowd (T T' : TT2d) (P' : Params) (hT : T' = { T with toParams := P' }) (hc : Covers P' T.toParams)
    (hs : Spec.PosSizes T.toParams) (hsh : T.shieldCollision = false) (hg : T.enableGuidance = false)
    (hpen : 0 ≤ T.collisionPenalty) (ext : Ext Q4) (s s' : St Q4) (u : U) (h1 : s'.q = s.q)
    (h2 : s'.inBackup = s.inBackup) :
    motion (T'.step ext s' u) = motion (T.step ext s u) ∧ (T'.step ext s' u).reward ≤ (T.step ext s u).reward := by
  have hX : T'.xg = T.xg := by rw [hT]
  have hm := fun q => C58_mono_tt2d T.toParams P' hc hs q
  have hP : T'.toParams = P' := by rw [hT]
  rw [← hP] at hm
  rw [params_of_covers hc] at hT
  have f1 : T'.enableProjection = T.enableProjection := by rw [hT]
  have f2 : T'.enableGuidance = false := by rw [hT]; exact hg
  have f3 : T'.shieldCollision = false := by rw [hT]; exact hsh
  have f4 : T'.shieldHitch = T.shieldHitch := by rw [hT]
  have f5 : T'.collisionPenalty = T.collisionPenalty := by rw [hT]
  have f6 : T'.hitchPenalty = T.hitchPenalty := by rw [hT]
  have f7 : T'.motionPreference = T.motionPreference := by rw [hT]
  have he : ∀ q w, TT2d.euler T'.toParams q (T'.inputScaler w) = TT2d.euler T.toParams q (T.inputScaler w) := by
    rw [hT]; exact fun _ _ => rfl
  have hh : TT2d.checkHitch T'.toParams = TT2d.checkHitch T.toParams := by rw [hT]; rfl
  have hr : TT2d.getReward T'.toParams = TT2d.getReward T.toParams := by rw [hT]; rfl
  have hpn : ∀ w, T'.prefPenaltyU (T'.inputScaler w) = T.prefPenaltyU (T.inputScaler w) := by rw [hT]; exact fun _ => rfl
  unfold TT2d.step TT2d.stepInternal motion kinShieldedRollout kinNaive
  simp only [f1, f2, f3, f4, f5, f6, f7, hg, hsh, hX, he, hh, hr, hpn, h1, h2, if_false, Bool.false_eq_true,
    Bool.false_and, Bool.false_or]
  have hd := fun q => (decide_imp_true (hm q))
  cases hp : T.enableProjection
  · cases hsh2 : T.shieldHitch
    · simp only [if_false, Bool.false_eq_true, Bool.false_and, true_and]
      exact crowd_arith (hd _) hpen
    · simp only [if_true, if_false, Bool.false_eq_true, Bool.true_and, true_and]
      exact crowd_arith (hd _) hpen
  · simp

theorem bicycle_step_crowd (T T' : Bicycle) (P' : Params) (hT : T' = { T with toParams := P' }) (hc : Covers P' T.toParams)
    (hs : Spec.PosSizes T.toParams) (hsh : T.shieldCollision = false) (hg : T.enableGuidance = false)
    (hpen : 0 ≤ T.collisionPenalty) (ext : Ext Q3) (s s' : St Q3) (u : U) (h1 : s'.q = s.q)
    (h2 : s'.inBackup = s.inBackup) :
    motion (T'.step ext s' u) = motion (T.step ext s u) ∧ (T'.step ext s' u).reward ≤ (T.step ext s u).reward := by
  have hX : T'.xg = T.xg := by rw [hT]
  have hm := fun q => C58_mono_bicycle T.toParams P' hc hs q
  have hP : T'.toParams = P' := by rw [hT]
  rw [← hP] at hm
  rw [params_of_covers hc] at hT
  have f1 : T'.enableProjection = T.enableProjection := by rw [hT]
  have f2 : T'.enableGuidance = false := by rw [hT]; exact hg
  have f3 : T'.shieldCollision = false := by rw [hT]; exact hsh
  have f4 : T'.shieldHitch = T.shieldHitch := by rw [hT]
  have f5 : T'.collisionPenalty = T.collisionPenalty := by rw [hT]
  have f6 : T'.hitchPenalty = T.hitchPenalty := by rw [hT]
  have f7 : T'.motionPreference = T.motionPreference := by rw [hT]
  have he : ∀ q w, Bicycle.euler T'.toParams q (T'.inputScaler w) = Bicycle.euler T.toParams q (T.inputScaler w) := by
    rw [hT]; exact fun _ _ => rfl
  have hh : Bicycle.checkHitch T'.toParams = Bicycle.checkHitch T.toParams := by rw [hT]; rfl
  have hr : Bicycle.getReward T'.toParams = Bicycle.getReward T.toParams := by rw [hT]; rfl
  have hpn : ∀ w, T'.prefPenaltyU (T'.inputScaler w) = T.prefPenaltyU (T.inputScaler w) := by rw [hT]; exact fun _ => rfl
  unfold Bicycle.step Bicycle.stepInternal motion kinShieldedRollout kinNaive
  simp only [f1, f2, f3, f4, f5, f6, f7, hg, hsh, hX, he, hh, hr, hpn, h1, h2, if_false, Bool.false_eq_true,
    Bool.false_and, Bool.false_or]
  have hd := fun q => (decide_imp_true (hm q))
  cases hp : T.enableProjection
  · cases hsh2 : T.shieldHitch
    · simp only [if_false, Bool.false_eq_true, Bool.false_and, true_and]
      exact crowd_arith (hd _) hpen
    · simp only [if_true, if_false, Bool.false_eq_true, Bool.true_and, true_and]
      exact crowd_arith (hd _) hpen
  · simp only [if_true, true_and]
    exact crowd_arith (hd _) hpen

/-! ## Acceleration control -/

/-- C58, acceleration control: one pose. -/
theorem C58_mono_acc (T : Acc) (P' : Params) (hc : Covers P' T.toParams) (hs : Spec.PosSizes T.toParams) (q : Q6)
    (h : T.checkObstacle q) : Acc.checkObstacle { T with toParams := P' } q :=
  C58_mono_tt2d T.toParams P' hc hs q.pose h

theorem rolloutScan_crowd {T T' : Acc} {P' : Params} (hT : T' = { T with toParams := P' }) (hc : Covers P' T.toParams)
    (hs : Spec.PosSizes T.toParams) (q : Q6) (n : ℕ) :
    (T'.rolloutScan q n).q = (T.rolloutScan q n).q ∧ (T'.rolloutScan q n).hv = (T.rolloutScan q n).hv ∧
    ((T.rolloutScan q n).oc = true → (T'.rolloutScan q n).oc = true) := by
  have hm : ∀ q, T.checkObstacle q → T'.checkObstacle q := fun q h => by rw [hT]; exact C58_mono_acc T P' hc hs q h
  rw [params_of_covers hc] at hT
  have he : ∀ q u dt, T'.euler q u dt = T.euler q u dt := by rw [hT]; exact fun _ _ _ => rfl
  have hh : ∀ q, T'.checkHitch q = T.checkHitch q := by rw [hT]; exact fun _ => rfl
  have hu : ∀ v, T'.uStop v = T.uStop v := by rw [hT]; exact fun _ => rfl
  induction n with
  | zero =>
    unfold Acc.rolloutScan
    simp only [Function.iterate_zero, id_eq, hh, decide_eq_true_eq, true_and]
    exact hm q
  | succ n ih =>
    obtain ⟨e1, e2, e3⟩ := ih
    have s1 : T'.rolloutScan q (n + 1) = T'.rolloutStep (T'.uStop q.v) (T'.rolloutScan q n) := by
      unfold Acc.rolloutScan; rw [Function.iterate_succ_apply']
    have s2 : T.rolloutScan q (n + 1) = T.rolloutStep (T.uStop q.v) (T.rolloutScan q n) := by
      unfold Acc.rolloutScan; rw [Function.iterate_succ_apply']
    rw [s1, s2, hu]
    unfold Acc.rolloutStep
    simp only [e1, e2, he, hh, Bool.or_eq_true, decide_eq_true_eq, true_and]
    rintro (h | h)
    · exact Or.inl (e3 h)
    · exact Or.inr (hm _ h)

/-- C58, acceleration control: the alarm of the shield, which looks ahead to a stop.  More obstacles can only raise it, and
the jackknife alarm does not depend on them. -/
theorem C58_alarm_acc (T : Acc) (P' : Params) (hc : Covers P' T.toParams) (hs : Spec.PosSizes T.toParams) (q : Q6) :
    ((T.checkSafety q).1 = true → (Acc.checkSafety { T with toParams := P' } q).1 = true) ∧
    (Acc.checkSafety { T with toParams := P' } q).2 = (T.checkSafety q).2 := by
  have hn : Acc.maxRolloutSteps { T with toParams := P' } = T.maxRolloutSteps := by rw [params_of_covers hc]; rfl
  have hh : Acc.checkHitch { T with toParams := P' } q = T.checkHitch q := by rw [params_of_covers hc]; rfl
  obtain ⟨_, e2, e3⟩ := rolloutScan_crowd rfl hc hs q T.maxRolloutSteps
  unfold Acc.checkSafety
  rw [hn]
  split_ifs
  · simp only [decide_eq_true_eq]
    exact ⟨C58_mono_acc T P' hc hs q, by simp only [hh]⟩
  · exact ⟨e3, e2⟩

theorem acc_step_crowd (T T' : Acc) (P' : Params) (hT : T' = { T with toParams := P' }) (hc : Covers P' T.toParams)
    (hs : Spec.PosSizes T.toParams) (hsh : T.shieldCollision = false) (hg : T.enableGuidance = false)
    (hpen : 0 ≤ T.collisionPenalty) (ext : Ext Q6) (s s' : St Q6) (u : U) (h1 : s'.q = s.q)
    (h2 : s'.inBackup = s.inBackup) :
    motion (T'.step ext s' u) = motion (T.step ext s u) ∧ (T'.step ext s' u).reward ≤ (T.step ext s u).reward := by
  have hm : ∀ q, T.checkObstacle q → T'.checkObstacle q := fun q h => by rw [hT]; exact C58_mono_acc T P' hc hs q h
  have ha : ∀ q, ((T.checkSafety q).1 = true → (T'.checkSafety q).1 = true) ∧ (T'.checkSafety q).2 = (T.checkSafety q).2 :=
    fun q => by rw [hT]; exact C58_alarm_acc T P' hc hs q
  have hX : T'.xg = T.xg := by rw [hT]
  rw [params_of_covers hc] at hT
  have f0 : T'.dt = T.dt := by rw [hT]
  have f1 : T'.enableProjection = T.enableProjection := by rw [hT]
  have f2 : T'.enableGuidance = false := by rw [hT]; exact hg
  have f3 : T'.shieldCollision = false := by rw [hT]; exact hsh
  have f4 : T'.shieldHitch = T.shieldHitch := by rw [hT]
  have f5 : T'.collisionPenalty = T.collisionPenalty := by rw [hT]
  have f6 : T'.hitchPenalty = T.hitchPenalty := by rw [hT]
  have f7 : T'.motionPreference = T.motionPreference := by rw [hT]
  have he : ∀ q u dt, T'.euler q u dt = T.euler q u dt := by rw [hT]; exact fun _ _ _ => rfl
  have hi : ∀ u, T'.inputScaler u = T.inputScaler u := by rw [hT]; exact fun _ => rfl
  have hh : ∀ q, T'.checkHitch q = T.checkHitch q := by rw [hT]; exact fun _ => rfl
  have hr : ∀ q, T'.getReward q = T.getReward q := by rw [hT]; exact fun _ => rfl
  have hb : ∀ v, T'.uBackupNorm v = T.uBackupNorm v := by rw [hT]; exact fun _ => rfl
  have hb2 : ∀ v w, T'.uBackupScaled v w = T.uBackupScaled v w := by rw [hT]; exact fun _ _ => rfl
  have hpn : ∀ v, T'.prefPenaltyV v = T.prefPenaltyV v := by rw [hT]; exact fun _ => rfl
  unfold Acc.step Acc.stepInternal motion Acc.shieldedRollout Acc.naive
  simp only [f0, f1, f2, f3, f4, f5, f6, f7, hg, hsh, he, hi, hh, hr, hb, hb2, hpn, h1, h2, if_false,
    Bool.false_eq_true, Bool.false_and, Bool.false_or]
  have hd := fun q => decide_imp_true (hm q)
  cases hp : T.enableProjection
  · cases hsh2 : T.shieldHitch
    · simp only [if_false, Bool.false_eq_true, Bool.false_and, true_and]
      exact crowd_arith (hd _) hpen
    · obtain ⟨a1, a2⟩ := ha (T.euler s.q (T.inputScaler (if s.inBackup = true then T.uBackupNorm s.q.v else clipU u)) T.dt)
      simp only [if_true, if_false, Bool.false_eq_true, Bool.true_and, a2, true_and]
      exact crowd_arith a1 hpen
  · simp

/-! ## Trains -/

theorem ntrailer_step_crowd (T T' : NTrailer) (P' : Params) (hT : T' = { T with toParams := P' })
    (hc : Covers P' T.toParams) (hs : Spec.PosSizes T.toParams)
    (hlen : ∀ i < T.N, 0 < clampGet T.fronts i + clampGet T.rears i)
    (hsh : T.shieldCollision = false) (hg : T.enableGuidance = false) (hpen : 0 ≤ T.collisionPenalty) (guide : QN → QN)
    (s s' : St QN) (u : U) (h1 : s'.q = s.q) (h2 : s'.inBackup = s.inBackup) :
    (∃ e, T'.step guide s' u = .error e ∧ T.step guide s u = .error e) ∨
    ∃ t t', T'.step guide s' u = .ok t' ∧ T.step guide s u = .ok t ∧ motion t' = motion t ∧ t'.reward ≤ t.reward := by
  have hm : ∀ q, T.checkObstacle q → T'.checkObstacle q := fun q h => by
    rw [hT]; exact C58_mono_ntrailer T P' hc hs hlen q h
  have hM : Moved T T' := by
    unfold Moved
    rw [params_of_covers hc] at hT
    rw [hT]
  have he := euler_moved hM
  have hr := (rewards_moved hM).1
  unfold Moved at hM
  have hh : ∀ q, T'.checkHitch q = T.checkHitch q := by rw [hM]; exact fun _ => rfl
  have hpn : ∀ u, T'.prefPenaltyU (T'.inputScaler u) = T.prefPenaltyU (T.inputScaler u) := by rw [hM]; exact fun _ => rfl
  have f1 : T'.enableProjection = T.enableProjection := by rw [hM]
  have f2 : T'.enableGuidance = false := by rw [hM]; exact hg
  have f3 : T'.shieldCollision = false := by rw [hM]; exact hsh
  have f4 : T'.shieldHitch = T.shieldHitch := by rw [hM]
  have f5 : T'.collisionPenalty = T.collisionPenalty := by rw [hM]
  have f6 : T'.hitchPenalty = T.hitchPenalty := by rw [hM]
  have f7 : T'.motionPreference = T.motionPreference := by rw [hM]
  have f8 : T'.N = T.N := by rw [hM]
  by_cases hl : 3 + s.q.ths.length ≠ 3 + T.N
  · exact Or.inl ⟨.stateLength, by unfold NTrailer.step NTrailer.stepInternal; simp only [f8, h1, if_pos hl],
      by unfold NTrailer.step NTrailer.stepInternal; simp only [if_pos hl]⟩
  cases hp : T.enableProjection
  · right
    unfold NTrailer.step NTrailer.stepInternal
    simp only [f1, f8, h1, hp, if_neg hl, if_false, Bool.false_eq_true]
    refine ⟨_, _, rfl, rfl, ?_⟩
    have hd := fun q => decide_imp_true (hm q)
    unfold motion kinShieldedRollout kinNaive
    simp only [f2, f3, f4, f5, f6, f7, hg, hsh, he, hh, hr, hpn, h1, h2, if_false, Bool.false_eq_true,
      Bool.false_and, Bool.false_or]
    cases hsh2 : T.shieldHitch
    · simp only [if_false, Bool.false_eq_true, Bool.false_and, true_and]
      exact crowd_arith (hd _) hpen
    · simp only [if_true, Bool.true_and, true_and]
      exact crowd_arith (hd _) hpen
  · exact Or.inl ⟨.projectionUnsupported,
      by unfold NTrailer.step NTrailer.stepInternal; simp only [f1, f8, h1, hp, if_neg hl, if_true],
      by unfold NTrailer.step NTrailer.stepInternal; simp only [hp, if_neg hl, if_true]⟩

/-! ## The claim -/

/-- **C93**, tractor-trailer: with the collision shield and guidance off and a penalty that is not negative, adding obstacles
or enlarging them changes neither the states nor the applied actions of any rollout, and raises no reward and no score. -/
theorem C93_tt2d (T : TT2d) (P' : Params) (hc : Covers P' T.toParams) (hs : Spec.PosSizes T.toParams)
    (hsh : T.shieldCollision = false) (hg : T.enableGuidance = false) (hpen : 0 ≤ T.collisionPenalty) (ext : Ext Q4)
    (s : St Q4) (us : List U) :
    Spec.Crowded (T.step ext) (TT2d.step { T with toParams := P' } ext) (TT2d.getTerminalReward T.toParams T.xg)
      (TT2d.getTerminalReward P' T.xg) T.terminalRewardWeight P'.terminalRewardWeight s us :=
  crowd_rollout (by rw [params_of_covers hc]; rfl) (by rw [params_of_covers hc])
    (fun s s' u h1 h2 => tt2d_step_crowd T _ P' rfl hc hs hsh hg hpen ext s s' u h1 h2) s us

/-- **C93**, bicycle. -/
theorem C93_bicycle (T : Bicycle) (P' : Params) (hc : Covers P' T.toParams) (hs : Spec.PosSizes T.toParams)
    (hsh : T.shieldCollision = false) (hg : T.enableGuidance = false) (hpen : 0 ≤ T.collisionPenalty) (ext : Ext Q3)
    (s : St Q3) (us : List U) :
    Spec.Crowded (T.step ext) (Bicycle.step { T with toParams := P' } ext) (Bicycle.getTerminalReward T.toParams T.xg)
      (Bicycle.getTerminalReward P' T.xg) T.terminalRewardWeight P'.terminalRewardWeight s us :=
  crowd_rollout (by rw [params_of_covers hc]; rfl) (by rw [params_of_covers hc])
    (fun s s' u h1 h2 => bicycle_step_crowd T _ P' rfl hc hs hsh hg hpen ext s s' u h1 h2) s us

/-- **C93**, acceleration control. -/
theorem C93_acc (T : Acc) (P' : Params) (hc : Covers P' T.toParams) (hs : Spec.PosSizes T.toParams)
    (hsh : T.shieldCollision = false) (hg : T.enableGuidance = false) (hpen : 0 ≤ T.collisionPenalty) (ext : Ext Q6)
    (s : St Q6) (us : List U) :
    Spec.Crowded (T.step ext) (Acc.step { T with toParams := P' } ext) T.getTerminalReward
      (Acc.getTerminalReward { T with toParams := P' }) T.terminalRewardWeight P'.terminalRewardWeight s us :=
  crowd_rollout (by rw [params_of_covers hc]; rfl) (by rw [params_of_covers hc])
    (fun s s' u h1 h2 => acc_step_crowd T _ P' rfl hc hs hsh hg hpen ext s s' u h1 h2) s us

/-- **C93**, train: the same exception, or the same run of states and actions with no higher reward. -/
theorem C93_ntrailer (T : NTrailer) (P' : Params) (hc : Covers P' T.toParams) (hs : Spec.PosSizes T.toParams)
    (hlen : ∀ i < T.N, 0 < clampGet T.fronts i + clampGet T.rears i)
    (hsh : T.shieldCollision = false) (hg : T.enableGuidance = false) (hpen : 0 ≤ T.collisionPenalty) (guide : QN → QN)
    (us : List U) : ∀ s s' : St QN, s'.q = s.q → s'.inBackup = s.inBackup →
    (∃ e, scanStatesE (NTrailer.step { T with toParams := P' } guide) s' us = .error e ∧
      scanStatesE (T.step guide) s us = .error e) ∨
    ∃ l l', scanStatesE (NTrailer.step { T with toParams := P' } guide) s' us = .ok l' ∧
      scanStatesE (T.step guide) s us = .ok l ∧ l'.map motion = l.map motion ∧
      List.Forall₂ (· ≤ ·) (l'.map St.reward) (l.map St.reward) := by
  induction us with
  | nil => exact fun _ _ _ _ => Or.inr ⟨[], [], rfl, rfl, rfl, List.Forall₂.nil⟩
  | cons u us ih =>
    intro s s' h1 h2
    rcases ntrailer_step_crowd T _ P' rfl hc hs hlen hsh hg hpen guide s s' u h1 h2 with ⟨e, a, b⟩ | ⟨t, t', a, b, m, r⟩
    · exact Or.inl ⟨e, by simp only [scanStatesE, a], by simp only [scanStatesE, b]⟩
    · rcases ih t t' (congrArg (fun m => m.1) m) (congrArg (fun m => m.2.2.2.2) m) with ⟨e, c, d⟩ | ⟨l, l', c, d, i, j⟩
      · exact Or.inl ⟨e, by simp only [scanStatesE, a, c], by simp only [scanStatesE, b, d]⟩
      · exact Or.inr ⟨t :: l, t' :: l', by simp only [scanStatesE, a, c], by simp only [scanStatesE, b, d],
          by simp only [List.map_cons, m, i], List.Forall₂.cons r j⟩

/-- **C93**, train: the score of a completed run (mean reward plus weighted terminal reward of the last state). -/
theorem C93_score_ntrailer (T : NTrailer) (P' : Params) (hc : Covers P' T.toParams) (hs : Spec.PosSizes T.toParams)
    (hlen : ∀ i < T.N, 0 < clampGet T.fronts i + clampGet T.rears i)
    (hsh : T.shieldCollision = false) (hg : T.enableGuidance = false) (hpen : 0 ≤ T.collisionPenalty) (guide : QN → QN)
    (us : List U) (s : St QN) (l l' : List (St QN))
    (h' : scanStatesE (NTrailer.step { T with toParams := P' } guide) s us = .ok l')
    (h : scanStatesE (T.step guide) s us = .ok l) :
    mean (l'.map St.reward) + P'.terminalRewardWeight *
        NTrailer.getTerminalReward { T with toParams := P' } (l'.getLastD s).q ≤
      mean (l.map St.reward) + T.terminalRewardWeight * T.getTerminalReward (l.getLastD s).q := by
  rcases C93_ntrailer T P' hc hs hlen hsh hg hpen guide us s s rfl rfl with ⟨e, a, _⟩ | ⟨m, m', a, b, i, j⟩
  · rw [h'] at a; cases a
  · rw [h'] at a
    rw [h] at b
    cases a
    cases b
    have hq : (l'.getLastD s).q = (l.getLastD s).q := by
      have : (l'.map motion).getLastD (motion s) = (l.map motion).getLastD (motion s) := by rw [i]
      rw [List.getLastD_map, List.getLastD_map] at this
      exact congrArg (fun m => m.1) this
    have hM : Moved T { T with toParams := P' } := by
      unfold Moved
      rw [← params_of_covers hc]
    have hw : P'.terminalRewardWeight = T.terminalRewardWeight := by rw [params_of_covers hc]
    rw [hq, (rewards_moved hM).2, hw]
    obtain ⟨j1, j2⟩ := sum_le_of_forall₂ j
    unfold mean
    rw [j2]
    have := div_le_div_of_nonneg_right j1 (Nat.cast_nonneg (α := ℝ) (l.map St.reward).length)
    linarith

/-! ## Instances -/

/-- One obstacle more, and the pole of `front_covers` grown. -/
theorem crowd_wit : Covers { Params.default [⟨5, 0, 2⟩] [⟨0, 9, 2, 1, 0⟩] with shieldCollision := false }
    { Params.default [⟨5, 0, 1⟩] [] with shieldCollision := false } ∧
    Spec.PosSizes { Params.default [⟨5, 0, 1⟩] [] with shieldCollision := false } := by
  refine ⟨⟨rfl, ?_, by simp [Params.default]⟩, ⟨?_, ?_, ?_, ?_, ?_, ?_⟩⟩
  · simp [Params.default]
  all_goals norm_num [Params.default]

example (ext : Ext Q4) (s : St Q4) (us : List U) :=
  C93_tt2d { Wit.tt with toParams := { Params.default [⟨5, 0, 1⟩] [] with shieldCollision := false } } _ crowd_wit.1
    crowd_wit.2 rfl rfl (by norm_num [Params.default]) ext s us

example (ext : Ext Q3) (s : St Q3) (us : List U) :=
  C93_bicycle { Wit.bike with toParams := { Params.default [⟨5, 0, 1⟩] [] with shieldCollision := false } } _ crowd_wit.1
    crowd_wit.2 rfl rfl (by norm_num [Params.default]) ext s us

example (ext : Ext Q6) (s : St Q6) (us : List U) :=
  C93_acc { Wit.acc with toParams := { Params.default [⟨5, 0, 1⟩] [] with shieldCollision := false } } _ crowd_wit.1
    crowd_wit.2 rfl rfl (by norm_num [Params.default]) ext s us

example (q : Q6) :=
  C58_alarm_acc { Wit.acc with toParams := { Params.default [⟨5, 0, 1⟩] [] with shieldCollision := false } } _ crowd_wit.1
    crowd_wit.2 q

example := C58_mono_acc { Wit.acc with toParams := Params.default [⟨5, 0, 1⟩] [] } _ front_covers.1 front_covers.2
  ⟨0, 0, 0, 0, 0, 0⟩ (Or.inl ⟨⟨5, 0, 1⟩, by simp [Params.default], Or.inl front_hit⟩)

example (guide : QN → QN) (s : St QN) (us : List U) :=
  C93_ntrailer { Wit.train with toParams := { Params.default [⟨5, 0, 1⟩] [] with shieldCollision := false } } _ crowd_wit.1
    crowd_wit.2 (by
      intro i hi
      have : i < 2 := hi
      have h2 : i = 0 ∨ i = 1 := by omega
      rcases h2 with rfl | rfl <;> norm_num [Wit.train, clampGet]) rfl rfl (by norm_num [Params.default]) guide us s s rfl rfl

/-- One step of the train from its start. -/
example (guide : QN → QN) :=
  C93_score_ntrailer { Wit.train with toParams := { Params.default [⟨5, 0, 1⟩] [] with shieldCollision := false } } _
    crowd_wit.1 crowd_wit.2 (by
      intro i hi
      have : i < 2 := hi
      have h2 : i = 0 ∨ i = 1 := by omega
      rcases h2 with rfl | rfl <;> norm_num [Wit.train, clampGet]) rfl rfl (by norm_num [Params.default]) guide [(1, 0)]
    Wit.train.reset _ _ rfl rfl

end Mbd
