import Verif.PropsShield
import Verif.PropsAcc
import Verif.PropsManoeuvre

/-! # C88: the shields change nothing about a run that keeps to the constraints -/

namespace Mbd

open Real Classical _root_.Spec

/-- The same robot built with both shields off. (tt2d.py:49-58) -/
def TT2d.unshielded (T : TT2d) : TT2d := { T with shieldCollision := false, shieldHitch := false }

/-- The same robot built with both shields off. (kinematic_bicycle2d.py:30-38) -/
def Bicycle.unshielded (T : Bicycle) : Bicycle :=
  { T with shieldCollision := false, shieldHitch := false }

/-- The same robot built with both shields off. (n_trailer2d.py:18-55) -/
def NTrailer.unshielded (T : NTrailer) : NTrailer :=
  { T with shieldCollision := false, shieldHitch := false }

/-- The same robot built with both shields off. (acc_tt2d.py:34-75) -/
def Acc.unshielded (T : Acc) : Acc := { T with shieldCollision := false, shieldHitch := false }

/-- Two step functions that agree wherever the second one lands well give the same rollouts. -/
theorem scan_agree {S A : Type} {f g : S → A → S} (Good : S → Prop)
    (h : ∀ s a, Good (g s a) → f s a = g s a) : ∀ (us : List A) (s : S),
    (∀ s' ∈ scanStates g s us, Good s') → scanStates f s us = scanStates g s us := by
  intro us
  induction us with
  | nil => intro s _; rfl
  | cons u us ih =>
    intro s hs
    simp only [scanStates] at hs ⊢
    have e := h s u (hs _ (by simp))
    rw [e, ih _ (fun s' h' => hs s' (List.mem_cons_of_mem _ h'))]

theorem st_ext {Q : Type} {s t : St Q} (h1 : s.q = t.q) (h2 : s.obs = t.obs)
    (h3 : s.reward = t.reward) (h4 : s.done = t.done) (h5 : s.applied = t.applied)
    (h6 : s.inBackup = t.inBackup) : s = t := by
  cases s; cases t; simp_all

/-! ## tractor-trailer -/

theorem TT2d.rejects_unshielded (T : TT2d) (q : Q4) : ¬ T.unshielded.rejects q := by
  unfold TT2d.rejects TT2d.unshielded; simp

theorem TT2d.step_obs (T : TT2d) (ext : Ext Q4) (s : St Q4) (a : U) :
    (T.step ext s a).obs = (T.step ext s a).q := rfl

/-- One step: if the unshielded robot lands in a state that passes the checks of the shields that
are on, the shielded robot returns the very same state, reward and action. -/
theorem tt2d_step_agree (T : TT2d) (ext : Ext Q4) (hp : T.enableProjection = false)
    (hg : T.enableGuidance = false) (s : St Q4) (a : U)
    (h : (T.shieldCollision = true → ¬ TT2d.checkObstacle T.toParams (T.unshielded.step ext s a).q) ∧
      (T.shieldHitch = true → ¬ TT2d.checkHitch T.toParams (T.unshielded.step ext s a).q)) :
    T.step ext s a = T.unshielded.step ext s a := by
  have hq : (T.unshielded.step ext s a).q = T.proposal s a := by
    rw [TT2d.step_q T.unshielded ext hp hg, if_neg (T.rejects_unshielded _)]; rfl
  rw [hq] at h
  have hr : ¬ T.rejects (T.proposal s a) := by
    rintro (⟨h1, h2⟩ | ⟨h1, h2⟩)
    · exact h.1 h1 h2
    · exact h.2 h1 h2
  have hq' : (T.step ext s a).q = T.proposal s a := by
    rw [TT2d.step_q T ext hp hg, if_neg hr]
  have hap : (T.step ext s a).applied = (T.unshielded.step ext s a).applied := by
    rw [TT2d.step_applied T ext hp hg, TT2d.step_applied T.unshielded ext hp hg]
    simp only [hr, T.rejects_unshielded, or_false]
  apply st_ext
  · rw [hq, hq']
  · rw [TT2d.step_obs, TT2d.step_obs, hq, hq']
  · rw [TT2d.step_reward T ext hp hg, TT2d.step_reward T.unshielded ext hp hg, hap, hq, hq']
    rfl
  · rfl
  · exact hap
  · rfl

/-- **C88**, tractor-trailer: if every state the unshielded robot visits passes the checks of the
shields that are on, the shielded robot's rollout is the same one: same states, same rewards, same
recorded actions. -/
theorem C88_tt2d (T : TT2d) (ext : Ext Q4) (hp : T.enableProjection = false)
    (hg : T.enableGuidance = false) (s : St Q4) (us : List U)
    (h : ∀ s' ∈ scanStates (T.unshielded.step ext) s us,
      (T.shieldCollision = true → ¬ TT2d.checkObstacle T.toParams s'.q) ∧
      (T.shieldHitch = true → ¬ TT2d.checkHitch T.toParams s'.q)) :
    scanStates (T.step ext) s us = scanStates (T.unshielded.step ext) s us :=
  scan_agree (fun s' : St Q4 => (T.shieldCollision = true → ¬ TT2d.checkObstacle T.toParams s'.q) ∧
      (T.shieldHitch = true → ¬ TT2d.checkHitch T.toParams s'.q))
    (fun s a h => tt2d_step_agree T ext hp hg s a h) us s h

/-- **C88**, tractor-trailer: and otherwise the two part company exactly at the first state the
unshielded robot should not have entered: there the shielded robot stays where both were. -/
theorem C88_first_tt2d (T : TT2d) (ext : Ext Q4) (hp : T.enableProjection = false)
    (hg : T.enableGuidance = false) (s : St Q4) (pre : List U) (a : U)
    (h : ∀ s' ∈ scanStates (T.unshielded.step ext) s pre,
      (T.shieldCollision = true → ¬ TT2d.checkObstacle T.toParams s'.q) ∧
      (T.shieldHitch = true → ¬ TT2d.checkHitch T.toParams s'.q))
    (hv : let q := (finalState (T.unshielded.step ext) s (pre ++ [a])).q
      (T.shieldCollision = true ∧ TT2d.checkObstacle T.toParams q) ∨
      (T.shieldHitch = true ∧ TT2d.checkHitch T.toParams q)) :
    finalState (T.step ext) s pre = finalState (T.unshielded.step ext) s pre ∧
    (finalState (T.step ext) s (pre ++ [a])).q = (finalState (T.step ext) s pre).q ∧
    (finalState (T.step ext) s (pre ++ [a])).applied = (0, 0) := by
  have e : finalState (T.step ext) s pre = finalState (T.unshielded.step ext) s pre := by
    rw [finalState_eq_getLast, finalState_eq_getLast, C88_tt2d T ext hp hg s pre h]
  rw [finalState_append] at hv ⊢
  simp only [finalState] at hv ⊢
  rw [← e] at hv
  generalize finalState (T.step ext) s pre = t at *
  have hq : (T.unshielded.step ext t a).q = T.proposal t a := by
    rw [TT2d.step_q T.unshielded ext hp hg, if_neg (T.rejects_unshielded _)]; rfl
  rw [hq] at hv
  have hr : T.rejects (T.proposal t a) := hv
  exact ⟨e, by rw [TT2d.step_q T ext hp hg, if_pos hr],
    by rw [TT2d.step_applied T ext hp hg, if_pos (Or.inr hr)]⟩

/-- **C88**, tractor-trailer: with projection or guidance on the shield switches have no effect at
all. -/
theorem C88_ignored_tt2d (T : TT2d) (ext : Ext Q4)
    (h : T.enableProjection = true ∨ T.enableGuidance = true) :
    T.step ext = T.unshielded.step ext := by
  funext s a
  unfold TT2d.step TT2d.stepInternal TT2d.unshielded
  rcases h with h | h
  · simp only [h, if_true]; rfl
  · cases hp : T.enableProjection
    · simp only [hp, h, Bool.false_eq_true, if_false, if_true]; rfl
    · simp only [hp, if_true]; rfl

/-! ## bicycle -/

theorem Bicycle.rejects_unshielded (T : Bicycle) (q : Q3) : ¬ T.unshielded.rejects q := by
  unfold Bicycle.rejects Bicycle.unshielded; simp

theorem Bicycle.step_obs (T : Bicycle) (ext : Ext Q3) (s : St Q3) (a : U) :
    (T.step ext s a).obs = (T.step ext s a).q := rfl

theorem bicycle_step_agree (T : Bicycle) (ext : Ext Q3) (hp : T.enableProjection = false)
    (hg : T.enableGuidance = false) (s : St Q3) (a : U)
    (h : T.shieldCollision = true →
      ¬ Bicycle.checkObstacle T.toParams (T.unshielded.step ext s a).q) :
    T.step ext s a = T.unshielded.step ext s a := by
  have hq : (T.unshielded.step ext s a).q = T.proposal s a := by
    rw [Bicycle.step_q T.unshielded ext hp hg, if_neg (T.rejects_unshielded _)]; rfl
  rw [hq] at h
  have hr : ¬ T.rejects (T.proposal s a) := by
    rintro (⟨h1, h2⟩ | ⟨-, h2⟩)
    · exact h h1 h2
    · exact h2
  have hq' : (T.step ext s a).q = T.proposal s a := by
    rw [Bicycle.step_q T ext hp hg, if_neg hr]
  have hap : (T.step ext s a).applied = (T.unshielded.step ext s a).applied := by
    rw [Bicycle.step_applied T ext hp hg, Bicycle.step_applied T.unshielded ext hp hg]
    simp only [hr, T.rejects_unshielded, or_false]
  apply st_ext
  · rw [hq, hq']
  · rw [Bicycle.step_obs, Bicycle.step_obs, hq, hq']
  · rw [Bicycle.step_reward T ext hp hg, Bicycle.step_reward T.unshielded ext hp hg, hap, hq, hq']
    rfl
  · rfl
  · exact hap
  · rfl

/-- **C88**, bicycle. -/
theorem C88_bicycle (T : Bicycle) (ext : Ext Q3) (hp : T.enableProjection = false)
    (hg : T.enableGuidance = false) (s : St Q3) (us : List U)
    (h : ∀ s' ∈ scanStates (T.unshielded.step ext) s us,
      T.shieldCollision = true → ¬ Bicycle.checkObstacle T.toParams s'.q) :
    scanStates (T.step ext) s us = scanStates (T.unshielded.step ext) s us :=
  scan_agree (fun s' : St Q3 => T.shieldCollision = true → ¬ Bicycle.checkObstacle T.toParams s'.q)
    (fun s a h => bicycle_step_agree T ext hp hg s a h) us s h

/-- **C88**, bicycle: the first difference. -/
theorem C88_first_bicycle (T : Bicycle) (ext : Ext Q3) (hp : T.enableProjection = false)
    (hg : T.enableGuidance = false) (hs : T.shieldCollision = true) (s : St Q3) (pre : List U) (a : U)
    (h : ∀ s' ∈ scanStates (T.unshielded.step ext) s pre, ¬ Bicycle.checkObstacle T.toParams s'.q)
    (hv : Bicycle.checkObstacle T.toParams (finalState (T.unshielded.step ext) s (pre ++ [a])).q) :
    finalState (T.step ext) s pre = finalState (T.unshielded.step ext) s pre ∧
    (finalState (T.step ext) s (pre ++ [a])).q = (finalState (T.step ext) s pre).q ∧
    (finalState (T.step ext) s (pre ++ [a])).applied = (0, 0) := by
  have e : finalState (T.step ext) s pre = finalState (T.unshielded.step ext) s pre := by
    rw [finalState_eq_getLast, finalState_eq_getLast,
      C88_bicycle T ext hp hg s pre (fun s' h' _ => h s' h')]
  rw [finalState_append] at hv ⊢
  simp only [finalState] at hv ⊢
  rw [← e] at hv
  generalize finalState (T.step ext) s pre = t at *
  have hq : (T.unshielded.step ext t a).q = T.proposal t a := by
    rw [Bicycle.step_q T.unshielded ext hp hg, if_neg (T.rejects_unshielded _)]; rfl
  rw [hq] at hv
  have hr : T.rejects (T.proposal t a) := Or.inl ⟨hs, hv⟩
  exact ⟨e, by rw [Bicycle.step_q T ext hp hg, if_pos hr],
    by rw [Bicycle.step_applied T ext hp hg, if_pos (Or.inr hr)]⟩

/-- **C88**, bicycle: projection and guidance ignore the shields. -/
theorem C88_ignored_bicycle (T : Bicycle) (ext : Ext Q3)
    (h : T.enableProjection = true ∨ T.enableGuidance = true) :
    T.step ext = T.unshielded.step ext := by
  funext s a
  unfold Bicycle.step Bicycle.stepInternal Bicycle.unshielded
  rcases h with h | h
  · simp only [h, if_true]; rfl
  · cases hp : T.enableProjection
    · simp only [hp, h, Bool.false_eq_true, if_false, if_true]; rfl
    · simp only [hp, if_true]; rfl

/-! ## train -/

theorem NTrailer.rejects_unshielded (T : NTrailer) (q : QN) : ¬ T.unshielded.rejects q := by
  unfold NTrailer.rejects NTrailer.unshielded; simp

theorem NTrailer.carryAt_unshielded (T : NTrailer) (x : QN) (v d : ℝ) (i : ℕ) :
    T.unshielded.carryAt x v d i = T.carryAt x v d i := by
  induction i with
  | zero => rfl
  | succ i ih => rw [NTrailer.carryAt, NTrailer.carryAt, ih]; rfl

theorem NTrailer.lastPosLoop_unshielded (T : NTrailer) (x : QN) (i : ℕ) :
    T.unshielded.lastPosLoop x i = T.lastPosLoop x i := by
  induction i with
  | zero => rfl
  | succ i ih => rw [NTrailer.lastPosLoop, NTrailer.lastPosLoop, ih]; rfl

theorem NTrailer.rectHitch_unshielded (T : NTrailer) (x : QN) (i : ℕ) :
    T.unshielded.rectHitch x i = T.rectHitch x i := by
  induction i with
  | zero => rfl
  | succ i ih => rw [NTrailer.rectHitch, NTrailer.rectHitch, ih]; rfl

theorem NTrailer.euler_unshielded (T : NTrailer) (x : QN) (u : U) :
    T.unshielded.euler x u = T.euler x u := by
  unfold NTrailer.euler NTrailer.dynamics
  simp only [NTrailer.carryAt_unshielded]
  rfl

theorem NTrailer.getReward_unshielded (T : NTrailer) (x : QN) :
    T.unshielded.getReward x = T.getReward x := by
  have h : ∀ x, T.unshielded.lastTrailerPos x = T.lastTrailerPos x := fun x =>
    congrArg Prod.snd (T.lastPosLoop_unshielded x T.N)
  unfold NTrailer.getReward NTrailer.posDist NTrailer.dLast
  rw [h, h]; rfl

theorem NTrailer.checkObstacle_unshielded (T : NTrailer) (x : QN) :
    T.unshielded.checkObstacle x = T.checkObstacle x := by
  have h : T.unshielded.allTrailerCorners x = T.allTrailerCorners x := by
    unfold NTrailer.allTrailerCorners
    apply congrArg₂ _ _ rfl
    funext i
    unfold NTrailer.trailerCorners
    rw [NTrailer.rectHitch_unshielded]; rfl
  unfold NTrailer.checkObstacle
  rw [h]; rfl

theorem NTrailer.proposal_unshielded (T : NTrailer) (s : St QN) (a : U) :
    T.unshielded.proposal s a = T.proposal s a := by
  unfold NTrailer.proposal; rw [NTrailer.euler_unshielded]; rfl

theorem ntrailer_step_agree (T : NTrailer) (guide : QN → QN) (hg : T.enableGuidance = false)
    (s s' : St QN) (a : U) (hst : T.unshielded.step guide s a = .ok s')
    (h : (T.shieldCollision = true → ¬ T.checkObstacle s'.q) ∧
      (T.shieldHitch = true → ¬ T.checkHitch s'.q)) :
    T.step guide s a = .ok s' := by
  obtain ⟨hl, hp⟩ := T.unshielded.step_length guide s s' a hst
  have hq : s'.q = T.proposal s a := by
    rw [(T.unshielded.step_spec guide hg s s' a hst).1, if_neg (T.rejects_unshielded _),
      NTrailer.proposal_unshielded]
  rw [hq] at h
  have hr : ¬ T.rejects (T.proposal s a) := by
    rintro (⟨h1, h2⟩ | ⟨h1, h2⟩)
    · exact h.1 h1 h2
    · exact h.2 h1 h2
  obtain ⟨t, ht⟩ := (T.step_ok_iff guide s a).mpr ⟨hl, hp⟩
  have hs := T.step_spec guide hg s t a ht
  have hu := T.unshielded.step_spec guide hg s s' a hst
  have hobs : ∀ (T : NTrailer) (t : St QN), T.step guide s a = .ok t → t.obs = t.q ∧ t.done = 0 := by
    intro T t ht
    obtain ⟨hl, hp⟩ := T.step_length guide s t a ht
    unfold NTrailer.step NTrailer.stepInternal at ht
    simp only [hl, hp, ne_eq, not_true_eq_false, Bool.false_eq_true, if_false,
      Except.ok.injEq] at ht
    subst ht
    exact ⟨rfl, rfl⟩
  have hqt : t.q = T.proposal s a := by rw [hs.1, if_neg hr]
  have : t = s' := by
    apply st_ext
    · rw [hqt, hq]
    · rw [(hobs T t ht).1, (hobs _ s' hst).1, hqt, hq]
    · rw [hs.2.2.2, hu.2.2.2, hqt, hq, NTrailer.proposal_unshielded, NTrailer.getReward_unshielded]
      simp only [NTrailer.checkObstacle_unshielded]
      rfl
    · rw [(hobs T t ht).2, (hobs _ s' hst).2]
    · rw [hs.2.1, hu.2.1]; simp only [hr, T.rejects_unshielded, or_false]
    · rw [hs.2.2.1, hu.2.2.1]
  rw [ht, this]

/-- **C88**, train. -/
theorem C88_ntrailer (T : NTrailer) (guide : QN → QN) (hg : T.enableGuidance = false) :
    ∀ (us : List U) (s : St QN) (tr : List (St QN)),
      scanStatesE (T.unshielded.step guide) s us = .ok tr →
      (∀ s' ∈ tr, (T.shieldCollision = true → ¬ T.checkObstacle s'.q) ∧
        (T.shieldHitch = true → ¬ T.checkHitch s'.q)) →
      scanStatesE (T.step guide) s us = .ok tr := by
  intro us
  induction us with
  | nil => intro s tr h _; exact h
  | cons u us ih =>
    intro s tr h hg'
    rw [scanStatesE] at h ⊢
    cases h1 : T.unshielded.step guide s u with
    | error e => simp [h1] at h
    | ok s1 =>
      simp only [h1] at h
      cases h2 : scanStatesE (T.unshielded.step guide) s1 us with
      | error e => simp [h2] at h
      | ok l =>
        simp only [h2, Except.ok.injEq] at h
        subst h
        rw [ntrailer_step_agree T guide hg s s1 u h1 (hg' s1 (by simp))]
        simp only
        rw [ih s1 l h2 (fun s' h' => hg' s' (List.mem_cons_of_mem _ h'))]

/-- **C88**, train: otherwise the two agree up to the first state the unshielded train should not have
entered; the shielded train then stays where both were. -/
theorem C88_first_ntrailer (T : NTrailer) (guide : QN → QN) (hg : T.enableGuidance = false)
    (s : St QN) (pre : List U) (a : U) (tr : List (St QN)) (s1 : St QN)
    (htr : scanStatesE (T.unshielded.step guide) s pre = .ok tr)
    (h : ∀ s' ∈ tr, (T.shieldCollision = true → ¬ T.checkObstacle s'.q) ∧
      (T.shieldHitch = true → ¬ T.checkHitch s'.q))
    (h1 : T.unshielded.step guide (tr.getLastD s) a = .ok s1)
    (hv : (T.shieldCollision = true ∧ T.checkObstacle s1.q) ∨
      (T.shieldHitch = true ∧ T.checkHitch s1.q)) :
    scanStatesE (T.step guide) s pre = .ok tr ∧
    ∃ t, scanStatesE (T.step guide) s (pre ++ [a]) = .ok (tr ++ [t]) ∧
      t.q = (tr.getLastD s).q ∧ t.applied = (0, 0) := by
  have e := C88_ntrailer T guide hg pre s tr htr h
  refine ⟨e, ?_⟩
  obtain ⟨hl, hp⟩ := T.unshielded.step_length guide _ _ a h1
  obtain ⟨t, ht⟩ := (T.step_ok_iff guide (tr.getLastD s) a).mpr ⟨hl, hp⟩
  have hs := T.step_spec guide hg _ t a ht
  have hq : s1.q = T.proposal (tr.getLastD s) a := by
    rw [(T.unshielded.step_spec guide hg _ _ a h1).1, if_neg (T.rejects_unshielded _),
      NTrailer.proposal_unshielded]
  rw [hq] at hv
  have hr : T.rejects (T.proposal (tr.getLastD s) a) := hv
  refine ⟨t, (C17_append_ntrailer (T.step guide) pre [a] s _).mpr ⟨tr, [t], e, ?_, rfl⟩, ?_, ?_⟩
  · simp only [scanStatesE, ht]
  · rw [hs.1, if_pos hr]
  · rw [hs.2.1, if_pos (Or.inr hr)]

/-- **C88**, train: guidance ignores the shields. -/
theorem C88_ignored_ntrailer (T : NTrailer) (guide : QN → QN) (h : T.enableGuidance = true) :
    T.step guide = T.unshielded.step guide := by
  funext s a
  have e1 := T.euler_unshielded
  have e2 : T.unshielded.checkObstacle = T.checkObstacle := funext T.checkObstacle_unshielded
  have e3 := T.getReward_unshielded
  have e4 : T.unshielded.checkHitch = T.checkHitch := rfl
  have e5 : T.unshielded.inputScaler = T.inputScaler := rfl
  have e6 : T.unshielded.prefPenaltyU = T.prefPenaltyU := rfl
  have e7 : T.unshielded.enableGuidance = true := h
  have e8 : T.unshielded.N = T.N := rfl
  have e9 : T.unshielded.enableProjection = T.enableProjection := rfl
  have e10 : T.unshielded.motionPreference = T.motionPreference := rfl
  have e11 : T.unshielded.collisionPenalty = T.collisionPenalty := rfl
  have e12 : T.unshielded.hitchPenalty = T.hitchPenalty := rfl
  unfold NTrailer.step NTrailer.stepInternal
  simp only [h, if_true, e1, e2, e3, e4, e5, e6, e7, e8, e9, e10, e11, e12]

/-! ## acceleration model -/

theorem acc_step_agree (T : Acc) (ext : Ext Q6) (hp : T.enableProjection = false)
    (hg : T.enableGuidance = false) (s : St Q6) (a : U)
    (h : T.checkSafety (T.unshielded.step ext s a).q = (false, false)) :
    T.step ext s a = T.unshielded.step ext s a := by
  have hq : (T.unshielded.step ext s a).q = T.euler s.q (T.inputScaler
      (if s.inBackup = true then T.uBackupNorm s.q.v else clipU a)) T.dt := by
    unfold Acc.step Acc.stepInternal Acc.unshielded
    simp only [hp, hg, Bool.false_eq_true, if_false, Bool.or_self, Acc.naive]; rfl
  rw [hq] at h
  generalize hx : T.euler s.q (T.inputScaler
      (if s.inBackup = true then T.uBackupNorm s.q.v else clipU a)) T.dt = x at h hq
  have ho : ¬ T.checkObstacle x := by
    intro hc; have := (T.checkSafety_self x).1 hc; rw [h] at this; simp at this
  have hh : ¬ T.checkHitch x := by
    intro hc; have := (T.checkSafety_self x).2 hc; rw [h] at this; simp at this
  have ho' : ¬ T.unshielded.checkObstacle x := ho
  have hh' : ¬ T.unshielded.checkHitch x := hh
  have hx' : T.unshielded.euler s.q (T.unshielded.inputScaler
      (if s.inBackup = true then T.uBackupNorm s.q.v else clipU a)) T.unshielded.dt = x := hx
  have e1 : T.unshielded.shieldCollision = false := rfl
  have e2 : T.unshielded.shieldHitch = false := rfl
  have e3 : T.unshielded.enableProjection = false := hp
  have e4 : T.unshielded.enableGuidance = false := hg
  have hrw : ∀ x, T.unshielded.getReward x = T.getReward x := fun _ => rfl
  have hpv : ∀ v, T.unshielded.prefPenaltyV v = T.prefPenaltyV v := fun _ => rfl
  have hmp : T.unshielded.motionPreference = T.motionPreference := rfl
  have hub : ∀ v, T.unshielded.uBackupNorm v = T.uBackupNorm v := fun _ => rfl
  unfold Acc.step Acc.stepInternal
  simp only [hp, hg, e1, e2, e3, e4, Bool.false_eq_true, if_false, Bool.or_self, Bool.false_and,
    hx, hx', Acc.naive, Acc.shieldedRollout, h, hrw, hpv, hmp, hub, ho', hh', decide_false,
    Bool.and_false, Bool.or_false]
  by_cases hs : T.shieldCollision || T.shieldHitch
  · simp only [hs, if_true, Bool.and_false, Bool.or_self, Bool.or_false, Bool.false_eq_true, if_false]
  · simp only [hs, if_false, ho, hh, decide_false, Bool.false_eq_true, Bool.and_false, Bool.or_self,
      Bool.or_false]

/-- **C88**, acceleration model: if braking from every state the unshielded robot visits is
predicted to be free of violations, the shielded robot's rollout is the same one. -/
theorem C88_acc (T : Acc) (ext : Ext Q6) (hp : T.enableProjection = false)
    (hg : T.enableGuidance = false) (s : St Q6) (us : List U)
    (h : ∀ s' ∈ scanStates (T.unshielded.step ext) s us, T.checkSafety s'.q = (false, false)) :
    scanStates (T.step ext) s us = scanStates (T.unshielded.step ext) s us :=
  scan_agree (fun s' : St Q6 => T.checkSafety s'.q = (false, false))
    (fun s a h => acc_step_agree T ext hp hg s a h) us s h

theorem acc_final_inBackup (T : Acc) (ext : Ext Q6) : ∀ (us : List U) (s : St Q6),
    (finalState (T.step ext) s us).inBackup = s.inBackup := by
  intro us
  induction us with
  | nil => intro s; rfl
  | cons u us ih => intro s; simp only [finalState]; rw [ih]; rfl

/-- **C88**, acceleration model with both shields: otherwise the two agree up to the first state from
which braking is predicted to fail; instead of entering it the shielded vehicle, if it moves forward,
brakes as hard as it can with the steering held. -/
theorem C88_first_acc {T : Acc} (hT : T.Shielded) (ha : 0 ≤ T.aMax) (hdt : 0 < T.dt) (ext : Ext Q6)
    (s : St Q6) (hb : s.inBackup = false) (pre : List U) (a : U)
    (h : ∀ s' ∈ scanStates (T.unshielded.step ext) s pre, T.checkSafety s'.q = (false, false))
    (hv : T.checkSafety (finalState (T.unshielded.step ext) s (pre ++ [a])).q ≠ (false, false))
    (hf : 0.01 < (finalState (T.unshielded.step ext) s pre).q.v) :
    finalState (T.step ext) s pre = finalState (T.unshielded.step ext) s pre ∧
    (finalState (T.step ext) s (pre ++ [a])).q.v =
      Spec.brake (finalState (T.step ext) s pre).q.v (T.aMax * T.dt) ∧
    (finalState (T.step ext) s (pre ++ [a])).q.delta = (finalState (T.step ext) s pre).q.delta := by
  have e : finalState (T.step ext) s pre = finalState (T.unshielded.step ext) s pre := by
    rw [finalState_eq_getLast, finalState_eq_getLast, C88_acc T ext hT.proj hT.guid s pre h]
  have hbk : (finalState (T.step ext) s pre).inBackup = false := by
    rw [acc_final_inBackup]; exact hb
  rw [finalState_append] at hv ⊢
  simp only [finalState] at hv ⊢
  rw [← e] at hv hf
  refine ⟨e, ?_⟩
  generalize finalState (T.step ext) s pre = t at *
  have hq : (T.unshielded.step ext t a).q = T.proposal t.q a := by
    have h1 := hT.proj
    have h2 := hT.guid
    unfold Acc.step Acc.stepInternal Acc.unshielded Acc.proposal
    simp only [h1, h2, hbk, Bool.false_eq_true, if_false, Bool.or_self, Acc.naive]; rfl
  rw [hq] at hv
  have ho : T.overrides t.q a := by
    rw [Acc.overrides_iff hT]
    by_contra hn
    push Not at hn
    apply hv
    exact Prod.ext (by simpa using hn.1) (by simpa using hn.2)
  exact C12_partial hT ha hdt ext t hbk a ho (Or.inl hf)

/-- **C88**, acceleration model: projection and guidance ignore the shields. -/
theorem C88_ignored_acc (T : Acc) (ext : Ext Q6)
    (h : T.enableProjection = true ∨ T.enableGuidance = true) :
    T.step ext = T.unshielded.step ext := by
  funext s a
  unfold Acc.step Acc.stepInternal Acc.unshielded
  rcases h with h | h
  · simp only [h, if_true]; rfl
  · cases hp : T.enableProjection
    · simp only [h, Bool.false_eq_true, if_false, if_true]; rfl
    · simp only [if_true]; rfl

/-! ## witnesses -/

theorem openTT_one (ext : Ext Q4) :
    ∀ s' ∈ scanStates (openTT.unshielded.step ext) openTT.reset [((1 : ℝ), (0 : ℝ))],
      (openTT.shieldCollision = true → ¬ TT2d.checkObstacle openTT.toParams s'.q) ∧
      (openTT.shieldHitch = true → ¬ TT2d.checkHitch openTT.toParams s'.q) := by
  intro s' hs'
  simp only [scanStates, List.mem_singleton] at hs'
  subst hs'
  have hq := TT2d.step_q openTT.unshielded ext rfl rfl openTT.reset ((1 : ℝ), (0 : ℝ))
  rw [if_neg (TT2d.rejects_unshielded _ _)] at hq
  have he : Spec.EulerTT openTT.toParams openTT.reset.q ((1 : ℝ), (0 : ℝ))
      (openTT.unshielded.step ext openTT.reset ((1 : ℝ), (0 : ℝ))).q := by
    rw [hq, eulerTT_iff]
    unfold TT2d.proposal
    have : effAction openTT.reset.inBackup ((1 : ℝ), (0 : ℝ)) = ((1 : ℝ), (0 : ℝ)) := by
      rw [show openTT.reset.inBackup = false from rfl, effAction_false]
      exact clipU_of_mem ⟨by simp, by simp⟩
    rw [this]; rfl
  have ha := (C87_step _ _ _ 1 (by rw [openTT_gain]; norm_num [abs_le]) he).2
  constructor
  · intro _
    unfold TT2d.checkObstacle openTT Params.default; simp
  · intro _
    unfold TT2d.checkHitch
    rw [abs_wrapPi_angle, ha, openTT_gain, openTT_angle]
    have h1 : 0 < sin (0.3 : ℝ) := sin_pos_of_pos_of_le_one (by norm_num) (by norm_num)
    have h2 := pi_gt_three
    have h3 : openTT.phiMax = 40 * π / 180 := rfl
    rw [h3]
    intro h
    linarith

/-- A step straight ahead with a hitch angle of `0.3`, both shields on. -/
example := fun ext => C88_tt2d openTT ext rfl rfl openTT.reset _ (openTT_one ext)

/-- The same vehicle bent to `0.69`: reversing straight is the first forbidden step. -/
noncomputable def bentTT : TT2d := { openTT with x0 := ⟨0, 0, 0.69, 0⟩ }

example := fun ext => C88_first_tt2d bentTT ext rfl rfl bentTT.reset [] ((-1 : ℝ), (0 : ℝ))
  (by intro s' h; simp [scanStates] at h)
  (by
    right
    refine ⟨rfl, ?_⟩
    simp only [List.nil_append, finalState]
    have hq := TT2d.step_q bentTT.unshielded ext rfl rfl bentTT.reset ((-1 : ℝ), (0 : ℝ))
    rw [if_neg (TT2d.rejects_unshielded _ _)] at hq
    have he : Spec.EulerTT bentTT.toParams bentTT.reset.q ((-1 : ℝ), (0 : ℝ))
        (bentTT.unshielded.step ext bentTT.reset ((-1 : ℝ), (0 : ℝ))).q := by
      rw [hq, eulerTT_iff]
      unfold TT2d.proposal
      have : effAction bentTT.reset.inBackup ((-1 : ℝ), (0 : ℝ)) = ((-1 : ℝ), (0 : ℝ)) := by
        rw [show bentTT.reset.inBackup = false from rfl, effAction_false]
        exact clipU_of_mem ⟨by simp, by simp⟩
      rw [this]; rfl
    have hg : Spec.trailerGain bentTT.toParams (-1) = -(6 / 29) := by
      unfold Spec.trailerGain bentTT openTT Params.default; norm_num
    have h0 : Spec.angle bentTT.reset.q.th1 bentTT.reset.q.th2 = 0.69 := by
      unfold Spec.angle bentTT TT2d.reset
      rw [sub_zero, arccos_cos (by norm_num) (by linarith [pi_gt_three])]
    have ha := (C87_step _ _ _ (-1) (by rw [hg]; norm_num [abs_le]) he).2
    unfold TT2d.checkHitch
    rw [abs_wrapPi_angle, ha, hg, h0]
    have h1 := sin_chord (x := 0.69) (by norm_num) (by unfold deg2rad; linarith [pi_gt_d4])
    have h3 : bentTT.phiMax = 40 * π / 180 := rfl
    rw [h3]
    have := pi_lt_d2
    show _ < _
    linarith)

example := fun ext => C88_ignored_tt2d
  { openTT with enableGuidance := true } ext (Or.inr rfl)

/-- A bicycle facing a block one step ahead. -/
noncomputable def blockedBike : Bicycle :=
  { toParams := Params.default [] [⟨1.741, 0, 2, 2, 0⟩], x0 := ⟨0, 0, 0⟩, xg := ⟨9, 0, 0⟩ }

/-- On an empty map any rollout of the bicycle qualifies. -/
example := fun (ext : Ext Q3) us => C88_bicycle
  { blockedBike with rects := [] } ext rfl rfl (Bicycle.reset blockedBike) us
  (by intro s' _ _; unfold Bicycle.checkObstacle blockedBike Params.default; simp)

theorem blockedBike_hit (q : Q3) (h : q = ⟨0.6, 0, 0⟩) :
    Bicycle.checkObstacle blockedBike.toParams q := by
  subst h
  right
  refine ⟨⟨1.741, 0, 2, 2, 0⟩, by simp [blockedBike, Params.default], ?_⟩
  unfold Params.tractorCorners Rect.corners
  rw [C04_rectRect_exact _ _ _ _ (by norm_num [blockedBike, Params.default])
    (by norm_num [blockedBike, Params.default]) (by norm_num) (by norm_num)]
  refine ⟨(1.741, 0), ⟨0, 0, ?_, ?_, ?_⟩, ⟨0, 0, ?_, ?_, ?_⟩⟩ <;>
    norm_num [Spec.frame, blockedBike, Params.default]

example := fun (ext : Ext Q3) => C88_first_bicycle blockedBike ext rfl rfl rfl blockedBike.reset []
  ((1 : ℝ), (0 : ℝ)) (by intro s' h; simp [scanStates] at h)
  (by
    apply blockedBike_hit
    simp only [List.nil_append, finalState]
    rw [Bicycle.step_q blockedBike.unshielded ext rfl rfl, if_neg (Bicycle.rejects_unshielded _ _)]
    unfold Bicycle.proposal
    have : effAction blockedBike.reset.inBackup ((1 : ℝ), (0 : ℝ)) = ((1 : ℝ), (0 : ℝ)) := by
      rw [show blockedBike.reset.inBackup = false from rfl, effAction_false]
      exact clipU_of_mem ⟨by simp, by simp⟩
    rw [this]
    unfold Bicycle.euler Q3.axpy Bicycle.dynamics Params.inputScaler Params.deltaMax Bicycle.reset
      Bicycle.unshielded blockedBike Params.default
    ext <;> norm_num)

example := fun (ext : Ext Q3) => C88_ignored_bicycle
  { blockedBike with enableProjection := true } ext (Or.inl rfl)

/-- A straight train on open ground. -/
noncomputable def openTrain : NTrailer := { Wit.train with circles := [], rects := [] }

theorem openTrain_one (guide : QN → QN) (tr : List (St QN))
    (h : scanStatesE (openTrain.unshielded.step guide) openTrain.reset [((1 : ℝ), (0 : ℝ))] = .ok tr) :
    ∀ s' ∈ tr, (openTrain.shieldCollision = true → ¬ openTrain.checkObstacle s'.q) ∧
      (openTrain.shieldHitch = true → ¬ openTrain.checkHitch s'.q) := by
  simp only [scanStatesE] at h
  cases h1 : openTrain.unshielded.step guide openTrain.reset ((1 : ℝ), (0 : ℝ)) with
  | error e => simp [h1] at h
  | ok s1 =>
    simp only [h1, Except.ok.injEq] at h
    subst h
    intro s' hs'
    rw [List.mem_singleton] at hs'
    subst hs'
    have hq := (openTrain.unshielded.step_spec guide rfl _ _ _ h1).1
    rw [if_neg (NTrailer.rejects_unshielded _ _), NTrailer.proposal_unshielded] at hq
    have he : effAction openTrain.reset.inBackup ((1 : ℝ), (0 : ℝ)) = ((1 : ℝ), (0 : ℝ)) := by
      rw [show openTrain.reset.inBackup = false from rfl, effAction_false]
      exact clipU_of_mem ⟨by simp, by simp⟩
    constructor
    · intro _
      unfold NTrailer.checkObstacle openTrain; simp
    · intro _
      rw [hq]
      unfold NTrailer.proposal
      rw [he]
      unfold NTrailer.euler QN.axpy NTrailer.dynamics NTrailer.checkHitch NTrailer.slice Params.phiMax
      simp [openTrain, Wit.train, NTrailer.reset, List.range_succ, NTrailer.carryAt,
        NTrailer.loopBody, NTrailer.theta, NTrailer.slice, clampGet, NTrailer.hitchScan,
        Params.inputScaler, deg2rad]
      positivity

/-- The train driven one step straight ahead. -/
example := fun (guide : QN → QN) (tr : List (St QN)) h =>
  C88_ntrailer openTrain guide rfl [((1 : ℝ), (0 : ℝ))] openTrain.reset tr h
    (openTrain_one guide tr h)

example := fun guide => C88_ignored_ntrailer { Wit.train with enableGuidance := true } guide rfl

/-- The acceleration model standing still on open ground. -/
noncomputable def openAcc : Acc :=
  { Wit.acc with circles := [], rects := [], x0 := ⟨0, 0, 0, 0, 0, 0⟩ }

/-- Turning the wheels at standstill. -/
example := fun (ext : Ext Q6) => C88_acc openAcc ext rfl rfl openAcc.reset [((0 : ℝ), (1 : ℝ))] (by
  intro s' hs'
  simp only [scanStates, List.mem_singleton] at hs'
  subst hs'
  have hc : clipU ((0 : ℝ), (1 : ℝ)) = ((0 : ℝ), (1 : ℝ)) := clipU_of_mem ⟨by simp, by simp⟩
  have hq : (openAcc.unshielded.step ext openAcc.reset ((0 : ℝ), (1 : ℝ))).q =
      openAcc.euler openAcc.reset.q (openAcc.inputScaler ((0 : ℝ), (1 : ℝ))) openAcc.dt := by
    unfold Acc.step Acc.stepInternal
    rw [hc]
    rfl
  rw [hq]
  have hv : (openAcc.euler openAcc.reset.q (openAcc.inputScaler ((0 : ℝ), (1 : ℝ))) openAcc.dt).v = 0 := by
    rw [Acc.euler_v]
    simp [openAcc, Acc.reset, Acc.inputScaler]
  have hp := openAcc.euler_pose_of_rest (by norm_num [openAcc, Wit.acc, Wit.params, Params.default])
    openAcc.reset.q rfl (openAcc.inputScaler ((0 : ℝ), (1 : ℝ))) openAcc.dt
  unfold Acc.checkSafety
  rw [hv, abs_zero, if_pos (by unfold Acc.vThr; norm_num), Acc.checkObstacle, Acc.checkHitch, hp]
  have h1 : ¬ TT2d.checkObstacle openAcc.toParams openAcc.reset.q.pose := by
    unfold TT2d.checkObstacle openAcc; simp
  have h2 : ¬ TT2d.checkHitch openAcc.toParams openAcc.reset.q.pose := by
    unfold TT2d.checkHitch openAcc Acc.reset Q6.pose Params.phiMax deg2rad
    simp
    positivity
  simp [h1, h2])

example := fun (ext : Ext Q6) => C88_ignored_acc { openAcc with enableGuidance := true } ext (Or.inr rfl)

/-- A straight train facing a block one step ahead. -/
noncomputable def blockedTrain : NTrailer :=
  { Wit.train with circles := [], rects := [⟨1.741, 0, 2, 2, 0⟩] }

theorem blockedTrain_one (guide : QN → QN) :
    ∃ s1, blockedTrain.unshielded.step guide blockedTrain.reset ((1 : ℝ), (0 : ℝ)) = .ok s1 ∧
      blockedTrain.checkObstacle s1.q := by
  obtain ⟨s1, h1⟩ := (blockedTrain.unshielded.step_ok_iff guide blockedTrain.reset
    ((1 : ℝ), (0 : ℝ))).mpr ⟨rfl, rfl⟩
  refine ⟨s1, h1, ?_⟩
  have hq := (blockedTrain.unshielded.step_spec guide rfl _ _ _ h1).1
  rw [if_neg (NTrailer.rejects_unshielded _ _), NTrailer.proposal_unshielded] at hq
  have he : effAction blockedTrain.reset.inBackup ((1 : ℝ), (0 : ℝ)) = ((1 : ℝ), (0 : ℝ)) := by
    rw [show blockedTrain.reset.inBackup = false from rfl, effAction_false]
    exact clipU_of_mem ⟨by simp, by simp⟩
  have e : s1.q.px = 0.6 ∧ s1.q.py = 0 ∧ s1.q.th0 = 0 := by
    rw [hq]
    unfold NTrailer.proposal
    rw [he]
    unfold NTrailer.euler QN.axpy NTrailer.dynamics Params.inputScaler
    simp [blockedTrain, Wit.train, Wit.params, Params.default, NTrailer.reset]
    norm_num
  right; left
  refine ⟨⟨1.741, 0, 2, 2, 0⟩, by simp [blockedTrain], ?_⟩
  rw [e.1, e.2.1, e.2.2]
  unfold Params.tractorCorners Rect.corners
  rw [C04_rectRect_exact _ _ _ _ (by norm_num [blockedTrain, Wit.train, Wit.params, Params.default])
    (by norm_num [blockedTrain, Wit.train, Wit.params, Params.default]) (by norm_num) (by norm_num)]
  refine ⟨(1.741, 0), ⟨0, 0, ?_, ?_, ?_⟩, ⟨0, 0, ?_, ?_, ?_⟩⟩ <;>
    norm_num [Spec.frame, blockedTrain, Wit.train, Wit.params, Params.default]

/-- The first step towards the block is refused. -/
example (guide : QN → QN) : ∃ t, scanStatesE (blockedTrain.step guide) blockedTrain.reset
    [((1 : ℝ), (0 : ℝ))] = .ok [t] ∧ t.q = blockedTrain.x0 := by
  obtain ⟨s1, h1, hc⟩ := blockedTrain_one guide
  obtain ⟨-, t, ht, hq, -⟩ := C88_first_ntrailer blockedTrain guide rfl blockedTrain.reset []
    ((1 : ℝ), (0 : ℝ)) [] s1 rfl (by simp) h1 (Or.inl ⟨rfl, hc⟩)
  exact ⟨t, ht, hq⟩

theorem poleAcc_prop : poleAcc.proposal (straight 0 0) (1, 0) = straight 0 0.4 := by
  unfold poleAcc
  rw [straight_proposal, show clip (0 : ℝ) (-3) 3 = 0 from
    clip_of_mem (by norm_num) (by norm_num)]
  congr 1 <;> norm_num

theorem poleAcc_unshielded_step (ext : Ext Q6) (s : St Q6) (hb : s.inBackup = false) (a : U) :
    (poleAcc.unshielded.step ext s a).q = poleAcc.proposal s.q a := by
  unfold Acc.step Acc.stepInternal
  simp only [hb]
  rfl

theorem poleAcc_one (ext : Ext Q6) :
    (poleAcc.unshielded.step ext poleAcc.reset (1, 0)).q = straight 0 0.4 := by
  rw [poleAcc_unshielded_step ext _ rfl]; exact poleAcc_prop

theorem poleAcc_two (ext : Ext Q6) :
    (poleAcc.unshielded.step ext (poleAcc.unshielded.step ext poleAcc.reset (1, 0)) (1, 0)).q =
      poleAcc.proposal (straight 0 0.4) (1, 0) := by
  rw [poleAcc_unshielded_step ext _ rfl, poleAcc_one]

/-- Full throttle towards a pole: the first step is left alone, the second one becomes a brake. -/
example := fun (ext : Ext Q6) => C88_first_acc (T := poleAcc) (accDefault_shielded _ _)
  (by norm_num [poleAcc, accDefault]) (by norm_num [poleAcc, accDefault, Params.default]) ext
  poleAcc.reset rfl [((1 : ℝ), (0 : ℝ))] ((1 : ℝ), (0 : ℝ)) (by
    intro s' hs'
    simp only [scanStates, List.mem_singleton] at hs'
    subst hs'
    rw [poleAcc_one]
    have := pole_first_accepted
    rw [Acc.overrides_iff (T := poleAcc) (accDefault_shielded _ _), poleAcc_prop] at this
    push Not at this
    exact Prod.ext (by simpa using this.1) (by simpa using this.2)) (by
    simp only [List.cons_append, List.nil_append, finalState]
    have := pole_second_overridden.1
    rw [Acc.overrides_iff (T := poleAcc) (accDefault_shielded _ _)] at this
    rw [poleAcc_two]
    intro h
    rw [h] at this
    simp at this) (by
    simp only [finalState]
    rw [poleAcc_one]; norm_num [straight])

end Mbd
