import Verif.PropsTurns
import Verif.PropsPlan
import Verif.PropsShield
import Verif.PropsMotion
import Verif.PropsPenalty

/-!
# Rollouts of the train, and the remaining vehicles (C15, C18, C23, C35, C38)
-/

namespace Mbd

open Real Classical

/-! ## C15: drift of the train along a rollout -/

theorem scanE_drift {E S A : Type} {step : S → A → Except E S} (pos : S → V2) (d : ℝ)
    (h : ∀ s a s', step s a = .ok s' → Spec.dist (pos s') (pos s) ≤ d) :
    ∀ (us : List A) (s : S) (tr : List S), scanStatesE step s us = .ok tr →
      ∀ (i : ℕ) (hi : i < tr.length), Spec.dist (pos tr[i]) (pos s) ≤ (i + 1) * d
  | [], s, tr, htr, i, hi => by
    simp only [scanStatesE, Except.ok.injEq] at htr
    subst htr
    simp at hi
  | u :: us, s, tr, htr, i, hi => by
    rw [scanStatesE] at htr
    cases h1 : step s u with
    | error e => rw [h1] at htr; cases htr
    | ok s1 =>
      rw [h1] at htr
      cases h2 : scanStatesE step s1 us with
      | error e => simp only [h2] at htr; cases htr
      | ok t =>
        simp only [h2, Except.ok.injEq] at htr
        subst htr
        have h0 := h s u s1 h1
        rcases i with _ | i
        · simpa using h0
        · have ih := scanE_drift pos d h us s1 t h2 i (by simpa using hi)
          have tri := dist_triangle' (pos (t[i]'(by simpa using hi))) (pos s1) (pos s)
          simp only [List.getElem_cons_succ]
          push_cast
          linarith

/-- C15, train, along a rollout: the `i`-th state (from 0) is at most `i + 1` steps' travel away from the
start. -/
theorem C15_rollout_ntrailer (T : NTrailer) (guide : QN → QN) (hv : 0 ≤ T.vMax) (hdt : 0 ≤ T.dt)
    (s : St QN) (us : List U) (tr : List (St QN)) (h : scanStatesE (T.step guide) s us = .ok tr)
    (i : ℕ) (hi : i < tr.length) :
    Spec.dist (tr[i].q.px, tr[i].q.py) (s.q.px, s.q.py) ≤ (i + 1) * (T.vMax * T.dt) :=
  scanE_drift (step := T.step guide) (fun s => (s.q.px, s.q.py)) _
    (fun s a s' hs => C15_ntrailer T guide hv hdt s s' a hs) us s tr h i hi

example (guide : QN → QN) (us : List U) :
    ∃ tr, scanStatesE (Wit.train.step guide) Wit.train.reset us = .ok tr ∧ tr.length = us.length ∧
      ∀ (i : ℕ) (hi : i < tr.length), Spec.dist (tr[i].q.px, tr[i].q.py)
        (Wit.train.reset.q.px, Wit.train.reset.q.py) ≤ (i + 1) * (Wit.train.vMax * Wit.train.dt) := by
  obtain ⟨tr, h, hl⟩ := ntrailer_rollout_ok Wit.train guide rfl us Wit.train.reset rfl
  exact ⟨tr, h, hl, C15_rollout_ntrailer Wit.train guide Wit.vMax_nonneg Wit.dt_nonneg Wit.train.reset us tr h⟩

/-! ## C18: the warm-up step and the train's rollout -/

theorem ntrailer_step_congr (T : NTrailer) (guide : QN → QN) {s s' : St QN} (h1 : s.q = s'.q)
    (h2 : s.inBackup = s'.inBackup) (a : U) : T.step guide s a = T.step guide s' a := by
  unfold NTrailer.step NTrailer.stepInternal
  simp only [h1, h2]

/-- C18, train: whatever follows the warm-up step is the rollout from the start: same states,
rewards and applied actions. -/
theorem C18_rollout_ntrailer (T : NTrailer) (guide : QN → QN) (hp : T.enableProjection = false)
    (hl : T.x0.ths.length = T.N) (us : List U) :
    ∃ warm tr, T.step guide T.reset (0, 0) = .ok warm ∧ warm.q = T.x0 ∧
      scanStatesE (T.step guide) warm us = .ok tr ∧ scanStatesE (T.step guide) T.reset us = .ok tr ∧
      tr.length = us.length := by
  obtain ⟨warm, h1, h2, h3⟩ := C18_ntrailer T guide hp T.reset hl
  obtain ⟨tr, h4, h5⟩ := ntrailer_rollout_ok T guide hp us T.reset hl
  refine ⟨warm, tr, h1, h2, ?_, h4, h5⟩
  rw [← h4]
  cases us with
  | nil => rfl
  | cons u us => rw [scanStatesE, scanStatesE, ntrailer_step_congr T guide h2 h3 u]

example := fun guide us => C18_rollout_ntrailer Wit.train guide rfl rfl us

/-! ## C35: full turns along a rollout of the train -/

/-- C35, train, rollouts: adding full turns to any headings of the start adds the same turns along the
whole rollout and changes neither rewards nor applied actions. -/
theorem C35_rollout_ntrailer (T : NTrailer) (guide : QN → QN) (hg : T.enableGuidance = false) (hN : 1 ≤ T.N)
    (k : ℤ) (m : ℕ → ℤ) : ∀ (us : List U) (s : St QN) (tr : List (St QN)),
    scanStatesE (T.step guide) s us = .ok tr →
    scanStatesE (T.step guide) (Spec.reposed (Spec.turnN k m) s) us
      = .ok (tr.map (Spec.reposed (Spec.turnN k m)))
  | [], s, tr, h => by
    simp only [scanStatesE, Except.ok.injEq] at h
    subst h
    rfl
  | u :: us, s, tr, h => by
    rw [scanStatesE] at h
    cases h1 : T.step guide s u with
    | error e => rw [h1] at h; cases h
    | ok s1 =>
      rw [h1] at h
      cases h2 : scanStatesE (T.step guide) s1 us with
      | error e => simp only [h2] at h; cases h
      | ok t =>
        simp only [h2, Except.ok.injEq] at h
        subst h
        rw [scanStatesE, C35_step_ntrailer T guide hg hN s s1 u k m h1]
        simp only [C35_rollout_ntrailer T guide hg hN k m us s1 t h2, List.map_cons]

example (guide : QN → QN) (us : List U) (k : ℤ) (m : ℕ → ℤ) :
    ∃ tr : List (St QN), tr.length = us.length ∧ scanStatesE (Wit.train.step guide)
      (Spec.reposed (Spec.turnN k m) Wit.train.reset) us = .ok (tr.map (Spec.reposed (Spec.turnN k m))) := by
  obtain ⟨tr, h, hl⟩ := ntrailer_rollout_ok Wit.train guide rfl us Wit.train.reset rfl
  exact ⟨tr, hl, C35_rollout_ntrailer Wit.train guide rfl (by decide) k m us _ tr h⟩

/-! ## C38: the next safe request is executed -/

theorem final_inBackup {Q : Type} {step : St Q → U → St Q} (h : ∀ s a, (step s a).inBackup = s.inBackup) :
    ∀ (us : List U) (s : St Q), s.inBackup = false → (finalState step s us).inBackup = false
  | [], _, hs => hs
  | u :: us, s, hs => final_inBackup h us (step s u) (by rw [h]; exact hs)

/-- C38, bicycle: after any rollout, with or without interventions, a safe request is executed as
requested. -/
theorem C38_recovers_bicycle (T : Bicycle) (ext : Ext Q3) (hp : T.enableProjection = false)
    (hg : T.enableGuidance = false) (us : List U) (a : U)
    (hsafe : ¬ Bicycle.checkObstacle T.toParams (Bicycle.euler T.toParams
        (finalState (T.step ext) T.reset us).q (T.inputScaler (clipU a)))) :
    (T.step ext (finalState (T.step ext) T.reset us) a).applied = clipU a ∧
    Spec.EulerBicycle T.toParams (finalState (T.step ext) T.reset us).q (clipU a)
      (T.step ext (finalState (T.step ext) T.reset us) a).q := by
  have hb := final_inBackup (step := T.step ext) (fun _ _ => rfl) us T.reset rfl
  generalize finalState (T.step ext) T.reset us = s at *
  have hr : ¬ T.rejects (T.proposal s a) := by
    unfold Bicycle.rejects Bicycle.proposal
    rw [hb, effAction_false]
    tauto
  have hap : (T.step ext s a).applied = clipU a := by
    rw [Bicycle.step_applied T ext hp hg, if_neg]
    rw [hb]; simpa using hr
  refine ⟨hap, ?_⟩
  have := bicycle_euler T ext s a
  rwa [hap] at this

example := fun ext => C38_recovers_bicycle Wit.bike ext rfl rfl [] (0, 0)
  (by rw [clipU_zero]; simpa [finalState, Bicycle.euler_zero, Bicycle.reset] using Wit.bike_clear)

/-- C38, train. -/
theorem C38_recovers_ntrailer (T : NTrailer) (guide : QN → QN) (hg : T.enableGuidance = false)
    (us : List U) (tr : List (St QN)) (h : scanStatesE (T.step guide) T.reset us = .ok tr)
    (s s' : St QN) (hs : s = tr.getLastD T.reset) (a : U) (hst : T.step guide s a = .ok s')
    (hsafe : ¬ T.checkObstacle (T.euler s.q (T.inputScaler (clipU a))))
    (hj : ¬ T.checkHitch (T.euler s.q (T.inputScaler (clipU a)))) :
    s'.applied = clipU a ∧ s'.q = T.euler s.q (T.inputScaler (clipU a)) := by
  have hb : s.inBackup = false := by
    rw [hs]
    rcases List.eq_nil_or_concat tr with rfl | ⟨t, x, rfl⟩
    · rfl
    · rw [List.concat_eq_append, List.getLastD_concat]
      exact C38_ntrailer T guide us _ h x (by simp)
  have hsp := T.step_spec guide hg s s' a hst
  have hprop : T.proposal s a = T.euler s.q (T.inputScaler (clipU a)) := by
    unfold NTrailer.proposal; rw [hb, effAction_false]
  have hr : ¬ T.rejects (T.proposal s a) := by
    rw [hprop]; unfold NTrailer.rejects; tauto
  refine ⟨?_, ?_⟩
  · rw [hsp.2.1, if_neg]
    rw [hb]; simpa using hr
  · rw [hsp.1, if_neg hr, hprop]

/-- The standing request is safe in the start state of the default train. -/
example (guide : QN → QN) : ∃ s', Wit.train.step guide Wit.train.reset (0, 0) = .ok s' ∧
    s'.applied = clipU (0, 0) := by
  obtain ⟨s', h, -, -⟩ := C18_ntrailer Wit.train guide rfl Wit.train.reset rfl
  have e : Wit.train.euler Wit.train.reset.q (Wit.train.inputScaler (clipU (0, 0))) = Wit.train.x0 := by
    rw [clipU_zero]; exact NTrailer.euler_zero Wit.train _ rfl
  exact ⟨s', h, (C38_recovers_ntrailer Wit.train guide rfl [] [] rfl Wit.train.reset s' rfl (0, 0) h
    (by rw [e]; exact Wit.train_clear) (by rw [e]; exact Wit.train_straight)).1⟩

/-- C38, acceleration model: after any rollout, a request whose successor can be braked without touching
an obstacle or jackknifing (as far as the shield predicts) is executed as requested. -/
theorem C38_recovers_acc {T : Acc} (h : T.Shielded) (ha : 0 ≤ T.aMax) (hdt : 0 < T.dt) (ext : Ext Q6)
    (us : List U) (a : U) (p : ℕ → Q6)
    (hp : Spec.Braking T (T.euler (finalState (T.step ext) T.reset us).q (T.inputScaler (clipU a)) T.dt) p)
    (hsafe : ∀ j, ¬ T.checkObstacle (p j) ∧ ¬ T.checkHitch (p j)) :
    (T.step ext (finalState (T.step ext) T.reset us) a).applied = clipU a ∧
    (T.step ext (finalState (T.step ext) T.reset us) a).q =
      T.euler (finalState (T.step ext) T.reset us).q (T.inputScaler (clipU a)) T.dt := by
  have hb := final_inBackup (step := T.step ext) (fun _ _ => rfl) us T.reset rfl
  generalize finalState (T.step ext) T.reset us = s at *
  obtain ⟨e1, e2⟩ := checkSafety_braking ha hdt hp
  have ho : ¬ T.overrides s.q a := by
    rw [Acc.overrides_iff h, not_or]
    refine ⟨fun hc => ?_, fun hc => ?_⟩
    · obtain ⟨j, -, hj⟩ := e1.mp hc
      exact (hsafe j).1 hj
    · obtain ⟨j, -, hj⟩ := e2.mp hc
      exact (hsafe j).2 hj
  rw [Acc.step_applied h ext s hb, Acc.step_q h ext s hb, if_neg ho, if_neg ho]
  exact ⟨rfl, rfl⟩

/-- The first throttle step towards the pole, without the pole. -/
example (ext : Ext Q6) : ((accDefault [] (straight 0 0)).step ext (accDefault [] (straight 0 0)).reset
    (1, 0)).applied = clipU (1, 0) := by
  obtain ⟨p, hp⟩ := braking_exists (accDefault [] (straight 0 0))
    ((accDefault [] (straight 0 0)).euler (straight 0 0) ((accDefault [] (straight 0 0)).inputScaler (clipU (1, 0)))
      (accDefault [] (straight 0 0)).dt)
  refine (C38_recovers_acc (T := accDefault [] (straight 0 0)) (accDefault_shielded _ _)
    (by norm_num [accDefault]) (by norm_num [accDefault, Params.default]) ext [] (1, 0) p hp ?_).1
  have hst : ∀ j, ∃ x v, p j = straight x v := by
    intro j
    induction j with
    | zero =>
      rw [hp.start]
      exact ⟨_, _, straight_proposal [] (straight 0 0) 0 0⟩
    | succ j ih =>
      obtain ⟨x, v, e⟩ := ih
      by_cases hm : 0.01 < |(p j).v|
      · rw [(eulerAcc_iff ..).mp (hp.move j hm), e]
        exact ⟨_, _, straight_euler [] (straight 0 0) x v _ 1⟩
      · rw [hp.rest j (not_lt.mp hm)]
        exact ⟨x, v, e⟩
  intro j
  obtain ⟨x, v, e⟩ := hst j
  rw [e]
  refine ⟨?_, straight_hitch _ _ _⟩
  simp [Acc.checkObstacle, TT2d.checkObstacle, accDefault, Params.default]

/-! ## C23: strictly backward, acceleration model -/

/-- C23, acceleration model, partial: without shields a vehicle that does not start forward never
moves forward under preference -2. -/
theorem C23_acc_backward_partial (T : Acc) (ext : Ext Q6) (xref : List (Q4 × Bool))
    (hp : T.enableProjection = false) (hgT : T.enableGuidance = false)
    (h1 : T.shieldCollision = false) (h2 : T.shieldHitch = false)
    (hv : 0 ≤ T.vMax) (hdt : 0 ≤ T.dt) (ha : 0 < T.aMax) (hv0 : T.x0.v ≤ 0)
    (normal : Key → ℕ → ℕ → ℕ → ℕ → U) (cfg : Cfg)
    (hs : Spec.ScheduleOK cfg) (hg : cfg.enableGuidance = false) (hm : cfg.motionPreference = -2) :
    (∀ u ∈ (runDiffusion (T.planEnv ext xref) normal cfg).Y0, u.1 ≤ 0) ∧
    List.IsChain (fun q q' : Q6 => Spec.MovesBackward (q.px, q.py) q.th1 (q'.px, q'.py))
      (runDiffusion (T.planEnv ext xref) normal cfg).xs := by
  have hst : ∀ (s : St Q6) (u : U), s.inBackup = false →
      (T.step ext s u).q = T.euler s.q (T.inputScaler (clipU u)) T.dt ∧
      (T.step ext s u).applied = clipU u := by
    intro s u hb
    unfold Acc.step Acc.stepInternal Acc.naive
    simp [hp, hgT, h1, h2, hb]
  have hr : RecordsClipped (T.step ext) (fun s => s.inBackup = false) :=
    fun s u hb => Or.inr (hst s u hb).2
  have h := run_inRange (T.planEnv ext xref) normal cfg hs.1 hs.2.1 hs.2.2 (a := -1) (b := 0)
    (by norm_num) le_rfl (fun s => s.inBackup = false) rfl (fun s u hb => hb)
    (fun s u hi => hr.backward s _ hi (by rw [hm]; exact clipSample_neg_two u))
    (fun s u hi hu => hr.backward s u hi hu.2.1)
  refine ⟨fun u hu => (h.2.1 u hu).2.1, ?_⟩
  rw [run_xs _ _ _ hg]
  have key : ∀ (us : List U) (s : St Q6), s.inBackup = false → s.q.v ≤ 0 → (∀ u ∈ us, u.1 ≤ 0) →
      List.IsChain (fun q q' : Q6 => Spec.MovesBackward (q.px, q.py) q.th1 (q'.px, q'.py))
        (s.q :: (scanStates (T.step ext) s us).map St.q) := by
    intro us
    induction us with
    | nil => intro s _ _ _; exact List.isChain_singleton _
    | cons u us ih =>
      intro s hb hsv hus
      have hq := (hst s u hb).1
      simp only [scanStates, List.map_cons]
      refine List.isChain_cons_cons.mpr ⟨?_, ih _ hb ?_ (fun v hv' => hus v (by simp [hv']))⟩
      · rw [hq]
        refine ⟨T.dt * clip s.q.v (-T.vMax) T.vMax, ?_, ?_⟩
        · refine mul_nonpos_of_nonneg_of_nonpos hdt ?_
          unfold clip
          exact (min_le_left _ _).trans (max_le hsv (by linarith))
        · simp only [Acc.euler, Q6.axpy, Acc.dynamics]
          ext <;> simp only <;> ring
      · rw [hq]
        simp only [Acc.euler, Q6.axpy, Acc.dynamics, Acc.inputScaler, clipU]
        have := clip_nonpos (hus u (by simp))
        have h3 := mul_nonpos_of_nonpos_of_nonneg this ha.le
        have := mul_nonpos_of_nonneg_of_nonpos hdt h3
        linarith
  exact key _ _ rfl hv0 (fun u hu => (h.2.1 u hu).2.1)

/-- C23, acceleration model with shields, partial: a single sample with accelerations in `[-1,0]`
executed from a state that is not moving forward never moves forward, whatever the shield does.  As for
`C23_acc_sample_partial`, the averaged plan is missing. -/
theorem C23_acc_backward_sample_partial (T : Acc) (ext : Ext Q6) (hT : T.Shielded) (hv : 0 ≤ T.vMax)
    (hdt : 0 < T.dt) (ha : 0 < T.aMax) (us : List U) (hus : ∀ u ∈ us, u.1 ≤ 0) (s : St Q6)
    (hb : s.inBackup = false) (hs : s.q.v ≤ 0) :
    List.IsChain (fun q q' : Q6 => Spec.MovesBackward (q.px, q.py) q.th1 (q'.px, q'.py))
      (s.q :: (scanStates (T.step ext) s us).map St.q) := by
  induction us generalizing s with
  | nil => exact List.isChain_singleton _
  | cons u us ih =>
    have hmove : ∀ w, Spec.MovesBackward (s.q.px, s.q.py) s.q.th1
        ((T.euler s.q w T.dt).px, (T.euler s.q w T.dt).py) := by
      intro w
      refine ⟨T.dt * clip s.q.v (-T.vMax) T.vMax, ?_, ?_⟩
      · refine mul_nonpos_of_nonneg_of_nonpos hdt.le ?_
        unfold clip
        exact (min_le_left _ _).trans (max_le hs (by linarith))
      · simp only [Acc.euler, Q6.axpy, Acc.dynamics]
        ext <;> simp only <;> ring
    have hq := Acc.step_q hT ext s hb u
    simp only [scanStates, List.map_cons]
    refine List.isChain_cons_cons.mpr ⟨?_, ih (fun v hv' => hus v (by simp [hv'])) _ hb ?_⟩
    · rw [hq]
      split
      · exact hmove _
      · exact hmove _
    · rw [hq]
      split
      · rw [Acc.euler_v]
        unfold Acc.uBackupScaled Acc.decelSign Acc.vThr
        rw [Acc.aBackup_eq ha.le hdt, if_neg (by linarith), abs_of_nonpos hs]
        have hd : T.dt * (-s.q.v / T.dt) = -s.q.v := mul_div_cancel₀ _ hdt.ne'
        have hm : min (-s.q.v / T.dt) T.aMax ≤ -s.q.v / T.dt := min_le_left _ _
        have := mul_le_mul_of_nonneg_left hm hdt.le
        split_ifs
        · simp only [one_mul]; linarith
        · simpa using hs
      · unfold Acc.proposal
        rw [Acc.euler_v]
        simp only [Acc.inputScaler, clipU]
        have := clip_nonpos (hus u (by simp))
        have h3 := mul_nonpos_of_nonpos_of_nonneg this ha.le
        have := mul_nonpos_of_nonneg_of_nonpos hdt.le h3
        linarith

/-- The vehicle of `C12_refuted`, reversing towards a pole. -/
example := fun ext us hus => C23_acc_backward_sample_partial reverseAcc ext (accDefault_shielded _ _)
  (by norm_num [reverseAcc, accDefault, Params.default]) (by norm_num [reverseAcc, accDefault, Params.default])
  (by norm_num [reverseAcc, accDefault]) us hus reverseAcc.reset rfl
  (by norm_num [reverseAcc, accDefault, Acc.reset, straight])

end Mbd
