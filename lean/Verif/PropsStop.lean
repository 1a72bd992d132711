import Verif.PropsPenalty
import Verif.PropsAcc

/-!
# Stopping (C11, C12): when the prediction runs at the rate of the simulation
-/

namespace Mbd

open Real Classical

/-- The next state of a vehicle that brakes as hard as it can without reversing, at rate `h = 1`, and
stands when it is slower than 0.01 m/s. -/
noncomputable def brakeStep (T : Acc) (q : Q6) : Q6 :=
  if 0.01 < |q.v| then T.euler q (if 0 < q.v then -(min |q.v| T.aMax) else min |q.v| T.aMax, 0) 1 else q

theorem euler_pose_eq (T : Acc) (q : Q6) (u u' : U) (dt : ℝ) :
    (T.euler q u dt).pose = (T.euler q u' dt).pose := rfl

/-- The poses of the real braking manoeuvre are among the predicted ones. -/
theorem brake_poses {T : Acc} (ha : 0 < T.aMax) (hdt : T.dt = 1) {q : Q6} {p : ℕ → Q6}
    (hp : Spec.Braking T q p) {K : ℕ} (hK : |q.v| ≤ K * T.aMax) (n : ℕ) :
    ∃ j ≤ (if |q.v| ≤ 0.01 then 0 else K), ((brakeStep T)^[n] q).pose = (p j).pose := by
  by_cases hslow : |q.v| ≤ 0.01
  · rw [if_pos hslow]
    refine ⟨0, le_rfl, ?_⟩
    have : ∀ n, (brakeStep T)^[n] q = q := by
      intro n
      induction n with
      | zero => rfl
      | succ n ih =>
        rw [Function.iterate_succ_apply', ih]
        unfold brakeStep
        rw [if_neg (not_lt.mpr hslow)]
    rw [this, hp.start]
  rw [if_neg hslow]
  push Not at hslow
  obtain ⟨s, hs, hqv⟩ : ∃ s : ℝ, (s = 1 ∨ s = -1) ∧ q.v = s * |q.v| := by
    rcases abs_cases q.v with ⟨e, h⟩ | ⟨e, h⟩
    · exact ⟨1, Or.inl rfl, by rw [e]; ring⟩
    · exact ⟨-1, Or.inr rfl, by rw [e]; ring⟩
  set w0 := |q.v| with hw0
  set A := min w0 T.aMax with hA
  have hA0 : 0 < A := lt_min (by linarith) ha
  have main : (n ≤ K ∧ (brakeStep T)^[n] q = p n ∧ (p n).v = s * (w0 - n * A) ∧ 0.01 < w0 - n * A) ∨
      (|((brakeStep T)^[n] q).v| ≤ 0.01 ∧ ∃ j ≤ K, ((brakeStep T)^[n] q).pose = (p j).pose) := by
    induction n with
    | zero => exact Or.inl ⟨Nat.zero_le _, hp.start.symm, by rw [hp.start]; simpa using hqv, by simpa using hslow⟩
    | succ n ih =>
      rw [Function.iterate_succ_apply']
      rcases ih with ⟨h1, h2, h3, h4⟩ | ⟨h1, h2⟩
      · set w := w0 - n * A with hw
        have habs : |(p n).v| = w := by
          rw [h3]
          rcases hs with rfl | rfl
          · rw [one_mul, abs_of_pos (by linarith)]
          · rw [neg_one_mul, abs_neg, abs_of_pos (by linarith)]
        have hpos : (0 < (p n).v) = (0 < q.v) := by
          rw [h3, hqv]
          rcases hs with rfl | rfl
          · apply propext; constructor <;> intro <;> linarith
          · apply propext; constructor <;> intro <;> linarith
        have hmv := (eulerAcc_iff ..).mp (hp.move n (by rw [habs]; exact h4))
        rw [hdt, div_one, ← hw0] at hmv
        have hb : brakeStep T ((brakeStep T)^[n] q) =
            T.euler (p n) (if 0 < q.v then -(min w T.aMax) else min w T.aMax, 0) 1 := by
          rw [h2]
          unfold brakeStep
          rw [habs, if_pos h4]
          simp only [hpos]
        have hsgn : ∀ x : ℝ, (if 0 < q.v then -x else x) = -(s * x) := by
          intro x
          rcases hs with rfl | rfl
          · rw [if_pos (by rw [hqv]; linarith)]; ring
          · rw [if_neg (by rw [hqv]; linarith)]; ring
        rw [hsgn] at hmv hb
        have hn : n + 1 ≤ K := by
          have h5 : (n : ℝ) * A < w0 := by linarith
          rcases le_total w0 T.aMax with h6 | h6
          · have hAw : A = w0 := min_eq_left h6
            rw [hAw] at h5
            have : (n : ℝ) < 1 := by
              by_contra hc
              push Not at hc
              have : (1 : ℝ) * w0 ≤ n * w0 := mul_le_mul_of_nonneg_right hc (by linarith)
              linarith
            have : n = 0 := by
              have : n < 1 := by exact_mod_cast this
              omega
            subst this
            by_contra hc
            have : K = 0 := by omega
            rw [this] at hK
            simp at hK
            linarith
          · have hAw : A = T.aMax := min_eq_right h6
            rw [hAw] at h5
            have : (n : ℝ) < K := lt_of_mul_lt_mul_right (h5.trans_le hK) ha.le
            exact_mod_cast this
        have hpose : (brakeStep T ((brakeStep T)^[n] q)).pose = (p (n + 1)).pose := by
          rw [hb, hmv]; rfl
        have hv1 : (brakeStep T ((brakeStep T)^[n] q)).v = s * (w - min w T.aMax) := by
          rw [hb, Acc.euler_v, h3]; simp only; ring
        by_cases hstop : w - min w T.aMax ≤ 0.01
        · refine Or.inr ⟨?_, n + 1, hn, hpose⟩
          rw [hv1]
          have : 0 ≤ w - min w T.aMax := sub_nonneg.mpr (min_le_left _ _)
          rcases hs with rfl | rfl
          · rw [one_mul, abs_of_nonneg this]; exact hstop
          · rw [neg_one_mul, abs_neg, abs_of_nonneg this]; exact hstop
        · push Not at hstop
          have h7 : T.aMax < w := by
            by_contra hc
            rw [min_eq_left (not_lt.mp hc)] at hstop
            linarith
          have h8 : A = T.aMax := min_eq_right (by
            have : 0 ≤ (n : ℝ) * A := by positivity
            linarith)
          have h9 : min w T.aMax = A := by rw [min_eq_right h7.le, h8]
          refine Or.inl ⟨hn, ?_, ?_, ?_⟩
          · rw [hb, hmv, h9]
          · rw [hmv, Acc.euler_v, h3]
            push_cast
            simp only [hw]
            ring
          · push_cast
            rw [h9] at hstop
            linarith
      · have : brakeStep T ((brakeStep T)^[n] q) = (brakeStep T)^[n] q := by
          generalize (brakeStep T)^[n] q = x at h1
          unfold brakeStep
          rw [if_neg (not_lt.mpr h1)]
        rw [this]
        exact Or.inr ⟨h1, h2⟩
  rcases main with ⟨h1, h2, -, -⟩ | ⟨-, h⟩
  · exact ⟨n, h1, by rw [h2]⟩
  · exact h

/-- **C11, partial (prediction and simulation at the same rate).** With a simulation step of 1 s, the rate
of the shield's prediction, a rollout from a checked start at rest passes both checks throughout, unless
the shield intervened in one of three situations: the vehicle was crawling (at most 0.01 m/s, where it does not
brake), it was reversing and the request would have stopped it (where it does not brake either), or it was
faster than the prediction can stop.  `C11_refuted` shows that the step length matters. -/
theorem C11_unit_step_partial {T : Acc} (h : T.Shielded) (hv : 0 ≤ T.vMax) (ha : 0 < T.aMax) (hdt : T.dt = 1)
    (ext : Ext Q6) (hrest : T.x0.v = 0) (h0 : ¬ T.checkObstacle T.x0) (h1 : ¬ T.checkHitch T.x0)
    (us : List U) :
    (∀ s' ∈ scanStates (T.step ext) T.reset us, ¬ T.checkObstacle s'.q ∧ ¬ T.checkHitch s'.q) ∨
    ∃ pre a post, us = pre ++ a :: post ∧ T.overrides (finalState (T.step ext) T.reset pre).q a ∧
      ((0 < |(finalState (T.step ext) T.reset pre).q.v| ∧ |(finalState (T.step ext) T.reset pre).q.v| ≤ 0.01) ∨
       ((finalState (T.step ext) T.reset pre).q.v < -0.01 ∧
         -0.01 ≤ (finalState (T.step ext) T.reset pre).q.v + (clipU a).1 * T.aMax) ∨
       ⌊2 * T.vMax / T.aMax⌋₊ * T.aMax < |(finalState (T.step ext) T.reset pre).q.v|) := by
  have hdt0 : 0 < T.dt := by rw [hdt]; norm_num
  set K := ⌊2 * T.vMax / T.aMax⌋₊ with hKdef
  set Fine : Q6 → Prop := fun q => ¬ T.checkObstacle q ∧ ¬ T.checkHitch q with hFine
  have fine_pose : ∀ q q' : Q6, q.pose = q'.pose → Fine q → Fine q' := by
    intro q q' e hq
    simp only [hFine, Acc.checkObstacle, Acc.checkHitch, ← e] at hq ⊢
    exact hq
  -- an accepted state can be braked safely
  have accepted : ∀ q, (T.checkSafety q).1 ≠ true → (T.checkSafety q).2 ≠ true → |q.v| ≤ K * T.aMax →
      ∀ n, Fine ((brakeStep T)^[n] q) := by
    intro q c1 c2 hK n
    obtain ⟨p, hp⟩ := braking_exists T q
    obtain ⟨e1, e2⟩ := checkSafety_braking ha.le hdt0 hp
    obtain ⟨j, hj, e⟩ := brake_poses ha hdt hp hK n
    have hj' : j ≤ predictedSeconds T q.v := hj
    refine fine_pose _ _ e.symm ⟨fun hc => c1 (e1.mpr ⟨j, hj', hc⟩), fun hc => c2 (e2.mpr ⟨j, hj', hc⟩)⟩
  rcases scan_or_bad (step := T.step ext)
    (fun s => s.inBackup = false ∧ Fine s.q ∧ (|s.q.v| ≤ K * T.aMax → ∀ n, Fine ((brakeStep T)^[n] s.q)))
    (fun s a => T.overrides s.q a ∧ ((0 < |s.q.v| ∧ |s.q.v| ≤ 0.01) ∨
      (s.q.v < -0.01 ∧ -0.01 ≤ s.q.v + (clipU a).1 * T.aMax) ∨ K * T.aMax < |s.q.v|))
    (fun s a hs hbad => by
      obtain ⟨hb0, hf, hj⟩ := hs
      refine ⟨by rw [Acc.step_inBackup]; exact hb0, ?_⟩
      rw [Acc.step_q h ext s hb0 a]
      by_cases ho : T.overrides s.q a
      · rw [if_pos ho]
        have b1 : 0 < |s.q.v| → ¬ |s.q.v| ≤ 0.01 := fun x y => hbad ⟨ho, Or.inl ⟨x, y⟩⟩
        have b2 : s.q.v < -0.01 → ¬ -0.01 ≤ s.q.v + (clipU a).1 * T.aMax :=
          fun x y => hbad ⟨ho, Or.inr (Or.inl ⟨x, y⟩)⟩
        have b3 : ¬ K * T.aMax < |s.q.v| := fun x => hbad ⟨ho, Or.inr (Or.inr x)⟩
        by_cases hz : s.q.v = 0
        · -- standing: the pose does not change and the speed stays zero
          have e1 : (T.euler s.q (T.uBackupScaled s.q.v (T.proposal s.q a).v) T.dt).pose = s.q.pose :=
            Acc.euler_pose_of_rest T hv _ hz _ _
          have e2 : (T.euler s.q (T.uBackupScaled s.q.v (T.proposal s.q a).v) T.dt).v = 0 := by
            rw [Acc.euler_v, hz]
            unfold Acc.uBackupScaled
            rw [Acc.aBackup_eq ha.le hdt0]
            simp [ha.le]
          refine ⟨fine_pose _ _ e1.symm hf, fun _ n => ?_⟩
          have : ∀ n, (brakeStep T)^[n] (T.euler s.q (T.uBackupScaled s.q.v (T.proposal s.q a).v) T.dt) =
              T.euler s.q (T.uBackupScaled s.q.v (T.proposal s.q a).v) T.dt := by
            intro n
            induction n with
            | zero => rfl
            | succ n ih =>
              rw [Function.iterate_succ_apply', ih]
              unfold brakeStep
              rw [if_neg (by rw [e2]; norm_num)]
          rw [this]
          exact fine_pose _ _ e1.symm hf
        · have hpos : 0 < |s.q.v| := abs_pos.mpr hz
          have hfast : 0.01 < |s.q.v| := not_le.mp (b1 hpos)
          have hK : |s.q.v| ≤ K * T.aMax := not_lt.mp b3
          have e : T.euler s.q (T.uBackupScaled s.q.v (T.proposal s.q a).v) T.dt = brakeStep T s.q := by
            have hprop : (T.proposal s.q a).v = s.q.v + (clipU a).1 * T.aMax := by
              unfold Acc.proposal
              rw [Acc.euler_v, hdt]
              simp only [Acc.inputScaler]
              ring
            unfold brakeStep Acc.uBackupScaled Acc.decelSign Acc.vThr
            rw [if_pos hfast, Acc.aBackup_eq ha.le hdt0, hdt, div_one]
            rcases abs_cases s.q.v with ⟨e, h0⟩ | ⟨e, h0⟩
            · rw [if_pos (by linarith), if_pos (by linarith)]
              ring_nf
            · have := b2 (by linarith)
              rw [if_neg (by linarith), if_pos (by rw [hprop]; exact not_le.mp this),
                if_neg (by linarith)]
              ring_nf
          rw [e]
          have hn : ∀ n, Fine ((brakeStep T)^[n] (brakeStep T s.q)) := by
            intro n
            have := hj hK (n + 1)
            rwa [Function.iterate_succ_apply] at this
          exact ⟨hn 0, fun _ => hn⟩
      · rw [if_neg ho]
        rw [Acc.overrides_iff h, not_or] at ho
        have hs' := T.checkSafety_self (T.proposal s.q a)
        exact ⟨⟨fun hc => ho.1 (hs'.1 hc), fun hc => ho.2 (hs'.2 hc)⟩, fun hK => accepted _ ho.1 ho.2 hK⟩)
    us T.reset ⟨rfl, ⟨h0, h1⟩, fun _ n => by
      have : ∀ n, (brakeStep T)^[n] T.x0 = T.x0 := by
        intro n
        induction n with
        | zero => rfl
        | succ n ih =>
          rw [Function.iterate_succ_apply', ih]
          unfold brakeStep
          rw [if_neg (by rw [hrest]; norm_num)]
      show Fine ((brakeStep T)^[n] T.x0)
      rw [this]
      exact ⟨h0, h1⟩⟩ with h' | ⟨pre, a, post, e, _, hb⟩
  · exact Or.inl fun s' hs' => (h' s' hs').2.1
  · exact Or.inr ⟨pre, a, post, e, hb⟩

theorem throttle_speed {T : Acc} (h : T.Shielded) (ha : 0.01 < T.aMax) (hdt : T.dt = 1) (ext : Ext Q6) :
    ∀ (us : List U), (∀ u ∈ us, u.1 = 0 ∨ u.1 = 1) → ∀ (s : St Q6) (m : ℕ), s.inBackup = false →
      s.q.v = m * T.aMax → ∃ k ≤ m + us.length, (finalState (T.step ext) s us).q.v = k * T.aMax
  | [], _, s, m, _, hm => ⟨m, by simp, hm⟩
  | a :: us, hus, s, m, hb, hm => by
    have hdt0 : 0 < T.dt := by rw [hdt]; norm_num
    have step : ∃ k ≤ m + 1, (T.step ext s a).q.v = k * T.aMax := by
      rw [Acc.step_q h ext s hb a]
      split
      · rw [Acc.euler_v]
        unfold Acc.uBackupScaled Acc.decelSign Acc.vThr
        rw [Acc.aBackup_eq (by linarith) hdt0, hdt, div_one, hm]
        rcases m with _ | m
        · refine ⟨0, by omega, ?_⟩
          have hmin : min 0 T.aMax = 0 := min_eq_left (by linarith)
          have hno : ¬ ((0.01 : ℝ) < 0) := by norm_num
          simp [hmin, hno]
        · have h1 : (T.aMax : ℝ) ≤ ((m + 1 : ℕ) : ℝ) * T.aMax := by
            push_cast
            have : (0 : ℝ) ≤ m * T.aMax := mul_nonneg (Nat.cast_nonneg _) (by linarith)
            linarith
          refine ⟨m, by omega, ?_⟩
          rw [if_pos (by linarith), abs_of_pos (by linarith), min_eq_right h1]
          push_cast
          ring
      · unfold Acc.proposal
        rw [Acc.euler_v, hdt, hm]
        simp only [Acc.inputScaler, clipU]
        rcases hus a (by simp) with e | e
        · refine ⟨m, by omega, ?_⟩
          rw [e]
          norm_num [clip]
        · refine ⟨m + 1, le_rfl, ?_⟩
          rw [e]
          norm_num [clip]
          ring
    obtain ⟨k, hk, e⟩ := step
    obtain ⟨j, hj, e'⟩ := throttle_speed h ha hdt ext us (fun u hu => hus u (by simp [hu])) (T.step ext s a) k
      (by rw [Acc.step_inBackup]; exact hb) e
    exact ⟨j, by simp only [List.length_cons]; omega, e'⟩

/-- **C11, partial (full throttle).** At a simulation step of 1 s, from a checked start at rest, requests
of full throttle or none (with any steering) never bring the vehicle into a state that fails a check, however
often the shield intervenes, up to the length of the prediction. -/
theorem C11_throttle_partial {T : Acc} (h : T.Shielded) (hv : 0 ≤ T.vMax) (ha : 0.01 < T.aMax) (hdt : T.dt = 1)
    (ext : Ext Q6) (hrest : T.x0.v = 0) (h0 : ¬ T.checkObstacle T.x0) (h1 : ¬ T.checkHitch T.x0)
    (us : List U) (hus : ∀ u ∈ us, u.1 = 0 ∨ u.1 = 1) (hlen : us.length ≤ ⌊2 * T.vMax / T.aMax⌋₊) :
    ∀ s' ∈ scanStates (T.step ext) T.reset us, ¬ T.checkObstacle s'.q ∧ ¬ T.checkHitch s'.q := by
  rcases C11_unit_step_partial h hv (by linarith) hdt ext hrest h0 h1 us with h' | ⟨pre, a, post, e, -, hbad⟩
  · exact h'
  exfalso
  obtain ⟨k, hk, ek⟩ := throttle_speed h ha hdt ext pre (fun u hu => hus u (by rw [e]; simp [hu])) T.reset 0 rfl
    (by show T.x0.v = _; rw [hrest]; simp)
  rw [ek] at hbad
  have hnn : (0 : ℝ) ≤ k * T.aMax := mul_nonneg (Nat.cast_nonneg _) (by linarith)
  rw [abs_of_nonneg hnn] at hbad
  rcases hbad with ⟨b1, b2⟩ | ⟨b1, -⟩ | b
  · have hk1 : 1 ≤ k := by
      by_contra hc
      have : k = 0 := by omega
      rw [this] at b1
      simp at b1
    have : (1 : ℝ) * T.aMax ≤ k * T.aMax := mul_le_mul_of_nonneg_right (by exact_mod_cast hk1) (by linarith)
    linarith
  · linarith
  · have : (⌊2 * T.vMax / T.aMax⌋₊ : ℝ) < k := lt_of_mul_lt_mul_right b (by linarith)
    have hlt : ⌊2 * T.vMax / T.aMax⌋₊ < k := by exact_mod_cast this
    have : pre.length < us.length := by rw [e]; simp
    omega

/-- The vehicle of `C11_refuted` (a pole 15 cm ahead of the front face, started at rest), simulated at 1 s
steps. -/
noncomputable def slowPole : Acc := { poleAcc with dt := 1 }

theorem slowPole_start : ¬ slowPole.checkObstacle slowPole.x0 ∧ ¬ slowPole.checkHitch slowPole.x0 :=
  ⟨straight_free (X := 4.28) (r := 0.1) (by norm_num) (by norm_num) (straight 0 0) _ (Or.inl (by norm_num)),
    straight_hitch _ _ _⟩

/-- The same requests that drive `poleAcc` into the pole are safe here. -/
example (ext : Ext Q6) : ∀ s' ∈ scanStates (slowPole.step ext) slowPole.reset [(1, 0), (1, 0)],
    ¬ slowPole.checkObstacle s'.q ∧ ¬ slowPole.checkHitch s'.q :=
  C11_throttle_partial (T := slowPole) ⟨rfl, rfl, rfl, rfl⟩ (by norm_num [slowPole, poleAcc, accDefault, Params.default])
    (by norm_num [slowPole, poleAcc, accDefault]) rfl ext rfl slowPole_start.1 slowPole_start.2 _ (by simp)
    (by
      have : slowPole.maxRolloutSteps = 3 := accDefault_steps [⟨4.28, 0, 0.1⟩] (straight 0 0)
      unfold Acc.maxRolloutSteps Acc.rolloutDt at this
      rw [sub_zero, mul_one] at this
      rw [this]; simp)

/-! ## Braking while reversing (C12) -/

/-- Every step of the rollout is overridden while reversing, by requests that keep reversing. -/
def overriddenBackward (T : Acc) (ext : Ext Q6) : St Q6 → List U → Prop
  | _, [] => True
  | s, a :: us => T.overrides s.q a ∧ s.q.v < -0.01 ∧ (T.proposal s.q a).v < -0.01 ∧
      overriddenBackward T ext (T.step ext s a) us

/-- **C12, partial (repeated braking while reversing).** As `C12_stops_partial`, backward: after `n`
consecutive overrides of requests that keep reversing the speed has risen by `n * a_max * dt` or reached
zero.  Missing: requests that would stop the vehicle, for which no brake is applied (`C12_refuted`). -/
theorem C12_stops_backward_partial {T : Acc} (h : T.Shielded) (ha : 0 ≤ T.aMax) (hdt : 0 < T.dt)
    (ext : Ext Q6) : ∀ (us : List U) (s : St Q6), s.inBackup = false →
      overriddenBackward T ext s us → s.q.v ≤ 0 →
      (finalState (T.step ext) s us).q.v = min 0 (s.q.v + us.length * (T.aMax * T.dt))
  | [], s, _, _, hv => by simp [finalState, hv]
  | a :: us, s, hb, ⟨ho, hv, hpv, hrest⟩, _ => by
    have hstep := (C12_partial h ha hdt ext s hb a ho (Or.inr ⟨hv, hpv⟩)).1
    unfold Spec.brake at hstep
    rw [if_neg (by linarith)] at hstep
    have ih := C12_stops_backward_partial h ha hdt ext us (T.step ext s a)
      (by rw [Acc.step_inBackup]; exact hb) hrest (by rw [hstep]; exact min_le_left _ _)
    show (finalState (T.step ext) (T.step ext s a) us).q.v = _
    rw [ih, hstep]
    have hd : 0 ≤ T.aMax * T.dt := by positivity
    have hl : (0 : ℝ) ≤ us.length * (T.aMax * T.dt) := by positivity
    push_cast [List.length_cons]
    rcases le_total 0 (s.q.v + T.aMax * T.dt) with hz | hz
    · rw [min_eq_left hz, min_eq_left (by linarith), min_eq_left (by linarith)]
    · rw [min_eq_right hz]; congr 1; ring

/-- Reversing at 0.4 m/s towards a pole, coasting requested: the shield intervenes and stops the vehicle. -/
theorem reverse_coast : reverseAcc.proposal (straight 0 (-0.4)) (0, 0) = straight (-0.08) (-0.4) := by
  unfold reverseAcc Acc.proposal
  rw [show clipU (0, 0) = (0, 0) by simp [clipU, clip]]
  rw [show Acc.inputScaler (accDefault [⟨-7.4, 0, 0.1⟩] (straight 0 (-0.4))) (0, 0) = (0, 0) by
    simp [Acc.inputScaler], straight_euler, show clip (-0.4 : ℝ) (-3) 3 = -0.4 from
    clip_of_mem (by norm_num) (by norm_num)]
  simp only [accDefault, Params.default]
  congr 1 <;> norm_num

example (ext : Ext Q6) : (finalState (reverseAcc.step ext)
    (⟨straight 0 (-0.4), straight 0 (-0.4), 0, 0, (0, 0), false⟩ : St Q6) [(0, 0)]).q.v = 0 := by
  have ho : reverseAcc.overrides (straight 0 (-0.4)) (0, 0) := by
    rw [Acc.overrides_iff (T := reverseAcc) (accDefault_shielded _ _)]
    left
    apply (Acc.checkSafety_self _ _).1
    rw [reverse_coast]
    exact reverse_flagged _
  rw [C12_stops_backward_partial (T := reverseAcc) (accDefault_shielded _ _)
    (by norm_num [reverseAcc, accDefault]) (by norm_num [reverseAcc, accDefault, Params.default]) ext [(0, 0)]
    ⟨straight 0 (-0.4), straight 0 (-0.4), 0, 0, (0, 0), false⟩ rfl
    ⟨ho, by norm_num [straight], by rw [reverse_coast]; norm_num [straight], trivial⟩ (by norm_num [straight])]
  norm_num [straight, reverseAcc, accDefault, Params.default]

/-- **C12, partial (number of interventions).** While moving forward at most `v / (a_max dt) + 1`
consecutive steps can be overridden before the vehicle is slower than 0.01 m/s. -/
theorem C12_count_partial {T : Acc} (h : T.Shielded) (ha : 0 < T.aMax) (hdt : 0 < T.dt) (ext : Ext Q6)
    (us : List U) (s : St Q6) (hb : s.inBackup = false) (ho : overriddenForward T ext s us)
    (hv : 0 ≤ s.q.v) (hne : us ≠ []) : us.length * (T.aMax * T.dt) < s.q.v + T.aMax * T.dt := by
  have hd : 0 < T.aMax * T.dt := by positivity
  -- the state before the last step is still moving
  have key : ∀ (us : List U) (s : St Q6), s.inBackup = false → overriddenForward T ext s us → 0 ≤ s.q.v →
      us ≠ [] → us.length * (T.aMax * T.dt) < s.q.v + T.aMax * T.dt := by
    intro us
    induction us with
    | nil => intro s _ _ _ hne; exact absurd rfl hne
    | cons a us ih =>
      intro s hb ho hv _
      obtain ⟨ho1, hv1, hrest⟩ := ho
      rcases us with _ | ⟨b, us⟩
      · simp only [List.length_singleton, Nat.cast_one]
        linarith
      · have hstep := (C12_partial h ha.le hdt ext s hb a ho1 (Or.inl hv1)).1
        unfold Spec.brake at hstep
        rw [if_pos (by linarith)] at hstep
        have hmov := hrest.2.1
        have hle : 0 ≤ (T.step ext s a).q.v := by rw [hstep]; exact le_max_left _ _
        have := ih (T.step ext s a) (by rw [Acc.step_inBackup]; exact hb) hrest hle (by simp)
        have hval : (T.step ext s a).q.v = s.q.v - T.aMax * T.dt := by
          rw [hstep]
          apply max_eq_right
          by_contra hc
          rw [max_eq_left (not_le.mp hc).le] at hstep
          linarith
        rw [hval] at this
        push_cast [List.length_cons] at this ⊢
        linarith
  exact key us s hb ho hv hne

/-- The pole vehicle at 0.4 m/s: one override at most. -/
example (ext : Ext Q6) : ((1 : ℕ) : ℝ) * (poleAcc.aMax * poleAcc.dt) < 0.4 + poleAcc.aMax * poleAcc.dt := by
  have := C12_count_partial (T := poleAcc) (accDefault_shielded _ _) (by norm_num [poleAcc, accDefault])
    (by norm_num [poleAcc, accDefault, Params.default]) ext [(1, 0)]
    ⟨straight 0 0.4, straight 0 0.4, 0, 0, (0, 0), false⟩ rfl
    ⟨pole_second_overridden.1, by norm_num [straight], trivial⟩ (by norm_num [straight]) (by simp)
  exact this

end Mbd
