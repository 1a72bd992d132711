import Verif.AccLemmas
import Verif.PropsShield
import Verif.PropsSafe

/-!
# Properties of the acceleration-controlled robot: C11, C12, C13, C14, C16

All five are false as stated; each has a refutation by a concrete run and a partial theorem.
-/

namespace Mbd

open Real Classical

/-! ## a straight-driving default vehicle with one thin pole -/

/-- Default acceleration-controlled tractor-trailer (constructor defaults, both shields on) with the
given obstacles and start. -/
noncomputable def accDefault (circles : List Circle) (x0 : Q6) : Acc :=
  { toParams := Params.default circles [], aMax := 2, omegaMax := 1, x0 := x0
    xg := ⟨9, 0, 0, 0, 0, 0⟩ }

theorem accDefault_shielded (circles : List Circle) (x0 : Q6) : (accDefault circles x0).Shielded :=
  ⟨rfl, rfl, rfl, rfl⟩

/-- Straight pose, standing at `x` on the x-axis, heading 0. -/
def straight (x v : ℝ) : Q6 := ⟨x, 0, 0, 0, v, 0⟩

theorem not_rectCircle_axis {X r a hl hw : ℝ} (h1 : 5e-5 ≤ hl) (h2 : 5e-5 ≤ hw) (hr : 0 ≤ r)
    (hw' : r < hw) (h3 : r < |X - a - hl|) (h4 : r < |X - a + hl|) :
    ¬ rectCircle (boxCorners (a, 0) 0 hl hw) (X, 0) r := by
  rw [rectCircle_iff_outline _ _ h1 h2]
  rintro ⟨p, ⟨s, t, hs, ht, he, rfl⟩, hd⟩
  have hd' : (a + s - X) ^ 2 + t ^ 2 ≤ r ^ 2 := by
    simpa [Spec.disc, Spec.frame] using hd
  rcases he with he | he
  · rcases abs_cases s with ⟨e, _⟩ | ⟨e, _⟩
    · have e' : s = hl := by linarith
      subst e'
      have : |X - a - s| ^ 2 ≤ r ^ 2 := by rw [sq_abs]; nlinarith [sq_nonneg t]
      have := abs_le_of_sq_le_sq' this hr
      linarith [this.2]
    · have e' : s = -hl := by linarith
      subst e'
      have : |X - a + hl| ^ 2 ≤ r ^ 2 := by rw [sq_abs]; nlinarith [sq_nonneg t]
      have := abs_le_of_sq_le_sq' this hr
      linarith [this.2]
  · have e : t ^ 2 = hw ^ 2 := by rw [← sq_abs, he]
    nlinarith [sq_nonneg (a + s - X)]

theorem rectCircle_axis {X r a hl hw : ℝ} (h1 : 5e-5 ≤ hl) (h2 : 5e-5 ≤ hw) (_hr : 0 ≤ r)
    (h3 : |X - a - hl| ≤ r) :
    rectCircle (boxCorners (a, 0) 0 hl hw) (X, 0) r := by
  have p1 : (0 : ℝ) < hl := lt_of_lt_of_le (by norm_num) h1
  have p2 : (0 : ℝ) < hw := lt_of_lt_of_le (by norm_num) h2
  rw [rectCircle_iff_outline _ _ h1 h2]
  refine ⟨(a + hl, 0), ⟨hl, 0, by rw [abs_of_pos p1], by simp [p2.le], Or.inl (abs_of_pos p1), ?_⟩,
    ?_⟩
  · simp [Spec.frame]
  · show (a + hl - X) ^ 2 + (0 - 0) ^ 2 ≤ r ^ 2
    have := sq_le_sq' (abs_le.mp h3).1 (abs_le.mp h3).2
    nlinarith

/-- Collision check of the default vehicle standing straight at `x`, with one pole on the axis. -/
theorem straight_check (X r : ℝ) (x0 : Q6) (x v : ℝ) :
    (accDefault [⟨X, 0, r⟩] x0).checkObstacle (straight x v) ↔
      rectCircle (boxCorners (x + 1.141, 0) 0 2.989 1) (X, 0) r ∨
      rectCircle (boxCorners (x - 4.9525, 0) 0 2.3225 1.25) (X, 0) r := by
  unfold Acc.checkObstacle TT2d.checkObstacle Params.tractorCorners TT2d.trailerCorners
    TT2d.hitchPoint
  simp only [accDefault, Params.default, straight, Q6.pose, List.mem_singleton, exists_eq_left,
    List.not_mem_nil, false_and, exists_false, or_false, cos_zero, sin_zero, mul_one, mul_zero,
    sub_zero, add_zero]
  have e1 : x + 0.5 * (3.23 + 0.9 - 1.848) = x + 1.141 := by norm_num
  have e2 : ((3.23 : ℝ) + 0.9 + 1.848) / 2 = 2.989 := by norm_num
  have e3 : x - 1.15 + (0.5 * (1.42 - 3.225) - 2.9) = x - 4.9525 := by ring_nf
  have e4 : ((1.42 : ℝ) + 3.225) / 2 = 2.3225 := by norm_num
  have e5 : (2 : ℝ) / 2 = 1 := by norm_num
  have e6 : (2.5 : ℝ) / 2 = 1.25 := by norm_num
  rw [e1, e2, e3, e4, e5, e6]

theorem straight_free {X r : ℝ} (hr : 0 ≤ r) (hr1 : r < 1) (x0 : Q6) {x : ℝ} (v : ℝ)
    (h : X - x > 4.13 + r ∨ (r < X - x + 1.848 ∧ r < 4.13 - (X - x))) :
    ¬ (accDefault [⟨X, 0, r⟩] x0).checkObstacle (straight x v) := by
  rw [straight_check, not_or]
  constructor
  · apply not_rectCircle_axis (by norm_num) (by norm_num) hr hr1
    · rcases h with h | h
      · rw [lt_abs]; left; linarith
      · rw [lt_abs]; right; linarith
    · rw [lt_abs]; left; rcases h with h | h <;> linarith
  · apply not_rectCircle_axis (by norm_num) (by norm_num) hr (by linarith)
    · rw [lt_abs]; left; rcases h with h | h <;> linarith
    · rw [lt_abs]; left; rcases h with h | h <;> linarith

theorem straight_hitch (T : Acc) (x v : ℝ) : ¬ T.checkHitch (straight x v) := by
  unfold Acc.checkHitch TT2d.checkHitch straight Q6.pose
  simp only [sub_self, wrapPi_zero, abs_zero, gt_iff_lt, not_lt]
  unfold Params.phiMax deg2rad
  have := pi_pos
  positivity

theorem straight_euler (cs : List Circle) (x0 : Q6) (x v a dt : ℝ) :
    (accDefault cs x0).euler (straight x v) (a, 0) dt
      = straight (x + dt * clip v (-3) 3) (v + dt * a) := by
  have hd : clip 0 (-(accDefault cs x0).deltaMax) (accDefault cs x0).deltaMax = 0 := by
    have : (0 : ℝ) ≤ (accDefault cs x0).deltaMax := by
      unfold Params.deltaMax accDefault Params.default
      have := pi_pos; positivity
    unfold clip; rw [max_eq_left (by linarith), min_eq_left this]
  unfold Acc.euler Q6.axpy Acc.dynamics straight
  simp only [hd]
  simp [accDefault, Params.default]

theorem clipU_one_zero : clipU (1, 0) = (1, 0) := by
  unfold clipU
  rw [clip_of_mem (by norm_num) (by norm_num), clip_of_mem (by norm_num) (by norm_num)]

theorem straight_proposal (cs : List Circle) (x0 : Q6) (x v : ℝ) :
    (accDefault cs x0).proposal (straight x v) (1, 0)
      = straight (x + 0.2 * clip v (-3) 3) (v + 0.4) := by
  unfold Acc.proposal
  rw [clipU_one_zero]
  unfold Acc.inputScaler
  have : ((1 : ℝ) * (accDefault cs x0).aMax, (0 : ℝ) * (accDefault cs x0).omegaMax) = (2, 0) := by
    simp [accDefault]
  rw [this, straight_euler]
  simp only [accDefault, Params.default]
  norm_num

theorem accDefault_steps (cs : List Circle) (x0 : Q6) : (accDefault cs x0).maxRolloutSteps = 3 := by
  unfold Acc.maxRolloutSteps Acc.rolloutDt
  simp only [accDefault, Params.default]
  rw [show (2 : ℝ) * (3 - 0) / (2 * 1) = ((3 : ℕ) : ℝ) by norm_num, Nat.floor_natCast]

/-- `u_stop` of the default vehicle for a speed above `a_max * dt`. -/
theorem accDefault_uStop (cs : List Circle) (x0 : Q6) {v : ℝ} (h : 0.4 ≤ v) :
    (accDefault cs x0).uStop v = (-2, 0) := by
  unfold Acc.uStop
  rw [Acc.aBackup_eq (by norm_num [accDefault]) (by norm_num [accDefault, Params.default])]
  unfold Acc.decelSign Acc.vThr
  rw [if_pos (by norm_num; linarith)]
  simp only [accDefault, Params.default]
  rw [abs_of_nonneg (by linarith), min_eq_right]
  · norm_num
  · rw [le_div_iff₀ (by norm_num)]; linarith

/-- One predicted step of the default vehicle under `u_stop = -2`. -/
theorem straight_rolloutStep (cs : List Circle) (x0 : Q6) {x v : ℝ} (st oc hv : Bool)
    (h : 0.01 < |v|) (hfree : ¬ (accDefault cs x0).checkObstacle
      (straight (x + clip v (-3) 3) (v - 2))) :
    ∃ st', (accDefault cs x0).rolloutStep (-2, 0) ⟨straight x v, st, oc, hv⟩
      = ⟨straight (x + clip v (-3) 3) (v - 2), st', oc, hv⟩ := by
  unfold Acc.rolloutStep
  have h1 : |(straight x v).v| > Acc.vThr := by unfold Acc.vThr straight; exact h
  have e : (accDefault cs x0).euler (straight x v) (-2, 0) Acc.rolloutDt
      = straight (x + clip v (-3) 3) (v - 2) := by
    rw [straight_euler]; unfold Acc.rolloutDt; congr 1 <;> ring
  simp only [if_pos h1, e]
  have hh := straight_hitch (accDefault cs x0) (x + clip v (-3) 3) (v - 2)
  simp only [hh, hfree, decide_false, Bool.or_false]
  exact ⟨_, rfl⟩

/-! ## C11 -/

/-- The vehicle of the C11 counterexample: a pole of radius 10 cm, 15 cm ahead of the front face. -/
noncomputable def poleAcc : Acc := accDefault [⟨4.28, 0, 0.1⟩] (straight 0 0)

theorem pole_first_accepted : ¬ poleAcc.overrides (straight 0 0) (1, 0) := by
  rw [Acc.overrides_iff (T := poleAcc) (accDefault_shielded _ _)]
  unfold poleAcc
  rw [straight_proposal, show clip (0 : ℝ) (-3) 3 = 0 from clip_of_mem (by norm_num) (by norm_num)]
  rw [show straight (0 + 0.2 * 0) (0 + 0.4) = straight 0 0.4 by congr 1 <;> norm_num]
  unfold Acc.checkSafety
  rw [if_neg (by unfold Acc.vThr straight; simp only; rw [abs_of_pos] <;> norm_num)]
  rw [accDefault_steps]
  unfold Acc.rolloutScan
  rw [show (straight 0 0.4).v = 0.4 from rfl, accDefault_uStop _ _ (by norm_num)]
  have f0 : ¬ (accDefault [⟨4.28, 0, 0.1⟩] (straight 0 0)).checkObstacle (straight 0 0.4) :=
    straight_free (by norm_num) (by norm_num) _ _ (Or.inl (by norm_num))
  have g0 := straight_hitch (accDefault [⟨4.28, 0, 0.1⟩] (straight 0 0)) 0 0.4
  simp only [f0, g0, decide_false]
  have c1 : clip (0.4 : ℝ) (-3) 3 = 0.4 := clip_of_mem (by norm_num) (by norm_num)
  have c2 : clip (0.4 - 2 : ℝ) (-3) 3 = -1.6 := by
    rw [clip_of_mem (by norm_num) (by norm_num)]; norm_num
  have c3 : clip (0.4 - 2 - 2 : ℝ) (-3) 3 = -3 := by
    unfold clip; rw [max_eq_right (by norm_num), min_eq_left (by norm_num)]
  obtain ⟨s1, r1⟩ := straight_rolloutStep [⟨4.28, 0, 0.1⟩] (straight 0 0) (x := 0) (v := 0.4) false
    false false (by rw [abs_of_pos] <;> norm_num) (straight_free (by norm_num) (by norm_num) _ _
      (by rw [c1]; right; norm_num))
  obtain ⟨s2, r2⟩ := straight_rolloutStep [⟨4.28, 0, 0.1⟩] (straight 0 0) (x := 0 + 0.4)
    (v := 0.4 - 2) s1 false false (by rw [abs_of_neg] <;> norm_num)
    (straight_free (by norm_num) (by norm_num) _ _ (by rw [c2]; left; norm_num))
  obtain ⟨s3, r3⟩ := straight_rolloutStep [⟨4.28, 0, 0.1⟩] (straight 0 0) (x := 0 + 0.4 + -1.6)
    (v := 0.4 - 2 - 2) s2 false false (by rw [abs_of_neg] <;> norm_num)
    (straight_free (by norm_num) (by norm_num) _ _ (by rw [c3]; left; norm_num))
  rw [c1] at r1; rw [c2] at r2; rw [c3] at r3
  rw [Function.iterate_succ_apply', Function.iterate_succ_apply', Function.iterate_one, r1, r2, r3]
  simp

theorem pole_second_overridden : poleAcc.overrides (straight 0 0.4) (1, 0) ∧
    poleAcc.checkObstacle (straight 0.08 0) := by
  have hflag : ∀ v, poleAcc.checkObstacle (straight 0.08 v) := by
    intro v
    unfold poleAcc
    rw [straight_check]
    left
    apply rectCircle_axis (by norm_num) (by norm_num) (by norm_num)
    rw [abs_le]; constructor <;> norm_num
  refine ⟨?_, hflag 0⟩
  rw [Acc.overrides_iff (T := poleAcc) (accDefault_shielded _ _)]
  left
  apply (Acc.checkSafety_self _ _).1
  unfold poleAcc
  rw [straight_proposal, show clip (0.4 : ℝ) (-3) 3 = 0.4 from
    clip_of_mem (by norm_num) (by norm_num)]
  rw [show straight (0 + 0.2 * 0.4) (0.4 + 0.4) = straight 0.08 0.8 by congr 1 <;> norm_num]
  exact hflag 0.8

theorem pole_run (ext : Ext Q6) :
    (poleAcc.step ext (poleAcc.step ext poleAcc.reset (1, 0)) (1, 0)).q = straight 0.08 0 := by
  have hs : poleAcc.Shielded := accDefault_shielded _ _
  have e1 : (poleAcc.step ext poleAcc.reset (1, 0)).q = straight 0 0.4 := by
    rw [Acc.step_q hs ext _ rfl]
    rw [show poleAcc.reset.q = straight 0 0 from rfl, if_neg pole_first_accepted]
    unfold poleAcc
    rw [straight_proposal, show clip (0 : ℝ) (-3) 3 = 0 from
      clip_of_mem (by norm_num) (by norm_num)]
    congr 1 <;> norm_num
  rw [Acc.step_q hs ext _ rfl, e1, if_pos pole_second_overridden.1]
  have eb : poleAcc.uBackupScaled (straight 0 0.4).v
      (poleAcc.proposal (straight 0 0.4) (1, 0)).v = (-2, 0) := by
    unfold Acc.uBackupScaled Acc.decelSign
    rw [if_pos (by unfold Acc.vThr straight; norm_num)]
    rw [Acc.aBackup_eq (by norm_num [poleAcc, accDefault])
      (by norm_num [poleAcc, accDefault, Params.default])]
    simp only [straight, poleAcc, accDefault, Params.default]
    rw [abs_of_pos (by norm_num), min_eq_right (by norm_num)]
    norm_num
  rw [eb]
  unfold poleAcc
  rw [straight_euler, show clip (0.4 : ℝ) (-3) 3 = 0.4 from
    clip_of_mem (by norm_num) (by norm_num)]
  simp only [accDefault, Params.default]
  congr 1 <;> norm_num

/-- C11 is false: the default acceleration-controlled vehicle, started safely at rest with both
shields on, is driven into a pole by two full-throttle requests.  (The predicted stop passes over
the pole in one 1 s prediction step; the emergency brake of the next step then comes too late.) -/
theorem C11_refuted :
    ¬ (∀ (T : Acc) (ext : Ext Q6) (us : List U), T.Shielded → 0 < T.aMax → 0 < T.dt →
      T.x0.v = 0 → Spec.SidesOK T.toParams → Spec.SafeTT T.toParams T.reset.q.pose →
      ¬ T.checkObstacle T.reset.q → ¬ T.checkHitch T.reset.q →
      ∀ s' ∈ scanStates (T.step ext) T.reset us, ¬ T.checkObstacle s'.q ∧ ¬ T.checkHitch s'.q) := by
  intro h
  let ext : Ext Q6 := ⟨fun _ u => u, id⟩
  have hin : poleAcc.step ext (poleAcc.step ext poleAcc.reset (1, 0)) (1, 0) ∈
      scanStates (poleAcc.step ext) poleAcc.reset [(1, 0), (1, 0)] := by simp [scanStates]
  have hsafe : Spec.SafeTT poleAcc.toParams poleAcc.reset.q.pose := by
    have key : ∀ a rear front width : ℝ, a + front < 4.18 →
        Spec.Apart (Spec.body (a, 0) 0 rear front width) (Spec.circleRegion ⟨4.28, 0, 0.1⟩) := by
      rintro a rear front width h p ⟨s, t, h1, h2, h3, rfl⟩ hd
      have hd' : (a + s - 4.28) ^ 2 + t ^ 2 ≤ 0.1 ^ 2 := by
        simpa [Spec.circleRegion, Spec.disc, Spec.frame] using hd
      nlinarith [sq_nonneg t]
    refine ⟨?_, by simp [poleAcc, accDefault, Params.default]⟩
    intro c hc
    simp only [poleAcc, accDefault, Params.default, List.mem_singleton] at hc
    subst hc
    constructor
    · exact key _ _ _ _ (by
        norm_num [poleAcc, accDefault, straight, Acc.reset, Q6.pose, Params.default])
    · unfold Spec.trailerBody
      have : Spec.trailerAxle poleAcc.toParams poleAcc.reset.q.pose = (-4.05, 0) := by
        unfold Spec.trailerAxle Spec.frame
        simp [poleAcc, accDefault, straight, Acc.reset, Q6.pose, Params.default]; norm_num
      rw [this]
      exact key _ _ _ _ (by norm_num [poleAcc, accDefault, Params.default])
  have := (h poleAcc ext [(1, 0), (1, 0)] (accDefault_shielded _ _) (by norm_num [poleAcc, accDefault])
    (by norm_num [poleAcc, accDefault, Params.default]) rfl
    (default_sidesOK _ _ (by simp; norm_num) (by simp)) hsafe
    (straight_free (by norm_num) (by norm_num) _ _ (Or.inl (by norm_num)))
    (straight_hitch _ _ _) _ hin).1
  rw [pole_run] at this
  exact this pole_second_overridden.2

/-- What is true of C11 for one step: a step that is not overridden ends in a state that passes both
checks; an overridden step entered at speed 0 stays at the same pose (hence passes if the previous
state did).  Missing for C11: overridden steps entered at non-zero speed. -/
theorem C11_step_partial {T : Acc} (h : T.Shielded) (hv : 0 ≤ T.vMax) (ext : Ext Q6) (s : St Q6)
    (hb : s.inBackup = false) (a : U) :
    (¬ T.overrides s.q a → ¬ T.checkObstacle (T.step ext s a).q ∧
      ¬ T.checkHitch (T.step ext s a).q) ∧
    (T.overrides s.q a → s.q.v = 0 → (T.step ext s a).q.pose = s.q.pose) := by
  rw [Acc.step_q h ext s hb]
  constructor
  · intro hno
    rw [if_neg hno]
    rw [Acc.overrides_iff h, not_or] at hno
    exact ⟨fun hc => hno.1 ((T.checkSafety_self _).1 hc), fun hc => hno.2 ((T.checkSafety_self _).2 hc)⟩
  · intro hov h0
    rw [if_pos hov]
    exact T.euler_pose_of_rest hv _ h0 _ _

/-- Consecutive states of a rollout: `Q` holds of every state, or some step `(s, a)` satisfying
`bad` was taken from a state whose whole prefix satisfied `Q`. -/
theorem scan_or_bad {S A : Type} {step : S → A → S} (Q : S → Prop) (bad : S → A → Prop)
    (hstep : ∀ s a, Q s → ¬ bad s a → Q (step s a)) :
    ∀ (us : List A) (s : S), Q s →
      (∀ s' ∈ scanStates step s us, Q s') ∨
      ∃ pre a post, us = pre ++ a :: post ∧ Q (finalState step s pre) ∧
        bad (finalState step s pre) a
  | [], _, _ => Or.inl (by simp [scanStates])
  | u :: us, s, hs => by
    by_cases hb : bad s u
    · exact Or.inr ⟨[], u, us, rfl, hs, hb⟩
    · rcases scan_or_bad Q bad hstep us (step s u) (hstep s u hs hb) with h | ⟨pre, a, post, e, h1, h2⟩
      · left
        intro s' hs'
        rcases List.mem_cons.mp hs' with rfl | h'
        · exact hstep s u hs hb
        · exact h s' h'
      · exact Or.inr ⟨u :: pre, a, post, by rw [e]; rfl, h1, h2⟩

/-- C11, partial: along every rollout from a checked start, either all states pass both checks, or
the shield had to intervene while the vehicle was moving (and up to that moment all states passed).
Missing for C11: safety after such an intervention, which is false in general (`C11_refuted`). -/
theorem C11_partial {T : Acc} (h : T.Shielded) (hv : 0 ≤ T.vMax) (ext : Ext Q6)
    (h0 : ¬ T.checkObstacle T.x0) (h1 : ¬ T.checkHitch T.x0) (us : List U) :
    (∀ s' ∈ scanStates (T.step ext) T.reset us, ¬ T.checkObstacle s'.q ∧ ¬ T.checkHitch s'.q) ∨
    ∃ pre a post, us = pre ++ a :: post ∧
      T.overrides (finalState (T.step ext) T.reset pre).q a ∧
      (finalState (T.step ext) T.reset pre).q.v ≠ 0 := by
  rcases scan_or_bad (step := T.step ext)
    (fun s => s.inBackup = false ∧ ¬ T.checkObstacle s.q ∧ ¬ T.checkHitch s.q)
    (fun s a => T.overrides s.q a ∧ s.q.v ≠ 0)
    (fun s a hs hb => by
      obtain ⟨hb0, hc, hh⟩ := hs
      refine ⟨by rw [Acc.step_inBackup]; exact hb0, ?_⟩
      obtain ⟨p1, p2⟩ := C11_step_partial h hv ext s hb0 a
      by_cases ho : T.overrides s.q a
      · have hz : s.q.v = 0 := by by_contra hz; exact hb ⟨ho, hz⟩
        have := p2 ho hz
        unfold Acc.checkObstacle Acc.checkHitch at *
        rw [this]; exact ⟨hc, hh⟩
      · exact p1 ho)
    us T.reset ⟨rfl, h0, h1⟩ with h' | ⟨pre, a, post, e, _, hb⟩
  · exact Or.inl fun s' hs' => (h' s' hs').2
  · exact Or.inr ⟨pre, a, post, e, hb⟩

/-- The hypotheses are met and the first alternative is non-trivial: the pole vehicle's first step. -/
example (ext : Ext Q6) : ¬ poleAcc.checkObstacle (poleAcc.step ext poleAcc.reset (1, 0)).q :=
  ((C11_step_partial (accDefault_shielded _ _) (by norm_num [accDefault, Params.default]) ext
    poleAcc.reset rfl (1, 0)).1 pole_first_accepted).1


/-! ## C12: the emergency brake -/

/-- Speed after an overridden step, as documented ("full braking"): the speed is reduced by at most
`a_max * dt`, and not below zero. -/
noncomputable def Spec.brake (v dv : ℝ) : ℝ := if 0 ≤ v then max 0 (v - dv) else min 0 (v + dv)

theorem brake_pos {T : Acc} (ha : 0 ≤ T.aMax) (hdt : 0 < T.dt) {v : ℝ} (hv : 0 ≤ v) :
    v + T.dt * (-1 * T.aBackup v) = Spec.brake v (T.aMax * T.dt) := by
  rw [Acc.aBackup_eq ha hdt, abs_of_nonneg hv]
  unfold Spec.brake
  rw [if_pos hv]
  rcases le_total (v / T.dt) T.aMax with h | h
  · rw [min_eq_left h]
    rw [div_le_iff₀ hdt] at h
    rw [max_eq_left (by linarith)]
    field_simp; ring
  · rw [min_eq_right h]
    rw [le_div_iff₀ hdt] at h
    rw [max_eq_right (by linarith)]
    ring

theorem brake_neg {T : Acc} (ha : 0 ≤ T.aMax) (hdt : 0 < T.dt) {v : ℝ} (hv : v < 0) :
    v + T.dt * (1 * T.aBackup v) = Spec.brake v (T.aMax * T.dt) := by
  rw [Acc.aBackup_eq ha hdt, abs_of_neg hv]
  unfold Spec.brake
  rw [if_neg (not_le.mpr hv)]
  rcases le_total (-v / T.dt) T.aMax with h | h
  · rw [min_eq_left h]
    rw [div_le_iff₀ hdt] at h
    rw [min_eq_left (by linarith)]
    field_simp; ring
  · rw [min_eq_right h]
    rw [le_div_iff₀ hdt] at h
    rw [min_eq_right (by linarith)]
    ring

/-- C12, partial: an overridden step brakes exactly as documented when the vehicle moves forward
faster than the threshold, or moves backward and the *requested* next speed is still backward
beyond the threshold.  Missing: the other cases, where it is false (`C12_refuted`). -/
theorem C12_partial {T : Acc} (h : T.Shielded) (ha : 0 ≤ T.aMax) (hdt : 0 < T.dt) (ext : Ext Q6)
    (s : St Q6) (hb : s.inBackup = false) (a : U) (ho : T.overrides s.q a)
    (hc : s.q.v > 0.01 ∨ (s.q.v < -0.01 ∧ (T.proposal s.q a).v < -0.01)) :
    (T.step ext s a).q.v = Spec.brake s.q.v (T.aMax * T.dt) ∧
    (T.step ext s a).q.delta = s.q.delta := by
  rw [Acc.step_q h ext s hb, if_pos ho]
  rw [Acc.euler_v, Acc.euler_delta]
  unfold Acc.uBackupScaled Acc.decelSign Acc.vThr
  constructor
  · rcases hc with hc | ⟨hc, hn⟩
    · rw [if_pos hc]; exact brake_pos ha hdt (by linarith)
    · rw [if_neg (by linarith), if_pos hn]; exact brake_neg ha hdt (by linarith)
  · simp

/-- The hypotheses hold at 0.4 m/s in front of the pole of `C11_refuted`. -/
example := fun ext => C12_partial (T := poleAcc) (accDefault_shielded _ _)
  (by norm_num [poleAcc, accDefault]) (by norm_num [poleAcc, accDefault, Params.default]) ext
  ⟨straight 0 0.4, straight 0 0.4, 0, 0, (0, 0), false⟩ rfl (1, 0) pole_second_overridden.1
  (Or.inl (by norm_num [straight]))

/-- Every step of the rollout is overridden while moving forward. -/
def overriddenForward (T : Acc) (ext : Ext Q6) : St Q6 → List U → Prop
  | _, [] => True
  | s, a :: us => T.overrides s.q a ∧ 0.01 < s.q.v ∧ overriddenForward T ext (T.step ext s a) us

/-- C12, partial, repeated braking while moving forward: after `n` consecutive overrides the speed
has dropped by `n * a_max * dt` or reached zero; so at most `v / (a_max dt)` overrides happen
before standstill. -/
theorem C12_stops_partial {T : Acc} (h : T.Shielded) (ha : 0 ≤ T.aMax) (hdt : 0 < T.dt)
    (ext : Ext Q6) : ∀ (us : List U) (s : St Q6), s.inBackup = false →
      overriddenForward T ext s us → 0 ≤ s.q.v →
      (finalState (T.step ext) s us).q.v = max 0 (s.q.v - us.length * (T.aMax * T.dt))
  | [], s, _, _, hv => by simp [finalState, hv]
  | a :: us, s, hb, ⟨ho, hv, hrest⟩, _ => by
    have hstep := (C12_partial h ha hdt ext s hb a ho (Or.inl hv)).1
    unfold Spec.brake at hstep
    rw [if_pos (by linarith)] at hstep
    have ih := C12_stops_partial h ha hdt ext us (T.step ext s a)
      (by rw [Acc.step_inBackup]; exact hb) hrest (by rw [hstep]; exact le_max_left _ _)
    show (finalState (T.step ext) (T.step ext s a) us).q.v = _
    rw [ih, hstep]
    have hd : 0 ≤ T.aMax * T.dt := by positivity
    have hl : (0 : ℝ) ≤ us.length * (T.aMax * T.dt) := by positivity
    push_cast [List.length_cons]
    rcases le_total 0 (s.q.v - T.aMax * T.dt) with hz | hz
    · rw [max_eq_right hz]; congr 1; ring
    · rw [max_eq_left hz, max_eq_left (by linarith), max_eq_left (by linarith)]

/-- The pole vehicle's second step is such an override. -/
example (ext : Ext Q6) : ∃ s : St Q6, s.inBackup = false ∧
    overriddenForward poleAcc ext s [(1, 0)] ∧ s.q.v = 0.4 :=
  ⟨⟨straight 0 0.4, straight 0 0.4, 0, 0, (0, 0), false⟩, rfl,
    ⟨pole_second_overridden.1, by norm_num [straight], trivial⟩, rfl⟩

/-! ### reversing into a pole: the brake is not applied -/

/-- A pole 10 cm behind the trailer's rear face (radius 10 cm: touching already excluded), the
vehicle rolling backwards at 0.4 m/s. -/
noncomputable def reverseAcc : Acc := accDefault [⟨-7.4, 0, 0.1⟩] (straight 0 (-0.4))

theorem reverse_flagged (v : ℝ) : reverseAcc.checkObstacle (straight (-0.08) v) := by
  unfold reverseAcc
  rw [straight_check]
  right
  rw [rectCircle_iff_outline _ _ (by norm_num) (by norm_num)]
  refine ⟨(-7.355, 0), ⟨-2.3225, 0, by rw [abs_of_neg] <;> norm_num, by norm_num,
    Or.inl (by rw [abs_of_neg] <;> norm_num), ?_⟩, ?_⟩
  · simp [Spec.frame]; norm_num
  · show ((-7.355 : ℝ) - -7.4) ^ 2 + (0 - 0) ^ 2 ≤ 0.1 ^ 2
    norm_num

theorem reverse_proposal : reverseAcc.proposal (straight 0 (-0.4)) (1, 0) = straight (-0.08) 0 := by
  unfold reverseAcc
  rw [straight_proposal, show clip (-0.4 : ℝ) (-3) 3 = -0.4 from
    clip_of_mem (by norm_num) (by norm_num)]
  congr 1 <;> norm_num

theorem reverse_overridden : reverseAcc.overrides (straight 0 (-0.4)) (1, 0) := by
  rw [Acc.overrides_iff (T := reverseAcc) (accDefault_shielded _ _)]
  left
  apply (Acc.checkSafety_self _ _).1
  rw [reverse_proposal]
  exact reverse_flagged 0

theorem reverse_step (ext : Ext Q6) : (reverseAcc.step ext reverseAcc.reset (1, 0)).q
    = straight (-0.08) (-0.4) := by
  rw [Acc.step_q (T := reverseAcc) (accDefault_shielded _ _) ext _ rfl,
    show reverseAcc.reset.q = straight 0 (-0.4) from rfl, if_pos reverse_overridden,
    reverse_proposal]
  have eb : reverseAcc.uBackupScaled (straight 0 (-0.4)).v (straight (-0.08) 0).v = (0, 0) := by
    unfold Acc.uBackupScaled Acc.decelSign
    rw [if_neg (by unfold Acc.vThr straight; norm_num), if_neg (by unfold Acc.vThr straight; norm_num)]
    simp
  rw [eb]
  unfold reverseAcc
  rw [straight_euler, show clip (-0.4 : ℝ) (-3) 3 = -0.4 from
    clip_of_mem (by norm_num) (by norm_num)]
  simp only [accDefault, Params.default]
  congr 1 <;> norm_num

/-- C12 is false: reversing at 0.4 m/s and requesting to stop, the shield (which must override,
because the next pose touches a pole) does not brake at all: the speed stays -0.4 and the vehicle
drives into the pole. -/
theorem C12_refuted :
    ¬ (∀ (T : Acc) (ext : Ext Q6) (s : St Q6) (a : U), T.Shielded → 0 < T.aMax → 0 < T.dt →
      s.inBackup = false → T.overrides s.q a →
      (T.step ext s a).q.v = Spec.brake s.q.v (T.aMax * T.dt)) := by
  intro h
  have := h reverseAcc ⟨fun _ u => u, id⟩ reverseAcc.reset (1, 0) (accDefault_shielded _ _)
    (by norm_num [reverseAcc, accDefault]) (by norm_num [reverseAcc, accDefault, Params.default])
    rfl reverse_overridden
  rw [reverse_step] at this
  simp only [reverseAcc, accDefault, Acc.reset, straight, Params.default, Spec.brake] at this
  norm_num at this

/-! ## C13: the recorded action -/

/-- C13, partial: the recorded action produces the recorded next state in every step that is not
overridden, and in overridden steps when current and requested speed agree in direction.
Missing: overridden reverse steps whose requested speed is not backward (`C13_refuted`). -/
theorem C13_partial {T : Acc} (h : T.Shielded) (ha : 0 < T.aMax) (ext : Ext Q6)
    (s : St Q6) (hb : s.inBackup = false) (a : U)
    (hc : T.overrides s.q a → (0.01 < s.q.v ∨
      (s.q.v < -0.01 ↔ (T.proposal s.q a).v < -0.01))) :
    (T.step ext s a).q
      = T.euler s.q (T.inputScaler (T.step ext s a).applied) T.dt := by
  rw [Acc.step_q h ext s hb, Acc.step_applied h ext s hb]
  split_ifs with ho
  · congr 1
    unfold Acc.uBackupScaled Acc.uBackupNorm Acc.inputScaler
    have hd : Acc.decelSign s.q.v (T.proposal s.q a).v = Acc.decelSign s.q.v s.q.v := by
      unfold Acc.decelSign Acc.vThr
      by_cases hv : s.q.v > 0.01
      · rw [if_pos hv, if_pos hv]
      · rw [if_neg hv, if_neg hv]
        rcases hc ho with h1 | h1
        · exact absurd h1 hv
        · by_cases h2 : s.q.v < -0.01
          · rw [if_pos (h1.mp h2), if_pos h2]
          · rw [if_neg (fun h3 => h2 (h1.mpr h3)), if_neg h2]
    rw [hd]
    simp only [zero_mul]
    congr 1
    field_simp
  · rfl

example := fun ext => C13_partial (T := poleAcc) (accDefault_shielded _ _)
  (by norm_num [poleAcc, accDefault]) ext
  ⟨straight 0 0.4, straight 0 0.4, 0, 0, (0, 0), false⟩ rfl (1, 0)
  (fun _ => Or.inl (by norm_num [straight]))

/-- C13 is false: in the reversing run the recorded action is full braking (`+1`), the recorded
state is the one without braking. -/
theorem C13_refuted :
    ¬ (∀ (T : Acc) (ext : Ext Q6) (s : St Q6) (a : U), T.Shielded → 0 < T.aMax → 0 < T.dt →
      s.inBackup = false →
      (T.step ext s a).q = T.euler s.q (T.inputScaler (T.step ext s a).applied) T.dt) := by
  intro h
  have := h reverseAcc ⟨fun _ u => u, id⟩ reverseAcc.reset (1, 0) (accDefault_shielded _ _)
    (by norm_num [reverseAcc, accDefault]) (by norm_num [reverseAcc, accDefault, Params.default]) rfl
  rw [Acc.step_applied (T := reverseAcc) (accDefault_shielded _ _) _ _ rfl,
    show reverseAcc.reset.q = straight 0 (-0.4) from rfl, if_pos reverse_overridden,
    reverse_step] at this
  have hv := congrArg Q6.v this
  rw [Acc.euler_v] at hv
  have e : reverseAcc.uBackupNorm (straight 0 (-0.4)).v = (1, 0) := by
    unfold Acc.uBackupNorm Acc.decelSign
    rw [if_neg (by unfold Acc.vThr straight; norm_num), if_pos (by unfold Acc.vThr straight; norm_num)]
    rw [Acc.aBackup_eq (by norm_num [reverseAcc, accDefault])
      (by norm_num [reverseAcc, accDefault, Params.default])]
    simp only [straight, reverseAcc, accDefault, Params.default]
    rw [abs_of_neg (by norm_num), min_eq_right (by norm_num)]
    norm_num
  rw [e] at hv
  simp only [Acc.inputScaler, straight, reverseAcc, accDefault, Params.default] at hv
  norm_num at hv

/-! ## C14: the predictive rollout -/

/-- Speed of the predictive rollout after `n` iterations, for a positive initial speed `v` and braking
acceleration `a`: it decreases by `a` per iteration until it falls into the threshold band, then
freezes. -/
theorem rolloutScan_v {T : Acc} (q : Q6) : ∀ n : ℕ,
    (∀ k < n, |(q.v + k * (T.uStop q.v).1)| > 0.01) →
    (T.rolloutScan q n).q.v = q.v + n * (T.uStop q.v).1
  | 0, _ => by simp [Acc.rolloutScan]
  | n + 1, h => by
    have ih := rolloutScan_v (T := T) q n (fun k hk => h k (by omega))
    unfold Acc.rolloutScan at ih ⊢
    rw [Function.iterate_succ_apply']
    unfold Acc.rolloutStep
    have hn := h n (by omega)
    rw [← ih] at hn
    simp only
    unfold Acc.vThr
    rw [if_pos]
    · rw [Acc.euler_v]
      have e : ((T.rolloutStep (T.uStop q.v))^[n] ⟨q, false, decide (T.checkObstacle q),
        decide (T.checkHitch q)⟩).q.v = q.v + n * (T.uStop q.v).1 := ih
      unfold Acc.rolloutStep Acc.vThr at e
      rw [e]
      unfold Acc.rolloutDt
      push_cast; ring
    · unfold Acc.rolloutStep Acc.vThr at hn
      exact hn

/-- Once inside the band the predicted state is frozen. -/
theorem rolloutScan_frozen {T : Acc} (q : Q6) (n : ℕ) (h : |(T.rolloutScan q n).q.v| ≤ 0.01) :
    ∀ m, (T.rolloutScan q (n + m)).q = (T.rolloutScan q n).q
  | 0 => rfl
  | m + 1 => by
    have ih := rolloutScan_frozen q n h m
    have : (T.rolloutScan q (n + (m + 1))).q =
        (T.rolloutStep (T.uStop q.v) (T.rolloutScan q (n + m))).q := by
      unfold Acc.rolloutScan
      rw [← Nat.add_assoc, Function.iterate_succ_apply']
    rw [this]
    have h2 : |(T.rolloutScan q (n + m)).q.v| ≤ Acc.vThr := by rw [ih]; exact h
    show (if |(T.rolloutScan q (n + m)).q.v| > Acc.vThr then _ else _) = _
    rw [if_neg (not_lt.mpr h2), ih]

/-- The predicted speed after `k` seconds, if not yet stopped, in magnitude terms. -/
theorem predicted_speed {T : Acc} (ha : 0 ≤ T.aMax) (hdt : 0 < T.dt) (v : ℝ) (hv : 0.01 < |v|)
    (k : ℕ) : |v + k * (T.uStop v).1| = |(|v| - k * min (|v| / T.dt) T.aMax)| := by
  unfold Acc.uStop Acc.decelSign Acc.vThr
  rw [Acc.aBackup_eq ha hdt]
  simp only
  rcases abs_cases v with ⟨e, h0⟩ | ⟨e, h0⟩
  · rw [if_pos (by rw [← e]; exact hv), e]
    congr 1; ring
  · rw [if_neg (by linarith), if_pos (by linarith), e, ← abs_neg]
    congr 1; ring

/-- C14, partial (exact characterisation): the predictive rollout of a proposed state with speed
`v`, `|v| > 0.01`, ends at standstill iff for some `k` not exceeding the number of prediction steps
`k` seconds of constant braking with `min (|v|/dt) a_max` bring the speed into the threshold band.
Missing: that such a `k` always exists; it does not (`C14_refuted`). -/
theorem C14_partial {T : Acc} (ha : 0 ≤ T.aMax) (hdt : 0 < T.dt) (q : Q6) (hv : 0.01 < |q.v|) :
    |(T.rolloutScan q T.maxRolloutSteps).q.v| ≤ 0.01 ↔
      ∃ k ≤ T.maxRolloutSteps, |(|q.v| - k * min (|q.v| / T.dt) T.aMax)| ≤ 0.01 := by
  set n := T.maxRolloutSteps
  constructor
  · intro h
    by_contra hno
    push Not at hno
    have := rolloutScan_v (T := T) q n (fun k hk => by
      rw [predicted_speed ha hdt _ hv]; exact hno k hk.le)
    rw [this, predicted_speed ha hdt _ hv] at h
    linarith [hno n le_rfl]
  · rintro ⟨k, hk, hb⟩
    have hex : ∃ k : ℕ, |(|q.v| - k * min (|q.v| / T.dt) T.aMax)| ≤ (0.01 : ℝ) := ⟨k, hb⟩
    have hm : Nat.find hex ≤ n := (Nat.find_min' hex hb).trans hk
    have hmin := Nat.find_spec hex
    have hv' := rolloutScan_v (T := T) q (Nat.find hex) (fun k hk => by
      rw [predicted_speed ha hdt _ hv]
      exact not_le.mp (Nat.find_min hex hk))
    have hz : |(T.rolloutScan q (Nat.find hex)).q.v| ≤ 0.01 := by
      rw [hv', predicted_speed ha hdt _ hv]; exact hmin
    obtain ⟨m, hm'⟩ := Nat.exists_eq_add_of_le hm
    rw [hm', rolloutScan_frozen q _ hz]
    exact hz

example := C14_partial (T := poleAcc) (by norm_num [poleAcc, accDefault])
  (by norm_num [poleAcc, accDefault, Params.default]) (straight 0 0.4)
  (by rw [abs_of_pos] <;> norm_num [straight])

/-- C14 holds when the simulation step equals the prediction step of 1 s and the speed can be shed in
one step. -/
theorem C14_unit_step_partial {T : Acc} (hdt : T.dt = 1) (q : Q6)
    (hv : 0.01 < |q.v|) (hsmall : |q.v| ≤ T.aMax) (hn : 1 ≤ T.maxRolloutSteps) :
    |(T.rolloutScan q T.maxRolloutSteps).q.v| ≤ 0.01 := by
  have ha : 0 ≤ T.aMax := le_trans (abs_nonneg _) hsmall
  rw [C14_partial ha (by rw [hdt]; norm_num) q hv]
  refine ⟨1, hn, ?_⟩
  rw [hdt, div_one, min_eq_left hsmall]
  norm_num

example : ∃ (T : Acc) (q : Q6), T.dt = 1 ∧ 0.01 < |q.v| ∧ |q.v| ≤ T.aMax ∧
    1 ≤ T.maxRolloutSteps := by
  refine ⟨{ accDefault [] (straight 0 0) with dt := 1 }, straight 0 2, rfl, ?_, ?_, ?_⟩
  · norm_num [straight]
  · norm_num [straight, accDefault]
  · have := accDefault_steps [] (straight 0 0)
    have h2 : ({ accDefault [] (straight 0 0) with dt := 1 } : Acc).maxRolloutSteps = 3 := this
    omega

/-- C14 is false for the default vehicle: for a speed of 0.4 m/s (reached after one throttle step)
the prediction overshoots to -1.6, -3.6, -5.6 m/s and never stops. -/
theorem C14_refuted : ¬ (∀ (T : Acc) (q : Q6), 0 < T.aMax → 0 < T.dt →
    0.01 < |q.v| → |q.v| ≤ T.vMax →
    |(T.rolloutScan q T.maxRolloutSteps).q.v| ≤ 0.01) := by
  intro h
  have h1 := h (accDefault [] (straight 0 0)) (straight 0 0.4) (by norm_num [accDefault])
    (by norm_num [accDefault, Params.default])
    (by norm_num [straight]) (by norm_num [straight, accDefault, Params.default])
  rw [C14_partial (by norm_num [accDefault]) (by norm_num [accDefault, Params.default]) _
    (by norm_num [straight])] at h1
  obtain ⟨k, -, hk⟩ := h1
  simp only [straight, accDefault, Params.default] at hk
  rw [abs_of_pos (show (0 : ℝ) < 0.4 by norm_num), min_eq_right (by norm_num)] at hk
  have hk' := abs_le.mp hk
  have hk1 : (k : ℝ) * 2 ≤ 0.41 := by linarith [hk'.1]
  have hk2 : (0.39 : ℝ) ≤ k * 2 := by linarith [hk'.2]
  have : k = 0 := by
    by_contra hne
    have : (1 : ℝ) ≤ k := by exact_mod_cast Nat.one_le_iff_ne_zero.mpr hne
    linarith
  subst this
  norm_num at hk2

/-! ## C16: velocity and steering wind-up -/

/-- C16 is false: from speed 3 = `v_max` one full-throttle request gives the recorded speed 3.4
(default vehicle, no obstacles, shields off). -/
theorem C16_refuted :
    ¬ (∀ (T : Acc) (ext : Ext Q6) (us : List U), 0 < T.aMax → 0 < T.dt → |T.x0.v| ≤ T.vMax →
      |T.x0.delta| ≤ T.deltaMax →
      ∀ s' ∈ scanStates (T.step ext) T.reset us, |s'.q.v| ≤ T.vMax ∧ |s'.q.delta| ≤ T.deltaMax) := by
  intro h
  let T : Acc := { accDefault [] (straight 0 3) with shieldCollision := false, shieldHitch := false }
  let ext : Ext Q6 := ⟨fun _ u => u, id⟩
  have hin : T.step ext T.reset (1, 0) ∈ scanStates (T.step ext) T.reset [(1, 0)] := by
    simp [scanStates]
  have h1 := (h T ext [(1, 0)] (by norm_num [T, accDefault])
    (by norm_num [T, accDefault, Params.default])
    (by norm_num [T, accDefault, straight, Params.default])
    (by
      have := pi_pos
      simp only [T, accDefault, straight, Params.deltaMax, Params.default, abs_zero]
      positivity) _ hin).1
  have e : (T.step ext T.reset (1, 0)).q.v = 3 + 0.2 * (1 * 2) := by
    have : (T.step ext T.reset (1, 0)).q = T.euler T.reset.q (T.inputScaler (clipU (1, 0))) T.dt := by
      unfold Acc.step Acc.stepInternal Acc.naive
      simp [T, accDefault, Params.default, Acc.reset]
    rw [this, Acc.euler_v, clipU_one_zero]
    simp [T, accDefault, Params.default, Acc.reset, Acc.inputScaler, straight]
  rw [e] at h1
  simp only [T, accDefault, Params.default] at h1
  norm_num at h1

theorem aBackup_le (T : Acc) (ha : 0 ≤ T.aMax) (v : ℝ) : 0 ≤ T.aBackup v ∧ T.aBackup v ≤ T.aMax := by
  unfold Acc.aBackup clip
  refine ⟨le_min (le_max_right _ _) ha, min_le_right _ _⟩

theorem decelSign_abs (v w : ℝ) : |Acc.decelSign v w| ≤ 1 := by
  unfold Acc.decelSign
  split_ifs <;> norm_num

/-- One step changes speed and steering angle by at most `a_max dt` and `omega_max dt`
(any mode except projection). -/
theorem acc_rate {T : Acc} (ext : Ext Q6) (hp : T.enableProjection = false) (ha : 0 < T.aMax)
    (hom : 0 ≤ T.omegaMax) (hdt : 0 ≤ T.dt) (s : St Q6) (a : U) :
    |(T.step ext s a).q.v - s.q.v| ≤ T.aMax * T.dt ∧
    |(T.step ext s a).q.delta - s.q.delta| ≤ T.omegaMax * T.dt := by
  have key : ∀ u : U, |u.1| ≤ T.aMax → |u.2| ≤ T.omegaMax →
      |(T.euler s.q u T.dt).v - s.q.v| ≤ T.aMax * T.dt ∧
      |(T.euler s.q u T.dt).delta - s.q.delta| ≤ T.omegaMax * T.dt := by
    intro u h1 h2
    rw [Acc.euler_v, Acc.euler_delta, add_sub_cancel_left, add_sub_cancel_left, abs_mul, abs_mul,
      abs_of_nonneg hdt]
    constructor
    · nlinarith
    · nlinarith
  have sc : ∀ u : U, Spec.InBox u → |(T.inputScaler u).1| ≤ T.aMax ∧
      |(T.inputScaler u).2| ≤ T.omegaMax := by
    intro u hu
    unfold Acc.inputScaler
    rw [abs_mul, abs_mul, abs_of_pos ha, abs_of_nonneg hom]
    exact ⟨by nlinarith [hu.1], by nlinarith [hu.2]⟩
  have eff : Spec.InBox (if s.inBackup = true then T.uBackupNorm s.q.v else clipU a) := by
    split
    · exact inBox_uBackupNorm T ha _
    · exact inBox_clipU a
  have prop := key _ (sc _ eff).1 (sc _ eff).2
  have bk : ∀ w, |(T.uBackupScaled s.q.v w).1| ≤ T.aMax ∧ |(T.uBackupScaled s.q.v w).2| ≤ T.omegaMax := by
    intro w
    unfold Acc.uBackupScaled
    rw [abs_mul, abs_of_nonneg (aBackup_le T ha.le _).1]
    constructor
    · have := decelSign_abs s.q.v w
      have := aBackup_le T ha.le s.q.v
      nlinarith [abs_nonneg (Acc.decelSign s.q.v w)]
    · simpa using hom
  unfold Acc.step Acc.stepInternal
  simp only [hp, Bool.false_eq_true, if_false]
  cases hg : T.enableGuidance
  · simp only [Bool.false_eq_true, if_false]
    cases hs : (T.shieldCollision || T.shieldHitch)
    · simp only [Bool.false_eq_true, if_false]
      exact prop
    · simp only [if_true]
      unfold Acc.shieldedRollout
      simp only
      split_ifs
      all_goals first
        | exact key _ (bk _).1 (bk _).2
        | exact key _ (sc _ (inBox_uBackupNorm T ha _)).1 (sc _ (inBox_uBackupNorm T ha _)).2
        | exact key _ (sc _ (inBox_clipU a)).1 (sc _ (inBox_clipU a)).2
  · simp only [if_true]
    exact prop

/-- C16, partial: after `n` steps the recorded speed and steering angle exceed their initial
magnitude by at most `n a_max dt` and `n omega_max dt` (they are not clamped), and the speed and
steering angle that enter the motion equations are always within limits (see `C15_acc`). -/
theorem C16_partial {T : Acc} (ext : Ext Q6) (hp : T.enableProjection = false) (ha : 0 < T.aMax)
    (hom : 0 ≤ T.omegaMax) (hdt : 0 ≤ T.dt) : ∀ (us : List U) (s : St Q6),
    |(finalState (T.step ext) s us).q.v| ≤ |s.q.v| + us.length * (T.aMax * T.dt) ∧
    |(finalState (T.step ext) s us).q.delta| ≤ |s.q.delta| + us.length * (T.omegaMax * T.dt)
  | [], s => by simp [finalState]
  | u :: us, s => by
    have ih := C16_partial ext hp ha hom hdt us (T.step ext s u)
    have h1 := acc_rate ext hp ha hom hdt s u
    have t1 : |(T.step ext s u).q.v| ≤ |s.q.v| + T.aMax * T.dt := by
      have := abs_add_le ((T.step ext s u).q.v - s.q.v) s.q.v
      rw [sub_add_cancel] at this; linarith [h1.1]
    have t2 : |(T.step ext s u).q.delta| ≤ |s.q.delta| + T.omegaMax * T.dt := by
      have := abs_add_le ((T.step ext s u).q.delta - s.q.delta) s.q.delta
      rw [sub_add_cancel] at this; linarith [h1.2]
    push_cast [List.length_cons]
    show |(finalState (T.step ext) (T.step ext s u) us).q.v| ≤ _ ∧
      |(finalState (T.step ext) (T.step ext s u) us).q.delta| ≤ _
    constructor
    · linarith [ih.1]
    · linarith [ih.2]

example := fun ext us => C16_partial (T := poleAcc) ext rfl (by norm_num [poleAcc, accDefault])
  (by norm_num [poleAcc, accDefault]) (by norm_num [poleAcc, accDefault, Params.default]) us
  poleAcc.reset

end Mbd
