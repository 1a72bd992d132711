import Verif.PropsShield
import Verif.MotionLemmas
import Verif.AccLemmas
import Verif.PropsAcc

/-!
# Properties of motion and rollouts: C15, C17, C18
-/

namespace Mbd

open Real Classical

/-! ## C15: physical speed limit -/

theorem dist_triangle' (a b c : V2) : Spec.dist a c ≤ Spec.dist a b + Spec.dist b c := by
  simp only [dist_eq]
  have : toC a - toC c = (toC a - toC b) + (toC b - toC c) := by ring
  rw [this]; exact norm_add_le _ _

theorem dist_self' (a : V2) : Spec.dist a a = 0 := by simp [dist_eq]

/-- A point carried along a curve with speed at most `w` for time `dt`. -/
theorem straight_shift {w dt v : ℝ} (hdt : 0 ≤ dt) (hv : |v| ≤ w) (px py th : ℝ) :
    Spec.dist (px + dt * (v * cos th), py + dt * (v * sin th)) (px, py) ≤ w * dt := by
  unfold Spec.dist
  simp only
  rw [show (px + dt * (v * cos th) - px) ^ 2 + (py + dt * (v * sin th) - py) ^ 2
      = (dt * v) ^ 2 * (cos th ^ 2 + sin th ^ 2) by ring, cos_sq_add_sin_sq, mul_one,
    sqrt_sq_eq_abs, abs_mul, abs_of_nonneg hdt]
  nlinarith

theorem scaled_speed {P : Params} (hv : 0 ≤ P.vMax) {u : U} (hu : Spec.InBox u) :
    |(P.inputScaler u).1| ≤ P.vMax := by
  unfold Params.inputScaler
  rw [abs_mul, abs_of_nonneg hv]
  nlinarith [hu.1]

theorem inBox_eff (b : Bool) (a : U) : Spec.InBox (effAction b a) := by
  unfold effAction
  split
  · simp [Spec.InBox]
  · exact inBox_clipU a

/-- Positions along a rollout drift at most `n` times the one-step bound. -/
theorem scan_drift {S A : Type} {step : S → A → S} (pos : S → V2) (d : ℝ)
    (h : ∀ s a, Spec.dist (pos (step s a)) (pos s) ≤ d) :
    ∀ (us : List A) (s : S), Spec.dist (pos (finalState step s us)) (pos s) ≤ us.length * d
  | [], s => by simp [finalState, dist_self']
  | u :: us, s => by
    have ih := scan_drift pos d h us (step s u)
    have t := dist_triangle' (pos (finalState step (step s u) us)) (pos (step s u)) (pos s)
    have := h s u
    push_cast [List.length_cons]
    show Spec.dist (pos (finalState step (step s u) us)) (pos s) ≤ _
    linarith

/-- C15, tractor-trailer: one step moves the reference point by at most `v_max * dt`, for every
requested action, in every mode with bounded applied controls. -/
theorem C15_tt2d (T : TT2d) (ext : Ext Q4) (hv : 0 ≤ T.vMax) (hdt : 0 ≤ T.dt)
    (hsol : T.enableProjection = true → ∀ q u, Spec.InBox (ext.project q u)) (s : St Q4) (a : U) :
    Spec.dist ((T.step ext s a).q.px, (T.step ext s a).q.py) (s.q.px, s.q.py) ≤ T.vMax * T.dt := by
  have key : ∀ u, Spec.InBox u → Spec.dist ((TT2d.euler T.toParams s.q (T.inputScaler u)).px,
      (TT2d.euler T.toParams s.q (T.inputScaler u)).py) (s.q.px, s.q.py) ≤ T.vMax * T.dt :=
    fun u hu => straight_shift hdt (scaled_speed hv hu) _ _ _
  cases hp : T.enableProjection
  · cases hg : T.enableGuidance
    · rw [TT2d.step_q T ext hp hg]
      split
      · rw [dist_self']; positivity
      · exact key _ (inBox_eff _ _)
    · rw [(TT2d.step_guided T ext hp hg s a).1]
      exact key _ (inBox_eff _ _)
  · rw [(TT2d.step_projected T ext hp s a).2]
    exact key _ (hsol hp _ _)

example := fun ext s a => C15_tt2d Wit.tt ext Wit.vMax_nonneg Wit.dt_nonneg (fun h => nomatch h) s a

/-- C15 over a rollout of `n` actions. -/
theorem C15_rollout_tt2d (T : TT2d) (ext : Ext Q4) (hv : 0 ≤ T.vMax) (hdt : 0 ≤ T.dt)
    (hsol : T.enableProjection = true → ∀ q u, Spec.InBox (ext.project q u)) (s : St Q4)
    (us : List U) :
    Spec.dist ((finalState (T.step ext) s us).q.px, (finalState (T.step ext) s us).q.py)
      (s.q.px, s.q.py) ≤ us.length * (T.vMax * T.dt) :=
  scan_drift (step := T.step ext) (fun s => (s.q.px, s.q.py)) _
    (fun s a => C15_tt2d T ext hv hdt hsol s a) us s

example := fun ext us =>
  C15_rollout_tt2d Wit.tt ext Wit.vMax_nonneg Wit.dt_nonneg (fun h => nomatch h) Wit.tt.reset us

/-- C15, bicycle. -/
theorem C15_bicycle (T : Bicycle) (ext : Ext Q3) (hv : 0 ≤ T.vMax) (hdt : 0 ≤ T.dt)
    (hsol : T.enableProjection = true → ∀ q u, Spec.InBox (ext.project q u)) (s : St Q3) (a : U) :
    Spec.dist ((T.step ext s a).q.px, (T.step ext s a).q.py) (s.q.px, s.q.py) ≤ T.vMax * T.dt := by
  have key : ∀ u, Spec.InBox u → Spec.dist ((Bicycle.euler T.toParams s.q (T.inputScaler u)).px,
      (Bicycle.euler T.toParams s.q (T.inputScaler u)).py) (s.q.px, s.q.py) ≤ T.vMax * T.dt :=
    fun u hu => straight_shift hdt (scaled_speed hv hu) _ _ _
  cases hp : T.enableProjection
  · cases hg : T.enableGuidance
    · rw [Bicycle.step_q T ext hp hg]
      split
      · rw [dist_self']; positivity
      · exact key _ (inBox_eff _ _)
    · rw [(Bicycle.step_guided T ext hp hg s a).1]
      exact key _ (inBox_eff _ _)
  · rw [(Bicycle.step_projected T ext hp s a).2]
    exact key _ (hsol hp _ _)

example := fun ext s a =>
  C15_bicycle Wit.bike ext Wit.vMax_nonneg Wit.dt_nonneg (fun h => nomatch h) s a

/-- C15 over a rollout, bicycle. -/
theorem C15_rollout_bicycle (T : Bicycle) (ext : Ext Q3) (hv : 0 ≤ T.vMax) (hdt : 0 ≤ T.dt)
    (hsol : T.enableProjection = true → ∀ q u, Spec.InBox (ext.project q u)) (s : St Q3)
    (us : List U) :
    Spec.dist ((finalState (T.step ext) s us).q.px, (finalState (T.step ext) s us).q.py)
      (s.q.px, s.q.py) ≤ us.length * (T.vMax * T.dt) :=
  scan_drift (step := T.step ext) (fun s => (s.q.px, s.q.py)) _
    (fun s a => C15_bicycle T ext hv hdt hsol s a) us s

example := fun ext us =>
  C15_rollout_bicycle Wit.bike ext Wit.vMax_nonneg Wit.dt_nonneg (fun h => nomatch h) Wit.bike.reset us

/-- C15, N trailers. -/
theorem C15_ntrailer (T : NTrailer) (guide : QN → QN) (hv : 0 ≤ T.vMax) (hdt : 0 ≤ T.dt)
    (s s' : St QN) (a : U) (h : T.step guide s a = .ok s') :
    Spec.dist (s'.q.px, s'.q.py) (s.q.px, s.q.py) ≤ T.vMax * T.dt := by
  have key : ∀ u, Spec.InBox u → Spec.dist ((T.euler s.q (T.inputScaler u)).px,
      (T.euler s.q (T.inputScaler u)).py) (s.q.px, s.q.py) ≤ T.vMax * T.dt :=
    fun u hu => straight_shift hdt (scaled_speed hv hu) _ _ _
  cases hg : T.enableGuidance
  · rw [(T.step_spec guide hg s s' a h).1]
    split
    · rw [dist_self']; positivity
    · exact key _ (inBox_eff _ _)
  · rw [(T.step_guided guide hg s s' a h).1]
    exact key _ (inBox_eff _ _)

example (guide : QN → QN) (a : U) : ∃ s', Wit.train.step guide Wit.train.reset a = .ok s' ∧
    Spec.dist (s'.q.px, s'.q.py) (0, 0) ≤ Wit.train.vMax * Wit.train.dt := by
  obtain ⟨s', h⟩ := (Wit.train.step_ok_iff guide Wit.train.reset a).mpr ⟨rfl, rfl⟩
  exact ⟨s', h, C15_ntrailer Wit.train guide Wit.vMax_nonneg Wit.dt_nonneg _ s' a h⟩

/-- C15, acceleration model: the bound holds even when the recorded speed has wound up beyond
`v_max`, because the motion uses the clipped speed (every mode, every solver). -/
theorem C15_acc (T : Acc) (ext : Ext Q6) (hv : 0 ≤ T.vMax) (hdt : 0 ≤ T.dt) (s : St Q6) (a : U) :
    Spec.dist ((T.step ext s a).q.px, (T.step ext s a).q.py) (s.q.px, s.q.py) ≤ T.vMax * T.dt := by
  have key : ∀ u, Spec.dist ((T.euler s.q u T.dt).px, (T.euler s.q u T.dt).py)
      (s.q.px, s.q.py) ≤ T.vMax * T.dt := by
    intro u
    apply straight_shift hdt
    unfold clip
    rw [abs_le]
    exact ⟨le_min (le_max_right _ _) (by linarith), min_le_right _ _⟩
  unfold Acc.step Acc.stepInternal
  cases hp : T.enableProjection
  · cases hg : T.enableGuidance
    · simp only [Bool.false_eq_true, if_false]
      cases hs : (T.shieldCollision || T.shieldHitch)
      · simp only [Bool.false_eq_true, if_false]
        exact key _
      · simp only [if_true]
        unfold Acc.shieldedRollout
        simp only
        generalize ((T.shieldCollision && _) || _) = b
        cases b
        · exact key _
        · exact key _
    · simp only [Bool.false_eq_true, if_false, if_true]
      exact key _
  · simp only [if_true]
    exact key _

example := fun ext s a => C15_acc Wit.acc ext Wit.vMax_nonneg Wit.dt_nonneg s a

/-- C15 over a rollout, acceleration model. -/
theorem C15_rollout_acc (T : Acc) (ext : Ext Q6) (hv : 0 ≤ T.vMax) (hdt : 0 ≤ T.dt) (s : St Q6)
    (us : List U) :
    Spec.dist ((finalState (T.step ext) s us).q.px, (finalState (T.step ext) s us).q.py)
      (s.q.px, s.q.py) ≤ us.length * (T.vMax * T.dt) :=
  scan_drift (step := T.step ext) (fun s => (s.q.px, s.q.py)) _
    (fun s a => C15_acc T ext hv hdt s a) us s

/-- The bound is attained: the tunnelling step of `PropsSafe` moves exactly `v_max * dt`. -/
example (ext : Ext Q4) : Spec.dist ((tunnelTT.step ext tunnelTT.reset (1, 0)).q.px,
    (tunnelTT.step ext tunnelTT.reset (1, 0)).q.py) (tunnelTT.reset.q.px, tunnelTT.reset.q.py)
      = tunnelTT.vMax * tunnelTT.dt := by
  rw [tunnel_step]
  simp only [Spec.dist, tunnelTT, TT2d.reset, Params.default]
  rw [show ((0.6 : ℝ) - 0) ^ 2 + (0 - 0) ^ 2 = 0.6 ^ 2 by norm_num, sqrt_sq (by norm_num)]
  norm_num

/-! ## C17: rollouts are causal and compositional -/

theorem scanStates_take {S A : Type} (step : S → A → S) : ∀ (us : List A) (s : S) (t : ℕ),
    (scanStates step s us).take t = scanStates step s (us.take t)
  | [], _, t => by simp [scanStates]
  | _ :: _, _, 0 => by simp [scanStates]
  | u :: us, s, t + 1 => by simp [scanStates, scanStates_take step us (step s u) t]

/-- C17, causality: two action sequences that agree in the first `t` actions give the same rewards,
states and applied actions up to time `t`. -/
theorem C17_causal {Q : Type} (step : St Q → U → St Q) (s : St Q) (us vs : List U) (t : ℕ)
    (h : us.take t = vs.take t) :
    (rolloutUs step s us).1.take t = (rolloutUs step s vs).1.take t ∧
    (rolloutUs step s us).2.1.take t = (rolloutUs step s vs).2.1.take t ∧
    (rolloutUs step s us).2.2.take t = (rolloutUs step s vs).2.2.take t ∧
    (evalUs step s us).take t = (evalUs step s vs).take t := by
  unfold rolloutUs evalUs
  simp only [← List.map_take, scanStates_take, h, and_self]

example := fun ext => C17_causal (Wit.tt.step ext) Wit.tt.reset [(1, 0), (1, 1)] [(1, 0), (-1, 0)] 1 rfl

/-- C17, lengths. -/
theorem C17_lengths {Q : Type} (step : St Q → U → St Q) (terminal : Q → ℝ) (w : ℝ) (s : St Q)
    (us : List U) :
    (rolloutUs step s us).1.length = us.length ∧ (rolloutUs step s us).2.1.length = us.length ∧
    (rolloutUs step s us).2.2.length = us.length ∧ (evalUs step s us).length = us.length ∧
    (rolloutUsWithTerminal step terminal w s us).2.1.length = us.length ∧
    (rolloutUsWithTerminal step terminal w s us).2.2.length = us.length := by
  unfold rolloutUs evalUs rolloutUsWithTerminal
  simp [scanStates_length]

/-- C17, composition: the scan over a concatenation is the scan of the first part followed by the
scan of the second part from the last state of the first. -/
theorem C17_append {S A : Type} (step : S → A → S) (us vs : List A) (s : S) :
    scanStates step s (us ++ vs) = scanStates step s us ++
      scanStates step ((scanStates step s us).getLastD s) vs ∧
    finalState step s us = (scanStates step s us).getLastD s := by
  rw [scanStates_append, finalState_eq_getLast, List.getLastD_eq_getLast?]
  exact ⟨rfl, rfl⟩

/-- C17: the two rollout functions agree on states and applied actions, and the total reward is the
mean stage reward plus the weighted terminal reward of the last state. -/
theorem C17_total {Q : Type} (step : St Q → U → St Q) (terminal : Q → ℝ) (w : ℝ) (s : St Q)
    (us : List U) :
    (rolloutUsWithTerminal step terminal w s us).2 = (rolloutUs step s us).2 ∧
    (rolloutUsWithTerminal step terminal w s us).1 = (rolloutUs step s us).1.sum / us.length +
      w * terminal ((rolloutUs step s us).2.1.getLastD (step s (0, 0)).q) := by
  unfold rolloutUsWithTerminal rolloutUs mean
  refine ⟨rfl, ?_⟩
  simp only [List.length_map, scanStates_length]
  rw [finalState_eq_getLast]
  congr 3
  unfold warmState
  generalize scanStates step (step s (0, 0)) us = l
  rw [List.getLastD_eq_getLast?, List.getLast?_map]
  cases l.getLast? <;> rfl

/-- C17 for the N-trailer scan, which may raise: a run over a concatenation succeeds exactly when
both parts do, with the same states. -/
theorem C17_append_ntrailer {E S A : Type} (step : S → A → Except E S) :
    ∀ (us vs : List A) (s : S) (tr : List S),
    scanStatesE step s (us ++ vs) = .ok tr ↔
      ∃ t₁ t₂, scanStatesE step s us = .ok t₁ ∧ scanStatesE step (t₁.getLastD s) vs = .ok t₂ ∧
        tr = t₁ ++ t₂
  | [], vs, s, tr => by
    constructor
    · intro h; exact ⟨[], tr, rfl, h, rfl⟩
    · rintro ⟨t₁, t₂, h1, h2, rfl⟩
      have : t₁ = [] := by simpa [scanStatesE] using h1.symm
      subst this; exact h2
  | u :: us, vs, s, tr => by
    simp only [List.cons_append, scanStatesE]
    cases hs : step s u with
    | error e => simp
    | ok s1 =>
      simp only
      have ih := C17_append_ntrailer step us vs s1
      constructor
      · intro h
        cases hr : scanStatesE step s1 (us ++ vs) with
        | error e => rw [hr] at h; simp at h
        | ok l =>
          rw [hr] at h
          obtain ⟨t₁, t₂, h1, h2, rfl⟩ := (ih l).mp hr
          refine ⟨s1 :: t₁, t₂, by rw [h1], ?_, by simpa using h.symm⟩
          rw [← h2]; cases t₁ <;> simp [List.getLastD]
      · rintro ⟨t₁, t₂, h1, h2, rfl⟩
        cases hr : scanStatesE step s1 us with
        | error e => rw [hr] at h1; simp at h1
        | ok l =>
          rw [hr] at h1
          have e : t₁ = s1 :: l := by simpa using h1.symm
          subst e
          have := (ih (l ++ t₂)).mpr ⟨l, t₂, hr, by
            rw [← h2]; cases l <;> simp [List.getLastD], rfl⟩
          rw [this]; rfl

/-! ## C18: the warm-up step -/

/-- C18, tractor-trailer: the warm-up step from a state that is not in backup mode leaves the vehicle
state unchanged, in every mode except projection (with projection if the solver keeps the zero
control). -/
theorem C18_tt2d (T : TT2d) (ext : Ext Q4) (hproj : T.enableProjection = true →
      ext.project = fun _ u => u) (s : St Q4) :
    (warmState (T.step ext) s).q = s.q ∧
    (warmState (T.step ext) s).inBackup = s.inBackup := by
  refine ⟨?_, rfl⟩
  have e0 : T.proposal s (0, 0) = s.q := by
    unfold TT2d.proposal effAction
    rw [clipU_zero, ite_self, TT2d.euler_zero]
  unfold warmState
  cases hp : T.enableProjection
  · cases hg : T.enableGuidance
    · rw [TT2d.step_q T ext hp hg, e0, ite_self]
    · rw [(TT2d.step_guided T ext hp hg s _).1, e0]
  · rw [(TT2d.step_projected T ext hp s _).2, hproj hp, clipU_zero, TT2d.euler_zero]

example := fun ext => C18_tt2d Wit.tt ext (fun h => nomatch h) Wit.tt.reset

/-- Steps depend on the state only through vehicle state and backup flag. -/
theorem tt2d_step_congr (T : TT2d) (ext : Ext Q4) {s s' : St Q4} (h1 : s.q = s'.q)
    (h2 : s.inBackup = s'.inBackup) (a : U) : T.step ext s a = T.step ext s' a := by
  unfold TT2d.step TT2d.stepInternal
  simp only [h1, h2]

theorem scan_congr {Q : Type} {step : St Q → U → St Q}
    (hc : ∀ s s' a, s.q = s'.q → s.inBackup = s'.inBackup → step s a = step s' a) {s s' : St Q}
    (h1 : s.q = s'.q) (h2 : s.inBackup = s'.inBackup) :
    ∀ us, scanStates step s us = scanStates step s' us
  | [] => rfl
  | u :: us => by
    unfold scanStates
    rw [hc s s' u h1 h2]

/-- C18, consequence: the sampled sequences are evaluated from `x0`: the rollout functions return
exactly the rewards, states and actions of the scan started at reset. -/
theorem C18_rollout_tt2d (T : TT2d) (ext : Ext Q4) (hproj : T.enableProjection = true →
      ext.project = fun _ u => u) (us : List U) :
    rolloutUs (T.step ext) T.reset us =
      ((scanStates (T.step ext) T.reset us).map St.reward,
       (scanStates (T.step ext) T.reset us).map St.q,
       (scanStates (T.step ext) T.reset us).map St.applied) := by
  unfold rolloutUs
  have h := C18_tt2d T ext hproj T.reset
  rw [scan_congr (fun s s' a h1 h2 => tt2d_step_congr T ext h1 h2 a) h.1 h.2]

example := fun ext us => C18_rollout_tt2d Wit.tt ext (fun h => nomatch h) us

/-- C18, bicycle. -/
theorem C18_bicycle (T : Bicycle) (ext : Ext Q3) (hproj : T.enableProjection = true →
      ext.project = fun _ u => u) (s : St Q3) :
    (warmState (T.step ext) s).q = s.q ∧
    (warmState (T.step ext) s).inBackup = s.inBackup := by
  refine ⟨?_, rfl⟩
  have e0 : T.proposal s (0, 0) = s.q := by
    unfold Bicycle.proposal effAction
    rw [clipU_zero, ite_self, Bicycle.euler_zero]
  unfold warmState
  cases hp : T.enableProjection
  · cases hg : T.enableGuidance
    · rw [Bicycle.step_q T ext hp hg, e0, ite_self]
    · rw [(Bicycle.step_guided T ext hp hg s _).1, e0]
  · rw [(Bicycle.step_projected T ext hp s _).2, hproj hp, clipU_zero, Bicycle.euler_zero]

example := fun ext => C18_bicycle Wit.bike ext (fun h => nomatch h) Wit.bike.reset

theorem bicycle_step_congr (T : Bicycle) (ext : Ext Q3) {s s' : St Q3} (h1 : s.q = s'.q)
    (h2 : s.inBackup = s'.inBackup) (a : U) : T.step ext s a = T.step ext s' a := by
  unfold Bicycle.step Bicycle.stepInternal
  simp only [h1, h2]

/-- C18, consequence for the bicycle. -/
theorem C18_rollout_bicycle (T : Bicycle) (ext : Ext Q3) (hproj : T.enableProjection = true →
      ext.project = fun _ u => u) (us : List U) :
    rolloutUs (T.step ext) T.reset us =
      ((scanStates (T.step ext) T.reset us).map St.reward,
       (scanStates (T.step ext) T.reset us).map St.q,
       (scanStates (T.step ext) T.reset us).map St.applied) := by
  unfold rolloutUs
  have h := C18_bicycle T ext hproj T.reset
  rw [scan_congr (fun s s' a h1 h2 => bicycle_step_congr T ext h1 h2 a) h.1 h.2]

example := fun ext us => C18_rollout_bicycle Wit.bike ext (fun h => nomatch h) us

/-- C18, N trailers: the warm-up step succeeds and leaves the vehicle state unchanged. -/
theorem C18_ntrailer (T : NTrailer) (guide : QN → QN) (hp : T.enableProjection = false) (s : St QN)
    (hl : s.q.ths.length = T.N) :
    ∃ s', T.step guide s (0, 0) = .ok s' ∧ s'.q = s.q ∧ s'.inBackup = s.inBackup := by
  obtain ⟨s', h⟩ := (T.step_ok_iff guide s (0, 0)).mpr ⟨hl, hp⟩
  refine ⟨s', h, ?_, T.step_inBackup guide s s' _ h⟩
  have e0 : T.proposal s (0, 0) = s.q := by
    unfold NTrailer.proposal effAction
    rw [clipU_zero, ite_self, NTrailer.euler_zero T _ hl]
  cases hg : T.enableGuidance
  · rw [(T.step_spec guide hg s s' _ h).1, e0, ite_self]
  · rw [(T.step_guided guide hg s s' _ h).1, e0]

example := fun guide => C18_ntrailer Wit.train guide rfl Wit.train.reset rfl

theorem acc_euler_zero (T : Acc) (hv : 0 ≤ T.vMax) (q : Q6) (h : q.v = 0) (dt : ℝ) :
    T.euler q (0, 0) dt = q := by
  have hp := T.euler_pose_of_rest hv q h (0, 0) dt
  unfold Q6.pose at hp
  simp only [Q4.mk.injEq] at hp
  ext
  · exact hp.1
  · exact hp.2.1
  · exact hp.2.2.1
  · exact hp.2.2.2
  · rw [Acc.euler_v]; simp
  · rw [Acc.euler_delta]; simp

/-- C18, acceleration model, partial: true when the vehicle starts at rest (which is what the
constructor and the setters' defaults produce).  Missing: a moving start (`C18_acc_refuted`). -/
theorem C18_acc_partial (T : Acc) (ext : Ext Q6) (hv : 0 ≤ T.vMax) (ha : 0 ≤ T.aMax)
    (hproj : T.enableProjection = true → ext.project = fun _ u => u) (s : St Q6)
    (h0 : s.q.v = 0) (hb : s.inBackup = false) :
    (warmState (T.step ext) s).q = s.q ∧ (warmState (T.step ext) s).inBackup = false := by
  refine ⟨?_, hb⟩
  have es : T.inputScaler (0, 0) = (0, 0) := by simp [Acc.inputScaler]
  have e0 := acc_euler_zero T hv s.q h0 T.dt
  have eb : ∀ w, T.euler s.q (T.uBackupScaled s.q.v w) T.dt = s.q := by
    intro w
    rw [h0]
    have : T.aBackup 0 = 0 ∨ T.aMax < 0 := by
      unfold Acc.aBackup clip
      rcases le_or_gt 0 T.aMax with h | h
      · left; simp [h]
      · exact Or.inr h
    rcases this with h | h
    · have : T.uBackupScaled 0 w = (0, 0) := by unfold Acc.uBackupScaled; rw [h, mul_zero]
      rw [this, e0]
    · exact absurd h (not_lt.mpr ha)
  unfold warmState Acc.step Acc.stepInternal
  cases hp : T.enableProjection
  · cases hg : T.enableGuidance
    · simp only [Bool.false_eq_true, if_false, hb, clipU_zero, es, e0]
      cases hs : (T.shieldCollision || T.shieldHitch)
      · rfl
      · simp only [if_true]
        unfold Acc.shieldedRollout
        simp only [eb, ite_self]
    · simp only [Bool.false_eq_true, if_false, if_true, hb, clipU_zero, es, e0]
  · simp only [if_true, hproj hp, clipU_zero, es, e0]

example := fun ext => C18_acc_partial Wit.acc ext Wit.vMax_nonneg (by norm_num [Wit.acc])
  (fun h => nomatch h) Wit.acc.reset rfl rfl

/-- C18 is false for the acceleration model started with a speed: the warm-up step already drives. -/
theorem C18_acc_refuted :
    ¬ (∀ (T : Acc) (ext : Ext Q6), 0 < T.vMax → 0 < T.dt → 0 < T.aMax →
      T.enableProjection = false → (warmState (T.step ext) T.reset).q = T.reset.q) := by
  intro h
  let T : Acc := { accDefault [] (straight 0 3) with shieldCollision := false, shieldHitch := false }
  let ext : Ext Q6 := ⟨fun _ u => u, id⟩
  have h1 := h T ext (by norm_num [T, accDefault, Params.default])
    (by norm_num [T, accDefault, Params.default]) (by norm_num [T, accDefault]) rfl
  have e : (warmState (T.step ext) T.reset).q = T.euler T.reset.q (T.inputScaler (clipU (0, 0))) T.dt := by
    unfold warmState Acc.step Acc.stepInternal Acc.naive
    simp [T, accDefault, Params.default, Acc.reset]
  rw [e, clipU_zero] at h1
  have hx := congrArg Q6.px h1
  simp only [Acc.euler, Q6.axpy, Acc.dynamics, T, accDefault, Params.default, Acc.reset,
    straight] at hx
  rw [clip_of_mem (by norm_num) (by norm_num)] at hx
  norm_num at hx

end Mbd
