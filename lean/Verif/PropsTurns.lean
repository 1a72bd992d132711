import Verif.PropsPenalty
import Verif.PropsReward
import Verif.PlanLemmas

/-!
# More on C33, C35 and C54: steps and rollouts of every robot
-/

namespace Mbd

open Real Classical

/-! ## C33: steps in every mode -/

theorem prefPenaltyV_nonneg {P : Params} (h : 0 ≤ P.preferencePenaltyWeight) (v : ℝ) :
    0 ≤ P.prefPenaltyV v := by
  unfold Params.prefPenaltyV
  simp only
  split_ifs <;> positivity

theorem charged_le {r c h p R : ℝ} {oc hv : Bool} {m : Prop} [Decidable m] (hr : r ≤ R) (hc : 0 ≤ c) (hh : 0 ≤ h)
    (hp : 0 ≤ p) :
    (if m then (if hv then (if oc then r - c else r) - h else (if oc then r - c else r)) - p
      else (if hv then (if oc then r - c else r) - h else (if oc then r - c else r))) ≤ R := by
  split_ifs <;> linarith

/-- C33, tractor-trailer, any mode (naive, shielded, guided, projected): with non-negative penalties
no step is rewarded with more than 1. -/
theorem C33_modes_tt2d (T : TT2d) (ext : Ext Q4) (h : Spec.RewardOK T.toParams)
    (hc : 0 ≤ T.collisionPenalty) (hh : 0 ≤ T.hitchPenalty) (hw : 0 ≤ T.preferencePenaltyWeight)
    (s : St Q4) (a : U) : (T.step ext s a).reward ≤ 1 := by
  unfold TT2d.step TT2d.stepInternal
  simp only
  exact charged_le (C33_tt2d h T.xg _).1 hc hh (prefPenaltyV_nonneg hw _)

/-- C33, bicycle, any mode. -/
theorem C33_modes_bicycle (T : Bicycle) (ext : Ext Q3) (h : Spec.RewardOK T.toParams)
    (hc : 0 ≤ T.collisionPenalty) (hh : 0 ≤ T.hitchPenalty) (hw : 0 ≤ T.preferencePenaltyWeight)
    (s : St Q3) (a : U) : (T.step ext s a).reward ≤ 1 := by
  unfold Bicycle.step Bicycle.stepInternal
  simp only
  exact charged_le (C33_bicycle h T.xg _).1 hc hh (prefPenaltyV_nonneg hw _)

/-- C33, acceleration model, any mode. -/
theorem C33_modes_acc (T : Acc) (ext : Ext Q6) (h : Spec.RewardOK T.toParams)
    (hc : 0 ≤ T.collisionPenalty) (hh : 0 ≤ T.hitchPenalty) (hw : 0 ≤ T.preferencePenaltyWeight)
    (s : St Q6) (a : U) : (T.step ext s a).reward ≤ 1 := by
  unfold Acc.step Acc.stepInternal
  simp only
  exact charged_le (C33_acc T h _).1 hc hh (prefPenaltyV_nonneg hw _)

/-- C33, train, any mode in which the step is defined. -/
theorem C33_modes_ntrailer (T : NTrailer) (guide : QN → QN) (h : Spec.RewardOK T.toParams)
    (hc : 0 ≤ T.collisionPenalty) (hh : 0 ≤ T.hitchPenalty) (hw : 0 ≤ T.preferencePenaltyWeight)
    (s s' : St QN) (a : U) (hs : T.step guide s a = .ok s') : s'.reward ≤ 1 := by
  obtain ⟨hl, hp⟩ := T.step_length guide s s' a hs
  unfold NTrailer.step NTrailer.stepInternal at hs
  simp only [hl, hp, ne_eq, not_true_eq_false, Bool.false_eq_true, if_false, Except.ok.injEq] at hs
  subst hs
  simp only
  exact charged_le (C33_ntrailer T h.thr h.tthr _).2.1 hc hh (prefPenaltyV_nonneg hw _)

example := fun ext s a => C33_modes_tt2d { Wit.tt with enableGuidance := true } ext
  (by constructor <;> norm_num [Wit.tt, Wit.params, Params.default])
  (by norm_num [Wit.tt, Wit.params, Params.default]) (by norm_num [Wit.tt, Wit.params, Params.default])
  (by norm_num [Wit.tt, Wit.params, Params.default]) s a
example := fun ext s a => C33_modes_bicycle Wit.bike ext wit_rewardOK
  (by norm_num [Wit.bike, Wit.params, Params.default]) (by norm_num [Wit.bike, Wit.params, Params.default])
  (by norm_num [Wit.bike, Wit.params, Params.default]) s a
example := fun ext s a => C33_modes_acc Wit.acc ext wit_rewardOK
  (by norm_num [Wit.acc, Wit.params, Params.default]) (by norm_num [Wit.acc, Wit.params, Params.default])
  (by norm_num [Wit.acc, Wit.params, Params.default]) s a
example := fun guide a => C33_modes_ntrailer Wit.train guide wit_rewardOK
  (by norm_num [Wit.train, Wit.params, Params.default]) (by norm_num [Wit.train, Wit.params, Params.default])
  (by norm_num [Wit.train, Wit.params, Params.default]) Wit.train.reset _ a
  (NTrailer.stepTotal_ok Wit.train guide rfl Wit.train.reset rfl a)

/-- C33, rollouts: whatever the robot, if no step earns more than 1 and the terminal reward is at most
1, the score of a trajectory (mean stage reward plus weighted terminal reward) is at most 1 plus the
terminal weight. -/
theorem total_le {Q : Type} {step : St Q → U → St Q} {term : Q → ℝ} {w : ℝ} (hw : 0 ≤ w)
    (h1 : ∀ s a, (step s a).reward ≤ 1) (h2 : ∀ q, term q ≤ 1) (s : St Q) (us : List U) :
    (rolloutUsWithTerminal step term w s us).1 ≤ 1 + w := by
  unfold rolloutUsWithTerminal mean
  simp only
  have hall : ∀ r ∈ (scanStates step (warmState step s) us).map St.reward, r ≤ 1 := by
    have := scanStates_forall (step := step) (fun s' => s'.reward ≤ 1)
      (fun s' a _ => h1 s' a) us (warmState step s) (h1 s (0, 0))
    intro r hr
    obtain ⟨s', hs', rfl⟩ := List.mem_map.mp hr
    exact this s' hs'
  have hsum : ∀ l : List ℝ, (∀ r ∈ l, r ≤ 1) → l.sum / l.length ≤ 1 := by
    intro l hl
    have : l.sum ≤ l.length := by
      have := List.sum_le_card_nsmul l 1 hl
      simpa using this
    by_cases h0 : l.length = 0
    · rw [h0]; simp
    · have : (0 : ℝ) < l.length := by
        exact_mod_cast Nat.pos_of_ne_zero h0
      rw [div_le_one this]; assumption
  have := hsum _ hall
  have := mul_le_mul_of_nonneg_left (h2 (finalState step (warmState step s) us).q) hw
  linarith

/-- C33, scores of whole action sequences, every robot and mode. -/
theorem C33_total_all (P : Params) (hP : Spec.RewardOK P) (hc : 0 ≤ P.collisionPenalty)
    (hh : 0 ≤ P.hitchPenalty) (hp : 0 ≤ P.preferencePenaltyWeight) (hw : 0 ≤ P.terminalRewardWeight)
    (us : List U) :
    (∀ (T : TT2d) (ext : Ext Q4) (s : St Q4), T.toParams = P →
      (rolloutUsWithTerminal (T.step ext) (TT2d.getTerminalReward T.toParams T.xg)
        T.terminalRewardWeight s us).1 ≤ 1 + P.terminalRewardWeight) ∧
    (∀ (T : Bicycle) (ext : Ext Q3) (s : St Q3), T.toParams = P →
      (rolloutUsWithTerminal (T.step ext) (Bicycle.getTerminalReward T.toParams T.xg)
        T.terminalRewardWeight s us).1 ≤ 1 + P.terminalRewardWeight) ∧
    (∀ (T : Acc) (ext : Ext Q6) (s : St Q6), T.toParams = P →
      (rolloutUsWithTerminal (T.step ext) T.getTerminalReward
        T.terminalRewardWeight s us).1 ≤ 1 + P.terminalRewardWeight) := by
  refine ⟨?_, ?_, ?_⟩ <;> intro T ext s e <;> subst e
  · exact total_le hw (C33_modes_tt2d T ext hP hc hh hp) (fun q => (C33_tt2d hP T.xg q).2.2.2) s us
  · exact total_le hw (C33_modes_bicycle T ext hP hc hh hp) (fun q => (C33_bicycle hP T.xg q).2.2.2) s us
  · exact total_le hw (C33_modes_acc T ext hP hc hh hp) (fun q => (C33_acc T hP q).2.2.2) s us

example := fun us => C33_total_all Wit.params wit_rewardOK
  (by norm_num [Wit.params, Params.default]) (by norm_num [Wit.params, Params.default])
  (by norm_num [Wit.params, Params.default]) (by norm_num [Wit.params, Params.default]) us

/-! ## C35: steps and rollouts -/

/-- A change of the state that commutes with every step commutes with the whole scan. -/
theorem scan_commutes {S A : Type} {step : S → A → S} {f : S → S} (h : ∀ s a, step (f s) a = f (step s a)) :
    ∀ (us : List A) (s : S), scanStates step (f s) us = (scanStates step s us).map f ∧
      finalState step (f s) us = f (finalState step s us)
  | [], s => ⟨rfl, rfl⟩
  | u :: us, s => by
    simp only [scanStates, finalState, List.map_cons, h]
    exact ⟨by rw [(scan_commutes h us _).1], (scan_commutes h us _).2⟩

theorem rollout_commutes {Q : Type} {step : St Q → U → St Q} {term : Q → ℝ} {w : ℝ} {f : St Q → St Q}
    {g : Q → Q} (h : ∀ s a, step (f s) a = f (step s a)) (hq : ∀ s, (f s).q = g s.q)
    (hr : ∀ s, (f s).reward = s.reward) (ha : ∀ s, (f s).applied = s.applied)
    (ht : ∀ q, term (g q) = term q) (s : St Q) (us : List U) :
    (rolloutUsWithTerminal step term w (f s) us).1 = (rolloutUsWithTerminal step term w s us).1 ∧
    (rolloutUsWithTerminal step term w (f s) us).2.1
      = (rolloutUsWithTerminal step term w s us).2.1.map g ∧
    (rolloutUsWithTerminal step term w (f s) us).2.2 = (rolloutUsWithTerminal step term w s us).2.2 := by
  unfold rolloutUsWithTerminal warmState
  simp only [h, (scan_commutes h us _).1, (scan_commutes h us _).2, hq, ht, List.map_map]
  have e1 : St.reward ∘ f = St.reward := funext hr
  have e2 : St.q ∘ f = g ∘ St.q := funext hq
  have e3 : St.applied ∘ f = St.applied := funext ha
  rw [e1, e2, e3]
  exact ⟨rfl, rfl, rfl⟩

/-- The same state with `g` applied to configuration and observation. -/
def Spec.reposed {Q : Type} (g : Q → Q) (s : St Q) : St Q := { s with q := g s.q, obs := g s.obs }

/-- C35, tractor-trailer: adding full turns to the headings of the start state adds the same turns
along the whole rollout and leaves score and applied actions unchanged. -/
theorem C35_rollout_tt2d (T : TT2d) (ext : Ext Q4) (hp : T.enableProjection = false)
    (hg : T.enableGuidance = false) (s : St Q4) (us : List U) (k m : ℤ) :
    let score := rolloutUsWithTerminal (T.step ext) (TT2d.getTerminalReward T.toParams T.xg)
      T.terminalRewardWeight
    (score (Spec.reposed (Spec.turn4 k m) s) us).1 = (score s us).1 ∧
    (score (Spec.reposed (Spec.turn4 k m) s) us).2.1 = (score s us).2.1.map (Spec.turn4 k m) ∧
    (score (Spec.reposed (Spec.turn4 k m) s) us).2.2 = (score s us).2.2 := by
  refine rollout_commutes (f := Spec.reposed (Spec.turn4 k m)) (g := Spec.turn4 k m) ?_
    (fun _ => rfl) (fun _ => rfl) (fun _ => rfl) ?_ s us
  · intro s a
    have e := C35_step_tt2d T ext hp hg s a k m
    have e' : T.step ext (Spec.reposed (Spec.turn4 k m) s) a
      = T.step ext { s with q := Spec.turn4 k m s.q } a := rfl
    rw [e']
    have o : ∀ s' : St Q4, T.step ext s' a = St.mk (T.step ext s' a).q (T.step ext s' a).q
        (T.step ext s' a).reward 0 (T.step ext s' a).applied s'.inBackup := fun _ => rfl
    rw [o, e.1, e.2.1, e.2.2]
    conv_rhs => rw [o]
    rfl
  · intro q
    have := (C35_reward_tt2d T.toParams T.xg q k m 0 0).2
    have e : Spec.turn4 0 0 T.xg = T.xg := by unfold Spec.turn4; simp
    rwa [e] at this

example := fun ext us k m => C35_rollout_tt2d Wit.tt ext rfl rfl Wit.tt.reset us k m

/-- C35, bicycle: steps and rollouts. -/
theorem C35_step_bicycle (T : Bicycle) (ext : Ext Q3) (hp : T.enableProjection = false)
    (hg : T.enableGuidance = false) (s : St Q3) (a : U) (k : ℤ) :
    T.step ext (Spec.reposed (Spec.turn3 k) s) a = Spec.reposed (Spec.turn3 k) (T.step ext s a) := by
  have ho : ∀ q, Bicycle.checkObstacle T.toParams (Spec.turn3 k q) = Bicycle.checkObstacle T.toParams q :=
    fun q => propext (C35_bicycle T.toParams T.xg q k 0 (0, 0)).1
  have hr : ∀ q, Bicycle.getReward T.toParams T.xg (Spec.turn3 k q) = Bicycle.getReward T.toParams T.xg q := by
    intro q
    have := (C35_bicycle T.toParams T.xg q k 0 (0, 0)).2.1
    have e : Spec.turn3 0 T.xg = T.xg := by unfold Spec.turn3; simp
    rwa [e] at this
  have he : ∀ q u, Bicycle.euler T.toParams (Spec.turn3 k q) u = Spec.turn3 k (Bicycle.euler T.toParams q u) :=
    fun q u => (C35_bicycle T.toParams T.xg q k 0 u).2.2.2
  have hh : ∀ q, Bicycle.checkHitch T.toParams (Spec.turn3 k q) = Bicycle.checkHitch T.toParams q := fun _ => rfl
  unfold Bicycle.step Bicycle.stepInternal Spec.reposed kinShieldedRollout kinNaive
  simp only [hp, hg, Bool.false_eq_true, if_false, he, ho, hh]
  cases h1 : T.shieldCollision <;> cases h2 : T.shieldHitch <;>
  by_cases c1 : Bicycle.checkObstacle T.toParams (Bicycle.euler T.toParams s.q
      (T.inputScaler (if s.inBackup = true then (0, 0) else clipU a))) <;>
  by_cases c2 : Bicycle.checkHitch T.toParams (Bicycle.euler T.toParams s.q
      (T.inputScaler (if s.inBackup = true then (0, 0) else clipU a))) <;>
    simp [c1, c2, hr]

theorem C35_rollout_bicycle (T : Bicycle) (ext : Ext Q3) (hp : T.enableProjection = false)
    (hg : T.enableGuidance = false) (s : St Q3) (us : List U) (k : ℤ) :
    let score := rolloutUsWithTerminal (T.step ext) (Bicycle.getTerminalReward T.toParams T.xg)
      T.terminalRewardWeight
    (score (Spec.reposed (Spec.turn3 k) s) us).1 = (score s us).1 ∧
    (score (Spec.reposed (Spec.turn3 k) s) us).2.1 = (score s us).2.1.map (Spec.turn3 k) ∧
    (score (Spec.reposed (Spec.turn3 k) s) us).2.2 = (score s us).2.2 := by
  refine rollout_commutes (f := Spec.reposed (Spec.turn3 k)) (g := Spec.turn3 k) ?_
    (fun _ => rfl) (fun _ => rfl) (fun _ => rfl) ?_ s us
  · exact fun s a => C35_step_bicycle T ext hp hg s a k
  · intro q
    have := (C35_bicycle T.toParams T.xg q k 0 (0, 0)).2.2.1
    have e : Spec.turn3 0 T.xg = T.xg := by unfold Spec.turn3; simp
    rwa [e] at this

example := fun ext us k => C35_rollout_bicycle Wit.bike ext rfl rfl Wit.bike.reset us k

theorem rolloutScan_turn (T : Acc) (q : Q6) (k m : ℤ) (n : ℕ) :
    T.rolloutScan (Spec.turn6 k m q) n =
      { T.rolloutScan q n with q := Spec.turn6 k m (T.rolloutScan q n).q } := by
  have ho : ∀ q, T.checkObstacle (Spec.turn6 k m q) = T.checkObstacle q :=
    fun q => propext (C35_acc T q k m (0, 0) 0).1
  have hh : ∀ q, T.checkHitch (Spec.turn6 k m q) = T.checkHitch q :=
    fun q => propext (C35_acc T q k m (0, 0) 0).2.1
  have he : ∀ q u dt, T.euler (Spec.turn6 k m q) u dt = Spec.turn6 k m (T.euler q u dt) :=
    fun q u dt => (C35_acc T q k m u dt).2.2.2.2
  unfold Acc.rolloutScan
  have hv : (Spec.turn6 k m q).v = q.v := rfl
  rw [hv]
  induction n with
  | zero => simp only [Function.iterate_zero, id, ho, hh]
  | succ n ih =>
    rw [Function.iterate_succ_apply', ih, Function.iterate_succ_apply']
    set c := (T.rolloutStep (T.uStop q.v))^[n] _
    unfold Acc.rolloutStep
    simp only
    have hcv : (Spec.turn6 k m c.q).v = c.q.v := rfl
    rw [hcv]
    by_cases h : |c.q.v| > Acc.vThr
    · simp only [if_pos h, he, ho, hh]
      rfl
    · simp only [if_neg h, ho, hh]
      rfl

theorem checkSafety_turn (T : Acc) (q : Q6) (k m : ℤ) :
    T.checkSafety (Spec.turn6 k m q) = T.checkSafety q := by
  have ho : T.checkObstacle (Spec.turn6 k m q) = T.checkObstacle q :=
    propext (C35_acc T q k m (0, 0) 0).1
  have hh : T.checkHitch (Spec.turn6 k m q) = T.checkHitch q :=
    propext (C35_acc T q k m (0, 0) 0).2.1
  unfold Acc.checkSafety
  simp only [rolloutScan_turn, ho, hh]
  rfl

/-- C35, acceleration model: a step, including the predicted braking manoeuvre of its shield. -/
theorem C35_step_acc (T : Acc) (ext : Ext Q6) (hp : T.enableProjection = false)
    (hg : T.enableGuidance = false) (s : St Q6) (a : U) (k m : ℤ) :
    T.step ext (Spec.reposed (Spec.turn6 k m) s) a = Spec.reposed (Spec.turn6 k m) (T.step ext s a) := by
  have ho : ∀ q, T.checkObstacle (Spec.turn6 k m q) = T.checkObstacle q :=
    fun q => propext (C35_acc T q k m (0, 0) 0).1
  have hh : ∀ q, T.checkHitch (Spec.turn6 k m q) = T.checkHitch q :=
    fun q => propext (C35_acc T q k m (0, 0) 0).2.1
  have hr : ∀ q, T.getReward (Spec.turn6 k m q) = T.getReward q :=
    fun q => (C35_acc T q k m (0, 0) 0).2.2.1
  have he : ∀ q u dt, T.euler (Spec.turn6 k m q) u dt = Spec.turn6 k m (T.euler q u dt) :=
    fun q u dt => (C35_acc T q k m u dt).2.2.2.2
  have hv : ∀ q, (Spec.turn6 k m q).v = q.v := fun _ => rfl
  unfold Acc.step Acc.stepInternal Spec.reposed Acc.shieldedRollout Acc.naive
  simp only [hp, hg, Bool.false_eq_true, if_false, he, hv, checkSafety_turn, ho, hh]
  set x := T.euler s.q (T.inputScaler (if s.inBackup = true then T.uBackupNorm s.q.v else clipU a)) T.dt
  set y := T.euler s.q (T.uBackupScaled s.q.v x.v) T.dt
  by_cases hs : (T.shieldCollision || T.shieldHitch) = true
  · simp only [if_pos hs]
    by_cases hu : ((T.shieldCollision && (T.checkSafety x).1) || (T.shieldHitch && (T.checkSafety x).2)) = true
    · simp only [if_pos hu, hr, hv]
    · simp only [if_neg hu, hr, hv]
  · simp only [if_neg hs, hr, hv]

theorem C35_rollout_acc (T : Acc) (ext : Ext Q6) (hp : T.enableProjection = false)
    (hg : T.enableGuidance = false) (s : St Q6) (us : List U) (k m : ℤ) :
    let score := rolloutUsWithTerminal (T.step ext) T.getTerminalReward T.terminalRewardWeight
    (score (Spec.reposed (Spec.turn6 k m) s) us).1 = (score s us).1 ∧
    (score (Spec.reposed (Spec.turn6 k m) s) us).2.1 = (score s us).2.1.map (Spec.turn6 k m) ∧
    (score (Spec.reposed (Spec.turn6 k m) s) us).2.2 = (score s us).2.2 :=
  rollout_commutes (f := Spec.reposed (Spec.turn6 k m)) (g := Spec.turn6 k m)
    (fun s a => C35_step_acc T ext hp hg s a k m)
    (fun _ => rfl) (fun _ => rfl) (fun _ => rfl) (fun q => (C35_acc T q k m (0, 0) 0).2.2.2.1) s us

example := fun ext us k m => C35_rollout_acc Wit.acc ext rfl rfl Wit.acc.reset us k m

/-- C35, train, jackknife check. -/
theorem C35_hitch_ntrailer (T : NTrailer) (x : QN) (hlen : x.ths.length = T.N) (hN : 1 ≤ T.N) (k : ℤ)
    (m : ℕ → ℤ) : T.checkHitch (Spec.turnN k m x) ↔ T.checkHitch x := by
  refine C06_turns_ntrailer T x (Spec.turnN k m x) hlen (by simp [Spec.turnN, hlen]) hN ⟨k, rfl⟩ ?_
  intro i h
  exact ⟨m i, by simp [Spec.turnN]⟩

theorem euler_turnN (T : NTrailer) (x : QN) (k : ℤ) (m : ℕ → ℤ) (u : U) :
    T.euler (Spec.turnN k m x) u = Spec.turnN k m (T.euler x u) := by
  unfold NTrailer.euler
  rw [C35_dynamics_ntrailer]
  unfold QN.axpy Spec.turnN
  simp only
  congr 1
  · ring
  · apply List.ext_getElem
    · simp
    · intro i h1 h2
      simp
      ring

/-- C35, train, steps: the step from the turned state succeeds whenever the other does and returns
the same state turned, with the same reward and applied action. -/
theorem C35_step_ntrailer (T : NTrailer) (guide : QN → QN) (hg : T.enableGuidance = false) (hN : 1 ≤ T.N)
    (s s' : St QN) (a : U) (k : ℤ) (m : ℕ → ℤ) (h : T.step guide s a = .ok s') :
    T.step guide (Spec.reposed (Spec.turnN k m) s) a = .ok (Spec.reposed (Spec.turnN k m) s') := by
  obtain ⟨hl, hp⟩ := T.step_length guide s s' a h
  have hl' : (Spec.turnN k m s.q).ths.length = T.N := by simp [Spec.turnN, hl]
  have ho : ∀ q, T.checkObstacle (Spec.turnN k m q) = T.checkObstacle q :=
    fun q => propext (C35_obstacle_ntrailer T q k m).1
  have hr : ∀ q, T.getReward (Spec.turnN k m q) = T.getReward q :=
    fun q => (C35_obstacle_ntrailer T q k m).2.1
  unfold Spec.reposed
  unfold NTrailer.step NTrailer.stepInternal kinShieldedRollout kinNaive at h ⊢
  simp only [hl, hl', hp, hg, ne_eq, not_true_eq_false, Bool.false_eq_true, if_false,
    Except.ok.injEq, euler_turnN, ho] at h ⊢
  subst h
  have hle : (T.euler s.q (T.inputScaler (if s.inBackup = true then (0, 0) else clipU a))).ths.length = T.N := by
    simp [NTrailer.euler, QN.axpy, NTrailer.dynamics, hl]
  set x := T.euler s.q (T.inputScaler (if s.inBackup = true then (0, 0) else clipU a))
  have hh : T.checkHitch (Spec.turnN k m x) = T.checkHitch x :=
    propext (C35_hitch_ntrailer T x hle hN k m)
  rw [hh]
  cases h1 : T.shieldCollision <;> cases h2 : T.shieldHitch <;>
  by_cases c1 : T.checkObstacle x <;> by_cases c2 : T.checkHitch x <;>
    simp [c1, c2, hr]

example := fun guide a k m => C35_step_ntrailer Wit.train guide rfl (by decide) Wit.train.reset _ a k m
  (NTrailer.stepTotal_ok Wit.train guide rfl Wit.train.reset rfl a)

/-! ## C54: the remaining vehicles -/

/-- `x` follows the equations of motion `f` at time `t` (bicycle). -/
def Spec.Follows3 (x : ℝ → Q3) (f : Q3) (t : ℝ) : Prop :=
  HasDerivAt (fun τ => (x τ).px) f.px t ∧ HasDerivAt (fun τ => (x τ).py) f.py t ∧
  HasDerivAt (fun τ => (x τ).th1) f.th1 t

/-- `x` follows the equations of motion `f` at time `t` (acceleration model). -/
def Spec.Follows6 (x : ℝ → Q6) (f : Q6) (t : ℝ) : Prop :=
  HasDerivAt (fun τ => (x τ).px) f.px t ∧ HasDerivAt (fun τ => (x τ).py) f.py t ∧
  HasDerivAt (fun τ => (x τ).th1) f.th1 t ∧ HasDerivAt (fun τ => (x τ).th2) f.th2 t ∧
  HasDerivAt (fun τ => (x τ).v) f.v t ∧ HasDerivAt (fun τ => (x τ).delta) f.delta t

theorem steered_rolls {x y th : ℝ → ℝ} {l v δ t : ℝ} (hl : l ≠ 0) (hδ : cos δ ≠ 0)
    (h1 : HasDerivAt x (v * cos (th t)) t) (h2 : HasDerivAt y (v * sin (th t)) t)
    (h3 : HasDerivAt th ((v / l) * tan δ) t) :
    Spec.RollsAlong (fun τ => Spec.frame (x τ, y τ) (th τ) l 0) (th t + δ) (v / cos δ) t := by
  unfold Spec.RollsAlong Spec.frame
  simp only [zero_mul, sub_zero, add_zero]
  constructor
  · refine (h1.add ((h3.cos).const_mul l)).congr_deriv ?_
    rw [cos_add, tan_eq_sin_div_cos]
    field_simp
    ring
  · refine (h2.add ((h3.sin).const_mul l)).congr_deriv ?_
    rw [sin_add, tan_eq_sin_div_cos]
    field_simp

/-- C54, bicycle: the rear axle rolls along the heading with the commanded speed, and the front axle
along the steered wheels: no axle slips sideways. -/
theorem C54_bicycle (P : Params) (x : ℝ → Q3) (u : U) (t : ℝ) (hl : P.l1 ≠ 0) (hδ : cos u.2 ≠ 0)
    (hx : Spec.Follows3 x (Bicycle.dynamics P (x t) u) t) :
    Spec.RollsAlong (fun τ => ((x τ).px, (x τ).py)) (x t).th1 u.1 t ∧
    Spec.RollsAlong (fun τ => Spec.frame ((x τ).px, (x τ).py) (x τ).th1 P.l1 0)
      ((x t).th1 + u.2) (u.1 / cos u.2) t :=
  ⟨⟨hx.1, hx.2.1⟩, steered_rolls hl hδ hx.1 hx.2.1 hx.2.2⟩

/-- A bicycle on a circle of radius `l1` (steering 45°, speed 1) around `(0, l1)`. -/
example : ∃ x : ℝ → Q3, Spec.Follows3 x (Bicycle.dynamics Wit.params (x 0) (1, π / 4)) 0 := by
  refine ⟨fun τ => ⟨3.23 * sin (τ / 3.23), 3.23 * (1 - cos (τ / 3.23)), τ / 3.23⟩, ?_, ?_, ?_⟩
  · have h : HasDerivAt (fun τ : ℝ => τ / 3.23) (1 / 3.23) 0 := (hasDerivAt_id' (0 : ℝ)).div_const _
    refine (h.sin.const_mul 3.23).congr_deriv ?_
    norm_num [Bicycle.dynamics]
  · have h : HasDerivAt (fun τ : ℝ => τ / 3.23) (1 / 3.23) 0 := (hasDerivAt_id' (0 : ℝ)).div_const _
    refine ((h.cos.const_sub 1).const_mul 3.23).congr_deriv ?_
    simp [Bicycle.dynamics]
  · refine ((hasDerivAt_id' (0 : ℝ)).div_const 3.23).congr_deriv ?_
    simp [Bicycle.dynamics, Wit.params, Params.default]

/-- C54, acceleration model: with the speed `v` and steering angle `δ` of the state limited to their
ranges, both axles of the tractor and the trailer axle roll without slipping, and the state's speed
and steering angle change at the commanded rates. -/
theorem C54_acc (T : Acc) (x : ℝ → Q6) (u : U) (t : ℝ) (hl : T.l1 ≠ 0) (hl2 : T.l2 ≠ 0) (v δ : ℝ)
    (hv : v = max (-T.vMax) (min T.vMax (x t).v)) (hd : δ = max (-T.deltaMax) (min T.deltaMax (x t).delta))
    (h0 : 0 ≤ T.vMax) (h0' : 0 ≤ T.deltaMax)
    (hδ : cos δ ≠ 0) (hx : Spec.Follows6 x (T.dynamics (x t) u) t) :
    Spec.RollsAlong (fun τ => ((x τ).px, (x τ).py)) (x t).th1 v t ∧
    Spec.RollsAlong (fun τ => Spec.frame ((x τ).px, (x τ).py) (x τ).th1 T.l1 0)
      ((x t).th1 + δ) (v / cos δ) t ∧
    Spec.RollsAlong (fun τ => Spec.trailerAxle T.toParams (x τ).pose) (x t).th2
      (v * cos ((x t).th1 - (x t).th2) + T.lh * (v / T.l1 * tan δ) * sin ((x t).th1 - (x t).th2)) t ∧
    HasDerivAt (fun τ => (x τ).v) u.1 t ∧ HasDerivAt (fun τ => (x τ).delta) u.2 t := by
  have ev : clip (x t).v (-T.vMax) T.vMax = v := by
    rw [hv]; unfold clip
    rcases le_total (x t).v (-T.vMax) with h | h <;> rcases le_total (x t).v T.vMax with h' | h' <;>
      simp [h, h'] <;> linarith
  have ed : clip (x t).delta (-T.deltaMax) T.deltaMax = δ := by
    rw [hd]; unfold clip
    rcases le_total (x t).delta (-T.deltaMax) with h | h <;>
      rcases le_total (x t).delta T.deltaMax with h' | h' <;> simp [h, h'] <;> linarith
  unfold Acc.dynamics at hx
  rw [ev, ed] at hx
  obtain ⟨h1, h2, h3, h4, h5, h6⟩ := hx
  refine ⟨⟨h1, h2⟩, steered_rolls hl hδ h1 h2 h3, ?_, h5, h6⟩
  refine link_rolls (p := fun τ => ((x τ).px, (x τ).py)) (a := fun τ => (x τ).th1)
    (b := fun τ => (x τ).th2) ⟨h1, h2⟩ h3 h4 ?_
  simp only
  field_simp

/-- A straight drive at 1 m/s, far from the limits. -/
example : Spec.Follows6 (fun τ => (⟨τ, 0, 0, 0, 1, 0⟩ : Q6)) (Wit.acc.dynamics ⟨0, 0, 0, 0, 1, 0⟩ (0, 0)) 0 := by
  have h0 := hasDerivAt_const (0 : ℝ) (0 : ℝ)
  have h1 := hasDerivAt_const (0 : ℝ) (1 : ℝ)
  have ev : clip 1 (-Wit.acc.vMax) Wit.acc.vMax = 1 := by
    apply clip_of_mem <;> norm_num [Wit.acc, Wit.params, Params.default]
  have ed : clip 0 (-Wit.acc.deltaMax) Wit.acc.deltaMax = 0 := by
    have : 0 ≤ Wit.acc.deltaMax := by
      unfold Params.deltaMax; norm_num [Wit.acc, Wit.params, Params.default]; positivity
    apply clip_of_mem <;> linarith
  unfold Acc.dynamics
  rw [ev, ed]
  refine ⟨?_, ?_, ?_, ?_, ?_, ?_⟩
  · simpa using hasDerivAt_id' (0 : ℝ)
  · simpa using h0
  · simpa using h0
  · simpa using h0
  · simpa using h1
  · simpa using h0

end Mbd
