import Verif.Witness
import Verif.SpecVehicle
import Mathlib.Data.List.Chain

/-!
# Properties of the step functions: C01, C02, C08, C09, C10, C36, C38
-/

namespace Mbd

open Real Classical

/-! ## C01: collision shield -/

/-- C01, tractor-trailer. -/
theorem C01_tt2d (T : TT2d) (ext : Ext Q4) (hs : T.shieldCollision = true)
    (hp : T.enableProjection = false) (hg : T.enableGuidance = false) (s : St Q4)
    (h0 : ¬ TT2d.checkObstacle T.toParams s.q) (us : List U) :
    ∀ s' ∈ scanStates (T.step ext) s us, ¬ TT2d.checkObstacle T.toParams s'.q := by
  apply scanStates_forall (fun s : St Q4 => ¬ TT2d.checkObstacle T.toParams s.q) _ us s h0
  intro s a h
  rw [TT2d.step_q T ext hp hg]
  split
  · exact h
  · rename_i hr
    unfold TT2d.rejects at hr
    tauto

/-- C01 applies to the default robot of `Wit` (a pole at 20 m, a box at 30 m). -/
example := fun ext us => C01_tt2d Wit.tt ext rfl rfl rfl Wit.tt.reset Wit.tt_clear us

/-- C01, bicycle. -/
theorem C01_bicycle (T : Bicycle) (ext : Ext Q3) (hs : T.shieldCollision = true)
    (hp : T.enableProjection = false) (hg : T.enableGuidance = false) (s : St Q3)
    (h0 : ¬ Bicycle.checkObstacle T.toParams s.q) (us : List U) :
    ∀ s' ∈ scanStates (T.step ext) s us, ¬ Bicycle.checkObstacle T.toParams s'.q := by
  apply scanStates_forall (fun s : St Q3 => ¬ Bicycle.checkObstacle T.toParams s.q) _ us s h0
  intro s a h
  rw [Bicycle.step_q T ext hp hg]
  split
  · exact h
  · rename_i hr
    unfold Bicycle.rejects at hr
    tauto

example := fun ext us => C01_bicycle Wit.bike ext rfl rfl rfl Wit.bike.reset Wit.bike_clear us

/-- C01, N trailers: whenever the rollout returns, all its states pass (it does return for states
of the right length, `ntrailer_rollout_ok`). -/
theorem C01_ntrailer (T : NTrailer) (guide : QN → QN) (hs : T.shieldCollision = true)
    (hg : T.enableGuidance = false) (s : St QN) (h0 : ¬ T.checkObstacle s.q) (us : List U)
    (tr : List (St QN)) (h : scanStatesE (T.step guide) s us = .ok tr) :
    ∀ s' ∈ tr, ¬ T.checkObstacle s'.q := by
  apply scanStatesE_forall (fun s : St QN => ¬ T.checkObstacle s.q) _ us s tr h0 h
  intro s a s' hi hst
  rw [(T.step_spec guide hg s s' a hst).1]
  split
  · exact hi
  · rename_i hr
    unfold NTrailer.rejects at hr
    tauto

/-- The rollout of the train raises no error when projection is off and the state has the right
length, for every action sequence. -/
theorem ntrailer_rollout_ok (T : NTrailer) (guide : QN → QN) (hp : T.enableProjection = false) :
    ∀ (us : List U) (s : St QN), s.q.ths.length = T.N →
    ∃ tr, scanStatesE (T.step guide) s us = .ok tr ∧ tr.length = us.length := by
  intro us
  induction us with
  | nil => intro s _; exact ⟨[], rfl, rfl⟩
  | cons u us ih =>
    intro s hl
    obtain ⟨s1, h1⟩ := (T.step_ok_iff guide s u).mpr ⟨hl, hp⟩
    obtain ⟨tr, h2, h3⟩ := ih s1 (T.step_length' guide s s1 u h1)
    exact ⟨s1 :: tr, by simp [scanStatesE, h1, h2], by simp [h3]⟩

/-- C01 applies to the default two-trailer train: its rollouts return, and all states pass. -/
example (guide : QN → QN) (us : List U) :
    ∃ tr, scanStatesE (Wit.train.step guide) Wit.train.reset us = .ok tr ∧
      ∀ s' ∈ tr, ¬ Wit.train.checkObstacle s'.q := by
  obtain ⟨tr, h, -⟩ := ntrailer_rollout_ok Wit.train guide rfl us Wit.train.reset rfl
  exact ⟨tr, h, C01_ntrailer Wit.train guide rfl rfl Wit.train.reset Wit.train_clear us tr h⟩

/-! ## C02: jackknife shield -/

/-- C02, tractor-trailer (independent of the collision shield). -/
theorem C02_tt2d (T : TT2d) (ext : Ext Q4) (hs : T.shieldHitch = true)
    (hp : T.enableProjection = false) (hg : T.enableGuidance = false) (s : St Q4)
    (h0 : ¬ TT2d.checkHitch T.toParams s.q) (us : List U) :
    ∀ s' ∈ scanStates (T.step ext) s us, ¬ TT2d.checkHitch T.toParams s'.q := by
  apply scanStates_forall (fun s : St Q4 => ¬ TT2d.checkHitch T.toParams s.q) _ us s h0
  intro s a h
  rw [TT2d.step_q T ext hp hg]
  split
  · exact h
  · rename_i hr
    unfold TT2d.rejects at hr
    tauto

example := fun ext us => C02_tt2d Wit.tt ext rfl rfl rfl Wit.tt.reset Wit.tt_straight us

/-- C02, N trailers. -/
theorem C02_ntrailer (T : NTrailer) (guide : QN → QN) (hs : T.shieldHitch = true)
    (hg : T.enableGuidance = false) (s : St QN) (h0 : ¬ T.checkHitch s.q) (us : List U)
    (tr : List (St QN)) (h : scanStatesE (T.step guide) s us = .ok tr) :
    ∀ s' ∈ tr, ¬ T.checkHitch s'.q := by
  apply scanStatesE_forall (fun s : St QN => ¬ T.checkHitch s.q) _ us s tr h0 h
  intro s a s' hi hst
  rw [(T.step_spec guide hg s s' a hst).1]
  split
  · exact hi
  · rename_i hr
    unfold NTrailer.rejects at hr
    tauto

/-- C02 applies to the default two-trailer train. -/
example (guide : QN → QN) (us : List U) :
    ∃ tr, scanStatesE (Wit.train.step guide) Wit.train.reset us = .ok tr ∧
      ∀ s' ∈ tr, ¬ Wit.train.checkHitch s'.q := by
  obtain ⟨tr, h, -⟩ := ntrailer_rollout_ok Wit.train guide rfl us Wit.train.reset rfl
  exact ⟨tr, h, C02_ntrailer Wit.train guide rfl rfl Wit.train.reset Wit.train_straight us tr h⟩

/-- C02, bicycle: no trailer, no jackknife, whatever the settings. -/
theorem C02_bicycle (T : Bicycle) (ext : Ext Q3) (s : St Q3) (us : List U) :
    ∀ s' ∈ scanStates (T.step ext) s us, ¬ Bicycle.checkHitch T.toParams s'.q :=
  fun _ _ h => h

/-- The default tractor-trailer at the origin with an obstacle far away starts safe: the
hypotheses of C01 and C02 hold, with both shields on. -/
example : let T : TT2d := { toParams := Params.default [] [], x0 := ⟨0, 0, 0, 0⟩,
                              xg := ⟨9, 0, 0, 0⟩ }
    T.shieldCollision = true ∧ T.shieldHitch = true ∧ T.enableProjection = false ∧
    T.enableGuidance = false ∧ ¬ TT2d.checkObstacle T.toParams T.reset.q ∧
    ¬ TT2d.checkHitch T.toParams T.reset.q := by
  refine ⟨rfl, rfl, rfl, rfl, ?_, ?_⟩
  · simp [TT2d.checkObstacle, Params.default]
  · unfold TT2d.checkHitch TT2d.reset
    simp only [sub_zero]
    have : wrapPi 0 = 0 := by
      unfold wrapPi fmod
      have hp := pi_pos
      have : ⌊(0 + π) / (2 * π)⌋ = 0 := by
        rw [Int.floor_eq_zero_iff]
        constructor
        · positivity
        · rw [div_lt_one (by positivity)]; linarith
      rw [this]; simp
    rw [this, abs_zero]
    show ¬ (0 > deg2rad 40)
    unfold deg2rad
    have := pi_pos
    simp only [gt_iff_lt, not_lt]
    positivity

/-! ## C08: applied actions are normalised -/

theorem inBox_zero : Spec.InBox (0, 0) := by unfold Spec.InBox; norm_num

theorem inBox_clipU (a : U) : Spec.InBox (clipU a) := by
  obtain ⟨h1, h2, h3, h4⟩ := clipU_mem a
  exact ⟨abs_le.mpr ⟨h1, h2⟩, abs_le.mpr ⟨h3, h4⟩⟩

theorem inBox_effAction (b : Bool) (a : U) : Spec.InBox (effAction b a) := by
  unfold effAction; split
  · exact inBox_zero
  · exact inBox_clipU a

/-- C08, tractor-trailer, naive, shielded or guided. -/
theorem C08_tt2d (T : TT2d) (ext : Ext Q4) (hp : T.enableProjection = false) (s : St Q4) (a : U) :
    Spec.InBox (T.step ext s a).applied := by
  cases hg : T.enableGuidance
  · rw [TT2d.step_applied T ext hp hg]
    split
    · exact inBox_zero
    · exact inBox_clipU a
  · rw [(TT2d.step_guided T ext hp hg s a).2]; exact inBox_effAction _ _

example := fun ext s a => C08_tt2d Wit.tt ext rfl s a

/-- C08, bicycle. -/
theorem C08_bicycle (T : Bicycle) (ext : Ext Q3) (hp : T.enableProjection = false) (s : St Q3)
    (a : U) : Spec.InBox (T.step ext s a).applied := by
  cases hg : T.enableGuidance
  · rw [Bicycle.step_applied T ext hp hg]
    split
    · exact inBox_zero
    · exact inBox_clipU a
  · rw [(Bicycle.step_guided T ext hp hg s a).2]; exact inBox_effAction _ _

example := fun ext s a => C08_bicycle Wit.bike ext rfl s a

/-- C08, N trailers (projection is rejected there). -/
theorem C08_ntrailer (T : NTrailer) (guide : QN → QN) (s s' : St QN) (a : U)
    (h : T.step guide s a = .ok s') : Spec.InBox s'.applied := by
  cases hg : T.enableGuidance
  · rw [(T.step_spec guide hg s s' a h).2.1]
    split
    · exact inBox_zero
    · exact inBox_clipU a
  · rw [(T.step_guided guide hg s s' a h).2.1]; exact inBox_effAction _ _

example (guide : QN → QN) (a : U) :
    ∃ s', Wit.train.step guide Wit.train.reset a = .ok s' ∧ Spec.InBox s'.applied := by
  obtain ⟨s', h⟩ := (Wit.train.step_ok_iff guide Wit.train.reset a).mpr ⟨rfl, rfl⟩
  exact ⟨s', h, C08_ntrailer Wit.train guide _ s' a h⟩

theorem inBox_uBackupNorm (T : Acc) (ha : 0 < T.aMax) (v : ℝ) : Spec.InBox (T.uBackupNorm v) := by
  unfold Acc.uBackupNorm Spec.InBox
  simp only [abs_zero, zero_le_one, and_true]
  rw [abs_div, abs_of_pos ha, div_le_one ha, abs_mul]
  have h1 : |Acc.decelSign v v| ≤ 1 := by
    unfold Acc.decelSign; split_ifs <;> norm_num
  have h2 : |T.aBackup v| ≤ T.aMax := by
    unfold Acc.aBackup
    rw [abs_of_nonneg (le_clip ha.le)]
    exact clip_le _ _ _
  calc |Acc.decelSign v v| * |T.aBackup v| ≤ 1 * T.aMax := by gcongr
    _ = T.aMax := one_mul _

/-- C08, acceleration model. -/
theorem C08_acc (T : Acc) (ext : Ext Q6) (ha : 0 < T.aMax) (hp : T.enableProjection = false)
    (s : St Q6) (a : U) : Spec.InBox (T.step ext s a).applied := by
  have key : ∀ b : Bool, Spec.InBox (if b = true then T.uBackupNorm s.q.v else clipU a) := by
    intro b; split
    · exact inBox_uBackupNorm T ha _
    · exact inBox_clipU a
  unfold Acc.step Acc.stepInternal
  simp only [hp, Bool.false_eq_true, if_false]
  cases hg : T.enableGuidance
  · simp only [Bool.false_eq_true, if_false]
    exact key _
  · simp only [if_true]
    exact key _

example := fun ext s a => C08_acc Wit.acc ext (by norm_num [Wit.acc]) rfl s a

/-- In projection mode the applied action is whatever the solver returned. -/
theorem C08_projection (T : TT2d) (ext : Ext Q4) (hp : T.enableProjection = true) (s : St Q4)
    (a : U) (hsol : ∀ q u, Spec.InBox (ext.project q u)) :
    Spec.InBox (T.step ext s a).applied := by
  rw [(TT2d.step_projected T ext hp s a).1]; exact hsol _ _

/-- The hypothesis on the solver is met, for instance, by one that clips its input. -/
example := fun ext s a => C08_projection
  { Wit.tt with toParams := { Wit.params with enableProjection := true } }
  { (ext : Ext Q4) with project := fun _ u => clipU u } rfl s a (fun _ u => inBox_clipU u)

/-! ## C09: recorded actions explain recorded states -/

theorem eulerTT_iff (P : Params) (q q' : Q4) (u : U) :
    Spec.EulerTT P q u q' ↔ q' = TT2d.euler P q (P.inputScaler u) := by
  unfold Spec.EulerTT TT2d.euler Q4.axpy TT2d.dynamics Params.inputScaler Params.deltaMax
  rw [Q4.ext_iff]

theorem eulerBicycle_iff (P : Params) (q q' : Q3) (u : U) :
    Spec.EulerBicycle P q u q' ↔ q' = Bicycle.euler P q (P.inputScaler u) := by
  unfold Spec.EulerBicycle Bicycle.euler Q3.axpy Bicycle.dynamics Params.inputScaler
    Params.deltaMax
  rw [Q3.ext_iff]

theorem scan_isChain {S A : Type} {step : S → A → S} (R : S → S → Prop)
    (h : ∀ s a, R s (step s a)) : ∀ (us : List A) (s : S),
    List.IsChain R (s :: scanStates step s us) := by
  intro us
  induction us with
  | nil => intro s; exact List.isChain_singleton s
  | cons u us ih => intro s; exact List.isChain_cons_cons.mpr ⟨h s u, ih _⟩

/-- C09, tractor-trailer, all modes (naive, shielded, guided, projection with any solver): each
state is one explicit Euler step of the vehicle from the previous one under the applied action
recorded with it. -/
theorem C09_tt2d (T : TT2d) (ext : Ext Q4) (s : St Q4) (us : List U) :
    List.IsChain (fun s s' : St Q4 => Spec.EulerTT T.toParams s.q s'.applied s'.q)
      (s :: scanStates (T.step ext) s us) := by
  apply scan_isChain
  intro s a
  rw [eulerTT_iff]
  cases hp : T.enableProjection
  · cases hg : T.enableGuidance
    · rw [TT2d.step_q T ext hp hg, TT2d.step_applied T ext hp hg]
      unfold TT2d.proposal
      cases hb : s.inBackup
      · simp only [effAction_false, Bool.false_eq_true, false_or]
        by_cases hr : T.rejects (TT2d.euler T.toParams s.q (T.inputScaler (clipU a)))
        · simp only [hr, if_true, TT2d.euler_zero]
        · simp only [hr, if_false]
      · simp only [effAction, if_true, true_or, TT2d.euler_zero, ite_self]
    · rw [(TT2d.step_guided T ext hp hg s a).1, (TT2d.step_guided T ext hp hg s a).2]; rfl
  · rw [(TT2d.step_projected T ext hp s a).1, (TT2d.step_projected T ext hp s a).2]

/-- C09, bicycle, all modes. -/
theorem C09_bicycle (T : Bicycle) (ext : Ext Q3) (s : St Q3) (us : List U) :
    List.IsChain (fun s s' : St Q3 => Spec.EulerBicycle T.toParams s.q s'.applied s'.q)
      (s :: scanStates (T.step ext) s us) := by
  apply scan_isChain
  intro s a
  rw [eulerBicycle_iff]
  cases hp : T.enableProjection
  · cases hg : T.enableGuidance
    · rw [Bicycle.step_q T ext hp hg, Bicycle.step_applied T ext hp hg]
      unfold Bicycle.proposal
      cases hb : s.inBackup
      · simp only [effAction_false, Bool.false_eq_true, false_or]
        by_cases hr : T.rejects (Bicycle.euler T.toParams s.q (T.inputScaler (clipU a)))
        · simp only [hr, if_true, Bicycle.euler_zero]
        · simp only [hr, if_false]
      · simp only [effAction, if_true, true_or, Bicycle.euler_zero, ite_self]
    · rw [(Bicycle.step_guided T ext hp hg s a).1, (Bicycle.step_guided T ext hp hg s a).2]; rfl
  · rw [(Bicycle.step_projected T ext hp s a).1, (Bicycle.step_projected T ext hp s a).2]

theorem scanE_isChain {E S A : Type} {step : S → A → Except E S} (R : S → S → Prop)
    (h : ∀ s a s', step s a = .ok s' → R s s') : ∀ (us : List A) (s : S) (tr : List S),
    scanStatesE step s us = .ok tr → List.IsChain R (s :: tr) := by
  intro us
  induction us with
  | nil =>
    intro s tr h'
    simp only [scanStatesE, Except.ok.injEq] at h'
    subst h'; exact List.isChain_singleton s
  | cons u us ih =>
    intro s tr h'
    rw [scanStatesE] at h'
    cases h1 : step s u with
    | error e => simp [h1] at h'
    | ok s1 =>
      simp only [h1] at h'
      cases h2 : scanStatesE step s1 us with
      | error e => simp [h2] at h'
      | ok l =>
        simp only [h2, Except.ok.injEq] at h'
        subst h'
        exact List.isChain_cons_cons.mpr ⟨h s u s1 h1, ih s1 l h2⟩

/-- C09, N trailers, naive, shielded and guided: `T.euler` is `q + dt * f(q, u)` with the train's
vector field, characterised in C54/C55. -/
theorem C09_ntrailer (T : NTrailer) (guide : QN → QN) (s : St QN) (us : List U)
    (tr : List (St QN)) (h : scanStatesE (T.step guide) s us = .ok tr) :
    List.IsChain (fun s s' : St QN => s'.q = T.euler s.q (T.inputScaler s'.applied)) (s :: tr) := by
  apply scanE_isChain _ _ us s tr h
  intro s a s' hst
  obtain ⟨hl, _⟩ := T.step_length guide s s' a hst
  cases hg : T.enableGuidance
  · obtain ⟨h1, h2, _⟩ := T.step_spec guide hg s s' a hst
    rw [h1, h2]
    unfold NTrailer.proposal
    cases hb : s.inBackup
    · simp only [effAction_false, Bool.false_eq_true, false_or]
      by_cases hr : T.rejects (T.euler s.q (T.inputScaler (clipU a)))
      · simp only [hr, if_true, T.euler_zero _ hl]
      · simp only [hr, if_false]
    · simp only [effAction, if_true, true_or, T.euler_zero _ hl, ite_self]
  · obtain ⟨h1, h2, _⟩ := T.step_guided guide hg s s' a hst
    rw [h1, h2]; rfl

example (guide : QN → QN) (us : List U) :
    ∃ tr, scanStatesE (Wit.train.step guide) Wit.train.reset us = .ok tr ∧ tr.length = us.length ∧
      List.IsChain (fun s s' : St QN =>
        s'.q = Wit.train.euler s.q (Wit.train.inputScaler s'.applied)) (Wit.train.reset :: tr) := by
  obtain ⟨tr, h, hl⟩ := ntrailer_rollout_ok Wit.train guide rfl us Wit.train.reset rfl
  exact ⟨tr, h, hl, C09_ntrailer Wit.train guide Wit.train.reset us tr h⟩

/-! ## C10: replay -/

/-- Replay for a step function that reproduces states and applied actions when fed its own applied
action. `R` relates states that agree in what the next step looks at. -/
theorem replay_scan {Q : Type} {step : St Q → U → St Q}
    (h : ∀ s t : St Q, ∀ a, t.q = s.q → t.inBackup = s.inBackup →
      (step t (step s a).applied).q = (step s a).q ∧
      (step t (step s a).applied).applied = (step s a).applied ∧
      (step t (step s a).applied).inBackup = (step s a).inBackup) :
    ∀ (us : List U) (s t : St Q), t.q = s.q → t.inBackup = s.inBackup →
      (scanStates step t ((scanStates step s us).map St.applied)).map St.q
        = (scanStates step s us).map St.q ∧
      (scanStates step t ((scanStates step s us).map St.applied)).map St.applied
        = (scanStates step s us).map St.applied := by
  intro us
  induction us with
  | nil => intro s t _ _; exact ⟨rfl, rfl⟩
  | cons u us ih =>
    intro s t hq hb
    obtain ⟨h1, h2, h3⟩ := h s t u hq hb
    obtain ⟨i1, i2⟩ := ih (step s u) (step t (step s u).applied) h1 h3
    simp only [scanStates, List.map_cons]
    exact ⟨by rw [h1, i1], by rw [h2, i2]⟩

/-- C10, tractor-trailer, naive, shielded or guided. -/
theorem C10_tt2d (T : TT2d) (ext : Ext Q4) (hp : T.enableProjection = false) (s : St Q4)
    (us : List U) :
    (scanStates (T.step ext) s ((scanStates (T.step ext) s us).map St.applied)).map St.q
      = (scanStates (T.step ext) s us).map St.q ∧
    (scanStates (T.step ext) s ((scanStates (T.step ext) s us).map St.applied)).map St.applied
      = (scanStates (T.step ext) s us).map St.applied := by
  refine replay_scan ?_ us s s rfl rfl
  intro s t a hq hb
  cases hg : T.enableGuidance
  · simp only [TT2d.step_q T ext hp hg, TT2d.step_applied T ext hp hg, TT2d.proposal, hq, hb,
      TT2d.step_inBackup, and_true]
    rcases Bool.eq_false_or_eq_true s.inBackup with hbk | hbk
    · simp only [hbk, effAction, if_true, true_or, and_self]
    · simp only [hbk, effAction_false, Bool.false_eq_true, false_or]
      by_cases hr : T.rejects (TT2d.euler T.toParams s.q (T.inputScaler (clipU a)))
      · simp only [hr, if_true, clipU_zero, TT2d.euler_zero, ite_self, and_self]
      · simp only [hr, if_false, clipU_idem, and_self]
  · simp only [(TT2d.step_guided T ext hp hg _ _).1, (TT2d.step_guided T ext hp hg _ _).2,
      TT2d.proposal, hq, hb, TT2d.step_inBackup, and_true]
    cases hbk : s.inBackup <;> simp [effAction, clipU_idem]

example := fun ext us => C10_tt2d Wit.tt ext rfl Wit.tt.reset us

/-- C10, bicycle. -/
theorem C10_bicycle (T : Bicycle) (ext : Ext Q3) (hp : T.enableProjection = false) (s : St Q3)
    (us : List U) :
    (scanStates (T.step ext) s ((scanStates (T.step ext) s us).map St.applied)).map St.q
      = (scanStates (T.step ext) s us).map St.q ∧
    (scanStates (T.step ext) s ((scanStates (T.step ext) s us).map St.applied)).map St.applied
      = (scanStates (T.step ext) s us).map St.applied := by
  refine replay_scan ?_ us s s rfl rfl
  intro s t a hq hb
  cases hg : T.enableGuidance
  · simp only [Bicycle.step_q T ext hp hg, Bicycle.step_applied T ext hp hg, Bicycle.proposal, hq,
      hb, Bicycle.step_inBackup, and_true]
    rcases Bool.eq_false_or_eq_true s.inBackup with hbk | hbk
    · simp only [hbk, effAction, if_true, true_or, and_self]
    · simp only [hbk, effAction_false, Bool.false_eq_true, false_or]
      by_cases hr : T.rejects (Bicycle.euler T.toParams s.q (T.inputScaler (clipU a)))
      · simp only [hr, if_true, clipU_zero, Bicycle.euler_zero, ite_self, and_self]
      · simp only [hr, if_false, clipU_idem, and_self]
  · simp only [(Bicycle.step_guided T ext hp hg _ _).1, (Bicycle.step_guided T ext hp hg _ _).2,
      Bicycle.proposal, hq, hb, Bicycle.step_inBackup, and_true]
    cases hbk : s.inBackup <;> simp [effAction, clipU_idem]

example := fun ext us => C10_bicycle Wit.bike ext rfl Wit.bike.reset us

/-- One step of the train replayed with its own applied action. -/
theorem ntrailer_replay_step (T : NTrailer) (guide : QN → QN) (s t s' : St QN) (a : U)
    (hq : t.q = s.q) (hb : t.inBackup = s.inBackup) (h : T.step guide s a = .ok s') :
    ∃ t', T.step guide t s'.applied = .ok t' ∧ t'.q = s'.q ∧ t'.applied = s'.applied ∧
      t'.inBackup = s'.inBackup := by
  obtain ⟨hl, hp⟩ := T.step_length guide s s' a h
  obtain ⟨t', ht⟩ := (T.step_ok_iff guide t s'.applied).mpr ⟨by rw [hq]; exact hl, hp⟩
  refine ⟨t', ht, ?_⟩
  have b1 := T.step_inBackup guide s s' a h
  have b2 := T.step_inBackup guide t t' _ ht
  cases hg : T.enableGuidance
  · obtain ⟨s1, s2, s3, _⟩ := T.step_spec guide hg s s' a h
    obtain ⟨t1, t2, t3, _⟩ := T.step_spec guide hg t t' _ ht
    rw [t1, t2, t3, s3, hb, s1]
    unfold NTrailer.proposal
    rw [hq, hb]
    cases hbk : s.inBackup
    · simp only [effAction_false, Bool.false_eq_true, false_or]
      rw [s2]
      unfold NTrailer.proposal
      simp only [hbk, effAction_false, Bool.false_eq_true, false_or]
      by_cases hr : T.rejects (T.euler s.q (T.inputScaler (clipU a)))
      · simp only [hr, if_true, clipU_zero, T.euler_zero _ hl, ite_self, and_self]
      · simp only [hr, if_false, clipU_idem, and_self]
    · rw [s2]; simp only [hbk, effAction, if_true, true_or, and_self]
  · obtain ⟨s1, s2, s3⟩ := T.step_guided guide hg s s' a h
    obtain ⟨t1, t2, t3⟩ := T.step_guided guide hg t t' _ ht
    rw [t1, t2, t3, s1, s2, s3, hb]
    unfold NTrailer.proposal
    rw [hq, hb]
    cases hbk : s.inBackup <;> simp [effAction, clipU_idem]

/-- C10, N trailers: if the rollout returns `tr`, replaying its applied actions returns the same
states and applied actions. -/
theorem C10_ntrailer (T : NTrailer) (guide : QN → QN) (s : St QN) (us : List U)
    (tr : List (St QN)) (h : scanStatesE (T.step guide) s us = .ok tr) :
    ∃ tr', scanStatesE (T.step guide) s (tr.map St.applied) = .ok tr' ∧
      tr'.map St.q = tr.map St.q ∧ tr'.map St.applied = tr.map St.applied := by
  have gen : ∀ (us : List U) (s t : St QN) (tr : List (St QN)), t.q = s.q →
      t.inBackup = s.inBackup → scanStatesE (T.step guide) s us = .ok tr →
      ∃ tr', scanStatesE (T.step guide) t (tr.map St.applied) = .ok tr' ∧
        tr'.map St.q = tr.map St.q ∧ tr'.map St.applied = tr.map St.applied := by
    intro us
    induction us with
    | nil =>
      intro s t tr _ _ h
      simp only [scanStatesE, Except.ok.injEq] at h
      subst h; exact ⟨[], rfl, rfl, rfl⟩
    | cons u us ih =>
      intro s t tr hq hb h
      rw [scanStatesE] at h
      cases h1 : T.step guide s u with
      | error e => simp [h1] at h
      | ok s1 =>
        simp only [h1] at h
        cases h2 : scanStatesE (T.step guide) s1 us with
        | error e => simp [h2] at h
        | ok l =>
          simp only [h2, Except.ok.injEq] at h
          subst h
          obtain ⟨t1, ht, q1, a1, b1⟩ := ntrailer_replay_step T guide s t s1 u hq hb h1
          obtain ⟨l', e1, e2, e3⟩ := ih s1 t1 l q1 b1 h2
          exact ⟨t1 :: l', by simp [scanStatesE, ht, e1], by simp [q1, e2], by simp [a1, e3]⟩
  exact gen us s s tr rfl rfl h

example (guide : QN → QN) (us : List U) :
    ∃ tr tr', scanStatesE (Wit.train.step guide) Wit.train.reset us = .ok tr ∧
      scanStatesE (Wit.train.step guide) Wit.train.reset (tr.map St.applied) = .ok tr' ∧
      tr'.map St.q = tr.map St.q := by
  obtain ⟨tr, h, -⟩ := ntrailer_rollout_ok Wit.train guide rfl us Wit.train.reset rfl
  obtain ⟨tr', h1, h2, -⟩ := C10_ntrailer Wit.train guide Wit.train.reset us tr h
  exact ⟨tr, tr', h, h1, h2⟩

/-! ## C38: backup mode never latches -/

/-- C38, tractor-trailer: from reset the backup flag is off in every state of every rollout, so the
action of every step is decided by the request of that step alone. -/
theorem C38_tt2d (T : TT2d) (ext : Ext Q4) (us : List U) :
    ∀ s' ∈ scanStates (T.step ext) T.reset us, s'.inBackup = false :=
  scanStates_forall (step := T.step ext) (fun s : St Q4 => s.inBackup = false) (fun _ _ h => h) us
    T.reset rfl

/-- C38, bicycle. -/
theorem C38_bicycle (T : Bicycle) (ext : Ext Q3) (us : List U) :
    ∀ s' ∈ scanStates (T.step ext) T.reset us, s'.inBackup = false :=
  scanStates_forall (step := T.step ext) (fun s : St Q3 => s.inBackup = false) (fun _ _ h => h) us
    T.reset rfl

/-- C38, acceleration model. -/
theorem C38_acc (T : Acc) (ext : Ext Q6) (us : List U) :
    ∀ s' ∈ scanStates (T.step ext) T.reset us, s'.inBackup = false :=
  scanStates_forall (step := T.step ext) (fun s : St Q6 => s.inBackup = false) (fun _ _ h => h) us
    T.reset rfl

/-- C38, N trailers. -/
theorem C38_ntrailer (T : NTrailer) (guide : QN → QN) (us : List U) (tr : List (St QN))
    (h : scanStatesE (T.step guide) T.reset us = .ok tr) : ∀ s' ∈ tr, s'.inBackup = false :=
  scanStatesE_forall (fun s : St QN => s.inBackup = false)
    (fun s a s' hs hst => by rw [T.step_inBackup guide s s' a hst]; exact hs) us _ tr rfl h

example (guide : QN → QN) (us : List U) :
    ∃ tr, scanStatesE (Wit.train.step guide) Wit.train.reset us = .ok tr ∧
      ∀ s' ∈ tr, s'.inBackup = false := by
  obtain ⟨tr, h, -⟩ := ntrailer_rollout_ok Wit.train guide rfl us Wit.train.reset rfl
  exact ⟨tr, h, C38_ntrailer Wit.train guide us tr h⟩

/-- C38, consequence: after an intervention the very next safe request is executed as requested. -/
theorem C38_recovers_tt2d (T : TT2d) (ext : Ext Q4) (hp : T.enableProjection = false)
    (hg : T.enableGuidance = false) (us : List U) (a : U)
    (hsafe : ¬ TT2d.checkObstacle T.toParams (TT2d.euler T.toParams
        (finalState (T.step ext) T.reset us).q (T.inputScaler (clipU a))))
    (hj : ¬ TT2d.checkHitch T.toParams (TT2d.euler T.toParams
        (finalState (T.step ext) T.reset us).q (T.inputScaler (clipU a)))) :
    (T.step ext (finalState (T.step ext) T.reset us) a).applied = clipU a ∧
    Spec.EulerTT T.toParams (finalState (T.step ext) T.reset us).q (clipU a)
      (T.step ext (finalState (T.step ext) T.reset us) a).q := by
  have hb : (finalState (T.step ext) T.reset us).inBackup = false := by
    have gen : ∀ (us : List U) (s : St Q4), s.inBackup = false →
        (finalState (T.step ext) s us).inBackup = false := by
      intro us
      induction us with
      | nil => intro s h; exact h
      | cons u us ih => intro s h; exact ih _ h
    exact gen us _ rfl
  generalize finalState (T.step ext) T.reset us = s at *
  have hr : ¬ T.rejects (T.proposal s a) := by
    unfold TT2d.rejects TT2d.proposal
    rw [hb, effAction_false]
    tauto
  constructor
  · rw [TT2d.step_applied T ext hp hg, if_neg]
    rw [hb]; simpa using hr
  · rw [eulerTT_iff, TT2d.step_q T ext hp hg, if_neg hr]
    unfold TT2d.proposal
    rw [hb, effAction_false]

/-- The standing request is safe in the start state of the default robot. -/
example := fun ext => C38_recovers_tt2d Wit.tt ext rfl rfl [] (0, 0)
  (by rw [clipU_zero]; simpa [finalState, TT2d.euler_zero, TT2d.reset] using Wit.tt_clear)
  (by rw [clipU_zero]; simpa [finalState, TT2d.euler_zero, TT2d.reset] using Wit.tt_straight)

/-! ## C36: penalty accounting -/

/-- The preference penalty is the specified one. -/
theorem prefPenaltyV_eq (P : Params) (v : ℝ) :
    P.prefPenaltyV v = Spec.prefPenalty P.preferencePenaltyWeight P.motionPreference v := by
  unfold Params.prefPenaltyV Spec.prefPenalty
  simp only
  by_cases h1 : P.motionPreference = 1
  · rw [if_pos h1, if_pos h1]
    by_cases hv : v < 0
    · rw [if_pos hv, abs_of_neg hv, max_eq_right (by linarith)]
    · rw [if_neg hv, max_eq_left (by linarith), mul_zero]
  · rw [if_neg h1, if_neg h1]
    by_cases h2 : P.motionPreference = -1
    · rw [if_pos h2, if_pos h2]
      by_cases hv : v > 0
      · rw [if_pos hv, abs_of_pos hv, max_eq_right hv.le]
      · rw [if_neg hv, max_eq_left (by linarith), mul_zero]
    · rw [if_neg h2, if_neg h2, ite_self]

/-- C36, tractor-trailer: reward = state reward of the resulting state, minus the collision penalty
iff the *requested* motion collides, minus the hitch penalty iff it jackknifes, minus the
preference penalty of the executed speed. -/
theorem C36_tt2d (T : TT2d) (ext : Ext Q4) (hp : T.enableProjection = false)
    (hg : T.enableGuidance = false) (s : St Q4) (hb : s.inBackup = false) (a : U) (qp : Q4)
    (hq : Spec.EulerTT T.toParams s.q (clipU a) qp) :
    (T.step ext s a).reward = TT2d.getReward T.toParams T.xg (T.step ext s a).q
      - (if TT2d.checkObstacle T.toParams qp then T.collisionPenalty else 0)
      - (if TT2d.checkHitch T.toParams qp then T.hitchPenalty else 0)
      - Spec.prefPenalty T.preferencePenaltyWeight T.motionPreference
          ((T.step ext s a).applied.1 * T.vMax) := by
  rw [TT2d.step_reward T ext hp hg]
  have e : T.proposal s a = qp := by
    unfold TT2d.proposal; rw [hb, effAction_false, (eulerTT_iff ..).mp hq]
  rw [e, prefPenaltyV_eq]
  congr 1
  by_cases h : T.motionPreference = 0
  · simp [h, Spec.prefPenalty]
  · simp [h]

example := fun ext a => C36_tt2d Wit.tt ext rfl rfl Wit.tt.reset rfl a _ ((eulerTT_iff ..).mpr rfl)

/-- C36, bicycle. -/
theorem C36_bicycle (T : Bicycle) (ext : Ext Q3) (hp : T.enableProjection = false)
    (hg : T.enableGuidance = false) (s : St Q3) (hb : s.inBackup = false) (a : U) (qp : Q3)
    (hq : Spec.EulerBicycle T.toParams s.q (clipU a) qp) :
    (T.step ext s a).reward = Bicycle.getReward T.toParams T.xg (T.step ext s a).q
      - (if Bicycle.checkObstacle T.toParams qp then T.collisionPenalty else 0)
      - Spec.prefPenalty T.preferencePenaltyWeight T.motionPreference
          ((T.step ext s a).applied.1 * T.vMax) := by
  rw [Bicycle.step_reward T ext hp hg]
  have e : T.proposal s a = qp := by
    unfold Bicycle.proposal; rw [hb, effAction_false, (eulerBicycle_iff ..).mp hq]
  rw [e, prefPenaltyV_eq]
  congr 1
  by_cases h : T.motionPreference = 0
  · simp [h, Spec.prefPenalty]
  · simp [h]

example := fun ext a =>
  C36_bicycle Wit.bike ext rfl rfl Wit.bike.reset rfl a _ ((eulerBicycle_iff ..).mpr rfl)

/-- C36, N trailers: the preference penalty uses the *requested* speed (n_trailer2d.py:163), unlike
the other robots. -/
theorem C36_ntrailer (T : NTrailer) (guide : QN → QN) (hg : T.enableGuidance = false)
    (s s' : St QN) (hb : s.inBackup = false) (a : U) (h : T.step guide s a = .ok s') :
    s'.reward = T.getReward s'.q
      - (if T.checkObstacle (T.euler s.q (T.inputScaler (clipU a))) then T.collisionPenalty else 0)
      - (if T.checkHitch (T.euler s.q (T.inputScaler (clipU a))) then T.hitchPenalty else 0)
      - Spec.prefPenalty T.preferencePenaltyWeight T.motionPreference ((clipU a).1 * T.vMax) := by
  rw [(T.step_spec guide hg s s' a h).2.2.2]
  unfold NTrailer.proposal
  rw [hb, effAction_false, prefPenaltyV_eq]
  congr 1
  by_cases h : T.motionPreference = 0
  · simp [h, Spec.prefPenalty]
  · simp [h]

example (guide : QN → QN) (a : U) :
    ∃ s', Wit.train.step guide Wit.train.reset a = .ok s' ∧ s'.reward ≤
      Wit.train.getReward s'.q := by
  obtain ⟨s', h⟩ := (Wit.train.step_ok_iff guide Wit.train.reset a).mpr ⟨rfl, rfl⟩
  refine ⟨s', h, ?_⟩
  rw [C36_ntrailer Wit.train guide rfl _ s' rfl a h]
  have e : Spec.prefPenalty Wit.train.preferencePenaltyWeight Wit.train.motionPreference
      ((clipU a).1 * Wit.train.vMax) = 0 := by
    simp [Spec.prefPenalty, Wit.train, Wit.params, Params.default]
  rw [e]
  have h1 : (0 : ℝ) ≤ Wit.train.collisionPenalty := by norm_num [Wit.train, Wit.params, Params.default]
  have h2 : (0 : ℝ) ≤ Wit.train.hitchPenalty := by norm_num [Wit.train, Wit.params, Params.default]
  split_ifs <;> linarith

/-- C36: the preference penalty is non-negative for a non-negative weight, and, for a positive
weight, zero exactly when there is no soft preference or the motion is in the preferred
direction. -/
theorem C36_pref (w : ℝ) (pref : ℤ) (v : ℝ) :
    (0 ≤ w → 0 ≤ Spec.prefPenalty w pref v) ∧
    (0 < w → (Spec.prefPenalty w pref v = 0 ↔
      (pref ≠ 1 ∧ pref ≠ -1) ∨ (pref = 1 ∧ 0 ≤ v) ∨ (pref = -1 ∧ v ≤ 0))) := by
  unfold Spec.prefPenalty
  constructor
  · intro hw
    split_ifs
    · exact mul_nonneg hw (le_max_left _ _)
    · exact mul_nonneg hw (le_max_left _ _)
    · exact le_rfl
  · intro hw
    by_cases h1 : pref = 1
    · subst h1
      simp only [if_true, mul_eq_zero, hw.ne', false_or, max_eq_left_iff]
      constructor
      · intro h; right; left; exact ⟨trivial, by linarith⟩
      · rintro (h | h | h)
        · exact absurd rfl h.1
        · linarith [h.2]
        · exact absurd h.1 (by norm_num)
    · by_cases h2 : pref = -1
      · subst h2
        simp [hw.ne']
      · simp [h1, h2]

/-- C36: with non-negative weights the penalties never raise the reward above the state reward
(tractor-trailer). -/
theorem C36_le_tt2d (T : TT2d) (ext : Ext Q4) (hp : T.enableProjection = false)
    (hg : T.enableGuidance = false) (s : St Q4) (a : U) (h1 : 0 ≤ T.collisionPenalty)
    (h2 : 0 ≤ T.hitchPenalty) (h3 : 0 ≤ T.preferencePenaltyWeight) :
    (T.step ext s a).reward ≤ TT2d.getReward T.toParams T.xg (T.step ext s a).q := by
  rw [TT2d.step_reward T ext hp hg, prefPenaltyV_eq]
  have := (C36_pref T.preferencePenaltyWeight T.motionPreference
    ((T.step ext s a).applied.1 * T.vMax)).1 h3
  split_ifs <;> linarith

/-- The hypotheses of C36 are met by the default configuration after reset. -/
example : let T : TT2d := { toParams := Params.default [⟨5, 0, 1⟩] [], x0 := ⟨0, 0, 0, 0⟩,
                              xg := ⟨9, 0, 0, 0⟩ }
    T.enableProjection = false ∧ T.enableGuidance = false ∧ T.reset.inBackup = false ∧
    ∃ qp, Spec.EulerTT T.toParams T.reset.q (clipU (1, 0)) qp :=
  ⟨rfl, rfl, rfl, _, (eulerTT_iff ..).mpr rfl⟩

end Mbd
