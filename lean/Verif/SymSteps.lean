import Verif.SymLemmas
import Verif.Demo

/-!
# Steps of a robot and of its transformed copy
-/

namespace Mbd

open Real Classical _root_.Spec

theorem inputScaler_steer (P : Params) (σ : ℝ) (u : U) : P.inputScaler (steer σ u) = steer σ (P.inputScaler u) := by
  unfold Params.inputScaler steer; simp only [mul_assoc]

theorem acted_mk {Q : Type} (g : Q → Q) (σ : ℝ) (q o : Q) (r d : ℝ) (a : U) (b : Bool) :
    acted g σ ⟨q, o, r, d, a, b⟩ = ⟨g q, g o, r, d, steer σ a, b⟩ := rfl

/-- The parameter sets agree in everything but the obstacles. -/
def SameVehicle (P P' : Params) : Prop := { P' with circles := P.circles, rects := P.rects } = P

theorem SameVehicle.fields {P P' : Params} (h : SameVehicle P P') :
    P'.enableProjection = P.enableProjection ∧ P'.enableGuidance = P.enableGuidance ∧
    P'.shieldCollision = P.shieldCollision ∧ P'.shieldHitch = P.shieldHitch ∧
    P'.collisionPenalty = P.collisionPenalty ∧ P'.hitchPenalty = P.hitchPenalty ∧
    P'.motionPreference = P.motionPreference ∧ P'.dt = P.dt := by
  unfold SameVehicle at h
  rw [← h]
  exact ⟨rfl, rfl, rfl, rfl, rfl, rfl, rfl, rfl⟩

theorem SameVehicle.weights {P P' : Params} (h : SameVehicle P P') :
    P'.terminalRewardWeight = P.terminalRewardWeight ∧ P'.steeringWeight = P.steeringWeight ∧
    P'.deltaMax = P.deltaMax ∧ P'.H = P.H ∧ P'.vMax = P.vMax := by
  unfold SameVehicle at h
  rw [← h]
  exact ⟨rfl, rfl, rfl, rfl, rfl⟩

theorem SameVehicle.scaler {P P' : Params} (h : SameVehicle P P') (u : U) :
    P'.inputScaler u = P.inputScaler u := by
  unfold SameVehicle at h
  rw [← h]
  rfl

theorem SameVehicle.pen {P P' : Params} (h : SameVehicle P P') (v : ℝ) :
    P'.prefPenaltyV v = P.prefPenaltyV v := by
  unfold SameVehicle at h
  rw [← h]
  rfl

/-- Steps of a tractor-trailer and of its transformed copy. -/
theorem tt2d_step_sym (T T' : TT2d) (ext ext' : Ext Q4) (hv : SameVehicle T.toParams T'.toParams)
    (g : Q4 → Q4) {σ : ℝ} (hσ : σ = 1 ∨ σ = -1)
    (ho : ∀ q, TT2d.checkObstacle T'.toParams (g q) ↔ TT2d.checkObstacle T.toParams q)
    (hh : ∀ q, TT2d.checkHitch T'.toParams (g q) ↔ TT2d.checkHitch T.toParams q)
    (hr : ∀ q, TT2d.getReward T'.toParams T'.xg (g q) = TT2d.getReward T.toParams T.xg q)
    (he : ∀ q u, TT2d.euler T'.toParams (g q) (steer σ u) = g (TT2d.euler T.toParams q u))
    (hp : T.enableProjection = true → ∀ q u, ext'.project (g q) (steer σ u) = steer σ (ext.project q u))
    (hg : T.enableGuidance = true → ∀ q, ext'.guide (g q) = g (ext.guide q)) (viz : Bool)
    (s : St Q4) (a : U) :
    T'.stepInternal ext' viz (acted g σ s) (steer σ a) = acted g σ (T.stepInternal ext viz s a) := by
  have ho' : ∀ q, TT2d.checkObstacle T'.toParams (g q) = TT2d.checkObstacle T.toParams q :=
    fun q => propext (ho q)
  have hh' : ∀ q, TT2d.checkHitch T'.toParams (g q) = TT2d.checkHitch T.toParams q := fun q => propext (hh q)
  have hi : ∀ u, T'.toParams.inputScaler (steer σ u) = steer σ (T.toParams.inputScaler u) :=
    fun u => by rw [hv.scaler, inputScaler_steer]
  have hpen : ∀ u, T'.toParams.prefPenaltyU (steer σ u) = T.toParams.prefPenaltyU u := fun u => hv.pen _
  have hb : ∀ b : Bool, (if b = true then (0, 0) else steer σ (clipU a))
      = steer σ (if b = true then (0, 0) else clipU a) := by
    intro b; split_ifs <;> [exact steer_zero.symm; rfl]
  obtain ⟨f1, f2, f3, f4, f5, f6, f7, -⟩ := hv.fields
  unfold TT2d.stepInternal
  simp only [f1, f2, f3, f4, f5, f6, f7]
  by_cases h1 : T.enableProjection = true
  · simp only [h1, if_true, acted, clipU_steer hσ, hp h1, hi, he, hr, hpen]
  · by_cases h2 : T.enableGuidance = true
    · simp only [h1, h2, if_true, if_false, Bool.false_eq_true, acted, clipU_steer hσ, hb, hi, he, hr,
        hpen, hg h2, ho', hh']
      cases viz <;> rfl
    · simp only [h1, h2, if_false, Bool.false_eq_true, acted, clipU_steer hσ, hb, hi, he]
      unfold kinShieldedRollout kinNaive
      simp only [f3, f4, ho', hh', ← apply_ite g]
      by_cases h3 : (T.shieldCollision || T.shieldHitch) = true
      · simp only [h3, if_true, hr, hpen]
      · simp only [h3, if_false, hr, hpen, Bool.false_eq_true]

/-- Steps of a bicycle and of its transformed copy. -/
theorem bicycle_step_sym (T T' : Bicycle) (ext ext' : Ext Q3) (hv : SameVehicle T.toParams T'.toParams)
    (g : Q3 → Q3) {σ : ℝ} (hσ : σ = 1 ∨ σ = -1)
    (ho : ∀ q, Bicycle.checkObstacle T'.toParams (g q) ↔ Bicycle.checkObstacle T.toParams q)
    (hr : ∀ q, Bicycle.getReward T'.toParams T'.xg (g q) = Bicycle.getReward T.toParams T.xg q)
    (he : ∀ q u, Bicycle.euler T'.toParams (g q) (steer σ u) = g (Bicycle.euler T.toParams q u))
    (hp : T.enableProjection = true → ∀ q u, ext'.project (g q) (steer σ u) = steer σ (ext.project q u))
    (hg : T.enableGuidance = true → ∀ q, ext'.guide (g q) = g (ext.guide q)) (viz : Bool)
    (s : St Q3) (a : U) :
    T'.stepInternal ext' viz (acted g σ s) (steer σ a) = acted g σ (T.stepInternal ext viz s a) := by
  have ho' : ∀ q, Bicycle.checkObstacle T'.toParams (g q) = Bicycle.checkObstacle T.toParams q :=
    fun q => propext (ho q)
  have hh' : ∀ q, Bicycle.checkHitch T'.toParams (g q) = Bicycle.checkHitch T.toParams q := fun _ => rfl
  have hi : ∀ u, T'.toParams.inputScaler (steer σ u) = steer σ (T.toParams.inputScaler u) :=
    fun u => by rw [hv.scaler, inputScaler_steer]
  have hpen : ∀ u, T'.toParams.prefPenaltyU (steer σ u) = T.toParams.prefPenaltyU u := fun u => hv.pen _
  have hb : ∀ b : Bool, (if b = true then (0, 0) else steer σ (clipU a))
      = steer σ (if b = true then (0, 0) else clipU a) := by
    intro b; split_ifs <;> [exact steer_zero.symm; rfl]
  obtain ⟨f1, f2, f3, f4, f5, f6, f7, -⟩ := hv.fields
  unfold Bicycle.stepInternal
  simp only [f1, f2, f3, f4, f5, f6, f7]
  by_cases h1 : T.enableProjection = true
  · simp only [h1, if_true, acted, clipU_steer hσ, hp h1, hi, he, hr, hpen, ho', hh']
  · by_cases h2 : T.enableGuidance = true
    · simp only [h1, h2, if_true, if_false, Bool.false_eq_true, acted, clipU_steer hσ, hb, hi, he, hr,
        hpen, hg h2, ho', hh']
      cases viz <;> rfl
    · simp only [h1, h2, if_false, Bool.false_eq_true, acted, clipU_steer hσ, hb, hi, he]
      unfold kinShieldedRollout kinNaive
      simp only [f3, f4, ho', hh', ← apply_ite g]
      by_cases h3 : (T.shieldCollision || T.shieldHitch) = true
      · simp only [h3, if_true, hr, hpen]
      · simp only [h3, if_false, hr, hpen, Bool.false_eq_true]

/-- The braking prediction of the transformed copy. -/
theorem acc_safety_sym (T T' : Acc) (g : Q6 → Q6) {σ : ℝ} (hv : SameVehicle T.toParams T'.toParams)
    (ha : T'.aMax = T.aMax) (hgv : ∀ q, (g q).v = q.v)
    (ho : ∀ q, T'.checkObstacle (g q) ↔ T.checkObstacle q) (hh : ∀ q, T'.checkHitch (g q) ↔ T.checkHitch q)
    (he : ∀ q u dt, T'.euler (g q) (steer σ u) dt = g (T.euler q u dt)) (q : Q6) :
    T'.checkSafety (g q) = T.checkSafety q := by
  have ho' : ∀ q, T'.checkObstacle (g q) = T.checkObstacle q := fun q => propext (ho q)
  have hh' : ∀ q, T'.checkHitch (g q) = T.checkHitch q := fun q => propext (hh q)
  have hab : ∀ v, T'.aBackup v = T.aBackup v := by
    intro v; unfold Acc.aBackup; rw [hv.fields.2.2.2.2.2.2.2, ha]
  have hus : ∀ v, T'.uStop v = steer σ (T.uStop v) := by
    intro v; unfold Acc.uStop; rw [hab]; simp [steer]
  have hn : T'.maxRolloutSteps = T.maxRolloutSteps := by
    have hvm : T'.vMax = T.vMax := hv.weights.2.2.2.2
    unfold Acc.maxRolloutSteps; rw [ha, hvm]
  have hscan : ∀ n, T'.rolloutScan (g q) n = { T.rolloutScan q n with q := g (T.rolloutScan q n).q } := by
    intro n
    unfold Acc.rolloutScan
    rw [hgv]
    induction n with
    | zero => simp only [Function.iterate_zero, id, ho', hh']
    | succ n ih =>
      rw [Function.iterate_succ_apply', ih, Function.iterate_succ_apply']
      set c := (T.rolloutStep (T.uStop q.v))^[n] _
      unfold Acc.rolloutStep
      simp only [hgv]
      by_cases h : |c.q.v| > Acc.vThr
      · simp only [if_pos h, hus, he, ho', hh', hgv]
      · simp only [if_neg h, ho', hh', hgv]
  unfold Acc.checkSafety
  simp only [hscan, hgv, ho', hh', hn]

/-- Steps of an acceleration-controlled tractor-trailer and of its transformed copy. -/
theorem acc_step_sym (T T' : Acc) (ext ext' : Ext Q6) (hv : SameVehicle T.toParams T'.toParams)
    (ha : T'.aMax = T.aMax) (hw : T'.omegaMax = T.omegaMax)
    (g : Q6 → Q6) {σ : ℝ} (hσ : σ = 1 ∨ σ = -1) (hgv : ∀ q, (g q).v = q.v)
    (ho : ∀ q, T'.checkObstacle (g q) ↔ T.checkObstacle q)
    (hh : ∀ q, T'.checkHitch (g q) ↔ T.checkHitch q)
    (hr : ∀ q, T'.getReward (g q) = T.getReward q)
    (he : ∀ q u dt, T'.euler (g q) (steer σ u) dt = g (T.euler q u dt))
    (hp : T.enableProjection = true → ∀ q u, ext'.project (g q) (steer σ u) = steer σ (ext.project q u))
    (hg : T.enableGuidance = true → ∀ q, ext'.guide (g q) = g (ext.guide q)) (viz : Bool)
    (s : St Q6) (a : U) :
    T'.stepInternal ext' viz (acted g σ s) (steer σ a) = acted g σ (T.stepInternal ext viz s a) := by
  have ho' : ∀ q, T'.checkObstacle (g q) = T.checkObstacle q := fun q => propext (ho q)
  have hh' : ∀ q, T'.checkHitch (g q) = T.checkHitch q := fun q => propext (hh q)
  have hi : ∀ u, T'.inputScaler (steer σ u) = steer σ (T.inputScaler u) := by
    intro u; unfold Acc.inputScaler; rw [ha, hw]; simp only [steer, mul_assoc]
  have hab : ∀ v, T'.aBackup v = T.aBackup v := by
    intro v; unfold Acc.aBackup; rw [hv.fields.2.2.2.2.2.2.2, ha]
  have hun : ∀ v, T'.uBackupNorm v = steer σ (T.uBackupNorm v) := by
    intro v; unfold Acc.uBackupNorm; rw [hab, ha]; simp [steer]
  have hus : ∀ v w, T'.uBackupScaled v w = steer σ (T.uBackupScaled v w) := by
    intro v w; unfold Acc.uBackupScaled; rw [hab]; simp [steer]
  have hsafe := fun q => acc_safety_sym T T' g hv ha hgv ho hh he q
  obtain ⟨f1, f2, f3, f4, f5, f6, f7, f8⟩ := hv.fields
  unfold Acc.stepInternal
  simp only [f1, f2, f3, f4, f5, f6, f7, f8]
  by_cases h1 : T.enableProjection = true
  · simp only [h1, if_true, acted, clipU_steer hσ, hp h1, hi, he, hr, hgv, hv.pen]
  · by_cases h2 : T.enableGuidance = true
    · simp only [h1, h2, if_true, if_false, Bool.false_eq_true, acted, clipU_steer hσ, hun, hgv,
        ← apply_ite (steer σ), hi, he, hr, hg h2, ho', hh']
      cases viz <;> simp [hv.pen, hgv]
    · simp only [h1, h2, if_false, Bool.false_eq_true, acted, clipU_steer hσ, hun, hgv,
        ← apply_ite (steer σ), hi, he]
      unfold Acc.shieldedRollout Acc.naive
      simp only [f3, f4, f8, ho', hh', hsafe, hgv, hus, he, ← apply_ite g]
      by_cases h3 : (T.shieldCollision || T.shieldHitch) = true
      · simp only [h3, if_true, hr, hv.pen, hgv]
      · simp only [h3, if_false, hr, hv.pen, hgv, Bool.false_eq_true]

/-- Steps of a train and of its transformed copy, for states of the right length. -/
theorem ntrailer_step_sym (T T' : NTrailer) (guide guide' : QN → QN) (hv : SameVehicle T.toParams T'.toParams)
    (hN : T'.N = T.N) (hpr : T.enableProjection = false)
    (g : QN → QN) {σ : ℝ} (hσ : σ = 1 ∨ σ = -1) (hgl : ∀ q, (g q).ths.length = q.ths.length)
    (ho : ∀ q, q.ths.length = T.N → (T'.checkObstacle (g q) ↔ T.checkObstacle q))
    (hh : ∀ q, q.ths.length = T.N → (T'.checkHitch (g q) ↔ T.checkHitch q))
    (hr : ∀ q, q.ths.length = T.N → T'.getReward (g q) = T.getReward q)
    (he : ∀ q u, q.ths.length = T.N → T'.euler (g q) (steer σ u) = g (T.euler q u))
    (hg : T.enableGuidance = true → ∀ q, q.ths.length = T.N → guide' (g q) = g (guide q) ∧
      (guide q).ths.length = T.N) (viz : Bool)
    (s : St QN) (hs : s.q.ths.length = T.N) (a : U) :
    T'.stepTotal guide' viz (acted g σ s) (steer σ a) = acted g σ (T.stepTotal guide viz s a) ∧
      (T.stepTotal guide viz s a).q.ths.length = T.N := by
  have hel : ∀ u, (T.euler s.q u).ths.length = T.N := by
    intro u; unfold NTrailer.euler QN.axpy NTrailer.dynamics; simp [hs]
  have hi : ∀ u, T'.toParams.inputScaler (steer σ u) = steer σ (T.toParams.inputScaler u) :=
    fun u => by rw [hv.scaler, inputScaler_steer]
  have hpen : ∀ u, T'.toParams.prefPenaltyU (steer σ u) = T.toParams.prefPenaltyU u := fun u => hv.pen _
  have hb : ∀ b : Bool, (if b = true then (0, 0) else steer σ (clipU a))
      = steer σ (if b = true then (0, 0) else clipU a) := by
    intro b; split_ifs <;> [exact steer_zero.symm; rfl]
  obtain ⟨f1, f2, f3, f4, f5, f6, f7, -⟩ := hv.fields
  unfold NTrailer.stepTotal NTrailer.stepInternal
  simp only [f1, f2, f3, f4, f5, f6, f7, hN, hpr, acted, hgl, hs, ne_eq, not_true_eq_false,
    if_false, Bool.false_eq_true, clipU_steer hσ, hb, hi, he _ _ hs, hpen]
  set e := T.euler s.q (T.inputScaler (if s.inBackup = true then (0, 0) else clipU a)) with hedef
  have hle : e.ths.length = T.N := hel _
  by_cases h2 : T.enableGuidance = true
  · obtain ⟨g1, g2⟩ := hg h2 e hle
    have ho' : T'.checkObstacle (g (guide e)) = T.checkObstacle (guide e) := propext (ho _ g2)
    have hh' : T'.checkHitch (g (guide e)) = T.checkHitch (guide e) := propext (hh _ g2)
    simp only [h2, if_true, g1, hr _ g2, ho', hh']
    cases viz <;> simp [hle, g2]
  · have ho' : T'.checkObstacle (g e) = T.checkObstacle e := propext (ho _ hle)
    have hh' : T'.checkHitch (g e) = T.checkHitch e := propext (hh _ hle)
    simp only [h2, if_false, Bool.false_eq_true]
    unfold kinShieldedRollout kinNaive
    simp only [f3, f4, ho', hh', ← apply_ite g]
    by_cases h3 : (T.shieldCollision || T.shieldHitch) = true
    · simp only [h3, if_true]
      have hl : (if (T.shieldHitch && decide (T.checkHitch e)) = true then s.q
        else if (T.shieldCollision && decide (T.checkObstacle e)) = true then s.q else e).ths.length = T.N := by
        split_ifs <;> assumption
      rw [hr _ hl]
      exact ⟨rfl, hl⟩
    · simp only [h3, if_false, Bool.false_eq_true]
      rw [hr _ hle]
      exact ⟨rfl, hle⟩

end Mbd
