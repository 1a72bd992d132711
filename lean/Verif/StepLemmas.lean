import Verif.GeomLemmas
import Verif.Bicycle
import Verif.NTrailer
import Verif.Acc
import Verif.Rollout

/-! # One-step lemmas of the kinematic robots -/

namespace Mbd

open Real Classical

/-! ## scans -/

/-- Invariant of a scan. -/
theorem scanStates_forall {S A : Type} {step : S → A → S} (Inv : S → Prop)
    (hstep : ∀ s a, Inv s → Inv (step s a)) : ∀ (us : List A) (s : S), Inv s →
    ∀ s' ∈ scanStates step s us, Inv s' := by
  intro us
  induction us with
  | nil => intro s _ s' h; simp [scanStates] at h
  | cons u us ih =>
    intro s hs s' h
    rw [scanStates, List.mem_cons] at h
    rcases h with rfl | h
    · exact hstep s u hs
    · exact ih _ (hstep s u hs) s' h

/-- Invariant of a scan that may raise. -/
theorem scanStatesE_forall {E S A : Type} {step : S → A → Except E S} (Inv : S → Prop)
    (hstep : ∀ s a s', Inv s → step s a = .ok s' → Inv s') : ∀ (us : List A) (s : S) (tr : List S),
    Inv s → scanStatesE step s us = .ok tr → ∀ s' ∈ tr, Inv s' := by
  intro us
  induction us with
  | nil =>
    intro s tr _ h s' hs'
    simp only [scanStatesE, Except.ok.injEq] at h
    subst h; simp at hs'
  | cons u us ih =>
    intro s tr hs h s' hs'
    rw [scanStatesE] at h
    cases h1 : step s u with
    | error e => simp [h1] at h
    | ok s1 =>
      simp only [h1] at h
      cases h2 : scanStatesE step s1 us with
      | error e => simp [h2] at h
      | ok l =>
        simp only [h2, Except.ok.injEq] at h
        subst h
        have i1 := hstep s u s1 hs h1
        rcases List.mem_cons.mp hs' with rfl | h'
        · exact i1
        · exact ih s1 l i1 h2 s' h'

/-- Length of a scan. -/
theorem scanStates_length {S A : Type} (step : S → A → S) : ∀ (us : List A) (s : S),
    (scanStates step s us).length = us.length := by
  intro us
  induction us with
  | nil => intro s; rfl
  | cons u us ih => intro s; simp [scanStates, ih]

theorem scanStates_append {S A : Type} (step : S → A → S) : ∀ (us vs : List A) (s : S),
    scanStates step s (us ++ vs) =
      scanStates step s us ++ scanStates step (finalState step s us) vs := by
  intro us
  induction us with
  | nil => intro vs s; rfl
  | cons u us ih => intro vs s; simp [scanStates, finalState, ih]

theorem finalState_append {S A : Type} (step : S → A → S) : ∀ (us vs : List A) (s : S),
    finalState step s (us ++ vs) = finalState step (finalState step s us) vs := by
  intro us
  induction us with
  | nil => intro vs s; rfl
  | cons u us ih => intro vs s; simp [finalState, ih]

/-- The final state is the last element of the scan (the start when there is none). -/
theorem finalState_eq_getLast {S A : Type} (step : S → A → S) : ∀ (us : List A) (s : S),
    finalState step s us = (scanStates step s us).getLast?.getD s := by
  intro us
  induction us with
  | nil => intro s; rfl
  | cons u us ih =>
    intro s
    rw [finalState, scanStates, ih, List.getLast?_cons]
    rfl

theorem clipU_mem (a : U) : -1 ≤ (clipU a).1 ∧ (clipU a).1 ≤ 1 ∧ -1 ≤ (clipU a).2 ∧
    (clipU a).2 ≤ 1 :=
  ⟨le_clip (by norm_num), clip_le _ _ _, le_clip (by norm_num), clip_le _ _ _⟩

theorem clipU_idem (a : U) : clipU (clipU a) = clipU a := by
  unfold clipU; simp only; rw [clip_idem (by norm_num), clip_idem (by norm_num)]

theorem clipU_zero : clipU (0, 0) = (0, 0) := by
  unfold clipU; rw [clip_of_mem (by norm_num) (by norm_num)]

/-- The action a kinematic step works with. -/
noncomputable def effAction (prev : Bool) (a : U) : U := if prev then (0, 0) else clipU a

theorem effAction_false (a : U) : effAction false a = clipU a := rfl

theorem prefPenalty_scaled (P : Params) (u : U) :
    P.prefPenaltyU (P.inputScaler u) = P.prefPenaltyV (u.1 * P.vMax) := rfl

/-! ## tractor-trailer -/

namespace TT2d

theorem euler_zero (P : Params) (q : Q4) : euler P q (P.inputScaler (0, 0)) = q := by
  unfold euler Q4.axpy dynamics Params.inputScaler
  ext <;> simp

/-- Proposed next state. -/
noncomputable def proposal (T : TT2d) (s : St Q4) (a : U) : Q4 :=
  euler T.toParams s.q (T.inputScaler (effAction s.inBackup a))

/-- The shield rejects the proposal `x`. -/
def rejects (T : TT2d) (x : Q4) : Prop :=
  (T.shieldCollision = true ∧ checkObstacle T.toParams x) ∨
  (T.shieldHitch = true ∧ checkHitch T.toParams x)

theorem step_q (T : TT2d) (ext : Ext Q4) (hp : T.enableProjection = false)
    (hg : T.enableGuidance = false) (s : St Q4) (a : U) :
    (T.step ext s a).q = if T.rejects (T.proposal s a) then s.q else T.proposal s a := by
  unfold step stepInternal rejects proposal effAction
  simp only [hp, hg, Bool.false_eq_true, if_false]
  cases h1 : T.shieldCollision <;> cases h2 : T.shieldHitch <;>
    simp only [kinShieldedRollout, kinNaive, h1, h2, Bool.or_false, Bool.or_true, Bool.or_self,
      Bool.false_and, Bool.true_and, Bool.false_eq_true, if_false, if_true, decide_eq_true_eq,
      false_and, true_and, or_false, false_or, or_self]
  by_cases c1 : checkObstacle T.toParams (euler T.toParams s.q
      (T.inputScaler (if s.inBackup = true then (0, 0) else clipU a))) <;>
  by_cases c2 : checkHitch T.toParams (euler T.toParams s.q
      (T.inputScaler (if s.inBackup = true then (0, 0) else clipU a))) <;> simp [c1, c2]

theorem step_applied (T : TT2d) (ext : Ext Q4) (hp : T.enableProjection = false)
    (hg : T.enableGuidance = false) (s : St Q4) (a : U) :
    (T.step ext s a).applied =
      if s.inBackup = true ∨ T.rejects (T.proposal s a) then (0, 0) else clipU a := by
  unfold step stepInternal rejects proposal effAction
  simp only [hp, hg, Bool.false_eq_true, if_false]
  cases h1 : T.shieldCollision <;> cases h2 : T.shieldHitch <;>
    simp [kinShieldedRollout, kinNaive, h1, h2]

theorem step_inBackup (T : TT2d) (ext : Ext Q4) (s : St Q4) (a : U) :
    (T.step ext s a).inBackup = s.inBackup := rfl

theorem step_guided (T : TT2d) (ext : Ext Q4) (hp : T.enableProjection = false)
    (hg : T.enableGuidance = true) (s : St Q4) (a : U) :
    (T.step ext s a).q = T.proposal s a ∧ (T.step ext s a).applied = effAction s.inBackup a := by
  unfold step stepInternal proposal effAction
  simp [hp, hg]

theorem step_projected (T : TT2d) (ext : Ext Q4) (hp : T.enableProjection = true)
    (s : St Q4) (a : U) :
    (T.step ext s a).applied = ext.project s.q (clipU a) ∧
    (T.step ext s a).q =
      euler T.toParams s.q (T.inputScaler (ext.project s.q (clipU a))) := by
  unfold step stepInternal
  simp [hp]

theorem step_reward (T : TT2d) (ext : Ext Q4) (hp : T.enableProjection = false)
    (hg : T.enableGuidance = false) (s : St Q4) (a : U) :
    (T.step ext s a).reward =
      getReward T.toParams T.xg (T.step ext s a).q
      - (if checkObstacle T.toParams (T.proposal s a) then T.collisionPenalty else 0)
      - (if checkHitch T.toParams (T.proposal s a) then T.hitchPenalty else 0)
      - (if T.motionPreference ≠ 0
          then T.prefPenaltyV ((T.step ext s a).applied.1 * T.vMax) else 0) := by
  unfold step stepInternal proposal effAction
  simp only [hp, hg, Bool.false_eq_true, if_false]
  by_cases c1 : checkObstacle T.toParams (euler T.toParams s.q
      (T.inputScaler (if s.inBackup = true then (0, 0) else clipU a))) <;>
  by_cases c2 : checkHitch T.toParams (euler T.toParams s.q
      (T.inputScaler (if s.inBackup = true then (0, 0) else clipU a))) <;>
  by_cases c3 : T.motionPreference = 0 <;>
  cases h1 : T.shieldCollision <;> cases h2 : T.shieldHitch <;>
    simp [kinShieldedRollout, kinNaive, h1, h2, c1, c2, c3, prefPenalty_scaled]

end TT2d

/-! ## bicycle -/

namespace Bicycle

theorem euler_zero (P : Params) (q : Q3) : euler P q (P.inputScaler (0, 0)) = q := by
  unfold euler Q3.axpy dynamics Params.inputScaler
  ext <;> simp

/-- Proposed next state. -/
noncomputable def proposal (T : Bicycle) (s : St Q3) (a : U) : Q3 :=
  euler T.toParams s.q (T.inputScaler (effAction s.inBackup a))

/-- The shield rejects the proposal `x`. -/
def rejects (T : Bicycle) (x : Q3) : Prop :=
  (T.shieldCollision = true ∧ checkObstacle T.toParams x) ∨
  (T.shieldHitch = true ∧ checkHitch T.toParams x)

theorem step_q (T : Bicycle) (ext : Ext Q3) (hp : T.enableProjection = false)
    (hg : T.enableGuidance = false) (s : St Q3) (a : U) :
    (T.step ext s a).q = if T.rejects (T.proposal s a) then s.q else T.proposal s a := by
  unfold step stepInternal rejects proposal effAction
  simp only [hp, hg, Bool.false_eq_true, if_false]
  by_cases c1 : checkObstacle T.toParams (euler T.toParams s.q
      (T.inputScaler (if s.inBackup = true then (0, 0) else clipU a))) <;>
  by_cases c2 : checkHitch T.toParams (euler T.toParams s.q
      (T.inputScaler (if s.inBackup = true then (0, 0) else clipU a))) <;>
  cases h1 : T.shieldCollision <;> cases h2 : T.shieldHitch <;>
    simp [kinShieldedRollout, kinNaive, h1, h2, c1, c2]

theorem step_applied (T : Bicycle) (ext : Ext Q3) (hp : T.enableProjection = false)
    (hg : T.enableGuidance = false) (s : St Q3) (a : U) :
    (T.step ext s a).applied =
      if s.inBackup = true ∨ T.rejects (T.proposal s a) then (0, 0) else clipU a := by
  unfold step stepInternal rejects proposal effAction
  simp only [hp, hg, Bool.false_eq_true, if_false]
  cases h1 : T.shieldCollision <;> cases h2 : T.shieldHitch <;>
    simp [kinShieldedRollout, kinNaive, h1, h2]

theorem step_inBackup (T : Bicycle) (ext : Ext Q3) (s : St Q3) (a : U) :
    (T.step ext s a).inBackup = s.inBackup := rfl

theorem step_guided (T : Bicycle) (ext : Ext Q3) (hp : T.enableProjection = false)
    (hg : T.enableGuidance = true) (s : St Q3) (a : U) :
    (T.step ext s a).q = T.proposal s a ∧ (T.step ext s a).applied = effAction s.inBackup a := by
  unfold step stepInternal proposal effAction
  simp [hp, hg]

theorem step_projected (T : Bicycle) (ext : Ext Q3) (hp : T.enableProjection = true)
    (s : St Q3) (a : U) :
    (T.step ext s a).applied = ext.project s.q (clipU a) ∧
    (T.step ext s a).q =
      euler T.toParams s.q (T.inputScaler (ext.project s.q (clipU a))) := by
  unfold step stepInternal
  simp [hp]

theorem step_reward (T : Bicycle) (ext : Ext Q3) (hp : T.enableProjection = false)
    (hg : T.enableGuidance = false) (s : St Q3) (a : U) :
    (T.step ext s a).reward =
      getReward T.toParams T.xg (T.step ext s a).q
      - (if checkObstacle T.toParams (T.proposal s a) then T.collisionPenalty else 0)
      - (if T.motionPreference ≠ 0
          then T.prefPenaltyV ((T.step ext s a).applied.1 * T.vMax) else 0) := by
  unfold step stepInternal proposal effAction
  simp only [hp, hg, Bool.false_eq_true, if_false]
  have c2 : ¬ checkHitch T.toParams (euler T.toParams s.q
      (T.inputScaler (if s.inBackup = true then (0, 0) else clipU a))) := id
  by_cases c1 : checkObstacle T.toParams (euler T.toParams s.q
      (T.inputScaler (if s.inBackup = true then (0, 0) else clipU a))) <;>
  by_cases c3 : T.motionPreference = 0 <;>
  cases h1 : T.shieldCollision <;> cases h2 : T.shieldHitch <;>
    simp [kinShieldedRollout, kinNaive, h1, h2, c1, c2, c3, prefPenalty_scaled]

end Bicycle

/-! ## N trailers -/

namespace NTrailer

theorem dynamics_length (T : NTrailer) (x : QN) (u : U) : (T.dynamics x u).ths.length = T.N := by
  simp [dynamics]

theorem euler_length (T : NTrailer) (x : QN) (u : U) (h : x.ths.length = T.N) :
    (T.euler x u).ths.length = T.N := by
  unfold euler QN.axpy
  simp [dynamics_length, h]

theorem carryAt_zero (T : NTrailer) (x : QN) : ∀ i, (T.carryAt x 0 0 i).dot = 0 ∧
    (T.carryAt x 0 0 i).speed = 0 := by
  intro i
  induction i with
  | zero => simp [carryAt]
  | succ i ih =>
    unfold carryAt loopBody
    simp [ih.1, ih.2]

theorem euler_zero (T : NTrailer) (q : QN) (h : q.ths.length = T.N) :
    T.euler q (T.inputScaler (0, 0)) = q := by
  unfold euler QN.axpy Params.inputScaler
  simp only [zero_mul]
  have e : (T.dynamics q (0, 0)).ths = List.replicate T.N 0 := by
    unfold dynamics
    simp only [(T.carryAt_zero q _).1]
    rw [List.map_const', List.length_range]
  ext1
  · simp [dynamics]
  · simp [dynamics]
  · simp [dynamics]
  · simp only
    rw [e]
    apply List.ext_getElem
    · simp [h]
    · intro i h1 h2; simp

/-- Proposed next state. -/
noncomputable def proposal (T : NTrailer) (s : St QN) (a : U) : QN :=
  T.euler s.q (T.inputScaler (effAction s.inBackup a))

/-- The shield rejects the proposal `x`. -/
def rejects (T : NTrailer) (x : QN) : Prop :=
  (T.shieldCollision = true ∧ T.checkObstacle x) ∨ (T.shieldHitch = true ∧ T.checkHitch x)

/-- A step of the train succeeds exactly when the state has the right length and projection is
off. -/
theorem step_ok_iff (T : NTrailer) (guide : QN → QN) (s : St QN) (a : U) :
    (∃ s', T.step guide s a = .ok s') ↔ s.q.ths.length = T.N ∧ T.enableProjection = false := by
  unfold step stepInternal
  simp only
  by_cases h : s.q.ths.length = T.N <;> cases hp : T.enableProjection <;> simp [h]

theorem step_length (T : NTrailer) (guide : QN → QN) (s s' : St QN) (a : U)
    (h : T.step guide s a = .ok s') : s.q.ths.length = T.N ∧ T.enableProjection = false :=
  (T.step_ok_iff guide s a).mp ⟨s', h⟩

theorem step_spec (T : NTrailer) (guide : QN → QN) (hg : T.enableGuidance = false)
    (s s' : St QN) (a : U) (h : T.step guide s a = .ok s') :
    s'.q = (if T.rejects (T.proposal s a) then s.q else T.proposal s a) ∧
    s'.applied = (if s.inBackup = true ∨ T.rejects (T.proposal s a) then (0, 0) else clipU a) ∧
    s'.inBackup = s.inBackup ∧
    s'.reward = T.getReward s'.q
      - (if T.checkObstacle (T.proposal s a) then T.collisionPenalty else 0)
      - (if T.checkHitch (T.proposal s a) then T.hitchPenalty else 0)
      - (if T.motionPreference ≠ 0
          then T.prefPenaltyV ((effAction s.inBackup a).1 * T.vMax) else 0) := by
  obtain ⟨hl, hp⟩ := T.step_length guide s s' a h
  unfold step stepInternal at h
  simp only [hl, hp, hg, ne_eq, not_true_eq_false, Bool.false_eq_true, if_false,
    Except.ok.injEq] at h
  subst h
  unfold rejects proposal effAction
  simp only
  by_cases c1 : T.checkObstacle (T.euler s.q
      (T.inputScaler (if s.inBackup = true then (0, 0) else clipU a))) <;>
  by_cases c2 : T.checkHitch (T.euler s.q
      (T.inputScaler (if s.inBackup = true then (0, 0) else clipU a))) <;>
  by_cases c3 : T.motionPreference = 0 <;>
  cases h1 : T.shieldCollision <;> cases h2 : T.shieldHitch <;>
    simp [kinShieldedRollout, kinNaive, h1, h2, c1, c2, c3, prefPenalty_scaled]

theorem step_guided (T : NTrailer) (guide : QN → QN) (hg : T.enableGuidance = true)
    (s s' : St QN) (a : U) (h : T.step guide s a = .ok s') :
    s'.q = T.proposal s a ∧ s'.applied = effAction s.inBackup a ∧ s'.inBackup = s.inBackup := by
  obtain ⟨hl, hp⟩ := T.step_length guide s s' a h
  unfold step stepInternal at h
  simp only [hl, hp, hg, ne_eq, not_true_eq_false, Bool.false_eq_true, if_false, if_true,
    Except.ok.injEq] at h
  subst h
  exact ⟨rfl, rfl, rfl⟩

theorem step_inBackup (T : NTrailer) (guide : QN → QN) (s s' : St QN) (a : U)
    (h : T.step guide s a = .ok s') : s'.inBackup = s.inBackup := by
  cases hg : T.enableGuidance
  · exact (T.step_spec guide hg s s' a h).2.2.1
  · exact (T.step_guided guide hg s s' a h).2.2

/-- The length of the state is preserved. -/
theorem step_length' (T : NTrailer) (guide : QN → QN) (s s' : St QN) (a : U)
    (h : T.step guide s a = .ok s') : s'.q.ths.length = T.N := by
  obtain ⟨hl, hp⟩ := T.step_length guide s s' a h
  cases hg : T.enableGuidance
  · rw [(T.step_spec guide hg s s' a h).1]
    split
    · exact hl
    · exact T.euler_length _ _ hl
  · rw [(T.step_guided guide hg s s' a h).1]
    exact T.euler_length _ _ hl

end NTrailer

/-! ## acceleration model -/

namespace Acc

theorem step_inBackup (T : Acc) (ext : Ext Q6) (s : St Q6) (a : U) :
    (T.step ext s a).inBackup = s.inBackup := rfl

end Acc

end Mbd
