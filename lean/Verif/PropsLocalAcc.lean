import Verif.PropsIdle

/-! # Acceleration control sees only the obstacles its aims and predicted stops touch (C94) -/

namespace Mbd

open Real Classical _root_.Spec

theorem acc_step_local {T T' : Acc} (h : MovedAcc T T') (hp : T.enableProjection = false) (hg : T.enableGuidance = false)
    (ext : Ext Q6) (viz : Bool) (s : St Q6) (u : U) (h2 : s.inBackup = false)
    (ho : T'.checkObstacle (T.euler s.q (T.inputScaler (clipU u)) T.dt) ↔
      T.checkObstacle (T.euler s.q (T.inputScaler (clipU u)) T.dt))
    (hs : T'.checkSafety (T.euler s.q (T.inputScaler (clipU u)) T.dt) =
      T.checkSafety (T.euler s.q (T.inputScaler (clipU u)) T.dt)) :
    T'.stepInternal ext viz s u = T.stepInternal ext viz s u := by
  have ho := propext ho
  unfold MovedAcc at h
  have he : ∀ q u dt, T'.euler q u dt = T.euler q u dt := by rw [h]; exact fun _ _ _ => rfl
  have hi : ∀ u, T'.inputScaler u = T.inputScaler u := by rw [h]; exact fun _ => rfl
  have hh : ∀ q, T'.checkHitch q = T.checkHitch q := by rw [h]; exact fun _ => rfl
  have hr : ∀ q, T'.getReward q = T.getReward q := by rw [h]; exact fun _ => rfl
  have hb : ∀ v, T'.uBackupNorm v = T.uBackupNorm v := by rw [h]; exact fun _ => rfl
  have hb2 : ∀ v w, T'.uBackupScaled v w = T.uBackupScaled v w := by rw [h]; exact fun _ _ => rfl
  have hpen : ∀ v, T'.prefPenaltyV v = T.prefPenaltyV v := by rw [h]; exact fun _ => rfl
  have f0 : T'.dt = T.dt := by rw [h]
  have f1 : T'.enableProjection = false := by rw [h]; exact hp
  have f2 : T'.enableGuidance = false := by rw [h]; exact hg
  have f3 : T'.shieldCollision = T.shieldCollision := by rw [h]
  have f4 : T'.shieldHitch = T.shieldHitch := by rw [h]
  have f5 : T'.collisionPenalty = T.collisionPenalty := by rw [h]
  have f6 : T'.hitchPenalty = T.hitchPenalty := by rw [h]
  have f7 : T'.motionPreference = T.motionPreference := by rw [h]
  unfold Acc.stepInternal Acc.shieldedRollout Acc.naive
  simp only [f0, f1, f2, f3, f4, f5, f6, f7, hp, hg, h2, if_false, Bool.false_eq_true, he, hi, hh, hr, hb, hb2, hpen, ho, hs]

/-- **C94**, acceleration control: from any state not in backup mode, if at the aim of every action both the collision
verdict and the alarm (collision and jackknifing along the predicted stop) are the same on both maps, so is the whole run. -/
theorem C94_local_acc (T : Acc) (cs : List Circle) (rs : List Rect) (hp : T.enableProjection = false)
    (hg : T.enableGuidance = false) (ext : Ext Q6) (us : List U) : ∀ (s : St Q6), s.inBackup = false →
    (∀ k (hk : k < us.length) (x : Q6),
      x = T.euler (finalState (T.step ext) s (us.take k)).q (T.inputScaler (clipU us[k])) T.dt →
      (Acc.checkObstacle { T with circles := cs, rects := rs } x ↔ T.checkObstacle x) ∧
      Acc.checkSafety { T with circles := cs, rects := rs } x = T.checkSafety x) →
    scanStates (Acc.step { T with circles := cs, rects := rs } ext) s us = scanStates (T.step ext) s us := by
  induction us with
  | nil => intro s _ _; rfl
  | cons u us ih =>
    intro s h2 hA
    obtain ⟨ho, hs⟩ := hA 0 (by simp) _ rfl
    have e : Acc.step { T with circles := cs, rects := rs } ext s u = T.step ext s u :=
      acc_step_local (T := T) (T' := { T with circles := cs, rects := rs }) rfl hp hg ext false s u h2 ho hs
    have hb : (T.step ext s u).inBackup = false := by
      unfold Acc.step Acc.stepInternal; exact h2
    simp only [scanStates, e]
    rw [ih (T.step ext s u) hb fun k hk x hx => hA (k + 1) (by simpa using hk) x (by simpa [finalState] using hx)]

/-- Listing an obstacle twice. -/
example (ext : Ext Q6) (us : List U) :=
  C94_local_acc Wit.acc [⟨20, 0, 1⟩, ⟨20, 0, 1⟩] [⟨0, 30, 4, 2, 0⟩] rfl rfl ext us Wit.acc.reset rfl
    (fun k hk x _ => by
      have ho : ∀ q, Acc.checkObstacle { Wit.acc with circles := [⟨20, 0, 1⟩, ⟨20, 0, 1⟩], rects := [⟨0, 30, 4, 2, 0⟩] } q ↔
          Wit.acc.checkObstacle q := fun q => C58_order_acc Wit.acc [⟨20, 0, 1⟩, ⟨20, 0, 1⟩] [⟨0, 30, 4, 2, 0⟩]
        (by simp [Wit.acc, Wit.params, Params.default]) (by simp [Wit.acc, Wit.params, Params.default]) q
      have hv : 0 ≤ Wit.acc.vMax := by norm_num [Wit.acc, Wit.params, Params.default]
      refine ⟨ho x, ?_⟩
      have := (rolloutScan_moved (T := Wit.acc)
        (T' := { Wit.acc with circles := [⟨20, 0, 1⟩, ⟨20, 0, 1⟩], rects := [⟨0, 30, 4, 2, 0⟩] }) rfl hv (x0 := (0, 0))
        (fun q _ => ho q) x (Acc.maxRolloutSteps Wit.acc) le_rfl).1
      unfold Acc.checkSafety
      rw [show Acc.maxRolloutSteps { Wit.acc with circles := [⟨20, 0, 1⟩, ⟨20, 0, 1⟩], rects := [⟨0, 30, 4, 2, 0⟩] } =
        Wit.acc.maxRolloutSteps from rfl, this, propext (ho x)]
      rfl)

end Mbd
