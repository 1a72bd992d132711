import Verif.StepLemmas
import Verif.PropsGeom

/-!
# One-step lemmas of the acceleration-controlled robot
-/

namespace Mbd

open Real Classical

namespace Acc

/-- The plain Euler successor under the clipped action. -/
noncomputable def proposal (T : Acc) (q : Q6) (a : U) : Q6 :=
  T.euler q (T.inputScaler (clipU a)) T.dt

/-- The shield overrides the proposal. -/
def overrides (T : Acc) (q : Q6) (a : U) : Prop :=
  (T.shieldCollision = true ∧ (T.checkSafety (T.proposal q a)).1 = true) ∨
  (T.shieldHitch = true ∧ (T.checkSafety (T.proposal q a)).2 = true)

/-- Both shields on, no projection or guidance. -/
structure Shielded (T : Acc) : Prop where
  coll : T.shieldCollision = true
  hitch : T.shieldHitch = true
  proj : T.enableProjection = false
  guid : T.enableGuidance = false

theorem overrides_iff {T : Acc} (h : T.Shielded) (q : Q6) (a : U) :
    T.overrides q a ↔ (T.checkSafety (T.proposal q a)).1 = true ∨
      (T.checkSafety (T.proposal q a)).2 = true := by
  unfold overrides; simp [h.coll, h.hitch]

theorem step_q {T : Acc} (h : T.Shielded) (ext : Ext Q6) (s : St Q6) (hb : s.inBackup = false)
    (a : U) :
    (T.step ext s a).q = if T.overrides s.q a
      then T.euler s.q (T.uBackupScaled s.q.v (T.proposal s.q a).v) T.dt
      else T.proposal s.q a := by
  unfold step stepInternal shieldedRollout overrides
  simp only [h.proj, h.guid, h.coll, h.hitch, hb, Bool.false_eq_true, if_false, Bool.or_true,
    if_true, Bool.true_and, true_and, Bool.or_eq_true]
  rfl

theorem step_applied {T : Acc} (h : T.Shielded) (ext : Ext Q6) (s : St Q6)
    (hb : s.inBackup = false) (a : U) :
    (T.step ext s a).applied = if T.overrides s.q a then T.uBackupNorm s.q.v else clipU a := by
  unfold step stepInternal shieldedRollout overrides
  simp only [h.proj, h.guid, h.coll, h.hitch, hb, Bool.false_eq_true, if_false, Bool.or_true,
    if_true, Bool.true_and, true_and, Bool.or_eq_true, Bool.false_or]
  rfl

/-- Carries only accumulate: a flagged start stays flagged. -/
theorem rolloutScan_mono (T : Acc) (qNew : Q6) (n : ℕ) :
    (T.checkObstacle qNew → (T.rolloutScan qNew n).oc = true) ∧
    (T.checkHitch qNew → (T.rolloutScan qNew n).hv = true) := by
  induction n with
  | zero => unfold rolloutScan; simp
  | succ n ih =>
    unfold rolloutScan at ih ⊢
    rw [Function.iterate_succ_apply']
    constructor
    · intro h
      exact (Bool.or_eq_true _ _).mpr (Or.inl (ih.1 h))
    · intro h
      exact (Bool.or_eq_true _ _).mpr (Or.inl (ih.2 h))

/-- The check always includes the proposed state itself. -/
theorem checkSafety_self (T : Acc) (qNew : Q6) :
    (T.checkObstacle qNew → (T.checkSafety qNew).1 = true) ∧
    (T.checkHitch qNew → (T.checkSafety qNew).2 = true) := by
  unfold checkSafety
  split
  · simp
  · exact T.rolloutScan_mono qNew _

theorem euler_v (T : Acc) (q : Q6) (u : U) (dt : ℝ) : (T.euler q u dt).v = q.v + dt * u.1 := rfl

theorem euler_delta (T : Acc) (q : Q6) (u : U) (dt : ℝ) :
    (T.euler q u dt).delta = q.delta + dt * u.2 := rfl

theorem aBackup_eq {T : Acc} (_ : 0 ≤ T.aMax) (hdt : 0 < T.dt) (v : ℝ) :
    T.aBackup v = min (|v| / T.dt) T.aMax := by
  unfold aBackup clip
  rw [max_eq_left (abs_nonneg _), abs_div, abs_of_pos hdt]

/-- With zero speed the pose does not change. -/
theorem euler_pose_of_rest (T : Acc) (hv : 0 ≤ T.vMax) (q : Q6) (h : q.v = 0) (u : U) (dt : ℝ) :
    (T.euler q u dt).pose = q.pose := by
  unfold euler Q6.axpy dynamics Q6.pose
  have : clip q.v (-T.vMax) T.vMax = 0 := by
    rw [h]; unfold clip; rw [max_eq_left (by linarith), min_eq_left hv]
  simp [this]

end Acc

end Mbd
