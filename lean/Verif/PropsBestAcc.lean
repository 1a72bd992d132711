import Verif.PropsLocalAcc

/-! # The best motion stays best: acceleration control (C94) -/

namespace Mbd

open Real Classical _root_.Spec

theorem finalState_congr {S A : Type} {f f' : S → A → S} : ∀ (us : List A) (s : S),
    scanStates f' s us = scanStates f s us → finalState f' s us = finalState f s us := by
  intro us
  induction us with
  | nil => intro s _; rfl
  | cons u us ih =>
    intro s h
    simp only [scanStates, List.cons.injEq] at h
    obtain ⟨e, h⟩ := h
    rw [e] at h
    simp only [finalState, e]
    exact ih _ h

/-- **C94**, acceleration control: without the collision shield the best of any set of action sequences stays best when
obstacles are added or enlarged such that no aim of its rollout (warm-up step included) is judged differently, by the
collision check or by the alarm. -/
theorem C94_best_acc (T : Acc) (cs : List Circle) (rs : List Rect)
    (hc : Covers { T.toParams with circles := cs, rects := rs } T.toParams) (hs : Spec.PosSizes T.toParams)
    (hp : T.enableProjection = false) (hg : T.enableGuidance = false) (hsh : T.shieldCollision = false)
    (hpen : 0 ≤ T.collisionPenalty) (ext : Ext Q6) (us : List U)
    (hA : ∀ k (hk : k < ((0, 0) :: us).length) (x : Q6),
      x = T.euler (finalState (T.step ext) T.reset (((0, 0) :: us).take k)).q
        (T.inputScaler (clipU ((0, 0) :: us)[k])) T.dt →
      (Acc.checkObstacle { T with circles := cs, rects := rs } x → T.checkObstacle x) ∧
      ((Acc.checkSafety { T with circles := cs, rects := rs } x).1 = true → (T.checkSafety x).1 = true))
    (C : Set (List U))
    (hbest : ∀ vs ∈ C, (rolloutUsWithTerminal (T.step ext) T.getTerminalReward T.terminalRewardWeight T.reset vs).1 ≤
      (rolloutUsWithTerminal (T.step ext) T.getTerminalReward T.terminalRewardWeight T.reset us).1) :
    ∀ vs ∈ C, (rolloutUsWithTerminal (Acc.step { T with circles := cs, rects := rs } ext) T.getTerminalReward
        T.terminalRewardWeight T.reset vs).1 ≤
      (rolloutUsWithTerminal (Acc.step { T with circles := cs, rects := rs } ext) T.getTerminalReward
        T.terminalRewardWeight T.reset us).1 := by
  intro vs hv
  have e := C94_local_acc T cs rs hp hg ext ((0, 0) :: us) T.reset rfl (fun k hk x hx => by
    obtain ⟨a, b⟩ := hA k hk x hx
    obtain ⟨c, d⟩ := C58_alarm_acc T _ hc hs x
    refine ⟨⟨a, C58_mono_acc T _ hc hs x⟩, Prod.ext ?_ d⟩
    rw [Bool.eq_iff_iff]
    exact ⟨b, c⟩)
  simp only [scanStates, List.cons.injEq] at e
  obtain ⟨e0, e1⟩ := e
  rw [e0] at e1
  have e2 := finalState_congr _ _ e1
  have eq : rolloutUsWithTerminal (Acc.step { T with circles := cs, rects := rs } ext) T.getTerminalReward
      T.terminalRewardWeight T.reset us =
      rolloutUsWithTerminal (T.step ext) T.getTerminalReward T.terminalRewardWeight T.reset us := by
    unfold rolloutUsWithTerminal warmState
    simp only [e0, e1, e2]
  rw [eq]
  exact (C93_acc T { T.toParams with circles := cs, rects := rs } hc hs hsh hg hpen ext T.reset vs).2.2.trans (hbest vs hv)

/-- Obstacle listed twice; competitors: everything that is no better than standing still. -/
example (ext : Ext Q6) :
    let T : Acc := { Wit.acc with shieldCollision := false }
    ∀ vs ∈ {vs | (rolloutUsWithTerminal (T.step ext) T.getTerminalReward T.terminalRewardWeight T.reset vs).1 ≤
      (rolloutUsWithTerminal (T.step ext) T.getTerminalReward T.terminalRewardWeight T.reset [(0, 0)]).1},
      (rolloutUsWithTerminal (Acc.step { T with circles := [⟨20, 0, 1⟩, ⟨20, 0, 1⟩], rects := [⟨0, 30, 4, 2, 0⟩] } ext)
        T.getTerminalReward T.terminalRewardWeight T.reset vs).1 ≤
      (rolloutUsWithTerminal (Acc.step { T with circles := [⟨20, 0, 1⟩, ⟨20, 0, 1⟩], rects := [⟨0, 30, 4, 2, 0⟩] } ext)
        T.getTerminalReward T.terminalRewardWeight T.reset [(0, 0)]).1 := by
  intro T
  have ho : ∀ q, Acc.checkObstacle { T with circles := [⟨20, 0, 1⟩, ⟨20, 0, 1⟩], rects := [⟨0, 30, 4, 2, 0⟩] } q ↔
      T.checkObstacle q := fun q => C58_order_acc T [⟨20, 0, 1⟩, ⟨20, 0, 1⟩] [⟨0, 30, 4, 2, 0⟩]
    (by simp [T, Wit.acc, Wit.params, Params.default]) (by simp [T, Wit.acc, Wit.params, Params.default]) q
  have hv : 0 ≤ T.vMax := by norm_num [T, Wit.acc, Wit.params, Params.default]
  refine C94_best_acc T [⟨20, 0, 1⟩, ⟨20, 0, 1⟩] [⟨0, 30, 4, 2, 0⟩] ⟨rfl, ?_, ?_⟩ ⟨?_, ?_, ?_, ?_, ?_, ?_⟩ rfl rfl rfl ?_ ext [(0, 0)]
    (fun k hk x _ => ⟨(ho x).1, ?_⟩) _ (fun _ h => h)
  · simp [T, Wit.acc, Wit.params, Params.default]
  · simp [T, Wit.acc, Wit.params, Params.default]
  · norm_num [T, Wit.acc, Wit.params, Params.default]
  · norm_num [T, Wit.acc, Wit.params, Params.default]
  · norm_num [T, Wit.acc, Wit.params, Params.default]
  · norm_num [T, Wit.acc, Wit.params, Params.default]
  · norm_num [T, Wit.acc, Wit.params, Params.default]
  · norm_num [T, Wit.acc, Wit.params, Params.default]
  · norm_num [T, Wit.acc, Wit.params, Params.default]
  · have := (rolloutScan_moved (T := T)
      (T' := { T with circles := [⟨20, 0, 1⟩, ⟨20, 0, 1⟩], rects := [⟨0, 30, 4, 2, 0⟩] }) rfl hv (x0 := (0, 0))
      (fun q _ => ho q) x (Acc.maxRolloutSteps T) le_rfl).1
    have e : Acc.checkSafety { T with circles := [⟨20, 0, 1⟩, ⟨20, 0, 1⟩], rects := [⟨0, 30, 4, 2, 0⟩] } x =
        T.checkSafety x := by
      unfold Acc.checkSafety
      rw [show Acc.maxRolloutSteps { T with circles := [⟨20, 0, 1⟩, ⟨20, 0, 1⟩], rects := [⟨0, 30, 4, 2, 0⟩] } =
        T.maxRolloutSteps from rfl, this, propext (ho x)]
      rfl
    rw [e]
    exact id

end Mbd
