import Verif.PropsCrowd

/-! # Rollouts see only the obstacles they touch (C94) -/

namespace Mbd

open Real Classical _root_.Spec

theorem local_scan {Q : Type} {f f' : St Q → U → St Q} (succ : Q → U → Q → Prop) (A : Q → Prop)
    (h : ∀ s u x, s.inBackup = false → succ s.q (clipU u) x → A x → f' s u = f s u ∧ (f s u).inBackup = false) :
    ∀ (us : List U) (s : St Q) (aims : List Q), s.inBackup = false →
      Spec.Aims succ (s.q :: (scanStates f s us).map St.q) us aims → (∀ x ∈ aims, A x) →
      scanStates f' s us = scanStates f s us ∧ finalState f' s us = finalState f s us := by
  intro us
  induction us with
  | nil => intro s aims _ _ _; exact ⟨rfl, rfl⟩
  | cons u us ih =>
    intro s aims h2 ha hA
    unfold Spec.Aims at ha
    simp only [scanStates, List.map_cons, List.zip_cons_cons] at ha
    obtain ⟨x, as, hx, hr, rfl⟩ := List.forall₂_cons_left_iff.mp ha
    obtain ⟨e, b⟩ := h s u x h2 hx (hA x (by simp))
    obtain ⟨i1, i2⟩ := ih (f s u) as b hr (fun y hy => hA y (by simp [hy]))
    simp only [scanStates, finalState, e, i1, i2, and_self]

theorem local_rollout {Q : Type} {f f' : St Q → U → St Q} (succ : Q → U → Q → Prop) (A : Q → Prop)
    (h : ∀ s u x, s.inBackup = false → succ s.q (clipU u) x → A x → f' s u = f s u ∧ (f s u).inBackup = false)
    (s : St Q) (h0 : f' s (0, 0) = f s (0, 0)) (hq : (f s (0, 0)).q = s.q) (b0 : (f s (0, 0)).inBackup = false)
    (us : List U) (aims : List Q) (ha : Spec.Aims succ (s.q :: (rolloutUs f s us).2.1) us aims) (hA : ∀ x ∈ aims, A x)
    (term : Q → ℝ) (w : ℝ) :
    rolloutUs f' s us = rolloutUs f s us ∧ rolloutUsWithTerminal f' term w s us = rolloutUsWithTerminal f term w s us := by
  have ha' : Spec.Aims succ ((warmState f s).q :: (scanStates f (warmState f s) us).map St.q) us aims := by
    rw [show (warmState f s).q = s.q from hq]; exact ha
  obtain ⟨i1, i2⟩ := local_scan succ A h us (warmState f s) aims b0 ha' hA
  have e : warmState f' s = warmState f s := h0
  unfold rolloutUs rolloutUsWithTerminal
  simp only [e, i1, i2, and_self]

/-! ## Tractor-trailer -/

/-- **C94**, tractor-trailer: put the same vehicle on another map.  If the start and every aim of a rollout collide on the
one map exactly if they collide on the other, the rollout is the same on both: rewards, states, actions and score, with any
shields. -/
theorem C94_local_tt2d (T : TT2d) (cs : List Circle) (rs : List Rect) (hp : T.enableProjection = false)
    (hg : T.enableGuidance = false) (ext : Ext Q4) (us : List U) (aims : List Q4)
    (ha : Spec.Aims (Spec.EulerTT T.toParams) (T.x0 :: (rolloutUs (T.step ext) T.reset us).2.1) us aims)
    (hA : ∀ x ∈ T.x0 :: aims, TT2d.checkObstacle { T.toParams with circles := cs, rects := rs } x ↔
      TT2d.checkObstacle T.toParams x) :
    rolloutUs (TT2d.step { T with circles := cs, rects := rs } ext) T.reset us = rolloutUs (T.step ext) T.reset us ∧
    rolloutUsWithTerminal (TT2d.step { T with circles := cs, rects := rs } ext) (TT2d.getTerminalReward T.toParams T.xg)
        T.terminalRewardWeight T.reset us =
      rolloutUsWithTerminal (T.step ext) (TT2d.getTerminalReward T.toParams T.xg) T.terminalRewardWeight T.reset us := by
  have hb : ∀ s u, s.inBackup = false → (T.step ext s u).inBackup = false := fun s u h => by
    unfold TT2d.step TT2d.stepInternal; exact h
  have hst : ∀ (s : St Q4) (u : U) (x : Q4), s.inBackup = false → Spec.EulerTT T.toParams s.q (clipU u) x →
      (TT2d.checkObstacle { T.toParams with circles := cs, rects := rs } x ↔ TT2d.checkObstacle T.toParams x) →
      TT2d.step { T with circles := cs, rects := rs } ext s u = T.step ext s u := by
    intro s u x h2 hx hA
    have e : TT2d.euler T.toParams s.q (T.inputScaler (clipU u)) = x := ((eulerTT_iff ..).mp hx).symm
    exact tt2d_step_reach T { T with circles := cs, rects := rs } hp hp hg hg rfl rfl rfl rfl rfl rfl (fun _ _ => rfl) (fun _ => rfl) rfl (fun _ => rfl) ext
      false s u (by simp only [h2, if_false, Bool.false_eq_true, e]; exact propext hA)
  have h0 : Spec.EulerTT T.toParams T.x0 (clipU (0, 0)) T.x0 := (eulerTT_iff ..).mpr (by
    rw [clipU_zero]; exact (TT2d.euler_zero _ _).symm)
  have hz : (T.step ext T.reset (0, 0)).q = T.reset.q := by
    have : TT2d.euler T.toParams T.x0 (T.inputScaler (0, 0)) = T.x0 := TT2d.euler_zero _ _
    unfold TT2d.step TT2d.stepInternal kinShieldedRollout kinNaive TT2d.reset
    simp only [hp, hg, if_false, Bool.false_eq_true, clipU_zero, this, ite_self]
  exact local_rollout (Spec.EulerTT T.toParams) _ (fun s u x h2 hx hA => ⟨hst s u x h2 hx hA, hb s u h2⟩) T.reset
    (hst T.reset (0, 0) T.x0 rfl h0 (hA _ (by simp))) hz (hb _ _ rfl) us aims ha (fun x hx => hA x (by simp [hx])) _ _

/-- Without the collision shield the best of any set of action sequences stays best when obstacles are added or enlarged
whose new parts its rollout does not touch. -/
theorem C94_best_tt2d (T : TT2d) (cs : List Circle) (rs : List Rect)
    (hc : Covers { T.toParams with circles := cs, rects := rs } T.toParams) (hs : Spec.PosSizes T.toParams)
    (hp : T.enableProjection = false) (hg : T.enableGuidance = false) (hsh : T.shieldCollision = false)
    (hpen : 0 ≤ T.collisionPenalty) (ext : Ext Q4) (us : List U) (aims : List Q4)
    (ha : Spec.Aims (Spec.EulerTT T.toParams) (T.x0 :: (rolloutUs (T.step ext) T.reset us).2.1) us aims)
    (hA : ∀ x ∈ T.x0 :: aims, TT2d.checkObstacle { T.toParams with circles := cs, rects := rs } x →
      TT2d.checkObstacle T.toParams x)
    (C : Set (List U))
    (hbest : ∀ vs ∈ C, (rolloutUsWithTerminal (T.step ext) (TT2d.getTerminalReward T.toParams T.xg)
        T.terminalRewardWeight T.reset vs).1 ≤
      (rolloutUsWithTerminal (T.step ext) (TT2d.getTerminalReward T.toParams T.xg) T.terminalRewardWeight T.reset us).1) :
    ∀ vs ∈ C, (rolloutUsWithTerminal (TT2d.step { T with circles := cs, rects := rs } ext)
        (TT2d.getTerminalReward T.toParams T.xg) T.terminalRewardWeight T.reset vs).1 ≤
      (rolloutUsWithTerminal (TT2d.step { T with circles := cs, rects := rs } ext)
        (TT2d.getTerminalReward T.toParams T.xg) T.terminalRewardWeight T.reset us).1 := by
  intro vs hv
  have e := (C94_local_tt2d T cs rs hp hg ext us aims ha
    (fun x hx => ⟨hA x hx, C58_mono_tt2d T.toParams _ hc hs x⟩)).2
  rw [e]
  exact (C93_tt2d T { T.toParams with circles := cs, rects := rs } hc hs hsh hg hpen ext T.reset vs).2.2.trans (hbest vs hv)

/-! ## Bicycle -/

/-- **C94**, bicycle. -/
theorem C94_local_bicycle (T : Bicycle) (cs : List Circle) (rs : List Rect) (hp : T.enableProjection = false)
    (hg : T.enableGuidance = false) (ext : Ext Q3) (us : List U) (aims : List Q3)
    (ha : Spec.Aims (Spec.EulerBicycle T.toParams) (T.x0 :: (rolloutUs (T.step ext) T.reset us).2.1) us aims)
    (hA : ∀ x ∈ T.x0 :: aims, Bicycle.checkObstacle { T.toParams with circles := cs, rects := rs } x ↔
      Bicycle.checkObstacle T.toParams x) :
    rolloutUs (Bicycle.step { T with circles := cs, rects := rs } ext) T.reset us = rolloutUs (T.step ext) T.reset us ∧
    rolloutUsWithTerminal (Bicycle.step { T with circles := cs, rects := rs } ext)
        (Bicycle.getTerminalReward T.toParams T.xg) T.terminalRewardWeight T.reset us =
      rolloutUsWithTerminal (T.step ext) (Bicycle.getTerminalReward T.toParams T.xg) T.terminalRewardWeight T.reset us := by
  have hb : ∀ s u, s.inBackup = false → (T.step ext s u).inBackup = false := fun s u h => by
    unfold Bicycle.step Bicycle.stepInternal; exact h
  have hst : ∀ (s : St Q3) (u : U) (x : Q3), s.inBackup = false → Spec.EulerBicycle T.toParams s.q (clipU u) x →
      (Bicycle.checkObstacle { T.toParams with circles := cs, rects := rs } x ↔ Bicycle.checkObstacle T.toParams x) →
      Bicycle.step { T with circles := cs, rects := rs } ext s u = T.step ext s u := by
    intro s u x h2 hx hA
    have e : Bicycle.euler T.toParams s.q (T.inputScaler (clipU u)) = x := ((eulerBicycle_iff ..).mp hx).symm
    exact bicycle_step_reach T { T with circles := cs, rects := rs } hp hp hg hg rfl rfl rfl rfl rfl rfl (fun _ _ => rfl) (fun _ => rfl) rfl (fun _ => rfl) ext
      false s u (by simp only [h2, if_false, Bool.false_eq_true, e]; exact propext hA)
  have h0 : Spec.EulerBicycle T.toParams T.x0 (clipU (0, 0)) T.x0 := (eulerBicycle_iff ..).mpr (by
    rw [clipU_zero]; exact (Bicycle.euler_zero _ _).symm)
  have hz : (T.step ext T.reset (0, 0)).q = T.reset.q := by
    have : Bicycle.euler T.toParams T.x0 (T.inputScaler (0, 0)) = T.x0 := Bicycle.euler_zero _ _
    unfold Bicycle.step Bicycle.stepInternal kinShieldedRollout kinNaive Bicycle.reset
    simp only [hp, hg, if_false, Bool.false_eq_true, clipU_zero, this, ite_self]
  exact local_rollout (Spec.EulerBicycle T.toParams) _ (fun s u x h2 hx hA => ⟨hst s u x h2 hx hA, hb s u h2⟩) T.reset
    (hst T.reset (0, 0) T.x0 rfl h0 (hA _ (by simp))) hz (hb _ _ rfl) us aims ha (fun x hx => hA x (by simp [hx])) _ _

/-- The best stays best: bicycle. -/
theorem C94_best_bicycle (T : Bicycle) (cs : List Circle) (rs : List Rect)
    (hc : Covers { T.toParams with circles := cs, rects := rs } T.toParams) (hs : Spec.PosSizes T.toParams)
    (hp : T.enableProjection = false) (hg : T.enableGuidance = false) (hsh : T.shieldCollision = false)
    (hpen : 0 ≤ T.collisionPenalty) (ext : Ext Q3) (us : List U) (aims : List Q3)
    (ha : Spec.Aims (Spec.EulerBicycle T.toParams) (T.x0 :: (rolloutUs (T.step ext) T.reset us).2.1) us aims)
    (hA : ∀ x ∈ T.x0 :: aims, Bicycle.checkObstacle { T.toParams with circles := cs, rects := rs } x →
      Bicycle.checkObstacle T.toParams x)
    (C : Set (List U))
    (hbest : ∀ vs ∈ C, (rolloutUsWithTerminal (T.step ext) (Bicycle.getTerminalReward T.toParams T.xg)
        T.terminalRewardWeight T.reset vs).1 ≤
      (rolloutUsWithTerminal (T.step ext) (Bicycle.getTerminalReward T.toParams T.xg) T.terminalRewardWeight T.reset us).1) :
    ∀ vs ∈ C, (rolloutUsWithTerminal (Bicycle.step { T with circles := cs, rects := rs } ext)
        (Bicycle.getTerminalReward T.toParams T.xg) T.terminalRewardWeight T.reset vs).1 ≤
      (rolloutUsWithTerminal (Bicycle.step { T with circles := cs, rects := rs } ext)
        (Bicycle.getTerminalReward T.toParams T.xg) T.terminalRewardWeight T.reset us).1 := by
  intro vs hv
  have e := (C94_local_bicycle T cs rs hp hg ext us aims ha
    (fun x hx => ⟨hA x hx, C58_mono_bicycle T.toParams _ hc hs x⟩)).2
  rw [e]
  exact (C93_bicycle T { T.toParams with circles := cs, rects := rs } hc hs hsh hg hpen ext T.reset vs).2.2.trans
    (hbest vs hv)

/-! ## Trains -/

theorem local_scanE {Q E : Type} {f f' : St Q → U → Except E (St Q)} (aim : Q → U → Q) (A : Q → Prop)
    (h : ∀ s u, s.inBackup = false → A (aim s.q (clipU u)) → f' s u = f s u)
    (hb : ∀ s u t, f s u = .ok t → t.inBackup = s.inBackup) :
    ∀ (us : List U) (s : St Q), s.inBackup = false →
      (∀ k (hk : k < us.length) l t, scanStatesE f s (us.take k) = .ok l → (s :: l).getLast? = some t →
        A (aim t.q (clipU us[k]))) →
      scanStatesE f' s us = scanStatesE f s us := by
  intro us
  induction us with
  | nil => intro s _ _; rfl
  | cons u us ih =>
    intro s h2 hA
    have e := h s u h2 (hA 0 (by simp) [] s rfl rfl)
    simp only [scanStatesE, e]
    cases hf : f s u with
    | error x => rfl
    | ok t =>
      have := ih t (by rw [hb s u t hf, h2]) (fun k hk l r hl hr => by
        have := hA (k + 1) (by simpa using hk) (t :: l) r (by simp only [List.take_succ_cons, scanStatesE, hf, hl])
          (by simpa using hr)
        simpa using this)
      simp only [this]

/-- **C94**, train: from any state not in backup mode, if the aim of every executed action (the pose one Euler step ahead of
the state the train is in by then) collides on the one map exactly if it does on the other, the run is the same on both,
exceptions included. -/
theorem C94_local_ntrailer (T T' : NTrailer) (hM : Moved T T') (hp : T.enableProjection = false)
    (hg : T.enableGuidance = false) (guide : QN → QN) (s : St QN) (h2 : s.inBackup = false) (us : List U)
    (hA : ∀ k (hk : k < us.length) l t, scanStatesE (T.step guide) s (us.take k) = .ok l → (s :: l).getLast? = some t →
      (T'.checkObstacle (T.euler t.q (T.inputScaler (clipU us[k]))) ↔
        T.checkObstacle (T.euler t.q (T.inputScaler (clipU us[k]))))) :
    scanStatesE (T'.step guide) s us = scanStatesE (T.step guide) s us := by
  have hM' := hM
  unfold Moved at hM'
  have f1 : T'.enableProjection = false := by rw [hM']; exact hp
  have f8 : T'.N = T.N := by rw [hM']
  refine local_scanE (fun q u => T.euler q (T.inputScaler u)) (fun x => T'.checkObstacle x ↔ T.checkObstacle x)
    (fun s u h2 hc => ?_) (fun s u t ht => ?_) us s h2 hA
  · have hc' : T'.checkObstacle (T.euler s.q (T.inputScaler (if s.inBackup = true then (0, 0) else clipU u))) =
        T.checkObstacle (T.euler s.q (T.inputScaler (if s.inBackup = true then (0, 0) else clipU u))) := by
      rw [h2]; exact propext hc
    have ht := ntrailer_step_reach hM hp hg guide false s u hc'
    by_cases hl : 3 + s.q.ths.length ≠ 3 + T.N
    · unfold NTrailer.step NTrailer.stepInternal
      simp only [f8, if_pos hl]
    · have e1 : ∃ t, T.step guide s u = .ok t := by
        unfold NTrailer.step NTrailer.stepInternal
        simp only [if_neg hl, hp, if_false, Bool.false_eq_true]
        exact ⟨_, rfl⟩
      have e2 : ∃ t, T'.step guide s u = .ok t := by
        unfold NTrailer.step NTrailer.stepInternal
        simp only [f8, if_neg hl, f1, if_false, Bool.false_eq_true]
        exact ⟨_, rfl⟩
      obtain ⟨t, e1⟩ := e1
      obtain ⟨t', e2⟩ := e2
      unfold NTrailer.stepTotal at ht
      unfold NTrailer.step at e1 e2 ⊢
      rw [e1, e2] at ht
      rw [e1, e2, show t' = t from ht]
  · unfold NTrailer.step NTrailer.stepInternal at ht
    by_cases hl : 3 + s.q.ths.length ≠ 3 + T.N
    · simp only [if_pos hl] at ht
      exact absurd ht (by simp)
    · simp only [if_neg hl, hp, if_false, Bool.false_eq_true] at ht
      rw [← Except.ok.inj ht]

/-! ## Instances -/

/-- The witness vehicle without collision shield, and without the pole. -/
noncomputable def noPole : TT2d := { Wit.tt with shieldCollision := false, circles := [] }

noncomputable def noPoleBike : Bicycle := { Wit.bike with shieldCollision := false, circles := [] }

theorem noPole_sizes : Covers { noPole.toParams with circles := [⟨20, 0, 1⟩], rects := [⟨0, 30, 4, 2, 0⟩] } noPole.toParams ∧
    Spec.PosSizes noPole.toParams := by
  refine ⟨⟨rfl, by simp [noPole], ?_⟩, ⟨?_, ?_, ?_, ?_, ?_, ?_⟩⟩
  · simp [noPole, Wit.tt, Wit.params, Params.default]
  all_goals norm_num [noPole, Wit.tt, Wit.params, Params.default]

theorem noPoleBike_sizes :
    Covers { noPoleBike.toParams with circles := [⟨20, 0, 1⟩], rects := [⟨0, 30, 4, 2, 0⟩] } noPoleBike.toParams ∧
    Spec.PosSizes noPoleBike.toParams := by
  refine ⟨⟨rfl, by simp [noPoleBike], ?_⟩, ⟨?_, ?_, ?_, ?_, ?_, ?_⟩⟩
  · simp [noPoleBike, Wit.bike, Wit.params, Params.default]
  all_goals norm_num [noPoleBike, Wit.bike, Wit.params, Params.default]

/-- Among all one-step sequences that are no better than standing still, standing still stays best when the pole is added:
its only aim is the start, which does not touch the pole. -/
example (ext : Ext Q4) :=
  C94_best_tt2d noPole [⟨20, 0, 1⟩] [⟨0, 30, 4, 2, 0⟩] noPole_sizes.1 noPole_sizes.2 rfl rfl rfl
    (by norm_num [noPole, Wit.tt, Wit.params, Params.default]) ext [(0, 0)] [noPole.x0]
    (List.Forall₂.cons ((eulerTT_iff ..).mpr (by rw [clipU_zero]; exact (TT2d.euler_zero _ _).symm)) List.Forall₂.nil)
    (by
      intro x hx h
      have hx : x = noPole.x0 := by simpa using hx
      subst hx
      exact absurd h Wit.tt_clear)
    {vs | (rolloutUsWithTerminal (noPole.step ext) (TT2d.getTerminalReward noPole.toParams noPole.xg)
        noPole.terminalRewardWeight noPole.reset vs).1 ≤
      (rolloutUsWithTerminal (noPole.step ext) (TT2d.getTerminalReward noPole.toParams noPole.xg)
        noPole.terminalRewardWeight noPole.reset [(0, 0)]).1} (fun _ h => h)

example (ext : Ext Q3) :=
  C94_best_bicycle noPoleBike [⟨20, 0, 1⟩] [⟨0, 30, 4, 2, 0⟩] noPoleBike_sizes.1 noPoleBike_sizes.2 rfl rfl rfl
    (by norm_num [noPoleBike, Wit.bike, Wit.params, Params.default]) ext [(0, 0)] [noPoleBike.x0]
    (List.Forall₂.cons ((eulerBicycle_iff ..).mpr (by rw [clipU_zero]; exact (Bicycle.euler_zero _ _).symm)) List.Forall₂.nil)
    (by
      intro x hx h
      have hx : x = noPoleBike.x0 := by simpa using hx
      subst hx
      exact absurd h Wit.bike_clear)
    {vs | (rolloutUsWithTerminal (noPoleBike.step ext) (Bicycle.getTerminalReward noPoleBike.toParams noPoleBike.xg)
        noPoleBike.terminalRewardWeight noPoleBike.reset vs).1 ≤
      (rolloutUsWithTerminal (noPoleBike.step ext) (Bicycle.getTerminalReward noPoleBike.toParams noPoleBike.xg)
        noPoleBike.terminalRewardWeight noPoleBike.reset [(0, 0)]).1} (fun _ h => h)

/-- With the shield: the pole may come or go, standing still is the same. -/
example (ext : Ext Q4) :=
  C94_local_tt2d Wit.tt [⟨20, 0, 1⟩, ⟨20, 0, 1⟩] [⟨0, 30, 4, 2, 0⟩] rfl rfl ext [(0, 0)] [Wit.tt.x0]
    (List.Forall₂.cons ((eulerTT_iff ..).mpr (by rw [clipU_zero]; exact (TT2d.euler_zero _ _).symm)) List.Forall₂.nil)
    (fun x _ => (C58_order Wit.tt.toParams _ _ (by simp [Wit.tt, Wit.params, Params.default])
      (by simp [Wit.tt, Wit.params, Params.default])).1 x)

example (ext : Ext Q3) :=
  C94_local_bicycle Wit.bike [⟨20, 0, 1⟩, ⟨20, 0, 1⟩] [⟨0, 30, 4, 2, 0⟩] rfl rfl ext [(0, 0)] [Wit.bike.x0]
    (List.Forall₂.cons ((eulerBicycle_iff ..).mpr (by rw [clipU_zero]; exact (Bicycle.euler_zero _ _).symm)) List.Forall₂.nil)
    (fun x _ => (C58_order Wit.bike.toParams _ _ (by simp [Wit.bike, Wit.params, Params.default])
      (by simp [Wit.bike, Wit.params, Params.default])).2 x)

example (guide : QN → QN) (us : List U) :=
  C94_local_ntrailer Wit.train { Wit.train with circles := [⟨20, 0, 1⟩, ⟨20, 0, 1⟩] } (by unfold Moved; rfl) rfl rfl guide
    Wit.train.reset rfl us
    (fun _ _ _ t _ _ => C58_order_ntrailer Wit.train [⟨20, 0, 1⟩, ⟨20, 0, 1⟩] [⟨0, 30, 4, 2, 0⟩]
      (by simp [Wit.train, Wit.params, Params.default]) (by simp [Wit.train, Wit.params, Params.default]) _)

end Mbd
