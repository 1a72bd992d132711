import Verif.PropsBest

/-! # The best motion stays best: trains (C94) -/

namespace Mbd

open Real Classical _root_.Spec

/-- **C94**, train: without the collision shield, a run that completes and scores best among any set of action sequences
(those that raise an exception are not ranked) completes in the same way on the map with more or larger obstacles, and
is still best there, if none of its aims comes into collision with the change. -/
theorem C94_best_ntrailer (T : NTrailer) (P' : Params) (hc : Covers P' T.toParams) (hs : Spec.PosSizes T.toParams)
    (hlen : ∀ i < T.N, 0 < clampGet T.fronts i + clampGet T.rears i) (hp : T.enableProjection = false)
    (hg : T.enableGuidance = false) (hsh : T.shieldCollision = false) (hpen : 0 ≤ T.collisionPenalty) (guide : QN → QN)
    (s : St QN) (h2 : s.inBackup = false) (us : List U) (l : List (St QN))
    (hl : scanStatesE (T.step guide) s us = .ok l)
    (hA : ∀ k (hk : k < us.length) m t, scanStatesE (T.step guide) s (us.take k) = .ok m → (s :: m).getLast? = some t →
      NTrailer.checkObstacle { T with toParams := P' } (T.euler t.q (T.inputScaler (clipU us[k]))) →
      T.checkObstacle (T.euler t.q (T.inputScaler (clipU us[k]))))
    (C : Set (List U))
    (hbest : ∀ vs ∈ C, ∀ m, scanStatesE (T.step guide) s vs = .ok m →
      mean (m.map St.reward) + T.terminalRewardWeight * T.getTerminalReward (m.getLastD s).q ≤
        mean (l.map St.reward) + T.terminalRewardWeight * T.getTerminalReward (l.getLastD s).q) :
    scanStatesE (NTrailer.step { T with toParams := P' } guide) s us = .ok l ∧
    ∀ vs ∈ C, ∀ m, scanStatesE (NTrailer.step { T with toParams := P' } guide) s vs = .ok m →
      mean (m.map St.reward) + P'.terminalRewardWeight *
          NTrailer.getTerminalReward { T with toParams := P' } (m.getLastD s).q ≤
        mean (l.map St.reward) + P'.terminalRewardWeight *
          NTrailer.getTerminalReward { T with toParams := P' } (l.getLastD s).q := by
  have hM : Moved T { T with toParams := P' } := by
    unfold Moved
    rw [← params_of_covers hc]
  have e := C94_local_ntrailer T { T with toParams := P' } hM hp hg guide s h2 us
    (fun k hk m t h1 h3 => ⟨hA k hk m t h1 h3, C58_mono_ntrailer T P' hc hs hlen _⟩)
  refine ⟨e.trans hl, fun vs hv m' hm' => ?_⟩
  have hw : P'.terminalRewardWeight = T.terminalRewardWeight := by rw [params_of_covers hc]
  rcases C93_ntrailer T P' hc hs hlen hsh hg hpen guide vs s s rfl rfl with ⟨e, a, _⟩ | ⟨m, _, _, b, _, _⟩
  · rw [hm'] at a; cases a
  · have h := (C93_score_ntrailer T P' hc hs hlen hsh hg hpen guide vs s m m' hm' b).trans (hbest vs hv m b)
    rw [(rewards_moved hM).2, hw] at h ⊢
    exact h

/-- One step of the train from its start, obstacle listed twice; competitors: everything no better. -/
example (guide : QN → QN) :=
  let T : NTrailer := { Wit.train with shieldCollision := false }
  C94_best_ntrailer T { T.toParams with circles := [⟨20, 0, 1⟩, ⟨20, 0, 1⟩], rects := [⟨0, 30, 4, 2, 0⟩] }
    ⟨rfl, by simp [T, Wit.train, Wit.params, Params.default], by simp [T, Wit.train, Wit.params, Params.default]⟩
    ⟨by norm_num [T, Wit.train, Wit.params, Params.default], by norm_num [T, Wit.train, Wit.params, Params.default],
      by norm_num [T, Wit.train, Wit.params, Params.default], by norm_num [T, Wit.train, Wit.params, Params.default],
      by norm_num [T, Wit.train, Wit.params, Params.default], by norm_num [T, Wit.train, Wit.params, Params.default]⟩
    (by
      intro i hi
      have : i < 2 := hi
      have h2 : i = 0 ∨ i = 1 := by omega
      rcases h2 with rfl | rfl <;> norm_num [T, Wit.train, clampGet]) rfl rfl rfl
    (by norm_num [T, Wit.train, Wit.params, Params.default]) guide Wit.train.reset rfl [(1, 0)] _ rfl
    (fun _ _ _ t _ _ => (C58_order_ntrailer T [⟨20, 0, 1⟩, ⟨20, 0, 1⟩] [⟨0, 30, 4, 2, 0⟩]
      (by simp [T, Wit.train, Wit.params, Params.default]) (by simp [T, Wit.train, Wit.params, Params.default]) _).1)
    {vs | ∀ m, scanStatesE (T.step guide) Wit.train.reset vs = .ok m →
      ∀ l, scanStatesE (T.step guide) Wit.train.reset [(1, 0)] = .ok l →
      mean (m.map St.reward) + T.terminalRewardWeight * T.getTerminalReward (m.getLastD Wit.train.reset).q ≤
        mean (l.map St.reward) + T.terminalRewardWeight * T.getTerminalReward (l.getLastD Wit.train.reset).q}
    (fun _ h m hm => h m hm _ rfl)

end Mbd
