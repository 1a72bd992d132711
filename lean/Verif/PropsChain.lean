import Verif.PropsReward
import Verif.PropsTrailer

/-!
# C55, C34: where the rewards of a train put its last trailer
-/

namespace Spec

open Real Mbd

/-- Axle of trailer `i` in the chain of `get_last_trailer_position` (n_trailer2d.py:232-248): the
first hitch `lh` behind the tractor axle, every further hitch the *front* offset ahead of the axle of
the trailer before. -/
noncomputable def rewardAxle (T : NTrailer) (x : QN) : ℕ → Pt
  | 0 => frame (frame (x.px, x.py) x.th0 (-T.lh) 0) (x.ths.getD 0 0) (-T.lengths.getD 0 0) 0
  | i + 1 => frame (frame (rewardAxle T x i) (x.ths.getD i 0) (T.fronts.getD i 0) 0)
      (x.ths.getD (i + 1) 0) (-T.lengths.getD (i + 1) 0) 0

end Spec

namespace Mbd

open Real Classical _root_.Spec

/-- Invariant of the loop: hitch ahead of trailer `i`'s axle, axle of trailer `i`. -/
theorem lastPosLoop_eq (T : NTrailer) (x : QN) (hw : Spec.WellSized T x) (i : ℕ) (hi : i < T.N) :
    T.lastPosLoop x (i + 1) =
      (frame (rewardAxle T x i) (x.ths.getD i 0) (T.fronts.getD i 0) 0, rewardAxle T x i) := by
  induction i with
  | zero =>
    simp only [NTrailer.lastPosLoop, theta_of_lt hw hi, clampGet_of_lt (l := T.lengths) (by rw [hw.lengths]; exact hi),
      clampGet_of_lt (l := T.fronts) (by rw [hw.fronts]; exact hi), NTrailer.hitch0, rewardAxle, Spec.frame]
    ext <;> simp <;> ring
  | succ i ih =>
    rw [NTrailer.lastPosLoop]
    simp only [ih (by omega), theta_of_lt hw hi, clampGet_of_lt (l := T.lengths) (by rw [hw.lengths]; exact hi),
      clampGet_of_lt (l := T.fronts) (by rw [hw.fronts]; exact hi), rewardAxle, Spec.frame]
    ext <;> simp <;> ring

/-- **C55**: the position the rewards of a train of any number of trailers take for its last trailer
is the end of the chain whose later hitches lie the front offset *ahead* of the axles. -/
theorem C55_reward_chain (T : NTrailer) (x : QN) (hw : Spec.WellSized T x) (h : 0 < T.N) :
    T.lastTrailerPos x = rewardAxle T x (T.N - 1) := by
  unfold NTrailer.lastTrailerPos
  have h1 : T.N - 1 + 1 = T.N := by omega
  rw [show T.lastPosLoop x T.N = T.lastPosLoop x (T.N - 1 + 1) by rw [h1],
    lastPosLoop_eq T x hw (T.N - 1) (by omega)]

example := C55_reward_chain (twoTrailer ⟨0, 0, 0.3, [0.1, 0]⟩) ⟨0, 0, 0.3, [0.1, 0]⟩
  (twoTrailer_wellSized _ 0 0 0.3 0.1 0) (by norm_num [twoTrailer])

/-- **C55**: a train of two trailers has its last trailer, for the rewards, exactly
`front offset + rear offset + lh` away from where the collision check puts that trailer's axle — in
every state.  They never coincide for a train of real dimensions. -/
theorem C55_reward_offset (T : NTrailer) (x : QN) (hw : Spec.WellSized T x) (h : T.N = 2)
    (hpos : 0 < T.fronts.getD 0 0 + T.rears.getD 0 0 + T.lh) :
    Spec.dist (T.lastTrailerPos x) (Spec.axleN T x 1) = T.fronts.getD 0 0 + T.rears.getD 0 0 + T.lh ∧
    T.lastTrailerPos x ≠ Spec.axleN T x 1 := by
  have e : T.lastTrailerPos x = rewardAxle T x 1 := by
    rw [C55_reward_chain T x hw (by omega), h]
  have hd : Spec.dist (T.lastTrailerPos x) (Spec.axleN T x 1) =
      T.fronts.getD 0 0 + T.rears.getD 0 0 + T.lh := by
    rw [e]
    simp only [rewardAxle, Spec.axleN, Spec.hitchN, Spec.frame, Spec.dist]
    rw [← sqrt_sq hpos.le]
    congr 1
    have := cos_sq_add_sin_sq (x.ths.getD 0 0)
    linear_combination (T.fronts.getD 0 0 + T.rears.getD 0 0 + T.lh) ^ 2 * this
  refine ⟨hd, fun hc => ?_⟩
  rw [hc] at hd
  have : Spec.dist (Spec.axleN T x 1) (Spec.axleN T x 1) = 0 := by simp [Spec.dist]
  linarith

example := (C55_reward_offset (twoTrailer ⟨0, 0, 0.3, [0.1, 0]⟩) ⟨0, 0, 0.3, [0.1, 0]⟩
  (twoTrailer_wellSized _ 0 0 0.3 0.1 0) (by norm_num [twoTrailer])
  (by norm_num [twoTrailer, Params.default])).2

/-- **C34**: for a train that tracks its last trailer (preferences -1 and -2) the states of maximal
reward are exactly those whose last trailer's axle, along the chain above, is where it is in the goal. -/
theorem C34_ntrailer_maximal (T : NTrailer) (h1 : 0 < T.rewardThreshold)
    (hp : T.motionPreference = -1 ∨ T.motionPreference = -2) (h : 0 < T.N) (q : QN)
    (hq : Spec.WellSized T q) (hg : Spec.WellSized T T.xg) :
    T.getReward q = 1 ↔ rewardAxle T q (T.N - 1) = rewardAxle T T.xg (T.N - 1) := by
  have hd : T.posDist q = norm2 (rewardAxle T q (T.N - 1) - rewardAxle T T.xg (T.N - 1)) := by
    unfold NTrailer.posDist
    rw [if_neg (by rcases hp with e | e <;> rw [e] <;> norm_num), if_pos hp]
    unfold NTrailer.dLast
    rw [C55_reward_chain T q hq h, C55_reward_chain T T.xg hg h]
  unfold NTrailer.getReward
  rw [hd]
  constructor
  · intro e
    by_contra hne
    have hn : 0 < norm2 (rewardAxle T q (T.N - 1) - rewardAxle T T.xg (T.N - 1)) := by
      unfold norm2
      apply sqrt_pos.mpr
      by_contra hle
      push Not at hle
      apply hne
      have a := sq_nonneg ((rewardAxle T q (T.N - 1) - rewardAxle T T.xg (T.N - 1)).1)
      have b := sq_nonneg ((rewardAxle T q (T.N - 1) - rewardAxle T T.xg (T.N - 1)).2)
      have a0 := pow_eq_zero_iff (two_ne_zero) |>.mp (by linarith :
        (rewardAxle T q (T.N - 1) - rewardAxle T T.xg (T.N - 1)).1 ^ 2 = 0)
      have b0 := pow_eq_zero_iff (two_ne_zero) |>.mp (by linarith :
        (rewardAxle T q (T.N - 1) - rewardAxle T T.xg (T.N - 1)).2 ^ 2 = 0)
      exact sub_eq_zero.mp (Prod.ext a0 b0)
    unfold Params.posReward at e
    have hc : 0 < clip (norm2 (rewardAxle T q (T.N - 1) - rewardAxle T T.xg (T.N - 1))) 0 T.rewardThreshold := by
      unfold clip; exact lt_min (lt_max_of_lt_left hn) h1
    have := div_pos hc h1
    have := pow_pos this 2
    linarith
  · intro e
    rw [e, sub_self, show norm2 (0 : V2) = 0 from norm2_zero, posReward_zero h1]

example := C34_ntrailer_maximal { twoTrailer ⟨0, 0, 0.3, [0.1, 0]⟩ with motionPreference := -1 }
  (by norm_num [twoTrailer, Params.default]) (Or.inl rfl) (by norm_num [twoTrailer])
  ⟨1, 0, 0.3, [0.1, 0]⟩ ⟨rfl, rfl, rfl, rfl⟩ ⟨rfl, rfl, rfl, rfl⟩

end Mbd
