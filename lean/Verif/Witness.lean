import Verif.StepLemmas
import Verif.SpecVehicle
import Verif.WrapLemmas
import Verif.CircleLemmas
import Verif.GeomLemmas

/-!
# Concrete robots used to show that the hypotheses of the theorems can be met

One robot of each class with the constructor defaults, a pole of radius 1 m at (20, 0) and a
4 m x 2 m box at (0, 30), standing at the origin.  These definitions model no code; they instantiate
the model's records with the defaults of tt2d.py:49-56, kinematic_bicycle2d.py:30-38,
n_trailer2d.py:18-49 and acc_tt2d.py:26-44.
-/

namespace Mbd

open Real Classical

namespace Wit

/-- Default parameters (tt2d.py:49-56) with one pole and one box. -/
noncomputable def params : Params := Params.default [⟨20, 0, 1⟩] [⟨0, 30, 4, 2, 0⟩]

/-- Default tractor-trailer (tt2d.py:49-56), both shields on. -/
noncomputable def tt : TT2d :=
  { toParams := params, x0 := ⟨0, 0, 0, 0⟩, xg := ⟨9, 0, 0, 0⟩ }

/-- Default bicycle (kinematic_bicycle2d.py:30-38). -/
noncomputable def bike : Bicycle :=
  { toParams := params, x0 := ⟨0, 0, 0⟩, xg := ⟨9, 0, 0⟩ }

/-- Default two-trailer train (n_trailer2d.py:18-49). -/
noncomputable def train : NTrailer :=
  { toParams := params, N := 2, lengths := [2.9, 2.9], fronts := [1.42, 1.42],
    rears := [1.848, 3.225], x0 := ⟨0, 0, 0, [0, 0]⟩, xg := ⟨9, 0, 0, [0, 0]⟩ }

/-- Default acceleration-controlled robot (acc_tt2d.py:26-44), standing. -/
noncomputable def acc : Acc :=
  { toParams := params, aMax := 2, omegaMax := 1, x0 := ⟨0, 0, 0, 0, 0, 0⟩,
    xg := ⟨9, 0, 0, 0, 0, 0⟩ }

theorem box_clear_pole {a hl hw : ℝ} (h1 : 0 ≤ hl) (h2 : 0 ≤ hw) (h : a + hl < 19) :
    ¬ rectCircle (boxCorners (a, 0) 0 hl hw) (20, 0) 1 := by
  intro hc
  obtain ⟨p, ⟨s, t, hs, ht, he, rfl⟩, hd⟩ := rectCircle_sound _ _ h1 h2 _ _ hc
  have hd' : (a + s - 20) ^ 2 + t ^ 2 ≤ 1 := by simpa [Spec.disc, Spec.frame] using hd
  have := (abs_le.mp hs).2
  nlinarith [sq_nonneg t]

theorem box_clear_block {a hl hw : ℝ} (h1 : 0 < hl) (h2 : 0 < hw) (h : hw < 29) :
    ¬ rectRect (boxCorners (a, 0) 0 hl hw) (Rect.corners ⟨0, 30, 4, 2, 0⟩) := by
  unfold Rect.corners
  rw [rectRect_iff_intersect _ _ _ _ h1 h2 (by norm_num) (by norm_num)]
  rintro ⟨p, ⟨s, t, hs, ht, rfl⟩, ⟨s', t', hs', ht', e⟩⟩
  have e2 := congrArg Prod.snd e
  simp [Spec.frame] at e2
  have a1 := (abs_le.mp ht).2
  have a2 := (abs_le.mp ht').1
  norm_num at a2
  linarith

theorem tractor : params.tractorCorners 0 0 0 = boxCorners (1.141, 0) 0 2.989 1 := by
  unfold Params.tractorCorners params Params.default
  norm_num

theorem trailer : TT2d.trailerCorners params ⟨0, 0, 0, 0⟩ = boxCorners (-4.9525, 0) 0 2.3225 1.25 := by
  unfold TT2d.trailerCorners TT2d.hitchPoint params Params.default
  norm_num

theorem tt_clear : ¬ TT2d.checkObstacle tt.toParams tt.x0 := by
  unfold TT2d.checkObstacle
  simp only [tt, tractor, trailer]
  simp only [params, Params.default, List.mem_singleton, exists_eq_left]
  rintro ((h | h) | (h | h))
  · exact box_clear_pole (by norm_num) (by norm_num) (by norm_num) h
  · exact box_clear_pole (by norm_num) (by norm_num) (by norm_num) h
  · exact box_clear_block (by norm_num) (by norm_num) (by norm_num) h
  · exact box_clear_block (by norm_num) (by norm_num) (by norm_num) h

theorem phiMax_nonneg : 0 ≤ params.phiMax := by
  unfold Params.phiMax deg2rad
  have := pi_pos
  positivity

theorem tt_straight : ¬ TT2d.checkHitch tt.toParams tt.x0 := by
  unfold TT2d.checkHitch
  simp only [tt, sub_zero, wrapPi_zero, abs_zero, gt_iff_lt, not_lt]
  exact phiMax_nonneg

theorem bike_clear : ¬ Bicycle.checkObstacle bike.toParams bike.x0 := by
  unfold Bicycle.checkObstacle
  simp only [bike, tractor]
  simp only [params, Params.default, List.mem_singleton, exists_eq_left]
  rintro (h | h)
  · exact box_clear_pole (by norm_num) (by norm_num) (by norm_num) h
  · exact box_clear_block (by norm_num) (by norm_num) (by norm_num) h

theorem acc_clear : ¬ acc.checkObstacle acc.x0 := tt_clear

theorem acc_straight : ¬ acc.checkHitch acc.x0 := tt_straight

theorem train_corners : train.allTrailerCorners train.x0 =
    [boxCorners (-4.264, 0) 0 1.634 1.25, boxCorners (-10.8505, 0) 0 2.3225 1.25] := by
  unfold NTrailer.allTrailerCorners train
  simp only [List.range_succ, List.range_zero, List.nil_append, List.cons_append, List.map_cons,
    List.map_nil, NTrailer.trailerCorners, NTrailer.rectHitch, NTrailer.hitch0, NTrailer.theta,
    NTrailer.slice, clampGet]
  norm_num [params, Params.default]

theorem train_clear : ¬ train.checkObstacle train.x0 := by
  have ht : train.toParams.tractorCorners train.x0.px train.x0.py train.x0.th0 =
    boxCorners (1.141, 0) 0 2.989 1 := tractor
  unfold NTrailer.checkObstacle
  simp only [train_corners, ht]
  simp only [train, params, Params.default, List.mem_cons, List.not_mem_nil, or_false,
    exists_eq_left, exists_eq_or_imp]
  rintro ((h | h | h) | (h | h | h))
  · exact box_clear_pole (by norm_num) (by norm_num) (by norm_num) h
  · exact box_clear_pole (by norm_num) (by norm_num) (by norm_num) h
  · exact box_clear_pole (by norm_num) (by norm_num) (by norm_num) h
  · exact box_clear_block (by norm_num) (by norm_num) (by norm_num) h
  · exact box_clear_block (by norm_num) (by norm_num) (by norm_num) h
  · exact box_clear_block (by norm_num) (by norm_num) (by norm_num) h

theorem train_straight : ¬ train.checkHitch train.x0 := by
  have := phiMax_nonneg
  unfold NTrailer.checkHitch NTrailer.slice
  simp only [train, List.take_succ_cons, List.take_zero, List.headD_cons, List.tail_cons,
    NTrailer.hitchScan, sub_zero, wrapPi_zero, abs_zero, gt_iff_lt, or_self, not_lt]
  exact this

theorem sides : Spec.SidesOK params := by
  constructor <;> norm_num [params, Params.default]

/-- No body of the default robot touches the pole or the box. -/
theorem safe : Spec.SafeTT tt.toParams tt.x0 := by
  have key : ∀ a rear front width : ℝ, a + front < 19 →
      Spec.Apart (Spec.body (a, 0) 0 rear front width) (Spec.circleRegion ⟨20, 0, 1⟩) := by
    rintro a rear front width h p ⟨s, t, h1, h2, h3, rfl⟩ hd
    have hd' : (a + s - 20) ^ 2 + t ^ 2 ≤ 1 := by
      simpa [Spec.circleRegion, Spec.disc, Spec.frame] using hd
    nlinarith [sq_nonneg t]
  have key2 : ∀ a rear front width : ℝ, width < 29 →
      Spec.Apart (Spec.body (a, 0) 0 rear front width) (Spec.rectRegion ⟨0, 30, 4, 2, 0⟩) := by
    rintro a rear front width h p ⟨s, t, h1, h2, h3, rfl⟩ ⟨s', t', h4, h5, e⟩
    have e2 := congrArg Prod.snd e
    simp [Spec.frame] at e2
    have a1 := (abs_le.mp h3).2
    have a3 := abs_nonneg t
    have a2 := (abs_le.mp h5).1
    norm_num at a2
    linarith
  have ax : Spec.trailerAxle params ⟨0, 0, 0, 0⟩ = (-4.05, 0) := by
    unfold Spec.trailerAxle Spec.frame
    simp [params, Params.default]; norm_num
  refine ⟨?_, ?_⟩
  · intro c hc
    simp only [tt, params, Params.default, List.mem_singleton] at hc
    subst hc
    constructor
    · exact key _ _ _ _ (by norm_num [tt, params, Params.default])
    · unfold Spec.trailerBody
      simp only [tt]
      rw [ax]
      exact key _ _ _ _ (by norm_num [params, Params.default])
  · intro o ho
    simp only [tt, params, Params.default, List.mem_singleton] at ho
    subst ho
    constructor
    · exact key2 _ _ _ _ (by norm_num [tt, params, Params.default])
    · unfold Spec.trailerBody
      simp only [tt]
      rw [ax]
      exact key2 _ _ _ _ (by norm_num [params, Params.default])

theorem vMax_nonneg : 0 ≤ params.vMax := by norm_num [params, Params.default]

theorem dt_nonneg : 0 ≤ params.dt := by norm_num [params, Params.default]

end Wit

end Mbd
