import Verif.PropsSafe
import Verif.PropsEnv
import Verif.PropsSetup

/-!
# C84: the bounds of the environment

`is_in_bounds` describes the environment's rectangle; the parking lot and the default start lie in
it; no step keeps the vehicle in it.
-/

namespace Mbd

open Real Classical _root_.Spec

/-- C84: a fresh environment of any case accepts exactly the points of the upright rectangle of the
given width and height centred at the origin. -/
theorem C84_fresh {w h : ℝ} {case : String} {pc : Option ParkingConfig} {e : Env}
    (he : Env.new w h case pc = .ok e) (x y : ℝ) :
    e.inBounds x y ↔ (x, y) ∈ Spec.solidRect (0, 0) 0 (w / 2) (h / 2) := by
  have hr : e.xRange = (-w / 2, w / 2) ∧ e.yRange = (-h / 2, h / 2) := by
    unfold Env.new at he
    simp only at he
    split at he
    · cases he
    · rename_i e' hb
      split_ifs at hb
      · cases hb
        injection he with he
        subst he
        split_ifs <;> exact ⟨rfl, rfl⟩
      · cases hb
        injection he with he
        subst he
        split_ifs <;> exact ⟨rfl, rfl⟩
  unfold Env.inBounds
  rw [hr.1, hr.2]
  constructor
  · rintro ⟨h1, h2, h3, h4⟩
    refine ⟨x, y, abs_le.mpr ⟨by simp only at h1; linarith, h2⟩,
      abs_le.mpr ⟨by simp only at h3; linarith, h4⟩, ?_⟩
    simp [Spec.frame]
  · rintro ⟨s, t, hs, ht, e⟩
    simp only [Spec.frame, cos_zero, sin_zero, Prod.mk.injEq] at e
    obtain ⟨h1, h2⟩ := abs_le.mp hs
    obtain ⟨h3, h4⟩ := abs_le.mp ht
    refine ⟨?_, ?_, ?_, ?_⟩ <;> simp only <;> linarith [e.1, e.2]

/-- The upper right corner belongs to the default environment, a point beyond it does not. -/
example : ∃ e, Env.new 32 32 "navigation" none = .ok e ∧ e.inBounds 16 16 ∧ ¬ e.inBounds 0 16.5 := by
  refine ⟨_, rfl, ?_, ?_⟩ <;> norm_num [Env.inBounds]

/-- C84: setting poses or obstacles, in any number and order and whether or not a call raises, leaves
the bounds as they are; `set_plot_limits` makes them exactly the given intervals. -/
theorem C84_calls (r : Robot) (calls : List Robot.Call) (xr yr : ℝ × ℝ) (x y : ℝ) :
    ((calls.foldl Robot.call r).env.inBounds x y ↔ r.env.inBounds x y) ∧
    ((r.env.setPlotLimits xr yr).inBounds x y ↔ x ∈ Set.Icc xr.1 xr.2 ∧ y ∈ Set.Icc yr.1 yr.2) := by
  have one : ∀ (r : Robot) (c : Robot.Call), (r.call c).env.xRange = r.env.xRange ∧
      (r.call c).env.yRange = r.env.yRange := by
    intro r c
    cases c with
    | init a => simp only [Robot.call, Robot.setInitPos]; split <;> exact ⟨rfl, rfl⟩
    | goal a => exact ⟨rfl, rfl⟩
    | rects o m p =>
      simp only [Robot.call, Robot.setRectangleObs, Env.setRectangleObs]
      cases Env.convertAll (Env.convertRect m p) o <;> exact ⟨rfl, rfl⟩
    | circles o p =>
      simp only [Robot.call, Robot.setCircleObs, Env.setCircleObs]
      cases Env.convertAll (Env.convertCircle p) o <;> exact ⟨rfl, rfl⟩
  have all : (calls.foldl Robot.call r).env.xRange = r.env.xRange ∧
      (calls.foldl Robot.call r).env.yRange = r.env.yRange := by
    induction calls generalizing r with
    | nil => exact ⟨rfl, rfl⟩
    | cons c l ih =>
      have := ih (r.call c)
      exact ⟨this.1.trans (one r c).1, this.2.trans (one r c).2⟩
  refine ⟨?_, ?_⟩
  · unfold Env.inBounds; rw [all.1, all.2]
  · unfold Env.inBounds Env.setPlotLimits
    simp only [Set.mem_Icc]
    tauto

/-- A history with a raising call, an obstacle and a goal. -/
example (r : Robot) (x y : ℝ) := C84_calls r
  [.rects [[1, 2, 3]] "center" 0, .circles [[1, 2, 3]] 0.5, .goal { x := some 3 }] (0, 1) (2, 3) x y

/-- C84: the default start of the parking case is in the bounds exactly when both sides of the
environment are at least 2. -/
theorem C84_start {w h : ℝ} {pc : Option ParkingConfig} {e : Env}
    (he : Env.new w h "parking" pc = .ok e) :
    ∃ x y t1 t2, e.getDefaultInitPos "parking" = .ok [x, y, t1, t2] ∧
      (e.inBounds x y ↔ 2 ≤ w ∧ 2 ≤ h) := by
  have hb := fun x y => C84_fresh he x y
  refine ⟨e.xRange.1 + 2, e.yRange.2 - 2, 0.1, 0.1, by simp [Env.getDefaultInitPos], ?_⟩
  have hr : e.xRange = (-w / 2, w / 2) ∧ e.yRange = (-h / 2, h / 2) := by
    simp only [Env.new, if_true] at he
    injection he with he
    subst he
    split_ifs <;> exact ⟨rfl, rfl⟩
  unfold Env.inBounds
  rw [hr.1, hr.2]
  simp only
  constructor
  · rintro ⟨h1, h2, h3, h4⟩
    exact ⟨by linarith, by linarith⟩
  · rintro ⟨h1, h2⟩
    refine ⟨?_, ?_, ?_, ?_⟩ <;> linarith

example : ∃ e, Env.new 32 32 "parking" none = .ok e := ⟨_, rfl⟩

/-- C84: if the lot is no wider than the environment and, with its offset, no deeper, then every point
of every space of the lot is in the bounds. -/
theorem C84_spaces {w h : ℝ} {c : ParkingConfig} {e : Env}
    (he : Env.new w h "parking" (some c) = .ok e) (hc : 0 < c.cols) (hsw : 0 ≤ c.spaceWidth)
    (hsl : 0 ≤ c.spaceLength) (hx : c.cols * c.spaceWidth ≤ w) (hy0 : 0 ≤ c.yOffset)
    (hy : c.yOffset + c.rows * c.spaceLength ≤ h) (n : ℤ) (h1 : 1 ≤ n) (h2 : n ≤ c.rows * c.cols) :
    ∃ p, e.getParkingSpaceCenter n = .ok p ∧ ∀ x y, |x - p.1| ≤ c.spaceWidth / 2 →
      |y - p.2| ≤ c.spaceLength / 2 → e.inBounds x y := by
  have hr : e.xRange = (-w / 2, w / 2) ∧ e.yRange = (-h / 2, h / 2) ∧ e.config = some c ∧
      e.case = "parking" := by
    simp only [Env.new, if_true] at he
    injection he with he
    subst he
    split_ifs <;> exact ⟨rfl, rfl, rfl, rfl⟩
  refine ⟨Env.spaceCenter e.yRange.1 c n, ?_, ?_⟩
  · unfold Env.getParkingSpaceCenter
    rw [hr.2.2.1]
    simp [hr.2.2.2]
  intro x y hxx hyy
  unfold Env.spaceCenter at hxx hyy
  unfold Env.inBounds
  rw [hr.2.1] at hxx hyy
  rw [hr.1, hr.2.1]
  simp only at hxx hyy ⊢
  set row := (n - 1).fdiv c.cols with hrow
  set col := (n - 1).fmod c.cols with hcol
  have hcol0 : 0 ≤ col := Int.fmod_nonneg (by omega) hc.le
  have hcol1 : col + 1 ≤ c.cols := by
    have := Int.fmod_lt_of_pos (n - 1) hc
    omega
  have hrow0 : 0 ≤ row := Int.fdiv_nonneg (by omega) hc.le
  have hrow1 : row + 1 ≤ c.rows := by
    have hd : c.cols * row + col = n - 1 := Int.mul_fdiv_add_fmod (n - 1) c.cols
    by_contra hlt
    have : c.rows ≤ row := by omega
    nlinarith
  have a0 : (0 : ℝ) ≤ col := by exact_mod_cast hcol0
  have a1 : (col : ℝ) + 1 ≤ c.cols := by exact_mod_cast hcol1
  have b0 : (0 : ℝ) ≤ row := by exact_mod_cast hrow0
  have b1 : (row : ℝ) + 1 ≤ c.rows := by exact_mod_cast hrow1
  have p1 := mul_nonneg a0 hsw
  have p2 := mul_le_mul_of_nonneg_right a1 hsw
  have p3 := mul_nonneg b0 hsl
  have p4 := mul_le_mul_of_nonneg_right b1 hsl
  obtain ⟨x1, x2⟩ := abs_le.mp hxx
  obtain ⟨y1, y2⟩ := abs_le.mp hyy
  refine ⟨?_, ?_, ?_, ?_⟩ <;> linarith

/-- The default lot in the default environment, last space. -/
example : ∃ e, Env.new 32 32 "parking" (some ParkingConfig.default) = .ok e ∧
    ∃ p, e.getParkingSpaceCenter 16 = .ok p ∧ ∀ x y, |x - p.1| ≤ 3.5 / 2 → |y - p.2| ≤ 7 / 2 →
      e.inBounds x y :=
  ⟨_, rfl, C84_spaces rfl (by norm_num [ParkingConfig.default]) (by norm_num [ParkingConfig.default])
    (by norm_num [ParkingConfig.default]) (by norm_num [ParkingConfig.default])
    (by norm_num [ParkingConfig.default]) (by norm_num [ParkingConfig.default]) 16 (by norm_num)
    (by norm_num [ParkingConfig.default])⟩

/-- Default vehicle in an empty map, close to the right border. -/
noncomputable def borderTT : TT2d :=
  { toParams := Params.default [] [], x0 := ⟨15.9, 0, 0, 0⟩, xg := ⟨0, 0, 0, 0⟩ }

theorem border_step (ext : Ext Q4) :
    (borderTT.step ext borderTT.reset (1, 0)).q = ⟨16.5, 0, 0, 0⟩ := by
  have hprop : borderTT.proposal borderTT.reset (1, 0) = ⟨16.5, 0, 0, 0⟩ := by
    unfold TT2d.proposal TT2d.euler Q4.axpy TT2d.dynamics Params.inputScaler
    have hc : clipU (1, 0) = (1, 0) := by
      unfold clipU
      rw [clip_of_mem (by norm_num) (by norm_num), clip_of_mem (by norm_num) (by norm_num)]
    simp only [TT2d.reset, effAction_false, hc]
    ext <;> simp [borderTT, Params.default]
    norm_num
  have hh : ¬ TT2d.checkHitch borderTT.toParams ⟨16.5, 0, 0, 0⟩ := by
    unfold TT2d.checkHitch
    simp only [sub_self, wrapPi_zero, abs_zero, gt_iff_lt, not_lt]
    unfold Params.phiMax deg2rad
    have := pi_pos
    positivity
  have ho : ¬ TT2d.checkObstacle borderTT.toParams ⟨16.5, 0, 0, 0⟩ := by
    unfold TT2d.checkObstacle
    simp [borderTT, Params.default]
  rw [TT2d.step_q _ ext rfl rfl, hprop, if_neg]
  unfold TT2d.rejects
  tauto

/-- C84, refuted: with both shields on, from a safe start inside the bounds of a map whose circles
were cleared, the vehicle can drive out of the environment: no step looks at the bounds. -/
theorem C84_kept_refuted :
    ¬ (∀ (e₀ e : Env) (T : TT2d) (ext : Ext Q4) (us : List U),
      Env.new 32 32 "navigation" none = .ok e₀ → e = (e₀.setCircleObs [] 0).1 →
      T.circles = e.circles → T.rects = e.rects →
      T.shieldCollision = true → T.shieldHitch = true → T.enableProjection = false →
      T.enableGuidance = false → Spec.SafeTT T.toParams T.reset.q →
      e.inBounds T.reset.q.px T.reset.q.py →
      ∀ s' ∈ scanStates (T.step ext) T.reset us, e.inBounds s'.q.px s'.q.py) := by
  intro H
  have := H _ _ borderTT ⟨fun _ u => u, id⟩ [(1, 0)] rfl rfl rfl rfl rfl rfl rfl rfl
    ⟨by simp [borderTT, Params.default], by simp [borderTT, Params.default]⟩
    (by norm_num [Env.inBounds, borderTT, TT2d.reset, Env.setCircleObs, Env.convertAll]) _
    (by simp [scanStates]; rfl)
  rw [border_step] at this
  norm_num [Env.inBounds, Env.setCircleObs, Env.convertAll] at this

end Mbd
