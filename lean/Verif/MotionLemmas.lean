import Verif.CircleLemmas
import Verif.SpecVehicle
import Mathlib.Analysis.SpecialFunctions.Trigonometric.Bounds
import Mathlib.Analysis.SpecialFunctions.Trigonometric.Arctan
import Mathlib.Analysis.Complex.Trigonometric

/-! # How far bodies move in one step -/

namespace Mbd

open Real

/-- Planar points as complex numbers. -/
def toC (p : V2) : ℂ := ⟨p.1, p.2⟩

/-- Unit heading vector as a complex number. -/
noncomputable def hd (a : ℝ) : ℂ := ⟨cos a, sin a⟩

theorem dist_eq (a b : V2) : Spec.dist a b = ‖toC a - toC b‖ := by
  unfold Spec.dist toC
  rw [Complex.norm_eq_sqrt_sq_add_sq]
  simp

theorem toC_frame (c : V2) (ang s t : ℝ) :
    toC (Spec.frame c ang s t) = toC c + ⟨s, t⟩ * hd ang := by
  unfold toC Spec.frame hd
  apply Complex.ext <;> simp <;> ring

theorem norm_hd (a : ℝ) : ‖hd a‖ = 1 := by
  unfold hd
  rw [Complex.norm_eq_sqrt_sq_add_sq]
  simp only
  rw [cos_sq_add_sin_sq, sqrt_one]

theorem hd_add (a b : ℝ) : hd (a + b) = hd a * hd b := by
  unfold hd
  apply Complex.ext <;> simp [cos_add, sin_add] <;> ring

theorem norm_le_abs_add (x y : ℝ) : ‖(⟨x, y⟩ : ℂ)‖ ≤ |x| + |y| := by
  rw [Complex.norm_eq_sqrt_sq_add_sq]
  apply sqrt_le_iff.mpr
  constructor
  · positivity
  · simp only
    nlinarith [sq_abs x, sq_abs y, mul_nonneg (abs_nonneg x) (abs_nonneg y)]

theorem norm_hd_sub_one (d : ℝ) : ‖hd d - 1‖ ≤ |d| := by
  unfold hd
  rw [Complex.norm_eq_sqrt_sq_add_sq]
  apply sqrt_le_iff.mpr
  refine ⟨abs_nonneg d, ?_⟩
  simp only [Complex.sub_re, Complex.sub_im, Complex.one_re, Complex.one_im, sub_zero]
  have h := cos_sq_add_sin_sq d
  have h2 := one_sub_sq_div_two_le_cos (x := d)
  rw [sq_abs]
  nlinarith

theorem norm_hd_sub (a b : ℝ) : ‖hd b - hd a‖ ≤ |b - a| := by
  have : hd b - hd a = hd a * (hd (b - a) - 1) := by
    rw [mul_sub, ← hd_add, mul_one]; ring_nf
  rw [this, norm_mul, norm_hd, one_mul]
  exact norm_hd_sub_one _

/-- Second-order remainder of a rotation. -/
theorem norm_hd_rem (d : ℝ) : ‖hd d - 1 - ⟨0, d⟩‖ ≤ |d| ^ 2 / 2 + |d| ^ 3 / 6 := by
  have e : hd d - 1 - ⟨0, d⟩ = ⟨cos d - 1, sin d - d⟩ := by
    unfold hd; apply Complex.ext <;> simp
  rw [e]
  refine (norm_le_abs_add _ _).trans (add_le_add ?_ ?_)
  · rw [abs_of_nonpos (by linarith [cos_le_one d]), sq_abs]
    linarith [one_sub_sq_div_two_le_cos (x := d)]
  · rw [abs_sub_comm]; exact abs_sub_sin_le d

/-- A point fixed in a moving frame. -/
theorem frame_shift (c c' : V2) (a a' s t : ℝ) :
    Spec.dist (Spec.frame c' a' s t) (Spec.frame c a s t) ≤
      Spec.dist c' c + (|s| + |t|) * |a' - a| := by
  rw [dist_eq, dist_eq, toC_frame, toC_frame]
  have : toC c' + ⟨s, t⟩ * hd a' - (toC c + ⟨s, t⟩ * hd a)
      = (toC c' - toC c) + ⟨s, t⟩ * (hd a' - hd a) := by ring
  rw [this]
  refine (norm_add_le _ _).trans (add_le_add le_rfl ?_)
  rw [norm_mul]
  exact mul_le_mul (norm_le_abs_add _ _) (norm_hd_sub a a') (norm_nonneg _) (by positivity)

theorem dist_comm' (a b : V2) : Spec.dist a b = Spec.dist b a := by
  rw [dist_eq, dist_eq, norm_sub_rev]

/-- If a disc avoids a body and lies inside it after the body has moved, then some point of the
body, at least `r` inside, has moved more than `2r`. -/
theorem tunnel_needs_shift {c c' o : V2} {a a' hl hw r : ℝ} (hr : 0 ≤ r)
    (hbefore : Spec.Apart (Spec.solidRect c a hl hw) (Spec.disc o r))
    (hafter : Spec.disc o r ⊆ Spec.solidRect c' a' hl hw) :
    ∃ s t, |s| + r ≤ hl ∧ |t| + r ≤ hw ∧
      2 * r < Spec.dist (Spec.frame c' a' s t) (Spec.frame c a s t) := by
  obtain ⟨s, t, rfl⟩ := exists_frame c' a' o
  have inside : ∀ x y, (x - s) ^ 2 + (y - t) ^ 2 ≤ r ^ 2 → |x| ≤ hl ∧ |y| ≤ hw := by
    intro x y h
    obtain ⟨x', y', h1, h2, e⟩ := hafter ((frame_disc_iff c' a' s t x y r).mpr h)
    obtain ⟨rfl, rfl⟩ := frame_inj e
    exact ⟨h1, h2⟩
  have hs : |s| + r ≤ hl := by
    rcases abs_cases s with ⟨e, _⟩ | ⟨e, _⟩
    · have := (inside (s + r) t (by ring_nf; rfl)).1
      rw [abs_le] at this; linarith
    · have := (inside (s - r) t (by ring_nf; rfl)).1
      rw [abs_le] at this; linarith
  have ht : |t| + r ≤ hw := by
    rcases abs_cases t with ⟨e, _⟩ | ⟨e, _⟩
    · have := (inside s (t + r) (by ring_nf; rfl)).2
      rw [abs_le] at this; linarith
    · have := (inside s (t - r) (by ring_nf; rfl)).2
      rw [abs_le] at this; linarith
  refine ⟨s, t, hs, ht, ?_⟩
  by_contra hcon
  rw [not_lt] at hcon
  set p := Spec.frame c' a' s t with hp
  set q := Spec.frame c a s t with hq
  -- midpoint
  let m : V2 := ((p.1 + q.1) / 2, (p.2 + q.2) / 2)
  have hd2 : (p.1 - q.1) ^ 2 + (p.2 - q.2) ^ 2 ≤ (2 * r) ^ 2 := by
    unfold Spec.dist at hcon
    exact (sqrt_le_left (by linarith)).mp hcon
  have m1 : m ∈ Spec.disc p r := by
    show ((p.1 + q.1) / 2 - p.1) ^ 2 + ((p.2 + q.2) / 2 - p.2) ^ 2 ≤ r ^ 2
    nlinarith
  have m2 : m ∈ Spec.disc q r := by
    show ((p.1 + q.1) / 2 - q.1) ^ 2 + ((p.2 + q.2) / 2 - q.2) ^ 2 ≤ r ^ 2
    nlinarith
  refine hbefore m ?_ m1
  obtain ⟨x, y, hm⟩ := exists_frame c a m
  rw [hm, hq, frame_disc_iff] at m2
  have gx : |x - s| ≤ r := abs_le_of_sq_le_sq (by nlinarith [sq_nonneg (y - t)]) hr
  have gy : |y - t| ≤ r := abs_le_of_sq_le_sq (by nlinarith [sq_nonneg (x - s)]) hr
  refine ⟨x, y, ?_, ?_, hm⟩
  · calc |x| = |(x - s) + s| := by rw [sub_add_cancel]
      _ ≤ |x - s| + |s| := abs_add_le _ _
      _ ≤ hl := by linarith
  · calc |y| = |(y - t) + t| := by rw [sub_add_cancel]
      _ ≤ |y - t| + |t| := abs_add_le _ _
      _ ≤ hw := by linarith

/-- `|tan δ| ≤ tan δ_max` for steering angles within limits. -/
theorem abs_tan_le {u D : ℝ} (hu : |u| ≤ 1) (h0 : 0 ≤ D) (h1 : D < π / 2) :
    |tan (u * D)| ≤ tan D := by
  have hb : |u * D| ≤ D := by
    rw [abs_mul, abs_of_nonneg h0]; nlinarith [abs_nonneg u]
  obtain ⟨b1, b2⟩ := abs_le.mp hb
  have mono : ∀ x y : ℝ, -(π / 2) < x → y < π / 2 → x ≤ y → tan x ≤ tan y := by
    intro x y hx hy hxy
    rcases eq_or_lt_of_le hxy with rfl | h
    · exact le_rfl
    · exact (tan_lt_tan_of_lt_of_lt_pi_div_two hx hy h).le
  rw [abs_le]
  constructor
  · rw [← tan_neg]; exact mono _ _ (by linarith) (by linarith) b1
  · exact mono _ _ (by linarith) h1 b2

/-- Bounds needed by the displacement lemmas. -/
structure DriveOK (P : Params) : Prop where
  v : 0 ≤ P.vMax
  dt : 0 ≤ P.dt
  l1 : 0 < P.l1
  l2 : 0 < P.l2
  lh : 0 ≤ P.lh
  d0 : 0 ≤ P.deltaMaxDeg
  d1 : P.deltaMaxDeg < 90

theorem DriveOK.steer {P : Params} (h : DriveOK P) :
    0 ≤ P.deltaMaxDeg * π / 180 ∧ P.deltaMaxDeg * π / 180 < π / 2 := by
  have hp := pi_pos
  constructor
  · have := h.d0; positivity
  · have := h.d1; nlinarith

theorem DriveOK.tan_nonneg {P : Params} (h : DriveOK P) : 0 ≤ tan (P.deltaMaxDeg * π / 180) :=
  tan_nonneg_of_nonneg_of_le_pi_div_two h.steer.1 h.steer.2.le

/-- `|u.1 * vMax| * dt ≤ vMax * dt`. -/
theorem travel_le {P : Params} (h : DriveOK P) {u : U} (hu : Spec.InBox u) :
    |P.dt * (u.1 * P.vMax)| ≤ P.vMax * P.dt := by
  rw [abs_mul, abs_mul, abs_of_nonneg h.dt, abs_of_nonneg h.v]
  have h1 := hu.1
  have h2 := mul_nonneg h.v h.dt
  nlinarith [abs_nonneg u.1]

/-- Heading change of the tractor in one step. -/
theorem dth1_le {P : Params} (h : DriveOK P) {u : U} (hu : Spec.InBox u) :
    |P.dt * (u.1 * P.vMax / P.l1 * tan (u.2 * (P.deltaMaxDeg * π / 180)))| ≤
      P.vMax * P.dt * tan (P.deltaMaxDeg * π / 180) / P.l1 := by
  have e : P.dt * (u.1 * P.vMax / P.l1 * tan (u.2 * (P.deltaMaxDeg * π / 180)))
      = (P.dt * (u.1 * P.vMax)) * tan (u.2 * (P.deltaMaxDeg * π / 180)) / P.l1 := by ring
  rw [e, abs_div, abs_of_pos h.l1, abs_mul]
  apply div_le_div_of_nonneg_right _ h.l1.le
  apply mul_le_mul (travel_le h hu) (abs_tan_le hu.2 h.steer.1 h.steer.2) (abs_nonneg _)
  exact mul_nonneg h.v h.dt

/-- Displacement of the tractor reference point. -/
theorem ref_shift {P : Params} (h : DriveOK P) {u : U} (hu : Spec.InBox u) (px py th : ℝ) :
    Spec.dist (px + P.dt * (u.1 * P.vMax * cos th), py + P.dt * (u.1 * P.vMax * sin th)) (px, py)
      ≤ P.vMax * P.dt := by
  unfold Spec.dist
  simp only
  rw [show (px + P.dt * (u.1 * P.vMax * cos th) - px) ^ 2
      + (py + P.dt * (u.1 * P.vMax * sin th) - py) ^ 2
      = (P.dt * (u.1 * P.vMax)) ^ 2 * (cos th ^ 2 + sin th ^ 2) by ring, cos_sq_add_sin_sq, mul_one,
    sqrt_sq_eq_abs]
  exact travel_le h hu

/-- Material points of the tractor at least `r` inside the body move at most `tractorShift`. -/
theorem tractor_point_shift {P : Params} (h : DriveOK P) {u : U} (hu : Spec.InBox u)
    {px py th r s t : ℝ} (hs1 : -P.lr + r ≤ s) (hs2 : s ≤ P.l1 + P.lf1 - r)
    (ht : |t| + r ≤ P.tractorWidth / 2) :
    Spec.dist
      (Spec.frame (px + P.dt * (u.1 * P.vMax * cos th), py + P.dt * (u.1 * P.vMax * sin th))
        (th + P.dt * (u.1 * P.vMax / P.l1 * tan (u.2 * (P.deltaMaxDeg * π / 180)))) s t)
      (Spec.frame (px, py) th s t) ≤ Spec.tractorShift P r := by
  refine (frame_shift _ _ _ _ _ _).trans ?_
  unfold Spec.tractorShift
  simp only
  refine add_le_add (ref_shift h hu px py th) ?_
  rw [add_sub_cancel_left]
  have hs : |s| ≤ max P.lr (P.l1 + P.lf1) - r := by
    rw [abs_le]
    constructor
    · linarith [le_max_left P.lr (P.l1 + P.lf1)]
    · linarith [le_max_right P.lr (P.l1 + P.lf1)]
  exact mul_le_mul (by linarith) (dth1_le h hu) (abs_nonneg _)
    (by linarith [abs_nonneg s, abs_nonneg t])

/-- `|sin φ - k cos φ| ≤ √(1+k²)` and `|cos φ + k sin φ| ≤ √(1+k²)`. -/
theorem trig_combo (k φ : ℝ) : |sin φ - k * cos φ| ≤ √(1 + k ^ 2) ∧
    |cos φ + k * sin φ| ≤ √(1 + k ^ 2) := by
  have h := cos_sq_add_sin_sq φ
  constructor <;> apply abs_le_sqrt
  · nlinarith [sq_nonneg (cos φ + k * sin φ)]
  · nlinarith [sq_nonneg (sin φ - k * cos φ)]

theorem kappa_mono {P : Params} (h : DriveOK P) {u : U} (hu : Spec.InBox u) :
    √(1 + (P.lh / P.l1 * tan (u.2 * (P.deltaMaxDeg * π / 180))) ^ 2) ≤
      √(1 + (P.lh * tan (P.deltaMaxDeg * π / 180) / P.l1) ^ 2) := by
  apply sqrt_le_sqrt
  have e : |P.lh / P.l1 * tan (u.2 * (P.deltaMaxDeg * π / 180))|
      ≤ P.lh * tan (P.deltaMaxDeg * π / 180) / P.l1 := by
    rw [abs_mul, abs_of_nonneg (div_nonneg h.lh h.l1.le), div_mul_eq_mul_div]
    apply div_le_div_of_nonneg_right _ h.l1.le
    exact mul_le_mul_of_nonneg_left (abs_tan_le hu.2 h.steer.1 h.steer.2) h.lh
  have := sq_le_sq' (by linarith [abs_nonneg (P.lh / P.l1 * tan (u.2 * (P.deltaMaxDeg * π / 180)))])
    e
  rw [sq_abs] at this
  linarith

/-- Heading change of the trailer in one step. -/
theorem dth2_le {P : Params} (h : DriveOK P) {u : U} (hu : Spec.InBox u) (φ : ℝ) :
    |P.dt * (u.1 * P.vMax / P.l2 * (sin φ - P.lh / P.l1 * cos φ *
      tan (u.2 * (P.deltaMaxDeg * π / 180))))| ≤
      P.vMax * P.dt * √(1 + (P.lh * tan (P.deltaMaxDeg * π / 180) / P.l1) ^ 2) / P.l2 := by
  have e : P.dt * (u.1 * P.vMax / P.l2 * (sin φ - P.lh / P.l1 * cos φ *
      tan (u.2 * (P.deltaMaxDeg * π / 180))))
      = (P.dt * (u.1 * P.vMax)) * (sin φ - (P.lh / P.l1 * tan (u.2 * (P.deltaMaxDeg * π / 180)))
        * cos φ) / P.l2 := by ring
  rw [e, abs_div, abs_of_pos h.l2, abs_mul]
  apply div_le_div_of_nonneg_right _ h.l2.le
  apply mul_le_mul (travel_le h hu) _ (abs_nonneg _) (mul_nonneg h.v h.dt)
  exact (trig_combo _ φ).1.trans (kappa_mono h hu)

theorem cube_mono {x y : ℝ} (hx : 0 ≤ x) (h : x ≤ y) : x ^ 2 / 2 + x ^ 3 / 6 ≤ y ^ 2 / 2 + y ^ 3 / 6 := by
  have h2 : x ^ 2 ≤ y ^ 2 := pow_le_pow_left₀ hx h 2
  have h3 : x ^ 3 ≤ y ^ 3 := pow_le_pow_left₀ hx h 3
  linarith

/-- Displacement of the trailer axle in one Euler step. -/
theorem axle_shift {P : Params} (h : DriveOK P) {u : U} (hu : Spec.InBox u) {q q' : Q4}
    (hq : Spec.EulerTT P q u q') :
    Spec.dist (Spec.trailerAxle P q') (Spec.trailerAxle P q) ≤
      P.vMax * P.dt * √(1 + (P.lh * tan (P.deltaMaxDeg * π / 180) / P.l1) ^ 2)
      + P.lh * ((P.vMax * P.dt * tan (P.deltaMaxDeg * π / 180) / P.l1) ^ 2 / 2
        + (P.vMax * P.dt * tan (P.deltaMaxDeg * π / 180) / P.l1) ^ 3 / 6)
      + P.l2 * ((P.vMax * P.dt * √(1 + (P.lh * tan (P.deltaMaxDeg * π / 180) / P.l1) ^ 2) / P.l2)
          ^ 2 / 2
        + (P.vMax * P.dt * √(1 + (P.lh * tan (P.deltaMaxDeg * π / 180) / P.l1) ^ 2) / P.l2)
          ^ 3 / 6) := by
  obtain ⟨e1, e2, e3, e4⟩ := hq
  set w := P.dt * (u.1 * P.vMax) with hw
  set tn := tan (u.2 * (P.deltaMaxDeg * π / 180)) with htn
  set φ := q.th1 - q.th2 with hφ
  set d1 := P.dt * (u.1 * P.vMax / P.l1 * tn) with hd1
  set d2 := P.dt * (u.1 * P.vMax / P.l2 * (sin φ - P.lh / P.l1 * cos φ * tn)) with hd2
  have b1 := dth1_le h hu
  have b2 := dth2_le h hu φ
  have b0 := travel_le h hu
  rw [← htn, ← hd1] at b1
  rw [← htn, ← hd2] at b2
  rw [← hw] at b0
  have hw1 : d1 = w * tn / P.l1 := by rw [hd1, hw]; ring
  have hw2 : P.l2 * d2 = w * sin φ - P.lh * d1 * cos φ := by
    have := h.l2.ne'
    have := h.l1.ne'
    rw [hw1, hd2, hw]; field_simp
  -- complex form
  have ax : ∀ x : Q4, toC (Spec.trailerAxle P x)
      = toC (x.px, x.py) - P.lh * hd x.th1 - P.l2 * hd x.th2 := by
    intro x
    unfold Spec.trailerAxle
    rw [toC_frame, toC_frame]
    have r1 : (⟨-P.lh, 0⟩ : ℂ) = -(P.lh : ℂ) := by apply Complex.ext <;> simp
    have r2 : (⟨-P.l2, 0⟩ : ℂ) = -(P.l2 : ℂ) := by apply Complex.ext <;> simp
    rw [r1, r2]; ring
  have hp : toC (q'.px, q'.py) - toC (q.px, q.py) = w * hd q.th1 := by
    unfold toC hd
    rw [e1, e2, hw]
    apply Complex.ext <;> simp <;> ring
  have rot : ∀ a d : ℝ, hd (a + d) - hd a = hd a * ⟨0, d⟩ + hd a * (hd d - 1 - ⟨0, d⟩) := by
    intro a d; rw [hd_add]; ring
  have main : toC (Spec.trailerAxle P q') - toC (Spec.trailerAxle P q)
      = hd q.th2 * ((w * cos φ + P.lh * d1 * sin φ : ℝ) : ℂ)
        - P.lh * (hd q.th1 * (hd d1 - 1 - ⟨0, d1⟩)) - P.l2 * (hd q.th2 * (hd d2 - 1 - ⟨0, d2⟩)) := by
    have h1 : q.th1 = q.th2 + φ := by rw [hφ]; ring
    have first : w * hd q.th1 - P.lh * (hd q.th1 * ⟨0, d1⟩) - P.l2 * (hd q.th2 * ⟨0, d2⟩)
        = hd q.th2 * ((w * cos φ + P.lh * d1 * sin φ : ℝ) : ℂ) := by
      rw [h1, hd_add]
      have z : (w : ℂ) * hd φ - P.lh * (hd φ * ⟨0, d1⟩) - P.l2 * ⟨0, d2⟩
          = ((w * cos φ + P.lh * d1 * sin φ : ℝ) : ℂ) := by
        unfold hd
        apply Complex.ext
        · rw [Complex.ofReal_re]; simp; ring
        · rw [Complex.ofReal_im]; simp
          linear_combination -hw2
      calc (w : ℂ) * (hd q.th2 * hd φ) - P.lh * (hd q.th2 * hd φ * ⟨0, d1⟩)
            - P.l2 * (hd q.th2 * ⟨0, d2⟩)
          = hd q.th2 * ((w : ℂ) * hd φ - P.lh * (hd φ * ⟨0, d1⟩) - P.l2 * ⟨0, d2⟩) := by ring
        _ = _ := by rw [z]
    rw [ax, ax, e3, e4, ← first]
    have r1 := rot q.th1 d1
    have r2 := rot q.th2 d2
    linear_combination hp - (P.lh : ℂ) * r1 - (P.l2 : ℂ) * r2
  rw [dist_eq, main]
  refine (norm_sub_le _ _).trans (add_le_add ((norm_sub_le _ _).trans (add_le_add ?_ ?_)) ?_)
  · rw [norm_mul, norm_hd, one_mul, Complex.norm_real, norm_eq_abs]
    have e : w * cos φ + P.lh * d1 * sin φ = w * (cos φ + (P.lh / P.l1 * tn) * sin φ) := by
      rw [hw1]; ring
    rw [e, abs_mul]
    apply mul_le_mul b0 _ (abs_nonneg _) (mul_nonneg h.v h.dt)
    exact (trig_combo _ φ).2.trans (kappa_mono h hu)
  · rw [norm_mul, norm_mul, norm_hd, one_mul, Complex.norm_real, norm_eq_abs, abs_of_nonneg h.lh]
    apply mul_le_mul_of_nonneg_left _ h.lh
    exact (norm_hd_rem d1).trans (cube_mono (abs_nonneg _) b1)
  · rw [norm_mul, norm_mul, norm_hd, one_mul, Complex.norm_real, norm_eq_abs,
      abs_of_nonneg h.l2.le]
    apply mul_le_mul_of_nonneg_left _ h.l2.le
    exact (norm_hd_rem d2).trans (cube_mono (abs_nonneg _) b2)

/-- Material points of the trailer at least `r` inside the body move at most `trailerShift`. -/
theorem trailer_point_shift {P : Params} (h : DriveOK P) {u : U} (hu : Spec.InBox u) {q q' : Q4}
    (hq : Spec.EulerTT P q u q') {r s t : ℝ} (hs1 : -P.lr2 + r ≤ s) (hs2 : s ≤ P.lf2 - r)
    (ht : |t| + r ≤ P.trailerWidth / 2) :
    Spec.dist (Spec.frame (Spec.trailerAxle P q') q'.th2 s t)
      (Spec.frame (Spec.trailerAxle P q) q.th2 s t) ≤ Spec.trailerShift P r := by
  refine (frame_shift _ _ _ _ _ _).trans ?_
  unfold Spec.trailerShift
  simp only
  refine add_le_add (axle_shift h hu hq) ?_
  obtain ⟨-, -, -, e4⟩ := hq
  rw [e4, add_sub_cancel_left]
  have hs : |s| ≤ max P.lr2 P.lf2 - r := by
    rw [abs_le]
    constructor
    · linarith [le_max_left P.lr2 P.lf2]
    · linarith [le_max_right P.lr2 P.lf2]
  exact mul_le_mul (by linarith) (dth2_le h hu _) (abs_nonneg _)
    (by linarith [abs_nonneg s, abs_nonneg t])

end Mbd
