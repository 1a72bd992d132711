import Verif.Witness
import Verif.ProjLemmas
import Verif.PropsAcc
import Verif.NTrailer
import Mathlib.Analysis.Real.Pi.Bounds

/-!
# Projection of controls: C46
-/

namespace Mbd

open Real Classical

open Proj

/-! ## The constraint values are exact for the rectangles they are computed from -/

/-- C46, constraint for a circle: positive exactly if the disc misses the (solid) rectangle. -/
theorem C46_circle_value_exact (c : V2) (ang : ℝ) {hl hw : ℝ} (h1 : 0 ≤ hl) (h2 : 0 ≤ hw) (o : V2)
    {r : ℝ} (hr : 0 ≤ r) :
    0 < sdfBox o c (hl, hw) ang - r ↔
      Spec.Apart (Spec.solidRect c ang hl hw) (Spec.disc o r) := by
  rw [sub_pos, sdfBox_gt_iff c ang h1 h2 o hr]

example := C46_circle_value_exact (0, 0) 0.3 (hl := 2) (hw := 1) (by norm_num) (by norm_num) (5, 0) (r := 1)
  (by norm_num)

/-- C46, constraint for a rectangle: positive exactly if the two rectangles are disjoint. -/
theorem C46_rect_value_exact (c₁ c₂ : V2) (a₁ a₂ : ℝ) {l₁ w₁ l₂ w₂ : ℝ} (h1 : 0 < l₁)
    (h2 : 0 < w₁) (h3 : 0 < l₂) (h4 : 0 < w₂) :
    0 < gapBoxes c₁ (l₁, w₁) a₁ c₂ (l₂, w₂) a₂ ↔
      Spec.Apart (Spec.solidRect c₁ a₁ l₁ w₁) (Spec.solidRect c₂ a₂ l₂ w₂) :=
  gapBoxes_pos_iff c₁ c₂ a₁ a₂ h1 h2 h3 h4

example := C46_rect_value_exact (0, 0) (5, 0) 0.3 1 (l₁ := 2) (w₁ := 1) (l₂ := 1) (w₂ := 1) (by norm_num)
  (by norm_num) (by norm_num) (by norm_num)

/-- Both values occur with either sign. -/
example : 0 < sdfBox (5, 0) (0, 0) (1, 1) 0 - 1 ∧ ¬ 0 < sdfBox (0.5, 0) (0, 0) (1, 1) 0 - 0.1 := by
  constructor
  · have := (sdfBox_ge (0, 0) 0 5 0 1 1).1
    have e : Spec.frame (0, 0) 0 5 0 = ((5 : ℝ), (0 : ℝ)) := by unfold Spec.frame; simp
    rw [e] at this
    norm_num at this ⊢
    linarith
  · unfold sdfBox norm2 dot; norm_num

/-! ## Bicycle -/

/-- Shift between the predicted and the executed position of the bicycle is at most
`(v dt)² |tan δ| / (2 l1)`; the headings agree. -/
theorem rk4B_euler (P : Params) (hl : 0 < P.l1) (q : Q3) (u : U) :
    (rk4B P q u).th1 = (Bicycle.euler P q u).th1 ∧
    Spec.dist ((Bicycle.euler P q u).px, (Bicycle.euler P q u).py)
        ((rk4B P q u).px, (rk4B P q u).py) ≤ (u.1 * P.dt) ^ 2 * |tan u.2| / (2 * P.l1) := by
  constructor
  · simp only [rk4B, Bicycle.euler, Bicycle.dynamics, Q3.axpy]; ring
  · rw [dist_eq]
    set w := u.1 * P.dt with hw
    set Δ := P.dt * (u.1 / P.l1 * tan u.2) with hΔ
    have e : toC ((Bicycle.euler P q u).px, (Bicycle.euler P q u).py)
        - toC ((rk4B P q u).px, (rk4B P q u).py)
        = -((w : ℂ) * ((2 / 3 : ℝ) * (hd (q.th1 + Δ / 2) - hd q.th1)
            + (1 / 6 : ℝ) * (hd (q.th1 + Δ) - hd q.th1))) := by
      have e2 : q.th1 + P.dt / 2 * (u.1 / P.l1 * tan u.2) = q.th1 + Δ / 2 := by rw [hΔ]; ring
      simp only [rk4B, Bicycle.euler, Bicycle.dynamics, Q3.axpy, e2, ← hΔ]
      apply Complex.ext <;> simp [toC, hd, hw] <;> ring
    rw [e, norm_neg, norm_mul, Complex.norm_real, norm_eq_abs]
    have A := norm_hd_sub q.th1 (q.th1 + Δ / 2)
    have B := norm_hd_sub q.th1 (q.th1 + Δ)
    rw [add_sub_cancel_left] at A B
    have hA : |Δ / 2| = |Δ| / 2 := by rw [abs_div]; norm_num
    rw [hA] at A
    have C : ‖((2 / 3 : ℝ) : ℂ) * (hd (q.th1 + Δ / 2) - hd q.th1)
        + ((1 / 6 : ℝ) : ℂ) * (hd (q.th1 + Δ) - hd q.th1)‖ ≤ |Δ| / 2 := by
      refine le_trans (norm_add_le _ _) ?_
      rw [norm_mul, norm_mul, Complex.norm_real, Complex.norm_real, norm_eq_abs, norm_eq_abs,
        abs_of_pos (by norm_num : (0 : ℝ) < 2 / 3), abs_of_pos (by norm_num : (0 : ℝ) < 1 / 6)]
      linarith
    have hD : |Δ| = |w| * |tan u.2| / P.l1 := by
      have : Δ = w * tan u.2 / P.l1 := by rw [hΔ, hw]; ring
      rw [this, abs_div, abs_mul, abs_of_pos hl]
    calc |w| * _ ≤ |w| * (|Δ| / 2) := mul_le_mul_of_nonneg_left C (abs_nonneg _)
      _ = w ^ 2 * |tan u.2| / (2 * P.l1) := by
        rw [hD, ← sq_abs w]; field_simp

/-- Constraint values of the bicycle at `q` above `m` keep a body shifted by at most `m` safe. -/
theorem safe_of_constraintsB {P : Params} (h : Spec.SidesOK P) {q q' : Q3} {m : ℝ}
    (hth : q.th1 = q'.th1) (hd : Spec.dist (q'.px, q'.py) (q.px, q.py) ≤ m)
    (hc : ∀ g ∈ constraintsB P q, m < g) : Spec.SafeBicycle P q' := by
  have m0 : 0 ≤ m := le_trans (Real.sqrt_nonneg _) hd
  have hL := h.tractorLen
  have hW := h.tractorWid
  have hd' : Spec.dist (tractorCenter P q'.px q'.py q'.th1) (tractorCenter P q.px q.py q.th1) ≤ m := by
    convert hd using 1
    unfold Spec.dist tractorCenter
    rw [hth]
    congr 1
    ring
  have hb : Spec.tractorBody P q'.px q'.py q'.th1 = Spec.solidRect
      (tractorCenter P q'.px q'.py q'.th1) q'.th1 ((P.l1 + P.lf1 + P.lr) / 2)
      (P.tractorWidth / 2) := by
    unfold Spec.tractorBody
    rw [body_eq_solidRect]
    unfold tractorCenter
    rfl
  set half : V2 := ((P.l1 + P.lf1 + P.lr) / 2, P.tractorWidth / 2) with hh
  have hmem : ∀ g ∈ (P.circles.map (fun o => sdfBox (o.x, o.y)
      (tractorCenter P q.px q.py q.th1) half q.th1 - o.r) ++
      P.rects.map (fun o => gapBoxes (tractorCenter P q.px q.py q.th1) half q.th1 (o.x, o.y)
        (o.w / 2, o.h / 2) o.ang)), m < g := by
    intro g hg
    apply hc
    unfold constraintsB
    simp only [← hh]
    rw [if_neg]
    · exact hg
    · intro he
      rw [List.isEmpty_iff] at he
      rw [he] at hg
      exact absurd hg (by simp)
  constructor
  · intro c hcm
    have := hmem _ (List.mem_append_left _ (List.mem_map_of_mem hcm))
    rw [hb, ← hth]
    apply apart_of_sdf (c := tractorCenter P q.px q.py q.th1) (d := m) (e := 0)
      (hl := (P.l1 + P.lf1 + P.lr) / 2) (by norm_num at hL ⊢; linarith)
      (by norm_num at hW ⊢; linarith) (h.radii c hcm) le_rfl (by linarith) (by rw [hth] at hd' ⊢; exact hd')
    rw [hh] at this
    linarith
  · intro o ho
    have := hmem _ (List.mem_append_right _ (List.mem_map_of_mem ho))
    rw [hb, ← hth]
    obtain ⟨o1, o2⟩ := h.sides o ho
    apply apart_of_gap (c := tractorCenter P q.px q.py q.th1) (d := m) (e := 0)
      (l := (P.l1 + P.lf1 + P.lr) / 2) (by norm_num at hL ⊢; linarith)
      (by norm_num at hW ⊢; linarith) (by linarith) (by linarith) le_rfl (by linarith)
      (by rw [hth] at hd' ⊢; exact hd')
    rw [hh] at this
    linarith

/-- The state a projecting bicycle step reaches. -/
theorem bicycle_step_q (T : Bicycle) (hp : T.enableProjection = true) (ext : Ext Q3) (s : St Q3)
    (a : U) :
    (T.step ext s a).q = Bicycle.euler T.toParams s.q
      (T.inputScaler (ext.project s.q (clipU a))) ∧
    (T.step ext s a).applied = ext.project s.q (clipU a) := by
  unfold Bicycle.step Bicycle.stepInternal
  simp only [hp, if_true]
  exact ⟨trivial, trivial⟩

/-- C46, bicycle, partial: if the optimiser succeeds with a control whose constraint values exceed
`(v dt)² |tan δ| / (2 l1)` (the possible shift between the Runge-Kutta prediction used by the
projection and the executed Euler step), the executed body shares no point with any obstacle and the
step is not flagged; the control is inside the action box. In particular for zero steering positive
constraint values suffice. Missing: unsuccessful optimiser runs, small margins. -/
theorem C46_bicycle_partial (T : Bicycle) (hp : T.enableProjection = true)
    (h : Spec.SidesOK T.toParams) (hl : 0 < T.l1) (solver : Q3 → U → Outcome) (guide : Q3 → Q3)
    (s : St Q3) (a x : U) (hs : solver s.q (clipU a) = .success x) (hx : Spec.InBox x)
    (hc : ∀ g ∈ constraintsB T.toParams (rk4B T.toParams s.q (T.inputScaler x)),
      (x.1 * T.vMax * T.dt) ^ 2 * |tan (x.2 * (T.deltaMaxDeg * π / 180))| / (2 * T.l1) < g) :
    Spec.SafeBicycle T.toParams (T.step (extB solver guide) s a).q ∧
    ¬ Bicycle.checkObstacle T.toParams (T.step (extB solver guide) s a).q ∧
    (T.step (extB solver guide) s a).applied = x ∧
    Spec.InBox (T.step (extB solver guide) s a).applied := by
  obtain ⟨e1, e2⟩ := bicycle_step_q T hp (extB solver guide) s a
  have e3 : (extB solver guide).project s.q (clipU a) = x := by
    show result (solver s.q (clipU a)) (clipU a) = x
    rw [hs]; rfl
  rw [e3] at e1 e2
  obtain ⟨r1, r2⟩ := rk4B_euler T.toParams hl s.q (T.inputScaler x)
  have hsafe := safe_of_constraintsB h r1 r2 hc
  rw [← e1] at hsafe
  refine ⟨hsafe, ?_, e2, by rw [e2]; exact hx⟩
  have hL := h.tractorLen
  have hW := h.tractorWid
  rintro (⟨c, hcm, hk⟩ | ⟨o, ho, hk⟩)
  · obtain ⟨p, p1, p2⟩ := C05_sound _ _ (by norm_num at hL ⊢; linarith) (by norm_num at hW ⊢; linarith) _ _ hk
    refine hsafe.1 c hcm p ?_ p2
    unfold Spec.tractorBody
    rw [body_eq_solidRect]
    exact p1
  · obtain ⟨o1, o2⟩ := h.sides o ho
    obtain ⟨p, p1, p2⟩ := (rectRect_iff_intersect _ _ _ _ (by norm_num at hL ⊢; linarith)
      (by norm_num at hW ⊢; linarith) (by linarith) (by linarith)).mp hk
    refine hsafe.2 o ho p ?_ p2
    unfold Spec.tractorBody
    rw [body_eq_solidRect]
    exact p1

/-- Bicycle with default sizes, projection on, given step, speed, steering range and obstacles. -/
noncomputable def projBike (dt vMax deg : ℝ) (circles : List Circle) : Bicycle :=
  { toParams := { Params.default circles [] with
      enableProjection := true, dt := dt, vMax := vMax, deltaMaxDeg := deg }
    x0 := ⟨0, 0, 0⟩, xg := ⟨9, 0, 0⟩ }

theorem projBike_sides (dt vMax deg : ℝ) {c : Circle} (hr : 0 ≤ c.r) :
    Spec.SidesOK (projBike dt vMax deg [c]).toParams := by
  constructor <;> simp [projBike, Params.default] <;> norm_num
  exact hr

/-- The hypotheses of the partial theorem are met: full speed ahead with an obstacle 10 m ahead. -/
example : ∀ g ∈ constraintsB (projBike 0.2 3 55 [⟨10, 0, 1⟩]).toParams
    (rk4B (projBike 0.2 3 55 [⟨10, 0, 1⟩]).toParams ⟨0, 0, 0⟩
      ((projBike 0.2 3 55 [⟨10, 0, 1⟩]).inputScaler (1, 0))),
    ((1 : ℝ) * 3 * 0.2) ^ 2 * |tan (0 * (55 * π / 180))| / (2 * 3.23) < g := by
  intro g hg
  simp [constraintsB, projBike, Params.default, rk4B, Bicycle.dynamics, Q3.axpy, tractorCenter,
    Params.inputScaler, sdfBox, dot, norm2] at hg
  rw [hg]
  norm_num

/-- C46 refuted for the bicycle even with a perfect solver: the requested control itself satisfies
all constraints of the optimisation strictly (so it is the optimum and is returned), start and
request are in range, but the executed state collides, because the prediction integrates with
Runge-Kutta and the simulator with one Euler step. -/
theorem C46_bicycle_euler_refuted :
    ∃ (T : Bicycle) (s : St Q3) (a : U), T.enableProjection = true ∧ Spec.SidesOK T.toParams ∧
      Spec.InBox a ∧ s = T.reset ∧ Spec.SafeBicycle T.toParams s.q ∧ AcceptsB T.toParams s.q a ∧
      ∀ (solver : Q3 → U → Outcome) (guide : Q3 → Q3), solver s.q a = .success a →
        Bicycle.checkObstacle T.toParams (T.step (extB solver guide) s a).q := by
  set w : ℝ := 3.23 * (π / 3) with hw
  have hpi := Real.pi_gt_three
  have hpi' := Real.pi_le_four
  have hw3 : 3.23 < w := by rw [hw]; nlinarith
  have s3 : √3 * √3 = 3 := mul_self_sqrt (by norm_num)
  have s3l : 1.7 < √3 := lt_sqrt_of_sq_lt (by norm_num)
  have s3u : √3 < 1.8 := (sqrt_lt' (by norm_num)).mpr (by norm_num)
  -- obstacle: 1.1 m to the right of the executed body centre
  set ctr : V2 := Spec.frame (Spec.frame (w, 0) (π / 3) 1.141 0) (π / 3) 0 (-1.1) with hctr
  set c : Circle := ⟨ctr.1, ctr.2, 0.2⟩ with hcirc
  have hco : (c.x, c.y) = ctr := rfl
  have hone : clipU (1, 1) = (1, 1) := by
    unfold clipU
    rw [clip_of_mem (by norm_num) (by norm_num)]
  set T := projBike 1 w 45 [c] with hT
  have hsc : T.inputScaler (1, 1) = (w, π / 4) := by
    rw [hT]
    unfold Params.inputScaler Params.deltaMax projBike
    simp only
    ext <;> simp only <;> ring
  have hdyn : ∀ x : Q3, Bicycle.dynamics T.toParams x (w, π / 4)
      = ⟨w * cos x.th1, w * sin x.th1, π / 3⟩ := by
    intro x
    unfold Bicycle.dynamics
    simp only [tan_pi_div_four]
    congr 1
    rw [hT, hw]
    simp only [projBike, Params.default]
    field_simp
  have hdt : T.dt = 1 := rfl
  have hEul : Bicycle.euler T.toParams ⟨0, 0, 0⟩ (w, π / 4) = ⟨w, 0, π / 3⟩ := by
    unfold Bicycle.euler
    rw [hdyn, hdt]
    simp [Q3.axpy]
  have hrk : rk4B T.toParams ⟨0, 0, 0⟩ (w, π / 4)
      = ⟨w * (1.5 + 2 * √3) / 6, w * (2 + √3 / 2) / 6, π / 3⟩ := by
    unfold rk4B
    simp only [hdyn, hdt, Q3.axpy]
    have e1 : (0 : ℝ) + 1 / 2 * (π / 3) = π / 6 := by ring
    have e2 : (0 : ℝ) + 1 * (π / 3) = π / 3 := by ring
    rw [e1, e2]
    simp only [cos_zero, sin_zero, cos_pi_div_six, sin_pi_div_six, cos_pi_div_three,
      sin_pi_div_three]
    ext <;> simp only <;> ring
  have hcP : T.circles = [c] := rfl
  have hrP : T.rects = [] := rfl
  have hs := projBike_sides 1 w 45 (c := c) (by rw [hcirc]; norm_num)
  have hcx : ctr.1 = w + 0.5705 + 0.55 * √3 := by
    rw [hctr]; unfold Spec.frame; simp only [cos_pi_div_three, sin_pi_div_three]; ring
  refine ⟨T, T.reset, (1, 1), rfl, hs, by constructor <;> norm_num, rfl, ?_, ?_, ?_⟩
  · refine ⟨?_, by intro o ho; rw [hrP] at ho; exact absurd ho (by simp)⟩
    intro c' hc'
    rw [hcP, List.mem_singleton] at hc'
    subst hc'
    rintro p ⟨u, t, hu1, hu2, ht, rfl⟩ hd
    have hd' : (u - c.x) ^ 2 + (t - c.y) ^ 2 ≤ 0.2 ^ 2 := by
      simpa [Spec.circleRegion, Spec.disc, Spec.frame, Bicycle.reset, hT, projBike, hcirc] using hd
    have : u ≤ 4.13 := by
      refine le_trans hu2 ?_
      simp only [hT, projBike, Params.default]; norm_num
    have hx : c.x = w + 0.5705 + 0.55 * √3 := hcx
    nlinarith [sq_nonneg (t - c.y)]
  · refine ⟨by norm_num, by norm_num, ?_⟩
    intro g hg
    have hq : T.reset.q = ⟨0, 0, 0⟩ := rfl
    rw [hsc, hq, hrk] at hg
    unfold constraintsB at hg
    rw [hcP, hrP] at hg
    simp only [List.map_cons, List.map_nil, List.append_nil, List.isEmpty_cons, Bool.false_eq_true,
      if_false, List.mem_singleton] at hg
    rw [hg, sub_pos, hco]
    -- coordinates of the obstacle in the frame of the predicted body
    have hfr : ctr = Spec.frame (tractorCenter T.toParams (w * (1.5 + 2 * √3) / 6)
        (w * (2 + √3 / 2) / 6) (π / 3)) (π / 3)
        (w * (cos (π / 3) - ((1.5 + 2 * √3) / 6 * cos (π / 3) + (2 + √3 / 2) / 6 * sin (π / 3))))
        (-1.1 - w * (5 * √3 / 12 - 1 / 3)) := by
      rw [hctr]
      unfold tractorCenter Spec.frame
      simp only [cos_pi_div_three, sin_pi_div_three, hT, projBike, Params.default]
      ext <;> simp only
      · linear_combination (-(w * (3 / 16))) * s3
      · linear_combination (w * (1 / 6 + √3 / 48)) * s3
    rw [hfr]
    have hhalf : ((T.l1 + T.lf1 + T.lr) / 2, T.tractorWidth / 2) = ((2.989 : ℝ), (1 : ℝ)) := by
      simp only [hT, projBike, Params.default]; norm_num
    rw [hhalf, sdfBox_frame]
    set b := -1.1 - w * (5 * √3 / 12 - 1 / 3) with hb
    have hbl : b ≤ -2 := by rw [hb]; nlinarith
    have hab : |b| - 1 ≥ 1 := by rw [abs_of_neg (by linarith)]; linarith
    rw [min_eq_right (le_trans (by linarith) (le_max_right _ _)), add_zero]
    unfold norm2
    rw [lt_sqrt (by norm_num)]
    simp only
    rw [max_eq_left (show (0 : ℝ) ≤ |b| - 1 by linarith)]
    nlinarith [sq_nonneg (max (|w * (cos (π / 3) - ((1.5 + 2 * √3) / 6 * cos (π / 3)
      + (2 + √3 / 2) / 6 * sin (π / 3)))| - 2.989) 0)]
  · intro solver guide hsol
    obtain ⟨e1, -⟩ := bicycle_step_q T rfl (extB solver guide) T.reset (1, 1)
    have e3 : (extB solver guide).project T.reset.q (clipU (1, 1)) = (1, 1) := by
      show result (solver T.reset.q (clipU (1, 1))) (clipU (1, 1)) = (1, 1)
      rw [hone, hsol]; rfl
    rw [e1, e3, hsc]
    have hq : T.reset.q = ⟨0, 0, 0⟩ := rfl
    rw [hq, hEul]
    left
    refine ⟨c, by rw [hcP]; simp, ?_⟩
    have hk : T.tractorCorners w 0 (π / 3) =
        boxCorners (Spec.frame (w, 0) (π / 3) 1.141 0) (π / 3) 2.989 1 := by
      unfold Params.tractorCorners
      simp only [hT, projBike, Params.default]
      congr 1
      · unfold Spec.frame; ext <;> simp only <;> norm_num
      · norm_num
      · norm_num
    show rectCircle (T.tractorCorners w 0 (π / 3)) (c.x, c.y) c.r
    rw [hk, hco, rectCircle_iff_outline _ _ (by norm_num) (by norm_num)]
    refine ⟨_, ⟨0, -1, by norm_num, by norm_num, Or.inr (by norm_num), rfl⟩, ?_⟩
    rw [hctr, frame_disc_iff]
    show _ ≤ (0.2 : ℝ) ^ 2
    norm_num

/-! ## Tractor-trailer -/

/-- State, applied control and reward of a projecting tractor-trailer step: no check is made and no
penalty for collision or jackknifing is charged. -/
theorem tt2d_step_q (T : TT2d) (hp : T.enableProjection = true) (hm : T.motionPreference = 0)
    (ext : Ext Q4) (s : St Q4) (a : U) :
    (T.step ext s a).q = TT2d.euler T.toParams s.q
      (T.inputScaler (ext.project s.q (clipU a))) ∧
    (T.step ext s a).applied = ext.project s.q (clipU a) ∧
    (T.step ext s a).reward = TT2d.getReward T.toParams T.xg (T.step ext s a).q := by
  unfold TT2d.step TT2d.stepInternal
  simp only [hp, if_true, hm]
  refine ⟨trivial, trivial, ?_⟩
  simp

/-- C46, tractor-trailer, partial: a state whose constraint values exceed the length missing in the
rectangles of the projection (half of `lf1 + lr` for the tractor, of `lf2 + lr2 - l2` for the
trailer) is safe in the sense of the true bodies, and the hitch angle is within its limit. Missing:
the executed state is not this (predicted) state; unsuccessful optimiser runs. -/
theorem C46_tt2d_predicted_partial {P : Params} (h : Spec.SidesOK P) (hl1 : 0 ≤ P.l1)
    (hl2 : 0 ≤ P.l2) {q : Q4} {e : ℝ} (he : 0 ≤ e) (he1 : (P.lf1 + P.lr) / 2 ≤ e)
    (he2 : (P.lf2 + P.lr2 - P.l2) / 2 ≤ e) (hc : ∀ g ∈ P.circles.map (distCircle P q) ++
      P.rects.map (distRect P q), e < g)
    (hh : ∀ g ∈ constraints P q, 0 < g) :
    Spec.SafeTT P q ∧ ¬ Spec.exceedsModTurns P.phiMax (q.th1 - q.th2) := by
  have hL1 := h.tractorLen
  have hW1 := h.tractorWid
  have hL2 := h.trailerLen
  have hW2 := h.trailerWid
  norm_num at hL1 hW1 hL2 hW2
  have hb1 : Spec.tractorBody P q.px q.py q.th1 = Spec.solidRect
      (tractorCenter P q.px q.py q.th1) q.th1 ((P.l1 + P.lf1 + P.lr) / 2)
      (P.tractorWidth / 2) := by
    unfold Spec.tractorBody
    rw [body_eq_solidRect]
    rfl
  have hb2 : Spec.trailerBody P q = Spec.solidRect
      (trailerCenter P q) q.th2 ((P.lf2 + P.lr2) / 2) (P.trailerWidth / 2) := by
    unfold Spec.trailerBody
    rw [body_eq_solidRect]
    congr 1
    unfold trailerCenter Spec.trailerAxle Spec.frame
    ext <;> simp only <;> ring
  have d0 : ∀ p : V2, Spec.dist p p ≤ 0 := by intro p; unfold Spec.dist; simp
  refine ⟨⟨fun c hcm => ?_, fun o ho => ?_⟩, ?_⟩
  · have := hc _ (List.mem_append_left _ (List.mem_map_of_mem hcm))
    unfold distCircle at this
    have t1 := min_le_left (sdfBox (c.x, c.y) (tractorCenter P q.px q.py q.th1) (P.l1 / 2, P.tractorWidth / 2) q.th1) (sdfBox (c.x, c.y) (trailerCenter P q) (P.l2 / 2, P.trailerWidth / 2) q.th2)
    have t2 := min_le_right (sdfBox (c.x, c.y) (tractorCenter P q.px q.py q.th1) (P.l1 / 2, P.tractorWidth / 2) q.th1) (sdfBox (c.x, c.y) (trailerCenter P q) (P.l2 / 2, P.trailerWidth / 2) q.th2)
    rw [hb1, hb2]
    constructor
    · exact apart_of_sdf (hl := P.l1 / 2) (by linarith) (by linarith) (h.radii c hcm) he
        (by linarith) (d0 _) (by linarith)
    · exact apart_of_sdf (hl := P.l2 / 2) (by linarith) (by linarith) (h.radii c hcm) he
        (by linarith) (d0 _) (by linarith)
  · have := hc _ (List.mem_append_right _ (List.mem_map_of_mem ho))
    unfold distRect at this
    obtain ⟨o1, o2⟩ := h.sides o ho
    rw [lt_min_iff] at this
    rw [hb1, hb2]
    constructor
    · exact apart_of_gap (l := P.l1 / 2) (by linarith) (by linarith) (by linarith) (by linarith) he
        (by linarith) (d0 _) (by linarith [this.1])
    · exact apart_of_gap (l := P.l2 / 2) (by linarith) (by linarith) (by linarith) (by linarith) he
        (by linarith) (d0 _) (by linarith [this.2])
  · rw [← wrapPi_gt_iff]
    have := hh (P.phiMax - |wrapPi (q.th1 - q.th2)|) (by unfold constraints; simp)
    linarith

/-- Without obstacles nearby the default vehicle meets the hypotheses with room to spare. -/
example := C46_tt2d_predicted_partial (P := Params.default [] []) (q := ⟨0, 0, 0, 0⟩) (e := 2)
  (default_sidesOK [] [] (by simp) (by simp)) (by norm_num [Params.default]) (by norm_num [Params.default]) (by norm_num)
  (by norm_num [Params.default]) (by norm_num [Params.default]) (by simp [Params.default])
  (by
    intro g hg
    simp [constraints, Params.default, Params.phiMax, wrapPi_zero] at hg
    have := pi_pos
    rw [hg, deg2rad]; linarith)

/-- Default tractor-trailer with projection on and one circular obstacle on the x-axis. -/
noncomputable def projTT (X r : ℝ) : TT2d :=
  { toParams := { Params.default [⟨X, 0, r⟩] [] with enableProjection := true }
    x0 := ⟨0, 0, 0, 0⟩, xg := ⟨9, 0, 0, 0⟩ }

theorem projTT_check (X r x : ℝ) :
    TT2d.checkObstacle (projTT X r).toParams ⟨x, 0, 0, 0⟩ ↔
      (accDefault [⟨X, 0, r⟩] ⟨0, 0, 0, 0, 0, 0⟩).checkObstacle (straight x 0) := Iff.rfl

theorem projTT_euler (X r x v : ℝ) :
    TT2d.euler (projTT X r).toParams ⟨x, 0, 0, 0⟩ ((projTT X r).inputScaler (v, 0))
      = ⟨x + 0.6 * v, 0, 0, 0⟩ := by
  unfold TT2d.euler TT2d.dynamics Q4.axpy Params.inputScaler
  simp only [projTT, Params.default, cos_zero, sin_zero, zero_mul, tan_zero, mul_zero, sub_self,
    add_zero, mul_one]
  congr 1
  norm_num; ring

theorem projTT_hitch (X r x : ℝ) : ¬ TT2d.checkHitch (projTT X r).toParams ⟨x, 0, 0, 0⟩ :=
  straight_hitch (accDefault [⟨X, 0, r⟩] ⟨0, 0, 0, 0, 0, 0⟩) x 0

/-- C46 refuted, tractor-trailer: when the optimiser reports failure or raises, the original control
is executed. From a safe state the default vehicle drives into the obstacle, and the step neither
reports nor penalises it. -/
theorem C46_failure_refuted :
    ∃ (T : TT2d) (a : U), T.enableProjection = true ∧ Spec.InBox a ∧
      ¬ TT2d.checkCollision T.toParams T.reset.q ∧
      ∀ (solver : Q4 → U → Outcome) (guide : Q4 → Q4),
        (solver T.reset.q a = .failure ∨ solver T.reset.q a = .raised) →
        TT2d.checkObstacle T.toParams (T.step (ext solver guide) T.reset a).q ∧
        (T.step (ext solver guide) T.reset a).reward
          = TT2d.getReward T.toParams T.xg (T.step (ext solver guide) T.reset a).q := by
  refine ⟨projTT 4.73 0.2, (1, 0), rfl, by constructor <;> norm_num, ?_, ?_⟩
  · rintro (h | h)
    · exact straight_free (by norm_num) (by norm_num) _ 0 (Or.inl (by norm_num))
        ((projTT_check 4.73 0.2 0).mp h)
    · exact projTT_hitch _ _ _ h
  · intro solver guide hs
    obtain ⟨e1, -, e3⟩ := tt2d_step_q (projTT 4.73 0.2) rfl rfl (ext solver guide)
      (projTT 4.73 0.2).reset (1, 0)
    refine ⟨?_, e3⟩
    have : (ext solver guide).project (projTT 4.73 0.2).reset.q (clipU (1, 0)) = (1, 0) := by
      show result (solver _ (clipU (1, 0))) (clipU (1, 0)) = (1, 0)
      rw [clipU_one_zero]
      rcases hs with hs | hs <;> rw [hs] <;> rfl
    rw [e1, this]
    have hq : (projTT 4.73 0.2).reset.q = ⟨0, 0, 0, 0⟩ := rfl
    rw [hq, projTT_euler, projTT_check, straight_check]
    left
    apply rectCircle_axis (by norm_num) (by norm_num) (by norm_num)
    rw [abs_le]; constructor <;> norm_num

/-- C46 refuted, tractor-trailer with a perfect solver: the rectangles of the projection are shorter
than the vehicle. Standing still satisfies all constraints strictly and is what was requested, while
the obstacle overlaps the front of the tractor; the step neither reports nor penalises it. -/
theorem C46_undersized_refuted :
    ∃ (T : TT2d) (a : U), T.enableProjection = true ∧ Spec.InBox a ∧
      Accepts T.toParams T.reset.q a ∧
      ∀ (solver : Q4 → U → Outcome) (guide : Q4 → Q4), solver T.reset.q a = .success a →
        TT2d.checkObstacle T.toParams (T.step (ext solver guide) T.reset a).q ∧
        (T.step (ext solver guide) T.reset a).reward
          = TT2d.getReward T.toParams T.xg (T.step (ext solver guide) T.reset a).q := by
  have hc0 : clipU (0, 0) = (0, 0) := by
    unfold clipU
    rw [clip_of_mem (by norm_num) (by norm_num)]
  refine ⟨projTT 4.23 0.2, (0, 0), rfl, by constructor <;> norm_num, ?_, ?_⟩
  · refine ⟨by norm_num, by norm_num, ?_⟩
    have hq : rk4 (projTT 4.23 0.2).toParams (projTT 4.23 0.2).reset.q
        ((projTT 4.23 0.2).inputScaler (0, 0)) = ⟨0, 0, 0, 0⟩ := by
      simp [rk4, TT2d.dynamics, Q4.axpy, Params.inputScaler, TT2d.reset, projTT]
    rw [hq]
    intro g hg
    unfold constraints at hg
    simp only [projTT, Params.default, List.map_cons, List.map_nil, List.append_nil,
      List.cons_append, List.nil_append, List.mem_cons, List.not_mem_nil, or_false] at hg
    rcases hg with hg | hg
    · rw [hg]
      unfold distCircle
      rw [sub_pos, lt_min_iff]
      have hx : ∀ a b c d : ℝ, ((a, b) : V2) = Spec.frame (c, d) 0 (a - c) (b - d) := by
        intro a b c d; unfold Spec.frame; simp
      unfold tractorCenter trailerCenter
      constructor
      · rw [hx 4.23 0]
        refine lt_of_lt_of_le ?_ (sdfBox_ge _ _ _ _ _ _).1
        simp only [cos_zero]
        norm_num
      · rw [hx 4.23 0]
        refine lt_of_lt_of_le ?_ (sdfBox_ge _ _ _ _ _ _).1
        simp only [cos_zero]
        norm_num
    · rw [hg]
      simp only [sub_self, wrapPi_zero, abs_zero, sub_zero, Params.phiMax, deg2rad]
      have := pi_pos
      positivity
  · intro solver guide hs
    obtain ⟨e1, -, e3⟩ := tt2d_step_q (projTT 4.23 0.2) rfl rfl (ext solver guide)
      (projTT 4.23 0.2).reset (0, 0)
    refine ⟨?_, e3⟩
    have : (ext solver guide).project (projTT 4.23 0.2).reset.q (clipU (0, 0)) = (0, 0) := by
      show result (solver _ (clipU (0, 0))) (clipU (0, 0)) = (0, 0)
      rw [hc0, hs]; rfl
    rw [e1, this]
    have hq : (projTT 4.23 0.2).reset.q = ⟨0, 0, 0, 0⟩ := rfl
    rw [hq, projTT_euler, projTT_check, straight_check]
    left
    apply rectCircle_axis (by norm_num) (by norm_num) (by norm_num)
    rw [abs_le]; constructor <;> norm_num

/-! ## Acceleration model -/

/-- State, applied control and reward of a projecting step of the acceleration model. -/
theorem acc_step_q (T : Acc) (hp : T.enableProjection = true) (hm : T.motionPreference = 0)
    (ext : Ext Q6) (s : St Q6) (a : U) :
    (T.step ext s a).q = T.euler s.q (T.inputScaler (ext.project s.q (clipU a))) T.dt ∧
    (T.step ext s a).applied = ext.project s.q (clipU a) ∧
    (T.step ext s a).reward = T.getReward (T.step ext s a).q := by
  unfold Acc.step Acc.stepInternal
  simp only [hp, if_true, hm]
  refine ⟨trivial, trivial, ?_⟩
  simp

/-- C46 refuted, acceleration model with a perfect solver: the parent's projection reads the
normalised acceleration and steering rate as speed and steering angle and ignores the current speed.
Rolling at 3 m/s with a zero request, the predicted state stands still and satisfies every constraint
strictly; the executed state collides, unreported. -/
theorem C46_acc_refuted :
    ∃ (T : Acc) (s : St Q6) (a : U), T.enableProjection = true ∧ Spec.InBox a ∧
      ¬ T.checkObstacle s.q ∧ ¬ T.checkHitch s.q ∧ Accepts T.toParams s.q.pose a ∧
      ∀ (solver : Q4 → U → Outcome) (guide : Q6 → Q6), solver s.q.pose a = .success a →
        T.checkObstacle (T.step (extAcc solver guide) s a).q ∧
        (T.step (extAcc solver guide) s a).reward
          = T.getReward (T.step (extAcc solver guide) s a).q := by
  have hc0 : clipU (0, 0) = (0, 0) := by
    unfold clipU
    rw [clip_of_mem (by norm_num) (by norm_num)]
  set A := accDefault [⟨4.83, 0, 0.2⟩] ⟨0, 0, 0, 0, 0, 0⟩ with hA
  set T : Acc := { A with enableProjection := true } with hT
  set s : St Q6 := ⟨straight 0 3, straight 0 3, 0, 0, (0, 0), false⟩ with hs
  have hck : ∀ q, T.checkObstacle q ↔ A.checkObstacle q := fun q => Iff.rfl
  have hrw : ∀ q, T.getReward q = A.getReward q := fun q => rfl
  refine ⟨T, s, (0, 0), rfl, by constructor <;> norm_num, ?_, ?_, ?_, ?_⟩
  · rw [hck]
    exact straight_free (by norm_num) (by norm_num) _ 3 (Or.inl (by norm_num))
  · exact straight_hitch A 0 3
  · refine ⟨by norm_num, by norm_num, ?_⟩
    have hq : rk4 T.toParams s.q.pose (T.toParams.inputScaler (0, 0)) = ⟨0, 0, 0, 0⟩ := by
      simp [rk4, TT2d.dynamics, Q4.axpy, Params.inputScaler, hs, straight, Q6.pose]
    rw [hq]
    intro g hg
    unfold constraints at hg
    simp only [hT, hA, accDefault, Params.default, List.map_cons, List.map_nil, List.append_nil,
      List.cons_append, List.nil_append, List.mem_cons, List.not_mem_nil, or_false] at hg
    rcases hg with hg | hg
    · rw [hg]
      unfold distCircle
      rw [sub_pos, lt_min_iff]
      have hx : ∀ a b c d : ℝ, ((a, b) : V2) = Spec.frame (c, d) 0 (a - c) (b - d) := by
        intro a b c d; unfold Spec.frame; simp
      unfold tractorCenter trailerCenter
      constructor
      · rw [hx 4.83 0]
        refine lt_of_lt_of_le ?_ (sdfBox_ge _ _ _ _ _ _).1
        simp only [cos_zero]
        norm_num
      · rw [hx 4.83 0]
        refine lt_of_lt_of_le ?_ (sdfBox_ge _ _ _ _ _ _).1
        simp only [cos_zero]
        norm_num
    · rw [hg]
      simp only [sub_self, wrapPi_zero, abs_zero, sub_zero, Params.phiMax, deg2rad]
      have := pi_pos
      positivity
  · intro solver guide hsol
    have e1 : (T.step (extAcc solver guide) s (0, 0)).q = straight 0.6 3 := by
      have e3 : (extAcc solver guide).project s.q (clipU (0, 0)) = (0, 0) := by
        show result (solver s.q.pose (clipU (0, 0))) (clipU (0, 0)) = (0, 0)
        rw [hc0, hsol]; rfl
      have : (T.step (extAcc solver guide) s (0, 0)).q
          = A.euler s.q (A.inputScaler ((extAcc solver guide).project s.q (clipU (0, 0)))) A.dt :=
        (acc_step_q T rfl rfl (extAcc solver guide) s (0, 0)).1
      rw [this, e3]
      have : A.inputScaler (0, 0) = (0, 0) := by unfold Acc.inputScaler; simp
      rw [this, hs, hA, straight_euler]
      unfold clip
      simp only [accDefault, Params.default]
      norm_num
    constructor
    · rw [e1, hck, straight_check]
      left
      apply rectCircle_axis (by norm_num) (by norm_num) (by norm_num)
      rw [abs_le]; constructor <;> norm_num
    · exact (acc_step_q T rfl rfl (extAcc solver guide) s (0, 0)).2.2

/-! ## Train -/

/-- C46, train: with projection switched on every step raises, so no state is ever produced. -/
theorem C46_ntrailer_raises (T : NTrailer) (hp : T.enableProjection = true) (guide : QN → QN)
    (s : St QN) (a : U) : ∀ s', T.step guide s a ≠ .ok s' := by
  intro s'
  unfold NTrailer.step NTrailer.stepInternal
  simp only [hp, if_true]
  split_ifs <;> simp

example (guide : QN → QN) := C46_ntrailer_raises { Wit.train with enableProjection := true } rfl guide

end Mbd
