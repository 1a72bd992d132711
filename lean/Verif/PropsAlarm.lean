import Verif.RoundAlarm
import Verif.RoundSingle

/-!
# C76: no false alarms of the rounded checks, and the rounded shield lets clear motions pass
-/

namespace Spec

open Real Mbd

/-- What the vehicle and the obstacles must satisfy for the rounded checks to be silent at distance `ta`: half sizes of the
rectangles and bodies at least `s`, positive radii. The other letters are as in `RoundOK`. -/
structure AlarmOK (u m τ η R L W r s ta : ℝ) (P : Params) : Prop where
  s0 : 0.02 ≤ s
  s1 : 50 * cornerErr u m τ η R W ≤ s
  half : s ≤ (P.l1 + P.lf1 + P.lr) / 2
  wide : s ≤ P.tractorWidth / 2
  half2 : s ≤ (P.lf2 + P.lr2) / 2
  wide2 : s ≤ P.trailerWidth / 2
  rects : ∀ o ∈ P.rects, s ≤ o.w / 2 ∧ s ≤ o.h / 2
  circles : ∀ c ∈ P.circles, 0 < c.r ∧ η ≤ u * c.r
  rectTol : 1.5 * rectAlarm u m η (cornerErr u m τ η R W) s (R + 5 * W) (4 * R + 20 * W) ≤ ta
  circTol : circleAlarm u η (cornerErr u m τ η R L) (R + 5 * L) r ≤ ta

/-- Obstacles for which the default vehicle gets no false alarms from 6 cm on: discs with radii from 1 to 5 m, rectangles with
sides from 1 to 10 m, up to 50 m from the origin. -/
structure Blocks (cs : List Circle) (rs : List Rect) : Prop where
  circles : ∀ c ∈ cs, 1 ≤ c.r ∧ c.r ≤ 5
  rects : ∀ o ∈ rs, |o.x| ≤ 50 ∧ |o.y| ≤ 50 ∧ |o.ang| ≤ 100 ∧ 1 ≤ o.w ∧ o.w ≤ 10 ∧ 1 ≤ o.h ∧ o.h ≤ 10

/-- Two states agree up to `t` in every coordinate. -/
structure Near4 (t : ℝ) (q q' : Q4) : Prop where
  px : |q.px - q'.px| ≤ t
  py : |q.py - q'.py| ≤ t
  th1 : |q.th1 - q'.th1| ≤ t
  th2 : |q.th2 - q'.th2| ≤ t

end Spec

namespace Mbd

open Real Classical _root_.Spec

namespace Rounded

variable {A : Arith} {u m τ η H R L : ℝ}

/-- Distance from the centre of a disc that is kept at a distance. -/
theorem centre_far {b : Set Pt} {o : Pt} {r t : ℝ} (r0 : 0 ≤ r) (t0 : 0 ≤ t) (h : KeepsAway t b (Spec.disc o r)) {p : Pt}
    (hp : p ∈ b) : r + t < Spec.dist o p := by
  by_contra hc
  push Not at hc
  set d := Spec.dist o p with hd
  have hsq : d ^ 2 = (o.1 - p.1) ^ 2 + (o.2 - p.2) ^ 2 := by
    rw [hd]; unfold Spec.dist; exact sq_sqrt (by positivity)
  rcases le_or_gt d r with hdr | hdr
  · have hin : p ∈ Spec.disc o r := by
      show (p.1 - o.1) ^ 2 + (p.2 - o.2) ^ 2 ≤ r ^ 2
      have := pow_le_pow_left₀ (sqrt_nonneg _) hdr 2
      rw [show (p.1 - o.1) ^ 2 + (p.2 - o.2) ^ 2 = (o.1 - p.1) ^ 2 + (o.2 - p.2) ^ 2 by ring, ← hsq]
      exact this
    have := h p hp p hin
    have z : Spec.dist p p = 0 := by unfold Spec.dist; simp
    linarith
  · have d0 : 0 < d := by linarith
    have hin : ((o.1 + r / d * (p.1 - o.1), o.2 + r / d * (p.2 - o.2)) : Pt) ∈ Spec.disc o r := by
      show (o.1 + r / d * (p.1 - o.1) - o.1) ^ 2 + (o.2 + r / d * (p.2 - o.2) - o.2) ^ 2 ≤ r ^ 2
      rw [show (o.1 + r / d * (p.1 - o.1) - o.1) ^ 2 + (o.2 + r / d * (p.2 - o.2) - o.2) ^ 2
        = (r / d) ^ 2 * ((o.1 - p.1) ^ 2 + (o.2 - p.2) ^ 2) by ring, ← hsq, ← mul_pow, div_mul_cancel₀ _ d0.ne']
    have hk := h p hp _ hin
    have e : Spec.dist p (o.1 + r / d * (p.1 - o.1), o.2 + r / d * (p.2 - o.2)) = d - r := by
      unfold Spec.dist
      simp only
      rw [show (p.1 - (o.1 + r / d * (p.1 - o.1))) ^ 2 + (p.2 - (o.2 + r / d * (p.2 - o.2))) ^ 2
        = (1 - r / d) ^ 2 * ((o.1 - p.1) ^ 2 + (o.2 - p.2) ^ 2) by ring, ← hsq, ← mul_pow, sub_mul, one_mul,
        div_mul_cancel₀ _ d0.ne', sqrt_sq (by linarith)]
    linarith

/-- A rectangle kept at distance `1.5 t` is missed when its half sizes grow by `t`. -/
theorem grown_apart {b : Set Pt} {c : Pt} {a hl hw t k : ℝ} (hl0 : 0 ≤ hl) (hw0 : 0 ≤ hw) (t0 : 0 ≤ t) (hk : 1.5 * t ≤ k)
    (h : KeepsAway k b (Spec.solidRect c a hl hw)) : Spec.Apart b (Spec.solidRect c a (hl + t) (hw + t)) := by
  rintro p hp ⟨x, y, hx, hy, rfl⟩
  have near : ∀ {z l : ℝ}, 0 ≤ l → |z| ≤ l + t → |clip z (-l) l| ≤ l ∧ (z - clip z (-l) l) ^ 2 ≤ t ^ 2 := by
    intro z l l0 hz
    obtain ⟨z1, z2⟩ := abs_le.mp hz
    refine ⟨abs_le.mpr ⟨le_clip (by linarith), clip_le _ _ _⟩, ?_⟩
    unfold clip
    rcases le_total z (-l) with g | g
    · rw [max_eq_right g, min_eq_left (by linarith)]
      exact sq_le_sq' (by linarith) (by linarith)
    · rw [max_eq_left g]
      rcases le_total z l with g' | g'
      · rw [min_eq_left g']; simpa using sq_nonneg t
      · rw [min_eq_right g']
        exact sq_le_sq' (by linarith) (by linarith)
  obtain ⟨x1, x2⟩ := near hl0 hx
  obtain ⟨y1, y2⟩ := near hw0 hy
  have hh := h _ hp (Spec.frame c a (clip x (-hl) hl) (clip y (-hw) hw)) ⟨_, _, x1, y1, rfl⟩
  have : Spec.dist (Spec.frame c a x y) (Spec.frame c a (clip x (-hl) hl) (clip y (-hw) hw)) ≤ 1.5 * t := by
    unfold Spec.dist
    rw [frame_edge_sq, sqrt_le_left (by linarith), mul_pow]
    have := sq_nonneg t
    linarith
  linarith

/-- The rounded circle check is silent for a box that keeps away from the disc. -/
theorem circle_silent (acc : Spec.Accurate A u m τ η H) (u0 : 0 ≤ u) (u1 : u ≤ 1 / 1000) (e0 : 0 ≤ η)
    {c o : V2} {a hl hw ε B r t : ℝ} {k : Corners} (l0 : 0 ≤ hl) (w0 : 0 ≤ hw) (hc : Close ε (Mbd.boxCorners c a hl hw) k)
    (hb : Within B k) (ε0 : 0 ≤ ε) (r0 : 0 < r) (hη : η ≤ u * r) (hη2 : η ≤ u * r ^ 2) (ht : Spec.circleAlarm u η ε B r ≤ t)
    (h : KeepsAway t (Spec.solidRect c a hl hw) (Spec.disc o r)) : ¬ rectCircle A k o r := by
  have B0 : 0 ≤ B := (abs_nonneg _).trans hb.c0x
  have t0 : 0 ≤ t := by
    unfold Spec.circleAlarm at ht
    have := mul_nonneg u0 B0
    have := mul_nonneg u0 r0.le
    linarith
  have mem : ∀ {x y x' y' : ℝ}, |x| ≤ hl → |y| ≤ hw → |x'| ≤ hl → |y'| ≤ hw → ∀ z, 0 ≤ z → z ≤ 1 →
      r + t < Spec.dist o ((Spec.frame c a x y).1 + z * ((Spec.frame c a x' y').1 - (Spec.frame c a x y).1),
        (Spec.frame c a x y).2 + z * ((Spec.frame c a x' y').2 - (Spec.frame c a x y).2)) := by
    intro x y x' y' h1 h2 h3 h4 z z0 z1
    have cv : ∀ {p q l : ℝ}, |p| ≤ l → |q| ≤ l → |p + z * (q - p)| ≤ l := by
      intro p q l hp hq
      rw [show p + z * (q - p) = (1 - z) * p + z * q by ring]
      refine (abs_add_le _ _).trans ?_
      rw [abs_mul, abs_mul, abs_of_nonneg z0, abs_of_nonneg (by linarith : 0 ≤ 1 - z)]
      have := mul_le_mul_of_nonneg_left hp (by linarith : 0 ≤ 1 - z)
      have := mul_le_mul_of_nonneg_left hq z0
      linarith
    rw [frame_segment]
    exact centre_far r0.le t0 h ⟨_, _, cv h1 h3, cv h2 h4, rfl⟩
  have al : |hl| ≤ hl := (abs_of_nonneg l0).le
  have aw : |hw| ≤ hw := (abs_of_nonneg w0).le
  have nl : |-hl| ≤ hl := by rw [abs_neg]; exact al
  have nw : |-hw| ≤ hw := by rw [abs_neg]; exact aw
  have g0 := edge_far acc u0 u1 e0 hc.c0x hc.c0y hc.c1x hc.c1y hb.c0x hb.c0y hb.c1x hb.c1y r0 hη hη2 ht (c := o)
    (by simp only [Mbd.boxCorners, placePoint_eq_frame]; exact mem nl nw nl aw)
  have g1 := edge_far acc u0 u1 e0 hc.c1x hc.c1y hc.c2x hc.c2y hb.c1x hb.c1y hb.c2x hb.c2y r0 hη hη2 ht (c := o)
    (by simp only [Mbd.boxCorners, placePoint_eq_frame]; exact mem nl aw al aw)
  have g2 := edge_far acc u0 u1 e0 hc.c2x hc.c2y hc.c3x hc.c3y hb.c2x hb.c2y hb.c3x hb.c3y r0 hη hη2 ht (c := o)
    (by simp only [Mbd.boxCorners, placePoint_eq_frame]; exact mem al aw al nw)
  have g3 := edge_far acc u0 u1 e0 hc.c3x hc.c3y hc.c0x hc.c0y hb.c3x hb.c3y hb.c0x hb.c0y r0 hη hη2 ht (c := o)
    (by simp only [Mbd.boxCorners, placePoint_eq_frame]; exact mem al nw nl nw)
  unfold rectCircle
  rw [not_le]
  exact lt_min (lt_min g0 g1) (lt_min g2 g3)

/-- The centre of a box whose corners are known. -/
theorem centre_bound {c : V2} {a hl hw ε B : ℝ} {k : Corners} (hc : Close ε (Mbd.boxCorners c a hl hw) k) (hb : Within B k) :
    |c.1| ≤ B + ε ∧ |c.2| ≤ B + ε := by
  have e1 : c.1 = ((Mbd.boxCorners c a hl hw).c0.1 + (Mbd.boxCorners c a hl hw).c2.1) / 2 := by
    simp only [Mbd.boxCorners, Mbd.placePoint]; ring
  have e2 : c.2 = ((Mbd.boxCorners c a hl hw).c0.2 + (Mbd.boxCorners c a hl hw).c2.2) / 2 := by
    simp only [Mbd.boxCorners, Mbd.placePoint]; ring
  have x0 := abs_le.mp hc.c0x
  have x2 := abs_le.mp hc.c2x
  have y0 := abs_le.mp hc.c0y
  have y2 := abs_le.mp hc.c2y
  have a0 := abs_le.mp hb.c0x
  have a2 := abs_le.mp hb.c2x
  have b0 := abs_le.mp hb.c0y
  have b2 := abs_le.mp hb.c2y
  constructor
  · rw [e1]; exact abs_le.mpr ⟨by linarith, by linarith⟩
  · rw [e2]; exact abs_le.mpr ⟨by linarith, by linarith⟩

/-- One body that keeps away from all obstacles. -/
theorem box_silent (acc : Spec.Accurate A u m τ η H) {S W r tr tc s ta : ℝ} {P : Params}
    (ok : RoundOK u m τ η H R S L W r tr tc P) (al : AlarmOK u m τ η R L W r s ta P) {c : V2} {a hl hw : ℝ} {k : Corners}
    (cL : Close (Spec.cornerErr u m τ η R L) (Mbd.boxCorners c a hl hw) k)
    (cW : Close (Spec.cornerErr u m τ η R W) (Mbd.boxCorners c a hl hw) k) (hb : Within (R + 5 * L) k)
    (s1 : s ≤ hl) (s2 : s ≤ hw) (l1 : hl ≤ L) (l2 : hw ≤ L)
    (hc : ∀ o ∈ P.circles, KeepsAway ta (Spec.solidRect c a hl hw) (Spec.circleRegion o))
    (hr : ∀ o ∈ P.rects, KeepsAway ta (Spec.solidRect c a hl hw) (Spec.rectRegion o)) :
    (∀ o ∈ P.circles, ¬ rectCircle A k (o.x, o.y) o.r) ∧ (∀ o ∈ P.rects, ¬ rectRect A k (rectCorners A o)) := by
  have s0 := al.s0
  have hW := ok.fineW
  have L0 := ok.fineL.L0
  have le := ok.le
  have R0 := hW.R0
  constructor
  · intro o ho
    obtain ⟨-, -, q3, q4⟩ := ok.circles o ho
    obtain ⟨q5, q6⟩ := al.circles o ho
    refine circle_silent acc ok.fineL.u0 ok.u1 ok.fineL.e0 (by linarith) (by linarith) cL hb (cornerErr_nonneg ok.fineL)
      q5 q6 q4 (le_trans ?_ al.circTol) (hc o ho)
    unfold Spec.circleAlarm
    have := mul_abs_le ok.fineL.u0 q3
    linarith
  · intro o ho
    obtain ⟨o1, o2, o3, ⟨o4, o4'⟩, o5, ⟨o6, o6'⟩, o7, -, -⟩ := ok.rects o ho
    obtain ⟨i1, i2⟩ := al.rects o ho
    have e0 := cornerErr_nonneg hW
    have a1 : |o.w / 2| ≤ W := by rw [abs_of_nonneg (by linarith)]; exact o5
    have a2 : |o.h / 2| ≤ W := by rw [abs_of_nonneg (by linarith)]; exact o7
    have cl := rect_close acc hW o1 o2 o3 a1 a2
    have sm := hW.small
    have wi : Within (R + 5 * W) (rectCorners A o) := by
      have := (box_within (ang := o.ang) (c := (o.x, o.y)) a1 a2 o1 o2).close cl
      exact this.mono (by linarith)
    obtain ⟨z1, z2⟩ := centre_bound cW hb
    have d1 : |o.x - c.1| ≤ 2 * R + 6 * W := (abs_sub _ _).trans (by linarith)
    have d2 : |o.y - c.2| ≤ 2 * R + 6 * W := (abs_sub _ _).trans (by linarith)
    have t0 : 0 ≤ Spec.rectAlarm u m η (Spec.cornerErr u m τ η R W) s (R + 5 * W) (4 * R + 20 * W) := by
      unfold Spec.rectAlarm
      have := hW.u0
      have := hW.m0
      have := hW.e0
      have := hW.L0
      positivity
    exact rect_silent acc hW.u0 ok.u1 hW.m0 hW.e0 ok.e1 (B := R + 5 * W) (D := 4 * R + 20 * W) (by linarith) e0
      (c₁ := c) (c₂ := (o.x, o.y)) (a₁ := a) (a₂ := o.ang) (l₁ := hl) (w₁ := hw) (l₂ := o.w / 2) (w₂ := o.h / 2)
      al.s0 al.s1 s1 s2 i1 i2 cW cl (hb.mono (by linarith)) wi (by simp only; linarith) le_rfl
      (grown_apart (by linarith) (by linarith) t0 al.rectTol (hr o ho))

theorem tractor_silent (acc : Spec.Accurate A u m τ η H) {S W r tr tc s ta : ℝ} {P : Params}
    (ok : RoundOK u m τ η H R S L W r tr tc P) (al : AlarmOK u m τ η R L W r s ta P) {px py th : ℝ} (hx : |px| ≤ R)
    (hy : |py| ≤ R) (ha : |th| ≤ H) (hc : ∀ o ∈ P.circles, KeepsAway ta (Spec.tractorBody P px py th) (Spec.circleRegion o))
    (hr : ∀ o ∈ P.rects, KeepsAway ta (Spec.tractorBody P px py th) (Spec.rectRegion o)) :
    (∀ o ∈ P.circles, ¬ rectCircle A (tractorCorners A P px py th) (o.x, o.y) o.r) ∧
    (∀ o ∈ P.rects, ¬ rectRect A (tractorCorners A P px py th) (rectCorners A o)) := by
  obtain ⟨k1, k2, k3⟩ := tractor_ok acc ok hx hy ha
  rw [tractorCorners_eq] at k1 k2
  have hl := ok.lengths
  unfold Spec.tractorBody at hc hr
  simp only [body_eq] at hc hr
  exact box_silent acc ok al k1 k2 k3 al.half al.wide ((le_abs_self _).trans hl.half) ((le_abs_self _).trans hl.wide) hc hr

theorem trailer_silent (acc : Spec.Accurate A u m τ η H) {S W r tr tc s ta : ℝ} {P : Params}
    (ok : RoundOK u m τ η H R S L W r tr tc P) (al : AlarmOK u m τ η R L W r s ta P) {q : Q4} (hq : InField4 R H q)
    (hc : ∀ o ∈ P.circles, KeepsAway ta (Spec.trailerBody P q) (Spec.circleRegion o))
    (hr : ∀ o ∈ P.rects, KeepsAway ta (Spec.trailerBody P q) (Spec.rectRegion o)) :
    (∀ o ∈ P.circles, ¬ rectCircle A (trailerCorners A P q) (o.x, o.y) o.r) ∧
    (∀ o ∈ P.rects, ¬ rectRect A (trailerCorners A P q) (rectCorners A o)) := by
  obtain ⟨k1, k2, k3⟩ := trailer_ok acc ok hq
  rw [trailerCorners_eq] at k1 k2
  have hl := ok.lengths
  unfold Spec.trailerBody at hc hr
  simp only [body_eq] at hc hr
  exact box_silent acc ok al k1 k2 k3 al.half2 al.wide2 ((le_abs_self _).trans hl.half2) ((le_abs_self _).trans hl.wide2) hc hr

end Rounded

/-! ## No false alarms -/

/-- C76, tractor-trailer: if both bodies keep further than `ta` away from every obstacle, the collision check computed with
rounding errors reports no collision. -/
theorem C76_silent_tt2d {A : Arith} {u m τ η H R S L W r tr tc s ta : ℝ} {P : Params} (acc : Spec.Accurate A u m τ η H)
    (ok : RoundOK u m τ η H R S L W r tr tc P) (al : AlarmOK u m τ η R L W r s ta P) {q : Q4} (hq : InField4 R H q)
    (h : Margin4 ta P P.circles P.rects q) : ¬ Rounded.checkObstacle A P q := by
  obtain ⟨h1, h2⟩ := h
  obtain ⟨a1, a2⟩ := Rounded.tractor_silent acc ok al hq.px hq.py hq.th1 (fun c hc => (h1 c hc).1) (fun o ho => (h2 o ho).1)
  obtain ⟨b1, b2⟩ := Rounded.trailer_silent acc ok al hq (fun c hc => (h1 c hc).2) (fun o ho => (h2 o ho).2)
  unfold Rounded.checkObstacle
  simp only
  rintro (⟨c, hc, g | g⟩ | ⟨o, ho, g | g⟩)
  · exact a1 c hc g
  · exact b1 c hc g
  · exact a2 o ho g
  · exact b2 o ho g

/-- C76, bicycle. -/
theorem C76_silent_bicycle {A : Arith} {u m τ η H R S L W r tr tc s ta : ℝ} {P : Params} (acc : Spec.Accurate A u m τ η H)
    (ok : RoundOK u m τ η H R S L W r tr tc P) (al : AlarmOK u m τ η R L W r s ta P) {q : Q3} (hq : InField3 R H q)
    (h : Margin3 ta P P.circles P.rects q) : ¬ Rounded.checkObstacleB A P q := by
  obtain ⟨a1, a2⟩ := Rounded.tractor_silent acc ok al hq.px hq.py hq.th1 h.1 h.2
  unfold Rounded.checkObstacleB
  simp only
  rintro (⟨c, hc, g⟩ | ⟨o, ho, g⟩)
  · exact a1 c hc g
  · exact a2 o ho g

theorem Rounded.wrap_range {A : Arith} {u m τ η H : ℝ} (acc : Spec.Accurate A u m τ η H) (u1 : u ≤ 1 / 1000)
    (e1 : η ≤ 1e-9) (a : ℝ) : |Rounded.wrapPi A a| ≤ 3.3 := by
  have p1 := pi_gt_d2
  have p2 := pi_lt_d2
  have x2 := acc.const π
  rw [abs_of_pos pi_pos] at x2
  have x2' := mul_le_mul_of_nonneg_right u1 pi_pos.le
  have x4 := acc.const (2 * π)
  rw [abs_of_pos (by linarith : 0 < 2 * π)] at x4
  have x4' := mul_le_mul_of_nonneg_right u1 (show 0 ≤ 2 * π by linarith)
  unfold Rounded.wrapPi
  generalize A.const π = π' at *
  generalize A.const (2 * π) = b2 at *
  obtain ⟨y2a, y2b⟩ := abs_le.mp x2
  obtain ⟨y4a, y4b⟩ := abs_le.mp x4
  obtain ⟨r1, r2, -⟩ := acc.rem (A.add a π') b2 (by linarith)
  generalize A.rem (A.add a π') b2 = ρ at *
  have w := acc.sub ρ π'
  have w1 : |ρ - π'| ≤ 3.2 := abs_le.mpr ⟨by linarith, by linarith⟩
  have w2 := mul_le_mul u1 w1 (abs_nonneg _) (by norm_num)
  have := abs_le_of_err w w1
  linarith

/-- C76, hitch: if the hitch angle, read modulo full turns, stays below the limit by the tolerance, the hitch check computed
with rounding errors passes. -/
theorem C76_hitch_silent {A : Arith} {u m τ η H R : ℝ} {P : Params} (acc : Spec.Accurate A u m τ η H) (u0 : 0 ≤ u)
    (u1 : u ≤ 1 / 1000) (e0 : 0 ≤ η) (e1 : η ≤ 1e-9) (tol : hitchTol u η H ≤ 1) {q : Q4} (hq : InField4 R H q)
    (h : ¬ Spec.exceedsModTurns (P.phiMax - hitchTol u η H) (q.th1 - q.th2)) : ¬ Rounded.checkHitch A P q := by
  unfold Spec.exceedsModTurns at h
  push Not at h
  obtain ⟨k₀, h⟩ := h
  have H0 : 0 ≤ H := (abs_nonneg _).trans hq.th1
  have p1 := pi_gt_d2
  have p2 := pi_lt_d2
  have ph : P.phiMax = 40 * π / 180 := rfl
  have g1 : 0 ≤ u * H := mul_nonneg u0 H0
  have g2 : 0 ≤ η * H := mul_nonneg e0 H0
  have wr := Rounded.wrap_range acc u1 e1 (A.sub q.th1 q.th2)
  obtain ⟨k, hk⟩ := Rounded.wrap_err acc u0 u1 e0 e1 H0 hq.th1 hq.th2
  have hc := acc.const P.phiMax
  rw [ph, abs_of_pos (show 0 < 40 * π / 180 by positivity)] at hc
  have hc1 := (abs_le.mp hc).1
  have hc2 := mul_le_mul_of_nonneg_left (show 40 * π / 180 ≤ 1 by linarith) u0
  unfold Rounded.checkHitch
  rw [not_lt, ph]
  rw [ph] at h
  generalize A.const (40 * π / 180) = φ' at *
  generalize Rounded.wrapPi A (A.sub q.th1 q.th2) = w at *
  generalize q.th1 - q.th2 = d at *
  unfold hitchTol at h tol
  by_cases hkk : k = k₀
  · subst hkk
    have t := abs_add_le (w - (d + 2 * π * k)) (d + 2 * π * k)
    rw [sub_add_cancel] at t
    ring_nf at *
    linarith
  · exfalso
    have hz : (1 : ℝ) ≤ |((k - k₀ : ℤ) : ℝ)| := by
      rw [← Int.cast_abs]
      exact_mod_cast Int.one_le_abs (sub_ne_zero.mpr hkk)
    have e : (2 * π) * ((k - k₀ : ℤ) : ℝ) = w - (w - (d + 2 * π * k)) - (d + 2 * π * k₀) := by push_cast; ring
    have f : |(2 * π) * ((k - k₀ : ℤ) : ℝ)| ≤ 3.3 + (u * (7 * H + 55) + η * (H + 25)) + 40 * π / 180 := by
      rw [e]
      have t1 := abs_sub (w - (w - (d + 2 * π * k))) (d + 2 * π * k₀)
      have t2 := abs_sub w (w - (d + 2 * π * k))
      have : 0 ≤ u * (7 * H + 60) + η * (H + 30) := by positivity
      linarith
    rw [abs_mul, abs_of_pos (show 0 < 2 * π by linarith)] at f
    have := mul_le_mul_of_nonneg_left hz (show 0 ≤ 2 * π by linarith)
    have e3 : u * (7 * H + 55) + η * (H + 25) ≤ u * (7 * H + 60) + η * (H + 30) := by
      ring_nf; linarith
    linarith

/-! ## The rounded shield lets clear motions pass -/

/-- C76: if the next state computed with rounding errors keeps further than `ta` away from every obstacle and its hitch angle is
below the limit by the tolerance, the shield lets the motion pass. -/
theorem C76_moves_tt2d {A : Arith} {u m τ η H R S L W r tr tc s ta : ℝ} {P : Params} (acc : Spec.Accurate A u m τ η H)
    (ok : RoundOK u m τ η H R S L W r tr tc P) (al : AlarmOK u m τ η R L W r s ta P) (tol : hitchTol u η H ≤ 1)
    (q : Q4) (a : U) (hq : InField4 R H (Rounded.euler A P q (Rounded.inputScaler A P (clipU a))))
    (h : Margin4 ta P P.circles P.rects (Rounded.euler A P q (Rounded.inputScaler A P (clipU a))))
    (hh : ¬ Spec.exceedsModTurns (P.phiMax - hitchTol u η H)
      ((Rounded.euler A P q (Rounded.inputScaler A P (clipU a))).th1 - (Rounded.euler A P q (Rounded.inputScaler A P (clipU a))).th2)) :
    Rounded.step A P q a = Rounded.euler A P q (Rounded.inputScaler A P (clipU a)) := by
  have c1 := C76_silent_tt2d acc ok al hq h
  have c2 := C76_hitch_silent acc ok.fineL.u0 ok.u1 ok.fineL.e0 ok.e1 tol hq hh
  unfold Rounded.step kinShieldedRollout
  generalize Rounded.euler A P q (Rounded.inputScaler A P (clipU a)) = z at *
  cases e1 : P.shieldCollision <;> cases e2 : P.shieldHitch <;> simp [c1, c2]

/-- C76, bicycle. -/
theorem C76_moves_bicycle {A : Arith} {u m τ η H R S L W r tr tc s ta : ℝ} {P : Params} (acc : Spec.Accurate A u m τ η H)
    (ok : RoundOK u m τ η H R S L W r tr tc P) (al : AlarmOK u m τ η R L W r s ta P)
    (q : Q3) (a : U) (hq : InField3 R H (Rounded.eulerB A P q (Rounded.inputScaler A P (clipU a))))
    (h : Margin3 ta P P.circles P.rects (Rounded.eulerB A P q (Rounded.inputScaler A P (clipU a)))) :
    Rounded.stepB A P q a = Rounded.eulerB A P q (Rounded.inputScaler A P (clipU a)) := by
  have c1 := C76_silent_bicycle acc ok al hq h
  unfold Rounded.stepB kinShieldedRollout
  generalize Rounded.eulerB A P q (Rounded.inputScaler A P (clipU a)) = z at *
  have c2 : ¬ Bicycle.checkHitch P z := id
  cases e1 : P.shieldCollision <;> cases e2 : P.shieldHitch <;> simp [c1, c2]

/-! ## The default vehicle in single precision -/

theorem default_roundOK10 {cs : List Circle} {rs : List Rect} (h : Blocks cs rs) :
    RoundOK 6e-8 1.8e-7 5e-7 1e-30 100 50 1 3.81 5 5 0.002 0.01 (Params.default cs rs) where
  fineL := ⟨by norm_num, by norm_num, by norm_num, by norm_num, by norm_num, by norm_num, by unfold cornerErr; norm_num⟩
  fineW := ⟨by norm_num, by norm_num, by norm_num, by norm_num, by norm_num, by norm_num, by unfold cornerErr; norm_num⟩
  le := by norm_num
  u1 := by norm_num
  e1 := by norm_num
  lengths := by
    constructor <;> simp only [Params.default] <;> rw [abs_le] <;> constructor <;> norm_num
  S0 := by norm_num
  S1 := by unfold cornerErr; norm_num
  S2 := by unfold cornerErr; norm_num
  half := by norm_num [Params.default]
  wide := by norm_num [Params.default]
  half2 := by norm_num [Params.default]
  wide2 := by norm_num [Params.default]
  rectTol := by unfold cornerErr; norm_num
  circTol := by unfold circleTol cornerErr; norm_num
  rects := by
    intro o ho
    obtain ⟨h1, h2, h3, h4, h5, h6, h7⟩ := h.rects o ho
    refine ⟨h1, h2, h3, ⟨by linarith, ?_⟩, by linarith, ⟨by linarith, ?_⟩, by linarith, by linarith, by linarith⟩ <;>
    · unfold cornerErr; norm_num; linarith
  circles := by
    intro c hc
    obtain ⟨h1, h2⟩ := h.circles c hc
    refine ⟨by norm_num, by linarith, h2, ?_⟩
    have : (1 : ℝ) ^ 2 ≤ c.r ^ 2 := pow_le_pow_left₀ (by norm_num) (by linarith) 2
    linarith

theorem default_alarmOK {cs : List Circle} {rs : List Rect} (h : Blocks cs rs) :
    AlarmOK 6e-8 1.8e-7 5e-7 1e-30 50 3.81 5 5 0.5 0.06 (Params.default cs rs) where
  s0 := by norm_num
  s1 := by unfold cornerErr; norm_num
  half := by norm_num [Params.default]
  wide := by norm_num [Params.default]
  half2 := by norm_num [Params.default]
  wide2 := by norm_num [Params.default]
  rects := by
    intro o ho
    obtain ⟨h1, h2, h3, h4, h5, h6, h7⟩ := h.rects o ho
    exact ⟨by linarith, by linarith⟩
  circles := by
    intro c hc
    obtain ⟨h1, h2⟩ := h.circles c hc
    exact ⟨by linarith, by linarith⟩
  rectTol := by unfold rectAlarm cornerErr; norm_num
  circTol := by unfold circleAlarm cornerErr; norm_num

/-- C76, the default vehicle in single precision: no alarm if both bodies keep 6 cm away from every obstacle. -/
theorem C76_silent_default {A : Arith} (acc : Spec.Float32 A) {cs : List Circle} {rs : List Rect} (hb : Blocks cs rs) {q : Q4}
    (hq : InField4 50 100 q) (h : Margin4 0.06 (Params.default cs rs) cs rs q) :
    ¬ Rounded.checkObstacle A (Params.default cs rs) q :=
  C76_silent_tt2d acc (default_roundOK10 hb) (default_alarmOK hb) hq h

theorem Rounded.keepsAway_near {b b' o : Set Pt} {x y : ℝ} (h : ∀ p ∈ b', ∃ p' ∈ b, Spec.dist p p' ≤ y) (hk : KeepsAway x b o) :
    KeepsAway (x - y) b' o := by
  intro p hp z hz
  obtain ⟨p', h1, h2⟩ := h p hp
  have h3 := hk p' h1 z hz
  have h4 := Rounded.dist_triangle' p' p z
  rw [dist_comm' p' p] at h4
  linarith

theorem Rounded.margin_near {cs : List Circle} {rs : List Rect} {q q' : Q4} (n : Near4 2e-4 q' q) {x : ℝ}
    (h : Margin4 (x + 0.01) (Params.default cs rs) cs rs q) : Margin4 x (Params.default cs rs) cs rs q' := by
  have e : x = x + 0.01 - 0.01 := by ring
  have t1 : ∀ p ∈ Spec.tractorBody (Params.default cs rs) q'.px q'.py q'.th1,
      ∃ p' ∈ Spec.tractorBody (Params.default cs rs) q.px q.py q.th1, Spec.dist p p' ≤ 0.01 := by
    rintro p ⟨s, t, h1, h2, h3, rfl⟩
    refine ⟨_, ⟨s, t, h1, h2, h3, rfl⟩, ?_⟩
    simp only [Params.default] at h1 h2 h3
    exact Rounded.near_tractor n.px n.py n.th1 (abs_le.mpr ⟨by linarith, by linarith⟩) (by linarith)
  have t2 : ∀ p ∈ Spec.trailerBody (Params.default cs rs) q',
      ∃ p' ∈ Spec.trailerBody (Params.default cs rs) q, Spec.dist p p' ≤ 0.01 := by
    rintro p ⟨s, t, h1, h2, h3, rfl⟩
    refine ⟨_, ⟨s, t, h1, h2, h3, rfl⟩, ?_⟩
    have h1' : -3.225 ≤ s := h1
    have h2' : s ≤ 1.42 := h2
    have h3' : |t| ≤ 2.5 / 2 := h3
    exact Rounded.near_trailer cs rs n.px n.py n.th1 n.th2 (abs_le.mpr ⟨by linarith, by linarith⟩) (by linarith)
  rw [e]
  exact ⟨fun c hc => ⟨Rounded.keepsAway_near t1 (h.1 c hc).1, Rounded.keepsAway_near t2 (h.1 c hc).2⟩,
    fun o ho => ⟨Rounded.keepsAway_near t1 (h.2 o ho).1, Rounded.keepsAway_near t2 (h.2 o ho).2⟩⟩

/-- C76, the default vehicle in single precision, shields on: if the state which the kinematic equations give for the action keeps
7 cm away from every obstacle and its hitch angle is below the limit by a thousandth, the rounded step moves the vehicle, to
within 0.2 mm and 0.2 mrad of that state. -/
theorem C76_free_default {A : Arith} (acc : Spec.Float32 A) {cs : List Circle} {rs : List Rect} (hb : Blocks cs rs) {q q' : Q4}
    (hq : OnSite q) (a : U) (he : Spec.EulerTT (Params.default cs rs) q (clipU a) q') (hq' : InField4 49.9 99 q')
    (h : Margin4 0.07 (Params.default cs rs) cs rs q')
    (hh : ¬ Spec.exceedsModTurns ((Params.default cs rs).phiMax - 0.001) (q'.th1 - q'.th2)) :
    Near4 2e-4 (Rounded.step A (Params.default cs rs) q a) q' := by
  obtain ⟨q1, he1, n1, n2, n3, n4⟩ := Rounded.euler_close acc cs rs hq (Rounded.clipU_inBox a)
  have e : q1 = q' := by
    obtain ⟨a1, a2, a3, a4⟩ := he
    obtain ⟨b1, b2, b3, b4⟩ := he1
    cases q1; cases q'
    simp only at *
    rw [a1, a2, a3, a4, b1, b2, b3, b4]
  subst e
  have n : Near4 2e-4 _ q1 := ⟨n1, n2, n3, n4⟩
  rw [C76_moves_tt2d acc (default_roundOK10 hb) (default_alarmOK hb) (by unfold hitchTol; norm_num) q a]
  · exact n
  · exact ⟨(Rounded.abs_le_of_err n1 hq'.px).trans (by norm_num), (Rounded.abs_le_of_err n2 hq'.py).trans (by norm_num),
      (Rounded.abs_le_of_err n3 hq'.th1).trans (by norm_num), (Rounded.abs_le_of_err n4 hq'.th2).trans (by norm_num)⟩
  · exact Rounded.margin_near n (by norm_num at h ⊢; exact h)
  · unfold Spec.exceedsModTurns at hh ⊢
    push Not at hh ⊢
    obtain ⟨k, hk⟩ := hh
    refine ⟨k, ?_⟩
    generalize Rounded.euler A (Params.default cs rs) q (Rounded.inputScaler A (Params.default cs rs) (clipU a)) = z at *
    have t := abs_add_le (q1.th1 - q1.th2 + 2 * π * k) ((z.th1 - q1.th1) - (z.th2 - q1.th2))
    have t2 := abs_sub (z.th1 - q1.th1) (z.th2 - q1.th2)
    rw [show q1.th1 - q1.th2 + 2 * π * k + ((z.th1 - q1.th1) - (z.th2 - q1.th2)) = z.th1 - z.th2 + 2 * π * k by ring] at t
    have : hitchTol 6e-8 1e-30 100 ≤ 1e-4 := by unfold hitchTol; norm_num
    linarith

/-! ## The hypotheses are met -/

theorem wit_blocks : Blocks Wit.params.circles Wit.params.rects := by
  constructor
  · intro c hc
    simp only [Wit.params, Params.default, List.mem_singleton] at hc
    subst hc; norm_num
  · intro o ho
    simp only [Wit.params, Params.default, List.mem_singleton] at ho
    subst ho; norm_num [abs_of_pos]

theorem dist_ge_fst (p q : Pt) : |p.1 - q.1| ≤ Spec.dist p q := by
  unfold Spec.dist
  rw [← sqrt_sq_eq_abs]
  exact sqrt_le_sqrt (by linarith [sq_nonneg (p.2 - q.2)])

theorem dist_ge_snd (p q : Pt) : |p.2 - q.2| ≤ Spec.dist p q := by
  unfold Spec.dist
  rw [← sqrt_sq_eq_abs]
  exact sqrt_le_sqrt (by linarith [sq_nonneg (p.1 - q.1)])

/-- Bodies along the x axis, left of 10 and less than 2 m wide on each side, keep away from the pole at (20, 0) and the wall at (0, 30). -/
theorem wit_away {a rear front width : ℝ} (h1 : a + front ≤ 10) (h2 : width / 2 ≤ 2) :
    KeepsAway 0.07 (Spec.body (a, 0) 0 rear front width) (Spec.circleRegion ⟨20, 0, 1⟩) ∧
    KeepsAway 0.07 (Spec.body (a, 0) 0 rear front width) (Spec.rectRegion ⟨0, 30, 4, 2, 0⟩) := by
  constructor
  · rintro p ⟨s, t, g1, g2, g3, rfl⟩ z hz
    have hz' : (z.1 - 20) ^ 2 + (z.2 - 0) ^ 2 ≤ 1 ^ 2 := hz
    have z1 : 19 ≤ z.1 := by nlinarith [sq_nonneg (z.2 - 0)]
    have e : (Spec.frame ((a, 0) : Pt) 0 s t).1 = a + s := by simp [Spec.frame]
    have := dist_ge_fst (Spec.frame ((a, 0) : Pt) 0 s t) z
    rw [e] at this
    have := (abs_le.mp this).1
    linarith
  · rintro p ⟨s, t, g1, g2, g3, rfl⟩ z ⟨x, y, k1, k2, rfl⟩
    have e : (Spec.frame ((a, 0) : Pt) 0 s t).2 = t := by simp [Spec.frame]
    have e' : (Spec.frame ((0, 30) : Pt) 0 x y).2 = 30 + y := by simp [Spec.frame]
    have := dist_ge_snd (Spec.frame ((a, 0) : Pt) 0 s t) (Spec.frame ((0, 30) : Pt) 0 x y)
    rw [e, e'] at this
    have := (abs_le.mp this).1
    have := (abs_le.mp g3).2
    have := (abs_le.mp k2).1
    simp only at this
    linarith

theorem wit_margin {x : ℝ} (hx : x ≤ 5) : Margin4 0.07 Wit.params Wit.params.circles Wit.params.rects ⟨x, 0, 0, 0⟩ := by
  have t : Spec.trailerAxle Wit.params ⟨x, 0, 0, 0⟩ = (x - 4.05, 0) := by
    unfold Spec.trailerAxle Spec.frame
    simp [Wit.params, Params.default]; ring
  constructor
  · intro c hc
    simp only [Wit.params, Params.default, List.mem_singleton] at hc
    subst hc
    refine ⟨(wit_away ?_ ?_).1, ?_⟩
    · simp only [Wit.params, Params.default]; linarith
    · norm_num [Wit.params, Params.default]
    · unfold Spec.trailerBody
      rw [t]
      refine (wit_away ?_ ?_).1
      · simp only [Wit.params, Params.default]; linarith
      · norm_num [Wit.params, Params.default]
  · intro o ho
    simp only [Wit.params, Params.default, List.mem_singleton] at ho
    subst ho
    refine ⟨(wit_away ?_ ?_).2, ?_⟩
    · simp only [Wit.params, Params.default]; linarith
    · norm_num [Wit.params, Params.default]
    · unfold Spec.trailerBody
      rw [t]
      refine (wit_away ?_ ?_).2
      · simp only [Wit.params, Params.default]; linarith
      · norm_num [Wit.params, Params.default]

theorem wit_straight_hitch {φ : ℝ} (h : 0 ≤ φ) : ¬ Spec.exceedsModTurns φ (0 - 0) := fun hh => by
  have := hh 0
  simp at this
  linarith

/-- `C76_free_default`: driving straight on from the origin at full speed, 24-bit rounding, the vehicle moves. -/
example : Near4 2e-4 (Rounded.step single Wit.params ⟨0, 0, 0, 0⟩ (1, 0)) ⟨0.6, 0, 0, 0⟩ := by
  have c : clipU ((1, 0) : U) = (1, 0) := by unfold clipU clip; norm_num
  refine C76_free_default single_float32 wit_blocks ⟨by norm_num, by norm_num, by norm_num, by norm_num⟩ _ ?_
    ⟨by norm_num [abs_of_pos], by norm_num, by norm_num, by norm_num⟩ (wit_margin (by norm_num)) (wit_straight_hitch ?_)
  · rw [c]
    constructor <;> norm_num [Params.default]
  · unfold Params.phiMax deg2rad
    have := pi_gt_d2
    linarith

/-- `C76_silent_default`, `C76_hitch_silent` and `C76_silent_bicycle`, 24-bit rounding, at the origin. -/
example : ¬ Rounded.checkObstacle single Wit.params ⟨0, 0, 0, 0⟩ := by
  have m := wit_margin (x := 0) (by norm_num)
  have mono : ∀ {b c : Set Pt}, KeepsAway 0.07 b c → KeepsAway 0.06 b c :=
    fun h a ha z hz => lt_trans (by norm_num) (h a ha z hz)
  exact C76_silent_default single_float32 wit_blocks ⟨by norm_num, by norm_num, by norm_num, by norm_num⟩
    ⟨fun c hc => ⟨mono (m.1 c hc).1, mono (m.1 c hc).2⟩, fun o ho => ⟨mono (m.2 o ho).1, mono (m.2 o ho).2⟩⟩

example : ¬ Rounded.checkHitch single Wit.params ⟨0, 0, 0, 0⟩ :=
  C76_hitch_silent (R := 50) single_float32 (by norm_num) (by norm_num) (by norm_num) (by norm_num)
    (by unfold hitchTol; norm_num) ⟨by norm_num, by norm_num, by norm_num, by norm_num⟩ (wit_straight_hitch (by
      unfold Params.phiMax deg2rad hitchTol
      have := pi_gt_d2
      norm_num at *
      linarith))

example : ¬ Rounded.checkObstacleB single Wit.params ⟨0, 0, 0⟩ := by
  have m := wit_margin (x := 0) (by norm_num)
  have mono : ∀ {b c : Set Pt}, KeepsAway 0.07 b c → KeepsAway 0.06 b c :=
    fun h a ha z hz => lt_trans (by norm_num) (h a ha z hz)
  exact C76_silent_bicycle single_float32 (default_roundOK10 wit_blocks) (default_alarmOK wit_blocks)
    ⟨by norm_num, by norm_num, by norm_num⟩ ⟨fun c hc => mono (m.1 c hc).1, fun o ho => mono (m.2 o ho).1⟩

end Mbd
