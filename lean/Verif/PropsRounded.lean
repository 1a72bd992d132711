import Verif.RoundCircle
import Verif.PropsSafe
import Verif.PropsMargin

/-!
# C76: the checks and the shield under rounding errors
-/

namespace Spec

open Real Mbd

/-- No point of `A` lies deeper than `t` in `B`: from every point of `A` one gets out of `B` on a way of length
at most `t`. -/
def NoDeeper (t : ℝ) (A B : Set Pt) : Prop := ∀ p ∈ A, ∃ z, dist p z ≤ t ∧ z ∉ B

/-- Position and headings are in the range for which the arithmetic is accurate. -/
structure InField4 (R H : ℝ) (q : Q4) : Prop where
  px : |q.px| ≤ R
  py : |q.py| ≤ R
  th1 : |q.th1| ≤ H
  th2 : |q.th2| ≤ H

/-- The same for the bicycle. -/
structure InField3 (R H : ℝ) (q : Q3) : Prop where
  px : |q.px| ≤ R
  py : |q.py| ≤ R
  th1 : |q.th1| ≤ H

/-- The arithmetic is accurate enough for the vehicle and its obstacles: vehicle lengths up to `L`, half sizes
of the bodies at least `S`, half sizes of the rectangles up to `W`, radii up to `r`; `tr` and `tc` are
the tolerances for rectangles and circles. -/
structure RoundOK (u m τ η H R S L W r tr tc : ℝ) (P : Params) : Prop where
  fineL : Fine u m τ η R L
  fineW : Fine u m τ η R W
  le : L ≤ W
  u1 : u ≤ 1 / 1000
  e1 : η ≤ 1e-9
  lengths : Lengths P L
  S0 : 0.02 ≤ S
  S1 : 5 * cornerErr u m τ η R W ≤ S
  S2 : 3 * cornerErr u m τ η R L + u * (2 * L + r) + η ≤ S / 500
  half : S ≤ (P.l1 + P.lf1 + P.lr) / 2
  wide : S ≤ P.tractorWidth / 2
  half2 : S ≤ (P.lf2 + P.lr2) / 2
  wide2 : S ≤ P.trailerWidth / 2
  rectTol : 3 * (m * (R + 5 * W) + cornerErr u m τ η R W) + 6 * η ≤ tr
  circTol : circleTol u η (cornerErr u m τ η R L) (R + 5 * L) (2 * L + r) ((2 * L + r) / (2 * S)) ≤ tc
  rects : ∀ o ∈ P.rects, |o.x| ≤ R ∧ |o.y| ≤ R ∧ |o.ang| ≤ H ∧
    (0.02 ≤ o.w / 2 ∧ 5 * cornerErr u m τ η R W ≤ o.w / 2) ∧ o.w / 2 ≤ W ∧
    (0.02 ≤ o.h / 2 ∧ 5 * cornerErr u m τ η R W ≤ o.h / 2) ∧ o.h / 2 ≤ W ∧ tr ≤ o.w / 2 ∧ tr ≤ o.h / 2
  circles : ∀ c ∈ P.circles, 0 ≤ tc ∧ tc ≤ c.r ∧ c.r ≤ r ∧ η ≤ u * c.r ^ 2

/-- No body reaches deeper than `tr` into a rectangle or deeper than `tc` into a disc. -/
def GrazesTT (tr tc : ℝ) (P : Params) (q : Q4) : Prop :=
  (∀ c ∈ P.circles, NoDeeper tc (tractorBody P q.px q.py q.th1) (circleRegion c) ∧
    NoDeeper tc (trailerBody P q) (circleRegion c)) ∧
  (∀ o ∈ P.rects, NoDeeper tr (tractorBody P q.px q.py q.th1) (rectRegion o) ∧
    NoDeeper tr (trailerBody P q) (rectRegion o))

/-- The same for the bicycle. -/
def GrazesBicycle (tr tc : ℝ) (P : Params) (q : Q3) : Prop :=
  (∀ c ∈ P.circles, NoDeeper tc (tractorBody P q.px q.py q.th1) (circleRegion c)) ∧
  (∀ o ∈ P.rects, NoDeeper tr (tractorBody P q.px q.py q.th1) (rectRegion o))

/-- Tolerance of the hitch check. -/
def hitchTol (u η H : ℝ) : ℝ := u * (7 * H + 60) + η * (H + 30)

/-- A single body: clear of the rectangles up to `tr`, and clear of every disc up to `tc` unless the body
contains the disc shrunk by `tc`. -/
def GrazesBody (tr tc : ℝ) (P : Params) (b : Set Pt) : Prop :=
  (∀ c ∈ P.circles, NoDeeper tc b (circleRegion c) ∨ disc (c.x, c.y) (c.r - tc) ⊆ b) ∧
  (∀ o ∈ P.rects, NoDeeper tr b (rectRegion o))

end Spec

namespace Mbd

open Real Classical _root_.Spec

namespace Rounded

variable {A : Arith} {u m τ η H R L : ℝ}

/-! ### Depth -/

theorem noDeeper_disc {b : Set Pt} {c : Pt} {r t : ℝ} (t0 : 0 ≤ t) (tr : t ≤ r)
    (h : Spec.Apart b (Spec.disc c (r - t))) : NoDeeper t b (Spec.disc c r) := by
  intro p hp
  have hd : ¬ (p.1 - c.1) ^ 2 + (p.2 - c.2) ^ 2 ≤ (r - t) ^ 2 := fun hh => h p hp hh
  push Not at hd
  set n := √((p.1 - c.1) ^ 2 + (p.2 - c.2) ^ 2) with hn
  have hsq : n ^ 2 = (p.1 - c.1) ^ 2 + (p.2 - c.2) ^ 2 := sq_sqrt (by positivity)
  have hrn : r - t < n := by
    rw [← abs_of_nonneg (show 0 ≤ r - t by linarith)]
    rw [hn, ← sqrt_sq_eq_abs]
    exact sqrt_lt_sqrt (sq_nonneg _) hd
  have n0 : 0 < n := by linarith
  refine ⟨(p.1 + t / n * (p.1 - c.1), p.2 + t / n * (p.2 - c.2)), ?_, ?_⟩
  · unfold Spec.dist
    simp only
    rw [show (p.1 - (p.1 + t / n * (p.1 - c.1))) ^ 2 + (p.2 - (p.2 + t / n * (p.2 - c.2))) ^ 2
      = (t / n) ^ 2 * ((p.1 - c.1) ^ 2 + (p.2 - c.2) ^ 2) by ring, ← hsq, ← mul_pow,
      div_mul_cancel₀ _ n0.ne', sqrt_sq t0]
  · intro hh
    have hh' : (p.1 + t / n * (p.1 - c.1) - c.1) ^ 2 + (p.2 + t / n * (p.2 - c.2) - c.2) ^ 2 ≤ r ^ 2 := hh
    rw [show (p.1 + t / n * (p.1 - c.1) - c.1) ^ 2 + (p.2 + t / n * (p.2 - c.2) - c.2) ^ 2
      = (1 + t / n) ^ 2 * ((p.1 - c.1) ^ 2 + (p.2 - c.2) ^ 2) by ring, ← hsq, ← mul_pow,
      add_mul, div_mul_cancel₀ _ n0.ne', one_mul] at hh'
    have := (sq_le_sq₀ (by linarith) (by linarith)).mp hh'
    linarith

theorem frame_dist_one (c : Pt) (a s t s' : ℝ) : Spec.dist (Spec.frame c a s t) (Spec.frame c a s' t) = |s - s'| := by
  unfold Spec.dist Spec.frame
  rw [← sqrt_sq_eq_abs]
  congr 1
  have := sin_sq_add_cos_sq a
  calc _ = (sin a ^ 2 + cos a ^ 2) * (s - s') ^ 2 := by ring
    _ = _ := by rw [this]; ring

theorem frame_dist_two (c : Pt) (a s t t' : ℝ) : Spec.dist (Spec.frame c a s t) (Spec.frame c a s t') = |t - t'| := by
  unfold Spec.dist Spec.frame
  rw [← sqrt_sq_eq_abs]
  congr 1
  have := sin_sq_add_cos_sq a
  calc _ = (sin a ^ 2 + cos a ^ 2) * (t - t') ^ 2 := by ring
    _ = _ := by rw [this]; ring

theorem push_out {s hl t : ℝ} (t0 : 0 ≤ t) (th : t ≤ hl) (h : hl - t < |s|) : ∃ s', |s - s'| ≤ t ∧ hl < |s'| := by
  rcases le_total 0 s with h0 | h0
  · refine ⟨s + t, by rw [show s - (s + t) = -t by ring, abs_neg, abs_of_nonneg t0], ?_⟩
    rw [abs_of_nonneg h0] at h
    rw [abs_of_nonneg (by linarith)]; linarith
  · refine ⟨s - t, by rw [show s - (s - t) = t by ring, abs_of_nonneg t0], ?_⟩
    rw [abs_of_nonpos h0] at h
    rw [abs_of_nonpos (by linarith)]; linarith

theorem noDeeper_rect {b : Set Pt} {c : Pt} {a hl hw t : ℝ} (t0 : 0 ≤ t) (tl : t ≤ hl) (tw : t ≤ hw)
    (h : Spec.Apart b (Spec.solidRect c a (hl - t) (hw - t))) : NoDeeper t b (Spec.solidRect c a hl hw) := by
  intro p hp
  obtain ⟨x, y, rfl⟩ := exists_frame c a p
  have key : hl - t < |x| ∨ hw - t < |y| := by
    by_contra hh
    push Not at hh
    exact h _ hp ⟨x, y, hh.1, hh.2, rfl⟩
  rcases key with k | k
  · obtain ⟨s', h1, h2⟩ := push_out t0 tl k
    refine ⟨Spec.frame c a s' y, by rw [frame_dist_one]; exact h1, ?_⟩
    rintro ⟨s, z, h3, h4, h5⟩
    obtain ⟨e1, e2⟩ := frame_inj h5
    rw [e1] at h2
    linarith
  · obtain ⟨s', h1, h2⟩ := push_out t0 tw k
    refine ⟨Spec.frame c a x s', by rw [frame_dist_two]; exact h1, ?_⟩
    rintro ⟨s, z, h3, h4, h5⟩
    obtain ⟨e1, e2⟩ := frame_inj h5
    rw [e2] at h2
    linarith

/-! ### The circle check of a box -/

theorem edge01_sq (c : V2) (a hl hw : ℝ) : ((Mbd.boxCorners c a hl hw).c1.1 - (Mbd.boxCorners c a hl hw).c0.1) ^ 2
    + ((Mbd.boxCorners c a hl hw).c1.2 - (Mbd.boxCorners c a hl hw).c0.2) ^ 2 = (2 * hw) ^ 2 := by
  simp only [Mbd.boxCorners, Mbd.placePoint]
  have := sin_sq_add_cos_sq a
  calc _ = (sin a ^ 2 + cos a ^ 2) * (2 * hw) ^ 2 := by ring
    _ = _ := by rw [this]; ring

theorem edge12_sq (c : V2) (a hl hw : ℝ) : ((Mbd.boxCorners c a hl hw).c2.1 - (Mbd.boxCorners c a hl hw).c1.1) ^ 2
    + ((Mbd.boxCorners c a hl hw).c2.2 - (Mbd.boxCorners c a hl hw).c1.2) ^ 2 = (2 * hl) ^ 2 := by
  simp only [Mbd.boxCorners, Mbd.placePoint]
  have := sin_sq_add_cos_sq a
  calc _ = (sin a ^ 2 + cos a ^ 2) * (2 * hl) ^ 2 := by ring
    _ = _ := by rw [this]; ring

theorem edge23_sq (c : V2) (a hl hw : ℝ) : ((Mbd.boxCorners c a hl hw).c3.1 - (Mbd.boxCorners c a hl hw).c2.1) ^ 2
    + ((Mbd.boxCorners c a hl hw).c3.2 - (Mbd.boxCorners c a hl hw).c2.2) ^ 2 = (2 * hw) ^ 2 := by
  simp only [Mbd.boxCorners, Mbd.placePoint]
  have := sin_sq_add_cos_sq a
  calc _ = (sin a ^ 2 + cos a ^ 2) * (2 * hw) ^ 2 := by ring
    _ = _ := by rw [this]; ring

theorem edge30_sq (c : V2) (a hl hw : ℝ) : ((Mbd.boxCorners c a hl hw).c0.1 - (Mbd.boxCorners c a hl hw).c3.1) ^ 2
    + ((Mbd.boxCorners c a hl hw).c0.2 - (Mbd.boxCorners c a hl hw).c3.2) ^ 2 = (2 * hl) ^ 2 := by
  simp only [Mbd.boxCorners, Mbd.placePoint]
  have := sin_sq_add_cos_sq a
  calc _ = (sin a ^ 2 + cos a ^ 2) * (2 * hl) ^ 2 := by ring
    _ = _ := by rw [this]; ring

/-- If the rounded circle check passes, the exact check passes for the disc shrunk by the tolerance. -/
theorem circle_sound (acc : Spec.Accurate A u m τ η H) (u0 : 0 ≤ u) (u1 : u ≤ 1 / 1000) (e0 : 0 ≤ η) (e1 : η ≤ 1e-9)
    {c o : V2} {a hl hw ε B S r₀ r t : ℝ} {k' : Corners} (ε0 : 0 ≤ ε)
    (hc : Close ε (Mbd.boxCorners c a hl hw) k') (hb : Within B k')
    (S0 : 0.02 ≤ S) (s1 : S ≤ hl) (s2 : S ≤ hw) (l1 : hl ≤ L) (l2 : hw ≤ L) (hr : r ≤ r₀)
    (hδ : 3 * ε + u * (2 * L + r₀) + η ≤ S / 500) (ht0 : 0 ≤ t) (htr : t ≤ r)
    (ht : Spec.circleTol u η ε B (2 * L + r₀) ((2 * L + r₀) / (2 * S)) ≤ t)
    (hη : η ≤ u * r ^ 2) (h : ¬ rectCircle A k' o r) : ¬ Mbd.rectCircle (Mbd.boxCorners c a hl hw) o (r - t) := by
  have D0 : 0 < 2 * L + r₀ := by linarith
  have hK : ∀ x, S ≤ x → 2 * L + r₀ ≤ (2 * L + r₀) / (2 * S) * (2 * x) := by
    intro x hx
    rw [div_mul_eq_mul_div, le_div_iff₀ (by linarith)]
    exact mul_le_mul_of_nonneg_left (by linarith) D0.le
  rw [rectCircle_iff_le]
  unfold rectCircle at h
  rw [min_le_iff, min_le_iff, min_le_iff] at h
  push Not at h
  obtain ⟨⟨n1, n2⟩, n3, n4⟩ := h
  rintro (q | q | q | q)
  · exact absurd (edge_sound acc u0 u1 e0 e1 ε0 hc.c0x hc.c0y hc.c1x hc.c1y hb.c0x hb.c0y (edge01_sq c a hl hw)
      (by linarith) (by linarith) (hK hw s2) (by linarith) ht0 htr ht hη q) (not_le.mpr n1)
  · exact absurd (edge_sound acc u0 u1 e0 e1 ε0 hc.c1x hc.c1y hc.c2x hc.c2y hb.c1x hb.c1y (edge12_sq c a hl hw)
      (by linarith) (by linarith) (hK hl s1) (by linarith) ht0 htr ht hη q) (not_le.mpr n2)
  · exact absurd (edge_sound acc u0 u1 e0 e1 ε0 hc.c2x hc.c2y hc.c3x hc.c3y hb.c2x hb.c2y (edge23_sq c a hl hw)
      (by linarith) (by linarith) (hK hw s2) (by linarith) ht0 htr ht hη q) (not_le.mpr n3)
  · exact absurd (edge_sound acc u0 u1 e0 e1 ε0 hc.c3x hc.c3y hc.c0x hc.c0y hb.c3x hb.c3y (edge30_sq c a hl hw)
      (by linarith) (by linarith) (hK hl s1) (by linarith) ht0 htr ht hη q) (not_le.mpr n4)

/-! ### One body -/

theorem cornerErr_nonneg (f : Spec.Fine u m τ η R L) : 0 ≤ Spec.cornerErr u m τ η R L := by
  unfold Spec.cornerErr
  have g1 := mul_nonneg f.u0 f.R0
  have g2 := mul_nonneg f.u0 f.L0.le
  have g3 := mul_nonneg f.m0 f.L0.le
  have g4 := mul_nonneg f.t0 f.L0.le
  have := f.e0
  linarith

/-- A box whose rounded corners pass the rounded checks. -/
theorem box_grazes (acc : Spec.Accurate A u m τ η H) {S W r tr tc : ℝ} {P : Params}
    (ok : RoundOK u m τ η H R S L W r tr tc P) {c : V2} {a hl hw : ℝ} {k : Corners}
    (cL : Close (Spec.cornerErr u m τ η R L) (Mbd.boxCorners c a hl hw) k)
    (cW : Close (Spec.cornerErr u m τ η R W) (Mbd.boxCorners c a hl hw) k) (hb : Within (R + 5 * L) k)
    (s1 : S ≤ hl) (s2 : S ≤ hw) (l1 : hl ≤ L) (l2 : hw ≤ L)
    (hc : ∀ c ∈ P.circles, ¬ rectCircle A k (c.x, c.y) c.r) (hr : ∀ o ∈ P.rects, ¬ rectRect A k (rectCorners A o)) :
    (∀ o ∈ P.circles, Spec.Apart (Spec.solidRect c a hl hw) (Spec.disc (o.x, o.y) (o.r - tc)) ∨
      Spec.disc (o.x, o.y) (o.r - tc) ⊆ Spec.solidRect c a hl hw) ∧
    (∀ o ∈ P.circles, hw ≤ o.r - tc → Spec.Apart (Spec.solidRect c a hl hw) (Spec.disc (o.x, o.y) (o.r - tc))) ∧
    (∀ o ∈ P.rects, Spec.Apart (Spec.solidRect c a hl hw)
      (Spec.solidRect (o.x, o.y) o.ang (o.w / 2 - tr) (o.h / 2 - tr))) := by
  have S0 := ok.S0
  have hW := ok.fineW
  have u1 := ok.u1
  have key : ∀ o ∈ P.circles, ¬ Mbd.rectCircle (Mbd.boxCorners c a hl hw) (o.x, o.y) (o.r - tc) := by
    intro o ho
    obtain ⟨q1, q2, q3, q4⟩ := ok.circles o ho
    exact circle_sound acc ok.fineL.u0 ok.u1 ok.fineL.e0 ok.e1 (cornerErr_nonneg ok.fineL) cL hb ok.S0 s1 s2 l1 l2
      q3 ok.S2 q1 q2 ok.circTol q4 (hc o ho)
  refine ⟨fun o ho => ?_, fun o ho hw' => ?_, fun o ho => ?_⟩
  · exact box_clear_circle (o := ⟨o.x, o.y, o.r - tc⟩) (by linarith) (by linarith)
      (by have := (ok.circles o ho).2.1; simp only; linarith) (key o ho)
  · exact not_contained_of_width (o := ⟨o.x, o.y, o.r - tc⟩) (by linarith) (by linarith) hw' (key o ho)
  · obtain ⟨o1, o2, o3, ⟨o4, o4'⟩, o5, ⟨o6, o6'⟩, o7, o8, o9⟩ := ok.rects o ho
    have e0 := cornerErr_nonneg hW
    have L0 := ok.fineL.L0
    have R0 := hW.R0
    have le := ok.le
    have a1 : |o.w / 2| ≤ W := by rw [abs_of_nonneg (by linarith)]; exact o5
    have a2 : |o.h / 2| ≤ W := by rw [abs_of_nonneg (by linarith)]; exact o7
    have cl := rect_close acc hW o1 o2 o3 a1 a2
    have sm := hW.small
    have wi : Within (R + 5 * W) (rectCorners A o) := by
      have := (box_within (ang := o.ang) (c := (o.x, o.y)) a1 a2 o1 o2).close cl
      exact this.mono (by linarith)
    have S1 := ok.S1
    exact rect_sound acc hW.u0 (by linarith) hW.m0 hW.e0 ok.e1 (by linarith) e0
      (by linarith) (by linarith) (by linarith) (by linarith) (by linarith) (by linarith) (by linarith) (by linarith)
      cW cl (hb.mono (by linarith)) wi ok.rectTol (hr o ho)

/-- Corners of the tractor: accuracy and range. -/
theorem tractor_ok (acc : Spec.Accurate A u m τ η H) {S W r tr tc : ℝ} {P : Params}
    (ok : RoundOK u m τ η H R S L W r tr tc P) {px py th : ℝ} (hx : |px| ≤ R) (hy : |py| ≤ R) (ha : |th| ≤ H) :
    Close (Spec.cornerErr u m τ η R L) (P.tractorCorners px py th) (tractorCorners A P px py th) ∧
    Close (Spec.cornerErr u m τ η R W) (P.tractorCorners px py th) (tractorCorners A P px py th) ∧
    Within (R + 5 * L) (tractorCorners A P px py th) := by
  have hl := ok.lengths
  have hl' : Spec.Lengths P W := ⟨hl.mid.trans ok.le, hl.half.trans ok.le, hl.wide.trans ok.le, hl.hitch.trans ok.le,
    hl.mid2.trans ok.le, hl.half2.trans ok.le, hl.wide2.trans ok.le⟩
  have c1 := tractor_close acc ok.fineL hl hx hy ha
  refine ⟨c1, tractor_close acc ok.fineW hl' hx hy ha, ?_⟩
  have L0 := ok.fineL.L0
  have sm := ok.fineL.small
  have b1 : |px + 0.5 * (P.l1 + P.lf1 - P.lr) * cos th| ≤ R + L := by
    rw [add_comm]; exact abs_lever_le hl.mid (abs_cos_le_one th) hx
  have b2 : |py + 0.5 * (P.l1 + P.lf1 - P.lr) * sin th| ≤ R + L := by
    rw [add_comm]; exact abs_lever_le hl.mid (abs_sin_le_one th) hy
  exact ((box_within (ang := th) hl.half hl.wide b1 b2).close c1).mono (by linarith)

theorem trailer_ok (acc : Spec.Accurate A u m τ η H) {S W r tr tc : ℝ} {P : Params}
    (ok : RoundOK u m τ η H R S L W r tr tc P) {q : Q4} (hq : InField4 R H q) :
    Close (Spec.cornerErr u m τ η R L) (TT2d.trailerCorners P q) (trailerCorners A P q) ∧
    Close (Spec.cornerErr u m τ η R W) (TT2d.trailerCorners P q) (trailerCorners A P q) ∧
    Within (R + 5 * L) (trailerCorners A P q) := by
  have hl := ok.lengths
  have hl' : Spec.Lengths P W := ⟨hl.mid.trans ok.le, hl.half.trans ok.le, hl.wide.trans ok.le, hl.hitch.trans ok.le,
    hl.mid2.trans ok.le, hl.half2.trans ok.le, hl.wide2.trans ok.le⟩
  have c1 := trailer_close acc ok.fineL hl hq.px hq.py hq.th1 hq.th2
  refine ⟨c1, trailer_close acc ok.fineW hl' hq.px hq.py hq.th1 hq.th2, ?_⟩
  have L0 := ok.fineL.L0
  have sm := ok.fineL.small
  have hn : |-P.lh| ≤ L := by rw [abs_neg]; exact hl.hitch
  have b1 : |0.5 * (P.lf2 - P.lr2 - 2 * P.l2) * cos q.th2 + (-P.lh * cos q.th1 + q.px)| ≤ R + L + L := by
    refine abs_lever_le ?_ (abs_cos_le_one _) (abs_lever_le hn (abs_cos_le_one _) hq.px)
    have := hl.mid2
    rwa [show 0.5 * (P.lf2 - P.lr2) - P.l2 = 0.5 * (P.lf2 - P.lr2 - 2 * P.l2) by ring] at this
  have b2 : |0.5 * (P.lf2 - P.lr2 - 2 * P.l2) * sin q.th2 + (-P.lh * sin q.th1 + q.py)| ≤ R + L + L := by
    refine abs_lever_le ?_ (abs_sin_le_one _) (abs_lever_le hn (abs_sin_le_one _) hq.py)
    have := hl.mid2
    rwa [show 0.5 * (P.lf2 - P.lr2) - P.l2 = 0.5 * (P.lf2 - P.lr2 - 2 * P.l2) by ring] at this
  have wb : Within (R + L + L + 2 * L) (TT2d.trailerCorners P q) := by
    rw [trailerCorners_eq]
    refine box_within hl.half2 hl.wide2 ?_ ?_
    · unfold bodyCenter Spec.trailerAxle Spec.frame
      simp only
      refine le_trans (le_of_eq ?_) b1
      congr 1; ring
    · unfold bodyCenter Spec.trailerAxle Spec.frame
      simp only
      refine le_trans (le_of_eq ?_) b2
      congr 1; ring
  exact (wb.close c1).mono (by linarith)

theorem rectTol_nonneg {S W r tr tc : ℝ} {P : Params} (ok : RoundOK u m τ η H R S L W r tr tc P) : 0 ≤ tr := by
  have h := ok.rectTol
  have h1 := cornerErr_nonneg ok.fineW
  have h2 := mul_nonneg ok.fineW.m0 (show 0 ≤ R + 5 * W by have := ok.fineW.L0; have := ok.fineW.R0; linarith)
  have := ok.fineW.e0
  linarith

/-- From shrunk obstacles to depths. -/
theorem grazes_of_apart {S W r tr tc : ℝ} {P : Params} (ok : RoundOK u m τ η H R S L W r tr tc P) {b : Set Pt}
    (h1 : ∀ o ∈ P.circles, Spec.Apart b (Spec.disc (o.x, o.y) (o.r - tc)) ∨ Spec.disc (o.x, o.y) (o.r - tc) ⊆ b)
    (h2 : ∀ o ∈ P.rects, Spec.Apart b (Spec.solidRect (o.x, o.y) o.ang (o.w / 2 - tr) (o.h / 2 - tr))) :
    GrazesBody tr tc P b := by
  refine ⟨fun c hc => ?_, fun o ho => ?_⟩
  · obtain ⟨q1, q2, -, -⟩ := ok.circles c hc
    rcases h1 c hc with h | h
    · exact Or.inl (noDeeper_disc q1 q2 h)
    · exact Or.inr h
  · obtain ⟨-, -, -, -, -, -, -, o8, o9⟩ := ok.rects o ho
    exact noDeeper_rect (rectTol_nonneg ok) o8 o9 (h2 o ho)

theorem tractor_grazes (acc : Spec.Accurate A u m τ η H) {S W r tr tc : ℝ} {P : Params}
    (ok : RoundOK u m τ η H R S L W r tr tc P) {px py th : ℝ} (hx : |px| ≤ R) (hy : |py| ≤ R) (ha : |th| ≤ H)
    (hc : ∀ c ∈ P.circles, ¬ rectCircle A (tractorCorners A P px py th) (c.x, c.y) c.r)
    (hr : ∀ o ∈ P.rects, ¬ rectRect A (tractorCorners A P px py th) (rectCorners A o)) :
    GrazesBody tr tc P (Spec.tractorBody P px py th) ∧
    ∀ c ∈ P.circles, P.tractorWidth / 2 ≤ c.r - tc → NoDeeper tc (Spec.tractorBody P px py th) (circleRegion c) := by
  obtain ⟨k1, k2, k3⟩ := tractor_ok acc ok hx hy ha
  rw [tractorCorners_eq] at k1 k2
  have hl := ok.lengths
  obtain ⟨b1, b2, b3⟩ := box_grazes acc ok k1 k2 k3 ok.half ok.wide ((le_abs_self _).trans hl.half)
    ((le_abs_self _).trans hl.wide) hc hr
  unfold Spec.tractorBody
  rw [body_eq]
  refine ⟨grazes_of_apart ok b1 b3, fun c hcm hw => ?_⟩
  obtain ⟨q1, q2, -, -⟩ := ok.circles c hcm
  exact noDeeper_disc q1 q2 (b2 c hcm hw)

theorem trailer_grazes (acc : Spec.Accurate A u m τ η H) {S W r tr tc : ℝ} {P : Params}
    (ok : RoundOK u m τ η H R S L W r tr tc P) {q : Q4} (hq : InField4 R H q)
    (hc : ∀ c ∈ P.circles, ¬ rectCircle A (trailerCorners A P q) (c.x, c.y) c.r)
    (hr : ∀ o ∈ P.rects, ¬ rectRect A (trailerCorners A P q) (rectCorners A o)) :
    GrazesBody tr tc P (Spec.trailerBody P q) ∧
    ∀ c ∈ P.circles, P.trailerWidth / 2 ≤ c.r - tc → NoDeeper tc (Spec.trailerBody P q) (circleRegion c) := by
  obtain ⟨k1, k2, k3⟩ := trailer_ok acc ok hq
  rw [trailerCorners_eq] at k1 k2
  have hl := ok.lengths
  obtain ⟨b1, b2, b3⟩ := box_grazes acc ok k1 k2 k3 ok.half2 ok.wide2 ((le_abs_self _).trans hl.half2)
    ((le_abs_self _).trans hl.wide2) hc hr
  unfold Spec.trailerBody
  rw [body_eq]
  refine ⟨grazes_of_apart ok b1 b3, fun c hcm hw => ?_⟩
  obtain ⟨q1, q2, -, -⟩ := ok.circles c hcm
  exact noDeeper_disc q1 q2 (b2 c hcm hw)

end Rounded

/-! ## The checks -/

/-- C76, tractor-trailer: if the collision check computed with rounding errors passes, no body reaches deeper than
the tolerance into an obstacle (or the body swallows the shrunk disc, which the check does not detect even
without rounding, see C05). -/
theorem C76_check_tt2d {A : Arith} {u m τ η H R S L W r tr tc : ℝ} {P : Params} (acc : Spec.Accurate A u m τ η H)
    (ok : RoundOK u m τ η H R S L W r tr tc P) {q : Q4} (hq : InField4 R H q) (h : ¬ Rounded.checkObstacle A P q) :
    GrazesBody tr tc P (Spec.tractorBody P q.px q.py q.th1) ∧ GrazesBody tr tc P (Spec.trailerBody P q) := by
  unfold Rounded.checkObstacle at h
  simp only at h
  push Not at h
  obtain ⟨h1, h2⟩ := h
  exact ⟨(Rounded.tractor_grazes acc ok hq.px hq.py hq.th1 (fun c hc => (h1 c hc).1) (fun o ho => (h2 o ho).1)).1,
    (Rounded.trailer_grazes acc ok hq (fun c hc => (h1 c hc).2) (fun o ho => (h2 o ho).2)).1⟩

/-- C76, bicycle. -/
theorem C76_check_bicycle {A : Arith} {u m τ η H R S L W r tr tc : ℝ} {P : Params} (acc : Spec.Accurate A u m τ η H)
    (ok : RoundOK u m τ η H R S L W r tr tc P) {q : Q3} (hq : InField3 R H q) (h : ¬ Rounded.checkObstacleB A P q) :
    GrazesBody tr tc P (Spec.tractorBody P q.px q.py q.th1) := by
  unfold Rounded.checkObstacleB at h
  simp only at h
  push Not at h
  exact (Rounded.tractor_grazes acc ok hq.px hq.py hq.th1 h.1 h.2).1

theorem grazes_wide {A : Arith} {u m τ η H R S L W r tr tc : ℝ} {P : Params} (acc : Spec.Accurate A u m τ η H)
    (ok : RoundOK u m τ η H R S L W r tr tc P)
    (hw : ∀ c ∈ P.circles, P.tractorWidth / 2 ≤ c.r - tc ∧ P.trailerWidth / 2 ≤ c.r - tc)
    {q : Q4} (hq : InField4 R H q) (h : ¬ Rounded.checkObstacle A P q) : GrazesTT tr tc P q := by
  unfold Rounded.checkObstacle at h
  simp only at h
  push Not at h
  obtain ⟨h1, h2⟩ := h
  obtain ⟨a1, a2⟩ := Rounded.tractor_grazes acc ok hq.px hq.py hq.th1 (fun c hc => (h1 c hc).1) (fun o ho => (h2 o ho).1)
  obtain ⟨b1, b2⟩ := Rounded.trailer_grazes acc ok hq (fun c hc => (h1 c hc).2) (fun o ho => (h2 o ho).2)
  exact ⟨fun c hc => ⟨a2 c hc (hw c hc).1, b2 c hc (hw c hc).2⟩, fun o ho => ⟨a1.2 o ho, b1.2 o ho⟩⟩

/-! ## The run -/

/-- Every state of a rollout satisfies a property which the steps preserve. -/
theorem Rounded.states_forall {Q : Type} {f : Q → U → Q} {p : Q → Prop} (hf : ∀ q a, p q → p (f q a)) :
    ∀ (us : List U) (q : Q), p q → ∀ q' ∈ Rounded.states f q us, p q'
  | [], _, _ => by simp [Rounded.states]
  | a :: us, q, h => by
    intro q' hq'
    rw [Rounded.states, List.mem_cons] at hq'
    rcases hq' with rfl | hq'
    · exact hf q a h
    · exact Rounded.states_forall hf us _ (hf q a h) q' hq'

theorem Rounded.step_passes {A : Arith} {P : Params} (hs : P.shieldCollision = true) (q : Q4) (a : U)
    (h : ¬ Rounded.checkObstacle A P q) : ¬ Rounded.checkObstacle A P (Rounded.step A P q a) := by
  unfold Rounded.step kinShieldedRollout
  simp only [hs]
  split_ifs <;> simp_all

/-- C76, the shielded run: with the collision shield on and discs that do not fit into a body, no recorded state in
the field has a body deeper than the tolerance in an obstacle, whatever the rounding errors of the motion are. -/
theorem C76_run_tt2d {A : Arith} {u m τ η H R S L W r tr tc : ℝ} {P : Params} (acc : Spec.Accurate A u m τ η H)
    (ok : RoundOK u m τ η H R S L W r tr tc P) (hs : P.shieldCollision = true)
    (hw : ∀ c ∈ P.circles, P.tractorWidth / 2 ≤ c.r - tc ∧ P.trailerWidth / 2 ≤ c.r - tc)
    (q : Q4) (h0 : ¬ Rounded.checkObstacle A P q) (us : List U) :
    ∀ q' ∈ Rounded.states (Rounded.step A P) q us, InField4 R H q' → GrazesTT tr tc P q' :=
  fun q' hq' hf => grazes_wide acc ok hw hf
    (Rounded.states_forall (p := fun q => ¬ Rounded.checkObstacle A P q) (Rounded.step_passes hs) us q h0 q' hq')

/-- C76, bicycle. -/
theorem C76_run_bicycle {A : Arith} {u m τ η H R S L W r tr tc : ℝ} {P : Params} (acc : Spec.Accurate A u m τ η H)
    (ok : RoundOK u m τ η H R S L W r tr tc P) (hs : P.shieldCollision = true)
    (hw : ∀ c ∈ P.circles, P.tractorWidth / 2 ≤ c.r - tc)
    (q : Q3) (h0 : ¬ Rounded.checkObstacleB A P q) (us : List U) :
    ∀ q' ∈ Rounded.states (Rounded.stepB A P) q us, InField3 R H q' → GrazesBicycle tr tc P q' := by
  intro q' hq' hf
  have h := Rounded.states_forall (p := fun q => ¬ Rounded.checkObstacleB A P q)
    (fun q a h => by
      unfold Rounded.stepB kinShieldedRollout
      simp only [hs]
      split_ifs <;> simp_all) us q h0 q' hq'
  unfold Rounded.checkObstacleB at h
  simp only at h
  push Not at h
  obtain ⟨a1, a2⟩ := Rounded.tractor_grazes acc ok hf.px hf.py hf.th1 h.1 h.2
  exact ⟨fun c hc => a2 c hc (hw c hc), a1.2⟩

/-- Depth in a padded disc and distance from the disc itself. -/
theorem Rounded.pad_circle {b : Set Pt} {c : Circle} {p t : ℝ} (hr : 0 ≤ c.r) (hp : 0 ≤ p)
    (h : NoDeeper t b (circleRegion ⟨c.x, c.y, c.r + p⟩)) : KeepsAway (p - t) b (circleRegion c) := by
  intro a ha z hz
  obtain ⟨w, h1, h2⟩ := h a ha
  have h3 : p < Spec.dist w z :=
    away_circle (A := {w}) hr hp (fun x hx hx' => h2 (by rw [Set.mem_singleton_iff] at hx; rwa [← hx])) w rfl z hz
  rw [dist_eq] at *
  have : ‖toC w - toC z‖ ≤ ‖toC a - toC w‖ + ‖toC a - toC z‖ := by
    rw [show toC w - toC z = -(toC a - toC w) + (toC a - toC z) by ring]
    refine (norm_add_le _ _).trans ?_
    rw [norm_neg]
  linarith

theorem Rounded.pad_rect {b : Set Pt} {o : Rect} {p t : ℝ} (hp : 0 ≤ p)
    (h : NoDeeper t b (rectRegion ⟨o.x, o.y, o.w + p * 2, o.h + p * 2, o.ang⟩)) :
    KeepsAway (p - t) b (rectRegion o) := by
  intro a ha z hz
  obtain ⟨w, h1, h2⟩ := h a ha
  have h3 : p < Spec.dist w z :=
    away_rect (A := {w}) hp (fun x hx hx' => h2 (by rw [Set.mem_singleton_iff] at hx; rwa [← hx])) w rfl z hz
  rw [dist_eq] at *
  have : ‖toC w - toC z‖ ≤ ‖toC a - toC w‖ + ‖toC a - toC z‖ := by
    rw [show toC w - toC z = -(toC a - toC w) + (toC a - toC z) by ring]
    refine (norm_add_le _ _).trans ?_
    rw [norm_neg]
  linarith

/-- C76, padding: with obstacles registered with padding `p`, the bodies keep the padding minus the tolerance away
from the original obstacles; a padding of the tolerance thus makes up for the rounding errors. -/
theorem C76_padded_tt2d {A : Arith} {u m τ η H R S L W r tr tc p t : ℝ} {P : Params} (acc : Spec.Accurate A u m τ η H)
    (ok : RoundOK u m τ η H R S L W r tr tc P) (hs : P.shieldCollision = true)
    (hw : ∀ c ∈ P.circles, P.tractorWidth / 2 ≤ c.r - tc ∧ P.trailerWidth / 2 ≤ c.r - tc)
    {cs : List Circle} {rs : List Rect} (pad : Padded p P cs rs) (hp : 0 ≤ p) (h1 : tr ≤ t) (h2 : tc ≤ t)
    (hcs : ∀ c ∈ cs, 0 ≤ c.r) (q : Q4) (h0 : ¬ Rounded.checkObstacle A P q) (us : List U) :
    ∀ q' ∈ Rounded.states (Rounded.step A P) q us, InField4 R H q' → Margin4 (p - t) P cs rs q' := by
  intro q' hq' hf
  obtain ⟨g1, g2⟩ := C76_run_tt2d acc ok hs hw q h0 us q' hq' hf
  have mono : ∀ {x y : ℝ} {b c : Set Pt}, y ≤ x → KeepsAway x b c → KeepsAway y b c :=
    fun hxy h a ha z hz => lt_of_le_of_lt hxy (h a ha z hz)
  constructor
  · intro c hc
    obtain ⟨c', hc', rfl⟩ := forall2_mem_right (padded_circles pad) c hc
    exact ⟨mono (by linarith) (Rounded.pad_circle (hcs c hc) hp (g1 _ hc').1),
      mono (by linarith) (Rounded.pad_circle (hcs c hc) hp (g1 _ hc').2)⟩
  · intro o ho
    obtain ⟨o', ho', rfl⟩ := forall2_mem_right (padded_rects pad) o ho
    exact ⟨mono (by linarith) (Rounded.pad_rect hp (g2 _ ho').1),
      mono (by linarith) (Rounded.pad_rect hp (g2 _ ho').2)⟩

/-! ## The hitch check -/

theorem Rounded.wrap_err {A : Arith} {u m τ η H : ℝ} (acc : Spec.Accurate A u m τ η H) (u0 : 0 ≤ u) (u1 : u ≤ 1 / 1000)
    (e0 : 0 ≤ η) (e1 : η ≤ 1e-9) {a b : ℝ} (H0 : 0 ≤ H) (ha : |a| ≤ H) (hb : |b| ≤ H) :
    ∃ k : ℤ, |Rounded.wrapPi A (A.sub a b) - (a - b + 2 * π * k)| ≤ u * (7 * H + 55) + η * (H + 25) := by
  have p1 := pi_gt_d2
  have p2 := pi_lt_d2
  have ab : |a - b| ≤ 2 * H := (abs_sub a b).trans (by linarith)
  have x1 := acc.sub a b
  have x1' := mul_abs_le u0 ab
  have x2 := acc.const π
  rw [abs_of_pos pi_pos] at x2
  have x2' := mul_abs_le u0 p2.le
  have x3 := acc.add (A.sub a b) (A.const π)
  have x4 := acc.const (2 * π)
  rw [abs_of_pos (by linarith : 0 < 2 * π)] at x4
  have x4' := mul_abs_le u0 (show 2 * π ≤ 6.3 by linarith)
  unfold Rounded.wrapPi
  generalize A.sub a b = d at *
  generalize A.const π = π' at *
  generalize A.const (2 * π) = b2 at *
  have uH : u * H ≤ 1 / 1000 * H := mul_le_mul_of_nonneg_right u1 H0
  have y1 : |d - (a - b)| ≤ 2 * (u * H) + η := by linarith
  have y2 : |π' - π| ≤ 0.004 := by linarith
  obtain ⟨y2a, y2b⟩ := abs_le.mp y2
  have y4 : |b2 - 2 * π| ≤ 6.3 * u + η := by linarith
  have y4' : |b2 - 2 * π| ≤ 0.007 := by linarith
  obtain ⟨y4a, y4b⟩ := abs_le.mp y4'
  have d1 : |d| ≤ 2.002 * H + 1e-9 := (abs_le_of_err y1 ab).trans (by linarith)
  have d2 : |d + π'| ≤ 2.002 * H + 3.16 := by
    refine (abs_add_le _ _).trans ?_
    rw [abs_of_pos (show 0 < π' by linarith)]
    linarith
  have y3 : |A.add d π' - (d + π')| ≤ 2.002 * (u * H) + 3.16 * u + η := by
    have := mul_abs_le u0 d2
    linarith
  generalize A.add d π' = s at *
  have s1 : |s| ≤ 2.005 * H + 3.17 := (abs_le_of_err y3 d2).trans (by linarith)
  obtain ⟨r1, r2, k, r3, r4⟩ := acc.rem s b2 (by linarith)
  have r5 : |(k : ℝ)| ≤ 0.33 * H + 1.6 := by
    have : |s| / b2 ≤ 0.33 * H + 0.6 := by
      rw [div_le_iff₀ (by linarith)]
      have := mul_le_mul_of_nonneg_left (show (6.1 : ℝ) ≤ b2 by linarith) (show 0 ≤ 0.33 * H + 0.6 by linarith)
      linarith
    linarith
  have r6 : |(k : ℝ) * (b2 - 2 * π)| ≤ 2.08 * (u * H) + 10.08 * u + η * (0.33 * H + 1.6) := by
    rw [abs_mul]
    have := mul_le_mul r5 y4 (abs_nonneg _) (by linarith)
    refine this.trans (le_of_sub_nonneg ?_)
    have : 0 ≤ u * H := mul_nonneg u0 H0
    ring_nf
    linarith
  have r4' : |A.rem s b2 - (s - k * b2)| ≤ 6.31 * u + η := by
    have := mul_abs_le u0 (show b2 ≤ 6.31 by linarith)
    linarith
  have w := acc.sub (A.rem s b2) π'
  generalize A.rem s b2 = ρ at *
  have w1 : |ρ - π'| ≤ 3.2 := abs_le.mpr ⟨by linarith, by linarith⟩
  have w2 := mul_abs_le u0 w1
  refine ⟨-k, ?_⟩
  have e : A.sub ρ π' - (a - b + 2 * π * ((-k : ℤ) : ℝ)) = (A.sub ρ π' - (ρ - π')) + (ρ - (s - k * b2))
      + (s - (d + π')) + (d - (a - b)) - k * (b2 - 2 * π) := by push_cast; ring
  rw [e]
  have t1 := abs_sub ((A.sub ρ π' - (ρ - π')) + (ρ - (s - k * b2)) + (s - (d + π')) + (d - (a - b)))
    ((k : ℝ) * (b2 - 2 * π))
  have t2 := abs_add_le ((A.sub ρ π' - (ρ - π')) + (ρ - (s - k * b2)) + (s - (d + π'))) (d - (a - b))
  have t3 := abs_add_le ((A.sub ρ π' - (ρ - π')) + (ρ - (s - k * b2))) (s - (d + π'))
  have t4 := abs_add_le (A.sub ρ π' - (ρ - π')) (ρ - (s - k * b2))
  have g1 : 0 ≤ u * H := mul_nonneg u0 H0
  have g2 : 0 ≤ η * H := mul_nonneg e0 H0
  rw [mul_add, ← mul_assoc] at *
  linarith

/-- C76, hitch: if the hitch check computed with rounding errors passes, the hitch angle, read modulo full turns, does
not exceed the limit by more than the tolerance. -/
theorem C76_hitch {A : Arith} {u m τ η H R : ℝ} {P : Params} (acc : Spec.Accurate A u m τ η H) (u0 : 0 ≤ u)
    (u1 : u ≤ 1 / 1000) (e0 : 0 ≤ η) (e1 : η ≤ 1e-9) {q : Q4} (hq : InField4 R H q)
    (h : ¬ Rounded.checkHitch A P q) :
    ¬ Spec.exceedsModTurns (P.phiMax + hitchTol u η H) (q.th1 - q.th2) := by
  unfold Rounded.checkHitch at h
  push Not at h
  have hphi : |P.phiMax| ≤ 5 := by
    unfold Params.phiMax deg2rad
    have := pi_lt_d2
    have := pi_pos
    rw [abs_of_pos (by positivity)]
    linarith
  have H0 : 0 ≤ H := (abs_nonneg _).trans hq.th1
  obtain ⟨k, hk⟩ := Rounded.wrap_err acc u0 u1 e0 e1 H0 hq.th1 hq.th2
  intro hx
  have hx := hx k
  have hc := abs_le.mp (acc.const P.phiMax)
  have hc' := Rounded.mul_abs_le u0 hphi
  have t := abs_sub (Rounded.wrapPi A (A.sub q.th1 q.th2))
    (Rounded.wrapPi A (A.sub q.th1 q.th2) - (q.th1 - q.th2 + 2 * π * k))
  rw [sub_sub_cancel] at t
  unfold hitchTol at hx
  have g1 : 0 ≤ u * H := mul_nonneg u0 H0
  have g2 : 0 ≤ η * H := mul_nonneg e0 H0
  ring_nf at *
  linarith

end Mbd
