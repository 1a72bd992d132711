import Verif.PropsStraighten
import Mathlib.Analysis.Calculus.Deriv.MeanValue
import Mathlib.Analysis.SpecialFunctions.Trigonometric.Deriv
import Mathlib.Analysis.SpecialFunctions.Trigonometric.Bounds

/-!
# C80: guidance does not make things worse
-/

namespace Spec

/-- How much the point `p` falls short of the 2 m margin to the circle `c`. -/
noncomputable def shortfall (c : Mbd.Circle) (p : Pt) : ℝ := max 0 (c.r + 2 - dist p (c.x, c.y))

/-- How far an angle exceeds the limit `phi`. -/
noncomputable def excess (phi a : ℝ) : ℝ := max 0 (|a| - phi)

/-- What guidance tries to reduce for a bicycle: the squares of the shortfalls. -/
noncomputable def unsafety (cs : List Mbd.Circle) (p : Pt) : ℝ := (cs.map fun c => shortfall c p ^ 2).sum

/-- What guidance tries to reduce for a vehicle with a trailer: the squares of the shortfalls of both axles and
the square of the excess hitch angle (as given, or one turn more or less), weighted. -/
noncomputable def unsafetyTT (P : Mbd.Params) (q : Mbd.Q4) : ℝ :=
  unsafety P.circles (q.px, q.py) + unsafety P.circles (trailerAxlePt P.lh P.l2 q) +
    max 1 ((0.05 : ℝ) * ((P.circles.length : ℝ) + P.rects.length)) *
      min (excess P.phiMax (q.th1 - q.th2) ^ 2)
        (min (excess P.phiMax (q.th1 - q.th2 + 2 * Real.pi) ^ 2)
          (excess P.phiMax (q.th1 - q.th2 - 2 * Real.pi) ^ 2))

open Classical in
/-- The number of circles whose margin is violated at `p` or at `p'`. -/
noncomputable def involved (cs : List Mbd.Circle) (p p' : Pt) : ℕ :=
  (cs.filter fun c => decide (shortfall c p ≠ 0 ∨ shortfall c p' ≠ 0)).length

end Spec

namespace Mbd

open Real Classical Guide

theorem hinge_sq_le (x t : ℝ) : hinge (x + t) ^ 2 ≤ hinge x ^ 2 + 2 * hinge x * t + t ^ 2 := by
  unfold hinge
  rcases le_total 0 x with hx | hx
  · rw [max_eq_right hx]
    rcases le_total 0 (x + t) with h | h
    · rw [max_eq_right h]; apply le_of_eq; ring
    · rw [max_eq_left h]; nlinarith [sq_nonneg (x + t)]
  · rw [max_eq_left hx]
    rcases le_total 0 (x + t) with h | h
    · rw [max_eq_right h]; nlinarith
    · rw [max_eq_left h]; nlinarith [sq_nonneg t]

theorem hinge_mono {x y : ℝ} (h : x ≤ y) : hinge x ≤ hinge y := max_le_max le_rfl h

theorem cauchy2 (a b x y : ℝ) : |a * x + b * y| ≤ √(a ^ 2 + b ^ 2) * √(x ^ 2 + y ^ 2) := by
  rw [← sqrt_mul (by positivity), ← sqrt_sq_eq_abs]
  apply sqrt_le_sqrt
  nlinarith [sq_nonneg (a * y - b * x)]

/-- The squared shortfall has a quadratic upper bound around every point but the centre. -/
theorem circlePen_quad (c : Circle) (p g s : V2) (hg : circleGrad c p = some g) :
    circlePen c (p.1 + s.1, p.2 + s.2) ≤ circlePen c p + (g.1 * s.1 + g.2 * s.2) + (s.1 ^ 2 + s.2 ^ 2) := by
  unfold circleGrad at hg
  simp only at hg
  split at hg
  · exact absurd hg (by simp)
  · rename_i hd
    simp only [Option.some.injEq] at hg
    have hpos := norm2_pos hd
    set d := norm2 (p - (c.x, c.y)) with hdd
    have hd2 : d ^ 2 = (p.1 - c.x) ^ 2 + (p.2 - c.y) ^ 2 := by
      rw [hdd]; unfold norm2; rw [sq_sqrt (by positivity)]; simp
    set t := ((p.1 - c.x) * s.1 + (p.2 - c.y) * s.2) / d with ht
    have htd : t * d = (p.1 - c.x) * s.1 + (p.2 - c.y) * s.2 := by rw [ht]; field_simp
    have hfar : d + t ≤ norm2 (((p.1 + s.1, p.2 + s.2) : V2) - (c.x, c.y)) := by
      unfold norm2
      apply le_sqrt_of_sq_le
      show (d + t) ^ 2 ≤ (p.1 + s.1 - c.x) ^ 2 + (p.2 + s.2 - c.y) ^ 2
      have h1 : t ^ 2 ≤ s.1 ^ 2 + s.2 ^ 2 := by
        have : (t * d) ^ 2 ≤ (s.1 ^ 2 + s.2 ^ 2) * d ^ 2 := by
          rw [htd, hd2]; nlinarith [sq_nonneg ((p.1 - c.x) * s.2 - (p.2 - c.y) * s.1)]
        rw [mul_pow] at this
        exact le_of_mul_le_mul_right this (by positivity)
      nlinarith
    have h1 : t ^ 2 ≤ s.1 ^ 2 + s.2 ^ 2 := by
      have : (t * d) ^ 2 ≤ (s.1 ^ 2 + s.2 ^ 2) * d ^ 2 := by
        rw [htd, hd2]; nlinarith [sq_nonneg ((p.1 - c.x) * s.2 - (p.2 - c.y) * s.1)]
      rw [mul_pow] at this
      exact le_of_mul_le_mul_right this (by positivity)
    have h2 : circlePen c (p.1 + s.1, p.2 + s.2) ≤ hinge (c.r + 2 - d + -t) ^ 2 := by
      unfold circlePen
      apply pow_le_pow_left₀ (hinge_nonneg _)
      apply hinge_mono
      linarith
    have h3 := hinge_sq_le (c.r + 2 - d) (-t)
    have h4 : g.1 * s.1 + g.2 * s.2 = 2 * hinge (c.r + 2 - d) * -t := by
      rw [← hg, ht]
      simp only
      field_simp
      ring
    have h5 : circlePen c p = hinge (c.r + 2 - d) ^ 2 := rfl
    rw [h4, h5]
    nlinarith

theorem circleGrad_norm (c : Circle) (p g : V2) (hg : circleGrad c p = some g) :
    √(g.1 ^ 2 + g.2 ^ 2) = 2 * hinge (c.r + 2 - norm2 (p - (c.x, c.y))) := by
  unfold circleGrad at hg
  simp only at hg
  split at hg
  · exact absurd hg (by simp)
  · rename_i hd
    simp only [Option.some.injEq] at hg
    have hpos := norm2_pos hd
    set d := norm2 (p - (c.x, c.y)) with hdd
    have hd2 : d ^ 2 = (p.1 - c.x) ^ 2 + (p.2 - c.y) ^ 2 := by
      rw [hdd]; unfold norm2; rw [sq_sqrt (by positivity)]; simp
    have hh := hinge_nonneg (c.r + 2 - d)
    rw [← hg]
    have : (-(2 * hinge (c.r + 2 - d) / d) * (p.1 - c.x)) ^ 2 + (-(2 * hinge (c.r + 2 - d) / d) * (p.2 - c.y)) ^ 2 =
        (2 * hinge (c.r + 2 - d)) ^ 2 := by
      have : (-(2 * hinge (c.r + 2 - d) / d) * (p.1 - c.x)) ^ 2 + (-(2 * hinge (c.r + 2 - d) / d) * (p.2 - c.y)) ^ 2 =
        (2 * hinge (c.r + 2 - d) / d) ^ 2 * ((p.1 - c.x) ^ 2 + (p.2 - c.y) ^ 2) := by ring
      rw [this, ← hd2]
      field_simp
    simp only
    rw [this, sqrt_sq (by positivity)]

/-- Quadratic upper bound for all circles; only those involved count. -/
theorem unsafety_quad (cs : List Circle) (p g s : V2) (hg : sumGrad cs p = some g) :
    Spec.unsafety cs (p.1 + s.1, p.2 + s.2) ≤ Spec.unsafety cs p + (g.1 * s.1 + g.2 * s.2) +
      Spec.involved cs p (p.1 + s.1, p.2 + s.2) * (s.1 ^ 2 + s.2 ^ 2) := by
  induction cs generalizing g with
  | nil =>
    simp only [sumGrad, List.foldr_nil, Option.some.injEq] at hg
    simp [Spec.unsafety, Spec.involved, ← hg]
  | cons c cs ih =>
    have e : sumGrad (c :: cs) p = match circleGrad c p, sumGrad cs p with
      | some g, some a => some (g.1 + a.1, g.2 + a.2)
      | _, _ => none := rfl
    rw [e] at hg
    cases h1 : circleGrad c p with
    | none => rw [h1] at hg; simp at hg
    | some g1 =>
      cases h2 : sumGrad cs p with
      | none => rw [h1, h2] at hg; simp at hg
      | some g2 =>
        rw [h1, h2] at hg
        simp only [Option.some.injEq] at hg
        have i := ih g2 h2
        have q1 := circlePen_quad c p g1 s h1
        have n1 := circleGrad_norm c p g1 h1
        unfold Spec.unsafety Spec.involved at i ⊢
        simp only [List.map_cons, List.sum_cons, List.filter_cons]
        by_cases hc : Spec.shortfall c p ≠ 0 ∨ Spec.shortfall c (p.1 + s.1, p.2 + s.2) ≠ 0
        · simp only [hc, decide_true, if_true, List.length_cons]
          push_cast
          have e1 : Spec.shortfall c (p.1 + s.1, p.2 + s.2) ^ 2 = circlePen c (p.1 + s.1, p.2 + s.2) := rfl
          have e2 : Spec.shortfall c p ^ 2 = circlePen c p := rfl
          rw [e1, e2, ← hg]
          simp only
          nlinarith
        · simp only [hc, decide_false, Bool.false_eq_true, if_false]
          rw [not_or, not_not, not_not] at hc
          have z : g1 = (0, 0) := by
            have : hinge (c.r + 2 - norm2 (p - (c.x, c.y))) = 0 := hc.1
            rw [this, mul_zero, sqrt_eq_zero (by positivity)] at n1
            have a1 : g1.1 = 0 := by nlinarith [sq_nonneg g1.1, sq_nonneg g1.2]
            have a2 : g1.2 = 0 := by nlinarith [sq_nonneg g1.1, sq_nonneg g1.2]
            exact Prod.ext a1 a2
          rw [hc.1, hc.2, ← hg, z]
          simp only
          linarith

/-- Size of the summed gradient. -/
theorem sumGrad_norm (cs : List Circle) (p p' g : V2) (hg : sumGrad cs p = some g) (V : ℝ)
    (hV : ∀ c ∈ cs, Spec.shortfall c p ≤ V) :
    √(g.1 ^ 2 + g.2 ^ 2) ≤ Spec.involved cs p p' * (2 * V) := by
  induction cs generalizing g with
  | nil =>
    simp only [sumGrad, List.foldr_nil, Option.some.injEq] at hg
    simp [Spec.involved, ← hg]
  | cons c cs ih =>
    have e : sumGrad (c :: cs) p = match circleGrad c p, sumGrad cs p with
      | some g, some a => some (g.1 + a.1, g.2 + a.2)
      | _, _ => none := rfl
    rw [e] at hg
    cases h1 : circleGrad c p with
    | none => rw [h1] at hg; simp at hg
    | some g1 =>
      cases h2 : sumGrad cs p with
      | none => rw [h1, h2] at hg; simp at hg
      | some g2 =>
        rw [h1, h2] at hg
        simp only [Option.some.injEq] at hg
        have i := ih g2 h2 fun c hc => hV c (by simp [hc])
        have n1 := circleGrad_norm c p g1 h1
        have v := hV c (by simp)
        have v' : hinge (c.r + 2 - norm2 (p - (c.x, c.y))) ≤ V := v
        have v0 := hinge_nonneg (c.r + 2 - norm2 (p - (c.x, c.y)))
        have tri : √(g.1 ^ 2 + g.2 ^ 2) ≤ √(g1.1 ^ 2 + g1.2 ^ 2) + √(g2.1 ^ 2 + g2.2 ^ 2) := by
          rw [← hg]
          have := cauchy2 g1.1 g1.2 g2.1 g2.2
          apply sqrt_le_iff.mpr
          refine ⟨by positivity, ?_⟩
          have q1 := sq_sqrt (show 0 ≤ g1.1 ^ 2 + g1.2 ^ 2 by positivity)
          have q2 := sq_sqrt (show 0 ≤ g2.1 ^ 2 + g2.2 ^ 2 by positivity)
          have := le_abs_self (g1.1 * g2.1 + g1.2 * g2.2)
          show (g1.1 + g2.1) ^ 2 + (g1.2 + g2.2) ^ 2 ≤ _
          nlinarith
        unfold Spec.involved at i ⊢
        simp only [List.filter_cons]
        by_cases hc : Spec.shortfall c p ≠ 0 ∨ Spec.shortfall c p' ≠ 0
        · simp only [hc, decide_true, if_true, List.length_cons]
          push_cast
          linarith
        · simp only [hc, decide_false, Bool.false_eq_true, if_false]
          rw [not_or, not_not, not_not] at hc
          have z : hinge (c.r + 2 - norm2 (p - (c.x, c.y))) = 0 := hc.1
          rw [z] at n1
          linarith

/-- A clipped descent step of one coordinate. -/
theorem comp_descent {ss x lim : ℝ} (g : Option ℝ) (hx : |x| ≤ lim) :
    ss * g.getD 0 * (comp ss x g lim - x) + (comp ss x g lim - x) ^ 2 ≤ 0 := by
  unfold comp clip
  generalize g.getD 0 = y
  have h := abs_le.mp hx
  rcases le_total (x - ss * y) (-lim) with h1 | h1
  · rw [max_eq_right h1, min_eq_left (by linarith)]
    have : (-lim - x) * (ss * y + (-lim - x)) ≤ 0 := mul_nonpos_of_nonpos_of_nonneg (by linarith) (by linarith)
    linarith
  · rw [max_eq_left h1]
    rcases le_total (x - ss * y) lim with h2 | h2
    · rw [min_eq_left h2]; apply le_of_eq; ring
    · rw [min_eq_right h2]
      have : (lim - x) * (ss * y + (lim - x)) ≤ 0 := mul_nonpos_of_nonneg_of_nonpos (by linarith) (by linarith)
      linarith

theorem comp_none {ss x lim : ℝ} (hx : |x| ≤ lim) : comp ss x none lim = x := by
  unfold comp
  rw [Option.getD_none, mul_zero, sub_zero]
  exact clip_id hx

/-- **C80, bicycle.** From a position in the box, a guidance step of size `ss` with
at most `1 / ss` circles within reach does not increase the unsafety, and the decrease is at least
`(1 / ss - involved)` times the square of the movement. The heading is not changed. -/
theorem C80_step_bicycle (P : Params) (ss : ℝ) (hss : 0 < ss) (q : Q3) (hx : |q.px| ≤ 100) (hy : |q.py| ≤ 100)
    (hth : |q.th1| ≤ 2 * π) :
    let q' := Guide.stepBicycle P ss q
    q'.th1 = q.th1 ∧
    Spec.unsafety P.circles (q'.px, q'.py) +
      (1 / ss - Spec.involved P.circles (q.px, q.py) (q'.px, q'.py)) * Spec.dist (q'.px, q'.py) (q.px, q.py) ^ 2 ≤
      Spec.unsafety P.circles (q.px, q.py) := by
  intro q'
  refine ⟨comp_zero hth, ?_⟩
  have hd : Spec.dist (q'.px, q'.py) (q.px, q.py) ^ 2 = (q'.px - q.px) ^ 2 + (q'.py - q.py) ^ 2 := by
    unfold Spec.dist
    rw [sq_sqrt (by positivity)]
  cases hg : sumGrad P.circles (q.px, q.py) with
  | none =>
    have e1 : q'.px = q.px := by
      show comp ss q.px ((sumGrad P.circles (q.px, q.py)).map Prod.fst) 100 = _
      rw [hg]; exact comp_none hx
    have e2 : q'.py = q.py := by
      show comp ss q.py ((sumGrad P.circles (q.px, q.py)).map Prod.snd) 100 = _
      rw [hg]; exact comp_none hy
    rw [hd, e1, e2]
    simp
  | some g =>
    have d1 : ss * g.1 * (q'.px - q.px) + (q'.px - q.px) ^ 2 ≤ 0 := by
      have : q'.px = comp ss q.px (some g.1) 100 := by
        show comp ss q.px ((sumGrad P.circles (q.px, q.py)).map Prod.fst) 100 = _
        rw [hg]; rfl
      rw [this]
      exact comp_descent (some g.1) hx
    have d2 : ss * g.2 * (q'.py - q.py) + (q'.py - q.py) ^ 2 ≤ 0 := by
      have : q'.py = comp ss q.py (some g.2) 100 := by
        show comp ss q.py ((sumGrad P.circles (q.px, q.py)).map Prod.snd) 100 = _
        rw [hg]; rfl
      rw [this]
      exact comp_descent (some g.2) hy
    have h := unsafety_quad P.circles (q.px, q.py) g (q'.px - q.px, q'.py - q.py) hg
    simp only [add_sub_cancel] at h
    rw [hd]
    have k : g.1 * (q'.px - q.px) + g.2 * (q'.py - q.py) ≤
        -(1 / ss * ((q'.px - q.px) ^ 2 + (q'.py - q.py) ^ 2)) := by
      have : ss * (g.1 * (q'.px - q.px) + g.2 * (q'.py - q.py)) ≤
        ss * -(1 / ss * ((q'.px - q.px) ^ 2 + (q'.py - q.py) ^ 2)) := by
        have : ss * -(1 / ss * ((q'.px - q.px) ^ 2 + (q'.py - q.py) ^ 2)) =
          -((q'.px - q.px) ^ 2 + (q'.py - q.py) ^ 2) := by field_simp
        rw [this]; linarith
      exact le_of_mul_le_mul_left this hss
    linarith


/-- A bicycle in the box. -/
def Spec.InGuideBox3 (q : Q3) : Prop := |q.px| ≤ 100 ∧ |q.py| ≤ 100 ∧ |q.th1| ≤ 2 * π

/-- **C80, bicycle, any number of steps.** With at most `1 / step_size` circular obstacles (twenty, for the default)
no number of guidance steps increases the unsafety. -/
theorem C80_bicycle (P : Params) (ss : ℝ) (hss : 0 < ss) (hn : P.circles.length * ss ≤ 1) (n : ℕ) (q : Q3)
    (hb : Spec.InGuideBox3 q) :
    Spec.unsafety P.circles ((Guide.applyBicycle P ss n q).px, (Guide.applyBicycle P ss n q).py) ≤
      Spec.unsafety P.circles (q.px, q.py) := by
  unfold Guide.applyBicycle
  split
  · have key : Spec.InGuideBox3 ((stepBicycle P ss)^[n] q) ∧
        Spec.unsafety P.circles (((stepBicycle P ss)^[n] q).px, ((stepBicycle P ss)^[n] q).py) ≤
          Spec.unsafety P.circles (q.px, q.py) := by
      induction n with
      | zero => exact ⟨hb, le_rfl⟩
      | succ n ih =>
        rw [Function.iterate_succ_apply']
        obtain ⟨i1, i2⟩ := ih
        generalize (stepBicycle P ss)^[n] q = z at i1 i2 ⊢
        have hp := pi_pos
        refine ⟨⟨Guide.clip_abs_le _ (by norm_num), Guide.clip_abs_le _ (by norm_num),
          Guide.clip_abs_le _ (by positivity)⟩, le_trans ?_ i2⟩
        have h := (C80_step_bicycle P ss hss z i1.1 i1.2.1 i1.2.2).2
        have hk : (0 : ℝ) ≤ 1 / ss - Spec.involved P.circles (z.px, z.py)
            ((stepBicycle P ss z).px, (stepBicycle P ss z).py) := by
          have : (Spec.involved P.circles (z.px, z.py)
            ((stepBicycle P ss z).px, (stepBicycle P ss z).py) : ℝ) ≤ P.circles.length := by
            unfold Spec.involved
            exact_mod_cast List.length_filter_le _ _
          have h2 : (P.circles.length : ℝ) ≤ 1 / ss := by rwa [le_div_iff₀ hss]
          linarith
        have := mul_nonneg hk (sq_nonneg (Spec.dist ((stepBicycle P ss z).px, (stepBicycle P ss z).py) (z.px, z.py)))
        linarith
    exact key.2
  · exact le_rfl

theorem circleGrad_x {c : Circle} {x d : ℝ} (hy : c.y = 0) (hd : |x - c.x| = d) (h0 : d ≠ 0) (h : d ≤ c.r + 2) :
    circleGrad c (x, 0) = some (-(2 * (c.r + 2 - d) / d) * (x - c.x), 0) := by
  have e : norm2 (((x, 0) : V2) - (c.x, c.y)) = d := by
    unfold norm2
    rw [hy]
    show √((x - c.x) ^ 2 + (0 - 0) ^ 2) = d
    rw [sub_zero, zero_pow (by norm_num), add_zero, sqrt_sq_eq_abs, hd]
  unfold circleGrad
  simp only [e]
  rw [if_neg h0, hinge_of_nonneg (by linarith), hy]
  simp

theorem sumGrad_replicate {c : Circle} {p g : V2} (hg : circleGrad c p = some g) (n : ℕ) (l : List Circle) (a : V2)
    (ha : sumGrad l p = some a) :
    sumGrad (List.replicate n c ++ l) p = some (n * g.1 + a.1, n * g.2 + a.2) := by
  induction n with
  | zero => simp [ha]
  | succ n ih =>
    have e : sumGrad (c :: (List.replicate n c ++ l)) p =
      match circleGrad c p, sumGrad (List.replicate n c ++ l) p with
      | some g, some a => some (g.1 + a.1, g.2 + a.2)
      | _, _ => none := rfl
    rw [List.replicate_succ, List.cons_append, e, hg, ih]
    simp only [Option.some.injEq]
    push_cast
    exact Prod.ext (by simp only; ring) (by simp only; ring)

/-- Two groups of eleven poles, 2 m to either side of the origin. -/
def corridor : List Circle := List.replicate 11 ⟨2, 0, 1⟩ ++ List.replicate 11 ⟨-2, 0, 1⟩

theorem corridor_unsafety {x : ℝ} (h : |x| ≤ 1) : Spec.unsafety corridor (x, 0) = 22 + 22 * x ^ 2 := by
  have hx := abs_le.mp h
  have e1 : Spec.shortfall ⟨2, 0, 1⟩ (x, 0) = 1 + x := by
    unfold Spec.shortfall Spec.dist
    simp only
    rw [sub_self, zero_pow (by norm_num), add_zero, sqrt_sq_eq_abs, abs_of_neg (by linarith), max_eq_right (by linarith)]
    ring
  have e2 : Spec.shortfall ⟨-2, 0, 1⟩ (x, 0) = 1 - x := by
    unfold Spec.shortfall Spec.dist
    simp only
    rw [sub_self, zero_pow (by norm_num), add_zero, sqrt_sq_eq_abs, abs_of_pos (by linarith), max_eq_right (by linarith)]
    ring
  unfold Spec.unsafety corridor
  rw [List.map_append, List.map_replicate, List.map_replicate, List.sum_append, List.sum_replicate, List.sum_replicate,
    e1, e2]
  simp only [nsmul_eq_mul]
  push_cast
  ring

/-- **C80, bound on the number of obstacles (refuted without it).** Twenty is the limit for the default step size:
between two groups of eleven poles a bicycle 10 cm off the middle is pushed past it, to 12 cm on the other side, and
its unsafety grows. -/
theorem C80_many_obstacles_refuted :
    ¬ ∀ (P : Params) (q : Q3), P.enableGuidance = true → P.circles.length ≤ 22 → Spec.InGuideBox3 q →
      Spec.unsafety P.circles ((Guide.applyBicycle P 0.05 1 q).px, (Guide.applyBicycle P 0.05 1 q).py) ≤
        Spec.unsafety P.circles (q.px, q.py) := by
  intro hall
  let P : Params := { Params.default corridor [] with enableGuidance := true }
  have hpi := pi_pos
  have h := hall P ⟨0.1, 0, 0⟩ rfl (by simp [P, Params.default, corridor])
    ⟨by norm_num [abs_of_pos], by norm_num, by simp; positivity⟩
  have g1 : circleGrad ⟨2, 0, 1⟩ (0.1, 0) = some (2.2, 0) := by
    rw [circleGrad_x (d := 1.9) rfl (by norm_num [abs_of_neg]) (by norm_num) (by norm_num)]
    norm_num
  have g2 : circleGrad ⟨-2, 0, 1⟩ (0.1, 0) = some (-1.8, 0) := by
    rw [circleGrad_x (d := 2.1) rfl (by norm_num [abs_of_pos]) (by norm_num) (by norm_num)]
    norm_num
  have hs : sumGrad corridor (0.1, 0) = some (4.4, 0) := by
    have h2 := sumGrad_replicate g2 11 [] (0, 0) rfl
    rw [List.append_nil] at h2
    have h1 := sumGrad_replicate g1 11 _ _ h2
    unfold corridor
    rw [h1]
    norm_num
  have ex : (Guide.applyBicycle P 0.05 1 ⟨0.1, 0, 0⟩).px = -0.12 := by
    show comp 0.05 0.1 ((sumGrad corridor (0.1, 0)).map Prod.fst) 100 = _
    rw [hs]
    unfold comp
    simp only [Option.map_some, Option.getD_some]
    rw [clip_id (by norm_num [abs_of_neg])]
    norm_num
  have ey : (Guide.applyBicycle P 0.05 1 ⟨0.1, 0, 0⟩).py = 0 := by
    show comp 0.05 0 ((sumGrad corridor (0.1, 0)).map Prod.snd) 100 = _
    rw [hs]
    exact comp_zero (by norm_num)
  rw [ex, ey] at h
  have hc : P.circles = corridor := rfl
  rw [hc, corridor_unsafety (by norm_num [abs_of_neg]), corridor_unsafety (by norm_num [abs_of_pos])] at h
  norm_num at h

/-- Nine poles to either side: within the limit. -/
example (P : Params) (hP : P.circles = List.replicate 9 ⟨2, 0, 1⟩ ++ List.replicate 9 ⟨-2, 0, 1⟩) (n : ℕ) :
    Spec.unsafety P.circles ((Guide.applyBicycle P 0.05 n ⟨0.1, 0, 0⟩).px, (Guide.applyBicycle P 0.05 n ⟨0.1, 0, 0⟩).py) ≤
      Spec.unsafety P.circles (0.1, 0) := by
  have hpi := pi_pos
  exact C80_bicycle P 0.05 (by norm_num) (by rw [hP]; norm_num) n ⟨0.1, 0, 0⟩
    ⟨by norm_num [abs_of_pos], by norm_num, by simp; positivity⟩

/-! ## Vehicles with a trailer -/

theorem hitchPen_quad {phi : ℝ} (hphi : 0 ≤ phi) (b t : ℝ) :
    hitchPen phi (b + t) ≤ hitchPen phi b + hitchPenGrad phi b * t + t ^ 2 := by
  have pos : ∀ b t : ℝ, 0 ≤ b → hinge (|b + t| - phi) ^ 2 ≤ hinge (b - phi) ^ 2 + 2 * hinge (b - phi) * t + t ^ 2 := by
    intro b t hb
    rcases le_total 0 (b + t) with h | h
    · rw [abs_of_nonneg h, show b + t - phi = b - phi + t by ring]
      exact hinge_sq_le _ _
    · rw [abs_of_nonpos h]
      unfold hinge
      rcases le_total (-(b + t) - phi) 0 with h1 | h1
      · rw [max_eq_left h1]
        rcases le_total (b - phi) 0 with h2 | h2
        · rw [max_eq_left h2]; nlinarith [sq_nonneg t]
        · rw [max_eq_right h2]; nlinarith [sq_nonneg (b - phi + t)]
      · rw [max_eq_right h1]
        rcases le_total (b - phi) 0 with h2 | h2
        · rw [max_eq_left h2]
          have : (-(b + t) - phi) ^ 2 ≤ (-t) ^ 2 := pow_le_pow_left₀ h1 (by linarith) 2
          nlinarith
        · rw [max_eq_right h2]
          have : (-(b + t) - phi) ^ 2 ≤ (-(b - phi + t)) ^ 2 := pow_le_pow_left₀ h1 (by linarith) 2
          nlinarith
  unfold hitchPen hitchPenGrad
  rcases lt_trichotomy b 0 with hb | hb | hb
  · rw [sign_neg hb, abs_of_neg hb]
    have := pos (-b) (-t) (by linarith)
    rw [show -b + -t = -(b + t) by ring, abs_neg] at this
    simp only [SignType.coe_neg, SignType.coe_one]
    linarith
  · have h := pos b t hb.ge
    rw [hb] at h ⊢
    simp only [sign_zero, SignType.coe_zero, abs_zero]
    have : hinge (0 - phi) = 0 := hinge_eq_zero.mpr (by linarith)
    rw [this] at h ⊢
    linarith
  · rw [sign_pos hb, abs_of_pos hb]
    have := pos b t hb.le
    simp only [SignType.coe_one]
    linarith

theorem hitchMin_le_reading {phi a b : ℝ} (h : b ∈ readings a) (t : ℝ) : hitchMin phi (a + t) ≤ hitchPen phi (b + t) := by
  unfold readings at h
  unfold hitchMin
  simp only [List.mem_cons, List.not_mem_nil, or_false] at h
  rcases h with h | h | h
  · rw [h, show a + 0 + t = a + t + 0 by ring]; exact min_le_left _ _
  · rw [h, show a + 2 * π + t = a + t + 2 * π by ring]; exact (min_le_right _ _).trans (min_le_left _ _)
  · rw [h, show a + -(2 * π) + t = a + t + -(2 * π) by ring]; exact (min_le_right _ _).trans (min_le_right _ _)

theorem hitchMin_quad {phi : ℝ} (hphi : 0 ≤ phi) (a t : ℝ) :
    hitchMin phi (a + t) ≤ hitchMin phi a + hitchGrad phi a * t + t ^ 2 := by
  unfold hitchGrad
  simp only
  set m := (readings a).filter fun b => decide (hitchPen phi b = hitchMin phi a) with hm
  have hpos : 0 < m.length := by
    rw [List.length_pos_iff_exists_mem]
    have : hitchMin phi a = hitchPen phi (a + 0) ∨ hitchMin phi a = hitchPen phi (a + 2 * π) ∨
        hitchMin phi a = hitchPen phi (a + -(2 * π)) := by
      unfold hitchMin
      rcases min_choice (hitchPen phi (a + 0)) (min (hitchPen phi (a + 2 * π)) (hitchPen phi (a + -(2 * π)))) with h | h
      · exact Or.inl h
      · rw [h]
        rcases min_choice (hitchPen phi (a + 2 * π)) (hitchPen phi (a + -(2 * π))) with h' | h'
        · exact Or.inr (Or.inl h')
        · exact Or.inr (Or.inr h')
    rcases this with h | h | h
    · exact ⟨a + 0, List.mem_filter.mpr ⟨by simp [readings], by rw [h]; simp⟩⟩
    · exact ⟨a + 2 * π, List.mem_filter.mpr ⟨by simp [readings], by rw [h]; simp⟩⟩
    · exact ⟨a + -(2 * π), List.mem_filter.mpr ⟨by simp [readings], by rw [h]; simp⟩⟩
  have hall : ∀ b ∈ m, hitchMin phi (a + t) ≤ hitchMin phi a + hitchPenGrad phi b * t + t ^ 2 := by
    intro b hb
    rw [hm, List.mem_filter] at hb
    have h1 := hitchMin_le_reading (phi := phi) hb.1 t
    have h2 := hitchPen_quad hphi b t
    rw [of_decide_eq_true hb.2] at h2
    exact h1.trans h2
  have hsum : ∀ l : List ℝ, (∀ b ∈ l, hitchMin phi (a + t) ≤ hitchMin phi a + hitchPenGrad phi b * t + t ^ 2) →
      l.length * hitchMin phi (a + t) ≤ l.length * (hitchMin phi a + t ^ 2) + (l.map (hitchPenGrad phi)).sum * t := by
    intro l
    induction l with
    | nil => intro _; simp
    | cons b l ih =>
      intro h
      have h1 := ih fun x hx => h x (by simp [hx])
      have h2 := h b (by simp)
      simp only [List.length_cons, List.map_cons, List.sum_cons]
      push_cast
      linarith
  have h := hsum m hall
  have hp : (0 : ℝ) < m.length := by exact_mod_cast hpos
  have e : (m.length : ℝ) * (hitchMin phi a + (m.map (hitchPenGrad phi)).sum / m.length * t + t ^ 2) =
      m.length * (hitchMin phi a + t ^ 2) + (m.map (hitchPenGrad phi)).sum * t := by
    field_simp
    ring
  rw [← e] at h
  exact le_of_mul_le_mul_left h hp

/-- The chord of an angle differs from its tangent by at most half the square of the angle. -/
theorem tangent_error_aux (d : ℝ) : (cos d - 1) ^ 2 + (sin d - d) ^ 2 ≤ (d ^ 2 / 2) ^ 2 := by
  have main : ∀ d : ℝ, 0 ≤ d → 0 ≤ d ^ 4 / 4 - d ^ 2 - 2 + 2 * cos d + 2 * (d * sin d) := by
    intro d hd
    let f : ℝ → ℝ := fun x => x ^ 4 / 4 - x ^ 2 - 2 + 2 * cos x + 2 * (x * sin x)
    have hder : ∀ x, HasDerivAt f (x ^ 3 - 2 * x + 2 * -sin x + 2 * (1 * sin x + x * cos x)) x := by
      intro x
      have h1 := ((hasDerivAt_pow 4 x).div_const 4).sub (hasDerivAt_pow 2 x)
      have h2 := (h1.sub_const 2).add ((hasDerivAt_cos x).const_mul 2)
      have h3 := h2.add (((hasDerivAt_id x).mul (hasDerivAt_sin x)).const_mul 2)
      refine h3.congr_deriv ?_
      simp
    have mono : MonotoneOn f (Set.Ici 0) := by
      apply monotoneOn_of_deriv_nonneg (convex_Ici 0)
      · exact fun x _ => (hder x).continuousAt.continuousWithinAt
      · exact fun x _ => (hder x).differentiableAt.differentiableWithinAt
      · intro x hx
        rw [interior_Ici] at hx
        rw [(hder x).deriv]
        have hx' : 0 < x := hx
        have h := one_sub_sq_div_two_le_cos (x := x)
        nlinarith
    have := mono (Set.mem_Ici.mpr le_rfl) (Set.mem_Ici.mpr hd) hd
    simp only [f] at this
    simpa using this
  have h := main |d| (abs_nonneg d)
  have e1 : |d| ^ 4 = d ^ 4 := by rw [show (4 : ℕ) = 2 * 2 by norm_num, pow_mul, pow_mul, sq_abs]
  have e3 : |d| * sin |d| = d * sin d := by
    rcases le_total 0 d with h | h
    · rw [abs_of_nonneg h]
    · rw [abs_of_nonpos h, sin_neg]; ring
  rw [e1, sq_abs, cos_abs, e3] at h
  have := sin_sq_add_cos_sq d
  nlinarith

/-- Rotating a rod: the part of the movement that is not along the tangent. -/
theorem tangent_error (a b θ d : ℝ) :
    |a * (cos (θ + d) - cos θ + d * sin θ) + b * (sin (θ + d) - sin θ - d * cos θ)| ≤ √(a ^ 2 + b ^ 2) * (d ^ 2 / 2) := by
  refine (cauchy2 _ _ _ _).trans (mul_le_mul_of_nonneg_left ?_ (sqrt_nonneg _))
  apply sqrt_le_iff.mpr
  refine ⟨by positivity, le_trans (le_of_eq ?_) (tangent_error_aux d)⟩
  rw [cos_add, sin_add]
  have := sin_sq_add_cos_sq θ
  have e : (cos θ * cos d - sin θ * sin d - cos θ + d * sin θ) ^ 2 + (sin θ * cos d + cos θ * sin d - sin θ - d * cos θ) ^ 2
      = (sin θ ^ 2 + cos θ ^ 2) * ((cos d - 1) ^ 2 + (sin d - d) ^ 2) := by ring
  rw [e, this, one_mul]

theorem unsafetyTT_eq (P : Params) (q : Q4) : Spec.unsafetyTT P q = Guide.cost P q := by
  unfold Spec.unsafetyTT Guide.cost Spec.unsafety
  rw [hitchWeight_eq]
  have e : (P.circles.map fun c => circlePen c (q.px, q.py) + circlePen c (trailerPos P q)).sum =
      (P.circles.map fun c => Spec.shortfall c (q.px, q.py) ^ 2).sum +
      (P.circles.map fun c => Spec.shortfall c (Spec.trailerAxlePt P.lh P.l2 q) ^ 2).sum := by
    rw [← List.sum_map_add]
    rfl
  rw [e]
  unfold hitchMin hitchPen
  rw [add_zero]
  rfl


theorem three_vectors (s1 s2 x1 y1 x2 y2 a b d1 d2 : ℝ) (f1 : x1 ^ 2 + y1 ^ 2 ≤ a ^ 2 * d1 ^ 2)
    (f2 : x2 ^ 2 + y2 ^ 2 ≤ b ^ 2 * d2 ^ 2) :
    (s1 - x1 - x2) ^ 2 + (s2 - y1 - y2) ^ 2 ≤ (1 + a ^ 2 + b ^ 2) * (s1 ^ 2 + s2 ^ 2 + d1 ^ 2 + d2 ^ 2) := by
  have c1 := (neg_le_abs _).trans (cauchy2 s1 s2 x1 y1)
  have c2 := (neg_le_abs _).trans (cauchy2 s1 s2 x2 y2)
  have c3 := (le_abs_self _).trans (cauchy2 x1 y1 x2 y2)
  have g1 : √(x1 ^ 2 + y1 ^ 2) ≤ |a| * |d1| := by
    apply sqrt_le_iff.mpr
    refine ⟨by positivity, ?_⟩
    rwa [mul_pow, sq_abs, sq_abs]
  have g2 : √(x2 ^ 2 + y2 ^ 2) ≤ |b| * |d2| := by
    apply sqrt_le_iff.mpr
    refine ⟨by positivity, ?_⟩
    rwa [mul_pow, sq_abs, sq_abs]
  have hS := sq_sqrt (show 0 ≤ s1 ^ 2 + s2 ^ 2 by positivity)
  have nS := sqrt_nonneg (s1 ^ 2 + s2 ^ 2)
  have nX := sqrt_nonneg (x1 ^ 2 + y1 ^ 2)
  have nY := sqrt_nonneg (x2 ^ 2 + y2 ^ 2)
  generalize √(s1 ^ 2 + s2 ^ 2) = S at *
  generalize √(x1 ^ 2 + y1 ^ 2) = X at *
  generalize √(x2 ^ 2 + y2 ^ 2) = Y at *
  have n1 := abs_nonneg a
  have n2 := abs_nonneg b
  have n3 := abs_nonneg d1
  have n4 := abs_nonneg d2
  rw [← sq_abs a, ← sq_abs d1] at f1
  rw [← sq_abs b, ← sq_abs d2] at f2
  rw [← sq_abs a, ← sq_abs b, ← sq_abs d1, ← sq_abs d2, ← hS]
  generalize |a| = A at *
  generalize |b| = B at *
  generalize |d1| = D at *
  generalize |d2| = E at *
  have m1 := mul_le_mul_of_nonneg_left g1 nS
  have m2 := mul_le_mul_of_nonneg_left g2 nS
  have m3 : X * Y ≤ A * D * (B * E) := mul_le_mul g1 g2 nY (by positivity)
  have q1 := sq_nonneg (A * S - D)
  have q2 := sq_nonneg (B * S - E)
  have q3 := sq_nonneg (A * E - B * D)
  have e : (s1 - x1 - x2) ^ 2 + (s2 - y1 - y2) ^ 2 = (s1 ^ 2 + s2 ^ 2) + (x1 ^ 2 + y1 ^ 2) + (x2 ^ 2 + y2 ^ 2) +
    2 * (-(s1 * x1 + s2 * y1)) + 2 * (-(s1 * x2 + s2 * y2)) + 2 * (x1 * x2 + y1 * y2) := by ring
  rw [e, ← hS]
  nlinarith

/-- How much the unsafety of a vehicle with a trailer can bend upwards, per squared change of the state: `n1`, `n2`
circles involved for the two axles, shortfalls of the trailer's axle up to `V`. -/
noncomputable def Spec.bend (P : Params) (n1 n2 : ℕ) (V : ℝ) : ℝ :=
  n1 + n2 * (1 + P.lh ^ 2 + P.l2 ^ 2 + V * max |P.lh| |P.l2|) +
    2 * max 1 ((0.05 : ℝ) * ((P.circles.length : ℝ) + P.rects.length))

/-- Square of the change of a state. -/
noncomputable def Spec.change (q q' : Q4) : ℝ :=
  (q'.px - q.px) ^ 2 + (q'.py - q.py) ^ 2 + (q'.th1 - q.th1) ^ 2 + (q'.th2 - q.th2) ^ 2

/-- **C80, one step.** A guidance step of size `ss` reduces the unsafety of a vehicle with a trailer by at least
`1 / ss - bend` times the squared change of the state. -/
theorem C80_step (P : Params) (ss : ℝ) (hss : 0 < ss) (q : Q4) (hb : Spec.InGuideBox q) (V : ℝ) (hV0 : 0 ≤ V)
    (hV : ∀ c ∈ P.circles, Spec.shortfall c (Spec.trailerAxlePt P.lh P.l2 q) ≤ V) :
    let q' := Guide.stepOnce P ss q
    Spec.unsafetyTT P q' + (1 / ss - Spec.bend P
      (Spec.involved P.circles (q.px, q.py) (q'.px, q'.py))
      (Spec.involved P.circles (Spec.trailerAxlePt P.lh P.l2 q) (Spec.trailerAxlePt P.lh P.l2 q')) V) *
        Spec.change q q' ≤ Spec.unsafetyTT P q := by
  intro q'
  have hw := hitchWeight_eq P
  have hwp := hitchWeight_pos P
  have hphi := (phi_pos P).le
  obtain ⟨b1, b2, b3, b4⟩ := hb
  cases hgr : sumGrad P.circles (trailerPos P q) with
  | none =>
    have hp : (grad P q).1 = none ∧ (grad P q).2.1 = none ∧ (grad P q).2.2.1 = none ∧ (grad P q).2.2.2 = none := by
      unfold grad
      simp only [hgr]
      cases sumGrad P.circles (q.px, q.py) <;> simp
    have e : q' = q := by
      show (⟨comp ss q.px (grad P q).1 100, comp ss q.py (grad P q).2.1 100, comp ss q.th1 (grad P q).2.2.1 (2 * π),
        comp ss q.th2 (grad P q).2.2.2 (2 * π)⟩ : Q4) = q
      rw [hp.1, hp.2.1, hp.2.2.1, hp.2.2.2, comp_none b1, comp_none b2, comp_none b3, comp_none b4]
    rw [e]
    simp [Spec.change]
  | some gr =>
    set s1 := q'.px - q.px with hs1
    set s2 := q'.py - q.py with hs2
    set d1 := q'.th1 - q.th1 with hd1
    set d2 := q'.th2 - q.th2 with hd2
    set h := hitchGrad P.phiMax (q.th1 - q.th2) with hh
    -- the tractor's axle
    obtain ⟨gt, ht, hpx, hpy⟩ : ∃ gt : V2,
        (Spec.unsafety P.circles (q'.px, q'.py) ≤ Spec.unsafety P.circles (q.px, q.py) + (gt.1 * s1 + gt.2 * s2) +
          Spec.involved P.circles (q.px, q.py) (q'.px, q'.py) * (s1 ^ 2 + s2 ^ 2)) ∧
        ss * (gt.1 + gr.1) * s1 + s1 ^ 2 ≤ 0 ∧ ss * (gt.2 + gr.2) * s2 + s2 ^ 2 ≤ 0 := by
      cases hgt : sumGrad P.circles (q.px, q.py) with
      | none =>
        have hp : (grad P q).1 = none ∧ (grad P q).2.1 = none := by
          unfold grad
          simp [hgt]
        have e1 : q'.px = q.px := by
          show comp ss q.px (grad P q).1 100 = _
          rw [hp.1, comp_none b1]
        have e2 : q'.py = q.py := by
          show comp ss q.py (grad P q).2.1 100 = _
          rw [hp.2, comp_none b2]
        have z1 : s1 = 0 := by rw [hs1, e1, sub_self]
        have z2 : s2 = 0 := by rw [hs2, e2, sub_self]
        refine ⟨(0, 0), ?_, ?_, ?_⟩
        · rw [z1, z2, e1, e2]; simp
        · rw [z1]; simp
        · rw [z2]; simp
      | some gt =>
        have hp : (grad P q).1 = some (gt.1 + gr.1) ∧ (grad P q).2.1 = some (gt.2 + gr.2) := by
          unfold grad
          simp [hgt, hgr]
        refine ⟨gt, ?_, ?_, ?_⟩
        · have := unsafety_quad P.circles (q.px, q.py) gt (s1, s2) hgt
          have k1 : q.px + s1 = q'.px := by rw [hs1]; ring
          have k2 : q.py + s2 = q'.py := by rw [hs2]; ring
          simp only [k1, k2] at this
          exact this
        · have : q'.px = comp ss q.px (some (gt.1 + gr.1)) 100 := by
            show comp ss q.px (grad P q).1 100 = _
            rw [hp.1]
          rw [hs1, this]
          exact comp_descent (some (gt.1 + gr.1)) b1
        · have : q'.py = comp ss q.py (some (gt.2 + gr.2)) 100 := by
            show comp ss q.py (grad P q).2.1 100 = _
            rw [hp.2]
          rw [hs2, this]
          exact comp_descent (some (gt.2 + gr.2)) b2
    -- the angles
    have ht1 : ss * (gr.1 * (P.lh * sin q.th1) + gr.2 * -(P.lh * cos q.th1) + hitchWeight P * h) * d1 + d1 ^ 2 ≤ 0 := by
      have hp : (grad P q).2.2.1 = some (gr.1 * (P.lh * sin q.th1) + gr.2 * -(P.lh * cos q.th1) + hitchWeight P * h) := by
        unfold grad
        simp [hgr, hh]
      have : q'.th1 = comp ss q.th1 (some (gr.1 * (P.lh * sin q.th1) + gr.2 * -(P.lh * cos q.th1) + hitchWeight P * h))
          (2 * π) := by
        show comp ss q.th1 (grad P q).2.2.1 (2 * π) = _
        rw [hp]
      rw [hd1, this]
      exact comp_descent (some _) b3
    have ht2 : ss * (gr.1 * (P.l2 * sin q.th2) + gr.2 * -(P.l2 * cos q.th2) - hitchWeight P * h) * d2 + d2 ^ 2 ≤ 0 := by
      have hp : (grad P q).2.2.2 = some (gr.1 * (P.l2 * sin q.th2) + gr.2 * -(P.l2 * cos q.th2) - hitchWeight P * h) := by
        unfold grad
        simp [hgr, hh]
      have : q'.th2 = comp ss q.th2 (some (gr.1 * (P.l2 * sin q.th2) + gr.2 * -(P.l2 * cos q.th2) - hitchWeight P * h))
          (2 * π) := by
        show comp ss q.th2 (grad P q).2.2.2 (2 * π) = _
        rw [hp]
      rw [hd2, this]
      exact comp_descent (some _) b4
    -- the trailer's axle
    set D : V2 := ((trailerPos P q').1 - (trailerPos P q).1, (trailerPos P q').2 - (trailerPos P q).2) with hD
    have k1 : q'.th1 = q.th1 + d1 := by rw [hd1]; ring
    have k2 : q'.th2 = q.th2 + d2 := by rw [hd2]; ring
    have hq := unsafety_quad P.circles (trailerPos P q) gr D hgr
    have kD : (((trailerPos P q).1 + D.1, (trailerPos P q).2 + D.2) : V2) = trailerPos P q' := by
      rw [hD]; exact Prod.ext (by simp) (by simp)
    rw [kD] at hq
    have hnorm := sumGrad_norm P.circles (trailerPos P q) (trailerPos P q') gr hgr V hV
    set N2 := Spec.involved P.circles (trailerPos P q) (trailerPos P q') with hN2
    set N1 := Spec.involved P.circles (q.px, q.py) (q'.px, q'.py) with hN1
    have hlin : gr.1 * D.1 + gr.2 * D.2 ≤ gr.1 * (s1 + P.lh * sin q.th1 * d1 + P.l2 * sin q.th2 * d2) +
        gr.2 * (s2 - P.lh * cos q.th1 * d1 - P.l2 * cos q.th2 * d2) +
        N2 * V * (max |P.lh| |P.l2|) * (d1 ^ 2 + d2 ^ 2) := by
      have t1 := tangent_error gr.1 gr.2 q.th1 d1
      have t2 := tangent_error gr.1 gr.2 q.th2 d2
      set e1 := gr.1 * (cos (q.th1 + d1) - cos q.th1 + d1 * sin q.th1) +
        gr.2 * (sin (q.th1 + d1) - sin q.th1 - d1 * cos q.th1) with he1
      set e2 := gr.1 * (cos (q.th2 + d2) - cos q.th2 + d2 * sin q.th2) +
        gr.2 * (sin (q.th2 + d2) - sin q.th2 - d2 * cos q.th2) with he2
      have hDD : gr.1 * D.1 + gr.2 * D.2 = gr.1 * (s1 + P.lh * sin q.th1 * d1 + P.l2 * sin q.th2 * d2) +
        gr.2 * (s2 - P.lh * cos q.th1 * d1 - P.l2 * cos q.th2 * d2) + (-(P.lh * e1) + -(P.l2 * e2)) := by
        rw [hD, he1, he2]
        unfold trailerPos
        simp only
        rw [k1, k2, hs1, hs2]
        ring
      rw [hDD]
      have m1 : -(P.lh * e1) ≤ max |P.lh| |P.l2| * (N2 * (2 * V) * (d1 ^ 2 / 2)) := by
        refine (neg_le_abs _).trans ?_
        rw [abs_mul]
        exact mul_le_mul (le_max_left _ _) (t1.trans (mul_le_mul_of_nonneg_right hnorm (by positivity)))
          (abs_nonneg _) (le_trans (abs_nonneg _) (le_max_left _ _))
      have m2 : -(P.l2 * e2) ≤ max |P.lh| |P.l2| * (N2 * (2 * V) * (d2 ^ 2 / 2)) := by
        refine (neg_le_abs _).trans ?_
        rw [abs_mul]
        exact mul_le_mul (le_max_right _ _) (t2.trans (mul_le_mul_of_nonneg_right hnorm (by positivity)))
          (abs_nonneg _) (le_trans (abs_nonneg _) (le_max_left _ _))
      linarith
    have hDsq : D.1 ^ 2 + D.2 ^ 2 ≤ (1 + P.lh ^ 2 + P.l2 ^ 2) * (s1 ^ 2 + s2 ^ 2 + d1 ^ 2 + d2 ^ 2) := by
      have c1 := chord_le P.lh q'.th1 q.th1
      have c2 := chord_le P.l2 q'.th2 q.th2
      rw [← hd1] at c1
      rw [← hd2] at c2
      set x1 := P.lh * cos q'.th1 - P.lh * cos q.th1
      set y1 := P.lh * sin q'.th1 - P.lh * sin q.th1
      set x2 := P.l2 * cos q'.th2 - P.l2 * cos q.th2
      set y2 := P.l2 * sin q'.th2 - P.l2 * sin q.th2
      have eD1 : D.1 = s1 - x1 - x2 := by rw [hD, hs1]; unfold trailerPos; simp only [x1, x2]; ring
      have eD2 : D.2 = s2 - y1 - y2 := by rw [hD, hs2]; unfold trailerPos; simp only [y1, y2]; ring
      have f1 : x1 ^ 2 + y1 ^ 2 ≤ P.lh ^ 2 * d1 ^ 2 := by
        have := (sqrt_le_left (by positivity)).mp c1
        rwa [mul_pow, sq_abs, sq_abs] at this
      have f2 : x2 ^ 2 + y2 ^ 2 ≤ P.l2 ^ 2 * d2 ^ 2 := by
        have := (sqrt_le_left (by positivity)).mp c2
        rwa [mul_pow, sq_abs, sq_abs] at this
      rw [eD1, eD2]
      exact three_vectors s1 s2 x1 y1 x2 y2 P.lh P.l2 d1 d2 f1 f2
    have hhit := hitchMin_quad hphi (q.th1 - q.th2) (d1 - d2)
    have kh : q.th1 - q.th2 + (d1 - d2) = q'.th1 - q'.th2 := by rw [k1, k2]; ring
    rw [kh, ← hh] at hhit
    have hU : ∀ z : Q4, Spec.unsafetyTT P z = Spec.unsafety P.circles (z.px, z.py) +
        Spec.unsafety P.circles (trailerPos P z) + hitchWeight P * hitchMin P.phiMax (z.th1 - z.th2) := by
      intro z
      unfold Spec.unsafetyTT
      rw [hw]
      unfold hitchMin hitchPen
      rw [add_zero]
      rfl
    rw [hU q, hU q']
    show _ + (1 / ss - Spec.bend P N1 N2 V) * (s1 ^ 2 + s2 ^ 2 + d1 ^ 2 + d2 ^ 2) ≤ _
    unfold Spec.bend
    rw [← hw]
    clear_value s1 s2 d1 d2 D N1 N2 h
    have hN2D := mul_le_mul_of_nonneg_left hDsq (Nat.cast_nonneg (α := ℝ) N2)
    have hhit2 := mul_le_mul_of_nonneg_left hhit hwp.le
    have hlinear : (gt.1 + gr.1) * s1 + (gt.2 + gr.2) * s2 +
        (gr.1 * (P.lh * sin q.th1) + gr.2 * -(P.lh * cos q.th1) + hitchWeight P * h) * d1 +
        (gr.1 * (P.l2 * sin q.th2) + gr.2 * -(P.l2 * cos q.th2) - hitchWeight P * h) * d2 ≤
        -(1 / ss * (s1 ^ 2 + s2 ^ 2 + d1 ^ 2 + d2 ^ 2)) := by
      have e : ss * -(1 / ss * (s1 ^ 2 + s2 ^ 2 + d1 ^ 2 + d2 ^ 2)) = -(s1 ^ 2 + s2 ^ 2 + d1 ^ 2 + d2 ^ 2) := by field_simp
      refine le_of_mul_le_mul_left ?_ hss
      rw [e]
      linarith
    have p1 : 0 ≤ (N1 : ℝ) * (d1 ^ 2 + d2 ^ 2) := by positivity
    have p2 : 0 ≤ (N2 : ℝ) * V * (max |P.lh| |P.l2|) * (s1 ^ 2 + s2 ^ 2) := by positivity
    have p3 : 0 ≤ hitchWeight P * (2 * (s1 ^ 2 + s2 ^ 2) + (d1 + d2) ^ 2) := by positivity
    linarith


/-- Every shortfall is at most the square root of the unsafety. -/
theorem shortfall_le (P : Params) (q : Q4) : ∀ c ∈ P.circles,
    Spec.shortfall c (Spec.trailerAxlePt P.lh P.l2 q) ≤ √(Spec.unsafetyTT P q) := by
  intro c hc
  apply le_sqrt_of_sq_le
  have n : ∀ cs p, 0 ≤ Spec.unsafety cs p := by
    intro cs p
    unfold Spec.unsafety
    apply List.sum_nonneg
    intro x hx
    obtain ⟨c, _, rfl⟩ := List.mem_map.mp hx
    exact sq_nonneg _
  have h1 : Spec.shortfall c (Spec.trailerAxlePt P.lh P.l2 q) ^ 2 ≤
      Spec.unsafety P.circles (Spec.trailerAxlePt P.lh P.l2 q) := by
    unfold Spec.unsafety
    apply List.single_le_sum
    · intro x hx
      obtain ⟨c, _, rfl⟩ := List.mem_map.mp hx
      exact sq_nonneg _
    · exact List.mem_map.mpr ⟨c, hc, rfl⟩
  unfold Spec.unsafetyTT
  have h2 : 0 ≤ max 1 ((0.05 : ℝ) * ((P.circles.length : ℝ) + P.rects.length)) *
      min (Spec.excess P.phiMax (q.th1 - q.th2) ^ 2)
        (min (Spec.excess P.phiMax (q.th1 - q.th2 + 2 * Real.pi) ^ 2)
          (Spec.excess P.phiMax (q.th1 - q.th2 - 2 * Real.pi) ^ 2)) :=
    mul_nonneg (le_trans (by norm_num) (le_max_left _ _)) (le_min (sq_nonneg _) (le_min (sq_nonneg _) (sq_nonneg _)))
  have := n P.circles (q.px, q.py)
  linarith

theorem bend_mono (P : Params) {n1 n2 m1 m2 : ℕ} {V W : ℝ} (h1 : n1 ≤ m1) (h2 : n2 ≤ m2) (hV : V ≤ W) (hW : 0 ≤ W) :
    Spec.bend P n1 n2 V ≤ Spec.bend P m1 m2 W := by
  unfold Spec.bend
  have a1 : (n1 : ℝ) ≤ m1 := by exact_mod_cast h1
  have a2 : (n2 : ℝ) ≤ m2 := by exact_mod_cast h2
  have hm : 0 ≤ max |P.lh| |P.l2| := le_trans (abs_nonneg _) (le_max_left _ _)
  have a3 : (n2 : ℝ) * (1 + P.lh ^ 2 + P.l2 ^ 2 + V * max |P.lh| |P.l2|) ≤
      m2 * (1 + P.lh ^ 2 + P.l2 ^ 2 + W * max |P.lh| |P.l2|) := by
    refine (mul_le_mul_of_nonneg_left (a := (n2 : ℝ)) (show _ ≤ 1 + P.lh ^ 2 + P.l2 ^ 2 + W * max |P.lh| |P.l2| from ?_)
      (Nat.cast_nonneg _)).trans (mul_le_mul_of_nonneg_right a2 (by positivity))
    have := mul_le_mul_of_nonneg_right hV hm
    linarith
  linarith

/-- **C80.** If at most `M` circles are involved for each axle in each of the `n` guidance steps, and the step size is
small enough for the unsafety at the start, no step increases the unsafety. -/
theorem C80_steps (P : Params) (ss : ℝ) (hss : 0 < ss) (q : Q4) (hb : Spec.InGuideBox q) (n M : ℕ)
    (hM : ∀ k < n,
      Spec.involved P.circles ((Guide.apply P ss k q).px, (Guide.apply P ss k q).py)
        ((Guide.apply P ss (k + 1) q).px, (Guide.apply P ss (k + 1) q).py) ≤ M ∧
      Spec.involved P.circles (Spec.trailerAxlePt P.lh P.l2 (Guide.apply P ss k q))
        (Spec.trailerAxlePt P.lh P.l2 (Guide.apply P ss (k + 1) q)) ≤ M)
    (hs : ss * Spec.bend P M M √(Spec.unsafetyTT P q) ≤ 1) :
    ∀ k < n, Spec.unsafetyTT P (Guide.apply P ss (k + 1) q) ≤ Spec.unsafetyTT P (Guide.apply P ss k q) ∧
      Spec.unsafetyTT P (Guide.apply P ss (k + 1) q) ≤ Spec.unsafetyTT P q := by
  by_cases hg : P.enableGuidance = true
  · simp only [Guide.apply, if_pos hg] at hM ⊢
    have key : ∀ k ≤ n, Spec.InGuideBox ((stepOnce P ss)^[k] q) ∧
        Spec.unsafetyTT P ((stepOnce P ss)^[k] q) ≤ Spec.unsafetyTT P q ∧
        (k < n → Spec.unsafetyTT P ((stepOnce P ss)^[k + 1] q) ≤ Spec.unsafetyTT P ((stepOnce P ss)^[k] q)) := by
      have hp := pi_pos
      have one : ∀ k < n, Spec.InGuideBox ((stepOnce P ss)^[k] q) →
          Spec.unsafetyTT P ((stepOnce P ss)^[k] q) ≤ Spec.unsafetyTT P q →
          Spec.unsafetyTT P ((stepOnce P ss)^[k + 1] q) ≤ Spec.unsafetyTT P ((stepOnce P ss)^[k] q) := by
        intro k hk i1 i2
        have hm := hM k hk
        rw [Function.iterate_succ_apply'] at hm ⊢
        generalize (stepOnce P ss)^[k] q = z at i1 i2 hm ⊢
        have h := C80_step P ss hss z i1 √(Spec.unsafetyTT P z) (sqrt_nonneg _) (shortfall_le P z)
        have hbd := bend_mono P hm.1 hm.2 (sqrt_le_sqrt i2) (sqrt_nonneg _)
        have : 0 ≤ Spec.change z (stepOnce P ss z) := by unfold Spec.change; positivity
        have h2 : Spec.bend P M M √(Spec.unsafetyTT P q) ≤ 1 / ss := by
          rw [le_div_iff₀ hss]; linarith
        have h3 := mul_nonneg (sub_nonneg.mpr (hbd.trans h2)) this
        linarith
      intro k
      induction k with
      | zero => intro _; exact ⟨hb, le_rfl, fun h => one 0 h hb le_rfl⟩
      | succ k ih =>
        intro hk
        obtain ⟨i1, i2, i3⟩ := ih (by omega)
        have hu := (i3 (by omega)).trans i2
        have hbx : Spec.InGuideBox ((stepOnce P ss)^[k + 1] q) := by
          rw [Function.iterate_succ_apply']
          exact ⟨Guide.clip_abs_le _ (by norm_num), Guide.clip_abs_le _ (by norm_num),
            Guide.clip_abs_le _ (by positivity), Guide.clip_abs_le _ (by positivity)⟩
        exact ⟨hbx, hu, fun h => one (k + 1) h hbx hu⟩
    intro k hk
    obtain ⟨i1, i2, i3⟩ := key k hk.le
    exact ⟨i3 hk, (i3 hk).trans i2⟩
  · intro k _
    simp only [Guide.apply, if_neg hg]
    exact ⟨le_rfl, le_rfl⟩

/-- **C80, without counting.** It suffices that the step size suits the number of circular obstacles. -/
theorem C80_tt2d (P : Params) (ss : ℝ) (hss : 0 < ss) (q : Q4) (hb : Spec.InGuideBox q)
    (hs : ss * Spec.bend P P.circles.length P.circles.length √(Spec.unsafetyTT P q) ≤ 1) (n : ℕ) :
    Spec.unsafetyTT P (Guide.apply P ss n q) ≤ Spec.unsafetyTT P q := by
  cases n with
  | zero => unfold Guide.apply; split <;> exact le_rfl
  | succ n =>
    refine (C80_steps P ss hss q hb (n + 1) P.circles.length ?_ hs n (by omega)).2
    intro k _
    unfold Spec.involved
    exact ⟨List.length_filter_le _ _, List.length_filter_le _ _⟩

/-- **C80, default vehicle.** With the default dimensions and step size, one circular obstacle and up to nineteen
rectangles, a vehicle whose unsafety is at most 4 (for instance: aligned, the tractor's axle outside the margin, the
trailer's axle not inside the obstacle) is not made less safe. -/
theorem C80_default (P : Params) (hlh : P.lh = 1.15) (hl2 : P.l2 = 2.9) (hc : P.circles.length ≤ 1)
    (hr : P.rects.length ≤ 19) (q : Q4) (hb : Spec.InGuideBox q) (hu : Spec.unsafetyTT P q ≤ 4) (n : ℕ) :
    Spec.unsafetyTT P (Guide.apply P 0.05 n q) ≤ Spec.unsafetyTT P q := by
  refine C80_tt2d P 0.05 (by norm_num) q hb ?_ n
  have hsq : √(Spec.unsafetyTT P q) ≤ 2 := by
    apply sqrt_le_iff.mpr
    exact ⟨by norm_num, by linarith⟩
  refine (mul_le_mul_of_nonneg_left (bend_mono P hc hc hsq (by norm_num)) (by norm_num)).trans ?_
  unfold Spec.bend
  have hw : max 1 ((0.05 : ℝ) * ((P.circles.length : ℝ) + P.rects.length)) = 1 := by
    apply max_eq_left
    have h1 : (P.circles.length : ℝ) ≤ 1 := by exact_mod_cast hc
    have h2 : (P.rects.length : ℝ) ≤ 19 := by exact_mod_cast hr
    linarith
  rw [hw, hlh, hl2, abs_of_pos (by norm_num), abs_of_pos (by norm_num), max_eq_right (by norm_num)]
  norm_num

/-- A vehicle that is 0.5 m too close to a pole in front of it. -/
example (P : Params) (hP : P = { Params.default [⟨20, 0, 1⟩] [] with enableGuidance := true }) (n : ℕ) :
    Spec.unsafetyTT P (Guide.apply P 0.05 n ⟨17.5, 0, 0, 0⟩) ≤ 0.25 := by
  have hpi := pi_pos
  have hphi := (phi_pos P).le
  have hu : Spec.unsafetyTT P ⟨17.5, 0, 0, 0⟩ = 0.25 := by
    have hc : P.circles = [⟨20, 0, 1⟩] := by rw [hP]; rfl
    have hlh : P.lh = 1.15 := by rw [hP]; norm_num [Params.default]
    have hl2 : P.l2 = 2.9 := by rw [hP]; norm_num [Params.default]
    have e1 : Spec.shortfall ⟨20, 0, 1⟩ (17.5, 0) = 0.5 := by
      unfold Spec.shortfall Spec.dist
      simp only
      rw [sub_self, zero_pow (by norm_num), add_zero, sqrt_sq_eq_abs, abs_of_neg (by norm_num)]
      norm_num
    have e2 : Spec.shortfall ⟨20, 0, 1⟩ (Spec.trailerAxlePt P.lh P.l2 ⟨17.5, 0, 0, 0⟩) = 0 := by
      unfold Spec.shortfall
      apply max_eq_left
      have : (6.55 : ℝ) ≤ Spec.dist (Spec.trailerAxlePt P.lh P.l2 ⟨17.5, 0, 0, 0⟩) (20, 0) := by
        apply le_sqrt_of_sq_le
        simp only [Spec.trailerAxlePt, cos_zero, sin_zero, hlh, hl2]
        norm_num
      simp only
      linarith
    have e3 : Spec.excess P.phiMax (0 - 0) = 0 := by
      unfold Spec.excess
      rw [sub_self, abs_zero]
      exact max_eq_left (by linarith)
    unfold Spec.unsafetyTT Spec.unsafety
    simp only [hc, List.map_cons, List.map_nil, List.sum_cons, List.sum_nil, e1, e2, e3]
    rw [min_eq_left (by rw [zero_pow (by norm_num)]; exact le_min (sq_nonneg _) (sq_nonneg _))]
    norm_num
  rw [← hu]
  refine C80_default P (by rw [hP]; norm_num [Params.default]) (by rw [hP]; norm_num [Params.default])
    (by rw [hP]; simp [Params.default]) (by rw [hP]; simp [Params.default]) _
    ⟨by norm_num [abs_of_pos], by norm_num, by simp; positivity, by simp; positivity⟩ (by rw [hu]; norm_num) n

/-- **C80, acceleration model.** The pose is treated as that of the tractor-trailer. -/
theorem C80_acc (P : Params) (ss : ℝ) (hss : 0 < ss) (q : Q6) (hb : Spec.InGuideBox q.pose)
    (hs : ss * Spec.bend P P.circles.length P.circles.length √(Spec.unsafetyTT P q.pose) ≤ 1) (n : ℕ) :
    Spec.unsafetyTT P (Guide.applyAcc P ss n q).pose ≤ Spec.unsafetyTT P q.pose := by
  unfold Guide.applyAcc
  split
  · exact C80_tt2d P ss hss q.pose hb hs n
  · exact le_rfl

/-- **C80, train.** The same for the tractor and the first trailer of a train. -/
theorem C80_ntrailer (P : Params) (ss : ℝ) (hss : 0 < ss) (q : QN) (hq : q.ths ≠ [])
    (hb : Spec.InGuideBox (Spec.front q))
    (hs : ss * Spec.bend P P.circles.length P.circles.length √(Spec.unsafetyTT P (Spec.front q)) ≤ 1) (n : ℕ) :
    Spec.unsafetyTT P (Spec.front (Guide.applyN P ss n q)) ≤ Spec.unsafetyTT P (Spec.front q) := by
  rw [C79_ntrailer P ss n q hq]
  exact C80_tt2d P ss hss _ hb hs n

end Mbd
