import Verif.Guidance
import Verif.GeomLemmas
import Mathlib.Analysis.SpecialFunctions.Trigonometric.Deriv
import Mathlib.Analysis.SpecialFunctions.Sqrt
import Mathlib.Analysis.Calculus.Deriv.Abs
import Mathlib.Analysis.Calculus.Deriv.Pow
import Mathlib.Analysis.Calculus.Deriv.Prod

/-!
# Lemmas about the guidance cost and its gradient
-/

namespace Mbd

open Real Classical

namespace Guide

theorem hinge_nonneg (x : ℝ) : 0 ≤ hinge x := le_max_left _ _

theorem hinge_eq_zero {x : ℝ} : hinge x = 0 ↔ x ≤ 0 := by simp [hinge]

theorem hinge_of_nonneg {x : ℝ} (h : 0 ≤ x) : hinge x = x := max_eq_right h

theorem hasDerivAt_hinge_sq (x : ℝ) : HasDerivAt (fun y => hinge y ^ 2) (2 * hinge x) x := by
  rcases lt_trichotomy x 0 with h | h | h
  · have e : (fun y => hinge y ^ 2) =ᶠ[nhds x] fun _ => (0 : ℝ) := by
      filter_upwards [gt_mem_nhds h] with y hy
      rw [hinge_eq_zero.mpr (le_of_lt hy)]; norm_num
    rw [hinge_eq_zero.mpr h.le, mul_zero]
    exact (hasDerivAt_const x (0 : ℝ)).congr_of_eventuallyEq e
  · subst h
    rw [hinge_eq_zero.mpr le_rfl, mul_zero]
    rw [hasDerivAt_iff_isLittleO_nhds_zero]
    have hb : (fun h : ℝ => hinge (0 + h) ^ 2 - hinge 0 ^ 2 - h • (0 : ℝ)) =O[nhds 0]
        fun h : ℝ => h ^ 2 := by
      refine Asymptotics.IsBigO.of_bound 1 (Filter.Eventually.of_forall fun h => ?_)
      rw [hinge_eq_zero.mpr le_rfl]
      simp only [zero_add, smul_eq_mul, mul_zero, sub_zero, one_mul, Real.norm_eq_abs, abs_pow,
        ne_eq, OfNat.ofNat_ne_zero, not_false_eq_true, zero_pow]
      rw [abs_of_nonneg (hinge_nonneg h)]
      exact pow_le_pow_left₀ (hinge_nonneg h) (max_le (abs_nonneg h) (le_abs_self h)) 2
    refine hb.trans_isLittleO ?_
    exact Asymptotics.isLittleO_pow_id (by norm_num)
  · have e : (fun y => hinge y ^ 2) =ᶠ[nhds x] fun y => y ^ 2 := by
      filter_upwards [lt_mem_nhds h] with y hy
      rw [hinge_of_nonneg (le_of_lt hy)]
    rw [hinge_of_nonneg h.le]
    have := (hasDerivAt_pow 2 x).congr_of_eventuallyEq e
    simpa using this

theorem norm2_pos {v : V2} (h : norm2 v ≠ 0) : 0 < norm2 v :=
  lt_of_le_of_ne (Real.sqrt_nonneg _) (Ne.symm h)

/-- Derivative of the squared violation along a curve `(x t, y t)`. -/
theorem hasDerivAt_circlePen (c : Circle) {x y : ℝ → ℝ} {x' y' t : ℝ} (hx : HasDerivAt x x' t)
    (hy : HasDerivAt y y' t) {g : V2} (hg : circleGrad c (x t, y t) = some g) :
    HasDerivAt (fun s => circlePen c (x s, y s)) (g.1 * x' + g.2 * y') t := by
  unfold circleGrad at hg
  simp only at hg
  split_ifs at hg with h0
  simp only [Option.some.injEq] at hg
  have hpos := norm2_pos h0
  set d := norm2 ((x t, y t) - (c.x, c.y)) with hd
  have hsq : (x t - c.x) ^ 2 + (y t - c.y) ^ 2 ≠ 0 := by
    intro h
    apply h0
    rw [hd]
    unfold norm2
    simp only [Prod.fst_sub, Prod.snd_sub, h, Real.sqrt_zero]
  have h1 : HasDerivAt (fun s => (x s - c.x) ^ 2 + (y s - c.y) ^ 2)
      (2 * (x t - c.x) * x' + 2 * (y t - c.y) * y') t := by
    have a := ((hx.sub_const c.x).pow 2).add ((hy.sub_const c.y).pow 2)
    refine a.congr_deriv ?_
    push_cast
    ring
  have h2 : HasDerivAt (fun s => norm2 ((x s, y s) - (c.x, c.y)))
      ((2 * (x t - c.x) * x' + 2 * (y t - c.y) * y') / (2 * d)) t := h1.sqrt hsq
  have h3 : HasDerivAt (fun s => c.r + 2 - norm2 ((x s, y s) - (c.x, c.y)))
      (-((2 * (x t - c.x) * x' + 2 * (y t - c.y) * y') / (2 * d))) t := by
    simpa using h2.const_sub (c.r + 2)
  have h4 := (hasDerivAt_hinge_sq (c.r + 2 - d)).comp t h3
  refine h4.congr_deriv ?_
  rw [← hg]
  field_simp
  ring

/-- Derivative of the sum over the circles along a curve. -/
theorem hasDerivAt_sumPen (cs : List Circle) {x y : ℝ → ℝ} {x' y' t : ℝ} (hx : HasDerivAt x x' t)
    (hy : HasDerivAt y y' t) : ∀ {g : V2}, sumGrad cs (x t, y t) = some g →
    HasDerivAt (fun s => (cs.map fun c => circlePen c (x s, y s)).sum) (g.1 * x' + g.2 * y') t := by
  induction cs with
  | nil =>
    intro g hg
    simp only [sumGrad, List.foldr_nil, Option.some.injEq] at hg
    subst hg
    simpa using hasDerivAt_const t (0 : ℝ)
  | cons c cs ih =>
    intro g hg
    have e : sumGrad (c :: cs) (x t, y t) = match circleGrad c (x t, y t), sumGrad cs (x t, y t) with
      | some g, some a => some (g.1 + a.1, g.2 + a.2)
      | _, _ => none := rfl
    rw [e] at hg
    rcases h1 : circleGrad c (x t, y t) with _ | g1
    · rw [h1] at hg; simp at hg
    · rcases h2 : sumGrad cs (x t, y t) with _ | g2
      · rw [h1, h2] at hg; simp at hg
      · rw [h1, h2] at hg
        simp only [Option.some.injEq] at hg
        subst hg
        have := (hasDerivAt_circlePen c hx hy h1).add (ih h2)
        simp only [List.map_cons, List.sum_cons]
        refine this.congr_deriv ?_
        ring

theorem sumGrad_isSome {cs : List Circle} {p : V2}
    (h : ∀ c ∈ cs, p ≠ (c.x, c.y)) : ∃ g, sumGrad cs p = some g := by
  induction cs with
  | nil => exact ⟨_, rfl⟩
  | cons c cs ih =>
    obtain ⟨g2, h2⟩ := ih fun c hc => h c (by simp [hc])
    have h1 : ∃ g, circleGrad c p = some g := by
      unfold circleGrad
      simp only
      rw [if_neg]
      · exact ⟨_, rfl⟩
      · intro h0
        apply h c (by simp)
        unfold norm2 at h0
        have := (Real.sqrt_eq_zero (by positivity)).mp h0
        simp only [Prod.fst_sub, Prod.snd_sub] at this
        ext
        · show p.1 = c.x
          nlinarith [sq_nonneg (p.1 - c.x), sq_nonneg (p.2 - c.y)]
        · show p.2 = c.y
          nlinarith [sq_nonneg (p.1 - c.x), sq_nonneg (p.2 - c.y)]
    obtain ⟨g1, h1⟩ := h1
    exact ⟨(g1.1 + g2.1, g1.2 + g2.2), by
      show (match circleGrad c p, sumGrad cs p with
        | some g, some a => some (g.1 + a.1, g.2 + a.2)
        | _, _ => none) = _
      rw [h1, h2]⟩

/-- The gradient vanishes where no margin is violated. -/
theorem sumGrad_zero {cs : List Circle} {p : V2}
    (h : ∀ c ∈ cs, 0 ≤ c.r ∧ c.r + 2 ≤ norm2 (p - (c.x, c.y))) : sumGrad cs p = some (0, 0) := by
  induction cs with
  | nil => rfl
  | cons c cs ih =>
    have h2 := ih fun c hc => h c (by simp [hc])
    obtain ⟨hr, hd⟩ := h c (by simp)
    have h1 : circleGrad c p = some (0, 0) := by
      unfold circleGrad
      simp only
      rw [if_neg (by linarith), hinge_eq_zero.mpr (by linarith)]
      simp
    show (match circleGrad c p, sumGrad cs p with
        | some g, some a => some (g.1 + a.1, g.2 + a.2)
        | _, _ => none) = _
    rw [h1, h2]
    simp

/-! ### Hitch -/

theorem hasDerivAt_hitchPen {phi : ℝ} (hphi : 0 < phi) (a : ℝ) :
    HasDerivAt (hitchPen phi) (hitchPenGrad phi a) a := by
  unfold hitchPenGrad
  by_cases h : a = 0
  · subst h
    have e : hitchPen phi =ᶠ[nhds 0] fun _ => (0 : ℝ) := by
      filter_upwards [Metric.ball_mem_nhds (0 : ℝ) hphi] with y hy
      rw [Metric.mem_ball, dist_zero_right, Real.norm_eq_abs] at hy
      unfold hitchPen
      rw [hinge_eq_zero.mpr (by linarith)]
      norm_num
    simpa using (hasDerivAt_const (0 : ℝ) (0 : ℝ)).congr_of_eventuallyEq e
  · have h1 : HasDerivAt (fun b => |b| - phi) (SignType.sign a : ℝ) a :=
      (hasDerivAt_abs h).sub_const phi
    exact (hasDerivAt_hinge_sq (|a| - phi)).comp a h1

theorem hitchPen_le {phi a b : ℝ} (h : |a| ≤ |b|) : hitchPen phi a ≤ hitchPen phi b := by
  unfold hitchPen
  have : hinge (|a| - phi) ≤ hinge (|b| - phi) := max_le_max le_rfl (by linarith)
  exact pow_le_pow_left₀ (hinge_nonneg _) this 2

theorem hitchPen_lt {phi a b : ℝ} (h : |a| < |b|) (hb : phi < |b|) :
    hitchPen phi a < hitchPen phi b := by
  unfold hitchPen
  have : hinge (|a| - phi) < hinge (|b| - phi) := by
    rw [hinge_of_nonneg (by linarith : 0 ≤ |b| - phi)]
    exact max_lt (by linarith) (by linarith)
  exact pow_lt_pow_left₀ this (hinge_nonneg _) (by norm_num)

theorem abs_gt_of_near {phi a b : ℝ} (hphi : phi ≤ π) (h : |a| < |b|) (hab : 2 * π ≤ |a| + |b|) :
    phi < |b| := by linarith

theorem hitchMin_gradient_aux {phi a : ℝ} (hphi : 0 < phi) (hphi' : phi ≤ π) (ha : |a| ≠ π) :
    HasDerivAt (hitchMin phi) (hitchGrad phi a) a := by
  have hpi := pi_pos
  have key : ∀ o : ℝ, (o = 0 ∨ o = 2 * π ∨ o = -(2 * π)) → 
      (∀ᶠ b in nhds a, ∀ o' : ℝ, (o' = 0 ∨ o' = 2 * π ∨ o' = -(2 * π)) → o' ≠ o → |b + o| < |b + o'|) →
      HasDerivAt (hitchMin phi) (hitchGrad phi a) a := by
    intro o ho hev
    have hsep : ∀ b, (∀ o' : ℝ, (o' = 0 ∨ o' = 2 * π ∨ o' = -(2 * π)) → o' ≠ o → |b + o| < |b + o'|) →
        ∀ o' : ℝ, (o' = 0 ∨ o' = 2 * π ∨ o' = -(2 * π)) → o' ≠ o →
        hitchPen phi (b + o) < hitchPen phi (b + o') := by
      intro b hb o' ho' hne
      refine hitchPen_lt (hb o' ho' hne) ?_
      have h1 : 2 * π ≤ |o - o'| := by
        rcases ho with rfl | rfl | rfl <;> rcases ho' with rfl | rfl | rfl <;>
          first
          | exact absurd rfl hne
          | (rw [le_abs]; first | (left; linarith) | (right; linarith))
      have h2 : |o - o'| ≤ |b + o| + |b + o'| := by
        have : o - o' = (b + o) - (b + o') := by ring
        rw [this]
        exact abs_sub _ _
      linarith [hb o' ho' hne]
    have hmin : ∀ b, (∀ o' : ℝ, (o' = 0 ∨ o' = 2 * π ∨ o' = -(2 * π)) → o' ≠ o → |b + o| < |b + o'|) →
        hitchMin phi b = hitchPen phi (b + o) := by
      intro b hb
      have hs := hsep b hb
      have hle : ∀ o' : ℝ, (o' = 0 ∨ o' = 2 * π ∨ o' = -(2 * π)) →
          hitchPen phi (b + o) ≤ hitchPen phi (b + o') := by
        intro o' ho'
        by_cases h : o' = o
        · rw [h]
        · exact (hs o' ho' h).le
      unfold hitchMin
      apply le_antisymm
      · rcases ho with rfl | rfl | rfl
        · exact min_le_left _ _
        · exact (min_le_right _ _).trans (min_le_left _ _)
        · exact (min_le_right _ _).trans (min_le_right _ _)
      · exact le_min (hle 0 (by simp)) (le_min (hle _ (by simp)) (hle _ (by simp)))
    have hself := hev.self_of_nhds
    have hg : hitchGrad phi a = hitchPenGrad phi (a + o) := by
      unfold hitchGrad
      rw [hmin a hself]
      have hs := hsep a hself
      have hne : ∀ o' : ℝ, (o' = 0 ∨ o' = 2 * π ∨ o' = -(2 * π)) → o' ≠ o →
          ¬ hitchPen phi (a + o') = hitchPen phi (a + o) := fun o' h1 h2 => (hs o' h1 h2).ne'
      rcases ho with rfl | rfl | rfl
      · have n1 := hne (2 * π) (by simp) (by positivity)
        have n2 := hne (-(2 * π)) (by simp) (by linarith)
        simp only [readings, List.filter_cons, List.filter_nil, n1, n2, decide_false, decide_true,
          if_true, Bool.false_eq_true, if_false, List.map_cons, List.map_nil, List.sum_cons,
          List.sum_nil, List.length_cons, List.length_nil]
        norm_num
      · have n1 := hne 0 (by simp) (by linarith)
        have n2 := hne (-(2 * π)) (by simp) (by linarith)
        simp only [readings, List.filter_cons, List.filter_nil, n1, n2, decide_false, decide_true,
          if_true, Bool.false_eq_true, if_false, List.map_cons, List.map_nil, List.sum_cons,
          List.sum_nil, List.length_cons, List.length_nil]
        norm_num
      · have n1 := hne 0 (by simp) (by linarith)
        have n2 := hne (2 * π) (by simp) (by linarith)
        simp only [readings, List.filter_cons, List.filter_nil, n1, n2, decide_false, decide_true,
          if_true, Bool.false_eq_true, if_false, List.map_cons, List.map_nil, List.sum_cons,
          List.sum_nil, List.length_cons, List.length_nil]
        norm_num
    rw [hg]
    have hd : HasDerivAt (fun b => hitchPen phi (b + o)) (hitchPenGrad phi (a + o)) a := by
      have h1 : HasDerivAt (fun b => b + o) 1 a := (hasDerivAt_id a).add_const o
      have h2 := (hasDerivAt_hitchPen hphi (a + o)).comp a h1
      rw [mul_one] at h2
      exact h2
    exact hd.congr_of_eventuallyEq (hev.mono fun b hb => hmin b hb)
  rcases lt_or_gt_of_ne ha with h | h
  · refine key 0 (by simp) ?_
    have hop : {b : ℝ | |b| < π} ∈ nhds a :=
      (isOpen_lt continuous_abs continuous_const).mem_nhds h
    filter_upwards [hop] with b hb
    have hb' := abs_lt.mp hb
    rintro o' (rfl | rfl | rfl) hne
    · exact absurd rfl hne
    · rw [add_zero, lt_abs]; left; rw [abs_lt]; constructor <;> linarith
    · rw [add_zero, lt_abs]; right; rw [abs_lt]; constructor <;> linarith
  · rcases lt_abs.mp h with h' | h'
    · refine key (-(2 * π)) (by simp) ?_
      filter_upwards [lt_mem_nhds h'] with b hb
      rintro o' (rfl | rfl | rfl) hne
      · rw [lt_abs]; left; rw [abs_lt]; constructor <;> linarith
      · rw [lt_abs]; left; rw [abs_lt]; constructor <;> linarith
      · exact absurd rfl hne
    · refine key (2 * π) (by simp) ?_
      filter_upwards [gt_mem_nhds (show a < -π by linarith)] with b hb
      rintro o' (rfl | rfl | rfl) hne
      · rw [lt_abs]; right; rw [abs_lt]; constructor <;> linarith
      · exact absurd rfl hne
      · rw [lt_abs]; right; rw [abs_lt]; constructor <;> linarith

theorem hitchGrad_zero {phi a : ℝ} (h : hitchMin phi a = 0) : hitchGrad phi a = 0 := by
  unfold hitchGrad
  simp only
  rw [h]
  have : ∀ b ∈ (readings a).filter (fun b => decide (hitchPen phi b = 0)), hitchPenGrad phi b = 0 := by
    intro b hb
    rw [List.mem_filter] at hb
    have hb2 : hitchPen phi b = 0 := by simpa using hb.2
    unfold hitchPen at hb2
    unfold hitchPenGrad
    rw [pow_eq_zero_iff (by norm_num)] at hb2
    rw [hb2]
    ring
  rw [List.sum_eq_zero (by
    intro x hx
    rw [List.mem_map] at hx
    obtain ⟨b, hb, rfl⟩ := hx
    exact this b hb), zero_div]

end Guide

end Mbd
