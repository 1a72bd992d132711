import Verif.Geom
import Verif.Spec
import Mathlib.Analysis.LocallyConvex.Separation
import Mathlib.Tactic.Linarith
import Mathlib.Tactic.LinearCombination
import Mathlib.Tactic.Positivity
import Mathlib.Tactic.FieldSimp

/-! # Geometry lemmas: separating axes and rectangle-circle distance -/

namespace Mbd

open Real

/-! ## clip -/

theorem clip_le (x lo hi : ℝ) : clip x lo hi ≤ hi := min_le_right _ _

theorem le_clip {x lo hi : ℝ} (h : lo ≤ hi) : lo ≤ clip x lo hi :=
  le_min (le_max_right _ _) h

theorem clip_of_mem {x lo hi : ℝ} (h₁ : lo ≤ x) (h₂ : x ≤ hi) : clip x lo hi = x := by
  unfold clip; rw [max_eq_left h₁, min_eq_left h₂]

theorem clip_idem {x lo hi : ℝ} (h : lo ≤ hi) : clip (clip x lo hi) lo hi = clip x lo hi :=
  clip_of_mem (le_clip h) (clip_le _ _ _)

theorem clip_mono {x y lo hi : ℝ} (h : x ≤ y) : clip x lo hi ≤ clip y lo hi :=
  min_le_min_right _ (max_le_max_right _ h)

/-! ## projections of box corners -/

theorem abs_combo_max (a b : ℝ) :
    max (max (-a - b) (-a + b)) (max (a + b) (a - b)) = |a| + |b| := by
  rcases abs_cases a with ⟨ha, _⟩ | ⟨ha, _⟩ <;> rcases abs_cases b with ⟨hb, _⟩ | ⟨hb, _⟩ <;>
    rw [ha, hb] <;> apply le_antisymm <;> first
      | (apply max_le <;> apply max_le <;> linarith)
      | (first
          | exact le_max_of_le_left (le_max_of_le_left (by linarith))
          | exact le_max_of_le_left (le_max_of_le_right (by linarith))
          | exact le_max_of_le_right (le_max_of_le_left (by linarith))
          | exact le_max_of_le_right (le_max_of_le_right (by linarith)))

/-- Support radius of a box in direction `n`. -/
noncomputable def radius (ang hl hw : ℝ) (n : V2) : ℝ :=
  hl * |cos ang * n.1 + sin ang * n.2| + hw * |-(sin ang) * n.1 + cos ang * n.2|

theorem projMax_box (c : V2) (ang : ℝ) {hl hw : ℝ} (h1 : 0 ≤ hl) (h2 : 0 ≤ hw) (n : V2) :
    projMax (boxCorners c ang hl hw) n = dot c n + radius ang hl hw n := by
  have key := abs_combo_max (hl * (cos ang * n.1 + sin ang * n.2))
    (hw * (-(sin ang) * n.1 + cos ang * n.2))
  rw [abs_mul, abs_mul, abs_of_nonneg h1, abs_of_nonneg h2] at key
  unfold projMax radius
  rw [← key, ← max_add_add_left, ← max_add_add_left, ← max_add_add_left]
  simp only [boxCorners, placePoint, dot]
  congr 1 <;> congr 1 <;> ring

theorem projMin_eq (k : Corners) (n : V2) : projMin k n = - projMax k (-n) := by
  unfold projMin projMax dot
  simp only [Prod.fst_neg, Prod.snd_neg]
  rw [← min_neg_neg, ← min_neg_neg, ← min_neg_neg]
  congr 1 <;> congr 1 <;> ring

theorem radius_neg (ang hl hw : ℝ) (n : V2) : radius ang hl hw (-n) = radius ang hl hw n := by
  unfold radius
  simp only [Prod.fst_neg, Prod.snd_neg]
  rw [show cos ang * -n.1 + sin ang * -n.2 = -(cos ang * n.1 + sin ang * n.2) by ring,
    show -(sin ang) * -n.1 + cos ang * -n.2 = -(-(sin ang) * n.1 + cos ang * n.2) by ring,
    abs_neg, abs_neg]

theorem projMin_box (c : V2) (ang : ℝ) {hl hw : ℝ} (h1 : 0 ≤ hl) (h2 : 0 ≤ hw) (n : V2) :
    projMin (boxCorners c ang hl hw) n = dot c n - radius ang hl hw n := by
  rw [projMin_eq, projMax_box c ang h1 h2, radius_neg]
  unfold dot; simp only [Prod.fst_neg, Prod.snd_neg]; ring

/-- Separation of two boxes along `n` as a gap condition. -/
theorem axisSeparated_box (c₁ c₂ : V2) (a₁ a₂ : ℝ) {l₁ w₁ l₂ w₂ : ℝ} (h1 : 0 ≤ l₁) (h2 : 0 ≤ w₁)
    (h3 : 0 ≤ l₂) (h4 : 0 ≤ w₂) (n : V2) :
    axisSeparated (boxCorners c₁ a₁ l₁ w₁) (boxCorners c₂ a₂ l₂ w₂) n ↔
      radius a₁ l₁ w₁ n + radius a₂ l₂ w₂ n < |dot (c₂ - c₁) n| := by
  unfold axisSeparated
  rw [projMax_box _ _ h1 h2, projMax_box _ _ h3 h4, projMin_box _ _ h1 h2, projMin_box _ _ h3 h4,
    lt_abs]
  have : dot (c₂ - c₁) n = dot c₂ n - dot c₁ n := by
    unfold dot; simp only [Prod.fst_sub, Prod.snd_sub]; ring
  rw [this]
  constructor
  · rintro (h | h)
    · left; linarith
    · right; linarith
  · rintro (h | h)
    · left; linarith
    · right; linarith

theorem radius_smul (ang hl hw k : ℝ) (n : V2) :
    radius ang hl hw (k • n) = |k| * radius ang hl hw n := by
  unfold radius
  simp only [Prod.smul_fst, Prod.smul_snd, smul_eq_mul]
  rw [show cos ang * (k * n.1) + sin ang * (k * n.2) = k * (cos ang * n.1 + sin ang * n.2) by ring,
    show -(sin ang) * (k * n.1) + cos ang * (k * n.2) = k * (-(sin ang) * n.1 + cos ang * n.2) by
      ring, abs_mul, abs_mul]
  ring

theorem dot_smul (a : V2) (k : ℝ) (n : V2) : dot a (k • n) = k * dot a n := by
  unfold dot; simp only [Prod.smul_fst, Prod.smul_snd, smul_eq_mul]; ring

/-- Scaling the axis by a non-zero factor does not change the gap condition. -/
theorem gap_smul (d : V2) (a₁ l₁ w₁ a₂ l₂ w₂ : ℝ) {k : ℝ} (hk : k ≠ 0) (n : V2) :
    radius a₁ l₁ w₁ (k • n) + radius a₂ l₂ w₂ (k • n) < |dot d (k • n)| ↔
      radius a₁ l₁ w₁ n + radius a₂ l₂ w₂ n < |dot d n| := by
  rw [radius_smul, radius_smul, dot_smul, abs_mul, ← mul_add]
  exact mul_lt_mul_iff_right₀ (abs_pos.mpr hk)

/-- The heading vector of a box. -/
noncomputable def uAxis (ang : ℝ) : V2 := (cos ang, sin ang)
/-- The lateral vector of a box. -/
noncomputable def vAxis (ang : ℝ) : V2 := (-(sin ang), cos ang)

theorem norm2_smul_unit {x y : ℝ} (h : x ^ 2 + y ^ 2 = 1) (k : ℝ) :
    norm2 (k * x, k * y) = |k| := by
  unfold norm2
  rw [show (k * x) ^ 2 + (k * y) ^ 2 = k ^ 2 * (x ^ 2 + y ^ 2) by ring, h, mul_one, sqrt_sq_eq_abs]

/-- First separating axis of a box: a non-zero multiple of the heading vector. -/
theorem edgeNormal_01 (c : V2) (ang hl : ℝ) {hw : ℝ} (h : 0 < hw) :
    ∃ k : ℝ, k ≠ 0 ∧
      edgeNormal (boxCorners c ang hl hw).c0 (boxCorners c ang hl hw).c1 = k • uAxis ang := by
  have hn : ((-((boxCorners c ang hl hw).c1.2 - (boxCorners c ang hl hw).c0.2),
      (boxCorners c ang hl hw).c1.1 - (boxCorners c ang hl hw).c0.1) : V2)
      = ((-(2 * hw)) * cos ang, (-(2 * hw)) * sin ang) := by
    simp only [boxCorners, placePoint]
    ext <;> simp only <;> ring
  unfold edgeNormal
  simp only [hn]
  rw [norm2_smul_unit (cos_sq_add_sin_sq ang)]
  refine ⟨-(2 * hw) / (if |(-(2 * hw))| < 1e-8 then 1 else |(-(2 * hw))|), ?_, ?_⟩
  · apply div_ne_zero
    · linarith
    · split_ifs
      · exact one_ne_zero
      · rw [abs_ne_zero]; linarith
  · have hx := congrArg Prod.fst hn
    have hy := congrArg Prod.snd hn
    simp only at hx hy
    unfold uAxis
    ext <;> simp only [Prod.smul_fst, Prod.smul_snd, smul_eq_mul, hx, hy] <;> ring

/-- Second separating axis of a box: a non-zero multiple of the lateral vector. -/
theorem edgeNormal_12 (c : V2) (ang : ℝ) {hl : ℝ} (hw : ℝ) (h : 0 < hl) :
    ∃ k : ℝ, k ≠ 0 ∧
      edgeNormal (boxCorners c ang hl hw).c1 (boxCorners c ang hl hw).c2 = k • vAxis ang := by
  have hn : ((-((boxCorners c ang hl hw).c2.2 - (boxCorners c ang hl hw).c1.2),
      (boxCorners c ang hl hw).c2.1 - (boxCorners c ang hl hw).c1.1) : V2)
      = ((2 * hl) * (-(sin ang)), (2 * hl) * cos ang) := by
    simp only [boxCorners, placePoint]
    ext <;> simp only <;> ring
  unfold edgeNormal
  simp only [hn]
  rw [norm2_smul_unit (by rw [neg_sq]; exact sin_sq_add_cos_sq ang)]
  refine ⟨(2 * hl) / (if |2 * hl| < 1e-8 then 1 else |2 * hl|), ?_, ?_⟩
  · apply div_ne_zero
    · linarith
    · split_ifs
      · exact one_ne_zero
      · rw [abs_ne_zero]; linarith
  · have hx := congrArg Prod.fst hn
    have hy := congrArg Prod.snd hn
    simp only at hx hy
    unfold vAxis
    ext <;> simp only [Prod.smul_fst, Prod.smul_snd, smul_eq_mul, hx, hy] <;> ring

/-- The SAT check of two boxes with positive sizes, as four gap conditions. -/
theorem rectRect_box_iff (c₁ c₂ : V2) (a₁ a₂ : ℝ) {l₁ w₁ l₂ w₂ : ℝ} (h1 : 0 < l₁) (h2 : 0 < w₁)
    (h3 : 0 < l₂) (h4 : 0 < w₂) :
    rectRect (boxCorners c₁ a₁ l₁ w₁) (boxCorners c₂ a₂ l₂ w₂) ↔
      ∀ n ∈ ({uAxis a₁, vAxis a₁, uAxis a₂, vAxis a₂} : Set V2),
        |dot (c₂ - c₁) n| ≤ radius a₁ l₁ w₁ n + radius a₂ l₂ w₂ n := by
  obtain ⟨k1, hk1, e1⟩ := edgeNormal_01 c₁ a₁ l₁ h2
  obtain ⟨k2, hk2, e2⟩ := edgeNormal_12 c₁ a₁ w₁ h1
  obtain ⟨k3, hk3, e3⟩ := edgeNormal_01 c₂ a₂ l₂ h4
  obtain ⟨k4, hk4, e4⟩ := edgeNormal_12 c₂ a₂ w₂ h3
  unfold rectRect
  rw [e1, e2, e3, e4]
  simp only [axisSeparated_box c₁ c₂ a₁ a₂ h1.le h2.le h3.le h4.le]
  rw [gap_smul _ _ _ _ _ _ _ hk1, gap_smul _ _ _ _ _ _ _ hk2, gap_smul _ _ _ _ _ _ _ hk3,
    gap_smul _ _ _ _ _ _ _ hk4]
  simp only [Set.mem_insert_iff, Set.mem_singleton_iff, forall_eq_or_imp, forall_eq]
  push Not
  rfl

/-! ## Points of a solid rectangle -/

theorem frame_dot (c : V2) (ang s t : ℝ) (n : V2) :
    dot (Spec.frame c ang s t) n = dot c n + s * (cos ang * n.1 + sin ang * n.2)
      + t * (-(sin ang) * n.1 + cos ang * n.2) := by
  unfold dot Spec.frame; simp only; ring

theorem solid_dot_le {c : V2} {ang hl hw : ℝ} {p : V2} (hp : p ∈ Spec.solidRect c ang hl hw)
    (n : V2) : |dot p n - dot c n| ≤ radius ang hl hw n := by
  obtain ⟨s, t, hs, ht, rfl⟩ := hp
  rw [frame_dot]
  unfold radius
  calc |dot c n + s * (cos ang * n.1 + sin ang * n.2) + t * (-(sin ang) * n.1 + cos ang * n.2)
        - dot c n|
      = |s * (cos ang * n.1 + sin ang * n.2) + t * (-(sin ang) * n.1 + cos ang * n.2)| := by
        congr 1; ring
    _ ≤ |s * (cos ang * n.1 + sin ang * n.2)| + |t * (-(sin ang) * n.1 + cos ang * n.2)| :=
        abs_add_le _ _
    _ ≤ _ := by
        rw [abs_mul, abs_mul]
        exact add_le_add (mul_le_mul_of_nonneg_right hs (abs_nonneg _))
          (mul_le_mul_of_nonneg_right ht (abs_nonneg _))

/-- The support radius is attained. -/
theorem solid_attains (c : V2) (ang : ℝ) {hl hw : ℝ} (h1 : 0 ≤ hl) (h2 : 0 ≤ hw) (n : V2) :
    ∃ p ∈ Spec.solidRect c ang hl hw, dot p n = dot c n + radius ang hl hw n := by
  have sgn : ∀ (h x : ℝ), 0 ≤ h → ∃ s, |s| ≤ h ∧ s * x = h * |x| := by
    intro h x hh
    rcases abs_cases x with ⟨hx, _⟩ | ⟨hx, _⟩
    · exact ⟨h, by rw [abs_of_nonneg hh], by rw [hx]⟩
    · exact ⟨-h, by rw [abs_neg, abs_of_nonneg hh], by rw [hx]; ring⟩
  obtain ⟨s, hs, es⟩ := sgn hl (cos ang * n.1 + sin ang * n.2) h1
  obtain ⟨t, ht, et⟩ := sgn hw (-(sin ang) * n.1 + cos ang * n.2) h2
  refine ⟨Spec.frame c ang s t, ⟨s, t, hs, ht, rfl⟩, ?_⟩
  rw [frame_dot, es, et]; unfold radius; ring

/-! ## The four-sector argument -/

theorem sat_q1 {h1 h2 h3 h4 c s p q α β : ℝ} (hc : 0 ≤ c) (hs : 0 ≤ s)
    (hcs : c ^ 2 + s ^ 2 = 1) (hα : 0 ≤ α) (hβ : 0 ≤ β)
    (e1 : p ≤ h1 + h3 * c + h4 * s) (e2 : q ≤ h2 + h3 * s + h4 * c)
    (e3 : c * p + s * q ≤ h1 * c + h2 * s + h3) :
    α * p + β * q ≤ h1 * α + h2 * β + h3 * (c * α + s * β) + h4 * |-s * α + c * β| := by
  rcases le_total (c * β) (s * α) with h | h
  · rw [abs_of_nonpos (by linarith)]
    rcases eq_or_lt_of_le hs with h0 | h0
    · have hc1 : c = 1 := by nlinarith
      subst h0; subst hc1
      have : β = 0 := by nlinarith
      subst this
      have := mul_le_mul_of_nonneg_left e1 hα
      linarith
    · have k1 := mul_le_mul_of_nonneg_left e1 (sub_nonneg.mpr h)
      have k2 := mul_le_mul_of_nonneg_left e3 hβ
      have : s * (α * p + β * q) ≤
          s * (h1 * α + h2 * β + h3 * (c * α + s * β) + h4 * -(-s * α + c * β)) := by
        have e : s * (h1 * α + h2 * β + h3 * (c * α + s * β) + h4 * -(-s * α + c * β))
            = (s * α - c * β) * (h1 + h3 * c + h4 * s) + β * (h1 * c + h2 * s + h3) := by
          linear_combination β * h3 * hcs
        rw [e]; linarith
      exact le_of_mul_le_mul_left this h0
  · rw [abs_of_nonneg (by linarith)]
    rcases eq_or_lt_of_le hc with h0 | h0
    · have hs1 : s = 1 := by nlinarith
      subst h0; subst hs1
      have : α = 0 := by nlinarith
      subst this
      have := mul_le_mul_of_nonneg_left e2 hβ
      linarith
    · have k1 := mul_le_mul_of_nonneg_left e2 (sub_nonneg.mpr h)
      have k2 := mul_le_mul_of_nonneg_left e3 hα
      have : c * (α * p + β * q) ≤
          c * (h1 * α + h2 * β + h3 * (c * α + s * β) + h4 * (-s * α + c * β)) := by
        have e : c * (h1 * α + h2 * β + h3 * (c * α + s * β) + h4 * (-s * α + c * β))
            = (c * β - s * α) * (h2 + h3 * s + h4 * c) + α * (h1 * c + h2 * s + h3) := by
          linear_combination α * h3 * hcs
        rw [e]; linarith
      exact le_of_mul_le_mul_left this h0

/-- All directions, axes of the second box in the first quadrant. -/
theorem sat_c {h1 h2 h3 h4 c s p q : ℝ} (hc : 0 ≤ c) (hs : 0 ≤ s)
    (hcs : c ^ 2 + s ^ 2 = 1)
    (e1 : |p| ≤ h1 + h3 * c + h4 * s) (e2 : |q| ≤ h2 + h3 * s + h4 * c)
    (e3 : |c * p + s * q| ≤ h1 * c + h2 * s + h3)
    (e4 : |-s * p + c * q| ≤ h1 * s + h2 * c + h4) (α β : ℝ) :
    α * p + β * q ≤ h1 * |α| + h2 * |β| + h3 * |c * α + s * β| + h4 * |-s * α + c * β| := by
  have f1 := abs_le.mp e1
  have f2 := abs_le.mp e2
  have f3 := abs_le.mp e3
  have f4 := abs_le.mp e4
  rcases le_total 0 α with ha | ha <;> rcases le_total 0 β with hb | hb
  · have := sat_q1 (h4 := h4) hc hs hcs ha hb f1.2 f2.2 f3.2
    rw [abs_of_nonneg ha, abs_of_nonneg hb, abs_of_nonneg (by positivity : 0 ≤ c * α + s * β)]
    exact this
  · -- rotate: (α', β') = (-β, α), p' = -q, q' = p
    have := sat_q1 (h1 := h2) (h2 := h1) (h3 := h4) (h4 := h3) (p := -q) (q := p) (α := -β) (β := α)
      hc hs hcs (by linarith) ha (by linarith [f2.1]) (by linarith [f1.2]) (by linarith [f4.1])
    rw [abs_of_nonneg ha, abs_of_nonpos hb,
      show -s * α + c * β = -(c * -β + s * α) by ring, abs_neg,
      abs_of_nonneg (by nlinarith : 0 ≤ c * -β + s * α)]
    rw [show -s * -β + c * α = c * α + s * β by ring] at this
    linarith
  · have := sat_q1 (h1 := h2) (h2 := h1) (h3 := h4) (h4 := h3) (p := q) (q := -p) (α := β) (β := -α)
      hc hs hcs hb (by linarith) (by linarith [f2.2]) (by linarith [f1.1]) (by linarith [f4.2])
    rw [abs_of_nonpos ha, abs_of_nonneg hb,
      show -s * α + c * β = c * β + s * -α by ring,
      abs_of_nonneg (by nlinarith : 0 ≤ c * β + s * -α)]
    rw [show -s * β + c * -α = -(c * α + s * β) by ring, abs_neg] at this
    linarith
  · have := sat_q1 (h1 := h1) (h2 := h2) (h3 := h3) (h4 := h4) (p := -p) (q := -q) (α := -α)
      (β := -β) hc hs hcs (by linarith) (by linarith) (by linarith [f1.1]) (by linarith [f2.1])
      (by linarith [f3.1])
    rw [abs_of_nonpos ha, abs_of_nonpos hb,
      show c * α + s * β = -(c * -α + s * -β) by ring, abs_neg,
      abs_of_nonneg (by nlinarith : 0 ≤ c * -α + s * -β)]
    rw [show -s * -α + c * -β = -(-s * α + c * β) by ring, abs_neg] at this
    linarith

/-- All directions, arbitrary relative orientation. -/
theorem sat_all {h1 h2 h3 h4 c s p q : ℝ} (hcs : c ^ 2 + s ^ 2 = 1)
    (e1 : |p| ≤ h1 + h3 * |c| + h4 * |s|) (e2 : |q| ≤ h2 + h3 * |s| + h4 * |c|)
    (e3 : |c * p + s * q| ≤ h1 * |c| + h2 * |s| + h3)
    (e4 : |-s * p + c * q| ≤ h1 * |s| + h2 * |c| + h4) (α β : ℝ) :
    α * p + β * q ≤ h1 * |α| + h2 * |β| + h3 * |c * α + s * β| + h4 * |-s * α + c * β| := by
  rcases le_total 0 c with hc | hc <;> rcases le_total 0 s with hs | hs
  · rw [abs_of_nonneg hc, abs_of_nonneg hs] at *
    exact sat_c hc hs hcs e1 e2 e3 e4 α β
  · -- c ≥ 0, s ≤ 0: second box axes rotated: c' = -s, s' = c, h3' = h4, h4' = h3
    rw [abs_of_nonneg hc, abs_of_nonpos hs] at *
    have := sat_c (h1 := h1) (h2 := h2) (h3 := h4) (h4 := h3) (c := -s) (s := c) (p := p) (q := q)
      (by linarith) hc (by nlinarith) (by linarith) (by linarith)
      (by linarith)
      (by rw [show -c * p + -s * q = -(c * p + s * q) by ring, abs_neg]; linarith) α β
    rw [show -c * α + -s * β = -(c * α + s * β) by ring, abs_neg] at this
    linarith
  · rw [abs_of_nonpos hc, abs_of_nonneg hs] at *
    have := sat_c (h1 := h1) (h2 := h2) (h3 := h4) (h4 := h3) (c := s) (s := -c) (p := p) (q := q)
      hs (by linarith) (by nlinarith) (by linarith) (by linarith)
      (by rw [show s * p + -c * q = -(-s * p + c * q) by ring, abs_neg]; linarith)
      (by rw [show - -c * p + s * q = c * p + s * q by ring]; linarith) α β
    rw [show s * α + -c * β = -(-s * α + c * β) by ring, abs_neg,
      show - -c * α + s * β = c * α + s * β by ring] at this
    linarith
  · rw [abs_of_nonpos hc, abs_of_nonpos hs] at *
    have := sat_c (h1 := h1) (h2 := h2) (h3 := h3) (h4 := h4) (c := -c) (s := -s) (p := p) (q := q)
      (by linarith) (by linarith) (by nlinarith) (by linarith) (by linarith)
      (by rw [show -c * p + -s * q = -(c * p + s * q) by ring, abs_neg]; linarith)
      (by rw [show - -s * p + -c * q = -(-s * p + c * q) by ring, abs_neg]; linarith) α β
    rw [show -c * α + -s * β = -(c * α + s * β) by ring, abs_neg,
      show - -s * α + -c * β = -(-s * α + c * β) by ring, abs_neg] at this
    linarith

/-- If none of the four box axes separates, no direction does. -/
theorem no_direction_separates (d : V2) (a₁ a₂ : ℝ) {l₁ w₁ l₂ w₂ : ℝ}
    (h : ∀ n ∈ ({uAxis a₁, vAxis a₁, uAxis a₂, vAxis a₂} : Set V2),
        |dot d n| ≤ radius a₁ l₁ w₁ n + radius a₂ l₂ w₂ n) (w : V2) :
    dot d w ≤ radius a₁ l₁ w₁ w + radius a₂ l₂ w₂ w := by
  simp only [Set.mem_insert_iff, Set.mem_singleton_iff, forall_eq_or_imp, forall_eq] at h
  obtain ⟨e1, e2, e3, e4⟩ := h
  set C := cos (a₂ - a₁) with hC
  set S := sin (a₂ - a₁) with hS
  have hCS : C ^ 2 + S ^ 2 = 1 := cos_sq_add_sin_sq _
  have c1 := cos_sq_add_sin_sq a₁
  have c2 := cos_sq_add_sin_sq a₂
  have eC : C = cos a₂ * cos a₁ + sin a₂ * sin a₁ := cos_sub _ _
  have eS : S = sin a₂ * cos a₁ - cos a₂ * sin a₁ := sin_sub _ _
  have u2x : cos a₂ = C * cos a₁ - S * sin a₁ := by
    rw [eC, eS]; linear_combination -(cos a₂) * c1
  have u2y : sin a₂ = C * sin a₁ + S * cos a₁ := by
    rw [eC, eS]; linear_combination -(sin a₂) * c1
  have r1 : ∀ n : V2, radius a₁ l₁ w₁ n = l₁ * |dot (uAxis a₁) n| + w₁ * |dot (vAxis a₁) n| := by
    intro n; rfl
  have r2 : ∀ n : V2, radius a₂ l₂ w₂ n = l₂ * |dot (uAxis a₂) n| + w₂ * |dot (vAxis a₂) n| := by
    intro n; rfl
  rw [r1, r2] at e1 e2 e3 e4
  have d11 : dot (uAxis a₁) (uAxis a₁) = 1 := by unfold dot uAxis; simp only; linarith
  have d12 : dot (uAxis a₁) (vAxis a₁) = 0 := by unfold dot uAxis vAxis; simp only; ring
  have d21 : dot (vAxis a₁) (uAxis a₁) = 0 := by unfold dot uAxis vAxis; simp only; ring
  have d22 : dot (vAxis a₁) (vAxis a₁) = 1 := by unfold dot vAxis; simp only; linarith
  have d33 : dot (uAxis a₂) (uAxis a₂) = 1 := by unfold dot uAxis; simp only; linarith
  have d34 : dot (uAxis a₂) (vAxis a₂) = 0 := by unfold dot uAxis vAxis; simp only; ring
  have d43 : dot (vAxis a₂) (uAxis a₂) = 0 := by unfold dot uAxis vAxis; simp only; ring
  have d44 : dot (vAxis a₂) (vAxis a₂) = 1 := by unfold dot vAxis; simp only; linarith
  have d31 : dot (uAxis a₂) (uAxis a₁) = C := by unfold dot uAxis; simp only; rw [eC]
  have d13 : dot (uAxis a₁) (uAxis a₂) = C := by unfold dot uAxis; simp only; rw [eC]; ring
  have d32 : dot (uAxis a₂) (vAxis a₁) = S := by unfold dot uAxis vAxis; simp only; rw [eS]; ring
  have d23 : dot (vAxis a₁) (uAxis a₂) = S := by unfold dot uAxis vAxis; simp only; rw [eS]; ring
  have d41 : dot (vAxis a₂) (uAxis a₁) = -S := by unfold dot uAxis vAxis; simp only; rw [eS]; ring
  have d14 : dot (uAxis a₁) (vAxis a₂) = -S := by unfold dot uAxis vAxis; simp only; rw [eS]; ring
  have d42 : dot (vAxis a₂) (vAxis a₁) = C := by unfold dot vAxis; simp only; rw [eC]; ring
  have d24 : dot (vAxis a₁) (vAxis a₂) = C := by unfold dot vAxis; simp only; rw [eC]; ring
  rw [d11, d21, d31, d41] at e1
  rw [d12, d22, d32, d42] at e2
  rw [d13, d23, d33, d43] at e3
  rw [d14, d24, d34, d44] at e4
  simp only [abs_one, abs_zero, mul_one, mul_zero, add_zero, zero_add, abs_neg] at e1 e2 e3 e4
  set p := dot d (uAxis a₁) with hp
  set q := dot d (vAxis a₁) with hq
  have dp : d.1 = p * cos a₁ - q * sin a₁ := by
    rw [hp, hq]; unfold dot uAxis vAxis; simp only; linear_combination -d.1 * c1
  have dq : d.2 = p * sin a₁ + q * cos a₁ := by
    rw [hp, hq]; unfold dot uAxis vAxis; simp only; linear_combination -d.2 * c1
  have e3' : dot d (uAxis a₂) = C * p + S * q := by
    unfold dot uAxis; simp only; rw [dp, dq, u2x, u2y]; linear_combination (p * C + q * S) * c1
  have e4' : dot d (vAxis a₂) = -S * p + C * q := by
    unfold dot vAxis; simp only; rw [dp, dq, u2x, u2y]; linear_combination (-p * S + q * C) * c1
  rw [e3'] at e3
  rw [e4'] at e4
  have main := sat_all (h1 := l₁) (h2 := w₁) (h3 := l₂) (h4 := w₂) (p := p) (q := q) hCS
    (by linarith) (by linarith) (by linarith) (by linarith) (dot (uAxis a₁) w) (dot (vAxis a₁) w)
  rw [r1, r2]
  have w3 : dot (uAxis a₂) w = C * dot (uAxis a₁) w + S * dot (vAxis a₁) w := by
    unfold dot uAxis vAxis; simp only; rw [u2x, u2y]; ring
  have w4 : dot (vAxis a₂) w = -S * dot (uAxis a₁) w + C * dot (vAxis a₁) w := by
    unfold dot uAxis vAxis; simp only; rw [u2x, u2y]; ring
  have wd : dot d w = dot (uAxis a₁) w * p + dot (vAxis a₁) w * q := by
    unfold dot uAxis vAxis; simp only; rw [dp, dq]; ring
  rw [w3, w4, wd]
  linarith

/-! ## Convexity and compactness of solid rectangles -/

theorem solidRect_eq_image (c : V2) (ang hl hw : ℝ) :
    Spec.solidRect c ang hl hw =
      (fun st : ℝ × ℝ => Spec.frame c ang st.1 st.2) '' (Set.Icc (-hl) hl ×ˢ Set.Icc (-hw) hw) := by
  ext p
  constructor
  · rintro ⟨s, t, hs, ht, rfl⟩
    exact ⟨(s, t), ⟨abs_le.mp hs, abs_le.mp ht⟩, rfl⟩
  · rintro ⟨⟨s, t⟩, ⟨hs, ht⟩, rfl⟩
    exact ⟨s, t, abs_le.mpr hs, abs_le.mpr ht, rfl⟩

theorem solidRect_compact (c : V2) (ang hl hw : ℝ) : IsCompact (Spec.solidRect c ang hl hw) := by
  rw [solidRect_eq_image]
  apply (isCompact_Icc.prod isCompact_Icc).image
  unfold Spec.frame
  fun_prop

theorem solidRect_convex (c : V2) (ang hl hw : ℝ) : Convex ℝ (Spec.solidRect c ang hl hw) := by
  rintro p ⟨s, t, hs, ht, rfl⟩ q ⟨s', t', hs', ht', rfl⟩ a b ha hb hab
  refine ⟨a * s + b * s', a * t + b * t', ?_, ?_, ?_⟩
  · calc |a * s + b * s'| ≤ |a * s| + |b * s'| := abs_add_le _ _
      _ = a * |s| + b * |s'| := by rw [abs_mul, abs_mul, abs_of_nonneg ha, abs_of_nonneg hb]
      _ ≤ a * hl + b * hl := by gcongr
      _ = hl := by rw [← add_mul, hab, one_mul]
  · calc |a * t + b * t'| ≤ |a * t| + |b * t'| := abs_add_le _ _
      _ = a * |t| + b * |t'| := by rw [abs_mul, abs_mul, abs_of_nonneg ha, abs_of_nonneg hb]
      _ ≤ a * hw + b * hw := by gcongr
      _ = hw := by rw [← add_mul, hab, one_mul]
  · unfold Spec.frame
    ext
    · simp only [smul_eq_mul, Prod.smul_mk, Prod.mk_add_mk]
      linear_combination c.1 * hab
    · simp only [smul_eq_mul, Prod.smul_mk, Prod.mk_add_mk]
      linear_combination c.2 * hab

/-- **Exactness of the SAT check** for rectangles with positive side lengths. -/
theorem rectRect_iff_intersect (c₁ c₂ : V2) (a₁ a₂ : ℝ) {l₁ w₁ l₂ w₂ : ℝ} (h1 : 0 < l₁)
    (h2 : 0 < w₁) (h3 : 0 < l₂) (h4 : 0 < w₂) :
    rectRect (boxCorners c₁ a₁ l₁ w₁) (boxCorners c₂ a₂ l₂ w₂) ↔
      ∃ p, p ∈ Spec.solidRect c₁ a₁ l₁ w₁ ∧ p ∈ Spec.solidRect c₂ a₂ l₂ w₂ := by
  rw [rectRect_box_iff c₁ c₂ a₁ a₂ h1 h2 h3 h4]
  constructor
  · intro h
    by_contra hne
    push Not at hne
    have hdis : Disjoint (Spec.solidRect c₁ a₁ l₁ w₁) (Spec.solidRect c₂ a₂ l₂ w₂) :=
      Set.disjoint_left.mpr hne
    obtain ⟨f, u, v, hu, huv, hv⟩ := geometric_hahn_banach_compact_closed
      (solidRect_convex c₁ a₁ l₁ w₁) (solidRect_compact c₁ a₁ l₁ w₁)
      (solidRect_convex c₂ a₂ l₂ w₂) (solidRect_compact c₂ a₂ l₂ w₂).isClosed hdis
    set w : V2 := (f (1, 0), f (0, 1)) with hw
    have hf : ∀ p : V2, f p = dot p w := by
      intro p
      have : p = p.1 • ((1 : ℝ), (0 : ℝ)) + p.2 • ((0 : ℝ), (1 : ℝ)) := by
        ext <;> simp
      conv_lhs => rw [this]
      rw [map_add, map_smul, map_smul]
      simp only [dot, hw, smul_eq_mul]
    obtain ⟨p, hp, ep⟩ := solid_attains c₁ a₁ h1.le h2.le w
    obtain ⟨p', hp', ep'⟩ := solid_attains c₂ a₂ h3.le h4.le (-w)
    have k1 := hu p hp
    have k2 := hv p' hp'
    rw [hf] at k1 k2
    have n1 : ∀ x : V2, dot x (-w) = - dot x w := by
      intro x; unfold dot; simp only [Prod.fst_neg, Prod.snd_neg]; ring
    rw [radius_neg, n1, n1] at ep'
    have key := no_direction_separates (c₂ - c₁) a₁ a₂ h w
    have : dot (c₂ - c₁) w = dot c₂ w - dot c₁ w := by
      unfold dot; simp only [Prod.fst_sub, Prod.snd_sub]; ring
    linarith
  · rintro ⟨p, hp1, hp2⟩ n _
    have k1 := abs_le.mp (solid_dot_le hp1 n)
    have k2 := abs_le.mp (solid_dot_le hp2 n)
    have : dot (c₂ - c₁) n = dot c₂ n - dot c₁ n := by
      unfold dot; simp only [Prod.fst_sub, Prod.snd_sub]; ring
    rw [this, abs_le]
    constructor <;> linarith [k1.1, k1.2, k2.1, k2.2]

end Mbd
