import Verif.Projection
import Verif.PropsMotion
import Verif.PropsGeom

/-!
# Lemmas on the constraint values of the projection
-/

namespace Mbd

open Real

namespace Proj

theorem sdfBox_frame (c : V2) (ang a b hl hw : ℝ) :
    sdfBox (Spec.frame c ang a b) c (hl, hw) ang =
      norm2 (max (|a| - hl) 0, max (|b| - hw) 0) + min (max (|a| - hl) (|b| - hw)) 0 := by
  have h := cos_sq_add_sin_sq ang
  have e1 : dot (Spec.frame c ang a b - c) (cos ang, sin ang) = a := by
    unfold dot Spec.frame
    simp only [Prod.fst_sub, Prod.snd_sub]
    linear_combination a * h
  have e2 : dot (Spec.frame c ang a b - c) (-sin ang, cos ang) = b := by
    unfold dot Spec.frame
    simp only [Prod.fst_sub, Prod.snd_sub]
    linear_combination b * h
  unfold sdfBox
  simp only [e1, e2]

/-- The signed distance is at least the excess in either direction. -/
theorem sdfBox_ge (c : V2) (ang a b hl hw : ℝ) :
    |a| - hl ≤ sdfBox (Spec.frame c ang a b) c (hl, hw) ang ∧
    |b| - hw ≤ sdfBox (Spec.frame c ang a b) c (hl, hw) ang := by
  rw [sdfBox_frame]
  unfold norm2
  have n1 : max (|a| - hl) 0 ≤ √(max (|a| - hl) 0 ^ 2 + max (|b| - hw) 0 ^ 2) :=
    le_sqrt_of_sq_le (by nlinarith [sq_nonneg (max (|b| - hw) 0)])
  have n2 : max (|b| - hw) 0 ≤ √(max (|a| - hl) 0 ^ 2 + max (|b| - hw) 0 ^ 2) :=
    le_sqrt_of_sq_le (by nlinarith [sq_nonneg (max (|a| - hl) 0)])
  simp only
  have m1 := le_max_left (|a| - hl) (|b| - hw)
  have m2 := le_max_right (|a| - hl) (|b| - hw)
  have z1 := le_max_left (|a| - hl) 0
  have z2 := le_max_left (|b| - hw) 0
  have y1 := le_max_right (|a| - hl) 0
  have y2 := le_max_right (|b| - hw) 0
  rcases le_total (max (|a| - hl) (|b| - hw)) 0 with k | k
  · rw [min_eq_left k]; constructor <;> linarith
  · rw [min_eq_right k]; constructor <;> linarith

theorem excess_sq (a : ℝ) {h : ℝ} (hh : 0 ≤ h) : (clip a (-h) h - a) ^ 2 = max (|a| - h) 0 ^ 2 := by
  unfold clip
  rcases abs_cases a with ⟨e, _⟩ | ⟨e, _⟩ <;> rw [e]
  · rw [max_eq_left (show -h ≤ a by linarith)]
    rcases le_total a h with k | k
    · rw [min_eq_left k, max_eq_right (by linarith)]; ring
    · rw [min_eq_right k, max_eq_left (by linarith)]; ring
  · rcases le_total a (-h) with k | k
    · rw [max_eq_right k, min_eq_left (by linarith), max_eq_left (by linarith)]; ring
    · rw [max_eq_left k, min_eq_left (by linarith), max_eq_right (by linarith)]; ring

/-- The signed distance exceeds `r` exactly if the closed disc of radius `r` misses the rectangle. -/
theorem sdfBox_gt_iff (c : V2) (ang : ℝ) {hl hw : ℝ} (h1 : 0 ≤ hl) (h2 : 0 ≤ hw) (o : V2) {r : ℝ}
    (hr : 0 ≤ r) :
    r < sdfBox o c (hl, hw) ang ↔ Spec.Apart (Spec.solidRect c ang hl hw) (Spec.disc o r) := by
  obtain ⟨a, b, rfl⟩ := exists_frame c ang o
  rw [sdfBox_frame]
  have key : Spec.Apart (Spec.solidRect c ang hl hw) (Spec.disc (Spec.frame c ang a b) r) ↔
      r < norm2 (max (|a| - hl) 0, max (|b| - hw) 0) := by
    unfold norm2
    rw [lt_sqrt hr]
    simp only
    rw [← excess_sq a h1, ← excess_sq b h2]
    constructor
    · intro h
      by_contra hle
      push Not at hle
      refine h (Spec.frame c ang (clip a (-hl) hl) (clip b (-hw) hw))
        ⟨_, _, abs_le.mpr ⟨le_clip (by linarith), clip_le _ _ _⟩,
          abs_le.mpr ⟨le_clip (by linarith), clip_le _ _ _⟩, rfl⟩ ?_
      rw [frame_disc_iff]; exact hle
    · rintro h p ⟨s, t, hs, ht, rfl⟩ hd
      rw [frame_disc_iff] at hd
      have := sq_sub_clip_le (a := a) h1 hs
      have := sq_sub_clip_le (a := b) h2 ht
      linarith
  rw [key]
  rcases le_or_gt (max (|a| - hl) (|b| - hw)) 0 with k | k
  · have k1 := le_trans (le_max_left _ _) k
    have k2 := le_trans (le_max_right _ _) k
    rw [max_eq_right k1, max_eq_right k2, min_eq_left k]
    have : norm2 (0, 0) = 0 := by simp [norm2]
    rw [this]
    constructor <;> intro h <;> linarith
  · rw [min_eq_right k.le, add_zero]

/-- Signed distance of a disc when the rectangle is lengthened by `e` and shifted by at most `d`. -/
theorem apart_of_sdf {c c' o : V2} {ang hl hl' hw r d e : ℝ} (h1 : 0 ≤ hl) (h2 : 0 ≤ hw)
    (hr : 0 ≤ r) (he : 0 ≤ e) (hle : hl' ≤ hl + e) (hd : Spec.dist c' c ≤ d)
    (h : r + (d + e) < sdfBox o c (hl, hw) ang) :
    Spec.Apart (Spec.solidRect c' ang hl' hw) (Spec.disc o r) := by
  have hd0 : 0 ≤ d := le_trans (Real.sqrt_nonneg _) hd
  rw [sdfBox_gt_iff c ang h1 h2 o (by linarith)] at h
  rintro p ⟨s, t, hs, ht, rfl⟩ hp
  have hs' : |clip s (-hl) hl| ≤ hl := abs_le.mpr ⟨le_clip (by linarith), clip_le _ _ _⟩
  refine h (Spec.frame c ang (clip s (-hl) hl) t) ⟨_, _, hs', ht, rfl⟩ ?_
  have A : Spec.dist (Spec.frame c' ang s t) o ≤ r := by
    unfold Spec.dist; rw [sqrt_le_left hr]; exact hp
  have B : Spec.dist (Spec.frame c ang s t) (Spec.frame c' ang s t) ≤ d := by
    rw [dist_comm']
    convert hd using 1
    unfold Spec.dist Spec.frame
    congr 1
    ring
  have C : Spec.dist (Spec.frame c ang (clip s (-hl) hl) t) (Spec.frame c ang s t) ≤ e := by
    unfold Spec.dist
    have := frame_edge_sq c ang s t (clip s (-hl) hl) t
    rw [this, sqrt_le_left he, sub_self, excess_sq s h1]
    have : max (|s| - hl) 0 ≤ e := max_le (by linarith) he
    have : 0 ≤ max (|s| - hl) 0 := le_max_right _ _
    nlinarith
  have T1 := dist_triangle' (Spec.frame c ang (clip s (-hl) hl) t) (Spec.frame c ang s t) o
  have T2 := dist_triangle' (Spec.frame c ang s t) (Spec.frame c' ang s t) o
  have : Spec.dist (Spec.frame c ang (clip s (-hl) hl) t) o ≤ r + (d + e) := by linarith
  unfold Spec.dist at this
  rw [sqrt_le_left (by linarith)] at this
  exact this

theorem gapOnAxis_eq (c₁ c₂ : V2) (a₁ a₂ l₁ w₁ l₂ w₂ : ℝ) (n : V2) :
    gapOnAxis c₁ (l₁, w₁) a₁ c₂ (l₂, w₂) a₂ n =
      |dot (c₂ - c₁) n| - (radius a₁ l₁ w₁ n + radius a₂ l₂ w₂ n) := by
  unfold gapOnAxis radius
  have : dot (c₂ - c₁) n = dot c₂ n - dot c₁ n := by
    unfold dot; simp only [Prod.fst_sub, Prod.snd_sub]; ring
  rw [this, abs_eq_max_neg (a := dot c₂ n - dot c₁ n), ← max_sub_sub_right]
  unfold dot
  simp only
  congr 1 <;> ring

theorem apart_iff_not_rectRect (c₁ c₂ : V2) (a₁ a₂ : ℝ) {l₁ w₁ l₂ w₂ : ℝ} (h1 : 0 < l₁)
    (h2 : 0 < w₁) (h3 : 0 < l₂) (h4 : 0 < w₂) :
    Spec.Apart (Spec.solidRect c₁ a₁ l₁ w₁) (Spec.solidRect c₂ a₂ l₂ w₂) ↔
      ¬ rectRect (boxCorners c₁ a₁ l₁ w₁) (boxCorners c₂ a₂ l₂ w₂) := by
  rw [rectRect_iff_intersect c₁ c₂ a₁ a₂ h1 h2 h3 h4]
  unfold Spec.Apart
  push Not
  rfl

/-- The gap is positive exactly if the rectangles are disjoint. -/
theorem gapBoxes_pos_iff (c₁ c₂ : V2) (a₁ a₂ : ℝ) {l₁ w₁ l₂ w₂ : ℝ} (h1 : 0 < l₁)
    (h2 : 0 < w₁) (h3 : 0 < l₂) (h4 : 0 < w₂) :
    0 < gapBoxes c₁ (l₁, w₁) a₁ c₂ (l₂, w₂) a₂ ↔
      Spec.Apart (Spec.solidRect c₁ a₁ l₁ w₁) (Spec.solidRect c₂ a₂ l₂ w₂) := by
  rw [apart_iff_not_rectRect c₁ c₂ a₁ a₂ h1 h2 h3 h4, rectRect_box_iff c₁ c₂ a₁ a₂ h1 h2 h3 h4]
  unfold gapBoxes
  simp only [gapOnAxis_eq, lt_max_iff, sub_pos, Set.mem_insert_iff, Set.mem_singleton_iff,
    forall_eq_or_imp, forall_eq, uAxis, vAxis]
  simp only [← not_le]
  tauto

theorem dot_unit_le {d n : V2} (hn : n.1 ^ 2 + n.2 ^ 2 = 1) : |dot d n| ≤ √(d.1 ^ 2 + d.2 ^ 2) := by
  apply abs_le_sqrt
  unfold dot
  nlinarith [sq_nonneg (d.1 * n.2 - d.2 * n.1)]

/-- Gap after lengthening the first rectangle by `e` and shifting it by at most `d`. -/
theorem apart_of_gap {c c' o : V2} {a a' l l' w l₂ w₂ d e : ℝ} (h1 : 0 < l') (h2 : 0 < w)
    (h3 : 0 < l₂) (h4 : 0 < w₂) (he : 0 ≤ e) (hle : l' ≤ l + e) (hd : Spec.dist c' c ≤ d)
    (h : d + e < gapBoxes c (l, w) a o (l₂, w₂) a') :
    Spec.Apart (Spec.solidRect c' a l' w) (Spec.solidRect o a' l₂ w₂) := by
  rw [← gapBoxes_pos_iff c' o a a' h1 h2 h3 h4]
  have key : ∀ n : V2, n.1 ^ 2 + n.2 ^ 2 = 1 → gapOnAxis c (l, w) a o (l₂, w₂) a' n - (d + e) ≤
      gapOnAxis c' (l', w) a o (l₂, w₂) a' n := by
    intro n hn
    rw [gapOnAxis_eq, gapOnAxis_eq]
    have A : radius a l' w n ≤ radius a l w n + e := by
      unfold radius
      have hx : |cos a * n.1 + sin a * n.2| ≤ 1 := by
        rw [← sqrt_one, ← cos_sq_add_sin_sq a]
        exact dot_unit_le (d := (cos a, sin a)) hn
      nlinarith [abs_nonneg (cos a * n.1 + sin a * n.2)]
    have B : |dot (o - c) n| ≤ |dot (o - c') n| + d := by
      have e1 : dot (o - c) n = dot (o - c') n + dot (c' - c) n := by
        unfold dot; simp only [Prod.fst_sub, Prod.snd_sub]; ring
      have e2 : |dot (c' - c) n| ≤ d := le_trans (dot_unit_le hn) hd
      rw [e1]
      exact le_trans (abs_add_le _ _) (by linarith)
    linarith
  have u : ∀ x : ℝ, cos x ^ 2 + sin x ^ 2 = 1 := cos_sq_add_sin_sq
  have v : ∀ x : ℝ, (-sin x) ^ 2 + cos x ^ 2 = 1 := fun x => by rw [neg_sq]; exact sin_sq_add_cos_sq x
  unfold gapBoxes at h ⊢
  have k1 := key (cos a, sin a) (u a)
  have k2 := key (-sin a, cos a) (v a)
  have k3 := key (cos a', sin a') (u a')
  have k4 := key (-sin a', cos a') (v a')
  simp only [lt_max_iff] at h ⊢
  rcases h with (h | h) | (h | h)
  · left; left; linarith
  · left; right; linarith
  · right; left; linarith
  · right; right; linarith

end Proj

end Mbd
