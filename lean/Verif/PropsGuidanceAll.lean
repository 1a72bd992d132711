import Verif.PropsDescent

/-!
# C47 for the bicycle, the acceleration model and the train
-/

namespace Mbd

open Real Classical

/-- C47, bicycle: the cost is not negative, and zero exactly when the rear axle keeps 2 m from every disc. -/
theorem C47_cost_bicycle (P : Params) (q : Q3) :
    0 ≤ Guide.costBicycle P q ∧
    (Guide.costBicycle P q = 0 ↔ ∀ c ∈ P.circles, c.r + 2 ≤ Spec.dist (q.px, q.py) (c.x, c.y)) := by
  have nd : ∀ c : Circle, norm2 ((q.px, q.py) - (c.x, c.y)) = Spec.dist (q.px, q.py) (c.x, c.y) := fun c => by
    unfold norm2 Spec.dist; simp
  unfold Guide.costBicycle
  induction P.circles with
  | nil => simp
  | cons c cs ih =>
    obtain ⟨i0, i1⟩ := ih
    have p0 : 0 ≤ Guide.circlePen c (q.px, q.py) := sq_nonneg _
    have p1 : Guide.circlePen c (q.px, q.py) = 0 ↔ c.r + 2 ≤ Spec.dist (q.px, q.py) (c.x, c.y) := by
      unfold Guide.circlePen
      rw [pow_eq_zero_iff (by norm_num), Guide.hinge_eq_zero, nd, sub_nonpos]
    simp only [List.map_cons, List.sum_cons, List.forall_mem_cons]
    refine ⟨by positivity, ?_⟩
    rw [← p1, ← i1]
    constructor
    · intro h; constructor <;> linarith
    · rintro ⟨h1, h2⟩; rw [h1, h2]; norm_num

example := C47_cost_bicycle (Params.default [⟨10, 0, 1⟩] []) ⟨8, 0, 0.5⟩

/-- C47, bicycle: guidance moves the state along the gradient of this cost: unless the rear axle is exactly at the centre of a disc, one
step is the state minus the step size times the gradient, limited to the box; the heading does not take part. -/
theorem C47_gradient_bicycle (P : Params) (q : Q3) (h : ∀ c ∈ P.circles, (q.px, q.py) ≠ (c.x, c.y)) :
    ∃ a b : ℝ, (∀ ss, Guide.stepBicycle P ss q =
        ⟨clip (q.px - ss * a) (-100) 100, clip (q.py - ss * b) (-100) 100, clip q.th1 (-(2 * π)) (2 * π)⟩) ∧
      ∀ d : Q3, HasDerivAt (fun t => Guide.costBicycle P ⟨q.px + t * d.px, q.py + t * d.py, q.th1 + t * d.th1⟩)
        (a * d.px + b * d.py) 0 := by
  obtain ⟨g, hg⟩ := Guide.sumGrad_isSome h
  refine ⟨g.1, g.2, fun ss => ?_, fun d => ?_⟩
  · unfold Guide.stepBicycle Guide.comp
    simp [hg]
  · have hlin : ∀ x v : ℝ, HasDerivAt (fun t : ℝ => x + t * v) v 0 := fun x v => by
      simpa using ((hasDerivAt_id (0 : ℝ)).mul_const v).const_add x
    exact Guide.hasDerivAt_sumPen P.circles (hlin q.px d.px) (hlin q.py d.py) (g := g) (by simpa using hg)

example := C47_gradient_bicycle (Params.default [⟨10, 0, 1⟩] []) ⟨8, 0, 0.5⟩ (by simp [Params.default])

/-- C47, bicycle: a state inside the box that keeps the margins is returned unchanged. -/
theorem C47_fixed_bicycle (P : Params) (hr : ∀ c ∈ P.circles, 0 ≤ c.r) (ss : ℝ) (n : ℕ) (q : Q3) (hx : |q.px| ≤ 100) (hy : |q.py| ≤ 100)
    (hth : |q.th1| ≤ 2 * π) (hm : ∀ c ∈ P.circles, c.r + 2 ≤ Spec.dist (q.px, q.py) (c.x, c.y)) : Guide.applyBicycle P ss n q = q := by
  have hs : Guide.stepBicycle P ss q = q := by
    have g1 := Guide.sumGrad_zero (cs := P.circles) (p := (q.px, q.py)) fun c hc => ⟨hr c hc, hm c hc⟩
    unfold Guide.stepBicycle
    simp only [g1, Option.map_some]
    ext
    · exact Guide.comp_zero hx
    · exact Guide.comp_zero hy
    · exact Guide.comp_zero hth
  unfold Guide.applyBicycle
  split
  · exact Function.iterate_fixed hs n
  · rfl

example (n : ℕ) := C47_fixed_bicycle { Params.default [⟨10, 0, 1⟩] [] with enableGuidance := true } (by simp [Params.default]) 0.05 n
  ⟨0, 0, 0.5⟩ (by norm_num) (by norm_num) (by norm_num [abs_of_pos]; linarith [pi_gt_three])
  (by
    simp only [Params.default, List.mem_singleton, forall_eq, Spec.dist]
    refine le_sqrt_of_sq_le ?_
    norm_num)

/-- C47, acceleration model: a pose inside the box that keeps the margins is returned unchanged, with its rates. -/
theorem C47_fixed_acc (P : Params) (hr : ∀ c ∈ P.circles, 0 ≤ c.r) (ss : ℝ) (n : ℕ) (q : Q6)
    (hb : Spec.InGuideBox q.pose) (ha : |q.th1 - q.th2| ≤ 3 * π)
    (hm : Spec.RespectsMargins P.circles P.lh P.l2 P.phiMax q.pose) : Guide.applyAcc P ss n q = q := by
  unfold Guide.applyAcc
  split
  · rw [C47_fixed P hr ss n q.pose hb ha hm]; rfl
  · rfl

/-- C47, train: a state inside the box whose tractor and first trailer keep the margins is returned unchanged. -/
theorem C47_fixed_ntrailer (P : Params) (hr : ∀ c ∈ P.circles, 0 ≤ c.r) (ss : ℝ) (n : ℕ) (q : QN)
    (hb : Spec.InGuideBox (Spec.front q)) (hb' : ∀ a ∈ q.ths, |a| ≤ 2 * π) (ha : |(Spec.front q).th1 - (Spec.front q).th2| ≤ 3 * π)
    (hm : Spec.RespectsMargins P.circles P.lh P.l2 P.phiMax (Spec.front q)) : Guide.applyN P ss n q = q := by
  have hs : Guide.stepN P ss q = q := by
    have g1 := Guide.sumGrad_zero (cs := P.circles) (p := (q.px, q.py)) fun c hc => ⟨hr c hc, hm.tractor c hc⟩
    have g2 := Guide.sumGrad_zero (cs := P.circles) (p := Guide.trailerPos P (Spec.front q)) fun c hc => ⟨hr c hc, hm.trailer c hc⟩
    have g3 := Guide.hitchGrad_zero ((Guide.withinModTurns_iff (Guide.phi_lt_pi P) ha).mp hm.hitch)
    have hg : Guide.grad P (Spec.front q) = (some 0, some 0, some 0, some 0) := by
      have g1' : Guide.sumGrad P.circles ((Spec.front q).px, (Spec.front q).py) = some (0, 0) := g1
      unfold Guide.grad
      simp [g1', g2, g3]
    have hg' : Guide.grad P ⟨q.px, q.py, q.th0, q.ths.getD 0 0⟩ = (some 0, some 0, some 0, some 0) := hg
    unfold Guide.stepN
    rw [hg']
    ext
    · exact Guide.comp_zero hb.1
    · exact Guide.comp_zero hb.2.1
    · exact Guide.comp_zero hb.2.2.1
    · rename_i i a
      simp only [ite_self, List.getElem?_mapIdx]
      cases h : q.ths[i]? with
      | none => simp
      | some b =>
        have := Guide.comp_zero (ss := ss) (hb' b (List.mem_of_getElem? h))
        simp [this]
  unfold Guide.applyN
  split
  · exact Function.iterate_fixed hs n
  · rfl

theorem wit_margins : Spec.RespectsMargins [⟨10, 0, 1⟩] 1.15 2.9 (Params.phiMax Wit.params) ⟨0, 0, 0, 0⟩ where
  tractor := by
    simp only [List.mem_singleton, forall_eq, Spec.ClearBy, Spec.dist]
    refine le_sqrt_of_sq_le ?_
    norm_num
  trailer := by
    simp only [List.mem_singleton, forall_eq, Spec.ClearBy, Spec.dist, Spec.trailerAxlePt]
    refine le_sqrt_of_sq_le ?_
    norm_num
  hitch := ⟨0, by simpa using (Guide.phi_pos Wit.params).le⟩

example (n : ℕ) := C47_fixed_ntrailer { Params.default [⟨10, 0, 1⟩] [] with enableGuidance := true } (by simp [Params.default]) 0.05 n
  ⟨0, 0, 0, [0, 1]⟩ ⟨by norm_num [Spec.front], by norm_num [Spec.front], by simp [Spec.front, pi_pos.le], by simp [Spec.front, pi_pos.le]⟩
  (by norm_num; exact ⟨by linarith [pi_pos], by linarith [pi_gt_three]⟩) (by simp [Spec.front]; linarith [pi_pos]) wit_margins

example (n : ℕ) := C47_fixed_acc { Params.default [⟨10, 0, 1⟩] [] with enableGuidance := true } (by simp [Params.default]) 0.05 n
  ⟨0, 0, 0, 0, 1, 0.2⟩ ⟨by norm_num [Q6.pose], by norm_num [Q6.pose], by simp [Q6.pose, pi_pos.le], by simp [Q6.pose, pi_pos.le]⟩
  (by simp; linarith [pi_pos]) wit_margins

end Mbd
