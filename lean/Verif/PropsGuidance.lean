import Mathlib.Analysis.Real.Pi.Bounds
import Verif.Witness
import Verif.GuideLemmas
import Verif.WrapLemmas

/-!
# Guidance: C47, C60
-/

namespace Spec

open Mbd Real

/-- Point `p` keeps distance `m` from the circular obstacle. -/
def ClearBy (m : ℝ) (c : Circle) (p : Pt) : Prop := c.r + m ≤ dist p (c.x, c.y)

/-- Rear axle of the trailer. -/
noncomputable def trailerAxlePt (lh l2 : ℝ) (q : Q4) : Pt :=
  (q.px - lh * cos q.th1 - l2 * cos q.th2, q.py - lh * sin q.th1 - l2 * sin q.th2)

/-- The angle, read modulo full turns, is at most `lim` in magnitude. -/
def withinModTurns (lim a : ℝ) : Prop := ∃ k : ℤ, |a + 2 * π * k| ≤ lim

/-- All margins that guidance is about: 2 m from the circles for both reference points, hitch angle
within its limit. -/
structure RespectsMargins (circles : List Circle) (lh l2 phi : ℝ) (q : Q4) : Prop where
  tractor : ∀ c ∈ circles, ClearBy 2 c (q.px, q.py)
  trailer : ∀ c ∈ circles, ClearBy 2 c (trailerAxlePt lh l2 q)
  hitch : withinModTurns phi (q.th1 - q.th2)

/-- The box in which guidance keeps positions and angles. -/
def InGuideBox (q : Q4) : Prop := |q.px| ≤ 100 ∧ |q.py| ≤ 100 ∧ |q.th1| ≤ 2 * π ∧ |q.th2| ≤ 2 * π

end Spec

namespace Mbd

open Real Classical

namespace Guide

theorem phi_pos (P : Params) : 0 < P.phiMax := by unfold Params.phiMax deg2rad; positivity

theorem phi_le_pi (P : Params) : P.phiMax ≤ π := by
  unfold Params.phiMax deg2rad; nlinarith [pi_pos]

theorem phi_lt_pi (P : Params) : P.phiMax < π := by
  unfold Params.phiMax deg2rad; nlinarith [pi_pos]

theorem norm2_sub (p : V2) (c : Circle) : norm2 (p - (c.x, c.y)) = Spec.dist p (c.x, c.y) := rfl

theorem circlePen_nonneg (c : Circle) (p : V2) : 0 ≤ circlePen c p := sq_nonneg _

theorem circlePen_zero {c : Circle} {p : V2} : circlePen c p = 0 ↔ Spec.ClearBy 2 c p := by
  unfold circlePen Spec.ClearBy
  rw [pow_eq_zero_iff (by norm_num), hinge_eq_zero, norm2_sub]
  constructor <;> intro h <;> linarith

theorem hitchPen_nonneg (phi a : ℝ) : 0 ≤ hitchPen phi a := sq_nonneg _

theorem hitchPen_zero {phi a : ℝ} : hitchPen phi a = 0 ↔ |a| ≤ phi := by
  unfold hitchPen
  rw [pow_eq_zero_iff (by norm_num), hinge_eq_zero, sub_nonpos]

theorem hitchMin_nonneg (phi a : ℝ) : 0 ≤ hitchMin phi a :=
  le_min (hitchPen_nonneg _ _) (le_min (hitchPen_nonneg _ _) (hitchPen_nonneg _ _))

theorem hitchMin_zero {phi a : ℝ} :
    hitchMin phi a = 0 ↔ |a| ≤ phi ∨ |a + 2 * π| ≤ phi ∨ |a - 2 * π| ≤ phi := by
  rw [sub_eq_add_neg, ← hitchPen_zero, ← hitchPen_zero, ← hitchPen_zero]
  unfold hitchMin
  rw [add_zero]
  constructor
  · intro h
    rcases min_choice (hitchPen phi a) (min (hitchPen phi (a + 2 * π)) (hitchPen phi (a + -(2 * π))))
      with h1 | h1
    · left; rw [← h1, h]
    · right
      rw [h1] at h
      rcases min_choice (hitchPen phi (a + 2 * π)) (hitchPen phi (a + -(2 * π))) with h2 | h2
      · left; rw [← h2, h]
      · right; rw [← h2, h]
  · have n1 := hitchPen_nonneg phi a
    have n2 := hitchPen_nonneg phi (a + 2 * π)
    have n3 := hitchPen_nonneg phi (a + -(2 * π))
    rintro (h | h | h) <;> rw [h]
    · exact min_eq_left (le_min n2 n3)
    · rw [min_eq_left n3, min_eq_right n1]
    · rw [min_eq_right n2, min_eq_right n1]

theorem withinModTurns_iff {phi a : ℝ} (hphi : phi < π) (ha : |a| ≤ 3 * π) :
    Spec.withinModTurns phi a ↔ hitchMin phi a = 0 := by
  rw [hitchMin_zero]
  constructor
  · rintro ⟨k, hk⟩
    have h1 := abs_le.mp hk
    have h2 := abs_le.mp ha
    have hp := pi_pos
    have hk1 : (k : ℝ) < 2 := by nlinarith
    have hk2 : (-2 : ℝ) < k := by nlinarith
    have hk1' : k < 2 := by exact_mod_cast hk1
    have hk2' : -2 < k := by exact_mod_cast hk2
    have : k = -1 ∨ k = 0 ∨ k = 1 := by omega
    rcases this with rfl | rfl | rfl
    · right; right
      convert hk using 2
      push_cast
      ring
    · left
      simpa using hk
    · right; left
      simpa using hk
  · rintro (h | h | h)
    · exact ⟨0, by simpa using h⟩
    · exact ⟨1, by simpa using h⟩
    · exact ⟨-1, by
        convert h using 2
        push_cast
        ring⟩

theorem hitchWeight_pos (P : Params) : 0 < hitchWeight P := lt_of_lt_of_le one_pos (le_max_left _ _)

theorem sum_eq_zero_iff {l : List ℝ} (h : ∀ x ∈ l, 0 ≤ x) : l.sum = 0 ↔ ∀ x ∈ l, x = 0 := by
  induction l with
  | nil => simp
  | cons a l ih =>
    have h1 := h a (by simp)
    have h2 := ih fun x hx => h x (by simp [hx])
    have h3 : 0 ≤ l.sum := List.sum_nonneg fun x hx => h x (by simp [hx])
    rw [List.sum_cons]
    constructor
    · intro h4 x hx
      rcases List.mem_cons.mp hx with rfl | hx
      · linarith
      · exact h2.mp (by linarith) x hx
    · intro h4
      rw [h4 a (by simp), h2.mpr fun x hx => h4 x (by simp [hx]), add_zero]

theorem circles_nonneg (P : Params) (q : Q4) :
    ∀ x ∈ (P.circles.map fun c => circlePen c (q.px, q.py) + circlePen c (trailerPos P q)), 0 ≤ x := by
  intro x hx
  rw [List.mem_map] at hx
  obtain ⟨c, _, rfl⟩ := hx
  exact add_nonneg (circlePen_nonneg _ _) (circlePen_nonneg _ _)

theorem clip_abs_le (x : ℝ) {l : ℝ} (h : 0 ≤ l) : |clip x (-l) l| ≤ l :=
  abs_le.mpr ⟨le_clip (by linarith), clip_le _ _ _⟩

theorem clip_self {x l : ℝ} (h : |x| ≤ l) : clip x (-l) l = x :=
  clip_of_mem (abs_le.mp h).1 (abs_le.mp h).2

theorem comp_zero {ss x l : ℝ} (h : |x| ≤ l) : comp ss x (some 0) l = x := by
  unfold comp
  simp only [Option.getD_some, mul_zero, sub_zero]
  exact clip_self h

theorem sumGrad_single {c : Circle} {p : V2} (h : Spec.dist p (c.x, c.y) ≠ 0)
    (hv : Spec.dist p (c.x, c.y) ≤ c.r + 2) :
    sumGrad [c] p = some
      (-(2 * (c.r + 2 - Spec.dist p (c.x, c.y)) / Spec.dist p (c.x, c.y)) * (p.1 - c.x),
       -(2 * (c.r + 2 - Spec.dist p (c.x, c.y)) / Spec.dist p (c.x, c.y)) * (p.2 - c.y)) := by
  have h1 : circleGrad c p = some
      (-(2 * (c.r + 2 - Spec.dist p (c.x, c.y)) / Spec.dist p (c.x, c.y)) * (p.1 - c.x),
       -(2 * (c.r + 2 - Spec.dist p (c.x, c.y)) / Spec.dist p (c.x, c.y)) * (p.2 - c.y)) := by
    unfold circleGrad
    simp only
    rw [if_neg (show ¬ norm2 (p - (c.x, c.y)) = 0 from h)]
    change some (-(2 * hinge (c.r + 2 - Spec.dist p (c.x, c.y)) / Spec.dist p (c.x, c.y)) * (p.1 - c.x),
      -(2 * hinge (c.r + 2 - Spec.dist p (c.x, c.y)) / Spec.dist p (c.x, c.y)) * (p.2 - c.y)) = _
    rw [hinge_of_nonneg (by linarith)]
  unfold sumGrad
  simp only [List.foldr_cons, List.foldr_nil, h1, add_zero]

theorem dist_scale (p c : V2) {k : ℝ} (hk : 0 ≤ k) :
    Spec.dist (c.1 + k * (p.1 - c.1), c.2 + k * (p.2 - c.2)) c = k * Spec.dist p c := by
  unfold Spec.dist
  conv_rhs => rw [← Real.sqrt_sq hk]
  rw [← Real.sqrt_mul (sq_nonneg _)]
  congr 1
  ring

end Guide

/-! ## C47 -/

/-- C47: switched off, guidance is the identity, for all four robots. -/
theorem C47_disabled (P : Params) (h : P.enableGuidance = false) (ss : ℝ) (n : ℕ) :
    (∀ q, Guide.apply P ss n q = q) ∧ (∀ q, Guide.applyAcc P ss n q = q) ∧
    (∀ q, Guide.applyBicycle P ss n q = q) ∧ (∀ q, Guide.applyN P ss n q = q) := by
  simp [Guide.apply, Guide.applyAcc, Guide.applyBicycle, Guide.applyN, h]

example := C47_disabled (Params.default [] []) rfl 0.05 3

/-- C47: switched on with at least one step, the result is inside the box, wherever the state was and
whatever the gradient (non-finite entries included). -/
theorem C47_box (P : Params) (h : P.enableGuidance = true) (ss : ℝ) (n : ℕ) (hn : 0 < n) (q : Q4) :
    Spec.InGuideBox (Guide.apply P ss n q) := by
  obtain ⟨m, rfl⟩ : ∃ m, n = m + 1 := ⟨n - 1, by omega⟩
  unfold Guide.apply
  rw [if_pos h, Function.iterate_succ_apply']
  have hp := pi_pos
  exact ⟨Guide.clip_abs_le _ (by norm_num), Guide.clip_abs_le _ (by norm_num),
    Guide.clip_abs_le _ (by positivity), Guide.clip_abs_le _ (by positivity)⟩

example := C47_box { Params.default [⟨0, 0, 1⟩] [] with enableGuidance := true } rfl 0.05 3 (by norm_num)

/-- C47: the same for the train, all angles. -/
theorem C47_box_ntrailer (P : Params) (h : P.enableGuidance = true) (ss : ℝ) (n : ℕ) (hn : 0 < n)
    (q : QN) :
    |(Guide.applyN P ss n q).px| ≤ 100 ∧ |(Guide.applyN P ss n q).py| ≤ 100 ∧
    |(Guide.applyN P ss n q).th0| ≤ 2 * π ∧ ∀ a ∈ (Guide.applyN P ss n q).ths, |a| ≤ 2 * π := by
  obtain ⟨m, rfl⟩ : ∃ m, n = m + 1 := ⟨n - 1, by omega⟩
  unfold Guide.applyN
  rw [if_pos h, Function.iterate_succ_apply']
  have hp := pi_pos
  refine ⟨Guide.clip_abs_le _ (by norm_num), Guide.clip_abs_le _ (by norm_num),
    Guide.clip_abs_le _ (by positivity), ?_⟩
  intro a ha
  unfold Guide.stepN at ha
  simp only [List.mem_mapIdx] at ha
  obtain ⟨i, hi, rfl⟩ := ha
  exact Guide.clip_abs_le _ (by positivity)

example := C47_box_ntrailer { Params.default [⟨0, 0, 1⟩] [] with enableGuidance := true } rfl 0.05 3
  (by norm_num)

/-- C47: the same for the bicycle. -/
theorem C47_box_bicycle (P : Params) (h : P.enableGuidance = true) (ss : ℝ) (n : ℕ) (hn : 0 < n)
    (q : Q3) :
    |(Guide.applyBicycle P ss n q).px| ≤ 100 ∧ |(Guide.applyBicycle P ss n q).py| ≤ 100 ∧
    |(Guide.applyBicycle P ss n q).th1| ≤ 2 * π := by
  obtain ⟨m, rfl⟩ : ∃ m, n = m + 1 := ⟨n - 1, by omega⟩
  unfold Guide.applyBicycle
  rw [if_pos h, Function.iterate_succ_apply']
  have hp := pi_pos
  exact ⟨Guide.clip_abs_le _ (by norm_num), Guide.clip_abs_le _ (by norm_num),
    Guide.clip_abs_le _ (by positivity)⟩

example := C47_box_bicycle { Params.default [⟨0, 0, 1⟩] [] with enableGuidance := true } rfl 0.05 3
  (by norm_num)

/-- C47: speed and steering of the acceleration model are never changed, and its pose is guided as
the tractor-trailer's. -/
theorem C47_acc_keeps (P : Params) (ss : ℝ) (n : ℕ) (q : Q6) :
    (Guide.applyAcc P ss n q).v = q.v ∧ (Guide.applyAcc P ss n q).delta = q.delta ∧
    (Guide.applyAcc P ss n q).pose = Guide.apply P ss n q.pose := by
  unfold Guide.applyAcc Guide.apply
  split <;> exact ⟨rfl, rfl, rfl⟩

/-- C47: the cost is never negative. -/
theorem C47_cost_nonneg (P : Params) (q : Q4) : 0 ≤ Guide.cost P q :=
  add_nonneg (List.sum_nonneg (Guide.circles_nonneg P q))
    (mul_nonneg (Guide.hitchWeight_pos P).le (Guide.hitchMin_nonneg _ _))

/-- C47, partial: the cost is zero exactly when all margins are respected, provided the two headings
differ by at most one and a half turns. Missing: larger differences (refuted below). -/
theorem C47_cost_zero_partial (P : Params) (q : Q4) (ha : |q.th1 - q.th2| ≤ 3 * π) :
    Guide.cost P q = 0 ↔ Spec.RespectsMargins P.circles P.lh P.l2 P.phiMax q := by
  have n1 := List.sum_nonneg (Guide.circles_nonneg P q)
  have n2 := mul_nonneg (Guide.hitchWeight_pos P).le (Guide.hitchMin_nonneg P.phiMax (q.th1 - q.th2))
  have hw := Guide.hitchWeight_pos P
  have e1 : (P.circles.map fun c => Guide.circlePen c (q.px, q.py) +
      Guide.circlePen c (Guide.trailerPos P q)).sum = 0 ↔
      ∀ c ∈ P.circles, Spec.ClearBy 2 c (q.px, q.py) ∧ Spec.ClearBy 2 c (Spec.trailerAxlePt P.lh P.l2 q) := by
    rw [Guide.sum_eq_zero_iff (Guide.circles_nonneg P q)]
    simp only [List.mem_map, forall_exists_index, and_imp, forall_apply_eq_imp_iff₂]
    refine forall_congr' fun c => forall_congr' fun _ => ?_
    rw [← Guide.circlePen_zero, ← Guide.circlePen_zero]
    have a := Guide.circlePen_nonneg c (q.px, q.py)
    have b := Guide.circlePen_nonneg c (Guide.trailerPos P q)
    change _ ↔ _ ∧ Guide.circlePen c (Guide.trailerPos P q) = 0
    constructor
    · intro h; constructor <;> linarith
    · rintro ⟨h1, h2⟩; linarith
  constructor
  · intro h
    unfold Guide.cost at h
    have h1 := e1.mp (by linarith)
    have h2 : Guide.hitchWeight P * Guide.hitchMin P.phiMax (q.th1 - q.th2) = 0 := by linarith
    have h3 := (mul_eq_zero.mp h2).resolve_left hw.ne'
    exact ⟨fun c hc => (h1 c hc).1, fun c hc => (h1 c hc).2,
      (Guide.withinModTurns_iff (Guide.phi_lt_pi P) ha).mpr h3⟩
  · intro h
    unfold Guide.cost
    rw [e1.mpr fun c hc => ⟨h.tractor c hc, h.trailer c hc⟩,
      (Guide.withinModTurns_iff (Guide.phi_lt_pi P) ha).mp h.hitch]
    ring

example := C47_cost_zero_partial (Params.default [⟨0, 0, 1⟩] []) ⟨5, 0, 0.5, 0⟩
  (by norm_num [abs_of_nonneg]; linarith [pi_gt_three])

/-- The cost treats only differences up to one turn as equivalent: tractor at `2π`, trailer at `-2π`
(both inside the box) are aligned, yet the cost is positive. -/
theorem C47_cost_zero_refuted :
    ¬ ∀ (P : Params) (q : Q4), Spec.InGuideBox q →
      (Guide.cost P q = 0 ↔ Spec.RespectsMargins P.circles P.lh P.l2 P.phiMax q) := by
  intro h
  have hp := pi_pos
  let P := Params.default [] []
  let q : Q4 := ⟨0, 0, 2 * π, -(2 * π)⟩
  have h1 := (h P q ⟨by norm_num [q], by norm_num [q], by
    show |2 * π| ≤ _
    rw [abs_of_pos (by positivity)], by
    show |-(2 * π)| ≤ _
    rw [abs_neg, abs_of_pos (by positivity)]⟩).mpr ⟨by simp [P, Params.default],
      by simp [P, Params.default], ⟨-2, by
        have : q.th1 - q.th2 + 2 * π * ((-2 : ℤ) : ℝ) = 0 := by
          simp only [q]; push_cast; ring
        rw [this, abs_zero]
        exact (Guide.phi_pos P).le⟩⟩
  have h2 : Guide.hitchMin P.phiMax (q.th1 - q.th2) = 0 := by
    unfold Guide.cost at h1
    have : P.circles = [] := rfl
    rw [this] at h1
    simp only [List.map_nil, List.sum_nil, zero_add, mul_eq_zero] at h1
    exact h1.resolve_left (Guide.hitchWeight_pos P).ne'
  rw [Guide.hitchMin_zero] at h2
  have hl := Guide.phi_lt_pi P
  have e : q.th1 - q.th2 = 4 * π := by simp only [q]; ring
  rw [e] at h2
  rcases h2 with h2 | h2 | h2 <;> have := (abs_le.mp h2).2 <;> linarith

/-- C47: what guidance descends is the gradient of its cost: in every state in which neither
reference point is exactly at a circle's centre and the headings do not differ by exactly half a
turn, all components are finite and give the derivative in every direction. -/
theorem C47_gradient (P : Params) (q d : Q4)
    (h1 : ∀ c ∈ P.circles, (q.px, q.py) ≠ (c.x, c.y))
    (h2 : ∀ c ∈ P.circles, Spec.trailerAxlePt P.lh P.l2 q ≠ (c.x, c.y))
    (h3 : |q.th1 - q.th2| ≠ π) :
    ∃ a b c e, Guide.grad P q = (some a, some b, some c, some e) ∧
      HasDerivAt (fun t => Guide.cost P (q.axpy t d))
        (a * d.px + b * d.py + c * d.th1 + e * d.th2) 0 := by
  obtain ⟨gt, hgt⟩ := Guide.sumGrad_isSome h1
  obtain ⟨gr, hgr⟩ := Guide.sumGrad_isSome (p := Guide.trailerPos P q) h2
  refine ⟨gt.1 + gr.1, gt.2 + gr.2,
    gr.1 * (P.lh * sin q.th1) + gr.2 * -(P.lh * cos q.th1) +
      Guide.hitchWeight P * Guide.hitchGrad P.phiMax (q.th1 - q.th2),
    gr.1 * (P.l2 * sin q.th2) + gr.2 * -(P.l2 * cos q.th2) -
      Guide.hitchWeight P * Guide.hitchGrad P.phiMax (q.th1 - q.th2), ?_, ?_⟩
  · unfold Guide.grad
    simp only [hgt, hgr, Option.map_some]
  · have hlin : ∀ x v : ℝ, HasDerivAt (fun t : ℝ => x + t * v) v 0 := fun x v => by
      simpa using ((hasDerivAt_id (0 : ℝ)).mul_const v).const_add x
    have hcos : ∀ x v : ℝ, HasDerivAt (fun t : ℝ => cos (x + t * v)) (-sin x * v) 0 := fun x v => by
      simpa using (hlin x v).cos
    have hsin : ∀ x v : ℝ, HasDerivAt (fun t : ℝ => sin (x + t * v)) (cos x * v) 0 := fun x v => by
      simpa using (hlin x v).sin
    have ht := Guide.hasDerivAt_sumPen P.circles (hlin q.px d.px) (hlin q.py d.py) (g := gt)
      (by simpa using hgt)
    have hrx : HasDerivAt (fun t => (Guide.trailerPos P (q.axpy t d)).1)
        (d.px - P.lh * (-sin q.th1 * d.th1) - P.l2 * (-sin q.th2 * d.th2)) 0 :=
      ((hlin q.px d.px).sub ((hcos q.th1 d.th1).const_mul P.lh)).sub
        ((hcos q.th2 d.th2).const_mul P.l2)
    have hry : HasDerivAt (fun t => (Guide.trailerPos P (q.axpy t d)).2)
        (d.py - P.lh * (cos q.th1 * d.th1) - P.l2 * (cos q.th2 * d.th2)) 0 :=
      ((hlin q.py d.py).sub ((hsin q.th1 d.th1).const_mul P.lh)).sub
        ((hsin q.th2 d.th2).const_mul P.l2)
    have e0 : q.axpy 0 d = q := by ext <;> simp [Q4.axpy]
    have hr := Guide.hasDerivAt_sumPen P.circles hrx hry (g := gr) (by rw [e0]; exact hgr)
    have ha : HasDerivAt (fun t : ℝ => (q.axpy t d).th1 - (q.axpy t d).th2) (d.th1 - d.th2) 0 :=
      (hlin q.th1 d.th1).sub (hlin q.th2 d.th2)
    have hh : HasDerivAt (fun t => Guide.hitchMin P.phiMax ((q.axpy t d).th1 - (q.axpy t d).th2))
        (Guide.hitchGrad P.phiMax (q.th1 - q.th2) * (d.th1 - d.th2)) 0 := by
      have h0 := Guide.hitchMin_gradient_aux (Guide.phi_pos P) (Guide.phi_le_pi P) h3
      have h0' : HasDerivAt (Guide.hitchMin P.phiMax) (Guide.hitchGrad P.phiMax (q.th1 - q.th2))
          ((q.axpy 0 d).th1 - (q.axpy 0 d).th2) := by rw [e0]; exact h0
      exact h0'.comp (0 : ℝ) ha
    have hall := (ht.add hr).add (hh.const_mul (Guide.hitchWeight P))
    have ec : (fun t => Guide.cost P (q.axpy t d)) = fun t =>
        (P.circles.map fun c => Guide.circlePen c (q.px + t * d.px, q.py + t * d.py)).sum +
        (P.circles.map fun c => Guide.circlePen c ((Guide.trailerPos P (q.axpy t d)).1,
          (Guide.trailerPos P (q.axpy t d)).2)).sum +
        Guide.hitchWeight P * Guide.hitchMin P.phiMax ((q.axpy t d).th1 - (q.axpy t d).th2) := by
      funext t
      unfold Guide.cost
      rw [← List.sum_map_add]
      rfl
    rw [ec]
    refine hall.congr_deriv ?_
    ring

/-- A vehicle inside the margin of a disc, with a bent hitch. -/
example (d : Q4) := C47_gradient (Params.default [⟨10, 0, 1⟩] []) ⟨8, 0, 0.5, 0⟩ d
  (by simp [Params.default])
  (by
    simp only [Params.default, List.mem_singleton, forall_eq, Spec.trailerAxlePt, ne_eq, Prod.mk.injEq,
      not_and]
    intro h
    have := cos_le_one (0.5 : ℝ)
    have := neg_one_le_cos (0.5 : ℝ)
    exfalso
    simp at h
    linarith)
  (by norm_num [abs_of_nonneg]; linarith [pi_gt_three])

/-- C47: a state inside the box that respects all margins is returned unchanged (radii not negative,
headings at most one and a half turns apart). -/
theorem C47_fixed (P : Params) (hr : ∀ c ∈ P.circles, 0 ≤ c.r) (ss : ℝ) (n : ℕ) (q : Q4)
    (hb : Spec.InGuideBox q) (ha : |q.th1 - q.th2| ≤ 3 * π)
    (hm : Spec.RespectsMargins P.circles P.lh P.l2 P.phiMax q) : Guide.apply P ss n q = q := by
  have hs : Guide.stepOnce P ss q = q := by
    have g1 := Guide.sumGrad_zero (cs := P.circles) (p := (q.px, q.py))
      fun c hc => ⟨hr c hc, hm.tractor c hc⟩
    have g2 := Guide.sumGrad_zero (cs := P.circles) (p := Guide.trailerPos P q)
      fun c hc => ⟨hr c hc, hm.trailer c hc⟩
    have g3 := Guide.hitchGrad_zero
      ((Guide.withinModTurns_iff (Guide.phi_lt_pi P) ha).mp hm.hitch)
    have hg : Guide.grad P q = (some 0, some 0, some 0, some 0) := by
      unfold Guide.grad
      simp [g1, g2, g3]
    unfold Guide.stepOnce
    rw [hg]
    ext
    · exact Guide.comp_zero hb.1
    · exact Guide.comp_zero hb.2.1
    · exact Guide.comp_zero hb.2.2.1
    · exact Guide.comp_zero hb.2.2.2
  unfold Guide.apply
  split
  · exact Function.iterate_fixed hs n
  · rfl

/-- Without the box the last claim is false: 200 m from the origin, empty map, aligned vehicle:
guidance moves it by 100 m. -/
theorem C47_fixed_refuted :
    ¬ ∀ (P : Params) (q : Q4), P.enableGuidance = true → (∀ c ∈ P.circles, 0 ≤ c.r) →
      Spec.RespectsMargins P.circles P.lh P.l2 P.phiMax q → Guide.apply P 0.05 3 q = q := by
  intro h
  let P := { Params.default [] [] with enableGuidance := true }
  have h1 := h P ⟨200, 0, 0, 0⟩ rfl (by simp [P, Params.default])
    ⟨by simp [P, Params.default], by simp [P, Params.default], 0, by
      simpa using (Guide.phi_pos P).le⟩
  have h2 := (C47_box P rfl 0.05 3 (by norm_num) ⟨200, 0, 0, 0⟩).1
  rw [h1] at h2
  norm_num at h2

/-- C47: outside visualisation mode the executed state is the plain Euler step of the requested
action, for whatever `apply_guidance` returns. -/
theorem C47_executed_tt2d (T : TT2d) (ext : Ext Q4) (s : St Q4) (a : U)
    (hp : T.enableProjection = false) (hg : T.enableGuidance = true) (hb : s.inBackup = false) :
    (T.step ext s a).q = TT2d.euler T.toParams s.q (T.inputScaler (clipU a)) ∧
    (T.step ext s a).applied = clipU a := by
  unfold TT2d.step TT2d.stepInternal
  simp [hp, hg, hb]

example (ext : Ext Q4) (a : U) := C47_executed_tt2d { Wit.tt with enableGuidance := true } ext
  (TT2d.reset { Wit.tt with enableGuidance := true }) a rfl rfl rfl

/-- C47, acceleration model. -/
theorem C47_executed_acc (T : Acc) (ext : Ext Q6) (s : St Q6) (a : U)
    (hp : T.enableProjection = false) (hg : T.enableGuidance = true) (hb : s.inBackup = false) :
    (T.step ext s a).q = T.euler s.q (T.inputScaler (clipU a)) T.dt ∧
    (T.step ext s a).applied = clipU a := by
  unfold Acc.step Acc.stepInternal
  simp [hp, hg, hb]

example (ext : Ext Q6) (a : U) := C47_executed_acc { Wit.acc with enableGuidance := true } ext
  (Acc.reset { Wit.acc with enableGuidance := true }) a rfl rfl rfl

/-- C47, bicycle. -/
theorem C47_executed_bicycle (T : Bicycle) (ext : Ext Q3) (s : St Q3) (a : U)
    (hp : T.enableProjection = false) (hg : T.enableGuidance = true) (hb : s.inBackup = false) :
    (T.step ext s a).q = Bicycle.euler T.toParams s.q (T.inputScaler (clipU a)) ∧
    (T.step ext s a).applied = clipU a := by
  unfold Bicycle.step Bicycle.stepInternal
  simp [hp, hg, hb]

example (ext : Ext Q3) (a : U) := C47_executed_bicycle { Wit.bike with enableGuidance := true } ext
  (Bicycle.reset { Wit.bike with enableGuidance := true }) a rfl rfl rfl

/-- C47, train. -/
theorem C47_executed_ntrailer (T : NTrailer) (guide : QN → QN) (s : St QN) (a : U)
    (hp : T.enableProjection = false) (hg : T.enableGuidance = true) (hb : s.inBackup = false)
    (hl : s.q.ths.length = T.N) :
    ∃ s', T.step guide s a = .ok s' ∧ s'.q = T.euler s.q (T.inputScaler (clipU a)) ∧
      s'.applied = clipU a := by
  unfold NTrailer.step NTrailer.stepInternal
  simp [hp, hg, hb, hl]

example (guide : QN → QN) (a : U) := C47_executed_ntrailer { Wit.train with enableGuidance := true } guide
  (NTrailer.reset { Wit.train with enableGuidance := true }) a rfl rfl rfl rfl

/-- C47: guidance looks at rectangles only by counting them. -/
theorem C47_rectangles_ignored (P P' : Params) (h : P' = { P with rects := P'.rects })
    (hl : P.rects.length = P'.rects.length) (ss : ℝ) (n : ℕ) (q : Q4) :
    Guide.apply P' ss n q = Guide.apply P ss n q := by
  have hw : Guide.hitchWeight P' = Guide.hitchWeight P := by
    unfold Guide.hitchWeight
    rw [← hl, h]
  have hs : Guide.stepOnce P' ss = Guide.stepOnce P ss := by
    funext x
    unfold Guide.stepOnce Guide.grad
    rw [hw, h]
    rfl
  unfold Guide.apply
  rw [hs, h]

example := C47_rectangles_ignored (Params.default [] [⟨0, 0, 1, 1, 0⟩]) (Params.default [] [⟨5, 5, 2, 2, 1⟩])
  rfl rfl 0.05 3

/-- C47, train: guidance never moves the second and later trailers (angles inside the box). -/
theorem C47_later_trailers (P : Params) (ss : ℝ) (n : ℕ) (q : QN) (i : ℕ) (hi : 0 < i) (a : ℝ)
    (h : q.ths[i]? = some a) (ha : |a| ≤ 2 * π) : (Guide.applyN P ss n q).ths[i]? = some a := by
  unfold Guide.applyN
  split
  · clear * - h ha hi
    induction n generalizing q with
    | zero => exact h
    | succ n ih =>
      rw [Function.iterate_succ_apply]
      refine ih _ ?_
      unfold Guide.stepN
      simp only [List.getElem?_mapIdx, h, Option.map_some, if_neg hi.ne', Guide.comp_zero ha]
  · exact h

example := C47_later_trailers { Params.default [⟨0, 0, 1⟩] [] with enableGuidance := true } 0.05 3
  ⟨1, 0, 0, [0, 0.5]⟩ 1 (by norm_num) 0.5 rfl (by norm_num [abs_of_nonneg]; linarith [pi_gt_three])

/-! Non-vacuity. -/

/-- One circle of radius 1 at `(10, 0)`, vehicle at the origin heading along the x-axis. -/
example : Spec.RespectsMargins [⟨10, 0, 1⟩] 1.15 2.9 (Params.default [] []).phiMax ⟨0, 0, 0, 0⟩ ∧
    Spec.InGuideBox ⟨0, 0, 0, 0⟩ := by
  have hp := pi_pos
  refine ⟨⟨?_, ?_, 0, ?_⟩, by norm_num, by norm_num, by norm_num [hp.le], by norm_num [hp.le]⟩
  · simp only [List.mem_singleton, forall_eq, Spec.ClearBy, Spec.dist]
    rw [Real.le_sqrt (by norm_num) (by norm_num)]
    norm_num
  · simp only [List.mem_singleton, forall_eq, Spec.ClearBy, Spec.dist, Spec.trailerAxlePt, cos_zero,
      sin_zero]
    rw [Real.le_sqrt (by norm_num) (by norm_num)]
    norm_num
  · simpa using (Guide.phi_pos _).le

/-! ## C60: guidance moves a vehicle out of an obstacle -/

/-- C60: with one circular obstacle, a bicycle whose reference point is `viol` metres too close is
moved straight away from the centre by `2·step_size·viol` in each step (unless the 100 m box cuts it
off). -/
theorem C60_pushes_out (P : Params) (c : Circle) (hc : P.circles = [c]) (ss : ℝ) (q : Q3)
    (hss : 0 ≤ ss) (hne : 0 < Spec.dist (q.px, q.py) (c.x, c.y))
    (hv : Spec.dist (q.px, q.py) (c.x, c.y) ≤ c.r + 2)
    (hbx : |(Guide.stepBicycle P ss q).px| < 100) (hby : |(Guide.stepBicycle P ss q).py| < 100) :
    Spec.dist ((Guide.stepBicycle P ss q).px, (Guide.stepBicycle P ss q).py) (c.x, c.y) =
      Spec.dist (q.px, q.py) (c.x, c.y) +
        2 * ss * (c.r + 2 - Spec.dist (q.px, q.py) (c.x, c.y)) := by
  set d := Spec.dist (q.px, q.py) (c.x, c.y) with hd
  have hg : Guide.sumGrad P.circles (q.px, q.py) =
      some (-(2 * (c.r + 2 - d) / d) * (q.px - c.x), -(2 * (c.r + 2 - d) / d) * (q.py - c.y)) := by
    rw [hc]
    exact Guide.sumGrad_single hne.ne' hv
  have hclip : ∀ x : ℝ, |clip x (-100) 100| < 100 → clip x (-100) 100 = x := by
    intro x hx
    have h := abs_lt.mp hx
    unfold clip at h ⊢
    have h1 : max x (-100) < 100 := by
      by_contra h2
      rw [min_eq_right (not_lt.mp h2)] at h
      linarith [h.2]
    rw [min_eq_left h1.le] at h ⊢
    have h3 : -100 < x := by
      by_contra h2
      rw [max_eq_right (not_lt.mp h2)] at h
      linarith [h.1]
    exact max_eq_left h3.le
  have ex : (Guide.stepBicycle P ss q).px = q.px - ss * (-(2 * (c.r + 2 - d) / d) * (q.px - c.x)) := by
    have : (Guide.stepBicycle P ss q).px = clip (q.px - ss * (-(2 * (c.r + 2 - d) / d) * (q.px - c.x)))
      (-100) 100 := by
      unfold Guide.stepBicycle Guide.comp
      simp only [hg, Option.map_some, Option.getD_some]
    rw [this] at hbx ⊢
    exact hclip _ hbx
  have ey : (Guide.stepBicycle P ss q).py = q.py - ss * (-(2 * (c.r + 2 - d) / d) * (q.py - c.y)) := by
    have : (Guide.stepBicycle P ss q).py = clip (q.py - ss * (-(2 * (c.r + 2 - d) / d) * (q.py - c.y)))
      (-100) 100 := by
      unfold Guide.stepBicycle Guide.comp
      simp only [hg, Option.map_some, Option.getD_some]
    rw [this] at hby ⊢
    exact hclip _ hby
  rw [ex, ey]
  have hk : 0 ≤ 1 + ss * (2 * (c.r + 2 - d) / d) := by
    have : 0 ≤ ss * (2 * (c.r + 2 - d) / d) :=
      mul_nonneg hss (div_nonneg (by linarith) hne.le)
    linarith
  have e : Spec.dist (q.px - ss * (-(2 * (c.r + 2 - d) / d) * (q.px - c.x)),
      q.py - ss * (-(2 * (c.r + 2 - d) / d) * (q.py - c.y))) (c.x, c.y) =
      (1 + ss * (2 * (c.r + 2 - d) / d)) * d := by
    have := Guide.dist_scale (q.px, q.py) (c.x, c.y) hk
    rw [← hd] at this
    rw [← this]
    congr 2 <;> ring
  rw [e]
  field_simp

/-- C60: three guidance steps of the default size leave 72.9 % of the violation (obstacle and vehicle
near the origin, so that the box does not matter). -/
theorem C60_three_steps (P : Params) (c : Circle) (hg : P.enableGuidance = true) (hc : P.circles = [c])
    (q : Q3) (hne : 0 < Spec.dist (q.px, q.py) (c.x, c.y))
    (hv : Spec.dist (q.px, q.py) (c.x, c.y) ≤ c.r + 2) (hcx : |c.x| + c.r + 2 < 100)
    (hcy : |c.y| + c.r + 2 < 100) :
    c.r + 2 - Spec.dist ((Guide.applyBicycle P 0.05 3 q).px, (Guide.applyBicycle P 0.05 3 q).py)
      (c.x, c.y) = 0.729 * (c.r + 2 - Spec.dist (q.px, q.py) (c.x, c.y)) := by
  -- one step: distance formula without the box hypotheses
  have one : ∀ q : Q3, 0 < Spec.dist (q.px, q.py) (c.x, c.y) →
      Spec.dist (q.px, q.py) (c.x, c.y) ≤ c.r + 2 →
      Spec.dist ((Guide.stepBicycle P 0.05 q).px, (Guide.stepBicycle P 0.05 q).py) (c.x, c.y) =
        Spec.dist (q.px, q.py) (c.x, c.y) +
          2 * 0.05 * (c.r + 2 - Spec.dist (q.px, q.py) (c.x, c.y)) := by
    intro q hne hv
    have habs : ∀ x y : ℝ, |x| ≤ √(x ^ 2 + y ^ 2) ∧ |y| ≤ √(x ^ 2 + y ^ 2) := fun x y =>
      ⟨Real.abs_le_sqrt (by nlinarith), Real.abs_le_sqrt (by nlinarith)⟩
    have hxy := habs (q.px - c.x) (q.py - c.y)
    change |q.px - c.x| ≤ Spec.dist (q.px, q.py) (c.x, c.y) ∧
      |q.py - c.y| ≤ Spec.dist (q.px, q.py) (c.x, c.y) at hxy
    set d := Spec.dist (q.px, q.py) (c.x, c.y) with hd
    have bound : ∀ x cx : ℝ, |cx| + c.r + 2 < 100 → |x - cx| ≤ d →
        |clip (x - 0.05 * (-(2 * (c.r + 2 - d) / d) * (x - cx))) (-100) 100| < 100 := by
      intro x cx hcx hx
      have h1 : |(0.05 * (2 * (c.r + 2 - d) / d) + 1) * (x - cx)| ≤ c.r + 2 := by
        rw [abs_mul, abs_of_nonneg (by
          have : 0 ≤ 2 * (c.r + 2 - d) / d := div_nonneg (by linarith) hne.le
          linarith)]
        calc _ ≤ (0.05 * (2 * (c.r + 2 - d) / d) + 1) * d := by
              apply mul_le_mul_of_nonneg_left hx
              have : 0 ≤ 2 * (c.r + 2 - d) / d := div_nonneg (by linarith) hne.le
              linarith
          _ = 0.1 * (c.r + 2 - d) + d := by field_simp; ring
          _ ≤ c.r + 2 := by linarith
      have h2 : x - 0.05 * (-(2 * (c.r + 2 - d) / d) * (x - cx)) =
          (0.05 * (2 * (c.r + 2 - d) / d) + 1) * (x - cx) + cx := by ring
      rw [h2]
      have h3 : |(0.05 * (2 * (c.r + 2 - d) / d) + 1) * (x - cx) + cx| < 100 :=
        lt_of_le_of_lt (abs_add_le _ _) (by linarith)
      rw [Guide.clip_self h3.le]
      exact h3
    have hgr : Guide.sumGrad P.circles (q.px, q.py) =
        some (-(2 * (c.r + 2 - d) / d) * (q.px - c.x), -(2 * (c.r + 2 - d) / d) * (q.py - c.y)) := by
      rw [hc]
      exact Guide.sumGrad_single hne.ne' hv
    refine C60_pushes_out P c hc 0.05 q (by norm_num) hne hv ?_ ?_
    · have : (Guide.stepBicycle P 0.05 q).px =
        clip (q.px - 0.05 * (-(2 * (c.r + 2 - d) / d) * (q.px - c.x))) (-100) 100 := by
        unfold Guide.stepBicycle Guide.comp
        simp only [hgr, Option.map_some, Option.getD_some]
      rw [this]
      exact bound _ _ hcx hxy.1
    · have : (Guide.stepBicycle P 0.05 q).py =
        clip (q.py - 0.05 * (-(2 * (c.r + 2 - d) / d) * (q.py - c.y))) (-100) 100 := by
        unfold Guide.stepBicycle Guide.comp
        simp only [hgr, Option.map_some, Option.getD_some]
      rw [this]
      exact bound _ _ hcy hxy.2
  unfold Guide.applyBicycle
  rw [if_pos hg]
  simp only [Function.iterate_succ, Function.iterate_zero, Function.comp_apply, id_eq]
  have e1 := one q hne hv
  have e2 := one (Guide.stepBicycle P 0.05 q) (by rw [e1]; linarith) (by rw [e1]; linarith)
  have e3 := one (Guide.stepBicycle P 0.05 (Guide.stepBicycle P 0.05 q))
    (by rw [e2, e1]; linarith) (by rw [e2, e1]; linarith)
  rw [e3, e2, e1]
  ring

/-- Non-vacuity, and a finding: the placeholder obstacle of an empty navigation map (radius 0 at the
origin, see C41) acts on guidance: a bicycle 1 m from the origin is pushed away. -/
example : let P := { Params.default [⟨0, 0, 0⟩] [] with enableGuidance := true }
    2 - Spec.dist ((Guide.applyBicycle P 0.05 3 ⟨1, 0, 0⟩).px,
      (Guide.applyBicycle P 0.05 3 ⟨1, 0, 0⟩).py) (0, 0) = 0.729 := by
  intro P
  have h1 : Spec.dist (1, 0) (0, 0) = 1 := by norm_num [Spec.dist]
  have := C60_three_steps P ⟨0, 0, 0⟩ rfl rfl ⟨1, 0, 0⟩ (by show 0 < Spec.dist (1, 0) (0, 0); rw [h1]; norm_num)
    (by show Spec.dist (1, 0) (0, 0) ≤ _; rw [h1]; norm_num) (by norm_num) (by norm_num)
  simp only [zero_add] at this
  rw [this]
  show 0.729 * (2 - Spec.dist (1, 0) (0, 0)) = 0.729
  rw [h1]
  norm_num

end Mbd
