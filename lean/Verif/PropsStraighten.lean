import Verif.PropsGuidance
import Verif.PropsMotion

/-!
# C79: guidance straightens a vehicle that is bent too far
-/

namespace Mbd

open Real Classical Guide

/-- The factor by which one guidance step multiplies an excess hitch angle: `1 - 4 * step_size * w` with
`w = max(1, 0.05 * number of obstacles)`. -/
noncomputable def Spec.straightening (P : Params) (ss : ℝ) : ℝ :=
  1 - 4 * ss * max 1 ((0.05 : ℝ) * ((P.circles.length : ℝ) + P.rects.length))

/-- With a hitch angle of less than half a turn, and at least the limit, the plain reading is the one that
counts. -/
theorem hitchGrad_near {phi a : ℝ} (h1 : phi ≤ |a|) (h2 : |a| < π) :
    hitchGrad phi a = 2 * (|a| - phi) * SignType.sign a := by
  have hpi := pi_pos
  obtain ⟨l, r⟩ := abs_lt.mp h2
  have n1 : |a + 0| < |a + 2 * π| := by
    rw [add_zero, abs_of_pos (show 0 < a + 2 * π by linarith), abs_lt]
    constructor <;> linarith
  have n2 : |a + 0| < |a + -(2 * π)| := by
    rw [add_zero, abs_of_neg (show a + -(2 * π) < 0 by linarith), abs_lt]
    constructor <;> linarith
  have e0 : a + 0 = a := add_zero a
  have p1 := hitchPen_lt (phi := phi) n1 (by rw [e0] at n1; linarith)
  have p2 := hitchPen_lt (phi := phi) n2 (by rw [e0] at n2; linarith)
  have hm : hitchMin phi a = hitchPen phi (a + 0) := by
    unfold hitchMin
    exact min_eq_left (le_min p1.le p2.le)
  unfold hitchGrad readings
  simp only
  rw [hm, List.filter_cons_of_pos (by simp), List.filter_cons_of_neg (by simpa using p1.ne'),
    List.filter_cons_of_neg (by simpa using p2.ne')]
  simp only [List.filter_nil, List.map_cons, List.map_nil, List.sum_cons, List.sum_nil, List.length_singleton,
    Nat.cast_one, div_one, add_zero]
  unfold hitchPenGrad
  rw [hinge_of_nonneg (by linarith)]

theorem clip_id {x l : ℝ} (h : |x| ≤ l) : clip x (-l) l = x := by
  obtain ⟨h1, h2⟩ := abs_le.mp h
  exact clip_of_mem h1 h2

theorem hitchWeight_eq (P : Params) : hitchWeight P = max 1 ((0.05 : ℝ) * ((P.circles.length : ℝ) + P.rects.length)) := by
  unfold hitchWeight
  push_cast
  rw [mul_comm]

/-- **C79 (one step).** A vehicle whose axles keep the 2 m margin to every circular obstacle and whose hitch
angle is at or beyond its limit (but short of half a turn) is straightened by a guidance step: it does not
move, tractor and trailer turn by the same amount towards each other, and the excess over the limit is
multiplied by `1 - 4 * step_size * w`. -/
theorem C79_step (P : Params) (ss : ℝ) (hss : 0 ≤ ss) (hf : 0 ≤ Spec.straightening P ss) (q : Q4)
    (hb : Spec.InGuideBox q)
    (hr : ∀ c ∈ P.circles, 0 ≤ c.r ∧ c.r + 2 ≤ Spec.dist (q.px, q.py) (c.x, c.y) ∧
      c.r + 2 ≤ Spec.dist (Spec.trailerAxlePt P.lh P.l2 q) (c.x, c.y))
    (h1 : P.phiMax ≤ |q.th1 - q.th2|) (h2 : |q.th1 - q.th2| < π) :
    (stepOnce P ss q).px = q.px ∧ (stepOnce P ss q).py = q.py ∧
    (stepOnce P ss q).th1 + (stepOnce P ss q).th2 = q.th1 + q.th2 ∧
    |(stepOnce P ss q).th1 - (stepOnce P ss q).th2| - P.phiMax =
      Spec.straightening P ss * (|q.th1 - q.th2| - P.phiMax) ∧
    (0 ≤ ((stepOnce P ss q).th1 - (stepOnce P ss q).th2) * (q.th1 - q.th2)) := by
  obtain ⟨b1, b2, b3, b4⟩ := hb
  have hphi : 0 ≤ P.phiMax := by
    unfold Params.phiMax deg2rad
    have := pi_pos
    positivity
  set w := max 1 (0.05 * ((P.circles.length : ℝ) + P.rects.length)) with hw
  have hw1 : 1 ≤ w := le_max_left _ _
  have hf' : 4 * ss * w ≤ 1 := by
    unfold Spec.straightening at hf
    rw [← hw] at hf
    linarith
  have g1 : sumGrad P.circles (q.px, q.py) = some (0, 0) := sumGrad_zero fun c hc => ⟨(hr c hc).1, by
    have := (hr c hc).2.1
    exact this⟩
  have g2 : sumGrad P.circles (Guide.trailerPos P q) = some (0, 0) := sumGrad_zero fun c hc => ⟨(hr c hc).1, by
    have := (hr c hc).2.2
    exact this⟩
  set a := q.th1 - q.th2 with ha
  have hgr := hitchGrad_near h1 h2
  set s : ℝ := (SignType.sign a : ℝ) with hs
  set x := |a| - P.phiMax with hx
  have hx0 : 0 ≤ x := by linarith
  have e1 : (stepOnce P ss q).px = q.px := by
    unfold stepOnce grad comp
    rw [g1, g2]
    simp only [Option.map_some, Option.getD_some, add_zero, mul_zero, sub_zero]
    exact clip_id b1
  have e2 : (stepOnce P ss q).py = q.py := by
    unfold stepOnce grad comp
    rw [g1, g2]
    simp only [Option.map_some, Option.getD_some, add_zero, mul_zero, sub_zero]
    exact clip_id b2
  have hshift : 2 * ss * w * x ≤ |a| := by
    have : 4 * ss * w * x ≤ 1 * x := mul_le_mul_of_nonneg_right hf' hx0
    linarith [abs_nonneg a]
  have hsa : a = s * |a| := by rw [hs, sign_mul_abs]
  have hshift0 : 0 ≤ 2 * ss * w * x := by positivity
  have hs1 : s = 1 ∨ s = -1 ∨ s = 0 := by
    rw [hs]
    rcases lt_trichotomy a 0 with h | h | h
    · right; left; simp [sign_neg h]
    · right; right; simp [h]
    · left; simp [sign_pos h]
  have k1 : |q.th1 - ss * (w * (2 * x * s))| ≤ 2 * π := by
    rw [abs_le] at b3 b4 ⊢
    rcases hs1 with h | h | h <;> rw [h] at hsa ⊢ <;> constructor <;> nlinarith
  have k2 : |q.th2 + ss * (w * (2 * x * s))| ≤ 2 * π := by
    rw [abs_le] at b3 b4 ⊢
    rcases hs1 with h | h | h <;> rw [h] at hsa ⊢ <;> constructor <;> nlinarith
  have e3 : (stepOnce P ss q).th1 = q.th1 - ss * (w * (2 * x * s)) := by
    unfold stepOnce grad comp
    rw [g2, hgr, hitchWeight_eq, ← hw]
    simp only [Option.map_some, Option.getD_some, zero_mul, zero_add]
    exact clip_id k1
  have e4 : (stepOnce P ss q).th2 = q.th2 + ss * (w * (2 * x * s)) := by
    unfold stepOnce grad comp
    rw [g2, hgr, hitchWeight_eq, ← hw]
    simp only [Option.map_some, Option.getD_some, zero_mul, zero_add]
    rw [show q.th2 - ss * (0 - w * (2 * x * s)) = q.th2 + ss * (w * (2 * x * s)) by generalize x = x'; ring]
    exact clip_id k2
  have hdiff : (stepOnce P ss q).th1 - (stepOnce P ss q).th2 = s * (|a| - 4 * ss * w * x) := by
    have : s * (|a| - 4 * ss * w * x) = s * |a| - s * (4 * ss * w * x) := mul_sub _ _ _
    rw [e3, e4, this, ← hsa, ha]
    generalize x = x'
    ring
  have hpos : 0 ≤ |a| - 4 * ss * w * x := by
    have : 4 * ss * w * x ≤ 1 * x := mul_le_mul_of_nonneg_right hf' hx0
    linarith
  refine ⟨e1, e2, by rw [e3, e4]; ring, ?_, ?_⟩
  · rw [hdiff, abs_mul, abs_of_nonneg hpos]
    unfold Spec.straightening
    rw [← hw]
    rcases hs1 with h | h | h
    · rw [h, abs_one]; ring
    · rw [h, abs_neg, abs_one]; ring
    · have h0 : |a| = 0 := by rw [h] at hsa; rw [hsa]; simp
      have hx' : x = 0 := by linarith
      rw [h, abs_zero, hx']
      have : P.phiMax = 0 := by linarith
      rw [this]; ring
  · rw [hdiff]
    have h3 : s * (|a| - 4 * ss * w * x) * a = (s * s) * ((|a| - 4 * ss * w * x) * |a|) := by
      have : s * (|a| - 4 * ss * w * x) * a = s * (|a| - 4 * ss * w * x) * (s * |a|) := by rw [← hsa]
      rw [this]
      ring
    rw [h3]
    exact mul_nonneg (mul_self_nonneg _) (mul_nonneg hpos (abs_nonneg _))

theorem chord_le (l α β : ℝ) :
    √((l * cos α - l * cos β) ^ 2 + (l * sin α - l * sin β) ^ 2) ≤ |l| * |α - β| := by
  rw [← abs_mul, ← sqrt_sq_eq_abs]
  apply sqrt_le_sqrt
  have h1 := one_sub_sq_div_two_le_cos (x := α - β)
  rw [cos_sub] at h1
  have h2 := sin_sq_add_cos_sq α
  have h3 := sin_sq_add_cos_sq β
  have : (l * cos α - l * cos β) ^ 2 + (l * sin α - l * sin β) ^ 2 =
      l ^ 2 * ((sin α ^ 2 + cos α ^ 2) + (sin β ^ 2 + cos β ^ 2) - 2 * (cos α * cos β + sin α * sin β)) := by ring
  rw [this, h2, h3, mul_pow]
  apply mul_le_mul_of_nonneg_left _ (sq_nonneg l)
  linarith

/-- Turning the bodies moves the trailer axle by at most the arcs. -/
theorem gaxle_shift (lh l2 : ℝ) (q q' : Q4) (h1 : q'.px = q.px) (h2 : q'.py = q.py) :
    Spec.dist (Spec.trailerAxlePt lh l2 q') (Spec.trailerAxlePt lh l2 q) ≤
      |lh| * |q'.th1 - q.th1| + |l2| * |q'.th2 - q.th2| := by
  have t := dist_triangle' (Spec.trailerAxlePt lh l2 q') (Spec.trailerAxlePt lh l2 ⟨q.px, q.py, q.th1, q'.th2⟩)
    (Spec.trailerAxlePt lh l2 q)
  have e1 : Spec.dist (Spec.trailerAxlePt lh l2 q') (Spec.trailerAxlePt lh l2 ⟨q.px, q.py, q.th1, q'.th2⟩) =
      √((lh * cos q'.th1 - lh * cos q.th1) ^ 2 + (lh * sin q'.th1 - lh * sin q.th1) ^ 2) := by
    unfold Spec.dist Spec.trailerAxlePt
    rw [h1, h2]
    congr 1
    ring
  have e2 : Spec.dist (Spec.trailerAxlePt lh l2 ⟨q.px, q.py, q.th1, q'.th2⟩) (Spec.trailerAxlePt lh l2 q) =
      √((l2 * cos q'.th2 - l2 * cos q.th2) ^ 2 + (l2 * sin q'.th2 - l2 * sin q.th2) ^ 2) := by
    unfold Spec.dist Spec.trailerAxlePt
    congr 1
    simp only
    ring
  rw [e1, e2] at t
  exact t.trans (add_le_add (chord_le _ _ _) (chord_le _ _ _))

theorem abs_sub_same {u v : ℝ} (h : 0 ≤ u * v) : |u - v| = |(|u| - |v|)| := by
  rcases le_total 0 u with hu | hu <;> rcases le_total 0 v with hv | hv
  · rw [abs_of_nonneg hu, abs_of_nonneg hv]
  · rcases eq_or_lt_of_le hu with e | hu'
    · rw [← e]; simp [abs_abs]
    · have : v = 0 := le_antisymm hv (by by_contra hc; exact absurd h (not_le.mpr (mul_neg_of_pos_of_neg hu' (not_le.mp hc))))
      rw [this]; simp [abs_abs]
  · rcases eq_or_lt_of_le hv with e | hv'
    · rw [← e]; simp [abs_abs]
    · have : u = 0 := le_antisymm hu (by by_contra hc; exact absurd h (not_le.mpr (mul_neg_of_neg_of_pos (not_le.mp hc) hv')))
      rw [this]; simp [abs_abs]
  · rw [abs_of_nonpos hu, abs_of_nonpos hv, ← abs_neg]
    congr 1; ring

/-- **C79 (any number of steps).** If the rear axle of the tractor keeps the 2 m margin to every circular obstacle and the
trailer's axle keeps it with a reserve of half the excess angle times the distance between the axles, every number of
guidance steps leaves the vehicle in place, turns both bodies by the same amount and reduces the excess geometrically. -/
theorem C79_straightens (P : Params) (hg : P.enableGuidance = true) (ss : ℝ) (hss : 0 ≤ ss)
    (hf : 0 ≤ Spec.straightening P ss) (q : Q4) (hb : Spec.InGuideBox q)
    (hr : ∀ c ∈ P.circles, 0 ≤ c.r ∧ c.r + 2 ≤ Spec.dist (q.px, q.py) (c.x, c.y) ∧
      c.r + 2 + (|P.lh| + |P.l2|) * ((|q.th1 - q.th2| - P.phiMax) / 2) ≤
        Spec.dist (Spec.trailerAxlePt P.lh P.l2 q) (c.x, c.y))
    (h1 : P.phiMax ≤ |q.th1 - q.th2|) (h2 : |q.th1 - q.th2| < π) (n : ℕ) :
    (Guide.apply P ss n q).px = q.px ∧ (Guide.apply P ss n q).py = q.py ∧
    (Guide.apply P ss n q).th1 + (Guide.apply P ss n q).th2 = q.th1 + q.th2 ∧
    |(Guide.apply P ss n q).th1 - (Guide.apply P ss n q).th2| - P.phiMax =
      Spec.straightening P ss ^ n * (|q.th1 - q.th2| - P.phiMax) ∧
    0 ≤ ((Guide.apply P ss n q).th1 - (Guide.apply P ss n q).th2) * (q.th1 - q.th2) := by
  unfold Guide.apply
  rw [if_pos hg]
  have hphi : 0 < P.phiMax := by
    unfold Params.phiMax deg2rad
    have := pi_pos
    positivity
  have hf1 : Spec.straightening P ss ≤ 1 := by
    unfold Spec.straightening
    have : (0 : ℝ) ≤ max 1 (0.05 * ((P.circles.length : ℝ) + P.rects.length)) := le_trans (by norm_num) (le_max_left _ _)
    have := mul_nonneg (mul_nonneg (show (0 : ℝ) ≤ 4 by norm_num) hss) this
    linarith
  have hx0 : 0 ≤ |q.th1 - q.th2| - P.phiMax := by linarith
  have key : ∀ n, Spec.InGuideBox ((stepOnce P ss)^[n] q) ∧ ((stepOnce P ss)^[n] q).px = q.px ∧
      ((stepOnce P ss)^[n] q).py = q.py ∧
      ((stepOnce P ss)^[n] q).th1 + ((stepOnce P ss)^[n] q).th2 = q.th1 + q.th2 ∧
      |((stepOnce P ss)^[n] q).th1 - ((stepOnce P ss)^[n] q).th2| - P.phiMax =
        Spec.straightening P ss ^ n * (|q.th1 - q.th2| - P.phiMax) ∧
      0 ≤ (((stepOnce P ss)^[n] q).th1 - ((stepOnce P ss)^[n] q).th2) * (q.th1 - q.th2) := by
    intro n
    induction n with
    | zero => exact ⟨hb, rfl, rfl, rfl, by simp, mul_self_nonneg _⟩
    | succ n ih =>
      obtain ⟨i1, i2, i3, i4, i5, i6⟩ := ih
      rw [Function.iterate_succ_apply']
      have hp0 : 0 ≤ Spec.straightening P ss ^ n := pow_nonneg hf n
      have hp1 : Spec.straightening P ss ^ n ≤ 1 := pow_le_one₀ hf hf1
      generalize (stepOnce P ss)^[n] q = z at i1 i2 i3 i4 i5 i6 ⊢
      have m1 := mul_nonneg hp0 hx0
      have m2 := mul_le_mul_of_nonneg_right hp1 hx0
      have l1 : P.phiMax ≤ |z.th1 - z.th2| := by linarith
      have l2 : |z.th1 - z.th2| < π := by linarith
      -- both bodies have turned by at most half the excess
      have hab : |(z.th1 - z.th2) - (q.th1 - q.th2)| ≤ |q.th1 - q.th2| - P.phiMax := by
        rw [abs_sub_same i6, abs_le]
        constructor <;> linarith
      have t1 : |z.th1 - q.th1| ≤ (|q.th1 - q.th2| - P.phiMax) / 2 := by
        have : z.th1 - q.th1 = ((z.th1 - z.th2) - (q.th1 - q.th2)) / 2 := by linarith
        rw [this, abs_div, abs_of_pos (show (0 : ℝ) < 2 by norm_num)]
        linarith
      have t2 : |z.th2 - q.th2| ≤ (|q.th1 - q.th2| - P.phiMax) / 2 := by
        have : z.th2 - q.th2 = -(((z.th1 - z.th2) - (q.th1 - q.th2)) / 2) := by linarith
        rw [this, abs_neg, abs_div, abs_of_pos (show (0 : ℝ) < 2 by norm_num)]
        linarith
      have hr' : ∀ c ∈ P.circles, 0 ≤ c.r ∧ c.r + 2 ≤ Spec.dist (z.px, z.py) (c.x, c.y) ∧
          c.r + 2 ≤ Spec.dist (Spec.trailerAxlePt P.lh P.l2 z) (c.x, c.y) := by
        intro c hc
        obtain ⟨r1, r2, r3⟩ := hr c hc
        refine ⟨r1, by rw [i2, i3]; exact r2, ?_⟩
        have sh := gaxle_shift P.lh P.l2 q z i2 i3
        have tri := dist_triangle' (Spec.trailerAxlePt P.lh P.l2 q) (Spec.trailerAxlePt P.lh P.l2 z) (c.x, c.y)
        rw [dist_comm' (Spec.trailerAxlePt P.lh P.l2 q) (Spec.trailerAxlePt P.lh P.l2 z)] at tri
        have n1 := mul_le_mul_of_nonneg_left t1 (abs_nonneg P.lh)
        have n2 := mul_le_mul_of_nonneg_left t2 (abs_nonneg P.l2)
        linarith
      obtain ⟨s1, s2, s3, s4, s5⟩ := C79_step P ss hss hf z i1 hr' l1 l2
      refine ⟨?_, by rw [s1, i2], by rw [s2, i3], by rw [s3, i4], by rw [s4, i5, pow_succ]; ring, ?_⟩
      · exact C47_box { P with enableGuidance := true } rfl ss 1 Nat.one_pos z
      · rcases lt_trichotomy (z.th1 - z.th2) 0 with hz | hz | hz
        · have u1 : (stepOnce P ss z).th1 - (stepOnce P ss z).th2 ≤ 0 := by
            by_contra hc
            exact absurd s5 (not_le.mpr (mul_neg_of_pos_of_neg (not_le.mp hc) hz))
          have u2 : q.th1 - q.th2 ≤ 0 := by
            by_contra hc
            exact absurd i6 (not_le.mpr (mul_neg_of_neg_of_pos hz (not_le.mp hc)))
          exact mul_nonneg_of_nonpos_of_nonpos u1 u2
        · rw [hz, abs_zero] at l1
          linarith
        · have u1 : 0 ≤ (stepOnce P ss z).th1 - (stepOnce P ss z).th2 := by
            by_contra hc
            exact absurd s5 (not_le.mpr (mul_neg_of_neg_of_pos (not_le.mp hc) hz))
          have u2 : 0 ≤ q.th1 - q.th2 := by
            by_contra hc
            exact absurd i6 (not_le.mpr (mul_neg_of_pos_of_neg hz (not_le.mp hc)))
          exact mul_nonneg u1 u2
  exact (key n).2

/-- The default three steps of size 0.05 with up to twenty obstacles leave 51.2 % of the excess. -/
theorem C79_default (P : Params) (hg : P.enableGuidance = true) (hn : P.circles.length + P.rects.length ≤ 20)
    (q : Q4) (hb : Spec.InGuideBox q)
    (hr : ∀ c ∈ P.circles, 0 ≤ c.r ∧ c.r + 2 ≤ Spec.dist (q.px, q.py) (c.x, c.y) ∧
      c.r + 2 + (|P.lh| + |P.l2|) * ((|q.th1 - q.th2| - P.phiMax) / 2) ≤
        Spec.dist (Spec.trailerAxlePt P.lh P.l2 q) (c.x, c.y))
    (h1 : P.phiMax ≤ |q.th1 - q.th2|) (h2 : |q.th1 - q.th2| < π) :
    |(Guide.apply P 0.05 3 q).th1 - (Guide.apply P 0.05 3 q).th2| - P.phiMax =
      0.512 * (|q.th1 - q.th2| - P.phiMax) := by
  have hw : Spec.straightening P 0.05 = 0.8 := by
    unfold Spec.straightening
    rw [max_eq_left]
    · norm_num
    · have : (P.circles.length : ℝ) + P.rects.length ≤ 20 := by exact_mod_cast hn
      linarith
  rw [(C79_straightens P hg 0.05 (by norm_num) (by rw [hw]; norm_num) q hb hr h1 h2 3).2.2.2.1, hw]
  norm_num

/-- A vehicle bent by 60 degrees (the limit is 40) with a pole 20 m ahead. -/
example (P : Params) (hP : P = { Params.default [⟨20, 0, 1⟩] [] with enableGuidance := true }) :
    |(Guide.apply P 0.05 3 ⟨0, 0, π / 3, 0⟩).th1 - (Guide.apply P 0.05 3 ⟨0, 0, π / 3, 0⟩).th2| - P.phiMax =
      0.512 * (π / 9) := by
  have hpi := pi_pos
  have hpi4 := pi_le_four
  have e : |π / 3 - 0| = π / 3 := by rw [sub_zero, abs_of_pos (by positivity)]
  have hphi : P.phiMax = 2 * π / 9 := by unfold Params.phiMax deg2rad; ring
  rw [C79_default P (by rw [hP]) (by rw [hP]; simp [Params.default]) ⟨0, 0, π / 3, 0⟩
    ⟨by norm_num, by norm_num, by rw [abs_of_pos (by positivity)]; linarith, by simp; positivity⟩ ?_
    (by rw [e, hphi]; linarith) (by rw [e]; linarith), e, hphi]
  · ring
  · intro c hc
    have hc' : c = ⟨20, 0, 1⟩ := by rw [hP] at hc; simpa [Params.default] using hc
    have hlh : P.lh = 1.15 := by rw [hP]; norm_num [Params.default]
    have hl2 : P.l2 = 2.9 := by rw [hP]; norm_num [Params.default]
    subst hc'
    refine ⟨by norm_num, ?_, ?_⟩
    · show (1 : ℝ) + 2 ≤ Real.sqrt _
      apply Real.le_sqrt_of_sq_le
      norm_num
    · rw [e, hphi, hlh, hl2]
      show (1 : ℝ) + 2 + _ ≤ Real.sqrt _
      apply Real.le_sqrt_of_sq_le
      have hc1 : cos (π / 3) = 1 / 2 := cos_pi_div_three
      rw [abs_of_pos (show (0 : ℝ) < 1.15 by norm_num), abs_of_pos (show (0 : ℝ) < 2.9 by norm_num)]
      have hx : (1 : ℝ) + 2 + (1.15 + 2.9) * ((π / 3 - 2 * π / 9) / 2) ≤ 20 := by linarith
      have hx0 : 0 ≤ (1 : ℝ) + 2 + (1.15 + 2.9) * ((π / 3 - 2 * π / 9) / 2) := by linarith
      refine le_trans (pow_le_pow_left₀ hx0 hx 2) ?_
      simp only [Spec.trailerAxlePt, cos_zero, sin_zero, hc1]
      have := sq_nonneg (0 - 1.15 * sin (π / 3) - 2.9 * 0 - 0)
      norm_num at this ⊢
      linarith

/-- The tractor and the first trailer of a train. -/
def Spec.front (q : QN) : Q4 := ⟨q.px, q.py, q.th0, q.ths.getD 0 0⟩

/-- **C79, train.** Guidance treats the front of a train (tractor and first trailer) exactly as it treats the
tractor-trailer, so the preceding theorems hold of it. -/
theorem C79_ntrailer (P : Params) (ss : ℝ) (n : ℕ) (q : QN) (h : q.ths ≠ []) :
    Spec.front (Guide.applyN P ss n q) = Guide.apply P ss n (Spec.front q) := by
  have one : ∀ q : QN, q.ths ≠ [] → Spec.front (stepN P ss q) = stepOnce P ss (Spec.front q) ∧
      (stepN P ss q).ths ≠ [] := by
    intro q h
    obtain ⟨a, l, e⟩ := List.exists_cons_of_ne_nil h
    constructor
    · unfold Spec.front stepN stepOnce
      simp [e]
    · unfold stepN
      simp [e]
  unfold Guide.applyN Guide.apply
  split
  · have key : Spec.front ((stepN P ss)^[n] q) = (stepOnce P ss)^[n] (Spec.front q) ∧
        ((stepN P ss)^[n] q).ths ≠ [] := by
      induction n with
      | zero => exact ⟨rfl, h⟩
      | succ n ih =>
        rw [Function.iterate_succ_apply', Function.iterate_succ_apply', ← ih.1]
        exact one _ ih.2
    exact key.1
  · rfl

/-- **C79, many obstacles (refuted).** The weight of the hitch term grows with the number of obstacles
without limit and the step size does not shrink: among 400 obstacles one guidance step turns a vehicle
bent by 160 degrees into one bent by 320 degrees the other way. -/
theorem C79_many_obstacles_refuted :
    ¬ ∀ (P : Params) (q : Q4), P.enableGuidance = true → P.circles = [] → Spec.InGuideBox q →
      P.phiMax ≤ |q.th1 - q.th2| → |q.th1 - q.th2| < π →
      |(Guide.apply P 0.05 1 q).th1 - (Guide.apply P 0.05 1 q).th2| ≤ |q.th1 - q.th2| := by
  intro h
  let P : Params := { Params.default [] (List.replicate 400 ⟨0, 30, 4, 2, 0⟩) with enableGuidance := true }
  let q : Q4 := ⟨0, 0, 8 * π / 9, 0⟩
  have hpi := pi_pos
  have hphi : P.phiMax = 2 * π / 9 := by
    unfold Params.phiMax deg2rad; ring
  have ha : |q.th1 - q.th2| = 8 * π / 9 := by
    show |8 * π / 9 - 0| = _
    rw [sub_zero, abs_of_pos (by positivity)]
  have hgr : hitchGrad P.phiMax (q.th1 - q.th2) = 12 * π / 9 := by
    rw [hitchGrad_near (by rw [ha, hphi]; linarith) (by rw [ha]; linarith), ha, hphi]
    have : SignType.sign (q.th1 - q.th2) = 1 := sign_pos (by
      show 0 < 8 * π / 9 - 0
      rw [sub_zero]; positivity)
    rw [this]
    simp
    ring
  have hw : hitchWeight P = 20 := by
    rw [hitchWeight_eq]
    simp only [P, Params.default, List.length_nil, List.length_replicate]
    norm_num
  have e1 : (Guide.apply P 0.05 1 q).th1 = -(4 * π / 9) := by
    show comp 0.05 (8 * π / 9) (some (0 * (P.lh * sin (8 * π / 9)) + 0 * -(P.lh * cos (8 * π / 9)) +
      hitchWeight P * hitchGrad P.phiMax (q.th1 - q.th2))) (2 * π) = _
    rw [hgr, hw]
    unfold comp
    rw [Option.getD_some, show 8 * π / 9 - 0.05 * (0 * (P.lh * sin (8 * π / 9)) + 0 * -(P.lh * cos (8 * π / 9)) +
      20 * (12 * π / 9)) = -(4 * π / 9) by ring]
    exact clip_id (by rw [abs_neg, abs_of_pos (by positivity)]; linarith)
  have e2 : (Guide.apply P 0.05 1 q).th2 = 12 * π / 9 := by
    show comp 0.05 0 (some (0 * (P.l2 * sin 0) + 0 * -(P.l2 * cos 0) -
      hitchWeight P * hitchGrad P.phiMax (q.th1 - q.th2))) (2 * π) = _
    rw [hgr, hw]
    unfold comp
    rw [Option.getD_some, show (0 : ℝ) - 0.05 * (0 * (P.l2 * sin 0) + 0 * -(P.l2 * cos 0) - 20 * (12 * π / 9))
      = 12 * π / 9 by ring]
    exact clip_id (by rw [abs_of_pos (by positivity)]; linarith)
  have := h P q rfl rfl ⟨by norm_num [q], by norm_num [q],
    by show |8 * π / 9| ≤ _; rw [abs_of_pos (by positivity)]; linarith,
    by show |(0 : ℝ)| ≤ _; rw [abs_zero]; positivity⟩ (by rw [ha, hphi]; linarith) (by rw [ha]; linarith)
  rw [e1, e2, ha, abs_of_neg (by linarith)] at this
  linarith

end Mbd
