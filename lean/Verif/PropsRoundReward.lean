import Verif.RoundReward
import Verif.RoundSingle
import Verif.PropsShape
import Verif.PropsRoundAcc

/-!
# C86: accuracy of the rewards in single precision
-/

namespace Spec

open Real Mbd

/-- Single precision for the rewards: `Float32`, a sum of two squares is not negative, and the exponential has a relative error below
2e-6 for arguments up to 80 (the largest finite single-precision result is near 88). -/
structure RewardFloat32 (A : PlanArith) : Prop where
  float : Float32 A.toArith
  squares : ∀ a b, 0 ≤ A.sum2 a a b b
  exp : ∀ x, |x| ≤ 80 → |A.exp x - Real.exp x| ≤ 2e-6 * Real.exp x

/-- The constants of the rewards at their defaults; the motion preference is arbitrary. -/
structure DefaultRewards (P : Params) : Prop where
  l1 : P.l1 = 3.23
  l2 : P.l2 = 2.9
  lh : P.lh = 1.15
  stage : P.rewardThreshold = 25
  final : P.terminalRewardThreshold = 10
  maxW : P.maxWTheta = 0.75
  hitch : P.hitchAngleWeight = 0.2
  factor : P.dThrFactor = 1
  switch : P.kSwitch = 2.5
  head : P.headingRewardWeight = 0.5

/-- A train of up to three trailers, at most as long as the default trailer. -/
structure ShortTrain (T : NTrailer) : Prop where
  count : T.N ≤ 3
  lengths : ∀ l ∈ T.lengths, |l| ≤ 2.9
  fronts : ∀ l ∈ T.fronts, |l| ≤ 1.5

end Spec

namespace Mbd

open Real Classical _root_.Spec

namespace Rounded

/-! ### Positions and distances -/

section

variable {A : Arith}

theorem lever32 (acc : Spec.Float32 A) {k k' c c' p p' ε L R : ℝ} (hk : |k' - k| ≤ 4e-7) (hkb : |k| ≤ L) (hc : |c' - c| ≤ 5e-7)
    (hcb : |c| ≤ 1) (hp : |p' - p| ≤ ε) (hpb : |p| ≤ R) (hL : L ≤ 3.3) (hR : R ≤ 52) (he : ε ≤ 2e-5) :
    |A.mulAdd k' c' p' - (p + k * c)| ≤ ε + 1.4e-5 := by
  have h := mulAdd32 acc hk hc hp hkb hcb hpb (by norm_num) (by norm_num) (by linarith)
  rw [add_comm p]
  refine h.trans ?_
  linarith

end

variable {A : PlanArith}

theorem tractor32 (acc : Spec.Float32 A.toArith) {P : Params} (hP : DefaultRewards P) {x y a : ℝ} (hx : |x| ≤ 50) (hy : |y| ≤ 50)
    (ha : |a| ≤ 100) :
    |(tractorPos A P x y a).1 - (P.tractorPos x y a).1| ≤ 3e-5 ∧ |(tractorPos A P x y a).2 - (P.tractorPos x y a).2| ≤ 3e-5 ∧
    |(P.tractorPos x y a).1| ≤ 55 ∧ |(P.tractorPos x y a).2| ≤ 55 := by
  unfold tractorPos Params.tractorPos
  rw [hP.l1]
  have z : ∀ x : ℝ, |x - x| ≤ 0 := fun x => by simp
  have cl := const32 acc (a := 3.23) (by norm_num)
  have cb := abs_cos_le_one a
  have sb := abs_sin_le_one a
  have k : |(3.23 : ℝ)| ≤ 3.23 := by norm_num
  have h1 := lever32 acc cl k (acc.cos a (ha.trans (by norm_num))) cb (z x) hx (by norm_num) (by norm_num) (by norm_num)
  have h2 := lever32 acc cl k (acc.sin a (ha.trans (by norm_num))) sb (z y) hy (by norm_num) (by norm_num) (by norm_num)
  refine ⟨h1.trans (by norm_num), h2.trans (by norm_num), ?_, ?_⟩
  · refine (abs_add_le _ _).trans ?_
    rw [abs_mul, abs_of_pos (by norm_num : (0 : ℝ) < 3.23)]; linarith
  · refine (abs_add_le _ _).trans ?_
    rw [abs_mul, abs_of_pos (by norm_num : (0 : ℝ) < 3.23)]; linarith

theorem trailer32 (acc : Spec.Float32 A.toArith) {P : Params} (hP : DefaultRewards P) {q : Q4} (hq : OnSite q) :
    |(trailerPos A P q).1 - (TT2d.trailerPos P q).1| ≤ 3e-5 ∧ |(trailerPos A P q).2 - (TT2d.trailerPos P q).2| ≤ 3e-5 ∧
    |(TT2d.trailerPos P q).1| ≤ 55 ∧ |(TT2d.trailerPos P q).2| ≤ 55 := by
  unfold trailerPos TT2d.trailerPos TT2d.hitchPoint
  rw [hP.l2, hP.lh]
  have z : ∀ x : ℝ, |x - x| ≤ 0 := fun x => by simp
  have n : ∀ {a : ℝ}, |A.const a - a| ≤ 4e-7 → |-A.const a - -a| ≤ 4e-7 := fun h => by
    rw [show ∀ a b : ℝ, -a - -b = -(a - b) by intros; ring, abs_neg]; exact h
  have c1 := n (const32 acc (a := 1.15) (by norm_num))
  have c2 := n (const32 acc (a := 2.9) (by norm_num))
  have k1 : |-(1.15 : ℝ)| ≤ 1.15 := by norm_num
  have k2 : |-(2.9 : ℝ)| ≤ 2.9 := by norm_num
  have cb := abs_cos_le_one q.th1
  have sb := abs_sin_le_one q.th1
  have cb2 := abs_cos_le_one q.th2
  have sb2 := abs_sin_le_one q.th2
  have b1 : |q.px + -1.15 * cos q.th1| ≤ 51.15 := by
    refine (abs_add_le _ _).trans ?_
    rw [abs_mul, abs_neg, abs_of_pos (by norm_num : (0 : ℝ) < 1.15)]; have := hq.px; linarith
  have b2 : |q.py + -1.15 * sin q.th1| ≤ 51.15 := by
    refine (abs_add_le _ _).trans ?_
    rw [abs_mul, abs_neg, abs_of_pos (by norm_num : (0 : ℝ) < 1.15)]; have := hq.py; linarith
  have h1 := lever32 acc c1 k1 (acc.cos q.th1 (hq.th1.trans (by norm_num))) cb (z q.px) hq.px (by norm_num) (by norm_num) (by norm_num)
  have h2 := lever32 acc c1 k1 (acc.sin q.th1 (hq.th1.trans (by norm_num))) sb (z q.py) hq.py (by norm_num) (by norm_num) (by norm_num)
  have g1 := lever32 acc c2 k2 (acc.cos q.th2 (hq.th2.trans (by norm_num))) cb2 h1 b1 (by norm_num) (by norm_num) (by norm_num)
  have g2 := lever32 acc c2 k2 (acc.sin q.th2 (hq.th2.trans (by norm_num))) sb2 h2 b2 (by norm_num) (by norm_num) (by norm_num)
  simp only
  have e1 : q.px - 1.15 * cos q.th1 - 2.9 * cos q.th2 = q.px + -1.15 * cos q.th1 + -2.9 * cos q.th2 := by ring
  have e2 : q.py - 1.15 * sin q.th1 - 2.9 * sin q.th2 = q.py + -1.15 * sin q.th1 + -2.9 * sin q.th2 := by ring
  rw [e1, e2]
  refine ⟨g1.trans (by norm_num), g2.trans (by norm_num), ?_, ?_⟩
  · refine (abs_add_le _ _).trans ?_
    rw [abs_mul (-2.9 : ℝ), abs_neg, abs_of_pos (by norm_num : (0 : ℝ) < 2.9)]; linarith
  · refine (abs_add_le _ _).trans ?_
    rw [abs_mul (-2.9 : ℝ), abs_neg, abs_of_pos (by norm_num : (0 : ℝ) < 2.9)]; linarith

theorem sqrt_near {s n : ℝ} (hn : 0 ≤ n) (h : |s - n ^ 2| ≤ 1.8e-7 * n ^ 2 + 1e-30) : |√s - n| ≤ 2e-7 * n + 1e-14 := by
  obtain ⟨h1, h2⟩ := abs_le.mp h
  rw [abs_le]
  constructor
  · have : n - (2e-7 * n + 1e-14) ≤ √s := by
      rcases le_total n (2e-7 * n + 1e-14) with hx | hx
      · have := sqrt_nonneg s; linarith
      · apply le_sqrt_of_sq_le
        have n0 : 1e-14 ≤ n := by linarith
        have m := mul_le_mul_of_nonneg_left n0 (show (0 : ℝ) ≤ 1e-14 by norm_num)
        have p := mul_nonneg (show 0 ≤ 2e-7 * n + 1e-14 by positivity) (sub_nonneg.mpr hx)
        have q : 0 ≤ n ^ 2 := by positivity
        nlinarith
    linarith
  · have : √s ≤ n + (2e-7 * n + 1e-14) := by
      rw [sqrt_le_left (by positivity)]
      have q : 0 ≤ n ^ 2 := by positivity
      nlinarith
    linarith

theorem dist_perturb (a b a' b' : V2) : |Spec.dist a' b' - Spec.dist a b| ≤ |a'.1 - b'.1 - (a.1 - b.1)| + |a'.2 - b'.2 - (a.2 - b.2)| := by
  have e : ∀ a b : V2, Spec.dist a b = Spec.dist (a.1 - b.1, a.2 - b.2) (0, 0) := fun a b => by unfold Spec.dist; simp
  rw [e a' b', e a b]
  have h1 := dist_triangle' (a'.1 - b'.1, a'.2 - b'.2) (a.1 - b.1, a.2 - b.2) (0, 0)
  have h2 := dist_triangle' (a.1 - b.1, a.2 - b.2) (a'.1 - b'.1, a'.2 - b'.2) (0, 0)
  have h3 := dist_le_abs (a'.1 - b'.1, a'.2 - b'.2) (a.1 - b.1, a.2 - b.2)
  rw [dist_comm' (a.1 - b.1, a.2 - b.2) (a'.1 - b'.1, a'.2 - b'.2)] at h2
  simp only at h3
  rw [abs_le]
  constructor <;> linarith

theorem dist_bound {a b : V2} {k : ℝ} (h1 : |a.1 - b.1| ≤ 2 * k) (h2 : |a.2 - b.2| ≤ 2 * k) : Spec.dist a b ≤ 2.83 * k := by
  have k0 : 0 ≤ k := by have := abs_nonneg (a.1 - b.1); linarith
  unfold Spec.dist
  rw [sqrt_le_left (by linarith)]
  have := sq_le_sq' (abs_le.mp h1).1 (abs_le.mp h1).2
  have := sq_le_sq' (abs_le.mp h2).1 (abs_le.mp h2).2
  have := sq_nonneg k
  nlinarith

theorem dist32 (acc : Spec.RewardFloat32 A) {a a' b b' : V2} {ε k : ℝ} (he : ε ≤ 2e-4) (hk : k ≤ 68) (h1 : |a'.1 - a.1| ≤ ε)
    (h2 : |a'.2 - a.2| ≤ ε) (h3 : |b'.1 - b.1| ≤ ε) (h4 : |b'.2 - b.2| ≤ ε) (k1 : |a.1| ≤ k) (k2 : |a.2| ≤ k) (k3 : |b.1| ≤ k)
    (k4 : |b.2| ≤ k) : |dist A a' b' - Spec.dist a b| ≤ 4 * ε + 8e-5 ∧ Spec.dist a b ≤ 2.83 * k := by
  have f := acc.float
  have m1 : |a.1 - b.1| ≤ 2 * k := (abs_sub _ _).trans (by linarith)
  have m2 : |a.2 - b.2| ≤ 2 * k := (abs_sub _ _).trans (by linarith)
  have s : ∀ {x x' y y' : ℝ}, |x' - x| ≤ ε → |y' - y| ≤ ε → |x - y| ≤ 2 * k → |A.sub x' y' - (x - y)| ≤ 2 * ε + 8.3e-6 := by
    intro x x' y y' hx hy hxy
    have h := f.sub x' y'
    have e : |x' - y' - (x - y)| ≤ 2 * ε := by
      rw [show x' - y' - (x - y) = (x' - x) - (y' - y) by ring]
      exact (abs_sub _ _).trans (by linarith)
    have b := abs_le_of_err e hxy
    have t := abs_add_le (A.sub x' y' - (x' - y')) (x' - y' - (x - y))
    rw [sub_add_sub_cancel] at t
    linarith
  have s1 := s h1 h3 m1
  have s2 := s h2 h4 m2
  unfold dist
  have q0 := acc.squares (A.sub a'.1 b'.1) (A.sub a'.2 b'.2)
  have q1 := f.sum2 (A.sub a'.1 b'.1) (A.sub a'.1 b'.1) (A.sub a'.2 b'.2) (A.sub a'.2 b'.2)
  generalize A.sub a'.1 b'.1 = X at *
  generalize A.sub a'.2 b'.2 = Y at *
  generalize A.sum2 X X Y Y = S at *
  have hn : Spec.dist (X, Y) (0, 0) ^ 2 = X * X + Y * Y := by
    unfold Spec.dist
    rw [sq_sqrt (by positivity)]; simp only; ring
  have n0 : 0 ≤ Spec.dist (X, Y) (0, 0) := sqrt_nonneg _
  have r1 : |√S - Spec.dist (X, Y) (0, 0)| ≤ 2e-7 * Spec.dist (X, Y) (0, 0) + 1e-14 := by
    apply sqrt_near n0
    rw [hn]
    rw [abs_of_nonneg (mul_self_nonneg X), abs_of_nonneg (mul_self_nonneg Y)] at q1
    linarith
  have r2 := f.sqrt S q0
  have p := dist_perturb a b (X, Y) (0, 0)
  simp only [sub_zero] at p
  have d := dist_bound m1 m2
  have p' : |Spec.dist (X, Y) (0, 0) - Spec.dist a b| ≤ 4 * ε + 1.7e-5 := by linarith
  generalize Spec.dist (X, Y) (0, 0) = n at *
  obtain ⟨u1, u2⟩ := abs_le.mp p'
  have r1' : |√S - n| ≤ 4e-5 := by linarith
  obtain ⟨v1, v2⟩ := abs_le.mp r1'
  have r2' : |A.sqrt S - √S| ≤ 1.3e-5 := by linarith
  obtain ⟨w1, w2⟩ := abs_le.mp r2'
  exact ⟨abs_le.mpr ⟨by linarith, by linarith⟩, d⟩

/-! ### Position reward -/

theorem clip32 {d d' t t' ε δ : ℝ} (hd : |d' - d| ≤ ε) (ht : |t' - t| ≤ δ) : |clip d' 0 t' - clip d 0 t| ≤ ε + δ := by
  have h1 := clip_lip (x := d') (y := d) (a := t')
  have h2 := clip_hi (x := d) (a := t') (b := t)
  have t := abs_add_le (clip d' 0 t' - clip d 0 t') (clip d 0 t' - clip d 0 t)
  rw [sub_add_sub_cancel] at t
  linarith

/-- A quotient and its square. -/
theorem ratio32 (acc : Spec.Float32 A.toArith) {x x' c c' ε δ r : ℝ} (hx : |x' - x| ≤ ε) (hc : |c' - c| ≤ δ) (c0 : 0 < c) (hr : |x / c| ≤ r)
    (hr1 : 1 ≤ r) (hδ : δ ≤ c / 100) (k : ℝ) (hk : (ε + r * δ) / (0.99 * c) + 1.1e-7 * r ≤ k) (k1 : k ≤ 0.01) :
    |square A (A.div x' c') - (x / c) ^ 2| ≤ 2.02 * r * k + 1e-7 * r ^ 2 := by
  obtain ⟨u1, u2⟩ := abs_le.mp hc
  have cp : 0.99 * c ≤ c' := by linarith
  have cp0 : 0 < c' := by linarith
  have h := acc.div x' c' cp0.ne'
  have q : |x' / c' - x / c| ≤ (ε + r * δ) / (0.99 * c) := by
    have e : x' / c' - x / c = ((x' - x) - x / c * (c' - c)) / c' := by field_simp; ring
    rw [e, abs_div, abs_of_pos cp0]
    have n1 : |x' - x - x / c * (c' - c)| ≤ ε + r * δ := by
      refine (abs_sub _ _).trans ?_
      rw [abs_mul]
      exact add_le_add hx (mul_le_mul hr hc (abs_nonneg _) (by linarith))
    exact div_le_div₀ ((abs_nonneg _).trans n1) n1 (by linarith) cp
  have b : |x' / c'| ≤ r + 0.01 := (abs_le_of_err q hr).trans (by linarith)
  have q2 : |A.div x' c' - x / c| ≤ k := by
    have t := abs_add_le (A.div x' c' - x' / c') (x' / c' - x / c)
    rw [sub_add_sub_cancel] at t
    linarith
  unfold square
  generalize A.div x' c' = y at *
  generalize x / c = z at *
  have yb : |y| ≤ r + 0.01 := (abs_le_of_err q2 hr).trans (by linarith)
  have m := acc.mul y y
  have pe := prod_err q2 q2 yb hr
  have k0 : 0 ≤ k := (abs_nonneg _).trans q2
  have y2 : |y * y| ≤ (r + 0.01) * (r + 0.01) := by rw [abs_mul]; exact mul_le_mul yb yb (abs_nonneg _) (by linarith)
  have t := abs_add_le (A.mul y y - y * y) (y * y - z * z)
  rw [sub_add_sub_cancel] at t
  rw [sq]
  have rk := mul_nonneg (show 0 ≤ r - 1 by linarith) k0
  have rr : r ≤ r ^ 2 := by nlinarith
  nlinarith

theorem posReward32 (acc : Spec.Float32 A.toArith) {d d' t ε : ℝ} (hd : |d' - d| ≤ ε) (he : ε ≤ 1e-3) (t1 : 10 ≤ t) (t2 : t ≤ 25) :
    |posReward A d' t - Params.posReward d t| ≤ 0.21 * ε + 2e-6 ∧ |Params.posReward d t| ≤ 1 := by
  have e0 := (abs_nonneg _).trans hd
  have hc := acc.const t
  rw [abs_of_pos (by linarith : 0 < t)] at hc
  have hc' : |A.const t - t| ≤ 1.6e-6 := by linarith
  have hx := clip32 hd hc'
  have b0 : 0 ≤ clip d 0 t := le_clip (by linarith)
  have b1 : clip d 0 t ≤ t := clip_le _ _ _
  have r : |clip d 0 t / t| ≤ 1 := by
    rw [abs_of_nonneg (by positivity), div_le_one (by linarith)]; exact b1
  have e := ratio32 acc hx hc' (by linarith) r le_rfl (by linarith) (0.1025 * ε + 6e-7) (by
    have : (ε + 1.6e-6 + 1 * 1.6e-6) / (0.99 * t) ≤ 0.1025 * ε + 4e-7 := by
      have := mul_le_mul_of_nonneg_left t1 e0
      rw [div_le_iff₀ (by linarith)]; nlinarith
    linarith) (by linarith)
  unfold posReward Params.posReward
  generalize square A (A.div (clip d' 0 (A.const t)) (A.const t)) = y at *
  have z0 : 0 ≤ (clip d 0 t / t) ^ 2 := by positivity
  have z1 : (clip d 0 t / t) ^ 2 ≤ 1 := by
    rw [← sq_abs]; exact pow_le_one₀ (abs_nonneg _) r
  generalize (clip d 0 t / t) ^ 2 = z at *
  have s := acc.sub 1 y
  have e' : |y - z| ≤ 0.2075 * ε + 1.6e-6 := e.trans (by linarith)
  obtain ⟨e1, e2⟩ := abs_le.mp e'
  have yb : |1 - y| ≤ 1.1 := abs_le.mpr ⟨by linarith, by linarith⟩
  have s' : |A.sub 1 y - (1 - y)| ≤ 1e-7 := by linarith
  obtain ⟨v1, v2⟩ := abs_le.mp s'
  exact ⟨abs_le.mpr ⟨by linarith, by linarith⟩, abs_le.mpr ⟨by linarith, by linarith⟩⟩

/-! ### Angles -/

theorem wrap_range32 (acc : Spec.Float32 A.toArith) (a : ℝ) : |wrapPi A.toArith a| ≤ π + 1e-6 := by
  have p1 := pi_gt_d2
  have p2 := pi_lt_d2
  have x2 := acc.const π
  rw [abs_of_pos pi_pos] at x2
  have x4 := acc.const (2 * π)
  rw [abs_of_pos (by linarith : 0 < 2 * π)] at x4
  unfold wrapPi
  generalize A.const π = π' at *
  generalize A.const (2 * π) = b2 at *
  obtain ⟨y2a, y2b⟩ := abs_le.mp x2
  obtain ⟨y4a, y4b⟩ := abs_le.mp x4
  obtain ⟨r1, r2, -⟩ := acc.rem (A.add a π') b2 (by linarith)
  generalize A.rem (A.add a π') b2 = ρ at *
  have w := acc.sub ρ π'
  have w1 : |ρ - π'| ≤ π + 7e-7 := abs_le.mpr ⟨by linarith, by linarith⟩
  have := abs_le_of_err w w1
  linarith

/-- A computed angle close to a representative of `x`, read as an unsigned angle. -/
theorem unsigned32 {w x ε : ℝ} (hw : |w| ≤ π + 1e-6) (k : ℤ) (h : |w - (x + 2 * π * k)| ≤ ε) :
    |(|w| - |Mbd.wrapPi x|)| ≤ ε + 2e-6 := by
  have e0 : 0 ≤ ε := (abs_nonneg _).trans h
  have h1 := abs_wrapPi_le_turns x k
  have h2 := abs_abs_sub_abs_le w (x + 2 * π * k)
  have hpi := abs_wrapPi_le x
  rw [abs_le]
  constructor
  · have := (abs_le.mp (h2.trans h)).1
    linarith
  · obtain ⟨j, hj⟩ := wrapPi_congr x
    by_cases hkj : k = j
    · subst hkj
      rw [hj]
      have := (abs_le.mp (h2.trans h)).2
      linarith
    · have e : x + 2 * π * k = Mbd.wrapPi x + 2 * π * ((k - j : ℤ) : ℝ) := by rw [hj]; push_cast; ring
      have hz : (1 : ℝ) ≤ |((k - j : ℤ) : ℝ)| := by
        rw [← Int.cast_abs]
        exact_mod_cast Int.one_le_abs (sub_ne_zero.mpr hkj)
      have t := abs_sub_abs_le_abs_sub (2 * π * ((k - j : ℤ) : ℝ)) (-Mbd.wrapPi x)
      rw [abs_neg, sub_neg_eq_add, add_comm (2 * π * _), ← e, abs_mul, abs_of_pos (by have := pi_pos; positivity : 0 < 2 * π)] at t
      have m := mul_le_mul_of_nonneg_left hz (show 0 ≤ 2 * π by have := pi_pos; positivity)
      have := (abs_le.mp (h2.trans h)).1
      linarith

theorem angle32 (acc : Spec.Float32 A.toArith) {a b : ℝ} (ha : |a| ≤ 100) (hb : |b| ≤ 100) :
    |(|wrapPi A.toArith (A.sub a b)| - Spec.angle a b)| ≤ 5e-5 := by
  obtain ⟨k, hk⟩ := wrap_err acc (by norm_num) (by norm_num) (by norm_num) (by norm_num) (by norm_num) ha hb
  have := unsigned32 (wrap_range32 acc _) k hk
  rw [abs_wrapPi_angle] at this
  exact this.trans (by norm_num)

theorem opposite32 (acc : Spec.Float32 A.toArith) {a b : ℝ} (ha : |a| ≤ 49) (hb : |b| ≤ 49) :
    |(|wrapPi A.toArith (A.sub (A.sub a b) (A.const π))| - (π - Spec.angle a b))| ≤ 6e-5 := by
  have p1 := pi_gt_d2
  have p2 := pi_lt_d2
  have hab : |a - b| ≤ 98 := (abs_sub a b).trans (by linarith)
  have h := acc.sub a b
  have h' : |A.sub a b - (a - b)| ≤ 5.9e-6 := by linarith
  have hc := const32 acc (a := π) (by rw [abs_of_pos pi_pos]; linarith)
  have hd : |A.sub a b| ≤ 100 := (abs_le_of_err h' hab).trans (by norm_num)
  have hp : |A.const π| ≤ 100 := (abs_le_of_err hc (by rw [abs_of_pos pi_pos])).trans (by linarith)
  obtain ⟨k, hk⟩ := wrap_err acc (by norm_num) (by norm_num) (by norm_num) (by norm_num) (by norm_num) hd hp
  have r := wrap_range32 acc (A.sub (A.sub a b) (A.const π))
  generalize wrapPi A.toArith (A.sub (A.sub a b) (A.const π)) = w at *
  have hk' : |w - (a - (b + π) + 2 * π * k)| ≤ 5.2e-5 := by
    have e : w - (a - (b + π) + 2 * π * k) = (w - (A.sub a b - A.const π + 2 * π * k)) + (A.sub a b - (a - b)) - (A.const π - π) := by ring
    rw [e]
    have t1 := abs_sub ((w - (A.sub a b - A.const π + 2 * π * k)) + (A.sub a b - (a - b))) (A.const π - π)
    have t2 := abs_add_le (w - (A.sub a b - A.const π + 2 * π * k)) (A.sub a b - (a - b))
    norm_num at hk
    linarith
  have := unsigned32 r k hk'
  rw [abs_wrapPi_angle, angle_half] at this
  exact this.trans (by norm_num)

/-! ### The weight of the heading -/

theorem quotient32 (acc : Spec.Float32 A.toArith) {x x' c c' ε δ r : ℝ} (hx : |x' - x| ≤ ε) (hc : |c' - c| ≤ δ) (c0 : 0 < c) (hr : |x / c| ≤ r)
    (hr1 : 1 ≤ r) (hδ : δ ≤ c / 100) (hk : (ε + r * δ) / (0.99 * c) ≤ 0.01) :
    |A.div x' c' - x / c| ≤ (ε + r * δ) / (0.99 * c) + 1.1e-7 * r := by
  obtain ⟨u1, u2⟩ := abs_le.mp hc
  have cp : 0.99 * c ≤ c' := by linarith
  have cp0 : 0 < c' := by linarith
  have h := acc.div x' c' cp0.ne'
  have q : |x' / c' - x / c| ≤ (ε + r * δ) / (0.99 * c) := by
    have e : x' / c' - x / c = ((x' - x) - x / c * (c' - c)) / c' := by field_simp; ring
    rw [e, abs_div, abs_of_pos cp0]
    have n1 : |x' - x - x / c * (c' - c)| ≤ ε + r * δ := by
      refine (abs_sub _ _).trans ?_
      rw [abs_mul]
      exact add_le_add hx (mul_le_mul hr hc (abs_nonneg _) (by linarith))
    exact div_le_div₀ ((abs_nonneg _).trans n1) n1 (by linarith) cp
  have b : |x' / c'| ≤ r + 0.01 := (abs_le_of_err q hr).trans (by linarith)
  have t := abs_add_le (A.div x' c' - x' / c') (x' / c' - x / c)
  rw [sub_add_sub_cancel] at t
  linarith

theorem sigmoid_lip (a b : ℝ) : |sigmoid a - sigmoid b| ≤ |a - b| := by
  have key : ∀ a b : ℝ, a ≤ b → sigmoid b - sigmoid a ≤ b - a := by
    intro a b h
    have e : sigmoid b - sigmoid a ≤ 1 - Real.exp (-(b - a)) := by
      unfold sigmoid
      have pa := Real.exp_pos (-a)
      have pb := Real.exp_pos (-b)
      have eb : Real.exp (-b) = Real.exp (-a) * Real.exp (-(b - a)) := by rw [← Real.exp_add]; congr 1; ring
      have pd := Real.exp_pos (-(b - a))
      have ld : Real.exp (-(b - a)) ≤ 1 := Real.exp_le_one_iff.mpr (by linarith)
      generalize Real.exp (-(b - a)) = r at *
      rw [eb] at *
      generalize Real.exp (-a) = x at *
      rw [div_sub_div _ _ (by positivity) (by positivity), div_le_iff₀ (by positivity)]
      have := mul_nonneg (sub_nonneg.mpr ld) (show 0 ≤ 1 + x * r + x * (x * r) by positivity)
      nlinarith
    have := Real.one_sub_le_exp_neg (b - a)
    linarith
  rcases le_total a b with h | h
  · rw [abs_sub_comm, abs_sub_comm a, abs_of_nonneg (sub_nonneg.mpr (sigmoid_mono h)), abs_of_nonneg (sub_nonneg.mpr h)]
    exact key a b h
  · rw [abs_of_nonneg (sub_nonneg.mpr (sigmoid_mono h)), abs_of_nonneg (sub_nonneg.mpr h)]
    exact key b a h

theorem sigmoid32 (acc : Spec.RewardFloat32 A) {z : ℝ} (hz : |z| ≤ 80) :
    |A.div 1 (A.add 1 (A.exp (-z))) - sigmoid z| ≤ 2.4e-6 := by
  have he := acc.exp (-z) (by rwa [abs_neg])
  unfold sigmoid
  have F0 := Real.exp_pos (-z)
  generalize Real.exp (-z) = F at *
  generalize A.exp (-z) = E at *
  obtain ⟨e1, e2⟩ := abs_le.mp he
  have E0 : 0 ≤ E := by linarith
  have hg := acc.float.add 1 E
  rw [abs_of_nonneg (by linarith : 0 ≤ 1 + E)] at hg
  generalize A.add 1 E = g at *
  have hg' : |g - (1 + F)| ≤ 2.1e-6 * (1 + F) := by
    have t := abs_add_le (g - (1 + E)) (E - F)
    rw [show g - (1 + E) + (E - F) = g - (1 + F) by ring] at t
    linarith
  obtain ⟨g1, g2⟩ := abs_le.mp hg'
  have gp : 0.99 * (1 + F) ≤ g := by linarith
  have g0 : 0.99 ≤ g := by linarith
  have q : |1 / g - 1 / (1 + F)| ≤ 2.2e-6 := by
    rw [div_sub_div _ _ (by linarith) (by linarith), abs_div, abs_of_pos (by positivity : 0 < g * (1 + F)), div_le_iff₀ (by positivity)]
    rw [show 1 * (1 + F) - g * 1 = -(g - (1 + F)) by ring, abs_neg]
    have := mul_le_mul_of_nonneg_right g0 (show 0 ≤ 1 + F by linarith)
    linarith
  have b : |1 / g| ≤ 1.1 := by
    rw [abs_of_pos (by positivity), div_le_iff₀ (by linarith)]; linarith
  have d := acc.float.div 1 g (by linarith)
  have t := abs_add_le (A.div 1 g - 1 / g) (1 / g - 1 / (1 + F))
  rw [sub_add_sub_cancel] at t
  linarith

theorem wTheta32 (acc : Spec.RewardFloat32 A) {P : Params} (hP : DefaultRewards P) {d d' : ℝ} (hd : |d' - d| ≤ 2e-4) (d0 : 0 ≤ d)
    (d1 : d ≤ 156) : |wTheta A P d' - TT2d.wTheta P d| ≤ 1.1e-4 ∧ 0 ≤ TT2d.wTheta P d ∧ TT2d.wTheta P d ≤ 0.75 := by
  have dt : P.dThr = 7.28 := by unfold Params.dThr; rw [hP.factor, hP.l1, hP.l2, hP.lh]; norm_num
  unfold wTheta TT2d.wTheta
  rw [dt, hP.switch, hP.maxW]
  refine ⟨?_, le_clip (by norm_num), clip_le _ _ _⟩
  have f := acc.float
  have c1 := f.const 7.28
  rw [abs_of_pos (by norm_num : (0 : ℝ) < 7.28)] at c1
  have c2 := const32 f (a := 2.5) (by norm_num)
  have c3 := const32 f (a := 0.75) (by norm_num)
  have xb : |7.28 - d| ≤ 149 := abs_le.mpr ⟨by linarith, by linarith⟩
  have e0 : |A.const 7.28 - d' - (7.28 - d)| ≤ 2.005e-4 := by
    rw [show A.const 7.28 - d' - (7.28 - d) = (A.const 7.28 - 7.28) - (d' - d) by ring]
    exact (abs_sub _ _).trans (by linarith)
  have s := f.sub (A.const 7.28) d'
  have sb := abs_le_of_err e0 xb
  have hx : |A.sub (A.const 7.28) d' - (7.28 - d)| ≤ 2.1e-4 := by
    have t := abs_add_le (A.sub (A.const 7.28) d' - (A.const 7.28 - d')) (A.const 7.28 - d' - (7.28 - d))
    rw [sub_add_sub_cancel] at t
    linarith
  have r : |(7.28 - d) / 2.5| ≤ 60 := by
    rw [abs_div, abs_of_pos (by norm_num : (0 : ℝ) < 2.5), div_le_iff₀ (by norm_num)]; linarith
  have hz := quotient32 f hx c2 (by norm_num) r (by norm_num) (by norm_num) (by norm_num)
  generalize A.div (A.sub (A.const 7.28) d') (A.const 2.5) = z' at *
  generalize (7.28 - d) / 2.5 = z at *
  have hz' : |z' - z| ≤ 1.02e-4 := hz.trans (by norm_num)
  have h1 := sigmoid32 acc (z := z') ((abs_le_of_err hz' r).trans (by norm_num))
  have h2 := sigmoid_lip z' z
  have h3 : |A.div 1 (A.add 1 (A.exp (-z'))) - sigmoid z| ≤ 1.05e-4 := by
    have t := abs_add_le (A.div 1 (A.add 1 (A.exp (-z'))) - sigmoid z') (sigmoid z' - sigmoid z)
    rw [sub_add_sub_cancel] at t
    linarith
  exact (clip32 h3 c3).trans (by norm_num)

/-! ### Heading and articulation -/

theorem head_sq32 (acc : Spec.Float32 A.toArith) {x x' : ℝ} (hx : |x' - x| ≤ 6e-5) (x0 : 0 ≤ x) (x1 : x ≤ π) :
    |square A (A.div x' (A.const (π / 2))) - (x / (π / 2)) ^ 2| ≤ 1.7e-4 := by
  have p1 := pi_gt_d2
  have p2 := pi_lt_d2
  have hc := const32 acc (a := π / 2) (by rw [abs_of_pos (by linarith)]; linarith)
  have r : |x / (π / 2)| ≤ 2 := by
    rw [abs_of_nonneg (by positivity), div_le_iff₀ (by linarith)]; linarith
  have := ratio32 acc hx hc (by linarith) r (by norm_num) (by linarith) 4e-5 (by
    have : (6e-5 + 2 * 4e-7) / (0.99 * (π / 2)) ≤ 3.93e-5 := by
      rw [div_le_iff₀ (by linarith)]; linarith
    linarith) (by norm_num)
  exact this.trans (by norm_num)

theorem art_sq32 (acc : Spec.Float32 A.toArith) (P : Params) {x x' : ℝ} (hx : |x' - x| ≤ 5e-5) (x0 : 0 ≤ x) (x1 : x ≤ π) :
    |square A (A.div x' (A.const P.phiMax)) - (x / P.phiMax) ^ 2| ≤ 7.2e-4 ∧ (x / P.phiMax) ^ 2 ≤ 21 := by
  have p1 := pi_gt_d2
  have p2 := pi_lt_d2
  have e : P.phiMax = 2 * π / 9 := by unfold Params.phiMax deg2rad; ring
  rw [e]
  have hc := const32 acc (a := 2 * π / 9) (by rw [abs_of_pos (by linarith)]; linarith)
  have r : |x / (2 * π / 9)| ≤ 4.5 := by
    rw [abs_of_nonneg (by positivity), div_le_iff₀ (by linarith)]; linarith
  have := ratio32 acc hx hc (by linarith) r (by norm_num) (by linarith) 7.7e-5 (by
    have : (5e-5 + 4.5 * 4e-7) / (0.99 * (2 * π / 9)) ≤ 7.6e-5 := by
      rw [div_le_iff₀ (by linarith)]; linarith
    linarith) (by norm_num)
  refine ⟨this.trans (by norm_num), ?_⟩
  rw [← sq_abs]
  have := pow_le_pow_left₀ (abs_nonneg _) r 2
  exact this.trans (by norm_num)

/-- The heading errors of the code, squared and divided by the square of the quarter turn. -/
theorem heading32 (acc : Spec.Float32 A.toArith) (P : Params) {xg q : Q4} (g : |xg.th1| ≤ 49) (h1 : |q.th1| ≤ 49) (h2 : |q.th2| ≤ 49) :
    |square A (A.div |(headingErr A P xg q).1| (A.const P.thetaMax)) + square A (A.div |(headingErr A P xg q).2| (A.const P.thetaMax))
      - Spec.misalign P.motionPreference q.th1 q.th2 xg.th1 / (π / 2) ^ 2| ≤ 6.4e-4 := by
  have p1 := pi_gt_d2
  have p2 := pi_lt_d2
  have a1 := angle32 acc (h1.trans (by norm_num)) (g.trans (by norm_num))
  have a2 := angle32 acc (h2.trans (by norm_num)) (g.trans (by norm_num))
  have o1 := opposite32 acc h1 g
  have o2 := opposite32 acc h2 g
  obtain ⟨n1, m1⟩ := angle_mem q.th1 xg.th1
  obtain ⟨n2, m2⟩ := angle_mem q.th2 xg.th1
  unfold headingErr Spec.misalign Spec.squares Params.thetaMax
  simp only [angle_half]
  generalize wrapPi A.toArith (A.sub q.th1 xg.th1) = d1 at *
  generalize wrapPi A.toArith (A.sub q.th2 xg.th1) = d2 at *
  generalize wrapPi A.toArith (A.sub (A.sub q.th1 xg.th1) (A.const π)) = e1 at *
  generalize wrapPi A.toArith (A.sub (A.sub q.th2 xg.th1) (A.const π)) = e2 at *
  generalize Spec.angle q.th1 xg.th1 = x at *
  generalize Spec.angle q.th2 xg.th1 = y at *
  have D1 := head_sq32 acc (a1.trans (by norm_num)) n1 m1
  have D2 := head_sq32 acc (a2.trans (by norm_num)) n2 m2
  have O1 := head_sq32 acc o1 (by linarith) (by linarith)
  have O2 := head_sq32 acc o2 (by linarith) (by linarith)
  have D : |square A (A.div |d1| (A.const (π / 2))) + square A (A.div |d2| (A.const (π / 2))) - (x ^ 2 + y ^ 2) / (π / 2) ^ 2| ≤ 3.4e-4 := by
    obtain ⟨u1, u2⟩ := abs_le.mp D1
    obtain ⟨v1, v2⟩ := abs_le.mp D2
    rw [add_div, ← div_pow, ← div_pow]
    exact abs_le.mpr ⟨by linarith, by linarith⟩
  have O : |square A (A.div |e1| (A.const (π / 2))) + square A (A.div |e2| (A.const (π / 2))) - ((π - x) ^ 2 + (π - y) ^ 2) / (π / 2) ^ 2|
      ≤ 3.4e-4 := by
    obtain ⟨u1, u2⟩ := abs_le.mp O1
    obtain ⟨v1, v2⟩ := abs_le.mp O2
    rw [add_div, ← div_pow, ← div_pow]
    exact abs_le.mpr ⟨by linarith, by linarith⟩
  have diff : (x ^ 2 + y ^ 2) / (π / 2) ^ 2 - ((π - x) ^ 2 + (π - y) ^ 2) / (π / 2) ^ 2 = (x + y - π) * (8 / π) := by
    field_simp; ring
  have small : 8 / π ≤ 2.55 := by rw [div_le_iff₀ pi_pos]; linarith
  have small0 : 0 < 8 / π := by positivity
  have s1 := acc.add |d1| |d2|
  have s2 := acc.add |e1| |e2|
  obtain ⟨u1, u2⟩ := abs_le.mp a1
  obtain ⟨v1, v2⟩ := abs_le.mp a2
  obtain ⟨u3, u4⟩ := abs_le.mp o1
  obtain ⟨v3, v4⟩ := abs_le.mp o2
  rw [abs_of_nonneg (by positivity : 0 ≤ |d1| + |d2|)] at s1
  rw [abs_of_nonneg (by positivity : 0 ≤ |e1| + |e2|)] at s2
  have s1' : |A.add |d1| |d2| - (|d1| + |d2|)| ≤ 4e-7 := by linarith
  have s2' : |A.add |e1| |e2| - (|e1| + |e2|)| ≤ 4e-7 := by linarith
  obtain ⟨w1, w2⟩ := abs_le.mp s1'
  obtain ⟨w3, w4⟩ := abs_le.mp s2'
  have k0 : (0 : ℝ) < (π / 2) ^ 2 := by positivity
  by_cases h0 : P.motionPreference = 0
  · simp only [if_pos h0]
    rw [← min_div_div_right k0.le]
    by_cases h : A.add |d1| |d2| < A.add |e1| |e2|
    · simp only [if_pos h]
      have hs : x + y - π ≤ 1.15e-4 := by linarith
      have := mul_le_mul_of_nonneg_right hs small0.le
      generalize (x ^ 2 + y ^ 2) / (π / 2) ^ 2 = SD at *
      generalize ((π - x) ^ 2 + (π - y) ^ 2) / (π / 2) ^ 2 = SO at *
      obtain ⟨z1, z2⟩ := abs_le.mp D
      rcases le_total SD SO with hh | hh
      · rw [min_eq_left hh]; exact D.trans (by norm_num)
      · rw [min_eq_right hh]; exact abs_le.mpr ⟨by linarith, by linarith⟩
    · simp only [if_neg h]
      push Not at h
      have hs : -1.15e-4 ≤ x + y - π := by linarith
      have := mul_le_mul_of_nonneg_right hs small0.le
      generalize (x ^ 2 + y ^ 2) / (π / 2) ^ 2 = SD at *
      generalize ((π - x) ^ 2 + (π - y) ^ 2) / (π / 2) ^ 2 = SO at *
      obtain ⟨z1, z2⟩ := abs_le.mp O
      rcases le_total SD SO with hh | hh
      · rw [min_eq_left hh]; exact abs_le.mpr ⟨by linarith, by linarith⟩
      · rw [min_eq_right hh]; exact O.trans (by norm_num)
  · simp only [if_neg h0]
    exact D.trans (by norm_num)

theorem headingB32 (acc : Spec.Float32 A.toArith) (P : Params) {xg q : Q3} (g : |xg.th1| ≤ 49) (h1 : |q.th1| ≤ 49) :
    |square A (A.div |headingErrB A P xg q| (A.const P.thetaMax))
      - Spec.misalign1 P.motionPreference q.th1 xg.th1 / (π / 2) ^ 2| ≤ 6.4e-4 := by
  have p1 := pi_gt_d2
  have p2 := pi_lt_d2
  have a1 := angle32 acc (h1.trans (by norm_num)) (g.trans (by norm_num))
  have o1 := opposite32 acc h1 g
  obtain ⟨n1, m1⟩ := angle_mem q.th1 xg.th1
  unfold headingErrB Spec.misalign1 Params.thetaMax
  simp only [angle_half]
  generalize wrapPi A.toArith (A.sub q.th1 xg.th1) = d1 at *
  generalize wrapPi A.toArith (A.sub (A.sub q.th1 xg.th1) (A.const π)) = e1 at *
  generalize Spec.angle q.th1 xg.th1 = x at *
  have D := head_sq32 acc (a1.trans (by norm_num)) n1 m1
  have O := head_sq32 acc o1 (by linarith) (by linarith)
  rw [div_pow] at D O
  have diff : x ^ 2 / (π / 2) ^ 2 - (π - x) ^ 2 / (π / 2) ^ 2 = (2 * x - π) * (4 / π) := by
    field_simp; ring
  have small : 4 / π ≤ 1.28 := by rw [div_le_iff₀ pi_pos]; linarith
  have small0 : 0 < 4 / π := by positivity
  obtain ⟨u1, u2⟩ := abs_le.mp a1
  obtain ⟨u3, u4⟩ := abs_le.mp o1
  have k0 : (0 : ℝ) < (π / 2) ^ 2 := by positivity
  by_cases h0 : P.motionPreference = 0
  · simp only [if_pos h0]
    rw [← min_div_div_right k0.le]
    by_cases h : |d1| < |e1|
    · simp only [if_pos h]
      have hs : 2 * x - π ≤ 1.15e-4 := by linarith
      have := mul_le_mul_of_nonneg_right hs small0.le
      generalize x ^ 2 / (π / 2) ^ 2 = SD at *
      generalize (π - x) ^ 2 / (π / 2) ^ 2 = SO at *
      obtain ⟨z1, z2⟩ := abs_le.mp D
      rcases le_total SD SO with hh | hh
      · rw [min_eq_left hh]; exact D.trans (by norm_num)
      · rw [min_eq_right hh]; exact abs_le.mpr ⟨by linarith, by linarith⟩
    · simp only [if_neg h]
      push Not at h
      have hs : -1.15e-4 ≤ 2 * x - π := by linarith
      have := mul_le_mul_of_nonneg_right hs small0.le
      generalize x ^ 2 / (π / 2) ^ 2 = SD at *
      generalize (π - x) ^ 2 / (π / 2) ^ 2 = SO at *
      obtain ⟨z1, z2⟩ := abs_le.mp O
      rcases le_total SD SO with hh | hh
      · rw [min_eq_left hh]; exact abs_le.mpr ⟨by linarith, by linarith⟩
      · rw [min_eq_right hh]; exact O.trans (by norm_num)
  · simp only [if_neg h0]
    exact D.trans (by norm_num)

theorem misalign_bounds (p : ℤ) (a b g : ℝ) : 0 ≤ Spec.misalign p a b g / (π / 2) ^ 2 ∧ Spec.misalign p a b g / (π / 2) ^ 2 ≤ 8 := by
  obtain ⟨n1, m1⟩ := angle_mem a g
  obtain ⟨n2, m2⟩ := angle_mem b g
  have hp := pi_pos
  have lo : 0 ≤ Spec.misalign p a b g := by
    unfold Spec.misalign Spec.squares; split_ifs <;> positivity
  have hi : Spec.misalign p a b g ≤ Spec.squares a b g := by
    unfold Spec.misalign; split_ifs
    · exact min_le_left _ _
    · exact le_rfl
  have sq1 := pow_le_pow_left₀ n1 m1 2
  have sq2 := pow_le_pow_left₀ n2 m2 2
  unfold Spec.squares at hi
  refine ⟨by positivity, ?_⟩
  rw [div_le_iff₀ (by positivity)]
  nlinarith

theorem misalign1_bounds (p : ℤ) (a g : ℝ) : 0 ≤ Spec.misalign1 p a g / (π / 2) ^ 2 ∧ Spec.misalign1 p a g / (π / 2) ^ 2 ≤ 4 := by
  obtain ⟨n1, m1⟩ := angle_mem a g
  have hp := pi_pos
  have lo : 0 ≤ Spec.misalign1 p a g := by
    unfold Spec.misalign1; split_ifs <;> positivity
  have hi : Spec.misalign1 p a g ≤ Spec.angle a g ^ 2 := by
    unfold Spec.misalign1; split_ifs
    · exact min_le_left _ _
    · exact le_rfl
  have sq1 := pow_le_pow_left₀ n1 m1 2
  refine ⟨by positivity, ?_⟩
  rw [div_le_iff₀ (by positivity)]
  nlinarith

/-! ### Mixing -/

theorem mix32 (acc : Spec.Float32 A.toArith) {w w' p p' h h' : ℝ} (hw : |w' - w| ≤ 1.1e-4) (w0 : 0 ≤ w) (w1 : w ≤ 0.75) (hp : |p' - p| ≤ 5e-5)
    (pb : |p| ≤ 1) (hh : |h' - h| ≤ 6.5e-4) (hb : |h| ≤ 3) :
    |A.sum2 (A.sub 1 w') p' w' h' - ((1 - w) * p + w * h)| ≤ 1e-3 ∧ |(1 - w) * p + w * h| ≤ 3.3 := by
  have s := acc.sub 1 w'
  obtain ⟨u1, u2⟩ := abs_le.mp hw
  have b1 : |1 - w'| ≤ 1.01 := abs_le.mpr ⟨by linarith, by linarith⟩
  have s' : |A.sub 1 w' - (1 - w)| ≤ 1.2e-4 := by
    have t := abs_add_le (A.sub 1 w' - (1 - w')) (1 - w' - (1 - w))
    rw [sub_add_sub_cancel, show 1 - w' - (1 - w) = -(w' - w) by ring, abs_neg] at t
    linarith
  have b2 : |1 - w| ≤ 1 := abs_le.mpr ⟨by linarith, by linarith⟩
  have bw : |w| ≤ 0.75 := abs_le.mpr ⟨by linarith, by linarith⟩
  have bp' := abs_le_of_err hp pb
  have bh' := abs_le_of_err hh hb
  have bs' := abs_le_of_err s' b2
  have bw' := abs_le_of_err hw bw
  have m := acc.sum2 (A.sub 1 w') p' w' h'
  generalize A.sub 1 w' = v' at *
  have P1 := prod_err s' hp bs' pb
  have P2 := prod_err hw hh bw' hb
  have q1 : |v' * p'| ≤ 1.1 := by
    rw [abs_mul]; refine (mul_le_mul bs' bp' (abs_nonneg _) (by linarith)).trans (by norm_num)
  have q2 : |w' * h'| ≤ 2.3 := by
    rw [abs_mul]; refine (mul_le_mul bw' bh' (abs_nonneg _) (by linarith)).trans (by norm_num)
  constructor
  · have t1 := abs_add_le (A.sum2 v' p' w' h' - (v' * p' + w' * h')) ((v' * p' - (1 - w) * p) + (w' * h' - w * h))
    have t2 := abs_add_le (v' * p' - (1 - w) * p) (w' * h' - w * h)
    rw [show A.sum2 v' p' w' h' - (v' * p' + w' * h') + ((v' * p' - (1 - w) * p) + (w' * h' - w * h))
      = A.sum2 v' p' w' h' - ((1 - w) * p + w * h) by ring] at t1
    linarith
  · refine (abs_add_le _ _).trans ?_
    rw [abs_mul, abs_mul]
    have := mul_le_mul b2 pb (abs_nonneg _) (by norm_num)
    have := mul_le_mul bw hb (abs_nonneg _) (by norm_num)
    linarith

/-! ### Distance to the goal -/

theorem goalDist32 (acc : Spec.RewardFloat32 A) {P : Params} (hP : DefaultRewards P) {xg q : Q4} (hg : OnSite xg) (hq : OnSite q) :
    |posDist A P xg q - Spec.goalDist P xg q| ≤ 2e-4 ∧ Spec.goalDist P xg q ≤ 156 := by
  rw [← goalDist_eq]
  unfold posDist TT2d.posDist
  have nd : ∀ a b : V2, norm2 (a - b) = Spec.dist a b := fun a b => by unfold norm2 Spec.dist; simp
  simp only [nd]
  have z : ∀ x : ℝ, |x - x| ≤ 3e-5 := fun x => by rw [sub_self, abs_zero]; norm_num
  split_ifs
  · obtain ⟨a1, a2, a3, a4⟩ := tractor32 acc.float hP hq.px hq.py (hq.th1.trans (by norm_num))
    obtain ⟨h1, h2⟩ := dist32 acc (b := (xg.px, xg.py)) (b' := (xg.px, xg.py)) (by norm_num) (by norm_num) a1 a2 (z _) (z _) a3 a4
      (hg.px.trans (by norm_num)) (hg.py.trans (by norm_num))
    exact ⟨h1.trans (by norm_num), h2.trans (by norm_num)⟩
  · obtain ⟨a1, a2, a3, a4⟩ := trailer32 acc.float hP hq
    obtain ⟨b1, b2, b3, b4⟩ := trailer32 acc.float hP hg
    obtain ⟨h1, h2⟩ := dist32 acc (by norm_num) (by norm_num) a1 a2 b1 b2 a3 a4 b3 b4
    exact ⟨h1.trans (by norm_num), h2.trans (by norm_num)⟩

theorem goalDistB32 (acc : Spec.RewardFloat32 A) {P : Params} (hP : DefaultRewards P) {xg q : Q3} (hg : InField3 50 49 xg)
    (hq : InField3 50 49 q) : |posDistB A P xg q - Spec.goalDist1 P xg q| ≤ 2e-4 ∧ Spec.goalDist1 P xg q ≤ 156 := by
  rw [← goalDist1_eq]
  unfold posDistB Bicycle.posDist
  have nd : ∀ a b : V2, norm2 (a - b) = Spec.dist a b := fun a b => by unfold norm2 Spec.dist; simp
  simp only [nd]
  have z : ∀ x : ℝ, |x - x| ≤ 3e-5 := fun x => by rw [sub_self, abs_zero]; norm_num
  obtain ⟨a1, a2, a3, a4⟩ := tractor32 acc.float hP hq.px hq.py (hq.th1.trans (by norm_num))
  obtain ⟨h1, h2⟩ := dist32 acc (b := (xg.px, xg.py)) (b' := (xg.px, xg.py)) (by norm_num) (by norm_num) a1 a2 (z _) (z _) a3 a4
    (hg.px.trans (by norm_num)) (hg.py.trans (by norm_num))
  exact ⟨h1.trans (by norm_num), h2.trans (by norm_num)⟩

/-! ### The train -/

theorem lever66 (acc : Spec.Float32 A.toArith) {k k' c c' p p' ε L R : ℝ} (hk : |k' - k| ≤ 4e-7) (hkb : |k| ≤ L) (hc : |c' - c| ≤ 5e-7)
    (hcb : |c| ≤ 1) (hp : |p' - p| ≤ ε) (hpb : |p| ≤ R) (hL : L ≤ 3.3) (hR : R ≤ 66) (he : ε ≤ 1e-3) :
    |A.mulAdd k' c' p' - (p + k * c)| ≤ ε + 1.7e-5 ∧ |p + k * c| ≤ R + L := by
  have h := mulAdd32 acc hk hc hp hkb hcb hpb (by norm_num) (by norm_num) (by linarith)
  constructor
  · rw [add_comm p]
    refine h.trans ?_
    linarith
  · refine (abs_add_le _ _).trans ?_
    rw [abs_mul]
    have := mul_le_mul hkb hcb (abs_nonneg _) ((abs_nonneg _).trans hkb)
    linarith

theorem clamp_mem {l : List ℝ} {B : ℝ} (h0 : 0 ≤ B) (h : ∀ x ∈ l, |x| ≤ B) (i : ℕ) : |clampGet l i| ≤ B := by
  unfold clampGet
  generalize min i (l.length - 1) = j
  by_cases hj : j < l.length
  · rw [List.getD_eq_getElem _ _ hj]; exact h _ (List.getElem_mem _)
  · rw [List.getD_eq_default _ _ (not_lt.mp hj)]; simpa using h0

theorem last66 (acc : Spec.Float32 A.toArith) {T : NTrailer} (hh : |T.lh| ≤ 1.2) (hl : ∀ l ∈ T.lengths, |l| ≤ 2.9)
    (hf : ∀ l ∈ T.fronts, |l| ≤ 1.5) {x : QN} (hx : InFieldN 50 100 x) (i : ℕ) (hi : i ≤ 3) :
    |(lastPosLoopN A T x i).1.1 - (T.lastPosLoop x i).1.1| ≤ 1.7e-5 + 3.4e-5 * i ∧
    |(lastPosLoopN A T x i).1.2 - (T.lastPosLoop x i).1.2| ≤ 1.7e-5 + 3.4e-5 * i ∧
    |(lastPosLoopN A T x i).2.1 - (T.lastPosLoop x i).2.1| ≤ 1.7e-5 + 3.4e-5 * i ∧
    |(lastPosLoopN A T x i).2.2 - (T.lastPosLoop x i).2.2| ≤ 1.7e-5 + 3.4e-5 * i ∧
    |(T.lastPosLoop x i).1.1| ≤ 51.2 + 4.4 * i ∧ |(T.lastPosLoop x i).1.2| ≤ 51.2 + 4.4 * i ∧
    |(T.lastPosLoop x i).2.1| ≤ 51.2 + 4.4 * i ∧ |(T.lastPosLoop x i).2.2| ≤ 51.2 + 4.4 * i := by
  have ng : ∀ {a : ℝ}, |A.const a - a| ≤ 4e-7 → |-A.const a - -a| ≤ 4e-7 := fun h => by
    rw [show ∀ a b : ℝ, -a - -b = -(a - b) by intros; ring, abs_neg]; exact h
  have z : ∀ x : ℝ, |x - x| ≤ 0 := fun x => by simp
  induction i with
  | zero =>
    have c1 := ng (const32 acc (a := T.lh) (hh.trans (by norm_num)))
    have k1 : |-T.lh| ≤ 1.2 := by rwa [abs_neg]
    obtain ⟨a1, a2⟩ := lever66 acc c1 k1 (acc.cos _ hx.th0) (abs_cos_le_one _) (z x.px) hx.px (by norm_num) (by norm_num) (by norm_num)
    obtain ⟨b1, b2⟩ := lever66 acc c1 k1 (acc.sin _ hx.th0) (abs_sin_le_one _) (z x.py) hx.py (by norm_num) (by norm_num) (by norm_num)
    have e1 : x.px - T.lh * cos x.th0 = x.px + -T.lh * cos x.th0 := by ring
    have e2 : x.py - T.lh * sin x.th0 = x.py + -T.lh * sin x.th0 := by ring
    simp only [lastPosLoopN, NTrailer.lastPosLoop, NTrailer.hitch0, leverN, e1, e2, Nat.cast_zero]
    refine ⟨?_, ?_, ?_, ?_, ?_, ?_, ?_, ?_⟩ <;> linarith
  | succ i ih =>
    obtain ⟨h1, h2, -, -, h5, h6, -, -⟩ := ih (by omega)
    have i2 : (i : ℝ) ≤ 2 := by exact_mod_cast (by omega : i ≤ 2)
    have i0 : (0 : ℝ) ≤ i := Nat.cast_nonneg i
    simp only [lastPosLoopN, NTrailer.lastPosLoop, leverN, lengthN, frontN]
    generalize (lastPosLoopN A T x i).1 = p' at *
    generalize (T.lastPosLoop x i).1 = p at *
    have lb : |clampGet T.lengths i| ≤ 2.9 := clamp_mem (by norm_num) hl i
    have fb : |clampGet T.fronts i| ≤ 1.5 := clamp_mem (by norm_num) hf i
    have tb : |T.theta x i| ≤ 100 := clamp_mem (by norm_num) (fun y hy => hx.ths y (List.mem_of_mem_take hy)) i
    generalize clampGet T.lengths i = L at *
    generalize clampGet T.fronts i = F at *
    generalize T.theta x i = th at *
    have c1 := ng (const32 acc (a := L) (lb.trans (by norm_num)))
    have lb' : |-L| ≤ 2.9 := by rwa [abs_neg]
    have c2 := const32 acc (a := F) (fb.trans (by norm_num))
    obtain ⟨a1, a2⟩ := lever66 acc c1 lb' (acc.cos _ tb) (abs_cos_le_one _) h1 h5 (by norm_num) (by linarith) (by linarith)
    obtain ⟨b1, b2⟩ := lever66 acc c1 lb' (acc.sin _ tb) (abs_sin_le_one _) h2 h6 (by norm_num) (by linarith) (by linarith)
    obtain ⟨a3, a4⟩ := lever66 acc c2 fb (acc.cos _ tb) (abs_cos_le_one _) a1 a2 (by norm_num) (by linarith) (by linarith)
    obtain ⟨b3, b4⟩ := lever66 acc c2 fb (acc.sin _ tb) (abs_sin_le_one _) b1 b2 (by norm_num) (by linarith) (by linarith)
    have e1 : p.1 - L * cos th = p.1 + -L * cos th := by ring
    have e2 : p.2 - L * sin th = p.2 + -L * sin th := by ring
    rw [e1, e2]
    push_cast
    refine ⟨?_, ?_, ?_, ?_, ?_, ?_, ?_, ?_⟩ <;> linarith

theorem goalDistN32 (acc : Spec.RewardFloat32 A) {T : NTrailer} (hP : DefaultRewards T.toParams) (hT : ShortTrain T) {q : QN}
    (hg : InFieldN 50 100 T.xg) (hq : InFieldN 50 100 q) : |posDistN A T q - T.posDist q| ≤ 5.6e-4 := by
  have nd : ∀ a b : V2, norm2 (a - b) = Spec.dist a b := fun a b => by unfold norm2 Spec.dist; simp
  have z : ∀ x : ℝ, |x - x| ≤ 3e-5 := fun x => by rw [sub_self, abs_zero]; norm_num
  obtain ⟨a1, a2, a3, a4⟩ := tractor32 acc.float hP hq.px hq.py hq.th0
  have h1 := (dist32 acc (b := (T.xg.px, T.xg.py)) (b' := (T.xg.px, T.xg.py)) (by norm_num) (by norm_num) a1 a2 (z _) (z _) a3 a4
    (hg.px.trans (by norm_num)) (hg.py.trans (by norm_num))).1
  have n3 : (T.N : ℝ) ≤ 3 := by exact_mod_cast hT.count
  have hh : |T.lh| ≤ 1.2 := by rw [hP.lh]; norm_num
  obtain ⟨-, -, b1, b2, -, -, b3, b4⟩ := last66 acc.float hh hT.lengths hT.fronts hq T.N hT.count
  obtain ⟨-, -, c1, c2, -, -, c3, c4⟩ := last66 acc.float hh hT.lengths hT.fronts hg T.N hT.count
  have h2 := (dist32 acc (ε := 1.19e-4) (k := 64.4) (by norm_num) (by norm_num) (b1.trans (by linarith)) (b2.trans (by linarith))
    (c1.trans (by linarith)) (c2.trans (by linarith)) (b3.trans (by linarith)) (b4.trans (by linarith)) (c3.trans (by linarith))
    (c4.trans (by linarith))).1
  unfold posDistN NTrailer.posDist NTrailer.dTractor NTrailer.dLast NTrailer.lastTrailerPos
  simp only [nd]
  have h1' := h1.trans (show (4 * 3e-5 + 8e-5 : ℝ) ≤ 5.6e-4 by norm_num)
  have h2' := h2.trans (show (4 * 1.19e-4 + 8e-5 : ℝ) ≤ 5.6e-4 by norm_num)
  split_ifs
  · exact h1'
  · exact h2'
  · exact (abs_min_sub_min_le_max _ _ _ _).trans (max_le h1' h2')

/-- Reward of the heading, tractor-trailer. -/
theorem rHdg32 (acc : Spec.Float32 A.toArith) {s1 s2 m : ℝ} (h : |s1 + s2 - m| ≤ 6.4e-4) (m0 : 0 ≤ m) (m8 : m ≤ 8) (s10 : |s1| ≤ 5)
    (s20 : |s2| ≤ 5) :
    |A.mul (A.const 0.5) (A.sub (A.add (A.sub 1 s1) 1) s2) - 0.5 * (2 - m)| ≤ 6.5e-4 ∧ |0.5 * (2 - m)| ≤ 3 := by
  obtain ⟨h1, h2⟩ := abs_le.mp h
  obtain ⟨k1, k2⟩ := abs_le.mp s10
  obtain ⟨k3, k4⟩ := abs_le.mp s20
  have a1 := acc.sub 1 s1
  have b1 : |1 - s1| ≤ 6 := abs_le.mpr ⟨by linarith, by linarith⟩
  have a1' : |A.sub 1 s1 - (1 - s1)| ≤ 4e-7 := by linarith
  have a2 := acc.add (A.sub 1 s1) 1
  generalize A.sub 1 s1 = v at *
  obtain ⟨c1, c2⟩ := abs_le.mp a1'
  have b2 : |v + 1| ≤ 7.1 := abs_le.mpr ⟨by linarith, by linarith⟩
  have a2' : |A.add v 1 - (v + 1)| ≤ 5e-7 := by linarith
  have a3 := acc.sub (A.add v 1) s2
  generalize A.add v 1 = w at *
  obtain ⟨c3, c4⟩ := abs_le.mp a2'
  have b3 : |w - s2| ≤ 12.5 := abs_le.mpr ⟨by linarith, by linarith⟩
  have a3' : |A.sub w s2 - (w - s2)| ≤ 8e-7 := by linarith
  generalize A.sub w s2 = y at *
  obtain ⟨c5, c6⟩ := abs_le.mp a3'
  have e : |y - (2 - m)| ≤ 6.42e-4 := abs_le.mpr ⟨by linarith, by linarith⟩
  have c := const32 acc (a := 0.5) (by norm_num)
  have a4 := acc.mul (A.const 0.5) y
  have mb : |2 - m| ≤ 6 := abs_le.mpr ⟨by linarith, by linarith⟩
  have cb := abs_le_of_err c (show |(0.5 : ℝ)| ≤ 0.5 by norm_num)
  have pe := prod_err c e cb mb
  have yb := abs_le_of_err e mb
  have pb : |A.const 0.5 * y| ≤ 3.1 := by
    rw [abs_mul]; exact (mul_le_mul cb yb (abs_nonneg _) (by norm_num)).trans (by norm_num)
  constructor
  · have t := abs_add_le (A.mul (A.const 0.5) y - A.const 0.5 * y) (A.const 0.5 * y - 0.5 * (2 - m))
    rw [sub_add_sub_cancel] at t
    linarith
  · rw [abs_mul, abs_of_pos (by norm_num : (0 : ℝ) < 0.5)]; linarith

/-- The last sum of the stage reward. -/
theorem total32 (acc : Spec.Float32 A.toArith) {b b' s s' : ℝ} (hb : |b' - b| ≤ 1e-3) (bb : |b| ≤ 3.3) (hs : |s' - s| ≤ 7.2e-4) (s0 : 0 ≤ s)
    (s1 : s ≤ 21) :
    |A.sum2 (A.const (1 - 0.2)) b' (A.const 0.2) (A.sub 1 s') - ((1 - 0.2) * b + 0.2 * (1 - s))| ≤ 1e-3 := by
  have c1 := const32 acc (a := 1 - 0.2) (by norm_num)
  have c2 := const32 acc (a := 0.2) (by norm_num)
  obtain ⟨u1, u2⟩ := abs_le.mp hs
  have a := acc.sub 1 s'
  have ab : |1 - s'| ≤ 21 := abs_le.mpr ⟨by linarith, by linarith⟩
  have e : |A.sub 1 s' - (1 - s)| ≤ 7.3e-4 := by
    have t := abs_add_le (A.sub 1 s' - (1 - s')) (1 - s' - (1 - s))
    rw [sub_add_sub_cancel, show 1 - s' - (1 - s) = -(s' - s) by ring, abs_neg] at t
    linarith
  have sb : |1 - s| ≤ 20 := abs_le.mpr ⟨by linarith, by linarith⟩
  generalize A.sub 1 s' = t' at *
  have h := acc.sum2 (A.const (1 - 0.2)) b' (A.const 0.2) t'
  have k1 := abs_le_of_err c1 (show |(1 - 0.2 : ℝ)| ≤ 0.8 by norm_num)
  have k2 := abs_le_of_err c2 (show |(0.2 : ℝ)| ≤ 0.2 by norm_num)
  have bb' := abs_le_of_err hb bb
  have tb' := abs_le_of_err e sb
  generalize A.const (1 - 0.2) = c at *
  generalize A.const 0.2 = d at *
  have p1 := prod_err c1 hb k1 bb
  have p2 := prod_err c2 e k2 sb
  have q1 : |c * b'| ≤ 2.7 := by rw [abs_mul]; exact (mul_le_mul k1 bb' (abs_nonneg _) (by norm_num)).trans (by norm_num)
  have q2 : |d * t'| ≤ 4.1 := by rw [abs_mul]; exact (mul_le_mul k2 tb' (abs_nonneg _) (by norm_num)).trans (by norm_num)
  have t1 := abs_add_le (A.sum2 c b' d t' - (c * b' + d * t')) ((c * b' - (1 - 0.2) * b) + (d * t' - 0.2 * (1 - s)))
  have t2 := abs_add_le (c * b' - (1 - 0.2) * b) (d * t' - 0.2 * (1 - s))
  rw [show A.sum2 c b' d t' - (c * b' + d * t') + ((c * b' - (1 - 0.2) * b) + (d * t' - 0.2 * (1 - s)))
    = A.sum2 c b' d t' - ((1 - 0.2) * b + 0.2 * (1 - s)) by ring] at t1
  linarith

/-- The computed squares of the heading errors are moderate. -/
theorem head_small (acc : Spec.Float32 A.toArith) {w : ℝ} (h : |w| ≤ π + 1e-6) : |square A (A.div |w| (A.const (π / 2)))| ≤ 5 := by
  have p1 := pi_gt_d2
  have p2 := pi_lt_d2
  have e : |(|w| - min |w| π)| ≤ 6e-5 := by
    rcases le_total |w| π with hh | hh
    · rw [min_eq_left hh, sub_self, abs_zero]; norm_num
    · rw [min_eq_right hh, abs_of_nonneg (by linarith)]; linarith
  have n0 : 0 ≤ min |w| π := le_min (abs_nonneg _) pi_pos.le
  have n1 : min |w| π ≤ π := min_le_right _ _
  have hs := head_sq32 acc e n0 n1
  generalize min |w| π = x at *
  have r : |(x / (π / 2)) ^ 2| ≤ 4 := by
    rw [abs_of_nonneg (by positivity), div_pow, div_le_iff₀ (by positivity)]
    nlinarith
  exact (abs_le_of_err hs r).trans (by norm_num)

end Rounded

/-! ### The property -/

/-- C86, stage reward of the tractor-trailer: for poses and goals on the site (50 m around the origin, headings up to 49 rad) the reward
computed in single precision with the default constants differs by at most 1e-3 from the exact reward, whatever the motion preference. -/
theorem C86_stage_tt2d {A : PlanArith} (acc : RewardFloat32 A) {P : Params} (hP : DefaultRewards P) {xg q : Q4} (hg : OnSite xg)
    (hq : OnSite q) : |Rounded.getReward A P xg q - TT2d.getReward P xg q| ≤ 1e-3 := by
  rw [getReward_shape]
  obtain ⟨hd, d1⟩ := Rounded.goalDist32 acc hP hg hq
  have d0 : 0 ≤ Spec.goalDist P xg q := by rw [← goalDist_eq]; unfold TT2d.posDist norm2; split_ifs <;> exact sqrt_nonneg _
  obtain ⟨hw, w0, w1⟩ := Rounded.wTheta32 acc hP hd d0 d1
  obtain ⟨hp, pb⟩ := Rounded.posReward32 (t := 25) acc.float hd (by norm_num) (by norm_num) le_rfl
  have hh := Rounded.heading32 acc.float P hg.th1 hq.th1 hq.th2
  obtain ⟨m0, m8⟩ := Rounded.misalign_bounds P.motionPreference q.th1 q.th2 xg.th1
  have small : ∀ w : ℝ, |w| ≤ π + 1e-6 → |Rounded.square A (A.div |w| (A.const P.thetaMax))| ≤ 5 := fun w h => Rounded.head_small acc.float h
  have e1 : |(Rounded.headingErr A P xg q).1| ≤ π + 1e-6 := by
    unfold Rounded.headingErr; simp only; split_ifs <;> exact Rounded.wrap_range32 acc.float _
  have e2 : |(Rounded.headingErr A P xg q).2| ≤ π + 1e-6 := by
    unfold Rounded.headingErr; simp only; split_ifs <;> exact Rounded.wrap_range32 acc.float _
  obtain ⟨rh, rb⟩ := Rounded.rHdg32 acc.float hh m0 m8 (small _ e1) (small _ e2)
  obtain ⟨mx, mb⟩ := Rounded.mix32 acc.float hw w0 w1 (hp.trans (by norm_num)) pb rh rb
  obtain ⟨n1, n2⟩ := angle_mem q.th1 q.th2
  obtain ⟨hs, s1⟩ := Rounded.art_sq32 acc.float P (Rounded.angle32 acc.float (hq.th1.trans (by norm_num)) (hq.th2.trans (by norm_num))) n1 n2
  have := Rounded.total32 acc.float mx mb hs (by positivity) s1
  unfold Rounded.getReward
  rw [hP.stage, hP.head, hP.hitch]
  exact this

/-- C86, terminal reward of the tractor-trailer: the error is at most 5e-5. -/
theorem C86_terminal_tt2d {A : PlanArith} (acc : RewardFloat32 A) {P : Params} (hP : DefaultRewards P) {xg q : Q4} (hg : OnSite xg)
    (hq : OnSite q) : |Rounded.getTerminalReward A P xg q - TT2d.getTerminalReward P xg q| ≤ 5e-5 := by
  obtain ⟨hd, -⟩ := Rounded.goalDist32 acc hP hg hq
  rw [← goalDist_eq] at hd
  unfold Rounded.getTerminalReward TT2d.getTerminalReward
  rw [hP.final]
  exact (Rounded.posReward32 acc.float hd (by norm_num) le_rfl (by norm_num)).1.trans (by norm_num)

/-- C86, stage reward of the bicycle. -/
theorem C86_stage_bicycle {A : PlanArith} (acc : RewardFloat32 A) {P : Params} (hP : DefaultRewards P) {xg q : Q3} (hg : InField3 50 49 xg)
    (hq : InField3 50 49 q) : |Rounded.getRewardB A P xg q - Bicycle.getReward P xg q| ≤ 1e-3 := by
  rw [bicycle_getReward_shape]
  obtain ⟨hd, d1⟩ := Rounded.goalDistB32 acc hP hg hq
  obtain ⟨hw, w0, w1⟩ := Rounded.wTheta32 acc hP hd (goalDist1_nonneg _ _ _) d1
  obtain ⟨hp, pb⟩ := Rounded.posReward32 (t := 25) acc.float hd (by norm_num) (by norm_num) le_rfl
  have hh := Rounded.headingB32 acc.float P hg.th1 hq.th1
  obtain ⟨m0, m4⟩ := Rounded.misalign1_bounds P.motionPreference q.th1 xg.th1
  unfold Rounded.getRewardB
  rw [hP.stage]
  generalize Rounded.square A (A.div |Rounded.headingErrB A P xg q| (A.const P.thetaMax)) = s at *
  generalize Spec.misalign1 P.motionPreference q.th1 xg.th1 / (π / 2) ^ 2 = m at *
  obtain ⟨u1, u2⟩ := abs_le.mp hh
  have a := acc.float.sub 1 s
  have ab : |1 - s| ≤ 4 := abs_le.mpr ⟨by linarith, by linarith⟩
  have rh : |A.sub 1 s - (1 - m)| ≤ 6.5e-4 := by
    have t := abs_add_le (A.sub 1 s - (1 - s)) (1 - s - (1 - m))
    rw [sub_add_sub_cancel, show 1 - s - (1 - m) = -(s - m) by ring, abs_neg] at t
    linarith
  have rb : |1 - m| ≤ 3 := abs_le.mpr ⟨by linarith, by linarith⟩
  exact (Rounded.mix32 acc.float hw w0 w1 (hp.trans (by norm_num)) pb rh rb).1

/-- C86, terminal reward of the bicycle. -/
theorem C86_terminal_bicycle {A : PlanArith} (acc : RewardFloat32 A) {P : Params} (hP : DefaultRewards P) {xg q : Q3}
    (hg : InField3 50 49 xg) (hq : InField3 50 49 q) :
    |Rounded.getTerminalRewardB A P xg q - Bicycle.getTerminalReward P xg q| ≤ 5e-5 := by
  obtain ⟨hd, -⟩ := Rounded.goalDistB32 acc hP hg hq
  rw [← goalDist1_eq] at hd
  unfold Rounded.getTerminalRewardB Bicycle.getTerminalReward
  rw [hP.final]
  exact (Rounded.posReward32 acc.float hd (by norm_num) le_rfl (by norm_num)).1.trans (by norm_num)

/-- C86, train of up to three trailers: stage and terminal reward. -/
theorem C86_train {A : PlanArith} (acc : RewardFloat32 A) {T : NTrailer} (hP : DefaultRewards T.toParams) (hT : ShortTrain T)
    (hg : InFieldN 50 100 T.xg) {q : QN} (hq : InFieldN 50 100 q) :
    |Rounded.getRewardN A T q - T.getReward q| ≤ 1.5e-4 ∧ |Rounded.getTerminalRewardN A T q - T.getTerminalReward q| ≤ 1.5e-4 := by
  have hd := Rounded.goalDistN32 acc hP hT hg hq
  unfold Rounded.getRewardN Rounded.getTerminalRewardN NTrailer.getReward NTrailer.getTerminalReward
  rw [hP.stage, hP.final]
  exact ⟨(Rounded.posReward32 acc.float hd (by norm_num) (by norm_num) le_rfl).1.trans (by norm_num),
    (Rounded.posReward32 acc.float hd (by norm_num) le_rfl (by norm_num)).1.trans (by norm_num)⟩

/-- C86, order: of two poses on the site whose exact stage rewards differ by more than 2e-3 the better one has the larger computed stage
reward; the same for terminal rewards which differ by more than 1e-4. -/
theorem C86_order {A : PlanArith} (acc : RewardFloat32 A) {P : Params} (hP : DefaultRewards P) {xg q r : Q4} (hg : OnSite xg)
    (hq : OnSite q) (hr : OnSite r) :
    (TT2d.getReward P xg q + 2e-3 < TT2d.getReward P xg r → Rounded.getReward A P xg q < Rounded.getReward A P xg r) ∧
    (TT2d.getTerminalReward P xg q + 1e-4 < TT2d.getTerminalReward P xg r →
      Rounded.getTerminalReward A P xg q < Rounded.getTerminalReward A P xg r) := by
  obtain ⟨-, a⟩ := abs_le.mp (C86_stage_tt2d acc hP hg hq)
  obtain ⟨b, -⟩ := abs_le.mp (C86_stage_tt2d acc hP hg hr)
  obtain ⟨-, c⟩ := abs_le.mp (C86_terminal_tt2d acc hP hg hq)
  obtain ⟨d, -⟩ := abs_le.mp (C86_terminal_tt2d acc hP hg hr)
  exact ⟨fun h => by linarith, fun h => by linarith⟩

/-! ### The hypotheses are met -/

/-- 24-bit rounding of every operation, the exponential and the sums included. -/
noncomputable def single32 : PlanArith :=
  { toArith := single, exp := fun x => rnd (Real.exp x), sum := fun l => rnd l.sum, dot := fun a b => rnd (List.zipWith (· * ·) a b).sum, cumprod := id }

theorem rnd_nonneg {x : ℝ} (h : 0 ≤ x) : 0 ≤ rnd x := by
  have := rnd_err x
  rw [abs_of_nonneg h] at this
  have := (abs_le.mp this).1
  linarith

theorem single32_reward : RewardFloat32 single32 where
  float := single_float32
  squares a b := rnd_nonneg (add_nonneg (rnd_nonneg (mul_self_nonneg a)) (rnd_nonneg (mul_self_nonneg b)))
  exp x _ := by
    have := rnd_err (Real.exp x)
    rw [abs_of_pos (Real.exp_pos x)] at this
    have p := Real.exp_pos x
    show |rnd (Real.exp x) - Real.exp x| ≤ _
    linarith

theorem wit_default_rewards : DefaultRewards Wit.params where
  l1 := rfl
  l2 := rfl
  lh := rfl
  stage := rfl
  final := rfl
  maxW := rfl
  hitch := rfl
  factor := rfl
  switch := rfl
  head := rfl

example : |Rounded.getReward single32 Wit.params ⟨9, 0, 0, 0⟩ ⟨-3, 7, 1, -0.5⟩ - TT2d.getReward Wit.params ⟨9, 0, 0, 0⟩ ⟨-3, 7, 1, -0.5⟩| ≤ 1e-3 :=
  C86_stage_tt2d single32_reward wit_default_rewards ⟨by norm_num, by norm_num, by norm_num, by norm_num⟩
    ⟨by norm_num, by norm_num, by norm_num, by norm_num⟩

theorem wit_goal_reward (P : Params) (hP : DefaultRewards P) (hm : P.motionPreference = 0) :
    TT2d.getReward P ⟨9, 0, 0, 0⟩ ⟨9, 0, 0, 0⟩ = 1 := by
  rw [getReward_shape, hP.hitch, hP.head]
  have d : Spec.goalDist P ⟨9, 0, 0, 0⟩ ⟨9, 0, 0, 0⟩ = 0 := by
    unfold Spec.goalDist; rw [hm]; norm_num [Spec.dist]
  have p : Params.posReward 0 P.rewardThreshold = 1 := by
    rw [hP.stage]; unfold Params.posReward clip; norm_num
  have m : Spec.misalign P.motionPreference 0 0 0 = 0 := by
    unfold Spec.misalign Spec.squares; rw [hm, if_pos rfl, angle_self, angle_half, angle_self]
    have := sq_nonneg π
    rw [min_eq_left] <;> nlinarith
  rw [d, p]
  simp only [m, angle_self]
  ring

theorem wit_folded_reward (P : Params) (hP : DefaultRewards P) : TT2d.getReward P ⟨9, 0, 0, 0⟩ ⟨9, 0, 0, π⟩ ≤ 0 := by
  rw [getReward_shape, hP.hitch, hP.head]
  have w0 : 0 ≤ TT2d.wTheta P (Spec.goalDist P ⟨9, 0, 0, 0⟩ ⟨9, 0, 0, π⟩) := by
    unfold TT2d.wTheta; rw [hP.maxW]; exact le_clip (by norm_num)
  have w1 : TT2d.wTheta P (Spec.goalDist P ⟨9, 0, 0, 0⟩ ⟨9, 0, 0, π⟩) ≤ 0.75 := by
    unfold TT2d.wTheta; rw [hP.maxW]; exact clip_le _ _ _
  have p : Params.posReward (Spec.goalDist P ⟨9, 0, 0, 0⟩ ⟨9, 0, 0, π⟩) P.rewardThreshold ≤ 1 := by
    unfold Params.posReward; have := sq_nonneg (clip (Spec.goalDist P ⟨9, 0, 0, 0⟩ ⟨9, 0, 0, π⟩) 0 P.rewardThreshold / P.rewardThreshold)
    linarith
  have m := (Rounded.misalign_bounds P.motionPreference 0 π 0).1
  have a : (Spec.angle 0 π / P.phiMax) ^ 2 = 20.25 := by
    have : Spec.angle 0 π = π := by
      unfold Spec.angle; rw [zero_sub, cos_neg, cos_pi, arccos_neg_one]
    rw [this]
    unfold Params.phiMax deg2rad
    have := pi_ne_zero
    field_simp; norm_num
  simp only [a]
  generalize TT2d.wTheta P (Spec.goalDist P ⟨9, 0, 0, 0⟩ ⟨9, 0, 0, π⟩) = w at *
  generalize Params.posReward (Spec.goalDist P ⟨9, 0, 0, 0⟩ ⟨9, 0, 0, π⟩) P.rewardThreshold = r at *
  generalize Spec.misalign P.motionPreference 0 π 0 / (π / 2) ^ 2 = x at *
  have q1 := mul_le_mul_of_nonneg_left p (show 0 ≤ 1 - w by linarith)
  have q2 := mul_nonneg w0 m
  linarith

/-- `C86_order`: the goal pose is preferred to the folded train at the same place. -/
example : Rounded.getReward single32 Wit.params ⟨9, 0, 0, 0⟩ ⟨9, 0, 0, π⟩ < Rounded.getReward single32 Wit.params ⟨9, 0, 0, 0⟩ ⟨9, 0, 0, 0⟩ :=
  (C86_order single32_reward wit_default_rewards ⟨by norm_num, by norm_num, by norm_num, by norm_num⟩
    ⟨by norm_num, by norm_num, by norm_num, by rw [abs_of_pos pi_pos]; have := pi_lt_d2; linarith⟩
    ⟨by norm_num, by norm_num, by norm_num, by norm_num⟩).1 (by
      rw [wit_goal_reward _ wit_default_rewards rfl]
      have := wit_folded_reward _ wit_default_rewards
      linarith)

/-- `C86_train`: the default train with two trailers. -/
example : |Rounded.getRewardN single32 roundTrain ⟨-3, 7, 1, [-0.5, 2]⟩ - roundTrain.getReward ⟨-3, 7, 1, [-0.5, 2]⟩| ≤ 1.5e-4 :=
  (C86_train single32_reward (T := roundTrain) ⟨rfl, rfl, rfl, rfl, rfl, rfl, rfl, rfl, rfl, rfl⟩
    ⟨by norm_num [roundTrain], by norm_num [roundTrain, abs_of_pos], by norm_num [roundTrain, abs_of_pos]⟩
    ⟨by norm_num [roundTrain, abs_of_pos], by norm_num [roundTrain], by norm_num [roundTrain], by norm_num [roundTrain]⟩
    ⟨by norm_num [abs_of_pos], by norm_num [abs_of_pos], by norm_num, by norm_num [abs_of_pos]⟩).1

example : |Rounded.getRewardB single32 Wit.params ⟨9, 0, 0⟩ ⟨-3, 7, 1⟩ - Bicycle.getReward Wit.params ⟨9, 0, 0⟩ ⟨-3, 7, 1⟩| ≤ 1e-3 :=
  C86_stage_bicycle single32_reward wit_default_rewards ⟨by norm_num, by norm_num, by norm_num⟩ ⟨by norm_num, by norm_num, by norm_num⟩

end Mbd
