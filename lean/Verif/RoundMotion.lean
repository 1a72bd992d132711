import Verif.PropsRounded

/-!
# C76 for the default vehicle: numbers, and the motion with rounding errors
-/

namespace Spec

open Real Mbd

/-- Single precision: relative error `2⁻²⁴`, matrix products accumulated in single precision, trigonometric functions
up to about eight units in the last place for arguments up to 100. -/
def Float32 (A : Arith) : Prop := Accurate A 6e-8 1.8e-7 5e-7 1e-30 100

/-- Obstacles of ordinary size: discs with radii from `r₀` to 5 m, rectangles with sides from 4 cm to 100 m, up to 50 m from
the origin. -/
structure Ordinary (r₀ : ℝ) (cs : List Circle) (rs : List Rect) : Prop where
  circles : ∀ c ∈ cs, r₀ ≤ c.r ∧ c.r ≤ 5
  rects : ∀ o ∈ rs, |o.x| ≤ 50 ∧ |o.y| ≤ 50 ∧ |o.ang| ≤ 100 ∧ 0.04 ≤ o.w ∧ o.w ≤ 100 ∧ 0.04 ≤ o.h ∧ o.h ≤ 100

/-- Positions up to 50 m from the origin, headings up to 49 rad. -/
def OnSite (q : Q4) : Prop := InField4 50 49 q

end Spec

namespace Mbd

open Real Classical _root_.Spec

theorem default_roundOK {r₀ : ℝ} (hr : 0.01 ≤ r₀) {cs : List Circle} {rs : List Rect} (h : Ordinary r₀ cs rs) :
    RoundOK 6e-8 1.8e-7 5e-7 1e-30 100 50 1 3.81 50 5 0.002 0.01 (Params.default cs rs) where
  fineL := ⟨by norm_num, by norm_num, by norm_num, by norm_num, by norm_num, by norm_num, by unfold cornerErr; norm_num⟩
  fineW := ⟨by norm_num, by norm_num, by norm_num, by norm_num, by norm_num, by norm_num, by unfold cornerErr; norm_num⟩
  le := by norm_num
  u1 := by norm_num
  e1 := by norm_num
  lengths := by
    constructor <;> simp only [Params.default] <;> rw [abs_le] <;> constructor <;> norm_num
  S0 := by norm_num
  S1 := by unfold cornerErr; norm_num
  S2 := by unfold cornerErr; norm_num
  half := by norm_num [Params.default]
  wide := by norm_num [Params.default]
  half2 := by norm_num [Params.default]
  wide2 := by norm_num [Params.default]
  rectTol := by unfold cornerErr; norm_num
  circTol := by unfold circleTol cornerErr; norm_num
  rects := by
    intro o ho
    obtain ⟨h1, h2, h3, h4, h5, h6, h7⟩ := h.rects o ho
    refine ⟨h1, h2, h3, ⟨by linarith, ?_⟩, by linarith, ⟨by linarith, ?_⟩, by linarith, by linarith, by linarith⟩ <;>
    · unfold cornerErr; norm_num; linarith
  circles := by
    intro c hc
    obtain ⟨h1, h2⟩ := h.circles c hc
    refine ⟨by norm_num, by linarith, h2, ?_⟩
    have : (0.01 : ℝ) ^ 2 ≤ c.r ^ 2 := pow_le_pow_left₀ (by norm_num) (by linarith) 2
    linarith

namespace Rounded

variable {A : Arith}

/-! ### The rounded Euler step -/

theorem const32 (acc : Spec.Float32 A) {a : ℝ} (ha : |a| ≤ 5) : |A.const a - a| ≤ 4e-7 := by
  have := acc.const a
  linarith

theorem mul32 (acc : Spec.Float32 A) {a a' b b' α β M N : ℝ} (ha : |a' - a| ≤ α) (hb : |b' - b| ≤ β) (hM : |a| ≤ M)
    (hN : |b| ≤ N) (a1 : α ≤ 1) (b1 : β ≤ 1) :
    |A.mul a' b' - a * b| ≤ (M + 1) * β + α * N + 6e-8 * ((M + 1) * (N + 1)) + 1e-30 := by
  have h := acc.mul a' b'
  have hM' : |a'| ≤ M + 1 := (abs_le_of_err ha hM).trans (by linarith)
  have hN' : |b'| ≤ N + 1 := (abs_le_of_err hb hN).trans (by linarith)
  have p := prod_err ha hb hM' hN
  have q : |a' * b'| ≤ (M + 1) * (N + 1) := by
    rw [abs_mul]; exact mul_le_mul hM' hN' (abs_nonneg _) ((abs_nonneg _).trans hM')
  have t := abs_add_le (A.mul a' b' - a' * b') (a' * b' - a * b)
  rw [sub_add_sub_cancel] at t
  linarith

theorem mulAdd32 (acc : Spec.Float32 A) {a a' b b' c c' α β γ M N K : ℝ} (ha : |a' - a| ≤ α) (hb : |b' - b| ≤ β)
    (hc : |c' - c| ≤ γ) (hM : |a| ≤ M) (hN : |b| ≤ N) (hK : |c| ≤ K) (a1 : α ≤ 1) (b1 : β ≤ 1) (c1 : γ ≤ 1) :
    |A.mulAdd a' b' c' - (a * b + c)| ≤ (M + 1) * β + α * N + γ + 1.8e-7 * ((M + 1) * (N + 1) + (K + 1)) + 1e-30 := by
  have h := acc.mulAdd a' b' c'
  have hM' : |a'| ≤ M + 1 := (abs_le_of_err ha hM).trans (by linarith)
  have hN' : |b'| ≤ N + 1 := (abs_le_of_err hb hN).trans (by linarith)
  have hK' : |c'| ≤ K + 1 := (abs_le_of_err hc hK).trans (by linarith)
  have p := prod_err ha hb hM' hN
  have q : |a' * b'| ≤ (M + 1) * (N + 1) := by
    rw [abs_mul]; exact mul_le_mul hM' hN' (abs_nonneg _) ((abs_nonneg _).trans hM')
  have q2 := abs_add_le (a' * b') c'
  have k0 := abs_nonneg c'
  have t := abs_add_le (A.mulAdd a' b' c' - (a' * b' + c')) ((a' * b' - a * b) + (c' - c))
  have t2 := abs_add_le (a' * b' - a * b) (c' - c)
  rw [show A.mulAdd a' b' c' - (a' * b' + c') + ((a' * b' - a * b) + (c' - c)) = A.mulAdd a' b' c' - (a * b + c) by ring] at t
  linarith

theorem div32 (acc : Spec.Float32 A) {v v' c c' : ℝ} (hv : |v' - v| ≤ 2e-6) (hc : |c' - c| ≤ 4e-7) (hM : |v| ≤ 3)
    (c1 : 2 ≤ c) : |A.div v' c' - v / c| ≤ 2e-6 := by
  obtain ⟨h1, h2⟩ := abs_le.mp hc
  have cp : 0 < c' := by linarith
  have h := acc.div v' c' cp.ne'
  have hv' : |v'| ≤ 3.1 := (abs_le_of_err hv hM).trans (by norm_num)
  have q1 : |v' / c'| ≤ 1.6 := by
    rw [abs_div, abs_of_pos cp, div_le_iff₀ cp]
    linarith
  have q2 : |v' / c' - v / c| ≤ 1.7e-6 := by
    rw [div_sub_div _ _ cp.ne' (by linarith : c ≠ 0), abs_div, abs_of_pos (mul_pos cp (by linarith)),
      div_le_iff₀ (mul_pos cp (by linarith))]
    have e : v' * c - c' * v = (v' - v) * c + v * (c - c') := by ring
    rw [e]
    refine (abs_add_le _ _).trans ?_
    rw [abs_mul, abs_mul, abs_of_pos (show 0 < c by linarith), abs_sub_comm c c']
    have p1 := mul_le_mul_of_nonneg_right hv (show 0 ≤ c by linarith)
    have p2 := mul_le_mul hM hc (abs_nonneg _) (by norm_num)
    have p3 : 1.9999 * c ≤ c' * c := mul_le_mul_of_nonneg_right (by linarith) (by linarith)
    linarith
  have t := abs_add_le (A.div v' c' - v' / c') (v' / c' - v / c)
  rw [sub_add_sub_cancel] at t
  linarith

theorem cos_half {x : ℝ} (h : |x| ≤ 1) : 1 / 2 ≤ cos x := by
  have := one_sub_sq_div_two_le_cos (x := x)
  have h2 : x ^ 2 ≤ 1 := by rw [← sq_abs]; exact pow_le_one₀ (abs_nonneg _) h
  linarith

theorem tan_err {x y : ℝ} (hx : |x| ≤ 1) (hy : |y| ≤ 1) : |tan x - tan y| ≤ 4 * |x - y| := by
  have cx := cos_half hx
  have cy := cos_half hy
  have cx0 : cos x ≠ 0 := by linarith
  have cy0 : cos y ≠ 0 := by linarith
  have e : tan x - tan y = sin (x - y) / (cos x * cos y) := by
    rw [tan_eq_sin_div_cos, tan_eq_sin_div_cos, sin_sub, div_sub_div _ _ cx0 cy0]
  have cxy : 1 / 4 ≤ cos x * cos y := by
    have := mul_le_mul cx cy (by norm_num) (by linarith)
    linarith
  rw [e, abs_div, abs_of_pos (by linarith : 0 < cos x * cos y), div_le_iff₀ (by linarith)]
  have h1 := abs_sin_le_abs (x := x - y)
  have h2 := mul_le_mul_of_nonneg_left cxy (abs_nonneg (x - y))
  linarith

theorem deg55 : (0.95 : ℝ) < 55 * π / 180 ∧ 55 * π / 180 < 0.97 := by
  have p1 := pi_gt_d2
  have p2 := pi_lt_d2
  constructor <;> linarith

/-- Speed and steering angle. -/
theorem scaler32 (acc : Spec.Float32 A) (cs : List Circle) (rs : List Rect) {u : U} (hu : Spec.InBox u) :
    |(inputScaler A (Params.default cs rs) u).1 - u.1 * 3| ≤ 2e-6 ∧
    |A.tan (inputScaler A (Params.default cs rs) u).2 - tan (u.2 * (55 * π / 180))| ≤ 6e-6 ∧
    |tan (u.2 * (55 * π / 180))| ≤ 1.8 := by
  obtain ⟨d1, d2⟩ := deg55
  have z : ∀ x : ℝ, |x - x| ≤ 0 := fun x => by simp
  have c3 : |A.const 3 - 3| ≤ 4e-7 := const32 acc (by norm_num)
  have cd : |A.const (55 * π / 180) - 55 * π / 180| ≤ 4e-7 := const32 acc (by rw [abs_of_pos] <;> linarith)
  have e1 := mul32 acc (z u.1) c3 hu.1 (show |(3 : ℝ)| ≤ 3 by norm_num) (by norm_num) (by norm_num)
  have e2 := mul32 acc (z u.2) cd hu.2 (show |55 * π / 180| ≤ 1 by rw [abs_of_pos] <;> linarith) (by norm_num) (by norm_num)
  have s1 : (inputScaler A (Params.default cs rs) u).1 = A.mul u.1 (A.const 3) := rfl
  have s2 : (inputScaler A (Params.default cs rs) u).2 = A.mul u.2 (A.const (55 * π / 180)) := rfl
  rw [s1, s2]
  generalize A.mul u.1 (A.const 3) = v at *
  generalize A.mul u.2 (A.const (55 * π / 180)) = δ at *
  generalize 55 * π / 180 = Δ at *
  have b : |u.2 * Δ| ≤ 0.97 := by
    rw [abs_mul, abs_of_pos (show 0 < Δ by linarith)]
    have := mul_le_mul hu.2 d2.le (by linarith) (by norm_num)
    linarith
  have b' : |δ| ≤ 1 := (abs_le_of_err e2 b).trans (by norm_num)
  refine ⟨e1.trans (by norm_num), ?_, ?_⟩
  · have t1 := acc.tan δ b'
    have t2 := tan_err b' (show |u.2 * Δ| ≤ 1 by linarith)
    have t := abs_add_le (A.tan δ - tan δ) (tan δ - tan (u.2 * Δ))
    rw [sub_add_sub_cancel] at t
    norm_num at e2
    linarith
  · have h1 : |tan (u.2 * Δ)| ≤ √3 := by
      rw [abs_le]
      have hp := pi_gt_d2
      have hb := abs_le.mp b
      rw [← tan_pi_div_three, ← tan_neg]
      constructor
      · exact (tan_lt_tan_of_lt_of_lt_pi_div_two (by linarith) (by linarith) (by linarith)).le
      · exact (tan_lt_tan_of_lt_of_lt_pi_div_two (by linarith) (by linarith) (by linarith)).le
    refine h1.trans ?_
    rw [sqrt_le_left (by norm_num)]; norm_num

theorem last32 (acc : Spec.Float32 A) {k k' x : ℝ} (hk : |k' - k| ≤ 9e-5) (hK : |k| ≤ 5) (hx : |x| ≤ 50) :
    |A.mulAdd (A.const 0.2) k' x - (x + 0.2 * k)| ≤ 2e-4 := by
  have h := mulAdd32 acc (const32 acc (show |(0.2 : ℝ)| ≤ 5 by norm_num)) hk (show |x - x| ≤ 0 by simp)
    (show |(0.2 : ℝ)| ≤ 0.2 by norm_num) hK hx (by norm_num) (by norm_num) (by norm_num)
  rw [add_comm x]
  exact h.trans (by norm_num)

/-- Sine and cosine of the hitch angle. -/
theorem hitch32 (acc : Spec.Float32 A) {a b : ℝ} (ha : |a| ≤ 49) (hb : |b| ≤ 49) :
    |A.cos (A.sub a b) - cos (a - b)| ≤ 6.4e-6 ∧ |A.sin (A.sub a b) - sin (a - b)| ≤ 6.4e-6 := by
  have hab : |a - b| ≤ 98 := (abs_sub a b).trans (by linarith)
  have h := acc.sub a b
  have h' : |A.sub a b - (a - b)| ≤ 5.885e-6 := by linarith
  have hd : |A.sub a b| ≤ 100 := (abs_le_of_err h' hab).trans (by norm_num)
  generalize A.sub a b = d at *
  have c1 := acc.cos d hd
  have s1 := acc.sin d hd
  have c2 := abs_cos_sub_cos_le d (a - b)
  have s2 := abs_sin_sub_sin_le d (a - b)
  have t1 := abs_add_le (A.cos d - cos d) (cos d - cos (a - b))
  have t2 := abs_add_le (A.sin d - sin d) (sin d - sin (a - b))
  rw [sub_add_sub_cancel] at t1 t2
  constructor <;> linarith

/-- The rounded Euler step of the default vehicle is within 0.2 mm (and 0.2 mrad) of the
exact one. -/
theorem euler_close (acc : Spec.Float32 A) (cs : List Circle) (rs : List Rect) {q : Q4} (hq : OnSite q) {u : U}
    (hu : Spec.InBox u) : ∃ q', Spec.EulerTT (Params.default cs rs) q u q' ∧
      |(euler A (Params.default cs rs) q (inputScaler A (Params.default cs rs) u)).px - q'.px| ≤ 2e-4 ∧
      |(euler A (Params.default cs rs) q (inputScaler A (Params.default cs rs) u)).py - q'.py| ≤ 2e-4 ∧
      |(euler A (Params.default cs rs) q (inputScaler A (Params.default cs rs) u)).th1 - q'.th1| ≤ 2e-4 ∧
      |(euler A (Params.default cs rs) q (inputScaler A (Params.default cs rs) u)).th2 - q'.th2| ≤ 2e-4 := by
  obtain ⟨h1, h2, h3⟩ := scaler32 acc cs rs hu
  have z : ∀ x : ℝ, |x - x| ≤ 0 := fun x => by simp
  refine ⟨⟨q.px + 0.2 * (u.1 * 3 * cos q.th1), q.py + 0.2 * (u.1 * 3 * sin q.th1),
    q.th1 + 0.2 * (u.1 * 3 / 3.23 * tan (u.2 * (55 * π / 180))),
    q.th2 + 0.2 * (u.1 * 3 / 2.9 * (sin (q.th1 - q.th2) - 1.15 / 3.23 * cos (q.th1 - q.th2) * tan (u.2 * (55 * π / 180))))⟩,
    ⟨rfl, rfl, rfl, rfl⟩, ?_⟩
  have v3 : |u.1 * 3| ≤ 3 := by
    rw [abs_mul, abs_of_pos (by norm_num : (0 : ℝ) < 3)]; have := hu.1; linarith
  have cl1 : |A.const 3.23 - 3.23| ≤ 4e-7 := const32 acc (by norm_num)
  have cl2 : |A.const 2.9 - 2.9| ≤ 4e-7 := const32 acc (by norm_num)
  have clh : |A.const (1.15 / 3.23) - 1.15 / 3.23| ≤ 4e-7 := const32 acc (by norm_num)
  have cx := acc.cos q.th1 (hq.th1.trans (by norm_num))
  have sx := acc.sin q.th1 (hq.th1.trans (by norm_num))
  obtain ⟨dc, ds⟩ := hitch32 acc hq.th1 hq.th2
  unfold euler dynamics
  simp only
  have g0 : (Params.default cs rs).dt = 0.2 := rfl
  have g1 : (Params.default cs rs).l1 = 3.23 := rfl
  have g2 : (Params.default cs rs).l2 = 2.9 := rfl
  have g3 : (Params.default cs rs).lh = 1.15 := rfl
  rw [g0, g1, g2, g3]
  generalize (inputScaler A (Params.default cs rs) u).1 = v at *
  generalize A.tan (inputScaler A (Params.default cs rs) u).2 = t' at *
  generalize tan (u.2 * (55 * π / 180)) = t at *
  have cb := abs_cos_le_one q.th1
  have sb := abs_sin_le_one q.th1
  have cb2 := abs_cos_le_one (q.th1 - q.th2)
  have sb2 := abs_sin_le_one (q.th1 - q.th2)
  have w1 := div32 acc h1 cl1 v3 (by norm_num)
  have w2 := div32 acc h1 cl2 v3 (by norm_num)
  have w1b : |u.1 * 3 / 3.23| ≤ 1.5 := by
    rw [abs_div, abs_of_pos (by norm_num : (0 : ℝ) < 3.23), div_le_iff₀ (by norm_num)]; linarith
  have w2b : |u.1 * 3 / 2.9| ≤ 1.5 := by
    rw [abs_div, abs_of_pos (by norm_num : (0 : ℝ) < 2.9), div_le_iff₀ (by norm_num)]; linarith
  have k1 := (mul32 acc h1 cx v3 cb (by norm_num) (by norm_num))
  have k2 := (mul32 acc h1 sx v3 sb (by norm_num) (by norm_num))
  have k3 := (mul32 acc w1 h2 w1b h3 (by norm_num) (by norm_num))
  have i1 := mul32 acc clh dc (show |(1.15 / 3.23 : ℝ)| ≤ 0.36 by norm_num) cb2 (by norm_num) (by norm_num)
  have i1b : |1.15 / 3.23 * cos (q.th1 - q.th2)| ≤ 0.36 := by
    rw [abs_mul, abs_of_pos (by norm_num : (0 : ℝ) < 1.15 / 3.23)]
    linarith
  generalize A.mul (A.const (1.15 / 3.23)) (A.cos (A.sub q.th1 q.th2)) = c' at *
  generalize 1.15 / 3.23 * cos (q.th1 - q.th2) = c at *
  have i1' : |-c' - -c| ≤ 9.6e-6 := by
    rw [show -c' - -c = -(c' - c) by ring, abs_neg]
    exact i1.trans (by norm_num)
  have i2 := mulAdd32 acc i1' h2 ds (show |-c| ≤ 0.36 by rw [abs_neg]; exact i1b) h3 sb2 (by norm_num) (by norm_num)
    (by norm_num)
  have i2b : |-c * t + sin (q.th1 - q.th2)| ≤ 1.7 := by
    refine (abs_add_le _ _).trans ?_
    rw [abs_mul, abs_neg]
    have := mul_le_mul i1b h3 (abs_nonneg _) (by norm_num)
    linarith
  generalize A.mulAdd (-c') t' (A.sin (A.sub q.th1 q.th2)) = s' at *
  have i2' : |s' - (-c * t + sin (q.th1 - q.th2))| ≤ 3.4e-5 := i2.trans (by norm_num)
  have k4 := (mul32 acc w2 i2' w2b i2b (by norm_num) (by norm_num))
  have m1 : |u.1 * 3 * cos q.th1| ≤ 5 := by
    rw [abs_mul]; have := mul_le_mul v3 cb (abs_nonneg _) (by norm_num); linarith
  have m2 : |u.1 * 3 * sin q.th1| ≤ 5 := by
    rw [abs_mul]; have := mul_le_mul v3 sb (abs_nonneg _) (by norm_num); linarith
  have m3 : |u.1 * 3 / 3.23 * t| ≤ 5 := by
    rw [abs_mul]; have := mul_le_mul w1b h3 (abs_nonneg _) (by norm_num); linarith
  have m4 : |u.1 * 3 / 2.9 * (-c * t + sin (q.th1 - q.th2))| ≤ 5 := by
    rw [abs_mul]; have := mul_le_mul w2b i2b (abs_nonneg _) (by norm_num); linarith
  refine ⟨last32 acc (k1.trans (by norm_num)) m1 hq.px, last32 acc (k2.trans (by norm_num)) m2 hq.py,
    last32 acc (k3.trans (by norm_num)) m3 (hq.th1.trans (by norm_num)), ?_⟩
  rw [show sin (q.th1 - q.th2) - c * t = -c * t + sin (q.th1 - q.th2) by ring]
  exact last32 acc (k4.trans (by norm_num)) m4 (hq.th2.trans (by norm_num))

/-! ### Displacement of the bodies -/

theorem default_shifts (cs : List Circle) (rs : List Rect) {ρ : ℝ} (h : 0.99 ≤ ρ) :
    Spec.tractorShift (Params.default cs rs) ρ ≤ 1.65 ∧ Spec.trailerShift (Params.default cs rs) ρ ≤ 1.5 := by
  have h3 : √3 ≤ 1.7321 := by
    rw [sqrt_le_left (by norm_num)]; norm_num
  have ht := tan_55_le.trans h3
  have ht0 : 0 ≤ tan (55 * π / 180) := by
    have hp := pi_pos
    exact tan_nonneg_of_nonneg_of_le_pi_div_two (by positivity) (by linarith)
  unfold Spec.trailerShift Spec.tractorShift
  simp only [Params.default]
  set t := tan (55 * π / 180) with htd
  set κ := √(1 + (1.15 * t / 3.23) ^ 2) with hκ
  have k1 : κ ≤ 1.176 := by
    rw [hκ, sqrt_le_left (by norm_num)]
    have : 1.15 * t / 3.23 ≤ 0.617 := by
      rw [div_le_iff₀ (by norm_num)]; linarith
    have h0 : 0 ≤ 1.15 * t / 3.23 := by positivity
    nlinarith
  have k0 : 0 ≤ κ := sqrt_nonneg _
  have e1 : 3 * 0.2 * t / 3.23 ≤ 0.3218 := by
    rw [div_le_iff₀ (by norm_num)]; linarith
  have e10 : 0 ≤ 3 * 0.2 * t / 3.23 := by positivity
  have e2 : 3 * 0.2 * κ / 2.9 ≤ 0.2434 := by
    rw [div_le_iff₀ (by norm_num)]; linarith
  have e20 : 0 ≤ 3 * 0.2 * κ / 2.9 := by positivity
  have c1 := cube_mono e10 e1
  have c2 := cube_mono e20 e2
  have m : max (3.225 : ℝ) 1.42 = 3.225 := max_eq_left (by norm_num)
  have m' : max (1.848 : ℝ) (3.23 + 0.9) = 4.13 := by rw [max_eq_right (by norm_num)]; norm_num
  rw [m, m']
  have m1 : (3.225 + 2.5 / 2 - 2 * ρ) * (3 * 0.2 * κ / 2.9) ≤ 2.495 * 0.2434 := by
    calc (3.225 + 2.5 / 2 - 2 * ρ) * (3 * 0.2 * κ / 2.9)
        ≤ 2.495 * (3 * 0.2 * κ / 2.9) := mul_le_mul_of_nonneg_right (by linarith) e20
      _ ≤ 2.495 * 0.2434 := by linarith
  have m2 : (4.13 + 2 / 2 - 2 * ρ) * (3 * 0.2 * t / 3.23) ≤ 3.15 * 0.3218 := by
    calc (4.13 + 2 / 2 - 2 * ρ) * (3 * 0.2 * t / 3.23)
        ≤ 3.15 * (3 * 0.2 * t / 3.23) := mul_le_mul_of_nonneg_right (by linarith) e10
      _ ≤ 3.15 * 0.3218 := by linarith
  have c3 : (1.15 : ℝ) * ((3 * 0.2 * t / 3.23) ^ 2 / 2 + (3 * 0.2 * t / 3.23) ^ 3 / 6)
      ≤ 1.15 * (0.3218 ^ 2 / 2 + 0.3218 ^ 3 / 6) := by linarith
  have c4 : (2.9 : ℝ) * ((3 * 0.2 * κ / 2.9) ^ 2 / 2 + (3 * 0.2 * κ / 2.9) ^ 3 / 6)
      ≤ 2.9 * (0.2434 ^ 2 / 2 + 0.2434 ^ 3 / 6) := by linarith
  constructor
  · have : (0.6 : ℝ) + 3.15 * 0.3218 ≤ 1.65 := by norm_num
    linarith
  · have : (1.15 : ℝ) * (0.3218 ^ 2 / 2 + 0.3218 ^ 3 / 6) + 2.9 * (0.2434 ^ 2 / 2 + 0.2434 ^ 3 / 6)
        + 2.495 * 0.2434 + 0.6 * 1.176 ≤ 1.5 := by norm_num
    linarith

theorem dist_triangle' (a b c : Pt) : Spec.dist a c ≤ Spec.dist a b + Spec.dist b c := by
  rw [dist_eq, dist_eq, dist_eq, show toC a - toC c = (toC a - toC b) + (toC b - toC c) by ring]
  exact norm_add_le _ _

theorem dist_le_abs (a b : Pt) : Spec.dist a b ≤ |a.1 - b.1| + |a.2 - b.2| := by
  unfold Spec.dist
  rw [sqrt_le_left (by positivity)]
  have h1 := sq_abs (a.1 - b.1)
  have h2 := sq_abs (a.2 - b.2)
  have h3 := mul_nonneg (abs_nonneg (a.1 - b.1)) (abs_nonneg (a.2 - b.2))
  rw [add_sq]
  linarith

/-- Two close states of the default vehicle: the bodies are close. -/
theorem near_tractor {q q' : Q4} (hx : |q.px - q'.px| ≤ 2e-4) (hy : |q.py - q'.py| ≤ 2e-4) (h1 : |q.th1 - q'.th1| ≤ 2e-4)
    {s t : ℝ} (hs : |s| ≤ 5) (ht : |t| ≤ 5) :
    Spec.dist (Spec.frame (q.px, q.py) q.th1 s t) (Spec.frame (q'.px, q'.py) q'.th1 s t) ≤ 0.01 := by
  refine (frame_shift _ _ _ _ _ _).trans ?_
  have d := dist_le_abs (q.px, q.py) (q'.px, q'.py)
  simp only at d
  have m := mul_le_mul (add_le_add hs ht) h1 (abs_nonneg _) (by norm_num)
  linarith

theorem near_trailer (cs : List Circle) (rs : List Rect) {q q' : Q4} (hx : |q.px - q'.px| ≤ 2e-4)
    (hy : |q.py - q'.py| ≤ 2e-4) (h1 : |q.th1 - q'.th1| ≤ 2e-4) (h2 : |q.th2 - q'.th2| ≤ 2e-4)
    {s t : ℝ} (hs : |s| ≤ 5) (ht : |t| ≤ 5) :
    Spec.dist (Spec.frame (Spec.trailerAxle (Params.default cs rs) q) q.th2 s t)
      (Spec.frame (Spec.trailerAxle (Params.default cs rs) q') q'.th2 s t) ≤ 0.01 := by
  refine (frame_shift _ _ _ _ _ _).trans ?_
  have d := dist_le_abs (q.px, q.py) (q'.px, q'.py)
  simp only at d
  have e : Spec.dist (Spec.trailerAxle (Params.default cs rs) q) (Spec.trailerAxle (Params.default cs rs) q')
      ≤ Spec.dist (q.px, q.py) (q'.px, q'.py) + (|-(1.15 : ℝ)| + |(0 : ℝ)|) * |q.th1 - q'.th1|
        + (|-(2.9 : ℝ)| + |(0 : ℝ)|) * |q.th2 - q'.th2| := by
    unfold Spec.trailerAxle
    refine (frame_shift _ _ _ _ _ _).trans ?_
    exact add_le_add (frame_shift _ _ _ _ _ _) le_rfl
  rw [abs_neg, abs_neg, abs_zero, abs_of_pos (by norm_num : (0 : ℝ) < 1.15), abs_of_pos (by norm_num : (0 : ℝ) < 2.9)] at e
  have m := mul_le_mul (add_le_add hs ht) h2 (abs_nonneg _) (by norm_num)
  linarith

theorem apart_of_noDeeper {b : Set Pt} {c : Pt} {r t : ℝ} (tr : t ≤ r) (h : NoDeeper t b (Spec.disc c r)) :
    Spec.Apart b (Spec.disc c (r - t)) := by
  intro p hp hd
  obtain ⟨z, h1, h2⟩ := h p hp
  apply h2
  have d1 : Spec.dist p c ≤ r - t := by
    unfold Spec.dist
    rw [sqrt_le_left (by linarith)]
    exact hd
  have d2 := dist_triangle' z p c
  rw [dist_comm' z p] at d2
  have d3 : Spec.dist z c ≤ r := by linarith
  unfold Spec.dist at d3
  rwa [sqrt_le_left (by have := (sqrt_nonneg ((z.1 - c.1) ^ 2 + (z.2 - c.2) ^ 2)); linarith)] at d3

theorem clipU_inBox (a : U) : Spec.InBox (clipU a) :=
  ⟨abs_le.mpr ⟨le_clip (by norm_num), clip_le _ _ _⟩, abs_le.mpr ⟨le_clip (by norm_num), clip_le _ _ _⟩⟩

/-- A rounded step keeps the state or goes to the rounded Euler successor, which has passed the rounded check. -/
theorem step_cases {P : Params} (hs : P.shieldCollision = true) (q : Q4) (a : U) :
    step A P q a = q ∨ (step A P q a = euler A P q (inputScaler A P (clipU a)) ∧ ¬ checkObstacle A P (step A P q a)) := by
  unfold step kinShieldedRollout
  simp only [hs]
  split_ifs <;> simp_all

/-- One rounded step of the default vehicle. -/
theorem step_grazes (acc : Spec.Float32 A) {cs : List Circle} {rs : List Rect} (ord : Ordinary 1 cs rs) {q : Q4} (hq : OnSite q)
    (a : U) (hq' : OnSite (step A (Params.default cs rs) q a)) (h : GrazesTT 0.002 0.01 (Params.default cs rs) q) :
    GrazesTT 0.002 0.01 (Params.default cs rs) (step A (Params.default cs rs) q a) := by
  have ok := default_roundOK (by norm_num) ord
  rcases step_cases (A := A) (P := Params.default cs rs) rfl q a with e | ⟨e, hc⟩
  · rw [e]; exact h
  · have hf : InField4 50 100 (step A (Params.default cs rs) q a) :=
      ⟨hq'.px, hq'.py, hq'.th1.trans (by norm_num), hq'.th2.trans (by norm_num)⟩
    obtain ⟨g1, g2⟩ := C76_check_tt2d acc ok hf hc
    obtain ⟨q1, he, n1, n2, n3, n4⟩ := euler_close acc cs rs hq (clipU_inBox a)
    rw [← e] at n1 n2 n3 n4
    generalize step A (Params.default cs rs) q a = q' at *
    refine ⟨fun c hcm => ?_, fun o ho => ⟨g1.2 o ho, g2.2 o ho⟩⟩
    have hr := (ord.circles c hcm).1
    obtain ⟨s1, s2⟩ := default_shifts cs rs (show 0.99 ≤ c.r - 0.01 by linarith)
    obtain ⟨p1, p2⟩ := h.1 c hcm
    constructor
    · rcases g1.1 c hcm with hh | hh
      · exact hh
      · exfalso
        have ap := apart_of_noDeeper (by linarith) p1
        obtain ⟨x, y, h1, h2, h3, h4⟩ := body_tunnel (o := ⟨c.x, c.y, c.r - 0.01⟩) (by simp only; linarith) ap hh
        simp only [Params.default] at h1 h2 h3
        have ay := abs_nonneg y
        have d1 := near_tractor n1 n2 n3 (s := x) (t := y) (abs_le.mpr ⟨by linarith, by linarith⟩) (by linarith)
        have d2 := tractor_point_shift (default_driveOK cs rs) (clipU_inBox a) (px := q.px) (py := q.py) (th := q.th1)
          (r := c.r - 0.01) (s := x) (t := y) h1 h2 h3
        obtain ⟨e1, e2, e3, -⟩ := he
        rw [← e1, ← e2, ← e3] at d2
        have d3 := dist_triangle' (Spec.frame (q'.px, q'.py) q'.th1 x y) (Spec.frame (q1.px, q1.py) q1.th1 x y)
          (Spec.frame (q.px, q.py) q.th1 x y)
        simp only at h4
        linarith
    · rcases g2.1 c hcm with hh | hh
      · exact hh
      · exfalso
        have ap := apart_of_noDeeper (by linarith) p2
        obtain ⟨x, y, h1, h2, h3, h4⟩ := body_tunnel (o := ⟨c.x, c.y, c.r - 0.01⟩) (by simp only; linarith) ap hh
        have h1' : -3.225 + (c.r - 0.01) ≤ x := h1
        have h2' : x ≤ 1.42 - (c.r - 0.01) := h2
        have h3' : |y| + (c.r - 0.01) ≤ 2.5 / 2 := h3
        have ay := abs_nonneg y
        have d1 := near_trailer cs rs n1 n2 n3 n4 (s := x) (t := y) (abs_le.mpr ⟨by linarith, by linarith⟩) (by linarith)
        have d2 := trailer_point_shift (default_driveOK cs rs) (clipU_inBox a) he (r := c.r - 0.01) (s := x) (t := y) h1 h2 h3
        have d3 := dist_triangle' (Spec.frame (Spec.trailerAxle (Params.default cs rs) q') q'.th2 x y)
          (Spec.frame (Spec.trailerAxle (Params.default cs rs) q1) q1.th2 x y)
          (Spec.frame (Spec.trailerAxle (Params.default cs rs) q) q.th2 x y)
        simp only at h4
        linarith

end Rounded

/-- Bodies clear of the obstacles do not reach into them. -/
theorem safe_grazes {P : Params} {q : Q4} {tr tc : ℝ} (h1 : 0 ≤ tr) (h2 : 0 ≤ tc) (h : Spec.SafeTT P q) : GrazesTT tr tc P q := by
  have key : ∀ {t : ℝ} {b o : Set Pt}, 0 ≤ t → Spec.Apart b o → NoDeeper t b o := by
    intro t b o ht hbo p hp
    refine ⟨p, ?_, fun hh => hbo p hp hh⟩
    unfold Spec.dist; simpa using ht
  exact ⟨fun c hc => ⟨key h2 (h.1 c hc).1, key h2 (h.1 c hc).2⟩, fun o ho => ⟨key h1 (h.2 o ho).1, key h1 (h.2 o ho).2⟩⟩

/-- C76, the default vehicle in single precision: with the collision shield on (the default), from a geometrically safe
start and as long as the vehicle stays on the site, no recorded state has a body more than 2 mm inside a rectangle or
more than 1 cm inside a disc, for any actions and any number of steps. Discs have radius 1 m or more, the radius of the
default obstacles (thinner ones can be driven over even without rounding errors, `C03_tunnel_refuted`). -/
theorem C76_run_default {A : Arith} (acc : Spec.Float32 A) {cs : List Circle} {rs : List Rect} (ord : Ordinary 1 cs rs)
    (q : Q4) (h0 : Spec.SafeTT (Params.default cs rs) q) (hq : OnSite q) (us : List U)
    (hus : ∀ q' ∈ Rounded.states (Rounded.step A (Params.default cs rs)) q us, OnSite q') :
    ∀ q' ∈ Rounded.states (Rounded.step A (Params.default cs rs)) q us, GrazesTT 0.002 0.01 (Params.default cs rs) q' := by
  have key : ∀ (us : List U) (q : Q4), OnSite q → GrazesTT 0.002 0.01 (Params.default cs rs) q →
      (∀ q' ∈ Rounded.states (Rounded.step A (Params.default cs rs)) q us, OnSite q') →
      ∀ q' ∈ Rounded.states (Rounded.step A (Params.default cs rs)) q us, GrazesTT 0.002 0.01 (Params.default cs rs) q' := by
    intro us
    induction us with
    | nil => intro q _ _ _ q' hq'; simp [Rounded.states] at hq'
    | cons a us ih =>
      intro q hq hg hall q' hq'
      rw [Rounded.states] at hall hq'
      have hon := hall _ (List.mem_cons_self ..)
      have hstep := Rounded.step_grazes acc ord hq a hon hg
      rcases List.mem_cons.1 hq' with rfl | hq'
      · exact hstep
      · exact ih _ hon hstep (fun z hz => hall z (List.mem_cons_of_mem _ hz)) q' hq'
  exact key us q hq (safe_grazes (by norm_num) (by norm_num) h0) hus

/-- C76, the default vehicle with padded obstacles: registered with padding `p` of 1 cm or more, the original obstacles are
never touched; the bodies keep `p` minus 1 cm away from them. -/
theorem C76_padded_default {A : Arith} (acc : Spec.Float32 A) {P : Params} (hP : P = Params.default P.circles P.rects)
    (ord : Ordinary 1 P.circles P.rects) {p : ℝ} (hp : 0.01 ≤ p) {cs : List Circle} {rs : List Rect} (pad : Padded p P cs rs)
    (hcs : ∀ c ∈ cs, 0 ≤ c.r) (q : Q4) (h0 : Spec.SafeTT P q) (hq : OnSite q) (us : List U)
    (hus : ∀ q' ∈ Rounded.states (Rounded.step A P) q us, OnSite q') :
    ∀ q' ∈ Rounded.states (Rounded.step A P) q us, Margin4 (p - 0.01) P cs rs q' := by
  intro q' hq'
  have g : GrazesTT 0.002 0.01 P q' := by
    have := C76_run_default acc ord q (by rw [← hP]; exact h0) hq us (by rw [← hP]; exact hus) q' (by rw [← hP]; exact hq')
    rwa [← hP] at this
  obtain ⟨g1, g2⟩ := g
  have mono : ∀ {x y : ℝ} {b c : Set Pt}, y ≤ x → KeepsAway x b c → KeepsAway y b c :=
    fun hxy h a ha z hz => lt_of_le_of_lt hxy (h a ha z hz)
  constructor
  · intro c hc
    obtain ⟨c', hc', rfl⟩ := forall2_mem_right (padded_circles pad) c hc
    exact ⟨Rounded.pad_circle (hcs c hc) (by linarith) (g1 _ hc').1, Rounded.pad_circle (hcs c hc) (by linarith) (g1 _ hc').2⟩
  · intro o ho
    obtain ⟨o', ho', rfl⟩ := forall2_mem_right (padded_rects pad) o ho
    exact ⟨mono (by linarith) (Rounded.pad_rect (by linarith) (g2 _ ho').1),
      mono (by linarith) (Rounded.pad_rect (by linarith) (g2 _ ho').2)⟩

end Mbd
