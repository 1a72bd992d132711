import Verif.RoundMotion

/-!
# C76: no false alarms

The rounded checks stay silent when the bodies keep a small distance from the obstacles, so the rounded shield
does not block motions that are clear.
-/

namespace Spec

open Real Mbd

/-- Distance at which the rectangle check is silent: `e` error of the corners, `s` lower bound for the half sizes, `B` bound
for the coordinates, `D` bound for the extent of the scene. -/
noncomputable def rectAlarm (u m η e s B D : ℝ) : ℝ := 1.1 * ((1.1 * e / s + 2.3 * u + 30 * η) * D + 3.2 * (m * B + e) + 2 * η)

/-- Distance at which the circle check is silent, for radii up to `r`. -/
def circleAlarm (u η e B r : ℝ) : ℝ := 1.5 * (e + 10 * u * B + 3 * η) + 7 * u * r

end Spec

namespace Mbd

open Real Classical _root_.Spec

namespace Rounded

variable {A : Arith} {u m τ η H R L : ℝ}

/-! ### The separating axis test -/

theorem projMax_up (acc : Spec.Accurate A u m τ η H) (m0 : 0 ≤ m) {B e : ℝ} {k k' : Corners}
    (hc : Close e k k') (hb : Within B k') (n : V2) :
    projMax A k' n ≤ Mbd.projMax k n + ((m * B + e) * (|n.1| + |n.2|) + η) := by
  have h0 := abs_le.mp (proj_err acc m0 hc.c0x hc.c0y hb.c0x hb.c0y n)
  have h1 := abs_le.mp (proj_err acc m0 hc.c1x hc.c1y hb.c1x hb.c1y n)
  have h2 := abs_le.mp (proj_err acc m0 hc.c2x hc.c2y hb.c2x hb.c2y n)
  have h3 := abs_le.mp (proj_err acc m0 hc.c3x hc.c3y hb.c3x hb.c3y n)
  unfold Mbd.projMax projMax
  generalize (m * B + e) * (|n.1| + |n.2|) + η = E at *
  have a0 := le_max_left (dot k.c0 n) (dot k.c1 n)
  have a1 := le_max_right (dot k.c0 n) (dot k.c1 n)
  have a2 := le_max_left (dot k.c2 n) (dot k.c3 n)
  have a3 := le_max_right (dot k.c2 n) (dot k.c3 n)
  have b0 := le_max_left (max (dot k.c0 n) (dot k.c1 n)) (max (dot k.c2 n) (dot k.c3 n))
  have b1 := le_max_right (max (dot k.c0 n) (dot k.c1 n)) (max (dot k.c2 n) (dot k.c3 n))
  refine max_le (max_le ?_ ?_) (max_le ?_ ?_) <;> linarith

theorem projMin_low (acc : Spec.Accurate A u m τ η H) (m0 : 0 ≤ m) {B e : ℝ} {k k' : Corners}
    (hc : Close e k k') (hb : Within B k') (n : V2) :
    Mbd.projMin k n ≤ projMin A k' n + ((m * B + e) * (|n.1| + |n.2|) + η) := by
  have h0 := abs_le.mp (proj_err acc m0 hc.c0x hc.c0y hb.c0x hb.c0y n)
  have h1 := abs_le.mp (proj_err acc m0 hc.c1x hc.c1y hb.c1x hb.c1y n)
  have h2 := abs_le.mp (proj_err acc m0 hc.c2x hc.c2y hb.c2x hb.c2y n)
  have h3 := abs_le.mp (proj_err acc m0 hc.c3x hc.c3y hb.c3x hb.c3y n)
  unfold Mbd.projMin projMin
  generalize (m * B + e) * (|n.1| + |n.2|) + η = E at *
  rw [← sub_le_iff_le_add]
  have a0 := min_le_left (dot k.c0 n) (dot k.c1 n)
  have a1 := min_le_right (dot k.c0 n) (dot k.c1 n)
  have a2 := min_le_left (dot k.c2 n) (dot k.c3 n)
  have a3 := min_le_right (dot k.c2 n) (dot k.c3 n)
  have b0 := min_le_left (min (dot k.c0 n) (dot k.c1 n)) (min (dot k.c2 n) (dot k.c3 n))
  have b1 := min_le_right (min (dot k.c0 n) (dot k.c1 n)) (min (dot k.c2 n) (dot k.c3 n))
  refine le_min (le_min ?_ ?_) (le_min ?_ ?_) <;> linarith

/-- The computed normal of an edge is close to a multiple of the true one. -/
theorem normal_close (acc : Spec.Accurate A u m τ η H) (u0 : 0 ≤ u) (u1 : u ≤ 1 / 1000) (e0 : 0 ≤ η)
    (e1 : η ≤ 1e-9) {s e s' e' : V2} {ε ℓ : ℝ} (ε0 : 0 ≤ ε) (h1 : |s'.1 - s.1| ≤ ε) (h2 : |s'.2 - s.2| ≤ ε)
    (h3 : |e'.1 - e.1| ≤ ε) (h4 : |e'.2 - e.2| ≤ ε) (hℓ : (e.1 - s.1) ^ 2 + (e.2 - s.2) ^ 2 = ℓ ^ 2)
    (hℓ0 : 0.04 ≤ ℓ) (hε : 100 * ε ≤ ℓ) :
    ∃ α, 0.95 ≤ α ∧ α ≤ 1.06 ∧
      |(edgeNormal A s' e').1 - α * (-(e.2 - s.2) / ℓ)| ≤ 2.2 * ε / ℓ + 2.3 * u + 30 * η ∧
      |(edgeNormal A s' e').2 - α * ((e.1 - s.1) / ℓ)| ≤ 2.2 * ε / ℓ + 2.3 * u + 30 * η := by
  have ℓp : 0 < ℓ := by linarith
  have E1 : |e.1 - s.1| ≤ ℓ := abs_le_of_sq_le_sq (by linarith [sq_nonneg (e.2 - s.2)]) ℓp.le
  have E2 : |e.2 - s.2| ≤ ℓ := abs_le_of_sq_le_sq (by linarith [sq_nonneg (e.1 - s.1)]) ℓp.le
  have d1 := sub_err acc u0 h3 h1 E1
  have d2 := sub_err acc u0 h4 h2 E2
  unfold edgeNormal
  simp only
  set δ := 2.01 * ε + u * ℓ + η with hδ
  have uε : u * ε ≤ 1 / 1000 * ε := mul_le_mul_of_nonneg_right u1 ε0
  have uℓ : u * ℓ ≤ 1 / 1000 * ℓ := mul_le_mul_of_nonneg_right u1 ℓp.le
  have uℓ0 := mul_nonneg u0 ℓp.le
  have δ0 : 0 ≤ δ := by linarith
  have δ1 : δ ≤ 0.0212 * ℓ := by linarith
  have dy : |A.sub e'.1 s'.1 - (e.1 - s.1)| ≤ δ := d1.trans (by linarith)
  have dx : |-A.sub e'.2 s'.2 - -(e.2 - s.2)| ≤ δ := by
    rw [show -A.sub e'.2 s'.2 - -(e.2 - s.2) = -(A.sub e'.2 s'.2 - (e.2 - s.2)) by ring, abs_neg]
    exact d2.trans (by linarith)
  have X0 : |-(e.2 - s.2)| ≤ ℓ := by rw [abs_neg]; exact E2
  have hℓ' : (-(e.2 - s.2)) ^ 2 + (e.1 - s.1) ^ 2 = ℓ ^ 2 := by rw [← hℓ]; ring
  generalize -A.sub e'.2 s'.2 = x at *
  generalize A.sub e'.1 s'.1 = y at *
  generalize -(e.2 - s.2) = X at *
  generalize e.1 - s.1 = Y at *
  obtain ⟨q, hq⟩ : ∃ q, q = x * x + y * y := ⟨_, rfl⟩
  have hS := acc.sum2 x x y y
  rw [abs_of_nonneg (mul_self_nonneg x), abs_of_nonneg (mul_self_nonneg y), ← hq] at hS
  have ℓ2 : 0.0016 ≤ ℓ ^ 2 := by
    have := mul_le_mul hℓ0 hℓ0 (by norm_num) ℓp.le
    rw [sq]; linarith
  have hqb : |q - ℓ ^ 2| ≤ 0.07 * ℓ ^ 2 := by
    have e : q - ℓ ^ 2 = (x - X) * (2 * X) + (y - Y) * (2 * Y) + (x - X) ^ 2 + (y - Y) ^ 2 := by
      rw [hq, ← hℓ']; ring
    have a1 : |(x - X) * (2 * X)| ≤ δ * (2 * |X|) := by
      rw [abs_mul, abs_mul, abs_two]
      exact mul_le_mul_of_nonneg_right dx (by positivity)
    have a2 : |(y - Y) * (2 * Y)| ≤ δ * (2 * |Y|) := by
      rw [abs_mul, abs_mul, abs_two]
      exact mul_le_mul_of_nonneg_right dy (by positivity)
    have a3 : (x - X) ^ 2 ≤ δ ^ 2 := sq_le_sq' (by linarith [(abs_le.mp dx).1]) (abs_le.mp dx).2
    have a4 : (y - Y) ^ 2 ≤ δ ^ 2 := sq_le_sq' (by linarith [(abs_le.mp dy).1]) (abs_le.mp dy).2
    have a5 : |X| + |Y| ≤ 1.5 * ℓ := by
      apply abs_le_of_sq_le_sq' _ (by positivity) |>.2
      have b1 := sq_abs X
      have b2 := sq_abs Y
      nlinarith [sq_nonneg (|X| - |Y|)]
    have a6 : δ * (|X| + |Y|) ≤ 0.0212 * ℓ * (1.5 * ℓ) := mul_le_mul δ1 a5 (by positivity) (by positivity)
    have a7 : δ ^ 2 ≤ (0.0212 * ℓ) ^ 2 := pow_le_pow_left₀ δ0 δ1 2
    have a8 := abs_add_le ((x - X) * (2 * X)) ((y - Y) * (2 * Y))
    have a9 := abs_le.mp a8
    rw [e]
    have b3 := abs_le.mp (le_refl |(x - X) * (2 * X) + (y - Y) * (2 * Y)|)
    have b4 := sq_nonneg (x - X)
    have b5 := sq_nonneg (y - Y)
    rw [mul_pow] at a7
    rw [sq ℓ] at *
    rw [abs_le]
    constructor <;> linarith
  obtain ⟨q1, q2⟩ := abs_le.mp hqb
  have hu3 : u * q ≤ 1 / 1000 * q := mul_le_mul_of_nonneg_right u1 (by linarith)
  obtain ⟨S1, S2⟩ := abs_le.mp hS
  generalize A.sum2 x x y y = S at *
  have Sp : 0 ≤ S := by linarith
  have Sl : 0.955 * ℓ ≤ √S := by
    apply le_sqrt_of_sq_le
    rw [mul_pow]; linarith
  have Su : √S ≤ 1.045 * ℓ := by
    rw [sqrt_le_left (by positivity), mul_pow]; linarith
  have hr := acc.sqrt S Sp
  have hu4 : u * √S ≤ 1 / 1000 * √S := mul_le_mul_of_nonneg_right u1 (sqrt_nonneg _)
  obtain ⟨r1, r2⟩ := abs_le.mp hr
  generalize A.sqrt S = nn at *
  have n1 : 0.95 * ℓ ≤ nn := by linarith
  have n2 : nn ≤ 1.05 * ℓ := by linarith
  have nl : ¬ nn < 1e-8 := by rw [not_lt]; linarith
  rw [if_neg nl]
  have np : 0 < nn := by linarith
  have key : ∀ z Z : ℝ, |z - Z| ≤ δ → |Z| ≤ ℓ → |A.div z nn - ℓ / nn * (Z / ℓ)| ≤ 2.2 * ε / ℓ + 2.3 * u + 30 * η := by
    intro z Z hz hZ
    have g1 := acc.div z nn np.ne'
    have g2 : |z| ≤ 1.03 * ℓ := (abs_le_of_err hz hZ).trans (by linarith)
    have g3 : |z / nn| ≤ 1.1 := by
      rw [abs_div, abs_of_pos np, div_le_iff₀ np]; linarith
    have g4 := mul_abs_le u0 g3
    have g5 : |z / nn - ℓ / nn * (Z / ℓ)| ≤ 2.2 * ε / ℓ + 1.1 * u + 28 * η := by
      rw [div_mul_div_cancel₀' ℓp.ne' , ← sub_div, abs_div, abs_of_pos np]
      rw [div_le_iff₀ np]
      have f0 : 0 ≤ 2.2 * ε / ℓ + 1.1 * u + 28 * η := by positivity
      refine hz.trans (le_trans ?_ (mul_le_mul_of_nonneg_left n1 f0))
      have f1 : 2.2 * ε / ℓ * ℓ = 2.2 * ε := div_mul_cancel₀ _ ℓp.ne'
      have f2 : η * 0.04 ≤ η * ℓ := mul_abs_le e0 hℓ0
      have f3 : (2.2 * ε / ℓ + 1.1 * u + 28 * η) * (0.95 * ℓ) = 0.95 * (2.2 * ε) + 1.045 * (u * ℓ) + 26.6 * (η * ℓ) := by
        calc _ = 0.95 * (2.2 * ε / ℓ * ℓ) + 1.045 * (u * ℓ) + 26.6 * (η * ℓ) := by ring
          _ = _ := by rw [f1]
      rw [f3]
      linarith
    have := abs_add_le (A.div z nn - z / nn) (z / nn - ℓ / nn * (Z / ℓ))
    rw [sub_add_sub_cancel] at this
    linarith
  refine ⟨ℓ / nn, ?_, ?_, key x X dx X0, key y Y dy E1⟩
  · rw [le_div_iff₀ np]; linarith
  · rw [div_le_iff₀ np]; linarith

/-- The radius of a box along a sum of directions. -/
theorem radius_add {a l w : ℝ} (hl : 0 ≤ l) (hw : 0 ≤ w) {n n' : V2} {α β : ℝ} (hα : 0 ≤ α)
    (h1 : |n'.1 - α * n.1| ≤ β) (h2 : |n'.2 - α * n.2| ≤ β) :
    radius a l w n' ≤ α * radius a l w n + 2 * β * (l + w) := by
  have key : ∀ c s : ℝ, |c| ≤ 1 → |s| ≤ 1 → |c * n'.1 + s * n'.2| ≤ α * |c * n.1 + s * n.2| + 2 * β := by
    intro c s hc hs
    have e : c * n'.1 + s * n'.2 = α * (c * n.1 + s * n.2) + c * (n'.1 - α * n.1) + s * (n'.2 - α * n.2) := by ring
    rw [e]
    have t := abs_add_three (α * (c * n.1 + s * n.2)) (c * (n'.1 - α * n.1)) (s * (n'.2 - α * n.2))
    rw [abs_mul, abs_of_nonneg hα, abs_mul c, abs_mul s] at t
    have x1 := mul_le_mul hc h1 (abs_nonneg _) zero_le_one
    have x2 := mul_le_mul hs h2 (abs_nonneg _) zero_le_one
    linarith
  have c1 := abs_cos_le_one a
  have s1 := abs_sin_le_one a
  have k1 := mul_le_mul_of_nonneg_left (key _ _ c1 s1) hl
  have k2 := mul_le_mul_of_nonneg_left (key (-(sin a)) _ (by rw [abs_neg]; exact s1) c1) hw
  unfold radius
  linarith

/-- A true gap along a unit vector is seen along the computed axis. -/
theorem sep_complete (acc : Spec.Accurate A u m τ η H) (m0 : 0 ≤ m) (e0 : 0 ≤ η) {B e t β D α : ℝ} (B0 : 0 ≤ B) (he : 0 ≤ e)
    {c₁ c₂ : V2} {a₁ a₂ l₁ w₁ l₂ w₂ : ℝ} {k₁ k₂ : Corners}
    (p1 : 0 ≤ l₁) (p2 : 0 ≤ w₁) (p3 : 0 ≤ l₂) (p4 : 0 ≤ w₂)
    (h₁ : Close e (Mbd.boxCorners c₁ a₁ l₁ w₁) k₁) (h₂ : Close e (Mbd.boxCorners c₂ a₂ l₂ w₂) k₂)
    (b₁ : Within B k₁) (b₂ : Within B k₂) {n n' : V2} (hn : n.1 ^ 2 + n.2 ^ 2 = 1) (hα : 0.95 ≤ α) (hα' : α ≤ 1.06)
    (hβ0 : 0 ≤ β) (hβ : β ≤ 0.03) (x1 : |n'.1 - α * n.1| ≤ β) (x2 : |n'.2 - α * n.2| ≤ β)
    (hD : |c₂.1 - c₁.1| + |c₂.2 - c₁.2| + 2 * (l₁ + w₁ + l₂ + w₂) ≤ D)
    (ht : 1.1 * (β * D + 3.2 * (m * B + e) + 2 * η) ≤ t)
    (hgap : radius a₁ l₁ w₁ n + radius a₂ l₂ w₂ n + t < |dot (c₂ - c₁) n|) :
    axisSeparated A k₁ k₂ n' := by
  have r1 := radius_add (a := a₁) p1 p2 (by linarith : 0 ≤ α) x1 x2
  have r2 := radius_add (a := a₂) p3 p4 (by linarith : 0 ≤ α) x1 x2
  have hd : α * |dot (c₂ - c₁) n| ≤ |dot (c₂ - c₁) n'| + β * (|c₂.1 - c₁.1| + |c₂.2 - c₁.2|) := by
    have e : α * dot (c₂ - c₁) n = dot (c₂ - c₁) n' - (c₂.1 - c₁.1) * (n'.1 - α * n.1) - (c₂.2 - c₁.2) * (n'.2 - α * n.2) := by
      unfold dot; simp only [Prod.fst_sub, Prod.snd_sub]; ring
    rw [← abs_of_nonneg (show 0 ≤ α by linarith), ← abs_mul, e]
    have t1 := abs_sub (dot (c₂ - c₁) n' - (c₂.1 - c₁.1) * (n'.1 - α * n.1)) ((c₂.2 - c₁.2) * (n'.2 - α * n.2))
    have t2 := abs_sub (dot (c₂ - c₁) n') ((c₂.1 - c₁.1) * (n'.1 - α * n.1))
    rw [abs_mul] at t1 t2
    have y1 := mul_le_mul_of_nonneg_left x1 (abs_nonneg (c₂.1 - c₁.1))
    have y2 := mul_le_mul_of_nonneg_left x2 (abs_nonneg (c₂.2 - c₁.2))
    linarith
  have nn : |n'.1| + |n'.2| ≤ 1.6 := by
    have a5 : |n.1| + |n.2| ≤ 1.4143 := by
      apply abs_le_of_sq_le_sq' _ (by norm_num) |>.2
      have b1 := sq_abs n.1
      have b2 := sq_abs n.2
      nlinarith [sq_nonneg (|n.1| - |n.2|)]
    have z1 : |n'.1| ≤ α * |n.1| + β := by
      have := abs_le_of_err x1 (le_refl |α * n.1|)
      rwa [abs_mul, abs_of_nonneg (by linarith : 0 ≤ α)] at this
    have z2 : |n'.2| ≤ α * |n.2| + β := by
      have := abs_le_of_err x2 (le_refl |α * n.2|)
      rwa [abs_mul, abs_of_nonneg (by linarith : 0 ≤ α)] at this
    have z3 : α * (|n.1| + |n.2|) ≤ 1.06 * 1.4143 := mul_le_mul hα' a5 (by positivity) (by norm_num)
    linarith
  have mB := mul_nonneg m0 B0
  have E1 : (m * B + e) * (|n'.1| + |n'.2|) ≤ (m * B + e) * 1.6 := mul_le_mul_of_nonneg_left nn (by linarith)
  have D1 := mul_le_mul_of_nonneg_left hD hβ0
  have D0 : 0 ≤ D := by have := abs_nonneg (c₂.1 - c₁.1); have := abs_nonneg (c₂.2 - c₁.2); linarith
  have βD := mul_nonneg hβ0 D0
  have t0 : 0 ≤ t := by linarith
  have at1 : 0.95 * t ≤ α * t := mul_le_mul_of_nonneg_right hα t0
  have ag := mul_lt_mul_of_pos_left hgap (by linarith : 0 < α)
  have mx1 := projMax_up acc m0 h₁ b₁ n'
  have mx2 := projMax_up acc m0 h₂ b₂ n'
  have mn1 := projMin_low acc m0 h₁ b₁ n'
  have mn2 := projMin_low acc m0 h₂ b₂ n'
  rw [projMax_box _ _ p1 p2] at mx1
  rw [projMax_box _ _ p3 p4] at mx2
  rw [projMin_box _ _ p1 p2] at mn1
  rw [projMin_box _ _ p3 p4] at mn2
  have big : radius a₁ l₁ w₁ n' + radius a₂ l₂ w₂ n' + 2 * ((m * B + e) * 1.6 + η) < |dot (c₂ - c₁) n'| := by linarith
  have dd : dot (c₂ - c₁) n' = dot c₂ n' - dot c₁ n' := by
    unfold dot; simp only [Prod.fst_sub, Prod.snd_sub]; ring
  rw [dd, lt_abs] at big
  unfold axisSeparated
  rcases big with h | h
  · left; linarith
  · right; linarith

/-- A padded rectangle is missed only if there is a gap along one of the four axes. -/
theorem gap_of_apart {c₁ c₂ : V2} {a₁ a₂ l₁ w₁ l₂ w₂ t : ℝ} (p1 : 0 < l₁) (p2 : 0 < w₁) (p3 : 0 < l₂) (p4 : 0 < w₂)
    (t0 : 0 ≤ t) (h : Spec.Apart (Spec.solidRect c₁ a₁ l₁ w₁) (Spec.solidRect c₂ a₂ (l₂ + t) (w₂ + t))) :
    ∃ n ∈ ({uAxis a₁, vAxis a₁, uAxis a₂, vAxis a₂} : Set V2),
      radius a₁ l₁ w₁ n + radius a₂ l₂ w₂ n + t < |dot (c₂ - c₁) n| := by
  have hn : ¬ Mbd.rectRect (Mbd.boxCorners c₁ a₁ l₁ w₁) (Mbd.boxCorners c₂ a₂ (l₂ + t) (w₂ + t)) := by
    rw [rectRect_iff_intersect _ _ _ _ p1 p2 (by linarith) (by linarith)]
    rintro ⟨p, h1, h2⟩
    exact h p h1 h2
  rw [rectRect_box_iff _ _ _ _ p1 p2 (by linarith) (by linarith)] at hn
  push Not at hn
  obtain ⟨n, hn, hg⟩ := hn
  refine ⟨n, hn, ?_⟩
  have unit : n.1 ^ 2 + n.2 ^ 2 = 1 := by
    simp only [Set.mem_insert_iff, Set.mem_singleton_iff] at hn
    rcases hn with rfl | rfl | rfl | rfl <;> simp [uAxis, vAxis]
  have r : radius a₂ (l₂ + t) (w₂ + t) n = radius a₂ l₂ w₂ n
      + t * (|cos a₂ * n.1 + sin a₂ * n.2| + |-(sin a₂) * n.1 + cos a₂ * n.2|) := by
    unfold radius; ring
  have one : 1 ≤ |cos a₂ * n.1 + sin a₂ * n.2| + |-(sin a₂) * n.1 + cos a₂ * n.2| := by
    have e : (cos a₂ * n.1 + sin a₂ * n.2) ^ 2 + (-(sin a₂) * n.1 + cos a₂ * n.2) ^ 2 = 1 := by
      calc _ = (sin a₂ ^ 2 + cos a₂ ^ 2) * (n.1 ^ 2 + n.2 ^ 2) := by ring
        _ = 1 := by rw [unit, sin_sq_add_cos_sq, one_mul]
    generalize cos a₂ * n.1 + sin a₂ * n.2 = X at *
    generalize -(sin a₂) * n.1 + cos a₂ * n.2 = Y at *
    apply abs_le_of_sq_le_sq' _ (by positivity) |>.2
    rw [← sq_abs X, ← sq_abs Y] at e
    nlinarith [mul_nonneg (abs_nonneg X) (abs_nonneg Y)]
  have := mul_le_mul_of_nonneg_left one t0
  rw [r] at hg
  linarith

theorem radius_negative {a l w : ℝ} (n : V2) : radius a l w (-n.1, -n.2) = radius a l w n := radius_neg a l w n

theorem dot_negative (d n : V2) : |dot d (-n.1, -n.2)| = |dot d n| := by
  rw [← abs_neg]; congr 1; unfold dot; simp only; ring

/-- The rounded rectangle check is silent for boxes that keep apart. -/
theorem rect_silent (acc : Spec.Accurate A u m τ η H) (u0 : 0 ≤ u) (u1 : u ≤ 1 / 1000) (m0 : 0 ≤ m) (e0 : 0 ≤ η)
    (e1 : η ≤ 1e-9) {B e t s D : ℝ} (B0 : 0 ≤ B) (he : 0 ≤ e)
    {c₁ c₂ : V2} {a₁ a₂ l₁ w₁ l₂ w₂ : ℝ} {k₁ k₂ : Corners} (hs : 0.02 ≤ s) (hse : 50 * e ≤ s)
    (p1 : s ≤ l₁) (p2 : s ≤ w₁) (p3 : s ≤ l₂) (p4 : s ≤ w₂)
    (h₁ : Close e (Mbd.boxCorners c₁ a₁ l₁ w₁) k₁) (h₂ : Close e (Mbd.boxCorners c₂ a₂ l₂ w₂) k₂)
    (b₁ : Within B k₁) (b₂ : Within B k₂)
    (hD : |c₂.1 - c₁.1| + |c₂.2 - c₁.2| + 2 * (l₁ + w₁ + l₂ + w₂) ≤ D)
    (ht : Spec.rectAlarm u m η e s B D ≤ t)
    (h : Spec.Apart (Spec.solidRect c₁ a₁ l₁ w₁) (Spec.solidRect c₂ a₂ (l₂ + t) (w₂ + t))) : ¬ rectRect A k₁ k₂ := by
  unfold Spec.rectAlarm at ht
  set β := 1.1 * e / s + 2.3 * u + 30 * η with hβ
  have sp : 0 < s := by linarith
  have es : 1.1 * e / s ≤ 0.022 := by rw [div_le_iff₀ sp]; linarith
  have es0 : 0 ≤ 1.1 * e / s := by positivity
  have β0 : 0 ≤ β := by positivity
  have β1 : β ≤ 0.03 := by linarith
  have D0 : 0 ≤ D := by have := abs_nonneg (c₂.1 - c₁.1); have := abs_nonneg (c₂.2 - c₁.2); linarith
  have t0 : 0 ≤ t := by
    have := mul_nonneg β0 D0
    have := mul_nonneg m0 B0
    linarith
  have q1 : 0 < l₁ := by linarith
  have q2 : 0 < w₁ := by linarith
  have q3 : 0 < l₂ := by linarith
  have q4 : 0 < w₂ := by linarith
  obtain ⟨n, hn, hg⟩ := gap_of_apart q1 q2 q3 q4 t0 h
  have unit : n.1 ^ 2 + n.2 ^ 2 = 1 := by
    simp only [Set.mem_insert_iff, Set.mem_singleton_iff] at hn
    rcases hn with rfl | rfl | rfl | rfl <;> simp [uAxis, vAxis]
  have small : ∀ {x : ℝ}, s ≤ x → 2.2 * e / (2 * x) + 2.3 * u + 30 * η ≤ β := by
    intro x hx
    have : 2.2 * e / (2 * x) ≤ 1.1 * e / s := by
      rw [div_le_div_iff₀ (by linarith) sp]
      have := mul_le_mul_of_nonneg_left hx he
      linarith
    linarith
  have go : ∀ {n' : V2} {x α σ : ℝ}, s ≤ x → (σ = 1 ∨ σ = -1) → 0.95 ≤ α → α ≤ 1.06 →
      |n'.1 - α * (σ * n.1)| ≤ 2.2 * e / (2 * x) + 2.3 * u + 30 * η →
      |n'.2 - α * (σ * n.2)| ≤ 2.2 * e / (2 * x) + 2.3 * u + 30 * η → axisSeparated A k₁ k₂ n' := by
    intro n' x α σ hx hσ ha1 ha2 y1 y2
    have z1 := y1.trans (small hx)
    have z2 := y2.trans (small hx)
    rcases hσ with rfl | rfl
    · rw [one_mul] at z1 z2
      exact sep_complete acc m0 e0 B0 he q1.le q2.le q3.le q4.le h₁ h₂ b₁ b₂ unit ha1 ha2 β0 β1 z1 z2 hD ht hg
    · rw [neg_one_mul] at z1 z2
      refine sep_complete acc m0 e0 B0 he q1.le q2.le q3.le q4.le h₁ h₂ b₁ b₂ (n := (-n.1, -n.2)) ?_ ha1 ha2 β0 β1 z1 z2 hD ht ?_
      · simp only; rw [neg_sq, neg_sq]; exact unit
      · rw [radius_negative, radius_negative, dot_negative]; exact hg
  have n01 : ∀ {c : V2} {a l w : ℝ} {k : Corners}, s ≤ w → Close e (Mbd.boxCorners c a l w) k → n = uAxis a →
      axisSeparated A k₁ k₂ (edgeNormal A k.c0 k.c1) := by
    intro c a l w k hw hc hna
    have wp : 0 < w := by linarith
    obtain ⟨α, i1, i2, i3, i4⟩ := normal_close acc u0 u1 e0 e1 he hc.c0x hc.c0y hc.c1x hc.c1y
      (ℓ := 2 * w) (by rw [edge01_sq]) (by linarith) (by linarith)
    refine go (n' := edgeNormal A k.c0 k.c1) (x := w) (α := α) (σ := -1) hw (Or.inr rfl) i1 i2 ?_ ?_
    · convert i3 using 3
      rw [hna]
      simp only [uAxis, Mbd.boxCorners, Mbd.placePoint]
      field_simp
      ring
    · convert i4 using 3
      rw [hna]
      simp only [uAxis, Mbd.boxCorners, Mbd.placePoint]
      field_simp
      ring
  have n12 : ∀ {c : V2} {a l w : ℝ} {k : Corners}, s ≤ l → Close e (Mbd.boxCorners c a l w) k → n = vAxis a →
      axisSeparated A k₁ k₂ (edgeNormal A k.c1 k.c2) := by
    intro c a l w k hl hc hna
    have lp : 0 < l := by linarith
    obtain ⟨α, i1, i2, i3, i4⟩ := normal_close acc u0 u1 e0 e1 he hc.c1x hc.c1y hc.c2x hc.c2y
      (ℓ := 2 * l) (by rw [edge12_sq]) (by linarith) (by linarith)
    refine go (n' := edgeNormal A k.c1 k.c2) (x := l) (α := α) (σ := 1) hl (Or.inl rfl) i1 i2 ?_ ?_
    · convert i3 using 3
      rw [hna]
      simp only [vAxis, Mbd.boxCorners, Mbd.placePoint]
      field_simp
      ring
    · convert i4 using 3
      rw [hna]
      simp only [vAxis, Mbd.boxCorners, Mbd.placePoint]
      field_simp
      ring
  unfold rectRect
  rw [not_not]
  simp only [Set.mem_insert_iff, Set.mem_singleton_iff] at hn
  rcases hn with h | h | h | h
  · exact Or.inl (n01 p2 h₁ h)
  · exact Or.inr (Or.inl (n12 p1 h₁ h))
  · exact Or.inr (Or.inr (Or.inl (n01 p4 h₂ h)))
  · exact Or.inr (Or.inr (Or.inr (n12 p3 h₂ h)))

/-! ### The circle test -/

/-- The computed foot lies close to a point of the true edge. -/
theorem foot_near (acc : Spec.Accurate A u m τ η H) (u0 : 0 ≤ u) (u1 : u ≤ 1 / 1000) (e0 : 0 ≤ η)
    {s e s' e' ε B y : ℝ} (h1 : |s' - s| ≤ ε) (h3 : |e' - e| ≤ ε) (hs : |s'| ≤ B) (he : |e'| ≤ B) (y0 : 0 ≤ y) (y1 : y ≤ 1) :
    |A.mulAdd y (A.sub e' s') s' - (s + y * (e - s))| ≤ ε + 10 * u * B + 3 * η := by
  have B0 : 0 ≤ B := (abs_nonneg _).trans hs
  have d0 : |e' - s'| ≤ 2 * B := (abs_sub _ _).trans (by linarith)
  have d1 := acc.sub e' s'
  have d2 := mul_abs_le u0 d0
  generalize A.sub e' s' = E at *
  have uB0 := mul_nonneg u0 B0
  have uB : u * B ≤ 1 / 1000 * B := mul_le_mul_of_nonneg_right u1 B0
  have uη : u * η ≤ 1 / 1000 * η := mul_le_mul_of_nonneg_right u1 e0
  have d3 : |E - (e' - s')| ≤ 2 * (u * B) + η := by linarith
  have d4 : |E| ≤ 2.002 * B + η := (abs_le_of_err d3 d0).trans (by linarith)
  have ya : ∀ z : ℝ, |y * z| ≤ |z| := fun z => by
    rw [abs_mul, abs_of_nonneg y0]
    exact mul_le_of_le_one_left (abs_nonneg _) y1
  have d5 : |y * E| ≤ 2.002 * B + η := (ya E).trans d4
  have d6 : |y * E + s'| ≤ 3.002 * B + η := (abs_add_le _ _).trans (by linarith)
  have m1 := acc.mulAdd y E s'
  have m2 := mul_abs_le u0 d5
  have m3 := mul_abs_le u0 d6
  generalize A.mulAdd y E s' = p at *
  have c1 : |(1 - y) * (s' - s) + y * (e' - e)| ≤ ε := by
    refine (abs_add_le _ _).trans ?_
    rw [abs_mul, abs_mul, abs_of_nonneg y0, abs_of_nonneg (by linarith : 0 ≤ 1 - y)]
    have := mul_le_mul_of_nonneg_left h1 (by linarith : 0 ≤ 1 - y)
    have := mul_le_mul_of_nonneg_left h3 y0
    linarith
  have t : p - (s + y * (e - s)) = (p - (y * E + s')) + y * (E - (e' - s')) + ((1 - y) * (s' - s) + y * (e' - e)) := by ring
  rw [t]
  have := abs_add_three (p - (y * E + s')) (y * (E - (e' - s'))) ((1 - y) * (s' - s) + y * (e' - e))
  have := (ya (E - (e' - s'))).trans d3
  linarith

theorem sq_lower {a z κ η : ℝ} (h : κ * |z| - η ≤ |a|) (e0 : 0 ≤ η) (κ0 : 0 ≤ κ) (κ1 : κ ≤ 1) :
    κ ^ 2 * z ^ 2 - 2 * η * |z| ≤ a * a := by
  have z0 := abs_nonneg z
  rw [← abs_mul_abs_self a, ← sq_abs z]
  have κz : κ * |z| ≤ |z| := mul_le_of_le_one_left z0 κ1
  have κz0 : 0 ≤ κ * |z| := by positivity
  have ηz := mul_nonneg e0 z0
  rcases le_total (κ * |z|) η with hc | hc
  · have : κ ^ 2 * |z| ^ 2 ≤ 2 * η * |z| := by
      rw [← mul_pow, sq]
      have := mul_le_mul hc κz κz0 e0
      linarith
    have := mul_self_nonneg |a|
    linarith
  · have h1 : (κ * |z| - η) * (κ * |z| - η) ≤ |a| * |a| := mul_self_le_mul_self (by linarith) h
    have h2 := mul_le_mul_of_nonneg_left κz e0
    have h3 := mul_self_nonneg η
    linarith

theorem radius_num {u r ρ : ℝ} (u0 : 0 ≤ u) (u1 : u ≤ 1 / 1000) (r0 : 0 ≤ r) (h : (1 + 7 * u) * r < ρ) :
    (1 + 2 * u) * r ^ 2 < (1 - 10 * u) * ρ ^ 2 := by
  have g : ((1 + 7 * u) * r) ^ 2 < ρ ^ 2 := pow_lt_pow_left₀ h (by positivity) (by norm_num)
  have g2 : (1 - 10 * u) * ((1 + 7 * u) * r) ^ 2 < (1 - 10 * u) * ρ ^ 2 := mul_lt_mul_of_pos_left g (by linarith)
  refine lt_of_le_of_lt ?_ g2
  rw [mul_pow, ← mul_assoc]
  refine mul_le_mul_of_nonneg_right ?_ (sq_nonneg r)
  have h1 : u * u ≤ 1 / 1000 * u := mul_le_mul_of_nonneg_right u1 u0
  have h2 : u * u * u ≤ 1 / 1000 * u * (1 / 1000) := mul_le_mul h1 u1 u0 (by positivity)
  have e : (1 - 10 * u) * (1 + 7 * u) ^ 2 = 1 + 4 * u - 91 * (u * u) - 490 * (u * u * u) := by ring
  rw [e]
  linarith

/-- An edge that keeps away from the centre by more than the radius is seen as such. -/
theorem edge_far (acc : Spec.Accurate A u m τ η H) (u0 : 0 ≤ u) (u1 : u ≤ 1 / 1000) (e0 : 0 ≤ η)
    {s e s' e' c : V2} {ε B r t : ℝ} (h1 : |s'.1 - s.1| ≤ ε) (h2 : |s'.2 - s.2| ≤ ε)
    (h3 : |e'.1 - e.1| ≤ ε) (h4 : |e'.2 - e.2| ≤ ε) (b1 : |s'.1| ≤ B) (b2 : |s'.2| ≤ B) (b3 : |e'.1| ≤ B) (b4 : |e'.2| ≤ B)
    (r0 : 0 < r) (hη : η ≤ u * r) (hη2 : η ≤ u * r ^ 2) (ht : Spec.circleAlarm u η ε B r ≤ t)
    (far : ∀ y, 0 ≤ y → y ≤ 1 → r + t < Spec.dist c (s.1 + y * (e.1 - s.1), s.2 + y * (e.2 - s.2))) :
    A.mul r r < edgeDistSq A s' e' c := by
  unfold edgeDistSq
  simp only
  set y := clip _ 0 1 with hy
  have y0 : 0 ≤ y := le_clip zero_le_one
  have y1 : y ≤ 1 := clip_le _ _ _
  have f1 := foot_near acc u0 u1 e0 h1 h3 b1 b3 y0 y1
  have f2 := foot_near acc u0 u1 e0 h2 h4 b2 b4 y0 y1
  have hf := far y y0 y1
  unfold Spec.circleAlarm at ht
  clear_value y
  generalize A.mulAdd y (A.sub e'.1 s'.1) s'.1 = p1 at *
  generalize A.mulAdd y (A.sub e'.2 s'.2) s'.2 = p2 at *
  set ω := ε + 10 * u * B + 3 * η with hω
  have ω0 : 0 ≤ ω := (abs_nonneg _).trans f1
  have near : Spec.dist (p1, p2) (s.1 + y * (e.1 - s.1), s.2 + y * (e.2 - s.2)) ≤ 1.5 * ω := by
    unfold Spec.dist
    simp only
    rw [sqrt_le_left (by positivity)]
    have g1 := sq_le_sq' (by linarith [(abs_le.mp f1).1]) (abs_le.mp f1).2
    have g2 := sq_le_sq' (by linarith [(abs_le.mp f2).1]) (abs_le.mp f2).2
    have := sq_nonneg ω
    rw [mul_pow]
    linarith
  have tri := dist_triangle' c (p1, p2) (s.1 + y * (e.1 - s.1), s.2 + y * (e.2 - s.2))
  obtain ⟨ρ, hρ⟩ : ∃ ρ, ρ = Spec.dist c (p1, p2) := ⟨_, rfl⟩
  rw [← hρ] at tri
  have ρ1 : (1 + 7 * u) * r < ρ := by linarith
  have ρsq : ρ ^ 2 = (c.1 - p1) ^ 2 + (c.2 - p2) ^ 2 := by
    rw [hρ]; unfold Spec.dist; exact sq_sqrt (by positivity)
  have ur := mul_nonneg u0 r0.le
  have ρr : r < ρ := by linarith
  have ρ0 : 0 < ρ := by linarith
  have low : ∀ a b : ℝ, (1 - u) * |a - b| - η ≤ |A.sub a b| := fun a b => by
    have h := acc.sub a b
    have := abs_sub (A.sub a b) (A.sub a b - (a - b))
    rw [sub_sub_cancel] at this
    linarith
  have l1 := sq_lower (low c.1 p1) e0 (by linarith) (by linarith)
  have l2 := sq_lower (low c.2 p2) e0 (by linarith) (by linarith)
  have hS := (abs_le.mp (acc.sum2 (A.sub c.1 p1) (A.sub c.1 p1) (A.sub c.2 p2) (A.sub c.2 p2))).1
  rw [abs_of_nonneg (mul_self_nonneg _), abs_of_nonneg (mul_self_nonneg _)] at hS
  have hM := (abs_le.mp (acc.mul r r)).2
  rw [abs_of_nonneg (mul_self_nonneg _)] at hM
  generalize A.sum2 (A.sub c.1 p1) (A.sub c.1 p1) (A.sub c.2 p2) (A.sub c.2 p2) = S at *
  generalize A.mul r r = M at *
  obtain ⟨Q, hQ⟩ : ∃ Q, Q = A.sub c.1 p1 * A.sub c.1 p1 + A.sub c.2 p2 * A.sub c.2 p2 := ⟨_, rfl⟩
  rw [← hQ] at hS
  have z1 : |c.1 - p1| ≤ ρ := abs_le_of_sq_le_sq (by linarith [sq_nonneg (c.2 - p2)]) ρ0.le
  have z2 : |c.2 - p2| ≤ ρ := abs_le_of_sq_le_sq (by linarith [sq_nonneg (c.1 - p1)]) ρ0.le
  have z3 : η * (|c.1 - p1| + |c.2 - p2|) ≤ u * ρ * (2 * ρ) :=
    mul_le_mul (hη.trans (mul_abs_le u0 ρr.le)) (by linarith) (by positivity) (by positivity)
  have Q1 : (1 - u) ^ 2 * ρ ^ 2 - 4 * u * ρ ^ 2 ≤ Q := by
    rw [hQ, ρsq]; rw [ρsq.symm]
    have : u * ρ * (2 * ρ) = 2 * u * ρ ^ 2 := by ring
    have e : (1 - u) ^ 2 * ρ ^ 2 = (1 - u) ^ 2 * (c.1 - p1) ^ 2 + (1 - u) ^ 2 * (c.2 - p2) ^ 2 := by rw [ρsq]; ring
    linarith
  have P0 : 0 < ρ ^ 2 := by positivity
  have rr : r ^ 2 ≤ ρ ^ 2 := pow_le_pow_left₀ r0.le ρr.le 2
  have uP : 0 ≤ u * ρ ^ 2 := by positivity
  have uuP : u * (u * ρ ^ 2) ≤ 1 / 1000 * (u * ρ ^ 2) := mul_le_mul_of_nonneg_right u1 uP
  have Q2 : (1 - 6 * u) * ρ ^ 2 ≤ Q := by
    have : (1 - u) ^ 2 * ρ ^ 2 - 4 * u * ρ ^ 2 = (1 - 6 * u) * ρ ^ 2 + u ^ 2 * ρ ^ 2 := by ring
    have : 0 ≤ u ^ 2 * ρ ^ 2 := by positivity
    linarith
  have Q3 : (1 - 3 * u) * ((1 - 6 * u) * ρ ^ 2) ≤ (1 - 3 * u) * Q := mul_le_mul_of_nonneg_left Q2 (by linarith)
  have urr : u * r ^ 2 ≤ u * ρ ^ 2 := mul_abs_le u0 rr
  have low2 : (1 - 10 * u) * ρ ^ 2 ≤ S := by
    have : (1 - 3 * u) * ((1 - 6 * u) * ρ ^ 2) = (1 - 9 * u) * ρ ^ 2 + 18 * (u * (u * ρ ^ 2)) := by ring
    have : 0 ≤ u * (u * ρ ^ 2) := by positivity
    linarith
  have up : M ≤ (1 + 2 * u) * r ^ 2 := by
    rw [sq] at hη2 ⊢; linarith
  have fin := radius_num u0 u1 r0.le ρ1
  linarith

end Rounded

end Mbd
