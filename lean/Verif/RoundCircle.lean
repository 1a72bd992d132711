import Verif.RoundLemmas

/-!
# Error bounds for the rounded circle check
-/

namespace Spec

/-- Tolerance of the circle check: `ε` error of the corners, `B` bound for their coordinates, `D` bound for the
length of an edge plus the radius, `K` bound for `D` over the length of an edge. -/
def circleTol (u η ε B D K : ℝ) : ℝ := 28 * u * D + 12 * K * (3 * ε + u * D + η) + 3 * u * B + η * (80 + D)

end Spec

namespace Mbd

open Real

namespace Rounded

variable {A : Arith} {u m τ η H R L : ℝ}

theorem clip_near {q q' ρ α : ℝ} (hρ : 0 ≤ ρ) (hρ1 : ρ ≤ 1) (hα : 0 ≤ α) (h : |q' - q| ≤ ρ * |q| + α) :
    |clip q' 0 1 - clip q 0 1| ≤ ρ + α := by
  obtain ⟨h1, h2⟩ := abs_le.mp h
  unfold clip
  rcases le_total q 0 with hq | hq
  · rw [abs_of_nonpos hq] at h1 h2
    rw [max_eq_right hq, min_eq_left zero_le_one, sub_zero]
    have : q' ≤ α := by nlinarith
    rw [abs_of_nonneg (le_min (le_max_right _ _) zero_le_one)]
    exact (min_le_left _ _).trans (max_le (by linarith) (by linarith))
  · rw [abs_of_nonneg hq] at h1 h2
    rw [max_eq_left hq]
    rcases le_total q 1 with hq1 | hq1
    · rw [min_eq_left hq1]
      have hq2 : ρ * q ≤ ρ * 1 := mul_le_mul_of_nonneg_left hq1 hρ
      rw [abs_le]
      constructor
      · have : q - (ρ + α) ≤ min (max q' 0) 1 := le_min (le_max_of_le_left (by linarith)) (by linarith)
        linarith
      · have : min (max q' 0) 1 ≤ q + (ρ + α) := (min_le_left _ _).trans (max_le (by linarith) (by linarith))
        linarith
    · rw [min_eq_right hq1]
      have : 1 - (ρ + α) ≤ q' := by nlinarith
      rw [abs_le]
      constructor
      · have : 1 - (ρ + α) ≤ min (max q' 0) 1 := le_min (le_max_of_le_left this) (by linarith)
        linarith
      · have := min_le_right (max q' 0) 1
        linarith

/-- Error of a rounded difference. -/
theorem sub_err (acc : Spec.Accurate A u m τ η H) (u0 : 0 ≤ u) {a a' b b' α β M : ℝ}
    (ha : |a' - a| ≤ α) (hb : |b' - b| ≤ β) (hM : |a - b| ≤ M) :
    |A.sub a' b' - (a - b)| ≤ (α + β) + u * (M + (α + β)) + η := by
  have h := acc.sub a' b'
  have h1 : |(a' - b') - (a - b)| ≤ α + β := by
    rw [show (a' - b') - (a - b) = (a' - a) - (b' - b) by ring]
    have := abs_sub (a' - a) (b' - b)
    linarith
  have h2 := mul_abs_le u0 (abs_le_of_err h1 hM)
  have := abs_add_le (A.sub a' b' - (a' - b')) ((a' - b') - (a - b))
  rw [sub_add_sub_cancel] at this
  linarith

/-- Error of a rounded sum of two products. -/
theorem sum2_err (acc : Spec.Accurate A u m τ η H) (u0 : 0 ≤ u) {a a' b b' c c' d d' α β M N : ℝ}
    (ha : |a' - a| ≤ α) (hb : |b' - b| ≤ β) (hc : |c' - c| ≤ α) (hd : |d' - d| ≤ β)
    (ha' : |a'| ≤ M) (hb' : |b'| ≤ N) (hc' : |c'| ≤ M) (hd' : |d'| ≤ N) (hbN : |b| ≤ N) (hdN : |d| ≤ N) :
    |A.sum2 a' b' c' d' - (a * b + c * d)| ≤ 6 * u * (M * N) + η + 2 * (M * β + α * N) := by
  have h := acc.sum2 a' b' c' d'
  have p1 := prod_err ha hb ha' hbN
  have p2 := prod_err hc hd hc' hdN
  have M0 : 0 ≤ M := (abs_nonneg _).trans ha'
  have q1 : |a' * b'| ≤ M * N := by rw [abs_mul]; exact mul_le_mul ha' hb' (abs_nonneg _) M0
  have q2 : |c' * d'| ≤ M * N := by rw [abs_mul]; exact mul_le_mul hc' hd' (abs_nonneg _) M0
  have h2 := mul_abs_le u0 (add_le_add q1 q2)
  have t : A.sum2 a' b' c' d' - (a * b + c * d)
      = (A.sum2 a' b' c' d' - (a' * b' + c' * d')) + (a' * b' - a * b) + (c' * d' - c * d) := by ring
  rw [t]
  have := abs_add_three (A.sum2 a' b' c' d' - (a' * b' + c' * d')) (a' * b' - a * b) (c' * d' - c * d)
  linarith

/-- Error of a rounded quotient. -/
theorem quot_err (acc : Spec.Accurate A u m τ η H) (u0 : 0 ≤ u) {n n' l l' a b : ℝ} (hl : 0 < l) (hl' : 0.98 * l ≤ l')
    (hn : |n' - n| ≤ a) (hll : |l' - l| ≤ b) :
    |A.div n' l' - n / l| ≤ (u + (1 + u) * (b / (0.98 * l))) * |n / l| + ((1 + u) * (a / (0.98 * l)) + η) := by
  have l'0 : 0 < l' := by linarith
  have h := acc.div n' l' l'0.ne'
  have a0 : 0 ≤ a := (abs_nonneg _).trans hn
  have b0 : 0 ≤ b := (abs_nonneg _).trans hll
  have e : n' / l' - n / l = (n' - n) / l' - (n / l) * ((l' - l) / l') := by
    field_simp; ring
  have e1 : |(n' - n) / l'| ≤ a / (0.98 * l) := by
    rw [abs_div, abs_of_pos l'0]
    exact div_le_div₀ a0 hn (by positivity) hl'
  have e2 : |(l' - l) / l'| ≤ b / (0.98 * l) := by
    rw [abs_div, abs_of_pos l'0]
    exact div_le_div₀ b0 hll (by positivity) hl'
  have e3 : |n' / l' - n / l| ≤ a / (0.98 * l) + |n / l| * (b / (0.98 * l)) := by
    rw [e]
    have := abs_sub ((n' - n) / l') ((n / l) * ((l' - l) / l'))
    rw [abs_mul] at this
    have := mul_le_mul_of_nonneg_left e2 (abs_nonneg (n / l))
    linarith
  have e4 : |n' / l'| ≤ |n / l| + (a / (0.98 * l) + |n / l| * (b / (0.98 * l))) :=
    abs_le_of_err e3 le_rfl
  have e5 := mul_abs_le u0 e4
  have := abs_add_le (A.div n' l' - n' / l') (n' / l' - n / l)
  rw [sub_add_sub_cancel] at this
  linarith

theorem foot_num_b {u η δ ℓ : ℝ} (u0 : 0 ≤ u) (e0 : 0 ≤ η) (hδ0 : 0 ≤ δ) (hℓ0 : 0.04 ≤ ℓ) :
    (6.02 * u * ℓ * ℓ + η + 4.01 * ℓ * δ) / (0.98 * ℓ ^ 2) * ℓ ≤ 6.16 * u * ℓ + 26 * η + 4.1 * δ := by
  have ℓp : 0 < ℓ := by linarith
  rw [div_mul_eq_mul_div, div_le_iff₀ (by positivity)]
  have h2 : 0 ≤ η * ℓ * (ℓ - 0.04) := mul_nonneg (mul_nonneg e0 ℓp.le) (by linarith)
  have h3 : 0 ≤ u * ℓ * (ℓ * ℓ) := by positivity
  have h4 : 0 ≤ δ * (ℓ * ℓ) := by positivity
  have h5 : 0 ≤ η * ℓ := by positivity
  linarith

theorem foot_num_a {u η δ ℓ D K : ℝ} (u0 : 0 ≤ u) (e0 : 0 ≤ η) (hδ0 : 0 ≤ δ) (hℓ0 : 0.04 ≤ ℓ) (D0 : 0 ≤ D)
    (hK : D ≤ K * ℓ) :
    (6.02 * u * D * ℓ + η + 4.01 * D * δ) / (0.98 * ℓ ^ 2) * ℓ ≤ 6.16 * u * D + 26 * η + 4.1 * K * δ := by
  have ℓp : 0 < ℓ := by linarith
  rw [div_mul_eq_mul_div, div_le_iff₀ (by positivity)]
  have h2 : 0 ≤ η * ℓ * (ℓ - 0.04) := mul_nonneg (mul_nonneg e0 ℓp.le) (by linarith)
  have h3 : 0 ≤ u * D * (ℓ * ℓ) := by positivity
  have h4 : 0 ≤ δ * ℓ * (K * ℓ - D) := mul_nonneg (mul_nonneg hδ0 ℓp.le) (by linarith)
  have h5 : 0 ≤ η * ℓ := by positivity
  have h6 : 0 ≤ δ * ℓ * D := by positivity
  linarith

theorem foot_num {u η δ ℓ D K : ℝ} (u0 : 0 ≤ u) (u1 : u ≤ 1 / 1000) (e0 : 0 ≤ η) (hδ0 : 0 ≤ δ) (hℓ0 : 0.04 ≤ ℓ)
    (hD : ℓ ≤ D) (hK : D ≤ K * ℓ) {a b : ℝ} (a0 : 0 ≤ a) (b0 : 0 ≤ b)
    (bl : b * ℓ ≤ 6.16 * u * ℓ + 26 * η + 4.1 * δ) (al : a * ℓ ≤ 6.16 * u * D + 26 * η + 4.1 * K * δ) :
    (u + (1 + u) * b + ((1 + u) * a + η)) * ℓ ≤ 13.6 * u * D + 8.4 * K * δ + η * (52 + D) + 2 * η := by
  have ℓp : 0 < ℓ := by linarith
  have K1 : 1 ≤ K := by
    by_contra hk
    push Not at hk
    have := mul_lt_mul_of_pos_right hk ℓp
    linarith
  have Kδ : 1 * δ ≤ K * δ := mul_le_mul_of_nonneg_right K1 hδ0
  have ηD : η * ℓ ≤ η * D := mul_abs_le e0 hD
  have uℓD : u * ℓ ≤ u * D := mul_abs_le u0 hD
  have uD : 0 ≤ u * D := mul_nonneg u0 (by linarith)
  have z1 : u * (b * ℓ) ≤ 1 / 1000 * (6.16 * u * ℓ + 26 * η + 4.1 * δ) :=
    mul_le_mul u1 bl (mul_nonneg b0 ℓp.le) (by norm_num)
  have z2 : u * (a * ℓ) ≤ 1 / 1000 * (6.16 * u * D + 26 * η + 4.1 * K * δ) :=
    mul_le_mul u1 al (mul_nonneg a0 ℓp.le) (by norm_num)
  linarith

theorem foot_sums (acc : Spec.Accurate A u m τ η H) (u0 : 0 ≤ u) (u1 : u ≤ 1 / 1000) (e1 : η ≤ 1e-9)
    {T T' E E' : V2} {δ D ℓ : ℝ} (hℓ : E.1 * E.1 + E.2 * E.2 = ℓ ^ 2) (hℓ0 : 0.04 ≤ ℓ) (hD : ℓ ≤ D)
    (hδ0 : 0 ≤ δ) (hδ : δ ≤ ℓ / 1000) (t1 : |T.1| ≤ D) (t2 : |T.2| ≤ D)
    (t1' : |T'.1 - T.1| ≤ δ) (t2' : |T'.2 - T.2| ≤ δ) (e1' : |E'.1 - E.1| ≤ δ) (e2' : |E'.2 - E.2| ≤ δ) :
    |A.sum2 T'.1 E'.1 T'.2 E'.2 - (T.1 * E.1 + T.2 * E.2)| ≤ 6.02 * u * D * ℓ + η + 4.01 * D * δ ∧
    |A.sum2 E'.1 E'.1 E'.2 E'.2 - ℓ ^ 2| ≤ 6.02 * u * ℓ * ℓ + η + 4.01 * ℓ * δ ∧
    6.02 * u * ℓ * ℓ + η + 4.01 * ℓ * δ ≤ 0.02 * ℓ ^ 2 ∧
    0.98 * ℓ ^ 2 ≤ A.sum2 E'.1 E'.1 E'.2 E'.2 ∧ ¬ A.sum2 E'.1 E'.1 E'.2 E'.2 < 1e-8 := by
  have ℓp : 0 < ℓ := by linarith
  have s1 := mul_self_nonneg E.1
  have s2 := mul_self_nonneg E.2
  have E1 : |E.1| ≤ ℓ := abs_le_of_sq_le_sq (by rw [sq E.1]; linarith) ℓp.le
  have E2 : |E.2| ≤ ℓ := abs_le_of_sq_le_sq (by rw [sq E.2]; linarith) ℓp.le
  have E1' : |E'.1| ≤ 1.001 * ℓ := (abs_le_of_err e1' E1).trans (by linarith)
  have E2' : |E'.2| ≤ 1.001 * ℓ := (abs_le_of_err e2' E2).trans (by linarith)
  have T1' : |T'.1| ≤ 1.001 * D := (abs_le_of_err t1' t1).trans (by linarith)
  have T2' : |T'.2| ≤ 1.001 * D := (abs_le_of_err t2' t2).trans (by linarith)
  have hN := sum2_err acc u0 t1' e1' t2' e2' T1' E1' T2' E2' (by linarith) (by linarith)
  have hΛ := sum2_err acc u0 e1' e1' e2' e2' E1' E1' E2' E2' (by linarith) (by linarith)
  rw [hℓ] at hΛ
  generalize A.sum2 T'.1 E'.1 T'.2 E'.2 = N' at *
  generalize A.sum2 E'.1 E'.1 E'.2 E'.2 = Λ' at *
  have D0 : 0 < D := by linarith
  have x1 : 0 ≤ u * D * ℓ := mul_nonneg (mul_nonneg u0 D0.le) ℓp.le
  have x2 : 0 ≤ u * ℓ * ℓ := mul_nonneg (mul_nonneg u0 ℓp.le) ℓp.le
  have x3 : 0 ≤ δ * D := mul_nonneg hδ0 D0.le
  have x4 : 0 ≤ δ * ℓ := mul_nonneg hδ0 ℓp.le
  have x5 : δ * ℓ ≤ δ * D := mul_abs_le hδ0 hD
  have y1 : u * (ℓ * ℓ) ≤ 1 / 1000 * (ℓ * ℓ) := mul_le_mul_of_nonneg_right u1 (by positivity)
  have y2 : ℓ * δ ≤ ℓ * (ℓ / 1000) := mul_le_mul_of_nonneg_left hδ ℓp.le
  have y3 : 0.04 * 0.04 ≤ ℓ * ℓ := mul_le_mul hℓ0 hℓ0 (by norm_num) ℓp.le
  have hN2 : |N' - (T.1 * E.1 + T.2 * E.2)| ≤ 6.02 * u * D * ℓ + η + 4.01 * D * δ := hN.trans (by linarith)
  have hΛ2 : |Λ' - ℓ ^ 2| ≤ 6.02 * u * ℓ * ℓ + η + 4.01 * ℓ * δ := hΛ.trans (by linarith)
  have h3 : 6.02 * u * ℓ * ℓ + η + 4.01 * ℓ * δ ≤ 0.02 * ℓ ^ 2 := by
    rw [sq]; linarith
  have h4 : 0.98 * ℓ ^ 2 ≤ Λ' := by
    have := (abs_le.mp hΛ2).1
    linarith
  refine ⟨hN2, hΛ2, h3, h4, ?_⟩
  rw [not_lt]
  rw [sq] at h4
  linarith

/-- The computed foot of the perpendicular on an edge. -/
theorem foot_err (acc : Spec.Accurate A u m τ η H) (u0 : 0 ≤ u) (u1 : u ≤ 1 / 1000) (e0 : 0 ≤ η) (e1 : η ≤ 1e-9)
    {T T' E E' : V2} {δ D K ℓ : ℝ} (hℓ : E.1 * E.1 + E.2 * E.2 = ℓ ^ 2) (hℓ0 : 0.04 ≤ ℓ) (hD : ℓ ≤ D)
    (hK : D ≤ K * ℓ) (hδ0 : 0 ≤ δ) (hδ : δ ≤ ℓ / 1000) (t1 : |T.1| ≤ D) (t2 : |T.2| ≤ D)
    (t1' : |T'.1 - T.1| ≤ δ) (t2' : |T'.2 - T.2| ≤ δ) (e1' : |E'.1 - E.1| ≤ δ) (e2' : |E'.2 - E.2| ≤ δ) :
    ¬ A.sum2 E'.1 E'.1 E'.2 E'.2 < 1e-8 ∧
    |clip (A.div (A.sum2 T'.1 E'.1 T'.2 E'.2) (A.sum2 E'.1 E'.1 E'.2 E'.2)) 0 1
      - clip ((T.1 * E.1 + T.2 * E.2) / ℓ ^ 2) 0 1| * ℓ
      ≤ 13.6 * u * D + 8.4 * K * δ + η * (52 + D) + 2 * η := by
  obtain ⟨hN, hΛ, hs, hlow, hlt⟩ := foot_sums acc u0 u1 e1 hℓ hℓ0 hD hδ0 hδ t1 t2 t1' t2' e1' e2'
  refine ⟨hlt, ?_⟩
  have ℓp : 0 < ℓ := by linarith
  have ℓ2 : 0 < ℓ ^ 2 := by positivity
  have hq := quot_err acc u0 ℓ2 hlow hN hΛ
  have bl := foot_num_b u0 e0 hδ0 hℓ0
  have al := foot_num_a u0 e0 hδ0 hℓ0 (by linarith) hK
  have a0 := (abs_nonneg _).trans hN
  have b0 := (abs_nonneg _).trans hΛ
  have bq0 := div_nonneg b0 (show 0 ≤ 0.98 * ℓ ^ 2 by linarith)
  have aq0 := div_nonneg a0 (show 0 ≤ 0.98 * ℓ ^ 2 by linarith)
  have bq : (6.02 * u * ℓ * ℓ + η + 4.01 * ℓ * δ) / (0.98 * ℓ ^ 2) ≤ 0.03 := by
    rw [div_le_iff₀ (by linarith)]; linarith
  generalize (6.02 * u * ℓ * ℓ + η + 4.01 * ℓ * δ) / (0.98 * ℓ ^ 2) = b at *
  generalize (6.02 * u * D * ℓ + η + 4.01 * D * δ) / (0.98 * ℓ ^ 2) = a at *
  have hρ1 : u + (1 + u) * b ≤ 1 := by
    have := mul_le_mul (show 1 + u ≤ 1.001 by linarith) bq bq0 (by norm_num)
    linarith
  have hc := clip_near (add_nonneg u0 (mul_nonneg (by linarith) bq0)) hρ1
    (add_nonneg (mul_nonneg (by linarith) aq0) e0) hq
  exact (mul_le_mul_of_nonneg_right hc ℓp.le).trans (foot_num u0 u1 e0 hδ0 hℓ0 hD hK aq0 bq0 bl al)

/-- If the true edge comes within `r - t` of the centre, the computed distance is at most the computed radius. -/
theorem edge_sound (acc : Spec.Accurate A u m τ η H) (u0 : 0 ≤ u) (u1 : u ≤ 1 / 1000) (e0 : 0 ≤ η) (e1 : η ≤ 1e-9)
    {s e s' e' c : V2} {ε B D K ℓ r t : ℝ} (ε0 : 0 ≤ ε)
    (h1 : |s'.1 - s.1| ≤ ε) (h2 : |s'.2 - s.2| ≤ ε) (h3 : |e'.1 - e.1| ≤ ε) (h4 : |e'.2 - e.2| ≤ ε)
    (hB1 : |s'.1| ≤ B) (hB2 : |s'.2| ≤ B)
    (hℓ : (e.1 - s.1) ^ 2 + (e.2 - s.2) ^ 2 = ℓ ^ 2) (hℓ0 : 0.04 ≤ ℓ) (hD : ℓ + r ≤ D) (hK : D ≤ K * ℓ)
    (hδ : 3 * ε + u * D + η ≤ ℓ / 1000) (ht0 : 0 ≤ t) (htr : t ≤ r) (ht : Spec.circleTol u η ε B D K ≤ t)
    (hη : η ≤ u * r ^ 2) (h : Mbd.edgeDistSq s e c ≤ (r - t) ^ 2) :
    edgeDistSq A s' e' c ≤ A.mul r r := by
  have ℓp : 0 < ℓ := by linarith
  have D0 : 0 < D := by linarith
  have hℓD : ℓ ≤ D := by linarith
  set δ := 3 * ε + u * D + η with hδd
  have uD := mul_nonneg u0 D0.le
  have δ0 : 0 ≤ δ := by linarith
  have uε : u * ε ≤ 1 / 1000 * ε := mul_le_mul_of_nonneg_right u1 ε0
  have uℓD : u * ℓ ≤ u * D := mul_abs_le u0 hℓD
  have s1 := sq_nonneg (e.1 - s.1)
  have s2 := sq_nonneg (e.2 - s.2)
  have E1 : |e.1 - s.1| ≤ ℓ := abs_le_of_sq_le_sq (by linarith) ℓp.le
  have E2 : |e.2 - s.2| ≤ ℓ := abs_le_of_sq_le_sq (by linarith) ℓp.le
  have eE1 : |A.sub e'.1 s'.1 - (e.1 - s.1)| ≤ δ := (sub_err acc u0 h3 h1 E1).trans (by linarith)
  have eE2 : |A.sub e'.2 s'.2 - (e.2 - s.2)| ≤ δ := (sub_err acc u0 h4 h2 E2).trans (by linarith)
  -- the exact foot
  unfold Mbd.edgeDistSq at h
  simp only at h
  have hbig : ¬ (e.1 - s.1) ^ 2 + (e.2 - s.2) ^ 2 < 1e-8 := by
    have : 0.04 * 0.04 ≤ ℓ * ℓ := mul_le_mul hℓ0 hℓ0 (by norm_num) ℓp.le
    rw [hℓ, sq, not_lt]; linarith
  rw [if_neg hbig, hℓ] at h
  set x := clip (((c.1 - s.1) * (e.1 - s.1) + (c.2 - s.2) * (e.2 - s.2)) / ℓ ^ 2) 0 1 with hx
  have x0 : 0 ≤ x := le_clip zero_le_one
  have x1 : x ≤ 1 := clip_le _ _ _
  have g1 : |c.1 - (s.1 + x * (e.1 - s.1))| ≤ r - t :=
    abs_le_of_sq_le_sq (by linarith [sq_nonneg (c.2 - (s.2 + x * (e.2 - s.2)))]) (by linarith)
  have g2 : |c.2 - (s.2 + x * (e.2 - s.2))| ≤ r - t :=
    abs_le_of_sq_le_sq (by linarith [sq_nonneg (c.1 - (s.1 + x * (e.1 - s.1)))]) (by linarith)
  have xE : ∀ z : ℝ, |z| ≤ ℓ → |x * z| ≤ ℓ := fun z hz => by
    rw [abs_mul, abs_of_nonneg x0]
    calc x * |z| ≤ 1 * |z| := mul_le_mul_of_nonneg_right x1 (abs_nonneg _)
      _ ≤ ℓ := by linarith
  have T1 : |c.1 - s.1| ≤ D := by
    have := abs_add_le (c.1 - (s.1 + x * (e.1 - s.1))) (x * (e.1 - s.1))
    rw [show c.1 - (s.1 + x * (e.1 - s.1)) + x * (e.1 - s.1) = c.1 - s.1 by ring] at this
    linarith [xE _ E1]
  have T2 : |c.2 - s.2| ≤ D := by
    have := abs_add_le (c.2 - (s.2 + x * (e.2 - s.2))) (x * (e.2 - s.2))
    rw [show c.2 - (s.2 + x * (e.2 - s.2)) + x * (e.2 - s.2) = c.2 - s.2 by ring] at this
    linarith [xE _ E2]
  have zz : ∀ y : ℝ, |y - y| ≤ 0 := fun y => by simp
  have eT1 : |A.sub c.1 s'.1 - (c.1 - s.1)| ≤ δ := (sub_err acc u0 (zz c.1) h1 T1).trans (by linarith)
  have eT2 : |A.sub c.2 s'.2 - (c.2 - s.2)| ≤ δ := (sub_err acc u0 (zz c.2) h2 T2).trans (by linarith)
  obtain ⟨hlt, hfoot⟩ := foot_err acc u0 u1 e0 e1 (T := (c.1 - s.1, c.2 - s.2))
    (T' := (A.sub c.1 s'.1, A.sub c.2 s'.2)) (E := (e.1 - s.1, e.2 - s.2))
    (E' := (A.sub e'.1 s'.1, A.sub e'.2 s'.2)) (by simp only; rw [← hℓ]; ring) hℓ0 hℓD hK δ0 hδ T1 T2 eT1 eT2 eE1 eE2
  simp only at hlt hfoot
  unfold edgeDistSq
  simp only
  rw [if_neg hlt]
  set y := clip (A.div (A.sum2 (A.sub c.1 s'.1) (A.sub e'.1 s'.1) (A.sub c.2 s'.2) (A.sub e'.2 s'.2))
    (A.sum2 (A.sub e'.1 s'.1) (A.sub e'.1 s'.1) (A.sub e'.2 s'.2) (A.sub e'.2 s'.2))) 0 1 with hy
  rw [← hx] at hfoot
  have y0 : 0 ≤ y := le_clip zero_le_one
  have y1 : y ≤ 1 := clip_le _ _ _
  clear_value x y
  -- the closest point
  have key : ∀ {ee ss ee' ss' cc : ℝ}, |ee - ss| ≤ ℓ → |A.sub ee' ss' - (ee - ss)| ≤ δ → |ss' - ss| ≤ ε →
      |ss'| ≤ B → |cc - ss| ≤ D →
      |A.sub cc (A.mulAdd y (A.sub ee' ss') ss') - (cc - (ss + y * (ee - ss)))|
        ≤ 1.01 * u * B + 5.1 * u * D + 2.1 * η + 1.34 * δ := by
    intro ee ss ee' ss' cc k1 k2 k3 k4 k5
    generalize A.sub ee' ss' = E' at *
    have kE : |E'| ≤ 1.001 * ℓ := (abs_le_of_err k2 k1).trans (by linarith)
    have kyE : |y * E'| ≤ 1.001 * ℓ := by
      rw [abs_mul, abs_of_nonneg y0]
      calc y * |E'| ≤ 1 * |E'| := mul_le_mul_of_nonneg_right y1 (abs_nonneg _)
        _ ≤ _ := by linarith
    have kyd : |y * (E' - (ee - ss))| ≤ δ := by
      rw [abs_mul, abs_of_nonneg y0]
      calc y * |E' - (ee - ss)| ≤ 1 * |E' - (ee - ss)| := mul_le_mul_of_nonneg_right y1 (abs_nonneg _)
        _ ≤ _ := by linarith
    have kye : |y * (ee - ss)| ≤ ℓ := by
      rw [abs_mul, abs_of_nonneg y0]
      calc y * |ee - ss| ≤ 1 * |ee - ss| := mul_le_mul_of_nonneg_right y1 (abs_nonneg _)
        _ ≤ _ := by linarith
    have km := acc.mulAdd y E' ss'
    have ks : |y * E' + ss'| ≤ 1.001 * ℓ + B := (abs_add_le _ _).trans (by linarith)
    have k6 := mul_abs_le u0 ks
    have k7 := mul_abs_le u0 kyE
    have ke : |A.mulAdd y E' ss' - (ss + y * (ee - ss))| ≤ u * B + 3.01 * u * D + η + δ + ε := by
      have t1 : A.mulAdd y E' ss' - (ss + y * (ee - ss))
          = (A.mulAdd y E' ss' - (y * E' + ss')) + y * (E' - (ee - ss)) + (ss' - ss) := by ring
      rw [t1]
      have := abs_add_three (A.mulAdd y E' ss' - (y * E' + ss')) (y * (E' - (ee - ss))) (ss' - ss)
      linarith
    have kM : |cc - (ss + y * (ee - ss))| ≤ 2 * D := by
      have := abs_sub (cc - ss) (y * (ee - ss))
      rw [show cc - ss - y * (ee - ss) = cc - (ss + y * (ee - ss)) by ring] at this
      linarith
    have kf := sub_err acc u0 (zz cc) ke kM
    have B0 : 0 ≤ B := (abs_nonneg _).trans k4
    have kp : u * (u * B + 3.01 * u * D + η + δ + ε) ≤ 1 / 1000 * (u * B + 3.01 * u * D + η + δ + ε) :=
      mul_le_mul_of_nonneg_right u1 ((abs_nonneg _).trans ke)
    linarith [mul_nonneg u0 B0]
  have d1 := key E1 eE1 h1 hB1 T1
  have d2 := key E2 eE2 h2 hB2 T2
  generalize A.sub c.1 (A.mulAdd y (A.sub e'.1 s'.1) s'.1) = p at *
  generalize A.sub c.2 (A.mulAdd y (A.sub e'.2 s'.2) s'.2) = q at *
  have B0 : 0 ≤ B := (abs_nonneg _).trans hB1
  set W := 1.01 * u * B + 5.1 * u * D + 2.1 * η + 1.34 * δ with hW
  -- triangle inequality
  have nrm : ‖(⟨p, q⟩ : ℂ)‖ ≤ (r - t) + |y - x| * ℓ + 2 * W := by
    have t1 : (⟨p, q⟩ : ℂ) = ⟨c.1 - (s.1 + x * (e.1 - s.1)), c.2 - (s.2 + x * (e.2 - s.2))⟩
        + ((x - y : ℝ) : ℂ) * ⟨e.1 - s.1, e.2 - s.2⟩
        + ⟨p - (c.1 - (s.1 + y * (e.1 - s.1))), q - (c.2 - (s.2 + y * (e.2 - s.2)))⟩ := by
      apply Complex.ext <;> simp <;> ring
    rw [t1]
    have n1 : ‖(⟨c.1 - (s.1 + x * (e.1 - s.1)), c.2 - (s.2 + x * (e.2 - s.2))⟩ : ℂ)‖ ≤ r - t := by
      apply abs_le_of_sq_le_sq' _ (by linarith) |>.2
      rw [Complex.sq_norm, Complex.normSq_mk]; linarith
    have n2 : ‖((x - y : ℝ) : ℂ) * ⟨e.1 - s.1, e.2 - s.2⟩‖ ≤ |y - x| * ℓ := by
      rw [norm_mul, Complex.norm_real, Real.norm_eq_abs, abs_sub_comm x y]
      apply mul_le_mul_of_nonneg_left _ (abs_nonneg _)
      apply abs_le_of_sq_le_sq' _ (by linarith) |>.2
      rw [Complex.sq_norm, Complex.normSq_mk]; linarith
    have n3 := norm_le_abs_add (p - (c.1 - (s.1 + y * (e.1 - s.1)))) (q - (c.2 - (s.2 + y * (e.2 - s.2))))
    refine (norm_add₃_le).trans ?_
    linarith
  have K1 : 1 ≤ K := by
    by_contra hk
    push Not at hk
    have := mul_lt_mul_of_pos_right hk ℓp
    linarith
  have Kδ : 1 * δ ≤ K * δ := mul_le_mul_of_nonneg_right K1 δ0
  have ur : u * r ≤ u * D := mul_abs_le u0 (by linarith)
  have uB := mul_nonneg u0 B0
  unfold Spec.circleTol at ht
  rw [← hδd] at ht
  have hηD : 0 ≤ η * D := mul_nonneg e0 D0.le
  have fin : ‖(⟨p, q⟩ : ℂ)‖ ≤ r * (1 - 3 * u) := by
    refine nrm.trans ?_
    linarith
  have r0 : 0 ≤ r := by linarith
  have sq1 : p * p + q * q ≤ r ^ 2 * (1 - 3 * u) ^ 2 := by
    have := pow_le_pow_left₀ (norm_nonneg _) fin 2
    rw [Complex.sq_norm, Complex.normSq_mk, mul_pow] at this
    exact this
  have hf := (abs_le.mp (acc.sum2 p p q q)).2
  rw [abs_of_nonneg (mul_self_nonneg p), abs_of_nonneg (mul_self_nonneg q)] at hf
  have hm := (abs_le.mp (acc.mul r r)).1
  rw [abs_of_nonneg (mul_self_nonneg r)] at hm
  have g3 : (1 + 3 * u) * (p * p + q * q) ≤ (1 + 3 * u) * (r ^ 2 * (1 - 3 * u) ^ 2) :=
    mul_le_mul_of_nonneg_left sq1 (by linarith)
  have g4 : (1 + 3 * u) * (r ^ 2 * (1 - 3 * u) ^ 2) ≤ r ^ 2 * (1 - 3 * u) := by
    have : (1 + 3 * u) * (r ^ 2 * (1 - 3 * u) ^ 2) = r ^ 2 * (1 - 3 * u) - r ^ 2 * (1 - 3 * u) * (9 * u ^ 2) := by ring
    have h0 : 0 ≤ r ^ 2 * (1 - 3 * u) * (9 * u ^ 2) :=
      mul_nonneg (mul_nonneg (sq_nonneg r) (by linarith)) (by positivity)
    linarith
  rw [sq r] at *
  linarith

end Rounded

end Mbd
