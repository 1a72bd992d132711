import Verif.RoundPlan
import Verif.PropsWeights

/-!
# Errors of the planner's arithmetic
-/

namespace Spec

open Mbd

/-- The arithmetic of the planner is accurate: `u` relative error of an operation, `s` of a sum over up to `N`
samples, `m` of the contraction over the samples, `p` of a running product; `η` the absolute error
caused by underflow. -/
structure PlanAccurate (A : PlanArith) (N : ℕ) (u s m p η : ℝ) : Prop where
  const : ∀ a, |A.const a - a| ≤ u * |a| + η
  add : ∀ a b, |A.add a b - (a + b)| ≤ u * |a + b| + η
  sub : ∀ a b, |A.sub a b - (a - b)| ≤ u * |a - b| + η
  mul : ∀ a b, |A.mul a b - a * b| ≤ u * |a * b| + η
  div : ∀ a b, b ≠ 0 → |A.div a b - a / b| ≤ u * |a / b| + η
  divNonneg : ∀ a b, 0 ≤ a → 0 < b → 0 ≤ A.div a b
  sqrt : ∀ a, 0 ≤ a → |A.sqrt a - √a| ≤ u * √a + η
  exp : ∀ x ≤ 1, |A.exp x - Real.exp x| ≤ u * Real.exp x + η
  expNonneg : ∀ x, 0 ≤ A.exp x
  sum : ∀ l : List ℝ, l.length ≤ N → |A.sum l - l.sum| ≤ s * (l.map abs).sum + η
  dot : ∀ w y : List ℝ, w.length ≤ N → |A.dot w y - (List.zipWith (· * ·) w y).sum| ≤
    m * (List.zipWith (fun a b => |a * b|) w y).sum + η
  cumprodLen : ∀ l, (A.cumprod l).length = l.length
  cumprod : ∀ l k, k < l.length → |(A.cumprod l).getD k 0 - (l.take (k + 1)).prod| ≤
    p * |(l.take (k + 1)).prod| + η

/-- The error bounds are small. -/
structure PlanFine (N : ℕ) (u s m p η : ℝ) : Prop where
  u0 : 0 ≤ u
  s0 : 0 ≤ s
  m0 : 0 ≤ m
  p0 : 0 ≤ p
  e0 : 0 ≤ η
  u1 : u ≤ 1 / 1000
  s1 : s ≤ 1 / 100
  m1 : m ≤ 1 / 100
  p1 : p ≤ 1 / 100
  e1 : (N + 4) * η ≤ 1 / 1000

/-- How far the sum of the weights may be from 1. -/
noncomputable def weightTol (N : ℕ) (u s η : ℝ) : ℝ := 2 * (u + s) + (N + 4) * η

end Spec

namespace Mbd

open Real Classical _root_.Spec

namespace Rounded

variable {A : PlanArith} {N : ℕ} {u s m p η : ℝ}

theorem eta_le (f : PlanFine N u s m p η) : η ≤ 1 / 4000 := by
  obtain ⟨u0, s0, m0, p0, e0, u1, s1, m1, p1, e1⟩ := f
  have : (0:ℝ) ≤ (N:ℝ) * η := mul_nonneg (Nat.cast_nonneg N) e0
  linarith

/-- The argument of an exponential is not positive, up to underflow. -/
theorem sub_max_le (acc : PlanAccurate A N u s m p η) (f : PlanFine N u s m p η) {x M : ℝ} (h : x ≤ M) :
    A.sub x M ≤ η := by
  have h1 := (abs_le.mp (acc.sub x M)).2
  rw [abs_of_nonpos (by linarith : x - M ≤ 0)] at h1
  have := mul_nonneg (by linarith [f.u1] : 0 ≤ 1 - u) (by linarith : 0 ≤ M - x)
  nlinarith

theorem exp_le_two {x : ℝ} (h : x ≤ 1 / 4000) : Real.exp x ≤ 1 + 2 * max x 0 := by
  rcases le_total x 0 with h0 | h0
  · rw [max_eq_right h0]; have := exp_le_one_iff.mpr h0; linarith
  · rw [max_eq_left h0]
    have h1 : |x| ≤ 1 := by rw [abs_of_nonneg h0]; linarith
    have := (abs_le.mp (Real.abs_exp_sub_one_le h1)).2
    rw [abs_of_nonneg h0] at this
    linarith

theorem exps_nonneg (acc : PlanAccurate A N u s m p η) {l : List ℝ} {e : ℝ} (h : e ∈ softmaxExps A l) : 0 ≤ e := by
  obtain ⟨x, -, rfl⟩ := List.mem_map.mp h
  exact acc.expNonneg _

theorem exps_le (acc : PlanAccurate A N u s m p η) (f : PlanFine N u s m p η) {l : List ℝ} {e : ℝ}
    (h : e ∈ softmaxExps A l) : e ≤ 1 + 2 * u + 4 * η := by
  obtain ⟨x, hx, rfl⟩ := List.mem_map.mp h
  have h1 := sub_max_le acc f (le_listMax hx)
  have he := eta_le f
  have h2 := (abs_le.mp (acc.exp _ (by linarith : A.sub x (listMax l) ≤ 1))).2
  have h3 := exp_le_two (by linarith : A.sub x (listMax l) ≤ 1 / 4000)
  have h4 : max (A.sub x (listMax l)) 0 ≤ η := max_le h1 f.e0
  have h5 : rexp (A.sub x (listMax l)) ≤ 1 + 2 * η := by linarith
  have h6 := mul_le_mul_of_nonneg_left h5 f.u0
  have h7 := mul_le_mul_of_nonneg_right f.u1 f.e0
  linarith [f.u0, f.e0]

/-- The exponential of the largest entry is close to 1. -/
theorem exps_top (acc : PlanAccurate A N u s m p η) (f : PlanFine N u s m p η) {l : List ℝ} (hl : l ≠ []) :
    ∃ e ∈ softmaxExps A l, 1 - u - 3 * η ≤ e := by
  refine ⟨_, List.mem_map.mpr ⟨listMax l, listMax_mem hl, rfl⟩, ?_⟩
  have he := eta_le f
  have h1 := acc.sub (listMax l) (listMax l)
  rw [sub_self, abs_zero, mul_zero, zero_add, sub_zero] at h1
  have h2 := abs_le.mp h1
  have h3 := (abs_le.mp (acc.exp _ (by linarith [h2.2] : A.sub (listMax l) (listMax l) ≤ 1))).1
  have h4 := Real.add_one_le_exp (A.sub (listMax l) (listMax l))
  have h5 := mul_le_mul_of_nonneg_left h4 (by linarith [f.u1] : 0 ≤ 1 - u)
  have h6 : (1 - u) * (1 - η) ≤ (1 - u) * (A.sub (listMax l) (listMax l) + 1) :=
    mul_le_mul_of_nonneg_left (by linarith [h2.1]) (by linarith [f.u1])
  have h7 := mul_nonneg f.u0 f.e0
  linarith [f.e0]

theorem sum_abs_of_nonneg {l : List ℝ} (h : ∀ x ∈ l, 0 ≤ x) : (l.map abs).sum = l.sum := by
  congr 1
  conv_rhs => rw [← List.map_id l]
  exact List.map_congr_left fun x hx => abs_of_nonneg (h x hx)

/-- The divisor of the softmax is bounded away from zero, and close to the exact sum. -/
theorem softmax_divisor (acc : PlanAccurate A N u s m p η) (f : PlanFine N u s m p η) {l : List ℝ} (hl : l ≠ [])
    (hN : l.length ≤ N) :
    1 - u - 3 * η ≤ (softmaxExps A l).sum ∧
    |A.sum (softmaxExps A l) - (softmaxExps A l).sum| ≤ s * (softmaxExps A l).sum + η ∧
    0.9 ≤ A.sum (softmaxExps A l) := by
  have hn : ∀ e ∈ softmaxExps A l, 0 ≤ e := fun e he => exps_nonneg acc he
  obtain ⟨e, he, h1⟩ := exps_top acc f hl
  have h2 : e ≤ (softmaxExps A l).sum := List.single_le_sum hn e he
  have h3 := acc.sum (softmaxExps A l) (by simpa [softmaxExps] using hN)
  rw [sum_abs_of_nonneg hn] at h3
  refine ⟨h1.trans h2, h3, ?_⟩
  have h4 := (abs_le.mp h3).1
  have h5 := mul_le_mul_of_nonneg_right f.s1 (by linarith [f.u1, eta_le f] : 0 ≤ (softmaxExps A l).sum)
  linarith [f.u1, eta_le f]

theorem softmax_length (l : List ℝ) : (softmax A l).length = l.length := by simp [softmax, softmaxExps]

theorem softmax_nonneg_r (acc : PlanAccurate A N u s m p η) (f : PlanFine N u s m p η) {l : List ℝ}
    (hN : l.length ≤ N) {w : ℝ} (h : w ∈ softmax A l) : 0 ≤ w := by
  have hl : l ≠ [] := by rintro rfl; simp [softmax, softmaxExps] at h
  obtain ⟨e, he, rfl⟩ := List.mem_map.mp h
  exact acc.divNonneg _ _ (exps_nonneg acc he) (by linarith [(softmax_divisor acc f hl hN).2.2])

/-- The weights before and after rounding of the division. -/
theorem div_sum_err (acc : PlanAccurate A N u s m p η) {D : ℝ} (hD : 0 < D) :
    ∀ l : List ℝ, (∀ e ∈ l, 0 ≤ e) →
      |(l.map fun e => A.div e D).sum - l.sum / D| ≤ u * (l.sum / D) + l.length * η
  | [], _ => by simp
  | e :: l, h => by
    have ih := div_sum_err acc hD l fun x hx => h x (List.mem_cons_of_mem _ hx)
    have h1 := acc.div e D hD.ne'
    rw [abs_of_nonneg (div_nonneg (h e (List.mem_cons_self)) hD.le)] at h1
    simp only [List.map_cons, List.sum_cons, List.length_cons, Nat.cast_add, Nat.cast_one, add_div]
    have h2 := abs_add_le (A.div e D - e / D) ((l.map fun e => A.div e D).sum - l.sum / D)
    have e2 : A.div e D - e / D + ((l.map fun e => A.div e D).sum - l.sum / D) =
      A.div e D + (l.map fun e => A.div e D).sum - (e / D + l.sum / D) := by ring
    rw [e2] at h2
    linarith

/-- The total of the weights. -/
theorem softmax_total_r (acc : PlanAccurate A N u s m p η) (f : PlanFine N u s m p η) {l : List ℝ} (hl : l ≠ [])
    (hN : l.length ≤ N) : |(softmax A l).sum - 1| ≤ weightTol N u s η := by
  obtain ⟨hE, hD, hD9⟩ := softmax_divisor acc f hl hN
  have hs := div_sum_err acc (by linarith : 0 < A.sum (softmaxExps A l)) (softmaxExps A l)
    fun e he => exps_nonneg acc he
  have hlen : ((softmaxExps A l).length : ℝ) * η ≤ N * η :=
    mul_le_mul_of_nonneg_right (by exact_mod_cast (by simpa [softmaxExps] using hN)) f.e0
  change |((softmaxExps A l).map fun e => A.div e (A.sum (softmaxExps A l))).sum - 1| ≤ _
  generalize ((softmaxExps A l).map fun e => A.div e (A.sum (softmaxExps A l))).sum = W at *
  generalize A.sum (softmaxExps A l) = D at *
  generalize (softmaxExps A l).sum = E at *
  have he := eta_le f
  obtain ⟨u0, s0, m0, p0, e0, u1, s1, m1, p1, e1⟩ := f
  have hDpos : 0 < D := by linarith
  have hE0 : 0 ≤ E := by linarith
  have r0 : 0 ≤ E / D := div_nonneg hE0 hDpos.le
  have q : η / D ≤ 1.2 * η := by
    rw [div_le_iff₀ hDpos]
    have := mul_le_mul_of_nonneg_left hD9 e0
    linarith
  have hr : E / D * D = E := div_mul_cancel₀ _ hDpos.ne'
  have h1 : |E / D - 1| ≤ s * (E / D) + η / D := by
    have e2 : E / D - 1 = (E - D) / D := by field_simp
    rw [e2, abs_div, abs_of_pos hDpos, ← mul_div_assoc, ← add_div]
    refine div_le_div_of_nonneg_right ?_ hDpos.le
    rw [abs_sub_comm]; exact hD
  have h2 := abs_le.mp h1
  have hs1 := mul_le_mul_of_nonneg_right s1 r0
  have r1 : E / D ≤ 1.02 := by linarith [h2.2]
  have h3 := mul_le_mul_of_nonneg_left r1 u0
  have h4 := mul_le_mul_of_nonneg_left r1 s0
  have h5 := abs_le.mp hs
  unfold weightTol
  rw [abs_le]
  constructor <;> linarith [h5.1, h5.2, h2.1, h2.2]

theorem tol_nonneg (f : PlanFine N u s m p η) : 0 ≤ weightTol N u s η := by
  unfold weightTol
  have := mul_nonneg (by positivity : (0:ℝ) ≤ (N:ℝ) + 4) f.e0
  linarith [f.u0, f.s0]

theorem tol_le (f : PlanFine N u s m p η) : weightTol N u s η ≤ 1 / 40 := by
  unfold weightTol
  linarith [f.u1, f.s1, f.e1]

/-- Sum of products of nonnegative weights with bounded entries. -/
theorem zip_abs_le : ∀ (w y : List ℝ), (∀ a ∈ w, 0 ≤ a) → (∀ b ∈ y, |b| ≤ 1) →
    (List.zipWith (fun a b => |a * b|) w y).sum ≤ w.sum
  | [], _, _, _ => by simp
  | a :: w, [], h, _ => by simpa using List.sum_nonneg h
  | a :: w, b :: y, h, hb => by
    have ih := zip_abs_le w y (fun x hx => h x (List.mem_cons_of_mem _ hx))
      fun x hx => hb x (List.mem_cons_of_mem _ hx)
    have h1 := h a List.mem_cons_self
    have h2 : |a * b| ≤ a := by
      rw [abs_mul, abs_of_nonneg h1]
      exact mul_le_of_le_one_right h1 (hb b List.mem_cons_self)
    simp only [List.zipWith_cons_cons, List.sum_cons]
    linarith

theorem zip_sum_abs_le : ∀ (w y : List ℝ),
    |(List.zipWith (· * ·) w y).sum| ≤ (List.zipWith (fun a b => |a * b|) w y).sum
  | [], _ => by simp
  | _ :: _, [] => by simp
  | a :: w, b :: y => by
    have ih := zip_sum_abs_le w y
    simp only [List.zipWith_cons_cons, List.sum_cons]
    exact (abs_add_le _ _).trans (by linarith)

theorem zip_nonneg : ∀ (w y : List ℝ), (∀ a ∈ w, 0 ≤ a) → (∀ b ∈ y, 0 ≤ b) →
    0 ≤ (List.zipWith (· * ·) w y).sum ∧
      (List.zipWith (fun a b => |a * b|) w y).sum = (List.zipWith (· * ·) w y).sum
  | [], _, _, _ => by simp
  | _ :: _, [], _, _ => by simp
  | a :: w, b :: y, h, hb => by
    obtain ⟨i1, i2⟩ := zip_nonneg w y (fun x hx => h x (List.mem_cons_of_mem _ hx))
      fun x hx => hb x (List.mem_cons_of_mem _ hx)
    have h1 := mul_nonneg (h a List.mem_cons_self) (hb b List.mem_cons_self)
    simp only [List.zipWith_cons_cons, List.sum_cons, abs_of_nonneg h1, i2]
    exact ⟨by linarith, trivial⟩

/-- An entry of the averaged plan: close to the weighted mean, and not larger than the actions. -/
theorem dot_err (acc : PlanAccurate A N u s m p η) (f : PlanFine N u s m p η) {l y : List ℝ} (hl : l ≠ [])
    (hN : l.length ≤ N) (hy : ∀ b ∈ y, |b| ≤ 1) :
    |A.dot (softmax A l) y - (List.zipWith (· * ·) (softmax A l) y).sum| ≤ 1.1 * m + η ∧
    |A.dot (softmax A l) y| ≤ 1 + weightTol N u s η + 1.1 * m + η := by
  have hw : ∀ a ∈ softmax A l, 0 ≤ a := fun a ha => softmax_nonneg_r acc f hN ha
  have h1 := acc.dot (softmax A l) y (by rw [softmax_length]; exact hN)
  have h2 := zip_abs_le (softmax A l) y hw hy
  have h3 := zip_sum_abs_le (softmax A l) y
  have h4 := (abs_le.mp (softmax_total_r acc f hl hN)).2
  have ht := tol_le f
  have h5 : (List.zipWith (fun a b => |a * b|) (softmax A l) y).sum ≤ 1.1 := by linarith
  have h6 := mul_le_mul_of_nonneg_left h5 f.m0
  have h7 : |A.dot (softmax A l) y - (List.zipWith (· * ·) (softmax A l) y).sum| ≤ 1.1 * m + η := by linarith
  refine ⟨h7, ?_⟩
  have h8 := abs_add_le (A.dot (softmax A l) y - (List.zipWith (· * ·) (softmax A l) y).sum)
    (List.zipWith (· * ·) (softmax A l) y).sum
  rw [sub_add_cancel] at h8
  linarith

/-- Nonnegative actions average to a nonnegative action, up to underflow. -/
theorem dot_ge (acc : PlanAccurate A N u s m p η) (f : PlanFine N u s m p η) {l y : List ℝ}
    (hN : l.length ≤ N) (hy : ∀ b ∈ y, 0 ≤ b) : -η ≤ A.dot (softmax A l) y := by
  have hw : ∀ a ∈ softmax A l, 0 ≤ a := fun a ha => softmax_nonneg_r acc f hN ha
  have h1 := acc.dot (softmax A l) y (by rw [softmax_length]; exact hN)
  obtain ⟨h2, h3⟩ := zip_nonneg (softmax A l) y hw hy
  rw [h3] at h1
  have h4 := mul_le_mul_of_nonneg_right f.m1 h2
  linarith [(abs_le.mp h1).1]

/-! ## The rescaling -/

/-- One operation on rounded operands. -/
theorem op_err {r x' x e X : ℝ} (u0 : 0 ≤ u) (h : |r - x'| ≤ u * |x'| + η) (hx : |x' - x| ≤ e) (hX : |x| ≤ X) :
    |r - x| ≤ (1 + u) * e + u * X + η := by
  have h1 := abs_add_le (r - x') (x' - x)
  rw [sub_add_sub_cancel] at h1
  have h2 := abs_add_le (x' - x) x
  rw [sub_add_cancel] at h2
  have h3 : u * |x'| ≤ u * (e + X) := mul_le_mul_of_nonneg_left (by linarith) u0
  linarith

/-- A reciprocal, multiplied back. -/
theorem recip_err (acc : PlanAccurate A N u s m p η) (f : PlanFine N u s m p η) {g c : ℝ} (hg : 0 < g) (hg2 : g ≤ 2)
    (hc : η ≤ u * c) (hc1 : c ≤ 1) : |A.div 1 g * g - 1| ≤ 3 * u := by
  have h1 := acc.div 1 g hg.ne'
  have h2 : A.div 1 g * g - 1 = (A.div 1 g - 1 / g) * g := by field_simp
  rw [h2, abs_mul, abs_of_pos hg]
  rw [abs_of_pos (by positivity : 0 < 1 / g)] at h1
  have h3 := mul_le_mul_of_nonneg_right h1 hg.le
  have h4 : (u * (1 / g) + η) * g = u + η * g := by field_simp
  have h5 := mul_le_mul_of_nonneg_left hg2 f.e0
  have h6 : u * c ≤ u * 1 := mul_le_mul_of_nonneg_left hc1 f.u0
  linarith

/-- `g · ((1/g) · w) = w` up to rounding. -/
theorem there_and_back (acc : PlanAccurate A N u s m p η) (f : PlanFine N u s m p η) {g w c : ℝ} (hg : 0 < g)
    (hg2 : g ≤ 2) (hc : η ≤ u * c) (hc1 : c ≤ 1) :
    |g * A.mul (A.div 1 g) w - w| ≤ 4.1 * u * |w| + 2 * η := by
  have h1 := recip_err acc f hg hg2 hc hc1
  have h2 := acc.mul (A.div 1 g) w
  have e1 : g * A.mul (A.div 1 g) w - w =
    g * (A.mul (A.div 1 g) w - A.div 1 g * w) + (A.div 1 g * g - 1) * w := by ring
  have h3 : |g * (A.mul (A.div 1 g) w - A.div 1 g * w)| ≤ u * |A.div 1 g * g| * |w| + 2 * η := by
    rw [abs_mul, abs_of_pos hg]
    have := mul_le_mul_of_nonneg_left h2 hg.le
    have e2 : g * (u * |A.div 1 g * w| + η) = u * |A.div 1 g * g| * |w| + g * η := by
      rw [abs_mul, abs_mul, abs_of_pos hg]; ring
    have := mul_le_mul_of_nonneg_right hg2 f.e0
    linarith
  have h4 : |(A.div 1 g * g - 1) * w| ≤ 3 * u * |w| := by
    rw [abs_mul]; exact mul_le_mul_of_nonneg_right h1 (abs_nonneg _)
  have h5 : |A.div 1 g * g| ≤ 1.01 := by
    have := abs_add_le (A.div 1 g * g - 1) 1
    rw [sub_add_cancel, abs_one] at this
    linarith [f.u1]
  have h6 := mul_le_mul_of_nonneg_left h5 (mul_nonneg f.u0 (abs_nonneg w))
  have h7 := mul_nonneg f.u0 (abs_nonneg w)
  rw [e1]
  refine (abs_add_le _ _).trans ?_
  linarith

theorem sqrt_err (acc : PlanAccurate A N u s m p η) {a c : ℝ} (ha : 0 ≤ a) (hc : η ≤ u * c) (u0 : 0 ≤ u)
    (hca : c ≤ √a) : |A.sqrt a - √a| ≤ 2 * u * √a := by
  have h1 := acc.sqrt a ha
  have h2 := mul_le_mul_of_nonneg_left hca u0
  linarith

/-- First half of the rescaling: the sum before division by the square roots is `√ᾱ · ȳ`. -/
theorem rescale_sum (acc : PlanAccurate A N u s m p η) (f : PlanFine N u s m p η) {g sq sq' y yb c Y : ℝ}
    (hg : 0 < g) (hg2 : g ≤ 2) (c0 : 0 < c) (hc : η ≤ u * c) (hc1 : c ≤ 1) (hcs : c ≤ sq)
    (hs : |sq' - sq| ≤ 2 * u * sq) (hY : |y| + |yb| + 1 ≤ Y) :
    |A.add (A.mul y sq') (A.mul g (A.mul (A.div 1 g) (A.add (-A.mul y sq') (A.mul sq' yb)))) - sq * yb| ≤
      25 * (u * sq * Y) := by
  have s0 : 0 < sq := by linarith
  have u0 := f.u0
  have u1 := f.u1
  have Y1 : 1 ≤ Y := by linarith [abs_nonneg y, abs_nonneg yb]
  have hyY : |y| ≤ Y := by linarith [abs_nonneg yb]
  have hbY : |yb| ≤ Y := by linarith [abs_nonneg y]
  have K0 : 0 ≤ sq * Y := mul_nonneg s0.le (by linarith)
  have K : sq * 1 ≤ sq * Y := mul_le_mul_of_nonneg_left Y1 s0.le
  obtain ⟨U, hU⟩ : ∃ U, U = u * sq * Y := ⟨_, rfl⟩
  rw [← hU]
  have hUK : u * (sq * Y) = U := by rw [hU]; ring
  have hη : η ≤ U := by
    have h1 : u * c ≤ u * (sq * Y) := mul_le_mul_of_nonneg_left (by linarith) u0
    linarith
  have U0 : 0 ≤ U := by rw [← hUK]; exact mul_nonneg u0 K0
  have huU : u * U ≤ 1 / 1000 * U := mul_le_mul_of_nonneg_right u1 U0
  have UK : U ≤ 1 / 1000 * (sq * Y) := by rw [← hUK]; exact mul_le_mul_of_nonneg_right u1 K0
  -- yi
  have a1 : |y * sq' - y * sq| ≤ 2 * U := by
    rw [← mul_sub, abs_mul]
    have := mul_le_mul hyY hs (abs_nonneg _) (by linarith)
    have e : Y * (2 * u * sq) = 2 * U := by rw [hU]; ring
    linarith
  have a2 : |y * sq| ≤ sq * Y := by
    rw [abs_mul, abs_of_pos s0, mul_comm]; exact mul_le_mul_of_nonneg_left hyY s0.le
  have a3 := op_err u0 (acc.mul y sq') a1 a2
  have yi : |A.mul y sq' - y * sq| ≤ 4.01 * U := by linarith
  have b1 : |sq' * yb - sq * yb| ≤ 2 * U := by
    rw [← sub_mul, abs_mul]
    have := mul_le_mul hs hbY (abs_nonneg _) (by positivity)
    have e : (2 * u * sq) * Y = 2 * U := by rw [hU]; ring
    linarith
  have b2 : |sq * yb| ≤ sq * Y := by
    rw [abs_mul, abs_of_pos s0]; exact mul_le_mul_of_nonneg_left hbY s0.le
  have b3 := op_err u0 (acc.mul sq' yb) b1 b2
  have zi : |A.mul sq' yb - sq * yb| ≤ 4.01 * U := by linarith
  generalize A.mul y sq' = yi' at *
  generalize A.mul sq' yb = z' at *
  -- w
  have c1 : |(-yi' + z') - sq * (yb - y)| ≤ 8.02 * U := by
    have e : (-yi' + z') - sq * (yb - y) = (z' - sq * yb) - (yi' - y * sq) := by ring
    rw [e]; exact (abs_sub _ _).trans (by linarith)
  have c2 : |sq * (yb - y)| ≤ sq * Y := by
    rw [abs_mul, abs_of_pos s0]
    exact mul_le_mul_of_nonneg_left ((abs_sub _ _).trans (by linarith)) s0.le
  have c3 := op_err u0 (acc.add (-yi') z') c1 c2
  have wi : |A.add (-yi') z' - sq * (yb - y)| ≤ 10.1 * U := by linarith
  generalize A.add (-yi') z' = w at *
  have wabs : |w| ≤ 1.02 * (sq * Y) := by
    have := abs_add_le (w - sq * (yb - y)) (sq * (yb - y))
    rw [sub_add_cancel] at this
    linarith
  -- g * score
  have d1 := there_and_back acc f hg hg2 (w := w) hc hc1
  have d2 : u * |w| ≤ 1.02 * U := by
    have := mul_le_mul_of_nonneg_left wabs u0
    linarith
  have d3 : |g * A.mul (A.div 1 g) w - w| ≤ 6.3 * U := by linarith
  have d4 := op_err u0 (acc.mul g (A.mul (A.div 1 g) w)) d3 wabs
  generalize A.mul g (A.mul (A.div 1 g) w) = P at *
  have d5 : |P - w| ≤ 8.4 * U := by linarith
  have e1 : |(yi' + P) - sq * yb| ≤ 22.6 * U := by
    have e : (yi' + P) - sq * yb = (yi' - y * sq) + ((P - w) + (w - sq * (yb - y))) := by ring
    rw [e]
    refine (abs_add_le _ _).trans ?_
    have := abs_add_le (P - w) (w - sq * (yb - y))
    linarith
  have e2 := op_err u0 (acc.add yi' P) e1 b2
  linarith

/-- Second half: division by the square roots. -/
theorem rescale_quot (acc : PlanAccurate A N u s m p η) (f : PlanFine N u s m p η) {sq sa sp t yb c Y κ : ℝ}
    (c0 : 0 < c) (hc : η ≤ u * c) (hc1 : c ≤ 1) (hcs : c ≤ sq) (ha : 0 < sa) (ha2 : sa ≤ 2) (hp : 0 < sp)
    (hp2 : sp ≤ 2) (Y1 : 1 ≤ Y) (hY : |yb| ≤ Y) (ht : |t - sq * yb| ≤ 25 * (u * sq * Y))
    (hk : |sa * sp - sq| ≤ κ * sq) (hκ : κ ≤ 1 / 20) :
    |A.div (A.mul (A.div 1 sa) t) sp - yb| ≤ (37 * u + 1.2 * κ) * Y := by
  have s0 : 0 < sq := by linarith
  have u0 := f.u0
  have u1 := f.u1
  have K0 : 0 ≤ sq * Y := mul_nonneg s0.le (by linarith)
  have K : sq * 1 ≤ sq * Y := mul_le_mul_of_nonneg_left Y1 s0.le
  obtain ⟨U, hU⟩ : ∃ U, U = u * sq * Y := ⟨_, rfl⟩
  rw [← hU] at ht
  have hUK : u * (sq * Y) = U := by rw [hU]; ring
  have hη : η ≤ U := by
    have h1 : u * c ≤ u * (sq * Y) := mul_le_mul_of_nonneg_left (by linarith) u0
    linarith
  have U0 : 0 ≤ U := by rw [← hUK]; exact mul_nonneg u0 K0
  have huU : u * U ≤ 1 / 1000 * U := mul_le_mul_of_nonneg_right u1 U0
  have UK : U ≤ 1 / 1000 * (sq * Y) := by rw [← hUK]; exact mul_le_mul_of_nonneg_right u1 K0
  have b2 : |sq * yb| ≤ sq * Y := by
    rw [abs_mul, abs_of_pos s0]; exact mul_le_mul_of_nonneg_left hY s0.le
  have tabs : |t| ≤ 1.03 * (sq * Y) := by
    have := abs_add_le (t - sq * yb) (sq * yb)
    rw [sub_add_cancel] at this
    linarith
  have ut : u * |t| ≤ 1.03 * U := by
    have := mul_le_mul_of_nonneg_left tabs u0
    linarith
  have d1 := there_and_back acc f ha ha2 (w := t) hc hc1
  obtain ⟨r, hr⟩ : ∃ r, r = A.mul (A.div 1 sa) t := ⟨_, rfl⟩
  rw [← hr] at d1 ⊢
  have d2 : |sa * r - t| ≤ 6.3 * U := by linarith
  have rabs : |sa * r| ≤ 1.04 * (sq * Y) := by
    have := abs_add_le (sa * r - t) t
    rw [sub_add_cancel] at this
    linarith
  have d3 := acc.div r sp hp.ne'
  obtain ⟨q, hq⟩ : ∃ q, q = A.div r sp := ⟨_, rfl⟩
  rw [← hq] at d3 ⊢
  have d4 : |q * (sa * sp) - sa * r| ≤ 5.1 * U := by
    have e : q * (sa * sp) - sa * r = sa * (sp * (q - r / sp)) := by field_simp
    rw [e, abs_mul, abs_mul, abs_of_pos ha, abs_of_pos hp]
    have h1 := mul_le_mul_of_nonneg_left (mul_le_mul_of_nonneg_left d3 hp.le) ha.le
    have e2 : sa * (sp * (u * |r / sp| + η)) = u * |sa * r| + sa * sp * η := by
      rw [abs_div, abs_mul, abs_of_pos hp, abs_of_pos ha]; field_simp
    have h2 : sa * sp ≤ 2 * 2 := mul_le_mul ha2 hp2 hp.le (by norm_num)
    have h3 := mul_le_mul_of_nonneg_right h2 f.e0
    have h4 := mul_le_mul_of_nonneg_left rabs u0
    linarith
  have d5 : |q * (sa * sp) - sq * yb| ≤ 36.4 * U := by
    have e : q * (sa * sp) - sq * yb = (q * (sa * sp) - sa * r) + ((sa * r - t) + (t - sq * yb)) := by ring
    rw [e]
    refine (abs_add_le _ _).trans ?_
    have := abs_add_le (sa * r - t) (t - sq * yb)
    linarith
  have hκ0 : 0 ≤ κ := by
    by_contra hneg
    push Not at hneg
    have := mul_neg_of_neg_of_pos hneg s0
    linarith [abs_nonneg (sa * sp - sq)]
  have hk2 := abs_le.mp hk
  have hκs : κ * sq ≤ 1 / 20 * sq := mul_le_mul_of_nonneg_right hκ s0.le
  have prodlb : 0.95 * sq ≤ sa * sp := by linarith
  have qabs : |q| ≤ 1.1 * Y := by
    have h1 : |q| * (sa * sp) ≤ 1.04 * (sq * Y) := by
      have := abs_add_le (q * (sa * sp) - sq * yb) (sq * yb)
      rw [sub_add_cancel, abs_mul q, abs_of_pos (mul_pos ha hp)] at this
      linarith
    have h2 := mul_le_mul_of_nonneg_left prodlb (abs_nonneg q)
    have h3 : |q| * sq ≤ (1.1 * Y) * sq := by linarith
    exact le_of_mul_le_mul_right h3 s0
  have fin : |(q - yb) * sq| ≤ ((37 * u + 1.2 * κ) * Y) * sq := by
    have e : (q - yb) * sq = (q * (sa * sp) - sq * yb) - q * (sa * sp - sq) := by ring
    rw [e]
    refine (abs_sub _ _).trans ?_
    have h1 : |q * (sa * sp - sq)| ≤ (1.1 * Y) * (κ * sq) := by
      rw [abs_mul]; exact mul_le_mul qabs hk (abs_nonneg _) (by linarith)
    have h2 : (0:ℝ) ≤ κ * (sq * Y) := mul_nonneg hκ0 K0
    have e3 : ((37 * u + 1.2 * κ) * Y) * sq = 37 * U + 1.2 * (κ * (sq * Y)) := by rw [hU]; ring
    have e4 : (1.1 * Y) * (κ * sq) = 1.1 * (κ * (sq * Y)) := by ring
    rw [e3]
    linarith
  rw [abs_mul, abs_of_pos s0] at fin
  exact le_of_mul_le_mul_right fin s0

/-- Product of the two rounded square roots. -/
theorem roots_err {ab a abp sa sp κ : ℝ} (u0 : 0 ≤ u) (u1 : u ≤ 1 / 1000) (hab : 0 < ab) (ha : 0 < a)
    (hp : 0 < abp) (hsa : |sa - √a| ≤ 2 * u * √a) (hsp : |sp - √abp| ≤ 2 * u * √abp)
    (hk : |a * abp - ab| ≤ κ * ab) (hκ : κ ≤ 1 / 40) : |sa * sp - √ab| ≤ (κ + 4.2 * u) * √ab := by
  have s0 : 0 < √ab := sqrt_pos.mpr hab
  have e0 : √a * √abp = √(a * abp) := (Real.sqrt_mul ha.le _).symm
  have q0 : 0 < √(a * abp) := sqrt_pos.mpr (mul_pos ha hp)
  have h1 : |√(a * abp) - √ab| ≤ κ * √ab := by
    have h2 : (√(a * abp) - √ab) * (√(a * abp) + √ab) = a * abp - ab := by
      have e1 := Real.mul_self_sqrt (mul_pos ha hp).le
      have e2 := Real.mul_self_sqrt hab.le
      ring_nf
      rw [Real.sq_sqrt (mul_pos ha hp).le, Real.sq_sqrt hab.le]
    have h3 : |√(a * abp) - √ab| * √ab ≤ κ * √ab * √ab := by
      have h4 : |√(a * abp) - √ab| * √ab ≤ |√(a * abp) - √ab| * (√(a * abp) + √ab) :=
        mul_le_mul_of_nonneg_left (by linarith) (abs_nonneg _)
      have h5 : |√(a * abp) - √ab| * (√(a * abp) + √ab) = |a * abp - ab| := by
        rw [← h2, abs_mul, abs_of_pos (by linarith : 0 < √(a * abp) + √ab)]
      have h6 : κ * √ab * √ab = κ * ab := by rw [mul_assoc, Real.mul_self_sqrt hab.le]
      linarith
    exact le_of_mul_le_mul_right h3 s0
  have h2 := abs_le.mp h1
  have hκs : κ * √ab ≤ 1 / 40 * √ab := mul_le_mul_of_nonneg_right hκ s0.le
  have h3 : |sa * sp - √a * √abp| ≤ 4.01 * u * √(a * abp) := by
    have e : sa * sp - √a * √abp = (sa - √a) * sp + √a * (sp - √abp) := by ring
    rw [e]
    refine (abs_add_le _ _).trans ?_
    rw [abs_mul, abs_mul, abs_of_pos (sqrt_pos.mpr ha)]
    have g1 : |sp| ≤ 1.002 * √abp := by
      have := abs_add_le (sp - √abp) √abp
      rw [sub_add_cancel, abs_of_pos (sqrt_pos.mpr hp)] at this
      have := mul_le_mul_of_nonneg_right u1 (sqrt_pos.mpr hp).le
      linarith
    have g2 := mul_le_mul hsa g1 (abs_nonneg _) (by positivity)
    have g3 := mul_le_mul_of_nonneg_left hsp (sqrt_pos.mpr ha).le
    have e1 : 2 * u * √a * (1.002 * √abp) = 2.004 * (u * √(a * abp)) := by rw [← e0]; ring
    have e2 : √a * (2 * u * √abp) = 2 * (u * √(a * abp)) := by rw [← e0]; ring
    have := mul_nonneg u0 q0.le
    linarith
  rw [e0] at h3
  have h4 := abs_add_le (sa * sp - √(a * abp)) (√(a * abp) - √ab)
  rw [sub_add_sub_cancel] at h4
  have h5 : u * √(a * abp) ≤ u * (1.03 * √ab) := mul_le_mul_of_nonneg_left (by linarith) u0
  have := mul_nonneg u0 s0.le
  linarith

end Rounded
end Mbd
