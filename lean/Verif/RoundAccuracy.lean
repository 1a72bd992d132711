import Verif.PropsRoundOrder
import Verif.PropsTemperature

/-!
# Errors of mean, spread, exponents and weights
-/

namespace Spec

open Mbd Real

/-- Spread of a list of numbers (population standard deviation). -/
noncomputable def spread (l : List ℝ) : ℝ :=
  √((l.map fun r => (r - l.sum / l.length) ^ 2).sum / l.length)

/-- What a sample is worth: its reward or, with a demonstration, what the demonstration grants it if that is more. -/
noncomputable def sampleValue (cfg : Cfg) (sim : Sim) (rewXref : ℝ) (Ys : List (List U)) (Y : List U) : ℝ :=
  if cfg.enableDemo then max (sim.reward Y) (sim.xref Y - listMax (Ys.map sim.xref) + rewXref) else sim.reward Y

/-- The exact weight of a sample among the samples `Ys`: proportional to `exp (value / (spread of rewards · temp))`. -/
noncomputable def exactWeight (cfg : Cfg) (sim : Sim) (rewXref : ℝ) (Ys : List (List U)) (Y : List U) : ℝ :=
  exp (sampleValue cfg sim rewXref Ys Y / (spread (Ys.map sim.reward) * cfg.temp)) /
    (Ys.map fun Z => exp (sampleValue cfg sim rewXref Ys Z / (spread (Ys.map sim.reward) * cfg.temp))).sum

/-- Error of the exponents, `k` the ratio of the largest reward to the spread. -/
noncomputable def logitTol (u s k temp : ℝ) : ℝ :=
  k * (4.2 * s + (51 + 15 * k) * u + 1.7 * (k * (1.1 * s + 4.1 * u)) ^ 2) / temp

/-- Relative error of the weights apart from the exponents. -/
noncomputable def relTol (N : ℕ) (u s η : ℝ) : ℝ := 4 * u + 2 * s + 2 * (N + 1) * η

end Spec

namespace Mbd

open Real Classical _root_.Spec

namespace Rounded

variable {A : PlanArith} {N : ℕ} {u s m p η : ℝ}

/-! ## Means -/

theorem mean_map_lin {α : Type} {l : List α} (hl : l ≠ []) (f g : α → ℝ) (a b c : ℝ) :
    Mbd.mean (l.map fun x => a * f x + b * g x + c) = a * Mbd.mean (l.map f) + b * Mbd.mean (l.map g) + c := by
  have hn : (l.length : ℝ) ≠ 0 := by
    simpa using hl
  have hs : (l.map fun x => a * f x + b * g x + c).sum = a * (l.map f).sum + b * (l.map g).sum + l.length * c := by
    clear hn hl
    induction l with
    | nil => simp
    | cons x l ih =>
      simp only [List.map_cons, List.sum_cons, ih, List.length_cons, Nat.cast_add, Nat.cast_one]; ring
  unfold Mbd.mean
  simp only [hs, List.length_map]
  field_simp

theorem mean_map_mono {α : Type} {l : List α} {f g : α → ℝ} (h : ∀ x ∈ l, f x ≤ g x) :
    Mbd.mean (l.map f) ≤ Mbd.mean (l.map g) := by
  have hs : (l.map f).sum ≤ (l.map g).sum := List.sum_le_sum h
  unfold Mbd.mean
  simp only [List.length_map]
  exact div_le_div_of_nonneg_right hs (Nat.cast_nonneg _)

theorem mean_map_congr {α : Type} {l : List α} {f g : α → ℝ} (h : ∀ x ∈ l, f x = g x) :
    Mbd.mean (l.map f) = Mbd.mean (l.map g) := by rw [List.map_congr_left h]

theorem mean_abs_le {α : Type} {l : List α} (f : α → ℝ) : |Mbd.mean (l.map f)| ≤ Mbd.mean (l.map fun x => |f x|) := by
  have h : |(l.map f).sum| ≤ (l.map fun x => |f x|).sum := by
    induction l with
    | nil => simp
    | cons x l ih => simp only [List.map_cons, List.sum_cons]; exact (abs_add_le _ _).trans (by linarith)
  unfold Mbd.mean
  simp only [List.length_map]
  rw [abs_div, abs_of_nonneg (Nat.cast_nonneg l.length : (0:ℝ) ≤ _)]
  exact div_le_div_of_nonneg_right h (Nat.cast_nonneg _)

/-- The mean is at most the root mean square. -/
theorem mean_sq_le {α : Type} {l : List α} (hl : l ≠ []) (f : α → ℝ) :
    Mbd.mean (l.map f) ^ 2 ≤ Mbd.mean (l.map fun x => f x ^ 2) := by
  have h1 := mean_map_lin hl (fun x => f x ^ 2) f 1 (-2 * Mbd.mean (l.map f)) (Mbd.mean (l.map f) ^ 2)
  have h2 : (0:ℝ) ≤ Mbd.mean (l.map fun x => 1 * f x ^ 2 + -2 * Mbd.mean (l.map f) * f x + Mbd.mean (l.map f) ^ 2) := by
    unfold Mbd.mean
    refine div_nonneg (List.sum_nonneg ?_) (Nat.cast_nonneg _)
    intro y hy
    obtain ⟨x, -, rfl⟩ := List.mem_map.mp hy
    have := sq_nonneg (f x - (l.map f).sum / (l.map f).length)
    nlinarith
  rw [h1] at h2
  nlinarith

/-- Error of a computed mean. -/
theorem mean_err (acc : PlanAccurate A N u s m p η) (f : PlanFine N u s m p η) (hη : η ≤ u) {l : List ℝ} (hl : l ≠ [])
    (hN : l.length ≤ N) :
    |mean A l - Mbd.mean l| ≤ (1.1 * s + 4 * u) * Mbd.mean (l.map abs) + 2.2 * η := by
  have h1 := acc.sum l hN
  have h2 := acc.const l.length
  have n1 : (1:ℝ) ≤ l.length := by exact_mod_cast List.length_pos_iff.mpr hl
  have hS : |l.sum| ≤ (l.map abs).sum := by
    clear h1 h2 n1 hN hl
    induction l with
    | nil => simp
    | cons x l ih => simp only [List.map_cons, List.sum_cons]; exact (abs_add_le _ _).trans (by linarith)
  have eM : (l.map abs).sum = Mbd.mean (l.map abs) * l.length := by
    unfold Mbd.mean; rw [List.length_map]; field_simp
  have eS : l.sum = Mbd.mean l * l.length := by unfold Mbd.mean; field_simp
  unfold mean
  rw [eS, eM] at hS
  rw [eS, eM] at h1
  generalize A.sum l = S' at *
  generalize A.const (l.length : ℝ) = n' at *
  generalize Mbd.mean (l.map abs) = M at *
  generalize Mbd.mean l = μ at *
  generalize (l.length : ℝ) = n at *
  have he := eta_le f
  obtain ⟨u0, s0, m0, p0, e0, u1, s1, m1, p1, e1⟩ := f
  have n0 : 0 < n := by linarith
  rw [abs_of_pos n0] at h2
  have M0 : |μ| ≤ M := by
    rw [abs_mul, abs_of_pos n0] at hS
    exact le_of_mul_le_mul_right hS n0
  have hM : 0 ≤ M := (abs_nonneg _).trans M0
  have h3 := abs_le.mp h2
  have hun := mul_le_mul_of_nonneg_right u1 n0.le
  have hen : η * 1 ≤ η * n := mul_le_mul_of_nonneg_left n1 e0
  have hen2 : η * n ≤ 1 / 4000 * n := mul_le_mul_of_nonneg_right he n0.le
  have n'lb : 0.99 * n ≤ n' := by linarith
  have n'0 : 0 < n' := by linarith
  have hd := acc.div S' n' n'0.ne'
  -- exact quotient
  have hq : |S' / n' - μ| ≤ 1.02 * s * M + 1.02 * η + 2.1 * u * M := by
    have e : S' / n' - μ = ((S' - μ * n) + μ * (n - n')) / n' := by field_simp; ring
    rw [e, abs_div, abs_of_pos n'0, div_le_iff₀ n'0]
    refine (abs_add_le _ _).trans ?_
    rw [abs_mul μ, abs_sub_comm n n']
    have g1 : |μ| * |n' - n| ≤ M * (u * n + η) := mul_le_mul M0 h2 (abs_nonneg _) hM
    have g2 : M * (u * n + η) ≤ M * (2 * u * n) := by
      refine mul_le_mul_of_nonneg_left ?_ hM
      have := mul_le_mul_of_nonneg_right hη n0.le
      linarith
    have a0 : 0 ≤ 1.02 * s * M + 1.02 * η + 2.1 * u * M := by positivity
    have g3 := mul_le_mul_of_nonneg_left n'lb a0
    have t1 : 0 ≤ s * M * n := by positivity
    have t2 : 0 ≤ u * M * n := by positivity
    have t3 : 0 ≤ η * n := by positivity
    linarith
  have hqa : |S' / n'| ≤ 1.02 * M + 1.02 * η := by
    have g := abs_add_le (S' / n' - μ) μ
    rw [sub_add_cancel] at g
    have t1 := mul_le_mul_of_nonneg_right s1 hM
    have t2 := mul_le_mul_of_nonneg_right u1 hM
    linarith
  have g := abs_sub_le (A.div S' n') (S' / n') μ
  have t1 := mul_le_mul_of_nonneg_left hqa u0
  have t2 := mul_le_mul_of_nonneg_right u1 e0
  have t3 : 0 ≤ s * M := by positivity
  have t4 : 0 ≤ u * M := by positivity
  linarith

/-! ## Spread -/

/-- The computed variance, from the computed differences `d`. -/
theorem var_err (acc : PlanAccurate A N u s m p η) (f : PlanFine N u s m p η) (hη : η ≤ u) {l : List ℝ} (hl : l ≠ [])
    (hN : l.length ≤ N) (d : ℝ → ℝ) :
    |mean A (l.map fun r => A.mul (d r) (d r)) - Mbd.mean (l.map fun r => d r ^ 2)| ≤
      (1.2 * s + 5.1 * u) * Mbd.mean (l.map fun r => d r ^ 2) + 3.3 * η := by
  have h1 := mean_err acc f hη (l := l.map fun r => A.mul (d r) (d r)) (by simpa using hl) (by simpa using hN)
  rw [List.map_map] at h1
  have hm : ∀ r, |A.mul (d r) (d r) - d r ^ 2| ≤ u * d r ^ 2 + η := by
    intro r
    have := acc.mul (d r) (d r)
    rw [← sq, abs_of_nonneg (sq_nonneg (d r))] at this
    exact this
  have c0 := mean_map_lin hl (fun r => d r ^ 2) (fun _ => (0:ℝ)) u 0 η
  simp only [mul_zero, add_zero, zero_mul] at c0
  have c1 := mean_map_lin hl (fun r => d r ^ 2) (fun _ => (0:ℝ)) (1 + u) 0 η
  simp only [mul_zero, add_zero, zero_mul] at c1
  have h2 : |Mbd.mean (l.map fun r => A.mul (d r) (d r)) - Mbd.mean (l.map fun r => d r ^ 2)| ≤
      u * Mbd.mean (l.map fun r => d r ^ 2) + η := by
    have e := mean_map_lin hl (fun r => A.mul (d r) (d r)) (fun r => d r ^ 2) 1 (-1) 0
    have e' : Mbd.mean (l.map fun r => A.mul (d r) (d r)) - Mbd.mean (l.map fun r => d r ^ 2) =
      Mbd.mean (l.map fun r => A.mul (d r) (d r) - d r ^ 2) := by
      rw [show (fun r => A.mul (d r) (d r) - d r ^ 2) = fun r => 1 * A.mul (d r) (d r) + -1 * d r ^ 2 + 0 from
        funext fun r => by ring, e]
      ring
    rw [e', ← c0]
    exact (mean_abs_le _).trans (mean_map_mono fun r _ => hm r)
  have h3 : Mbd.mean (l.map (abs ∘ fun r => A.mul (d r) (d r))) ≤ (1 + u) * Mbd.mean (l.map fun r => d r ^ 2) + η := by
    rw [← c1]
    refine mean_map_mono fun r _ => ?_
    have := abs_add_le (A.mul (d r) (d r) - d r ^ 2) (d r ^ 2)
    rw [sub_add_cancel, abs_of_nonneg (sq_nonneg (d r))] at this
    have := hm r
    simp only [Function.comp]
    linarith
  have W0 : 0 ≤ Mbd.mean (l.map fun r => d r ^ 2) := (sq_nonneg _).trans (mean_sq_le hl d)
  generalize Mbd.mean (l.map fun r => d r ^ 2) = W at *
  generalize Mbd.mean (l.map (abs ∘ fun r => A.mul (d r) (d r))) = Wa at *
  have g := abs_sub_le (mean A (l.map fun r => A.mul (d r) (d r))) (Mbd.mean (l.map fun r => A.mul (d r) (d r))) W
  obtain ⟨u0, s0, m0, p0, e0, u1, s1, m1, p1, e1⟩ := f
  have t1 : (1.1 * s + 4 * u) * Wa ≤ (1.1 * s + 4 * u) * ((1 + u) * W + η) :=
    mul_le_mul_of_nonneg_left h3 (by linarith)
  have t2 : (1.1 * s + 4 * u) * (u * W) ≤ (1.1 * s + 4 * u) * (1 / 1000 * W) :=
    mul_le_mul_of_nonneg_left (mul_le_mul_of_nonneg_right u1 W0) (by linarith)
  have t3 : (1.1 * s + 4 * u) * η ≤ 0.05 * η := mul_le_mul_of_nonneg_right (by linarith) e0
  have t4 : 0 ≤ s * W := mul_nonneg s0 W0
  have t5 : 0 ≤ u * W := mul_nonneg u0 W0
  linarith

/-- Root mean square of perturbed differences. -/
theorem rms_bounds {l : List ℝ} (hl : l ≠ []) (d d' : ℝ → ℝ) {e σ : ℝ} (e0 : 0 ≤ e) (hσ : 0 ≤ σ)
    (h : ∀ x ∈ l, |d' x - d x| ≤ e) (hs : Mbd.mean (l.map fun r => d r ^ 2) = σ ^ 2) :
    Mbd.mean (l.map fun r => d' r ^ 2) ≤ (σ + e) ^ 2 ∧ σ ^ 2 - 2 * e * σ ≤ Mbd.mean (l.map fun r => d' r ^ 2) := by
  have hm : Mbd.mean (l.map fun r => |d r|) ≤ σ := by
    have h1 := mean_sq_le hl fun r => |d r|
    simp only [sq_abs] at h1
    rw [hs] at h1
    exact (le_abs_self _).trans (abs_le_of_sq_le_sq h1 hσ)
  constructor
  · have h1 := mean_map_mono (l := l) (f := fun r => d' r ^ 2) (g := fun r => 1 * d r ^ 2 + (2 * e) * |d r| + e ^ 2) (by
      intro x hx
      have h2 : |d' x| ≤ |d x| + e := by
        have := abs_add_le (d' x - d x) (d x)
        rw [sub_add_cancel] at this
        linarith [h x hx]
      have h3 := mul_self_le_mul_self (abs_nonneg _) h2
      rw [abs_mul_abs_self] at h3
      have h4 := abs_mul_abs_self (d x)
      nlinarith)
    rw [mean_map_lin hl (fun r => d r ^ 2) (fun r => |d r|), hs] at h1
    have := mul_le_mul_of_nonneg_left hm e0
    nlinarith
  · have h1 := mean_map_mono (l := l) (f := fun r => 1 * d r ^ 2 + (-(2 * e)) * |d r| + 0) (g := fun r => d' r ^ 2) (by
      intro x hx
      have h2 : |d x| ≤ |d' x| + e := by
        have := abs_add_le (d x - d' x) (d' x)
        rw [sub_add_cancel, abs_sub_comm] at this
        linarith [h x hx]
      have h4 := abs_mul_abs_self (d x)
      have h5 := abs_mul_abs_self (d' x)
      have h6 := abs_nonneg (d x)
      have h7 := abs_nonneg (d' x)
      rcases le_total (|d x|) e with hc | hc
      · nlinarith
      · have h8 := mul_self_le_mul_self (by linarith : 0 ≤ |d x| - e) (by linarith : |d x| - e ≤ |d' x|)
        nlinarith)
    rw [mean_map_lin hl (fun r => d r ^ 2) (fun r => |d r|), hs] at h1
    have := mul_le_mul_of_nonneg_left hm e0
    linarith

theorem root_up {V W e σ ν : ℝ} (ν0 : 0 ≤ ν) (σ0 : 0 < σ) (e0 : 0 ≤ e) (h1 : W ≤ (σ + e) ^ 2) (hv : V - W ≤ ν * W) :
    √V ≤ (1 + ν / 2) * (σ + e) := by
  rw [show (1 + ν / 2) * (σ + e) = √(((1 + ν / 2) * (σ + e)) ^ 2) from
    (Real.sqrt_sq (by positivity)).symm]
  refine Real.sqrt_le_sqrt ?_
  have a1 : (1 + ν) * W ≤ (1 + ν) * (σ + e) ^ 2 := mul_le_mul_of_nonneg_left h1 (by linarith)
  have a2 : (0:ℝ) ≤ (ν / 2) ^ 2 * (σ + e) ^ 2 := by positivity
  have e1 : ((1 + ν / 2) * (σ + e)) ^ 2 = (1 + ν) * (σ + e) ^ 2 + (ν / 2) ^ 2 * (σ + e) ^ 2 := by ring
  rw [e1]
  linarith

theorem root_lo {V W e σ ν : ℝ} (ν0 : 0 ≤ ν) (ν1 : ν ≤ 0.02) (e0 : 0 ≤ e) (hes : 0 ≤ σ - 2 * e)
    (h2 : σ ^ 2 - 2 * e * σ ≤ W) (hv : -(ν * W) ≤ V - W) : (1 - ν) * (σ - 2 * e) ≤ √V := by
  refine Real.le_sqrt_of_sq_le ?_
  have a0 : (σ - 2 * e) ^ 2 ≤ σ ^ 2 - 2 * e * σ := by
    have h : 0 ≤ e * (σ - 2 * e) := mul_nonneg e0 hes
    have e1 : σ ^ 2 - 2 * e * σ - (σ - 2 * e) ^ 2 = 2 * (e * (σ - 2 * e)) := by ring
    linarith
  have a1 : (1 - ν) * (σ - 2 * e) ^ 2 ≤ (1 - ν) * W := mul_le_mul_of_nonneg_left (by linarith) (by linarith)
  have a3 : (1 - ν) ^ 2 ≤ 1 - ν := by
    have h : 0 ≤ ν * (1 - ν) := mul_nonneg ν0 (by linarith)
    linarith
  have a2 : (1 - ν) ^ 2 * (σ - 2 * e) ^ 2 ≤ (1 - ν) * (σ - 2 * e) ^ 2 :=
    mul_le_mul_of_nonneg_right a3 (sq_nonneg _)
  rw [mul_pow]
  linarith

/-- From the variance to the spread. -/
theorem root_err (acc : PlanAccurate A N u s m p η) (f : PlanFine N u s m p η) {V W e σ : ℝ} (hσ : 1.2e-4 ≤ σ)
    (hη : η ≤ 1e-9 * u) (e0 : 0 ≤ e) (he : e ≤ σ / 40) (h1 : W ≤ (σ + e) ^ 2) (h2 : σ ^ 2 - 2 * e * σ ≤ W)
    (hV : |V - W| ≤ (1.2 * s + 5.1 * u) * W + 3.3 * η) :
    |A.sqrt V - σ| ≤ 2 * e + (1.2 * s + 9 * u) * σ := by
  obtain ⟨u0, s0, m0, p0, e00, u1, s1, m1, p1, e1⟩ := f
  have σ0 : 0 < σ := by linarith
  have hσ2 : (1.2e-4) * σ ≤ σ ^ 2 := by rw [sq]; exact mul_le_mul_of_nonneg_right hσ σ0.le
  have hη2 : 3.3 * η ≤ 0.3 * (u * σ ^ 2) := by
    have : (1.2e-4:ℝ) * 1.2e-4 ≤ σ ^ 2 := by linarith [mul_le_mul_of_nonneg_left hσ (by norm_num : (0:ℝ) ≤ 1.2e-4)]
    have h3 := mul_le_mul_of_nonneg_left this u0
    linarith
  have hη1 : η ≤ 0.1 * (u * σ) := by
    have h3 := mul_le_mul_of_nonneg_left hσ u0
    linarith
  have hW0 : 0 ≤ W := by
    have := mul_le_mul_of_nonneg_right he σ0.le
    have : (0:ℝ) ≤ σ ^ 2 := by positivity
    nlinarith
  have hv := abs_le.mp hV
  have hν : 1.2 * s + 5.1 * u ≤ 0.02 := by linarith
  have t1 := mul_le_mul_of_nonneg_right hν hW0
  -- lower bound of W in terms of σ²
  have hWl : 0.95 * σ ^ 2 ≤ W := by
    have := mul_le_mul_of_nonneg_right he σ0.le
    nlinarith
  have hV0 : 0 ≤ V := by
    have : u * σ ^ 2 ≤ 1 / 1000 * σ ^ 2 := mul_le_mul_of_nonneg_right u1 (by positivity)
    have : (0:ℝ) ≤ σ ^ 2 := by positivity
    linarith [hv.1]
  have hs := acc.sqrt V hV0
  obtain ⟨ν, hνd⟩ : ∃ ν, ν = 1.2 * s + 5.5 * u := ⟨_, rfl⟩
  have ν0 : 0 ≤ ν := by rw [hνd]; linarith
  have ν1 : ν ≤ 0.02 := by rw [hνd]; linarith
  have huW : u * (0.95 * σ ^ 2) ≤ u * W := mul_le_mul_of_nonneg_left hWl u0
  have hVW : |V - W| ≤ ν * W := by
    rw [hνd]
    have : 0 ≤ u * W := mul_nonneg u0 hW0
    linarith
  have hv2 := abs_le.mp hVW
  have up := root_up ν0 σ0 e0 h1 hv2.2
  have lo := root_lo ν0 ν1 e0 (by linarith) h2 hv2.1
  have sq0 : 0 ≤ √V := Real.sqrt_nonneg V
  have hs2 := abs_le.mp hs
  have k1 : ν * e ≤ 0.02 * e := mul_le_mul_of_nonneg_right ν1 e0
  have k2 : √V ≤ 1.1 * σ := by
    have : (1 + ν / 2) * (σ + e) ≤ 1.01 * (1.025 * σ) :=
      mul_le_mul (by linarith) (by linarith) (by linarith) (by norm_num)
    linarith
  have k3 := mul_le_mul_of_nonneg_left k2 u0
  have k4 : ν * σ = (1.2 * s + 5.5 * u) * σ := by rw [hνd]
  have k5 : 0 ≤ u * σ := mul_nonneg u0 σ0.le
  have k6 : 0 ≤ s * σ := mul_nonneg s0 σ0.le
  have k7 : 0 ≤ ν * e := mul_nonneg ν0 e0
  rw [abs_le]
  constructor
  · linarith [hs2.1]
  · linarith [hs2.2]

/-! ## Softmax -/

theorem sum_err {α : Type} (f g : α → ℝ) : ∀ l : List α, (∀ y ∈ l, |f y - g y| ≤ u * g y + η) →
    |(l.map f).sum - (l.map g).sum| ≤ u * (l.map g).sum + l.length * η
  | [], _ => by simp
  | y :: l, h => by
    have ih := sum_err f g l fun x hx => h x (List.mem_cons_of_mem _ hx)
    have h1 := h y List.mem_cons_self
    simp only [List.map_cons, List.sum_cons, List.length_cons, Nat.cast_add, Nat.cast_one]
    have h2 := abs_add_le (f y - g y) ((l.map f).sum - (l.map g).sum)
    have e2 : f y - g y + ((l.map f).sum - (l.map g).sum) = f y + (l.map f).sum - (g y + (l.map g).sum) := by ring
    rw [e2] at h2
    linarith

theorem quot_hi {g X D a : ℝ} (g0 : 0 ≤ g) (hX : 0 < X) (hD : 0 < D) (a0 : 0 ≤ a) (a1 : a ≤ 0.0125)
    (h : X * (1 - a) ≤ D) : g / D ≤ (1 + 1.02 * a) * (g / X) := by
  rw [div_le_iff₀ hD]
  have gX : 0 ≤ g / X := div_nonneg g0 hX.le
  have t1 := mul_le_mul_of_nonneg_left h (mul_nonneg (by linarith : 0 ≤ 1 + 1.02 * a) gX)
  have t2 : g / X * X = g := by field_simp
  have t3 : 1 ≤ (1 + 1.02 * a) * (1 - a) := by
    have := mul_le_mul_of_nonneg_left a1 a0
    linarith
  have t4 := mul_le_mul_of_nonneg_left t3 g0
  have t5 : (1 + 1.02 * a) * (g / X) * (X * (1 - a)) = (g / X * X) * ((1 + 1.02 * a) * (1 - a)) := by ring
  rw [t5, t2] at t1
  linarith

theorem quot_lo {g X D a : ℝ} (g0 : 0 ≤ g) (hX : 0 < X) (hD : 0 < D) (a0 : 0 ≤ a) (a1 : a ≤ 0.0125)
    (h : D ≤ X * (1 + a)) : (1 - a) * (g / X) ≤ g / D := by
  rw [le_div_iff₀ hD]
  have gX : 0 ≤ g / X := div_nonneg g0 hX.le
  have t1 := mul_le_mul_of_nonneg_left h (mul_nonneg (by linarith : 0 ≤ 1 - a) gX)
  have t2 : g / X * X = g := by field_simp
  have t3 : (1 - a) * (1 + a) ≤ 1 := by linarith [mul_nonneg a0 a0]
  have t4 := mul_le_mul_of_nonneg_left t3 g0
  have t5 : (1 - a) * (g / X) * (X * (1 + a)) = (g / X * X) * ((1 - a) * (1 + a)) := by ring
  rw [t5, t2] at t1
  linarith

theorem quot_fin_lo {u s k η a G H F w : ℝ} (u0 : 0 ≤ u) (s0 : 0 ≤ s) (k0 : 0 ≤ k) (u1 : u ≤ 1 / 1000) (e0 : 0 ≤ η)
    (ha : a = 1.001 * s + u + 1.04 * k) (a1 : a ≤ 0.0125) (G0 : 0 ≤ G) (h1 : (1 - u) * F ≤ w + η)
    (h2 : (1 - u) * H - 1.2 * η ≤ F) (h3 : (1 - a) * G ≤ H) :
    (1 - (4 * u + 2 * s + 2 * k)) * G - 3 * η ≤ w := by
  have s2 := mul_le_mul_of_nonneg_left h2 (by linarith : 0 ≤ 1 - u)
  have s3 := mul_le_mul_of_nonneg_left h3 (mul_nonneg (by linarith) (by linarith) : 0 ≤ (1 - u) * (1 - u))
  have a0 : 0 ≤ a := by rw [ha]; linarith
  have s4 : 1 - (4 * u + 2 * s + 2 * k) ≤ (1 - u) * (1 - u) * (1 - a) := by
    have h4 : (1 - 2 * u) * (1 - a) ≤ (1 - u) * (1 - u) * (1 - a) :=
      mul_le_mul_of_nonneg_right (by linarith [mul_nonneg u0 u0]) (by linarith)
    have h5 : 1 - 2 * u - a ≤ (1 - 2 * u) * (1 - a) := by linarith [mul_nonneg u0 a0]
    linarith
  have s5 := mul_le_mul_of_nonneg_right s4 G0
  linarith [mul_nonneg u0 e0]

theorem quot_fin_hi {u s k η a G H F w : ℝ} (u0 : 0 ≤ u) (s0 : 0 ≤ s) (k0 : 0 ≤ k) (u1 : u ≤ 1 / 1000) (e0 : 0 ≤ η)
    (ha : a = 1.001 * s + u + 1.04 * k) (a1 : a ≤ 0.0125) (G0 : 0 ≤ G) (h1 : w ≤ (1 + u) * F + η)
    (h2 : F ≤ (1 + u) * H + 1.2 * η) (h3 : H ≤ (1 + 1.02 * a) * G) :
    w ≤ (1 + (4 * u + 2 * s + 2 * k)) * G + 3 * η := by
  have s2 := mul_le_mul_of_nonneg_left h2 (by linarith : 0 ≤ 1 + u)
  have s3 := mul_le_mul_of_nonneg_left h3 (mul_nonneg (by linarith) (by linarith) : 0 ≤ (1 + u) * (1 + u))
  have a0 : 0 ≤ a := by rw [ha]; linarith
  have s4 : (1 + u) * (1 + u) * (1 + 1.02 * a) ≤ 1 + (4 * u + 2 * s + 2 * k) := by
    have h4 : (1 + u) * (1 + u) * (1 + 1.02 * a) ≤ (1 + 2.001 * u) * (1 + 1.02 * a) :=
      mul_le_mul_of_nonneg_right (by linarith [mul_le_mul_of_nonneg_left u1 u0]) (by linarith)
    have h5 : (1 + 2.001 * u) * (1 + 1.02 * a) ≤ 1 + 2.1 * u + 1.02 * a := by
      linarith [mul_le_mul_of_nonneg_left a1 u0]
    linarith
  have s5 := mul_le_mul_of_nonneg_right s4 G0
  linarith [mul_le_mul_of_nonneg_right u1 e0]

/-- The quotient of a computed exponential and the computed divisor. -/
theorem quotient_err (f : PlanFine N u s m p η) {X X' D e g w : ℝ} (hX : 0.99 ≤ X) (g0 : 0 ≤ g)
    (h1 : |X' - X| ≤ u * X + N * η) (h2 : |D - X'| ≤ s * X' + η) (h3 : |e - g| ≤ u * g + η) (e0 : 0 ≤ e)
    (h4 : |w - e / D| ≤ u * (e / D) + η) (hD : 0.9 ≤ D) :
    (1 - relTol N u s η) * (g / X) - 3 * η ≤ w ∧ w ≤ (1 + relTol N u s η) * (g / X) + 3 * η := by
  have he := eta_le f
  obtain ⟨u0, s0, m0, p0, e00, u1, s1, m1, p1, e1⟩ := f
  have N0 : (0:ℝ) ≤ N := Nat.cast_nonneg N
  obtain ⟨k, hk⟩ : ∃ k, k = (N + 1) * η := ⟨_, rfl⟩
  have k0 : 0 ≤ k := by rw [hk]; positivity
  have k1 : k ≤ 1 / 1000 := by rw [hk]; linarith
  have hX0 : 0 < X := by linarith
  have hD0 : 0 < D := by linarith
  have h1' := abs_le.mp h1
  have h2' := abs_le.mp h2
  have h3' := abs_le.mp h3
  have h4' := abs_le.mp h4
  have kX : k ≤ 1.02 * (k * X) := by
    have := mul_le_mul_of_nonneg_left hX k0
    linarith
  have uX : u * X ≤ 1 / 1000 * X := mul_le_mul_of_nonneg_right u1 hX0.le
  have kk : N * η = k - η := by rw [hk]; ring
  have sX' : s * X' ≤ s * (X + (u * X + N * η)) := mul_le_mul_of_nonneg_left (by linarith) s0
  have sX : 0 ≤ s * X := by positivity
  have suX : s * (u * X) ≤ s * (1 / 1000 * X) := mul_le_mul_of_nonneg_left uX s0
  have sk : s * (N * η) ≤ 1 / 100 * (N * η) := mul_le_mul_of_nonneg_right s1 (by positivity)
  have Nη : 0 ≤ N * η := by positivity
  -- divisor
  have Dlo : X * (1 - (1.001 * s + u + 1.04 * k)) ≤ D := by
    linarith
  have Dhi : D ≤ X * (1 + (1.001 * s + u + 1.04 * k)) := by
    linarith
  obtain ⟨a, ha⟩ : ∃ a, a = 1.001 * s + u + 1.04 * k := ⟨_, rfl⟩
  rw [← ha] at Dlo Dhi
  have a0 : 0 ≤ a := by rw [ha]; linarith
  have a1 : a ≤ 0.0125 := by rw [ha]; linarith
  have rt : relTol N u s η = 4 * u + 2 * s + 2 * k := by unfold relTol; rw [hk]; ring
  rw [rt]
  have gX : 0 ≤ g / X := div_nonneg g0 hX0.le
  have eD : 0 ≤ e / D := div_nonneg e0 hD0.le
  have q : η / D ≤ 1.2 * η := by
    rw [div_le_iff₀ hD0]
    have := mul_le_mul_of_nonneg_left hD e00
    linarith
  have gDhi := quot_hi g0 hX0 hD0 a0 a1 Dlo
  have gDlo := quot_lo g0 hX0 hD0 a0 a1 Dhi
  -- quotient e / D
  have eDhi : e / D ≤ (1 + u) * (g / D) + 1.2 * η := by
    have : e / D ≤ ((1 + u) * g + η) / D := div_le_div_of_nonneg_right (by linarith) hD0.le
    rw [add_div, mul_div_assoc] at this
    linarith
  have eDlo : (1 - u) * (g / D) - 1.2 * η ≤ e / D := by
    have : ((1 - u) * g - η) / D ≤ e / D := div_le_div_of_nonneg_right (by linarith) hD0.le
    rw [sub_div, mul_div_assoc] at this
    linarith
  exact ⟨quot_fin_lo u0 s0 k0 u1 e00 ha a1 gX (by linarith) eDlo gDlo,
    quot_fin_hi u0 s0 k0 u1 e00 ha a1 gX (by linarith) eDhi gDhi⟩

/-- Weights for exponents off by up to `Δ`. -/
theorem soft_pert (acc : PlanAccurate A N u s m p η) (f : PlanFine N u s m p η) {α : Type} {l : List α}
    (hN : l.length ≤ N) (z z' : α → ℝ) (c Δ : ℝ)
    (hz : ∀ y ∈ l, |A.sub (z' y) (listMax (l.map z')) - (z y - c)| ≤ Δ) {x : α} (hx : x ∈ l) :
    let w' := A.div (A.exp (A.sub (z' x) (listMax (l.map z')))) (A.sum (softmaxExps A (l.map z')))
    let w := exp (z x) / (l.map fun y => exp (z y)).sum
    exp (-(2 * Δ)) * (1 - relTol N u s η) * w - 3 * η ≤ w' ∧ w' ≤ exp (2 * Δ) * (1 + relTol N u s η) * w + 3 * η := by
  intro w' w
  have hl : l ≠ [] := List.ne_nil_of_mem hx
  have hl' : l.map z' ≠ [] := by simpa using hl
  obtain ⟨d1, d2, d3⟩ := softmax_divisor acc f hl' (by simpa using hN)
  obtain ⟨M, hM⟩ : ∃ M, M = listMax (l.map z') := ⟨_, rfl⟩
  have he := eta_le f
  have xle : ∀ y ∈ l, A.sub (z' y) M ≤ 1 := fun y hy => by
    rw [hM]
    have := sub_max_le acc f (le_listMax (List.mem_map_of_mem (f := z') hy))
    linarith
  have hE : softmaxExps A (l.map z') = l.map fun y => A.exp (A.sub (z' y) M) := by
    unfold softmaxExps; rw [List.map_map, hM]; rfl
  have w'd : w' = A.div (A.exp (A.sub (z' x) M)) (A.sum (l.map fun y => A.exp (A.sub (z' y) M))) := by
    rw [← hE, hM]
  rw [← hM] at hz
  rw [hE] at d1 d2 d3
  -- the divisor for exact exponentials
  obtain ⟨X, hX⟩ : ∃ X, X = (l.map fun y => exp (A.sub (z' y) M)).sum := ⟨_, rfl⟩
  have top : 0.99 ≤ X := by
    obtain ⟨y, hy, hyM⟩ := List.mem_map.mp (listMax_mem hl')
    have h1 := acc.sub M M
    rw [sub_self, abs_zero, mul_zero, zero_add, sub_zero] at h1
    have h2 := Real.add_one_le_exp (A.sub M M)
    have h3 : exp (A.sub (z' y) M) ≤ X := by
      rw [hX]
      refine List.single_le_sum ?_ _ (List.mem_map_of_mem (f := fun y => exp (A.sub (z' y) M)) hy)
      intro q hq; obtain ⟨_, -, rfl⟩ := List.mem_map.mp hq; exact (exp_pos _).le
    rw [hyM, ← hM] at h3
    linarith [(abs_le.mp h1).1]
  have hsum := sum_err (u := u) (η := η) (fun y => A.exp (A.sub (z' y) M)) (fun y => exp (A.sub (z' y) M)) l
    fun y hy => acc.exp _ (xle y hy)
  have hlen : (l.length : ℝ) * η ≤ N * η := mul_le_mul_of_nonneg_right (by exact_mod_cast hN) f.e0
  rw [← hX] at hsum
  have hdiv := acc.div (A.exp (A.sub (z' x) M)) (A.sum (l.map fun y => A.exp (A.sub (z' y) M))) (by linarith)
  rw [abs_of_nonneg (div_nonneg (acc.expNonneg _) (by linarith)), ← w'd] at hdiv
  have hq := quotient_err f top (exp_pos (A.sub (z' x) M)).le (hsum.trans (by linarith)) d2 (acc.exp _ (xle x hx))
    (acc.expNonneg _) hdiv d3
  -- compare with the exact weight
  have up : ∀ y ∈ l, exp (A.sub (z' y) M) ≤ exp Δ * (exp (-c) * exp (z y)) := fun y hy => by
    rw [← exp_add, ← exp_add]
    exact exp_le_exp.mpr (by linarith [(abs_le.mp (hz y hy)).2])
  have lo : ∀ y ∈ l, exp (-Δ) * (exp (-c) * exp (z y)) ≤ exp (A.sub (z' y) M) := fun y hy => by
    rw [← exp_add, ← exp_add]
    exact exp_le_exp.mpr (by linarith [(abs_le.mp (hz y hy)).1])
  have facts : ∀ k : ℝ, (l.map fun y => k * (exp (-c) * exp (z y))).sum = k * (exp (-c) * (l.map fun y => exp (z y)).sum) := by
    intro k
    rw [← List.sum_map_mul_left, ← List.sum_map_mul_left]
  have Xup : X ≤ exp Δ * (exp (-c) * (l.map fun y => exp (z y)).sum) := by
    rw [hX, ← facts]; exact List.sum_le_sum up
  have Xlo : exp (-Δ) * (exp (-c) * (l.map fun y => exp (z y)).sum) ≤ X := by
    rw [hX, ← facts]; exact List.sum_le_sum lo
  have S0 : 0 < (l.map fun y => exp (z y)).sum := by
    refine lt_of_lt_of_le (exp_pos (z x)) (List.single_le_sum ?_ _ (List.mem_map_of_mem (f := fun y => exp (z y)) hx))
    intro q hq; obtain ⟨_, -, rfl⟩ := List.mem_map.mp hq; exact (exp_pos _).le
  have hw : w * (l.map fun y => exp (z y)).sum = exp (z x) := div_mul_cancel₀ _ S0.ne'
  have w0 : 0 ≤ w := div_nonneg (exp_pos _).le S0.le
  have x1 := up x hx
  have x2 := lo x hx
  rw [← hw] at x1 x2
  generalize (l.map fun y => exp (z y)).sum = S at *
  have X0 : 0 < X := by linarith
  have r1 : exp (A.sub (z' x) M) / X ≤ exp (2 * Δ) * w := by
    rw [div_le_iff₀ X0]
    have e1 : exp (2 * Δ) * exp (-Δ) = exp Δ := by rw [← exp_add]; congr 1; ring
    have t := mul_le_mul_of_nonneg_left Xlo (mul_nonneg (exp_pos (2 * Δ)).le w0)
    have e2 : exp (2 * Δ) * w * (exp (-Δ) * (exp (-c) * S)) = exp (2 * Δ) * exp (-Δ) * (exp (-c) * (w * S)) := by ring
    rw [e2, e1] at t
    linarith
  have r2 : exp (-(2 * Δ)) * w ≤ exp (A.sub (z' x) M) / X := by
    rw [le_div_iff₀ X0]
    have e1 : exp (-(2 * Δ)) * exp Δ = exp (-Δ) := by rw [← exp_add]; congr 1; ring
    have t := mul_le_mul_of_nonneg_left Xup (mul_nonneg (exp_pos (-(2 * Δ))).le w0)
    have e2 : exp (-(2 * Δ)) * w * (exp Δ * (exp (-c) * S)) = exp (-(2 * Δ)) * exp Δ * (exp (-c) * (w * S)) := by ring
    rw [e2, e1] at t
    linarith
  have rt0 : 0 ≤ relTol N u s η := by
    unfold relTol; have := f.u0; have := f.s0; have := f.e0; positivity
  have rt1 : relTol N u s η ≤ 1 := by
    unfold relTol; linarith [f.u1, f.s1, f.e1, mul_nonneg (Nat.cast_nonneg N : (0:ℝ) ≤ N) f.e0, f.e0]
  constructor
  · have := mul_le_mul_of_nonneg_left r2 (by linarith : 0 ≤ 1 - relTol N u s η)
    linarith [hq.1]
  · have := mul_le_mul_of_nonneg_left r1 (by linarith : 0 ≤ 1 + relTol N u s η)
    linarith [hq.2]

/-! ## Exponents -/

/-- Perturbed quotient. -/
theorem ratio_pert {x e v k r : ℝ} (u0 : 0 ≤ u) (u1 : u ≤ 1 / 1000) (hx : |x| ≤ 3.1 * k) (he : |e| ≤ 6.4 * (u * k))
    (hv : |v - 1| ≤ r) (k0 : 0 ≤ k) (r1 : r ≤ 0.05) :
    |(x + e) / v - x| ≤ k * (6.9 * u + 3.34 * r) ∧ |(x + e) / v| ≤ 3.35 * k := by
  have r0 : 0 ≤ r := (abs_nonneg _).trans hv
  have v1 : 0.95 ≤ v := by linarith [(abs_le.mp hv).1]
  have v0 : 0 < v := by linarith
  have e1 : (x + e) / v - x = (e + x * (1 - v)) / v := by field_simp; ring
  have uk : 0 ≤ u * k := mul_nonneg u0 k0
  have kr : 0 ≤ k * r := mul_nonneg k0 r0
  have h1 : |(x + e) / v - x| ≤ k * (6.9 * u + 3.34 * r) := by
    rw [e1, abs_div, abs_of_pos v0, div_le_iff₀ v0]
    have h2 := abs_add_le e (x * (1 - v))
    rw [abs_mul, abs_sub_comm 1 v] at h2
    have h3 : |x| * |v - 1| ≤ 3.1 * k * r := mul_le_mul hx hv (abs_nonneg _) (by linarith)
    have h5 := mul_le_mul_of_nonneg_left v1 (by linarith : 0 ≤ k * (6.9 * u + 3.34 * r))
    linarith
  refine ⟨h1, ?_⟩
  have h2 := abs_add_le ((x + e) / v - x) x
  rw [sub_add_cancel] at h2
  have h3 := mul_le_mul_of_nonneg_left r1 k0
  have h4 := mul_le_mul_of_nonneg_left u1 k0
  linarith

/-- Error of one exponent. -/
theorem logit_err (acc : PlanAccurate A N u s m p η) (f : PlanFine N u s m p η) (hη : η ≤ 1e-9 * u)
    {d d' S σ t k r : ℝ} (σ0 : 0 < σ) (hd' : |d' - d| ≤ 6.4 * (u * k) * σ) (hd : |d| ≤ 3.1 * k * σ)
    (hS : |S - σ| ≤ r * σ) (k0 : 1 / 2 ≤ k) (r1 : r ≤ 0.05) (t0 : 0 < t) (hηt : η ≤ u * t)
    (ht : t ≤ 1000) :
    |A.div (A.div d' S) (A.const t) - d / σ / t| ≤ k * (20 * u + 3.4 * r) / t ∧ |d / σ / t| ≤ 3.1 * k / t := by
  obtain ⟨u0, s0, m0, p0, e0, u1, s1, m1, p1, e1⟩ := f
  have hkp : 0 ≤ k := by linarith
  have hx : |d / σ| ≤ 3.1 * k := by rw [abs_div, abs_of_pos σ0, div_le_iff₀ σ0]; exact hd
  have he : |(d' - d) / σ| ≤ 6.4 * (u * k) := by rw [abs_div, abs_of_pos σ0, div_le_iff₀ σ0]; exact hd'
  have hv : |S / σ - 1| ≤ r := by
    have : S / σ - 1 = (S - σ) / σ := by field_simp
    rw [this, abs_div, abs_of_pos σ0, div_le_iff₀ σ0]; exact hS
  have r0 : 0 ≤ r := (abs_nonneg _).trans hv
  obtain ⟨q1, q2⟩ := ratio_pert u0 u1 hx he hv hkp r1
  have v1 : 0.95 ≤ S / σ := by linarith [(abs_le.mp hv).1]
  have S0 : 0 < S := by
    have : 0 < S / σ := by linarith
    have h2 := mul_pos this σ0
    rwa [div_mul_cancel₀ _ σ0.ne'] at h2
  have eq : (d / σ + (d' - d) / σ) / (S / σ) = d' / S := by field_simp; ring
  rw [eq] at q1 q2
  have hdv := acc.div d' S S0.ne'
  have uq : u * |d' / S| ≤ u * (3.35 * k) := mul_le_mul_of_nonneg_left q2 u0
  have uk2 : u ≤ 2 * (u * k) := by have := mul_le_mul_of_nonneg_left k0 u0; linarith
  have ukk : 0 ≤ u * k := mul_nonneg u0 hkp
  have krr : 0 ≤ k * r := mul_nonneg hkp r0
  -- first quotient
  have a1 : |A.div d' S - d / σ| ≤ k * (10.3 * u + 3.34 * r) := by
    have := abs_sub_le (A.div d' S) (d' / S) (d / σ)
    linarith
  have a2 : |A.div d' S| ≤ 3.36 * k := by
    have g := abs_add_le (A.div d' S - d' / S) (d' / S)
    rw [sub_add_cancel] at g
    have := mul_le_mul_of_nonneg_right u1 hkp
    linarith
  generalize A.div d' S = q at *
  generalize d / σ = x at *
  have hc := acc.const t
  rw [abs_of_pos t0] at hc
  generalize A.const t = t' at *
  have hc' := abs_le.mp hc
  have ut := mul_le_mul_of_nonneg_right u1 t0.le
  have t'1 : 0.998 * t ≤ t' := by linarith
  have t'0 : 0 < t' := by linarith
  have hdv2 := acc.div q t' t'0.ne'
  -- second quotient
  have b1 : |q / t' - x / t| ≤ k * (16.57 * u + 3.35 * r) / t := by
    have e2 : q / t' - x / t = ((q - x) * t + x * (t - t')) / (t' * t) := by field_simp; ring
    rw [e2, abs_div, abs_of_pos (mul_pos t'0 t0), div_le_div_iff₀ (mul_pos t'0 t0) t0]
    have g := abs_add_le ((q - x) * t) (x * (t - t'))
    rw [abs_mul, abs_mul, abs_of_pos t0, abs_sub_comm t t'] at g
    have g1 := mul_le_mul_of_nonneg_right a1 t0.le
    have g2 : |x| * |t' - t| ≤ 3.1 * k * (2 * u * t) := mul_le_mul hx (by linarith) (abs_nonneg _) (by linarith)
    have g3 : |(q - x) * t + x * (t - t')| ≤ k * (16.5 * u + 3.34 * r) * t := by
      linarith
    have g4 := mul_le_mul_of_nonneg_right g3 t0.le
    have g5 : k * (16.57 * u + 3.35 * r) * (0.998 * t * t) ≤ k * (16.57 * u + 3.35 * r) * (t' * t) :=
      mul_le_mul_of_nonneg_left (mul_le_mul_of_nonneg_right t'1 t0.le) (by positivity)
    have g6 : 0 ≤ k * u * t * t := by positivity
    have g7 : 0 ≤ k * r * t * t := by positivity
    linarith
  have b2 : |q / t'| ≤ 3.37 * k / t := by
    rw [abs_div, abs_of_pos t'0, div_le_div_iff₀ t'0 t0]
    have g1 := mul_le_mul_of_nonneg_right a2 t0.le
    have g2 := mul_le_mul_of_nonneg_left t'1 (by linarith : 0 ≤ 3.37 * k)
    have : 0 ≤ k * t := by positivity
    linarith
  have b3 := mul_le_mul_of_nonneg_left b2 u0
  have b4 : η ≤ 0.01 * (u * k) / t := by
    rw [le_div_iff₀ t0]
    have h1 := mul_le_mul_of_nonneg_left ht e0
    linarith
  have fin := abs_sub_le (A.div q t') (q / t') (x / t)
  have sum : u * (3.37 * k / t) + 0.01 * (u * k) / t + k * (16.57 * u + 3.35 * r) / t ≤ k * (20 * u + 3.4 * r) / t := by
    rw [← mul_div_assoc, ← add_div, ← add_div]
    refine div_le_div_of_nonneg_right ?_ t0.le
    linarith
  refine ⟨by linarith, ?_⟩
  rw [abs_div, abs_of_pos t0]
  exact div_le_div_of_nonneg_right hx t0.le

/-- Exponents after subtraction of the largest. -/
theorem shift_err (acc : PlanAccurate A N u s m p η) (f : PlanFine N u s m p η) (hη : η ≤ 1e-9 * u)
    {k t δ : ℝ} (k0 : 1 / 2 ≤ k) (t0 : 0 < t) (ht : t ≤ 1000) (hδ : 50 * (k * u) / t ≤ δ)
    {α : Type} {l : List α} {z z' : α → ℝ} (hz : ∀ y ∈ l, |z' y - z y| ≤ δ) (hb : ∀ y ∈ l, |z y| ≤ 3.1 * k / t)
    {y : α} (hy : y ∈ l) :
    |A.sub (z' y) (listMax (l.map z')) - (z y - listMax (l.map z))| ≤ 2.2 * δ := by
  have hl : l ≠ [] := List.ne_nil_of_mem hy
  have u0 := f.u0
  have hkp : 0 ≤ k := by linarith
  have δ0 : 0 ≤ δ := le_trans (by positivity) hδ
  have hM : |listMax (l.map z') - listMax (l.map z)| ≤ δ := by
    obtain ⟨a, ha, ea⟩ := List.mem_map.mp (listMax_mem (l := l.map z') (by simpa using hl))
    obtain ⟨b, hb', eb⟩ := List.mem_map.mp (listMax_mem (l := l.map z) (by simpa using hl))
    have h1 := le_listMax (List.mem_map_of_mem (f := z) ha)
    have h2 := le_listMax (List.mem_map_of_mem (f := z') hb')
    have h3 := abs_le.mp (hz a ha)
    have h4 := abs_le.mp (hz b hb')
    rw [abs_le]
    constructor <;> linarith [h3.1, h3.2, h4.1, h4.2]
  have hMb : |listMax (l.map z)| ≤ 3.1 * k / t := by
    obtain ⟨b, hb', eb⟩ := List.mem_map.mp (listMax_mem (l := l.map z) (by simpa using hl))
    rw [← eb]; exact hb b hb'
  have h1 := acc.sub (z' y) (listMax (l.map z'))
  have h2 := hz y hy
  have h3 := hb y hy
  generalize listMax (l.map z') = M' at *
  generalize listMax (l.map z) = M at *
  generalize z' y = a' at *
  generalize z y = a at *
  have e1 : |(a' - M') - (a - M)| ≤ 2 * δ := by
    have : (a' - M') - (a - M) = (a' - a) + -(M' - M) := by ring
    rw [this]
    refine (abs_add_le _ _).trans ?_
    rw [abs_neg]; linarith
  have e2 : |a - M| ≤ 6.2 * k / t := by
    have h := abs_sub a M
    have e3 : 6.2 * k / t = 3.1 * k / t + 3.1 * k / t := by ring
    rw [e3]; linarith
  have h6 := op_err u0 h1 e1 e2
  have uk : u * (6.2 * k / t) ≤ 0.124 * δ := by
    have e3 : u * (6.2 * k / t) = 0.124 * (50 * (k * u) / t) := by ring
    rw [e3]; linarith
  have uδ := mul_le_mul_of_nonneg_right f.u1 δ0
  have ηδ : η ≤ 0.01 * δ := by
    have : η ≤ 0.01 * (50 * (k * u) / t) := by
      rw [← mul_div_assoc, le_div_iff₀ t0]
      have h1 := mul_le_mul_of_nonneg_left ht f.e0
      have h2 := mul_le_mul_of_nonneg_left k0 u0
      linarith
    linarith
  linarith

theorem std_sq (l : List ℝ) : Mbd.mean (l.map fun r => (r - Mbd.mean l) ^ 2) = Mbd.std l ^ 2 := by
  unfold Mbd.std
  rw [Real.sq_sqrt]
  unfold Mbd.mean
  refine div_nonneg (List.sum_nonneg ?_) (Nat.cast_nonneg _)
  intro y hy
  obtain ⟨x, -, rfl⟩ := List.mem_map.mp hy
  positivity

theorem mean_le_bound {l : List ℝ} (hl : l ≠ []) {R : ℝ} (hR : ∀ x ∈ l, |x| ≤ R) :
    Mbd.mean (l.map abs) ≤ R ∧ |Mbd.mean l| ≤ R := by
  have h2 : Mbd.mean (l.map abs) ≤ R := by
    have h3 := mean_map_mono (l := l) (f := abs) (g := fun _ => R) hR
    have h4 := mean_map_lin hl (fun _ => (0:ℝ)) (fun _ => (0:ℝ)) 0 0 R
    simp only [mul_zero, zero_add, zero_mul] at h4
    linarith
  have h5 := mean_abs_le (l := l) id
  simp only [List.map_id, id_eq] at h5
  exact ⟨h2, h5.trans h2⟩

theorem std_le_bound {l : List ℝ} (hl : l ≠ []) {R : ℝ} (hR : ∀ x ∈ l, |x| ≤ R) : Mbd.std l ≤ 2 * R := by
  have R0 : 0 ≤ R := by
    obtain ⟨x, hx⟩ := List.exists_mem_of_ne_nil l hl
    exact (abs_nonneg _).trans (hR x hx)
  have h1 : Mbd.mean (l.map fun r => (r - Mbd.mean l) ^ 2) ≤ (2 * R) ^ 2 := by
    have h3 := mean_map_mono (l := l) (f := fun r => (r - Mbd.mean l) ^ 2) (g := fun _ => (2 * R) ^ 2) fun x hx => by
      have : |x - Mbd.mean l| ≤ 2 * R := (abs_sub _ _).trans (by linarith [hR x hx, (mean_le_bound hl hR).2])
      rw [← sq_abs]
      exact pow_le_pow_left₀ (abs_nonneg _) this 2
    have h4 := mean_map_lin hl (fun _ => (0:ℝ)) (fun _ => (0:ℝ)) 0 0 ((2 * R) ^ 2)
    simp only [mul_zero, zero_add, zero_mul] at h4
    linarith
  rw [std_sq] at h1
  exact (le_abs_self _).trans (abs_le_of_sq_le_sq h1 (by linarith))

/-- Mean square about another point. -/
theorem mean_sq_about {l : List ℝ} (hl : l ≠ []) (c : ℝ) :
    Mbd.mean (l.map fun r => (r - c) ^ 2) = Mbd.std l ^ 2 + (c - Mbd.mean l) ^ 2 := by
  have h := mean_map_lin hl (fun r => (r - Mbd.mean l) ^ 2) id 1 (2 * (Mbd.mean l - c)) (c ^ 2 - Mbd.mean l ^ 2)
  rw [List.map_id, std_sq] at h
  have e : (fun r : ℝ => (r - c) ^ 2) = fun r => 1 * (r - Mbd.mean l) ^ 2 + 2 * (Mbd.mean l - c) * id r +
      (c ^ 2 - Mbd.mean l ^ 2) := by funext r; simp only [id]; ring
  rw [e, h]; ring

/-- The computed mean. -/
theorem mean_err' (acc : PlanAccurate A N u s m p η) (f : PlanFine N u s m p η) (hη : η ≤ u) {l : List ℝ}
    (hl : l ≠ []) (hN : l.length ≤ N) {R : ℝ} (hηR : η ≤ 1e-3 * (u * R)) (hR : ∀ x ∈ l, |x| ≤ R) :
    |mean A l - Mbd.mean l| ≤ (1.1 * s + 4.1 * u) * R := by
  have R0 : 0 ≤ R := by
    obtain ⟨x, hx⟩ := List.exists_mem_of_ne_nil l hl
    exact (abs_nonneg _).trans (hR x hx)
  have h1 := mean_err acc f hη hl hN
  have t1 : (1.1 * s + 4 * u) * Mbd.mean (l.map abs) ≤ (1.1 * s + 4 * u) * R :=
    mul_le_mul_of_nonneg_left (mean_le_bound hl hR).1 (by linarith [f.s0, f.u0])
  have := mul_nonneg f.u0 R0
  linarith

/-- `√(σ² + ε²) ≤ σ (1 + c² / 2)` for `ε ≤ c σ`. -/
theorem hyp_le {σ ε c : ℝ} (σ0 : 0 < σ) (h : |ε| ≤ c * σ) : √(σ ^ 2 + ε ^ 2) ≤ σ * (1 + c ^ 2 / 2) := by
  rw [show σ * (1 + c ^ 2 / 2) = √((σ * (1 + c ^ 2 / 2)) ^ 2) from (Real.sqrt_sq (by positivity)).symm]
  refine Real.sqrt_le_sqrt ?_
  have h1 := mul_self_le_mul_self (abs_nonneg _) h
  rw [abs_mul_abs_self] at h1
  have h2 : (0:ℝ) ≤ (σ * (c ^ 2 / 2)) ^ 2 := sq_nonneg _
  have e : (σ * (1 + c ^ 2 / 2)) ^ 2 = σ ^ 2 + c * σ * (c * σ) + (σ * (c ^ 2 / 2)) ^ 2 := by ring
  rw [e]; linarith

/-- Spread and rounding, `k` the ratio of the largest reward to the spread. -/
theorem std_err (acc : PlanAccurate A N u s m p η) (f : PlanFine N u s m p η) (hη : η ≤ 1e-9 * u) {l : List ℝ}
    (hl : l ≠ []) (hN : l.length ≤ N) {k : ℝ} (hηR : η ≤ 1e-3 * (u * (k * Mbd.std l)))
    (hR : ∀ x ∈ l, |x| ≤ k * Mbd.std l) (hσ : 1.2e-4 ≤ Mbd.std l) (he : (1.1 * s + 4.1 * u) * k ≤ 1 / 40) :
    |std A l - Mbd.std l| ≤ (1.21 * s + 9.1 * u + 4.2 * (u * k) + (k * (1.1 * s + 4.1 * u)) ^ 2 / 2) * Mbd.std l ∧
    1.21 * s + 9.1 * u + 4.2 * (u * k) + (k * (1.1 * s + 4.1 * u)) ^ 2 / 2 ≤ 0.05 := by
  have u0 := f.u0
  have s0 := f.s0
  have hη' : η ≤ u := by linarith
  have hm := mean_err' acc f hη' hl hN hηR hR
  have hab := mean_sq_about hl (mean A l)
  have hmb := (mean_le_bound hl hR).2
  have hv := var_err acc f hη' hl hN fun x => A.sub x (mean A l)
  have hsub : ∀ x, |A.sub x (mean A l) - (x - mean A l)| ≤ u * |x - mean A l| + η := fun x => acc.sub x _
  have hstd : std A l = A.sqrt (mean A (l.map fun r => A.mul (A.sub r (mean A l)) (A.sub r (mean A l)))) := rfl
  rw [hstd]
  generalize mean A (l.map fun r => A.mul (A.sub r (mean A l)) (A.sub r (mean A l))) = V at *
  generalize mean A l = μ' at *
  generalize Mbd.std l = σ at *
  have σ0 : 0 < σ := by linarith
  obtain ⟨κ, hκ⟩ : ∃ κ, κ = 1.1 * s + 4.1 * u := ⟨_, rfl⟩
  rw [← hκ] at hm he ⊢
  have κ0 : 0 ≤ κ := by rw [hκ]; linarith
  have uκ : 4.1 * u ≤ κ := by rw [hκ]; linarith
  have kσ : 0 ≤ k * σ := by
    obtain ⟨x, hx⟩ := List.exists_mem_of_ne_nil l hl
    exact (abs_nonneg _).trans (hR x hx)
  have k0 : 0 ≤ k := nonneg_of_mul_nonneg_left kσ σ0
  have uk : 4.1 * (u * k) ≤ 1 / 40 := by
    have := mul_le_mul_of_nonneg_right uκ k0
    linarith
  have kκ0 : 0 ≤ k * κ := mul_nonneg k0 κ0
  have kκ2 : (k * κ) ^ 2 ≤ 1 / 1600 := by
    have : (k * κ) ^ 2 ≤ (1 / 40) ^ 2 := pow_le_pow_left₀ kκ0 (by linarith) 2
    linarith
  -- mean square about the computed mean
  obtain ⟨τ, hτ⟩ : ∃ τ, τ = √(σ ^ 2 + (μ' - Mbd.mean l) ^ 2) := ⟨_, rfl⟩
  have τ2 : τ ^ 2 = σ ^ 2 + (μ' - Mbd.mean l) ^ 2 := by rw [hτ]; exact Real.sq_sqrt (by positivity)
  have τhi : τ ≤ σ * (1 + (k * κ) ^ 2 / 2) := by
    rw [hτ]; exact hyp_le σ0 (by linarith)
  have τlo : σ ≤ τ := by
    rw [hτ]; exact Real.le_sqrt_of_sq_le (by linarith [sq_nonneg (μ' - Mbd.mean l)])
  rw [← τ2] at hab
  have uR : 0 ≤ u * (k * σ) := mul_nonneg u0 kσ
  have κ1 : κ ≤ 0.02 := by rw [hκ]; linarith [f.u1, f.s1]
  have hdev : ∀ x ∈ l, |A.sub x μ' - (x - μ')| ≤ 2.1 * (u * (k * σ)) := fun x hx => by
    have h1 := hsub x
    have h2 : |x - μ'| ≤ 2.03 * (k * σ) := by
      have e : x - μ' = x - Mbd.mean l + -(μ' - Mbd.mean l) := by ring
      have h3 := abs_add_le (x - Mbd.mean l) (-(μ' - Mbd.mean l))
      rw [abs_neg, ← e] at h3
      have h4 := abs_sub x (Mbd.mean l)
      have h5 := mul_le_mul_of_nonneg_right κ1 kσ
      linarith [hR x hx]
    have h3 := mul_le_mul_of_nonneg_left h2 u0
    linarith
  obtain ⟨b1, b2⟩ := rms_bounds hl (fun x => x - μ') (fun x => A.sub x μ') (by linarith) (by linarith) hdev hab
  have hsm : 2.1 * (u * (k * σ)) ≤ τ / 40 := by
    have := mul_le_mul_of_nonneg_right uk σ0.le
    linarith
  have h := root_err acc f (by linarith : 1.2e-4 ≤ τ) hη (by linarith) hsm b1 b2 hv
  have hc : 1.2 * s + 9 * u ≤ 0.05 := by linarith [f.u1, f.s1]
  refine ⟨?_, by linarith [f.u1, f.s1]⟩
  have g := abs_sub_le (A.sqrt V) τ σ
  rw [abs_of_nonneg (by linarith : 0 ≤ τ - σ)] at g
  have t1 : (1.2 * s + 9 * u) * τ ≤ (1.2 * s + 9 * u) * (1.001 * σ) := by
    refine mul_le_mul_of_nonneg_left ?_ (by linarith)
    have := mul_le_mul_of_nonneg_right kκ2 σ0.le
    linarith
  have t2 : 0 ≤ s * σ := mul_nonneg s0 σ0.le
  have t3 : 0 ≤ u * σ := mul_nonneg u0 σ0.le
  linarith

/-- The guard does not trigger. -/
theorem guard_off (acc : PlanAccurate A N u s m p η) (f : PlanFine N u s m p η) (hη : η ≤ 1e-9 * u) {l : List ℝ}
    {r : ℝ} (hσ : 1.3e-4 ≤ Mbd.std l) (r1 : r ≤ 0.05)
    (h : |std A l - Mbd.std l| ≤ r * Mbd.std l) : guardedStd A l = std A l := by
  have hc := (abs_le.mp (acc.const 1e-4)).2
  rw [abs_of_pos (by norm_num : (0:ℝ) < 1e-4)] at hc
  have h1 := (abs_le.mp h).1
  have hu := f.u1
  have h2 := mul_le_mul_of_nonneg_right r1 (by linarith : 0 ≤ Mbd.std l)
  unfold guardedStd
  rw [if_neg]
  push Not
  linarith

/-- Numerator of an exponent, about the computed mean. -/
theorem num_err (acc : PlanAccurate A N u s m p η) (f : PlanFine N u s m p η) {R x μ' : ℝ}
    (hηR : η ≤ 1e-3 * (u * R)) (hx : |x| ≤ R) (hμ : |μ'| ≤ 1.02 * R) :
    |A.sub x μ' - (x - μ')| ≤ 6.4 * (u * R) ∧ |x - μ'| ≤ 3.1 * R := by
  have R0 : 0 ≤ R := (abs_nonneg _).trans hx
  have h1 := acc.sub x μ'
  have h2 : |x - μ'| ≤ 2.1 * R := (abs_sub _ _).trans (by linarith)
  have h3 := mul_le_mul_of_nonneg_left h2 f.u0
  have := mul_nonneg f.u0 R0
  exact ⟨by linarith, by linarith⟩

/-- Numerator of a demonstration exponent. -/
theorem demo_num_err (acc : PlanAccurate A N u s m p η) (f : PlanFine N u s m p η) {R x M rx μ' : ℝ}
    (hηR : η ≤ 1e-3 * (u * R)) (hx : |x - M| ≤ R) (hrx : |rx| ≤ R) (hμ : |μ'| ≤ 1.02 * R) :
    |A.sub (A.add (A.sub x M) rx) μ' - (x - M + rx - μ')| ≤ 6.4 * (u * R) ∧ |x - M + rx - μ'| ≤ 3.1 * R := by
  have u0 := f.u0
  have R0 : 0 ≤ R := (abs_nonneg _).trans hrx
  have c1 := op_err u0 (acc.sub x M) (le_of_eq (by rw [sub_self, abs_zero])) hx
  generalize A.sub x M = a at *
  have c1' : |(a + rx) - (x - M + rx)| ≤ (1 + u) * 0 + u * R + η := by
    rw [add_sub_add_right_eq_sub]; exact c1
  have b2 : |x - M + rx| ≤ 2 * R := (abs_add_le _ _).trans (by linarith)
  have c2 := op_err u0 (acc.add a rx) c1' b2
  generalize A.add a rx = b at *
  have b3 : |x - M + rx - μ'| ≤ 3.1 * R := (abs_sub _ _).trans (by linarith)
  refine ⟨?_, b3⟩
  have uR := mul_nonneg u0 R0
  have uuR : u * (u * R) ≤ 1 / 1000 * (u * R) := mul_le_mul_of_nonneg_right f.u1 uR
  have uη : u * η ≤ 1 / 1000 * η := mul_le_mul_of_nonneg_right f.u1 f.e0
  have c2' : |b - (x - M + rx)| ≤ 3.1 * (u * R) := by linarith
  have c3 : |(b - μ') - (x - M + rx - μ')| ≤ 3.1 * (u * R) := by
    rw [sub_sub_sub_cancel_right]; exact c2'
  have c4 := op_err u0 (acc.sub b μ') c3 b3
  linarith

/-- Computed log weight of one sample. -/
noncomputable def logitR (A : PlanArith) (cfg : Cfg) (sim : Sim) (rx : ℝ) (Ys : List (List U)) (Y : List U) : ℝ :=
  let rews := Ys.map sim.reward
  let lp := A.div (A.div (A.sub (sim.reward Y) (mean A rews)) (guardedStd A rews)) (A.const cfg.temp)
  let ld := A.div (A.div (A.sub (A.add (A.sub (sim.xref Y) (listMax (Ys.map sim.xref))) rx) (mean A rews))
    (guardedStd A rews)) (A.const cfg.temp)
  if cfg.enableDemo then if ld > lp then ld else lp else lp

theorem logWeights_map (cfg : Cfg) (sim : Sim) (rx : ℝ) (Ys : List (List U)) :
    logWeights A cfg.temp cfg.enableDemo rx (Ys.map sim.reward) (Ys.map sim.xref) =
      Ys.map (logitR A cfg sim rx Ys) := by
  unfold logWeights logitR
  cases cfg.enableDemo
  · simp only [Bool.false_eq_true, if_false, logp0, List.map_map]; rfl
  · simp only [if_true, logp0, logpDemo, List.map_map, zipWith_map_same]; rfl

theorem pick_err {a a' b b' δ : ℝ} (h1 : |a' - a| ≤ δ) (h2 : |b' - b| ≤ δ) :
    |(if a' > b' then a' else b') - max b a| ≤ δ := by
  have e : (if a' > b' then a' else b') = max b' a' := by
    split_ifs with h
    · exact (max_eq_right (le_of_lt h)).symm
    · exact (max_eq_left (not_lt.mp h)).symm
  rw [e]
  exact (abs_max_sub_max_le_max b' a' b a).trans (max_le h2 h1)

theorem spread_eq (l : List ℝ) : spread l = Mbd.std l := by
  unfold spread Mbd.std Mbd.mean; rw [List.length_map]

/-- Weights of one batch. -/
theorem weights_err (acc : PlanAccurate A N u s m p η) (f : PlanFine N u s m p η) (hη : η ≤ 1e-9 * u) (cfg : Cfg)
    (t0 : 0 < cfg.temp) (ht : cfg.temp ≤ 1000) (hηt : η ≤ u * cfg.temp) (sim : Sim) (rx : ℝ) {Ys : List (List U)}
    (hN : Ys.length ≤ N) {k : ℝ}
    (hσ : 1.3e-4 ≤ spread (Ys.map sim.reward))
    (hR : ∀ Y ∈ Ys, |sim.reward Y| ≤ k * spread (Ys.map sim.reward))
    (hd : cfg.enableDemo = true → |rx| ≤ k * spread (Ys.map sim.reward) ∧
      ∀ Y ∈ Ys, listMax (Ys.map sim.xref) - sim.xref Y ≤ k * spread (Ys.map sim.reward))
    (hk : (1.1 * s + 4.1 * u) * k ≤ 1 / 40) {i : ℕ} (hi : i < Ys.length) :
    exp (-(4.4 * logitTol u s k cfg.temp)) * (1 - relTol N u s η) * exactWeight cfg sim rx Ys (Ys.getD i []) - 3 * η ≤
      (batchWeights A cfg sim rx Ys).getD i 0 ∧
    (batchWeights A cfg sim rx Ys).getD i 0 ≤
      exp (4.4 * logitTol u s k cfg.temp) * (1 + relTol N u s η) * exactWeight cfg sim rx Ys (Ys.getD i []) + 3 * η := by
  have hne : Ys ≠ [] := by rintro rfl; simp at hi
  have hrne : Ys.map sim.reward ≠ [] := by simpa using hne
  have hrN : (Ys.map sim.reward).length ≤ N := by simpa using hN
  have hR' : ∀ x ∈ Ys.map sim.reward, |x| ≤ k * spread (Ys.map sim.reward) := by
    intro x hx; obtain ⟨Y, hY, rfl⟩ := List.mem_map.mp hx; exact hR Y hY
  have hσ2 := std_le_bound hrne hR'
  rw [← spread_eq] at hσ2
  have σ0 : 0 < spread (Ys.map sim.reward) := by linarith
  have k0 : 1 / 2 ≤ k := by
    refine le_of_mul_le_mul_right ?_ σ0
    linarith
  have u0 := f.u0
  have s0 := f.s0
  have hηR : η ≤ 1e-3 * (u * (k * spread (Ys.map sim.reward))) := by
    have h1 := mul_le_mul_of_nonneg_left hσ (by linarith : (0:ℝ) ≤ k)
    have h2 : u * (1 / 2 * 1.3e-4) ≤ u * (k * spread (Ys.map sim.reward)) :=
      mul_le_mul_of_nonneg_left (by linarith) u0
    linarith
  have hstd := std_err acc f hη hrne hrN (k := k) (by rw [← spread_eq]; exact hηR) (by rw [← spread_eq]; exact hR')
    (by rw [← spread_eq]; linarith) hk
  obtain ⟨r, hr⟩ : ∃ r, r = 1.21 * s + 9.1 * u + 4.2 * (u * k) + (k * (1.1 * s + 4.1 * u)) ^ 2 / 2 := ⟨_, rfl⟩
  rw [← hr] at hstd
  have hguard := guard_off acc f hη (by rw [← spread_eq]; exact hσ) hstd.2 hstd.1
  have hmean := mean_err' acc f (by linarith) hrne hrN hηR hR'
  have hmb := (mean_le_bound hrne hR').2
  have kσ : 0 ≤ k * spread (Ys.map sim.reward) := by positivity
  have hμ : |mean A (Ys.map sim.reward)| ≤ 1.02 * (k * spread (Ys.map sim.reward)) := by
    have g := abs_add_le (mean A (Ys.map sim.reward) - Mbd.mean (Ys.map sim.reward)) (Mbd.mean (Ys.map sim.reward))
    rw [sub_add_cancel] at g
    have : 1.1 * s + 4.1 * u ≤ 0.02 := by linarith [f.u1, f.s1]
    have := mul_le_mul_of_nonneg_right this kσ
    linarith
  -- exact exponents about the computed mean
  obtain ⟨μ', hμ'⟩ : ∃ μ', μ' = mean A (Ys.map sim.reward) := ⟨_, rfl⟩
  obtain ⟨σ, hσd⟩ : ∃ σ, σ = spread (Ys.map sim.reward) := ⟨_, rfl⟩
  obtain ⟨δ, hδ⟩ : ∃ δ, δ = logitTol u s k cfg.temp := ⟨_, rfl⟩
  have ukk : 0 ≤ u * k := mul_nonneg u0 (by linarith)
  have hkp : 0 ≤ k := by linarith
  have δle : k * (20 * u + 3.4 * r) / cfg.temp ≤ δ := by
    rw [hδ, hr]; unfold logitTol
    refine div_le_div_of_nonneg_right ?_ t0.le
    refine mul_le_mul_of_nonneg_left ?_ hkp
    linarith
  have δge : 50 * (k * u) / cfg.temp ≤ δ := by
    rw [hδ]; unfold logitTol
    refine div_le_div_of_nonneg_right ?_ t0.le
    have h1 : k * (50 * u) ≤ k * (4.2 * s + (51 + 15 * k) * u + 1.7 * (k * (1.1 * s + 4.1 * u)) ^ 2) := by
      refine mul_le_mul_of_nonneg_left ?_ hkp
      have := sq_nonneg (k * (1.1 * s + 4.1 * u))
      linarith
    linarith
  have hS : |std A (Ys.map sim.reward) - σ| ≤ r * σ := by rw [hσd, spread_eq]; exact hstd.1
  rw [← hδ]
  rw [← hσd] at hd hR hηR σ0 hμ
  rw [← hμ'] at hμ
  obtain ⟨z, hzd⟩ : ∃ z : List U → ℝ, z = fun Y => (sampleValue cfg sim rx Ys Y - μ') / σ / cfg.temp := ⟨_, rfl⟩
  have hnum : ∀ {d d' : ℝ}, |d' - d| ≤ 6.4 * (u * (k * σ)) → |d| ≤ 3.1 * (k * σ) →
      |A.div (A.div d' (std A (Ys.map sim.reward))) (A.const cfg.temp) - d / σ / cfg.temp| ≤ δ ∧
      |d / σ / cfg.temp| ≤ 3.1 * k / cfg.temp := by
    intro d d' h1 h2
    have h3 := logit_err acc f hη σ0 (by linarith : |d' - d| ≤ 6.4 * (u * k) * σ) (by linarith : |d| ≤ 3.1 * k * σ) hS k0
      hstd.2 t0 hηt ht
    exact ⟨h3.1.trans δle, h3.2⟩
  have hall : ∀ Y ∈ Ys, |logitR A cfg sim rx Ys Y - z Y| ≤ δ ∧ |z Y| ≤ 3.1 * k / cfg.temp := by
    intro Y hY
    have h1 := num_err acc f hηR (hR Y hY) hμ
    have h2 := hnum h1.1 h1.2
    unfold logitR
    simp only [hguard, ← hμ']
    rw [hzd]
    unfold sampleValue
    cases hdm : cfg.enableDemo
    · simpa using h2
    · obtain ⟨d1, d2⟩ := hd hdm
      have hxM : |sim.xref Y - listMax (Ys.map sim.xref)| ≤ k * σ := by
        have h5 := le_listMax (List.mem_map_of_mem (f := sim.xref) hY)
        rw [abs_sub_comm, abs_of_nonneg (by linarith)]
        exact d2 Y hY
      have h3 := demo_num_err acc f hηR hxM d1 hμ
      have h4 := hnum h3.1 h3.2
      simp only [if_true]
      have e : (max (sim.reward Y) (sim.xref Y - listMax (Ys.map sim.xref) + rx) - μ') / σ / cfg.temp =
          max ((sim.reward Y - μ') / σ / cfg.temp) ((sim.xref Y - listMax (Ys.map sim.xref) + rx - μ') / σ / cfg.temp) := by
        have hm : _root_.Monotone fun x : ℝ => (x - μ') / σ / cfg.temp := fun a b h =>
          div_le_div_of_nonneg_right (div_le_div_of_nonneg_right (by linarith) σ0.le) t0.le
        exact hm.map_max
      rw [e]
      exact ⟨pick_err h4.1 h2.1, by
        rcases max_choice ((sim.reward Y - μ') / σ / cfg.temp)
          ((sim.xref Y - listMax (Ys.map sim.xref) + rx - μ') / σ / cfg.temp) with h | h <;> rw [h]
        exacts [h2.2, h4.2]⟩
  have hsh : ∀ Y ∈ Ys, |A.sub (logitR A cfg sim rx Ys Y) (listMax (Ys.map (logitR A cfg sim rx Ys))) -
      (z Y - listMax (Ys.map z))| ≤ 2.2 * δ := fun Y hY =>
    shift_err acc f hη k0 t0 ht δge (fun y hy => (hall y hy).1) (fun y hy => (hall y hy).2) hY
  have hmem : Ys.getD i [] ∈ Ys := by rw [List.getD_eq_getElem _ _ hi]; exact List.getElem_mem hi
  have hfin := soft_pert acc f hN z (logitR A cfg sim rx Ys) _ _ hsh hmem
  have hw : (batchWeights A cfg sim rx Ys).getD i 0 = A.div (A.exp (A.sub (logitR A cfg sim rx Ys (Ys.getD i []))
      (listMax (Ys.map (logitR A cfg sim rx Ys))))) (A.sum (softmaxExps A (Ys.map (logitR A cfg sim rx Ys)))) := by
    unfold batchWeights softmax
    rw [logWeights_map]
    rw [List.getD_eq_getElem _ _ (by simpa [softmaxExps] using hi), List.getD_eq_getElem _ _ hi, List.getElem_map]
    simp only [softmaxExps, List.getElem_map]
  have hex : exactWeight cfg sim rx Ys (Ys.getD i []) = exp (z (Ys.getD i [])) / (Ys.map fun Y => exp (z Y)).sum := by
    have key : ∀ Y, exp (sampleValue cfg sim rx Ys Y / (σ * cfg.temp)) = exp (μ' / (σ * cfg.temp)) * exp (z Y) := by
      intro Y
      rw [← exp_add, hzd]
      congr 1
      field_simp
      ring
    unfold exactWeight
    simp only [← hσd, key]
    rw [List.sum_map_mul_left, mul_div_mul_left _ _ (exp_pos _).ne']
  rw [hw, hex]
  simp only at hfin
  have e44 : 2 * (2.2 * δ) = 4.4 * δ := by ring
  rw [e44] at hfin
  exact hfin

end Rounded

end Mbd
