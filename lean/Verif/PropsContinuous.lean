import Verif.PropsMargin
import Mathlib.Analysis.Calculus.MeanValue
import Mathlib.Analysis.SpecialFunctions.Trigonometric.Deriv
import Mathlib.Analysis.ODE.ExistUnique
import Mathlib.MeasureTheory.Integral.IntervalIntegral.FundThmCalculus

/-!
# C75: recorded states and the continuous motion of the vehicle
-/

namespace Spec

open Real Mbd Set

/-- During `[t0, t1]` the curve moves as the kinematic car does in continuous time with constant speed `v`
and steering angle `δ`. -/
structure DrivesCar (P : Params) (x y th : ℝ → ℝ) (t0 t1 v δ : ℝ) : Prop where
  x : ∀ t ∈ Icc t0 t1, HasDerivWithinAt x (v * cos (th t)) (Icc t0 t1) t
  y : ∀ t ∈ Icc t0 t1, HasDerivWithinAt y (v * sin (th t)) (Icc t0 t1) t
  th : ∀ t ∈ Icc t0 t1, HasDerivWithinAt th (v / P.l1 * tan δ) (Icc t0 t1) t

/-- Heading of a trailer that is pulled in continuous time by the hitch of such a car. -/
def DrivesTrailer (P : Params) (th ph : ℝ → ℝ) (t0 t1 v δ : ℝ) : Prop :=
  ∀ t ∈ Icc t0 t1, HasDerivWithinAt ph
    (v / P.l2 * (sin (th t - ph t) - P.lh / P.l1 * cos (th t - ph t) * tan δ)) (Icc t0 t1) t

/-- Continuous motion `γ` of the bicycle that belongs to a recorded motion `xs`: it begins in the first recorded
state, and during step `k` the applied control of that step acts. -/
structure Continuous3 (P : Params) (γ : ℝ → Q3) (xs : List (St Q3)) : Prop where
  start : ∀ a, xs[0]? = some a → γ 0 = a.q
  drive : ∀ (k : ℕ) b, xs[k + 1]? = some b →
    DrivesCar P (fun t => (γ t).px) (fun t => (γ t).py) (fun t => (γ t).th1) (k * P.dt) ((k + 1) * P.dt)
      (b.applied.1 * P.vMax) (b.applied.2 * (P.deltaMaxDeg * π / 180))

/-- The same for the tractor-trailer. -/
structure Continuous4 (P : Params) (γ : ℝ → Q4) (xs : List (St Q4)) : Prop where
  start : ∀ a, xs[0]? = some a → γ 0 = a.q
  drive : ∀ (k : ℕ) b, xs[k + 1]? = some b →
    DrivesCar P (fun t => (γ t).px) (fun t => (γ t).py) (fun t => (γ t).th1) (k * P.dt) ((k + 1) * P.dt)
      (b.applied.1 * P.vMax) (b.applied.2 * (P.deltaMaxDeg * π / 180)) ∧
    DrivesTrailer P (fun t => (γ t).th1) (fun t => (γ t).th2) (k * P.dt) ((k + 1) * P.dt)
      (b.applied.1 * P.vMax) (b.applied.2 * (P.deltaMaxDeg * π / 180))

/-- Largest change of the tractor's heading in one step. -/
noncomputable def turnStep (P : Params) : ℝ := P.vMax * P.dt * tan (P.deltaMaxDeg * π / 180) / P.l1

/-- Largest change of the trailer's heading in one step. -/
noncomputable def trailStep (P : Params) : ℝ :=
  P.vMax * P.dt * √(1 + (P.lh * tan (P.deltaMaxDeg * π / 180) / P.l1) ^ 2) / P.l2

/-- Largest deviation of the recorded position after `n` steps. -/
noncomputable def drift (P : Params) (n : ℕ) : ℝ := n * (P.vMax * P.dt * turnStep P / 2)

/-- Largest deviation of the recorded trailer heading after `n` steps. -/
noncomputable def trailDrift (P : Params) (n : ℕ) : ℝ :=
  ((1 + trailStep P) ^ n - 1) * (turnStep P + trailStep P) / 2

/-- Full speed forward and back in turn, `n` times, the wheel held at the stop. -/
def rocking (n : ℕ) : List U := (List.range (2 * n)).map fun k : ℕ => if k % 2 = 0 then (1, 1) else (-1, 1)

end Spec

namespace Mbd

open Real Classical Set _root_.Spec

/-! ## One step -/

/-- Constant rate of change. -/
theorem const_rate {f : ℝ → ℝ} {a b c : ℝ} (h : ∀ t ∈ Icc a b, HasDerivWithinAt f c (Icc a b) t) {t : ℝ}
    (ht : t ∈ Icc a b) : f t = f a + (t - a) * c := by
  have hg : ∀ s ∈ Icc a b, HasDerivWithinAt (fun s => f s - s * c) (c - 1 * c) (Icc a b) s := fun s hs =>
    (h s hs).sub ((hasDerivWithinAt_id s _).mul_const c)
  have := norm_image_sub_le_of_norm_deriv_le_segment' (C := 0) hg (fun s _ => by simp) t ht
  simp only [zero_mul, norm_le_zero_iff] at this
  linarith

/-- Position: the second-order remainder of one step. -/
theorem car_step {P : Params} {x y th : ℝ → ℝ} {a b v δ : ℝ} (h : DrivesCar P x y th a b v δ) {t : ℝ}
    (ht : t ∈ Icc a b) :
    ‖toC (x t, y t) - (toC (x a, y a) + ((t - a : ℝ) : ℂ) * ((v : ℂ) * hd (th a)))‖
      ≤ |v * (v / P.l1 * tan δ)| * (t - a) ^ 2 / 2 := by
  set ω := v / P.l1 * tan δ with hω
  have hth : ∀ s ∈ Icc a b, th s = th a + (s - a) * ω := fun s hs => const_rate h.th hs
  have hz : ∀ s ∈ Icc a b, HasDerivWithinAt (fun s => toC (x s, y s)) ((v : ℂ) * hd (th s)) (Icc a b) s := by
    intro s hs
    have h1 := ((h.x s hs).ofReal_comp).add (((h.y s hs).ofReal_comp).mul_const Complex.I)
    have e1 : (fun s => toC (x s, y s)) = (fun s => (x s : ℂ)) + fun s => (y s : ℂ) * Complex.I := by
      funext r
      simp [toC, Complex.mk_eq_add_mul_I]
    rw [e1]
    refine h1.congr_deriv ?_
    unfold hd
    generalize cos (th s) = c
    generalize sin (th s) = d
    apply Complex.ext <;> simp
  have hf : ∀ s ∈ Icc a b, HasDerivWithinAt
      (fun s => toC (x s, y s) - (toC (x a, y a) + ((s - a : ℝ) : ℂ) * ((v : ℂ) * hd (th a))))
      ((v : ℂ) * hd (th s) - ((1 : ℝ) : ℂ) * ((v : ℂ) * hd (th a))) (Icc a b) s := by
    intro s hs
    refine (hz s hs).sub ?_
    have h2 : HasDerivWithinAt (fun s : ℝ => ((s - a : ℝ) : ℂ)) ((1 : ℝ) : ℂ) (Icc a b) s :=
      ((hasDerivWithinAt_id s _).sub_const a).ofReal_comp
    exact (h2.mul_const _).const_add _
  have hB : ∀ s, HasDerivAt (fun s => |v * ω| * (s - a) ^ 2 / 2) (|v * ω| * (s - a)) s := by
    intro s
    have h3 : HasDerivAt (fun s : ℝ => (s - a) ^ 2) (2 * (s - a)) s := by
      have := ((hasDerivAt_id' s).sub_const a).fun_pow 2
      exact this.congr_deriv (by norm_num)
    have := (h3.const_mul (|v * ω|)).div_const 2
    exact this.congr_deriv (by ring)
  refine image_norm_le_of_norm_deriv_right_le_deriv_boundary
    (fun s hs => (hf s hs).continuousWithinAt)
    (fun s hs => (hf s (Ico_subset_Icc_self hs)).mono_of_mem_nhdsWithin (Icc_mem_nhdsGE_of_mem hs))
    (by simp) hB ?_ ht
  intro s hs
  have hs' := Ico_subset_Icc_self hs
  rw [Complex.ofReal_one, one_mul, ← mul_sub, norm_mul, Complex.norm_real, Real.norm_eq_abs, abs_mul, mul_assoc]
  refine mul_le_mul_of_nonneg_left ((norm_hd_sub _ _).trans ?_) (abs_nonneg _)
  rw [hth s hs', add_sub_cancel_left, abs_mul, abs_of_nonneg (by linarith [hs.1]), mul_comm]

/-- Turning rate of the trailer as a function of the hitch angle. -/
theorem trail_lipschitz (k a b : ℝ) :
    |(sin a - k * cos a) - (sin b - k * cos b)| ≤ √(1 + k ^ 2) * |a - b| := by
  have h1 : |(sin a - k * cos a) - (sin b - k * cos b)| ≤ √(1 + k ^ 2) * ‖hd a - hd b‖ := by
    rw [Complex.norm_eq_sqrt_sq_add_sq, ← sqrt_mul (by positivity)]
    apply abs_le_sqrt
    simp only [hd, Complex.sub_re, Complex.sub_im]
    nlinarith [sq_nonneg ((cos a - cos b) + k * (sin a - sin b))]
  exact h1.trans (mul_le_mul_of_nonneg_left (norm_hd_sub b a) (sqrt_nonneg _))

/-- Trailer heading: deviation over one step from a reference that starts with deviation `e`. -/
theorem trail_step {th ph : ℝ → ℝ} {a b w k ω L p0 e : ℝ}
    (hth : ∀ s ∈ Icc a b, th s = th a + (s - a) * ω)
    (h : ∀ s ∈ Icc a b, HasDerivWithinAt ph (w * (sin (th s - ph s) - k * cos (th s - ph s))) (Icc a b) s)
    (hL : |w| * √(1 + k ^ 2) ≤ L) (he : |ph a - p0| ≤ e) {t : ℝ} (ht : t ∈ Icc a b) :
    |ph t - (p0 + (t - a) * (w * (sin (th a - p0) - k * cos (th a - p0))))|
      ≤ e + L * e * (t - a) + L * (|ω| + L) * (t - a) ^ 2 / 2 := by
  set f : ℝ → ℝ := fun ψ => w * (sin ψ - k * cos ψ) with hf
  have hL0 : 0 ≤ L := (by positivity : 0 ≤ |w| * √(1 + k ^ 2)).trans hL
  have fb : ∀ ψ, |f ψ| ≤ L := by
    intro ψ
    rw [hf, abs_mul]
    exact (mul_le_mul_of_nonneg_left (trig_combo k ψ).1 (abs_nonneg _)).trans hL
  have fl : ∀ ψ ψ', |f ψ - f ψ'| ≤ L * |ψ - ψ'| := by
    intro ψ ψ'
    rw [hf]
    simp only
    rw [← mul_sub, abs_mul]
    calc _ ≤ |w| * (√(1 + k ^ 2) * |ψ - ψ'|) := mul_le_mul_of_nonneg_left (trail_lipschitz k ψ ψ') (abs_nonneg _)
      _ = |w| * √(1 + k ^ 2) * |ψ - ψ'| := by ring
      _ ≤ _ := mul_le_mul_of_nonneg_right hL (abs_nonneg _)
  have h1 : ∀ s ∈ Icc a b, |ph s - ph a| ≤ L * (s - a) := by
    intro s hs
    exact norm_image_sub_le_of_norm_deriv_le_segment' h (fun r _ => fb _) s hs
  have hg : ∀ s ∈ Icc a b, HasDerivWithinAt
      (fun s => ph s - (p0 + (s - a) * f (th a - p0))) (f (th s - ph s) - 1 * f (th a - p0)) (Icc a b) s := by
    intro s hs
    exact (h s hs).sub ((((hasDerivWithinAt_id s _).sub_const a).mul_const _).const_add _)
  have hB : ∀ s, HasDerivAt (fun s => e + L * e * (s - a) + L * (|ω| + L) * (s - a) ^ 2 / 2)
      (L * e + L * (|ω| + L) * (s - a)) s := by
    intro s
    have h3 : HasDerivAt (fun s : ℝ => (s - a) ^ 2) (2 * (s - a)) s := by
      have := ((hasDerivAt_id' s).sub_const a).fun_pow 2
      exact this.congr_deriv (by norm_num)
    have h4 : HasDerivAt (fun s : ℝ => s - a) 1 s := (hasDerivAt_id s).sub_const a
    have := ((h4.const_mul (L * e)).const_add e).add ((h3.const_mul (L * (|ω| + L))).div_const 2)
    exact this.congr_deriv (by ring)
  refine image_norm_le_of_norm_deriv_right_le_deriv_boundary
    (fun s hs => (hg s hs).continuousWithinAt)
    (fun s hs => (hg s (Ico_subset_Icc_self hs)).mono_of_mem_nhdsWithin (Icc_mem_nhdsGE_of_mem hs))
    (by simpa using he) hB ?_ ht
  intro s hs
  have hs' := Ico_subset_Icc_self hs
  rw [one_mul, Real.norm_eq_abs]
  refine (fl _ _).trans ?_
  have e1 : th s - ph s - (th a - p0) = (s - a) * ω - (ph s - ph a) - (ph a - p0) := by
    rw [hth s hs']; ring
  have e2 : |th s - ph s - (th a - p0)| ≤ (s - a) * |ω| + L * (s - a) + e := by
    rw [e1]
    refine (abs_sub _ _).trans (add_le_add ((abs_sub _ _).trans (add_le_add ?_ (h1 s hs'))) he)
    rw [abs_mul, abs_of_nonneg (by linarith [hs.1])]
  calc _ ≤ L * ((s - a) * |ω| + L * (s - a) + e) := mul_le_mul_of_nonneg_left e2 hL0
    _ = _ := by ring

/-! ## Many steps -/

theorem drift_succ (P : Params) (n : ℕ) : drift P (n + 1) = drift P n + P.vMax * P.dt * turnStep P / 2 := by
  unfold drift; push_cast; ring

theorem turnStep_nonneg {P : Params} (h : DriveOK P) : 0 ≤ turnStep P := by
  unfold turnStep
  exact div_nonneg (mul_nonneg (mul_nonneg h.v h.dt) h.tan_nonneg) h.l1.le

theorem trailStep_nonneg {P : Params} (h : DriveOK P) : 0 ≤ trailStep P := by
  unfold trailStep
  exact div_nonneg (mul_nonneg (mul_nonneg h.v h.dt) (sqrt_nonneg _)) h.l2.le

theorem trailDrift_succ (P : Params) (n : ℕ) : trailDrift P (n + 1)
    = trailDrift P n + trailStep P * trailDrift P n + trailStep P * (turnStep P + trailStep P) / 2 := by
  unfold trailDrift; ring

theorem trailDrift_zero (P : Params) : trailDrift P 0 = 0 := by simp [trailDrift]

theorem trailDrift_nonneg {P : Params} (h : DriveOK P) : ∀ n, 0 ≤ trailDrift P n
  | 0 => (trailDrift_zero P).ge
  | n + 1 => by
    rw [trailDrift_succ]
    have := trailDrift_nonneg h n
    have := trailStep_nonneg h
    have := turnStep_nonneg h
    positivity

theorem drift_mono {P : Params} (h : DriveOK P) {m n : ℕ} (hmn : m ≤ n) : drift P m ≤ drift P n := by
  unfold drift
  refine mul_le_mul_of_nonneg_right (by exact_mod_cast hmn) ?_
  have := mul_nonneg (mul_nonneg h.v h.dt) (turnStep_nonneg h)
  linarith

theorem trailDrift_mono {P : Params} (h : DriveOK P) {m n : ℕ} (hmn : m ≤ n) :
    trailDrift P m ≤ trailDrift P n := by
  unfold trailDrift
  have h1 := trailStep_nonneg h
  have h2 := turnStep_nonneg h
  have := pow_le_pow_right₀ (by linarith : 1 ≤ 1 + trailStep P) hmn
  nlinarith

/-- Recorded poses and the continuous motion of the car, step by step. -/
theorem car_run {P : Params} (h : DriveOK P) {x y th : ℝ → ℝ} {n : ℕ} {X Y TH : ℕ → ℝ} {u : ℕ → U}
    (hx : x 0 = X 0) (hy : y 0 = Y 0) (hth : th 0 = TH 0) (hu : ∀ k < n, Spec.InBox (u k))
    (hr : ∀ k < n, X (k + 1) = X k + P.dt * ((u k).1 * P.vMax * cos (TH k)) ∧
      Y (k + 1) = Y k + P.dt * ((u k).1 * P.vMax * sin (TH k)) ∧
      TH (k + 1) = TH k + P.dt * ((u k).1 * P.vMax / P.l1 * tan ((u k).2 * (P.deltaMaxDeg * π / 180))))
    (hc : ∀ k < n, DrivesCar P x y th (k * P.dt) ((k + 1) * P.dt) ((u k).1 * P.vMax)
      ((u k).2 * (P.deltaMaxDeg * π / 180))) :
    ∀ k < n, ∀ lam, 0 ≤ lam → lam ≤ 1 →
      th ((k + lam) * P.dt) = mix lam (TH k) (TH (k + 1)) ∧
      Spec.dist (x ((k + lam) * P.dt), y ((k + lam) * P.dt)) (mix lam (X k) (X (k + 1)), mix lam (Y k) (Y (k + 1)))
        ≤ drift P (k + 1) := by
  -- within one step, from the sample before it
  have one : ∀ k < n, th (k * P.dt) = TH k →
      Spec.dist (x (k * P.dt), y (k * P.dt)) (X k, Y k) ≤ drift P k → ∀ lam, 0 ≤ lam → lam ≤ 1 →
      th ((k + lam) * P.dt) = mix lam (TH k) (TH (k + 1)) ∧
      Spec.dist (x ((k + lam) * P.dt), y ((k + lam) * P.dt)) (mix lam (X k) (X (k + 1)), mix lam (Y k) (Y (k + 1)))
        ≤ drift P (k + 1) := by
    intro k hk e1 e2 lam l0 l1
    have hin : (k + lam) * P.dt ∈ Icc (k * P.dt) ((k + 1) * P.dt) := by
      have := h.dt
      constructor <;> nlinarith
    obtain ⟨r1, r2, r3⟩ := hr k hk
    have hsub : (k + lam) * P.dt - k * P.dt = lam * P.dt := by ring
    constructor
    · rw [const_rate (hc k hk).th hin, hsub, e1, r3]
      unfold mix; ring
    · have c := car_step (hc k hk) hin
      rw [hsub, e1] at c
      rw [dist_eq] at e2 ⊢
      have em : toC (mix lam (X k) (X (k + 1)), mix lam (Y k) (Y (k + 1)))
          = toC (X k, Y k) + ((lam * P.dt : ℝ) : ℂ) * ((((u k).1 * P.vMax : ℝ) : ℂ) * hd (TH k)) := by
        rw [r1, r2]
        unfold toC mix hd
        apply Complex.ext <;> simp [-Complex.ofReal_cos, -Complex.ofReal_sin] <;> ring
      rw [em]
      have tri : ∀ A B C D : ℂ, ‖A - (C + D)‖ ≤ ‖A - (B + D)‖ + ‖B - C‖ := by
        intro A B C D
        have : A - (C + D) = (A - (B + D)) + (B - C) := by ring
        rw [this]; exact norm_add_le _ _
      refine (tri _ (toC (x (k * P.dt), y (k * P.dt))) _ _).trans ?_
      rw [drift_succ, add_comm]
      refine add_le_add e2 (c.trans ?_)
      have k1 := travel_le h (hu k hk)
      have k2 := dth1_le h (hu k hk)
      have k3 := mul_le_mul k1 k2 (abs_nonneg _) (mul_nonneg h.v h.dt)
      rw [← abs_mul] at k3
      have e3 : |(u k).1 * P.vMax * ((u k).1 * P.vMax / P.l1 * tan ((u k).2 * (P.deltaMaxDeg * π / 180)))|
          * (lam * P.dt) ^ 2 / 2 = lam ^ 2 * (|P.dt * ((u k).1 * P.vMax) * (P.dt * ((u k).1 * P.vMax / P.l1
            * tan ((u k).2 * (P.deltaMaxDeg * π / 180))))| / 2) := by
        have : P.dt * ((u k).1 * P.vMax) * (P.dt * ((u k).1 * P.vMax / P.l1
            * tan ((u k).2 * (P.deltaMaxDeg * π / 180)))) = ((u k).1 * P.vMax * ((u k).1 * P.vMax / P.l1
            * tan ((u k).2 * (P.deltaMaxDeg * π / 180)))) * P.dt ^ 2 := by ring
        rw [this, abs_mul _ (P.dt ^ 2), abs_of_nonneg (sq_nonneg P.dt)]
        ring
      rw [e3]
      have l2 : lam ^ 2 ≤ 1 := by nlinarith
      have n1 : 0 ≤ |P.dt * ((u k).1 * P.vMax) * (P.dt * ((u k).1 * P.vMax / P.l1
            * tan ((u k).2 * (P.deltaMaxDeg * π / 180))))| := abs_nonneg _
      unfold turnStep
      nlinarith
  have all : ∀ k ≤ n, th (k * P.dt) = TH k ∧ Spec.dist (x (k * P.dt), y (k * P.dt)) (X k, Y k) ≤ drift P k := by
    intro k
    induction k with
    | zero =>
      intro _
      simp [hx, hy, hth, drift, Spec.dist]
    | succ k ih =>
      intro hk
      obtain ⟨i1, i2⟩ := ih (by omega)
      obtain ⟨o1, o2⟩ := one k (by omega) i1 i2 1 (by norm_num) le_rfl
      have m1 : ∀ a b : ℝ, mix 1 a b = b := by intro a b; unfold mix; ring
      simp only [m1] at o1 o2
      push_cast
      exact ⟨o1, o2⟩
  intro k hk
  exact one k hk (all k hk.le).1 (all k hk.le).2

/-- The same for the heading of the trailer. -/
theorem trail_run {P : Params} (h : DriveOK P) {th ph : ℝ → ℝ} {n : ℕ} {TH PH : ℕ → ℝ} {u : ℕ → U}
    (hth : ∀ k < n, ∀ lam, 0 ≤ lam → lam ≤ 1 → th ((k + lam) * P.dt) = mix lam (TH k) (TH (k + 1)))
    (hph : ph 0 = PH 0) (hu : ∀ k < n, Spec.InBox (u k))
    (hr : ∀ k < n, TH (k + 1) = TH k + P.dt * ((u k).1 * P.vMax / P.l1 * tan ((u k).2 * (P.deltaMaxDeg * π / 180))) ∧
      PH (k + 1) = PH k + P.dt * ((u k).1 * P.vMax / P.l2 * (sin (TH k - PH k)
        - P.lh / P.l1 * cos (TH k - PH k) * tan ((u k).2 * (P.deltaMaxDeg * π / 180)))))
    (hc : ∀ k < n, (∀ t ∈ Icc (k * P.dt) ((k + 1) * P.dt), HasDerivWithinAt th ((u k).1 * P.vMax / P.l1
        * tan ((u k).2 * (P.deltaMaxDeg * π / 180))) (Icc (k * P.dt) ((k + 1) * P.dt)) t) ∧
      DrivesTrailer P th ph (k * P.dt) ((k + 1) * P.dt) ((u k).1 * P.vMax)
      ((u k).2 * (P.deltaMaxDeg * π / 180))) :
    ∀ k < n, ∀ lam, 0 ≤ lam → lam ≤ 1 →
      |ph ((k + lam) * P.dt) - mix lam (PH k) (PH (k + 1))| ≤ trailDrift P (k + 1) := by
  have one : ∀ k < n, |ph (k * P.dt) - PH k| ≤ trailDrift P k → ∀ lam, 0 ≤ lam → lam ≤ 1 →
      |ph ((k + lam) * P.dt) - mix lam (PH k) (PH (k + 1))| ≤ trailDrift P (k + 1) := by
    intro k hk e lam l0 l1
    have hin : (k + lam) * P.dt ∈ Icc (k * P.dt) ((k + 1) * P.dt) := by
      have := h.dt
      constructor <;> nlinarith
    have hsub : (k + lam) * P.dt - k * P.dt = lam * P.dt := by ring
    obtain ⟨r3, r4⟩ := hr k hk
    have hTH : th (k * P.dt) = TH k := by
      have := hth k hk 0 le_rfl zero_le_one
      simpa [mix] using this
    set v := (u k).1 * P.vMax with hv
    set tn := tan ((u k).2 * (P.deltaMaxDeg * π / 180)) with htn
    have hc2 : ∀ s ∈ Icc (k * P.dt) ((k + 1) * P.dt), HasDerivWithinAt ph
        (v / P.l2 * (sin (th s - ph s) - (P.lh / P.l1 * tn) * cos (th s - ph s)))
        (Icc (k * P.dt) ((k + 1) * P.dt)) s := by
      intro s hs
      exact ((hc k hk).2 s hs).congr_deriv (by ring)
    have hv1 : |v| ≤ P.vMax := by
      rw [hv, abs_mul, abs_of_nonneg h.v]
      exact mul_le_of_le_one_left h.v (hu k hk).1
    have hL : |v / P.l2| * √(1 + (P.lh / P.l1 * tn) ^ 2)
        ≤ P.vMax / P.l2 * √(1 + (P.lh * tan (P.deltaMaxDeg * π / 180) / P.l1) ^ 2) := by
      rw [abs_div, abs_of_pos h.l2]
      exact mul_le_mul (div_le_div_of_nonneg_right hv1 h.l2.le) (kappa_mono h (hu k hk)) (sqrt_nonneg _)
        (div_nonneg h.v h.l2.le)
    have hth' : ∀ s ∈ Icc (k * P.dt) ((k + 1) * P.dt), th s = th (k * P.dt) + (s - k * P.dt) * (v / P.l1 * tn) :=
      fun s hs => const_rate (hc k hk).1 hs
    have tsp := trail_step hth' hc2 hL e hin
    rw [hsub, hTH] at tsp
    have em : mix lam (PH k) (PH (k + 1)) = PH k + lam * P.dt * (v / P.l2 * (sin (TH k - PH k)
        - P.lh / P.l1 * tn * cos (TH k - PH k))) := by
      rw [r4]; unfold mix; ring
    rw [em]
    refine tsp.trans ?_
    rw [trailDrift_succ]
    set K := √(1 + (P.lh * tan (P.deltaMaxDeg * π / 180) / P.l1) ^ 2) with hK
    have e1 : P.vMax / P.l2 * K * (lam * P.dt) = lam * trailStep P := by unfold trailStep; ring
    have e2 : |v / P.l1 * tn| * (lam * P.dt) ≤ lam * turnStep P := by
      have k2 := dth1_le h (hu k hk)
      rw [abs_mul, abs_of_nonneg h.dt] at k2
      unfold turnStep
      calc _ = lam * (P.dt * |v / P.l1 * tn|) := by ring
        _ ≤ _ := mul_le_mul_of_nonneg_left k2 l0
    have t0 := trailStep_nonneg h
    have t1 := turnStep_nonneg h
    have d0 := trailDrift_nonneg h k
    have g1 : P.vMax / P.l2 * K * trailDrift P k * (lam * P.dt) ≤ trailStep P * trailDrift P k := by
      calc _ = lam * (trailStep P * trailDrift P k) := by rw [← mul_assoc lam, ← e1]; ring
        _ ≤ _ := mul_le_of_le_one_left (mul_nonneg t0 d0) l1
    have g2 : P.vMax / P.l2 * K * (|v / P.l1 * tn| + P.vMax / P.l2 * K) * (lam * P.dt) ^ 2
        ≤ trailStep P * (turnStep P + trailStep P) := by
      calc _ = (P.vMax / P.l2 * K * (lam * P.dt)) * (|v / P.l1 * tn| * (lam * P.dt)
            + P.vMax / P.l2 * K * (lam * P.dt)) := by ring
        _ = lam * trailStep P * (|v / P.l1 * tn| * (lam * P.dt) + lam * trailStep P) := by rw [e1]
        _ ≤ lam * trailStep P * (lam * turnStep P + lam * trailStep P) :=
          mul_le_mul_of_nonneg_left (by linarith) (mul_nonneg l0 t0)
        _ = lam ^ 2 * (trailStep P * (turnStep P + trailStep P)) := by ring
        _ ≤ _ := mul_le_of_le_one_left (by positivity) (by nlinarith)
    linarith
  have all : ∀ k ≤ n, |ph (k * P.dt) - PH k| ≤ trailDrift P k := by
    intro k
    induction k with
    | zero =>
      intro _
      simp [hph, trailDrift_zero]
    | succ k ih =>
      intro hk
      have o := one k (by omega) (ih (by omega)) 1 (by norm_num) le_rfl
      have m1 : ∀ a b : ℝ, mix 1 a b = b := by intro a b; unfold mix; ring
      rw [m1] at o
      push_cast
      exact o
  intro k hk
  exact one k hk (all k hk.le)

/-! ## The recorded motion -/

/-- Consecutive entries of a recorded motion, read by position. -/
theorem chain_at {A : Type} {R : A → A → Prop} {l : List A} (h : List.IsChain R l) {k : ℕ} {a b : A}
    (ha : l[k]? = some a) (hb : l[k + 1]? = some b) : R a b := by
  rw [List.isChain_iff_getElem] at h
  obtain ⟨h1, rfl⟩ := List.getElem?_eq_some_iff.mp ha
  obtain ⟨h2, rfl⟩ := List.getElem?_eq_some_iff.mp hb
  exact h k h2

/-- **C75, bicycle**: the vehicle that is driven in continuous time with the applied controls of a recorded
motion has, at every moment, exactly the heading that interpolates the recorded headings, and its position
differs from the interpolated one by at most `drift` of the number of steps. -/
theorem C75_bicycle (T : Bicycle) (ext : Ext Q3) (hp : T.enableProjection = false) (hd : DriveOK T.toParams)
    (s : St Q3) (us : List U) (γ : ℝ → Q3)
    (hγ : Continuous3 T.toParams γ (s :: scanStates (T.step ext) s us)) (k : ℕ) (a b : St Q3)
    (ha : (s :: scanStates (T.step ext) s us)[k]? = some a)
    (hb : (s :: scanStates (T.step ext) s us)[k + 1]? = some b) (lam : ℝ) (l0 : 0 ≤ lam) (l1 : lam ≤ 1) :
    (γ ((k + lam) * T.dt)).th1 = (between3 lam a.q b.q).th1 ∧
    Spec.dist ((γ ((k + lam) * T.dt)).px, (γ ((k + lam) * T.dt)).py)
      ((between3 lam a.q b.q).px, (between3 lam a.q b.q).py) ≤ drift T.toParams (k + 1) := by
  have hch := scan_isChain (step := T.step ext)
    (fun s s' : St Q3 => Spec.EulerBicycle T.toParams s.q s'.applied s'.q ∧ Spec.InBox s'.applied)
    (fun s a => ⟨by
      have := C09_bicycle T ext s [a]
      simp only [scanStates, List.isChain_cons_cons] at this
      exact this.1, C08_bicycle T ext hp s a⟩) us s
  generalize s :: scanStates (T.step ext) s us = xs at *
  have hk : k + 1 < xs.length := (List.getElem?_eq_some_iff.mp hb).1
  have at' : ∀ j < xs.length, xs[j]? = some (xs.getD j s) := by
    intro j hj
    rw [List.getD_eq_getElem _ _ hj, List.getElem?_eq_getElem hj]
  have ea : xs.getD k s = a := by
    have := at' k (by omega); rw [ha] at this; exact (Option.some.inj this).symm
  have eb : xs.getD (k + 1) s = b := by
    have := at' (k + 1) hk; rw [hb] at this; exact (Option.some.inj this).symm
  have h0 := hγ.start _ (at' 0 (by omega))
  have key := car_run (P := T.toParams) hd (x := fun t => (γ t).px) (y := fun t => (γ t).py)
    (th := fun t => (γ t).th1) (n := k + 1) (X := fun j => (xs.getD j s).q.px) (Y := fun j => (xs.getD j s).q.py)
    (TH := fun j => (xs.getD j s).q.th1) (u := fun j => (xs.getD (j + 1) s).applied)
    (by simp only [h0]) (by simp only [h0]) (by simp only [h0])
    (fun j hj => (chain_at hch (at' j (by omega)) (at' (j + 1) (by omega))).2)
    (fun j hj => (chain_at hch (at' j (by omega)) (at' (j + 1) (by omega))).1)
    (fun j hj => hγ.drive j _ (at' (j + 1) (by omega)))
    k (by omega) lam l0 l1
  simp only [ea, eb] at key
  exact key

/-- **C75, tractor-trailer**: the same for the tractor, and the trailer's heading differs from the
interpolated one by at most `trailDrift` of the number of steps. -/
theorem C75_tt2d (T : TT2d) (ext : Ext Q4) (hp : T.enableProjection = false) (hd : DriveOK T.toParams)
    (s : St Q4) (us : List U) (γ : ℝ → Q4)
    (hγ : Continuous4 T.toParams γ (s :: scanStates (T.step ext) s us)) (k : ℕ) (a b : St Q4)
    (ha : (s :: scanStates (T.step ext) s us)[k]? = some a)
    (hb : (s :: scanStates (T.step ext) s us)[k + 1]? = some b) (lam : ℝ) (l0 : 0 ≤ lam) (l1 : lam ≤ 1) :
    (γ ((k + lam) * T.dt)).th1 = (between4 lam a.q b.q).th1 ∧
    Spec.dist ((γ ((k + lam) * T.dt)).px, (γ ((k + lam) * T.dt)).py)
      ((between4 lam a.q b.q).px, (between4 lam a.q b.q).py) ≤ drift T.toParams (k + 1) ∧
    |(γ ((k + lam) * T.dt)).th2 - (between4 lam a.q b.q).th2| ≤ trailDrift T.toParams (k + 1) := by
  have hch := scan_isChain (step := T.step ext)
    (fun s s' : St Q4 => Spec.EulerTT T.toParams s.q s'.applied s'.q ∧ Spec.InBox s'.applied)
    (fun s a => ⟨by
      have := C09_tt2d T ext s [a]
      simp only [scanStates, List.isChain_cons_cons] at this
      exact this.1, C08_tt2d T ext hp s a⟩) us s
  generalize s :: scanStates (T.step ext) s us = xs at *
  have hk : k + 1 < xs.length := (List.getElem?_eq_some_iff.mp hb).1
  have at' : ∀ j < xs.length, xs[j]? = some (xs.getD j s) := by
    intro j hj
    rw [List.getD_eq_getElem _ _ hj, List.getElem?_eq_getElem hj]
  have ea : xs.getD k s = a := by
    have := at' k (by omega); rw [ha] at this; exact (Option.some.inj this).symm
  have eb : xs.getD (k + 1) s = b := by
    have := at' (k + 1) hk; rw [hb] at this; exact (Option.some.inj this).symm
  have h0 := hγ.start _ (at' 0 (by omega))
  have cha : ∀ j < k + 1, Spec.EulerTT T.toParams (xs.getD j s).q (xs.getD (j + 1) s).applied (xs.getD (j + 1) s).q ∧
      Spec.InBox (xs.getD (j + 1) s).applied :=
    fun j hj => chain_at hch (at' j (by omega)) (at' (j + 1) (by omega))
  have key := car_run (P := T.toParams) hd (x := fun t => (γ t).px) (y := fun t => (γ t).py)
    (th := fun t => (γ t).th1) (n := k + 1) (X := fun j => (xs.getD j s).q.px) (Y := fun j => (xs.getD j s).q.py)
    (TH := fun j => (xs.getD j s).q.th1) (u := fun j => (xs.getD (j + 1) s).applied)
    (by simp only [h0]) (by simp only [h0]) (by simp only [h0])
    (fun j hj => (cha j hj).2) (fun j hj => ⟨(cha j hj).1.1, (cha j hj).1.2.1, (cha j hj).1.2.2.1⟩)
    (fun j hj => (hγ.drive j _ (at' (j + 1) (by omega))).1)
  have key2 := trail_run (P := T.toParams) hd (th := fun t => (γ t).th1) (ph := fun t => (γ t).th2) (n := k + 1)
    (TH := fun j => (xs.getD j s).q.th1) (PH := fun j => (xs.getD j s).q.th2)
    (u := fun j => (xs.getD (j + 1) s).applied)
    (fun j hj lam l0 l1 => (key j hj lam l0 l1).1) (by simp only [h0])
    (fun j hj => (cha j hj).2) (fun j hj => ⟨(cha j hj).1.2.2.1, (cha j hj).1.2.2.2⟩)
    (fun j hj => ⟨(hγ.drive j _ (at' (j + 1) (by omega))).1.th, (hγ.drive j _ (at' (j + 1) (by omega))).2⟩)
    k (by omega) lam l0 l1
  have key1 := key k (by omega) lam l0 l1
  simp only [ea, eb] at key1 key2
  exact ⟨key1.1, key1.2, key2⟩

/-! ## Safety of the continuous motion -/

theorem dist_tri (a b c : V2) : Spec.dist a c ≤ Spec.dist a b + Spec.dist b c := by
  simp only [dist_eq]
  have : toC a - toC c = (toC a - toC b) + (toC b - toC c) := by ring
  rw [this]
  exact norm_add_le _ _

/-- A body seen from a slightly different pose. -/
theorem body_near {c c' : V2} {ang ang' rear front width : ℝ} (b : Pt)
    (hb : b ∈ Spec.body c ang rear front width) :
    ∃ b' ∈ Spec.body c' ang' rear front width,
      Spec.dist b' b ≤ Spec.dist c' c + (max rear front + width / 2) * |ang' - ang| := by
  obtain ⟨s, t, hs1, hs2, ht, rfl⟩ := hb
  refine ⟨_, ⟨s, t, hs1, hs2, ht, rfl⟩, (frame_shift _ _ _ _ _ _).trans ?_⟩
  have hs : |s| ≤ max rear front := by
    rw [abs_le]
    exact ⟨by linarith [le_max_left rear front], by linarith [le_max_right rear front]⟩
  exact add_le_add le_rfl (mul_le_mul_of_nonneg_right (by linarith) (abs_nonneg _))

/-- The set near a set that lies near two others. -/
theorem near_between {A A' B C : Set Pt} {d e : ℝ} (hC : ∀ c ∈ C, ∃ b ∈ B, Spec.dist b c ≤ e)
    (hB : ∀ b ∈ B, (∃ a ∈ A, Spec.dist a b ≤ d) ∨ ∃ a ∈ A', Spec.dist a b ≤ d) :
    ∀ c ∈ C, (∃ a ∈ A, Spec.dist a c ≤ d + e) ∨ ∃ a ∈ A', Spec.dist a c ≤ d + e := by
  intro c hc
  obtain ⟨b, hb, he⟩ := hC c hc
  rcases hB b hb with ⟨a, ha, hd⟩ | ⟨a, ha, hd⟩
  · exact .inl ⟨a, ha, (dist_tri a b c).trans (add_le_add hd he)⟩
  · exact .inr ⟨a, ha, (dist_tri a b c).trans (add_le_add hd he)⟩

/-- Two states of the bicycle with margin, and a pose near one in between. -/
theorem bicycle_near {P : Params} {cs : List Circle} {rs : List Rect} {p e : ℝ} {q q' g : Q3} {lam : ℝ}
    (h1 : (Spec.dist (q'.px, q'.py) (q.px, q.py)
      + (max P.lr (P.l1 + P.lf1) + P.tractorWidth / 2) * |q'.th1 - q.th1|) / 2 + e ≤ p)
    (m : Margin3 p P cs rs q) (m' : Margin3 p P cs rs q') (l0 : 0 ≤ lam) (l1 : lam ≤ 1)
    (g1 : g.th1 = (between3 lam q q').th1)
    (g2 : Spec.dist (g.px, g.py) ((between3 lam q q').px, (between3 lam q q').py) ≤ e) :
    Spec.SafeBicycle { P with circles := cs, rects := rs } g := by
  obtain ⟨p1, p2⟩ := point_between lam (q.px, q.py) (q'.px, q'.py)
  have tr : ∀ b ∈ Spec.tractorBody P (between3 lam q q').px (between3 lam q q').py (between3 lam q q').th1, _ :=
    fun b hb => body_between (rear := P.lr) (front := P.l1 + P.lf1) (width := P.tractorWidth) l0 l1 p1 p2 b hb
  simp only at tr
  have nr : ∀ b ∈ Spec.tractorBody P g.px g.py g.th1, ∃ b' ∈ Spec.tractorBody P (between3 lam q q').px
      (between3 lam q q').py (between3 lam q q').th1, Spec.dist b' b ≤ e := by
    intro b hb
    obtain ⟨b', hb', hd⟩ := body_near (c' := ((between3 lam q q').px, (between3 lam q q').py))
      (ang' := (between3 lam q q').th1) b hb
    refine ⟨b', hb', hd.trans ?_⟩
    rw [g1, sub_self, abs_zero, mul_zero, add_zero, dist_comm']
    exact g2
  have tr2 := near_between nr tr
  exact ⟨fun c hc => between_apart h1 (m.1 c hc) (m'.1 c hc) tr2,
    fun o ho => between_apart h1 (m.2 o ho) (m'.2 o ho) tr2⟩

/-- The same for the tractor-trailer. -/
theorem tt_near {P : Params} {cs : List Circle} {rs : List Rect} {p e f : ℝ} (hl : 0 ≤ P.lh) (hl2 : 0 ≤ P.l2)
    (hm : 0 ≤ max P.lr2 P.lf2 + P.trailerWidth / 2) {q q' g : Q4} {lam : ℝ}
    (h1 : (Spec.dist (q'.px, q'.py) (q.px, q.py)
      + (max P.lr (P.l1 + P.lf1) + P.tractorWidth / 2) * |q'.th1 - q.th1|) / 2 + e ≤ p)
    (h2 : (Spec.dist (q'.px, q'.py) (q.px, q.py) + P.lh * |q'.th1 - q.th1| + P.l2 * |q'.th2 - q.th2|
      + (max P.lr2 P.lf2 + P.trailerWidth / 2) * |q'.th2 - q.th2|) / 2
      + (e + (P.l2 + max P.lr2 P.lf2 + P.trailerWidth / 2) * f) ≤ p)
    (m : Margin4 p P cs rs q) (m' : Margin4 p P cs rs q') (l0 : 0 ≤ lam) (l1 : lam ≤ 1)
    (g1 : g.th1 = (between4 lam q q').th1)
    (g2 : Spec.dist (g.px, g.py) ((between4 lam q q').px, (between4 lam q q').py) ≤ e)
    (g3 : |g.th2 - (between4 lam q q').th2| ≤ f) :
    Spec.SafeTT { P with circles := cs, rects := rs } g := by
  obtain ⟨p1, p2⟩ := point_between lam (q.px, q.py) (q'.px, q'.py)
  obtain ⟨a1, a2⟩ := axle_between P hl hl2 lam q q'
  have tr : ∀ b ∈ Spec.tractorBody P (between4 lam q q').px (between4 lam q q').py (between4 lam q q').th1, _ :=
    fun b hb => body_between (rear := P.lr) (front := P.l1 + P.lf1) (width := P.tractorWidth) l0 l1 p1 p2 b hb
  have ta : ∀ b ∈ Spec.trailerBody P (between4 lam q q'), _ :=
    fun b hb => body_between (rear := P.lr2) (front := P.lf2) (width := P.trailerWidth) l0 l1 a1 a2 b hb
  simp only at tr ta
  set mq := between4 lam q q' with hmq
  have nr : ∀ b ∈ Spec.tractorBody P g.px g.py g.th1, ∃ b' ∈ Spec.tractorBody P mq.px
      mq.py mq.th1, Spec.dist b' b ≤ e := by
    intro b hb
    obtain ⟨b', hb', hd⟩ := body_near (c' := (mq.px, mq.py)) (ang' := mq.th1) b hb
    refine ⟨b', hb', hd.trans ?_⟩
    rw [g1, sub_self, abs_zero, mul_zero, add_zero, dist_comm']
    exact g2
  have ax : Spec.dist (Spec.trailerAxle P mq) (Spec.trailerAxle P g) ≤ e + P.l2 * f := by
    unfold Spec.trailerAxle
    refine (frame_shift _ _ _ _ _ _).trans ?_
    refine add_le_add ((frame_shift _ _ _ _ _ _).trans ?_) ?_
    · rw [g1, sub_self, abs_zero, mul_zero, add_zero, dist_comm']
      exact g2
    · rw [abs_neg, abs_of_nonneg hl2, abs_zero, add_zero, abs_sub_comm]
      exact mul_le_mul_of_nonneg_left g3 hl2
  have nt : ∀ b ∈ Spec.trailerBody P g, ∃ b' ∈ Spec.trailerBody P mq,
      Spec.dist b' b ≤ e + (P.l2 + max P.lr2 P.lf2 + P.trailerWidth / 2) * f := by
    intro b hb
    obtain ⟨b', hb', hd⟩ := body_near (c' := Spec.trailerAxle P mq) (ang' := mq.th2) b hb
    refine ⟨b', hb', hd.trans ?_⟩
    rw [abs_sub_comm]
    have := mul_le_mul_of_nonneg_left g3 hm
    linarith
  have tr2 := near_between nr tr
  have ta2 := near_between nt ta
  exact ⟨fun c hc => ⟨between_apart (by linarith) (m.1 c hc).1 (m'.1 c hc).1 tr2,
      between_apart (by linarith) (m.1 c hc).2 (m'.1 c hc).2 ta2⟩,
    fun o ho => ⟨between_apart (by linarith) (m.2 o ho).1 (m'.2 o ho).1 tr2,
      between_apart (by linarith) (m.2 o ho).2 (m'.2 o ho).2 ta2⟩⟩

theorem max_nonneg_of_neg_le {a b : ℝ} (h : -a ≤ b) : 0 ≤ max a b := by
  rcases le_total 0 a with ha | ha
  · exact ha.trans (le_max_left _ _)
  · exact (by linarith : (0 : ℝ) ≤ b).trans (le_max_right _ _)

/-- Every moment of the run lies in one of the steps. -/
theorem in_step {N : ℕ} {dt t : ℝ} (hdt : 0 ≤ dt) (t0 : 0 ≤ t) (t1 : t ≤ N * dt) :
    t = 0 ∨ ∃ k < N, ∃ lam : ℝ, 0 ≤ lam ∧ lam ≤ 1 ∧ t = (k + lam) * dt := by
  induction N with
  | zero => left; simp at t1; linarith
  | succ n ih =>
    rcases le_total t (n * dt) with h | h
    · rcases ih h with h | ⟨k, hk, r⟩
      · exact .inl h
      · exact .inr ⟨k, by omega, r⟩
    · rcases hdt.eq_or_lt with h0 | h0
      · left; rw [← h0] at t1; simp at t1; linarith
      · right
        refine ⟨n, by omega, (t - n * dt) / dt, div_nonneg (by linarith) hdt, ?_, ?_⟩
        · rw [div_le_one h0]; push_cast at t1; linarith
        · field_simp; ring

/-- **C75, bicycle with shield and padding**: if the padding covers half a step's travel and the drift of the whole
run, the vehicle driven in continuous time with the recorded controls stays clear of the actual obstacles. -/
theorem C75_safe_bicycle (T : Bicycle) (ext : Ext Q3) (hs : T.shieldCollision = true)
    (hp : T.enableProjection = false) (hg : T.enableGuidance = false)
    (hsz : Spec.SidesOK T.toParams) (hd : DriveOK T.toParams) (hov : -T.lr ≤ T.l1 + T.lf1)
    {p : ℝ} {cs : List Circle} {rs : List Rect} (hP : Padded p T.toParams cs rs) (hr : ∀ c ∈ cs, 0 ≤ c.r)
    (s : St Q3) (h0 : Spec.SafeBicycle T.toParams s.q) (us : List U)
    (h1 : Spec.tractorShift T.toParams 0 / 2 + drift T.toParams us.length ≤ p) (γ : ℝ → Q3)
    (hγ : Continuous3 T.toParams γ (s :: scanStates (T.step ext) s us)) (t : ℝ) (t0 : 0 ≤ t)
    (t1 : t ≤ us.length * T.dt) :
    Spec.SafeBicycle { T.toParams with circles := cs, rects := rs } (γ t) := by
  have m1 : 0 ≤ max T.lr (T.l1 + T.lf1) := max_nonneg_of_neg_le hov
  have w1 : 0 ≤ T.tractorWidth / 2 := by linarith [hsz.tractorWid]
  have hΔ : 0 ≤ T.vMax * T.dt * tan (T.deltaMaxDeg * π / 180) / T.l1 := turnStep_nonneg hd
  have hw : 0 ≤ T.vMax * T.dt := mul_nonneg hd.v hd.dt
  have hdr : 0 ≤ drift T.toParams us.length := by
    have := drift_mono hd (Nat.zero_le us.length)
    simpa [drift] using this
  have hsh : 0 ≤ Spec.tractorShift T.toParams 0 := by
    unfold Spec.tractorShift
    simp only [mul_zero, sub_zero]
    have := mul_nonneg (add_nonneg m1 w1) hΔ
    linarith
  have p0 : 0 ≤ p := by linarith
  have hnt : ∀ c ∈ T.circles, T.tractorWidth / 2 ≤ c.r ∨ Spec.tractorShift T.toParams c.r ≤ 2 * c.r := by
    intro c hc
    right
    obtain ⟨c0, hc0, rfl⟩ : ∃ c0 ∈ cs, c = ⟨c0.x, c0.y, c0.r + p⟩ := forall2_mem_left (padded_circles hP) c hc
    have := hr c0 hc0
    unfold Spec.tractorShift at h1 ⊢
    simp only [mul_zero, sub_zero] at h1 ⊢
    have : 0 ≤ 2 * (c0.r + p) * (T.vMax * T.dt * tan (T.deltaMaxDeg * π / 180) / T.l1) :=
      mul_nonneg (by linarith) hΔ
    nlinarith
  have hmar : ∀ a ∈ s :: scanStates (T.step ext) s us, Margin3 p T.toParams cs rs a.q := by
    intro a ha
    rcases List.mem_cons.mp ha with rfl | ha
    · exact C74_margin_bicycle p0 hP hr h0
    · exact C74_margin_bicycle p0 hP hr (C03_solid_bicycle_partial T ext hs hp hg hsz hd hnt s h0 us a ha)
  rcases in_step hd.dt t0 t1 with rfl | ⟨k, hk, lam, l0, l1, rfl⟩
  · rw [hγ.start s rfl]
    refine bicycle_near (e := 0) (lam := 0) (q := s.q) (q' := s.q) ?_ (hmar s (by simp)) (hmar s (by simp)) le_rfl
      zero_le_one (by simp [between3, mix]) (by simp [between3, mix, Spec.dist])
    simpa [Spec.dist] using p0
  · have hlen : (s :: scanStates (T.step ext) s us).length = us.length + 1 := by
      simp [scanStates_length]
    have ha := List.getElem?_eq_getElem (l := s :: scanStates (T.step ext) s us) (i := k) (by omega)
    have hb := List.getElem?_eq_getElem (l := s :: scanStates (T.step ext) s us) (i := k + 1) (by omega)
    obtain ⟨g1, g2⟩ := C75_bicycle T ext hp hd s us γ hγ k _ _ ha hb lam l0 l1
    have hR := chain_at (scan_isChain (step := T.step ext)
      (fun s s' : St Q3 => Spec.EulerBicycle T.toParams s.q s'.applied s'.q ∧ Spec.InBox s'.applied)
      (fun s a => ⟨by
        have := C09_bicycle T ext s [a]
        simp only [scanStates, List.isChain_cons_cons] at this
        exact this.1, C08_bicycle T ext hp s a⟩) us s) ha hb
    refine bicycle_near ?_ (hmar _ (List.getElem_mem _)) (hmar _ (List.getElem_mem _)) l0 l1 g1 g2
    obtain ⟨⟨e1, e2, e3⟩, hbox⟩ := hR
    have d1 : Spec.dist (((s :: scanStates (T.step ext) s us)[k + 1]).q.px, ((s :: scanStates (T.step ext) s us)[k + 1]).q.py)
        (((s :: scanStates (T.step ext) s us)[k]).q.px, ((s :: scanStates (T.step ext) s us)[k]).q.py)
        ≤ T.vMax * T.dt := by
      rw [e1, e2]; exact ref_shift hd hbox _ _ _
    have d2 : |((s :: scanStates (T.step ext) s us)[k + 1]).q.th1 - ((s :: scanStates (T.step ext) s us)[k]).q.th1|
        ≤ T.vMax * T.dt * tan (T.deltaMaxDeg * π / 180) / T.l1 := by
      rw [e3, add_sub_cancel_left]; exact dth1_le hd hbox
    have b1 := mul_le_mul_of_nonneg_left d2 (add_nonneg m1 w1)
    have b2 := drift_mono hd (show k + 1 ≤ us.length by omega)
    unfold Spec.tractorShift at h1
    simp only [mul_zero, sub_zero] at h1
    linarith

/-- **C75, tractor-trailer with shield and padding**. -/
theorem C75_safe_tt2d (T : TT2d) (ext : Ext Q4) (hs : T.shieldCollision = true)
    (hp : T.enableProjection = false) (hg : T.enableGuidance = false)
    (hsz : Spec.SidesOK T.toParams) (hd : DriveOK T.toParams)
    (hov : -T.lr ≤ T.l1 + T.lf1) (hov2 : -T.lr2 ≤ T.lf2)
    (hnt : ∀ c ∈ T.circles, Spec.NoTunnel T.toParams c)
    {p : ℝ} {cs : List Circle} {rs : List Rect} (hP : Padded p T.toParams cs rs) (hr : ∀ c ∈ cs, 0 ≤ c.r)
    (s : St Q4) (h0 : Spec.SafeTT T.toParams s.q) (us : List U)
    (h1 : Spec.tractorShift T.toParams 0 / 2 + drift T.toParams us.length ≤ p)
    (h2 : trailerSweep T.toParams / 2 + (drift T.toParams us.length
      + (T.l2 + max T.lr2 T.lf2 + T.trailerWidth / 2) * trailDrift T.toParams us.length) ≤ p) (γ : ℝ → Q4)
    (hγ : Continuous4 T.toParams γ (s :: scanStates (T.step ext) s us)) (t : ℝ) (t0 : 0 ≤ t)
    (t1 : t ≤ us.length * T.dt) :
    Spec.SafeTT { T.toParams with circles := cs, rects := rs } (γ t) := by
  have m1 : 0 ≤ max T.lr (T.l1 + T.lf1) := max_nonneg_of_neg_le hov
  have m2 : 0 ≤ max T.lr2 T.lf2 := max_nonneg_of_neg_le hov2
  have w1 : 0 ≤ T.tractorWidth / 2 := by linarith [hsz.tractorWid]
  have w2 : 0 ≤ T.trailerWidth / 2 := by linarith [hsz.trailerWid]
  have hdr : 0 ≤ drift T.toParams us.length := by
    have := drift_mono hd (Nat.zero_le us.length)
    simpa [drift] using this
  have hsh : 0 ≤ Spec.tractorShift T.toParams 0 := by
    unfold Spec.tractorShift
    simp only [mul_zero, sub_zero]
    have := mul_nonneg (add_nonneg m1 w1) (turnStep_nonneg hd)
    have hw : 0 ≤ T.vMax * T.dt := mul_nonneg hd.v hd.dt
    unfold turnStep at this
    linarith
  have p0 : 0 ≤ p := by linarith
  have hmar : ∀ a ∈ s :: scanStates (T.step ext) s us, Margin4 p T.toParams cs rs a.q := by
    intro a ha
    rcases List.mem_cons.mp ha with rfl | ha
    · exact C74_margin_tt2d p0 hP hr h0
    · exact C74_margin_tt2d p0 hP hr (C03_solid_tt2d_partial T ext hs hp hg hsz hd hnt s h0 us a ha)
  rcases in_step hd.dt t0 t1 with rfl | ⟨k, hk, lam, l0, l1, rfl⟩
  · rw [hγ.start s rfl]
    refine tt_near (e := 0) (f := 0) (lam := 0) (q := s.q) (q' := s.q) hd.lh hd.l2.le (by linarith) ?_ ?_
      (hmar s (by simp)) (hmar s (by simp)) le_rfl
      zero_le_one (by simp [between4, mix]) (by simp [between4, mix, Spec.dist]) (by simp [between4, mix])
    · simpa [Spec.dist] using p0
    · simpa [Spec.dist] using p0
  · have hlen : (s :: scanStates (T.step ext) s us).length = us.length + 1 := by
      simp [scanStates_length]
    have ha := List.getElem?_eq_getElem (l := s :: scanStates (T.step ext) s us) (i := k) (by omega)
    have hb := List.getElem?_eq_getElem (l := s :: scanStates (T.step ext) s us) (i := k + 1) (by omega)
    obtain ⟨g1, g2, g3⟩ := C75_tt2d T ext hp hd s us γ hγ k _ _ ha hb lam l0 l1
    obtain ⟨heul, hbox⟩ := chain_at (scan_isChain (step := T.step ext)
      (fun s s' : St Q4 => Spec.EulerTT T.toParams s.q s'.applied s'.q ∧ Spec.InBox s'.applied)
      (fun s a => ⟨by
        have := C09_tt2d T ext s [a]
        simp only [scanStates, List.isChain_cons_cons] at this
        exact this.1, C08_tt2d T ext hp s a⟩) us s) ha hb
    obtain ⟨e1, e2⟩ := euler_travel hd hsz hov hbox heul hov2
    have b2 := drift_mono hd (show k + 1 ≤ us.length by omega)
    have b3 := trailDrift_mono hd (show k + 1 ≤ us.length by omega)
    have b4 := mul_le_mul_of_nonneg_left b3 (by linarith [hd.l2] : 0 ≤ T.l2 + max T.lr2 T.lf2 + T.trailerWidth / 2)
    refine tt_near hd.lh hd.l2.le (by linarith) ?_ ?_ (hmar _ (List.getElem_mem _)) (hmar _ (List.getElem_mem _))
      l0 l1 g1 g2 g3
    · linarith
    · linarith

/-! ## The drift is real -/

/-- Without shields the applied control is the clipped action. -/
theorem free_applied (T : Bicycle) (ext : Ext Q3) (hc : T.shieldCollision = false) (hh : T.shieldHitch = false)
    (hp : T.enableProjection = false) (hg : T.enableGuidance = false) :
    ∀ (us : List U) (s : St Q3), s.inBackup = false → ∀ (k : ℕ) (b : St Q3),
      (s :: scanStates (T.step ext) s us)[k + 1]? = some b → ∃ a, us[k]? = some a ∧ b.applied = clipU a := by
  intro us
  induction us with
  | nil => intro s _ k b h; simp [scanStates] at h
  | cons a us ih =>
    intro s hs k b h
    cases k with
    | zero =>
      simp only [scanStates, List.getElem?_cons_succ, List.getElem?_cons_zero, Option.some.injEq] at h
      refine ⟨a, rfl, ?_⟩
      rw [← h, Bicycle.step_applied T ext hp hg, hs]
      simp [Bicycle.rejects, hc, hh]
    | succ k =>
      have := ih (T.step ext s a) (by rw [Bicycle.step_inBackup]; exact hs) k b (by simpa [scanStates] using h)
      simpa using this

/-- Out and back at the same rates. -/
theorem out_and_back {f G : ℝ → ℝ} {a d : ℝ} (hd : 0 ≤ d)
    (h1 : ∀ t ∈ Icc a (a + d), HasDerivWithinAt f (G (t - a)) (Icc a (a + d)) t)
    (h2 : ∀ t ∈ Icc (a + d) (a + 2 * d), HasDerivWithinAt f (-G (a + 2 * d - t)) (Icc (a + d) (a + 2 * d)) t) :
    f (a + 2 * d) = f a := by
  have hmap : MapsTo (fun t => 2 * a + 2 * d - t) (Icc a (a + d)) (Icc (a + d) (a + 2 * d)) := by
    intro t ht
    constructor <;> linarith [ht.1, ht.2]
  have hg : ∀ t ∈ Icc a (a + d), HasDerivWithinAt (fun t => f (2 * a + 2 * d - t) - f t) 0 (Icc a (a + d)) t := by
    intro t ht
    have hid : HasDerivWithinAt (fun t : ℝ => 2 * a + 2 * d - t) (-1) (Icc a (a + d)) t :=
      (hasDerivWithinAt_id t _).const_sub _
    have := ((h2 _ (hmap ht)).comp t hid hmap).sub (h1 t ht)
    refine this.congr_deriv ?_
    rw [show a + 2 * d - (2 * a + 2 * d - t) = t - a by ring]
    ring
  have := const_rate hg (t := a + d) ⟨by linarith, le_rfl⟩
  rw [show 2 * a + 2 * d - (a + d) = a + d by ring, show 2 * a + 2 * d - a = a + 2 * d by ring] at this
  linarith

theorem rocking_at (n k : ℕ) (a : U) (h : (rocking n)[k]? = some a) :
    a = if k % 2 = 0 then ((1, 1) : U) else (-1, 1) := by
  unfold rocking at h
  rw [List.getElem?_map, Option.map_eq_some_iff] at h
  obtain ⟨j, hj, rfl⟩ := h
  rw [List.getElem?_range] at hj
  · injection hj with hj; rw [hj]
  · by_contra hlt
    rw [List.getElem?_eq_none (by simpa using hlt)] at hj
    exact absurd hj (by simp)

/-- **C75, the drift is real**: a vehicle that rocks back and forth with the wheel at the stop returns to where it
started, while the recorded positions move away with every repetition, at a constant heading, by the length of the
chord that belongs to the heading change of one step. -/
theorem C75_exact_refuted (T : Bicycle) (ext : Ext Q3) (hc : T.shieldCollision = false) (hh : T.shieldHitch = false)
    (hp : T.enableProjection = false) (hg : T.enableGuidance = false) (hd : DriveOK T.toParams) (n : ℕ) (s : St Q3)
    (hs : s.inBackup = false) (b : St Q3)
    (hb : (s :: scanStates (T.step ext) s (rocking n))[2 * n]? = some b) :
    b.q.th1 = s.q.th1 ∧
    Spec.dist (b.q.px, b.q.py) (s.q.px, s.q.py) = n * (2 * (T.vMax * T.dt) * |sin (turnStep T.toParams / 2)|) ∧
    ∀ γ, Continuous3 T.toParams γ (s :: scanStates (T.step ext) s (rocking n)) → γ (2 * n * T.dt) = s.q := by
  have happ := free_applied T ext hc hh hp hg (rocking n) s hs
  have hch := C09_bicycle T ext s (rocking n)
  have hlen : (s :: scanStates (T.step ext) s (rocking n)).length = 2 * n + 1 := by
    simp [scanStates_length, rocking]
  generalize hxs : s :: scanStates (T.step ext) s (rocking n) = xs at *
  have hx0 : xs[0]? = some s := by rw [← hxs]; rfl
  have at' : ∀ j < 2 * n + 1, ∃ b, xs[j]? = some b := by
    intro j hj
    exact ⟨_, List.getElem?_eq_getElem (by omega)⟩
  have c1 : clipU (1, 1) = ((1, 1) : U) := by
    unfold clipU; simp only [Prod.mk.injEq]
    exact ⟨clip_of_mem (by norm_num) (by norm_num), clip_of_mem (by norm_num) (by norm_num)⟩
  have c2 : clipU (-1, 1) = ((-1, 1) : U) := by
    unfold clipU; simp only [Prod.mk.injEq]
    exact ⟨clip_of_mem (by norm_num) (by norm_num), clip_of_mem (by norm_num) (by norm_num)⟩
  have happ1 : ∀ j b, xs[2 * j + 1]? = some b → b.applied = ((1, 1) : U) := by
    intro j b hb
    obtain ⟨a, ha, e⟩ := happ (2 * j) b hb
    rw [e, rocking_at n _ a ha]; simp [c1]
  have happ2 : ∀ j b, xs[2 * j + 1 + 1]? = some b → b.applied = ((-1, 1) : U) := by
    intro j b hb
    obtain ⟨a, ha, e⟩ := happ (2 * j + 1) b hb
    have : (2 * j + 1) % 2 ≠ 0 := by omega
    rw [e, rocking_at n _ a ha, if_neg this, c2]
  set w := T.vMax * T.dt with hw
  set Δ := turnStep T.toParams with hΔ
  have hΔ' : T.dt * (T.vMax / T.l1 * tan (T.deltaMaxDeg * π / 180)) = Δ := by
    rw [hΔ]; unfold turnStep; ring
  have hrec : ∀ j ≤ n, ∀ b, xs[2 * j]? = some b → b.q = ⟨s.q.px + j * (w * (cos s.q.th1 - cos (s.q.th1 + Δ))),
      s.q.py + j * (w * (sin s.q.th1 - sin (s.q.th1 + Δ))), s.q.th1⟩ := by
    intro j
    induction j with
    | zero =>
      intro _ b hb
      rw [Nat.mul_zero, hx0, Option.some.injEq] at hb
      subst hb
      simp
    | succ j ih =>
      intro hj b hb
      obtain ⟨b0, hb0⟩ := at' (2 * j) (by omega)
      obtain ⟨b1, hb1⟩ := at' (2 * j + 1) (by omega)
      have hb2 : xs[2 * j + 1 + 1]? = some b := hb
      have e0 := ih (by omega) b0 hb0
      have e1 := chain_at hch hb0 hb1
      have e2 := chain_at hch hb1 hb2
      unfold Spec.EulerBicycle at e1 e2
      rw [happ1 j b1 hb1] at e1
      rw [happ2 j b hb2] at e2
      simp only [one_mul, neg_mul, neg_div] at e1 e2
      obtain ⟨x1, y1, t1⟩ := e1
      obtain ⟨x2, y2, t2⟩ := e2
      rw [e0] at x1 y1 t1
      simp only at x1 y1 t1
      rw [hΔ'] at t1
      have t2' : b.q.th1 = b1.q.th1 - Δ := by rw [t2, ← hΔ']; ring
      apply Q3.ext
      · simp only; rw [x2, x1, t1]; push_cast; rw [hw]; ring
      · simp only; rw [y2, y1, t1]; push_cast; rw [hw]; ring
      · simp only; rw [t2', t1]; ring
  have hbq := hrec n le_rfl b hb
  refine ⟨by rw [hbq], ?_, ?_⟩
  · rw [hbq]
    unfold Spec.dist
    simp only
    have e : (s.q.px + n * (w * (cos s.q.th1 - cos (s.q.th1 + Δ))) - s.q.px) ^ 2
        + (s.q.py + n * (w * (sin s.q.th1 - sin (s.q.th1 + Δ))) - s.q.py) ^ 2
        = (n * (2 * w * |sin (Δ / 2)|)) ^ 2 := by
      have h1 := sin_sq_add_cos_sq s.q.th1
      have h2 : cos Δ = 1 - 2 * sin (Δ / 2) ^ 2 := by
        have h5 := cos_two_mul (Δ / 2)
        rw [show 2 * (Δ / 2) = Δ by ring] at h5
        have := sin_sq_add_cos_sq (Δ / 2)
        linarith
      have h3 := sin_sq_add_cos_sq Δ
      have h4 : (cos s.q.th1 - cos (s.q.th1 + Δ)) ^ 2 + (sin s.q.th1 - sin (s.q.th1 + Δ)) ^ 2
          = 4 * sin (Δ / 2) ^ 2 := by
        rw [cos_add, sin_add]
        linear_combination (1 + cos Δ ^ 2 + sin Δ ^ 2 - 2 * cos Δ) * h1 + h3 - 2 * h2
      rw [mul_pow, mul_pow, sq_abs]
      linear_combination (n : ℝ) ^ 2 * w ^ 2 * h4
    rw [e, sqrt_sq]
    have := mul_nonneg hd.v hd.dt
    positivity
  · intro γ hγ
    have ret : ∀ j ≤ n, γ (2 * j * T.dt) = s.q := by
      intro j
      induction j with
      | zero => intro _; simpa using hγ.start s hx0
      | succ j ih =>
        intro hj
        have i0 := ih (by omega)
        obtain ⟨b1, hb1⟩ := at' (2 * j + 1) (by omega)
        obtain ⟨b2, hb2⟩ := at' (2 * j + 1 + 1) (by omega)
        have d1 := hγ.drive _ _ hb1
        have d2 := hγ.drive _ _ hb2
        rw [happ1 j b1 hb1] at d1
        rw [happ2 j b2 hb2] at d2
        push_cast at d1 d2
        simp only [one_mul, neg_mul] at d1 d2
        set A := 2 * (j : ℝ) * T.dt with hA
        have a1 : (2 * (j : ℝ) + 1) * T.dt = A + T.dt := by rw [hA]; ring
        have a2 : (2 * (j : ℝ) + 1 + 1) * T.dt = A + 2 * T.dt := by rw [hA]; ring
        rw [a1] at d1 d2
        rw [a2] at d2
        have goal : 2 * ((j + 1 : ℕ) : ℝ) * T.dt = A + 2 * T.dt := by rw [hA]; push_cast; ring
        rw [goal]
        set ω := T.vMax / T.l1 * tan (T.deltaMaxDeg * π / 180) with hω
        have th1 : ∀ t ∈ Icc A (A + T.dt), (γ t).th1 = s.q.th1 + (t - A) * ω := by
          intro t ht
          have := const_rate d1.th ht
          simp only [i0] at this
          exact this
        have thm := th1 (A + T.dt) ⟨by linarith [hd.dt], le_rfl⟩
        have th2 : ∀ t ∈ Icc (A + T.dt) (A + 2 * T.dt), (γ t).th1 = s.q.th1 + (A + 2 * T.dt - t) * ω := by
          intro t ht
          have := const_rate d2.th ht
          simp only [thm] at this
          rw [this, hω]; ring
        have px := out_and_back (f := fun t => (γ t).px) (G := fun r => T.vMax * cos (s.q.th1 + r * ω)) (a := A) hd.dt
          (fun t ht => by
            refine (d1.x t ht).congr_deriv ?_
            simp only [th1 t ht])
          (fun t ht => by
            refine (d2.x t ht).congr_deriv ?_
            simp only [th2 t ht, neg_mul])
        have py := out_and_back (f := fun t => (γ t).py) (G := fun r => T.vMax * sin (s.q.th1 + r * ω)) (a := A) hd.dt
          (fun t ht => by
            refine (d1.y t ht).congr_deriv ?_
            simp only [th1 t ht])
          (fun t ht => by
            refine (d2.y t ht).congr_deriv ?_
            simp only [th2 t ht, neg_mul])
        have pt := th2 (A + 2 * T.dt) ⟨by linarith [hd.dt], le_rfl⟩
        apply Q3.ext
        · rw [px, i0]
        · rw [py, i0]
        · rw [pt]; ring
    exact ret n le_rfl

/-! ## Existence -/

/-- Gluing motions over consecutive steps. -/
theorem glue {Q C : Type} {D : (ℝ → Q) → ℝ → ℝ → C → Prop} {dt : ℝ} (hdt : 0 ≤ dt)
    (local' : ∀ q u, ∃ γ : ℝ → Q, γ 0 = q ∧ D γ 0 dt u)
    (shift : ∀ γ a b c u, D γ a b u → D (fun t => γ (t - c)) (a + c) (b + c) u)
    (congr' : ∀ γ γ' a b u, (∀ t ∈ Icc a b, γ' t = γ t) → a ≤ b → D γ a b u → D γ' a b u) :
    ∀ (us : List C) (q : Q), ∃ γ : ℝ → Q, γ 0 = q ∧
      ∀ (k : ℕ) u, us[k]? = some u → D γ (k * dt) ((k + 1) * dt) u := by
  intro us
  induction us with
  | nil => intro q; exact ⟨fun _ => q, rfl, by simp⟩
  | cons u us ih =>
    intro q
    obtain ⟨γ1, s1, d1⟩ := local' q u
    obtain ⟨γ2, s2, d2⟩ := ih (γ1 dt)
    refine ⟨fun t => if t ≤ dt then γ1 t else γ2 (t - dt), by simp [hdt, s1], ?_⟩
    intro k w hw
    cases k with
    | zero =>
      simp only [List.getElem?_cons_zero, Option.some.injEq] at hw
      subst hw
      simp only [Nat.cast_zero, zero_mul, zero_add, one_mul]
      exact congr' γ1 _ _ _ _ (fun t ht => if_pos ht.2) hdt d1
    | succ k =>
      have h := shift _ _ _ dt _ (d2 k w (by simpa using hw))
      push_cast
      rw [show (k : ℝ) * dt + dt = (k + 1) * dt by ring, show ((k : ℝ) + 1) * dt + dt = (k + 1 + 1) * dt by ring] at h
      refine congr' _ _ _ _ _ ?_ (by nlinarith) h
      intro t ht
      split_ifs with hle
      · have hk : 0 ≤ (k : ℝ) * dt := by positivity
        have : t = dt := le_antisymm hle (by linarith [ht.1])
        rw [this, sub_self, s2]
      · rfl

/-- Derivatives along a shifted curve. -/
theorem deriv_shift {f : ℝ → ℝ} {a b c : ℝ} {g : ℝ → ℝ} (h : ∀ t ∈ Icc a b, HasDerivWithinAt f (g t) (Icc a b) t) :
    ∀ t ∈ Icc (a + c) (b + c), HasDerivWithinAt (fun t => f (t - c)) (g (t - c)) (Icc (a + c) (b + c)) t := by
  intro t ht
  have hm : MapsTo (fun t => t - c) (Icc (a + c) (b + c)) (Icc a b) := by
    intro r hr
    constructor <;> linarith [hr.1, hr.2]
  exact ((h (t - c) (hm ht)).comp t ((hasDerivWithinAt_id t (Icc (a + c) (b + c))).sub_const c) hm).congr_deriv
    (by ring)

theorem deriv_congr {f f' : ℝ → ℝ} {a b : ℝ} {g g' : ℝ → ℝ} (hf : ∀ t ∈ Icc a b, f' t = f t)
    (hg : ∀ t ∈ Icc a b, g' t = g t) (h : ∀ t ∈ Icc a b, HasDerivWithinAt f (g t) (Icc a b) t) :
    ∀ t ∈ Icc a b, HasDerivWithinAt f' (g' t) (Icc a b) t := by
  intro t ht
  rw [hg t ht]
  exact (h t ht).congr hf (hf t ht)

theorem drives_shift {P : Params} {x y th : ℝ → ℝ} {a b c v δ : ℝ} (h : DrivesCar P x y th a b v δ) :
    DrivesCar P (fun t => x (t - c)) (fun t => y (t - c)) (fun t => th (t - c)) (a + c) (b + c) v δ :=
  ⟨deriv_shift h.x, deriv_shift h.y, deriv_shift h.th⟩

theorem drives_congr {P : Params} {x y th x' y' th' : ℝ → ℝ} {a b v δ : ℝ} (hx : ∀ t ∈ Icc a b, x' t = x t)
    (hy : ∀ t ∈ Icc a b, y' t = y t) (ht : ∀ t ∈ Icc a b, th' t = th t) (h : DrivesCar P x y th a b v δ) :
    DrivesCar P x' y' th' a b v δ :=
  ⟨deriv_congr hx (fun t h => by rw [ht t h]) h.x, deriv_congr hy (fun t h => by rw [ht t h]) h.y,
    deriv_congr ht (fun _ _ => rfl) h.th⟩

/-- Motion of the car over one step. -/
theorem car_exists (P : Params) (x0 y0 th0 v δ b : ℝ) : ∃ x y th : ℝ → ℝ, x 0 = x0 ∧ y 0 = y0 ∧ th 0 = th0 ∧
    DrivesCar P x y th 0 b v δ := by
  have hc : Continuous fun r : ℝ => v * cos (th0 + r * (v / P.l1 * tan δ)) := by fun_prop
  have hs : Continuous fun r : ℝ => v * sin (th0 + r * (v / P.l1 * tan δ)) := by fun_prop
  refine ⟨fun t => x0 + ∫ r in (0 : ℝ)..t, v * cos (th0 + r * (v / P.l1 * tan δ)),
    fun t => y0 + ∫ r in (0 : ℝ)..t, v * sin (th0 + r * (v / P.l1 * tan δ)),
    fun t => th0 + t * (v / P.l1 * tan δ), by simp, by simp, by simp, ?_, ?_, ?_⟩
  · intro t _
    exact ((hc.integral_hasStrictDerivAt 0 t).hasDerivAt.const_add _).hasDerivWithinAt
  · intro t _
    exact ((hs.integral_hasStrictDerivAt 0 t).hasDerivAt.const_add _).hasDerivWithinAt
  · intro t _
    have := (((hasDerivAt_id' t).mul_const (v / P.l1 * tan δ)).const_add th0).hasDerivWithinAt (s := Icc 0 b)
    exact this.congr_deriv (by ring)

/-- **C75**: every recorded motion of the bicycle has a continuous motion that belongs to it. -/
theorem C75_exists_bicycle (P : Params) (hdt : 0 ≤ P.dt) (xs : List (St Q3)) : ∃ γ, Continuous3 P γ xs := by
  cases xs with
  | nil => exact ⟨fun _ => ⟨0, 0, 0⟩, by simp, by simp⟩
  | cons s xs =>
    obtain ⟨γ, g0, gd⟩ := glue (D := fun (γ : ℝ → Q3) a b (u : U) => DrivesCar P (fun t => (γ t).px) (fun t => (γ t).py)
        (fun t => (γ t).th1) a b (u.1 * P.vMax) (u.2 * (P.deltaMaxDeg * π / 180))) hdt
      (fun q u => by
        obtain ⟨x, y, th, hx, hy, ht, h⟩ := car_exists P q.px q.py q.th1 (u.1 * P.vMax)
          (u.2 * (P.deltaMaxDeg * π / 180)) P.dt
        exact ⟨fun t => ⟨x t, y t, th t⟩, by simp only [hx, hy, ht], h⟩)
      (fun γ a b c u h => drives_shift h)
      (fun γ γ' a b u h _ hD => drives_congr (fun t ht => by simp only [h t ht]) (fun t ht => by simp only [h t ht])
        (fun t ht => by simp only [h t ht]) hD) (xs.map St.applied) s.q
    refine ⟨γ, ?_, ?_⟩
    · intro a ha
      simp only [List.getElem?_cons_zero, Option.some.injEq] at ha
      rw [g0, ha]
    · intro k b hb
      rw [List.getElem?_cons_succ] at hb
      exact gd k b.applied (by rw [List.getElem?_map, hb]; rfl)

/-- Motion of the trailer over one step. -/
theorem trail_exists (P : Params) {th : ℝ → ℝ} {b : ℝ} (hb : 0 ≤ b) (hth : ContinuousOn th (Icc 0 b))
    (ph0 v δ : ℝ) : ∃ ph : ℝ → ℝ, ph 0 = ph0 ∧ DrivesTrailer P th ph 0 b v δ := by
  set w := v / P.l2 with hw
  set k := P.lh / P.l1 * tan δ with hk
  obtain ⟨L, hL⟩ : ∃ L : NNReal, (L : ℝ) = |w| * √(1 + k ^ 2) := ⟨⟨_, by positivity⟩, rfl⟩
  obtain ⟨B, hB⟩ : ∃ B : NNReal, (B : ℝ) = b := ⟨⟨b, hb⟩, rfl⟩
  have h0 : (0 : ℝ) ∈ Icc 0 b := ⟨le_rfl, hb⟩
  have hpl : IsPicardLindelof (fun t x => w * (sin (th t - x) - k * cos (th t - x))) (⟨0, h0⟩ : Icc (0 : ℝ) b) ph0
      (L * B) 0 L L := by
    refine ⟨?_, ?_, ?_, ?_⟩
    · intro t _
      refine LipschitzOnWith.of_dist_le_mul ?_
      intro x _ y _
      rw [Real.dist_eq, Real.dist_eq, ← mul_sub, abs_mul]
      have e : |th t - x - (th t - y)| = |x - y| := by rw [abs_sub_comm]; congr 1; ring
      have := trail_lipschitz k (th t - x) (th t - y)
      rw [e] at this
      calc _ ≤ |w| * (√(1 + k ^ 2) * |x - y|) := mul_le_mul_of_nonneg_left this (abs_nonneg _)
        _ = _ := by rw [hL]; ring
    · intro x _
      have h1 : ContinuousOn (fun t => th t - x) (Icc 0 b) := hth.sub continuousOn_const
      exact continuousOn_const.mul ((continuous_sin.comp_continuousOn h1).sub
        (continuousOn_const.mul (continuous_cos.comp_continuousOn h1)))
    · intro t _ x _
      rw [Real.norm_eq_abs, abs_mul, hL]
      exact mul_le_mul_of_nonneg_left (trig_combo k _).1 (abs_nonneg _)
    · simp [hb, hB]
  obtain ⟨ph, e0, hd⟩ := hpl.exists_eq_forall_mem_Icc_hasDerivWithinAt₀
  refine ⟨ph, e0, ?_⟩
  intro t ht
  exact (hd t ht).congr_deriv (by rw [hw, hk]; ring)

/-- **C75**: every recorded motion of the tractor-trailer has a continuous motion that belongs to it. -/
theorem C75_exists_tt2d (P : Params) (hdt : 0 ≤ P.dt) (xs : List (St Q4)) : ∃ γ, Continuous4 P γ xs := by
  cases xs with
  | nil => exact ⟨fun _ => ⟨0, 0, 0, 0⟩, by simp, by simp⟩
  | cons s xs =>
    obtain ⟨γ, g0, gd⟩ := glue (D := fun (γ : ℝ → Q4) a b (u : U) => DrivesCar P (fun t => (γ t).px) (fun t => (γ t).py)
        (fun t => (γ t).th1) a b (u.1 * P.vMax) (u.2 * (P.deltaMaxDeg * π / 180)) ∧
        DrivesTrailer P (fun t => (γ t).th1) (fun t => (γ t).th2) a b (u.1 * P.vMax)
          (u.2 * (P.deltaMaxDeg * π / 180))) hdt
      (fun q u => by
        obtain ⟨x, y, th, hx, hy, ht, h⟩ := car_exists P q.px q.py q.th1 (u.1 * P.vMax)
          (u.2 * (P.deltaMaxDeg * π / 180)) P.dt
        obtain ⟨ph, hp, h2⟩ := trail_exists P hdt (fun t ht => (h.th t ht).continuousWithinAt) q.th2 (u.1 * P.vMax)
          (u.2 * (P.deltaMaxDeg * π / 180))
        exact ⟨fun t => ⟨x t, y t, th t, ph t⟩, by simp only [hx, hy, ht, hp], h, h2⟩)
      (fun γ a b c u h => ⟨drives_shift h.1, deriv_shift h.2⟩)
      (fun γ γ' a b u h _ hD => ⟨drives_congr (fun t ht => by simp only [h t ht]) (fun t ht => by simp only [h t ht])
        (fun t ht => by simp only [h t ht]) hD.1, deriv_congr (fun t ht => by simp only [h t ht])
        (fun t ht => by simp only [h t ht]) hD.2⟩) (xs.map St.applied) s.q
    refine ⟨γ, ?_, ?_⟩
    · intro a ha
      simp only [List.getElem?_cons_zero, Option.some.injEq] at ha
      rw [g0, ha]
    · intro k b hb
      rw [List.getElem?_cons_succ] at hb
      exact gd k b.applied (by rw [List.getElem?_map, hb]; rfl)

/-! ## The hypotheses can be met -/

/-- Figures of the default vehicle: at most 10 cm of drift per step, and 16 cm of trailer heading in radians after
two steps (no code is modelled here). -/
theorem default_drift (cs : List Circle) (rs : List Rect) :
    drift (Params.default cs rs) 2 ≤ 0.2 ∧ trailDrift (Params.default cs rs) 2 ≤ 0.16 := by
  have h3 : √3 ≤ 1.7321 := by
    rw [sqrt_le_left (by norm_num)]; norm_num
  have ht := tan_55_le.trans h3
  have ht0 : 0 ≤ tan (55 * π / 180) := by
    have hp := pi_pos
    exact tan_nonneg_of_nonneg_of_le_pi_div_two (by positivity) (by linarith)
  have k1 : √(1 + (1.15 * tan (55 * π / 180) / 3.23) ^ 2) ≤ 1.176 := by
    rw [sqrt_le_left (by norm_num)]
    have : 1.15 * tan (55 * π / 180) / 3.23 ≤ 0.617 := by
      rw [div_le_iff₀ (by norm_num)]; linarith
    have h0 : 0 ≤ 1.15 * tan (55 * π / 180) / 3.23 := by positivity
    nlinarith
  have e1 : turnStep (Params.default cs rs) ≤ 0.3218 := by
    simp only [turnStep, Params.default]
    rw [div_le_iff₀ (by norm_num)]; linarith
  have e2 : trailStep (Params.default cs rs) ≤ 0.2434 := by
    simp only [trailStep, Params.default]
    rw [div_le_iff₀ (by norm_num)]; linarith
  have n1 := turnStep_nonneg (default_driveOK cs rs)
  have n2 := trailStep_nonneg (default_driveOK cs rs)
  have v : (Params.default cs rs).vMax * (Params.default cs rs).dt = 0.6 := by
    simp only [Params.default]; norm_num
  unfold drift trailDrift
  rw [v]
  generalize turnStep (Params.default cs rs) = a at *
  generalize trailStep (Params.default cs rs) = b at *
  push_cast
  constructor
  · linarith
  · have h1 : (1 + b) ^ 2 - 1 ≤ 0.5461 := by nlinarith
    have h2 : a + b ≤ 0.5652 := by linarith
    have h3 := mul_le_mul h1 h2 (by linarith) (by norm_num)
    norm_num at h3 ⊢
    linarith

/-- The default tractor-trailer, a pole of radius 1 registered with 3 m padding. -/
noncomputable def contTT : TT2d :=
  { toParams := Params.default [⟨20, 0, 1 + 3⟩] [], x0 := ⟨0, 0, 0, 0⟩, xg := ⟨9, 0, 0, 0⟩ }

theorem contTT_safe : Spec.SafeTT contTT.toParams contTT.reset.q := by
  refine ⟨?_, by simp [contTT, Params.default]⟩
  intro c hc
  simp only [contTT, Params.default, List.mem_singleton] at hc
  subst hc
  constructor
  · exact margin_far _ (by norm_num) (by norm_num) _ _ _ _ (by norm_num [contTT, TT2d.reset, Params.default])
  · unfold Spec.trailerBody
    have : Spec.trailerAxle contTT.toParams contTT.reset.q = (-4.05, 0) := by
      unfold Spec.trailerAxle Spec.frame
      simp [contTT, TT2d.reset, Params.default]; norm_num
    rw [this]
    exact margin_far _ (by norm_num) (by norm_num) _ _ _ _ (by norm_num [contTT, TT2d.reset, Params.default])

/-- The default bicycle, the same pole. -/
noncomputable def contBike : Bicycle := ⟨contTT.toParams, ⟨0, 0, 0⟩, ⟨9, 0, 0⟩⟩

example := fun ext us γ hγ => C75_bicycle contBike ext rfl (default_driveOK _ _) contBike.reset us γ hγ

example := fun ext us γ hγ => C75_tt2d contTT ext rfl (default_driveOK _ _) contTT.reset us γ hγ

/-- Any two actions of the default bicycle. -/
example (ext : Ext Q3) (u w : U) : ∃ γ, Continuous3 contBike.toParams γ
      (contBike.reset :: scanStates (contBike.step ext) contBike.reset [u, w]) ∧
    ∀ t, 0 ≤ t → t ≤ 2 * 0.2 → Spec.SafeBicycle (Params.default [⟨20, 0, 1⟩] []) (γ t) := by
  obtain ⟨γ, hγ⟩ := C75_exists_bicycle contBike.toParams (by norm_num [contBike, contTT, Params.default])
    (contBike.reset :: scanStates (contBike.step ext) contBike.reset [u, w])
  refine ⟨γ, hγ, fun t t0 t1 => ?_⟩
  exact C75_safe_bicycle contBike ext rfl rfl rfl (margin_sides _ (by norm_num)) (default_driveOK _ _)
    (by norm_num [contBike, contTT, Params.default]) (pole_padded 3 _ rfl)
    (by intro c hc; simp only [List.mem_singleton] at hc; subst hc; norm_num) contBike.reset
    ⟨fun c hc => (contTT_safe.1 c hc).1, fun o ho => (contTT_safe.2 o ho).1⟩ [u, w]
    (by
      have h1 : Spec.tractorShift contBike.toParams 0 ≤ 3 := (default_travel _ _).1
      have h2 : drift contBike.toParams [u, w].length ≤ 0.2 := (default_drift _ _).1
      linarith) γ hγ t t0 (by simpa [contBike, contTT, Params.default] using t1)

/-- Any two actions of the default tractor-trailer. -/
example (ext : Ext Q4) (u w : U) : ∃ γ, Continuous4 contTT.toParams γ
      (contTT.reset :: scanStates (contTT.step ext) contTT.reset [u, w]) ∧
    ∀ t, 0 ≤ t → t ≤ 2 * 0.2 → Spec.SafeTT (Params.default [⟨20, 0, 1⟩] []) (γ t) := by
  obtain ⟨γ, hγ⟩ := C75_exists_tt2d contTT.toParams (by norm_num [contTT, Params.default])
    (contTT.reset :: scanStates (contTT.step ext) contTT.reset [u, w])
  refine ⟨γ, hγ, fun t t0 t1 => ?_⟩
  have hc : ∀ c ∈ contTT.circles, Spec.NoTunnel contTT.toParams c := fun c hc => default_noTunnel _ _ c (by
    simp only [contTT, Params.default, List.mem_singleton] at hc; subst hc; norm_num)
  have h1 : Spec.tractorShift contTT.toParams 0 ≤ 3 ∧ trailerSweep contTT.toParams ≤ 3 := default_travel _ _
  have h2 : drift contTT.toParams [u, w].length ≤ 0.2 ∧ trailDrift contTT.toParams [u, w].length ≤ 0.16 :=
    default_drift _ _
  exact C75_safe_tt2d contTT ext rfl rfl rfl (margin_sides _ (by norm_num)) (default_driveOK _ _)
    (by norm_num [contTT, Params.default]) (by norm_num [contTT, Params.default]) hc (pole_padded 3 _ rfl)
    (by intro c hc; simp only [List.mem_singleton] at hc; subst hc; norm_num) contTT.reset contTT_safe [u, w]
    (by linarith [h1.1, h2.1])
    (by
      have m : contTT.l2 + max contTT.lr2 contTT.lf2 + contTT.trailerWidth / 2 = 7.375 := by
        have : max (3.225 : ℝ) 1.42 = 3.225 := max_eq_left (by norm_num)
        simp only [contTT, Params.default]
        rw [this]; norm_num
      rw [m]
      linarith [h1.2, h2.1, h2.2]) γ hγ t t0 (by simpa [contTT, Params.default] using t1)

/-- The drift of the default bicycle does not vanish: `0 < sin` of half the heading change. -/
example : 0 < 2 * (Wit.params.vMax * Wit.params.dt) * |sin (turnStep Wit.params / 2)| := by
  have h3 : √3 ≤ 1.7321 := by
    rw [sqrt_le_left (by norm_num)]; norm_num
  have ht := tan_55_le.trans h3
  have ht0 : 0 < tan (55 * π / 180) := by
    have hp := pi_pos
    exact tan_pos_of_pos_of_lt_pi_div_two (by positivity) (by linarith)
  have e1 : turnStep Wit.params ≤ 0.3218 := by
    simp only [turnStep, Wit.params, Params.default]
    rw [div_le_iff₀ (by norm_num)]; linarith
  have e0 : 0 < turnStep Wit.params := by
    simp only [turnStep, Wit.params, Params.default]
    positivity
  have := sin_pos_of_pos_of_lt_pi (x := turnStep Wit.params / 2) (by linarith) (by linarith [pi_gt_d2])
  have hv : 0 < Wit.params.vMax * Wit.params.dt := by norm_num [Wit.params, Params.default]
  positivity

example := fun ext n s hs b => C75_exact_refuted
  (Bicycle.mk { Wit.params with shieldCollision := false, shieldHitch := false } ⟨0, 0, 0⟩ ⟨9, 0, 0⟩) ext rfl rfl rfl rfl
  ⟨by norm_num [Wit.params, Params.default], by norm_num [Wit.params, Params.default],
    by norm_num [Wit.params, Params.default], by norm_num [Wit.params, Params.default],
    by norm_num [Wit.params, Params.default], by norm_num [Wit.params, Params.default],
    by norm_num [Wit.params, Params.default]⟩ n s hs b

end Mbd
