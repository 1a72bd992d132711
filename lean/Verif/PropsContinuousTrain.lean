import Verif.PropsContinuous

/-!
# C75 for trains: recorded states and the continuous motion of a tractor with any number of trailers
-/

namespace Spec

open Real Mbd Set

/-- Heading of unit `i` of the train (0: tractor). -/
def headingN (x : QN) (i : ℕ) : ℝ := (x.th0 :: x.ths).getD i 0

/-- Speeds `s` and turning rates `w` of the units of the train in a pose with these headings, the tractor driven with
speed `v` and steering angle `δ`: every trailer follows the hitch of the unit in front of it. -/
def UnitMotion (T : NTrailer) (heading : ℕ → ℝ) (v δ : ℝ) (s w : ℕ → ℝ) : Prop :=
  s 0 = v ∧ w 0 = v / T.l1 * tan δ ∧
  ∀ i < T.N,
    s (i + 1) = s i * cos (heading i - heading (i + 1)) + T.lh * w i * sin (heading i - heading (i + 1)) ∧
    w (i + 1) = (s i * sin (heading i - heading (i + 1))
      - T.lh * w i * cos (heading i - heading (i + 1))) / T.lengths.getD i 0

/-- During `[t0, t1]` the train moves in continuous time, the tractor with constant speed and steering angle. -/
structure DrivesTrain (T : NTrailer) (γ : ℝ → QN) (t0 t1 v δ : ℝ) : Prop where
  car : DrivesCar T.toParams (fun t => (γ t).px) (fun t => (γ t).py) (fun t => (γ t).th0) t0 t1 v δ
  trailers : ∀ t ∈ Icc t0 t1, ∃ s w, UnitMotion T (headingN (γ t)) v δ s w ∧
    ∀ i < T.N, HasDerivWithinAt (fun t => (γ t).ths.getD i 0) (w (i + 1)) (Icc t0 t1) t

/-- Continuous motion `γ` of the train that belongs to a recorded motion `xs`. -/
structure ContinuousN (T : NTrailer) (γ : ℝ → QN) (xs : List (St QN)) : Prop where
  start : ∀ a, xs[0]? = some a → γ 0 = a.q
  drive : ∀ (k : ℕ) b, xs[k + 1]? = some b →
    DrivesTrain T γ (k * T.dt) ((k + 1) * T.dt) (b.applied.1 * T.vMax) (b.applied.2 * (T.deltaMaxDeg * π / 180))

/-- How much the speed and the turning rate of unit `i` can differ when the headings of the units differ by `d`. -/
noncomputable def rateChange (T : NTrailer) (d : ℕ → ℝ) : ℕ → ℝ × ℝ
  | 0 => (0, 0)
  | i + 1 =>
    ((rateChange T d i).1 + T.lh * (rateChange T d i).2 + (unitRates T (i + 1)).1 * (d i + d (i + 1)),
     ((rateChange T d i).1 + T.lh * (rateChange T d i).2 + (unitRates T (i + 1)).1 * (d i + d (i + 1)))
      / T.lengths.getD i 0)

/-- Largest deviation of the recorded heading of unit `i` after `n` steps. -/
noncomputable def headingDrift (T : NTrailer) : ℕ → ℕ → ℝ
  | 0, _ => 0
  | n + 1, i => headingDrift T n i + T.dt * (rateChange T (headingDrift T n) i).2
      + T.dt ^ 2 / 2 * (rateChange T (fun j => (unitRates T j).2) i).2

/-- Largest deviation of the hitch in front of trailer `i` after `n` steps. -/
noncomputable def hitchDrift (T : NTrailer) (n : ℕ) : ℕ → ℝ
  | 0 => drift T.toParams n
  | i + 1 => hitchDrift T n i
      + (T.lengths.getD i 0 + (T.rears.getD i 0 + T.lh)) * headingDrift T n (i + 1)

/-- Largest deviation of a point of trailer `i` after `n` steps. -/
noncomputable def trailerDriftN (T : NTrailer) (n i : ℕ) : ℝ :=
  hitchDrift T n i
    + (T.lengths.getD i 0 + (max (T.rears.getD i 0) (T.fronts.getD i 0) + T.trailerWidth / 2))
      * headingDrift T n (i + 1)

end Spec

namespace Mbd

open Real Classical Set _root_.Spec

/-! ## How the rates depend on the headings -/

theorem unitRates_nonneg {T : NTrailer} (hd : DriveOK T.toParams) (hl : ∀ i < T.N, 0 < T.lengths.getD i 0) :
    ∀ i ≤ T.N, 0 ≤ (unitRates T i).1 ∧ 0 ≤ (unitRates T i).2
  | 0, _ => ⟨hd.v, mul_nonneg (div_nonneg hd.v hd.l1.le) hd.tan_nonneg⟩
  | i + 1, hi => ⟨sqrt_nonneg _, div_nonneg (sqrt_nonneg _) (hl i (by omega)).le⟩

theorem rateChange_nonneg {T : NTrailer} (hd : DriveOK T.toParams) (hl : ∀ i < T.N, 0 < T.lengths.getD i 0)
    {d : ℕ → ℝ} (hd0 : ∀ i ≤ T.N, 0 ≤ d i) : ∀ i ≤ T.N, 0 ≤ (rateChange T d i).1 ∧ 0 ≤ (rateChange T d i).2
  | 0, _ => ⟨le_rfl, le_rfl⟩
  | i + 1, hi => by
    obtain ⟨i1, i2⟩ := rateChange_nonneg hd hl hd0 i (by omega)
    have h1 := (unitRates_nonneg hd hl (i + 1) hi).1
    have h2 := hd0 i (by omega)
    have h3 := hd0 (i + 1) hi
    have h4 := hd.lh
    have h5 : 0 ≤ (rateChange T d i).1 + T.lh * (rateChange T d i).2
        + (unitRates T (i + 1)).1 * (d i + d (i + 1)) := by positivity
    exact ⟨h5, div_nonneg h5 (hl i (by omega)).le⟩

theorem rateChange_add (T : NTrailer) (d e : ℕ → ℝ) (c : ℝ) : ∀ i,
    (rateChange T (fun j => d j + c * e j) i).1 = (rateChange T d i).1 + c * (rateChange T e i).1 ∧
    (rateChange T (fun j => d j + c * e j) i).2 = (rateChange T d i).2 + c * (rateChange T e i).2
  | 0 => by simp [rateChange]
  | i + 1 => by
    obtain ⟨i1, i2⟩ := rateChange_add T d e c i
    simp only [rateChange, i1, i2]
    constructor <;> ring

/-- A combination of cosine and sine at two angles. -/
theorem combo_lipschitz (p q a b : ℝ) :
    |(p * cos a + q * sin a) - (p * cos b + q * sin b)| ≤ √(p ^ 2 + q ^ 2) * |a - b| ∧
    |(p * sin a - q * cos a) - (p * sin b - q * cos b)| ≤ √(p ^ 2 + q ^ 2) * |a - b| := by
  have h := norm_hd_sub b a
  rw [Complex.norm_eq_sqrt_sq_add_sq] at h
  simp only [hd, Complex.sub_re, Complex.sub_im] at h
  have key : ∀ x y : ℝ, x ^ 2 ≤ (p ^ 2 + q ^ 2) * ((cos a - cos b) ^ 2 + (sin a - sin b) ^ 2) → y = x →
      |y| ≤ √(p ^ 2 + q ^ 2) * |a - b| := by
    intro x y hx e
    subst e
    refine (abs_le_sqrt hx).trans ?_
    rw [sqrt_mul (by positivity)]
    exact mul_le_mul_of_nonneg_left h (sqrt_nonneg _)
  constructor
  · refine key (p * (cos a - cos b) + q * (sin a - sin b)) _ ?_ (by ring)
    nlinarith [sq_nonneg (p * (sin a - sin b) - q * (cos a - cos b))]
  · refine key (p * (sin a - sin b) - q * (cos a - cos b)) _ ?_ (by ring)
    nlinarith [sq_nonneg (p * (cos a - cos b) + q * (sin a - sin b))]

/-- Two poses of the train, driven alike. -/
theorem rates_close {T : NTrailer} (hd : DriveOK T.toParams) (hl : ∀ i < T.N, 0 < T.lengths.getD i 0)
    {u : U} (hu : Spec.InBox u) {s w s' w' h h' : ℕ → ℝ}
    (m : UnitMotion T h (u.1 * T.vMax) (u.2 * (T.deltaMaxDeg * π / 180)) s w)
    (m' : UnitMotion T h' (u.1 * T.vMax) (u.2 * (T.deltaMaxDeg * π / 180)) s' w')
    {d : ℕ → ℝ} (hh : ∀ i ≤ T.N, |h i - h' i| ≤ d i) :
    ∀ i ≤ T.N, |s i - s' i| ≤ (rateChange T d i).1 ∧ |w i - w' i| ≤ (rateChange T d i).2
  | 0, _ => by simp [m.1, m'.1, m.2.1, m'.2.1, rateChange]
  | i + 1, hi => by
    obtain ⟨i1, i2⟩ := rates_close hd hl hu m m' hh i (by omega)
    obtain ⟨r1, r2⟩ := unit_rates hd hl hu m.1 m.2.1 m.2.2 i (by omega)
    obtain ⟨e1, e2⟩ := m.2.2 i (by omega)
    obtain ⟨f1, f2⟩ := m'.2.2 i (by omega)
    have hli := hl i (by omega)
    set φ := h i - h (i + 1)
    set φ' := h' i - h' (i + 1)
    have hφ : |φ - φ'| ≤ d i + d (i + 1) := by
      have : φ - φ' = (h i - h' i) - (h (i + 1) - h' (i + 1)) := by ring
      rw [this]
      exact (abs_sub _ _).trans (add_le_add (hh i (by omega)) (hh (i + 1) hi))
    have hρ : √(s i ^ 2 + (T.lh * w i) ^ 2) ≤ (unitRates T (i + 1)).1 := by
      simp only [unitRates]
      apply sqrt_le_sqrt
      have q1 : (s i) ^ 2 ≤ (unitRates T i).1 ^ 2 := by
        rw [← sq_abs]; exact pow_le_pow_left₀ (abs_nonneg _) r1 2
      have q2 : (T.lh * w i) ^ 2 ≤ (T.lh * (unitRates T i).2) ^ 2 := by
        rw [mul_pow, mul_pow, ← sq_abs (w i)]
        exact mul_le_mul_of_nonneg_left (pow_le_pow_left₀ (abs_nonneg _) r2 2) (sq_nonneg _)
      exact add_le_add q1 q2
    obtain ⟨c1, c2⟩ := combo_lipschitz (s i) (T.lh * w i) φ φ'
    have cb : √(s i ^ 2 + (T.lh * w i) ^ 2) * |φ - φ'| ≤ (unitRates T (i + 1)).1 * (d i + d (i + 1)) :=
      mul_le_mul hρ hφ (abs_nonneg _) (sqrt_nonneg _ |>.trans hρ)
    have small : ∀ x y : ℝ, |x| ≤ 1 → |y| ≤ 1 → |(s i - s' i) * x + T.lh * (w i - w' i) * y|
        ≤ (rateChange T d i).1 + T.lh * (rateChange T d i).2 := by
      intro x y hx hy
      refine (abs_add_le _ _).trans (add_le_add ?_ ?_)
      · rw [abs_mul]
        exact (mul_le_of_le_one_right (abs_nonneg _) hx).trans i1
      · rw [abs_mul, abs_mul, abs_of_nonneg hd.lh]
        exact (mul_le_of_le_one_right (mul_nonneg hd.lh (abs_nonneg _)) hy).trans
          (mul_le_mul_of_nonneg_left i2 hd.lh)
    constructor
    · rw [e1, f1]
      have e : s i * cos φ + T.lh * w i * sin φ - (s' i * cos φ' + T.lh * w' i * sin φ')
          = ((s i - s' i) * cos φ' + T.lh * (w i - w' i) * sin φ')
            + ((s i * cos φ + T.lh * w i * sin φ) - (s i * cos φ' + T.lh * w i * sin φ')) := by ring
      rw [e]
      exact (abs_add_le _ _).trans (add_le_add (small _ _ (abs_cos_le_one _) (abs_sin_le_one _)) (c1.trans cb))
    · rw [e2, f2, ← sub_div, abs_div, abs_of_pos hli]
      refine div_le_div_of_nonneg_right ?_ hli.le
      have e : s i * sin φ - T.lh * w i * cos φ - (s' i * sin φ' - T.lh * w' i * cos φ')
          = ((s i - s' i) * sin φ' + T.lh * (w i - w' i) * (-cos φ'))
            + ((s i * sin φ - T.lh * w i * cos φ) - (s i * sin φ' - T.lh * w i * cos φ')) := by ring
      rw [e]
      exact (abs_add_le _ _).trans (add_le_add (small _ _ (abs_sin_le_one _)
        (by rw [abs_neg]; exact abs_cos_le_one _)) (c2.trans cb))

/-! ## One step -/

theorem train_step {T : NTrailer} (hd : DriveOK T.toParams) (hl : ∀ i < T.N, 0 < T.lengths.getD i 0)
    {u : U} (hu : Spec.InBox u) {γ : ℝ → QN} {a b : ℝ}
    (hg : DrivesTrain T γ a b (u.1 * T.vMax) (u.2 * (T.deltaMaxDeg * π / 180)))
    {H S W e : ℕ → ℝ} (m : UnitMotion T H (u.1 * T.vMax) (u.2 * (T.deltaMaxDeg * π / 180)) S W)
    (he : ∀ i ≤ T.N, |headingN (γ a) i - H i| ≤ e i) {t : ℝ} (ht : t ∈ Icc a b) :
    ∀ i ≤ T.N, |headingN (γ t) i - (H i + (t - a) * W i)|
      ≤ e i + (t - a) * (rateChange T e i).2
        + (t - a) ^ 2 / 2 * (rateChange T (fun j => (unitRates T j).2) i).2 := by
  have tr := hg.trailers
  choose! s w hm hder using tr
  have der : ∀ i ≤ T.N, ∀ r ∈ Icc a b, HasDerivWithinAt (fun t => headingN (γ t) i) (w r i) (Icc a b) r := by
    intro i hi r hr
    cases i with
    | zero => exact (hg.car.th r hr).congr_deriv (hm r hr).2.1.symm
    | succ i => exact hder r hr i (by omega)
  have rates : ∀ r ∈ Icc a b, ∀ i ≤ T.N, |w r i| ≤ (unitRates T i).2 := fun r hr i hi =>
    (unit_rates hd hl hu (hm r hr).1 (hm r hr).2.1 (hm r hr).2.2 i hi).2
  have away : ∀ r ∈ Icc a b, ∀ i ≤ T.N, |headingN (γ r) i - H i| ≤ e i + (r - a) * (unitRates T i).2 := by
    intro r hr i hi
    have h1 : |headingN (γ r) i - headingN (γ a) i| ≤ (unitRates T i).2 * (r - a) :=
      norm_image_sub_le_of_norm_deriv_le_segment' (der i hi)
        (fun q hq => rates q (Ico_subset_Icc_self hq) i hi) r hr
    have : headingN (γ r) i - H i = (headingN (γ a) i - H i) + (headingN (γ r) i - headingN (γ a) i) := by ring
    rw [this]
    refine (abs_add_le _ _).trans (add_le_add (he i hi) ?_)
    rw [mul_comm]; exact h1
  intro i hi
  have hf : ∀ r ∈ Icc a b, HasDerivWithinAt (fun r => headingN (γ r) i - (H i + (r - a) * W i))
      (w r i - 1 * W i) (Icc a b) r := fun r hr =>
    (der i hi r hr).sub ((((hasDerivWithinAt_id r _).sub_const a).mul_const _).const_add _)
  have hB : ∀ r, HasDerivAt (fun r => e i + (r - a) * (rateChange T e i).2
      + (r - a) ^ 2 / 2 * (rateChange T (fun j => (unitRates T j).2) i).2)
      ((rateChange T e i).2 + (r - a) * (rateChange T (fun j => (unitRates T j).2) i).2) r := by
    intro r
    have h3 : HasDerivAt (fun r : ℝ => (r - a) ^ 2) (2 * (r - a)) r := by
      have := ((hasDerivAt_id' r).sub_const a).fun_pow 2
      exact this.congr_deriv (by norm_num)
    have h4 : HasDerivAt (fun r : ℝ => r - a) 1 r := (hasDerivAt_id r).sub_const a
    have := ((h4.mul_const (rateChange T e i).2).const_add (e i)).add
      ((h3.div_const 2).mul_const (rateChange T (fun j => (unitRates T j).2) i).2)
    exact this.congr_deriv (by ring)
  refine image_norm_le_of_norm_deriv_right_le_deriv_boundary
    (fun r hr => (hf r hr).continuousWithinAt)
    (fun r hr => (hf r (Ico_subset_Icc_self hr)).mono_of_mem_nhdsWithin (Icc_mem_nhdsGE_of_mem hr))
    (by simpa using he i hi) hB ?_ ht
  intro r hr
  have hr' := Ico_subset_Icc_self hr
  rw [one_mul, Real.norm_eq_abs]
  have := (rates_close hd hl hu (hm r hr') m (away r hr') i hi).2
  rw [(rateChange_add T e (fun j => (unitRates T j).2) (r - a) i).2] at this
  exact this

/-! ## Many steps -/

theorem headingDrift_nonneg {T : NTrailer} (hd : DriveOK T.toParams) (hl : ∀ i < T.N, 0 < T.lengths.getD i 0) :
    ∀ n, ∀ i ≤ T.N, 0 ≤ headingDrift T n i
  | 0, _, _ => le_rfl
  | n + 1, i, hi => by
    have h1 := headingDrift_nonneg hd hl n i hi
    have h2 := (rateChange_nonneg hd hl (headingDrift_nonneg hd hl n) i hi).2
    have h3 := (rateChange_nonneg hd hl (fun j hj => (unitRates_nonneg hd hl j hj).2) i hi).2
    have h4 := hd.dt
    simp only [headingDrift]
    positivity

theorem headingDrift_mono {T : NTrailer} (hd : DriveOK T.toParams) (hl : ∀ i < T.N, 0 < T.lengths.getD i 0)
    {m n : ℕ} (hmn : m ≤ n) {i : ℕ} (hi : i ≤ T.N) : headingDrift T m i ≤ headingDrift T n i := by
  induction n with
  | zero => rw [Nat.le_zero.mp hmn]
  | succ n ih =>
    rcases Nat.lt_or_ge n m with h | h
    · rw [show m = n + 1 by omega]
    · refine (ih h).trans ?_
      have h2 := (rateChange_nonneg hd hl (headingDrift_nonneg hd hl n) i hi).2
      have h3 := (rateChange_nonneg hd hl (fun j hj => (unitRates_nonneg hd hl j hj).2) i hi).2
      have h4 := hd.dt
      have h5 : 0 ≤ T.dt * (rateChange T (headingDrift T n) i).2 := by positivity
      have h6 : 0 ≤ T.dt ^ 2 / 2 * (rateChange T (fun j => (unitRates T j).2) i).2 := by positivity
      simp only [headingDrift]
      linarith

/-- Recorded headings and the continuous motion of the train, step by step. -/
theorem train_run {T : NTrailer} (hd : DriveOK T.toParams) (hl : ∀ i < T.N, 0 < T.lengths.getD i 0)
    {γ : ℝ → QN} {n : ℕ} {H S W : ℕ → ℕ → ℝ} {u : ℕ → U}
    (h0 : ∀ i ≤ T.N, headingN (γ 0) i = H 0 i) (hu : ∀ k < n, Spec.InBox (u k))
    (hm : ∀ k < n, UnitMotion T (H k) ((u k).1 * T.vMax) ((u k).2 * (T.deltaMaxDeg * π / 180)) (S k) (W k))
    (hr : ∀ k < n, ∀ i ≤ T.N, H (k + 1) i = H k i + T.dt * W k i)
    (hc : ∀ k < n, DrivesTrain T γ (k * T.dt) ((k + 1) * T.dt) ((u k).1 * T.vMax)
      ((u k).2 * (T.deltaMaxDeg * π / 180))) :
    ∀ k < n, ∀ lam, 0 ≤ lam → lam ≤ 1 → ∀ i ≤ T.N,
      |headingN (γ ((k + lam) * T.dt)) i - mix lam (H k i) (H (k + 1) i)| ≤ headingDrift T (k + 1) i := by
  have one : ∀ k < n, (∀ i ≤ T.N, |headingN (γ (k * T.dt)) i - H k i| ≤ headingDrift T k i) →
      ∀ lam, 0 ≤ lam → lam ≤ 1 → ∀ i ≤ T.N,
      |headingN (γ ((k + lam) * T.dt)) i - mix lam (H k i) (H (k + 1) i)| ≤ headingDrift T (k + 1) i := by
    intro k hk e lam l0 l1 i hi
    have hin : (k + lam) * T.dt ∈ Icc (k * T.dt) ((k + 1) * T.dt) := by
      have := hd.dt
      constructor <;> nlinarith
    have hsub : (k + lam) * T.dt - k * T.dt = lam * T.dt := by ring
    have st := train_step hd hl (hu k hk) (hc k hk) (hm k hk) e hin i hi
    rw [hsub] at st
    have em : mix lam (H k i) (H (k + 1) i) = H k i + lam * T.dt * W k i := by
      rw [hr k hk i hi]; unfold mix; ring
    rw [em]
    refine st.trans ?_
    have h2 := (rateChange_nonneg hd hl (headingDrift_nonneg hd hl k) i hi).2
    have h3 := (rateChange_nonneg hd hl (fun j hj => (unitRates_nonneg hd hl j hj).2) i hi).2
    have h4 := hd.dt
    simp only [headingDrift]
    have g1 : lam * T.dt * (rateChange T (headingDrift T k) i).2 ≤ T.dt * (rateChange T (headingDrift T k) i).2 := by
      rw [mul_assoc]; exact mul_le_of_le_one_left (by positivity) l1
    have g2 : (lam * T.dt) ^ 2 / 2 * (rateChange T (fun j => (unitRates T j).2) i).2
        ≤ T.dt ^ 2 / 2 * (rateChange T (fun j => (unitRates T j).2) i).2 := by
      refine mul_le_mul_of_nonneg_right ?_ h3
      have : (lam * T.dt) ^ 2 ≤ T.dt ^ 2 := by
        rw [mul_pow]; exact mul_le_of_le_one_left (sq_nonneg _) (by nlinarith)
      linarith
    linarith
  have all : ∀ k ≤ n, ∀ i ≤ T.N, |headingN (γ (k * T.dt)) i - H k i| ≤ headingDrift T k i := by
    intro k
    induction k with
    | zero =>
      intro _ i hi
      simp [h0 i hi, headingDrift]
    | succ k ih =>
      intro hk i hi
      have o := one k (by omega) (ih (by omega)) 1 (by norm_num) le_rfl i hi
      have m1 : ∀ a b : ℝ, mix 1 a b = b := by intro a b; unfold mix; ring
      rw [m1] at o
      push_cast
      exact o
  intro k hk
  exact one k hk (all k hk.le)

/-! ## The recorded motion -/

/-- Positions and headings of the train: the step the recorded states take. -/
theorem eulerN_motion {T : NTrailer} {x x' : QN} {u : U} (hE : Spec.EulerN T x u x') :
    ∃ S W, UnitMotion T (headingN x) (u.1 * T.vMax) (u.2 * (T.deltaMaxDeg * π / 180)) S W ∧
      (∀ i ≤ T.N, headingN x' i = headingN x i + T.dt * W i) ∧
      x'.px = x.px + T.dt * (u.1 * T.vMax * cos x.th0) ∧ x'.py = x.py + T.dt * (u.1 * T.vMax * sin x.th0) ∧
      x'.ths.length = T.N := by
  obtain ⟨s, w, s0, w0, hrec, e1, e2, e3, hlen, e4⟩ := hE
  refine ⟨s, w, ⟨s0, w0, hrec⟩, ?_, e1, e2, hlen⟩
  intro i hi
  cases i with
  | zero => exact e3
  | succ i => exact e4 i (by omega)

theorem headingN_between {lam : ℝ} {x x' : QN} (h : x'.ths.length = x.ths.length) (i : ℕ) :
    headingN (betweenN lam x x') i = mix lam (headingN x i) (headingN x' i) := by
  cases i with
  | zero => rfl
  | succ i => exact betweenN_getD h i

/-- **C75, train**: a train of any number of trailers that is driven in continuous time with the applied controls of a
recorded motion has at every moment exactly the interpolated recorded heading of the tractor, its position differs from
the interpolated one by at most `drift`, and the heading of every trailer by at most `headingDrift` of the number
of steps. -/
theorem C75_ntrailer (T : NTrailer) (guide : QN → QN) (hd : DriveOK T.toParams) (htr : Spec.TrailersOK T)
    (hl : ∀ i < T.N, 0 < T.lengths.getD i 0) (s : St QN) (hw : s.q.ths.length = T.N) (us : List U)
    (tr : List (St QN)) (h : scanStatesE (T.step guide) s us = .ok tr) (γ : ℝ → QN)
    (hγ : ContinuousN T γ (s :: tr)) (k : ℕ) (a b : St QN)
    (ha : (s :: tr)[k]? = some a) (hb : (s :: tr)[k + 1]? = some b) (lam : ℝ) (l0 : 0 ≤ lam) (l1 : lam ≤ 1) :
    (γ ((k + lam) * T.dt)).th0 = (betweenN lam a.q b.q).th0 ∧
    Spec.dist ((γ ((k + lam) * T.dt)).px, (γ ((k + lam) * T.dt)).py)
      ((betweenN lam a.q b.q).px, (betweenN lam a.q b.q).py) ≤ drift T.toParams (k + 1) ∧
    ∀ i < T.N, |(γ ((k + lam) * T.dt)).ths.getD i 0 - (betweenN lam a.q b.q).ths.getD i 0|
      ≤ headingDrift T (k + 1) (i + 1) := by
  have hE := C09_train T guide s ⟨hw, htr.1, htr.2.1, htr.2.2.1⟩ us tr h
  have hbox : List.IsChain (fun s s' : St QN => Spec.InBox s'.applied) (s :: tr) :=
    scanE_isChain _ (fun s a s' hst => C08_ntrailer T guide s s' a hst) us s tr h
  have hlen0 : ∀ (j : ℕ) (x : St QN), (s :: tr)[j]? = some x → x.q.ths.length = T.N := by
    intro j x hx
    cases j with
    | zero => simp only [List.getElem?_cons_zero, Option.some.injEq] at hx; rw [← hx]; exact hw
    | succ j =>
      have hj : j < (s :: tr).length := by
        have := (List.getElem?_eq_some_iff.mp hx).1; omega
      obtain ⟨_, _, _, _, _, _, _, _, hlen, _⟩ := chain_at hE (List.getElem?_eq_getElem hj) hx
      exact hlen
  generalize s :: tr = xs at *
  have hk : k + 1 < xs.length := (List.getElem?_eq_some_iff.mp hb).1
  have at' : ∀ j < xs.length, xs[j]? = some (xs.getD j s) := by
    intro j hj
    rw [List.getD_eq_getElem _ _ hj, List.getElem?_eq_getElem hj]
  have ea : xs.getD k s = a := by
    have := at' k (by omega); rw [ha] at this; exact (Option.some.inj this).symm
  have eb : xs.getD (k + 1) s = b := by
    have := at' (k + 1) hk; rw [hb] at this; exact (Option.some.inj this).symm
  have g0 := hγ.start _ (at' 0 (by omega))
  have mo : ∀ j < k + 1, ∃ S W, _ := fun j hj =>
    eulerN_motion (chain_at hE (at' j (by omega)) (at' (j + 1) (by omega)))
  choose! S W hm hH hx hy _ using mo
  have hin : ∀ j < k + 1, Spec.InBox (xs.getD (j + 1) s).applied := fun j hj =>
    chain_at hbox (at' j (by omega)) (at' (j + 1) (by omega))
  have dr : ∀ j < k + 1, _ := fun j hj => hγ.drive j _ (at' (j + 1) (by omega))
  have key := car_run (P := T.toParams) hd (x := fun t => (γ t).px) (y := fun t => (γ t).py)
    (th := fun t => (γ t).th0) (n := k + 1) (X := fun j => (xs.getD j s).q.px) (Y := fun j => (xs.getD j s).q.py)
    (TH := fun j => (xs.getD j s).q.th0) (u := fun j => (xs.getD (j + 1) s).applied)
    (by simp only [g0]) (by simp only [g0]) (by simp only [g0]) hin
    (fun j hj => ⟨hx j hj, hy j hj, by
      have := hH j hj 0 (by omega)
      rw [(hm j hj).2.1] at this
      exact this⟩)
    (fun j hj => (dr j hj).car) k (by omega) lam l0 l1
  have key2 := train_run hd hl (γ := γ) (n := k + 1) (H := fun j => headingN (xs.getD j s).q)
    (S := S) (W := W) (u := fun j => (xs.getD (j + 1) s).applied) (fun i _ => by rw [g0]) hin hm hH dr
    k (by omega) lam l0 l1
  simp only [ea, eb] at key key2
  refine ⟨key.1, key.2, fun i hi => ?_⟩
  have := key2 (i + 1) (by omega)
  rw [← headingN_between ((hlen0 _ _ hb).trans (hlen0 _ _ ha).symm)] at this
  exact this

/-! ## Safety of the continuous motion -/

/-- Points of the bodies between two recorded states. -/
theorem train_pts {T : NTrailer} {x x' : QN} {u : U}
    (hd : DriveOK T.toParams) (hsz : Spec.SidesOK T.toParams) (hov : -T.lr ≤ T.l1 + T.lf1)
    (hl : ∀ i < T.N, 0 < T.lengths.getD i 0) (hre : ∀ i < T.N, 0 ≤ T.rears.getD i 0)
    (hw : x.ths.length = T.N) (hu : Spec.InBox u) (hE : Spec.EulerN T x u x')
    {lam : ℝ} (l0 : 0 ≤ lam) (l1 : lam ≤ 1) :
    (∀ b ∈ Spec.tractorBody T.toParams (betweenN lam x x').px (betweenN lam x x').py (betweenN lam x x').th0,
      (∃ a ∈ Spec.tractorBody T.toParams x.px x.py x.th0, Spec.dist a b ≤ Spec.tractorShift T.toParams 0 / 2) ∨
      ∃ a ∈ Spec.tractorBody T.toParams x'.px x'.py x'.th0, Spec.dist a b ≤ Spec.tractorShift T.toParams 0 / 2) ∧
    ∀ i < T.N, ∀ b ∈ Spec.trailerBodyN T (betweenN lam x x') i,
      (∃ a ∈ Spec.trailerBodyN T x i, Spec.dist a b ≤ trailerSweepN T i / 2) ∨
      ∃ a ∈ Spec.trailerBodyN T x' i, Spec.dist a b ≤ trailerSweepN T i / 2 := by
  obtain ⟨s, w, s0, w0, hrec, e1, e2, e3, hlen, e4⟩ := hE
  have rates := unit_rates hd hl hu s0 w0 hrec
  have hlen' : x'.ths.length = x.ths.length := hlen.trans hw.symm
  have hdt := hd.dt
  have turn : ∀ i ≤ T.N, |T.dt * w i| ≤ T.dt * (unitRates T i).2 := by
    intro i hi
    rw [abs_mul, abs_of_nonneg hdt]
    exact mul_le_mul_of_nonneg_left (rates i hi).2 hdt
  have t0 : Spec.dist (x'.px, x'.py) (x.px, x.py) ≤ T.dt * T.vMax := by
    rw [e1, e2, mul_comm T.dt T.vMax]; exact ref_shift hd hu x.px x.py x.th0
  have t1 : |x'.th0 - x.th0| ≤ T.dt * (unitRates T 0).2 := by
    rw [e3, add_sub_cancel_left]; exact turn 0 (by omega)
  have tD : ∀ i < T.N, |x'.ths.getD i 0 - x.ths.getD i 0| ≤ T.dt * (unitRates T (i + 1)).2 := by
    intro i hi
    rw [e4 i hi, add_sub_cancel_left]; exact turn (i + 1) (by omega)
  have hb := hitch_between hlen' hd.lh hl hre tD t0 t1 (H := hitchTravel T) le_rfl
    (fun i _ => le_rfl) lam
  obtain ⟨p1, p2⟩ := point_between lam (x.px, x.py) (x'.px, x'.py)
  have m1 : 0 ≤ max T.lr (T.l1 + T.lf1) := max_nonneg_of_neg_le hov
  have w1 : 0 ≤ T.tractorWidth / 2 := by linarith [hsz.tractorWid]
  have w2 : 0 ≤ T.trailerWidth / 2 := by linarith [hsz.trailerWid]
  have weaken : ∀ {A A' : Set Pt} {b : Pt} {c c' : ℝ}, c ≤ c' →
      ((∃ a ∈ A, Spec.dist a b ≤ c) ∨ ∃ a ∈ A', Spec.dist a b ≤ c) →
      (∃ a ∈ A, Spec.dist a b ≤ c') ∨ ∃ a ∈ A', Spec.dist a b ≤ c' := by
    intro A A' b c c' hcc h
    rcases h with ⟨a, ha, hda⟩ | ⟨a, ha, hda⟩
    · exact .inl ⟨a, ha, hda.trans hcc⟩
    · exact .inr ⟨a, ha, hda.trans hcc⟩
  constructor
  · intro b hbm
    have := body_between (rear := T.lr) (front := T.l1 + T.lf1) (width := T.tractorWidth) l0 l1 p1 p2 b hbm
    refine weaken ?_ this
    have := mul_le_mul_of_nonneg_left t1 (add_nonneg m1 w1)
    unfold Spec.tractorShift
    simp only [mul_zero, sub_zero, unitRates] at this ⊢
    have e : T.vMax * T.dt * tan (T.deltaMaxDeg * π / 180) / T.l1
        = T.dt * (T.vMax / T.l1 * tan (T.deltaMaxDeg * π / 180)) := by ring
    rw [e]
    linarith
  · intro i hi b hbm
    obtain ⟨b1, b2⟩ := hb i hi.le
    obtain ⟨d1, d2⟩ := mix_diff lam (x.ths.getD i 0) (x'.ths.getD i 0)
    have hli := hl i hi
    have hri := hre i hi
    have ax : ∀ (k : ℝ) (y : QN), 0 ≤ k →
        Spec.dist (Spec.hitchN T (betweenN lam x x') i) (Spec.hitchN T y i) ≤ k * hitchTravel T i →
        |mix lam (x.ths.getD i 0) (x'.ths.getD i 0) - y.ths.getD i 0| = k * |x'.ths.getD i 0 - x.ths.getD i 0| →
        Spec.dist (Spec.axleN T (betweenN lam x x') i) (Spec.axleN T y i)
          ≤ k * (hitchTravel T i + T.lengths.getD i 0 * |x'.ths.getD i 0 - x.ths.getD i 0|) := by
      intro k y hk hc hg
      unfold Spec.axleN
      rw [betweenN_getD hlen']
      have f := frame_shift (Spec.hitchN T y i) (Spec.hitchN T (betweenN lam x x') i) (y.ths.getD i 0)
        (mix lam (x.ths.getD i 0) (x'.ths.getD i 0)) (-T.lengths.getD i 0) 0
      rw [hg, abs_neg, abs_zero, add_zero, abs_of_pos hli] at f
      refine f.trans ?_
      calc _ ≤ k * hitchTravel T i + T.lengths.getD i 0 * (k * |x'.ths.getD i 0 - x.ths.getD i 0|) := by linarith
        _ = _ := by ring
    have a1 := ax _ x (abs_nonneg lam) b1 d1
    have a2 := ax _ x' (abs_nonneg (1 - lam)) b2 d2
    unfold Spec.trailerBodyN at hbm ⊢
    rw [betweenN_getD hlen'] at hbm
    have ta := body_between (rear := T.rears.getD i 0) (front := T.fronts.getD i 0) (width := T.trailerWidth)
        l0 l1 a1 a2 b hbm
    refine weaken ?_ ta
    unfold trailerSweepN
    have m2 : 0 ≤ max (T.rears.getD i 0) (T.fronts.getD i 0) := hri.trans (le_max_left _ _)
    have := mul_le_mul_of_nonneg_left (tD i hi) (add_nonneg hli.le (add_nonneg m2 w2))
    have e : (T.lengths.getD i 0 + (max (T.rears.getD i 0) (T.fronts.getD i 0) + T.trailerWidth / 2))
        * |x'.ths.getD i 0 - x.ths.getD i 0| = T.lengths.getD i 0 * |x'.ths.getD i 0 - x.ths.getD i 0|
        + (max (T.rears.getD i 0) (T.fronts.getD i 0) + T.trailerWidth / 2) * |x'.ths.getD i 0 - x.ths.getD i 0| := by ring
    linarith

/-- Hitches of two poses with the same tractor heading. -/
theorem hitch_near {T : NTrailer} (hlh : 0 ≤ T.lh) (hl : ∀ i < T.N, 0 < T.lengths.getD i 0)
    (hre : ∀ i < T.N, 0 ≤ T.rears.getD i 0) {m g : QN} {n : ℕ} (g1 : g.th0 = m.th0)
    (g2 : Spec.dist (g.px, g.py) (m.px, m.py) ≤ drift T.toParams n)
    (g3 : ∀ i < T.N, |g.ths.getD i 0 - m.ths.getD i 0| ≤ headingDrift T n (i + 1)) :
    ∀ i ≤ T.N, Spec.dist (Spec.hitchN T m i) (Spec.hitchN T g i) ≤ hitchDrift T n i
  | 0, _ => by
    simp only [Spec.hitchN, hitchDrift]
    refine (frame_shift _ _ _ _ _ _).trans ?_
    rw [g1, sub_self, abs_zero, mul_zero, add_zero, dist_comm']
    exact g2
  | i + 1, hi => by
    have ih := hitch_near hlh hl hre g1 g2 g3 i (by omega)
    have hli := hl i (by omega)
    have hri := hre i (by omega)
    have h3 := g3 i (by omega)
    rw [abs_sub_comm] at h3
    simp only [Spec.hitchN, hitchDrift]
    refine (frame_shift _ _ _ _ _ _).trans ?_
    rw [abs_neg, abs_of_nonneg (by linarith : 0 ≤ T.rears.getD i 0 + T.lh), abs_zero, add_zero]
    have f := frame_shift (Spec.hitchN T g i) (Spec.hitchN T m i) (g.ths.getD i 0) (m.ths.getD i 0)
      (-T.lengths.getD i 0) 0
    rw [abs_neg, abs_of_pos hli, abs_zero, add_zero] at f
    have k1 := mul_le_mul_of_nonneg_left h3 hli.le
    have k2 := mul_le_mul_of_nonneg_left h3 (by linarith : 0 ≤ T.rears.getD i 0 + T.lh)
    linarith

theorem trailerBodyN_obstacles (T : NTrailer) (cs : List Circle) (rs : List Rect) (x : QN) (i : ℕ) :
    Spec.trailerBodyN { T with circles := cs, rects := rs } x i = Spec.trailerBodyN T x i := by
  unfold Spec.trailerBodyN Spec.axleN
  rw [hitchN_obstacles]

/-- Two states of the train with margin, and a pose near one in between. -/
theorem train_near {T : NTrailer} {cs : List Circle} {rs : List Rect} {p : ℝ} {x x' g : QN} {u : U} {n : ℕ}
    (hd : DriveOK T.toParams) (hsz : Spec.SidesOK T.toParams) (hov : -T.lr ≤ T.l1 + T.lf1)
    (hl : ∀ i < T.N, 0 < T.lengths.getD i 0) (hre : ∀ i < T.N, 0 ≤ T.rears.getD i 0)
    (hw : x.ths.length = T.N) (hu : Spec.InBox u) (hE : Spec.EulerN T x u x')
    (h1 : Spec.tractorShift T.toParams 0 / 2 + drift T.toParams n ≤ p)
    (h2 : ∀ i < T.N, trailerSweepN T i / 2 + trailerDriftN T n i ≤ p)
    (m : MarginN p T cs rs x) (m' : MarginN p T cs rs x') {lam : ℝ} (l0 : 0 ≤ lam) (l1 : lam ≤ 1)
    (g1 : g.th0 = (betweenN lam x x').th0)
    (g2 : Spec.dist (g.px, g.py) ((betweenN lam x x').px, (betweenN lam x x').py) ≤ drift T.toParams n)
    (g3 : ∀ i < T.N, |g.ths.getD i 0 - (betweenN lam x x').ths.getD i 0| ≤ headingDrift T n (i + 1)) :
    Spec.SafeN { T with circles := cs, rects := rs } g := by
  obtain ⟨tr, ta⟩ := train_pts hd hsz hov hl hre hw hu hE l0 l1
  generalize betweenN lam x x' = z at *
  have w2 : 0 ≤ T.trailerWidth / 2 := by linarith [hsz.trailerWid]
  have nr : ∀ b ∈ Spec.tractorBody T.toParams g.px g.py g.th0, ∃ b' ∈ Spec.tractorBody T.toParams z.px
      z.py z.th0, Spec.dist b' b ≤ drift T.toParams n := by
    intro b hb
    obtain ⟨b', hb', hdd⟩ := body_near (c' := (z.px, z.py)) (ang' := z.th0) b hb
    refine ⟨b', hb', hdd.trans ?_⟩
    rw [g1, sub_self, abs_zero, mul_zero, add_zero, dist_comm']
    exact g2
  have nt : ∀ i < T.N, ∀ b ∈ Spec.trailerBodyN T g i, ∃ b' ∈ Spec.trailerBodyN T z i,
      Spec.dist b' b ≤ trailerDriftN T n i := by
    intro i hi b hb
    obtain ⟨b', hb', hdd⟩ := body_near (c' := Spec.axleN T z i) (ang' := z.ths.getD i 0) b hb
    refine ⟨b', hb', hdd.trans ?_⟩
    have hli := hl i hi
    have hn := hitch_near hd.lh hl hre g1 g2 g3 i hi.le
    have h3 := g3 i hi
    rw [abs_sub_comm] at h3 
    have f := frame_shift (Spec.hitchN T g i) (Spec.hitchN T z i) (g.ths.getD i 0) (z.ths.getD i 0)
      (-T.lengths.getD i 0) 0
    rw [abs_neg, abs_of_pos hli, abs_zero, add_zero] at f
    have m2 : 0 ≤ max (T.rears.getD i 0) (T.fronts.getD i 0) := (hre i hi).trans (le_max_left _ _)
    have k1 := mul_le_mul_of_nonneg_left h3 hli.le
    have k2 := mul_le_mul_of_nonneg_left h3 (add_nonneg m2 w2)
    unfold trailerDriftN Spec.axleN
    linarith
  have tr2 := near_between nr tr
  have ta2 := fun i hi => near_between (nt i hi) (ta i hi)
  constructor
  · intro c hc
    exact ⟨between_apart h1 (m.1 c hc).1 (m'.1 c hc).1 tr2, fun i hi => by
      rw [trailerBodyN_obstacles]
      exact between_apart (h2 i hi) ((m.1 c hc).2 i hi) ((m'.1 c hc).2 i hi) (ta2 i hi)⟩
  · intro o ho
    exact ⟨between_apart h1 (m.2 o ho).1 (m'.2 o ho).1 tr2, fun i hi => by
      rw [trailerBodyN_obstacles]
      exact between_apart (h2 i hi) ((m.2 o ho).2 i hi) ((m'.2 o ho).2 i hi) (ta2 i hi)⟩

theorem hitchDrift_mono {T : NTrailer} (hd : DriveOK T.toParams) (hl : ∀ i < T.N, 0 < T.lengths.getD i 0)
    (hre : ∀ i < T.N, 0 ≤ T.rears.getD i 0) {m n : ℕ} (hmn : m ≤ n) :
    ∀ i ≤ T.N, hitchDrift T m i ≤ hitchDrift T n i
  | 0, _ => drift_mono hd hmn
  | i + 1, hi => by
    have h1 := hitchDrift_mono hd hl hre hmn i (by omega)
    have h2 := headingDrift_mono hd hl hmn hi
    have h3 := mul_le_mul_of_nonneg_left h2
      (by linarith [hl i (by omega), hre i (by omega), hd.lh] :
        0 ≤ T.lengths.getD i 0 + (T.rears.getD i 0 + T.lh))
    simp only [hitchDrift]
    linarith

theorem trailerDriftN_mono {T : NTrailer} (hd : DriveOK T.toParams) (hsz : Spec.SidesOK T.toParams)
    (hl : ∀ i < T.N, 0 < T.lengths.getD i 0)
    (hre : ∀ i < T.N, 0 ≤ T.rears.getD i 0) {m n : ℕ} (hmn : m ≤ n) {i : ℕ} (hi : i < T.N) :
    trailerDriftN T m i ≤ trailerDriftN T n i := by
  have w2 : 0 ≤ T.trailerWidth / 2 := by linarith [hsz.trailerWid]
  have m2 : 0 ≤ max (T.rears.getD i 0) (T.fronts.getD i 0) := (hre i hi).trans (le_max_left _ _)
  have h1 := hitchDrift_mono hd hl hre hmn i hi.le
  have h3 := mul_le_mul_of_nonneg_left (headingDrift_mono hd hl hmn (show i + 1 ≤ T.N by omega))
    (add_nonneg (hl i hi).le (add_nonneg m2 w2))
  unfold trailerDriftN
  linarith

theorem scanE_len {S X E : Type} {step : S → X → Except E S} : ∀ (us : List X) (s : S) (tr : List S),
    scanStatesE step s us = .ok tr → tr.length = us.length
  | [], s, tr, h => by
    simp only [scanStatesE, Except.ok.injEq] at h
    subst h; rfl
  | u :: us, s, tr, h => by
    simp only [scanStatesE] at h
    cases h1 : step s u with
    | error e => simp [h1] at h
    | ok s' =>
      cases h2 : scanStatesE step s' us with
      | error e => simp [h1, h2] at h
      | ok rest =>
        simp only [h1, h2, Except.ok.injEq] at h
        subst h
        simp [scanE_len us s' rest h2]

/-- **C75, train with shield and padding**: if the padding covers half the width of the bodies, and half a step's
travel plus the drift of the whole run, the train driven in continuous time with the recorded controls stays clear of
the actual obstacles at every moment. -/
theorem C75_safe_ntrailer (T : NTrailer) (guide : QN → QN) (hs : T.shieldCollision = true)
    (hg : T.enableGuidance = false) (hsz : Spec.SidesOK T.toParams) (hd : DriveOK T.toParams)
    (hov : -T.lr ≤ T.l1 + T.lf1) (htr : Spec.TrailersOK T)
    (hl : ∀ i < T.N, 0 < T.lengths.getD i 0) (hre : ∀ i < T.N, 0 ≤ T.rears.getD i 0)
    {p : ℝ} {cs : List Circle} {rs : List Rect} (hP : Padded p T.toParams cs rs) (hr : ∀ c ∈ cs, 0 ≤ c.r)
    (hwd : T.tractorWidth / 2 ≤ p ∧ T.trailerWidth / 2 ≤ p) (s : St QN)
    (h0 : Spec.SafeN T s.q) (hw : s.q.ths.length = T.N) (us : List U)
    (h1 : Spec.tractorShift T.toParams 0 / 2 + drift T.toParams us.length ≤ p)
    (h2 : ∀ i < T.N, trailerSweepN T i / 2 + trailerDriftN T us.length i ≤ p)
    (tr : List (St QN)) (h : scanStatesE (T.step guide) s us = .ok tr) (γ : ℝ → QN)
    (hγ : ContinuousN T γ (s :: tr)) (t : ℝ) (t0 : 0 ≤ t) (t1 : t ≤ us.length * T.dt) :
    Spec.SafeN { T with circles := cs, rects := rs } (γ t) := by
  have p0 : 0 ≤ p := by linarith [hwd.1, hsz.tractorWid]
  have hwc : ∀ c ∈ T.circles, T.tractorWidth / 2 ≤ c.r ∧ T.trailerWidth / 2 ≤ c.r := by
    intro c hc
    obtain ⟨c0, hc0, rfl⟩ := forall2_mem_left (padded_circles hP) c hc
    have := hr c0 hc0
    exact ⟨by simp only; linarith [hwd.1], by simp only; linarith [hwd.2]⟩
  have hsafe := C03_solid_ntrailer_partial T guide hs hg hsz htr hwc s
    (safeN_passes hsz htr hw h0) us tr h
  have hmar : ∀ a ∈ s :: tr, MarginN p T cs rs a.q := by
    intro a ha
    rcases List.mem_cons.mp ha with rfl | ha
    · exact C74_margin_ntrailer p0 hP hr h0
    · exact C74_margin_ntrailer p0 hP hr (hsafe a ha)
  have hlen : tr.length = us.length := scanE_len us s tr h
  rcases in_step hd.dt t0 t1 with rfl | ⟨k, hk, lam, l0, l1, rfl⟩
  · rw [hγ.start s rfl]
    have m := hmar s (by simp)
    refine ⟨fun c hc => ⟨between_apart p0 (m.1 c hc).1 (m.1 c hc).1 ?_, fun i hi => ?_⟩,
      fun o ho => ⟨between_apart p0 (m.2 o ho).1 (m.2 o ho).1 ?_, fun i hi => ?_⟩⟩
    · exact fun b hb => .inl ⟨b, hb, by simp [Spec.dist]⟩
    · rw [trailerBodyN_obstacles]
      exact between_apart p0 ((m.1 c hc).2 i hi) ((m.1 c hc).2 i hi) fun b hb => .inl ⟨b, hb, by simp [Spec.dist]⟩
    · exact fun b hb => .inl ⟨b, hb, by simp [Spec.dist]⟩
    · rw [trailerBodyN_obstacles]
      exact between_apart p0 ((m.2 o ho).2 i hi) ((m.2 o ho).2 i hi) fun b hb => .inl ⟨b, hb, by simp [Spec.dist]⟩
  · have hl1 : (s :: tr).length = us.length + 1 := by simp [hlen]
    have ha := List.getElem?_eq_getElem (l := s :: tr) (i := k) (by omega)
    have hb := List.getElem?_eq_getElem (l := s :: tr) (i := k + 1) (by omega)
    obtain ⟨g1, g2, g3⟩ := C75_ntrailer T guide hd htr hl s hw us tr h γ hγ k _ _ ha hb lam l0 l1
    have hE := C09_train T guide s ⟨hw, htr.1, htr.2.1, htr.2.2.1⟩ us tr h
    have hbox : List.IsChain (fun s s' : St QN => Spec.InBox s'.applied) (s :: tr) :=
      scanE_isChain _ (fun s a s' hst => C08_ntrailer T guide s s' a hst) us s tr h
    have hwk : ((s :: tr)[k]'(by omega)).q.ths.length = T.N := by
      cases k with
      | zero => exact hw
      | succ k =>
        have hk' := List.getElem?_eq_getElem (l := s :: tr) (i := k) (by omega)
        obtain ⟨_, _, _, _, _, _, _, _, hle, _⟩ := chain_at hE hk' ha
        exact hle
    have b2 := drift_mono hd (show k + 1 ≤ us.length by omega)
    refine train_near (n := k + 1) hd hsz hov hl hre hwk (chain_at hbox ha hb) (chain_at hE ha hb) (by linarith)
      (fun i hi => ?_) (hmar _ (List.getElem_mem _)) (hmar _ (List.getElem_mem _)) l0 l1 g1 g2 g3
    have := trailerDriftN_mono hd hsz hl hre (show k + 1 ≤ us.length by omega) hi
    linarith [h2 i hi]

/-! ## The continuous motion exists -/

/-- Heading of a trailer behind a unit whose heading, speed and turning rate are given functions of time. -/
theorem follow_exists {h s w : ℝ → ℝ} {b : ℝ} (hb : 0 ≤ b) (ch : ContinuousOn h (Icc 0 b))
    (cs : ContinuousOn s (Icc 0 b)) (cw : ContinuousOn w (Icc 0 b)) (lh L ph0 : ℝ) :
    ∃ ph : ℝ → ℝ, ph 0 = ph0 ∧ ∀ t ∈ Icc 0 b, HasDerivWithinAt ph
      ((s t * sin (h t - ph t) - lh * w t * cos (h t - ph t)) / L) (Icc 0 b) t := by
  have cn : ContinuousOn (fun t => √(s t ^ 2 + (lh * w t) ^ 2) / |L|) (Icc 0 b) :=
    (((cs.pow 2).add ((continuousOn_const.mul cw).pow 2)).sqrt).div_const _
  obtain ⟨C, hC⟩ := isCompact_Icc.exists_bound_of_continuousOn cn
  have hC0 : 0 ≤ C := (norm_nonneg _).trans (hC 0 ⟨le_rfl, hb⟩)
  have hCt : ∀ t ∈ Icc 0 b, √(s t ^ 2 + (lh * w t) ^ 2) / |L| ≤ C := fun t ht => (le_abs_self _).trans (hC t ht)
  obtain ⟨K, hK⟩ : ∃ K : NNReal, (K : ℝ) = C := ⟨⟨C, hC0⟩, rfl⟩
  obtain ⟨B, hB⟩ : ∃ B : NNReal, (B : ℝ) = b := ⟨⟨b, hb⟩, rfl⟩
  have h0 : (0 : ℝ) ∈ Icc 0 b := ⟨le_rfl, hb⟩
  have hpl : IsPicardLindelof (fun t x => (s t * sin (h t - x) - lh * w t * cos (h t - x)) / L)
      (⟨0, h0⟩ : Icc (0 : ℝ) b) ph0 (K * B) 0 K K := by
    refine ⟨?_, ?_, ?_, ?_⟩
    · intro t ht
      refine LipschitzOnWith.of_dist_le_mul ?_
      intro x _ y _
      rw [Real.dist_eq, Real.dist_eq, ← sub_div, abs_div]
      have := (combo_lipschitz (s t) (lh * w t) (h t - x) (h t - y)).2
      have e : |h t - x - (h t - y)| = |x - y| := by rw [abs_sub_comm]; congr 1; ring
      rw [e] at this
      calc _ ≤ √(s t ^ 2 + (lh * w t) ^ 2) * |x - y| / |L| := div_le_div_of_nonneg_right this (abs_nonneg _)
        _ = √(s t ^ 2 + (lh * w t) ^ 2) / |L| * |x - y| := by ring
        _ ≤ C * |x - y| := mul_le_mul_of_nonneg_right (hCt t ht) (abs_nonneg _)
        _ = _ := by rw [hK]
    · intro x _
      have h1 : ContinuousOn (fun t => h t - x) (Icc 0 b) := ch.sub continuousOn_const
      exact ((cs.mul (continuous_sin.comp_continuousOn h1)).sub
        ((continuousOn_const.mul cw).mul (continuous_cos.comp_continuousOn h1))).div_const _
    · intro t ht x _
      rw [Real.norm_eq_abs, abs_div, hK]
      refine le_trans (div_le_div_of_nonneg_right (abs_le_sqrt ?_) (abs_nonneg _)) (hCt t ht)
      nlinarith [sin_sq_add_cos_sq (h t - x), sq_nonneg (s t * cos (h t - x) + lh * w t * sin (h t - x)),
        sq_nonneg (s t), sq_nonneg (lh * w t)]
    · simp [hb, hB]
  obtain ⟨ph, e0, hd⟩ := hpl.exists_eq_forall_mem_Icc_hasDerivWithinAt₀
  exact ⟨ph, e0, hd⟩

/-- Heading, speed and turning rate of a unit during one step. -/
structure UnitCurve (b : ℝ) where
  h : ℝ → ℝ
  s : ℝ → ℝ
  w : ℝ → ℝ
  ch : ContinuousOn h (Icc 0 b)
  cs : ContinuousOn s (Icc 0 b)
  cw : ContinuousOn w (Icc 0 b)

theorem unit_next {b : ℝ} (hb : 0 ≤ b) (lh L ph0 : ℝ) (c : UnitCurve b) : ∃ d : UnitCurve b, d.h 0 = ph0 ∧
    (∀ t, d.s t = c.s t * cos (c.h t - d.h t) + lh * c.w t * sin (c.h t - d.h t)) ∧
    (∀ t, d.w t = (c.s t * sin (c.h t - d.h t) - lh * c.w t * cos (c.h t - d.h t)) / L) ∧
    ∀ t ∈ Icc 0 b, HasDerivWithinAt d.h (d.w t) (Icc 0 b) t := by
  obtain ⟨ph, e0, hd⟩ := follow_exists hb c.ch c.cs c.cw lh L ph0
  have hc : ContinuousOn ph (Icc 0 b) := fun t ht => (hd t ht).continuousWithinAt
  have hφ : ContinuousOn (fun t => c.h t - ph t) (Icc 0 b) := c.ch.sub hc
  have hsin := continuous_sin.comp_continuousOn hφ
  have hcos := continuous_cos.comp_continuousOn hφ
  exact ⟨⟨ph, fun t => c.s t * cos (c.h t - ph t) + lh * c.w t * sin (c.h t - ph t),
    fun t => (c.s t * sin (c.h t - ph t) - lh * c.w t * cos (c.h t - ph t)) / L, hc,
    (c.cs.mul hcos).add ((continuousOn_const.mul c.cw).mul hsin),
    ((c.cs.mul hsin).sub ((continuousOn_const.mul c.cw).mul hcos)).div_const _⟩, e0,
    fun t => rfl, fun t => rfl, hd⟩

/-- Motion of the train over one step. -/
theorem train_exists (T : NTrailer) {b : ℝ} (hb : 0 ≤ b) (q : QN) (hq : q.ths.length = T.N) (v δ : ℝ) :
    ∃ γ : ℝ → QN, γ 0 = q ∧ (∀ t, (γ t).ths.length = T.N) ∧ DrivesTrain T γ 0 b v δ := by
  obtain ⟨x, y, th, hx, hy, hth, hc⟩ := car_exists T.toParams q.px q.py q.th0 v δ b
  let first : UnitCurve b := ⟨th, fun _ => v, fun _ => v / T.l1 * tan δ,
    fun t ht => (hc.th t ht).continuousWithinAt, continuousOn_const, continuousOn_const⟩
  choose next n0 ns nw nd using fun (i : ℕ) (c : UnitCurve b) =>
    unit_next hb T.lh (T.lengths.getD i 0) (q.ths.getD i 0) c
  let seq : ℕ → UnitCurve b := fun n => Nat.rec first (fun i c => next i c) n
  have sq : ∀ i, seq (i + 1) = next i (seq i) := fun i => rfl
  let γ : ℝ → QN := fun t => ⟨x t, y t, th t, (List.range T.N).map fun i => (seq (i + 1)).h t⟩
  have gi : ∀ t, ∀ i < T.N, (γ t).ths.getD i 0 = (seq (i + 1)).h t := by
    intro t i hi
    simp [γ, List.getD_eq_getElem?_getD, hi]
  have gh : ∀ t, ∀ i ≤ T.N, headingN (γ t) i = (seq i).h t := by
    intro t i hi
    cases i with
    | zero => rfl
    | succ i => exact gi t i (by omega)
  refine ⟨γ, ?_, fun t => by simp [γ], hc, ?_⟩
  · ext1
    · exact hx
    · exact hy
    · exact hth
    · apply List.ext_getElem
      · simp [γ, hq]
      · intro i h1 h2
        have hi : i < T.N := by rw [← hq]; exact h2
        have e1 := gi 0 i hi
        rw [List.getD_eq_getElem _ _ h1] at e1
        rw [e1, sq, n0, List.getD_eq_getElem _ _ h2]
  · intro t ht
    refine ⟨fun i => (seq i).s t, fun i => (seq i).w t, ⟨rfl, rfl, fun i hi => ?_⟩, fun i hi => ?_⟩
    · rw [gh t i hi.le, gh t (i + 1) (by omega)]
      simp only [sq]
      exact ⟨ns i (seq i) t, nw i (seq i) t⟩
    · have e : (fun t => (γ t).ths.getD i 0) = (seq (i + 1)).h := by
        funext r; exact gi r i hi
      rw [e]
      exact nd i (seq i) t ht

/-- **C75**: every recorded motion of a train has a continuous motion that belongs to it. -/
theorem C75_exists_ntrailer (T : NTrailer) (hdt : 0 ≤ T.dt) (xs : List (St QN))
    (hw : ∀ a, xs[0]? = some a → a.q.ths.length = T.N) : ∃ γ, ContinuousN T γ xs := by
  cases xs with
  | nil => exact ⟨fun _ => ⟨0, 0, 0, []⟩, by simp, by simp⟩
  | cons s xs =>
    obtain ⟨γ, g0, gd⟩ := glue (Q := { q : QN // q.ths.length = T.N })
      (D := fun γ a b u => DrivesTrain T (fun t => (γ t).1) a b (u.1 * T.vMax) (u.2 * (T.deltaMaxDeg * π / 180))) hdt
      (fun q u => by
        obtain ⟨γ, e0, hl, h⟩ := train_exists T hdt q.1 q.2 (u.1 * T.vMax) (u.2 * (T.deltaMaxDeg * π / 180))
        exact ⟨fun t => ⟨γ t, hl t⟩, Subtype.ext e0, h⟩)
      (fun γ a b c u h => ⟨drives_shift h.car, fun t ht => by
        have hm : t - c ∈ Icc a b := by constructor <;> linarith [ht.1, ht.2]
        obtain ⟨S, W, h1, h2⟩ := h.trailers (t - c) hm
        refine ⟨S, W, h1, fun i hi => ?_⟩
        have hmt : MapsTo (fun t => t - c) (Icc (a + c) (b + c)) (Icc a b) := by
          intro r hr
          constructor <;> linarith [hr.1, hr.2]
        exact ((h2 i hi).comp t ((hasDerivWithinAt_id t (Icc (a + c) (b + c))).sub_const c) hmt).congr_deriv
          (by ring)⟩)
      (fun γ γ' a b u h _ hD => ⟨drives_congr (fun t ht => by simp only [h t ht]) (fun t ht => by simp only [h t ht])
        (fun t ht => by simp only [h t ht]) hD.car, fun t ht => by
          obtain ⟨S, W, h1, h2⟩ := hD.trailers t ht
          refine ⟨S, W, by rw [h t ht]; exact h1, fun i hi => ?_⟩
          exact (h2 i hi).congr (fun r hr => by simp only [h r hr]) (by simp only [h t ht])⟩)
      (xs.map St.applied) ⟨s.q, hw s rfl⟩
    refine ⟨fun t => (γ t).1, ?_, ?_⟩
    · intro a ha
      simp only [List.getElem?_cons_zero, Option.some.injEq] at ha
      simp only [g0, ha]
    · intro k b hb
      rw [List.getElem?_cons_succ] at hb
      exact gd k b.applied (by rw [List.getElem?_map, hb]; rfl)

/-! ## The hypotheses can be met -/

/-- The default train 20 m before the origin, a pole of radius 1 registered with 8 m padding. -/
noncomputable def contTrain : NTrailer :=
  { toParams := Params.default [⟨20, 0, 1 + 8⟩] [], N := 2, lengths := [2.9, 2.9], fronts := [1.42, 1.42],
    rears := [1.848, 3.225], x0 := ⟨-20, 0, 0, [0, 0]⟩, xg := ⟨9, 0, 0, [0, 0]⟩ }

theorem contTrain_rates : (unitRates contTrain 0).2 ≤ 1.61 ∧ 0 ≤ (unitRates contTrain 0).2 ∧
    (unitRates contTrain 1).1 ≤ 3.6 ∧ 0 ≤ (unitRates contTrain 1).1 ∧
    (unitRates contTrain 1).2 ≤ 1.25 ∧ 0 ≤ (unitRates contTrain 1).2 ∧
    (unitRates contTrain 2).1 ≤ 4 ∧ 0 ≤ (unitRates contTrain 2).1 ∧
    (unitRates contTrain 2).2 ≤ 1.4 ∧ 0 ≤ (unitRates contTrain 2).2 := by
  have h3 : √3 ≤ 1.7321 := by
    rw [sqrt_le_left (by norm_num)]; norm_num
  have ht := tan_55_le.trans h3
  have ht0 : 0 ≤ tan (55 * π / 180) := by
    have hp := pi_pos
    exact tan_nonneg_of_nonneg_of_le_pi_div_two (by positivity) (by linarith)
  have u00 : (unitRates contTrain 0).1 = 3 := by simp [unitRates, contTrain, Params.default]
  have u01 : (unitRates contTrain 0).2 ≤ 1.61 ∧ 0 ≤ (unitRates contTrain 0).2 := by
    simp only [unitRates, contTrain, Params.default]
    constructor
    · nlinarith
    · positivity
  have u10 : (unitRates contTrain 1).1 ≤ 3.6 ∧ 0 ≤ (unitRates contTrain 1).1 := by
    refine ⟨?_, by simp only [unitRates]; exact sqrt_nonneg _⟩
    rw [unitRates, u00, sqrt_le_left (by norm_num)]
    obtain ⟨a, b⟩ := u01
    generalize (unitRates contTrain 0).2 = w at *
    norm_num [contTrain, Params.default]
    nlinarith
  have u11 : (unitRates contTrain 1).2 ≤ 1.25 ∧ 0 ≤ (unitRates contTrain 1).2 := by
    have e : (unitRates contTrain 1).2 = (unitRates contTrain 1).1 / 2.9 := by
      simp [unitRates, contTrain]
    rw [e]
    exact ⟨by rw [div_le_iff₀ (by norm_num)]; linarith [u10.1], div_nonneg u10.2 (by norm_num)⟩
  have u20 : (unitRates contTrain 2).1 ≤ 4 ∧ 0 ≤ (unitRates contTrain 2).1 := by
    refine ⟨?_, by simp only [unitRates]; exact sqrt_nonneg _⟩
    rw [unitRates, sqrt_le_left (by norm_num)]
    obtain ⟨a, b⟩ := u10
    obtain ⟨c, d⟩ := u11
    generalize (unitRates contTrain 1).2 = w at *
    generalize (unitRates contTrain 1).1 = z at *
    norm_num [contTrain, Params.default]
    nlinarith
  have u21 : (unitRates contTrain 2).2 ≤ 1.4 ∧ 0 ≤ (unitRates contTrain 2).2 := by
    have e : (unitRates contTrain 2).2 = (unitRates contTrain 2).1 / 2.9 := by
      simp [unitRates, contTrain]
    rw [e]
    exact ⟨by rw [div_le_iff₀ (by norm_num)]; linarith [u20.1], div_nonneg u20.2 (by norm_num)⟩
  exact ⟨u01.1, u01.2, u10.1, u10.2, u11.1, u11.2, u20.1, u20.2, u21.1, u21.2⟩

theorem contTrain_change {d : ℕ → ℝ} {a b c : ℝ} (h0 : 0 ≤ d 0) (h1 : 0 ≤ d 1) (h2 : 0 ≤ d 2) (ha : d 0 ≤ a)
    (hb : d 1 ≤ b) (hc : d 2 ≤ c) : (rateChange contTrain d 1).2 ≤ 1.2414 * (a + b) ∧
    (rateChange contTrain d 2).2 ≤ 1.734 * (a + b) + 1.3794 * (b + c) := by
  obtain ⟨-, -, r3, r4, -, -, r7, r8, -, -⟩ := contTrain_rates
  have lh : contTrain.lh = 1.15 := rfl
  have L0 : contTrain.lengths.getD 0 0 = 2.9 := rfl
  have L1 : contTrain.lengths.getD 1 0 = 2.9 := rfl
  have z1 : (unitRates contTrain 1).1 * (d 0 + d 1) ≤ 3.6 * (a + b) :=
    mul_le_mul r3 (by linarith) (by linarith) (by norm_num)
  have z2 : (unitRates contTrain 2).1 * (d 1 + d 2) ≤ 4 * (b + c) :=
    mul_le_mul r7 (by linarith) (by linarith) (by norm_num)
  have f1 : (rateChange contTrain d 1).1 ≤ 3.6 * (a + b) := by simpa [rateChange] using z1
  have f2 : (rateChange contTrain d 1).2 ≤ 1.2414 * (a + b) := by
    have : (rateChange contTrain d 1).2 = (unitRates contTrain 1).1 * (d 0 + d 1) / 2.9 := by
      rw [rateChange, L0]; simp [rateChange]
    rw [this, div_le_iff₀ (by norm_num)]
    linarith
  refine ⟨f2, ?_⟩
  have : (rateChange contTrain d 2).2 = ((rateChange contTrain d 1).1 + 1.15 * (rateChange contTrain d 1).2
      + (unitRates contTrain 2).1 * (d 1 + d 2)) / 2.9 := by
    rw [rateChange, lh, L1]
  rw [this, div_le_iff₀ (by norm_num)]
  linarith

theorem contTrain_drift : headingDrift contTrain 2 1 ≤ 0.17 ∧ headingDrift contTrain 2 2 ≤ 0.45 := by
  have hl : ∀ i < contTrain.N, 0 < contTrain.lengths.getD i 0 := by
    intro i hi
    have : i = 0 ∨ i = 1 := by simp only [contTrain] at hi; omega
    rcases this with rfl | rfl <;> norm_num [contTrain]
  have n1 := headingDrift_nonneg (default_driveOK [⟨20, 0, 1 + 8⟩] [] : DriveOK contTrain.toParams) hl
  obtain ⟨r1, r2, r3, r4, r5, r6, r7, r8, r9, r10⟩ := contTrain_rates
  obtain ⟨m1, m2⟩ := contTrain_change (d := fun j => (unitRates contTrain j).2) r2 r6 r10 r1 r5 r9
  have hdt : contTrain.dt = 0.2 := rfl
  have z : ∀ n, headingDrift contTrain n 0 = 0 := by
    intro n
    induction n with
    | zero => rfl
    | succ n ih => simp [headingDrift, ih, rateChange]
  have c0 := contTrain_change (d := headingDrift contTrain 0) le_rfl le_rfl le_rfl le_rfl le_rfl le_rfl
  have e1 : headingDrift contTrain 1 1 ≤ 0.0711 := by
    rw [headingDrift, hdt]
    have z0 : headingDrift contTrain 0 1 = 0 := rfl
    have z1 : headingDrift contTrain 0 0 = 0 := rfl
    rw [z0, z1] at c0
    rw [z0]
    linarith [c0.1]
  have e2 : headingDrift contTrain 1 2 ≤ 0.1725 := by
    rw [headingDrift, hdt]
    have z0 : headingDrift contTrain 0 1 = 0 := rfl
    have z1 : headingDrift contTrain 0 0 = 0 := rfl
    have z2 : headingDrift contTrain 0 2 = 0 := rfl
    rw [z0, z1, z2] at c0
    rw [z2]
    linarith [c0.2]
  obtain ⟨k1, k2⟩ := contTrain_change (d := headingDrift contTrain 1) (z 1).ge (n1 1 1 (by decide)) (n1 1 2 (by decide))
    (z 1).le e1 e2
  constructor
  · rw [headingDrift, hdt]
    linarith
  · rw [headingDrift, hdt]
    linarith

theorem contTrain_padding : ∀ i < contTrain.N, trailerSweepN contTrain i / 2 + trailerDriftN contTrain 2 i ≤ 8 := by
  obtain ⟨r1, r2, r3, r4, r5, r6, r7, r8, r9, r10⟩ := contTrain_rates
  obtain ⟨d1, d2⟩ := contTrain_drift
  have lh : contTrain.lh = 1.15 := rfl
  have L0 : contTrain.lengths.getD 0 0 = 2.9 := rfl
  have L1 : contTrain.lengths.getD 1 0 = 2.9 := rfl
  have R0 : contTrain.rears.getD 0 0 = 1.848 := rfl
  have R1 : contTrain.rears.getD 1 0 = 3.225 := rfl
  have F0 : contTrain.fronts.getD 0 0 = 1.42 := rfl
  have F1 : contTrain.fronts.getD 1 0 = 1.42 := rfl
  have W : contTrain.trailerWidth = 2.5 := rfl
  have hdt : contTrain.dt = 0.2 := rfl
  have hv : contTrain.vMax = 3 := rfl
  have m0 : max (1.848 : ℝ) 1.42 = 1.848 := max_eq_left (by norm_num)
  have m1 : max (3.225 : ℝ) 1.42 = 3.225 := max_eq_left (by norm_num)
  have dr : drift contTrain.toParams 2 ≤ 0.2 := (default_drift _ _).1
  have t0 : hitchTravel contTrain 0 ≤ 0.98 := by
    rw [hitchTravel, hdt, hv, lh]; linarith
  have t1 : hitchTravel contTrain 1 ≤ 2.46 := by
    rw [hitchTravel, hdt, lh, L0, R0]
    simp only [zero_add]
    linarith
  have g0 : hitchDrift contTrain 2 0 ≤ 0.2 := dr
  have g1 : hitchDrift contTrain 2 1 ≤ 1.21 := by
    rw [hitchDrift, lh, L0, R0]
    simp only [zero_add]
    linarith
  intro i hi
  have : i = 0 ∨ i = 1 := by simp only [contTrain] at hi; omega
  rcases this with rfl | rfl
  · unfold trailerSweepN trailerDriftN
    rw [L0, R0, F0, W, hdt, m0]
    simp only [zero_add]
    linarith
  · unfold trailerSweepN trailerDriftN
    rw [L1, R1, F1, W, hdt, m1]
    simp only [Nat.reduceAdd]
    linarith

theorem cont_far (a rear front width : ℝ) (h : a + front < 8) :
    Spec.Apart (Spec.body (a, 0) 0 rear front width) (Spec.circleRegion ⟨20, 0, 1 + 8⟩) := by
  rintro p ⟨s, t, h1, h2, h3, rfl⟩ hd
  have hd' : (a + s - 20) ^ 2 + t ^ 2 ≤ (1 + 8) ^ 2 := by
    simpa [Spec.circleRegion, Spec.disc, Spec.frame] using hd
  nlinarith [sq_nonneg t]

theorem contTrain_safe : Spec.SafeN contTrain contTrain.reset.q := by
  refine ⟨?_, by simp [contTrain, Params.default]⟩
  intro c hc
  simp only [contTrain, Params.default, List.mem_singleton] at hc
  subst hc
  constructor
  · exact cont_far _ _ _ _ (by norm_num [contTrain, NTrailer.reset, Params.default])
  · intro i hi
    have : i = 0 ∨ i = 1 := by simp only [contTrain] at hi; omega
    rcases this with rfl | rfl
    · unfold Spec.trailerBodyN
      have : Spec.axleN contTrain contTrain.reset.q 0 = (-24.05, 0) := by
        simp [Spec.axleN, Spec.hitchN, Spec.frame, contTrain, NTrailer.reset, Params.default]; norm_num
      rw [this]
      have h0 : contTrain.reset.q.ths.getD 0 0 = 0 := rfl
      rw [h0]
      exact cont_far _ _ _ _ (by norm_num [contTrain])
    · unfold Spec.trailerBodyN
      have : Spec.axleN contTrain contTrain.reset.q 1 = (-29.948, 0) := by
        simp [Spec.axleN, Spec.hitchN, Spec.frame, contTrain, NTrailer.reset, Params.default]; norm_num
      rw [this]
      have h0 : contTrain.reset.q.ths.getD 1 0 = 0 := rfl
      rw [h0]
      exact cont_far _ _ _ _ (by norm_num [contTrain])

theorem contTrain_two : ∀ i < contTrain.N, i = 0 ∨ i = 1 := by
  intro i hi; simp only [contTrain] at hi; omega

theorem contTrain_lengths : ∀ i < contTrain.N, 0 < contTrain.lengths.getD i 0 := by
  intro i hi
  rcases contTrain_two i hi with rfl | rfl <;> norm_num [contTrain]

theorem contTrain_ok : Spec.TrailersOK contTrain := by
  refine ⟨rfl, rfl, rfl, ?_⟩
  intro i hi
  rcases contTrain_two i hi with rfl | rfl <;> norm_num [contTrain]

example (guide : QN → QN) (us : List U) : ∃ tr γ, scanStatesE (contTrain.step guide) contTrain.reset us = .ok tr ∧
    tr.length = us.length ∧ ContinuousN contTrain γ (contTrain.reset :: tr) ∧
    ∀ (k : ℕ) (a b : St QN), (contTrain.reset :: tr)[k]? = some a → (contTrain.reset :: tr)[k + 1]? = some b →
      ∀ i < 2, |(γ ((k + 1 / 2) * 0.2)).ths.getD i 0 - (betweenN (1 / 2) a.q b.q).ths.getD i 0|
        ≤ headingDrift contTrain (k + 1) (i + 1) := by
  obtain ⟨tr, h, hl⟩ := ntrailer_rollout_ok contTrain guide rfl us contTrain.reset rfl
  obtain ⟨γ, hγ⟩ := C75_exists_ntrailer contTrain (by norm_num [contTrain, Params.default]) (contTrain.reset :: tr)
    (by intro a ha; simp only [List.getElem?_cons_zero, Option.some.injEq] at ha; rw [← ha]; rfl)
  refine ⟨tr, γ, h, hl, hγ, fun k a b ha hb => ?_⟩
  exact (C75_ntrailer contTrain guide (default_driveOK _ _) contTrain_ok contTrain_lengths contTrain.reset rfl us tr h γ
    hγ k a b ha hb (1 / 2) (by norm_num) (by norm_num)).2.2

/-- Any two actions of the default train. -/
example (guide : QN → QN) (u w : U) : ∃ tr γ, scanStatesE (contTrain.step guide) contTrain.reset [u, w] = .ok tr ∧
    ContinuousN contTrain γ (contTrain.reset :: tr) ∧
    ∀ t, 0 ≤ t → t ≤ 2 * 0.2 → Spec.SafeN { contTrain with circles := [⟨20, 0, 1⟩], rects := [] } (γ t) := by
  obtain ⟨tr, h, hl⟩ := ntrailer_rollout_ok contTrain guide rfl [u, w] contTrain.reset rfl
  obtain ⟨γ, hγ⟩ := C75_exists_ntrailer contTrain (by norm_num [contTrain, Params.default]) (contTrain.reset :: tr)
    (by intro a ha; simp only [List.getElem?_cons_zero, Option.some.injEq] at ha; rw [← ha]; rfl)
  refine ⟨tr, γ, h, hγ, fun t t0 t1 => ?_⟩
  refine C75_safe_ntrailer contTrain guide rfl rfl (margin_sides _ (by norm_num)) (default_driveOK _ _)
    (by norm_num [contTrain, Params.default]) contTrain_ok contTrain_lengths ?_ (pole_padded 8 _ rfl)
    (by intro c hc; simp only [List.mem_singleton] at hc; subst hc; norm_num)
    (by norm_num [contTrain, Params.default]) contTrain.reset contTrain_safe rfl [u, w] ?_ contTrain_padding tr h γ hγ t
    t0 (by simpa [contTrain, Params.default] using t1)
  · intro i hi
    rcases contTrain_two i hi with rfl | rfl <;> norm_num [contTrain]
  · have h1 : Spec.tractorShift contTrain.toParams 0 ≤ 3 := (default_travel _ _).1
    have h2 : drift contTrain.toParams [u, w].length ≤ 0.2 := (default_drift _ _).1
    linarith

end Mbd
