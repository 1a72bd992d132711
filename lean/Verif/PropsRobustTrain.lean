import Verif.PropsContinuousTrain
import Verif.PropsRobust

/-!
# C81 for trains: how far an inaccurate execution of a plan for a train strays
-/

namespace Spec

open Real Mbd Set

/-- Continuous motion of a train that is told to drive with the applied controls of a recorded motion `xs`, from a start
near the first recorded state: at every moment the tractor's actual speed and steering angle, which may fluctuate, are
within the budget of those of the current step. -/
structure RoughN (T : NTrailer) (B : Budget) (γ : ℝ → QN) (xs : List (St QN)) : Prop where
  start : ∀ a, xs[0]? = some a → Spec.dist ((γ 0).px, (γ 0).py) (a.q.px, a.q.py) ≤ B.pos ∧
    |(γ 0).th0 - a.q.th0| ≤ B.head ∧ ∀ i < T.N, |(γ 0).ths.getD i 0 - a.q.ths.getD i 0| ≤ B.trail
  drive : ∀ (k : ℕ) b, xs[k + 1]? = some b → ∀ t ∈ Icc (k * T.dt) ((k + 1) * T.dt), ∃ v δ : ℝ,
    |v - b.applied.1 * T.vMax| ≤ B.speed ∧ |δ - b.applied.2 * (T.deltaMaxDeg * π / 180)| ≤ B.steer ∧
    HasDerivWithinAt (fun t => (γ t).px) (v * cos (γ t).th0) (Icc (k * T.dt) ((k + 1) * T.dt)) t ∧
    HasDerivWithinAt (fun t => (γ t).py) (v * sin (γ t).th0) (Icc (k * T.dt) ((k + 1) * T.dt)) t ∧
    HasDerivWithinAt (fun t => (γ t).th0) (v / T.l1 * tan δ) (Icc (k * T.dt) ((k + 1) * T.dt)) t ∧
    ∃ s w, UnitMotion T (headingN (γ t)) v δ s w ∧ ∀ i < T.N,
      HasDerivWithinAt (fun t => (γ t).ths.getD i 0) (w (i + 1)) (Icc (k * T.dt) ((k + 1) * T.dt)) t

/-- Errors of the speed, the turning rate and the heading of a unit. -/
structure UnitErr where
  speed : ℝ
  turn : ℝ
  head : ℝ

/-- What the errors of a unit and the sensitivity `r` make of the speed at its hitch. -/
def UnitErr.pull (T : NTrailer) (e : UnitErr) (r : ℝ) : ℝ := e.speed + T.lh * e.turn + r * e.head

/-- Errors of unit `i` at time `t`. -/
noncomputable def Budget.unitErr (T : NTrailer) (B : Budget) (t : ℝ) : ℕ → UnitErr
  | 0 => ⟨B.speed, B.turn T.toParams, B.headErr T.toParams t⟩
  | i + 1 =>
    let r := (unitRates T (i + 1)).1
    let a := (Budget.unitErr T B t i).pull T r
    let h := (B.trail + a / T.lengths.getD i 0 * t) * exp (r / T.lengths.getD i 0 * t)
    ⟨a + r * h, (a + r * h) / T.lengths.getD i 0, h⟩

/-- Largest deviation of the hitch in front of trailer `i` if the tractor's position deviates by `e`, its heading by
`f 0`, and the headings of the trailers by `f 1, f 2, …`. -/
noncomputable def hitchErr (T : NTrailer) (e : ℝ) (f : ℕ → ℝ) : ℕ → ℝ
  | 0 => e + T.lh * f 0
  | i + 1 => hitchErr T e f i + (T.lengths.getD i 0 + (T.rears.getD i 0 + T.lh)) * f (i + 1)

/-- Largest deviation of a point of trailer `i` in that case. -/
noncomputable def trailerErr (T : NTrailer) (e : ℝ) (f : ℕ → ℝ) (i : ℕ) : ℝ :=
  hitchErr T e f i
    + (T.lengths.getD i 0 + (max (T.rears.getD i 0) (T.fronts.getD i 0) + T.trailerWidth / 2)) * f (i + 1)

end Spec

namespace Mbd

open Real Classical Set _root_.Spec

/-- Speed and turning rate of a trailer behind two units that move almost alike. -/
theorem follow_close {lh L s w s' w' φ φ' a b R d : ℝ} (hlh : 0 ≤ lh) (hL : 0 < L) (hs : |s - s'| ≤ a)
    (hw : |w - w'| ≤ b) (hR : √(s ^ 2 + (lh * w) ^ 2) ≤ R) (hd : |φ - φ'| ≤ d) :
    |(s * cos φ + lh * w * sin φ) - (s' * cos φ' + lh * w' * sin φ')| ≤ a + lh * b + R * d ∧
    |(s * sin φ - lh * w * cos φ) / L - (s' * sin φ' - lh * w' * cos φ') / L| ≤ (a + lh * b + R * d) / L := by
  obtain ⟨c1, c2⟩ := combo_lipschitz s (lh * w) φ φ'
  have cb : √(s ^ 2 + (lh * w) ^ 2) * |φ - φ'| ≤ R * d := mul_le_mul hR hd (abs_nonneg _) (sqrt_nonneg _ |>.trans hR)
  have small : ∀ x y : ℝ, |x| ≤ 1 → |y| ≤ 1 → |(s - s') * x + lh * (w - w') * y| ≤ a + lh * b := by
    intro x y hx hy
    refine (abs_add_le _ _).trans (add_le_add ?_ ?_)
    · rw [abs_mul]
      exact (mul_le_of_le_one_right (abs_nonneg _) hx).trans hs
    · rw [abs_mul, abs_mul, abs_of_nonneg hlh]
      exact (mul_le_of_le_one_right (mul_nonneg hlh (abs_nonneg _)) hy).trans (mul_le_mul_of_nonneg_left hw hlh)
  constructor
  · have e : s * cos φ + lh * w * sin φ - (s' * cos φ' + lh * w' * sin φ')
        = ((s - s') * cos φ' + lh * (w - w') * sin φ')
          + ((s * cos φ + lh * w * sin φ) - (s * cos φ' + lh * w * sin φ')) := by ring
    rw [e]
    exact (abs_add_le _ _).trans (add_le_add (small _ _ (abs_cos_le_one _) (abs_sin_le_one _)) (c1.trans cb))
  · rw [← sub_div, abs_div, abs_of_pos hL]
    refine div_le_div_of_nonneg_right ?_ hL.le
    have e : s * sin φ - lh * w * cos φ - (s' * sin φ' - lh * w' * cos φ')
        = ((s - s') * sin φ' + lh * (w - w') * (-cos φ'))
          + ((s * sin φ - lh * w * cos φ) - (s * sin φ' - lh * w * cos φ')) := by ring
    rw [e]
    exact (abs_add_le _ _).trans (add_le_add (small _ _ (abs_sin_le_one _)
      (by rw [abs_neg]; exact abs_cos_le_one _)) (c2.trans cb))

/-- The errors are not negative, and grow with time. -/
theorem unitErr_mono {T : NTrailer} (hd : DriveOK T.toParams) (hl : ∀ i < T.N, 0 < T.lengths.getD i 0) {B : Budget}
    (hB : B.OK T.toParams) {s t : ℝ} (h0 : 0 ≤ s) (hst : s ≤ t) : ∀ i ≤ T.N,
    0 ≤ (B.unitErr T s i).speed ∧ 0 ≤ (B.unitErr T s i).turn ∧ 0 ≤ (B.unitErr T s i).head ∧
    (B.unitErr T s i).speed ≤ (B.unitErr T t i).speed ∧ (B.unitErr T s i).turn ≤ (B.unitErr T t i).turn ∧
    (B.unitErr T s i).head ≤ (B.unitErr T t i).head
  | 0, _ => ⟨hB.speed, turn_nonneg hd hB, headErr_nonneg hd hB h0, le_rfl, le_rfl, headErr_mono hd hB hst⟩
  | i + 1, hi => by
    obtain ⟨i1, i2, i3, i4, i5, i6⟩ := unitErr_mono hd hl hB h0 hst i (by omega)
    have hL := hl i (by omega)
    have hr := (unitRates_nonneg hd hl (i + 1) hi).1
    simp only [Budget.unitErr]
    generalize (unitRates T (i + 1)).1 = r at *
    generalize T.lengths.getD i 0 = L at *
    have a0 : 0 ≤ (B.unitErr T s i).pull T r := by
      unfold UnitErr.pull
      have := hd.lh
      positivity
    have a1 : (B.unitErr T s i).pull T r ≤ (B.unitErr T t i).pull T r := by
      unfold UnitErr.pull
      have := mul_le_mul_of_nonneg_left i5 hd.lh
      have := mul_le_mul_of_nonneg_left i6 hr
      linarith
    generalize (B.unitErr T s i).pull T r = a at *
    generalize (B.unitErr T t i).pull T r = b at *
    have ht := h0.trans hst
    have hb := a0.trans a1
    have tr := hB.trail
    have hK : 0 ≤ r / L := div_nonneg hr hL.le
    have hE0 : 0 ≤ (B.trail + a / L * s) * exp (r / L * s) := by
      have := exp_pos (r / L * s)
      positivity
    have hE : (B.trail + a / L * s) * exp (r / L * s) ≤ (B.trail + b / L * t) * exp (r / L * t) := by
      refine mul_le_mul ?_ (exp_le_exp.mpr (mul_le_mul_of_nonneg_left hst hK)) (exp_pos _).le (by positivity)
      have : a / L * s ≤ b / L * t := mul_le_mul (div_le_div_of_nonneg_right a1 hL.le) hst h0 (by positivity)
      linarith
    generalize (B.trail + a / L * s) * exp (r / L * s) = e at *
    generalize (B.trail + b / L * t) * exp (r / L * t) = f at *
    have hm := mul_le_mul_of_nonneg_left hE hr
    have h5 : 0 ≤ a + r * e := by positivity
    exact ⟨h5, div_nonneg h5 hL.le, hE0, by linarith, div_le_div_of_nonneg_right (by linarith) hL.le, hE⟩

/-- Two executions of the same controls by a train, the ideal one (`γ0`) and a rough one (`γ`). -/
theorem rough_train {T : NTrailer} (hd : DriveOK T.toParams) (hl : ∀ i < T.N, 0 < T.lengths.getD i 0) {B : Budget}
    (hB : B.OK T.toParams) {γ γ0 : ℝ → QN} {N : ℕ} (hN : 0 < N) {u : ℕ → U} (hu : ∀ k < N, Spec.InBox (u k))
    (hr : ∀ k < N, ∀ t ∈ Icc (k * T.dt) ((k + 1) * T.dt), ∃ v δ : ℝ,
      |v - (u k).1 * T.vMax| ≤ B.speed ∧ |δ - (u k).2 * (T.deltaMaxDeg * π / 180)| ≤ B.steer ∧
      ∃ s w, UnitMotion T (headingN (γ t)) v δ s w ∧ ∀ i < T.N,
        HasDerivWithinAt (fun t => (γ t).ths.getD i 0) (w (i + 1)) (Icc (k * T.dt) ((k + 1) * T.dt)) t)
    (hc : ∀ k < N, DrivesTrain T γ0 (k * T.dt) ((k + 1) * T.dt) ((u k).1 * T.vMax)
      ((u k).2 * (T.deltaMaxDeg * π / 180)))
    (hth : ∀ s, 0 ≤ s → s ≤ N * T.dt → |(γ s).th0 - (γ0 s).th0| ≤ B.headErr T.toParams s)
    (s3 : ∀ i < T.N, |(γ 0).ths.getD i 0 - (γ0 0).ths.getD i 0| ≤ B.trail) :
    ∀ i ≤ T.N, ∀ t, 0 ≤ t → t ≤ N * T.dt → |headingN (γ t) i - headingN (γ0 t) i| ≤ (B.unitErr T t i).head := by
  have base : ∀ k < N, ∀ v δ, |v - (u k).1 * T.vMax| ≤ B.speed →
      |δ - (u k).2 * (T.deltaMaxDeg * π / 180)| ≤ B.steer →
      |(u k).1 * T.vMax / T.l1 * tan ((u k).2 * (T.deltaMaxDeg * π / 180)) - v / T.l1 * tan δ| ≤ B.turn T.toParams := by
    intro k hk v δ hv hδ
    obtain ⟨f1, f2⟩ := steer_facts hd hB (hu k hk) hδ
    have hw : |(u k).1 * T.vMax| ≤ T.vMax := by
      rw [abs_mul, abs_of_nonneg hd.v]
      exact mul_le_of_le_one_left hd.v (hu k hk).1
    set w := (u k).1 * T.vMax
    set τ := tan ((u k).2 * (T.deltaMaxDeg * π / 180))
    have e : v / T.l1 * tan δ - w / T.l1 * τ = ((v - w) * tan δ + w * (tan δ - τ)) / T.l1 := by ring
    rw [abs_sub_comm, e, abs_div, abs_of_pos hd.l1]
    refine div_le_div_of_nonneg_right ((abs_add_le _ _).trans ?_) hd.l1.le
    rw [abs_mul, abs_mul]
    exact add_le_add (mul_le_mul hv f1 (abs_nonneg _) hB.speed) (mul_le_mul hw f2 (abs_nonneg _) hd.v)
  -- heading and rates, unit by unit
  suffices H : ∀ i ≤ T.N, (∀ t, 0 ≤ t → t ≤ N * T.dt → |headingN (γ t) i - headingN (γ0 t) i| ≤ (B.unitErr T t i).head) ∧
      ∀ k < N, ∀ t ∈ Icc (k * T.dt) ((k + 1) * T.dt), ∀ v δ s w s' w',
        |v - (u k).1 * T.vMax| ≤ B.speed → |δ - (u k).2 * (T.deltaMaxDeg * π / 180)| ≤ B.steer →
        UnitMotion T (headingN (γ t)) v δ s' w' →
        UnitMotion T (headingN (γ0 t)) ((u k).1 * T.vMax) ((u k).2 * (T.deltaMaxDeg * π / 180)) s w →
        |s i - s' i| ≤ (B.unitErr T t i).speed ∧ |w i - w' i| ≤ (B.unitErr T t i).turn from fun i hi => (H i hi).1
  have inT : ∀ k < N, ∀ t ∈ Icc ((k : ℝ) * T.dt) ((k + 1) * T.dt), 0 ≤ t ∧ t ≤ N * T.dt := by
    intro k hk t ht
    refine ⟨(mul_nonneg (by positivity) hd.dt).trans ht.1, ht.2.trans (mul_le_mul_of_nonneg_right ?_ hd.dt)⟩
    exact_mod_cast hk
  intro i
  induction i with
  | zero =>
    intro _
    refine ⟨fun t t0 t1 => hth t t0 t1, ?_⟩
    intro k hk t ht v δ s w s' w' hv hδ m' m
    rw [m.1, m'.1, m.2.1, m'.2.1, abs_sub_comm]
    exact ⟨hv, base k hk v δ hv hδ⟩
  | succ i ih =>
    intro hi
    obtain ⟨ih1, ih2⟩ := ih (by omega)
    have hL := hl i (by omega)
    -- rates in terms of the deviation of this unit's heading
    have rate : ∀ k < N, ∀ t ∈ Icc (k * T.dt) ((k + 1) * T.dt), ∀ v δ s w s' w',
        |v - (u k).1 * T.vMax| ≤ B.speed → |δ - (u k).2 * (T.deltaMaxDeg * π / 180)| ≤ B.steer →
        UnitMotion T (headingN (γ t)) v δ s' w' →
        UnitMotion T (headingN (γ0 t)) ((u k).1 * T.vMax) ((u k).2 * (T.deltaMaxDeg * π / 180)) s w →
        |s (i + 1) - s' (i + 1)| ≤ (B.unitErr T t i).pull T (unitRates T (i + 1)).1
          + (unitRates T (i + 1)).1 * |headingN (γ t) (i + 1) - headingN (γ0 t) (i + 1)| ∧
        |w (i + 1) - w' (i + 1)| ≤ ((B.unitErr T t i).pull T (unitRates T (i + 1)).1
          + (unitRates T (i + 1)).1 * |headingN (γ t) (i + 1) - headingN (γ0 t) (i + 1)|) / T.lengths.getD i 0 := by
      intro k hk t ht v δ s w s' w' hv hδ m' m
      obtain ⟨b1, b2⟩ := ih2 k hk t ht v δ s w s' w' hv hδ m' m
      obtain ⟨t0, t1⟩ := inT k hk t ht
      have hh := ih1 t t0 t1
      obtain ⟨r1, r2⟩ := unit_rates hd hl (hu k hk) m.1 m.2.1 m.2.2 i (by omega)
      have hρ : √(s i ^ 2 + (T.lh * w i) ^ 2) ≤ (unitRates T (i + 1)).1 := by
        simp only [unitRates]
        apply sqrt_le_sqrt
        have q1 : (s i) ^ 2 ≤ (unitRates T i).1 ^ 2 := by
          rw [← sq_abs]; exact pow_le_pow_left₀ (abs_nonneg _) r1 2
        have q2 : (T.lh * w i) ^ 2 ≤ (T.lh * (unitRates T i).2) ^ 2 := by
          rw [mul_pow, mul_pow, ← sq_abs (w i)]
          exact mul_le_mul_of_nonneg_left (pow_le_pow_left₀ (abs_nonneg _) r2 2) (sq_nonneg _)
        exact add_le_add q1 q2
      obtain ⟨e1, e2⟩ := m.2.2 i (by omega)
      obtain ⟨f1, f2⟩ := m'.2.2 i (by omega)
      have hφ : |(headingN (γ0 t) i - headingN (γ0 t) (i + 1)) - (headingN (γ t) i - headingN (γ t) (i + 1))|
          ≤ (B.unitErr T t i).head + |headingN (γ t) (i + 1) - headingN (γ0 t) (i + 1)| := by
        have e : (headingN (γ0 t) i - headingN (γ0 t) (i + 1)) - (headingN (γ t) i - headingN (γ t) (i + 1))
          = (headingN (γ t) (i + 1) - headingN (γ0 t) (i + 1)) - (headingN (γ t) i - headingN (γ0 t) i) := by ring
        rw [e]
        refine (abs_sub _ _).trans ?_
        linarith
      obtain ⟨g1, g2⟩ := follow_close hd.lh hL b1 b2 hρ hφ
      rw [e1, f1, e2, f2]
      have ee : (B.unitErr T t i).speed + T.lh * (B.unitErr T t i).turn + (unitRates T (i + 1)).1
          * ((B.unitErr T t i).head + |headingN (γ t) (i + 1) - headingN (γ0 t) (i + 1)|)
          = (B.unitErr T t i).pull T (unitRates T (i + 1)).1
          + (unitRates T (i + 1)).1 * |headingN (γ t) (i + 1) - headingN (γ0 t) (i + 1)| := by
        unfold UnitErr.pull; ring
      rw [ee] at g1 g2
      exact ⟨g1, g2⟩
    have hr0 := (unitRates_nonneg hd hl (i + 1) hi).1
    have head : ∀ t, 0 ≤ t → t ≤ N * T.dt →
        |headingN (γ t) (i + 1) - headingN (γ0 t) (i + 1)| ≤ (B.unitErr T t (i + 1)).head := by
      have g := glue_steps (f := fun t => headingN (γ t) (i + 1) - headingN (γ0 t) (i + 1))
        (Q := fun t d => |d| ≤ ((B.unitErr T t i).pull T (unitRates T (i + 1)).1
          + (unitRates T (i + 1)).1 * |headingN (γ t) (i + 1) - headingN (γ0 t) (i + 1)|) / T.lengths.getD i 0)
        hd.dt hN (by
          intro k hk t ht
          obtain ⟨v, δ, hv, hδ, s', w', m', d'⟩ := hr k hk t ht
          obtain ⟨s, w, m, d⟩ := (hc k hk).trailers t ht
          refine ⟨w' (i + 1) - w (i + 1), ?_, (d' i (by omega)).sub (d i (by omega))⟩
          rw [abs_sub_comm]
          exact (rate k hk t ht v δ s w s' w' hv hδ m' m).2)
      intro t t0 t1
      have mono := fun (r : ℝ) (h0 : 0 ≤ r) (h1 : r ≤ t) => unitErr_mono hd hl hB h0 h1 i (by omega)
      have pm : ∀ r, 0 ≤ r → r ≤ t → (B.unitErr T r i).pull T (unitRates T (i + 1)).1
          ≤ (B.unitErr T t i).pull T (unitRates T (i + 1)).1 := by
        intro r h0 h1
        obtain ⟨-, -, -, m4, m5, m6⟩ := mono r h0 h1
        unfold UnitErr.pull
        have := mul_le_mul_of_nonneg_left m5 hd.lh
        have := mul_le_mul_of_nonneg_left m6 hr0
        linarith
      have p0 : 0 ≤ (B.unitErr T t i).pull T (unitRates T (i + 1)).1 := by
        obtain ⟨m1, m2, m3, -⟩ := mono t t0 le_rfl
        unfold UnitErr.pull
        have := hd.lh
        positivity
      refine grows_exp (f := fun t => headingN (γ t) (i + 1) - headingN (γ0 t) (i + 1)) (div_nonneg hr0 hL.le)
        (div_nonneg p0 hL.le) t0 (g.1.mono (Icc_subset_Icc_right t1)) (fun r hr => ?_) (s3 i (by omega))
      obtain ⟨d, hd1, hd2⟩ := g.2 r ⟨hr.1, hr.2.trans_le t1⟩
      refine ⟨d, hd1.trans ?_, hd2⟩
      rw [div_mul_eq_mul_div, ← add_div, add_comm]
      exact div_le_div_of_nonneg_right (add_le_add le_rfl (pm r hr.1 hr.2.le)) hL.le
    refine ⟨head, ?_⟩
    intro k hk t ht v δ s w s' w' hv hδ m' m
    obtain ⟨r1, r2⟩ := rate k hk t ht v δ s w s' w' hv hδ m' m
    obtain ⟨t0, t1⟩ := inT k hk t ht
    have hh := mul_le_mul_of_nonneg_left (head t t0 t1) hr0
    exact ⟨r1.trans (add_le_add le_rfl hh), r2.trans (div_le_div_of_nonneg_right (add_le_add le_rfl hh) hL.le)⟩

/-- **C81, train**: at every moment of an inaccurate execution of the applied controls of a recorded motion of a train
the tractor's heading differs from the interpolated recorded one by at most `headErr`, the position by at most `posErr`
in addition to the drift of C75, and the heading of every trailer by at most the error of its unit in addition to the
heading drift of C75. -/
theorem C81_ntrailer (T : NTrailer) (guide : QN → QN) (hd : DriveOK T.toParams) (htr : Spec.TrailersOK T)
    (hl : ∀ i < T.N, 0 < T.lengths.getD i 0) (B : Budget) (hB : B.OK T.toParams) (s : St QN)
    (hw : s.q.ths.length = T.N) (us : List U) (tr : List (St QN)) (h : scanStatesE (T.step guide) s us = .ok tr)
    (γ : ℝ → QN) (hγ : RoughN T B γ (s :: tr)) (k : ℕ) (a b : St QN)
    (ha : (s :: tr)[k]? = some a) (hb : (s :: tr)[k + 1]? = some b) (lam : ℝ) (l0 : 0 ≤ lam) (l1 : lam ≤ 1) :
    |(γ ((k + lam) * T.dt)).th0 - (betweenN lam a.q b.q).th0| ≤ B.headErr T.toParams ((k + lam) * T.dt) ∧
    Spec.dist ((γ ((k + lam) * T.dt)).px, (γ ((k + lam) * T.dt)).py)
      ((betweenN lam a.q b.q).px, (betweenN lam a.q b.q).py)
      ≤ B.posErr T.toParams ((k + lam) * T.dt) + drift T.toParams (k + 1) ∧
    ∀ i < T.N, |(γ ((k + lam) * T.dt)).ths.getD i 0 - (betweenN lam a.q b.q).ths.getD i 0|
      ≤ (B.unitErr T ((k + lam) * T.dt) (i + 1)).head + headingDrift T (k + 1) (i + 1) := by
  obtain ⟨γ0, h0⟩ := C75_exists_ntrailer T hd.dt (s :: tr) (by
    intro a ha; simp only [List.getElem?_cons_zero, Option.some.injEq] at ha; rw [← ha]; exact hw)
  obtain ⟨i1, i2, i3⟩ := C75_ntrailer T guide hd htr hl s hw us tr h γ0 h0 k a b ha hb lam l0 l1
  have hch : List.IsChain (fun s s' : St QN => Spec.InBox s'.applied) (s :: tr) :=
    scanE_isChain _ (fun s a s' hst => C08_ntrailer T guide s s' a hst) us s tr h
  have hx0 : (s :: tr)[0]? = some s := rfl
  generalize s :: tr = xs at *
  have hk : k + 1 < xs.length := (List.getElem?_eq_some_iff.mp hb).1
  have at' : ∀ j < xs.length, xs[j]? = some (xs.getD j s) := by
    intro j hj
    rw [List.getD_eq_getElem _ _ hj, List.getElem?_eq_getElem hj]
  have z0 := h0.start s hx0
  obtain ⟨z1, z2, z3⟩ := hγ.start s hx0
  rw [← z0] at z1 z2 z3
  have key := fun (t : ℝ) (t0 : 0 ≤ t) (t1 : t ≤ ((k + 1 : ℕ) : ℝ) * T.dt) =>
    rough_car (x := fun t => (γ t).px) (y := fun t => (γ t).py) (th := fun t => (γ t).th0)
    (x0 := fun t => (γ0 t).px) (y0 := fun t => (γ0 t).py) (th0 := fun t => (γ0 t).th0) hd hB
    (N := k + 1) (by omega) (u := fun j => (xs.getD (j + 1) s).applied)
    (fun j hj => chain_at hch (at' j (by omega)) (at' (j + 1) (by omega)))
    (fun j hj t ht => by
      obtain ⟨v, δ, c1, c2, c3, c4, c5, -⟩ := hγ.drive j _ (at' (j + 1) (by omega)) t ht
      exact ⟨v, δ, c1, c2, c3, c4, c5⟩)
    (fun j hj => (h0.drive j _ (at' (j + 1) (by omega))).car) z1 z2 (t := t) t0 t1
  have t0 : 0 ≤ (k + lam) * T.dt := mul_nonneg (by positivity) hd.dt
  have t1 : (k + lam) * T.dt ≤ ((k + 1 : ℕ) : ℝ) * T.dt :=
    mul_le_mul_of_nonneg_right (by push_cast; linarith) hd.dt
  obtain ⟨r1, r2⟩ := key _ t0 t1
  have r3 := rough_train (γ := γ) (γ0 := γ0) hd hl hB
    (N := k + 1) (by omega) (u := fun j => (xs.getD (j + 1) s).applied)
    (fun j hj => chain_at hch (at' j (by omega)) (at' (j + 1) (by omega)))
    (fun j hj t ht => by
      obtain ⟨v, δ, c1, c2, -, -, -, c6⟩ := hγ.drive j _ (at' (j + 1) (by omega)) t ht
      exact ⟨v, δ, c1, c2, c6⟩)
    (fun j hj => h0.drive j _ (at' (j + 1) (by omega))) (fun r a b => (key r a b).1) z3
  refine ⟨by rw [← i1]; exact r1, (dist_tri _ _ _).trans (add_le_add r2 i2), fun i hi => ?_⟩
  have e : ∀ x y z : ℝ, |x - z| ≤ |x - y| + |y - z| := fun x y z => abs_sub_le x y z
  exact (e _ _ _).trans (add_le_add (r3 (i + 1) (by omega) _ t0 t1) (i3 i hi))

/-! ## Safety -/

/-- Hitches of two poses that are close. -/
theorem hitch_near' {T : NTrailer} (hlh : 0 ≤ T.lh) (hl : ∀ i < T.N, 0 < T.lengths.getD i 0)
    (hre : ∀ i < T.N, 0 ≤ T.rears.getD i 0) {m g : QN} {e : ℝ} {f : ℕ → ℝ} (g1 : |g.th0 - m.th0| ≤ f 0)
    (g2 : Spec.dist (g.px, g.py) (m.px, m.py) ≤ e)
    (g3 : ∀ i < T.N, |g.ths.getD i 0 - m.ths.getD i 0| ≤ f (i + 1)) :
    ∀ i ≤ T.N, Spec.dist (Spec.hitchN T m i) (Spec.hitchN T g i) ≤ hitchErr T e f i
  | 0, _ => by
    simp only [Spec.hitchN, hitchErr]
    refine (frame_shift _ _ _ _ _ _).trans ?_
    rw [abs_neg, abs_of_nonneg hlh, abs_zero, add_zero, dist_comm', abs_sub_comm]
    exact add_le_add g2 (mul_le_mul_of_nonneg_left g1 hlh)
  | i + 1, hi => by
    have ih := hitch_near' hlh hl hre g1 g2 g3 i (by omega)
    have hli := hl i (by omega)
    have hri := hre i (by omega)
    have h3 := g3 i (by omega)
    rw [abs_sub_comm] at h3
    simp only [Spec.hitchN, hitchErr]
    refine (frame_shift _ _ _ _ _ _).trans ?_
    rw [abs_neg, abs_of_nonneg (by linarith : 0 ≤ T.rears.getD i 0 + T.lh), abs_zero, add_zero]
    have f := frame_shift (Spec.hitchN T g i) (Spec.hitchN T m i) (g.ths.getD i 0) (m.ths.getD i 0)
      (-T.lengths.getD i 0) 0
    rw [abs_neg, abs_of_pos hli, abs_zero, add_zero] at f
    have k1 := mul_le_mul_of_nonneg_left h3 hli.le
    have k2 := mul_le_mul_of_nonneg_left h3 (by linarith : 0 ≤ T.rears.getD i 0 + T.lh)
    linarith

/-- A pose with margin around the bodies, or two of them, and a pose near one in between. -/
theorem train_near' {T : NTrailer} {cs : List Circle} {rs : List Rect} {p e A : ℝ} {D : ℕ → ℝ} {f : ℕ → ℝ} {x x' z g : QN}
    (hsz : Spec.SidesOK T.toParams) (hov : -T.lr ≤ T.l1 + T.lf1) (hlh : 0 ≤ T.lh)
    (hl : ∀ i < T.N, 0 < T.lengths.getD i 0) (hre : ∀ i < T.N, 0 ≤ T.rears.getD i 0)
    (tr : ∀ b ∈ Spec.tractorBody T.toParams z.px z.py z.th0,
      (∃ a ∈ Spec.tractorBody T.toParams x.px x.py x.th0, Spec.dist a b ≤ A) ∨
      ∃ a ∈ Spec.tractorBody T.toParams x'.px x'.py x'.th0, Spec.dist a b ≤ A)
    (ta : ∀ i < T.N, ∀ b ∈ Spec.trailerBodyN T z i,
      (∃ a ∈ Spec.trailerBodyN T x i, Spec.dist a b ≤ D i) ∨
      ∃ a ∈ Spec.trailerBodyN T x' i, Spec.dist a b ≤ D i)
    (h1 : A + (e + (max T.lr (T.l1 + T.lf1) + T.tractorWidth / 2) * f 0) ≤ p)
    (h2 : ∀ i < T.N, D i + trailerErr T e f i ≤ p)
    (m : MarginN p T cs rs x) (m' : MarginN p T cs rs x') (g1 : |g.th0 - z.th0| ≤ f 0)
    (g2 : Spec.dist (g.px, g.py) (z.px, z.py) ≤ e)
    (g3 : ∀ i < T.N, |g.ths.getD i 0 - z.ths.getD i 0| ≤ f (i + 1)) :
    Spec.SafeN { T with circles := cs, rects := rs } g := by
  have w1 : 0 ≤ T.tractorWidth / 2 := by linarith [hsz.tractorWid]
  have w2 : 0 ≤ T.trailerWidth / 2 := by linarith [hsz.trailerWid]
  have m1 : 0 ≤ max T.lr (T.l1 + T.lf1) := max_nonneg_of_neg_le hov
  have nr : ∀ b ∈ Spec.tractorBody T.toParams g.px g.py g.th0, ∃ b' ∈ Spec.tractorBody T.toParams z.px
      z.py z.th0, Spec.dist b' b ≤ e + (max T.lr (T.l1 + T.lf1) + T.tractorWidth / 2) * f 0 := by
    intro b hb
    obtain ⟨b', hb', hdd⟩ := body_near (c' := (z.px, z.py)) (ang' := z.th0) b hb
    refine ⟨b', hb', hdd.trans ?_⟩
    rw [dist_comm', abs_sub_comm]
    exact add_le_add g2 (mul_le_mul_of_nonneg_left g1 (add_nonneg m1 w1))
  have nt : ∀ i < T.N, ∀ b ∈ Spec.trailerBodyN T g i, ∃ b' ∈ Spec.trailerBodyN T z i,
      Spec.dist b' b ≤ trailerErr T e f i := by
    intro i hi b hb
    obtain ⟨b', hb', hdd⟩ := body_near (c' := Spec.axleN T z i) (ang' := z.ths.getD i 0) b hb
    refine ⟨b', hb', hdd.trans ?_⟩
    have hli := hl i hi
    have hn := hitch_near' hlh hl hre g1 g2 g3 i hi.le
    have h3 := g3 i hi
    rw [abs_sub_comm] at h3
    have f := frame_shift (Spec.hitchN T g i) (Spec.hitchN T z i) (g.ths.getD i 0) (z.ths.getD i 0)
      (-T.lengths.getD i 0) 0
    rw [abs_neg, abs_of_pos hli, abs_zero, add_zero] at f
    have m2 : 0 ≤ max (T.rears.getD i 0) (T.fronts.getD i 0) := (hre i hi).trans (le_max_left _ _)
    have k1 := mul_le_mul_of_nonneg_left h3 hli.le
    have k2 := mul_le_mul_of_nonneg_left h3 (add_nonneg m2 w2)
    unfold trailerErr Spec.axleN
    linarith
  have tr2 := near_between nr tr
  have ta2 := fun i hi => near_between (nt i hi) (ta i hi)
  constructor
  · intro c hc
    exact ⟨between_apart h1 (m.1 c hc).1 (m'.1 c hc).1 tr2, fun i hi => by
      rw [trailerBodyN_obstacles]
      exact between_apart (h2 i hi) ((m.1 c hc).2 i hi) ((m'.1 c hc).2 i hi) (ta2 i hi)⟩
  · intro o ho
    exact ⟨between_apart h1 (m.2 o ho).1 (m'.2 o ho).1 tr2, fun i hi => by
      rw [trailerBodyN_obstacles]
      exact between_apart (h2 i hi) ((m.2 o ho).2 i hi) ((m'.2 o ho).2 i hi) (ta2 i hi)⟩

theorem hitchErr_mono {T : NTrailer} (hlh : 0 ≤ T.lh) (hl : ∀ i < T.N, 0 < T.lengths.getD i 0)
    (hre : ∀ i < T.N, 0 ≤ T.rears.getD i 0) {e e' : ℝ} {f f' : ℕ → ℝ} (he : e ≤ e') (hf : ∀ i ≤ T.N, f i ≤ f' i) :
    ∀ i ≤ T.N, hitchErr T e f i ≤ hitchErr T e' f' i
  | 0, _ => add_le_add he (mul_le_mul_of_nonneg_left (hf 0 (by omega)) hlh)
  | i + 1, hi => add_le_add (hitchErr_mono hlh hl hre he hf i (by omega))
      (mul_le_mul_of_nonneg_left (hf (i + 1) hi) (by linarith [hl i (by omega), hre i (by omega)]))

theorem trailerErr_mono {T : NTrailer} (hsz : Spec.SidesOK T.toParams) (hlh : 0 ≤ T.lh)
    (hl : ∀ i < T.N, 0 < T.lengths.getD i 0)
    (hre : ∀ i < T.N, 0 ≤ T.rears.getD i 0) {e e' : ℝ} {f f' : ℕ → ℝ} (he : e ≤ e') (hf : ∀ i ≤ T.N, f i ≤ f' i)
    {i : ℕ} (hi : i < T.N) : trailerErr T e f i ≤ trailerErr T e' f' i := by
  have w2 : 0 ≤ T.trailerWidth / 2 := by linarith [hsz.trailerWid]
  have m2 : 0 ≤ max (T.rears.getD i 0) (T.fronts.getD i 0) := (hre i hi).trans (le_max_left _ _)
  exact add_le_add (hitchErr_mono hlh hl hre he hf i hi.le)
    (mul_le_mul_of_nonneg_left (hf (i + 1) hi) (add_nonneg (hl i hi).le (add_nonneg m2 w2)))

/-- Largest deviation of the heading of unit `i` from the recorded one in the first `n` steps. -/
noncomputable def _root_.Spec.Budget.runErr (T : NTrailer) (B : Budget) (n i : ℕ) : ℝ :=
  (B.unitErr T (n * T.dt) i).head + headingDrift T n i

/-- **C81, train with shield and padding**: if the padding covers half the width of the bodies, half a step's travel,
the drift of the whole run and the errors of the budget, every execution within the budget stays clear of the actual
obstacles at every moment. -/
theorem C81_safe_ntrailer (T : NTrailer) (guide : QN → QN) (hs : T.shieldCollision = true)
    (hg : T.enableGuidance = false) (hsz : Spec.SidesOK T.toParams) (hd : DriveOK T.toParams)
    (hov : -T.lr ≤ T.l1 + T.lf1) (htr : Spec.TrailersOK T)
    (hl : ∀ i < T.N, 0 < T.lengths.getD i 0) (hre : ∀ i < T.N, 0 ≤ T.rears.getD i 0)
    {p : ℝ} {cs : List Circle} {rs : List Rect} (hP : Padded p T.toParams cs rs) (hr : ∀ c ∈ cs, 0 ≤ c.r)
    (hwd : T.tractorWidth / 2 ≤ p ∧ T.trailerWidth / 2 ≤ p) (B : Budget) (hB : B.OK T.toParams) (s : St QN)
    (h0 : Spec.SafeN T s.q) (hw : s.q.ths.length = T.N) (us : List U)
    (h1 : Spec.tractorShift T.toParams 0 / 2 + (B.posErr T.toParams (us.length * T.dt) + drift T.toParams us.length
      + (max T.lr (T.l1 + T.lf1) + T.tractorWidth / 2) * B.runErr T us.length 0) ≤ p)
    (h2 : ∀ i < T.N, trailerSweepN T i / 2
      + trailerErr T (B.posErr T.toParams (us.length * T.dt) + drift T.toParams us.length) (B.runErr T us.length) i ≤ p)
    (tr : List (St QN)) (h : scanStatesE (T.step guide) s us = .ok tr) (γ : ℝ → QN)
    (hγ : RoughN T B γ (s :: tr)) (t : ℝ) (t0 : 0 ≤ t) (t1 : t ≤ us.length * T.dt) :
    Spec.SafeN { T with circles := cs, rects := rs } (γ t) := by
  have p0 : 0 ≤ p := by linarith [hwd.1, hsz.tractorWid]
  have hwc : ∀ c ∈ T.circles, T.tractorWidth / 2 ≤ c.r ∧ T.trailerWidth / 2 ≤ c.r := by
    intro c hc
    obtain ⟨c0, hc0, rfl⟩ := forall2_mem_left (padded_circles hP) c hc
    have := hr c0 hc0
    exact ⟨by simp only; linarith [hwd.1], by simp only; linarith [hwd.2]⟩
  have hsafe := C03_solid_ntrailer_partial T guide hs hg hsz htr hwc s
    (safeN_passes hsz htr hw h0) us tr h
  have hmar : ∀ a ∈ s :: tr, MarginN p T cs rs a.q := by
    intro a ha
    rcases List.mem_cons.mp ha with rfl | ha
    · exact C74_margin_ntrailer p0 hP hr h0
    · exact C74_margin_ntrailer p0 hP hr (hsafe a ha)
  have hlen : tr.length = us.length := scanE_len us s tr h
  have hT : 0 ≤ us.length * T.dt := mul_nonneg (by positivity) hd.dt
  have hdz : ∀ n, headingDrift T n 0 = 0 := by
    intro n
    induction n with
    | zero => rfl
    | succ n ih => simp [headingDrift, ih, rateChange]
  have m1 : 0 ≤ max T.lr (T.l1 + T.lf1) := max_nonneg_of_neg_le hov
  have w1 : 0 ≤ T.tractorWidth / 2 := by linarith [hsz.tractorWid]
  have hdr : 0 ≤ drift T.toParams us.length := by
    have := drift_mono hd (Nat.zero_le us.length)
    simpa [drift] using this
  rcases in_step hd.dt t0 t1 with rfl | ⟨k, hk, lam, l0, l1, rfl⟩
  · obtain ⟨z1, z2, z3⟩ := hγ.start s rfl
    have m := hmar s (by simp)
    have em := fun i hi => unitErr_mono hd hl hB le_rfl hT i hi
    have hf : ∀ i ≤ T.N, (B.unitErr T 0 i).head ≤ B.runErr T us.length i := fun i hi =>
      (em i hi).2.2.2.2.2.trans (le_add_of_nonneg_right (headingDrift_nonneg hd hl _ i hi))
    have hpe : B.pos ≤ B.posErr T.toParams (us.length * T.dt) + drift T.toParams us.length := by
      have := posErr_mono hd hB le_rfl hT
      have h2 : B.posErr T.toParams 0 = B.pos := by simp [Budget.posErr]
      linarith
    have z4 : |(γ 0).th0 - s.q.th0| ≤ (B.unitErr T 0 0).head := by
      simpa [Budget.unitErr, Budget.headErr] using z2
    refine train_near' (A := Spec.tractorShift T.toParams 0 / 2) (D := fun i => trailerSweepN T i / 2)
      (e := B.pos) (f := fun i => (B.unitErr T 0 i).head) (x := s.q) (x' := s.q) (z := s.q) hsz hov hd.lh hl hre
      ?_ ?_ ?_ ?_ m m z4 z1 ?_
    · intro b hb
      refine .inl ⟨b, hb, ?_⟩
      have e0 : Spec.dist b b = 0 := by simp [Spec.dist]
      rw [e0]
      have := mul_nonneg (add_nonneg m1 w1) (turnStep_nonneg hd)
      have hvd : 0 ≤ T.vMax * T.dt := mul_nonneg hd.v hd.dt
      unfold Spec.tractorShift
      simp only [mul_zero, sub_zero]
      unfold turnStep at this
      linarith
    · intro i hi b hb
      refine .inl ⟨b, hb, ?_⟩
      have e0 : Spec.dist b b = 0 := by simp [Spec.dist]
      rw [e0]
      have : ∀ j ≤ T.N, 0 ≤ hitchTravel T j := by
        intro j
        induction j with
        | zero =>
          intro _
          have := (unitRates_nonneg hd hl 0 (by omega)).2
          have := hd.dt
          have := hd.v
          have := hd.lh
          simp only [hitchTravel]; positivity
        | succ j ih =>
          intro hj
          have a1 := ih (by omega)
          have a2 := (unitRates_nonneg hd hl (j + 1) hj).2
          have a3 := hd.dt
          have a4 := hl j (by omega)
          have a5 := hre j (by omega)
          have a6 := hd.lh
          simp only [hitchTravel]; positivity
      have a1 := this i hi.le
      have a2 := (unitRates_nonneg hd hl (i + 1) hi).2
      have a3 := hd.dt
      have a4 := hl i hi
      have m2 : 0 ≤ max (T.rears.getD i 0) (T.fronts.getD i 0) := (hre i hi).trans (le_max_left _ _)
      have w2 : 0 ≤ T.trailerWidth / 2 := by linarith [hsz.trailerWid]
      unfold trailerSweepN
      have := mul_nonneg (add_nonneg a4.le (add_nonneg m2 w2)) (mul_nonneg a3 a2)
      linarith
    · have := mul_le_mul_of_nonneg_left (hf 0 (by omega)) (add_nonneg m1 w1)
      linarith
    · intro i hi
      have := trailerErr_mono hsz hd.lh hl hre hpe hf hi
      have := h2 i hi
      linarith
    · intro i hi
      have : (B.unitErr T 0 (i + 1)).head = B.trail := by simp [Budget.unitErr]
      simp only [this]
      exact z3 i hi
  · have hl1 : (s :: tr).length = us.length + 1 := by simp [hlen]
    have ha := List.getElem?_eq_getElem (l := s :: tr) (i := k) (by omega)
    have hb := List.getElem?_eq_getElem (l := s :: tr) (i := k + 1) (by omega)
    obtain ⟨g1, g2, g3⟩ := C81_ntrailer T guide hd htr hl B hB s hw us tr h γ hγ k _ _ ha hb lam l0 l1
    have hE := C09_train T guide s ⟨hw, htr.1, htr.2.1, htr.2.2.1⟩ us tr h
    have hbox : List.IsChain (fun s s' : St QN => Spec.InBox s'.applied) (s :: tr) :=
      scanE_isChain _ (fun s a s' hst => C08_ntrailer T guide s s' a hst) us s tr h
    have hwk : ((s :: tr)[k]'(by omega)).q.ths.length = T.N := by
      cases k with
      | zero => exact hw
      | succ k =>
        have hk' := List.getElem?_eq_getElem (l := s :: tr) (i := k) (by omega)
        obtain ⟨_, _, _, _, _, _, _, _, hle, _⟩ := chain_at hE hk' ha
        exact hle
    obtain ⟨t1', t2'⟩ := train_pts hd hsz hov hl hre hwk (chain_at hbox ha hb) (chain_at hE ha hb) l0 l1
    refine train_near' (e := B.posErr T.toParams (us.length * T.dt) + drift T.toParams us.length)
      (f := B.runErr T us.length) hsz hov hd.lh hl hre t1' t2' h1 h2
      (hmar _ (List.getElem_mem _)) (hmar _ (List.getElem_mem _)) ?_ ?_ ?_
    · refine g1.trans ?_
      unfold Budget.runErr
      rw [hdz, add_zero]
      exact headErr_mono hd hB t1
    · exact g2.trans (add_le_add (posErr_mono hd hB t0 t1) (drift_mono hd (by omega)))
    · intro i hi
      exact (g3 i hi).trans (add_le_add (unitErr_mono hd hl hB t0 t1 (i + 1) (by omega)).2.2.2.2.2
        (headingDrift_mono hd hl (by omega) (by omega)))

/-! ## The hypotheses can be met -/

/-- 1 cm and 0.1 degrees at the start, 1 cm/s and 0.1 degrees while driving. -/
noncomputable def fineBudget : Budget := ⟨0.01, 0.002, 0.002, 0.01, 0.002⟩

theorem fineBudget_ok (cs : List Circle) (rs : List Rect) : fineBudget.OK (Params.default cs rs) := by
  have hp := pi_gt_d2
  constructor <;> norm_num [fineBudget, Params.default]
  linarith

theorem fineBudget_err (cs : List Circle) (rs : List Rect) :
    fineBudget.turn (Params.default cs rs) ≤ 0.0129 ∧
    fineBudget.headErr (Params.default cs rs) 0.4 ≤ 0.0072 ∧ fineBudget.posErr (Params.default cs rs) 0.4 ≤ 0.024 := by
  have h3 : √3 ≤ 1.7321 := by
    rw [sqrt_le_left (by norm_num)]; norm_num
  have hp := pi_gt_d2
  have e : fineBudget.tanMax (Params.default cs rs) = tan (55 * π / 180 + 0.002) := rfl
  have t0 : 0 ≤ fineBudget.tanMax (Params.default cs rs) := by
    rw [e]
    exact tan_nonneg_of_nonneg_of_le_pi_div_two (by linarith) (by linarith)
  have t1 : fineBudget.tanMax (Params.default cs rs) ≤ 1.7321 := by
    rw [e]
    refine le_trans ?_ h3
    rw [← tan_pi_div_three]
    exact (tan_lt_tan_of_lt_of_lt_pi_div_two (by linarith) (by linarith) (by linarith)).le
  have te : fineBudget.tanErr (Params.default cs rs) ≤ 0.00801 := by
    have e : fineBudget.tanErr (Params.default cs rs) = 0.002 * (1 + fineBudget.tanMax (Params.default cs rs) ^ 2) := rfl
    rw [e]; nlinarith
  have te0 : 0 ≤ fineBudget.tanErr (Params.default cs rs) := tanErr_nonneg (fineBudget_ok cs rs)
  have hturn : fineBudget.turn (Params.default cs rs) ≤ 0.0129 := by
    have e : fineBudget.turn (Params.default cs rs) = (0.01 * fineBudget.tanMax (Params.default cs rs)
      + 3 * fineBudget.tanErr (Params.default cs rs)) / 3.23 := rfl
    rw [e, div_le_iff₀ (by norm_num)]; linarith
  have hh : fineBudget.headErr (Params.default cs rs) 0.4 ≤ 0.0072 := by
    have e : fineBudget.headErr (Params.default cs rs) 0.4 = 0.002 + fineBudget.turn (Params.default cs rs) * 0.4 := rfl
    rw [e]; linarith
  refine ⟨hturn, hh, ?_⟩
  have e : fineBudget.posErr (Params.default cs rs) 0.4
    = 0.01 + (0.01 + 3 * fineBudget.headErr (Params.default cs rs) 0.4) * 0.4 := rfl
  rw [e]; linarith

theorem exp_upper {y c : ℝ} (hy : y ≤ c) (hc : c < 1) : exp y ≤ 1 / (1 - c) := by
  have h1 := add_one_le_exp (-y)
  have h2 : exp (-y) * exp y = 1 := by rw [← exp_add]; simp
  rw [le_div_iff₀ (by linarith)]
  nlinarith [exp_pos y]

theorem fine_train : (fineBudget.unitErr contTrain 0.4 1).head ≤ 0.0181 ∧
    (fineBudget.unitErr contTrain 0.4 2).head ≤ 0.077 := by
  obtain ⟨r1, r2, r3, r4, r5, r6, r7, r8, r9, r10⟩ := contTrain_rates
  obtain ⟨b1, b2, b3⟩ : fineBudget.turn contTrain.toParams ≤ 0.0129 ∧
    fineBudget.headErr contTrain.toParams 0.4 ≤ 0.0072 ∧ fineBudget.posErr contTrain.toParams 0.4 ≤ 0.024 :=
    fineBudget_err _ _
  have hd : DriveOK contTrain.toParams := default_driveOK _ _
  have hB : fineBudget.OK contTrain.toParams := fineBudget_ok _ _
  have lh : contTrain.lh = 1.15 := rfl
  have L0 : contTrain.lengths.getD 0 0 = 2.9 := rfl
  have L1 : contTrain.lengths.getD 1 0 = 2.9 := rfl
  have mono := unitErr_mono hd contTrain_lengths hB (s := 0.4) (t := 0.4) (by norm_num) le_rfl
  have a1 : (fineBudget.unitErr contTrain 0.4 0).pull contTrain (unitRates contTrain 1).1 ≤ 0.0508 := by
    have e0 : (fineBudget.unitErr contTrain 0.4 0) = ⟨0.01, fineBudget.turn contTrain.toParams,
      fineBudget.headErr contTrain.toParams 0.4⟩ := rfl
    have h0 := headErr_nonneg hd hB (show (0 : ℝ) ≤ 0.4 by norm_num)
    rw [e0]
    unfold UnitErr.pull
    rw [lh]
    simp only
    have : (unitRates contTrain 1).1 * fineBudget.headErr contTrain.toParams 0.4 ≤ 3.6 * 0.0072 :=
      mul_le_mul r3 b2 h0 (by norm_num)
    linarith
  have e1 : (fineBudget.unitErr contTrain 0.4 1).head ≤ 0.0181 := by
    simp only [Budget.unitErr, L0]
    have ex := exp_upper (y := (unitRates contTrain 1).1 / 2.9 * 0.4) (c := 0.497) (by
      have : (unitRates contTrain 1).1 / 2.9 ≤ 1.2414 := by rw [div_le_iff₀ (by norm_num)]; linarith
      linarith) (by norm_num)
    have a2 : (fineBudget.unitErr contTrain 0.4 0).pull contTrain (unitRates contTrain 1).1 / 2.9 ≤ 0.01752 := by
      rw [div_le_iff₀ (by norm_num)]; linarith
    have tr : fineBudget.trail = 0.002 := rfl
    simp only [Budget.unitErr] at a2
    rw [tr]
    refine (mul_le_mul (b := 0.009008) (d := 1 / (1 - 0.497)) (by linarith) ex (exp_pos _).le (by norm_num)).trans ?_
    norm_num
  refine ⟨e1, ?_⟩
  obtain ⟨n1, n2, n3, -⟩ := mono 1 (by decide)
  have s1 : (fineBudget.unitErr contTrain 0.4 1).speed ≤ 0.11596 := by
    have e : (fineBudget.unitErr contTrain 0.4 1).speed
      = (fineBudget.unitErr contTrain 0.4 0).pull contTrain (unitRates contTrain 1).1
        + (unitRates contTrain 1).1 * (fineBudget.unitErr contTrain 0.4 1).head := rfl
    rw [e]
    have := mul_le_mul r3 e1 n3 (by norm_num : (0 : ℝ) ≤ 3.6)
    linarith
  have w1 : (fineBudget.unitErr contTrain 0.4 1).turn ≤ 0.04 := by
    have e : (fineBudget.unitErr contTrain 0.4 1).turn = (fineBudget.unitErr contTrain 0.4 1).speed / 2.9 := rfl
    rw [e, div_le_iff₀ (by norm_num)]
    linarith
  have a2 : (fineBudget.unitErr contTrain 0.4 1).pull contTrain (unitRates contTrain 2).1 ≤ 0.2344 := by
    unfold UnitErr.pull
    rw [lh]
    have := mul_le_mul r7 e1 n3 (by norm_num : (0 : ℝ) ≤ 4)
    linarith
  rw [Budget.unitErr, L1]
  have ex := exp_upper (y := (unitRates contTrain 2).1 / 2.9 * 0.4) (c := 0.552) (by
    have : (unitRates contTrain 2).1 / 2.9 ≤ 1.3794 := by rw [div_le_iff₀ (by norm_num)]; linarith
    linarith) (by norm_num)
  have a3 : (fineBudget.unitErr contTrain 0.4 1).pull contTrain (unitRates contTrain 2).1 / 2.9 ≤ 0.0809 := by
    rw [div_le_iff₀ (by norm_num)]; linarith
  have tr : fineBudget.trail = 0.002 := rfl
  simp only [tr]
  refine (mul_le_mul (b := 0.03436) (d := 1 / (1 - 0.552)) (by linarith) ex (exp_pos _).le (by norm_num)).trans ?_
  norm_num

/-- An exact execution that starts a little beside the start is within the budget. -/
theorem shifted_train {T : NTrailer} {B : Budget} (hB : B.OK T.toParams) {γ : ℝ → QN} {xs : List (St QN)}
    (h : ContinuousN T γ xs) {c : ℝ} (hc : |c| ≤ B.pos) : RoughN T B (fun t => { γ t with py := (γ t).py + c }) xs where
  start := by
    intro a ha
    simp only
    rw [h.start a ha]
    refine ⟨?_, by simpa using hB.head, fun i _ => by simpa using hB.trail⟩
    simpa [Spec.dist, sqrt_sq_eq_abs] using hc
  drive := by
    intro k b hb t ht
    have d := h.drive k b hb
    exact ⟨_, _, by simpa using hB.speed, by simpa using hB.steer, d.car.x t ht, (d.car.y t ht).add_const _,
      d.car.th t ht, d.trailers t ht⟩

theorem fine_padding : ∀ i < contTrain.N, trailerSweepN contTrain i / 2
    + trailerErr contTrain (fineBudget.posErr contTrain.toParams 0.4 + drift contTrain.toParams 2)
      (fun i => (fineBudget.unitErr contTrain 0.4 i).head + headingDrift contTrain 2 i) i ≤ 8 := by
  obtain ⟨r1, r2, r3, r4, r5, r6, r7, r8, r9, r10⟩ := contTrain_rates
  obtain ⟨d1, d2⟩ := contTrain_drift
  obtain ⟨f1, f2⟩ := fine_train
  obtain ⟨b1, b2, b3⟩ : fineBudget.turn contTrain.toParams ≤ 0.0129 ∧
    fineBudget.headErr contTrain.toParams 0.4 ≤ 0.0072 ∧ fineBudget.posErr contTrain.toParams 0.4 ≤ 0.024 :=
    fineBudget_err _ _
  have lh : contTrain.lh = 1.15 := rfl
  have L0 : contTrain.lengths.getD 0 0 = 2.9 := rfl
  have L1 : contTrain.lengths.getD 1 0 = 2.9 := rfl
  have R0 : contTrain.rears.getD 0 0 = 1.848 := rfl
  have R1 : contTrain.rears.getD 1 0 = 3.225 := rfl
  have F0 : contTrain.fronts.getD 0 0 = 1.42 := rfl
  have F1 : contTrain.fronts.getD 1 0 = 1.42 := rfl
  have W : contTrain.trailerWidth = 2.5 := rfl
  have hdt : contTrain.dt = 0.2 := rfl
  have hv : contTrain.vMax = 3 := rfl
  have m0 : max (1.848 : ℝ) 1.42 = 1.848 := max_eq_left (by norm_num)
  have m1 : max (3.225 : ℝ) 1.42 = 3.225 := max_eq_left (by norm_num)
  have dr : drift contTrain.toParams 2 ≤ 0.2 := (default_drift _ _).1
  have t0 : hitchTravel contTrain 0 ≤ 0.98 := by
    rw [hitchTravel, hdt, hv, lh]; linarith
  have t1 : hitchTravel contTrain 1 ≤ 2.46 := by
    rw [hitchTravel, hdt, lh, L0, R0]
    simp only [zero_add]
    linarith
  have dz : headingDrift contTrain 2 0 = 0 := by simp [headingDrift, rateChange]
  have u0 : (fineBudget.unitErr contTrain 0.4 0).head ≤ 0.0072 := b2
  set f : ℕ → ℝ := fun i => (fineBudget.unitErr contTrain 0.4 i).head + headingDrift contTrain 2 i with hf
  have k0 : f 0 ≤ 0.0072 := by simp only [hf, dz]; linarith
  have k1 : f 1 ≤ 0.1881 := by simp only [hf]; linarith
  have k2 : f 2 ≤ 0.527 := by simp only [hf]; linarith
  clear_value f
  set e := fineBudget.posErr contTrain.toParams 0.4 + drift contTrain.toParams 2 with he
  have ke : e ≤ 0.224 := by linarith
  clear_value e
  have g0 : hitchErr contTrain e f 0 ≤ 0.233 := by
    rw [hitchErr, lh]; linarith
  have g1 : hitchErr contTrain e f 1 ≤ 1.343 := by
    rw [hitchErr, lh, L0, R0]
    simp only [zero_add]
    linarith
  intro i hi
  have : i = 0 ∨ i = 1 := by simp only [contTrain] at hi; omega
  rcases this with rfl | rfl
  · unfold trailerSweepN trailerErr
    rw [L0, R0, F0, W, hdt, m0]
    simp only [zero_add]
    linarith
  · unfold trailerSweepN trailerErr
    rw [L1, R1, F1, W, hdt, m1]
    simp only [Nat.reduceAdd]
    linarith

/-- Any two actions of the default train; there is such an execution, 1 cm beside the planned path. -/
example (guide : QN → QN) (u w : U) : ∃ tr, scanStatesE (contTrain.step guide) contTrain.reset [u, w] = .ok tr ∧
    (∃ γ, RoughN contTrain fineBudget γ (contTrain.reset :: tr) ∧ γ 0 = ⟨-20, 0.01, 0, [0, 0]⟩) ∧
    ∀ γ, RoughN contTrain fineBudget γ (contTrain.reset :: tr) →
    ∀ t, 0 ≤ t → t ≤ 2 * 0.2 → Spec.SafeN { contTrain with circles := [⟨20, 0, 1⟩], rects := [] } (γ t) := by
  obtain ⟨tr, h, hl⟩ := ntrailer_rollout_ok contTrain guide rfl [u, w] contTrain.reset rfl
  refine ⟨tr, h, ?_, ?_⟩
  · obtain ⟨γ, hγ⟩ := C75_exists_ntrailer contTrain (by norm_num [contTrain, Params.default]) (contTrain.reset :: tr)
      (by intro a ha; simp only [List.getElem?_cons_zero, Option.some.injEq] at ha; rw [← ha]; rfl)
    refine ⟨_, shifted_train (fineBudget_ok _ _) hγ (c := 0.01) (by norm_num [fineBudget]), ?_⟩
    rw [hγ.start _ rfl]
    simp [NTrailer.reset, contTrain]
  intro γ hγ t t0 t1
  have hT : (([u, w].length : ℕ) : ℝ) * contTrain.dt = 0.4 := by
    norm_num [contTrain, Params.default]
  refine C81_safe_ntrailer contTrain guide rfl rfl (margin_sides _ (by norm_num)) (default_driveOK _ _)
    (by norm_num [contTrain, Params.default]) contTrain_ok contTrain_lengths ?_ (pole_padded 8 _ rfl)
    (by intro c hc; simp only [List.mem_singleton] at hc; subst hc; norm_num)
    (by norm_num [contTrain, Params.default]) fineBudget (fineBudget_ok _ _) contTrain.reset contTrain_safe rfl [u, w]
    ?_ ?_ tr h γ hγ t t0 (by rw [hT]; linarith)
  · intro i hi
    rcases contTrain_two i hi with rfl | rfl <;> norm_num [contTrain]
  · have h1 : Spec.tractorShift contTrain.toParams 0 ≤ 3 := (default_travel _ _).1
    have h2 : drift contTrain.toParams [u, w].length ≤ 0.2 := (default_drift _ _).1
    obtain ⟨-, b2, b3⟩ : fineBudget.turn contTrain.toParams ≤ 0.0129 ∧
      fineBudget.headErr contTrain.toParams 0.4 ≤ 0.0072 ∧ fineBudget.posErr contTrain.toParams 0.4 ≤ 0.024 :=
      fineBudget_err _ _
    unfold Budget.runErr
    rw [hT]
    have dz : headingDrift contTrain [u, w].length 0 = 0 := by simp [headingDrift, rateChange]
    have u0 : (fineBudget.unitErr contTrain 0.4 0).head ≤ 0.0072 := b2
    have m : max contTrain.lr (contTrain.l1 + contTrain.lf1) + contTrain.tractorWidth / 2 = 5.13 := by
      have : max (1.848 : ℝ) (3.23 + 0.9) = 4.13 := by rw [max_eq_right] <;> norm_num
      simp only [contTrain, Params.default]
      rw [this]; norm_num
    rw [dz, m]
    linarith
  · have e : fineBudget.runErr contTrain [u, w].length
      = fun i => (fineBudget.unitErr contTrain 0.4 i).head + headingDrift contTrain 2 i := by
      funext i
      unfold Budget.runErr
      rw [hT]
      rfl
    rw [hT, e]
    exact fine_padding

example := fun guide us tr h γ hγ => C81_ntrailer contTrain guide (default_driveOK _ _) contTrain_ok contTrain_lengths
  fineBudget (fineBudget_ok _ _) contTrain.reset rfl us tr h γ hγ

end Mbd
