import Verif.PropsContinuous
import Mathlib.Analysis.ODE.Gronwall
import Mathlib.Analysis.SpecialFunctions.Trigonometric.ArctanDeriv

/-!
# C81: how far an inaccurate execution of a plan strays
-/

namespace Spec

open Real Mbd Set

/-- Errors of an execution: position, tractor heading and trailer heading at the start, speed and steering angle at
any later moment. -/
structure Budget where
  pos : ℝ
  head : ℝ
  trail : ℝ
  speed : ℝ
  steer : ℝ

/-- The budget is sensible: no negative entries, and the wheel cannot be turned across. -/
structure Budget.OK (P : Params) (B : Budget) : Prop where
  pos : 0 ≤ B.pos
  head : 0 ≤ B.head
  trail : 0 ≤ B.trail
  speed : 0 ≤ B.speed
  steer : 0 ≤ B.steer
  wheel : P.deltaMaxDeg * π / 180 + B.steer < π / 2

/-- Continuous motion of a car that is told to drive with the applied controls of a recorded motion `xs`, from a start
near the first recorded state: at every moment its actual speed and steering angle, which may fluctuate, are within the
budget of those of the current step. -/
structure Rough3 (P : Params) (B : Budget) (γ : ℝ → Q3) (xs : List (St Q3)) : Prop where
  start : ∀ a, xs[0]? = some a → Spec.dist ((γ 0).px, (γ 0).py) (a.q.px, a.q.py) ≤ B.pos ∧
    |(γ 0).th1 - a.q.th1| ≤ B.head
  drive : ∀ (k : ℕ) b, xs[k + 1]? = some b → ∀ t ∈ Icc (k * P.dt) ((k + 1) * P.dt), ∃ v δ : ℝ,
    |v - b.applied.1 * P.vMax| ≤ B.speed ∧ |δ - b.applied.2 * (P.deltaMaxDeg * π / 180)| ≤ B.steer ∧
    HasDerivWithinAt (fun t => (γ t).px) (v * cos (γ t).th1) (Icc (k * P.dt) ((k + 1) * P.dt)) t ∧
    HasDerivWithinAt (fun t => (γ t).py) (v * sin (γ t).th1) (Icc (k * P.dt) ((k + 1) * P.dt)) t ∧
    HasDerivWithinAt (fun t => (γ t).th1) (v / P.l1 * tan δ) (Icc (k * P.dt) ((k + 1) * P.dt)) t

/-- The same for a tractor with a trailer. -/
structure Rough4 (P : Params) (B : Budget) (γ : ℝ → Q4) (xs : List (St Q4)) : Prop where
  start : ∀ a, xs[0]? = some a → Spec.dist ((γ 0).px, (γ 0).py) (a.q.px, a.q.py) ≤ B.pos ∧
    |(γ 0).th1 - a.q.th1| ≤ B.head ∧ |(γ 0).th2 - a.q.th2| ≤ B.trail
  drive : ∀ (k : ℕ) b, xs[k + 1]? = some b → ∀ t ∈ Icc (k * P.dt) ((k + 1) * P.dt), ∃ v δ : ℝ,
    |v - b.applied.1 * P.vMax| ≤ B.speed ∧ |δ - b.applied.2 * (P.deltaMaxDeg * π / 180)| ≤ B.steer ∧
    HasDerivWithinAt (fun t => (γ t).px) (v * cos (γ t).th1) (Icc (k * P.dt) ((k + 1) * P.dt)) t ∧
    HasDerivWithinAt (fun t => (γ t).py) (v * sin (γ t).th1) (Icc (k * P.dt) ((k + 1) * P.dt)) t ∧
    HasDerivWithinAt (fun t => (γ t).th1) (v / P.l1 * tan δ) (Icc (k * P.dt) ((k + 1) * P.dt)) t ∧
    HasDerivWithinAt (fun t => (γ t).th2)
      (v / P.l2 * (sin ((γ t).th1 - (γ t).th2) - P.lh / P.l1 * cos ((γ t).th1 - (γ t).th2) * tan δ))
      (Icc (k * P.dt) ((k + 1) * P.dt)) t

/-- Tangent of the largest actual steering angle. -/
noncomputable def Budget.tanMax (P : Params) (B : Budget) : ℝ := tan (P.deltaMaxDeg * π / 180 + B.steer)

/-- Largest error of the tangent of the steering angle. -/
noncomputable def Budget.tanErr (P : Params) (B : Budget) : ℝ := B.steer * (1 + B.tanMax P ^ 2)

/-- Largest error of the tractor's turning rate. -/
noncomputable def Budget.turn (P : Params) (B : Budget) : ℝ := (B.speed * B.tanMax P + P.vMax * B.tanErr P) / P.l1

/-- Deviation of the tractor's heading after time `t`. -/
noncomputable def Budget.headErr (P : Params) (B : Budget) (t : ℝ) : ℝ := B.head + B.turn P * t

/-- Deviation of the position after time `t`. -/
noncomputable def Budget.posErr (P : Params) (B : Budget) (t : ℝ) : ℝ :=
  B.pos + (B.speed + P.vMax * B.headErr P t) * t

/-- Sensitivity of the trailer's turning rate to the hitch angle. -/
noncomputable def trailRate (P : Params) : ℝ :=
  P.vMax / P.l2 * √(1 + (P.lh * tan (P.deltaMaxDeg * π / 180) / P.l1) ^ 2)

/-- Largest error of the trailer's turning rate at a given hitch angle. -/
noncomputable def Budget.trailTurn (P : Params) (B : Budget) : ℝ :=
  (B.speed * √(1 + (P.lh * B.tanMax P / P.l1) ^ 2) + P.vMax * (P.lh / P.l1 * B.tanErr P)) / P.l2

/-- Deviation of the trailer's heading after time `t`. -/
noncomputable def Budget.trailErr (P : Params) (B : Budget) (t : ℝ) : ℝ :=
  (B.trail + (B.trailTurn P + trailRate P * B.headErr P t) * t) * exp (trailRate P * t)

end Spec

namespace Mbd

open Real Classical Set _root_.Spec

/-! ## Calculus -/

/-- A motion that is differentiable on every step is continuous, with a right derivative at every moment. -/
theorem glue_steps {E : Type} [NormedAddCommGroup E] [NormedSpace ℝ E] {f : ℝ → E} {dt : ℝ} (hdt : 0 ≤ dt)
    {Q : ℝ → E → Prop} : ∀ {N : ℕ}, 0 < N →
    (∀ k < N, ∀ t ∈ Icc (k * dt) ((k + 1) * dt), ∃ d, Q t d ∧ HasDerivWithinAt f d (Icc (k * dt) ((k + 1) * dt)) t) →
    ContinuousOn f (Icc 0 (N * dt)) ∧ ∀ t ∈ Ico 0 (N * dt), ∃ d, Q t d ∧ HasDerivWithinAt f d (Ici t) t := by
  intro N hN h
  have hc : ∀ k < N, ContinuousOn f (Icc (k * dt) ((k + 1) * dt)) := by
    intro k hk t ht
    obtain ⟨d, _, hd⟩ := h k hk t ht
    exact hd.continuousWithinAt
  constructor
  · have : ∀ n ≤ N, 0 < n → ContinuousOn f (Icc 0 (n * dt)) := by
      intro n
      induction n with
      | zero => intro _ h0; omega
      | succ n ih =>
        intro hn _
        rcases Nat.eq_zero_or_pos n with rfl | h0
        · have := hc 0 hN
          simpa using this
        · have h1 := (ih (by omega) h0).union_of_isClosed (hc n (by omega)) isClosed_Icc isClosed_Icc
          rw [Icc_union_Icc_eq_Icc (by positivity) (by nlinarith)] at h1
          push_cast
          exact h1
    exact this N le_rfl hN
  · intro t ht
    have hpos : 0 < dt := by
      rcases hdt.eq_or_lt with h0 | h0
      · rw [← h0] at ht; simp at ht
      · exact h0
    set k := ⌊t / dt⌋₊ with hk
    have k1 : (k : ℝ) * dt ≤ t := by
      rw [← le_div_iff₀ hpos]; exact Nat.floor_le (div_nonneg ht.1 hdt)
    have k2 : t < (k + 1) * dt := by
      rw [← div_lt_iff₀ hpos]; exact Nat.lt_floor_add_one _
    have k3 : k < N := by
      have : (k : ℝ) * dt < N * dt := k1.trans_lt ht.2
      exact_mod_cast lt_of_mul_lt_mul_right this hdt
    obtain ⟨d, hq, hd⟩ := h k k3 t ⟨k1, k2.le⟩
    exact ⟨d, hq, hd.mono_of_mem_nhdsWithin (Icc_mem_nhdsGE_of_mem ⟨k1, k2⟩)⟩

/-- Growth at a bounded rate. -/
theorem grows_le {E : Type} [NormedAddCommGroup E] [NormedSpace ℝ E] {f : ℝ → E} {T C e : ℝ}
    (hc : ContinuousOn f (Icc 0 T)) (hd : ∀ t ∈ Ico 0 T, ∃ d, ‖d‖ ≤ C ∧ HasDerivWithinAt f d (Ici t) t)
    (h0 : ‖f 0‖ ≤ e) (hT : 0 ≤ T) : ‖f T‖ ≤ e + C * T := by
  choose! f' hf1 hf2 using hd
  have := norm_image_sub_le_of_norm_deriv_right_le_segment hc hf2 hf1 T ⟨hT, le_rfl⟩
  rw [sub_zero] at this
  have h2 : ‖f T‖ ≤ ‖f T - f 0‖ + ‖f 0‖ := by
    have := norm_add_le (f T - f 0) (f 0)
    rwa [sub_add_cancel] at this
  linarith

theorem gronwall_le {δ K ε x : ℝ} (hK : 0 ≤ K) (hε : 0 ≤ ε) :
    gronwallBound δ K ε x ≤ (δ + ε * x) * exp (K * x) := by
  rcases hK.eq_or_lt with h | h
  · rw [← h, gronwallBound_K0]; simp
  · rw [gronwallBound_of_K_ne_0 h.ne']
    have h1 : exp (K * x) - 1 ≤ K * x * exp (K * x) := by
      have h2 := add_one_le_exp (-(K * x))
      have h3 : exp (-(K * x)) * exp (K * x) = 1 := by rw [← exp_add]; simp
      have h4 := mul_le_mul_of_nonneg_right h2 (exp_pos (K * x)).le
      rw [h3] at h4
      linarith
    have h5 : ε / K * (exp (K * x) - 1) ≤ ε * x * exp (K * x) := by
      calc _ ≤ ε / K * (K * x * exp (K * x)) := mul_le_mul_of_nonneg_left h1 (div_nonneg hε h.le)
        _ = _ := by field_simp
    linarith

/-- Growth at a rate that increases with the value. -/
theorem grows_exp {f : ℝ → ℝ} {T K ε e : ℝ} (hK : 0 ≤ K) (hε : 0 ≤ ε) (hT : 0 ≤ T)
    (hc : ContinuousOn f (Icc 0 T)) (hd : ∀ t ∈ Ico 0 T, ∃ d, |d| ≤ K * |f t| + ε ∧ HasDerivWithinAt f d (Ici t) t)
    (h0 : |f 0| ≤ e) : |f T| ≤ (e + ε * T) * exp (K * T) := by
  choose! f' hf1 hf2 using hd
  have := norm_le_gronwallBound_of_norm_deriv_right_le hc hf2 h0 hf1 T ⟨hT, le_rfl⟩
  rw [sub_zero] at this
  exact this.trans (gronwall_le hK hε)

theorem tan_abs_le {m a : ℝ} (hm : m < π / 2) (ha : |a| ≤ m) : |tan a| ≤ tan m := by
  have hx := abs_le.mp ha
  have h0 : 0 ≤ m := (abs_nonneg a).trans ha
  rcases le_total 0 a with h | h
  · rw [abs_of_nonneg (tan_nonneg_of_nonneg_of_le_pi_div_two h (by linarith))]
    rcases hx.2.eq_or_lt with h2 | h2
    · rw [h2]
    · exact (tan_lt_tan_of_nonneg_of_lt_pi_div_two h hm h2).le
  · rw [abs_of_nonpos (tan_nonpos_of_nonpos_of_neg_pi_div_two_le h (by linarith)), ← tan_neg]
    rcases (show -a ≤ m by linarith).eq_or_lt with h2 | h2
    · rw [h2]
    · exact (tan_lt_tan_of_nonneg_of_lt_pi_div_two (by linarith) hm h2).le

/-- The tangent between steering stops. -/
theorem tan_lip {m a b : ℝ} (hm : m < π / 2) (ha : |a| ≤ m) (hb : |b| ≤ m) :
    |tan a - tan b| ≤ |a - b| * (1 + tan m ^ 2) := by
  have hcos : ∀ x ∈ Icc (-m) m, 0 < cos x := fun x hx =>
    cos_pos_of_mem_Ioo ⟨by linarith [hx.1], by linarith [hx.2]⟩
  have hd : ∀ x ∈ Icc (-m) m, HasDerivWithinAt tan (1 + tan x ^ 2) (Icc (-m) m) x := by
    intro x hx
    have h := (hasDerivAt_tan (hcos x hx).ne').hasDerivWithinAt (s := Icc (-m) m)
    refine h.congr_deriv ?_
    rw [tan_eq_sin_div_cos]
    have := (hcos x hx).ne'
    field_simp
    linarith [sin_sq_add_cos_sq x]
  have hbd : ∀ x ∈ Icc (-m) m, ‖1 + tan x ^ 2‖ ≤ 1 + tan m ^ 2 := by
    intro x hx
    rw [Real.norm_eq_abs, abs_of_nonneg (by positivity)]
    have e1 := tan_abs_le hm (abs_le.mpr hx)
    have := sq_le_sq' (by linarith [abs_nonneg (tan x), neg_abs_le (tan x)]) (le_of_abs_le e1)
    linarith
  have := Convex.norm_image_sub_le_of_norm_hasDerivWithin_le hd hbd (convex_Icc _ _)
    (abs_le.mp hb : b ∈ Icc (-m) m) (abs_le.mp ha : a ∈ Icc (-m) m)
  rw [Real.norm_eq_abs, Real.norm_eq_abs] at this
  linarith

/-! ## Ideal and rough execution -/

/-- Facts about the steering angles. -/
theorem steer_facts {P : Params} (h : DriveOK P) {B : Budget} (hB : B.OK P) {u : U} (hu : Spec.InBox u) {δ : ℝ}
    (hδ : |δ - u.2 * (P.deltaMaxDeg * π / 180)| ≤ B.steer) :
    |tan δ| ≤ B.tanMax P ∧ |tan δ - tan (u.2 * (P.deltaMaxDeg * π / 180))| ≤ B.tanErr P := by
  set D := P.deltaMaxDeg * π / 180 with hD
  have D0 : 0 ≤ D := by
    have := h.d0
    positivity
  have a1 : |u.2 * D| ≤ D := by
    rw [abs_mul, abs_of_nonneg D0]
    exact mul_le_of_le_one_left D0 hu.2
  have a2 : |δ| ≤ D + B.steer := by
    have : δ = u.2 * D + (δ - u.2 * D) := by ring
    rw [this]
    exact (abs_add_le _ _).trans (add_le_add a1 hδ)
  have a3 : |u.2 * D| ≤ D + B.steer := a1.trans (by linarith [hB.steer])
  refine ⟨tan_abs_le hB.wheel a2, (tan_lip hB.wheel a2 a3).trans ?_⟩
  exact mul_le_mul_of_nonneg_right hδ (by positivity)

theorem tanMax_nonneg {P : Params} (h : DriveOK P) {B : Budget} (hB : B.OK P) : 0 ≤ B.tanMax P := by
  unfold Budget.tanMax
  have := h.d0
  have := hB.steer
  exact tan_nonneg_of_nonneg_of_le_pi_div_two (by positivity) hB.wheel.le

theorem tanErr_nonneg {P : Params} {B : Budget} (hB : B.OK P) : 0 ≤ B.tanErr P := by
  unfold Budget.tanErr
  have := hB.steer
  positivity

theorem turn_nonneg {P : Params} (h : DriveOK P) {B : Budget} (hB : B.OK P) : 0 ≤ B.turn P := by
  unfold Budget.turn
  have := tanMax_nonneg h hB
  have := tanErr_nonneg hB
  have := h.v
  have := h.l1
  have := hB.speed
  positivity

theorem headErr_nonneg {P : Params} (h : DriveOK P) {B : Budget} (hB : B.OK P) {t : ℝ} (ht : 0 ≤ t) :
    0 ≤ B.headErr P t := by
  unfold Budget.headErr
  have := turn_nonneg h hB
  have := hB.head
  positivity

theorem headErr_mono {P : Params} (h : DriveOK P) {B : Budget} (hB : B.OK P) {s t : ℝ} (hst : s ≤ t) :
    B.headErr P s ≤ B.headErr P t := by
  unfold Budget.headErr
  have := mul_le_mul_of_nonneg_left hst (turn_nonneg h hB)
  linarith

theorem posErr_mono {P : Params} (h : DriveOK P) {B : Budget} (hB : B.OK P) {s t : ℝ} (h0 : 0 ≤ s) (hst : s ≤ t) :
    B.posErr P s ≤ B.posErr P t := by
  unfold Budget.posErr
  have h1 := mul_le_mul_of_nonneg_left (headErr_mono h hB hst) h.v
  have h2 := mul_nonneg h.v (headErr_nonneg h hB h0)
  have h3 : (B.speed + P.vMax * B.headErr P s) * s ≤ (B.speed + P.vMax * B.headErr P t) * t :=
    mul_le_mul (by linarith) hst h0 (by linarith [hB.speed])
  linarith

theorem trailRate_nonneg {P : Params} (h : DriveOK P) : 0 ≤ trailRate P := by
  unfold trailRate
  exact mul_nonneg (div_nonneg h.v h.l2.le) (sqrt_nonneg _)

theorem trailTurn_nonneg {P : Params} (h : DriveOK P) {B : Budget} (hB : B.OK P) : 0 ≤ B.trailTurn P := by
  unfold Budget.trailTurn
  have := tanErr_nonneg hB
  have := h.v
  have := h.l1
  have := h.l2
  have := h.lh
  have := hB.speed
  positivity

theorem trailErr_mono {P : Params} (h : DriveOK P) {B : Budget} (hB : B.OK P) {s t : ℝ} (h0 : 0 ≤ s) (hst : s ≤ t) :
    B.trailErr P s ≤ B.trailErr P t := by
  unfold Budget.trailErr
  have r0 := trailRate_nonneg h
  have e0 := trailTurn_nonneg h hB
  have h1 := mul_le_mul_of_nonneg_left (headErr_mono h hB hst) r0
  have h2 := mul_nonneg r0 (headErr_nonneg h hB h0)
  have h3 : (B.trailTurn P + trailRate P * B.headErr P s) * s ≤ (B.trailTurn P + trailRate P * B.headErr P t) * t :=
    mul_le_mul (by linarith) hst h0 (by linarith)
  have h4 : 0 ≤ (B.trailTurn P + trailRate P * B.headErr P s) * s := by positivity
  refine mul_le_mul (by linarith) (exp_le_exp.mpr (mul_le_mul_of_nonneg_left hst r0)) (exp_pos _).le ?_
  linarith [hB.trail]

/-- Heading and position of the two executions. -/
theorem rough_car {P : Params} (h : DriveOK P) {B : Budget} (hB : B.OK P) {x y th x0 y0 th0 : ℝ → ℝ} {N : ℕ}
    (hN : 0 < N) {u : ℕ → U} (hu : ∀ k < N, Spec.InBox (u k))
    (hr : ∀ k < N, ∀ t ∈ Icc (k * P.dt) ((k + 1) * P.dt), ∃ v δ : ℝ,
      |v - (u k).1 * P.vMax| ≤ B.speed ∧ |δ - (u k).2 * (P.deltaMaxDeg * π / 180)| ≤ B.steer ∧
      HasDerivWithinAt x (v * cos (th t)) (Icc (k * P.dt) ((k + 1) * P.dt)) t ∧
      HasDerivWithinAt y (v * sin (th t)) (Icc (k * P.dt) ((k + 1) * P.dt)) t ∧
      HasDerivWithinAt th (v / P.l1 * tan δ) (Icc (k * P.dt) ((k + 1) * P.dt)) t)
    (hc : ∀ k < N, DrivesCar P x0 y0 th0 (k * P.dt) ((k + 1) * P.dt) ((u k).1 * P.vMax)
      ((u k).2 * (P.deltaMaxDeg * π / 180)))
    (s1 : Spec.dist (x 0, y 0) (x0 0, y0 0) ≤ B.pos) (s2 : |th 0 - th0 0| ≤ B.head) {t : ℝ} (t0 : 0 ≤ t)
    (t1 : t ≤ N * P.dt) :
    |th t - th0 t| ≤ B.headErr P t ∧ Spec.dist (x t, y t) (x0 t, y0 t) ≤ B.posErr P t := by
  have hvk : ∀ k < N, |(u k).1 * P.vMax| ≤ P.vMax := by
    intro k hk
    rw [abs_mul, abs_of_nonneg h.v]
    exact mul_le_of_le_one_left h.v (hu k hk).1
  -- heading
  have g1 := glue_steps (f := fun s => th s - th0 s) (Q := fun _ d => ‖d‖ ≤ B.turn P) h.dt hN (by
    intro k hk s hs
    obtain ⟨v, δ, hv, hδ, -, -, dt⟩ := hr k hk s hs
    refine ⟨_, ?_, dt.sub ((hc k hk).th s hs)⟩
    obtain ⟨f1, f2⟩ := steer_facts h hB (hu k hk) hδ
    set w := (u k).1 * P.vMax
    set τ := tan ((u k).2 * (P.deltaMaxDeg * π / 180))
    have e : v / P.l1 * tan δ - w / P.l1 * τ = ((v - w) * tan δ + w * (tan δ - τ)) / P.l1 := by ring
    rw [Real.norm_eq_abs, e, abs_div, abs_of_pos h.l1]
    refine div_le_div_of_nonneg_right ((abs_add_le _ _).trans ?_) h.l1.le
    rw [abs_mul, abs_mul]
    exact add_le_add (mul_le_mul hv f1 (abs_nonneg _) hB.speed) (mul_le_mul (hvk k hk) f2 (abs_nonneg _) h.v))
  have head : ∀ s, 0 ≤ s → s ≤ N * P.dt → |th s - th0 s| ≤ B.headErr P s := by
    intro s a b
    exact grows_le (f := fun s => th s - th0 s) (g1.1.mono (Icc_subset_Icc_right b))
      (fun r hr => g1.2 r ⟨hr.1, hr.2.trans_le b⟩) s2 a
  refine ⟨head t t0 t1, ?_⟩
  -- position
  have g2 := glue_steps (f := fun s => toC (x s, y s) - toC (x0 s, y0 s))
    (Q := fun s d => ‖d‖ ≤ B.speed + P.vMax * |th s - th0 s|) h.dt hN (by
    intro k hk s hs
    obtain ⟨v, δ, hv, hδ, dx, dy, -⟩ := hr k hk s hs
    set I := Icc ((k : ℝ) * P.dt) ((k + 1) * P.dt) with hI
    have hz : ∀ {x y : ℝ → ℝ} {v a : ℝ}, HasDerivWithinAt x (v * cos a) I s → HasDerivWithinAt y (v * sin a) I s →
        HasDerivWithinAt (fun s => toC (x s, y s)) ((v : ℂ) * hd a) I s := by
      intro x y v a hx hy
      have h1 := (hx.ofReal_comp).add ((hy.ofReal_comp).mul_const Complex.I)
      have e1 : (fun s => toC (x s, y s)) = (fun s => (x s : ℂ)) + fun s => (y s : ℂ) * Complex.I := by
        funext r
        simp [toC, Complex.mk_eq_add_mul_I]
      rw [e1]
      refine h1.congr_deriv ?_
      unfold hd
      generalize cos a = c
      generalize sin a = d
      apply Complex.ext <;> simp
    refine ⟨_, ?_, (hz dx dy).sub (hz ((hc k hk).x s hs) ((hc k hk).y s hs))⟩
    set w := (u k).1 * P.vMax
    have e : (v : ℂ) * hd (th s) - (w : ℂ) * hd (th0 s)
        = ((v - w : ℝ) : ℂ) * hd (th s) + (w : ℂ) * (hd (th s) - hd (th0 s)) := by push_cast; ring
    rw [e]
    refine (norm_add_le _ _).trans ?_
    rw [norm_mul, norm_mul, norm_hd, mul_one, Complex.norm_real, Complex.norm_real, Real.norm_eq_abs,
      Real.norm_eq_abs]
    exact add_le_add hv (mul_le_mul (hvk k hk) (norm_hd_sub _ _) (norm_nonneg _) h.v))
  rw [dist_eq]
  refine grows_le (f := fun s => toC (x s, y s) - toC (x0 s, y0 s)) (g2.1.mono (Icc_subset_Icc_right t1))
    (fun r hr => ?_) (by rw [dist_eq] at s1; exact s1) t0
  obtain ⟨d, hd1, hd2⟩ := g2.2 r ⟨hr.1, hr.2.trans_le t1⟩
  refine ⟨d, hd1.trans (add_le_add le_rfl (mul_le_mul_of_nonneg_left ?_ h.v)), hd2⟩
  exact (head r hr.1 (hr.2.le.trans t1)).trans (headErr_mono h hB hr.2.le)

/-- Heading of the trailer. -/
theorem rough_trail {P : Params} (h : DriveOK P) {B : Budget} (hB : B.OK P) {th ph th0 ph0 : ℝ → ℝ} {N : ℕ}
    (hN : 0 < N) {u : ℕ → U} (hu : ∀ k < N, Spec.InBox (u k))
    (hr : ∀ k < N, ∀ t ∈ Icc (k * P.dt) ((k + 1) * P.dt), ∃ v δ : ℝ,
      |v - (u k).1 * P.vMax| ≤ B.speed ∧ |δ - (u k).2 * (P.deltaMaxDeg * π / 180)| ≤ B.steer ∧
      HasDerivWithinAt ph (v / P.l2 * (sin (th t - ph t) - P.lh / P.l1 * cos (th t - ph t) * tan δ))
        (Icc (k * P.dt) ((k + 1) * P.dt)) t)
    (hc : ∀ k < N, DrivesTrailer P th0 ph0 (k * P.dt) ((k + 1) * P.dt) ((u k).1 * P.vMax)
      ((u k).2 * (P.deltaMaxDeg * π / 180)))
    (hth : ∀ s, 0 ≤ s → s ≤ N * P.dt → |th s - th0 s| ≤ B.headErr P s) (s3 : |ph 0 - ph0 0| ≤ B.trail) {t : ℝ}
    (t0 : 0 ≤ t) (t1 : t ≤ N * P.dt) : |ph t - ph0 t| ≤ B.trailErr P t := by
  have g1 := glue_steps (f := fun s => ph s - ph0 s)
    (Q := fun s d => |d| ≤ trailRate P * |ph s - ph0 s| + (B.trailTurn P + trailRate P * |th s - th0 s|)) h.dt hN (by
    intro k hk s hs
    obtain ⟨v, δ, hv, hδ, dp⟩ := hr k hk s hs
    refine ⟨_, ?_, dp.sub (hc k hk s hs)⟩
    obtain ⟨f1, f2⟩ := steer_facts h hB (hu k hk) hδ
    have hw : |(u k).1 * P.vMax| ≤ P.vMax := by
      rw [abs_mul, abs_of_nonneg h.v]
      exact mul_le_of_le_one_left h.v (hu k hk).1
    have hkm := kappa_mono h (hu k hk)
    set w := (u k).1 * P.vMax
    set τ := tan ((u k).2 * (P.deltaMaxDeg * π / 180))
    set ψ := th s - ph s
    set ψ0 := th0 s - ph0 s
    set κ := P.lh / P.l1 with hκ
    have κ0 : 0 ≤ κ := div_nonneg h.lh h.l1.le
    have e : v / P.l2 * (sin ψ - κ * cos ψ * tan δ) - w / P.l2 * (sin ψ0 - κ * cos ψ0 * τ)
        = ((v - w) * (sin ψ - (κ * tan δ) * cos ψ) + w * (κ * (τ - tan δ) * cos ψ)
          + w * ((sin ψ - (κ * τ) * cos ψ) - (sin ψ0 - (κ * τ) * cos ψ0))) / P.l2 := by ring
    rw [e, abs_div, abs_of_pos h.l2]
    have b1 : |sin ψ - (κ * tan δ) * cos ψ| ≤ √(1 + (P.lh * B.tanMax P / P.l1) ^ 2) := by
      refine (trig_combo _ _).1.trans (sqrt_le_sqrt ?_)
      have : |κ * tan δ| ≤ P.lh * B.tanMax P / P.l1 := by
        rw [abs_mul, abs_of_nonneg κ0, hκ, div_mul_eq_mul_div]
        exact div_le_div_of_nonneg_right (mul_le_mul_of_nonneg_left f1 h.lh) h.l1.le
      have := sq_le_sq' (by linarith [neg_abs_le (κ * tan δ)]) (le_of_abs_le this)
      linarith
    have b2 : |κ * (τ - tan δ) * cos ψ| ≤ κ * B.tanErr P := by
      rw [abs_mul, abs_mul, abs_of_nonneg κ0, abs_sub_comm]
      exact (mul_le_of_le_one_right (mul_nonneg κ0 (abs_nonneg _)) (abs_cos_le_one _)).trans
        (mul_le_mul_of_nonneg_left f2 κ0)
    have b3 : |(sin ψ - (κ * τ) * cos ψ) - (sin ψ0 - (κ * τ) * cos ψ0)|
        ≤ √(1 + (P.lh * tan (P.deltaMaxDeg * π / 180) / P.l1) ^ 2) * (|ph s - ph0 s| + |th s - th0 s|) := by
      refine (trail_lipschitz _ _ _).trans (mul_le_mul hkm ?_ (abs_nonneg _) (sqrt_nonneg _))
      have : ψ - ψ0 = (th s - th0 s) - (ph s - ph0 s) := by ring
      rw [this, add_comm]
      exact abs_sub _ _
    have c1 := mul_le_mul hv b1 (abs_nonneg _) hB.speed
    have c2 := mul_le_mul hw b2 (abs_nonneg _) h.v
    have c3 := mul_le_mul hw b3 (abs_nonneg _) h.v
    rw [← abs_mul] at c1 c2 c3
    have hsum : ∀ a b c : ℝ, |a + b + c| ≤ |a| + |b| + |c| := fun a b c =>
      (abs_add_le _ _).trans (add_le_add (abs_add_le _ _) le_rfl)
    have c4 := div_le_div_of_nonneg_right ((hsum _ _ _).trans (add_le_add (add_le_add c1 c2) c3)) h.l2.le
    refine c4.trans (le_of_eq ?_)
    unfold trailRate Budget.trailTurn
    ring)
  have r0 := trailRate_nonneg h
  refine grows_exp (f := fun s => ph s - ph0 s) r0
    (add_nonneg (trailTurn_nonneg h hB) (mul_nonneg r0 (headErr_nonneg h hB t0))) t0
    (g1.1.mono (Icc_subset_Icc_right t1)) (fun r hr => ?_) s3
  obtain ⟨d, hd1, hd2⟩ := g1.2 r ⟨hr.1, hr.2.trans_le t1⟩
  refine ⟨d, hd1.trans (add_le_add le_rfl (add_le_add le_rfl (mul_le_mul_of_nonneg_left ?_ r0))), hd2⟩
  exact (hth r hr.1 (hr.2.le.trans t1)).trans (headErr_mono h hB hr.2.le)

/-! ## Deviation from the recorded motion -/

/-- **C81, bicycle**: at every moment of an inaccurate execution of the applied controls of a recorded motion the heading
differs from the interpolated recorded one by at most `headErr`, the position by at most `posErr` in addition to the
drift of C75. -/
theorem C81_bicycle (T : Bicycle) (ext : Ext Q3) (hp : T.enableProjection = false) (hd : DriveOK T.toParams)
    (B : Budget) (hB : B.OK T.toParams) (s : St Q3) (us : List U) (γ : ℝ → Q3)
    (hγ : Rough3 T.toParams B γ (s :: scanStates (T.step ext) s us)) (k : ℕ) (a b : St Q3)
    (ha : (s :: scanStates (T.step ext) s us)[k]? = some a)
    (hb : (s :: scanStates (T.step ext) s us)[k + 1]? = some b) (lam : ℝ) (l0 : 0 ≤ lam) (l1 : lam ≤ 1) :
    |(γ ((k + lam) * T.dt)).th1 - (between3 lam a.q b.q).th1| ≤ B.headErr T.toParams ((k + lam) * T.dt) ∧
    Spec.dist ((γ ((k + lam) * T.dt)).px, (γ ((k + lam) * T.dt)).py)
      ((between3 lam a.q b.q).px, (between3 lam a.q b.q).py)
      ≤ B.posErr T.toParams ((k + lam) * T.dt) + drift T.toParams (k + 1) := by
  obtain ⟨γ0, h0⟩ := C75_exists_bicycle T.toParams hd.dt (s :: scanStates (T.step ext) s us)
  obtain ⟨i1, i2⟩ := C75_bicycle T ext hp hd s us γ0 h0 k a b ha hb lam l0 l1
  have hch := scan_isChain (step := T.step ext) (fun _ s' : St Q3 => Spec.InBox s'.applied)
    (fun s a => C08_bicycle T ext hp s a) us s
  have hx0 : (s :: scanStates (T.step ext) s us)[0]? = some s := rfl
  generalize s :: scanStates (T.step ext) s us = xs at *
  have hk : k + 1 < xs.length := (List.getElem?_eq_some_iff.mp hb).1
  have at' : ∀ j < xs.length, xs[j]? = some (xs.getD j s) := by
    intro j hj
    rw [List.getD_eq_getElem _ _ hj, List.getElem?_eq_getElem hj]
  have z0 := h0.start s hx0
  obtain ⟨z1, z2⟩ := hγ.start s hx0
  rw [← z0] at z1 z2
  obtain ⟨r1, r2⟩ := rough_car (x := fun t => (γ t).px) (y := fun t => (γ t).py) (th := fun t => (γ t).th1)
    (x0 := fun t => (γ0 t).px) (y0 := fun t => (γ0 t).py) (th0 := fun t => (γ0 t).th1) hd hB
    (N := k + 1) (by omega) (u := fun j => (xs.getD (j + 1) s).applied)
    (fun j hj => chain_at hch (at' j (by omega)) (at' (j + 1) (by omega)))
    (fun j hj => hγ.drive j _ (at' (j + 1) (by omega)))
    (fun j hj => h0.drive j _ (at' (j + 1) (by omega))) z1 z2 (t := (k + lam) * T.dt)
    (mul_nonneg (by positivity) hd.dt) (mul_le_mul_of_nonneg_right (by push_cast; linarith) hd.dt)
  exact ⟨by rw [← i1]; exact r1, (dist_tri _ _ _).trans (add_le_add r2 i2)⟩

/-- **C81, tractor-trailer**: the same, and the trailer's heading differs by at most `trailErr` in addition to the
trailer drift of C75. -/
theorem C81_tt2d (T : TT2d) (ext : Ext Q4) (hp : T.enableProjection = false) (hd : DriveOK T.toParams)
    (B : Budget) (hB : B.OK T.toParams) (s : St Q4) (us : List U) (γ : ℝ → Q4)
    (hγ : Rough4 T.toParams B γ (s :: scanStates (T.step ext) s us)) (k : ℕ) (a b : St Q4)
    (ha : (s :: scanStates (T.step ext) s us)[k]? = some a)
    (hb : (s :: scanStates (T.step ext) s us)[k + 1]? = some b) (lam : ℝ) (l0 : 0 ≤ lam) (l1 : lam ≤ 1) :
    |(γ ((k + lam) * T.dt)).th1 - (between4 lam a.q b.q).th1| ≤ B.headErr T.toParams ((k + lam) * T.dt) ∧
    Spec.dist ((γ ((k + lam) * T.dt)).px, (γ ((k + lam) * T.dt)).py)
      ((between4 lam a.q b.q).px, (between4 lam a.q b.q).py)
      ≤ B.posErr T.toParams ((k + lam) * T.dt) + drift T.toParams (k + 1) ∧
    |(γ ((k + lam) * T.dt)).th2 - (between4 lam a.q b.q).th2|
      ≤ B.trailErr T.toParams ((k + lam) * T.dt) + trailDrift T.toParams (k + 1) := by
  obtain ⟨γ0, h0⟩ := C75_exists_tt2d T.toParams hd.dt (s :: scanStates (T.step ext) s us)
  obtain ⟨i1, i2, i3⟩ := C75_tt2d T ext hp hd s us γ0 h0 k a b ha hb lam l0 l1
  have hch := scan_isChain (step := T.step ext) (fun _ s' : St Q4 => Spec.InBox s'.applied)
    (fun s a => C08_tt2d T ext hp s a) us s
  have hx0 : (s :: scanStates (T.step ext) s us)[0]? = some s := rfl
  generalize s :: scanStates (T.step ext) s us = xs at *
  have hk : k + 1 < xs.length := (List.getElem?_eq_some_iff.mp hb).1
  have at' : ∀ j < xs.length, xs[j]? = some (xs.getD j s) := by
    intro j hj
    rw [List.getD_eq_getElem _ _ hj, List.getElem?_eq_getElem hj]
  have z0 := h0.start s hx0
  obtain ⟨z1, z2, z3⟩ := hγ.start s hx0
  rw [← z0] at z1 z2 z3
  have key := fun (t : ℝ) (t0 : 0 ≤ t) (t1 : t ≤ ((k + 1 : ℕ) : ℝ) * T.dt) =>
    rough_car (x := fun t => (γ t).px) (y := fun t => (γ t).py) (th := fun t => (γ t).th1)
    (x0 := fun t => (γ0 t).px) (y0 := fun t => (γ0 t).py) (th0 := fun t => (γ0 t).th1) hd hB
    (N := k + 1) (by omega) (u := fun j => (xs.getD (j + 1) s).applied)
    (fun j hj => chain_at hch (at' j (by omega)) (at' (j + 1) (by omega)))
    (fun j hj t ht => by
      obtain ⟨v, δ, c1, c2, c3, c4, c5, -⟩ := hγ.drive j _ (at' (j + 1) (by omega)) t ht
      exact ⟨v, δ, c1, c2, c3, c4, c5⟩)
    (fun j hj => (h0.drive j _ (at' (j + 1) (by omega))).1) z1 z2 (t := t) t0 t1
  have t0 : 0 ≤ (k + lam) * T.dt := mul_nonneg (by positivity) hd.dt
  have t1 : (k + lam) * T.dt ≤ ((k + 1 : ℕ) : ℝ) * T.dt :=
    mul_le_mul_of_nonneg_right (by push_cast; linarith) hd.dt
  obtain ⟨r1, r2⟩ := key _ t0 t1
  have r3 := rough_trail (th := fun t => (γ t).th1) (ph := fun t => (γ t).th2)
    (th0 := fun t => (γ0 t).th1) (ph0 := fun t => (γ0 t).th2) hd hB
    (N := k + 1) (by omega) (u := fun j => (xs.getD (j + 1) s).applied)
    (fun j hj => chain_at hch (at' j (by omega)) (at' (j + 1) (by omega)))
    (fun j hj t ht => by
      obtain ⟨v, δ, c1, c2, -, -, -, c6⟩ := hγ.drive j _ (at' (j + 1) (by omega)) t ht
      exact ⟨v, δ, c1, c2, c6⟩)
    (fun j hj => (h0.drive j _ (at' (j + 1) (by omega))).2) (fun r a b => (key r a b).1) z3 t0 t1
  refine ⟨by rw [← i1]; exact r1, (dist_tri _ _ _).trans (add_le_add r2 i2), ?_⟩
  have e : ∀ x y z : ℝ, |x - z| ≤ |x - y| + |y - z| := fun x y z => abs_sub_le x y z
  exact (e _ _ _).trans (add_le_add r3 i3)

/-! ## Safety -/

/-- A body in a pose near one between two recorded ones. -/
theorem bicycle_near' {P : Params} {cs : List Circle} {rs : List Rect} {p e f : ℝ} {q q' g : Q3} {lam : ℝ}
    (hm : 0 ≤ max P.lr (P.l1 + P.lf1) + P.tractorWidth / 2)
    (h1 : (Spec.dist (q'.px, q'.py) (q.px, q.py)
      + (max P.lr (P.l1 + P.lf1) + P.tractorWidth / 2) * |q'.th1 - q.th1|) / 2
      + (e + (max P.lr (P.l1 + P.lf1) + P.tractorWidth / 2) * f) ≤ p)
    (m : Margin3 p P cs rs q) (m' : Margin3 p P cs rs q') (l0 : 0 ≤ lam) (l1 : lam ≤ 1)
    (g1 : |g.th1 - (between3 lam q q').th1| ≤ f)
    (g2 : Spec.dist (g.px, g.py) ((between3 lam q q').px, (between3 lam q q').py) ≤ e) :
    Spec.SafeBicycle { P with circles := cs, rects := rs } g := by
  obtain ⟨p1, p2⟩ := point_between lam (q.px, q.py) (q'.px, q'.py)
  have tr : ∀ b ∈ Spec.tractorBody P (between3 lam q q').px (between3 lam q q').py (between3 lam q q').th1, _ :=
    fun b hb => body_between (rear := P.lr) (front := P.l1 + P.lf1) (width := P.tractorWidth) l0 l1 p1 p2 b hb
  simp only at tr
  have nr : ∀ b ∈ Spec.tractorBody P g.px g.py g.th1, ∃ b' ∈ Spec.tractorBody P (between3 lam q q').px
      (between3 lam q q').py (between3 lam q q').th1,
      Spec.dist b' b ≤ e + (max P.lr (P.l1 + P.lf1) + P.tractorWidth / 2) * f := by
    intro b hb
    obtain ⟨b', hb', hd⟩ := body_near (c' := ((between3 lam q q').px, (between3 lam q q').py))
      (ang' := (between3 lam q q').th1) b hb
    refine ⟨b', hb', hd.trans ?_⟩
    rw [dist_comm', abs_sub_comm]
    exact add_le_add g2 (mul_le_mul_of_nonneg_left g1 hm)
  have tr2 := near_between nr tr
  exact ⟨fun c hc => between_apart h1 (m.1 c hc) (m'.1 c hc) tr2,
    fun o ho => between_apart h1 (m.2 o ho) (m'.2 o ho) tr2⟩

/-- The same for the tractor-trailer. -/
theorem tt_near' {P : Params} {cs : List Circle} {rs : List Rect} {p e f f2 : ℝ} (hl : 0 ≤ P.lh) (hl2 : 0 ≤ P.l2)
    (hm1 : 0 ≤ max P.lr (P.l1 + P.lf1) + P.tractorWidth / 2)
    (hm : 0 ≤ max P.lr2 P.lf2 + P.trailerWidth / 2) {q q' g : Q4} {lam : ℝ}
    (h1 : (Spec.dist (q'.px, q'.py) (q.px, q.py)
      + (max P.lr (P.l1 + P.lf1) + P.tractorWidth / 2) * |q'.th1 - q.th1|) / 2
      + (e + (max P.lr (P.l1 + P.lf1) + P.tractorWidth / 2) * f) ≤ p)
    (h2 : (Spec.dist (q'.px, q'.py) (q.px, q.py) + P.lh * |q'.th1 - q.th1| + P.l2 * |q'.th2 - q.th2|
      + (max P.lr2 P.lf2 + P.trailerWidth / 2) * |q'.th2 - q.th2|) / 2
      + (e + P.lh * f + (P.l2 + max P.lr2 P.lf2 + P.trailerWidth / 2) * f2) ≤ p)
    (m : Margin4 p P cs rs q) (m' : Margin4 p P cs rs q') (l0 : 0 ≤ lam) (l1 : lam ≤ 1)
    (g1 : |g.th1 - (between4 lam q q').th1| ≤ f)
    (g2 : Spec.dist (g.px, g.py) ((between4 lam q q').px, (between4 lam q q').py) ≤ e)
    (g3 : |g.th2 - (between4 lam q q').th2| ≤ f2) :
    Spec.SafeTT { P with circles := cs, rects := rs } g := by
  obtain ⟨p1, p2⟩ := point_between lam (q.px, q.py) (q'.px, q'.py)
  obtain ⟨a1, a2⟩ := axle_between P hl hl2 lam q q'
  have tr : ∀ b ∈ Spec.tractorBody P (between4 lam q q').px (between4 lam q q').py (between4 lam q q').th1, _ :=
    fun b hb => body_between (rear := P.lr) (front := P.l1 + P.lf1) (width := P.tractorWidth) l0 l1 p1 p2 b hb
  have ta : ∀ b ∈ Spec.trailerBody P (between4 lam q q'), _ :=
    fun b hb => body_between (rear := P.lr2) (front := P.lf2) (width := P.trailerWidth) l0 l1 a1 a2 b hb
  simp only at tr ta
  set mq := between4 lam q q' with hmq
  rw [dist_comm'] at g2
  rw [abs_sub_comm] at g1 g3
  have nr : ∀ b ∈ Spec.tractorBody P g.px g.py g.th1, ∃ b' ∈ Spec.tractorBody P mq.px
      mq.py mq.th1, Spec.dist b' b ≤ e + (max P.lr (P.l1 + P.lf1) + P.tractorWidth / 2) * f := by
    intro b hb
    obtain ⟨b', hb', hd⟩ := body_near (c' := (mq.px, mq.py)) (ang' := mq.th1) b hb
    exact ⟨b', hb', hd.trans (add_le_add g2 (mul_le_mul_of_nonneg_left g1 hm1))⟩
  have ax : Spec.dist (Spec.trailerAxle P mq) (Spec.trailerAxle P g) ≤ e + P.lh * f + P.l2 * f2 := by
    unfold Spec.trailerAxle
    refine (frame_shift _ _ _ _ _ _).trans ?_
    refine add_le_add ((frame_shift _ _ _ _ _ _).trans ?_) ?_
    · rw [abs_neg, abs_of_nonneg hl, abs_zero, add_zero]
      exact add_le_add g2 (mul_le_mul_of_nonneg_left g1 hl)
    · rw [abs_neg, abs_of_nonneg hl2, abs_zero, add_zero]
      exact mul_le_mul_of_nonneg_left g3 hl2
  have nt : ∀ b ∈ Spec.trailerBody P g, ∃ b' ∈ Spec.trailerBody P mq,
      Spec.dist b' b ≤ e + P.lh * f + (P.l2 + max P.lr2 P.lf2 + P.trailerWidth / 2) * f2 := by
    intro b hb
    obtain ⟨b', hb', hd⟩ := body_near (c' := Spec.trailerAxle P mq) (ang' := mq.th2) b hb
    refine ⟨b', hb', hd.trans ?_⟩
    have := mul_le_mul_of_nonneg_left g3 hm
    linarith
  have tr2 := near_between nr tr
  have ta2 := near_between nt ta
  exact ⟨fun c hc => ⟨between_apart (by linarith) (m.1 c hc).1 (m'.1 c hc).1 tr2,
      between_apart (by linarith) (m.1 c hc).2 (m'.1 c hc).2 ta2⟩,
    fun o ho => ⟨between_apart (by linarith) (m.2 o ho).1 (m'.2 o ho).1 tr2,
      between_apart (by linarith) (m.2 o ho).2 (m'.2 o ho).2 ta2⟩⟩

/-- **C81, bicycle with shield and padding**: if the padding covers half a step's travel, the drift and the errors of the
whole run, the inaccurate execution stays clear of the actual obstacles at every moment. -/
theorem C81_safe_bicycle (T : Bicycle) (ext : Ext Q3) (hs : T.shieldCollision = true)
    (hp : T.enableProjection = false) (hg : T.enableGuidance = false)
    (hsz : Spec.SidesOK T.toParams) (hd : DriveOK T.toParams) (hov : -T.lr ≤ T.l1 + T.lf1)
    {p : ℝ} {cs : List Circle} {rs : List Rect} (hP : Padded p T.toParams cs rs) (hr : ∀ c ∈ cs, 0 ≤ c.r)
    (B : Budget) (hB : B.OK T.toParams)
    (s : St Q3) (h0 : Spec.SafeBicycle T.toParams s.q) (us : List U)
    (h1 : Spec.tractorShift T.toParams 0 / 2 + drift T.toParams us.length + B.posErr T.toParams (us.length * T.dt)
      + (max T.lr (T.l1 + T.lf1) + T.tractorWidth / 2) * B.headErr T.toParams (us.length * T.dt) ≤ p) (γ : ℝ → Q3)
    (hγ : Rough3 T.toParams B γ (s :: scanStates (T.step ext) s us)) (t : ℝ) (t0 : 0 ≤ t)
    (t1 : t ≤ us.length * T.dt) :
    Spec.SafeBicycle { T.toParams with circles := cs, rects := rs } (γ t) := by
  have m1 : 0 ≤ max T.lr (T.l1 + T.lf1) := max_nonneg_of_neg_le hov
  have w1 : 0 ≤ T.tractorWidth / 2 := by linarith [hsz.tractorWid]
  have hΔ : 0 ≤ T.vMax * T.dt * tan (T.deltaMaxDeg * π / 180) / T.l1 := turnStep_nonneg hd
  have hw : 0 ≤ T.vMax * T.dt := mul_nonneg hd.v hd.dt
  have hdr : 0 ≤ drift T.toParams us.length := by
    have := drift_mono hd (Nat.zero_le us.length)
    simpa [drift] using this
  have hT : 0 ≤ us.length * T.dt := mul_nonneg (by positivity) hd.dt
  have hpe : 0 ≤ B.posErr T.toParams (us.length * T.dt) := by
    have := posErr_mono hd hB le_rfl hT
    have h2 : B.posErr T.toParams 0 = B.pos := by simp [Budget.posErr]
    linarith [hB.pos]
  have hhe := mul_nonneg (add_nonneg m1 w1) (headErr_nonneg hd hB hT)
  have hsh : 0 ≤ Spec.tractorShift T.toParams 0 := by
    unfold Spec.tractorShift
    simp only [mul_zero, sub_zero]
    have := mul_nonneg (add_nonneg m1 w1) hΔ
    linarith
  have p0 : 0 ≤ p := by linarith
  have hnt : ∀ c ∈ T.circles, T.tractorWidth / 2 ≤ c.r ∨ Spec.tractorShift T.toParams c.r ≤ 2 * c.r := by
    intro c hc
    right
    obtain ⟨c0, hc0, rfl⟩ : ∃ c0 ∈ cs, c = ⟨c0.x, c0.y, c0.r + p⟩ := forall2_mem_left (padded_circles hP) c hc
    have := hr c0 hc0
    unfold Spec.tractorShift at h1 ⊢
    simp only [mul_zero, sub_zero] at h1 ⊢
    have : 0 ≤ 2 * (c0.r + p) * (T.vMax * T.dt * tan (T.deltaMaxDeg * π / 180) / T.l1) :=
      mul_nonneg (by linarith) hΔ
    nlinarith
  have hmar : ∀ a ∈ s :: scanStates (T.step ext) s us, Margin3 p T.toParams cs rs a.q := by
    intro a ha
    rcases List.mem_cons.mp ha with rfl | ha
    · exact C74_margin_bicycle p0 hP hr h0
    · exact C74_margin_bicycle p0 hP hr (C03_solid_bicycle_partial T ext hs hp hg hsz hd hnt s h0 us a ha)
  have hlen : (s :: scanStates (T.step ext) s us).length = us.length + 1 := by
    simp [scanStates_length]
  rcases in_step hd.dt t0 t1 with rfl | ⟨k, hk, lam, l0, l1, rfl⟩
  · obtain ⟨z1, z2⟩ := hγ.start s rfl
    have z3 := headErr_mono hd hB hT
    have z4 := posErr_mono hd hB le_rfl hT
    simp only [Budget.headErr, Budget.posErr, mul_zero, add_zero] at z3 z4
    refine bicycle_near' (e := B.pos) (f := B.head) (lam := 0) (q := s.q) (q' := s.q) (add_nonneg m1 w1) ?_
      (hmar s (by simp)) (hmar s (by simp)) le_rfl
      zero_le_one (by simpa [between3, mix] using z2) (by simpa [between3, mix] using z1)
    have z5 := mul_le_mul_of_nonneg_left z3 (add_nonneg m1 w1)
    have z6 : ∀ a : V2, Spec.dist a a = 0 := by intro a; simp [Spec.dist]
    rw [z6, sub_self, abs_zero]
    unfold Budget.posErr Budget.headErr at h1
    linarith
  have ha := List.getElem?_eq_getElem (l := s :: scanStates (T.step ext) s us) (i := k) (by omega)
  have hb := List.getElem?_eq_getElem (l := s :: scanStates (T.step ext) s us) (i := k + 1) (by omega)
  obtain ⟨g1, g2⟩ := C81_bicycle T ext hp hd B hB s us γ hγ k _ _ ha hb lam l0 l1
  obtain ⟨⟨e1, e2, e3⟩, hbox⟩ := chain_at (scan_isChain (step := T.step ext)
    (fun s s' : St Q3 => Spec.EulerBicycle T.toParams s.q s'.applied s'.q ∧ Spec.InBox s'.applied)
    (fun s a => ⟨by
      have := C09_bicycle T ext s [a]
      simp only [scanStates, List.isChain_cons_cons] at this
      exact this.1, C08_bicycle T ext hp s a⟩) us s) ha hb
  have g1' := g1.trans (headErr_mono hd hB t1)
  have g2' := g2.trans (add_le_add (posErr_mono hd hB t0 t1) (drift_mono hd (show k + 1 ≤ us.length by omega)))
  refine bicycle_near' (add_nonneg m1 w1) ?_ (hmar _ (List.getElem_mem _)) (hmar _ (List.getElem_mem _)) l0 l1 g1' g2'
  have d1 : Spec.dist (((s :: scanStates (T.step ext) s us)[k + 1]).q.px, ((s :: scanStates (T.step ext) s us)[k + 1]).q.py)
      (((s :: scanStates (T.step ext) s us)[k]).q.px, ((s :: scanStates (T.step ext) s us)[k]).q.py)
      ≤ T.vMax * T.dt := by
    rw [e1, e2]; exact ref_shift hd hbox _ _ _
  have d2 : |((s :: scanStates (T.step ext) s us)[k + 1]).q.th1 - ((s :: scanStates (T.step ext) s us)[k]).q.th1|
      ≤ T.vMax * T.dt * tan (T.deltaMaxDeg * π / 180) / T.l1 := by
    rw [e3, add_sub_cancel_left]; exact dth1_le hd hbox
  have b1 := mul_le_mul_of_nonneg_left d2 (add_nonneg m1 w1)
  unfold Spec.tractorShift at h1
  simp only [mul_zero, sub_zero] at h1
  linarith

/-- **C81, tractor-trailer with shield and padding**. -/
theorem C81_safe_tt2d (T : TT2d) (ext : Ext Q4) (hs : T.shieldCollision = true)
    (hp : T.enableProjection = false) (hg : T.enableGuidance = false)
    (hsz : Spec.SidesOK T.toParams) (hd : DriveOK T.toParams)
    (hov : -T.lr ≤ T.l1 + T.lf1) (hov2 : -T.lr2 ≤ T.lf2)
    (hnt : ∀ c ∈ T.circles, Spec.NoTunnel T.toParams c)
    {p : ℝ} {cs : List Circle} {rs : List Rect} (hP : Padded p T.toParams cs rs) (hr : ∀ c ∈ cs, 0 ≤ c.r)
    (B : Budget) (hB : B.OK T.toParams)
    (s : St Q4) (h0 : Spec.SafeTT T.toParams s.q) (us : List U)
    (h1 : Spec.tractorShift T.toParams 0 / 2 + drift T.toParams us.length + B.posErr T.toParams (us.length * T.dt)
      + (max T.lr (T.l1 + T.lf1) + T.tractorWidth / 2) * B.headErr T.toParams (us.length * T.dt) ≤ p)
    (h2 : trailerSweep T.toParams / 2 + drift T.toParams us.length + B.posErr T.toParams (us.length * T.dt)
      + T.lh * B.headErr T.toParams (us.length * T.dt) + (T.l2 + max T.lr2 T.lf2 + T.trailerWidth / 2)
        * (B.trailErr T.toParams (us.length * T.dt) + trailDrift T.toParams us.length) ≤ p) (γ : ℝ → Q4)
    (hγ : Rough4 T.toParams B γ (s :: scanStates (T.step ext) s us)) (t : ℝ) (t0 : 0 ≤ t)
    (t1 : t ≤ us.length * T.dt) :
    Spec.SafeTT { T.toParams with circles := cs, rects := rs } (γ t) := by
  have m1 : 0 ≤ max T.lr (T.l1 + T.lf1) := max_nonneg_of_neg_le hov
  have m2 : 0 ≤ max T.lr2 T.lf2 := max_nonneg_of_neg_le hov2
  have w1 : 0 ≤ T.tractorWidth / 2 := by linarith [hsz.tractorWid]
  have w2 : 0 ≤ T.trailerWidth / 2 := by linarith [hsz.trailerWid]
  have hdr : 0 ≤ drift T.toParams us.length := by
    have := drift_mono hd (Nat.zero_le us.length)
    simpa [drift] using this
  have hT : 0 ≤ us.length * T.dt := mul_nonneg (by positivity) hd.dt
  have hpe : 0 ≤ B.posErr T.toParams (us.length * T.dt) := by
    have := posErr_mono hd hB le_rfl hT
    have h2 : B.posErr T.toParams 0 = B.pos := by simp [Budget.posErr]
    linarith [hB.pos]
  have hhe := mul_nonneg (add_nonneg m1 w1) (headErr_nonneg hd hB hT)
  have hsh : 0 ≤ Spec.tractorShift T.toParams 0 := by
    unfold Spec.tractorShift
    simp only [mul_zero, sub_zero]
    have := mul_nonneg (add_nonneg m1 w1) (turnStep_nonneg hd)
    have hw : 0 ≤ T.vMax * T.dt := mul_nonneg hd.v hd.dt
    unfold turnStep at this
    linarith
  have p0 : 0 ≤ p := by linarith
  have hmar : ∀ a ∈ s :: scanStates (T.step ext) s us, Margin4 p T.toParams cs rs a.q := by
    intro a ha
    rcases List.mem_cons.mp ha with rfl | ha
    · exact C74_margin_tt2d p0 hP hr h0
    · exact C74_margin_tt2d p0 hP hr (C03_solid_tt2d_partial T ext hs hp hg hsz hd hnt s h0 us a ha)
  have hlen : (s :: scanStates (T.step ext) s us).length = us.length + 1 := by
    simp [scanStates_length]
  rcases in_step hd.dt t0 t1 with rfl | ⟨k, hk, lam, l0, l1, rfl⟩
  · obtain ⟨z1, z2, z7⟩ := hγ.start s rfl
    have z3 := headErr_mono hd hB hT
    have z4 := posErr_mono hd hB le_rfl hT
    have z8 := trailErr_mono hd hB le_rfl hT
    have z9 := trailDrift_mono hd (Nat.zero_le us.length)
    rw [trailDrift_zero] at z9
    have y3 : B.headErr T.toParams 0 = B.head := by simp [Budget.headErr]
    have y4 : B.posErr T.toParams 0 = B.pos := by simp [Budget.posErr]
    have y8 : B.trailErr T.toParams 0 = B.trail := by simp [Budget.trailErr]
    rw [y3] at z3
    rw [y4] at z4
    rw [y8] at z8
    have z5 := mul_le_mul_of_nonneg_left z3 (add_nonneg m1 w1)
    have z10 := mul_le_mul_of_nonneg_left z3 hd.lh
    have z11 := mul_le_mul_of_nonneg_left (show B.trail ≤ B.trailErr T.toParams (us.length * T.dt)
      + trailDrift T.toParams us.length by linarith)
      (by linarith [hd.l2] : 0 ≤ T.l2 + max T.lr2 T.lf2 + T.trailerWidth / 2)
    have z6 : ∀ a : V2, Spec.dist a a = 0 := by intro a; simp [Spec.dist]
    have hsw : 0 ≤ trailerSweep T.toParams := by
      have hh := C09_tt2d T ext s [(0, 0)]
      simp only [scanStates, List.isChain_cons_cons] at hh
      have e2 := (euler_travel hd hsz hov (C08_tt2d T ext hp s (0, 0)) hh.1 hov2).2
      refine le_trans ?_ e2
      have := hd.lh
      have := hd.l2.le
      have : ∀ a b : V2, 0 ≤ Spec.dist a b := by intro a b; rw [dist_eq]; exact norm_nonneg _
      have := this ((T.step ext s (0, 0)).q.px, (T.step ext s (0, 0)).q.py) (s.q.px, s.q.py)
      positivity
    refine tt_near' (e := B.pos) (f := B.head) (f2 := B.trail) (lam := 0) (q := s.q) (q' := s.q) hd.lh hd.l2.le
      (add_nonneg m1 w1) (add_nonneg m2 w2) ?_ ?_ (hmar s (by simp)) (hmar s (by simp)) le_rfl
      zero_le_one (by simpa [between4, mix] using z2) (by simpa [between4, mix] using z1)
      (by simpa [between4, mix] using z7)
    · rw [z6, sub_self, abs_zero]
      linarith
    · rw [z6, sub_self, sub_self, abs_zero]
      linarith
  have ha := List.getElem?_eq_getElem (l := s :: scanStates (T.step ext) s us) (i := k) (by omega)
  have hb := List.getElem?_eq_getElem (l := s :: scanStates (T.step ext) s us) (i := k + 1) (by omega)
  obtain ⟨g1, g2, g3⟩ := C81_tt2d T ext hp hd B hB s us γ hγ k _ _ ha hb lam l0 l1
  obtain ⟨heul, hbox⟩ := chain_at (scan_isChain (step := T.step ext)
    (fun s s' : St Q4 => Spec.EulerTT T.toParams s.q s'.applied s'.q ∧ Spec.InBox s'.applied)
    (fun s a => ⟨by
      have := C09_tt2d T ext s [a]
      simp only [scanStates, List.isChain_cons_cons] at this
      exact this.1, C08_tt2d T ext hp s a⟩) us s) ha hb
  obtain ⟨e1, e2⟩ := euler_travel hd hsz hov hbox heul hov2
  have g1' := g1.trans (headErr_mono hd hB t1)
  have g2' := g2.trans (add_le_add (posErr_mono hd hB t0 t1) (drift_mono hd (show k + 1 ≤ us.length by omega)))
  have g3' := g3.trans (add_le_add (trailErr_mono hd hB t0 t1) (trailDrift_mono hd (show k + 1 ≤ us.length by omega)))
  refine tt_near' hd.lh hd.l2.le (add_nonneg m1 w1) (add_nonneg m2 w2) ?_ ?_ (hmar _ (List.getElem_mem _))
    (hmar _ (List.getElem_mem _)) l0 l1 g1' g2' g3'
  · linarith
  · linarith

/-! ## No padding, no tolerance -/

/-- **C81 fails without padding**: however small the error of the starting position, some recorded motion which is clear
of the obstacles has an execution within the budget that hits one. -/
theorem C81_unpadded_refuted (ε : ℝ) (hε : 0 < ε) : ¬ ∀ (T : Bicycle) (ext : Ext Q3), T.shieldCollision = true →
    T.enableProjection = false → T.enableGuidance = false → Spec.SidesOK T.toParams → DriveOK T.toParams →
    ∀ (s : St Q3) (us : List U), (∀ s' ∈ s :: scanStates (T.step ext) s us, Spec.SafeBicycle T.toParams s'.q) →
    ∀ γ, Rough3 T.toParams ⟨ε, 0, 0, 0, 0⟩ γ (s :: scanStates (T.step ext) s us) → ∀ t, 0 ≤ t → t ≤ us.length * T.dt →
      Spec.SafeBicycle T.toParams (γ t) := by
  intro h
  obtain ⟨e, he, he1, hle⟩ : ∃ e : ℝ, 0 < e ∧ e ≤ 1 ∧ e ≤ ε := ⟨min ε 1, lt_min hε one_pos, min_le_right _ _, min_le_left _ _⟩
  set F : ℝ := (Params.default [] []).l1 + (Params.default [] []).lf1 with hF
  set T : Bicycle := ⟨Params.default [⟨F + e / 2 + 1, 0, 1⟩] [], ⟨0, 0, 0⟩, ⟨9, 0, 0⟩⟩ with hT
  have hF' : T.l1 + T.lf1 = F := rfl
  let ext : Ext Q3 := ⟨fun _ u => u, id⟩
  have hsafe : Spec.SafeBicycle T.toParams ⟨0, 0, 0⟩ := by
    refine ⟨?_, by simp [hT, Params.default]⟩
    intro c hc b hb ho
    simp only [hT, Params.default, List.mem_singleton] at hc
    subst hc
    obtain ⟨a, d, ha1, ha2, hd, rfl⟩ := hb
    rw [hF'] at ha2
    simp only [Spec.circleRegion, Spec.disc, Spec.frame, mem_ofPred_eq, cos_zero, sin_zero] at ho
    nlinarith [sq_nonneg d]
  have happ : (T.step ext T.reset (0, 0)).applied = ((0, 0) : U) := by
    rw [Bicycle.step_applied T ext rfl rfl]
    have : clipU ((0, 0) : U) = (0, 0) := by
      unfold clipU; simp only [Prod.mk.injEq]
      exact ⟨clip_of_mem (by norm_num) (by norm_num), clip_of_mem (by norm_num) (by norm_num)⟩
    rw [this, ite_self]
  have hq : (T.step ext T.reset (0, 0)).q = ⟨0, 0, 0⟩ := by
    have := C09_bicycle T ext T.reset [(0, 0)]
    simp only [scanStates, List.isChain_cons_cons] at this
    obtain ⟨e1, e2, e3⟩ := this.1
    rw [happ] at e1 e2 e3
    have r : T.reset.q = ⟨0, 0, 0⟩ := rfl
    rw [r] at e1 e2 e3
    generalize (T.step ext T.reset (0, 0)).q = z at *
    obtain ⟨zx, zy, zt⟩ := z
    simp at e1 e2 e3
    rw [e1, e2, e3]
  have hdr : DriveOK T.toParams := default_driveOK _ _
  have := h T ext rfl rfl rfl (default_sidesOK _ _ (by
      intro c hc; simp only [List.mem_singleton] at hc; subst hc; norm_num) (by simp)) hdr T.reset [(0, 0)]
    (by
      intro s' hs'
      simp only [scanStates, List.mem_cons, List.not_mem_nil, or_false] at hs'
      rcases hs' with rfl | rfl
      · exact hsafe
      · rw [hq]; exact hsafe) (fun _ => ⟨e, 0, 0⟩)
    { start := by
        intro a ha
        simp only [List.getElem?_cons_zero, Option.some.injEq] at ha
        subst ha
        have r : T.reset.q = ⟨0, 0, 0⟩ := rfl
        rw [r]
        simpa [Spec.dist, sqrt_sq_eq_abs, abs_of_pos he] using hle
      drive := by
        intro k b hb t ht
        have hb' : b.applied = ((0, 0) : U) := by
          cases k with
          | zero =>
            simp only [scanStates, List.getElem?_cons_succ, List.getElem?_cons_zero, Option.some.injEq] at hb
            rw [← hb, happ]
          | succ k => simp [scanStates] at hb
        refine ⟨0, 0, by simp [hb'], by simp [hb'], ?_, ?_, ?_⟩ <;> simpa using hasDerivWithinAt_const _ _ _ }
    0 le_rfl (mul_nonneg (by positivity) hdr.dt)
  refine this.1 ⟨F + e / 2 + 1, 0, 1⟩ (by simp [hT, Params.default]) (e / 2 + F, 0) ⟨F - e / 2, 0, ?_, ?_, ?_, ?_⟩ ?_
  · simp only [hT, hF, Params.default]; linarith
  · rw [hF']; linarith
  · simp [hT, Params.default]
  · simp only [Spec.frame, cos_zero, sin_zero, Prod.mk.injEq]; constructor <;> ring
  · simp only [Spec.circleRegion, Spec.disc, mem_ofPred_eq]; ring_nf; norm_num

/-! ## Witnesses -/

/-- 5 cm and 0.6 degrees at the start, 5 cm/s and 0.6 degrees while driving. -/
noncomputable def someBudget : Budget := ⟨0.05, 0.01, 0.01, 0.05, 0.01⟩

theorem someBudget_tan (cs : List Circle) (rs : List Rect) :
    0 ≤ someBudget.tanMax (Params.default cs rs) ∧ someBudget.tanMax (Params.default cs rs) ≤ 1.7321 := by
  have h3 : √3 ≤ 1.7321 := by
    rw [sqrt_le_left (by norm_num)]; norm_num
  have hp := pi_gt_d2
  have e : someBudget.tanMax (Params.default cs rs) = tan (55 * π / 180 + 0.01) := rfl
  rw [e]
  constructor
  · exact tan_nonneg_of_nonneg_of_le_pi_div_two (by linarith) (by linarith)
  · refine le_trans ?_ h3
    rw [← tan_pi_div_three]
    exact (tan_lt_tan_of_lt_of_lt_pi_div_two (by linarith) (by linarith) (by linarith)).le

theorem someBudget_ok (cs : List Circle) (rs : List Rect) : someBudget.OK (Params.default cs rs) := by
  have hp := pi_gt_d2
  constructor <;> norm_num [someBudget, Params.default]
  linarith

/-- Numbers for the default vehicle and two steps. -/
theorem someBudget_err (cs : List Circle) (rs : List Rect) :
    someBudget.headErr (Params.default cs rs) 0.4 ≤ 0.036 ∧ someBudget.posErr (Params.default cs rs) 0.4 ≤ 0.12 ∧
    someBudget.trailErr (Params.default cs rs) 0.4 ≤ 0.09 := by
  obtain ⟨t0, t1⟩ := someBudget_tan cs rs
  have te : someBudget.tanErr (Params.default cs rs) ≤ 0.0401 := by
    have e : someBudget.tanErr (Params.default cs rs) = 0.01 * (1 + someBudget.tanMax (Params.default cs rs) ^ 2) := rfl
    rw [e]; nlinarith
  have te0 : 0 ≤ someBudget.tanErr (Params.default cs rs) := tanErr_nonneg (someBudget_ok cs rs)
  have hturn : someBudget.turn (Params.default cs rs) ≤ 0.0641 := by
    have e : someBudget.turn (Params.default cs rs) = (0.05 * someBudget.tanMax (Params.default cs rs)
      + 3 * someBudget.tanErr (Params.default cs rs)) / 3.23 := rfl
    rw [e, div_le_iff₀ (by norm_num)]; linarith
  have hh : someBudget.headErr (Params.default cs rs) 0.4 ≤ 0.036 := by
    have e : someBudget.headErr (Params.default cs rs) 0.4 = 0.01 + someBudget.turn (Params.default cs rs) * 0.4 := rfl
    rw [e]; linarith
  have hh0 : 0 ≤ someBudget.headErr (Params.default cs rs) 0.4 :=
    headErr_nonneg (default_driveOK cs rs) (someBudget_ok cs rs) (by norm_num)
  refine ⟨hh, ?_, ?_⟩
  · have e : someBudget.posErr (Params.default cs rs) 0.4
      = 0.05 + (0.05 + 3 * someBudget.headErr (Params.default cs rs) 0.4) * 0.4 := rfl
    rw [e]; linarith
  · have q : ∀ x : ℝ, 0 ≤ x → x ≤ 1.7321 → √(1 + (1.15 * x / 3.23) ^ 2) ≤ 1.18 := by
      intro x a b
      rw [sqrt_le_left (by norm_num)]
      have : 1.15 * x / 3.23 ≤ 0.6168 := by rw [div_le_iff₀ (by norm_num)]; linarith
      have h0 : 0 ≤ 1.15 * x / 3.23 := by positivity
      nlinarith
    have h3 : √3 ≤ 1.7321 := by
      rw [sqrt_le_left (by norm_num)]; norm_num
    have ht0 : 0 ≤ tan (55 * π / 180) := by
      have hp := pi_pos
      exact tan_nonneg_of_nonneg_of_le_pi_div_two (by positivity) (by linarith)
    have r : trailRate (Params.default cs rs) ≤ 1.2207 := by
      have e : trailRate (Params.default cs rs) = 3 / 2.9 * √(1 + (1.15 * tan (55 * π / 180) / 3.23) ^ 2) := rfl
      rw [e]
      have := q _ ht0 (tan_55_le.trans h3)
      have h2 : (3 / 2.9 : ℝ) ≤ 1.0345 := by norm_num
      nlinarith [sqrt_nonneg (1 + (1.15 * tan (55 * π / 180) / 3.23) ^ 2)]
    have r0 := trailRate_nonneg (default_driveOK cs rs)
    have tt : someBudget.trailTurn (Params.default cs rs) ≤ 0.036 := by
      have e : someBudget.trailTurn (Params.default cs rs)
        = (0.05 * √(1 + (1.15 * someBudget.tanMax (Params.default cs rs) / 3.23) ^ 2)
          + 3 * (1.15 / 3.23 * someBudget.tanErr (Params.default cs rs))) / 2.9 := rfl
      rw [e, div_le_iff₀ (by norm_num)]
      have := q _ t0 t1
      have h2 : (1.15 / 3.23 : ℝ) ≤ 0.3561 := by norm_num
      nlinarith
    have tt0 := trailTurn_nonneg (default_driveOK cs rs) (someBudget_ok cs rs)
    have e : someBudget.trailErr (Params.default cs rs) 0.4
      = (0.01 + (someBudget.trailTurn (Params.default cs rs)
        + trailRate (Params.default cs rs) * someBudget.headErr (Params.default cs rs) 0.4) * 0.4)
        * exp (trailRate (Params.default cs rs) * 0.4) := rfl
    rw [e]
    have ex : exp (trailRate (Params.default cs rs) * 0.4) ≤ 2 := by
      generalize trailRate (Params.default cs rs) = y at r
      have h1 := add_one_le_exp (-(y * 0.4))
      have h2 : exp (-(y * 0.4)) * exp (y * 0.4) = 1 := by rw [← exp_add]; simp
      nlinarith [exp_pos (y * 0.4)]
    have p1 : trailRate (Params.default cs rs) * someBudget.headErr (Params.default cs rs) 0.4 ≤ 1.2207 * 0.036 :=
      mul_le_mul r hh hh0 (by norm_num)
    have p0 := mul_nonneg r0 hh0
    calc _ ≤ 0.0420 * (2 : ℝ) := mul_le_mul (by linarith) ex (exp_pos _).le (by norm_num)
      _ ≤ _ := by norm_num

/-- An exact execution that starts a little beside the start is within the budget. -/
theorem shifted_rough {P : Params} {B : Budget} (hB : B.OK P) {γ : ℝ → Q4} {xs : List (St Q4)}
    (h : Continuous4 P γ xs) {c : ℝ} (hc : |c| ≤ B.pos) : Rough4 P B (fun t => { γ t with py := (γ t).py + c }) xs where
  start := by
    intro a ha
    simp only
    rw [h.start a ha]
    refine ⟨?_, by simpa using hB.head, by simpa using hB.trail⟩
    simpa [Spec.dist, sqrt_sq_eq_abs] using hc
  drive := by
    intro k b hb t ht
    obtain ⟨d1, d2⟩ := h.drive k b hb
    exact ⟨_, _, by simpa using hB.speed, by simpa using hB.steer, d1.x t ht, (d1.y t ht).add_const _, d1.th t ht,
      d2 t ht⟩

/-- The default tractor-trailer, a pole of radius 1 m, padded by 5 m. -/
noncomputable def robustTT : TT2d :=
  { toParams := Params.default [⟨20, 0, 1 + 5⟩] [], x0 := ⟨0, 0, 0, 0⟩, xg := ⟨9, 0, 0, 0⟩ }

theorem robust_far (a rear front width : ℝ) (h : a + front < 14) :
    Spec.Apart (Spec.body (a, 0) 0 rear front width) (Spec.circleRegion ⟨20, 0, 1 + 5⟩) := by
  rintro p ⟨s, t, h1, h2, h3, rfl⟩ hd
  have hd' : (a + s - 20) ^ 2 + t ^ 2 ≤ (1 + 5) ^ 2 := by
    simpa [Spec.circleRegion, Spec.disc, Spec.frame] using hd
  nlinarith [sq_nonneg t]

theorem robustTT_safe : Spec.SafeTT robustTT.toParams robustTT.reset.q := by
  refine ⟨?_, by simp [robustTT, Params.default]⟩
  intro c hc
  simp only [robustTT, Params.default, List.mem_singleton] at hc
  subst hc
  constructor
  · exact robust_far _ _ _ _ (by norm_num [robustTT, TT2d.reset, Params.default])
  · unfold Spec.trailerBody
    have : Spec.trailerAxle robustTT.toParams robustTT.reset.q = (-4.05, 0) := by
      unfold Spec.trailerAxle Spec.frame
      simp [robustTT, TT2d.reset, Params.default]; norm_num
    rw [this]
    exact robust_far _ _ _ _ (by norm_num [robustTT, TT2d.reset, Params.default])

/-- Any two actions of the default tractor-trailer; there is such an execution, 5 cm beside the planned path. -/
example (ext : Ext Q4) (u w : U) :
    (∃ γ, Rough4 robustTT.toParams someBudget γ
      (robustTT.reset :: scanStates (robustTT.step ext) robustTT.reset [u, w]) ∧ γ 0 = ⟨0, 0.05, 0, 0⟩) ∧
    ∀ γ, Rough4 robustTT.toParams someBudget γ
      (robustTT.reset :: scanStates (robustTT.step ext) robustTT.reset [u, w]) →
    ∀ t, 0 ≤ t → t ≤ 2 * 0.2 → Spec.SafeTT (Params.default [⟨20, 0, 1⟩] []) (γ t) := by
  constructor
  · obtain ⟨γ, hγ⟩ := C75_exists_tt2d robustTT.toParams (by norm_num [robustTT, Params.default])
      (robustTT.reset :: scanStates (robustTT.step ext) robustTT.reset [u, w])
    refine ⟨_, shifted_rough (someBudget_ok _ _) hγ (c := 0.05) (by norm_num [someBudget]), ?_⟩
    rw [hγ.start _ rfl]
    simp [TT2d.reset, robustTT]
  intro γ hγ t t0 t1
  have hc : ∀ c ∈ robustTT.circles, Spec.NoTunnel robustTT.toParams c := fun c hc => default_noTunnel _ _ c (by
    simp only [robustTT, Params.default, List.mem_singleton] at hc; subst hc; norm_num)
  have h1 : Spec.tractorShift robustTT.toParams 0 ≤ 3 ∧ trailerSweep robustTT.toParams ≤ 3 := default_travel _ _
  have h2 : drift robustTT.toParams [u, w].length ≤ 0.2 ∧ trailDrift robustTT.toParams [u, w].length ≤ 0.16 :=
    default_drift _ _
  have hl : (([u, w].length : ℕ) : ℝ) * robustTT.dt = 0.4 := by
    norm_num [robustTT, Params.default]
  obtain ⟨b1, b2, b3⟩ : someBudget.headErr robustTT.toParams 0.4 ≤ 0.036 ∧
    someBudget.posErr robustTT.toParams 0.4 ≤ 0.12 ∧ someBudget.trailErr robustTT.toParams 0.4 ≤ 0.09 :=
    someBudget_err _ _
  refine C81_safe_tt2d robustTT ext rfl rfl rfl (margin_sides _ (by norm_num)) (default_driveOK _ _)
    (by norm_num [robustTT, Params.default]) (by norm_num [robustTT, Params.default]) hc (pole_padded 5 _ rfl)
    (by intro c hc; simp only [List.mem_singleton] at hc; subst hc; norm_num) someBudget (someBudget_ok _ _)
    robustTT.reset robustTT_safe [u, w] ?_ ?_ γ hγ t t0 (by rw [hl]; linarith)
  · rw [hl]
    have m : max robustTT.lr (robustTT.l1 + robustTT.lf1) + robustTT.tractorWidth / 2 = 5.13 := by
      have : max (1.848 : ℝ) (3.23 + 0.9) = 4.13 := by rw [max_eq_right] <;> norm_num
      simp only [robustTT, Params.default]
      rw [this]; norm_num
    rw [m]
    linarith [h1.1, h2.1]
  · rw [hl]
    have m : robustTT.l2 + max robustTT.lr2 robustTT.lf2 + robustTT.trailerWidth / 2 = 7.375 := by
      have : max (3.225 : ℝ) 1.42 = 3.225 := max_eq_left (by norm_num)
      simp only [robustTT, Params.default]
      rw [this]; norm_num
    have m2 : robustTT.lh = 1.15 := rfl
    rw [m, m2]
    linarith [h1.2, h2.1, h2.2]

/-- The default bicycle. -/
noncomputable def robustBike : Bicycle := ⟨robustTT.toParams, ⟨0, 0, 0⟩, ⟨9, 0, 0⟩⟩

example (ext : Ext Q3) (u w : U) (γ : ℝ → Q3) (hγ : Rough3 robustBike.toParams someBudget γ
      (robustBike.reset :: scanStates (robustBike.step ext) robustBike.reset [u, w])) (t : ℝ) (t0 : 0 ≤ t)
    (t1 : t ≤ 2 * 0.2) : Spec.SafeBicycle (Params.default [⟨20, 0, 1⟩] []) (γ t) := by
  have h1 : Spec.tractorShift robustBike.toParams 0 ≤ 3 := (default_travel _ _).1
  have h2 : drift robustBike.toParams [u, w].length ≤ 0.2 := (default_drift _ _).1
  have hl : (([u, w].length : ℕ) : ℝ) * robustBike.dt = 0.4 := by
    norm_num [robustBike, robustTT, Params.default]
  obtain ⟨b1, b2, -⟩ : someBudget.headErr robustBike.toParams 0.4 ≤ 0.036 ∧
    someBudget.posErr robustBike.toParams 0.4 ≤ 0.12 ∧ someBudget.trailErr robustBike.toParams 0.4 ≤ 0.09 :=
    someBudget_err _ _
  refine C81_safe_bicycle robustBike ext rfl rfl rfl (margin_sides _ (by norm_num)) (default_driveOK _ _)
    (by norm_num [robustBike, robustTT, Params.default]) (pole_padded 5 _ rfl)
    (by intro c hc; simp only [List.mem_singleton] at hc; subst hc; norm_num) someBudget (someBudget_ok _ _)
    robustBike.reset ⟨fun c hc => (robustTT_safe.1 c hc).1, fun o ho => (robustTT_safe.2 o ho).1⟩ [u, w] ?_ γ hγ t t0
    (by rw [hl]; linarith)
  rw [hl]
  have m : max robustBike.lr (robustBike.l1 + robustBike.lf1) + robustBike.tractorWidth / 2 = 5.13 := by
    have : max (1.848 : ℝ) (3.23 + 0.9) = 4.13 := by rw [max_eq_right] <;> norm_num
    simp only [robustBike, robustTT, Params.default]
    rw [this]; norm_num
  rw [m]
  linarith

example := fun ext us γ hγ => C81_bicycle robustBike ext rfl (default_driveOK _ _) someBudget (someBudget_ok _ _)
  robustBike.reset us γ hγ

example := fun ext us γ hγ => C81_tt2d robustTT ext rfl (default_driveOK _ _) someBudget (someBudget_ok _ _)
  robustTT.reset us γ hγ

end Mbd
