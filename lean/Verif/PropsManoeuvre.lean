import Verif.PropsShield
import Verif.PropsShape
import Verif.PropsSafe
import Mathlib.Analysis.SpecialFunctions.Trigonometric.Bounds
import Mathlib.Analysis.Real.Pi.Bounds

/-! # C87: constant commands give the textbook manoeuvres -/

namespace Spec

open Real Mbd

/-- The vehicle drives around without an obstacle in reach of any check. -/
def OpenField (P : Params) : Prop := P.circles = [] ∧ P.rects = []

/-- Distance driven per step, in units of the trailer's length. -/
noncomputable def trailerGain (P : Params) (a : ℝ) : ℝ := P.dt * (a * P.vMax) / P.l2

/-- The state after `n` steps of the same command. -/
noncomputable def hold {Q : Type} (step : St Q → U → St Q) (s : St Q) (u : U) (n : ℕ) : St Q :=
  (fun s => step s u)^[n] s

/-- Turning radius of a bicycle with wheelbase `l` and steering angle `δ`. -/
noncomputable def turnRadius (l δ : ℝ) : ℝ := l / |tan δ|

end Spec

namespace Mbd

open Real Classical _root_.Spec

theorem hold_succ {Q : Type} (step : St Q → U → St Q) (s : St Q) (u : U) (n : ℕ) :
    Spec.hold step s u (n + 1) = step (Spec.hold step s u n) u := by
  unfold Spec.hold; rw [Function.iterate_succ_apply']

/-- `hold` is the last state of a rollout of the repeated command. -/
theorem hold_rollout {Q : Type} (step : St Q → U → St Q) (s : St Q) (u : U) (n : ℕ) :
    Spec.hold step s u n = finalState step s (List.replicate n u) := by
  induction n generalizing s with
  | zero => rfl
  | succ n ih =>
    rw [List.replicate_succ, finalState, ← ih]
    unfold Spec.hold; rw [Function.iterate_succ_apply]

/-! ## driving straight: the law of the hitch angle -/

theorem angle_of_diff {a b c d x : ℝ} (h : a - b = c - d - x * sin (c - d)) (hx : |x| ≤ 1) :
    Spec.angle a b = Spec.angle c d - x * sin (Spec.angle c d) := by
  obtain ⟨h1, h2⟩ := angle_mem c d
  have hs : sin (Spec.angle c d) ≤ π - Spec.angle c d := by
    rw [← sin_pi_sub]; exact sin_le (by linarith)
  have hs0 : 0 ≤ sin (Spec.angle c d) := sin_nonneg_of_nonneg_of_le_pi h1 h2
  have hs1 : sin (Spec.angle c d) ≤ Spec.angle c d := sin_le h1
  obtain ⟨hx1, hx2⟩ := abs_le.mp hx
  have lo : 0 ≤ Spec.angle c d - x * sin (Spec.angle c d) := by nlinarith
  have hi : Spec.angle c d - x * sin (Spec.angle c d) ≤ π := by nlinarith
  have key : cos (a - b) = cos (Spec.angle c d - x * sin (Spec.angle c d)) := by
    rw [h]
    have e := abs_wrapPi_angle c d
    obtain ⟨k, hk⟩ := wrapPi_congr (c - d)
    have hc : c - d = wrapPi (c - d) + 2 * π * ((-k : ℤ) : ℝ) := by rw [hk]; push_cast; ring
    have hsin : sin (c - d) = sin (wrapPi (c - d)) := by
      rw [hk, mul_comm (2 * π)]; exact (sin_add_int_mul_two_pi _ _).symm
    rw [hsin]
    have h3 : c - d - x * sin (wrapPi (c - d)) =
      (wrapPi (c - d) - x * sin (wrapPi (c - d))) + ((-k : ℤ) : ℝ) * (2 * π) := by
      linear_combination hc
    rw [h3, cos_add_int_mul_two_pi]
    rcases le_total 0 (wrapPi (c - d)) with hw | hw
    · rw [abs_of_nonneg hw] at e; rw [e]
    · rw [abs_of_nonpos hw] at e
      rw [← e, ← cos_neg, sin_neg]; congr 1; ring
  unfold Spec.angle at key lo hi ⊢
  rw [key, arccos_cos lo hi]

/-- **C87**: with the wheels straight one step changes the hitch angle `φ` to `φ - k sin φ`, where
`k` is the distance driven (negative in reverse) in trailer lengths, and leaves the tractor's
heading alone. -/
theorem C87_step (P : Params) (q q' : Q4) (a : ℝ) (hk : |Spec.trailerGain P a| ≤ 1)
    (h : Spec.EulerTT P q (a, 0) q') :
    q'.th1 = q.th1 ∧
    Spec.angle q'.th1 q'.th2 =
      Spec.angle q.th1 q.th2 - Spec.trailerGain P a * sin (Spec.angle q.th1 q.th2) := by
  obtain ⟨-, -, h3, h4⟩ := h
  simp only [zero_mul, tan_zero, mul_zero, add_zero, sub_zero] at h3 h4
  refine ⟨h3, angle_of_diff ?_ hk⟩
  rw [h3, h4]; unfold Spec.trailerGain; ring

example : ∃ q', Spec.EulerTT Wit.params ⟨0, 0, 0.3, 0⟩ ((1 : ℝ), (0 : ℝ)) q' ∧
    |Spec.trailerGain Wit.params 1| ≤ 1 :=
  ⟨_, (eulerTT_iff ..).mpr rfl, by
    unfold Spec.trailerGain Wit.params Params.default; norm_num [abs_le]⟩

/-! ## the position and hitch angle under the shields -/

theorem clipU_of_mem {u : U} (h : Spec.InBox u) : clipU u = u := by
  obtain ⟨h1, h2⟩ := abs_le.mp h.1
  obtain ⟨h3, h4⟩ := abs_le.mp h.2
  unfold clipU; rw [clip_of_mem h1 h2, clip_of_mem h3 h4]

/-- One step of the plain (shielded or naive) simulator as a function of the pose. -/
noncomputable def poseStep (T : TT2d) (u : U) (q : Q4) : Q4 :=
  if T.rejects (TT2d.euler T.toParams q (T.inputScaler u)) then q
  else TT2d.euler T.toParams q (T.inputScaler u)

theorem hold_q (T : TT2d) (ext : Ext Q4) (hp : T.enableProjection = false)
    (hg : T.enableGuidance = false) (s : St Q4) (hb : s.inBackup = false) (u : U) (n : ℕ) :
    (Spec.hold (T.step ext) s u n).inBackup = false ∧
    (Spec.hold (T.step ext) s u n).q = (poseStep T (clipU u))^[n] s.q := by
  induction n with
  | zero => exact ⟨hb, rfl⟩
  | succ n ih =>
    rw [hold_succ]
    refine ⟨by rw [TT2d.step_inBackup]; exact ih.1, ?_⟩
    rw [TT2d.step_q T ext hp hg, TT2d.proposal, ih.1, effAction_false, ih.2,
      Function.iterate_succ_apply']
    rfl

theorem rejects_open {T : TT2d} (ho : Spec.OpenField T.toParams) (q : Q4) :
    T.rejects q ↔ T.shieldHitch = true ∧ T.phiMax < Spec.angle q.th1 q.th2 := by
  unfold TT2d.rejects TT2d.checkObstacle TT2d.checkHitch
  rw [ho.1, ho.2, abs_wrapPi_angle]
  simp

theorem sin_chord {x : ℝ} (h0 : 0 ≤ x) (h1 : x ≤ deg2rad 40) : 0.9 * x ≤ sin x := by
  unfold deg2rad at h1
  have h2 : x ≤ 0.7 := by
    have := pi_lt_d2; linarith
  have h3 := sin_ge_sub_cube h0
  have h4 : x ^ 2 ≤ 0.49 := by nlinarith
  have h5 : x ^ 3 ≤ 0.49 * x := by
    calc x ^ 3 = x ^ 2 * x := by ring
      _ ≤ 0.49 * x := mul_le_mul_of_nonneg_right h4 h0
  linarith

theorem poseStep_euler (T : TT2d) (u : U) (q : Q4) :
    poseStep T u q = q ∨ (Spec.EulerTT T.toParams q u (poseStep T u q) ∧
      ¬ T.rejects (poseStep T u q)) := by
  unfold poseStep
  by_cases h : T.rejects (TT2d.euler T.toParams q (T.inputScaler u))
  · left; rw [if_pos h]
  · right; rw [if_neg h]; exact ⟨(eulerTT_iff ..).mpr rfl, h⟩

theorem trailerGain_nonneg {P : Params} (hdt : 0 ≤ P.dt) (hv : 0 ≤ P.vMax) (hl : 0 < P.l2) {a : ℝ}
    (ha : 0 ≤ a) : 0 ≤ Spec.trailerGain P a := by
  unfold Spec.trailerGain; positivity

/-- **C87**: driving straight ahead never folds the trailer further, whatever the map and the
shields do. -/
theorem C87_never_worse (T : TT2d) (ext : Ext Q4) (hp : T.enableProjection = false)
    (hg : T.enableGuidance = false) (s : St Q4) (hb : s.inBackup = false) (hdt : 0 ≤ T.dt)
    (hv : 0 ≤ T.vMax) (hl : 0 < T.l2) {a : ℝ} (ha : 0 ≤ a) (ha1 : a ≤ 1)
    (hk : Spec.trailerGain T.toParams a ≤ 1) (n : ℕ) :
    let q := (Spec.hold (T.step ext) s (a, 0) n).q
    let q' := (Spec.hold (T.step ext) s (a, 0) (n + 1)).q
    Spec.angle q'.th1 q'.th2 ≤ Spec.angle q.th1 q.th2 := by
  have k0 := trailerGain_nonneg (P := T.toParams) hdt hv hl ha
  have hu : clipU ((a, 0) : U) = (a, 0) := clipU_of_mem ⟨by
    simp only [abs_le]; constructor <;> linarith, by simp⟩
  simp only [(hold_q T ext hp hg s hb _ _).2, hu, Function.iterate_succ_apply']
  generalize (poseStep T (a, 0))^[n] s.q = q
  rcases poseStep_euler T (a, 0) q with h | ⟨h, -⟩
  · rw [h]
  · rw [(C87_step _ _ _ a (abs_le.mpr ⟨by linarith, hk⟩) h).2]
    have := angle_mem q.th1 q.th2
    have := mul_nonneg k0 (sin_nonneg_of_nonneg_of_le_pi this.1 this.2)
    linarith

/-- **C87**: on open ground, driving straight ahead from any pose within the hitch limit, every
command is carried out, the tractor runs along its line at the commanded speed and the hitch angle
dies out geometrically. -/
theorem C87_forward (T : TT2d) (ext : Ext Q4) (hp : T.enableProjection = false)
    (hg : T.enableGuidance = false) (ho : Spec.OpenField T.toParams) (s : St Q4)
    (hb : s.inBackup = false) (hdt : 0 ≤ T.dt) (hv : 0 ≤ T.vMax) (hl : 0 < T.l2) {a : ℝ}
    (ha : 0 ≤ a) (ha1 : a ≤ 1) (hk : Spec.trailerGain T.toParams a ≤ 1)
    (hs : Spec.angle s.q.th1 s.q.th2 ≤ deg2rad 40) (n : ℕ) :
    let q := (Spec.hold (T.step ext) s (a, 0) n).q
    q.px = s.q.px + n * (T.dt * (a * T.vMax)) * cos s.q.th1 ∧
    q.py = s.q.py + n * (T.dt * (a * T.vMax)) * sin s.q.th1 ∧
    q.th1 = s.q.th1 ∧
    Spec.angle q.th1 q.th2 ≤
      (1 - 0.9 * Spec.trailerGain T.toParams a) ^ n * Spec.angle s.q.th1 s.q.th2 := by
  have k0 := trailerGain_nonneg (P := T.toParams) hdt hv hl ha
  have hu : clipU ((a, 0) : U) = (a, 0) := clipU_of_mem ⟨by
    simp only [abs_le]; constructor <;> linarith, by simp⟩
  simp only [(hold_q T ext hp hg s hb _ _).2, hu]
  induction n with
  | zero => simp
  | succ n ih =>
    rw [Function.iterate_succ_apply']
    generalize (poseStep T (a, 0))^[n] s.q = q at ih ⊢
    obtain ⟨i1, i2, i3, i4⟩ := ih
    have r1 : 1 - 0.9 * Spec.trailerGain T.toParams a ≤ 1 := by linarith
    have r0 : 0 ≤ 1 - 0.9 * Spec.trailerGain T.toParams a := by linarith
    have am := angle_mem s.q.th1 s.q.th2
    have aq := angle_mem q.th1 q.th2
    have hq : Spec.angle q.th1 q.th2 ≤ deg2rad 40 := by
      have : (1 - 0.9 * Spec.trailerGain T.toParams a) ^ n ≤ 1 := pow_le_one₀ r0 r1
      nlinarith
    have he : Spec.EulerTT T.toParams q (a, 0) (TT2d.euler T.toParams q (T.inputScaler (a, 0))) :=
      (eulerTT_iff ..).mpr rfl
    have hst := C87_step _ _ _ a (abs_le.mpr ⟨by linarith, hk⟩) he
    have sc := sin_chord aq.1 hq
    have ks := mul_le_mul_of_nonneg_left sc k0
    have dec : Spec.angle (TT2d.euler T.toParams q (T.inputScaler (a, 0))).th1
        (TT2d.euler T.toParams q (T.inputScaler (a, 0))).th2 ≤
        (1 - 0.9 * Spec.trailerGain T.toParams a) * Spec.angle q.th1 q.th2 := by
      rw [hst.2]; linarith
    have nr : ¬ T.rejects (TT2d.euler T.toParams q (T.inputScaler (a, 0))) := by
      rw [rejects_open ho]
      intro h
      have h2 : deg2rad 40 < _ := h.2
      have := mul_le_mul_of_nonneg_right r1 aq.1
      linarith
    have hps : poseStep T (a, 0) q = TT2d.euler T.toParams q (T.inputScaler (a, 0)) := if_neg nr
    rw [hps]
    obtain ⟨e1, e2, -, -⟩ := he
    refine ⟨?_, ?_, hst.1.trans i3, dec.trans ?_⟩
    · rw [e1, i1, i3]; push_cast; ring
    · rw [e2, i2, i3]; push_cast; ring
    · calc _ ≤ (1 - 0.9 * Spec.trailerGain T.toParams a) *
          ((1 - 0.9 * Spec.trailerGain T.toParams a) ^ n * Spec.angle s.q.th1 s.q.th2) :=
          mul_le_mul_of_nonneg_left i4 r0
        _ = _ := by ring

/-- Commands that must make progress or be refused stall sooner or later. -/
theorem stalls {Q : Type} (F : Q → Q) (g : Q → ℝ) (up : ℝ → ℝ) (hup : Monotone up) (B : ℝ)
    (Inv : Q → Prop) (hI : ∀ q, Inv q → Inv (F q)) (hB : ∀ q, Inv q → g q ≤ B)
    (hF : ∀ q, Inv q → F q = q ∨ up (g q) ≤ g (F q)) (q : Q) (hq : Inv q) (N : ℕ)
    (hN : B < up^[N] (g q)) : ∀ n, N ≤ n → F^[n] q = F^[N] q := by
  have inv : ∀ n, Inv (F^[n] q) := by
    intro n; induction n with
    | zero => exact hq
    | succ n ih => rw [Function.iterate_succ_apply']; exact hI _ ih
  have alt : ∀ n, up^[n] (g q) ≤ g (F^[n] q) ∨ ∃ m, m < n ∧ F (F^[m] q) = F^[m] q := by
    intro n; induction n with
    | zero => left; exact le_refl _
    | succ n ih =>
      rcases ih with h | ⟨m, hm, h⟩
      · rcases hF _ (inv n) with h' | h'
        · right; exact ⟨n, by omega, h'⟩
        · left
          rw [Function.iterate_succ_apply', Function.iterate_succ_apply']
          exact (hup h).trans h'
      · right; exact ⟨m, by omega, h⟩
  rcases alt N with h | ⟨m, hm, h⟩
  · exact absurd (h.trans (hB _ (inv N))) (not_le.mpr hN)
  · have fix : ∀ j, F^[m + j] q = F^[m] q := by
      intro j; induction j with
      | zero => rfl
      | succ j ih => rw [← Nat.add_assoc, Function.iterate_succ_apply', ih, h]
    intro n hn
    rw [show n = m + (n - m) by omega, fix, show N = m + (N - m) by omega, fix]

theorem iterate_mul (r x : ℝ) (n : ℕ) : (fun y => r * y)^[n] x = r ^ n * x := by
  induction n with
  | zero => simp
  | succ n ih => rw [Function.iterate_succ_apply', ih]; ring

theorem iterate_add (c x : ℝ) (n : ℕ) : (fun y => y + c)^[n] x = x + n * c := by
  induction n with
  | zero => simp
  | succ n ih => rw [Function.iterate_succ_apply', ih]; push_cast; ring

theorem poseStep_angle {T : TT2d} (hsh : T.shieldHitch = true) {u : U} {q : Q4}
    (h : Spec.angle q.th1 q.th2 ≤ deg2rad 40) :
    Spec.angle (poseStep T u q).th1 (poseStep T u q).th2 ≤ deg2rad 40 := by
  rcases poseStep_euler T u q with h' | ⟨-, h'⟩
  · rw [h']; exact h
  · by_contra hc
    apply h'; right
    refine ⟨hsh, ?_⟩
    unfold TT2d.checkHitch
    rw [abs_wrapPi_angle]
    exact not_le.mp hc

/-- **C87**: reversing with the wheels straight folds the trailer at a geometric rate, so with the
hitch shield on the vehicle comes to a halt, on every map: as soon as `(1 + 0.9 k)^N` times the
initial hitch angle exceeds the limit, it has stopped for good, still within the limit. -/
theorem C87_reverse (T : TT2d) (ext : Ext Q4) (hp : T.enableProjection = false)
    (hg : T.enableGuidance = false) (hsh : T.shieldHitch = true) (s : St Q4)
    (hb : s.inBackup = false) (hdt : 0 ≤ T.dt) (hv : 0 ≤ T.vMax) (hl : 0 < T.l2) {a : ℝ}
    (ha : 0 ≤ a) (ha1 : a ≤ 1) (hk : Spec.trailerGain T.toParams a ≤ 1)
    (hs : Spec.angle s.q.th1 s.q.th2 ≤ deg2rad 40) (N : ℕ)
    (hN : deg2rad 40 <
      (1 + 0.9 * Spec.trailerGain T.toParams a) ^ N * Spec.angle s.q.th1 s.q.th2) (n : ℕ)
    (hn : N ≤ n) :
    let q := (Spec.hold (T.step ext) s (-a, 0) n).q
    q = (Spec.hold (T.step ext) s (-a, 0) N).q ∧ Spec.angle q.th1 q.th2 ≤ deg2rad 40 := by
  have k0 := trailerGain_nonneg (P := T.toParams) hdt hv hl ha
  have hu : clipU ((-a, 0) : U) = (-a, 0) := clipU_of_mem ⟨by
    simp only [abs_neg, abs_le]; constructor <;> linarith, by simp⟩
  have ek : Spec.trailerGain T.toParams (-a) = -Spec.trailerGain T.toParams a := by
    unfold Spec.trailerGain; ring
  have inv : ∀ q : Q4, Spec.angle q.th1 q.th2 ≤ deg2rad 40 →
      Spec.angle (poseStep T (-a, 0) q).th1 (poseStep T (-a, 0) q).th2 ≤ deg2rad 40 :=
    fun q h => poseStep_angle hsh h
  simp only [(hold_q T ext hp hg s hb _ _).2, hu]
  constructor
  · refine stalls (poseStep T (-a, 0)) (fun q => Spec.angle q.th1 q.th2)
      (fun y => (1 + 0.9 * Spec.trailerGain T.toParams a) * y) ?_ (deg2rad 40)
      (fun q => Spec.angle q.th1 q.th2 ≤ deg2rad 40) inv (fun q h => h) ?_ s.q hs N ?_ n hn
    · intro x y h; exact mul_le_mul_of_nonneg_left h (by linarith)
    · intro q hq
      rcases poseStep_euler T (-a, 0) q with h | ⟨h, -⟩
      · exact Or.inl h
      · right
        have := (C87_step _ _ _ (-a) (by rw [ek, abs_neg, abs_of_nonneg k0]; exact hk) h).2
        rw [this, ek]
        have := mul_le_mul_of_nonneg_left (sin_chord (angle_mem q.th1 q.th2).1 hq) k0
        linarith
    · rw [iterate_mul]; exact hN
  · induction n with
    | zero => exact hs
    | succ n ih =>
      have all : ∀ m, Spec.angle ((poseStep T (-a, 0))^[m] s.q).th1
          ((poseStep T (-a, 0))^[m] s.q).th2 ≤ deg2rad 40 := by
        intro m; induction m with
        | zero => exact hs
        | succ m ih => rw [Function.iterate_succ_apply']; exact inv _ ih
      exact all _

/-- **C87**: hence any non-zero initial hitch angle makes straight reversing end in a permanent halt. -/
theorem C87_reverse_halts (T : TT2d) (ext : Ext Q4) (hp : T.enableProjection = false)
    (hg : T.enableGuidance = false) (hsh : T.shieldHitch = true) (s : St Q4)
    (hb : s.inBackup = false) (hdt : 0 < T.dt) (hv : 0 < T.vMax) (hl : 0 < T.l2) {a : ℝ}
    (ha : 0 < a) (ha1 : a ≤ 1) (hk : Spec.trailerGain T.toParams a ≤ 1)
    (h0 : 0 < Spec.angle s.q.th1 s.q.th2) (hs : Spec.angle s.q.th1 s.q.th2 ≤ deg2rad 40) :
    ∃ N, ∀ n, N ≤ n →
      (Spec.hold (T.step ext) s (-a, 0) n).q = (Spec.hold (T.step ext) s (-a, 0) N).q := by
  have k0 : 0 < Spec.trailerGain T.toParams a := by unfold Spec.trailerGain; positivity
  obtain ⟨N, hN⟩ := pow_unbounded_of_one_lt (deg2rad 40 / Spec.angle s.q.th1 s.q.th2)
    (show 1 < 1 + 0.9 * Spec.trailerGain T.toParams a by linarith)
  rw [div_lt_iff₀ h0] at hN
  exact ⟨N, fun n hn => (C87_reverse T ext hp hg hsh s hb hdt.le hv.le hl ha.le ha1 hk hs N hN n hn).1⟩
/-! ## witnesses -/

/-- The default tractor-trailer on open ground, starting with a hitch angle of `0.3`. -/
noncomputable def openTT : TT2d :=
  { toParams := Params.default [] [], x0 := ⟨0, 0, 0.3, 0⟩, xg := ⟨0, 0, 0, 0⟩ }

theorem openTT_angle : Spec.angle openTT.reset.q.th1 openTT.reset.q.th2 = 0.3 := by
  unfold Spec.angle openTT TT2d.reset
  rw [sub_zero, arccos_cos (by norm_num) (by linarith [pi_gt_three])]

theorem openTT_limit : Spec.angle openTT.reset.q.th1 openTT.reset.q.th2 ≤ deg2rad 40 := by
  rw [openTT_angle]; unfold deg2rad; linarith [pi_gt_three]

theorem openTT_gain : Spec.trailerGain openTT.toParams 1 = 6 / 29 := by
  unfold Spec.trailerGain openTT Params.default; norm_num

example := fun ext => C87_never_worse openTT ext rfl rfl openTT.reset rfl
  (by norm_num [openTT, Params.default]) (by norm_num [openTT, Params.default])
  (by norm_num [openTT, Params.default]) zero_le_one le_rfl (by rw [openTT_gain]; norm_num)

example := fun ext => C87_forward openTT ext rfl rfl ⟨rfl, rfl⟩ openTT.reset rfl
  (by norm_num [openTT, Params.default]) (by norm_num [openTT, Params.default])
  (by norm_num [openTT, Params.default]) zero_le_one le_rfl (by rw [openTT_gain]; norm_num)
  openTT_limit

/-- Straight reversing at full speed with a hitch angle of `0.3` is over after six steps. -/
example := fun ext => C87_reverse openTT ext rfl rfl rfl openTT.reset rfl
  (by norm_num [openTT, Params.default]) (by norm_num [openTT, Params.default])
  (by norm_num [openTT, Params.default]) zero_le_one le_rfl (by rw [openTT_gain]; norm_num)
  openTT_limit 6 (by
    rw [openTT_gain, openTT_angle]; unfold deg2rad
    have := pi_lt_d2
    have e : (2.5 : ℝ) ≤ (1 + 0.9 * (6 / 29)) ^ 6 := by norm_num
    linarith)

example := fun ext => C87_reverse_halts openTT ext rfl rfl rfl openTT.reset rfl
  (by norm_num [openTT, Params.default]) (by norm_num [openTT, Params.default])
  (by norm_num [openTT, Params.default]) zero_lt_one le_rfl (by rw [openTT_gain]; norm_num)
  (by rw [openTT_angle]; norm_num) openTT_limit

/-! ## turning -/

/-- Heading change per step. -/
noncomputable def turnStep (P : Params) (u : U) : ℝ :=
  P.dt * (u.1 * P.vMax / P.l1 * tan (u.2 * (P.deltaMaxDeg * π / 180)))

/-- Signed radius of the circle through the successive positions. -/
noncomputable def chordRadius (P : Params) (u : U) : ℝ :=
  P.dt * (u.1 * P.vMax) / (2 * sin (turnStep P u / 2))

theorem centre_const {x y t s w ρ : ℝ} (h : s = ρ * (2 * sin (w / 2))) :
    x + s * cos t - ρ * sin (t + w - w / 2) = x - ρ * sin (t - w / 2) ∧
    y + s * sin t + ρ * cos (t + w - w / 2) = y + ρ * cos (t - w / 2) := by
  have e : t + w - w / 2 = t + w / 2 := by ring
  rw [e, sin_add, sin_sub, cos_add, cos_sub, h]
  constructor <;> ring

theorem ratio_bounds {x : ℝ} (h0 : 0 < x) (h1 : x ≤ 1) :
    1 ≤ x / sin x ∧ x / sin x ≤ 1 + x ^ 2 / 3 := by
  have hs := sin_pos_of_pos_of_le_one h0 h1
  have hc := sin_ge_sub_cube h0.le
  refine ⟨(one_le_div hs).mpr (sin_le h0.le), (div_le_iff₀ hs).mpr ?_⟩
  have h2 : x ^ 2 ≤ 1 := by nlinarith
  have h3 : 0 ≤ x ^ 3 := by positivity
  have : x ≤ (1 + x ^ 2 / 3) * (x - x ^ 3 / 6) := by
    have e : (1 + x ^ 2 / 3) * (x - x ^ 3 / 6) = x + x ^ 3 * (1 / 6 - x ^ 2 / 18) := by ring
    rw [e]
    have := mul_nonneg h3 (show 0 ≤ 1 / 6 - x ^ 2 / 18 by linarith)
    linarith
  exact this.trans (mul_le_mul_of_nonneg_left hc (by positivity))

theorem ratio_even (x : ℝ) : x / sin x = |x| / sin |x| := by
  rcases le_total 0 x with h | h
  · rw [abs_of_nonneg h]
  · rw [abs_of_nonpos h, sin_neg, neg_div_neg_eq]

/-- The signed radius is the textbook one up to a factor between `1` and `1 + ω²/12`. -/
theorem chordRadius_eq {P : Params} (hl : 0 < P.l1) {u : U} (hw : turnStep P u ≠ 0)
    (hw2 : |turnStep P u| ≤ 2) :
    ∃ f, 1 ≤ f ∧ f ≤ 1 + turnStep P u ^ 2 / 12 ∧
      chordRadius P u = f * (P.l1 / tan (u.2 * (P.deltaMaxDeg * π / 180))) ∧
      tan (u.2 * (P.deltaMaxDeg * π / 180)) ≠ 0 ∧ sin (turnStep P u / 2) ≠ 0 := by
  have ht : tan (u.2 * (P.deltaMaxDeg * π / 180)) ≠ 0 := by
    intro h; apply hw; unfold turnStep; rw [h]; ring
  have hb := ratio_bounds (x := |turnStep P u / 2|) (by positivity)
    (by rw [abs_div, abs_two]; linarith)
  rw [← ratio_even, sq_abs] at hb
  have hs : sin (turnStep P u / 2) ≠ 0 := by
    intro h
    rw [h, div_zero] at hb; linarith [hb.1]
  refine ⟨_, hb.1, by have := hb.2; linarith [this, (by ring : (turnStep P u / 2) ^ 2 / 3 = turnStep P u ^ 2 / 12)], ?_, ht, hs⟩
  unfold chordRadius
  have e : P.dt * (u.1 * P.vMax) = turnStep P u * (P.l1 / tan (u.2 * (P.deltaMaxDeg * π / 180))) := by
    unfold turnStep
    generalize tan (u.2 * (P.deltaMaxDeg * π / 180)) = τ at ht
    field_simp
  rw [e]
  generalize tan (u.2 * (P.deltaMaxDeg * π / 180)) = τ at ht
  field_simp

/-- Centre of the turn, seen from the pose `(x, y, t)`. -/
noncomputable def turnCentre (P : Params) (u : U) (x y t : ℝ) : V2 :=
  (x - chordRadius P u * sin (t - turnStep P u / 2), y + chordRadius P u * cos (t - turnStep P u / 2))

theorem turnCentre_dist (P : Params) (u : U) (x y t : ℝ) :
    Spec.dist (x, y) (turnCentre P u x y t) = |chordRadius P u| := by
  unfold Spec.dist turnCentre
  rw [← sqrt_sq_eq_abs]
  congr 1
  have := sin_sq_add_cos_sq (t - turnStep P u / 2)
  simp only
  linear_combination (chordRadius P u) ^ 2 * this

theorem turnCentre_step {P : Params} {u : U} (hs : sin (turnStep P u / 2) ≠ 0) (x y t : ℝ) :
    turnCentre P u (x + P.dt * (u.1 * P.vMax * cos t)) (y + P.dt * (u.1 * P.vMax * sin t))
      (t + turnStep P u) = turnCentre P u x y t := by
  have h : P.dt * (u.1 * P.vMax) = chordRadius P u * (2 * sin (turnStep P u / 2)) := by
    unfold chordRadius; field_simp
  have := centre_const (x := x) (y := y) (t := t) h
  unfold turnCentre
  rw [Prod.mk.injEq]
  constructor
  · rw [← this.1]; ring
  · rw [← this.2]; ring

/-- The tractor part of a pose advances by the commanded step or not at all. -/
theorem circle_orbit {P : Params} {u : U} (hl : 0 < P.l1) (hw : turnStep P u ≠ 0)
    (hw2 : |turnStep P u| ≤ 2) (x y t : ℕ → ℝ)
    (h : ∀ n, (x (n + 1) = x n ∧ y (n + 1) = y n ∧ t (n + 1) = t n) ∨
      (x (n + 1) = x n + P.dt * (u.1 * P.vMax * cos (t n)) ∧
       y (n + 1) = y n + P.dt * (u.1 * P.vMax * sin (t n)) ∧ t (n + 1) = t n + turnStep P u)) :
    ∃ (c : V2) (r : ℝ),
      Spec.turnRadius P.l1 (u.2 * (P.deltaMaxDeg * π / 180)) ≤ r ∧
      r ≤ (1 + turnStep P u ^ 2 / 12) * Spec.turnRadius P.l1 (u.2 * (P.deltaMaxDeg * π / 180)) ∧
      0 < tan (u.2 * (P.deltaMaxDeg * π / 180)) *
        ((c.2 - y 0) * cos (t 0) - (c.1 - x 0) * sin (t 0)) ∧
      (∀ n, Spec.dist (x n, y n) c = r) ∧
      ∀ n, ∃ m : ℕ, m ≤ n ∧ t n = t 0 + m * turnStep P u := by
  obtain ⟨f, f1, f2, hf, ht, hs⟩ := chordRadius_eq hl hw hw2
  have hR : |chordRadius P u| = f * Spec.turnRadius P.l1 (u.2 * (P.deltaMaxDeg * π / 180)) := by
    unfold Spec.turnRadius
    rw [hf, abs_mul, abs_div, abs_of_pos hl, abs_of_nonneg (by linarith : 0 ≤ f)]
  have hR0 : 0 ≤ Spec.turnRadius P.l1 (u.2 * (P.deltaMaxDeg * π / 180)) := by
    unfold Spec.turnRadius; positivity
  refine ⟨turnCentre P u (x 0) (y 0) (t 0), |chordRadius P u|, ?_, ?_, ?_, ?_, ?_⟩
  · rw [hR]; nlinarith
  · rw [hR]; nlinarith
  · unfold turnCentre
    have e : (y 0 + chordRadius P u * cos (t 0 - turnStep P u / 2) - y 0) * cos (t 0) -
        (x 0 - chordRadius P u * sin (t 0 - turnStep P u / 2) - x 0) * sin (t 0) =
        chordRadius P u * cos (turnStep P u / 2) := by
      have : cos (turnStep P u / 2) = cos (t 0 - (t 0 - turnStep P u / 2)) := by congr 1; ring
      rw [this, cos_sub (t 0) (t 0 - turnStep P u / 2)]; ring
    simp only
    rw [e, hf]
    have hc : 0 < cos (turnStep P u / 2) := by
      apply cos_pos_of_mem_Ioo
      have := abs_le.mp hw2
      have := pi_gt_three
      constructor <;> linarith
    have : tan (u.2 * (P.deltaMaxDeg * π / 180)) * (f * (P.l1 / tan (u.2 * (P.deltaMaxDeg * π / 180)))
        * cos (turnStep P u / 2)) = f * P.l1 * cos (turnStep P u / 2) := by
      clear hf hR hR0
      generalize tan (u.2 * (P.deltaMaxDeg * π / 180)) = τ at ht
      field_simp
    rw [this]; positivity
  · intro n
    have hc : turnCentre P u (x n) (y n) (t n) = turnCentre P u (x 0) (y 0) (t 0) := by
      induction n with
      | zero => rfl
      | succ n ih =>
        rcases h n with ⟨h1, h2, h3⟩ | ⟨h1, h2, h3⟩
        · rw [h1, h2, h3, ih]
        · rw [h1, h2, h3, turnCentre_step hs, ih]
    rw [← hc, turnCentre_dist]
  · intro n
    induction n with
    | zero => exact ⟨0, le_refl _, by simp⟩
    | succ n ih =>
      obtain ⟨m, hm, e⟩ := ih
      rcases h n with ⟨-, -, h3⟩ | ⟨-, -, h3⟩
      · exact ⟨m, by omega, by rw [h3, e]⟩
      · exact ⟨m + 1, by omega, by rw [h3, e]; push_cast; ring⟩

theorem step_stays_or_drives (T : TT2d) (ext : Ext Q4) (hp : T.enableProjection = false) (s : St Q4)
    (u : U) (hu : Spec.InBox u) :
    (T.step ext s u).q = s.q ∨ Spec.EulerTT T.toParams s.q u (T.step ext s u).q := by
  have hpr : T.proposal s u = s.q ∨ Spec.EulerTT T.toParams s.q u (T.proposal s u) := by
    unfold TT2d.proposal
    cases s.inBackup
    · right; rw [effAction_false, clipU_of_mem hu]; exact (eulerTT_iff ..).mpr rfl
    · left; exact TT2d.euler_zero _ _
  cases hg : T.enableGuidance
  · rw [TT2d.step_q T ext hp hg]
    by_cases h : T.rejects (T.proposal s u)
    · left; rw [if_pos h]
    · rw [if_neg h]; exact hpr
  · rw [(TT2d.step_guided T ext hp hg s u).1]; exact hpr

/-- **C87**: holding any command with the wheels turned, on any map and with or without shields and
guidance, the tractor's rear axle stays on one circle for ever.  Its radius is the textbook
`l1 / tan δ` up to a factor `1 + ω²/12`, where `ω` is the heading change per step; its centre is on
the side the wheels point to; and every heading is a whole number of such changes away from the
first. -/
theorem C87_circle (T : TT2d) (ext : Ext Q4) (hp : T.enableProjection = false) (s : St Q4) (u : U)
    (hu : Spec.InBox u) (hl : 0 < T.l1) {ω δ : ℝ} (hδ : δ = u.2 * (T.deltaMaxDeg * π / 180))
    (hω : ω = T.dt * (u.1 * T.vMax / T.l1 * tan δ)) (hω0 : ω ≠ 0) (hω2 : |ω| ≤ 2) :
    ∃ (c : V2) (r : ℝ), Spec.turnRadius T.l1 δ ≤ r ∧
      r ≤ (1 + ω ^ 2 / 12) * Spec.turnRadius T.l1 δ ∧
      0 < tan δ * ((c.2 - s.q.py) * cos s.q.th1 - (c.1 - s.q.px) * sin s.q.th1) ∧
      ∀ n, let q := (Spec.hold (T.step ext) s u n).q
        Spec.dist (q.px, q.py) c = r ∧ ∃ m : ℕ, m ≤ n ∧ q.th1 = s.q.th1 + m * ω := by
  subst hδ
  have e : ω = turnStep T.toParams u := hω
  subst e
  obtain ⟨c, r, h1, h2, h3, h4, h5⟩ := circle_orbit (P := T.toParams) (u := u) hl hω0 hω2
    (fun n => (Spec.hold (T.step ext) s u n).q.px) (fun n => (Spec.hold (T.step ext) s u n).q.py)
    (fun n => (Spec.hold (T.step ext) s u n).q.th1) (by
      intro n
      simp only [hold_succ]
      rcases step_stays_or_drives T ext hp (Spec.hold (T.step ext) s u n) u hu with h | h
      · left; rw [h]; exact ⟨rfl, rfl, rfl⟩
      · right; exact ⟨h.1, h.2.1, h.2.2.1⟩)
  exact ⟨c, r, h1, h2, h3, fun n => ⟨h4 n, h5 n⟩⟩

theorem step_stays_or_drives_bicycle (T : Bicycle) (ext : Ext Q3) (hp : T.enableProjection = false)
    (s : St Q3) (u : U) (hu : Spec.InBox u) :
    (T.step ext s u).q = s.q ∨ Spec.EulerBicycle T.toParams s.q u (T.step ext s u).q := by
  have hpr : T.proposal s u = s.q ∨ Spec.EulerBicycle T.toParams s.q u (T.proposal s u) := by
    unfold Bicycle.proposal
    cases s.inBackup
    · right; rw [effAction_false, clipU_of_mem hu]; exact (eulerBicycle_iff ..).mpr rfl
    · left; exact Bicycle.euler_zero _ _
  cases hg : T.enableGuidance
  · rw [Bicycle.step_q T ext hp hg]
    by_cases h : T.rejects (T.proposal s u)
    · left; rw [if_pos h]
    · rw [if_neg h]; exact hpr
  · rw [(Bicycle.step_guided T ext hp hg s u).1]; exact hpr

/-- **C87**, bicycle. -/
theorem C87_circle_bicycle (T : Bicycle) (ext : Ext Q3) (hp : T.enableProjection = false) (s : St Q3)
    (u : U) (hu : Spec.InBox u) (hl : 0 < T.l1) {ω δ : ℝ}
    (hδ : δ = u.2 * (T.deltaMaxDeg * π / 180))
    (hω : ω = T.dt * (u.1 * T.vMax / T.l1 * tan δ)) (hω0 : ω ≠ 0) (hω2 : |ω| ≤ 2) :
    ∃ (c : V2) (r : ℝ), Spec.turnRadius T.l1 δ ≤ r ∧
      r ≤ (1 + ω ^ 2 / 12) * Spec.turnRadius T.l1 δ ∧
      0 < tan δ * ((c.2 - s.q.py) * cos s.q.th1 - (c.1 - s.q.px) * sin s.q.th1) ∧
      ∀ n, let q := (Spec.hold (T.step ext) s u n).q
        Spec.dist (q.px, q.py) c = r ∧ ∃ m : ℕ, m ≤ n ∧ q.th1 = s.q.th1 + m * ω := by
  subst hδ
  have e : ω = turnStep T.toParams u := hω
  subst e
  obtain ⟨c, r, h1, h2, h3, h4, h5⟩ := circle_orbit (P := T.toParams) (u := u) hl hω0 hω2
    (fun n => (Spec.hold (T.step ext) s u n).q.px) (fun n => (Spec.hold (T.step ext) s u n).q.py)
    (fun n => (Spec.hold (T.step ext) s u n).q.th1) (by
      intro n
      simp only [hold_succ]
      rcases step_stays_or_drives_bicycle T ext hp (Spec.hold (T.step ext) s u n) u hu with h | h
      · left; rw [h]; exact ⟨rfl, rfl, rfl⟩
      · right; exact ⟨h.1, h.2.1, h.2.2⟩)
  exact ⟨c, r, h1, h2, h3, fun n => ⟨h4 n, h5 n⟩⟩
/-! ## steady turns -/

/-- The hitch angle `φ` balances the steering angle `δ`. -/
def SteadyTurn (P : Params) (φ δ : ℝ) : Prop :=
  sin φ - P.lh / P.l1 * cos φ * tan δ = P.l2 / P.l1 * tan δ

theorem steady_step {P : Params} (hl2 : P.l2 ≠ 0) {q q' : Q4} {u : U}
    (h : Spec.EulerTT P q u q')
    (hφ : SteadyTurn P (q.th1 - q.th2) (u.2 * (P.deltaMaxDeg * π / 180))) :
    q'.th1 - q'.th2 = q.th1 - q.th2 := by
  obtain ⟨-, -, h3, h4⟩ := h
  unfold SteadyTurn at hφ
  rw [hφ] at h4
  rw [h3, h4]
  have : u.1 * P.vMax / P.l2 * (P.l2 / P.l1 * tan (u.2 * (P.deltaMaxDeg * π / 180))) =
      u.1 * P.vMax / P.l1 * tan (u.2 * (P.deltaMaxDeg * π / 180)) := by
    generalize tan (u.2 * (P.deltaMaxDeg * π / 180)) = τ
    field_simp
  rw [this]; ring

/-- Trailer axle seen from a pose whose hitch angle is `φ`, relative to the turn centre: it turns
with the tractor. -/
theorem trailer_radius (P : Params) (u : U) (q : Q4) {φ : ℝ} (h : q.th1 - q.th2 = φ) :
    Spec.dist (Spec.trailerAxle P q) (turnCentre P u q.px q.py q.th1) =
      √((chordRadius P u * sin (turnStep P u / 2) + P.lh + P.l2 * cos φ) ^ 2 +
        (chordRadius P u * cos (turnStep P u / 2) - P.l2 * sin φ) ^ 2) := by
  have h2 : q.th2 = q.th1 - φ := by linarith
  unfold Spec.dist turnCentre Spec.trailerAxle Spec.frame
  congr 1
  rw [h2]
  have e1 := sin_sq_add_cos_sq q.th1
  generalize hA : -(chordRadius P u * sin (turnStep P u / 2) + P.lh + P.l2 * cos φ) = A
  generalize hB : -(chordRadius P u * cos (turnStep P u / 2) - P.l2 * sin φ) = B
  have hA' : chordRadius P u * sin (turnStep P u / 2) + P.lh + P.l2 * cos φ = -A := by
    rw [← hA]; ring
  have hB' : chordRadius P u * cos (turnStep P u / 2) - P.l2 * sin φ = -B := by
    rw [← hB]; ring
  rw [hA', hB']
  have X : q.px + -P.lh * cos q.th1 - 0 * sin q.th1 + -P.l2 * cos (q.th1 - φ) -
      0 * sin (q.th1 - φ) - (q.px - chordRadius P u * sin (q.th1 - turnStep P u / 2)) =
      A * cos q.th1 - B * sin q.th1 := by
    rw [cos_sub, sin_sub, sin_sub, ← hA, ← hB]; ring
  have Y : q.py + -P.lh * sin q.th1 + 0 * cos q.th1 + -P.l2 * sin (q.th1 - φ) +
      0 * cos (q.th1 - φ) - (q.py + chordRadius P u * cos (q.th1 - turnStep P u / 2)) =
      A * sin q.th1 + B * cos q.th1 := by
    rw [cos_sub, sin_sub, cos_sub, ← hA, ← hB]; ring
  simp only
  rw [X, Y]
  linear_combination (A ^ 2 + B ^ 2) * e1

/-- **C87**: on open ground, from a pose whose hitch angle balances the steering, the vehicle turns
as one rigid body: every command is carried out, the hitch angle stays exactly what it was, and the
trailer's axle follows a circle about the same centre as the tractor's. -/
theorem C87_steady (T : TT2d) (ext : Ext Q4) (hp : T.enableProjection = false)
    (hg : T.enableGuidance = false) (ho : Spec.OpenField T.toParams) (s : St Q4)
    (hb : s.inBackup = false) (u : U) (hu : Spec.InBox u) (hl : 0 < T.l1) (hl2 : T.l2 ≠ 0)
    (hs : Spec.angle s.q.th1 s.q.th2 ≤ deg2rad 40) {φ ω δ : ℝ} (hφ : φ = s.q.th1 - s.q.th2)
    (hδ : δ = u.2 * (T.deltaMaxDeg * π / 180))
    (hω : ω = T.dt * (u.1 * T.vMax / T.l1 * tan δ)) (hω0 : ω ≠ 0) (hω2 : |ω| ≤ 2)
    (hst : sin φ - T.lh / T.l1 * cos φ * tan δ = T.l2 / T.l1 * tan δ) :
    ∃ (c : V2) (r r' : ℝ), ∀ n : ℕ, let q := (Spec.hold (T.step ext) s u n).q
      q.th1 = s.q.th1 + n * ω ∧ q.th1 - q.th2 = φ ∧
      Spec.dist (q.px, q.py) c = r ∧ Spec.dist (Spec.trailerAxle T.toParams q) c = r' := by
  subst hδ hφ
  have e : ω = turnStep T.toParams u := hω
  subst e
  obtain ⟨f, -, -, -, -, hsin⟩ := chordRadius_eq (P := T.toParams) hl hω0 hω2
  refine ⟨turnCentre T.toParams u s.q.px s.q.py s.q.th1, |chordRadius T.toParams u|,
    √((chordRadius T.toParams u * sin (turnStep T.toParams u / 2) + T.lh +
          T.l2 * cos (s.q.th1 - s.q.th2)) ^ 2 +
        (chordRadius T.toParams u * cos (turnStep T.toParams u / 2) -
          T.l2 * sin (s.q.th1 - s.q.th2)) ^ 2), ?_⟩
  intro n
  simp only [(hold_q T ext hp hg s hb _ _).2, clipU_of_mem hu]
  have key : ((poseStep T u)^[n] s.q).th1 = s.q.th1 + n * turnStep T.toParams u ∧
      ((poseStep T u)^[n] s.q).th1 - ((poseStep T u)^[n] s.q).th2 = s.q.th1 - s.q.th2 ∧
      turnCentre T.toParams u ((poseStep T u)^[n] s.q).px ((poseStep T u)^[n] s.q).py
        ((poseStep T u)^[n] s.q).th1 = turnCentre T.toParams u s.q.px s.q.py s.q.th1 := by
    induction n with
    | zero => simp
    | succ n ih =>
      rw [Function.iterate_succ_apply']
      generalize (poseStep T u)^[n] s.q = q at ih ⊢
      obtain ⟨i1, i2, i3⟩ := ih
      have he : Spec.EulerTT T.toParams q u (TT2d.euler T.toParams q (T.inputScaler u)) :=
        (eulerTT_iff ..).mpr rfl
      have hd := steady_step hl2 he (by unfold SteadyTurn; rw [i2]; exact hst)
      have nr : ¬ T.rejects (TT2d.euler T.toParams q (T.inputScaler u)) := by
        rw [rejects_open ho]
        rintro ⟨-, h⟩
        have e : Spec.angle (TT2d.euler T.toParams q (T.inputScaler u)).th1
          (TT2d.euler T.toParams q (T.inputScaler u)).th2 = Spec.angle s.q.th1 s.q.th2 := by
          unfold Spec.angle; rw [hd, i2]
        rw [e] at h
        exact absurd h (not_lt.mpr hs)
      have hps : poseStep T u q = TT2d.euler T.toParams q (T.inputScaler u) := if_neg nr
      rw [hps]
      generalize TT2d.euler T.toParams q (T.inputScaler u) = q' at he hd nr
      obtain ⟨e1, e2, e3, -⟩ := he
      have e3' : q'.th1 = q.th1 + turnStep T.toParams u := e3
      refine ⟨?_, hd.trans i2, ?_⟩
      · rw [e3', i1]; push_cast; ring
      · rw [e1, e2, e3', turnCentre_step hsin, i3]
  obtain ⟨k1, k2, k3⟩ := key
  refine ⟨k1, k2, ?_, ?_⟩
  · rw [← k3, turnCentre_dist]
  · rw [← k3, trailer_radius _ _ _ k2]

/-- **C87**: a balancing hitch angle exists exactly when the steering is gentle enough for the
trailer's length. -/
theorem C87_steady_exists (P : Params) (hl : 0 < P.l1) (δ : ℝ) :
    (∃ φ, sin φ - P.lh / P.l1 * cos φ * tan δ = P.l2 / P.l1 * tan δ) ↔
      (P.l2 ^ 2 - P.lh ^ 2) * tan δ ^ 2 ≤ P.l1 ^ 2 := by
  set b := P.lh / P.l1 * tan δ with hb
  set d := P.l2 / P.l1 * tan δ with hd
  have hl' := hl.ne'
  have hiff : (P.l2 ^ 2 - P.lh ^ 2) * tan δ ^ 2 ≤ P.l1 ^ 2 ↔ d ^ 2 ≤ 1 + b ^ 2 := by
    have e : d ^ 2 - b ^ 2 = (P.l2 ^ 2 - P.lh ^ 2) * tan δ ^ 2 / P.l1 ^ 2 := by
      rw [hb, hd]; generalize tan δ = τ; field_simp
    rw [show (d ^ 2 ≤ 1 + b ^ 2) ↔ (d ^ 2 - b ^ 2 ≤ 1) by constructor <;> intro h <;> linarith, e,
      div_le_one (by positivity)]
  rw [hiff]
  constructor
  · rintro ⟨φ, h⟩
    have h' : sin φ - b * cos φ = d := by rw [← h, hb]; ring
    rw [← h']
    nlinarith [sq_nonneg (b * sin φ + cos φ), sin_sq_add_cos_sq φ]
  · intro h
    have hr : 0 < √(1 + b ^ 2) := by positivity
    have hsq : √(1 + b ^ 2) ^ 2 = 1 + b ^ 2 := sq_sqrt (by positivity)
    refine ⟨arcsin (d / √(1 + b ^ 2)) + arctan b, ?_⟩
    have ha := abs_le.mp (abs_le_of_sq_le_sq (show d ^ 2 ≤ √(1 + b ^ 2) ^ 2 by rw [hsq]; exact h) hr.le)
    have hs : sin (arcsin (d / √(1 + b ^ 2))) = d / √(1 + b ^ 2) :=
      sin_arcsin (by rw [le_div_iff₀ hr]; linarith) (by rw [div_le_iff₀ hr]; linarith)
    rw [sin_add, cos_add, hs, sin_arctan, cos_arctan]
    rw [show ∀ x, P.lh / P.l1 * x * tan δ = b * x by intro x; rw [hb]; ring]
    generalize cos (arcsin (d / √(1 + b ^ 2))) = C
    generalize √(1 + b ^ 2) = R at hr hsq
    field_simp
    rw [hsq]; ring
theorem tan55_range : 1 ≤ tan (55 * π / 180) ∧ tan (55 * π / 180) ≤ 1.7321 := by
  have hp := pi_pos
  refine ⟨?_, tan_55_le.trans (by rw [sqrt_le_left (by norm_num)]; norm_num)⟩
  rw [← tan_pi_div_four]
  exact (tan_lt_tan_of_lt_of_lt_pi_div_two (by linarith) (by linarith) (by linarith)).le

theorem openTT_turn : openTT.dt * ((1 : ℝ) * openTT.vMax / openTT.l1 *
    tan ((1 : ℝ) * (openTT.deltaMaxDeg * π / 180))) ≠ 0 ∧
    |openTT.dt * ((1 : ℝ) * openTT.vMax / openTT.l1 *
      tan ((1 : ℝ) * (openTT.deltaMaxDeg * π / 180)))| ≤ 2 := by
  obtain ⟨h1, h2⟩ := tan55_range
  have e : openTT.dt * ((1 : ℝ) * openTT.vMax / openTT.l1 *
      tan ((1 : ℝ) * (openTT.deltaMaxDeg * π / 180))) = 60 / 323 * tan (55 * π / 180) := by
    unfold openTT Params.default; norm_num; ring
  rw [e]
  constructor
  · positivity
  · rw [abs_of_nonneg (by positivity)]; linarith

/-- Full lock at full speed. -/
example := fun ext => C87_circle openTT ext rfl openTT.reset (1, 1) ⟨by simp, by simp⟩
  (by norm_num [openTT, Params.default]) rfl rfl openTT_turn.1 openTT_turn.2

/-- The default bicycle at full lock and full speed. -/
example := fun ext => C87_circle_bicycle
  { toParams := Params.default [⟨20, 0, 1⟩] [], x0 := ⟨0, 0, 0⟩, xg := ⟨9, 0, 0⟩ } ext rfl
  { q := ⟨0, 0, 0⟩, obs := ⟨0, 0, 0⟩, reward := 0, done := 0, applied := (0, 0), inBackup := false }
  (1, 1) ⟨by simp, by simp⟩
  (by norm_num [Params.default]) rfl rfl openTT_turn.1 openTT_turn.2

/-- Steering that balances a hitch angle of `0.3`. -/
noncomputable def gentleTan : ℝ := sin 0.3 / (2.9 / 3.23 + 1.15 / 3.23 * cos 0.3)

noncomputable def gentle : ℝ := arctan gentleTan / (55 * π / 180)

theorem gentle_facts : 0 < gentleTan ∧ gentleTan ≤ 0.4 ∧ |gentle| ≤ 1 ∧
    tan (gentle * (55 * π / 180)) = gentleTan := by
  have s0 : 0 < sin (0.3 : ℝ) := sin_pos_of_pos_of_le_one (by norm_num) (by norm_num)
  have s1 : sin (0.3 : ℝ) ≤ 0.3 := sin_le (by norm_num)
  have c0 : 0 < cos (0.3 : ℝ) := cos_pos_of_mem_Ioo ⟨by linarith [pi_gt_three], by linarith [pi_gt_three]⟩
  have hp := pi_gt_three
  have g0 : 0 < gentleTan := by unfold gentleTan; positivity
  have g1 : gentleTan ≤ 0.4 := by
    unfold gentleTan
    rw [div_le_iff₀ (by positivity)]; nlinarith
  refine ⟨g0, g1, ?_, ?_⟩
  · unfold gentle
    have a0 : 0 < arctan gentleTan := arctan_pos.mpr g0
    have a1 : arctan gentleTan ≤ gentleTan := by
      have := lt_tan a0 (arctan_lt_pi_div_two _)
      rw [tan_arctan] at this; exact this.le
    rw [abs_of_nonneg (by positivity), div_le_one (by positivity)]
    linarith
  · unfold gentle
    rw [div_mul_cancel₀ _ (by positivity), tan_arctan]

/-- A steady left turn at full speed with a hitch angle of `0.3`. -/
example := fun ext => C87_steady openTT ext rfl rfl ⟨rfl, rfl⟩ openTT.reset rfl (1, gentle)
  ⟨by simp, gentle_facts.2.2.1⟩
  (by norm_num [openTT, Params.default]) (by norm_num [openTT, Params.default]) openTT_limit
  (φ := 0.3) (δ := gentle * (55 * π / 180)) (ω := 0.2 * (1 * 3 / 3.23 * gentleTan))
  (by simp [openTT, TT2d.reset]) rfl
  (by rw [gentle_facts.2.2.2]; rfl) (by have := gentle_facts.1; positivity)
  (by
    have h1 := gentle_facts.1
    rw [abs_of_nonneg (by positivity)]; linarith [gentle_facts.2.1])
  (by
    rw [gentle_facts.2.2.2]
    have c0 : 0 < cos (0.3 : ℝ) :=
      cos_pos_of_mem_Ioo ⟨by linarith [pi_gt_three], by linarith [pi_gt_three]⟩
    have h : gentleTan * (2.9 / 3.23 + 1.15 / 3.23 * cos 0.3) = sin 0.3 := by
      unfold gentleTan; rw [div_mul_cancel₀ _ (by positivity)]
    have e1 : openTT.l1 = 3.23 := rfl
    have e2 : openTT.l2 = 2.9 := rfl
    have e3 : openTT.lh = 1.15 := rfl
    rw [e1, e2, e3]
    linarith)

/-! ## locking up in a turn -/

theorem locked_euler {P : Params} (hdt : 0 ≤ P.dt) (hv : 0 ≤ P.vMax)
    (hl : 0 < P.l1) (hl2 : 0 < P.l2) (hh : 0 ≤ P.lh) {u : U} (ha : 0 ≤ u.1) {σ τ m : ℝ}
    (hσ : σ = 1 ∨ σ = -1) (hτ : 0 ≤ τ)
    (htan : tan (u.2 * (P.deltaMaxDeg * π / 180)) = σ * τ)
    (hm : m = (P.l2 + P.lh * cos (deg2rad 40)) / P.l1 * τ - sin (deg2rad 40)) (hm0 : 0 ≤ m)
    (hbig : Spec.trailerGain P u.1 * ((P.l2 + P.lh) / P.l1 * τ + 1) ≤ π) {q q' : Q4}
    (hq : Spec.angle q.th1 q.th2 ≤ deg2rad 40) (hq' : Spec.angle q'.th1 q'.th2 ≤ deg2rad 40)
    (h : Spec.EulerTT P q u q') :
    σ * wrapPi (q.th1 - q.th2) + Spec.trailerGain P u.1 * m ≤ σ * wrapPi (q'.th1 - q'.th2) := by
  have k0 := trailerGain_nonneg (P := P) hdt hv hl2 ha
  obtain ⟨-, -, h3, h4⟩ := h
  rw [htan] at h3 h4
  rw [← abs_wrapPi_angle] at hq hq'
  set w := wrapPi (q.th1 - q.th2) with hw
  set k := Spec.trailerGain P u.1 with hk
  have p1 := pi_gt_three
  have d40 : deg2rad 40 = 2 * π / 9 := by unfold deg2rad; ring
  obtain ⟨j, hj⟩ := wrapPi_congr (q.th1 - q.th2)
  rw [← hw] at hj
  have hsin : sin (q.th1 - q.th2) = sin w := by
    rw [hj, mul_comm (2 * π)]; exact (sin_add_int_mul_two_pi _ _).symm
  have hcos : cos (q.th1 - q.th2) = cos w := by
    rw [hj, mul_comm (2 * π)]; exact (cos_add_int_mul_two_pi _ _).symm
  rw [hsin, hcos] at h4
  -- the increment
  obtain ⟨inc, hinc⟩ : ∃ inc, inc = k * ((P.l2 + P.lh * cos w) / P.l1 * τ - σ * sin w) := ⟨_, rfl⟩
  have σσ : σ * σ = 1 := by rcases hσ with rfl | rfl <;> norm_num
  have hdiff : q'.th1 - q'.th2 = (w + σ * inc) + 2 * π * ((-j : ℤ) : ℝ) := by
    rw [h3, h4, hinc, hk]
    have hl' := hl.ne'
    have hl2' := hl2.ne'
    have e : q.th1 - q.th2 = w - 2 * π * j := by rw [hj]; ring
    unfold Spec.trailerGain
    push_cast
    have : P.dt * (u.1 * P.vMax / P.l1 * (σ * τ)) - P.dt * (u.1 * P.vMax / P.l2 *
        (sin w - P.lh / P.l1 * cos w * (σ * τ))) = σ * (P.dt * (u.1 * P.vMax) / P.l2 *
        ((P.l2 + P.lh * cos w) / P.l1 * τ - σ * sin w)) := by
      have e2 : σ * (P.dt * (u.1 * P.vMax) / P.l2 *
        ((P.l2 + P.lh * cos w) / P.l1 * τ - σ * sin w)) = P.dt * (u.1 * P.vMax) / P.l2 *
        (σ * ((P.l2 + P.lh * cos w) / P.l1 * τ) - (σ * σ) * sin w) := by ring
      rw [e2, σσ]
      field_simp
      ring
    linarith
  have hsw : |σ * sin w| = |sin w| := by rcases hσ with rfl | rfl <;> simp
  have hcw : cos (deg2rad 40) ≤ cos w := by
    rw [← cos_abs w]
    exact cos_le_cos_of_nonneg_of_le_pi (abs_nonneg _) (by rw [d40]; linarith) hq
  have hsin40 : |sin w| ≤ sin (deg2rad 40) := by
    obtain ⟨a1, a2⟩ := abs_le.mp hq
    rw [abs_le, ← sin_neg]
    exact ⟨sin_le_sin_of_le_of_le_pi_div_two (by rw [d40]; linarith) (by linarith [d40 ▸ a2]) a1,
      sin_le_sin_of_le_of_le_pi_div_two (by linarith [d40 ▸ a1]) (by rw [d40]; linarith) a2⟩
  have inc_lo : k * m ≤ inc := by
    rw [hinc, hm]
    apply mul_le_mul_of_nonneg_left _ k0
    have g1 : (P.l2 + P.lh * cos (deg2rad 40)) / P.l1 * τ ≤ (P.l2 + P.lh * cos w) / P.l1 * τ := by
      gcongr
    have g2 : σ * sin w ≤ sin (deg2rad 40) := (le_abs_self _).trans (hsw.le.trans hsin40)
    linarith
  have inc_hi : inc ≤ π := by
    refine le_trans ?_ hbig
    rw [hinc]
    apply mul_le_mul_of_nonneg_left _ k0
    have g1 : (P.l2 + P.lh * cos w) / P.l1 * τ ≤ (P.l2 + P.lh) / P.l1 * τ := by
      have : P.lh * cos w ≤ P.lh := mul_le_of_le_one_right hh (cos_le_one _)
      gcongr
    have g2 : -(1 : ℝ) ≤ σ * sin w := by
      have := neg_abs_le (σ * sin w)
      rw [hsw] at this
      linarith [abs_sin_le_one w]
    linarith
  have inc0 : 0 ≤ inc := le_trans (mul_nonneg k0 hm0) inc_lo
  -- no wrap
  have wr : wrapPi (q'.th1 - q'.th2) = wrapPi (w + σ * inc) := by rw [hdiff, wrapPi_add_turns]
  rw [wr] at hq' ⊢
  obtain ⟨i, hi⟩ := wrapPi_congr (w + σ * inc)
  obtain ⟨a1, a2⟩ := abs_le.mp hq
  obtain ⟨b1, b2⟩ := abs_le.mp hq'
  have i0 : i = 0 := by
    have c1 : |w + σ * inc| ≤ deg2rad 40 + π := by
      have : |σ * inc| = inc := by
        rcases hσ with rfl | rfl <;> simp [abs_of_nonneg inc0]
      calc _ ≤ |w| + |σ * inc| := abs_add_le _ _
        _ ≤ _ := by rw [this]; linarith
    have c2 : |2 * π * (i : ℝ)| < 2 * π := by
      have e : 2 * π * (i : ℝ) = wrapPi (w + σ * inc) - (w + σ * inc) := by rw [hi]; ring
      rw [e]
      calc _ ≤ |wrapPi (w + σ * inc)| + |w + σ * inc| := abs_sub _ _
        _ ≤ deg2rad 40 + (deg2rad 40 + π) := add_le_add hq' c1
        _ < 2 * π := by rw [d40]; linarith
    rw [abs_mul, abs_of_pos (by positivity : 0 < 2 * π)] at c2
    have c3 : |(i : ℝ)| < 1 := by
      by_contra hc
      nlinarith [not_lt.mp hc]
    have c4 : |i| < 1 := by exact_mod_cast c3
    exact Int.abs_lt_one_iff.mp c4
  rw [i0] at hi
  simp only [Int.cast_zero, mul_zero, add_zero] at hi
  rw [hi]
  have : σ * (w + σ * inc) = σ * w + inc := by linear_combination inc * σσ
  linarith

theorem locked_step {T : TT2d} (hsh : T.shieldHitch = true) (hdt : 0 ≤ T.dt) (hv : 0 ≤ T.vMax)
    (hl : 0 < T.l1) (hl2 : 0 < T.l2) (hh : 0 ≤ T.lh) {u : U} (ha : 0 ≤ u.1) {σ τ m : ℝ}
    (hσ : σ = 1 ∨ σ = -1) (hτ : 0 ≤ τ)
    (htan : tan (u.2 * (T.deltaMaxDeg * π / 180)) = σ * τ)
    (hm : m = (T.l2 + T.lh * cos (deg2rad 40)) / T.l1 * τ - sin (deg2rad 40)) (hm0 : 0 ≤ m)
    (hbig : Spec.trailerGain T.toParams u.1 * ((T.l2 + T.lh) / T.l1 * τ + 1) ≤ π) {q : Q4}
    (hq : Spec.angle q.th1 q.th2 ≤ deg2rad 40) :
    poseStep T u q = q ∨ σ * wrapPi (q.th1 - q.th2) + Spec.trailerGain T.toParams u.1 * m ≤
      σ * wrapPi ((poseStep T u q).th1 - (poseStep T u q).th2) := by
  rcases poseStep_euler T u q with h | ⟨h, hr⟩
  · exact Or.inl h
  · exact Or.inr (locked_euler hdt hv hl hl2 hh ha hσ hτ htan hm hm0 hbig hq (poseStep_angle hsh hq) h)

/-- **C87**: when the steering is too sharp for any hitch angle within the limit to balance it
(`m > 0`), holding it while driving forward with the hitch shield on locks the vehicle up, on every
map: once `N k m` exceeds twice the limit, it has stopped for good. -/
theorem C87_lock (T : TT2d) (ext : Ext Q4) (hp : T.enableProjection = false)
    (hg : T.enableGuidance = false) (hsh : T.shieldHitch = true) (s : St Q4)
    (hb : s.inBackup = false) (hdt : 0 ≤ T.dt) (hv : 0 ≤ T.vMax) (hl : 0 < T.l1) (hl2 : 0 < T.l2)
    (hh : 0 ≤ T.lh) {u : U} (hu : Spec.InBox u) (ha : 0 ≤ u.1) {δ k m : ℝ}
    (hδ : δ = u.2 * (T.deltaMaxDeg * π / 180)) (hk : k = Spec.trailerGain T.toParams u.1)
    (hm : m = (T.l2 + T.lh * cos (deg2rad 40)) / T.l1 * |tan δ| - sin (deg2rad 40)) (hm0 : 0 ≤ m)
    (hbig : k * ((T.l2 + T.lh) / T.l1 * |tan δ| + 1) ≤ π)
    (hs : Spec.angle s.q.th1 s.q.th2 ≤ deg2rad 40) (N : ℕ) (hN : 2 * deg2rad 40 < N * (k * m))
    (n : ℕ) (hn : N ≤ n) :
    (Spec.hold (T.step ext) s u n).q = (Spec.hold (T.step ext) s u N).q := by
  simp only [(hold_q T ext hp hg s hb _ _).2, clipU_of_mem hu]
  obtain ⟨σ, hσ, ht⟩ : ∃ σ : ℝ, (σ = 1 ∨ σ = -1) ∧ tan δ = σ * |tan δ| := by
    rcases le_total 0 (tan δ) with h | h
    · exact ⟨1, Or.inl rfl, by rw [abs_of_nonneg h, one_mul]⟩
    · exact ⟨-1, Or.inr rfl, by rw [abs_of_nonpos h]; ring⟩
  subst hk hδ
  have bound : ∀ q : Q4, Spec.angle q.th1 q.th2 ≤ deg2rad 40 →
      |σ * wrapPi (q.th1 - q.th2)| ≤ deg2rad 40 := by
    intro q h
    rw [← abs_wrapPi_angle] at h
    rcases hσ with rfl | rfl <;> simpa using h
  refine stalls (poseStep T u) (fun q => σ * wrapPi (q.th1 - q.th2))
    (fun y => y + Spec.trailerGain T.toParams u.1 * m) (fun x y h => by simpa using h) (deg2rad 40)
    (fun q => Spec.angle q.th1 q.th2 ≤ deg2rad 40) (fun q h => poseStep_angle hsh h)
    (fun q h => (le_abs_self _).trans (bound q h)) ?_ s.q hs N ?_ n hn
  · intro q hq
    exact locked_step hsh hdt hv hl hl2 hh ha hσ (abs_nonneg _) ht hm hm0 hbig hq
  · rw [iterate_add]
    have := (abs_le.mp (bound s.q hs)).1
    linarith

/-- **C87**: with the default vehicle, steering at `45°` or more (of the `55°` available) to either
side at full speed ahead always ends locked up within fifteen steps, whatever the map and whatever
the starting pose within the hitch limit. -/
theorem C87_lock_default (T : TT2d) (cs : List Circle) (rs : List Rect)
    (hP : T.toParams = Params.default cs rs) (ext : Ext Q4) (s : St Q4) (hb : s.inBackup = false)
    {x : ℝ} (hx0 : 9 / 11 ≤ |x|) (hx1 : |x| ≤ 1)
    (hs : Spec.angle s.q.th1 s.q.th2 ≤ deg2rad 40) (n : ℕ) (hn : 15 ≤ n) :
    (Spec.hold (T.step ext) s (1, x) n).q = (Spec.hold (T.step ext) s (1, x) 15).q := by
  have hp := pi_gt_three
  have hp2 := pi_lt_d2
  have hp3 := pi_lt_d4
  have hT : ∀ {α : Type} (f : Params → α), f T.toParams = f (Params.default cs rs) :=
    fun f => by rw [hP]
  have l1 : T.l1 = 3.23 := hT Params.l1
  have l2 : T.l2 = 2.9 := hT Params.l2
  have lh : T.lh = 1.15 := hT Params.lh
  have dt : T.dt = 0.2 := hT Params.dt
  have vm : T.vMax = 3 := hT Params.vMax
  have dm : T.deltaMaxDeg = 55 := hT Params.deltaMaxDeg
  have hk : Spec.trailerGain T.toParams 1 = 6 / 29 := by
    unfold Spec.trailerGain; rw [dt, vm, l2]; norm_num
  have ht : |tan (x * (T.deltaMaxDeg * π / 180))| = tan (|x| * (55 * π / 180)) := by
    rw [dm]
    have hpos : 0 ≤ tan (|x| * (55 * π / 180)) :=
      tan_nonneg_of_nonneg_of_le_pi_div_two (by positivity) (by nlinarith)
    rcases le_total 0 x with h | h
    · rw [abs_of_nonneg h] at hpos ⊢; rw [abs_of_nonneg hpos]
    · rw [abs_of_nonpos h] at hpos ⊢
      rw [neg_mul, tan_neg] at hpos ⊢
      rw [abs_of_nonpos (by linarith)]
  have t1 : 1 ≤ tan (|x| * (55 * π / 180)) := by
    rw [← tan_pi_div_four]
    exact strictMonoOn_tan.monotoneOn ⟨by linarith, by linarith⟩ ⟨by nlinarith, by nlinarith⟩
      (by nlinarith)
  have t2 : tan (|x| * (55 * π / 180)) ≤ 1.7321 := by
    refine le_trans ?_ tan55_range.2
    exact strictMonoOn_tan.monotoneOn ⟨by nlinarith [abs_nonneg x], by nlinarith⟩
      ⟨by linarith, by linarith⟩ (by nlinarith)
  have d0 : deg2rad 40 = 2 * π / 9 := by unfold deg2rad; ring
  have s40 : sin (deg2rad 40) ≤ 0.69815 := by
    refine (sin_le (by rw [d0]; positivity)).trans ?_
    rw [d0]; linarith
  have c40 : 0.756 ≤ cos (deg2rad 40) := by
    have h1 := one_sub_sq_div_two_le_cos (x := deg2rad 40)
    have h2 : deg2rad 40 ≤ 0.69815 := by rw [d0]; linarith
    have h3 : 0 ≤ deg2rad 40 := by rw [d0]; positivity
    nlinarith
  have hm : 0.468 ≤ (T.l2 + T.lh * cos (deg2rad 40)) / T.l1 * |tan (x * (T.deltaMaxDeg * π / 180))| -
      sin (deg2rad 40) := by
    rw [ht, l1, l2, lh]
    generalize tan (|x| * (55 * π / 180)) = τ at t1
    have : (2.9 + 1.15 * 0.756) / 3.23 ≤ (2.9 + 1.15 * cos (deg2rad 40)) / 3.23 * τ := by
      have a : (2.9 + 1.15 * 0.756) / 3.23 ≤ (2.9 + 1.15 * cos (deg2rad 40)) / 3.23 := by
        gcongr
      nlinarith
    linarith
  refine C87_lock T ext (hT Params.enableProjection) (hT Params.enableGuidance)
    (hT Params.shieldHitch) s hb (by rw [dt]; norm_num) (by rw [vm]; norm_num)
    (by rw [l1]; norm_num) (by rw [l2]; norm_num) (by rw [lh]; norm_num) ⟨by simp, hx1⟩
    zero_le_one rfl hk.symm rfl (by linarith) ?_ hs 15 ?_ n hn
  · rw [ht, l1, l2, lh]
    linarith
  · have := mul_le_mul_of_nonneg_left hm (show (0 : ℝ) ≤ 6 / 29 by norm_num)
    have d1 : deg2rad 40 ≤ 0.69815 := by rw [d0]; linarith
    push_cast
    linarith

example := fun ext n hn => C87_lock_default openTT [] [] rfl ext openTT.reset rfl (x := -1)
  (by norm_num) (by norm_num) openTT_limit n hn
