import Verif.PropsProjection

/-!
# Projection of controls, tractor-trailer: quantitative part of C46
-/

namespace Spec

open Real Mbd

/-- Largest possible distance between the position predicted by the projection (Runge-Kutta) and the
executed one (Euler) for the normalised control `x`. -/
noncomputable def posGap (P : Params) (x : ℝ × ℝ) : ℝ :=
  (x.1 * P.vMax * P.dt) ^ 2 * |tan (x.2 * (P.deltaMaxDeg * π / 180))| / (2 * P.l1)

/-- Largest possible difference between predicted and executed trailer heading. -/
noncomputable def headGap (P : Params) (x : ℝ × ℝ) : ℝ :=
  let w := |x.1 * P.vMax * P.dt|
  let tn := tan (x.2 * (P.deltaMaxDeg * π / 180))
  let R := w * √(1 + (P.lh / P.l1 * tn) ^ 2) / P.l2
  R * (w * |tn| / P.l1 + R) / 2

/-- Largest distance of a point of the trailer from the hitch, longitudinal plus lateral. -/
noncomputable def trailerArm (P : Params) : ℝ :=
  max (P.l2 + P.lr2) |P.lf2 - P.l2| + P.trailerWidth / 2

/-- Margin the constraint values must exceed: shift of the tractor plus the length missing in its
rectangle, and the same for the trailer. -/
noncomputable def projMargin (P : Params) (x : ℝ × ℝ) : ℝ :=
  max (posGap P x + max 0 ((P.lf1 + P.lr) / 2))
    (posGap P x + trailerArm P * headGap P x + max 0 ((P.lf2 + P.lr2 - P.l2) / 2))

end Spec

namespace Mbd

open Real Classical

open Proj

theorem dist_of_gap {c₁ c₂ : V2} {a₁ a₂ l₁ w₁ l₂ w₂ m : ℝ}
    (h : m < gapBoxes c₁ (l₁, w₁) a₁ c₂ (l₂, w₂) a₂) {p₁ p₂ : V2}
    (h₁ : p₁ ∈ Spec.solidRect c₁ a₁ l₁ w₁) (h₂ : p₂ ∈ Spec.solidRect c₂ a₂ l₂ w₂) :
    m < Spec.dist p₁ p₂ := by
  have key : ∀ n : V2, n.1 ^ 2 + n.2 ^ 2 = 1 →
      m < gapOnAxis c₁ (l₁, w₁) a₁ c₂ (l₂, w₂) a₂ n → m < Spec.dist p₁ p₂ := by
    intro n hn hm
    have A := abs_le.mp (solid_dot_le h₁ n)
    have B := abs_le.mp (solid_dot_le h₂ n)
    rw [gapOnAxis_eq] at hm
    have ds : ∀ q q' : V2, dot (q - q') n = dot q n - dot q' n := by
      intro q q'; unfold dot; simp only [Prod.fst_sub, Prod.snd_sub]; ring
    rw [ds] at hm
    have E : |dot (p₁ - p₂) n| ≤ Spec.dist p₁ p₂ := dot_unit_le hn
    rw [ds, abs_le] at E
    rcases abs_cases (dot c₂ n - dot c₁ n) with ⟨e, _⟩ | ⟨e, _⟩ <;> rw [e] at hm <;>
      linarith [E.1, E.2, A.1, A.2, B.1, B.2]
  have u : ∀ x : ℝ, cos x ^ 2 + sin x ^ 2 = 1 := cos_sq_add_sin_sq
  have v : ∀ x : ℝ, (-sin x) ^ 2 + cos x ^ 2 = 1 := fun x => by rw [neg_sq]; exact sin_sq_add_cos_sq x
  unfold gapBoxes at h
  simp only [lt_max_iff] at h
  rcases h with (h | h) | (h | h)
  · exact key _ (u _) h
  · exact key _ (v _) h
  · exact key _ (u _) h
  · exact key _ (v _) h

theorem dist_of_sdf {c o : V2} {ang hl hw r m : ℝ} (h1 : 0 ≤ hl) (h2 : 0 ≤ hw) (hr : 0 ≤ r)
    (hm : 0 ≤ m) (h : m < sdfBox o c (hl, hw) ang - r) {p₁ p₂ : V2}
    (h₁ : p₁ ∈ Spec.solidRect c ang hl hw) (h₂ : p₂ ∈ Spec.disc o r) : m < Spec.dist p₁ p₂ := by
  by_contra hle
  push Not at hle
  have k : r + m < sdfBox o c (hl, hw) ang := by linarith
  rw [sdfBox_gt_iff c ang h1 h2 o (by linarith)] at k
  refine k p₁ h₁ ?_
  have A : Spec.dist p₂ o ≤ r := by unfold Spec.dist; rw [sqrt_le_left hr]; exact h₂
  have T := dist_triangle' p₁ p₂ o
  have : Spec.dist p₁ o ≤ r + m := by linarith
  unfold Spec.dist at this
  rw [sqrt_le_left (by linarith)] at this
  exact this

/-- A point of a long rectangle is close to the shorter rectangle with the same centre. -/
theorem near_shorter {c : V2} {ang hl hl' hw e : ℝ} (h1 : 0 ≤ hl) (he : 0 ≤ e) (hle : hl' ≤ hl + e)
    {p : V2} (hp : p ∈ Spec.solidRect c ang hl' hw) :
    ∃ p', p' ∈ Spec.solidRect c ang hl hw ∧ Spec.dist p' p ≤ e := by
  obtain ⟨s, t, hs, ht, rfl⟩ := hp
  refine ⟨Spec.frame c ang (clip s (-hl) hl) t,
    ⟨_, _, abs_le.mpr ⟨le_clip (by linarith), clip_le _ _ _⟩, ht, rfl⟩, ?_⟩
  unfold Spec.dist
  rw [frame_edge_sq c ang s t (clip s (-hl) hl) t, sqrt_le_left he, sub_self, excess_sq s h1]
  have : max (|s| - hl) 0 ≤ e := max_le (by linarith) he
  have : 0 ≤ max (|s| - hl) 0 := le_max_right _ _
  nlinarith

/-- `sin φ - k cos φ` is Lipschitz with constant `√(1+k²)`. -/
theorem trig_lip (k a b : ℝ) :
    |(sin a - k * cos a) - (sin b - k * cos b)| ≤ √(1 + k ^ 2) * |a - b| := by
  have h := norm_hd_sub b a
  have e : ‖hd a - hd b‖ ^ 2 = (cos a - cos b) ^ 2 + (sin a - sin b) ^ 2 := by
    rw [Complex.sq_norm, Complex.normSq_apply]; simp [hd]; ring
  have : ((sin a - k * cos a) - (sin b - k * cos b)) ^ 2 ≤ (√(1 + k ^ 2) * |a - b|) ^ 2 := by
    rw [mul_pow, sq_sqrt (by positivity)]
    have h2 : (cos a - cos b) ^ 2 + (sin a - sin b) ^ 2 ≤ |a - b| ^ 2 := by
      rw [← e]; exact pow_le_pow_left₀ (norm_nonneg _) h 2
    have h3 : ((sin a - k * cos a) - (sin b - k * cos b)) ^ 2
        ≤ (1 + k ^ 2) * ((cos a - cos b) ^ 2 + (sin a - sin b) ^ 2) := by
      nlinarith [sq_nonneg ((cos a - cos b) + k * (sin a - sin b))]
    exact h3.trans (mul_le_mul_of_nonneg_left h2 (by positivity))
  exact abs_le_of_sq_le_sq this (by positivity)

/-- Predicted against executed state of the tractor-trailer. -/
theorem rk4_euler (P : Params) (h1 : 0 < P.l1) (h2 : 0 < P.l2) (q : Q4) (x : U) :
    (rk4 P q (P.inputScaler x)).th1 = (TT2d.euler P q (P.inputScaler x)).th1 ∧
    Spec.dist ((TT2d.euler P q (P.inputScaler x)).px, (TT2d.euler P q (P.inputScaler x)).py)
        ((rk4 P q (P.inputScaler x)).px, (rk4 P q (P.inputScaler x)).py) ≤ Spec.posGap P x ∧
    |(TT2d.euler P q (P.inputScaler x)).th2 - (rk4 P q (P.inputScaler x)).th2|
      ≤ Spec.headGap P x := by
  obtain ⟨A, B⟩ := rk4B_euler P h1 ⟨q.px, q.py, q.th1⟩ (P.inputScaler x)
  refine ⟨A, B, ?_⟩
  set v := x.1 * P.vMax with hv
  set tn := tan (x.2 * (P.deltaMaxDeg * π / 180)) with htn
  have hu : P.inputScaler x = (v, x.2 * (P.deltaMaxDeg * π / 180)) := rfl
  set w := P.dt * v with hw
  set k := P.lh / P.l1 * tn with hk
  set f : ℝ → ℝ := fun φ => v / P.l2 * (sin φ - k * cos φ) with hf
  set ρ := v / P.l1 * tn with hρ
  have hd1 : ∀ y : Q4, (TT2d.dynamics P y (P.inputScaler x)).th1 = ρ := fun y => rfl
  have hd2 : ∀ y : Q4, (TT2d.dynamics P y (P.inputScaler x)).th2 = f (y.th1 - y.th2) := by
    intro y
    rw [hu]
    unfold TT2d.dynamics
    simp only [hf, hk, ← htn]
    ring
  set R := |w| * √(1 + k ^ 2) / P.l2 with hR
  have hR0 : 0 ≤ R := by positivity
  have fb : ∀ φ, |P.dt * f φ| ≤ R := by
    intro φ
    have e : P.dt * f φ = w * (sin φ - k * cos φ) / P.l2 := by simp only [hf, hw]; ring
    rw [e, abs_div, abs_mul, abs_of_pos h2]
    exact div_le_div_of_nonneg_right
      (mul_le_mul_of_nonneg_left (trig_combo k φ).1 (abs_nonneg _)) h2.le
  have fl : ∀ a b, |P.dt * f a - P.dt * f b| ≤ R * |a - b| := by
    intro a b
    have e : P.dt * f a - P.dt * f b
        = w * ((sin a - k * cos a) - (sin b - k * cos b)) / P.l2 := by simp only [hf, hw]; ring
    have e2 : R * |a - b| = |w| * (√(1 + k ^ 2) * |a - b|) / P.l2 := by rw [hR]; ring
    rw [e, abs_div, abs_mul, abs_of_pos h2, e2]
    exact div_le_div_of_nonneg_right
      (mul_le_mul_of_nonneg_left (trig_lip k a b) (abs_nonneg _)) h2.le
  set S := |w| * |tn| / P.l1 + R with hS
  have hρS : |P.dt * ρ| = |w| * |tn| / P.l1 := by
    have : P.dt * ρ = w * tn / P.l1 := by rw [hρ, hw]; ring
    rw [this, abs_div, abs_mul, abs_of_pos h1]
  -- stage slopes
  set k1 := TT2d.dynamics P q (P.inputScaler x) with hk1
  set k2 := TT2d.dynamics P (q.axpy (P.dt / 2) k1) (P.inputScaler x) with hk2
  set k3 := TT2d.dynamics P (q.axpy (P.dt / 2) k2) (P.inputScaler x) with hk3
  set k4 := TT2d.dynamics P (q.axpy P.dt k3) (P.inputScaler x) with hk4
  set φ := q.th1 - q.th2 with hφ
  have dev : ∀ (y : Q4) (z : ℝ), y.th1 = ρ → (∃ ψ, y.th2 = f ψ) → 0 ≤ z →
      |P.dt * f ((q.axpy (z * P.dt) y).th1 - (q.axpy (z * P.dt) y).th2) - P.dt * f φ|
        ≤ R * (z * S) := by
    rintro y z hy ⟨ψ, hψ⟩ hz
    refine (fl _ _).trans (mul_le_mul_of_nonneg_left ?_ hR0)
    have e : (q.axpy (z * P.dt) y).th1 - (q.axpy (z * P.dt) y).th2 - φ
        = z * (P.dt * ρ - P.dt * f ψ) := by
      simp only [Q4.axpy, hy, hψ, hφ]; ring
    rw [e, abs_mul, abs_of_nonneg hz]
    refine mul_le_mul_of_nonneg_left ?_ hz
    refine (abs_sub _ _).trans ?_
    rw [hρS, hS]
    exact add_le_add le_rfl (fb ψ)
  have c1 : k1.th2 = f φ := hd2 q
  have half : P.dt / 2 = 1 / 2 * P.dt := by ring
  have D2 := dev k1 (1 / 2) (hd1 _) ⟨_, hd2 _⟩ (by norm_num)
  have D3 := dev k2 (1 / 2) (hd1 _) ⟨_, hd2 _⟩ (by norm_num)
  have D4 := dev k3 1 (hd1 _) ⟨_, hd2 _⟩ (by norm_num)
  rw [← half, ← hd2, ← hk2] at D2
  rw [← half, ← hd2, ← hk3] at D3
  rw [one_mul, ← hd2, ← hk4] at D4
  have e : (TT2d.euler P q (P.inputScaler x)).th2 - (rk4 P q (P.inputScaler x)).th2
      = -((2 * (P.dt * k2.th2 - P.dt * f φ) + 2 * (P.dt * k3.th2 - P.dt * f φ)
          + (P.dt * k4.th2 - P.dt * f φ)) / 6) := by
    unfold TT2d.euler rk4
    simp only [← hk1, ← hk2, ← hk3, ← hk4]
    simp only [Q4.axpy, c1]
    ring
  have hG : Spec.headGap P x = R * S / 2 := by
    unfold Spec.headGap
    simp only [← htn, ← hk, ← hv]
    have : |v * P.dt| = |w| := by rw [hw, mul_comm]
    rw [this]
  rw [e, abs_neg, hG, abs_div, abs_of_pos (by norm_num : (0 : ℝ) < 6), div_le_div_iff₀ (by norm_num) (by norm_num)]
  rw [abs_le] at D2 D3 D4
  have : |2 * (P.dt * k2.th2 - P.dt * f φ) + 2 * (P.dt * k3.th2 - P.dt * f φ)
      + (P.dt * k4.th2 - P.dt * f φ)| ≤ 3 * (R * S) := by
    rw [abs_le]; constructor <;> nlinarith [D2.1, D2.2, D3.1, D3.2, D4.1, D4.2]
  linarith

/-- C46, tractor-trailer, partial: if the optimiser succeeds with a control whose obstacle
constraint values exceed `Spec.projMargin` (difference between the Runge-Kutta prediction and the
executed Euler step, plus the length the rectangles of the projection lack) and whose hitch
constraint exceeds the heading difference, the executed state is safe: true bodies and obstacles
share no point, neither check fires, and the recorded action is the projected one, in the box.
Missing: unsuccessful optimiser runs and smaller margins (both refuted). -/
theorem C46_tt2d_partial (T : TT2d) (hp : T.enableProjection = true)
    (h : Spec.SidesOK T.toParams) (hl1 : 0 < T.l1) (hl2 : 0 < T.l2)
    (solver : Q4 → U → Outcome) (guide : Q4 → Q4) (s : St Q4) (a x : U)
    (hs : solver s.q (clipU a) = .success x) (hx : Spec.InBox x)
    (hc : ∀ g ∈ T.circles.map (distCircle T.toParams (rk4 T.toParams s.q (T.inputScaler x))) ++
      T.rects.map (distRect T.toParams (rk4 T.toParams s.q (T.inputScaler x))),
      Spec.projMargin T.toParams x < g)
    (hh : Spec.headGap T.toParams x < T.phiMax -
      |wrapPi ((rk4 T.toParams s.q (T.inputScaler x)).th1
        - (rk4 T.toParams s.q (T.inputScaler x)).th2)|) :
    let s' := T.step (ext solver guide) s a
    Spec.SafeTT T.toParams s'.q ∧ ¬ Spec.exceedsModTurns (40 * π / 180) (s'.q.th1 - s'.q.th2) ∧
    ¬ TT2d.checkObstacle T.toParams s'.q ∧ ¬ TT2d.checkHitch T.toParams s'.q ∧
    s'.applied = x ∧ Spec.InBox s'.applied := by
  intro s'
  have e0 : s'.q = TT2d.euler T.toParams s.q (T.inputScaler x) ∧ s'.applied = x := by
    have e3 : (ext solver guide).project s.q (clipU a) = x := by
      show result (solver s.q (clipU a)) (clipU a) = x
      rw [hs]; rfl
    show (T.step (ext solver guide) s a).q = _ ∧ (T.step (ext solver guide) s a).applied = x
    unfold TT2d.step TT2d.stepInternal
    simp only [hp, if_true, e3]
    exact ⟨trivial, trivial⟩
  obtain ⟨r1, r2, r3⟩ := rk4_euler T.toParams hl1 hl2 s.q x
  rw [← e0.1] at r1 r2 r3
  set q' := s'.q with hq'
  set q := rk4 T.toParams s.q (T.inputScaler x) with hq
  set P := T.toParams with hP
  have hL := h.tractorLen
  have hW := h.tractorWid
  have hL2 := h.trailerLen
  have hW2 := h.trailerWid
  norm_num at hL hW hL2 hW2
  have hb1 : ∀ q : Q4, Spec.tractorBody P q.px q.py q.th1 = Spec.solidRect
      (tractorCenter P q.px q.py q.th1) q.th1 ((P.l1 + P.lf1 + P.lr) / 2)
      (P.tractorWidth / 2) := by
    intro q
    unfold Spec.tractorBody
    rw [body_eq_solidRect]
    rfl
  have hb2 : ∀ q : Q4, Spec.trailerBody P q = Spec.solidRect
      (trailerCenter P q) q.th2 ((P.lf2 + P.lr2) / 2) (P.trailerWidth / 2) := by
    intro q
    unfold Spec.trailerBody
    rw [body_eq_solidRect]
    congr 1
    unfold trailerCenter Spec.trailerAxle Spec.frame
    ext <;> simp only <;> ring
  have G0 : 0 ≤ Spec.posGap P x := le_trans (Real.sqrt_nonneg _) r2
  have H0 : 0 ≤ Spec.headGap P x := le_trans (abs_nonneg _) r3
  set m := Spec.projMargin P x with hm
  have m1 : Spec.posGap P x + max 0 ((P.lf1 + P.lr) / 2) ≤ m := le_max_left _ _
  have m2 : Spec.posGap P x + Spec.trailerArm P * Spec.headGap P x
      + max 0 ((P.lf2 + P.lr2 - P.l2) / 2) ≤ m := le_max_right _ _
  have z1 := le_max_left 0 ((P.lf1 + P.lr) / 2)
  have z2 := le_max_left 0 ((P.lf2 + P.lr2 - P.l2) / 2)
  have m0 : 0 ≤ m := by linarith
  -- every point of the executed bodies is within `m` of the projection's rectangles
  have near1 : ∀ p ∈ Spec.tractorBody P q'.px q'.py q'.th1, ∃ p', p' ∈ Spec.solidRect
      (tractorCenter P q.px q.py q.th1) q.th1 (P.l1 / 2) (P.tractorWidth / 2) ∧
      Spec.dist p' p ≤ m := by
    rintro p ⟨u, t, hu1, hu2, ht, rfl⟩
    have hmem : Spec.frame (q.px, q.py) q.th1 u t ∈ Spec.tractorBody P q.px q.py q.th1 :=
      ⟨u, t, hu1, hu2, ht, rfl⟩
    rw [hb1] at hmem
    obtain ⟨p', hp', hd⟩ := near_shorter (hl := P.l1 / 2) (by linarith) z1
      (by linarith [le_max_right 0 ((P.lf1 + P.lr) / 2)]) hmem
    refine ⟨p', hp', ?_⟩
    have F := frame_shift (q'.px, q'.py) (q.px, q.py) q'.th1 q.th1 u t
    rw [r1, sub_self, abs_zero, mul_zero, add_zero, dist_comm' (q.px, q.py)] at F
    rw [r1] at hd
    have := dist_triangle' p' (Spec.frame (q.px, q.py) q'.th1 u t)
      (Spec.frame (q'.px, q'.py) q'.th1 u t)
    linarith
  have near2 : ∀ p ∈ Spec.trailerBody P q', ∃ p', p' ∈ Spec.solidRect
      (trailerCenter P q) q.th2 (P.l2 / 2) (P.trailerWidth / 2) ∧ Spec.dist p' p ≤ m := by
    rintro p ⟨u, t, hu1, hu2, ht, rfl⟩
    have hmem : Spec.frame (Spec.trailerAxle P q) q.th2 u t ∈ Spec.trailerBody P q :=
      ⟨u, t, hu1, hu2, ht, rfl⟩
    rw [hb2] at hmem
    obtain ⟨p', hp', hd⟩ := near_shorter (hl := P.l2 / 2) (by linarith) z2
      (by linarith [le_max_right 0 ((P.lf2 + P.lr2 - P.l2) / 2)]) hmem
    refine ⟨p', hp', ?_⟩
    have fr : ∀ q : Q4, Spec.frame (Spec.trailerAxle P q) q.th2 u t
        = Spec.frame (Spec.frame (q.px, q.py) q.th1 (-P.lh) 0) q.th2 (u - P.l2) t := by
      intro q
      unfold Spec.trailerAxle Spec.frame
      ext <;> simp only <;> ring
    have F := frame_shift (Spec.frame (q'.px, q'.py) q'.th1 (-P.lh) 0)
      (Spec.frame (q.px, q.py) q.th1 (-P.lh) 0) q'.th2 q.th2 (u - P.l2) t
    have F2 := frame_shift (q'.px, q'.py) (q.px, q.py) q'.th1 q.th1 (-P.lh) 0
    rw [r1, sub_self, abs_zero, mul_zero, add_zero] at F2
    rw [r1] at F
    rw [dist_comm' (q.px, q.py)] at F2
    have arm : |u - P.l2| + |t| ≤ Spec.trailerArm P := by
      unfold Spec.trailerArm
      refine add_le_add ?_ ht
      rw [abs_le]
      constructor
      · have := le_max_left (P.l2 + P.lr2) |P.lf2 - P.l2|
        linarith
      · have := le_max_right (P.l2 + P.lr2) |P.lf2 - P.l2|
        have := le_abs_self (P.lf2 - P.l2)
        linarith
    have r3' : |q.th2 - q'.th2| ≤ Spec.headGap P x := by rw [abs_sub_comm]; exact r3
    have M := mul_le_mul arm r3' (abs_nonneg _)
      (le_trans (add_nonneg (abs_nonneg _) (abs_nonneg _)) arm)
    have fq := fr q
    have fq' := fr q'
    rw [r1] at fq
    rw [fq] at hd
    rw [fq']
    have := dist_triangle' p' (Spec.frame (Spec.frame (q.px, q.py) q'.th1 (-P.lh) 0) q.th2 (u - P.l2) t)
      (Spec.frame (Spec.frame (q'.px, q'.py) q'.th1 (-P.lh) 0) q'.th2 (u - P.l2) t)
    linarith
  have safe : Spec.SafeTT P q' := by
    constructor
    · intro c hcm
      have := hc _ (List.mem_append_left _ (List.mem_map_of_mem hcm))
      unfold distCircle at this
      have t1 := min_le_left (sdfBox (c.x, c.y) (tractorCenter P q.px q.py q.th1) (P.l1 / 2, P.tractorWidth / 2) q.th1) (sdfBox (c.x, c.y) (trailerCenter P q) (P.l2 / 2, P.trailerWidth / 2) q.th2)
      have t2 := min_le_right (sdfBox (c.x, c.y) (tractorCenter P q.px q.py q.th1) (P.l1 / 2, P.tractorWidth / 2) q.th1) (sdfBox (c.x, c.y) (trailerCenter P q) (P.l2 / 2, P.trailerWidth / 2) q.th2)
      constructor
      · intro p hp1 hp2
        obtain ⟨p', a1, a2⟩ := near1 p hp1
        have := dist_of_sdf (by linarith) (by linarith) (h.radii c hcm) m0 (by linarith) a1 hp2
        linarith
      · intro p hp1 hp2
        obtain ⟨p', a1, a2⟩ := near2 p hp1
        have := dist_of_sdf (by linarith) (by linarith) (h.radii c hcm) m0 (by linarith) a1 hp2
        linarith
    · intro o ho
      have := hc _ (List.mem_append_right _ (List.mem_map_of_mem ho))
      unfold distRect at this
      rw [lt_min_iff] at this
      constructor
      · intro p hp1 hp2
        obtain ⟨p', a1, a2⟩ := near1 p hp1
        have := dist_of_gap this.1 a1 hp2
        linarith
      · intro p hp1 hp2
        obtain ⟨p', a1, a2⟩ := near2 p hp1
        have := dist_of_gap this.2 a1 hp2
        linarith
  have hitch : ¬ TT2d.checkHitch P q' := by
    unfold TT2d.checkHitch
    rw [gt_iff_lt, not_lt]
    obtain ⟨k, hk⟩ := wrapPi_congr (q.th1 - q.th2)
    have A := abs_wrapPi_le_turns (q'.th1 - q'.th2) k
    have e : q'.th1 - q'.th2 + 2 * π * k
        = wrapPi (q.th1 - q.th2) + (q.th2 - q'.th2) := by rw [hk, r1]; ring
    rw [e] at A
    have B := abs_add_le (wrapPi (q.th1 - q.th2)) (q.th2 - q'.th2)
    rw [abs_sub_comm q.th2] at B
    linarith
  refine ⟨safe, ?_, safe_passes h safe, hitch, e0.2, by rw [e0.2]; exact hx⟩
  unfold TT2d.checkHitch at hitch
  rw [wrapPi_gt_iff] at hitch
  exact hitch

/-- The hypotheses can be met: default vehicle, straight, full speed, obstacle 10 m ahead. -/
example :
    (∀ g ∈ (projTT 10 1).circles.map (distCircle (projTT 10 1).toParams
        (rk4 (projTT 10 1).toParams ⟨0, 0, 0, 0⟩ ((projTT 10 1).inputScaler (1, 0)))) ++
      (projTT 10 1).rects.map (distRect (projTT 10 1).toParams
        (rk4 (projTT 10 1).toParams ⟨0, 0, 0, 0⟩ ((projTT 10 1).inputScaler (1, 0)))),
      Spec.projMargin (projTT 10 1).toParams (1, 0) < g) ∧
    Spec.headGap (projTT 10 1).toParams (1, 0) < (projTT 10 1).phiMax -
      |wrapPi ((rk4 (projTT 10 1).toParams ⟨0, 0, 0, 0⟩ ((projTT 10 1).inputScaler (1, 0))).th1
        - (rk4 (projTT 10 1).toParams ⟨0, 0, 0, 0⟩ ((projTT 10 1).inputScaler (1, 0))).th2)| := by
  have hq : rk4 (projTT 10 1).toParams ⟨0, 0, 0, 0⟩ ((projTT 10 1).inputScaler (1, 0))
      = ⟨0.6, 0, 0, 0⟩ := by
    simp [rk4, TT2d.dynamics, Q4.axpy, Params.inputScaler, projTT, Params.default]
    norm_num
  have hG : Spec.headGap (projTT 10 1).toParams (1, 0) = 0.6 ^ 2 / (2 * 2.9 ^ 2) := by
    simp [Spec.headGap, projTT, Params.default]
    rw [abs_of_pos (by norm_num)]
    norm_num
  rw [hq]
  constructor
  · intro g hg
    have hx : ∀ a b c d : ℝ, ((a, b) : V2) = Spec.frame (c, d) 0 (a - c) (b - d) := by
      intro a b c d; unfold Spec.frame; simp
    have hm : Spec.projMargin (projTT 10 1).toParams (1, 0) ≤ 2 := by
      unfold Spec.projMargin
      rw [hG]
      simp [Spec.posGap, Spec.trailerArm, projTT, Params.default]
      norm_num
    simp only [projTT, Params.default, List.map_cons, List.map_nil, List.append_nil,
      List.mem_singleton] at hg
    rw [hg]
    refine lt_of_le_of_lt hm ?_
    unfold distCircle
    rw [lt_sub_iff_add_lt, lt_min_iff]
    unfold tractorCenter trailerCenter
    constructor
    · rw [hx 10 0]
      refine lt_of_lt_of_le ?_ (sdfBox_ge _ _ _ _ _ _).1
      simp only [cos_zero]
      norm_num
    · rw [hx 10 0]
      refine lt_of_lt_of_le ?_ (sdfBox_ge _ _ _ _ _ _).1
      simp only [cos_zero]
      norm_num
  · rw [hG]
    simp only [sub_self, wrapPi_zero, abs_zero, sub_zero, Params.phiMax, deg2rad]
    have := Real.pi_gt_three
    norm_num
    linarith

end Mbd
