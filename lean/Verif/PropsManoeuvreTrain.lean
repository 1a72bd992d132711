import Verif.PropsManoeuvre
import Verif.PropsPenalty

/-! # C87 for trains -/

namespace Spec

open Real Mbd

/-- The train turns as a rigid body at steering angle `δ` with the hitch angles `φ`: at unit speed of the tractor every
unit turns at the rate of the tractor (`c i`: speed of the axle of unit `i`, 0 is the tractor). -/
def Balanced (T : NTrailer) (δ : ℝ) (φ : ℕ → ℝ) : Prop :=
  ∃ c : ℕ → ℝ, c 0 = 1 ∧ ∀ i < T.N,
    c (i + 1) = c i * cos (φ i) + T.lh * (tan δ / T.l1) * sin (φ i) ∧
    c i * sin (φ i) - T.lh * (tan δ / T.l1) * cos (φ i) = T.lengths.getD i 0 * (tan δ / T.l1)

/-- Hitch angle `i`: between unit `i` and the trailer it pulls. -/
noncomputable def hitchAngle (q : QN) (i : ℕ) : ℝ := (q.th0 :: q.ths).getD i 0 - (q.th0 :: q.ths).getD (i + 1) 0

end Spec

namespace Mbd

open Real Classical _root_.Spec

/-! ## Repeating a command -/

/-- One step of the train without guidance as a function of the pose. -/
noncomputable def poseStepN (T : NTrailer) (u : U) (q : QN) : QN :=
  if T.rejects (T.euler q (T.inputScaler u)) then q else T.euler q (T.inputScaler u)

theorem train_hold (T : NTrailer) (guide : QN → QN) (hg : T.enableGuidance = false) (u : U) :
    ∀ (n : ℕ) (s : St QN) (tr : List (St QN)), s.inBackup = false →
    scanStatesE (T.step guide) s (List.replicate n u) = .ok tr → ∀ (i : ℕ) (x : St QN), (s :: tr)[i]? = some x →
    x.q = (poseStepN T (clipU u))^[i] s.q := by
  intro n
  induction n with
  | zero =>
    intro s tr _ h i x hx
    have : tr = [] := by simpa [scanStatesE] using h.symm
    subst this
    cases i with
    | zero => cases hx; rfl
    | succ i => simp at hx
  | succ n ih =>
    intro s tr hb h i x hx
    rw [List.replicate_succ, scanStatesE] at h
    cases h1 : T.step guide s u with
    | error e => simp [h1] at h
    | ok s1 =>
      simp only [h1] at h
      cases h2 : scanStatesE (T.step guide) s1 (List.replicate n u) with
      | error e => simp [h2] at h
      | ok l =>
        simp only [h2, Except.ok.injEq] at h
        subst h
        cases i with
        | zero => cases hx; rfl
        | succ i =>
          rw [List.getElem?_cons_succ] at hx
          rw [ih s1 l ((T.step_inBackup guide s s1 u h1).trans hb) h2 i x hx, Function.iterate_succ_apply]
          congr 1
          rw [(T.step_spec guide hg s s1 u h1).1, NTrailer.proposal, hb, effAction_false]
          rfl

theorem poseStepN_length {T : NTrailer} (u : U) {q : QN} (h : q.ths.length = T.N) :
    (poseStepN T u q).ths.length = T.N := by
  unfold poseStepN
  split
  · exact h
  · exact T.euler_length _ _ h

theorem poseStepN_iterate_length {T : NTrailer} (u : U) {q : QN} (h : q.ths.length = T.N) (n : ℕ) :
    ((poseStepN T u)^[n] q).ths.length = T.N := by
  induction n with
  | zero => exact h
  | succ n ih => rw [Function.iterate_succ_apply']; exact poseStepN_length u ih

theorem poseStepN_euler (T : NTrailer) (u : U) {q : QN} (h : Spec.WellSized T q) :
    poseStepN T u q = q ∨ Spec.EulerN T q u (poseStepN T u q) ∧ ¬ T.rejects (poseStepN T u q) := by
  unfold poseStepN
  split
  · exact Or.inl rfl
  · rename_i hr
    exact Or.inr ⟨(eulerN_iff h _ _).mpr rfl, hr⟩

/-- Tractor and first trailer as a tractor-trailer. -/
noncomputable def pair (q : QN) : Q4 := ⟨q.px, q.py, q.th0, q.ths.getD 0 0⟩

noncomputable def pairParams (T : NTrailer) : Params := { T.toParams with l2 := T.lengths.getD 0 0 }

theorem eulerN_pair {T : NTrailer} (hN : 0 < T.N) {q q' : QN} {u : U} (h : Spec.EulerN T q u q') :
    Spec.EulerTT (pairParams T) (pair q) u (pair q') := by
  obtain ⟨s, w, h0, h0', hr, e1, e2, e3, -, e4⟩ := h
  refine ⟨e1, e2, ?_, ?_⟩
  · show q'.th0 = _
    rw [e3, h0']; rfl
  · show q'.ths.getD 0 0 = _
    rw [e4 0 hN, (hr 0 hN).2, h0, h0']
    simp only [pair, pairParams, List.getD_cons_zero, List.getD_cons_succ]
    ring

theorem hitch_first {T : NTrailer} (hN : 0 < T.N) {q : QN} (hl : q.ths.length = T.N) (h : ¬ T.checkHitch q) :
    Spec.angle (pair q).th1 (pair q).th2 ≤ deg2rad 40 := by
  rw [C06_ntrailer T q hl hN] at h
  push Not at h
  have := h 0 (by omega)
  rw [← wrapPi_gt_iff, not_lt] at this
  have e : q.ths[0]'(by omega) = q.ths.getD 0 0 := by rw [List.getD_eq_getElem]
  simp only [List.getElem_cons_zero, e] at this
  rw [abs_wrapPi_angle] at this
  have e2 : deg2rad 40 = 40 * π / 180 := by unfold deg2rad; ring
  rw [e2]
  exact this

theorem poseStepN_angle {T : NTrailer} (hN : 0 < T.N) (hsh : T.shieldHitch = true) {u : U} {q : QN}
    (hw : Spec.WellSized T q) (h : Spec.angle (pair q).th1 (pair q).th2 ≤ deg2rad 40) :
    Spec.angle (pair (poseStepN T u q)).th1 (pair (poseStepN T u q)).th2 ≤ deg2rad 40 := by
  rcases poseStepN_euler T u hw with h' | ⟨-, h'⟩
  · rw [h']; exact h
  · exact hitch_first hN (poseStepN_length u hw.ths) fun hc => h' (Or.inr ⟨hsh, hc⟩)

/-! ## Straight driving -/

/-- **C87**, train: one step with the wheels straight changes the first hitch angle as for a single trailer. -/
theorem C87_step_ntrailer (T : NTrailer) (hN : 0 < T.N) (q q' : QN) (a : ℝ)
    (hk : |T.dt * (a * T.vMax) / T.lengths.getD 0 0| ≤ 1) (h : Spec.EulerN T q (a, 0) q') :
    q'.th0 = q.th0 ∧ Spec.angle q'.th0 (q'.ths.getD 0 0) = Spec.angle q.th0 (q.ths.getD 0 0) -
      T.dt * (a * T.vMax) / T.lengths.getD 0 0 * sin (Spec.angle q.th0 (q.ths.getD 0 0)) :=
  C87_step (pairParams T) (pair q) (pair q') a hk (eulerN_pair hN h)

/-- **C87**, train: reversing with the wheels straight folds the first hitch at a geometric rate, so with the hitch shield
on the train comes to a halt, on every map. -/
theorem C87_reverse_ntrailer (T : NTrailer) (guide : QN → QN) (hg : T.enableGuidance = false) (hN : 0 < T.N)
    (hsh : T.shieldHitch = true) (s : St QN) (hw : Spec.WellSized T s.q) (hb : s.inBackup = false) (hdt : 0 ≤ T.dt)
    (hv : 0 ≤ T.vMax) (hl : 0 < T.lengths.getD 0 0) {a k : ℝ} (ha : 0 ≤ a) (ha1 : a ≤ 1)
    (hk : k = T.dt * (a * T.vMax) / T.lengths.getD 0 0) (hk1 : k ≤ 1) (hs : ¬ T.checkHitch s.q) (M : ℕ)
    (hM : deg2rad 40 < (1 + 0.9 * k) ^ M * Spec.angle s.q.th0 (s.q.ths.getD 0 0)) (n : ℕ) (tr : List (St QN))
    (h : scanStatesE (T.step guide) s (List.replicate n (-a, 0)) = .ok tr) (i : ℕ) (hi : M ≤ i) (x y : St QN)
    (hx : (s :: tr)[i]? = some x) (hy : (s :: tr)[M]? = some y) : x.q = y.q := by
  have hu : clipU ((-a, 0) : U) = (-a, 0) := clipU_of_mem ⟨by
    simp only [abs_neg, abs_le]; constructor <;> linarith, by simp⟩
  have gain : ∀ b, Spec.trailerGain (pairParams T) b = T.dt * (b * T.vMax) / T.lengths.getD 0 0 := fun _ => rfl
  have k0 : 0 ≤ k := by rw [hk]; positivity
  have ek : Spec.trailerGain (pairParams T) (-a) = -k := by rw [gain, hk]; ring
  rw [train_hold T guide hg _ n s tr hb h i x hx, train_hold T guide hg _ n s tr hb h M y hy, hu]
  refine stalls (poseStepN T (-a, 0)) (fun q => Spec.angle (pair q).th1 (pair q).th2) (fun y => (1 + 0.9 * k) * y) ?_
    (deg2rad 40) (fun q => Spec.WellSized T q ∧ Spec.angle (pair q).th1 (pair q).th2 ≤ deg2rad 40)
    (fun q h => ⟨⟨poseStepN_length _ h.1.ths, h.1.lengths, h.1.fronts, h.1.rears⟩, poseStepN_angle hN hsh h.1 h.2⟩)
    (fun q h => h.2) ?_ s.q ⟨hw, hitch_first hN hw.ths hs⟩ M ?_ i hi
  · intro x y h; exact mul_le_mul_of_nonneg_left h (by linarith)
  · intro q hq
    rcases poseStepN_euler T (-a, 0) hq.1 with h | ⟨h, -⟩
    · exact Or.inl h
    · right
      have := (C87_step _ _ _ (-a) (by rw [ek, abs_neg, abs_of_nonneg k0]; exact hk1) (eulerN_pair hN h)).2
      rw [this, ek]
      have := mul_le_mul_of_nonneg_left (sin_chord (angle_mem (pair q).th1 (pair q).th2).1 hq.2) k0
      linarith
  · rw [iterate_mul]; exact hM

/-- **C87**, train: steering too sharp for the first hitch locks the train up. -/
theorem C87_lock_ntrailer (T : NTrailer) (guide : QN → QN) (hg : T.enableGuidance = false) (hN : 0 < T.N)
    (hsh : T.shieldHitch = true) (s : St QN) (hw : Spec.WellSized T s.q) (hb : s.inBackup = false) (hdt : 0 ≤ T.dt)
    (hv : 0 ≤ T.vMax) (hl : 0 < T.l1) {L : ℝ} (hL : L = T.lengths.getD 0 0) (hl2 : 0 < L) (hh : 0 ≤ T.lh) {u : U}
    (hu : Spec.InBox u) (ha : 0 ≤ u.1) {δ k m : ℝ}
    (hδ : δ = u.2 * (T.deltaMaxDeg * π / 180)) (hk : k = T.dt * (u.1 * T.vMax) / L)
    (hm : m = (L + T.lh * cos (deg2rad 40)) / T.l1 * |tan δ| - sin (deg2rad 40)) (hm0 : 0 ≤ m)
    (hbig : k * ((L + T.lh) / T.l1 * |tan δ| + 1) ≤ π) (hs : ¬ T.checkHitch s.q) (M : ℕ)
    (hM : 2 * deg2rad 40 < M * (k * m)) (n : ℕ) (tr : List (St QN))
    (h : scanStatesE (T.step guide) s (List.replicate n u) = .ok tr) (i : ℕ) (hi : M ≤ i) (x y : St QN)
    (hx : (s :: tr)[i]? = some x) (hy : (s :: tr)[M]? = some y) : x.q = y.q := by
  rw [train_hold T guide hg _ n s tr hb h i x hx, train_hold T guide hg _ n s tr hb h M y hy, clipU_of_mem hu]
  obtain ⟨σ, hσ, ht⟩ : ∃ σ : ℝ, (σ = 1 ∨ σ = -1) ∧ tan δ = σ * |tan δ| := by
    rcases le_total 0 (tan δ) with h | h
    · exact ⟨1, Or.inl rfl, by rw [abs_of_nonneg h, one_mul]⟩
    · exact ⟨-1, Or.inr rfl, by rw [abs_of_nonpos h]; ring⟩
  subst hk hδ hL
  have hs' := hitch_first hN hw.ths hs
  have bound : ∀ q : Q4, Spec.angle q.th1 q.th2 ≤ deg2rad 40 → |σ * wrapPi (q.th1 - q.th2)| ≤ deg2rad 40 := by
    intro q h
    rw [← abs_wrapPi_angle] at h
    rcases hσ with rfl | rfl <;> simpa using h
  refine stalls (poseStepN T u) (fun q => σ * wrapPi ((pair q).th1 - (pair q).th2))
    (fun y => y + Spec.trailerGain (pairParams T) u.1 * m) (fun x y h => by simpa using h) (deg2rad 40)
    (fun q => Spec.WellSized T q ∧ Spec.angle (pair q).th1 (pair q).th2 ≤ deg2rad 40)
    (fun q h => ⟨⟨poseStepN_length _ h.1.ths, h.1.lengths, h.1.fronts, h.1.rears⟩, poseStepN_angle hN hsh h.1 h.2⟩)
    (fun q h => (le_abs_self _).trans (bound _ h.2)) ?_ s.q ⟨hw, hs'⟩ M ?_ i hi
  · intro q hq
    rcases poseStepN_euler T u hq.1 with h | ⟨h, -⟩
    · exact Or.inl h
    · exact Or.inr (locked_euler (P := pairParams T) hdt hv hl hl2 hh ha hσ (abs_nonneg _) ht hm hm0 hbig hq.2
        (poseStepN_angle hN hsh hq.1 hq.2) (eulerN_pair hN h))
  · rw [iterate_add]
    have := (abs_le.mp (bound (pair s.q) hs')).1
    have e : Spec.trailerGain (pairParams T) u.1 = T.dt * (u.1 * T.vMax) / T.lengths.getD 0 0 := rfl
    rw [e]
    linarith

/-! ## Turning -/

/-- **C87**, train: holding any command with the wheels turned, the tractor's rear axle stays on one circle for ever, on any
map and with or without shields. -/
theorem C87_circle_ntrailer (T : NTrailer) (guide : QN → QN) (hg : T.enableGuidance = false) (s : St QN)
    (hw : Spec.WellSized T s.q) (hb : s.inBackup = false) (u : U)
    (hu : Spec.InBox u) (hl : 0 < T.l1) {ω δ : ℝ} (hδ : δ = u.2 * (T.deltaMaxDeg * π / 180))
    (hω : ω = T.dt * (u.1 * T.vMax / T.l1 * tan δ)) (hω0 : ω ≠ 0) (hω2 : |ω| ≤ 2) :
    ∃ (c : V2) (r : ℝ), Spec.turnRadius T.l1 δ ≤ r ∧
      r ≤ (1 + ω ^ 2 / 12) * Spec.turnRadius T.l1 δ ∧
      0 < tan δ * ((c.2 - s.q.py) * cos s.q.th0 - (c.1 - s.q.px) * sin s.q.th0) ∧
      ∀ (n : ℕ) (tr : List (St QN)), scanStatesE (T.step guide) s (List.replicate n u) = .ok tr →
        ∀ (i : ℕ) (x : St QN), (s :: tr)[i]? = some x →
        Spec.dist (x.q.px, x.q.py) c = r ∧ ∃ m : ℕ, m ≤ i ∧ x.q.th0 = s.q.th0 + m * ω := by
  subst hδ
  have e : ω = turnStep T.toParams u := hω
  subst e
  obtain ⟨c, r, h1, h2, h3, h4, h5⟩ := circle_orbit (P := T.toParams) (u := u) hl hω0 hω2
    (fun n => ((poseStepN T u)^[n] s.q).px) (fun n => ((poseStepN T u)^[n] s.q).py)
    (fun n => ((poseStepN T u)^[n] s.q).th0) (by
      intro n
      simp only [Function.iterate_succ_apply']
      rcases poseStepN_euler T u (q := (poseStepN T u)^[n] s.q)
        ⟨poseStepN_iterate_length u hw.ths n, hw.lengths, hw.fronts, hw.rears⟩ with h | ⟨h, -⟩
      · left; rw [h]; exact ⟨rfl, rfl, rfl⟩
      · right
        obtain ⟨_, w, -, h0, -, e1, e2, e3, -, -⟩ := h
        exact ⟨e1, e2, by rw [e3, h0]; rfl⟩)
  refine ⟨c, r, h1, h2, h3, fun n tr h i x hx => ?_⟩
  rw [train_hold T guide hg _ n s tr hb h i x hx, clipU_of_mem hu]
  exact ⟨h4 i, h5 i⟩

theorem hitch_iff {T : NTrailer} (hN : 0 < T.N) {q : QN} (hl : q.ths.length = T.N) :
    T.checkHitch q ↔ ∃ i < T.N, Spec.exceedsModTurns (40 * π / 180) (Spec.hitchAngle q i) := by
  rw [C06_ntrailer T q hl hN]
  have e : ∀ i, ∀ h : i < q.ths.length, (q.th0 :: q.ths)[i]'(by simp; omega) - q.ths[i] = Spec.hitchAngle q i := by
    intro i h
    unfold Spec.hitchAngle
    rw [List.getD_eq_getElem _ _ (by simp; omega), List.getD_cons_succ, List.getD_eq_getElem _ _ h]
  constructor
  · rintro ⟨i, h, hx⟩
    rw [e i h] at hx
    exact ⟨i, by omega, hx⟩
  · rintro ⟨i, h, hx⟩
    refine ⟨i, by omega, ?_⟩
    rw [e i (by omega)]
    exact hx

theorem rejects_openN {T : NTrailer} (ho : Spec.OpenField T.toParams) (q : QN) :
    T.rejects q ↔ T.shieldHitch = true ∧ T.checkHitch q := by
  unfold NTrailer.rejects NTrailer.checkObstacle
  rw [ho.1, ho.2]
  simp

/-- Heading of unit `i`. -/
noncomputable def unitHeading (q : QN) (i : ℕ) : ℝ := (q.th0 :: q.ths).getD i 0

/-- A balanced train turns every unit by the same angle. -/
theorem balanced_step {T : NTrailer} {q q' : QN} {u : U} (hL : ∀ i < T.N, T.lengths.getD i 0 ≠ 0)
    (h : Spec.EulerN T q u q') (hb : Spec.Balanced T (u.2 * (T.deltaMaxDeg * π / 180)) (Spec.hitchAngle q)) :
    ∀ i ≤ T.N, unitHeading q' i = unitHeading q i + turnStep T.toParams u := by
  obtain ⟨s, w, h0, h0', hr, -, -, e3, -, e4⟩ := h
  obtain ⟨c, c0, hc⟩ := hb
  have key : ∀ i ≤ T.N, s i = u.1 * T.vMax * c i ∧
      w i = u.1 * T.vMax * (tan (u.2 * (T.deltaMaxDeg * π / 180)) / T.l1) := by
    intro i
    induction i with
    | zero => intro _; exact ⟨by rw [h0, c0, mul_one], by rw [h0']; ring⟩
    | succ i ih =>
      intro hi
      obtain ⟨i1, i2⟩ := ih (by omega)
      obtain ⟨r1, r2⟩ := hr i (by omega)
      obtain ⟨b1, b2⟩ := hc i (by omega)
      have hli := hL i (by omega)
      unfold Spec.hitchAngle at b1 b2
      rw [i1, i2] at r1 r2
      refine ⟨?_, ?_⟩
      · rw [r1, b1]; ring
      · rw [r2, div_eq_iff hli]
        linear_combination (u.1 * T.vMax) * b2
  intro i hi
  unfold unitHeading
  have ht : turnStep T.toParams u = T.dt * (u.1 * T.vMax * (tan (u.2 * (T.deltaMaxDeg * π / 180)) / T.l1)) := by
    unfold turnStep; ring
  cases i with
  | zero => simp only [List.getD_cons_zero]; rw [e3, (key 0 hi).2, ht]
  | succ i => simp only [List.getD_cons_succ]; rw [e4 i (by omega), (key (i + 1) hi).2, ht]

/-- Two poses of the same shape: the axles sit alike relative to the tractor. -/
theorem chain_rigid (T : NTrailer) (q q0 : QN) (α : ℝ) (h : ∀ i ≤ T.N, unitHeading q i = unitHeading q0 i + α) :
    ∀ i < T.N,
    (Spec.chainAxle T q i).1 - q.px =
      cos α * ((Spec.chainAxle T q0 i).1 - q0.px) - sin α * ((Spec.chainAxle T q0 i).2 - q0.py) ∧
    (Spec.chainAxle T q i).2 - q.py =
      sin α * ((Spec.chainAxle T q0 i).1 - q0.px) + cos α * ((Spec.chainAxle T q0 i).2 - q0.py) := by
  have h0 : q.th0 = q0.th0 + α := h 0 (Nat.zero_le _)
  have hs : ∀ i < T.N, q.ths.getD i 0 = q0.ths.getD i 0 + α := fun i hi => h (i + 1) (by omega)
  intro i
  induction i with
  | zero =>
    intro hi
    unfold Spec.chainAxle Spec.frame
    simp only
    rw [h0, hs 0 hi, cos_add, cos_add, sin_add, sin_add]
    constructor <;> ring
  | succ i ih =>
    intro hi
    obtain ⟨i1, i2⟩ := ih (by omega)
    unfold Spec.chainAxle Spec.frame
    simp only
    rw [hs i (by omega), hs (i + 1) hi, cos_add, cos_add, sin_add, sin_add]
    constructor
    · linear_combination i1
    · linear_combination i2

theorem turnCentre_rigid (P : Params) (u : U) (x y x0 y0 t0 α : ℝ) :
    (turnCentre P u x y (t0 + α)).1 - x =
      cos α * ((turnCentre P u x0 y0 t0).1 - x0) - sin α * ((turnCentre P u x0 y0 t0).2 - y0) ∧
    (turnCentre P u x y (t0 + α)).2 - y =
      sin α * ((turnCentre P u x0 y0 t0).1 - x0) + cos α * ((turnCentre P u x0 y0 t0).2 - y0) := by
  unfold turnCentre
  have e : t0 + α - turnStep P u / 2 = (t0 - turnStep P u / 2) + α := by ring
  rw [e, cos_add, sin_add]
  constructor <;> ring

/-- **C87**, train: on open ground, from a pose whose hitch angles balance the steering, the train turns as one rigid body:
every command is carried out, all hitch angles stay exactly what they were, and all axles follow circles about the centre
of the tractor's. -/
theorem C87_steady_ntrailer (T : NTrailer) (guide : QN → QN) (hg : T.enableGuidance = false) (hN : 0 < T.N)
    (ho : Spec.OpenField T.toParams) (s : St QN) (hw : Spec.WellSized T s.q) (hb : s.inBackup = false) (u : U)
    (hu : Spec.InBox u) (hl : 0 < T.l1) (hL : ∀ i < T.N, T.lengths.getD i 0 ≠ 0) (hs : ¬ T.checkHitch s.q)
    {ω δ : ℝ} (hδ : δ = u.2 * (T.deltaMaxDeg * π / 180))
    (hω : ω = T.dt * (u.1 * T.vMax / T.l1 * tan δ)) (hω0 : ω ≠ 0) (hω2 : |ω| ≤ 2)
    (hst : Spec.Balanced T δ (Spec.hitchAngle s.q)) :
    ∃ (c : V2) (r : ℝ) (r' : ℕ → ℝ), ∀ (n : ℕ) (tr : List (St QN)),
      scanStatesE (T.step guide) s (List.replicate n u) = .ok tr →
      ∀ (i : ℕ) (x : St QN), (s :: tr)[i]? = some x →
      x.q.th0 = s.q.th0 + i * ω ∧ Spec.dist (x.q.px, x.q.py) c = r ∧
      ∀ j < T.N, Spec.hitchAngle x.q j = Spec.hitchAngle s.q j ∧ Spec.dist (Spec.chainAxle T x.q j) c = r' j := by
  subst hδ
  have e : ω = turnStep T.toParams u := hω
  subst e
  obtain ⟨f, -, -, -, -, hsin⟩ := chordRadius_eq (P := T.toParams) hl hω0 hω2
  have key : ∀ n : ℕ, (∀ j ≤ T.N, unitHeading ((poseStepN T u)^[n] s.q) j = unitHeading s.q j + n * turnStep T.toParams u) ∧
      turnCentre T.toParams u ((poseStepN T u)^[n] s.q).px ((poseStepN T u)^[n] s.q).py
        ((poseStepN T u)^[n] s.q).th0 = turnCentre T.toParams u s.q.px s.q.py s.q.th0 := by
    intro n
    induction n with
    | zero => simp
    | succ n ih =>
      have hlen := poseStepN_iterate_length u hw.ths n
      rw [Function.iterate_succ_apply']
      generalize (poseStepN T u)^[n] s.q = q at ih hlen ⊢
      obtain ⟨i1, i2⟩ := ih
      have hq : Spec.WellSized T q := ⟨hlen, hw.lengths, hw.fronts, hw.rears⟩
      have hang : ∀ j < T.N, Spec.hitchAngle q j = Spec.hitchAngle s.q j := by
        intro j hj
        have a1 := i1 j hj.le
        have a2 := i1 (j + 1) hj
        unfold Spec.hitchAngle
        unfold unitHeading at a1 a2
        rw [a1, a2]; ring
      have he : Spec.EulerN T q u (T.euler q (T.inputScaler u)) := (eulerN_iff hq _ _).mpr rfl
      have hlen' : (T.euler q (T.inputScaler u)).ths.length = T.N := T.euler_length _ _ hlen
      have hbal : Spec.Balanced T (u.2 * (T.deltaMaxDeg * π / 180)) (Spec.hitchAngle q) := by
        obtain ⟨c, c0, hc⟩ := hst
        exact ⟨c, c0, fun i hi => by rw [hang i hi]; exact hc i hi⟩
      have hd := balanced_step hL he hbal
      have nr : ¬ T.rejects (T.euler q (T.inputScaler u)) := by
        rw [rejects_openN ho]
        rintro ⟨-, h⟩
        apply hs
        rw [hitch_iff hN hlen'] at h
        rw [hitch_iff hN hw.ths]
        obtain ⟨j, hj, h⟩ := h
        refine ⟨j, hj, ?_⟩
        rw [← hang j hj]
        have a1 := hd j hj.le
        have a2 := hd (j + 1) hj
        have : Spec.hitchAngle (T.euler q (T.inputScaler u)) j = Spec.hitchAngle q j := by
          unfold Spec.hitchAngle
          unfold unitHeading at a1 a2
          rw [a1, a2]; ring
        rw [← this]
        exact h
      have hps : poseStepN T u q = T.euler q (T.inputScaler u) := if_neg nr
      rw [hps]
      generalize T.euler q (T.inputScaler u) = q' at he hd
      refine ⟨fun j hj => by rw [hd j hj, i1 j hj]; push_cast; ring, ?_⟩
      obtain ⟨_, w, -, h0, -, e1, e2, e3, -, -⟩ := he
      have e3' : q'.th0 = q.th0 + turnStep T.toParams u := by rw [e3, h0]; rfl
      rw [e1, e2, e3', turnCentre_step hsin, i2]
  refine ⟨turnCentre T.toParams u s.q.px s.q.py s.q.th0, |chordRadius T.toParams u|,
    fun j => Spec.dist (Spec.chainAxle T s.q j) (turnCentre T.toParams u s.q.px s.q.py s.q.th0), ?_⟩
  intro n tr h i x hx
  rw [train_hold T guide hg _ n s tr hb h i x hx, clipU_of_mem hu]
  obtain ⟨k1, k2⟩ := key i
  have k0 : ((poseStepN T u)^[i] s.q).th0 = s.q.th0 + i * turnStep T.toParams u := k1 0 (Nat.zero_le _)
  refine ⟨k0, ?_, ?_⟩
  · rw [← k2, turnCentre_dist]
  · intro j hj
    refine ⟨?_, ?_⟩
    · have a1 := k1 j hj.le
      have a2 := k1 (j + 1) hj
      unfold Spec.hitchAngle
      unfold unitHeading at a1 a2
      rw [a1, a2]; ring
    · obtain ⟨c1, c2⟩ := chain_rigid T _ s.q _ k1 j hj
      obtain ⟨t1, t2⟩ := turnCentre_rigid T.toParams u ((poseStepN T u)^[i] s.q).px ((poseStepN T u)^[i] s.q).py
        s.q.px s.q.py s.q.th0 (i * turnStep T.toParams u)
      rw [← k0, k2] at t1 t2
      unfold Spec.dist
      congr 1
      generalize (i : ℝ) * turnStep T.toParams u = α at *
      generalize Spec.chainAxle T ((poseStepN T u)^[i] s.q) j = A at *
      generalize Spec.chainAxle T s.q j = A0 at *
      generalize turnCentre T.toParams u s.q.px s.q.py s.q.th0 = c at *
      have d1 : A.1 - c.1 = cos α * (A0.1 - c.1) - sin α * (A0.2 - c.2) := by linarith
      have d2 : A.2 - c.2 = sin α * (A0.1 - c.1) + cos α * (A0.2 - c.2) := by linarith
      rw [d1, d2]
      have := sin_sq_add_cos_sq α
      linear_combination ((A0.1 - c.1) ^ 2 + (A0.2 - c.2) ^ 2) * this

theorem turn_vector {s h r c : ℝ} (e : s ^ 2 + h ^ 2 = r ^ 2 + c ^ 2) :
    ∃ φ, r = s * cos φ + h * sin φ ∧ s * sin φ - h * cos φ = c := by
  have circ : ∀ x y : ℝ, x ^ 2 + y ^ 2 = 1 → ∃ φ, cos φ = x ∧ sin φ = y := by
    intro x y hxy
    have hx : -1 ≤ x ∧ x ≤ 1 := by constructor <;> nlinarith [sq_nonneg y]
    rcases le_total 0 y with hy | hy
    · refine ⟨arccos x, cos_arccos hx.1 hx.2, ?_⟩
      rw [sin_arccos, show 1 - x ^ 2 = y ^ 2 by linarith, sqrt_sq hy]
    · refine ⟨-arccos x, by rw [cos_neg]; exact cos_arccos hx.1 hx.2, ?_⟩
      rw [sin_neg, sin_arccos, show 1 - x ^ 2 = (-y) ^ 2 by linarith [neg_sq y], sqrt_sq (by linarith)]
      ring
  rcases eq_or_ne (s ^ 2 + h ^ 2) 0 with h0 | h0
  · have s0 : s = 0 := by nlinarith [sq_nonneg s, sq_nonneg h]
    have g0 : h = 0 := by nlinarith [sq_nonneg s, sq_nonneg h]
    have r0 : r = 0 := by nlinarith [sq_nonneg r, sq_nonneg c]
    have c0 : c = 0 := by nlinarith [sq_nonneg r, sq_nonneg c]
    exact ⟨0, by simp [s0, g0, r0], by simp [s0, g0, c0]⟩
  · obtain ⟨φ, h1, h2⟩ := circ ((s * r - h * c) / (s ^ 2 + h ^ 2)) ((s * c + h * r) / (s ^ 2 + h ^ 2)) (by
      rw [div_pow, div_pow, ← add_div, div_eq_one_iff_eq (by positivity)]
      have : (s * r - h * c) ^ 2 + (s * c + h * r) ^ 2 = (s ^ 2 + h ^ 2) * (r ^ 2 + c ^ 2) := by ring
      rw [this, ← e]; ring)
    refine ⟨φ, ?_, ?_⟩
    · rw [h1, h2]; field_simp; ring
    · rw [h1, h2]; field_simp; ring

/-- **C87**, train: balancing hitch angles exist exactly when the steering is gentle enough for the lengths of the units. -/
theorem C87_steady_exists_ntrailer (T : NTrailer) (hl : 0 < T.l1) (δ : ℝ) :
    (∃ φ, Spec.Balanced T δ φ) ↔
      ∀ i < T.N, (∑ j ∈ Finset.range (i + 1), (T.lengths.getD j 0 ^ 2 - T.lh ^ 2)) * tan δ ^ 2 ≤ T.l1 ^ 2 := by
  set τ := tan δ / T.l1 with hτ
  set S : ℕ → ℝ := fun i => ∑ j ∈ Finset.range i, (T.lengths.getD j 0 ^ 2 - T.lh ^ 2) with hS
  have S0 : S 0 = 0 := by simp [hS]
  have S1 : ∀ i, S (i + 1) = S i + (T.lengths.getD i 0 ^ 2 - T.lh ^ 2) := fun i => Finset.sum_range_succ _ _
  have hiff : ∀ i, (S i * tan δ ^ 2 ≤ T.l1 ^ 2 ↔ 0 ≤ 1 - S i * τ ^ 2) := by
    intro i
    have : S i * τ ^ 2 = S i * tan δ ^ 2 / T.l1 ^ 2 := by rw [hτ, div_pow]; ring
    rw [this, sub_nonneg, div_le_one (by positivity)]
  show _ ↔ ∀ i < T.N, S (i + 1) * tan δ ^ 2 ≤ T.l1 ^ 2
  constructor
  · rintro ⟨φ, c, c0, hc⟩
    have key : ∀ i ≤ T.N, c i ^ 2 = 1 - S i * τ ^ 2 := by
      intro i
      induction i with
      | zero => intro _; rw [c0, S0]; ring
      | succ i ih =>
        intro hi
        obtain ⟨h1, h2⟩ := hc i (by omega)
        have e := sin_sq_add_cos_sq (φ i)
        have : c (i + 1) ^ 2 + (T.lengths.getD i 0 * τ) ^ 2 = c i ^ 2 + (T.lh * τ) ^ 2 := by
          rw [h1, ← h2]
          linear_combination (c i ^ 2 + (T.lh * τ) ^ 2) * e
        rw [S1]
        linarith [ih (by omega)]
    intro i hi
    rw [hiff, ← key (i + 1) hi]
    positivity
  · intro h
    have pos : ∀ i ≤ T.N, 0 ≤ 1 - S i * τ ^ 2 := by
      intro i hi
      cases i with
      | zero => rw [S0]; norm_num
      | succ i => rw [← hiff]; exact h i hi
    have ex : ∀ i, ∃ φ, i < T.N → √(1 - S (i + 1) * τ ^ 2) = √(1 - S i * τ ^ 2) * cos φ + T.lh * τ * sin φ ∧
        √(1 - S i * τ ^ 2) * sin φ - T.lh * τ * cos φ = T.lengths.getD i 0 * τ := by
      intro i
      by_cases hi : i < T.N
      · obtain ⟨φ, h1, h2⟩ := turn_vector (s := √(1 - S i * τ ^ 2)) (h := T.lh * τ) (r := √(1 - S (i + 1) * τ ^ 2))
          (c := T.lengths.getD i 0 * τ) (by
            rw [sq_sqrt (pos i hi.le), sq_sqrt (pos (i + 1) hi), S1]; ring)
        exact ⟨φ, fun _ => ⟨h1, h2⟩⟩
      · exact ⟨0, fun h => absurd h hi⟩
    choose φ hφ using ex
    exact ⟨φ, fun i => √(1 - S i * τ ^ 2), by show √(1 - S 0 * τ ^ 2) = 1; rw [S0]; simp, fun i hi => hφ i hi⟩

/-! ## A train that cannot even drive straight ahead -/

/-- **C87**, train: unlike a single trailer, a train whose first two hitches are both at the limit, to the same side, cannot
drive straight ahead: on every map and at every speed the hitch shield refuses every step for ever. -/
theorem C87_ahead_stuck_ntrailer (T : NTrailer) (guide : QN → QN) (hg : T.enableGuidance = false) (hN : 2 ≤ T.N)
    (hsh : T.shieldHitch = true) (s : St QN) (hw : Spec.WellSized T s.q) (hb : s.inBackup = false) (hdt : 0 < T.dt)
    (hv : 0 < T.vMax) (hh : 0 ≤ T.lh) {L0 L1 : ℝ} (hL0 : L0 = T.lengths.getD 0 0) (hL1 : L1 = T.lengths.getD 1 0)
    (h0 : 0 < L0) (h1 : L0 ≤ L1) {a : ℝ} (ha : 0 < a) (ha1 : a ≤ 1)
    (hk : T.dt * (a * T.vMax) / L0 * (1 + T.lh / L1) ≤ 3)
    (hs0 : Spec.hitchAngle s.q 0 = deg2rad 40) (hs1 : Spec.hitchAngle s.q 1 = deg2rad 40) (n : ℕ) (tr : List (St QN))
    (h : scanStatesE (T.step guide) s (List.replicate n (a, 0)) = .ok tr) (x : St QN) (hx : x ∈ s :: tr) :
    x.q = s.q := by
  have hu : clipU ((a, 0) : U) = (a, 0) := clipU_of_mem ⟨by
    simp only [abs_le]; constructor <;> linarith, by simp⟩
  have hp3 := pi_gt_three
  have d40 : deg2rad 40 = 2 * π / 9 := by unfold deg2rad; ring
  have rej : T.rejects (T.euler s.q (T.inputScaler (a, 0))) := by
    refine Or.inr ⟨hsh, ?_⟩
    have he : Spec.EulerN T s.q (a, 0) (T.euler s.q (T.inputScaler (a, 0))) := (eulerN_iff hw _ _).mpr rfl
    rw [hitch_iff (by omega) (T.euler_length _ _ hw.ths)]
    refine ⟨1, by omega, ?_⟩
    generalize T.euler s.q (T.inputScaler (a, 0)) = q' at he
    obtain ⟨c, w, c0, w0, hr, -, -, e3, -, e4⟩ := he
    have w0' : w 0 = 0 := by rw [w0]; simp
    have f0 := e4 0 (by omega)
    have f1 := e4 1 (by omega)
    obtain ⟨r1, r2⟩ := hr 0 (by omega)
    obtain ⟨-, r3⟩ := hr 1 (by omega)
    have g0 : (s.q.th0 :: s.q.ths).getD 0 0 - (s.q.th0 :: s.q.ths).getD (0 + 1) 0 = deg2rad 40 := hs0
    have g1 : (s.q.th0 :: s.q.ths).getD 1 0 - (s.q.th0 :: s.q.ths).getD (1 + 1) 0 = deg2rad 40 := hs1
    have ev : ((a, 0) : U).1 * T.vMax = a * T.vMax := rfl
    rw [g0, c0, w0', ev] at r1 r2
    rw [g1] at r3
    rw [zero_add] at r1 r2 f0
    rw [r1] at r3
    simp only [← hL0, ← hL1, mul_zero, zero_mul, add_zero, sub_zero] at r2 r3
    rw [r2] at r3 f0
    rw [show 1 + 1 = 2 from rfl] at f1 r3
    rw [r3] at f1
    have hsin : 0 < sin (deg2rad 40) := sin_pos_of_pos_of_lt_pi (by rw [d40]; linarith) (by rw [d40]; linarith)
    have hsin1 := sin_le_one (deg2rad 40)
    have hcos : 0 < cos (deg2rad 40) := cos_pos_of_mem_Ioo ⟨by rw [d40]; linarith, by rw [d40]; linarith⟩
    have hcos1 : cos (deg2rad 40) < 1 := by
      nlinarith [sin_sq_add_cos_sq (deg2rad 40)]
    have hL1p : 0 < L1 := by linarith
    have eh : Spec.hitchAngle q' 1 = deg2rad 40 + T.dt * (a * T.vMax) / L0 * sin (deg2rad 40) *
        ((L1 - L0 * cos (deg2rad 40) + T.lh * cos (deg2rad 40)) / L1) := by
      unfold Spec.hitchAngle
      simp only [List.getD_cons_succ] at g1 ⊢
      rw [f0, f1]
      have : s.q.ths.getD 0 0 = s.q.ths.getD 1 0 + deg2rad 40 := by linarith
      rw [this]
      generalize sin (deg2rad 40) = S
      generalize cos (deg2rad 40) = C
      field_simp
      ring
    have hkp : 0 < T.dt * (a * T.vMax) / L0 := by positivity
    have f2 : 0 < (L1 - L0 * cos (deg2rad 40) + T.lh * cos (deg2rad 40)) / L1 := by
      apply div_pos _ hL1p
      have := mul_nonneg hh hcos.le
      have : L0 * cos (deg2rad 40) < L0 := mul_lt_of_lt_one_right h0 hcos1
      linarith
    have f3 : (L1 - L0 * cos (deg2rad 40) + T.lh * cos (deg2rad 40)) / L1 ≤ 1 + T.lh / L1 := by
      rw [div_le_iff₀ hL1p, add_mul, div_mul_cancel₀ _ hL1p.ne']
      have := mul_pos h0 hcos
      have : T.lh * cos (deg2rad 40) ≤ T.lh := mul_le_of_le_one_right hh hcos1.le
      linarith
    set k := T.dt * (a * T.vMax) / L0 with hkdef
    set g := (L1 - L0 * cos (deg2rad 40) + T.lh * cos (deg2rad 40)) / L1 with hgdef
    have p1 : 0 < k * sin (deg2rad 40) * g := by positivity
    have p2 : k * sin (deg2rad 40) * g ≤ 3 := by
      calc k * sin (deg2rad 40) * g ≤ k * 1 * (1 + T.lh / L1) := by gcongr
        _ ≤ 3 := by rw [mul_one]; exact hk
    rw [← wrapPi_gt_iff, eh]
    have e40 : 40 * π / 180 = deg2rad 40 := by unfold deg2rad; ring
    rw [e40, gt_iff_lt]
    generalize k * sin (deg2rad 40) * g = D at p1 p2
    rcases lt_or_ge (deg2rad 40 + D) π with hlt | hge
    · rw [wrapPi_of_mem (by linarith [d40]) hlt, abs_of_pos (by rw [d40]; linarith)]
      linarith
    · have : wrapPi (deg2rad 40 + D) = deg2rad 40 + D - 2 * π := by
        have := wrapPi_add_turns (deg2rad 40 + D - 2 * π) 1
        rw [show deg2rad 40 + D - 2 * π + 2 * π * ((1 : ℤ) : ℝ) = deg2rad 40 + D by push_cast; ring] at this
        rw [this]
        exact wrapPi_of_mem (by linarith) (by rw [d40]; linarith)
      rw [this, lt_abs]
      right
      rw [d40]
      linarith
  have fix : poseStepN T (a, 0) s.q = s.q := if_pos rej
  obtain ⟨i, hi⟩ := List.getElem?_of_mem hx
  rw [train_hold T guide hg _ n s tr hb h i x hi, hu]
  exact Function.iterate_fixed fix i

/-! ## witnesses -/

/-- The default two-trailer train (n_trailer2d.py:18-49) on open ground, with the given hitch angles. -/
noncomputable def liftTrain (L : ℝ) (a b : ℝ) : NTrailer :=
  { toParams := Params.default [] [], N := 2, lengths := [2.9, L], fronts := [1.42, 1.42],
    rears := [1.848, 3.225], x0 := ⟨0, 0, a + b, [b, 0]⟩, xg := ⟨9, 0, 0, [0, 0]⟩ }

theorem liftTrain_sized (L a b : ℝ) : Spec.WellSized (liftTrain L a b) (liftTrain L a b).reset.q :=
  ⟨rfl, rfl, rfl, rfl⟩

theorem liftTrain_angles (L a b : ℝ) : Spec.hitchAngle (liftTrain L a b).reset.q 0 = a ∧
    Spec.hitchAngle (liftTrain L a b).reset.q 1 = b := by
  constructor
  · show a + b - b = a; ring
  · show b - 0 = b; ring

theorem liftTrain_hitch (L : ℝ) {a b : ℝ} (ha : |a| ≤ deg2rad 40) (hb : |b| ≤ deg2rad 40) :
    ¬ (liftTrain L a b).checkHitch (liftTrain L a b).reset.q := by
  have hp := pi_gt_three
  have d40 : deg2rad 40 = 2 * π / 9 := by unfold deg2rad; ring
  have e40 : 40 * π / 180 = deg2rad 40 := by unfold deg2rad; ring
  rw [hitch_iff (by show 0 < 2; norm_num) (liftTrain_sized L a b).ths]
  rintro ⟨i, hi, h⟩
  rw [← wrapPi_gt_iff, e40] at h
  have ok : ∀ z : ℝ, |z| ≤ deg2rad 40 → ¬ |wrapPi z| > deg2rad 40 := by
    intro z hz
    rw [wrapPi_of_mem (by linarith [(abs_le.mp hz).1]) (by linarith [(abs_le.mp hz).2]), not_lt]
    exact hz
  have hi' : i < 2 := hi
  interval_cases i
  · rw [(liftTrain_angles L a b).1] at h; exact ok a ha h
  · rw [(liftTrain_angles L a b).2] at h; exact ok b hb h

theorem small_limit : |(0.3 : ℝ)| ≤ deg2rad 40 := by
  rw [abs_of_pos (by norm_num)]; unfold deg2rad; linarith [pi_gt_three]

theorem liftTrain_first : Spec.angle (liftTrain 2.9 0.3 0).reset.q.th0 ((liftTrain 2.9 0.3 0).reset.q.ths.getD 0 0) =
    0.3 := by
  show arccos (cos (0.3 + 0 - 0)) = 0.3
  rw [add_zero, sub_zero, arccos_cos (by norm_num) (by linarith [pi_gt_three])]

theorem liftTrain_gain (L a b : ℝ) : (6 / 29 : ℝ) =
    (liftTrain L a b).dt * (1 * (liftTrain L a b).vMax) / (liftTrain L a b).lengths.getD 0 0 := by
  show (6 / 29 : ℝ) = 0.2 * (1 * 3) / 2.9
  norm_num

/-- Straight driving of the default train at full speed with a first hitch angle of `0.3`. -/
example : ∃ q', Spec.EulerN (liftTrain 2.9 0.3 0) (liftTrain 2.9 0.3 0).reset.q (1, 0) q' ∧
    Spec.angle q'.th0 (q'.ths.getD 0 0) < 0.3 := by
  obtain ⟨q', hq⟩ : ∃ q', Spec.EulerN (liftTrain 2.9 0.3 0) (liftTrain 2.9 0.3 0).reset.q (1, 0) q' :=
    ⟨_, (eulerN_iff (liftTrain_sized _ _ _) _ _).mpr rfl⟩
  refine ⟨q', hq, ?_⟩
  rw [(C87_step_ntrailer _ (by show 0 < 2; norm_num) _ _ _
    (by rw [← liftTrain_gain, abs_le]; constructor <;> norm_num) hq).2,
    liftTrain_first, ← liftTrain_gain]
  have : 0 < sin (0.3 : ℝ) := sin_pos_of_pos_of_le_one (by norm_num) (by norm_num)
  linarith

/-- Straight reversing of the default train with a first hitch angle of `0.3` is over after six steps. -/
example : ∃ tr, scanStatesE ((liftTrain 2.9 0.3 0).step id) (liftTrain 2.9 0.3 0).reset
      (List.replicate 10 (-1, 0)) = .ok tr ∧
    ∀ (i : ℕ), 6 ≤ i → ∀ x y, ((liftTrain 2.9 0.3 0).reset :: tr)[i]? = some x →
      ((liftTrain 2.9 0.3 0).reset :: tr)[6]? = some y → x.q = y.q := by
  obtain ⟨tr, h, -⟩ := ntrailer_rollout_ok (liftTrain 2.9 0.3 0) id rfl (List.replicate 10 (-1, 0))
    (liftTrain 2.9 0.3 0).reset (liftTrain_sized _ _ _).ths
  refine ⟨tr, h, fun i hi x y hx hy => ?_⟩
  refine C87_reverse_ntrailer _ id rfl (by show 0 < 2; norm_num) rfl _ (liftTrain_sized _ _ _) rfl
    (by norm_num [liftTrain, Params.default]) (by norm_num [liftTrain, Params.default])
    (by norm_num [liftTrain]) zero_le_one le_rfl (liftTrain_gain _ _ _) (by norm_num)
    (liftTrain_hitch _ small_limit (by rw [abs_zero]; unfold deg2rad; positivity)) 6 ?_ 10 tr h i hi x y hx hy
  rw [liftTrain_first]; unfold deg2rad
  have := pi_lt_d2
  have e : (2.5 : ℝ) ≤ (1 + 0.9 * (6 / 29)) ^ 6 := by norm_num
  linarith

/-- The default train at full lock and full speed is stuck after 15 steps (3 s). -/
example : ∃ tr, scanStatesE ((liftTrain 2.9 0.3 0).step id) (liftTrain 2.9 0.3 0).reset
      (List.replicate 20 (1, 1)) = .ok tr ∧
    ∀ (i : ℕ), 15 ≤ i → ∀ x y, ((liftTrain 2.9 0.3 0).reset :: tr)[i]? = some x →
      ((liftTrain 2.9 0.3 0).reset :: tr)[15]? = some y → x.q = y.q := by
  obtain ⟨tr, h, -⟩ := ntrailer_rollout_ok (liftTrain 2.9 0.3 0) id rfl (List.replicate 20 (1, 1))
    (liftTrain 2.9 0.3 0).reset (liftTrain_sized _ _ _).ths
  refine ⟨tr, h, fun i hi x y hx hy => ?_⟩
  have hp := pi_gt_d2
  have hp2 := pi_lt_d4
  have d0 : deg2rad 40 = 2 * π / 9 := by unfold deg2rad; ring
  have s40 : sin (deg2rad 40) ≤ 0.69815 := by
    refine (sin_le (by rw [d0]; positivity)).trans ?_
    rw [d0]; linarith
  have c40 : 0.756 ≤ cos (deg2rad 40) := by
    have h1 := one_sub_sq_div_two_le_cos (x := deg2rad 40)
    have h2 : deg2rad 40 ≤ 0.69815 := by rw [d0]; linarith
    have h3 : 0 ≤ deg2rad 40 := by rw [d0]; positivity
    nlinarith
  have ht : |tan (55 * π / 180)| = tan (55 * π / 180) :=
    abs_of_nonneg (by linarith [tan55_range.1])
  have hm : 0.468 ≤ (2.9 + 1.15 * cos (deg2rad 40)) / 3.23 * |tan (55 * π / 180)| - sin (deg2rad 40) := by
    rw [ht]
    have t1 := tan55_range.1
    generalize tan (55 * π / 180) = τ at t1
    have a : (2.9 + 1.15 * 0.756) / 3.23 ≤ (2.9 + 1.15 * cos (deg2rad 40)) / 3.23 := by
      gcongr
    nlinarith
  refine C87_lock_ntrailer _ id rfl (by show 0 < 2; norm_num) rfl _ (liftTrain_sized _ _ _) rfl
    (by norm_num [liftTrain, Params.default]) (by norm_num [liftTrain, Params.default])
    (by norm_num [liftTrain, Params.default]) (L := 2.9) rfl (by norm_num)
    (by norm_num [liftTrain, Params.default]) (u := (1, 1)) ⟨by simp, by simp⟩ zero_le_one
    (δ := 55 * π / 180) (by simp [liftTrain, Params.default]) (k := 6 / 29)
    (by norm_num [liftTrain, Params.default]) rfl ?_ ?_
    (liftTrain_hitch _ small_limit (by rw [abs_zero]; unfold deg2rad; positivity)) 15 ?_ 20 tr h i hi x y hx hy
  · have e1 : (liftTrain 2.9 0.3 0).l1 = 3.23 := rfl
    have e2 : (liftTrain 2.9 0.3 0).lh = 1.15 := rfl
    rw [e1, e2]; linarith
  · have e1 : (liftTrain 2.9 0.3 0).l1 = 3.23 := rfl
    have e2 : (liftTrain 2.9 0.3 0).lh = 1.15 := rfl
    rw [e1, e2, ht]
    linarith [tan55_range.2]
  · have e1 : (liftTrain 2.9 0.3 0).l1 = 3.23 := rfl
    have e2 : (liftTrain 2.9 0.3 0).lh = 1.15 := rfl
    rw [e1, e2]
    have := mul_le_mul_of_nonneg_left hm (show (0 : ℝ) ≤ 6 / 29 by norm_num)
    have d1 : deg2rad 40 ≤ 0.69815 := by rw [d0]; linarith
    push_cast
    linarith

/-- The default train at full lock and full speed. -/
example := C87_circle_ntrailer (liftTrain 2.9 0.3 0) id rfl (liftTrain 2.9 0.3 0).reset (liftTrain_sized _ _ _) rfl
  (1, 1) ⟨by simp, by simp⟩ (by norm_num [liftTrain, Params.default]) rfl rfl openTT_turn.1 openTT_turn.2

/-- Speed of the first trailer's axle, and the length of a second trailer that balances at a hitch angle of `0.3`. -/
noncomputable def gentleSpeed : ℝ := cos 0.3 + 1.15 * (gentleTan / 3.23) * sin 0.3

noncomputable def gentleLength : ℝ :=
  (gentleSpeed * sin 0.3 - 1.15 * (gentleTan / 3.23) * cos 0.3) / (gentleTan / 3.23)

theorem gentleLength_pos : 0 < gentleLength := by
  have g := gentle_facts.1
  have s0 : 0 < sin (0.3 : ℝ) := sin_pos_of_pos_of_le_one (by norm_num) (by norm_num)
  have c0 : 0 < cos (0.3 : ℝ) :=
    cos_pos_of_mem_Ioo ⟨by linarith [pi_gt_three], by linarith [pi_gt_three]⟩
  have c1 : 0.955 ≤ cos (0.3 : ℝ) := by
    have := one_sub_sq_div_two_le_cos (x := 0.3); norm_num at this ⊢; linarith
  have c2 := cos_le_one (0.3 : ℝ)
  have h : gentleTan * (2.9 / 3.23 + 1.15 / 3.23 * cos 0.3) = sin 0.3 := by
    unfold gentleTan; rw [div_mul_cancel₀ _ (by positivity)]
  unfold gentleLength
  apply div_pos _ (by positivity)
  have h2 : 0.955 * sin (0.3 : ℝ) ≤ gentleSpeed * sin 0.3 := by
    apply mul_le_mul_of_nonneg_right _ s0.le
    unfold gentleSpeed
    have : 0 ≤ 1.15 * (gentleTan / 3.23) * sin 0.3 := by positivity
    linarith
  have h3 : gentleTan * cos 0.3 ≤ gentleTan := mul_le_of_le_one_right g.le c2
  have h4 : gentleTan * 2.9 + 1.15 * (gentleTan * cos 0.3) = 3.23 * sin 0.3 := by rw [← h]; ring
  have h5 : 1.15 * (gentleTan / 3.23) * cos 0.3 = 1.15 / 3.23 * (gentleTan * cos 0.3) := by ring
  rw [h5]
  linarith

/-- A steady left turn of a two-trailer train at full speed with both hitch angles `0.3`. -/
example := C87_steady_ntrailer (liftTrain gentleLength 0.3 0.3) id rfl (by show 0 < 2; norm_num) ⟨rfl, rfl⟩
  (liftTrain gentleLength 0.3 0.3).reset (liftTrain_sized _ _ _) rfl (1, gentle)
  ⟨by simp, gentle_facts.2.2.1⟩ (by norm_num [liftTrain, Params.default])
  (by
    intro i hi
    have hi' : i < 2 := hi
    interval_cases i
    · norm_num [liftTrain]
    · exact gentleLength_pos.ne')
  (liftTrain_hitch _ small_limit small_limit)
  (δ := gentle * (55 * π / 180)) (ω := 0.2 * (1 * 3 / 3.23 * gentleTan)) rfl
  (by rw [gentle_facts.2.2.2]; rfl) (by have := gentle_facts.1; positivity)
  (by
    have h1 := gentle_facts.1
    rw [abs_of_nonneg (by positivity)]; linarith [gentle_facts.2.1])
  (by
    have g := gentle_facts.1
    have c0 : 0 < cos (0.3 : ℝ) :=
      cos_pos_of_mem_Ioo ⟨by linarith [pi_gt_three], by linarith [pi_gt_three]⟩
    have h : gentleTan * (2.9 / 3.23 + 1.15 / 3.23 * cos 0.3) = sin 0.3 := by
      unfold gentleTan; rw [div_mul_cancel₀ _ (by positivity)]
    have e1 : (liftTrain gentleLength 0.3 0.3).l1 = 3.23 := rfl
    have e3 : (liftTrain gentleLength 0.3 0.3).lh = 1.15 := rfl
    refine ⟨fun i => if i = 0 then 1 else if i = 1 then gentleSpeed else
      gentleSpeed * cos 0.3 + 1.15 * (gentleTan / 3.23) * sin 0.3, by simp, ?_⟩
    intro i hi
    have hi' : i < 2 := hi
    rw [gentle_facts.2.2.2, e1, e3]
    interval_cases i
    · rw [(liftTrain_angles _ _ _).1]
      refine ⟨by simp [gentleSpeed], ?_⟩
      show 1 * sin 0.3 - 1.15 * (gentleTan / 3.23) * cos 0.3 = 2.9 * (gentleTan / 3.23)
      rw [← h]; ring
    · rw [(liftTrain_angles _ _ _).2]
      refine ⟨by simp, ?_⟩
      show gentleSpeed * sin 0.3 - 1.15 * (gentleTan / 3.23) * cos 0.3 = gentleLength * (gentleTan / 3.23)
      unfold gentleLength
      rw [div_mul_cancel₀ _ (by positivity)])

/-- Steering of `atan 1/2` can be balanced by the default train (`2 * (2.9² - 1.15²) / 4 ≤ 3.23²`). -/
example : ∃ φ, Spec.Balanced (liftTrain 2.9 0.3 0) (arctan (1 / 2)) φ := by
  rw [C87_steady_exists_ntrailer _ (by norm_num [liftTrain, Params.default])]
  intro i hi
  have hi' : i < 2 := hi
  rw [tan_arctan]
  interval_cases i <;> norm_num [liftTrain, Params.default, Finset.sum_range_succ]

/-- The default train with both hitches at 40 degrees is stuck: full speed ahead does not move it. -/
example : ∃ tr, scanStatesE ((liftTrain 2.9 (deg2rad 40) (deg2rad 40)).step id)
      (liftTrain 2.9 (deg2rad 40) (deg2rad 40)).reset (List.replicate 100 (1, 0)) = .ok tr ∧
    ¬ (liftTrain 2.9 (deg2rad 40) (deg2rad 40)).checkHitch (liftTrain 2.9 (deg2rad 40) (deg2rad 40)).reset.q ∧
    ∀ x ∈ tr, x.q = (liftTrain 2.9 (deg2rad 40) (deg2rad 40)).reset.q := by
  obtain ⟨tr, h, -⟩ := ntrailer_rollout_ok (liftTrain 2.9 (deg2rad 40) (deg2rad 40)) id rfl
    (List.replicate 100 (1, 0)) (liftTrain 2.9 (deg2rad 40) (deg2rad 40)).reset (liftTrain_sized _ _ _).ths
  have hd : |deg2rad 40| ≤ deg2rad 40 := (abs_of_nonneg (by unfold deg2rad; positivity)).le
  refine ⟨tr, h, liftTrain_hitch _ hd hd, fun x hx => ?_⟩
  refine C87_ahead_stuck_ntrailer _ id rfl (by show 2 ≤ 2; norm_num) rfl _ (liftTrain_sized _ _ _) rfl
    (by norm_num [liftTrain, Params.default]) (by norm_num [liftTrain, Params.default])
    (by norm_num [liftTrain, Params.default]) (L0 := 2.9) (L1 := 2.9) rfl rfl (by norm_num) le_rfl
    zero_lt_one le_rfl (by norm_num [liftTrain, Params.default]) (liftTrain_angles _ _ _).1
    (liftTrain_angles _ _ _).2 100 tr h x (List.mem_cons_of_mem _ hx)

end Mbd
