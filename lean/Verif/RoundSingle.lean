import Verif.RoundMotion
import Verif.Witness
import Verif.PropsMotion
import Mathlib.Data.Int.Log
import Mathlib.Algebra.Order.Round

/-!
# C76: an arithmetic with 24-bit rounding, and runs of the length of a plan
-/

namespace Mbd

open Real Classical _root_.Spec

/-- Rounding to 24 significant bits (exponents unbounded). -/
noncomputable def rnd (x : ℝ) : ℝ := (2 : ℝ) ^ (Int.log 2 |x| - 23) * round (x / (2 : ℝ) ^ (Int.log 2 |x| - 23))

theorem rnd_err (x : ℝ) : |rnd x - x| ≤ 6e-8 * |x| := by
  unfold rnd
  rcases eq_or_ne x 0 with rfl | hx
  · simp
  set e := Int.log 2 |x| with he
  have hp : (0 : ℝ) < 2 ^ (e - 23) := by positivity
  have h1 : (2 : ℝ) ^ e ≤ |x| := by
    have := Int.zpow_log_le_self (R := ℝ) (b := 2) (by norm_num) (abs_pos.mpr hx)
    simpa using this
  have h2 := abs_sub_round (x / (2 : ℝ) ^ (e - 23))
  have h3 : (2 : ℝ) ^ (e - 23) * round (x / (2 : ℝ) ^ (e - 23)) - x
      = -((2 : ℝ) ^ (e - 23) * (x / (2 : ℝ) ^ (e - 23) - round (x / (2 : ℝ) ^ (e - 23)))) := by
    field_simp
    ring
  rw [h3, abs_neg, abs_mul, abs_of_pos hp]
  have h4 : (2 : ℝ) ^ (e - 23) = 2 ^ e / 8388608 := by
    rw [zpow_sub₀ (by norm_num)]; norm_num
  have h5 := mul_le_mul_of_nonneg_left h2 hp.le
  calc _ ≤ (2 : ℝ) ^ (e - 23) * (1 / 2) := h5
    _ ≤ 6e-8 * |x| := by rw [h4]; linarith

/-- Every operation rounded to 24 bits, one at a time. -/
noncomputable def single : Arith where
  const := rnd
  add a b := rnd (a + b)
  sub a b := rnd (a - b)
  mul a b := rnd (a * b)
  div a b := rnd (a / b)
  mulAdd a b c := rnd (rnd (a * b) + c)
  sum2 a b c d := rnd (rnd (a * b) + rnd (c * d))
  mm a b c d := rnd (rnd (a * b) + rnd (c * d))
  rem := fmod
  sqrt a := rnd √a
  sin a := rnd (sin a)
  cos a := rnd (cos a)
  tan a := rnd (tan a)

theorem single_sum (a b : ℝ) : |rnd (rnd a + rnd b) - (a + b)| ≤ 1.8e-7 * (|a| + |b|) + 1e-30 := by
  have h1 := rnd_err a
  have h2 := rnd_err b
  have h3 := rnd_err (rnd a + rnd b)
  have a0 := abs_nonneg a
  have b0 := abs_nonneg b
  have h4 : |rnd a + rnd b - (a + b)| ≤ 6e-8 * |a| + 6e-8 * |b| := by
    rw [show rnd a + rnd b - (a + b) = (rnd a - a) + (rnd b - b) by ring]
    exact (abs_add_le _ _).trans (add_le_add h1 h2)
  have h5 : |rnd a + rnd b| ≤ |a| + |b| + (6e-8 * |a| + 6e-8 * |b|) := Rounded.abs_le_of_err h4 (abs_add_le a b)
  have t := abs_add_le (rnd (rnd a + rnd b) - (rnd a + rnd b)) (rnd a + rnd b - (a + b))
  rw [sub_add_sub_cancel] at t
  linarith

/-- The assumptions of C76 on the arithmetic are met by 24-bit rounding. -/
theorem single_float32 : Spec.Float32 single where
  const a := (rnd_err a).trans (by linarith)
  add a b := (rnd_err _).trans (by linarith)
  sub a b := (rnd_err _).trans (by linarith)
  mul a b := (rnd_err _).trans (by linarith)
  div a b _ := (rnd_err _).trans (by linarith)
  mulAdd a b c := by
    show |rnd (rnd (a * b) + c) - (a * b + c)| ≤ _
    have h1 := rnd_err (a * b)
    have h3 := rnd_err (rnd (a * b) + c)
    have a0 := abs_nonneg (a * b)
    have h4 : |rnd (a * b) + c - (a * b + c)| ≤ 6e-8 * |a * b| := by
      rw [add_sub_add_right_eq_sub]; exact h1
    have h5 := Rounded.abs_le_of_err h4 le_rfl
    have t := abs_add_le (rnd (rnd (a * b) + c) - (rnd (a * b) + c)) (rnd (a * b) + c - (a * b + c))
    rw [sub_add_sub_cancel] at t
    linarith
  sum2 a b c d := (single_sum _ _).trans (by have := abs_nonneg (a * b); have := abs_nonneg (c * d); linarith)
  mm a b c d := single_sum _ _
  rem a b hb := by
    show 0 ≤ fmod a b ∧ fmod a b ≤ b ∧ _
    have e : fmod a b = a - ⌊a / b⌋ * b := by unfold fmod; ring
    have f1 := Int.floor_le (a / b)
    have f2 := Int.lt_floor_add_one (a / b)
    have g1 : (⌊a / b⌋ : ℝ) * b ≤ a := by rwa [le_div_iff₀ hb] at f1
    have g2 : a < ((⌊a / b⌋ : ℝ) + 1) * b := by rwa [div_lt_iff₀ hb] at f2
    refine ⟨by rw [e]; linarith, by rw [e]; linarith, ⌊a / b⌋, ?_, ?_⟩
    · have h : |a / b| = |a| / b := by rw [abs_div, abs_of_pos hb]
      rw [← h]
      have := abs_le.mp (le_refl |a / b|)
      exact abs_le.mpr ⟨by linarith, by linarith⟩
    · show |fmod a b - _| ≤ _
      rw [e, sub_self, abs_zero]
      linarith
  sqrt a _ := (rnd_err _).trans (by rw [abs_of_nonneg (sqrt_nonneg a)]; linarith)
  cos a _ := (rnd_err _).trans (by have := abs_cos_le_one a; linarith)
  sin a _ := (rnd_err _).trans (by have := abs_sin_le_one a; linarith)
  tan a ha := by
    refine (rnd_err _).trans ?_
    have h := Rounded.tan_err ha (show |(0 : ℝ)| ≤ 1 by simp)
    rw [tan_zero, sub_zero, sub_zero] at h
    linarith

/-- Rounding really changes results: a third is not representable. -/
example : rnd (1 / 3) ≠ 1 / 3 := by
  unfold rnd
  intro h
  set e := Int.log 2 |(1 / 3 : ℝ)| with he
  set k := round (1 / 3 / (2 : ℝ) ^ (e - 23)) with hk
  have h1 : (2 : ℝ) ^ e ≤ 1 / 3 := by
    have := Int.zpow_log_le_self (R := ℝ) (b := 2) (r := |1 / 3|) (by norm_num) (by norm_num)
    rw [← he, abs_of_pos (by norm_num)] at this
    simpa using this
  have h2 : e ≤ 0 := by
    by_contra hc
    push Not at hc
    have : (1 : ℝ) ≤ 2 ^ e := one_le_zpow₀ (by norm_num) hc.le
    linarith
  obtain ⟨n, hn⟩ : ∃ n : ℕ, (n : ℤ) = 23 - e := ⟨(23 - e).toNat, by omega⟩
  have h3 : (2 : ℝ) ^ (e - 23) * 2 ^ n = 1 := by
    rw [← zpow_natCast, ← zpow_add₀ (by norm_num), hn]
    simp
  have h4 : (3 : ℝ) * k = 2 ^ n := by
    have : (2 : ℝ) ^ n * (2 ^ (e - 23) * k) = 2 ^ n * (1 / 3) := by rw [h]
    rw [← mul_assoc, mul_comm ((2 : ℝ) ^ n) _, h3] at this
    linarith
  have h5 : (3 : ℤ) * k = 2 ^ n := by exact_mod_cast h4
  have h6 : (3 : ℤ) ∣ 2 ^ n := ⟨k, h5.symm⟩
  have h7 : (3 : ℤ) ∣ 2 := by
    have h8 : (3 : ℕ) ∣ 2 ^ n := by exact_mod_cast h6
    have := Nat.Prime.dvd_of_dvd_pow Nat.prime_three h8
    omega
  omega

/-! ## Runs of the length of a plan -/

/-- One rounded step of the default vehicle moves it by less than 61 cm and turns it by less than 0.4 rad. -/
theorem Rounded.step_field {A : Arith} (acc : Spec.Float32 A) (cs : List Circle) (rs : List Rect) {q : Q4} (hq : OnSite q) {X Θ : ℝ}
    (h : InField4 X Θ q) (a : U) : InField4 (X + 0.61) (Θ + 0.4) (Rounded.step A (Params.default cs rs) q a) := by
  rcases Rounded.step_cases (A := A) (P := Params.default cs rs) rfl q a with e | ⟨e, -⟩
  · rw [e]
    exact ⟨h.px.trans (by linarith), h.py.trans (by linarith), h.th1.trans (by linarith), h.th2.trans (by linarith)⟩
  · rw [e]
    obtain ⟨q1, ⟨e1, e2, e3, e4⟩, n1, n2, n3, n4⟩ := Rounded.euler_close acc cs rs hq (Rounded.clipU_inBox a)
    generalize Rounded.euler A (Params.default cs rs) q _ = q' at *
    obtain ⟨-, -, ht⟩ := Rounded.scaler32 acc cs rs (Rounded.clipU_inBox a)
    have hv := (Rounded.clipU_inBox a).1
    generalize (clipU a).1 = v at *
    have g : (Params.default cs rs).deltaMaxDeg = 55 := rfl
    have g0 : (Params.default cs rs).dt = 0.2 := rfl
    have g1 : (Params.default cs rs).l1 = 3.23 := rfl
    have g2 : (Params.default cs rs).l2 = 2.9 := rfl
    have g3 : (Params.default cs rs).lh = 1.15 := rfl
    have g4 : (Params.default cs rs).vMax = 3 := rfl
    simp only [g, g0, g1, g2, g3, g4] at e1 e2 e3 e4
    generalize tan ((clipU a).2 * (55 * π / 180)) = t at *
    have cb := abs_cos_le_one q.th1
    have sb := abs_sin_le_one q.th1
    have cb2 := abs_cos_le_one (q.th1 - q.th2)
    have sb2 := abs_sin_le_one (q.th1 - q.th2)
    have m1 : |0.2 * (v * 3 * cos q.th1)| ≤ 0.6 := by
      have := mul_le_mul hv cb (abs_nonneg _) (by norm_num)
      rw [show 0.2 * (v * 3 * cos q.th1) = 0.6 * (v * cos q.th1) by ring, abs_mul, abs_mul v, abs_of_pos (by norm_num : (0 : ℝ) < 0.6)]
      linarith
    have m2 : |0.2 * (v * 3 * sin q.th1)| ≤ 0.6 := by
      have := mul_le_mul hv sb (abs_nonneg _) (by norm_num)
      rw [show 0.2 * (v * 3 * sin q.th1) = 0.6 * (v * sin q.th1) by ring, abs_mul, abs_mul v, abs_of_pos (by norm_num : (0 : ℝ) < 0.6)]
      linarith
    have m3 : |0.2 * (v * 3 / 3.23 * t)| ≤ 0.35 := by
      have := mul_le_mul hv ht (abs_nonneg _) (by norm_num)
      rw [show 0.2 * (v * 3 / 3.23 * t) = 0.6 / 3.23 * (v * t) by ring, abs_mul, abs_mul v, abs_of_pos (by norm_num : (0 : ℝ) < 0.6 / 3.23)]
      linarith
    have m4 : |0.2 * (v * 3 / 2.9 * (sin (q.th1 - q.th2) - 1.15 / 3.23 * cos (q.th1 - q.th2) * t))| ≤ 0.36 := by
      have b : |sin (q.th1 - q.th2) - 1.15 / 3.23 * cos (q.th1 - q.th2) * t| ≤ 1.7 := by
        refine (abs_sub _ _).trans ?_
        rw [mul_assoc, abs_mul, abs_mul (cos _), abs_of_pos (by norm_num : (0 : ℝ) < 1.15 / 3.23)]
        have := mul_le_mul cb2 ht (abs_nonneg _) (by norm_num)
        linarith
      generalize sin (q.th1 - q.th2) - 1.15 / 3.23 * cos (q.th1 - q.th2) * t = w at *
      have := mul_le_mul hv b (abs_nonneg _) (by norm_num)
      rw [show 0.2 * (v * 3 / 2.9 * w) = 0.6 / 2.9 * (v * w) by ring, abs_mul, abs_mul v, abs_of_pos (by norm_num : (0 : ℝ) < 0.6 / 2.9)]
      linarith
    have key : ∀ {x y z d Y D : ℝ}, |x - y| ≤ 2e-4 → y = z + d → |z| ≤ Y → |d| ≤ D → |x| ≤ Y + D + 2e-4 := by
      intro x y z d Y D h1 h2 h3 h4
      exact Rounded.abs_le_of_err h1 (by rw [h2]; exact (abs_add_le _ _).trans (add_le_add h3 h4))
    exact ⟨(key n1 e1 h.px m1).trans (by linarith), (key n2 e2 h.py m2).trans (by linarith),
      (key n3 e3 h.th1 m3).trans (by linarith), (key n4 e4 h.th2 m4).trans (by linarith)⟩

theorem Rounded.states_onSite {A : Arith} (acc : Spec.Float32 A) (cs : List Circle) (rs : List Rect) :
    ∀ (us : List U) (q : Q4) (X Θ : ℝ), InField4 X Θ q → X + 0.61 * us.length ≤ 50 → Θ + 0.4 * us.length ≤ 49 →
      ∀ q' ∈ Rounded.states (Rounded.step A (Params.default cs rs)) q us, OnSite q'
  | [], _, _, _, _, _, _ => by simp [Rounded.states]
  | a :: us, q, X, Θ, h, h1, h2 => by
    intro q' hq'
    rw [List.length_cons] at h1 h2
    push_cast at h1 h2
    have hl : (0 : ℝ) ≤ us.length := Nat.cast_nonneg _
    have hon : OnSite q := ⟨h.px.trans (by linarith), h.py.trans (by linarith), h.th1.trans (by linarith), h.th2.trans (by linarith)⟩
    have hst := Rounded.step_field acc cs rs hon h a
    rw [Rounded.states, List.mem_cons] at hq'
    rcases hq' with rfl | hq'
    · exact ⟨hst.px.trans (by linarith), hst.py.trans (by linarith), hst.th1.trans (by linarith), hst.th2.trans (by linarith)⟩
    · exact Rounded.states_onSite acc cs rs us _ _ _ hst (by linarith) (by linarith) q' hq'

/-- C76 for plans of the default length (50 steps) and the default vehicle, without a condition on the run: started
within 19 m of the origin (and headings within 29 rad), the vehicle never gets more than 2 mm into a rectangle or more than 1 cm into a disc. -/
theorem C76_plan_default {A : Arith} (acc : Spec.Float32 A) {cs : List Circle} {rs : List Rect} (ord : Ordinary 1 cs rs)
    (q : Q4) (h0 : Spec.SafeTT (Params.default cs rs) q) (hq : InField4 19 29 q) (us : List U) (hus : us.length ≤ 50) :
    ∀ q' ∈ Rounded.states (Rounded.step A (Params.default cs rs)) q us, GrazesTT 0.002 0.01 (Params.default cs rs) q' := by
  have hl : (us.length : ℝ) ≤ 50 := by exact_mod_cast hus
  exact C76_run_default acc ord q h0
    ⟨hq.px.trans (by norm_num), hq.py.trans (by norm_num), hq.th1.trans (by norm_num), hq.th2.trans (by norm_num)⟩ us
    (Rounded.states_onSite acc cs rs us q 19 29 hq (by linarith) (by linarith))

theorem wit_ordinary : Ordinary 1 Wit.params.circles Wit.params.rects := by
  constructor
  · intro c hc
    simp only [Wit.params, Params.default, List.mem_singleton] at hc
    subst hc; norm_num
  · intro o ho
    simp only [Wit.params, Params.default, List.mem_singleton] at ho
    subst ho; norm_num [abs_of_pos]

/-- The hypotheses of C76 hold for 24-bit rounding, the default vehicle, a pole of radius 1 and a wall, started at the origin. -/
example (us : List U) (h : us.length ≤ 50) :
    ∀ q' ∈ Rounded.states (Rounded.step single Wit.params) ⟨0, 0, 0, 0⟩ us, GrazesTT 0.002 0.01 Wit.params q' :=
  C76_plan_default single_float32 wit_ordinary (⟨0, 0, 0, 0⟩ : Q4) Wit.safe ⟨by norm_num, by norm_num, by norm_num, by norm_num⟩ us h

/-! ## Exact arithmetic: the model of the other files -/

/-- Arithmetic without rounding. -/
noncomputable def exactArith : Arith where
  const := id
  add a b := a + b
  sub a b := a - b
  mul a b := a * b
  div a b := a / b
  mulAdd a b c := a * b + c
  sum2 a b c d := a * b + c * d
  mm a b c d := a * b + c * d
  rem := fmod
  sqrt a := √a
  sin := sin
  cos := cos
  tan := tan

theorem exact_float32 : Spec.Float32 exactArith := by
  have z : ∀ {x : ℝ}, 0 ≤ x → |(0 : ℝ)| ≤ x := fun h => by rwa [abs_zero]
  constructor
  case rem => exact single_float32.rem
  all_goals intros; simp only [exactArith, id, sub_self]; apply z; positivity

theorem exact_box (c : V2) (a hl hw : ℝ) : Rounded.boxCorners exactArith c a hl hw = boxCorners c a hl hw := by
  unfold Rounded.boxCorners boxCorners Rounded.placePoint placePoint
  simp only [exactArith, mul_neg, neg_mul, sub_eq_add_neg, neg_neg]

theorem exact_tractor (P : Params) (px py th : ℝ) :
    Rounded.tractorCorners exactArith P px py th = P.tractorCorners px py th := by
  unfold Rounded.tractorCorners Params.tractorCorners
  rw [exact_box]
  simp only [exactArith, id]
  congr 1
  ext <;> simp only <;> ring

theorem exact_trailer (P : Params) (q : Q4) : Rounded.trailerCorners exactArith P q = TT2d.trailerCorners P q := by
  rw [trailerCorners_eq]
  unfold Rounded.trailerCorners bodyCenter Spec.trailerAxle Spec.frame
  rw [exact_box]
  simp only [exactArith, id]
  congr 1
  ext <;> simp only <;> ring

theorem exact_rect (o : Rect) : Rounded.rectCorners exactArith o = o.corners := by
  unfold Rounded.rectCorners Rect.corners
  rw [exact_box]
  rfl

theorem exact_circleCheck (k : Corners) (c : V2) (r : ℝ) : Rounded.rectCircle exactArith k c r ↔ rectCircle k c r := by
  have e : ∀ s e c, Rounded.edgeDistSq exactArith s e c = edgeDistSq s e c := by
    intro s e c
    unfold Rounded.edgeDistSq edgeDistSq
    simp only [exactArith, ← sq, add_comm]
  unfold Rounded.rectCircle rectCircle
  rw [e, e, e, e]
  simp only [exactArith, sq]

theorem exact_rectCheck (k₁ k₂ : Corners) : Rounded.rectRect exactArith k₁ k₂ ↔ rectRect k₁ k₂ := by
  have e : ∀ s e, Rounded.edgeNormal exactArith s e = edgeNormal s e := by
    intro s e
    unfold Rounded.edgeNormal edgeNormal norm2
    simp only [exactArith, ← sq]
  have e1 : ∀ k n, Rounded.projMin exactArith k n = projMin k n := fun k n => rfl
  have e2 : ∀ k n, Rounded.projMax exactArith k n = projMax k n := fun k n => rfl
  unfold Rounded.rectRect rectRect Rounded.axisSeparated axisSeparated
  simp only [e, e1, e2]

/-- C76, the rounded model is the model of the other claims when the arithmetic is exact: collision check. -/
theorem C76_exact_check (P : Params) (q : Q4) : Rounded.checkObstacle exactArith P q ↔ TT2d.checkObstacle P q := by
  unfold Rounded.checkObstacle TT2d.checkObstacle
  simp only [exact_tractor, exact_trailer, exact_rect, exact_circleCheck, exact_rectCheck]

/-- Hitch check. -/
theorem C76_exact_hitch (P : Params) (q : Q4) : Rounded.checkHitch exactArith P q ↔ TT2d.checkHitch P q := Iff.rfl

theorem exact_step_if (P : Params) (q : Q4) (a : U) : Rounded.step exactArith P q a =
    if (P.shieldCollision = true ∧ TT2d.checkObstacle P (Rounded.euler exactArith P q (Rounded.inputScaler exactArith P (clipU a)))) ∨
      (P.shieldHitch = true ∧ TT2d.checkHitch P (Rounded.euler exactArith P q (Rounded.inputScaler exactArith P (clipU a))))
    then q else Rounded.euler exactArith P q (Rounded.inputScaler exactArith P (clipU a)) := by
  unfold Rounded.step kinShieldedRollout
  generalize Rounded.euler exactArith P q (Rounded.inputScaler exactArith P (clipU a)) = z
  have h1 := C76_exact_check P z
  have h2 := C76_exact_hitch P z
  by_cases c1 : TT2d.checkObstacle P z <;> by_cases c2 : TT2d.checkHitch P z <;>
    cases e1 : P.shieldCollision <;> cases e2 : P.shieldHitch <;> simp [c1, c2, h1, h2]

theorem exact_euler (P : Params) (q : Q4) (u : U) :
    Rounded.euler exactArith P q (Rounded.inputScaler exactArith P u) = TT2d.euler P q (P.inputScaler u) := by
  unfold Rounded.euler Rounded.dynamics Rounded.inputScaler TT2d.euler Q4.axpy TT2d.dynamics Params.inputScaler
  simp only [exactArith, id]
  ext <;> simp only <;> ring

theorem clipU_eff (b : Bool) (a : U) : clipU (effAction b a) = effAction b a := by
  have h := inBox_eff b a
  obtain ⟨h1, h2⟩ := h
  rw [abs_le] at h1 h2
  unfold clipU
  rw [clip_of_mem h1.1 h1.2, clip_of_mem h2.1 h2.2]

/-- Motion and shield: with exact arithmetic a step of the rounded model is a step of the simulator; in backup mode the action
is replaced by the zero action. -/
theorem C76_exact_step (T : TT2d) (ext : Ext Q4) (hp : T.enableProjection = false) (hg : T.enableGuidance = false)
    (s : St Q4) (a : U) : Rounded.step exactArith T.toParams s.q (effAction s.inBackup a) = (T.step ext s a).q := by
  rw [TT2d.step_q T ext hp hg, exact_step_if, clipU_eff, exact_euler]
  unfold TT2d.rejects TT2d.proposal
  congr

/-- Bicycle. -/
theorem C76_exact_check_bicycle (P : Params) (q : Q3) : Rounded.checkObstacleB exactArith P q ↔ Bicycle.checkObstacle P q := by
  unfold Rounded.checkObstacleB Bicycle.checkObstacle
  simp only [exact_tractor, exact_rect, exact_circleCheck, exact_rectCheck]

theorem C76_exact_step_bicycle (T : Bicycle) (ext : Ext Q3) (hp : T.enableProjection = false) (hg : T.enableGuidance = false)
    (s : St Q3) (a : U) : Rounded.stepB exactArith T.toParams s.q (effAction s.inBackup a) = (T.step ext s a).q := by
  have he : Rounded.eulerB exactArith T.toParams s.q (Rounded.inputScaler exactArith T.toParams (effAction s.inBackup a))
      = T.proposal s a := by
    unfold Rounded.eulerB Rounded.inputScaler Bicycle.proposal Bicycle.euler Q3.axpy Bicycle.dynamics Params.inputScaler
    simp only [exactArith, id]
    ext <;> simp only <;> ring
  rw [Bicycle.step_q T ext hp hg]
  unfold Rounded.stepB kinShieldedRollout
  rw [clipU_eff, he]
  generalize T.proposal s a = z
  unfold Bicycle.rejects
  have h1 := C76_exact_check_bicycle T.toParams z
  have h2 : ¬ Bicycle.checkHitch T.toParams z := id
  by_cases c1 : Bicycle.checkObstacle T.toParams z <;>
    cases e1 : T.shieldCollision <;> cases e2 : T.shieldHitch <;> simp [c1, h1, h2]

/-- The hypotheses of `C76_run_tt2d` and `C76_hitch` are met, here by exact arithmetic, the default vehicle, a pole of radius 2 and a wall. -/
example (us : List U) : ∀ q' ∈ Rounded.states (Rounded.step exactArith (Params.default [⟨20, 0, 2⟩] [⟨0, 30, 4, 2, 0⟩])) ⟨0, 0, 0, 0⟩ us,
    InField4 50 100 q' → GrazesTT 0.002 0.01 (Params.default [⟨20, 0, 2⟩] [⟨0, 30, 4, 2, 0⟩]) q' := by
  have ord : Ordinary 1 [(⟨20, 0, 2⟩ : Circle)] [(⟨0, 30, 4, 2, 0⟩ : Rect)] := by
    constructor
    · intro c hc; rw [List.mem_singleton] at hc; subst hc; norm_num
    · intro o ho; rw [List.mem_singleton] at ho; subst ho; norm_num [abs_of_pos]
  refine C76_run_tt2d exact_float32 (default_roundOK (by norm_num) ord) rfl ?_ _ ?_ us
  · intro c hc
    simp only [Params.default, List.mem_singleton] at hc
    subst hc; norm_num [Params.default]
  · rw [C76_exact_check]
    have pole : ∀ {a hl hw : ℝ}, 0 ≤ hl → 0 ≤ hw → a + hl < 18 → ¬ rectCircle (boxCorners (a, 0) 0 hl hw) (20, 0) 2 := by
      intro a hl hw h1 h2 h hc
      obtain ⟨p, ⟨s, t, hs, ht, he, rfl⟩, hd⟩ := rectCircle_sound _ _ h1 h2 _ _ hc
      have hd' : (a + s - 20) ^ 2 + t ^ 2 ≤ 2 ^ 2 := by simpa [Spec.disc, Spec.frame] using hd
      have := (abs_le.mp hs).2
      nlinarith [sq_nonneg t]
    have t1 : (Params.default [⟨20, 0, 2⟩] [⟨0, 30, 4, 2, 0⟩]).tractorCorners 0 0 0 = boxCorners (1.141, 0) 0 2.989 1 := Wit.tractor
    have t2 : TT2d.trailerCorners (Params.default [⟨20, 0, 2⟩] [⟨0, 30, 4, 2, 0⟩]) ⟨0, 0, 0, 0⟩
      = boxCorners (-4.9525, 0) 0 2.3225 1.25 := Wit.trailer
    unfold TT2d.checkObstacle
    simp only [t1, t2]
    simp only [Params.default, List.mem_singleton, exists_eq_left]
    rintro ((h | h) | (h | h))
    · exact pole (by norm_num) (by norm_num) (by norm_num) h
    · exact pole (by norm_num) (by norm_num) (by norm_num) h
    · exact Wit.box_clear_block (by norm_num) (by norm_num) (by norm_num) h
    · exact Wit.box_clear_block (by norm_num) (by norm_num) (by norm_num) h

example : ¬ Spec.exceedsModTurns (Wit.params.phiMax + hitchTol 6e-8 1e-30 100) ((⟨0, 0, 0, 0⟩ : Q4).th1 - (⟨0, 0, 0, 0⟩ : Q4).th2) :=
  C76_hitch (R := 50) exact_float32 (by norm_num) (by norm_num) (by norm_num) (by norm_num)
    ⟨by norm_num, by norm_num, by norm_num, by norm_num⟩ Wit.tt_straight

/-- A hundredth of a degree covers the tolerance of the hitch check. -/
example : hitchTol 6e-8 1e-30 100 ≤ 1e-4 := by unfold hitchTol; norm_num

/-- `C76_check_bicycle`, met by exact arithmetic. -/
example : GrazesBody 0.002 0.01 Wit.params (Spec.tractorBody Wit.params 0 0 0) :=
  C76_check_bicycle (q := ⟨0, 0, 0⟩) exact_float32 (default_roundOK (by norm_num) wit_ordinary)
    ⟨by norm_num, by norm_num, by norm_num⟩ (by rw [C76_exact_check_bicycle]; exact Wit.bike_clear)

/-- `C76_padded_default`: a pole of radius 1 registered with 5 cm of padding, 24-bit rounding. -/
example (us : List U) (hus : us.length ≤ 50) :
    ∀ q' ∈ Rounded.states (Rounded.step single (Params.default [⟨20, 0, 1 + 0.05⟩] [])) ⟨0, 0, 0, 0⟩ us,
      Margin4 (0.05 - 0.01) (Params.default [⟨20, 0, 1 + 0.05⟩] []) [⟨20, 0, 1⟩] [] q' := by
  have hl : (us.length : ℝ) ≤ 50 := by exact_mod_cast hus
  have ord : Ordinary 1 [(⟨20, 0, 1 + 0.05⟩ : Circle)] [] := by
    constructor
    · intro c hc; rw [List.mem_singleton] at hc; subst hc; norm_num
    · intro o ho; simp at ho
  refine C76_padded_default single_float32 rfl ord (by norm_num) (pole_padded 0.05 _ rfl) ?_ ⟨0, 0, 0, 0⟩ ?_ ?_ us ?_
  · intro c hc; rw [List.mem_singleton] at hc; subst hc; norm_num
  · have key : ∀ a rear front width : ℝ, a + front < 18 →
        Spec.Apart (Spec.body (a, 0) 0 rear front width) (Spec.circleRegion ⟨20, 0, 1 + 0.05⟩) := by
      rintro a rear front width h p ⟨s, t, h1, h2, h3, rfl⟩ hd
      have hd' : (a + s - 20) ^ 2 + t ^ 2 ≤ (1 + 0.05) ^ 2 := by
        simpa [Spec.circleRegion, Spec.disc, Spec.frame] using hd
      nlinarith [sq_nonneg t]
    refine ⟨?_, by simp [Params.default]⟩
    intro c hc
    simp only [Params.default, List.mem_singleton] at hc
    subst hc
    constructor
    · exact key _ _ _ _ (by norm_num [Params.default])
    · unfold Spec.trailerBody
      have : Spec.trailerAxle (Params.default [⟨20, 0, 1 + 0.05⟩] []) ⟨0, 0, 0, 0⟩ = (-4.05, 0) := by
        unfold Spec.trailerAxle Spec.frame
        simp [Params.default]; norm_num
      rw [this]
      exact key _ _ _ _ (by norm_num [Params.default])
  · exact ⟨by norm_num, by norm_num, by norm_num, by norm_num⟩
  · exact Rounded.states_onSite single_float32 _ _ us _ 0 0 ⟨by norm_num, by norm_num, by norm_num, by norm_num⟩
      (by linarith) (by linarith)

end Mbd
