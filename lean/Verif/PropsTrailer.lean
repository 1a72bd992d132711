import Verif.Witness
import Verif.SpecVehicle
import Verif.StepLemmas
import Verif.PropsGeom
import Mathlib.Analysis.SpecialFunctions.Trigonometric.Deriv

/-!
# Trailer kinematics: C54 (rolling without slipping), C55 (N-trailer extends one trailer)
-/

namespace Spec

open Real Mbd

/-- Axle of trailer `i` of the train whose hitches sit `lh` behind the *axle* of the preceding unit
(`lh` is documented as the distance from the rear axle to the hitch). -/
noncomputable def chainAxle (T : NTrailer) (x : QN) : ℕ → Pt
  | 0 => frame (frame (x.px, x.py) x.th0 (-T.lh) 0) (x.ths.getD 0 0) (-T.lengths.getD 0 0) 0
  | i + 1 => frame (frame (chainAxle T x i) (x.ths.getD i 0) (-T.lh) 0)
      (x.ths.getD (i + 1) 0) (-T.lengths.getD (i + 1) 0) 0

/-- The planar curve `p` has velocity `w` along heading `ang` at time `t`, and no lateral velocity. -/
def RollsAlong (p : ℝ → Pt) (ang w t : ℝ) : Prop :=
  HasDerivAt (fun τ => (p τ).1) (w * cos ang) t ∧ HasDerivAt (fun τ => (p τ).2) (w * sin ang) t

/-- `x` follows the equations of motion `f` at time `t` (4-dimensional state). -/
def Follows4 (x : ℝ → Q4) (f : Q4) (t : ℝ) : Prop :=
  HasDerivAt (fun τ => (x τ).px) f.px t ∧ HasDerivAt (fun τ => (x τ).py) f.py t ∧
  HasDerivAt (fun τ => (x τ).th1) f.th1 t ∧ HasDerivAt (fun τ => (x τ).th2) f.th2 t

/-- `x` follows the equations of motion `f` at time `t` (train with `N` trailers). -/
def FollowsN (N : ℕ) (x : ℝ → QN) (f : QN) (t : ℝ) : Prop :=
  HasDerivAt (fun τ => (x τ).px) f.px t ∧ HasDerivAt (fun τ => (x τ).py) f.py t ∧
  HasDerivAt (fun τ => (x τ).th0) f.th0 t ∧
  ∀ i < N, HasDerivAt (fun τ => (x τ).ths.getD i 0) (f.ths.getD i 0) t

end Spec

namespace Mbd

open Real

/-! ## C54 -/

/-- One articulated link: if a point rolls along heading `a` with speed `s`, then the axle `L` behind
the hitch `h` behind that point rolls along heading `b`, provided `b` turns as the model says. -/
theorem link_rolls {p : ℝ → Spec.Pt} {a b : ℝ → ℝ} {s a' b' h L t : ℝ}
    (hp : Spec.RollsAlong p (a t) s t) (ha : HasDerivAt a a' t) (hb : HasDerivAt b b' t)
    (hturn : L * b' = s * sin (a t - b t) - h * a' * cos (a t - b t)) :
    Spec.RollsAlong (fun τ => Spec.frame (Spec.frame (p τ) (a τ) (-h) 0) (b τ) (-L) 0) (b t)
      (s * cos (a t - b t) + h * a' * sin (a t - b t)) t := by
  unfold Spec.RollsAlong Spec.frame
  simp only [zero_mul, sub_zero, add_zero]
  have hc := Real.sin_sq_add_cos_sq (b t)
  have k : L * b' = s * (sin (a t) * cos (b t) - cos (a t) * sin (b t))
      - h * a' * (cos (a t) * cos (b t) + sin (a t) * sin (b t)) := by
    rw [hturn, sin_sub, cos_sub]
  constructor
  · have d := ((hp.1.add ((ha.cos).const_mul (-h))).add ((hb.cos).const_mul (-L)))
    refine d.congr_deriv ?_
    rw [sin_sub, cos_sub]
    linear_combination (sin (b t)) * k - (h * a' * sin (a t) + s * cos (a t)) * hc
  · have d := ((hp.2.add ((ha.sin).const_mul (-h))).add ((hb.sin).const_mul (-L)))
    refine d.congr_deriv ?_
    rw [sin_sub, cos_sub]
    linear_combination (-cos (b t)) * k - (-(h * a' * cos (a t)) + s * sin (a t)) * hc

/-- C54, tractor: the reference point rolls along the tractor heading with the commanded speed, and
the front axle `l1` ahead moves along the steered wheel direction (no lateral slip of either
axle). -/
theorem C54_tractor (P : Params) (x : ℝ → Q4) (u : U) (t : ℝ) (hl : P.l1 ≠ 0)
    (hδ : cos u.2 ≠ 0)
    (hx : Spec.Follows4 x (TT2d.dynamics P (x t) u) t) :
    Spec.RollsAlong (fun τ => ((x τ).px, (x τ).py)) (x t).th1 u.1 t ∧
    Spec.RollsAlong (fun τ => Spec.frame ((x τ).px, (x τ).py) (x τ).th1 P.l1 0)
      ((x t).th1 + u.2) (u.1 / cos u.2) t := by
  obtain ⟨h1, h2, h3, _⟩ := hx
  refine ⟨⟨h1, h2⟩, ?_⟩
  unfold Spec.RollsAlong Spec.frame
  simp only [zero_mul, sub_zero, add_zero]
  constructor
  · refine (h1.add ((h3.cos).const_mul P.l1)).congr_deriv ?_
    simp only [TT2d.dynamics]
    rw [cos_add, tan_eq_sin_div_cos]
    field_simp
    ring
  · refine (h2.add ((h3.sin).const_mul P.l1)).congr_deriv ?_
    simp only [TT2d.dynamics]
    rw [sin_add, tan_eq_sin_div_cos]
    field_simp

/-- The default vehicle driving straight at 1 m/s follows the model. -/
theorem wit_follows4 : Spec.Follows4 (fun τ : ℝ => (⟨τ, 0, 0, 0⟩ : Q4))
    (TT2d.dynamics (Params.default [] []) ⟨0, 0, 0, 0⟩ (1, 0)) 0 := by
  have h0 := hasDerivAt_const (0 : ℝ) (0 : ℝ)
  refine ⟨?_, ?_, ?_, ?_⟩
  · simpa [TT2d.dynamics] using hasDerivAt_id' (0 : ℝ)
  · simpa [TT2d.dynamics] using h0
  · simpa [TT2d.dynamics] using h0
  · simpa [TT2d.dynamics] using h0

example := C54_tractor (Params.default [] []) (fun τ => ⟨τ, 0, 0, 0⟩) (1, 0) 0
  (by norm_num [Params.default]) (by simp) wit_follows4

/-- C54, single trailer: along every solution of the continuous model the trailer axle (the one used
by the collision footprint) moves along the trailer heading, with speed
`v cos φ + lh θ̇₁ sin φ`. -/
theorem C54_tt2d (P : Params) (x : ℝ → Q4) (u : U) (t : ℝ) (hl2 : P.l2 ≠ 0)
    (hx : Spec.Follows4 x (TT2d.dynamics P (x t) u) t) :
    Spec.RollsAlong (fun τ => Spec.trailerAxle P (x τ)) (x t).th2
      (u.1 * cos ((x t).th1 - (x t).th2)
        + P.lh * (u.1 / P.l1 * tan u.2) * sin ((x t).th1 - (x t).th2)) t := by
  obtain ⟨h1, h2, h3, h4⟩ := hx
  refine link_rolls (p := fun τ => ((x τ).px, (x τ).py)) (a := fun τ => (x τ).th1)
    (b := fun τ => (x τ).th2) ⟨h1, h2⟩ h3 h4 ?_
  simp only [TT2d.dynamics]
  field_simp

example := C54_tt2d (Params.default [] []) (fun τ => ⟨τ, 0, 0, 0⟩) (1, 0) 0
  (by norm_num [Params.default]) wit_follows4

/-- Rigid links: the distance between hitch and axle never changes. -/
theorem C54_rigid (c : V2) (ang s : ℝ) : Spec.dist (Spec.frame c ang s 0) c = |s| := by
  unfold Spec.dist Spec.frame
  rw [show (c.1 + s * cos ang - 0 * sin ang - c.1) ^ 2 + (c.2 + s * sin ang + 0 * cos ang - c.2) ^ 2
    = s ^ 2 * (cos ang ^ 2 + sin ang ^ 2) by ring, cos_sq_add_sin_sq, mul_one, sqrt_sq_eq_abs]

/-- The loop carry in closed form for data of the right size. -/
theorem carryAt_theta (T : NTrailer) (x : QN) (hx : Spec.WellSized T x) (v d : ℝ) {i : ℕ}
    (hi : i < T.N) : (T.carryAt x v d (i + 1)).theta = x.ths.getD i 0 := by
  show T.theta x i = _
  exact theta_of_lt hx hi

theorem dynamics_ths (T : NTrailer) (x : QN) (u : U) {i : ℕ} (hi : i < T.N) :
    (T.dynamics x u).ths.getD i 0 = (T.carryAt x u.1 u.2 (i + 1)).dot := by
  unfold NTrailer.dynamics
  simp [List.getD_eq_getElem?_getD, hi]

/-- C54, N trailers: along every solution of the continuous model, every axle of the train whose
hitches sit `lh` behind the preceding axle rolls along its own trailer, with exactly the axle speed
the model propagates.  Missing for the full property: the *collision footprint* places the
hitches of the second and later trailers elsewhere (`C54_footprint_refuted`). -/
theorem C54_ntrailer_partial (T : NTrailer) (x : ℝ → QN) (u : U) (t : ℝ)
    (hx : Spec.FollowsN T.N x (T.dynamics (x t) u) t) (hw : Spec.WellSized T (x t))
    (hL : ∀ i < T.N, T.lengths.getD i 0 ≠ 0) :
    ∀ i < T.N, Spec.RollsAlong (fun τ => Spec.chainAxle T (x τ) i) ((x t).ths.getD i 0)
      (T.carryAt (x t) u.1 u.2 (i + 1)).speed t := by
  obtain ⟨h1, h2, h3, h4⟩ := hx
  intro i
  induction i with
  | zero =>
    intro h0
    have e := dynamics_ths T (x t) u h0
    have h40 := h4 0 h0
    rw [e] at h40
    have hlen : clampGet T.lengths 0 = T.lengths.getD 0 0 :=
      clampGet_of_lt (by rw [hw.lengths]; exact h0)
    have hth : T.theta (x t) 0 = (x t).ths.getD 0 0 := theta_of_lt hw h0
    have := link_rolls (p := fun τ => ((x τ).px, (x τ).py)) (a := fun τ => (x τ).th0)
      (b := fun τ => (x τ).ths.getD 0 0) (s := u.1) (h := T.lh) (L := T.lengths.getD 0 0)
      ⟨h1, h2⟩ h3 h40 (by
        simp only [NTrailer.carryAt, NTrailer.loopBody, NTrailer.dynamics, if_true, hlen, hth]
        have := hL 0 h0
        field_simp)
    have hs : (T.carryAt (x t) u.1 u.2 (0 + 1)).speed
        = u.1 * cos ((x t).th0 - (x t).ths.getD 0 0)
          + T.lh * (T.dynamics (x t) u).th0 * sin ((x t).th0 - (x t).ths.getD 0 0) := by
      simp only [NTrailer.carryAt, NTrailer.loopBody, NTrailer.dynamics, if_true, hth]
    rw [hs]
    exact this
  | succ i ih =>
    intro hi
    have hi' : i < T.N := by omega
    have e := dynamics_ths T (x t) u hi
    have e' := dynamics_ths T (x t) u hi'
    have h40 := h4 (i + 1) hi
    have h41 := h4 i hi'
    rw [e] at h40
    rw [e'] at h41
    have hlen : clampGet T.lengths (i + 1) = T.lengths.getD (i + 1) 0 :=
      clampGet_of_lt (by rw [hw.lengths]; exact hi)
    have hth : T.theta (x t) (i + 1) = (x t).ths.getD (i + 1) 0 := theta_of_lt hw hi
    have hth' := carryAt_theta T (x t) hw u.1 u.2 hi'
    have hdot : (T.carryAt (x t) u.1 u.2 (i + 1 + 1)).dot
        = ((T.carryAt (x t) u.1 u.2 (i + 1)).speed / T.lengths.getD (i + 1) 0)
            * sin ((x t).ths.getD i 0 - (x t).ths.getD (i + 1) 0)
          - (T.lh / T.lengths.getD (i + 1) 0) * (T.carryAt (x t) u.1 u.2 (i + 1)).dot
            * cos ((x t).ths.getD i 0 - (x t).ths.getD (i + 1) 0) := by
      rw [NTrailer.carryAt]
      unfold NTrailer.loopBody
      simp only [Nat.add_eq_zero_iff, one_ne_zero, and_false, if_false, hlen, hth, hth']
    have hspd : (T.carryAt (x t) u.1 u.2 (i + 1 + 1)).speed
        = (T.carryAt (x t) u.1 u.2 (i + 1)).speed
            * cos ((x t).ths.getD i 0 - (x t).ths.getD (i + 1) 0)
          + T.lh * (T.carryAt (x t) u.1 u.2 (i + 1)).dot
            * sin ((x t).ths.getD i 0 - (x t).ths.getD (i + 1) 0) := by
      rw [NTrailer.carryAt]
      unfold NTrailer.loopBody
      simp only [Nat.add_eq_zero_iff, one_ne_zero, and_false, if_false, hth, hth']
    rw [hspd]
    exact link_rolls (p := fun τ => Spec.chainAxle T (x τ) i)
      (a := fun τ => (x τ).ths.getD i 0) (b := fun τ => (x τ).ths.getD (i + 1) 0)
      (h := T.lh) (L := T.lengths.getD (i + 1) 0)
      (ih hi') h41 h40 (by
        rw [hdot]
        have := hL (i + 1) hi
        field_simp)

/-- A default two-trailer train (lengths, offsets as built by the constructor, n_trailer2d.py:23-39). -/
noncomputable def twoTrailer (x0 : QN) : NTrailer :=
  { toParams := Params.default [] [], N := 2, lengths := [2.9, 2.9], fronts := [1.42, 1.42]
    rears := [1.848, 3.225], x0 := x0, xg := x0 }

theorem twoTrailer_wellSized (x0 : QN) (px py th0 a b : ℝ) :
    Spec.WellSized (twoTrailer x0) ⟨px, py, th0, [a, b]⟩ := ⟨rfl, rfl, rfl, rfl⟩

/-- A curve with prescribed value and derivative at time 0. -/
noncomputable def lineCurve (q f : QN) (t : ℝ) : QN := q.axpy t f

theorem lineCurve_follows (T : NTrailer) (q : QN) (u : U) (hl : q.ths.length = T.N) :
    Spec.FollowsN T.N (lineCurve q (T.dynamics q u)) (T.dynamics (lineCurve q (T.dynamics q u) 0) u) 0
    := by
  have e0 : lineCurve q (T.dynamics q u) 0 = q := by
    unfold lineCurve QN.axpy
    ext1
    · simp
    · simp
    · simp
    · apply List.ext_getElem
      · simp [hl, NTrailer.dynamics_length]
      · intro i h1 h2; simp
  have lin : ∀ a b : ℝ, HasDerivAt (fun τ => a + τ * b) b 0 := by
    intro a b
    have := ((hasDerivAt_id (0 : ℝ)).mul_const b).const_add a
    simpa using this
  rw [e0]
  refine ⟨lin _ _, lin _ _, lin _ _, ?_⟩
  intro i hi
  have : (fun τ => (lineCurve q (T.dynamics q u) τ).ths.getD i 0)
      = fun τ => q.ths.getD i 0 + τ * (T.dynamics q u).ths.getD i 0 := by
    funext τ
    have hi1 : i < q.ths.length := by omega
    have hi2 : i < (T.dynamics q u).ths.length := by rw [NTrailer.dynamics_length]; exact hi
    unfold lineCurve QN.axpy
    simp [List.getD_eq_getElem?_getD, hi1, hi2]
  rw [this]
  exact lin _ _

/-- Hypotheses of `C54_ntrailer_partial` are met by a turning train. -/
example : ∃ (T : NTrailer) (x : ℝ → QN) (u : U), u.1 ≠ 0 ∧ T.N = 2 ∧
    Spec.FollowsN T.N x (T.dynamics (x 0) u) 0 ∧ Spec.WellSized T (x 0) ∧
    ∀ i < T.N, T.lengths.getD i 0 ≠ 0 := by
  let q : QN := ⟨0, 0, 0.3, [0.1, 0]⟩
  let T := twoTrailer q
  refine ⟨T, lineCurve q (T.dynamics q (3, 0.2)), (3, 0.2), by norm_num, rfl,
    lineCurve_follows T q _ rfl, ?_, ?_⟩
  · refine ⟨?_, rfl, rfl, rfl⟩
    show (List.zipWith _ _ _).length = 2
    simp [NTrailer.dynamics_length, q, T, twoTrailer]
  · intro i hi
    have : i < 2 := hi
    interval_cases i <;> norm_num [T, twoTrailer]

/-- The footprint axles slip: for the default two-trailer train the axle of the second trailer as
placed by the collision footprint (`Spec.axleN`, cf. `C07_ntrailer`) has a lateral velocity. -/
theorem C54_footprint_refuted :
    ¬ (∀ (T : NTrailer) (x : ℝ → QN) (u : U) (t : ℝ),
      Spec.FollowsN T.N x (T.dynamics (x t) u) t → Spec.WellSized T (x t) →
      (∀ i < T.N, T.lengths.getD i 0 ≠ 0) →
      ∀ i < T.N, ∃ w, Spec.RollsAlong (fun τ => Spec.axleN T (x τ) i) ((x t).ths.getD i 0) w t) := by
  intro h
  let q : QN := ⟨0, 0, π / 2, [0, 0]⟩
  let T := twoTrailer q
  let f := T.dynamics q (2.9, 0)
  have e0 : lineCurve q f 0 = q := by
    unfold lineCurve QN.axpy
    ext1
    · simp
    · simp
    · simp
    · apply List.ext_getElem
      · simp [f, NTrailer.dynamics_length]; rfl
      · intro i h1 h2; simp
  have hf := lineCurve_follows T q (2.9, 0) rfl
  have hw0 : Spec.WellSized T (lineCurve q f 0) := by rw [e0]; exact ⟨rfl, rfl, rfl, rfl⟩
  obtain ⟨w, -, h2⟩ := h T (lineCurve q f) (2.9, 0) 0 hf hw0 (by
      intro i hi
      have : i < 2 := hi
      interval_cases i <;> norm_num [T, twoTrailer]) 1 (by norm_num [T, twoTrailer])
  rw [e0] at h2
  have ez : q.ths.getD 1 0 = 0 := rfl
  rw [ez, sin_zero, mul_zero] at h2
  -- derivatives of the two trailer angles
  have d0 : f.ths.getD 0 0 = 1 := by
    show (T.carryAt q 2.9 0 1).dot = 1
    simp only [NTrailer.carryAt, NTrailer.loopBody, NTrailer.theta, NTrailer.slice, clampGet, T, q,
      twoTrailer, if_true]
    simp
    norm_num
  have d1 : f.ths.getD 1 0 = -(1.15 / 2.9) := by
    show (T.carryAt q 2.9 0 2).dot = _
    simp only [NTrailer.carryAt, NTrailer.loopBody, NTrailer.theta, NTrailer.slice, clampGet, T, q,
      twoTrailer, Params.default]
    simp
    norm_num
  -- the y-coordinate of the footprint axle along the curve
  obtain ⟨hpx, hpy, hth, hths⟩ := hf
  rw [e0] at hpx hpy hth hths
  have k0 := hths 0 (by norm_num [T, twoTrailer])
  have k1 := hths 1 (by norm_num [T, twoTrailer])
  have k0' : HasDerivAt (fun τ => (lineCurve q f τ).ths.getD 0 0) 1 0 := d0 ▸ k0
  have k1' : HasDerivAt (fun τ => (lineCurve q f τ).ths.getD 1 0) (-(1.15 / 2.9)) 0 := d1 ▸ k1
  have py' : HasDerivAt (fun τ => (lineCurve q f τ).py) 2.9 0 := by
    refine hpy.congr_deriv ?_
    simp [NTrailer.dynamics, q]
  have th' : HasDerivAt (fun τ => (lineCurve q f τ).th0) 0 0 := by
    refine hth.congr_deriv ?_
    simp [NTrailer.dynamics]
  have hy : HasDerivAt (fun τ => (Spec.axleN T (lineCurve q f τ) 1).2)
      (2.9 + (-1.15) * (cos (π / 2) * 0) + (-2.9) * (cos 0 * 1) + (-(1.848 + 1.15)) * (cos 0 * 1)
        + (-2.9) * (cos 0 * (-(1.15 / 2.9)))) 0 := by
    have v0 : (lineCurve q f 0).th0 = π / 2 := by rw [e0]
    have v1 : (lineCurve q f 0).ths.getD 0 0 = 0 := by rw [e0]; rfl
    have v2 : (lineCurve q f 0).ths.getD 1 0 = 0 := by rw [e0]; rfl
    have s0 := th'.sin; rw [v0] at s0
    have s1 := k0'.sin; rw [v1] at s1
    have s2 := k1'.sin; rw [v2] at s2
    have := (((py'.add (s0.const_mul (-1.15))).add (s1.const_mul (-2.9))).add
      (s1.const_mul (-(1.848 + 1.15)))).add (s2.const_mul (-2.9))
    refine this.congr_of_eventuallyEq (Filter.Eventually.of_forall fun τ => ?_)
    simp only [Spec.axleN, Spec.hitchN, Spec.frame, T, twoTrailer, Params.default]
    simp
  have := h2.unique hy
  rw [cos_zero] at this
  norm_num at this

/-! ## C55 -/

/-- C55, first part: tractor and first trailer of the train move exactly as the single-trailer model
(with `l2` = length of the first trailer), whatever follows. -/
theorem C55_first_trailer (T : NTrailer) (x : QN) (u : U) (hw : Spec.WellSized T x) (h : 0 < T.N)
    (hl : T.lengths.getD 0 0 = T.l2) :
    let f := T.dynamics x u
    let g := TT2d.dynamics T.toParams ⟨x.px, x.py, x.th0, x.ths.getD 0 0⟩ u
    f.px = g.px ∧ f.py = g.py ∧ f.th0 = g.th1 ∧ f.ths.getD 0 0 = g.th2 := by
  refine ⟨rfl, rfl, rfl, ?_⟩
  rw [dynamics_ths T x u h]
  have hlen : clampGet T.lengths 0 = T.lengths.getD 0 0 :=
    clampGet_of_lt (by rw [hw.lengths]; exact h)
  have hth : T.theta x 0 = x.ths.getD 0 0 := theta_of_lt hw h
  simp only [NTrailer.carryAt, NTrailer.loopBody, if_true, hlen, hth, hl, TT2d.dynamics]

example := C55_first_trailer Wit.train ⟨0, 0, 0.1, [0.2, 0.3]⟩ (1, 0.3)
  ⟨rfl, rfl, rfl, rfl⟩ (by norm_num [Wit.train]) rfl

/-- The train with the trailers from `n` on removed. -/
def NTrailer.truncate (T : NTrailer) (n : ℕ) : NTrailer :=
  { T with N := n, lengths := T.lengths.take n, fronts := T.fronts.take n, rears := T.rears.take n }

/-- The state without the trailers from `n` on. -/
def QN.truncate (x : QN) (n : ℕ) : QN := { x with ths := x.ths.take n }

theorem getD_take {l : List ℝ} {n i : ℕ} (h : i < n) : (l.take n).getD i 0 = l.getD i 0 := by
  simp [List.getD_eq_getElem?_getD, h]

/-- C55, second part: removing later trailers does not affect earlier ones (dynamics). -/
theorem C55_prefix_dynamics (T : NTrailer) (x : QN) (u : U) (hw : Spec.WellSized T x) (n : ℕ)
    (hn : n ≤ T.N) :
    (T.truncate n).dynamics (x.truncate n) u = (T.dynamics x u).truncate n := by
  have hw' : Spec.WellSized (T.truncate n) (x.truncate n) := by
    refine ⟨?_, ?_, ?_, ?_⟩ <;> simp [NTrailer.truncate, QN.truncate, hw.ths, hw.lengths, hw.fronts,
      hw.rears, hn]
  have hc : ∀ i ≤ n, (T.truncate n).carryAt (x.truncate n) u.1 u.2 i = T.carryAt x u.1 u.2 i := by
    intro i
    induction i with
    | zero => intro _; rfl
    | succ i ih =>
      intro hi
      have hin : i < n := by omega
      have hiN : i < T.N := by omega
      have h1 : (T.truncate n).theta (x.truncate n) i = T.theta x i := by
        rw [theta_of_lt hw' hin, theta_of_lt hw hiN]
        exact getD_take hin
      have h2 : clampGet (T.truncate n).lengths i = clampGet T.lengths i := by
        rw [clampGet_of_lt (by rw [hw'.lengths]; exact hin),
          clampGet_of_lt (by rw [hw.lengths]; exact hiN)]
        exact getD_take hin
      rw [NTrailer.carryAt, NTrailer.carryAt, ih (by omega)]
      unfold NTrailer.loopBody
      rw [h1, h2]
      rfl
  unfold NTrailer.dynamics QN.truncate
  ext1
  · rfl
  · rfl
  · rfl
  · simp only
    rw [← List.map_take, List.take_range]
    have : min n T.N = n := min_eq_left hn
    rw [this]
    apply List.map_congr_left
    intro i hi
    have hin : i < n := by simpa [NTrailer.truncate] using hi
    exact congrArg NTrailer.Carry.dot (hc (i + 1) (by omega))

example := C55_prefix_dynamics Wit.train ⟨0, 0, 0.1, [0.2, 0.3]⟩ (1, 0.3) ⟨rfl, rfl, rfl, rfl⟩ 1
  (by norm_num [Wit.train])

/-- C55, second part, over time: one Euler step commutes with removing later trailers. -/
theorem C55_prefix_euler (T : NTrailer) (x : QN) (u : U) (hw : Spec.WellSized T x) (n : ℕ)
    (hn : n ≤ T.N) : (T.truncate n).euler (x.truncate n) u = (T.euler x u).truncate n := by
  unfold NTrailer.euler
  rw [C55_prefix_dynamics T x u hw n hn]
  unfold QN.axpy QN.truncate
  simp only [List.take_zipWith]
  rfl

example := C55_prefix_euler Wit.train ⟨0, 0, 0.1, [0.2, 0.3]⟩ (1, 0.3) ⟨rfl, rfl, rfl, rfl⟩ 1
  (by norm_num [Wit.train])

/-- C55, third part, partial: for the first trailer the reward position and the collision footprint
agree (the reward position after one loop iteration is the footprint axle).  For two or more
trailers they do not (`C55_reward_position_refuted`). -/
theorem C55_reward_position_partial (T : NTrailer) (x : QN) (hw : Spec.WellSized T x) (h : T.N = 1) :
    T.lastTrailerPos x = Spec.axleN T x 0 := by
  have h0 : 0 < T.N := by omega
  have hlen : clampGet T.lengths 0 = T.lengths.getD 0 0 :=
    clampGet_of_lt (by rw [hw.lengths]; exact h0)
  have hth : T.theta x 0 = x.ths.getD 0 0 := theta_of_lt hw h0
  unfold NTrailer.lastTrailerPos
  rw [h]
  simp only [NTrailer.lastPosLoop, hlen, hth, NTrailer.hitch0, Spec.axleN, Spec.hitchN, Spec.frame]
  ext <;> simp <;> ring

example := C55_reward_position_partial (Wit.train.truncate 1) ⟨0, 0, 0.1, [0.2]⟩
  ⟨rfl, rfl, rfl, rfl⟩ rfl

/-- C55, third part, is false: for the default straight two-trailer train the "last trailer
position" used by the reward is 4.418 m ahead of the axle of the collision footprint. -/
theorem C55_reward_position_refuted :
    ¬ (∀ (T : NTrailer) (x : QN), 2 ≤ T.N → Spec.WellSized T x →
      T.lastTrailerPos x = Spec.axleN T x (T.N - 1)) := by
  intro h
  let q : QN := ⟨0, 0, 0, [0, 0]⟩
  have := h (twoTrailer q) q (by norm_num [twoTrailer]) ⟨rfl, rfl, rfl, rfl⟩
  have e1 := congrArg Prod.fst this
  simp only [NTrailer.lastTrailerPos, NTrailer.lastPosLoop, NTrailer.theta, NTrailer.slice, clampGet,
    NTrailer.hitch0, Spec.axleN, Spec.hitchN, Spec.frame, twoTrailer, Params.default, q] at e1
  simp at e1
  norm_num at e1

end Mbd
