import Verif.PropsRobust
import Verif.PropsContinuousTrain
import Verif.PropsAcc

/-!
# C75 and C81 for the acceleration-controlled vehicle
-/

namespace Spec

open Real Mbd Set

/-- A quantity limited to `[-L, L]`. -/
noncomputable def limited (L x : ℝ) : ℝ := max (-L) (min L x)

/-- Continuous motion of the acceleration-controlled vehicle that follows the recorded speeds and steering angles, which
change linearly between two recorded states and are limited to what the vehicle can do: it starts near the first recorded
pose, and at every moment its actual speed and steering angle are within the budget of those. -/
structure FollowsAcc (T : Acc) (B : Budget) (γ : ℝ → Q4) (xs : List (St Q6)) : Prop where
  start : ∀ a, xs[0]? = some a → Spec.dist ((γ 0).px, (γ 0).py) (a.q.px, a.q.py) ≤ B.pos ∧
    |(γ 0).th1 - a.q.th1| ≤ B.head ∧ |(γ 0).th2 - a.q.th2| ≤ B.trail
  drive : ∀ (k : ℕ) a b, xs[k]? = some a → xs[k + 1]? = some b → ∀ lam, 0 ≤ lam → lam ≤ 1 →
    ∀ t, t = (k + lam) * T.dt → ∃ v δ : ℝ,
    |v - limited T.vMax (mix lam a.q.v b.q.v)| ≤ B.speed ∧
    |δ - limited (T.deltaMaxDeg * π / 180) (mix lam a.q.delta b.q.delta)| ≤ B.steer ∧
    HasDerivWithinAt (fun t => (γ t).px) (v * cos (γ t).th1) (Icc (k * T.dt) ((k + 1) * T.dt)) t ∧
    HasDerivWithinAt (fun t => (γ t).py) (v * sin (γ t).th1) (Icc (k * T.dt) ((k + 1) * T.dt)) t ∧
    HasDerivWithinAt (fun t => (γ t).th1) (v / T.l1 * tan δ) (Icc (k * T.dt) ((k + 1) * T.dt)) t ∧
    HasDerivWithinAt (fun t => (γ t).th2)
      (v / T.l2 * (sin ((γ t).th1 - (γ t).th2) - T.lh / T.l1 * cos ((γ t).th1 - (γ t).th2) * tan δ))
      (Icc (k * T.dt) ((k + 1) * T.dt)) t

/-- The budget together with what speed and steering angle change in one step. -/
noncomputable def Budget.loosen (T : Acc) (B : Budget) : Budget :=
  ⟨B.pos, B.head, B.trail, B.speed + T.aMax * T.dt, B.steer + T.omegaMax * T.dt⟩

/-- No errors. -/
noncomputable def Budget.none : Budget := ⟨0, 0, 0, 0, 0⟩

end Spec

namespace Mbd

open Real Classical Set _root_.Spec

theorem limited_clip {L : ℝ} (hL : 0 ≤ L) (x : ℝ) : limited L x = clip x (-L) L := by
  unfold limited clip
  rcases le_total x L with h | h
  · rw [min_eq_right h, max_comm, min_eq_left (max_le h (by linarith))]
  · rw [min_eq_left h, max_eq_right (by linarith), max_eq_left (by linarith), min_eq_right h]

theorem limited_abs {L : ℝ} (hL : 0 ≤ L) (x : ℝ) : |limited L x| ≤ L := by
  unfold limited
  exact abs_le.mpr ⟨le_max_left _ _, max_le (by linarith) (min_le_left _ _)⟩

theorem limited_lip (L x y : ℝ) : |limited L x - limited L y| ≤ |x - y| := by
  unfold limited
  have h1 := abs_max_sub_max_le_max (-L) (min L x) (-L) (min L y)
  have h2 := abs_min_sub_min_le_max L x L y
  simp only [sub_self, abs_zero] at h1 h2
  rw [max_eq_right (abs_nonneg (min L x - min L y))] at h1
  rw [max_eq_right (abs_nonneg (x - y))] at h2
  exact h1.trans h2

theorem limited_continuous (L : ℝ) : Continuous (limited L) :=
  continuous_const.max (continuous_const.min continuous_id)

/-- The controls of a recorded state of the acceleration-controlled vehicle. -/
noncomputable def ctrl (T : Acc) (q : Q6) : U :=
  (limited T.vMax q.v / T.vMax, limited (T.deltaMaxDeg * π / 180) q.delta / (T.deltaMaxDeg * π / 180))

theorem ctrl_mul {T : Acc} (hv : 0 < T.vMax) (hdl : 0 < T.deltaMaxDeg) (q : Q6) :
    (ctrl T q).1 * T.vMax = limited T.vMax q.v ∧
    (ctrl T q).2 * (T.deltaMaxDeg * π / 180) = limited (T.deltaMaxDeg * π / 180) q.delta := by
  have hD : 0 < T.deltaMaxDeg * π / 180 := by have := pi_pos; positivity
  exact ⟨div_mul_cancel₀ _ hv.ne', div_mul_cancel₀ _ hD.ne'⟩

theorem ctrl_inBox {T : Acc} (hv : 0 < T.vMax) (hdl : 0 < T.deltaMaxDeg) (q : Q6) : Spec.InBox (ctrl T q) := by
  have hD : 0 < T.deltaMaxDeg * π / 180 := by have := pi_pos; positivity
  have cl : ∀ x L : ℝ, 0 < L → |limited L x / L| ≤ 1 := by
    intro x L hL
    rw [abs_div, abs_of_pos hL, div_le_one hL]
    exact limited_abs hL.le x
  exact ⟨cl _ _ hv, cl _ _ hD⟩

/-- Consecutive recorded poses. -/
theorem acc_step_pose {T : Acc} (hv : 0 < T.vMax) (hdl : 0 < T.deltaMaxDeg) (ext : Ext Q6) (s : St Q6) (a : U) :
    Spec.EulerTT T.toParams s.q.pose (ctrl T s.q) (T.step ext s a).q.pose := by
  obtain ⟨u, hu⟩ := acc_step_euler T ext s a
  have hD : 0 < T.deltaMaxDeg * π / 180 := by have := pi_pos; positivity
  obtain ⟨c1, c2⟩ := ctrl_mul hv hdl s.q
  rw [hu]
  unfold Spec.EulerTT
  rw [c1, c2, limited_clip hv.le, limited_clip hD.le]
  unfold Acc.euler Q6.axpy Acc.dynamics Q6.pose
  exact ⟨rfl, rfl, rfl, rfl⟩

theorem mix_near {lam a b e : ℝ} (l0 : 0 ≤ lam) (l1 : lam ≤ 1) (h : |b - a| ≤ e) : |mix lam a b - a| ≤ e := by
  have : mix lam a b - a = lam * (b - a) := by unfold mix; ring
  rw [this, abs_mul, abs_of_nonneg l0]
  exact (mul_le_of_le_one_left (abs_nonneg _) l1).trans h

/-- **C81, acceleration-controlled vehicle**, with any shield: at every moment of an execution within the budget, heading,
position and trailer heading differ from the interpolated recorded ones by at most the errors of the budget loosened by
one step's change of speed and steering angle, in addition to the drift of C75. -/
theorem C81_acc (T : Acc) (ext : Ext Q6) (hp : T.enableProjection = false) (hd : DriveOK T.toParams)
    (hv : 0 < T.vMax) (hdl : 0 < T.deltaMaxDeg) (ha' : 0 < T.aMax) (hom : 0 ≤ T.omegaMax)
    (B : Budget) (hB : (B.loosen T).OK T.toParams) (s : St Q6) (us : List U) (γ : ℝ → Q4)
    (hγ : FollowsAcc T B γ (s :: scanStates (T.step ext) s us)) (k : ℕ) (a b : St Q6)
    (ha : (s :: scanStates (T.step ext) s us)[k]? = some a)
    (hb : (s :: scanStates (T.step ext) s us)[k + 1]? = some b) (lam : ℝ) (l0 : 0 ≤ lam) (l1 : lam ≤ 1) :
    |(γ ((k + lam) * T.dt)).th1 - (between4 lam a.q.pose b.q.pose).th1|
      ≤ (B.loosen T).headErr T.toParams ((k + lam) * T.dt) ∧
    Spec.dist ((γ ((k + lam) * T.dt)).px, (γ ((k + lam) * T.dt)).py)
      ((between4 lam a.q.pose b.q.pose).px, (between4 lam a.q.pose b.q.pose).py)
      ≤ (B.loosen T).posErr T.toParams ((k + lam) * T.dt) + drift T.toParams (k + 1) ∧
    |(γ ((k + lam) * T.dt)).th2 - (between4 lam a.q.pose b.q.pose).th2|
      ≤ (B.loosen T).trailErr T.toParams ((k + lam) * T.dt) + trailDrift T.toParams (k + 1) := by
  have hch := scan_isChain (step := T.step ext)
    (fun s s' : St Q6 => Spec.EulerTT T.toParams s.q.pose (ctrl T s.q) s'.q.pose ∧
      |s'.q.v - s.q.v| ≤ T.aMax * T.dt ∧ |s'.q.delta - s.q.delta| ≤ T.omegaMax * T.dt)
    (fun s a => ⟨acc_step_pose hv hdl ext s a, acc_rate ext hp ha' hom hd.dt s a⟩) us s
  have hx0 : (s :: scanStates (T.step ext) s us)[0]? = some s := rfl
  generalize s :: scanStates (T.step ext) s us = xs at *
  have hk : k + 1 < xs.length := (List.getElem?_eq_some_iff.mp hb).1
  have at' : ∀ j < xs.length, xs[j]? = some (xs.getD j s) := by
    intro j hj
    rw [List.getD_eq_getElem _ _ hj, List.getElem?_eq_getElem hj]
  have ea : xs.getD k s = a := by
    have := at' k (by omega); rw [ha] at this; exact (Option.some.inj this).symm
  have eb : xs.getD (k + 1) s = b := by
    have := at' (k + 1) hk; rw [hb] at this; exact (Option.some.inj this).symm
  have es : xs.getD 0 s = s := by
    have := at' 0 (by omega); rw [hx0] at this; exact (Option.some.inj this).symm
  -- the motion with the controls of every step held constant
  let f : St Q6 → St Q4 := fun x => ⟨x.q.pose, x.q.pose, 0, 0, ctrl T x.q, false⟩
  obtain ⟨γ0, h0⟩ := C75_exists_tt2d T.toParams hd.dt (f s :: xs.map f)
  have z0 : γ0 0 = s.q.pose := h0.start (f s) rfl
  have dr : ∀ j < k + 1, _ := fun j hj => h0.drive j (f (xs.getD j s)) (by
    rw [List.getElem?_cons_succ, List.getElem?_map, at' j (by omega)]; rfl)
  have cha : ∀ j < k + 1, _ := fun j hj => chain_at hch (at' j (by omega)) (at' (j + 1) (by omega))
  have key := car_run (P := T.toParams) hd (x := fun t => (γ0 t).px) (y := fun t => (γ0 t).py)
    (th := fun t => (γ0 t).th1) (n := k + 1) (X := fun j => (xs.getD j s).q.px) (Y := fun j => (xs.getD j s).q.py)
    (TH := fun j => (xs.getD j s).q.th1) (u := fun j => ctrl T (xs.getD j s).q)
    (by simp only [z0, es, Q6.pose]) (by simp only [z0, es, Q6.pose]) (by simp only [z0, es, Q6.pose])
    (fun j hj => ctrl_inBox hv hdl _) (fun j hj => ⟨(cha j hj).1.1, (cha j hj).1.2.1, (cha j hj).1.2.2.1⟩)
    (fun j hj => (dr j hj).1)
  have key2 := trail_run (P := T.toParams) hd (th := fun t => (γ0 t).th1) (ph := fun t => (γ0 t).th2) (n := k + 1)
    (TH := fun j => (xs.getD j s).q.th1) (PH := fun j => (xs.getD j s).q.th2)
    (u := fun j => ctrl T (xs.getD j s).q)
    (fun j hj lam l0 l1 => (key j hj lam l0 l1).1) (by simp only [z0, es, Q6.pose])
    (fun j hj => ctrl_inBox hv hdl _) (fun j hj => ⟨(cha j hj).1.2.2.1, (cha j hj).1.2.2.2⟩)
    (fun j hj => ⟨(dr j hj).1.th, (dr j hj).2⟩)
    k (by omega) lam l0 l1
  obtain ⟨i1, i2⟩ := key k (by omega) lam l0 l1
  simp only [ea, eb] at i1 i2 key2
  -- the actual motion is a rough execution of it
  have near : ∀ j < k + 1, ∀ t ∈ Icc ((j : ℝ) * T.dt) ((j + 1) * T.dt), ∃ v δ : ℝ,
      |v - (ctrl T (xs.getD j s).q).1 * T.vMax| ≤ (B.loosen T).speed ∧
      |δ - (ctrl T (xs.getD j s).q).2 * (T.deltaMaxDeg * π / 180)| ≤ (B.loosen T).steer ∧
      HasDerivWithinAt (fun t => (γ t).px) (v * cos (γ t).th1) (Icc (j * T.dt) ((j + 1) * T.dt)) t ∧
      HasDerivWithinAt (fun t => (γ t).py) (v * sin (γ t).th1) (Icc (j * T.dt) ((j + 1) * T.dt)) t ∧
      HasDerivWithinAt (fun t => (γ t).th1) (v / T.l1 * tan δ) (Icc (j * T.dt) ((j + 1) * T.dt)) t ∧
      HasDerivWithinAt (fun t => (γ t).th2)
        (v / T.l2 * (sin ((γ t).th1 - (γ t).th2) - T.lh / T.l1 * cos ((γ t).th1 - (γ t).th2) * tan δ))
        (Icc (j * T.dt) ((j + 1) * T.dt)) t := by
    intro j hj t ht
    obtain ⟨μ, m0, m1, et⟩ : ∃ μ : ℝ, 0 ≤ μ ∧ μ ≤ 1 ∧ t = (j + μ) * T.dt := by
      rcases hd.dt.eq_or_lt with h | h
      · refine ⟨0, le_rfl, zero_le_one, ?_⟩
        rw [← h] at ht ⊢
        have := ht.1
        have := ht.2
        simp only [mul_zero] at *
        linarith
      · refine ⟨t / T.dt - j, ?_, ?_, ?_⟩
        · rw [sub_nonneg, le_div_iff₀ h]; exact ht.1
        · rw [sub_le_iff_le_add, div_le_iff₀ h, add_comm]; exact ht.2
        · field_simp; ring
    obtain ⟨v, δ, c1, c2, c3⟩ := hγ.drive j _ _ (at' j (by omega)) (at' (j + 1) (by omega)) μ m0 m1 t et
    obtain ⟨-, r1, r2⟩ := cha j hj
    obtain ⟨e1, e2⟩ := ctrl_mul hv hdl (xs.getD j s).q
    refine ⟨v, δ, ?_, ?_, c3⟩
    · rw [e1]
      refine (abs_sub_le _ (limited T.vMax (mix μ (xs.getD j s).q.v (xs.getD (j + 1) s).q.v)) _).trans ?_
      exact add_le_add c1 ((limited_lip _ _ _).trans (mix_near m0 m1 r1))
    · rw [e2]
      refine (abs_sub_le _ (limited (T.deltaMaxDeg * π / 180)
        (mix μ (xs.getD j s).q.delta (xs.getD (j + 1) s).q.delta)) _).trans ?_
      exact add_le_add c2 ((limited_lip _ _ _).trans (mix_near m0 m1 r2))
  obtain ⟨z1, z2, z3⟩ := hγ.start s hx0
  have e1 : s.q.px = (γ0 0).px := by rw [z0]; rfl
  have e2 : s.q.py = (γ0 0).py := by rw [z0]; rfl
  have e3 : s.q.th1 = (γ0 0).th1 := by rw [z0]; rfl
  have e4 : s.q.th2 = (γ0 0).th2 := by rw [z0]; rfl
  rw [e1, e2] at z1
  rw [e3] at z2
  rw [e4] at z3
  have rc := fun (t : ℝ) (t0 : 0 ≤ t) (t1 : t ≤ ((k + 1 : ℕ) : ℝ) * T.dt) =>
    rough_car (x := fun t => (γ t).px) (y := fun t => (γ t).py) (th := fun t => (γ t).th1)
    (x0 := fun t => (γ0 t).px) (y0 := fun t => (γ0 t).py) (th0 := fun t => (γ0 t).th1) hd hB
    (N := k + 1) (by omega) (u := fun j => ctrl T (xs.getD j s).q)
    (fun j hj => ctrl_inBox hv hdl _)
    (fun j hj t ht => by
      obtain ⟨v, δ, c1, c2, c3, c4, c5, -⟩ := near j hj t ht
      exact ⟨v, δ, c1, c2, c3, c4, c5⟩)
    (fun j hj => (dr j hj).1) z1 z2 (t := t) t0 t1
  have t0 : 0 ≤ (k + lam) * T.dt := mul_nonneg (by positivity) hd.dt
  have t1 : (k + lam) * T.dt ≤ ((k + 1 : ℕ) : ℝ) * T.dt :=
    mul_le_mul_of_nonneg_right (by push_cast; linarith) hd.dt
  obtain ⟨r1, r2⟩ := rc _ t0 t1
  have r3 := rough_trail (th := fun t => (γ t).th1) (ph := fun t => (γ t).th2)
    (th0 := fun t => (γ0 t).th1) (ph0 := fun t => (γ0 t).th2) hd hB
    (N := k + 1) (by omega) (u := fun j => ctrl T (xs.getD j s).q)
    (fun j hj => ctrl_inBox hv hdl _)
    (fun j hj t ht => by
      obtain ⟨v, δ, c1, c2, -, -, -, c6⟩ := near j hj t ht
      exact ⟨v, δ, c1, c2, c6⟩)
    (fun j hj => (dr j hj).2) (fun r a b => (rc r a b).1) z3 t0 t1
  refine ⟨?_, (dist_tri _ _ _).trans (add_le_add r2 i2), (abs_sub_le _ _ _).trans (add_le_add r3 key2)⟩
  have : (between4 lam a.q.pose b.q.pose).th1 = (γ0 ((k + lam) * T.dt)).th1 := i1.symm
  rw [this]
  exact r1

/-- **C75, acceleration-controlled vehicle**: a vehicle that follows the recorded speeds and steering angles exactly. -/
theorem C75_acc (T : Acc) (ext : Ext Q6) (hp : T.enableProjection = false) (hd : DriveOK T.toParams)
    (hv : 0 < T.vMax) (hdl : 0 < T.deltaMaxDeg) (ha' : 0 < T.aMax) (hom : 0 ≤ T.omegaMax)
    (hw : T.deltaMaxDeg * π / 180 + T.omegaMax * T.dt < π / 2) (s : St Q6) (us : List U) (γ : ℝ → Q4)
    (hγ : FollowsAcc T Budget.none γ (s :: scanStates (T.step ext) s us)) (k : ℕ) (a b : St Q6)
    (ha : (s :: scanStates (T.step ext) s us)[k]? = some a)
    (hb : (s :: scanStates (T.step ext) s us)[k + 1]? = some b) (lam : ℝ) (l0 : 0 ≤ lam) (l1 : lam ≤ 1) :
    |(γ ((k + lam) * T.dt)).th1 - (between4 lam a.q.pose b.q.pose).th1|
      ≤ (Budget.none.loosen T).headErr T.toParams ((k + lam) * T.dt) ∧
    Spec.dist ((γ ((k + lam) * T.dt)).px, (γ ((k + lam) * T.dt)).py)
      ((between4 lam a.q.pose b.q.pose).px, (between4 lam a.q.pose b.q.pose).py)
      ≤ (Budget.none.loosen T).posErr T.toParams ((k + lam) * T.dt) + drift T.toParams (k + 1) ∧
    |(γ ((k + lam) * T.dt)).th2 - (between4 lam a.q.pose b.q.pose).th2|
      ≤ (Budget.none.loosen T).trailErr T.toParams ((k + lam) * T.dt) + trailDrift T.toParams (k + 1) := by
  refine C81_acc T ext hp hd hv hdl ha' hom Budget.none ⟨le_rfl, le_rfl, le_rfl, ?_, ?_, ?_⟩ s us γ hγ k a b ha hb lam
    l0 l1
  · have := mul_nonneg ha'.le hd.dt
    simpa [Budget.loosen, Budget.none] using this
  · have := mul_nonneg hom hd.dt
    simpa [Budget.loosen, Budget.none] using this
  · simpa [Budget.loosen, Budget.none] using hw

/-! ## Safety -/

/-- **C81, acceleration-controlled vehicle with padding**: if the recorded states are clear of the padded obstacles, and
the padding covers half a step's travel, the drift and the errors of the whole run, every execution within the budget is
clear of the actual obstacles at every moment. -/
theorem C81_safe_acc (T : Acc) (ext : Ext Q6) (hp : T.enableProjection = false) (hd : DriveOK T.toParams)
    (hsz : Spec.SidesOK T.toParams) (hov : -T.lr ≤ T.l1 + T.lf1) (hov2 : -T.lr2 ≤ T.lf2)
    (hv : 0 < T.vMax) (hdl : 0 < T.deltaMaxDeg) (ha' : 0 < T.aMax) (hom : 0 ≤ T.omegaMax)
    {p : ℝ} {cs : List Circle} {rs : List Rect} (hP : Padded p T.toParams cs rs) (hr : ∀ c ∈ cs, 0 ≤ c.r) (p0 : 0 ≤ p)
    (B : Budget) (hB : (B.loosen T).OK T.toParams) (s : St Q6) (us : List U)
    (hsafe : ∀ s' ∈ s :: scanStates (T.step ext) s us, Spec.SafeTT T.toParams s'.q.pose)
    (h1 : Spec.tractorShift T.toParams 0 / 2 + drift T.toParams us.length
      + (B.loosen T).posErr T.toParams (us.length * T.dt)
      + (max T.lr (T.l1 + T.lf1) + T.tractorWidth / 2) * (B.loosen T).headErr T.toParams (us.length * T.dt) ≤ p)
    (h2 : trailerSweep T.toParams / 2 + drift T.toParams us.length + (B.loosen T).posErr T.toParams (us.length * T.dt)
      + T.lh * (B.loosen T).headErr T.toParams (us.length * T.dt) + (T.l2 + max T.lr2 T.lf2 + T.trailerWidth / 2)
        * ((B.loosen T).trailErr T.toParams (us.length * T.dt) + trailDrift T.toParams us.length) ≤ p) (γ : ℝ → Q4)
    (hγ : FollowsAcc T B γ (s :: scanStates (T.step ext) s us)) (t : ℝ) (t0 : 0 ≤ t)
    (t1 : t ≤ us.length * T.dt) :
    Spec.SafeTT { T.toParams with circles := cs, rects := rs } (γ t) := by
  have m1 : 0 ≤ max T.lr (T.l1 + T.lf1) := max_nonneg_of_neg_le hov
  have m2 : 0 ≤ max T.lr2 T.lf2 := max_nonneg_of_neg_le hov2
  have w1 : 0 ≤ T.tractorWidth / 2 := by linarith [hsz.tractorWid]
  have w2 : 0 ≤ T.trailerWidth / 2 := by linarith [hsz.trailerWid]
  have hdr : 0 ≤ drift T.toParams us.length := by
    have := drift_mono hd (Nat.zero_le us.length)
    simpa [drift] using this
  have hT : 0 ≤ us.length * T.dt := mul_nonneg (by positivity) hd.dt
  have hsh : 0 ≤ Spec.tractorShift T.toParams 0 := by
    unfold Spec.tractorShift
    simp only [mul_zero, sub_zero]
    have := mul_nonneg (add_nonneg m1 w1) (turnStep_nonneg hd)
    have hw : 0 ≤ T.vMax * T.dt := mul_nonneg hd.v hd.dt
    unfold turnStep at this
    linarith
  have hmar : ∀ a ∈ s :: scanStates (T.step ext) s us, Margin4 p T.toParams cs rs a.q.pose := fun a ha =>
    C74_margin_tt2d p0 hP hr (hsafe a ha)
  have hlen : (s :: scanStates (T.step ext) s us).length = us.length + 1 := by
    simp [scanStates_length]
  rcases in_step hd.dt t0 t1 with rfl | ⟨k, hk, lam, l0, l1, rfl⟩
  · obtain ⟨z1, z2, z7⟩ := hγ.start s rfl
    have z3 := headErr_mono hd hB hT
    have z4 := posErr_mono hd hB le_rfl hT
    have z8 := trailErr_mono hd hB le_rfl hT
    have z9 := trailDrift_mono hd (Nat.zero_le us.length)
    rw [trailDrift_zero] at z9
    have y3 : (B.loosen T).headErr T.toParams 0 = B.head := by simp [Budget.headErr, Budget.loosen]
    have y4 : (B.loosen T).posErr T.toParams 0 = B.pos := by simp [Budget.posErr, Budget.loosen]
    have y8 : (B.loosen T).trailErr T.toParams 0 = B.trail := by simp [Budget.trailErr, Budget.loosen]
    rw [y3] at z3
    rw [y4] at z4
    rw [y8] at z8
    have z5 := mul_le_mul_of_nonneg_left z3 (add_nonneg m1 w1)
    have z10 := mul_le_mul_of_nonneg_left z3 hd.lh
    have z11 := mul_le_mul_of_nonneg_left (show B.trail ≤ (B.loosen T).trailErr T.toParams (us.length * T.dt)
      + trailDrift T.toParams us.length by linarith)
      (by linarith [hd.l2] : 0 ≤ T.l2 + max T.lr2 T.lf2 + T.trailerWidth / 2)
    have z6 : ∀ a : V2, Spec.dist a a = 0 := by intro a; simp [Spec.dist]
    have hsw : 0 ≤ trailerSweep T.toParams := by
      have e2 := (euler_travel hd hsz hov (ctrl_inBox hv hdl s.q) (acc_step_pose hv hdl ext s (0, 0)) hov2).2
      refine le_trans ?_ e2
      have := hd.lh
      have := hd.l2.le
      have : ∀ a b : V2, 0 ≤ Spec.dist a b := by intro a b; rw [dist_eq]; exact norm_nonneg _
      have := this ((T.step ext s (0, 0)).q.pose.px, (T.step ext s (0, 0)).q.pose.py) (s.q.pose.px, s.q.pose.py)
      positivity
    refine tt_near' (e := B.pos) (f := B.head) (f2 := B.trail) (lam := 0) (q := s.q.pose) (q' := s.q.pose) hd.lh hd.l2.le
      (add_nonneg m1 w1) (add_nonneg m2 w2) ?_ ?_ (hmar s (by simp)) (hmar s (by simp)) le_rfl
      zero_le_one (by simpa [between4, mix, Q6.pose] using z2) (by simpa [between4, mix, Q6.pose] using z1)
      (by simpa [between4, mix, Q6.pose] using z7)
    · rw [z6, sub_self, abs_zero]
      linarith
    · rw [z6, sub_self, sub_self, abs_zero]
      linarith
  have ha := List.getElem?_eq_getElem (l := s :: scanStates (T.step ext) s us) (i := k) (by omega)
  have hb := List.getElem?_eq_getElem (l := s :: scanStates (T.step ext) s us) (i := k + 1) (by omega)
  obtain ⟨g1, g2, g3⟩ := C81_acc T ext hp hd hv hdl ha' hom B hB s us γ hγ k _ _ ha hb lam l0 l1
  have heul := chain_at (scan_isChain (step := T.step ext)
    (fun s s' : St Q6 => Spec.EulerTT T.toParams s.q.pose (ctrl T s.q) s'.q.pose)
    (fun s a => acc_step_pose hv hdl ext s a) us s) ha hb
  obtain ⟨e1, e2⟩ := euler_travel hd hsz hov (ctrl_inBox hv hdl _) heul hov2
  have g1' := g1.trans (headErr_mono hd hB t1)
  have g2' := g2.trans (add_le_add (posErr_mono hd hB t0 t1) (drift_mono hd (show k + 1 ≤ us.length by omega)))
  have g3' := g3.trans (add_le_add (trailErr_mono hd hB t0 t1) (trailDrift_mono hd (show k + 1 ≤ us.length by omega)))
  refine tt_near' hd.lh hd.l2.le (add_nonneg m1 w1) (add_nonneg m2 w2) ?_ ?_ (hmar _ (List.getElem_mem _))
    (hmar _ (List.getElem_mem _)) l0 l1 g1' g2' g3'
  · linarith
  · linarith

/-! ## Existence -/

/-- Pose of the vehicle over one step with speed and steering angle that change continuously. -/
theorem profile_exists (P : Params) {b : ℝ} (hb : 0 ≤ b) (q : Q4) {v δ : ℝ → ℝ} (cv : Continuous v) (cδ : Continuous δ)
    (hδ : ∀ t, |δ t| < π / 2) : ∃ γ : ℝ → Q4, γ 0 = q ∧ ∀ t ∈ Icc 0 b,
    HasDerivWithinAt (fun t => (γ t).px) (v t * cos (γ t).th1) (Icc 0 b) t ∧
    HasDerivWithinAt (fun t => (γ t).py) (v t * sin (γ t).th1) (Icc 0 b) t ∧
    HasDerivWithinAt (fun t => (γ t).th1) (v t / P.l1 * tan (δ t)) (Icc 0 b) t ∧
    HasDerivWithinAt (fun t => (γ t).th2)
      (v t / P.l2 * (sin ((γ t).th1 - (γ t).th2) - P.lh / P.l1 * cos ((γ t).th1 - (γ t).th2) * tan (δ t)))
      (Icc 0 b) t := by
  have ct : Continuous fun t => tan (δ t) := by
    rw [continuous_iff_continuousAt]
    intro t
    have h := abs_lt.mp (hδ t)
    exact (continuousAt_tan.mpr (cos_pos_of_mem_Ioo ⟨by linarith, h.2⟩).ne').comp cδ.continuousAt
  have cw : Continuous fun t => v t / P.l1 * tan (δ t) := (cv.div_const _).mul ct
  let th : ℝ → ℝ := fun t => q.th1 + ∫ r in (0 : ℝ)..t, v r / P.l1 * tan (δ r)
  have dth : ∀ t, HasDerivAt th (v t / P.l1 * tan (δ t)) t := fun t =>
    (cw.integral_hasStrictDerivAt 0 t).hasDerivAt.const_add _
  have cth : Continuous th := continuous_iff_continuousAt.mpr fun t => (dth t).continuousAt
  have hc : Continuous fun r : ℝ => v r * cos (th r) := cv.mul (continuous_cos.comp cth)
  have hs : Continuous fun r : ℝ => v r * sin (th r) := cv.mul (continuous_sin.comp cth)
  obtain ⟨ph, p0, dp⟩ := follow_exists (h := th) (s := v) (w := fun t => v t / P.l1 * tan (δ t)) hb cth.continuousOn
    cv.continuousOn cw.continuousOn P.lh P.l2 q.th2
  refine ⟨fun t => ⟨q.px + ∫ r in (0 : ℝ)..t, v r * cos (th r), q.py + ∫ r in (0 : ℝ)..t, v r * sin (th r), th t, ph t⟩,
    ?_, fun t ht => ⟨?_, ?_, (dth t).hasDerivWithinAt, (dp t ht).congr_deriv (by ring)⟩⟩
  · simp [th, p0]
  · exact ((hc.integral_hasStrictDerivAt 0 t).hasDerivAt.const_add _).hasDerivWithinAt
  · exact ((hs.integral_hasStrictDerivAt 0 t).hasDerivAt.const_add _).hasDerivWithinAt

/-- **C75**: every recorded motion of the acceleration-controlled vehicle has an exact execution. -/
theorem C75_exists_acc (T : Acc) (hd : DriveOK T.toParams) (hdt : 0 < T.dt) (xs : List (St Q6)) :
    ∃ γ, FollowsAcc T Budget.none γ xs ∧ ∀ a, xs[0]? = some a → γ 0 = a.q.pose := by
  cases xs with
  | nil => exact ⟨fun _ => ⟨0, 0, 0, 0⟩, ⟨by simp, by simp⟩, by simp⟩
  | cons s xs =>
    obtain ⟨hD0, hD1⟩ := hd.steer
    obtain ⟨γ, g0, gd⟩ := glue (Q := Q4) (C := Q6 × Q6) (D := fun (γ : ℝ → Q4) a b c => ∀ lam, 0 ≤ lam → lam ≤ 1 →
        ∀ t, t = a + lam * (b - a) → ∀ v δ, v = limited T.vMax (mix lam c.1.v c.2.v) →
          δ = limited (T.deltaMaxDeg * π / 180) (mix lam c.1.delta c.2.delta) →
        HasDerivWithinAt (fun t => (γ t).px) (v * cos (γ t).th1) (Icc a b) t ∧
        HasDerivWithinAt (fun t => (γ t).py) (v * sin (γ t).th1) (Icc a b) t ∧
        HasDerivWithinAt (fun t => (γ t).th1) (v / T.l1 * tan δ) (Icc a b) t ∧
        HasDerivWithinAt (fun t => (γ t).th2)
          (v / T.l2 * (sin ((γ t).th1 - (γ t).th2) - T.lh / T.l1 * cos ((γ t).th1 - (γ t).th2) * tan δ))
          (Icc a b) t) hdt.le
      (fun q c => by
        obtain ⟨γ, e0, h⟩ := profile_exists T.toParams hdt.le q
          (v := fun t => limited T.vMax (mix (t / T.dt) c.1.v c.2.v))
          (δ := fun t => limited (T.deltaMaxDeg * π / 180) (mix (t / T.dt) c.1.delta c.2.delta))
          ((limited_continuous _).comp (by unfold mix; fun_prop))
          ((limited_continuous _).comp (by unfold mix; fun_prop))
          (fun t => (limited_abs hD0 _).trans_lt hD1)
        refine ⟨γ, e0, ?_⟩
        intro lam l0 l1 t et v δ ev eδ
        have et' : t / T.dt = lam := by rw [et]; field_simp; ring
        have hin : t ∈ Icc 0 T.dt := by
          rw [et]
          constructor <;> nlinarith
        have := h t hin
        simp only [et', ← ev, ← eδ] at this
        exact this)
      (fun γ a b c u h lam l0 l1 t et v δ ev eδ => by
        obtain ⟨h1, h2, h3, h4⟩ := h lam l0 l1 (t - c) (by rw [et]; ring) v δ ev eδ
        have hm : MapsTo (fun t => t - c) (Icc (a + c) (b + c)) (Icc a b) := by
          intro r hr
          constructor <;> linarith [hr.1, hr.2]
        have sh : ∀ {f : ℝ → ℝ} {d : ℝ}, HasDerivWithinAt f d (Icc a b) (t - c) →
            HasDerivWithinAt (fun t => f (t - c)) d (Icc (a + c) (b + c)) t := fun hf =>
          (hf.comp t ((hasDerivWithinAt_id t (Icc (a + c) (b + c))).sub_const c) hm).congr_deriv (by ring)
        exact ⟨sh h1, sh h2, sh h3, sh h4⟩)
      (fun γ γ' a b u h hab hD lam l0 l1 t et v δ ev eδ => by
        have ht : t ∈ Icc a b := by
          rw [et]
          have : 0 ≤ lam * (b - a) := mul_nonneg l0 (by linarith)
          have : lam * (b - a) ≤ b - a := mul_le_of_le_one_left (by linarith) l1
          constructor <;> linarith
        obtain ⟨h1, h2, h3, h4⟩ := hD lam l0 l1 t et v δ ev eδ
        have e := h t ht
        rw [e]
        exact ⟨h1.congr (fun r hr => by simp only [h r hr]) (by simp only [e]),
          h2.congr (fun r hr => by simp only [h r hr]) (by simp only [e]),
          h3.congr (fun r hr => by simp only [h r hr]) (by simp only [e]),
          h4.congr (fun r hr => by simp only [h r hr]) (by simp only [e])⟩)
      (((s :: xs).map St.q).zip (xs.map St.q)) s.q.pose
    refine ⟨γ, ⟨?_, ?_⟩, ?_⟩
    · intro a ha
      simp only [List.getElem?_cons_zero, Option.some.injEq] at ha
      subst ha
      rw [g0]
      simp [Spec.dist, Q6.pose, Budget.none]
    · intro k a b ha hb lam l0 l1 t et
      have hz : (((s :: xs).map St.q).zip (xs.map St.q))[k]? = some (a.q, b.q) := by
        rw [List.getElem?_cons_succ] at hb
        rw [List.getElem?_zip_eq_some, List.getElem?_map, List.getElem?_map, ha, hb]
        exact ⟨rfl, rfl⟩
      have := gd k (a.q, b.q) hz lam l0 l1 t (by rw [et]; ring) _ _ rfl rfl
      exact ⟨_, _, by simp [Budget.none], by simp [Budget.none], this⟩
    · intro a ha
      simp only [List.getElem?_cons_zero, Option.some.injEq] at ha
      rw [g0, ha]

/-! ## Examples -/

/-- The default vehicle with gentle limits of 0.25 m/s² and 0.05 rad/s, a pole of radius 1 m, padded by 5 m. -/
noncomputable def gentleAcc : Acc :=
  { toParams := robustTT.toParams, aMax := 0.25, omegaMax := 0.05, x0 := ⟨0, 0, 0, 0, 0, 0⟩, xg := ⟨9, 0, 0, 0, 0, 0⟩ }

/-- 5 cm and 0.01 rad at the start, speeds and steering angles as recorded. -/
noncomputable def startBudget : Budget := ⟨0.05, 0.01, 0.01, 0, 0⟩

theorem startBudget_loosen : startBudget.loosen gentleAcc = someBudget := by
  unfold Budget.loosen startBudget gentleAcc robustTT Params.default someBudget
  norm_num

theorem gentle_drive : DriveOK gentleAcc.toParams := default_driveOK _ _

/-- Any actions: C81 and C75 apply, and there is an exact execution. -/
example (ext : Ext Q6) (us : List U) :
    ∃ γ, FollowsAcc gentleAcc Budget.none γ (gentleAcc.reset :: scanStates (gentleAcc.step ext) gentleAcc.reset us) ∧
    ∀ (k : ℕ) (a b : St Q6), (gentleAcc.reset :: scanStates (gentleAcc.step ext) gentleAcc.reset us)[k]? = some a →
    (gentleAcc.reset :: scanStates (gentleAcc.step ext) gentleAcc.reset us)[k + 1]? = some b →
    Spec.dist ((γ ((k + 1 / 2) * 0.2)).px, (γ ((k + 1 / 2) * 0.2)).py)
      ((between4 (1 / 2) a.q.pose b.q.pose).px, (between4 (1 / 2) a.q.pose b.q.pose).py)
      ≤ (Budget.none.loosen gentleAcc).posErr gentleAcc.toParams ((k + 1 / 2) * 0.2)
        + drift gentleAcc.toParams (k + 1) := by
  obtain ⟨γ, h, -⟩ := C75_exists_acc gentleAcc gentle_drive (by norm_num [gentleAcc, robustTT, Params.default])
    (gentleAcc.reset :: scanStates (gentleAcc.step ext) gentleAcc.reset us)
  refine ⟨γ, h, fun k a b ha hb => ?_⟩
  have hp := pi_gt_d2
  exact (C75_acc gentleAcc ext rfl gentle_drive (by norm_num [gentleAcc, robustTT, Params.default])
    (by norm_num [gentleAcc, robustTT, Params.default]) (by norm_num [gentleAcc]) (by norm_num [gentleAcc])
    (by norm_num [gentleAcc, robustTT, Params.default]; linarith) _ us γ h k a b ha hb (1 / 2) (by norm_num)
    (by norm_num)).2.1

/-- From a standstill the first step changes speed and steering angle only. -/
theorem gentle_first (ext : Ext Q6) (u : U) :
    (gentleAcc.step ext gentleAcc.reset u).q.pose = robustTT.reset.q := by
  obtain ⟨e1, e2, e3, e4⟩ := acc_step_pose (T := gentleAcc) (by norm_num [gentleAcc, robustTT, Params.default])
    (by norm_num [gentleAcc, robustTT, Params.default]) ext gentleAcc.reset u
  have hc : (ctrl gentleAcc gentleAcc.reset.q).1 = 0 := by
    simp [ctrl, limited, gentleAcc, Acc.reset, robustTT, Params.default]
  rw [hc] at e1 e2 e3 e4
  have h : ∀ a b : Q4, a.px = b.px → a.py = b.py → a.th1 = b.th1 → a.th2 = b.th2 → a = b := by
    rintro ⟨_, _, _, _⟩ ⟨_, _, _, _⟩ rfl rfl rfl rfl
    rfl
  apply h
  · rw [e1]; simp [gentleAcc, Acc.reset, TT2d.reset, robustTT, Q6.pose]
  · rw [e2]; simp [gentleAcc, Acc.reset, TT2d.reset, robustTT, Q6.pose]
  · rw [e3]; simp [gentleAcc, Acc.reset, TT2d.reset, robustTT, Q6.pose]
  · rw [e4]; simp [gentleAcc, Acc.reset, TT2d.reset, robustTT, Q6.pose]

/-- Any first action from a standstill, with a start up to 5 cm beside the planned one. -/
example (ext : Ext Q6) (u : U) (γ : ℝ → Q4)
    (hγ : FollowsAcc gentleAcc startBudget γ (gentleAcc.reset :: scanStates (gentleAcc.step ext) gentleAcc.reset [u]))
    (t : ℝ) (t0 : 0 ≤ t) (t1 : t ≤ 0.2) : Spec.SafeTT (Params.default [⟨20, 0, 1⟩] []) (γ t) := by
  have hd := gentle_drive
  have h1 : Spec.tractorShift gentleAcc.toParams 0 ≤ 3 ∧ trailerSweep gentleAcc.toParams ≤ 3 := default_travel _ _
  have h2 : drift gentleAcc.toParams 2 ≤ 0.2 ∧ trailDrift gentleAcc.toParams 2 ≤ 0.16 := default_drift _ _
  have d1 := drift_mono hd (show [u].length ≤ 2 by simp)
  have d2 := trailDrift_mono hd (show [u].length ≤ 2 by simp)
  have hB : someBudget.OK gentleAcc.toParams := someBudget_ok _ _
  have hl : (([u].length : ℕ) : ℝ) * gentleAcc.dt = 0.2 := by
    norm_num [gentleAcc, robustTT, Params.default]
  obtain ⟨b1, b2, b3⟩ : someBudget.headErr gentleAcc.toParams 0.4 ≤ 0.036 ∧
    someBudget.posErr gentleAcc.toParams 0.4 ≤ 0.12 ∧ someBudget.trailErr gentleAcc.toParams 0.4 ≤ 0.09 :=
    someBudget_err _ _
  have c1 := headErr_mono hd hB (show (0.2 : ℝ) ≤ 0.4 by norm_num)
  have c2 := posErr_mono hd hB (show (0 : ℝ) ≤ 0.2 by norm_num) (show (0.2 : ℝ) ≤ 0.4 by norm_num)
  have c3 := trailErr_mono hd hB (show (0 : ℝ) ≤ 0.2 by norm_num) (show (0.2 : ℝ) ≤ 0.4 by norm_num)
  refine C81_safe_acc gentleAcc ext rfl hd (margin_sides _ (by norm_num))
    (by norm_num [gentleAcc, robustTT, Params.default]) (by norm_num [gentleAcc, robustTT, Params.default])
    (by norm_num [gentleAcc, robustTT, Params.default]) (by norm_num [gentleAcc, robustTT, Params.default])
    (by norm_num [gentleAcc]) (by norm_num [gentleAcc]) (pole_padded 5 _ rfl)
    (by intro c hc; simp only [List.mem_singleton] at hc; subst hc; norm_num) (by norm_num) startBudget
    (by rw [startBudget_loosen]; exact hB) gentleAcc.reset [u] ?_ ?_ ?_ γ hγ t t0 (by rw [hl]; exact t1)
  · intro s' hs
    have : s'.q.pose = robustTT.reset.q := by
      simp only [scanStates, List.mem_cons, List.not_mem_nil, or_false] at hs
      rcases hs with rfl | rfl
      · simp [gentleAcc, Acc.reset, TT2d.reset, robustTT, Q6.pose]
      · exact gentle_first ext u
    rw [this]
    exact robustTT_safe
  · rw [hl, startBudget_loosen]
    have m : max gentleAcc.lr (gentleAcc.l1 + gentleAcc.lf1) + gentleAcc.tractorWidth / 2 = 5.13 := by
      have : max (1.848 : ℝ) (3.23 + 0.9) = 4.13 := by rw [max_eq_right] <;> norm_num
      simp only [gentleAcc, robustTT, Params.default]
      rw [this]; norm_num
    rw [m]
    linarith [h1.1, h2.1]
  · rw [hl, startBudget_loosen]
    have m : gentleAcc.l2 + max gentleAcc.lr2 gentleAcc.lf2 + gentleAcc.trailerWidth / 2 = 7.375 := by
      have : max (3.225 : ℝ) 1.42 = 3.225 := max_eq_left (by norm_num)
      simp only [gentleAcc, robustTT, Params.default]
      rw [this]; norm_num
    have m2 : gentleAcc.lh = 1.15 := rfl
    rw [m, m2]
    linarith [h1.2, h2.1, h2.2]

end Mbd
