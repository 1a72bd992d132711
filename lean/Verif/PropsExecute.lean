import Verif.PropsPlan
import Verif.PropsRobust

/-! # C89: executing the answer of the planner on a vehicle -/

namespace Spec

open Real Mbd Set

/-- A bicycle that is told to drive with the actions `Y`, one after the other for one time step each, from a start near `q0`:
at every moment its actual speed and steering angle, which may fluctuate, are within the budget of the commanded ones. -/
structure Executes3 (P : Params) (B : Budget) (q0 : Q3) (Y : List U) (γ : ℝ → Q3) : Prop where
  start : Spec.dist ((γ 0).px, (γ 0).py) (q0.px, q0.py) ≤ B.pos ∧ |(γ 0).th1 - q0.th1| ≤ B.head
  drive : ∀ (k : ℕ) u, Y[k]? = some u → ∀ t ∈ Icc (k * P.dt) ((k + 1) * P.dt), ∃ v δ : ℝ,
    |v - u.1 * P.vMax| ≤ B.speed ∧ |δ - u.2 * (P.deltaMaxDeg * π / 180)| ≤ B.steer ∧
    HasDerivWithinAt (fun t => (γ t).px) (v * cos (γ t).th1) (Icc (k * P.dt) ((k + 1) * P.dt)) t ∧
    HasDerivWithinAt (fun t => (γ t).py) (v * sin (γ t).th1) (Icc (k * P.dt) ((k + 1) * P.dt)) t ∧
    HasDerivWithinAt (fun t => (γ t).th1) (v / P.l1 * tan δ) (Icc (k * P.dt) ((k + 1) * P.dt)) t

/-- The same for a tractor with a trailer. -/
structure Executes4 (P : Params) (B : Budget) (q0 : Q4) (Y : List U) (γ : ℝ → Q4) : Prop where
  start : Spec.dist ((γ 0).px, (γ 0).py) (q0.px, q0.py) ≤ B.pos ∧ |(γ 0).th1 - q0.th1| ≤ B.head ∧
    |(γ 0).th2 - q0.th2| ≤ B.trail
  drive : ∀ (k : ℕ) u, Y[k]? = some u → ∀ t ∈ Icc (k * P.dt) ((k + 1) * P.dt), ∃ v δ : ℝ,
    |v - u.1 * P.vMax| ≤ B.speed ∧ |δ - u.2 * (P.deltaMaxDeg * π / 180)| ≤ B.steer ∧
    HasDerivWithinAt (fun t => (γ t).px) (v * cos (γ t).th1) (Icc (k * P.dt) ((k + 1) * P.dt)) t ∧
    HasDerivWithinAt (fun t => (γ t).py) (v * sin (γ t).th1) (Icc (k * P.dt) ((k + 1) * P.dt)) t ∧
    HasDerivWithinAt (fun t => (γ t).th1) (v / P.l1 * tan δ) (Icc (k * P.dt) ((k + 1) * P.dt)) t ∧
    HasDerivWithinAt (fun t => (γ t).th2)
      (v / P.l2 * (sin ((γ t).th1 - (γ t).th2) - P.lh / P.l1 * cos ((γ t).th1 - (γ t).th2) * tan δ))
      (Icc (k * P.dt) ((k + 1) * P.dt)) t

end Spec

namespace Mbd

open Real Classical Set _root_.Spec

/-! ## The returned actions are the applied ones of the returned run -/

theorem plan_fixed_tt2d (T : TT2d) (ext : Ext Q4) (xref : List (Q4 × Bool)) (hp : T.enableProjection = false)
    (normal : Key → ℕ → ℕ → ℕ → ℕ → U) (cfg : Cfg) :
    (scanStates (T.step ext) T.reset (runDiffusion (T.planEnv ext xref) normal cfg).Y0).map St.applied =
      (runDiffusion (T.planEnv ext xref) normal cfg).Y0 := by
  have hproj : T.enableProjection = true → ext.project = fun _ u => u := by simp [hp]
  have hw := C18_tt2d T ext hproj T.reset
  have hscan : ∀ us, scanStates (T.step ext) (warmState (T.step ext) T.reset) us =
      scanStates (T.step ext) T.reset us := by
    intro us
    cases us with
    | nil => rfl
    | cons u us => exact scan_congr (fun s s' a h1 h2 => tt2d_step_congr T ext h1 h2 a) hw.1 hw.2 _
  set Y := (reverseLoop (reverseOnce (T.planEnv ext xref)
    (mkSchedule cfg.beta0 cfg.betaT cfg.Ndiffuse) normal cfg T.reset) cfg (zeroPlan cfg) keyExp).Y with hYdef
  have hY0 : (runDiffusion (T.planEnv ext xref) normal cfg).Y0 = (scanStates (T.step ext) T.reset Y).map St.applied := by
    rw [← hscan]; rfl
  have hrep := C10_tt2d T ext hp T.reset Y
  rw [← hY0] at hrep
  exact hrep.2

theorem plan_fixed_bicycle (T : Bicycle) (ext : Ext Q3) (xref : List (Q3 × Bool)) (hp : T.enableProjection = false)
    (normal : Key → ℕ → ℕ → ℕ → ℕ → U) (cfg : Cfg) :
    (scanStates (T.step ext) T.reset (runDiffusion (T.planEnv ext xref) normal cfg).Y0).map St.applied =
      (runDiffusion (T.planEnv ext xref) normal cfg).Y0 := by
  have hproj : T.enableProjection = true → ext.project = fun _ u => u := by simp [hp]
  have hw := C18_bicycle T ext hproj T.reset
  have hscan : ∀ us, scanStates (T.step ext) (warmState (T.step ext) T.reset) us =
      scanStates (T.step ext) T.reset us := by
    intro us
    cases us with
    | nil => rfl
    | cons u us => exact scan_congr (fun s s' a h1 h2 => bicycle_step_congr T ext h1 h2 a) hw.1 hw.2 _
  set Y := (reverseLoop (reverseOnce (T.planEnv ext xref)
    (mkSchedule cfg.beta0 cfg.betaT cfg.Ndiffuse) normal cfg T.reset) cfg (zeroPlan cfg) keyExp).Y with hYdef
  have hY0 : (runDiffusion (T.planEnv ext xref) normal cfg).Y0 = (scanStates (T.step ext) T.reset Y).map St.applied := by
    rw [← hscan]; rfl
  have hrep := C10_bicycle T ext hp T.reset Y
  rw [← hY0] at hrep
  exact hrep.2

/-- Executing the applied actions of a recorded run. -/
theorem executes4_rough {P : Params} {B : Budget} {γ : ℝ → Q4} {s : St Q4} {ss : List (St Q4)} {Y : List U}
    (h : Executes4 P B s.q Y γ) (hY : ss.map St.applied = Y) : Rough4 P B γ (s :: ss) where
  start := by rintro a ha; cases ha; exact h.start
  drive := by
    intro k b hb
    refine h.drive k b.applied ?_
    rw [← hY, List.getElem?_map]
    simp only [List.getElem?_cons_succ] at hb
    rw [hb]; rfl

theorem executes3_rough {P : Params} {B : Budget} {γ : ℝ → Q3} {s : St Q3} {ss : List (St Q3)} {Y : List U}
    (h : Executes3 P B s.q Y γ) (hY : ss.map St.applied = Y) : Rough3 P B γ (s :: ss) where
  start := by rintro a ha; cases ha; exact h.start
  drive := by
    intro k b hb
    refine h.drive k b.applied ?_
    rw [← hY, List.getElem?_map]
    simp only [List.getElem?_cons_succ] at hb
    rw [hb]; rfl

/-- Every list of actions can be executed, within every budget. -/
theorem executes4_exists (P : Params) (hdt : 0 ≤ P.dt) {B : Budget} (hB : B.OK P) (q0 : Q4) (Y : List U) :
    ∃ γ, Executes4 P B q0 Y γ := by
  obtain ⟨γ, hγ⟩ := C75_exists_tt2d P hdt (⟨q0, q0, 0, 0, (0, 0), false⟩ :: Y.map fun u => ⟨q0, q0, 0, 0, u, false⟩)
  have h0 := hγ.start _ rfl
  refine ⟨γ, ?_, ?_⟩
  · rw [h0]
    simp [Spec.dist, hB.pos, hB.head, hB.trail]
  · intro k u hu t ht
    obtain ⟨h1, h2⟩ := hγ.drive k ⟨q0, q0, 0, 0, u, false⟩ (by simp [hu])
    exact ⟨_, _, by simp [hB.speed], by simp [hB.steer], h1.x t ht, h1.y t ht, h1.th t ht, h2 t ht⟩

theorem executes3_exists (P : Params) (hdt : 0 ≤ P.dt) {B : Budget} (hB : B.OK P) (q0 : Q3) (Y : List U) :
    ∃ γ, Executes3 P B q0 Y γ := by
  obtain ⟨γ, hγ⟩ := C75_exists_bicycle P hdt (⟨q0, q0, 0, 0, (0, 0), false⟩ :: Y.map fun u => ⟨q0, q0, 0, 0, u, false⟩)
  have h0 := hγ.start _ rfl
  refine ⟨γ, ?_, ?_⟩
  · rw [h0]
    simp [Spec.dist, hB.pos, hB.head]
  · intro k u hu t ht
    have h1 := hγ.drive k ⟨q0, q0, 0, 0, u, false⟩ (by simp [hu])
    exact ⟨_, _, by simp [hB.speed], by simp [hB.steer], h1.x t ht, h1.y t ht, h1.th t ht⟩

/-! ## Tracking -/

/-- **C89**, tractor-trailer: the vehicle that is handed the returned actions is, at the end of step `k`, within the stated
distance of the `k`-th returned state. -/
theorem C89_track_tt2d (T : TT2d) (ext : Ext Q4) (xref : List (Q4 × Bool)) (hp : T.enableProjection = false)
    (hd : DriveOK T.toParams) (B : Budget) (hB : B.OK T.toParams) (normal : Key → ℕ → ℕ → ℕ → ℕ → U) (cfg : Cfg)
    (hg : cfg.enableGuidance = false) (γ : ℝ → Q4)
    (hγ : Executes4 T.toParams B T.x0 (runDiffusion (T.planEnv ext xref) normal cfg).Y0 γ) (k : ℕ) (q : Q4)
    (hq : (runDiffusion (T.planEnv ext xref) normal cfg).xs[k]? = some q) :
    |(γ (k * T.dt)).th1 - q.th1| ≤ B.headErr T.toParams (k * T.dt) ∧
    Spec.dist ((γ (k * T.dt)).px, (γ (k * T.dt)).py) (q.px, q.py)
      ≤ B.posErr T.toParams (k * T.dt) + drift T.toParams k ∧
    |(γ (k * T.dt)).th2 - q.th2| ≤ B.trailErr T.toParams (k * T.dt) + trailDrift T.toParams k := by
  have hx : (runDiffusion (T.planEnv ext xref) normal cfg).xs =
      (T.reset :: scanStates (T.step ext) T.reset (runDiffusion (T.planEnv ext xref) normal cfg).Y0).map St.q :=
    run_xs _ _ _ hg
  have hr := executes4_rough (s := T.reset) hγ (plan_fixed_tt2d T ext xref hp normal cfg)
  generalize (runDiffusion (T.planEnv ext xref) normal cfg).Y0 = Y at *
  rw [hx, List.getElem?_map, Option.map_eq_some_iff] at hq
  obtain ⟨b, hb, rfl⟩ := hq
  cases k with
  | zero =>
    cases hb
    obtain ⟨h1, h2, h3⟩ := hγ.start
    simp only [Nat.cast_zero, zero_mul, Budget.headErr, Budget.posErr, Budget.trailErr, drift, trailDrift, mul_zero,
      add_zero, pow_zero, sub_self, zero_div, exp_zero, mul_one]
    exact ⟨h2, h1, h3⟩
  | succ k =>
    have hlt := (List.getElem?_eq_some_iff.mp hb).1
    obtain ⟨a, ha⟩ : ∃ a, (T.reset :: scanStates (T.step ext) T.reset Y)[k]? = some a :=
      ⟨_, List.getElem?_eq_getElem (by omega)⟩
    have := C81_tt2d T ext hp hd B hB T.reset Y γ hr k a b ha hb 1 zero_le_one le_rfl
    have e : between4 1 a.q b.q = b.q := by
      unfold between4; cases b.q; simp [mix]
    rw [e] at this
    push_cast
    exact this

/-- **C89**, bicycle. -/
theorem C89_track_bicycle (T : Bicycle) (ext : Ext Q3) (xref : List (Q3 × Bool)) (hp : T.enableProjection = false)
    (hd : DriveOK T.toParams) (B : Budget) (hB : B.OK T.toParams) (normal : Key → ℕ → ℕ → ℕ → ℕ → U) (cfg : Cfg)
    (hg : cfg.enableGuidance = false) (γ : ℝ → Q3)
    (hγ : Executes3 T.toParams B T.x0 (runDiffusion (T.planEnv ext xref) normal cfg).Y0 γ) (k : ℕ) (q : Q3)
    (hq : (runDiffusion (T.planEnv ext xref) normal cfg).xs[k]? = some q) :
    |(γ (k * T.dt)).th1 - q.th1| ≤ B.headErr T.toParams (k * T.dt) ∧
    Spec.dist ((γ (k * T.dt)).px, (γ (k * T.dt)).py) (q.px, q.py)
      ≤ B.posErr T.toParams (k * T.dt) + drift T.toParams k := by
  have hx : (runDiffusion (T.planEnv ext xref) normal cfg).xs =
      (T.reset :: scanStates (T.step ext) T.reset (runDiffusion (T.planEnv ext xref) normal cfg).Y0).map St.q :=
    run_xs _ _ _ hg
  have hr := executes3_rough (s := T.reset) hγ (plan_fixed_bicycle T ext xref hp normal cfg)
  generalize (runDiffusion (T.planEnv ext xref) normal cfg).Y0 = Y at *
  rw [hx, List.getElem?_map, Option.map_eq_some_iff] at hq
  obtain ⟨b, hb, rfl⟩ := hq
  cases k with
  | zero =>
    cases hb
    obtain ⟨h1, h2⟩ := hγ.start
    simp only [Nat.cast_zero, zero_mul, Budget.headErr, Budget.posErr, drift, mul_zero, add_zero]
    exact ⟨h2, h1⟩
  | succ k =>
    have hlt := (List.getElem?_eq_some_iff.mp hb).1
    obtain ⟨a, ha⟩ : ∃ a, (T.reset :: scanStates (T.step ext) T.reset Y)[k]? = some a :=
      ⟨_, List.getElem?_eq_getElem (by omega)⟩
    have := C81_bicycle T ext hp hd B hB T.reset Y γ hr k a b ha hb 1 zero_le_one le_rfl
    have e : between3 1 a.q b.q = b.q := by
      unfold between3; cases b.q; simp [mix]
    rw [e] at this
    push_cast
    exact this

/-! ## Safety -/

/-- **C89**, tractor-trailer with the collision shield: whatever the planner returns, a vehicle that executes it touches no
actual obstacle at any moment, if the obstacles were padded by half a step's travel plus drift plus execution error. -/
theorem C89_safe_tt2d (T : TT2d) (ext : Ext Q4) (xref : List (Q4 × Bool)) (hs : T.shieldCollision = true)
    (hp : T.enableProjection = false) (hgT : T.enableGuidance = false)
    (hsz : Spec.SidesOK T.toParams) (hd : DriveOK T.toParams)
    (hov : -T.lr ≤ T.l1 + T.lf1) (hov2 : -T.lr2 ≤ T.lf2)
    (hnt : ∀ c ∈ T.circles, Spec.NoTunnel T.toParams c)
    {p : ℝ} {cs : List Circle} {rs : List Rect} (hP : Padded p T.toParams cs rs) (hr : ∀ c ∈ cs, 0 ≤ c.r)
    (B : Budget) (hB : B.OK T.toParams) (h0 : Spec.SafeTT T.toParams T.x0)
    (normal : Key → ℕ → ℕ → ℕ → ℕ → U) (cfg : Cfg)
    (h1 : Spec.tractorShift T.toParams 0 / 2 + drift T.toParams cfg.Hsample + B.posErr T.toParams (cfg.Hsample * T.dt)
      + (max T.lr (T.l1 + T.lf1) + T.tractorWidth / 2) * B.headErr T.toParams (cfg.Hsample * T.dt) ≤ p)
    (h2 : trailerSweep T.toParams / 2 + drift T.toParams cfg.Hsample + B.posErr T.toParams (cfg.Hsample * T.dt)
      + T.lh * B.headErr T.toParams (cfg.Hsample * T.dt) + (T.l2 + max T.lr2 T.lf2 + T.trailerWidth / 2)
        * (B.trailErr T.toParams (cfg.Hsample * T.dt) + trailDrift T.toParams cfg.Hsample) ≤ p) (γ : ℝ → Q4)
    (hγ : Executes4 T.toParams B T.x0 (runDiffusion (T.planEnv ext xref) normal cfg).Y0 γ) (t : ℝ) (t0 : 0 ≤ t)
    (t1 : t ≤ cfg.Hsample * T.dt) :
    Spec.SafeTT { T.toParams with circles := cs, rects := rs } (γ t) := by
  have hr' := executes4_rough (s := T.reset) hγ (plan_fixed_tt2d T ext xref hp normal cfg)
  have hl : (runDiffusion (T.planEnv ext xref) normal cfg).Y0.length = cfg.Hsample := (C31_result _ normal cfg).1
  exact C81_safe_tt2d T ext hs hp hgT hsz hd hov hov2 hnt hP hr B hB T.reset h0 _ (by rw [hl]; exact h1)
    (by rw [hl]; exact h2) γ hr' t t0 (by rw [hl]; exact t1)

/-- **C89**, bicycle with the collision shield. -/
theorem C89_safe_bicycle (T : Bicycle) (ext : Ext Q3) (xref : List (Q3 × Bool)) (hs : T.shieldCollision = true)
    (hp : T.enableProjection = false) (hgT : T.enableGuidance = false)
    (hsz : Spec.SidesOK T.toParams) (hd : DriveOK T.toParams) (hov : -T.lr ≤ T.l1 + T.lf1)
    {p : ℝ} {cs : List Circle} {rs : List Rect} (hP : Padded p T.toParams cs rs) (hr : ∀ c ∈ cs, 0 ≤ c.r)
    (B : Budget) (hB : B.OK T.toParams) (h0 : Spec.SafeBicycle T.toParams T.x0)
    (normal : Key → ℕ → ℕ → ℕ → ℕ → U) (cfg : Cfg)
    (h1 : Spec.tractorShift T.toParams 0 / 2 + drift T.toParams cfg.Hsample + B.posErr T.toParams (cfg.Hsample * T.dt)
      + (max T.lr (T.l1 + T.lf1) + T.tractorWidth / 2) * B.headErr T.toParams (cfg.Hsample * T.dt) ≤ p) (γ : ℝ → Q3)
    (hγ : Executes3 T.toParams B T.x0 (runDiffusion (T.planEnv ext xref) normal cfg).Y0 γ) (t : ℝ) (t0 : 0 ≤ t)
    (t1 : t ≤ cfg.Hsample * T.dt) :
    Spec.SafeBicycle { T.toParams with circles := cs, rects := rs } (γ t) := by
  have hr' := executes3_rough (s := T.reset) hγ (plan_fixed_bicycle T ext xref hp normal cfg)
  have hl : (runDiffusion (T.planEnv ext xref) normal cfg).Y0.length = cfg.Hsample := (C31_result _ normal cfg).1
  exact C81_safe_bicycle T ext hs hp hgT hsz hd hov hP hr B hB T.reset h0 _ (by rw [hl]; exact h1) γ hr' t t0
    (by rw [hl]; exact t1)

/-! ## Arrival -/

/-- **C89**, tractor-trailer: an executed plan ends at most that much further from the goal than the returned motion does. -/
theorem C89_arrives_tt2d (T : TT2d) (ext : Ext Q4) (xref : List (Q4 × Bool)) (hp : T.enableProjection = false)
    (hd : DriveOK T.toParams) (B : Budget) (hB : B.OK T.toParams) (normal : Key → ℕ → ℕ → ℕ → ℕ → U) (cfg : Cfg)
    (hg : cfg.enableGuidance = false) (γ : ℝ → Q4)
    (hγ : Executes4 T.toParams B T.x0 (runDiffusion (T.planEnv ext xref) normal cfg).Y0 γ) :
    ∃ q, (runDiffusion (T.planEnv ext xref) normal cfg).xs.getLast? = some q ∧
    Spec.dist ((γ (cfg.Hsample * T.dt)).px, (γ (cfg.Hsample * T.dt)).py) (T.xg.px, T.xg.py) ≤
      Spec.dist (q.px, q.py) (T.xg.px, T.xg.py) + B.posErr T.toParams (cfg.Hsample * T.dt)
        + drift T.toParams cfg.Hsample := by
  have hl : (runDiffusion (T.planEnv ext xref) normal cfg).xs.length = cfg.Hsample + 1 := (C31_result _ normal cfg).2.1
  obtain ⟨q, hq⟩ : ∃ q, (runDiffusion (T.planEnv ext xref) normal cfg).xs[cfg.Hsample]? = some q :=
    ⟨_, List.getElem?_eq_getElem (by omega)⟩
  refine ⟨q, by rw [List.getLast?_eq_getElem?, hl]; exact hq, ?_⟩
  have h := (C89_track_tt2d T ext xref hp hd B hB normal cfg hg γ hγ _ q hq).2.1
  have := dist_triangle' ((γ (cfg.Hsample * T.dt)).px, (γ (cfg.Hsample * T.dt)).py) (q.px, q.py) (T.xg.px, T.xg.py)
  linarith

/-- **C89**, bicycle. -/
theorem C89_arrives_bicycle (T : Bicycle) (ext : Ext Q3) (xref : List (Q3 × Bool)) (hp : T.enableProjection = false)
    (hd : DriveOK T.toParams) (B : Budget) (hB : B.OK T.toParams) (normal : Key → ℕ → ℕ → ℕ → ℕ → U) (cfg : Cfg)
    (hg : cfg.enableGuidance = false) (γ : ℝ → Q3)
    (hγ : Executes3 T.toParams B T.x0 (runDiffusion (T.planEnv ext xref) normal cfg).Y0 γ) :
    ∃ q, (runDiffusion (T.planEnv ext xref) normal cfg).xs.getLast? = some q ∧
    Spec.dist ((γ (cfg.Hsample * T.dt)).px, (γ (cfg.Hsample * T.dt)).py) (T.xg.px, T.xg.py) ≤
      Spec.dist (q.px, q.py) (T.xg.px, T.xg.py) + B.posErr T.toParams (cfg.Hsample * T.dt)
        + drift T.toParams cfg.Hsample := by
  have hl : (runDiffusion (T.planEnv ext xref) normal cfg).xs.length = cfg.Hsample + 1 := (C31_result _ normal cfg).2.1
  obtain ⟨q, hq⟩ : ∃ q, (runDiffusion (T.planEnv ext xref) normal cfg).xs[cfg.Hsample]? = some q :=
    ⟨_, List.getElem?_eq_getElem (by omega)⟩
  refine ⟨q, by rw [List.getLast?_eq_getElem?, hl]; exact hq, ?_⟩
  have h := (C89_track_bicycle T ext xref hp hd B hB normal cfg hg γ hγ _ q hq).2
  have := dist_triangle' ((γ (cfg.Hsample * T.dt)).px, (γ (cfg.Hsample * T.dt)).py) (q.px, q.py) (T.xg.px, T.xg.py)
  linarith

/-! ## A concrete vehicle -/

/-- Planning two steps for the default tractor-trailer near a pole: whatever noise is drawn and whatever reference is used, the
answer can be executed, and every execution within the budget stays off the pole. -/
example (ext : Ext Q4) (xref : List (Q4 × Bool)) (normal : Key → ℕ → ℕ → ℕ → ℕ → U) (cfg : Cfg) (hH : cfg.Hsample = 2) :
    (∃ γ, Executes4 robustTT.toParams someBudget robustTT.x0
      (runDiffusion (robustTT.planEnv ext xref) normal cfg).Y0 γ) ∧
    ∀ γ, Executes4 robustTT.toParams someBudget robustTT.x0 (runDiffusion (robustTT.planEnv ext xref) normal cfg).Y0 γ →
    ∀ t, 0 ≤ t → t ≤ 2 * 0.2 → Spec.SafeTT (Params.default [⟨20, 0, 1⟩] []) (γ t) := by
  constructor
  · exact executes4_exists _ (by norm_num [robustTT, Params.default]) (someBudget_ok _ _) _ _
  intro γ hγ t t0 t1
  have hc : ∀ c ∈ robustTT.circles, Spec.NoTunnel robustTT.toParams c := fun c hc => default_noTunnel _ _ c (by
    simp only [robustTT, Params.default, List.mem_singleton] at hc; subst hc; norm_num)
  have h1 : Spec.tractorShift robustTT.toParams 0 ≤ 3 ∧ trailerSweep robustTT.toParams ≤ 3 := default_travel _ _
  have h2 : drift robustTT.toParams 2 ≤ 0.2 ∧ trailDrift robustTT.toParams 2 ≤ 0.16 := default_drift _ _
  have hl : ((2 : ℕ) : ℝ) * robustTT.dt = 0.4 := by
    norm_num [robustTT, Params.default]
  obtain ⟨b1, b2, b3⟩ : someBudget.headErr robustTT.toParams 0.4 ≤ 0.036 ∧
    someBudget.posErr robustTT.toParams 0.4 ≤ 0.12 ∧ someBudget.trailErr robustTT.toParams 0.4 ≤ 0.09 :=
    someBudget_err _ _
  refine C89_safe_tt2d robustTT ext xref rfl rfl rfl (margin_sides _ (by norm_num)) (default_driveOK _ _)
    (by norm_num [robustTT, Params.default]) (by norm_num [robustTT, Params.default]) hc (pole_padded 5 _ rfl)
    (by intro c hc; simp only [List.mem_singleton] at hc; subst hc; norm_num) someBudget (someBudget_ok _ _)
    robustTT_safe normal cfg ?_ ?_ γ hγ t t0 (by rw [hH, hl]; linarith)
  · rw [hH, hl]
    have m : max robustTT.lr (robustTT.l1 + robustTT.lf1) + robustTT.tractorWidth / 2 = 5.13 := by
      have : max (1.848 : ℝ) (3.23 + 0.9) = 4.13 := by rw [max_eq_right] <;> norm_num
      simp only [robustTT, Params.default]
      rw [this]; norm_num
    rw [m]
    linarith [h1.1, h2.1]
  · rw [hH, hl]
    have m : robustTT.l2 + max robustTT.lr2 robustTT.lf2 + robustTT.trailerWidth / 2 = 7.375 := by
      have : max (3.225 : ℝ) 1.42 = 3.225 := max_eq_left (by norm_num)
      simp only [robustTT, Params.default]
      rw [this]; norm_num
    have m2 : robustTT.lh = 1.15 := rfl
    rw [m, m2]
    linarith [h1.2, h2.1, h2.2]

/-- The default bicycle. -/
example (ext : Ext Q3) (xref : List (Q3 × Bool)) (normal : Key → ℕ → ℕ → ℕ → ℕ → U) (cfg : Cfg) (hH : cfg.Hsample = 2) :
    (∃ γ, Executes3 robustBike.toParams someBudget robustBike.x0
      (runDiffusion (robustBike.planEnv ext xref) normal cfg).Y0 γ) ∧
    ∀ γ, Executes3 robustBike.toParams someBudget robustBike.x0
      (runDiffusion (robustBike.planEnv ext xref) normal cfg).Y0 γ →
    ∀ t, 0 ≤ t → t ≤ 2 * 0.2 → Spec.SafeBicycle (Params.default [⟨20, 0, 1⟩] []) (γ t) := by
  constructor
  · exact executes3_exists _ (by norm_num [robustBike, robustTT, Params.default]) (someBudget_ok _ _) _ _
  intro γ hγ t t0 t1
  have h1 : Spec.tractorShift robustBike.toParams 0 ≤ 3 := (default_travel _ _).1
  have h2 : drift robustBike.toParams 2 ≤ 0.2 := (default_drift _ _).1
  have hl : ((2 : ℕ) : ℝ) * robustBike.dt = 0.4 := by
    norm_num [robustBike, robustTT, Params.default]
  obtain ⟨b1, b2, -⟩ : someBudget.headErr robustBike.toParams 0.4 ≤ 0.036 ∧
    someBudget.posErr robustBike.toParams 0.4 ≤ 0.12 ∧ someBudget.trailErr robustBike.toParams 0.4 ≤ 0.09 :=
    someBudget_err _ _
  refine C89_safe_bicycle robustBike ext xref rfl rfl rfl (margin_sides _ (by norm_num)) (default_driveOK _ _)
    (by norm_num [robustBike, robustTT, Params.default]) (pole_padded 5 _ rfl)
    (by intro c hc; simp only [List.mem_singleton] at hc; subst hc; norm_num) someBudget (someBudget_ok _ _)
    ⟨fun c hc => (robustTT_safe.1 c hc).1, fun o ho => (robustTT_safe.2 o ho).1⟩ normal cfg ?_ γ hγ t t0
    (by rw [hH, hl]; linarith)
  rw [hH, hl]
  have m : max robustBike.lr (robustBike.l1 + robustBike.lf1) + robustBike.tractorWidth / 2 = 5.13 := by
    have : max (1.848 : ℝ) (3.23 + 0.9) = 4.13 := by rw [max_eq_right] <;> norm_num
    simp only [robustBike, robustTT, Params.default]
    rw [this]; norm_num
  rw [m]
  linarith

example := fun ext xref normal cfg hg γ hγ => C89_track_tt2d robustTT ext xref rfl (default_driveOK _ _) someBudget
  (someBudget_ok _ _) normal cfg hg γ hγ

example := fun ext xref normal cfg hg γ hγ => C89_track_bicycle robustBike ext xref rfl (default_driveOK _ _) someBudget
  (someBudget_ok _ _) normal cfg hg γ hγ

example := fun ext xref normal cfg hg γ hγ => C89_arrives_tt2d robustTT ext xref rfl (default_driveOK _ _) someBudget
  (someBudget_ok _ _) normal cfg hg γ hγ

example := fun ext xref normal cfg hg γ hγ => C89_arrives_bicycle robustBike ext xref rfl (default_driveOK _ _) someBudget
  (someBudget_ok _ _) normal cfg hg γ hγ

/-- **C89**, default bicycle, plans of up to 50 steps, executed exactly: 6.5 m of padding are enough. -/
theorem C89_default_bicycle (T : Bicycle) (ext : Ext Q3) (xref : List (Q3 × Bool)) (cs' : List Circle) (rs' : List Rect)
    (hT : T.toParams = Params.default cs' rs') (hsz : Spec.SidesOK T.toParams)
    {cs : List Circle} {rs : List Rect} (hP : Padded 6.5 T.toParams cs rs) (hr : ∀ c ∈ cs, 0 ≤ c.r)
    (h0 : Spec.SafeBicycle T.toParams T.x0) (normal : Key → ℕ → ℕ → ℕ → ℕ → U) (cfg : Cfg) (hH : cfg.Hsample ≤ 50)
    (γ : ℝ → Q3) (hγ : Executes3 T.toParams ⟨0, 0, 0, 0, 0⟩ T.x0 (runDiffusion (T.planEnv ext xref) normal cfg).Y0 γ)
    (t : ℝ) (t0 : 0 ≤ t) (t1 : t ≤ cfg.Hsample * 0.2) :
    Spec.SafeBicycle { T.toParams with circles := cs, rects := rs } (γ t) := by
  have hd : DriveOK T.toParams := by rw [hT]; exact default_driveOK _ _
  have hB : Budget.OK T.toParams ⟨0, 0, 0, 0, 0⟩ := by
    have hp := pi_gt_d2
    rw [hT]
    constructor <;> norm_num [Params.default]
    linarith
  have e1 : Spec.tractorShift T.toParams 0 ≤ 3 := by rw [hT]; exact (default_travel _ _).1
  have e2 : drift T.toParams 2 ≤ 0.2 := by rw [hT]; exact (default_drift _ _).1
  have e3 : drift T.toParams cfg.Hsample ≤ 5 := by
    have := drift_mono hd hH
    have : drift T.toParams 50 = 25 * drift T.toParams 2 := by unfold drift; push_cast; ring
    linarith
  refine C89_safe_bicycle T ext xref (by rw [hT]; rfl) (by rw [hT]; rfl) (by rw [hT]; rfl) hsz hd
    (by rw [hT]; norm_num [Params.default]) hP hr _ hB h0 normal cfg ?_ γ hγ t t0
    (by rw [hT]; simpa [Params.default] using t1)
  simp only [Budget.posErr, Budget.headErr, Budget.turn, Budget.tanErr, zero_mul, mul_zero, add_zero, zero_div]
  linarith

example := fun ext xref normal cfg hH γ hγ => C89_default_bicycle
  ⟨Params.default [⟨20, 0, 1 + 6.5⟩] [], ⟨0, 0, 0⟩, ⟨9, 0, 0⟩⟩ ext xref _ _ rfl (margin_sides _ (by norm_num))
  (pole_padded 6.5 _ rfl) (by intro c hc; simp only [List.mem_singleton] at hc; subst hc; norm_num)
  ⟨by
    intro c hc
    simp only [Params.default, List.mem_singleton] at hc
    subst hc
    rintro p ⟨s, t, h1, h2, h3, rfl⟩ hd
    have hd' : (s - 20) ^ 2 + t ^ 2 ≤ (1 + 6.5) ^ 2 := by
      simpa [Spec.circleRegion, Spec.disc, Spec.frame] using hd
    have h2' : s ≤ 4.13 := by norm_num [Params.default] at h2; linarith
    nlinarith [sq_nonneg t], by simp [Params.default]⟩ normal cfg hH γ hγ

end Mbd
