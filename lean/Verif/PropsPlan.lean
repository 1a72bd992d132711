import Verif.PlanLemmas
import Verif.PropsSafe
import Verif.PropsAcc

/-!
# Properties of the returned plan and trajectory: C22, C23, C31, C32
-/

namespace Spec

open Mbd Real

/-- From `p` with heading `th` to `p'` by a displacement along the heading, not backward. -/
def MovesForward (p : Pt) (th : ℝ) (p' : Pt) : Prop :=
  ∃ d, 0 ≤ d ∧ p' = (p.1 + d * cos th, p.2 + d * sin th)

/-- From `p` with heading `th` to `p'` by a displacement along the heading, not forward. -/
def MovesBackward (p : Pt) (th : ℝ) (p' : Pt) : Prop :=
  ∃ d, d ≤ 0 ∧ p' = (p.1 + d * cos th, p.2 + d * sin th)

/-- Admissible noise schedule settings. -/
def ScheduleOK (cfg : Cfg) : Prop := 0 < cfg.beta0 ∧ cfg.beta0 ≤ cfg.betaT ∧ cfg.betaT < 1

end Spec

namespace Mbd

open Real Classical

/-! ## C22: limits -/

/-- C22, tractor-trailer: every action of the returned plan and of every intermediate plan is in
`[-1,1]²`, for every noise, start, goal, obstacle set, demonstration and configuration. -/
theorem C22_tt2d (T : TT2d) (ext : Ext Q4) (xref : List (Q4 × Bool)) (hp : T.enableProjection = false)
    (normal : Key → ℕ → ℕ → ℕ → ℕ → U) (cfg : Cfg) (hs : Spec.ScheduleOK cfg) :
    (∀ u ∈ (runDiffusion (T.planEnv ext xref) normal cfg).Y0, Spec.InBox u) ∧
    ∀ row ∈ (runDiffusion (T.planEnv ext xref) normal cfg).hist, ∀ u ∈ row, Spec.InBox u := by
  have hr := tt2d_records T ext hp
  have h := run_inRange (T.planEnv ext xref) normal cfg hs.1 hs.2.1 hs.2.2 (a := -1) (b := 1)
    (by norm_num) (by norm_num) (fun _ => True) trivial (fun _ _ _ => trivial)
    (fun s u hi => hr.inRange s _ hi) (fun s u hi _ => hr.inRange s u hi)
  simp only [inRange_box] at h
  exact ⟨h.2.1, fun row hrow => (h.2.2.2 row hrow).2⟩

/-- C22, bicycle. -/
theorem C22_bicycle (T : Bicycle) (ext : Ext Q3) (xref : List (Q3 × Bool))
    (hp : T.enableProjection = false) (normal : Key → ℕ → ℕ → ℕ → ℕ → U) (cfg : Cfg)
    (hs : Spec.ScheduleOK cfg) :
    (∀ u ∈ (runDiffusion (T.planEnv ext xref) normal cfg).Y0, Spec.InBox u) ∧
    ∀ row ∈ (runDiffusion (T.planEnv ext xref) normal cfg).hist, ∀ u ∈ row, Spec.InBox u := by
  have hr := bicycle_records T ext hp
  have h := run_inRange (T.planEnv ext xref) normal cfg hs.1 hs.2.1 hs.2.2 (a := -1) (b := 1)
    (by norm_num) (by norm_num) (fun _ => True) trivial (fun _ _ _ => trivial)
    (fun s u hi => hr.inRange s _ hi) (fun s u hi _ => hr.inRange s u hi)
  simp only [inRange_box] at h
  exact ⟨h.2.1, fun row hrow => (h.2.2.2 row hrow).2⟩

/-- C22, train of any number of trailers. -/
theorem C22_ntrailer (T : NTrailer) (guide : QN → QN) (xref : List (Q4 × Bool))
    (hp : T.enableProjection = false) (hl : T.x0.ths.length = T.N)
    (normal : Key → ℕ → ℕ → ℕ → ℕ → U) (cfg : Cfg) (hs : Spec.ScheduleOK cfg) :
    (∀ u ∈ (runDiffusion (T.planEnv guide xref) normal cfg).Y0, Spec.InBox u) ∧
    ∀ row ∈ (runDiffusion (T.planEnv guide xref) normal cfg).hist, ∀ u ∈ row, Spec.InBox u := by
  have hr := ntrailer_records T guide hp
  have h := run_inRange (T.planEnv guide xref) normal cfg hs.1 hs.2.1 hs.2.2 (a := -1) (b := 1)
    (by norm_num) (by norm_num) (fun s => s.q.ths.length = T.N) hl
    (fun s u hi => T.stepTotal_length guide s hp hi u)
    (fun s u hi => hr.inRange s _ hi) (fun s u hi _ => hr.inRange s u hi)
  simp only [inRange_box] at h
  exact ⟨h.2.1, fun row hrow => (h.2.2.2 row hrow).2⟩

/-- C22, acceleration model. -/
theorem C22_acc (T : Acc) (ext : Ext Q6) (xref : List (Q4 × Bool)) (ha : 0 < T.aMax)
    (hp : T.enableProjection = false) (normal : Key → ℕ → ℕ → ℕ → ℕ → U) (cfg : Cfg)
    (hs : Spec.ScheduleOK cfg) :
    (∀ u ∈ (runDiffusion (T.planEnv ext xref) normal cfg).Y0, Spec.InBox u) ∧
    ∀ row ∈ (runDiffusion (T.planEnv ext xref) normal cfg).hist, ∀ u ∈ row, Spec.InBox u := by
  have h := run_inRange (T.planEnv ext xref) normal cfg hs.1 hs.2.1 hs.2.2 (a := -1) (b := 1)
    (by norm_num) (by norm_num) (fun _ => True) trivial (fun _ _ _ => trivial)
    (fun s u _ => (inRange_box _).mpr (C08_acc T ext ha hp s _))
    (fun s u _ _ => (inRange_box _).mpr (C08_acc T ext ha hp s u))
  simp only [inRange_box] at h
  exact ⟨h.2.1, fun row hrow => (h.2.2.2 row hrow).2⟩

example := fun ext xref normal cfg hs => C22_tt2d Wit.tt ext xref rfl normal cfg hs

example := fun ext xref normal cfg hs => C22_bicycle Wit.bike ext xref rfl normal cfg hs

example := fun guide xref normal cfg hs => C22_ntrailer Wit.train guide xref rfl rfl normal cfg hs

example := fun ext xref normal cfg hs =>
  C22_acc Wit.acc ext xref (by norm_num [Wit.acc]) rfl normal cfg hs

/-- The default configuration (mbd_planner.py:51-117) has an admissible schedule. -/
noncomputable def defaultCfg : Cfg :=
  { motionPreference := 0, temp := 0.01, enableDemo := false, enableGuidance := false
    Nsample := 20000, Hsample := 50, Ndiffuse := 100, beta0 := 1e-5, betaT := 1e-2 }

example : Spec.ScheduleOK defaultCfg := by
  unfold Spec.ScheduleOK defaultCfg; norm_num

/-! ## C23: strict direction -/

theorem scan_isChain_of {Q : Type} {step : St Q → U → St Q} (Inv : St Q → Prop)
    (hinv : ∀ s u, Inv s → Inv (step s u)) (R : U → Prop) (Rel : Q → Q → Prop)
    (h : ∀ s u, Inv s → R u → Rel s.q (step s u).q) : ∀ (us : List U) (s : St Q), Inv s →
    (∀ u ∈ us, R u) → List.IsChain Rel (s.q :: (scanStates step s us).map St.q) := by
  intro us
  induction us with
  | nil => intro s _ _; exact List.isChain_singleton _
  | cons u us ih =>
    intro s hs hu
    simp only [scanStates, List.map_cons]
    exact List.isChain_cons_cons.mpr ⟨h s u hs (hu u (by simp)),
      ih _ (hinv s u hs) (fun v hv => hu v (by simp [hv]))⟩

theorem run_xs {Q : Type} (E : PlanEnv Q) (normal : Key → ℕ → ℕ → ℕ → ℕ → U) (cfg : Cfg)
    (hg : cfg.enableGuidance = false) :
    (runDiffusion E normal cfg).xs = (E.reset keyReset).q ::
      (scanStates E.step (E.reset keyReset) (runDiffusion E normal cfg).Y0).map St.q := by
  simp only [runDiffusion, hg, Bool.false_eq_true, if_false]

theorem eulerTT_forward {P : Params} {q q' : Q4} {u : U} (hv : 0 ≤ P.vMax) (hdt : 0 ≤ P.dt)
    (h : Spec.EulerTT P q u q') :
    (0 ≤ u.1 → Spec.MovesForward (q.px, q.py) q.th1 (q'.px, q'.py)) ∧
    (u.1 ≤ 0 → Spec.MovesBackward (q.px, q.py) q.th1 (q'.px, q'.py)) := by
  obtain ⟨h1, h2, -, -⟩ := h
  constructor
  · intro hu
    refine ⟨P.dt * (u.1 * P.vMax), by positivity, ?_⟩
    rw [h1, h2]; ext <;> simp only <;> ring
  · intro hu
    refine ⟨P.dt * (u.1 * P.vMax), ?_, ?_⟩
    · have := mul_nonneg hdt hv
      nlinarith
    · rw [h1, h2]; ext <;> simp only <;> ring

theorem eulerBicycle_forward {P : Params} {q q' : Q3} {u : U} (hv : 0 ≤ P.vMax) (hdt : 0 ≤ P.dt)
    (h : Spec.EulerBicycle P q u q') :
    (0 ≤ u.1 → Spec.MovesForward (q.px, q.py) q.th1 (q'.px, q'.py)) ∧
    (u.1 ≤ 0 → Spec.MovesBackward (q.px, q.py) q.th1 (q'.px, q'.py)) := by
  obtain ⟨h1, h2, -⟩ := h
  constructor
  · intro hu
    refine ⟨P.dt * (u.1 * P.vMax), by positivity, ?_⟩
    rw [h1, h2]; ext <;> simp only <;> ring
  · intro hu
    refine ⟨P.dt * (u.1 * P.vMax), ?_, ?_⟩
    · have := mul_nonneg hdt hv
      nlinarith
    · rw [h1, h2]; ext <;> simp only <;> ring

theorem tt2d_eulerTT (T : TT2d) (ext : Ext Q4) (s : St Q4) (u : U) :
    Spec.EulerTT T.toParams s.q (T.step ext s u).applied (T.step ext s u).q := by
  have := C09_tt2d T ext s [u]
  simp only [scanStates, List.isChain_cons_cons] at this
  exact this.1

theorem bicycle_euler (T : Bicycle) (ext : Ext Q3) (s : St Q3) (u : U) :
    Spec.EulerBicycle T.toParams s.q (T.step ext s u).applied (T.step ext s u).q := by
  have := C09_bicycle T ext s [u]
  simp only [scanStates, List.isChain_cons_cons] at this
  exact this.1

theorem ntrailer_euler (T : NTrailer) (guide : QN → QN) (hp : T.enableProjection = false) (s : St QN)
    (hl : s.q.ths.length = T.N) (u : U) :
    (T.stepTotal guide false s u).q =
      T.euler s.q (T.inputScaler (T.stepTotal guide false s u).applied) := by
  have := C09_ntrailer T guide s [u] _ (T.scanTotal_ok guide hp [u] s hl)
  simp only [scanStates, List.isChain_cons_cons] at this
  exact this.1

/-- C23, tractor-trailer: with preference 2 the plan has no negative speed and the returned
trajectory never moves backward; with -2 symmetrically. -/
theorem C23_tt2d (T : TT2d) (ext : Ext Q4) (xref : List (Q4 × Bool)) (hp : T.enableProjection = false)
    (hv : 0 ≤ T.vMax) (hdt : 0 ≤ T.dt) (normal : Key → ℕ → ℕ → ℕ → ℕ → U) (cfg : Cfg)
    (hs : Spec.ScheduleOK cfg) (hg : cfg.enableGuidance = false) :
    (cfg.motionPreference = 2 →
      (∀ u ∈ (runDiffusion (T.planEnv ext xref) normal cfg).Y0, 0 ≤ u.1) ∧
      List.IsChain (fun q q' : Q4 => Spec.MovesForward (q.px, q.py) q.th1 (q'.px, q'.py))
        (runDiffusion (T.planEnv ext xref) normal cfg).xs) ∧
    (cfg.motionPreference = -2 →
      (∀ u ∈ (runDiffusion (T.planEnv ext xref) normal cfg).Y0, u.1 ≤ 0) ∧
      List.IsChain (fun q q' : Q4 => Spec.MovesBackward (q.px, q.py) q.th1 (q'.px, q'.py))
        (runDiffusion (T.planEnv ext xref) normal cfg).xs) := by
  have hr := tt2d_records T ext hp
  constructor
  · intro hm
    have h := run_inRange (T.planEnv ext xref) normal cfg hs.1 hs.2.1 hs.2.2 (a := 0) (b := 1)
      le_rfl (by norm_num) (fun _ => True) trivial (fun _ _ _ => trivial)
      (fun s u hi => hr.forward s _ hi (by rw [hm]; exact clipSample_two u))
      (fun s u hi hu => hr.forward s u hi hu.1)
    refine ⟨fun u hu => (h.2.1 u hu).1, ?_⟩
    rw [run_xs _ _ _ hg]
    exact scan_isChain_of (fun _ => True) (fun _ _ _ => trivial) (fun u => 0 ≤ u.1) _
      (fun s u hi hu => (eulerTT_forward hv hdt (tt2d_eulerTT T ext s u)).1 (hr.forward s u hi hu).1)
      _ _ trivial (fun u hu => (h.2.1 u hu).1)
  · intro hm
    have h := run_inRange (T.planEnv ext xref) normal cfg hs.1 hs.2.1 hs.2.2 (a := -1) (b := 0)
      (by norm_num) le_rfl (fun _ => True) trivial (fun _ _ _ => trivial)
      (fun s u hi => hr.backward s _ hi (by rw [hm]; exact clipSample_neg_two u))
      (fun s u hi hu => hr.backward s u hi hu.2.1)
    refine ⟨fun u hu => (h.2.1 u hu).2.1, ?_⟩
    rw [run_xs _ _ _ hg]
    exact scan_isChain_of (fun _ => True) (fun _ _ _ => trivial) (fun u => u.1 ≤ 0) _
      (fun s u hi hu => (eulerTT_forward hv hdt (tt2d_eulerTT T ext s u)).2
        (hr.backward s u hi hu).2.1) _ _ trivial (fun u hu => (h.2.1 u hu).2.1)

example := fun ext xref normal cfg hs hg => C23_tt2d Wit.tt ext xref rfl Wit.vMax_nonneg Wit.dt_nonneg
  normal cfg hs hg

/-- C23, bicycle. -/
theorem C23_bicycle (T : Bicycle) (ext : Ext Q3) (xref : List (Q3 × Bool))
    (hp : T.enableProjection = false) (hv : 0 ≤ T.vMax) (hdt : 0 ≤ T.dt)
    (normal : Key → ℕ → ℕ → ℕ → ℕ → U) (cfg : Cfg)
    (hs : Spec.ScheduleOK cfg) (hg : cfg.enableGuidance = false) :
    (cfg.motionPreference = 2 →
      (∀ u ∈ (runDiffusion (T.planEnv ext xref) normal cfg).Y0, 0 ≤ u.1) ∧
      List.IsChain (fun q q' : Q3 => Spec.MovesForward (q.px, q.py) q.th1 (q'.px, q'.py))
        (runDiffusion (T.planEnv ext xref) normal cfg).xs) ∧
    (cfg.motionPreference = -2 →
      (∀ u ∈ (runDiffusion (T.planEnv ext xref) normal cfg).Y0, u.1 ≤ 0) ∧
      List.IsChain (fun q q' : Q3 => Spec.MovesBackward (q.px, q.py) q.th1 (q'.px, q'.py))
        (runDiffusion (T.planEnv ext xref) normal cfg).xs) := by
  have hr := bicycle_records T ext hp
  constructor
  · intro hm
    have h := run_inRange (T.planEnv ext xref) normal cfg hs.1 hs.2.1 hs.2.2 (a := 0) (b := 1)
      le_rfl (by norm_num) (fun _ => True) trivial (fun _ _ _ => trivial)
      (fun s u hi => hr.forward s _ hi (by rw [hm]; exact clipSample_two u))
      (fun s u hi hu => hr.forward s u hi hu.1)
    refine ⟨fun u hu => (h.2.1 u hu).1, ?_⟩
    rw [run_xs _ _ _ hg]
    exact scan_isChain_of (fun _ => True) (fun _ _ _ => trivial) (fun u => 0 ≤ u.1) _
      (fun s u hi hu => (eulerBicycle_forward hv hdt (bicycle_euler T ext s u)).1
        (hr.forward s u hi hu).1) _ _ trivial (fun u hu => (h.2.1 u hu).1)
  · intro hm
    have h := run_inRange (T.planEnv ext xref) normal cfg hs.1 hs.2.1 hs.2.2 (a := -1) (b := 0)
      (by norm_num) le_rfl (fun _ => True) trivial (fun _ _ _ => trivial)
      (fun s u hi => hr.backward s _ hi (by rw [hm]; exact clipSample_neg_two u))
      (fun s u hi hu => hr.backward s u hi hu.2.1)
    refine ⟨fun u hu => (h.2.1 u hu).2.1, ?_⟩
    rw [run_xs _ _ _ hg]
    exact scan_isChain_of (fun _ => True) (fun _ _ _ => trivial) (fun u => u.1 ≤ 0) _
      (fun s u hi hu => (eulerBicycle_forward hv hdt (bicycle_euler T ext s u)).2
        (hr.backward s u hi hu).2.1) _ _ trivial (fun u hu => (h.2.1 u hu).2.1)

example := fun ext xref normal cfg hs hg => C23_bicycle Wit.bike ext xref rfl Wit.vMax_nonneg
  Wit.dt_nonneg normal cfg hs hg

theorem ntrailer_forward (T : NTrailer) (hv : 0 ≤ T.vMax) (hdt : 0 ≤ T.dt) (q : QN) (u : U) :
    (0 ≤ u.1 → Spec.MovesForward (q.px, q.py) q.th0
      ((T.euler q (T.inputScaler u)).px, (T.euler q (T.inputScaler u)).py)) ∧
    (u.1 ≤ 0 → Spec.MovesBackward (q.px, q.py) q.th0
      ((T.euler q (T.inputScaler u)).px, (T.euler q (T.inputScaler u)).py)) := by
  constructor
  · intro hu
    refine ⟨T.dt * (u.1 * T.vMax), by positivity, ?_⟩
    simp only [NTrailer.euler, QN.axpy, NTrailer.dynamics, Params.inputScaler]
    ext <;> simp only <;> ring
  · intro hu
    refine ⟨T.dt * (u.1 * T.vMax), ?_, ?_⟩
    · have := mul_nonneg hdt hv
      nlinarith
    · simp only [NTrailer.euler, QN.axpy, NTrailer.dynamics, Params.inputScaler]
      ext <;> simp only <;> ring

/-- C23, train. -/
theorem C23_ntrailer (T : NTrailer) (guide : QN → QN) (xref : List (Q4 × Bool))
    (hp : T.enableProjection = false) (hl : T.x0.ths.length = T.N) (hv : 0 ≤ T.vMax) (hdt : 0 ≤ T.dt)
    (normal : Key → ℕ → ℕ → ℕ → ℕ → U) (cfg : Cfg)
    (hs : Spec.ScheduleOK cfg) (hg : cfg.enableGuidance = false) :
    (cfg.motionPreference = 2 →
      (∀ u ∈ (runDiffusion (T.planEnv guide xref) normal cfg).Y0, 0 ≤ u.1) ∧
      List.IsChain (fun q q' : QN => Spec.MovesForward (q.px, q.py) q.th0 (q'.px, q'.py))
        (runDiffusion (T.planEnv guide xref) normal cfg).xs) ∧
    (cfg.motionPreference = -2 →
      (∀ u ∈ (runDiffusion (T.planEnv guide xref) normal cfg).Y0, u.1 ≤ 0) ∧
      List.IsChain (fun q q' : QN => Spec.MovesBackward (q.px, q.py) q.th0 (q'.px, q'.py))
        (runDiffusion (T.planEnv guide xref) normal cfg).xs) := by
  have hr := ntrailer_records T guide hp
  constructor
  · intro hm
    have h := run_inRange (T.planEnv guide xref) normal cfg hs.1 hs.2.1 hs.2.2 (a := 0) (b := 1)
      le_rfl (by norm_num) (fun s => s.q.ths.length = T.N) hl
      (fun s u hi => T.stepTotal_length guide s hp hi u)
      (fun s u hi => hr.forward s _ hi (by rw [hm]; exact clipSample_two u))
      (fun s u hi hu => hr.forward s u hi hu.1)
    refine ⟨fun u hu => (h.2.1 u hu).1, ?_⟩
    rw [run_xs _ _ _ hg]
    refine scan_isChain_of (fun s => s.q.ths.length = T.N)
      (fun s u hi => T.stepTotal_length guide s hp hi u) (fun u => 0 ≤ u.1) _
      (fun s u hi hu => ?_) _ _ hl (fun u hu => (h.2.1 u hu).1)
    have := (ntrailer_forward T hv hdt s.q _).1 (hr.forward s u hi hu).1
    rw [← ntrailer_euler T guide hp s hi u] at this
    exact this
  · intro hm
    have h := run_inRange (T.planEnv guide xref) normal cfg hs.1 hs.2.1 hs.2.2 (a := -1) (b := 0)
      (by norm_num) le_rfl (fun s => s.q.ths.length = T.N) hl
      (fun s u hi => T.stepTotal_length guide s hp hi u)
      (fun s u hi => hr.backward s _ hi (by rw [hm]; exact clipSample_neg_two u))
      (fun s u hi hu => hr.backward s u hi hu.2.1)
    refine ⟨fun u hu => (h.2.1 u hu).2.1, ?_⟩
    rw [run_xs _ _ _ hg]
    refine scan_isChain_of (fun s => s.q.ths.length = T.N)
      (fun s u hi => T.stepTotal_length guide s hp hi u) (fun u => u.1 ≤ 0) _
      (fun s u hi hu => ?_) _ _ hl (fun u hu => (h.2.1 u hu).2.1)
    have := (ntrailer_forward T hv hdt s.q _).2 (hr.backward s u hi hu).2.1
    rw [← ntrailer_euler T guide hp s hi u] at this
    exact this

example := fun guide xref normal cfg hs hg => C23_ntrailer Wit.train guide xref rfl rfl
  Wit.vMax_nonneg Wit.dt_nonneg normal cfg hs hg

/-- C23 is false for the acceleration model: `motion_preference = 2` constrains the acceleration,
not the speed. A vehicle that starts reversing keeps moving backward. -/
theorem C23_acc_refuted :
    ¬ (∀ (T : Acc) (ext : Ext Q6) (xref : List (Q4 × Bool)) (normal : Key → ℕ → ℕ → ℕ → ℕ → U)
      (cfg : Cfg), T.enableProjection = false → 0 < T.vMax → 0 < T.dt → 0 < T.aMax →
      Spec.ScheduleOK cfg → cfg.enableGuidance = false → cfg.motionPreference = 2 →
      List.IsChain (fun q q' : Q6 => Spec.MovesForward (q.px, q.py) q.th1 (q'.px, q'.py))
        (runDiffusion (T.planEnv ext xref) normal cfg).xs) := by
  intro h
  let T : Acc := { accDefault [] (straight 0 (-1)) with shieldCollision := false, shieldHitch := false }
  let ext : Ext Q6 := ⟨fun _ u => u, id⟩
  let cfg : Cfg := { defaultCfg with motionPreference := 2, Hsample := 1, Ndiffuse := 1 }
  have h1 := h T ext [] (fun _ _ _ _ _ => (0, 0)) cfg rfl
    (by norm_num [T, accDefault, Params.default]) (by norm_num [T, accDefault, Params.default])
    (by norm_num [T, accDefault]) (by unfold Spec.ScheduleOK; norm_num [cfg, defaultCfg]) rfl rfl
  rw [run_xs _ _ _ rfl] at h1
  have hY : ∃ u, (runDiffusion (T.planEnv ext []) (fun _ _ _ _ _ => (0, 0)) cfg).Y0 = [u] := by
    have : (runDiffusion (T.planEnv ext []) (fun _ _ _ _ _ => (0, 0)) cfg).Y0.length = 1 := by
      simp [runDiffusion, rolloutUsWithTerminal, scanStates_length, reverseLoop, cfg, zeroPlan]
    exact List.length_eq_one_iff.mp this
  obtain ⟨u, hu⟩ := hY
  rw [hu] at h1
  simp only [scanStates, List.map_cons, List.map_nil, List.isChain_cons_cons] at h1
  obtain ⟨d, hd, he⟩ := h1.1
  have e : (T.step ext T.reset u).q = T.euler T.reset.q (T.inputScaler (clipU u)) T.dt := by
    unfold Acc.step Acc.stepInternal Acc.naive
    simp [T, accDefault, Params.default, Acc.reset]
  have hx := congrArg Prod.fst he
  change (T.step ext T.reset u).q.px = T.reset.q.px + d * cos T.reset.q.th1 at hx
  rw [e] at hx
  simp only [Acc.euler, Q6.axpy, Acc.dynamics, T, accDefault, Params.default, Acc.reset,
    straight] at hx
  rw [clip_of_mem (by norm_num) (by norm_num)] at hx
  norm_num at hx
  linarith

/-- C23, acceleration model, partial: without shields a vehicle that does not start in reverse never
moves backward under preference 2. (With shields, samples brake, and the averaged plan may
contain braking actions; see `C23_acc_sample_partial` for single samples.) -/
theorem C23_acc_partial (T : Acc) (ext : Ext Q6) (xref : List (Q4 × Bool))
    (hp : T.enableProjection = false) (hgT : T.enableGuidance = false)
    (h1 : T.shieldCollision = false) (h2 : T.shieldHitch = false)
    (hv : 0 ≤ T.vMax) (hdt : 0 ≤ T.dt) (ha : 0 < T.aMax) (hv0 : 0 ≤ T.x0.v)
    (normal : Key → ℕ → ℕ → ℕ → ℕ → U) (cfg : Cfg)
    (hs : Spec.ScheduleOK cfg) (hg : cfg.enableGuidance = false) (hm : cfg.motionPreference = 2) :
    (∀ u ∈ (runDiffusion (T.planEnv ext xref) normal cfg).Y0, 0 ≤ u.1) ∧
    List.IsChain (fun q q' : Q6 => Spec.MovesForward (q.px, q.py) q.th1 (q'.px, q'.py))
      (runDiffusion (T.planEnv ext xref) normal cfg).xs := by
  have hst : ∀ (s : St Q6) (u : U), s.inBackup = false →
      (T.step ext s u).q = T.euler s.q (T.inputScaler (clipU u)) T.dt ∧
      (T.step ext s u).applied = clipU u := by
    intro s u hb
    unfold Acc.step Acc.stepInternal Acc.naive
    simp [hp, hgT, h1, h2, hb]
  have hr : RecordsClipped (T.step ext) (fun s => s.inBackup = false) :=
    fun s u hb => Or.inr (hst s u hb).2
  have h := run_inRange (T.planEnv ext xref) normal cfg hs.1 hs.2.1 hs.2.2 (a := 0) (b := 1)
    le_rfl (by norm_num) (fun s => s.inBackup = false) rfl (fun s u hb => hb)
    (fun s u hi => hr.forward s _ hi (by rw [hm]; exact clipSample_two u))
    (fun s u hi hu => hr.forward s u hi hu.1)
  refine ⟨fun u hu => (h.2.1 u hu).1, ?_⟩
  rw [run_xs _ _ _ hg]
  -- the speed stays non-negative along non-negative accelerations
  have key : ∀ (us : List U) (s : St Q6), s.inBackup = false → 0 ≤ s.q.v → (∀ u ∈ us, 0 ≤ u.1) →
      List.IsChain (fun q q' : Q6 => Spec.MovesForward (q.px, q.py) q.th1 (q'.px, q'.py))
        (s.q :: (scanStates (T.step ext) s us).map St.q) := by
    intro us
    induction us with
    | nil => intro s _ _ _; exact List.isChain_singleton _
    | cons u us ih =>
      intro s hb hsv hus
      have hq := (hst s u hb).1
      simp only [scanStates, List.map_cons]
      refine List.isChain_cons_cons.mpr ⟨?_, ih _ hb ?_ (fun v hv' => hus v (by simp [hv']))⟩
      · rw [hq]
        refine ⟨T.dt * clip s.q.v (-T.vMax) T.vMax, ?_, ?_⟩
        · apply mul_nonneg hdt
          unfold clip
          exact le_min (hsv.trans (le_max_left _ _)) hv
        · simp only [Acc.euler, Q6.axpy, Acc.dynamics]
          ext <;> simp only <;> ring
      · rw [hq]
        simp only [Acc.euler, Q6.axpy, Acc.dynamics, Acc.inputScaler, clipU]
        have := clip_nonneg (hus u (by simp))
        positivity
  exact key _ _ rfl hv0 (fun u hu => (h.2.1 u hu).1)

/-- C23, acceleration model with shields, partial: a single sample (accelerations clipped to
`[0,1]`) executed from a state that is not reversing never moves backward, whatever the shield
does. What is missing is the averaged plan, in which braking actions of different samples mix. -/
theorem C23_acc_sample_partial (T : Acc) (ext : Ext Q6) (hT : T.Shielded) (hv : 0 ≤ T.vMax)
    (hdt : 0 < T.dt) (ha : 0 < T.aMax) (us : List U) (hus : ∀ u ∈ us, 0 ≤ u.1) (s : St Q6)
    (hb : s.inBackup = false) (hs : 0 ≤ s.q.v) :
    List.IsChain (fun q q' : Q6 => Spec.MovesForward (q.px, q.py) q.th1 (q'.px, q'.py))
      (s.q :: (scanStates (T.step ext) s us).map St.q) := by
  induction us generalizing s with
  | nil => exact List.isChain_singleton _
  | cons u us ih =>
    have hmove : ∀ w, Spec.MovesForward (s.q.px, s.q.py) s.q.th1
        ((T.euler s.q w T.dt).px, (T.euler s.q w T.dt).py) := by
      intro w
      refine ⟨T.dt * clip s.q.v (-T.vMax) T.vMax, ?_, ?_⟩
      · apply mul_nonneg hdt.le
        unfold clip
        exact le_min (hs.trans (le_max_left _ _)) hv
      · simp only [Acc.euler, Q6.axpy, Acc.dynamics]
        ext <;> simp only <;> ring
    have hq := Acc.step_q hT ext s hb u
    simp only [scanStates, List.map_cons]
    refine List.isChain_cons_cons.mpr ⟨?_, ih (fun v hv' => hus v (by simp [hv'])) _ hb ?_⟩
    · rw [hq]
      split
      · exact hmove _
      · exact hmove _
    · have hprop : 0 ≤ (T.proposal s.q u).v := by
        simp only [Acc.proposal, Acc.euler, Q6.axpy, Acc.dynamics, Acc.inputScaler, clipU]
        have := clip_nonneg (hus u (by simp))
        positivity
      rw [hq]
      split
      · simp only [Acc.euler, Q6.axpy, Acc.dynamics, Acc.uBackupScaled]
        have hab : T.aBackup s.q.v ≤ s.q.v / T.dt := by
          unfold Acc.aBackup clip
          have : 0 ≤ s.q.v / T.dt := div_nonneg hs hdt.le
          rw [abs_of_nonneg this, max_eq_left this]
          exact min_le_left _ _
        have hd : T.dt * (s.q.v / T.dt) = s.q.v := mul_div_cancel₀ _ hdt.ne'
        have h2 : ¬ (T.proposal s.q u).v < -Acc.vThr := by unfold Acc.vThr; linarith
        unfold Acc.decelSign
        simp only [h2, if_false]
        split_ifs
        · nlinarith
        · simpa using hs
      · exact hprop

example : let T : Acc := { accDefault [] (straight 0 0) with shieldCollision := false, shieldHitch := false }
    T.enableProjection = false ∧ T.enableGuidance = false ∧ 0 ≤ T.vMax ∧ 0 ≤ T.dt ∧ 0 < T.aMax ∧
      0 ≤ T.x0.v := by
  refine ⟨rfl, rfl, ?_, ?_, ?_, ?_⟩ <;> norm_num [accDefault, Params.default, straight]

/-! ## C31: shapes and initial state -/

theorem denoised_length {Q : Type} (E : PlanEnv Q) (S : Schedule)
    (normal : Key → ℕ → ℕ → ℕ → ℕ → U) (cfg : Cfg) (s0 : St Q) (k0 : Key) : ∀ m,
    (Spec.denoised (reverseOnce E S normal cfg s0) cfg.Ndiffuse k0 (zeroPlan cfg) m).2.length =
      cfg.Hsample := by
  intro m
  induction m with
  | zero => simp [Spec.denoised, zeroPlan]
  | succ m ih =>
    simp only [Spec.denoised]
    generalize Spec.denoised (reverseOnce E S normal cfg s0) cfg.Ndiffuse k0 (zeroPlan cfg) m = p at ih
    simp only [reverseOnce, List.length_zipWith, evalBatch, weightedPlan_length, ih, min_self]

/-- C31: `Hsample` actions, `Hsample + 1` states, a history of `Ndiffuse - 1` plans of `Hsample`
actions; there is a run of the simulator from the reset state under exactly the returned actions
whose states are the returned states. Holds for every configuration. -/
theorem C31_result {Q : Type} (E : PlanEnv Q) (normal : Key → ℕ → ℕ → ℕ → ℕ → U) (cfg : Cfg) :
    let R := runDiffusion E normal cfg
    R.Y0.length = cfg.Hsample ∧ R.xs.length = cfg.Hsample + 1 ∧
    R.hist.length = cfg.Ndiffuse - 1 ∧ (∀ row ∈ R.hist, row.length = cfg.Hsample) ∧
    ∃ ss : List (St Q), R.xs = ss.map St.q ∧ ss.head? = some (E.reset keyReset) ∧
      ∀ t (h : t + 1 < ss.length) (h' : t < R.Y0.length),
        ss[t + 1] = (if cfg.enableGuidance then E.stepViz else E.step) ss[t] R.Y0[t] := by
  intro R
  obtain ⟨c1, c2, c3, -⟩ := C20_history (reverseOnce E (mkSchedule cfg.beta0 cfg.betaT cfg.Ndiffuse)
    normal cfg (E.reset keyReset)) cfg (zeroPlan cfg) keyExp
  have hl := denoised_length E (mkSchedule cfg.beta0 cfg.betaT cfg.Ndiffuse) normal cfg
    (E.reset keyReset) keyExp
  have hY : R.Y0.length = cfg.Hsample := by
    simp only [R, runDiffusion, rolloutUsWithTerminal, List.length_map, scanStates_length]
    rw [c3]; exact hl _
  have hx : R.xs = (E.reset keyReset :: scanStates (if cfg.enableGuidance then E.stepViz else E.step)
      (E.reset keyReset) R.Y0).map St.q := by
    simp only [R, runDiffusion, List.map_cons]
  refine ⟨hY, by rw [hx]; simp [scanStates_length, hY], c1, ?_, _, hx, rfl, ?_⟩
  · intro row hrow
    obtain ⟨k, hk, rfl⟩ := List.mem_iff_getElem.mp hrow
    have e : R.hist.getD k [] = _ := c2 k (by rw [← c1]; exact hk)
    rw [List.getD_eq_getElem _ _ hk] at e
    rw [e]; exact hl _
  · have gen : ∀ (f : St Q → U → St Q) (us : List U) (s : St Q) (t : ℕ)
        (h : t + 1 < (s :: scanStates f s us).length) (h' : t < us.length),
        (s :: scanStates f s us)[t + 1] = f (s :: scanStates f s us)[t] us[t] := by
      intro f us
      induction us with
      | nil => intro s t _ h'; simp at h'
      | cons u us ih =>
        intro s t h h'
        cases t with
        | zero => rfl
        | succ t =>
          have := ih (f s u) t (by simpa [scanStates] using h) (by simpa using h')
          simpa [scanStates] using this
    intro t h h'
    exact gen _ _ _ t h h'

/-! ## C32: shielded runs -/

/-- C32, tractor-trailer with both shields: every returned state passes both checks; the returned
states are the states of the rollout of the optimised plan (the last row of the history) that was
scored, and the returned actions are the ones that rollout applied. -/
theorem C32_tt2d (T : TT2d) (ext : Ext Q4) (xref : List (Q4 × Bool))
    (h1 : T.shieldCollision = true) (h2 : T.shieldHitch = true) (hp : T.enableProjection = false)
    (hgT : T.enableGuidance = false) (hc0 : ¬ TT2d.checkObstacle T.toParams T.x0)
    (hh0 : ¬ TT2d.checkHitch T.toParams T.x0) (normal : Key → ℕ → ℕ → ℕ → ℕ → U) (cfg : Cfg)
    (hg : cfg.enableGuidance = false) :
    let R := runDiffusion (T.planEnv ext xref) normal cfg
    let roll := rolloutUsWithTerminal (T.step ext) (TT2d.getTerminalReward T.toParams T.xg)
      T.terminalRewardWeight T.reset
    R.xs.head? = some T.x0 ∧
    (∀ q ∈ R.xs, ¬ TT2d.checkObstacle T.toParams q ∧ ¬ TT2d.checkHitch T.toParams q) ∧
    R.rew = (roll R.Y0).1 ∧ R.xs.tail = (roll R.Y0).2.1 ∧ R.Y0 = (roll R.Y0).2.2 ∧
    (2 ≤ cfg.Ndiffuse → ∃ Y, R.hist.getLast? = some Y ∧ R.Y0 = (roll Y).2.2 ∧ R.xs.tail = (roll Y).2.1) := by
  intro R roll
  have hproj : T.enableProjection = true → ext.project = fun _ u => u := by simp [hp]
  have hw := C18_tt2d T ext hproj T.reset
  have hscan : ∀ us, scanStates (T.step ext) (warmState (T.step ext) T.reset) us =
      scanStates (T.step ext) T.reset us := by
    intro us
    cases us with
    | nil => rfl
    | cons u us => exact scan_congr (fun s s' a h1 h2 => tt2d_step_congr T ext h1 h2 a) hw.1 hw.2 _
  obtain ⟨c1, c2, c3, c4⟩ := C20_history (reverseOnce (T.planEnv ext xref)
    (mkSchedule cfg.beta0 cfg.betaT cfg.Ndiffuse) normal cfg T.reset) cfg (zeroPlan cfg) keyExp
  set Y := (reverseLoop (reverseOnce (T.planEnv ext xref)
    (mkSchedule cfg.beta0 cfg.betaT cfg.Ndiffuse) normal cfg T.reset) cfg (zeroPlan cfg) keyExp).Y with hYdef
  have hx : R.xs = T.reset.q :: (scanStates (T.step ext) T.reset R.Y0).map St.q := run_xs _ _ _ hg
  have hY0 : R.Y0 = (scanStates (T.step ext) T.reset Y).map St.applied := by
    rw [← hscan]; rfl
  have hrep := C10_tt2d T ext hp T.reset Y
  rw [← hY0] at hrep
  have hr2 : ∀ us, (roll us).2.2 = (scanStates (T.step ext) T.reset us).map St.applied := by
    intro us; rw [← hscan]; rfl
  have hr1 : ∀ us, (roll us).2.1 = (scanStates (T.step ext) T.reset us).map St.q := by
    intro us; rw [← hscan]; rfl
  refine ⟨by rw [hx]; rfl, ?_, rfl, by rw [hx, hr1]; rfl, by rw [hr2]; exact hrep.2.symm, ?_⟩
  · intro q hq
    rw [hx] at hq
    rcases List.mem_cons.mp hq with rfl | hq
    · exact ⟨hc0, hh0⟩
    · obtain ⟨s', hs', rfl⟩ := List.mem_map.mp hq
      exact ⟨C01_tt2d T ext h1 hp hgT T.reset hc0 R.Y0 s' hs',
        C02_tt2d T ext h2 hp hgT T.reset hh0 R.Y0 s' hs'⟩
  · intro hn
    refine ⟨Y, c4 hn, by rw [hr2, hY0], ?_⟩
    rw [hx, hr1, List.tail_cons]
    exact hrep.1

example := fun ext xref normal cfg hg =>
  C32_tt2d Wit.tt ext xref rfl rfl rfl rfl Wit.tt_clear Wit.tt_straight normal cfg hg

/-- C32, bicycle. -/
theorem C32_bicycle (T : Bicycle) (ext : Ext Q3) (xref : List (Q3 × Bool))
    (h1 : T.shieldCollision = true) (hp : T.enableProjection = false)
    (hgT : T.enableGuidance = false) (hc0 : ¬ Bicycle.checkObstacle T.toParams T.x0)
    (normal : Key → ℕ → ℕ → ℕ → ℕ → U) (cfg : Cfg) (hg : cfg.enableGuidance = false) :
    let R := runDiffusion (T.planEnv ext xref) normal cfg
    let roll := rolloutUsWithTerminal (T.step ext) (Bicycle.getTerminalReward T.toParams T.xg)
      T.terminalRewardWeight T.reset
    R.xs.head? = some T.x0 ∧
    (∀ q ∈ R.xs, ¬ Bicycle.checkObstacle T.toParams q) ∧
    R.rew = (roll R.Y0).1 ∧ R.xs.tail = (roll R.Y0).2.1 ∧ R.Y0 = (roll R.Y0).2.2 ∧
    (2 ≤ cfg.Ndiffuse → ∃ Y, R.hist.getLast? = some Y ∧ R.Y0 = (roll Y).2.2 ∧ R.xs.tail = (roll Y).2.1) := by
  intro R roll
  have hproj : T.enableProjection = true → ext.project = fun _ u => u := by simp [hp]
  have hw := C18_bicycle T ext hproj T.reset
  have hscan : ∀ us, scanStates (T.step ext) (warmState (T.step ext) T.reset) us =
      scanStates (T.step ext) T.reset us := by
    intro us
    cases us with
    | nil => rfl
    | cons u us => exact scan_congr (fun s s' a h1 h2 => bicycle_step_congr T ext h1 h2 a) hw.1 hw.2 _
  obtain ⟨c1, c2, c3, c4⟩ := C20_history (reverseOnce (T.planEnv ext xref)
    (mkSchedule cfg.beta0 cfg.betaT cfg.Ndiffuse) normal cfg T.reset) cfg (zeroPlan cfg) keyExp
  set Y := (reverseLoop (reverseOnce (T.planEnv ext xref)
    (mkSchedule cfg.beta0 cfg.betaT cfg.Ndiffuse) normal cfg T.reset) cfg (zeroPlan cfg) keyExp).Y with hYdef
  have hx : R.xs = T.reset.q :: (scanStates (T.step ext) T.reset R.Y0).map St.q := run_xs _ _ _ hg
  have hY0 : R.Y0 = (scanStates (T.step ext) T.reset Y).map St.applied := by
    rw [← hscan]; rfl
  have hrep := C10_bicycle T ext hp T.reset Y
  rw [← hY0] at hrep
  have hr2 : ∀ us, (roll us).2.2 = (scanStates (T.step ext) T.reset us).map St.applied := by
    intro us; rw [← hscan]; rfl
  have hr1 : ∀ us, (roll us).2.1 = (scanStates (T.step ext) T.reset us).map St.q := by
    intro us; rw [← hscan]; rfl
  refine ⟨by rw [hx]; rfl, ?_, rfl, by rw [hx, hr1]; rfl, by rw [hr2]; exact hrep.2.symm, ?_⟩
  · intro q hq
    rw [hx] at hq
    rcases List.mem_cons.mp hq with rfl | hq
    · exact hc0
    · obtain ⟨s', hs', rfl⟩ := List.mem_map.mp hq
      exact C01_bicycle T ext h1 hp hgT T.reset hc0 R.Y0 s' hs'
  · intro hn
    refine ⟨Y, c4 hn, by rw [hr2, hY0], ?_⟩
    rw [hx, hr1, List.tail_cons]
    exact hrep.1

example := fun ext xref normal cfg hg =>
  C32_bicycle Wit.bike ext xref rfl rfl rfl Wit.bike_clear normal cfg hg

/-- C32, train with both shields (start state of the right length): every returned state passes
both checks; the returned states are the states of the scored rollout of the optimised plan, and
the returned actions are the ones that rollout applied. -/
theorem C32_ntrailer (T : NTrailer) (guide : QN → QN) (xref : List (Q4 × Bool))
    (h1 : T.shieldCollision = true) (h2 : T.shieldHitch = true) (hp : T.enableProjection = false)
    (hgT : T.enableGuidance = false) (hl : T.x0.ths.length = T.N) (hc0 : ¬ T.checkObstacle T.x0)
    (hh0 : ¬ T.checkHitch T.x0) (normal : Key → ℕ → ℕ → ℕ → ℕ → U) (cfg : Cfg)
    (hg : cfg.enableGuidance = false) :
    let R := runDiffusion (T.planEnv guide xref) normal cfg
    let roll := rolloutUsWithTerminal (T.stepTotal guide false) T.getTerminalReward
      T.terminalRewardWeight T.reset
    (∃ tr, scanStatesE (T.step guide) T.reset R.Y0 = .ok tr ∧ R.xs = T.x0 :: tr.map St.q) ∧
    (∀ q ∈ R.xs, ¬ T.checkObstacle q ∧ ¬ T.checkHitch q) ∧
    R.rew = (roll R.Y0).1 ∧ R.xs.tail = (roll R.Y0).2.1 ∧ R.Y0 = (roll R.Y0).2.2 ∧
    (2 ≤ cfg.Ndiffuse → ∃ Y, R.hist.getLast? = some Y ∧ R.Y0 = (roll Y).2.2 ∧ R.xs.tail = (roll Y).2.1) := by
  intro R roll
  have hl' : T.reset.q.ths.length = T.N := hl
  obtain ⟨w, hw, hwq, hwb⟩ := C18_ntrailer T guide hp T.reset hl'
  have hwe : warmState (T.stepTotal guide false) T.reset = w := by
    have := T.stepTotal_ok guide hp T.reset hl' (0, 0)
    rw [hw] at this
    exact (Except.ok.inj this).symm
  have hscan : ∀ us, scanStates (T.stepTotal guide false) (warmState (T.stepTotal guide false) T.reset) us =
      scanStates (T.stepTotal guide false) T.reset us := by
    intro us
    rw [hwe]
    cases us with
    | nil => rfl
    | cons u us =>
      have e : T.stepTotal guide false w u = T.stepTotal guide false T.reset u := by
        have a1 := T.stepTotal_ok guide hp w (by rw [hwq]; exact hl') u
        have a2 := T.stepTotal_ok guide hp T.reset hl' u
        have a3 : T.step guide w u = T.step guide T.reset u := by
          unfold NTrailer.step NTrailer.stepInternal
          simp only [hwq, hwb]
        rw [a1, a2] at a3
        exact Except.ok.inj a3
      unfold scanStates
      rw [e]
  obtain ⟨c1, c2, c3, c4⟩ := C20_history (reverseOnce (T.planEnv guide xref)
    (mkSchedule cfg.beta0 cfg.betaT cfg.Ndiffuse) normal cfg T.reset) cfg (zeroPlan cfg) keyExp
  set Y := (reverseLoop (reverseOnce (T.planEnv guide xref)
    (mkSchedule cfg.beta0 cfg.betaT cfg.Ndiffuse) normal cfg T.reset) cfg (zeroPlan cfg) keyExp).Y with hYdef
  have hx : R.xs = T.reset.q :: (scanStates (T.stepTotal guide false) T.reset R.Y0).map St.q :=
    run_xs _ _ _ hg
  have hY0 : R.Y0 = (scanStates (T.stepTotal guide false) T.reset Y).map St.applied := by
    rw [← hscan]; rfl
  have htot : ∀ us, scanStatesE (T.step guide) T.reset us =
      .ok (scanStates (T.stepTotal guide false) T.reset us) := fun us => T.scanTotal_ok guide hp us T.reset hl'
  have hrep : (scanStates (T.stepTotal guide false) T.reset R.Y0).map St.q =
        (scanStates (T.stepTotal guide false) T.reset Y).map St.q ∧
      (scanStates (T.stepTotal guide false) T.reset R.Y0).map St.applied = R.Y0 := by
    obtain ⟨tr', e1, e2, e3⟩ := C10_ntrailer T guide T.reset Y _ (htot Y)
    rw [← hY0, htot] at e1
    cases e1
    exact ⟨e2, by rw [e3, ← hY0]⟩
  have hr2 : ∀ us, (roll us).2.2 = (scanStates (T.stepTotal guide false) T.reset us).map St.applied := by
    intro us; rw [← hscan]; rfl
  have hr1 : ∀ us, (roll us).2.1 = (scanStates (T.stepTotal guide false) T.reset us).map St.q := by
    intro us; rw [← hscan]; rfl
  refine ⟨⟨_, htot _, hx⟩, ?_, rfl, by rw [hx, hr1]; rfl, by rw [hr2]; exact hrep.2.symm, ?_⟩
  · intro q hq
    rw [hx] at hq
    rcases List.mem_cons.mp hq with rfl | hq
    · exact ⟨hc0, hh0⟩
    · obtain ⟨s', hs', rfl⟩ := List.mem_map.mp hq
      exact ⟨C01_ntrailer T guide h1 hgT T.reset hc0 R.Y0 _ (htot _) s' hs',
        C02_ntrailer T guide h2 hgT T.reset hh0 R.Y0 _ (htot _) s' hs'⟩
  · intro hn
    refine ⟨Y, c4 hn, by rw [hr2, hY0], ?_⟩
    rw [hx, hr1, List.tail_cons]
    exact hrep.1

example := fun guide xref normal cfg hg =>
  C32_ntrailer Wit.train guide xref rfl rfl rfl rfl rfl Wit.train_clear Wit.train_straight normal cfg hg

/-- C32, geometric form for the default vehicle among discs of radius at least 1 and rectangles: no
body of the vehicle touches an obstacle at any returned state. -/
theorem C32_geometric_default (T : TT2d) (ext : Ext Q4) (xref : List (Q4 × Bool)) (cs : List Circle)
    (rs : List Rect) (hT : T.toParams = Params.default cs rs) (hr : ∀ c ∈ cs, 1 ≤ c.r)
    (hsd : ∀ o ∈ rs, 0 < o.w ∧ 0 < o.h) (h0 : Spec.SafeTT T.toParams T.x0)
    (normal : Key → ℕ → ℕ → ℕ → ℕ → U) (cfg : Cfg) (hg : cfg.enableGuidance = false) :
    ∀ q ∈ (runDiffusion (T.planEnv ext xref) normal cfg).xs, Spec.SafeTT T.toParams q := by
  intro q hq
  rw [run_xs _ _ _ hg] at hq
  rcases List.mem_cons.mp hq with rfl | hq
  · exact h0
  · obtain ⟨s', hs', rfl⟩ := List.mem_map.mp hq
    exact C03_solid_default_partial T ext cs rs hT hr hsd T.reset h0 _ s' hs'

example := fun ext xref normal cfg hg => C32_geometric_default Wit.tt ext xref _ _ rfl
  (by intro c hc; simp only [List.mem_singleton] at hc; subst hc; norm_num)
  (by intro o ho; simp only [List.mem_singleton] at ho; subst ho; norm_num) Wit.safe normal cfg hg

end Mbd
