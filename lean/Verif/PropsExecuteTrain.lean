import Verif.PropsExecute
import Verif.PropsContinuousTrain

/-! # C89 for trains: executing the answer of the planner -/

namespace Spec

open Real Mbd Set

/-- A train that drives with the actions `Y`, one after the other for one time step each, from `q0`, as the kinematic
equations prescribe at every moment. -/
structure ExecutesN (T : NTrailer) (q0 : QN) (Y : List U) (γ : ℝ → QN) : Prop where
  start : γ 0 = q0
  drive : ∀ (k : ℕ) u, Y[k]? = some u → DrivesTrain T γ (k * T.dt) ((k + 1) * T.dt) (u.1 * T.vMax)
    (u.2 * (T.deltaMaxDeg * π / 180))

end Spec

namespace Mbd

open Real Classical Set _root_.Spec

/-- The returned actions are the applied ones of the returned run. -/
theorem plan_fixed_ntrailer (T : NTrailer) (guide : QN → QN) (xref : List (Q4 × Bool)) (hp : T.enableProjection = false)
    (hl : T.x0.ths.length = T.N) (normal : Key → ℕ → ℕ → ℕ → ℕ → U) (cfg : Cfg) :
    ∃ tr, scanStatesE (T.step guide) T.reset (runDiffusion (T.planEnv guide xref) normal cfg).Y0 = .ok tr ∧
      tr.map St.applied = (runDiffusion (T.planEnv guide xref) normal cfg).Y0 ∧
      (cfg.enableGuidance = false →
        (runDiffusion (T.planEnv guide xref) normal cfg).xs = (T.reset :: tr).map St.q) := by
  have hl' : T.reset.q.ths.length = T.N := hl
  obtain ⟨w, hw, hwq, hwb⟩ := C18_ntrailer T guide hp T.reset hl'
  have hwe : warmState (T.stepTotal guide false) T.reset = w := by
    have := T.stepTotal_ok guide hp T.reset hl' (0, 0)
    rw [hw] at this
    exact (Except.ok.inj this).symm
  have hscan : ∀ us, scanStates (T.stepTotal guide false) (warmState (T.stepTotal guide false) T.reset) us =
      scanStates (T.stepTotal guide false) T.reset us := by
    intro us
    rw [hwe]
    cases us with
    | nil => rfl
    | cons u us =>
      have e : T.stepTotal guide false w u = T.stepTotal guide false T.reset u := by
        have a1 := T.stepTotal_ok guide hp w (by rw [hwq]; exact hl') u
        have a2 := T.stepTotal_ok guide hp T.reset hl' u
        have a3 : T.step guide w u = T.step guide T.reset u := by
          unfold NTrailer.step NTrailer.stepInternal
          simp only [hwq, hwb]
        rw [a1, a2] at a3
        exact Except.ok.inj a3
      unfold scanStates
      rw [e]
  set Y := (reverseLoop (reverseOnce (T.planEnv guide xref)
    (mkSchedule cfg.beta0 cfg.betaT cfg.Ndiffuse) normal cfg T.reset) cfg (zeroPlan cfg) keyExp).Y with hYdef
  have hY0 : (runDiffusion (T.planEnv guide xref) normal cfg).Y0
      = (scanStates (T.stepTotal guide false) T.reset Y).map St.applied := by
    rw [← hscan]; rfl
  have htot : ∀ us, scanStatesE (T.step guide) T.reset us =
      .ok (scanStates (T.stepTotal guide false) T.reset us) := fun us => T.scanTotal_ok guide hp us T.reset hl'
  refine ⟨_, htot _, ?_, fun hg => run_xs _ _ _ hg⟩
  obtain ⟨tr', e1, e2, e3⟩ := C10_ntrailer T guide T.reset Y _ (htot Y)
  rw [← hY0, htot] at e1
  cases e1
  rw [e3, ← hY0]

theorem executesN_continuous {T : NTrailer} {γ : ℝ → QN} {s : St QN} {ss : List (St QN)} {Y : List U}
    (h : ExecutesN T s.q Y γ) (hY : ss.map St.applied = Y) : ContinuousN T γ (s :: ss) where
  start := by rintro a ha; cases ha; exact h.start
  drive := by
    intro k b hb
    refine h.drive k b.applied ?_
    rw [← hY, List.getElem?_map]
    simp only [List.getElem?_cons_succ] at hb
    rw [hb]; rfl

/-- Every list of actions can be executed. -/
theorem executesN_exists (T : NTrailer) (hdt : 0 ≤ T.dt) (q0 : QN) (hl : q0.ths.length = T.N) (Y : List U) :
    ∃ γ, ExecutesN T q0 Y γ := by
  obtain ⟨γ, hγ⟩ := C75_exists_ntrailer T hdt
    (⟨q0, q0, 0, 0, (0, 0), false⟩ :: Y.map fun u => ⟨q0, q0, 0, 0, u, false⟩)
    (by rintro a ha; cases ha; exact hl)
  exact ⟨γ, hγ.start _ rfl, fun k u hu => hγ.drive k ⟨q0, q0, 0, 0, u, false⟩ (by simp [hu])⟩

/-- **C89**, train: a train that executes the returned actions is, at the end of step `k`, within the stated distance of
the `k`-th returned state. -/
theorem C89_track_ntrailer (T : NTrailer) (guide : QN → QN) (xref : List (Q4 × Bool)) (hp : T.enableProjection = false)
    (hd : DriveOK T.toParams) (htr : Spec.TrailersOK T) (hlen : ∀ i < T.N, 0 < T.lengths.getD i 0)
    (hl : T.x0.ths.length = T.N) (normal : Key → ℕ → ℕ → ℕ → ℕ → U) (cfg : Cfg)
    (hg : cfg.enableGuidance = false) (γ : ℝ → QN)
    (hγ : ExecutesN T T.x0 (runDiffusion (T.planEnv guide xref) normal cfg).Y0 γ) (k : ℕ) (q : QN)
    (hq : (runDiffusion (T.planEnv guide xref) normal cfg).xs[k]? = some q) :
    (γ (k * T.dt)).th0 = q.th0 ∧
    Spec.dist ((γ (k * T.dt)).px, (γ (k * T.dt)).py) (q.px, q.py) ≤ drift T.toParams k ∧
    ∀ i < T.N, |(γ (k * T.dt)).ths.getD i 0 - q.ths.getD i 0| ≤ headingDrift T k (i + 1) := by
  obtain ⟨tr, h1, h2, h3⟩ := plan_fixed_ntrailer T guide xref hp hl normal cfg
  rw [h3 hg, List.getElem?_map, Option.map_eq_some_iff] at hq
  obtain ⟨b, hb, rfl⟩ := hq
  have hc := executesN_continuous (s := T.reset) hγ h2
  cases k with
  | zero =>
    cases hb
    rw [Nat.cast_zero, zero_mul, hγ.start]
    simp [NTrailer.reset, Spec.dist, drift, headingDrift]
  | succ k =>
    have hlt := (List.getElem?_eq_some_iff.mp hb).1
    obtain ⟨a, ha⟩ : ∃ a, (T.reset :: tr)[k]? = some a := ⟨_, List.getElem?_eq_getElem (by omega)⟩
    have := C75_ntrailer T guide hd htr hlen T.reset hl _ tr h1 γ hc k a b ha hb 1 zero_le_one le_rfl
    have hE := C09_train T guide T.reset ⟨hl, htr.1, htr.2.1, htr.2.2.1⟩ _ tr h1
    have hbl : b.q.ths.length = a.q.ths.length := by
      obtain ⟨_, _, _, _, _, _, _, _, h8, _⟩ := chain_at hE ha hb
      rw [h8]
      cases k with
      | zero => cases ha; exact hl.symm
      | succ k =>
        obtain ⟨c, hc'⟩ : ∃ c, (T.reset :: tr)[k]? = some c := ⟨_, List.getElem?_eq_getElem (by omega)⟩
        obtain ⟨_, _, _, _, _, _, _, _, h9, _⟩ := chain_at hE hc' ha
        exact h9.symm
    simp only [betweenN_getD hbl] at this
    have m1 : ∀ a b : ℝ, mix 1 a b = b := by intro a b; unfold mix; ring
    simp only [betweenN, m1] at this
    push_cast
    exact this

/-- **C89**, train with the collision shield: whatever the planner returns, a train that executes it touches no actual
obstacle at any moment, if the obstacles were padded by half a step's travel plus drift. -/
theorem C89_safe_ntrailer (T : NTrailer) (guide : QN → QN) (xref : List (Q4 × Bool)) (hs : T.shieldCollision = true)
    (hp : T.enableProjection = false) (hgT : T.enableGuidance = false) (hsz : Spec.SidesOK T.toParams)
    (hd : DriveOK T.toParams) (hov : -T.lr ≤ T.l1 + T.lf1) (htr : Spec.TrailersOK T)
    (hlen : ∀ i < T.N, 0 < T.lengths.getD i 0) (hre : ∀ i < T.N, 0 ≤ T.rears.getD i 0)
    {p : ℝ} {cs : List Circle} {rs : List Rect} (hP : Padded p T.toParams cs rs) (hr : ∀ c ∈ cs, 0 ≤ c.r)
    (hwd : T.tractorWidth / 2 ≤ p ∧ T.trailerWidth / 2 ≤ p) (h0 : Spec.SafeN T T.x0) (hl : T.x0.ths.length = T.N)
    (normal : Key → ℕ → ℕ → ℕ → ℕ → U) (cfg : Cfg)
    (h1 : Spec.tractorShift T.toParams 0 / 2 + drift T.toParams cfg.Hsample ≤ p)
    (h2 : ∀ i < T.N, trailerSweepN T i / 2 + trailerDriftN T cfg.Hsample i ≤ p) (γ : ℝ → QN)
    (hγ : ExecutesN T T.x0 (runDiffusion (T.planEnv guide xref) normal cfg).Y0 γ) (t : ℝ) (t0 : 0 ≤ t)
    (t1 : t ≤ cfg.Hsample * T.dt) :
    Spec.SafeN { T with circles := cs, rects := rs } (γ t) := by
  obtain ⟨tr, e1, e2, -⟩ := plan_fixed_ntrailer T guide xref hp hl normal cfg
  have hY := (C31_result (T.planEnv guide xref) normal cfg).1
  have hc := executesN_continuous (s := T.reset) hγ e2
  exact C75_safe_ntrailer T guide hs hgT hsz hd hov htr hlen hre hP hr hwd T.reset h0 hl _ (by rw [hY]; exact h1)
    (by rw [hY]; exact h2) tr e1 γ hc t t0 (by rw [hY]; exact t1)

/-- **C89**, train: at the end of the horizon the tractor is at most the drift further from the goal than the returned
motion is. -/
theorem C89_arrives_ntrailer (T : NTrailer) (guide : QN → QN) (xref : List (Q4 × Bool)) (hp : T.enableProjection = false)
    (hd : DriveOK T.toParams) (htr : Spec.TrailersOK T) (hlen : ∀ i < T.N, 0 < T.lengths.getD i 0)
    (hl : T.x0.ths.length = T.N) (normal : Key → ℕ → ℕ → ℕ → ℕ → U) (cfg : Cfg)
    (hg : cfg.enableGuidance = false) (γ : ℝ → QN)
    (hγ : ExecutesN T T.x0 (runDiffusion (T.planEnv guide xref) normal cfg).Y0 γ) :
    ∃ q, (runDiffusion (T.planEnv guide xref) normal cfg).xs.getLast? = some q ∧
    Spec.dist ((γ (cfg.Hsample * T.dt)).px, (γ (cfg.Hsample * T.dt)).py) (T.xg.px, T.xg.py) ≤
      Spec.dist (q.px, q.py) (T.xg.px, T.xg.py) + drift T.toParams cfg.Hsample := by
  have hll : (runDiffusion (T.planEnv guide xref) normal cfg).xs.length = cfg.Hsample + 1 :=
    (C31_result _ normal cfg).2.1
  obtain ⟨q, hq⟩ : ∃ q, (runDiffusion (T.planEnv guide xref) normal cfg).xs[cfg.Hsample]? = some q :=
    ⟨_, List.getElem?_eq_getElem (by omega)⟩
  refine ⟨q, by rw [List.getLast?_eq_getElem?, hll]; exact hq, ?_⟩
  have h := (C89_track_ntrailer T guide xref hp hd htr hlen hl normal cfg hg γ hγ _ q hq).2.1
  have := dist_triangle' ((γ (cfg.Hsample * T.dt)).px, (γ (cfg.Hsample * T.dt)).py) (q.px, q.py) (T.xg.px, T.xg.py)
  linarith

/-! ## The hypotheses can be met -/

example := fun guide xref normal cfg hg γ hγ => C89_track_ntrailer contTrain guide xref rfl (default_driveOK _ _)
  contTrain_ok contTrain_lengths rfl normal cfg hg γ hγ

example := fun guide xref normal cfg hg γ hγ => C89_arrives_ntrailer contTrain guide xref rfl (default_driveOK _ _)
  contTrain_ok contTrain_lengths rfl normal cfg hg γ hγ

/-- Plans of two steps for the default train. -/
example (guide : QN → QN) (xref : List (Q4 × Bool)) (normal : Key → ℕ → ℕ → ℕ → ℕ → U) (cfg : Cfg)
    (hH : cfg.Hsample = 2) :
    (∃ γ, ExecutesN contTrain contTrain.x0 (runDiffusion (contTrain.planEnv guide xref) normal cfg).Y0 γ) ∧
    ∀ γ, ExecutesN contTrain contTrain.x0 (runDiffusion (contTrain.planEnv guide xref) normal cfg).Y0 γ →
    ∀ t, 0 ≤ t → t ≤ 2 * 0.2 → Spec.SafeN { contTrain with circles := [⟨20, 0, 1⟩], rects := [] } (γ t) := by
  constructor
  · exact executesN_exists _ (by norm_num [contTrain, Params.default]) _ rfl _
  intro γ hγ t t0 t1
  refine C89_safe_ntrailer contTrain guide xref rfl rfl rfl (margin_sides _ (by norm_num)) (default_driveOK _ _)
    (by norm_num [contTrain, Params.default]) contTrain_ok contTrain_lengths ?_ (pole_padded 8 _ rfl)
    (by intro c hc; simp only [List.mem_singleton] at hc; subst hc; norm_num)
    (by norm_num [contTrain, Params.default]) contTrain_safe rfl normal cfg ?_ ?_ γ hγ t
    t0 ?_
  · intro i hi
    rcases contTrain_two i hi with rfl | rfl <;> norm_num [contTrain]
  · have h1 : Spec.tractorShift contTrain.toParams 0 ≤ 3 := (default_travel _ _).1
    have h2 : drift contTrain.toParams 2 ≤ 0.2 := (default_drift _ _).1
    rw [hH]
    linarith
  · rw [hH]; exact contTrain_padding
  · have : contTrain.dt = 0.2 := rfl
    rw [hH, this]; push_cast; exact t1

end Mbd
