import Verif.Render
import Verif.PropsPlan
import Verif.Witness

/-!
# C67: an animation shows the planned trajectory, state by state
-/

namespace Mbd

open Real

/-! ## Frames of the trajectory animation -/

theorem animLoop_spec {Q : Type} (A : AnimEnv Q) (overlay : Option (List Q)) :
    ∀ (states : List Q) (actions : List (Option U)) (k : ℕ) (tr ov : List V2),
      ov = ((overlay.getD []).take k).map A.pos →
      (animLoop A overlay k tr ov states actions).length = min states.length actions.length ∧
      ∀ j f, (animLoop A overlay k tr ov states actions)[j]? = some f →
        states[j]? = some f.state ∧ actions[j]? = some f.action ∧
        (f.collisionMark = A.coll f.state) ∧ (f.hitchMark = A.hitch f.state) ∧
        f.trace = tr ++ (states.take (j + 1)).map A.pos ∧
        f.overlay = ((overlay.getD []).take (k + j + 1)).map A.pos := by
  intro states
  induction states with
  | nil => intro actions k tr ov _; simp [animLoop]
  | cons q qs ih =>
    intro actions k tr ov hov
    cases actions with
    | nil => simp [animLoop]
    | cons u us =>
      have hov' : ov ++ overlayPoint A overlay k = ((overlay.getD []).take (k + 1)).map A.pos := by
        rw [hov]
        unfold overlayPoint
        cases overlay with
        | none => simp
        | some g =>
          simp only [Option.getD_some]
          rw [List.take_add_one, List.map_append]
          cases g[k]? <;> simp
      obtain ⟨h1, h2⟩ := ih us (k + 1) (tr ++ [A.pos q]) _ hov'
      refine ⟨by simp only [animLoop, List.length_cons, h1]; omega, ?_⟩
      intro j f hf
      cases j with
      | zero =>
        simp only [animLoop, List.getElem?_cons_zero, Option.some.injEq] at hf
        subst hf
        exact ⟨rfl, rfl, rfl, rfl, by simp, by simpa using hov'⟩
      | succ j =>
        simp only [animLoop, List.getElem?_cons_succ] at hf
        obtain ⟨a1, a2, a3, a4, a5, a6⟩ := h2 j f hf
        refine ⟨by simpa using a1, by simpa using a2, a3, a4, ?_, ?_⟩
        · rw [a5]; simp
        · rw [a6]; congr 2; omega

/-- **C67 (frames).** `create_animation` makes one frame per pair of state and action; frame `k` shows
state `k` with action `k`, marks exactly what the checks say about that state, the path of the
states up to it, and as many positions of the overlay. -/
theorem C67_frames {Q : Type} (A : AnimEnv Q) (states : List Q) (actions : List (Option U))
    (overlay : Option (List Q)) :
    (createAnimation A states actions overlay).length = min states.length actions.length ∧
    ∀ k f, (createAnimation A states actions overlay)[k]? = some f →
      states[k]? = some f.state ∧ actions[k]? = some f.action ∧
      (f.collisionMark ↔ A.coll f.state) ∧ (f.hitchMark ↔ A.hitch f.state) ∧
      f.trace = (states.take (k + 1)).map A.pos ∧
      f.overlay = ((overlay.getD []).take (k + 1)).map A.pos := by
  obtain ⟨h1, h2⟩ := animLoop_spec A overlay states actions 0 [] [] (by simp)
  refine ⟨h1, fun k f hf => ?_⟩
  obtain ⟨a1, a2, a3, a4, a5, a6⟩ := h2 k f hf
  exact ⟨a1, a2, by rw [a3], by rw [a4], by simpa using a5, by simpa using a6⟩

example := C67_frames (TT2d.animEnv Wit.params) [⟨0, 0, 0, 0⟩, ⟨1, 0, 0, 0⟩] [some (1, 0), none] none

/-- The planner's list of actions: the plan, then `None` for the final state. -/
theorem planner_frames {Q : Type} (A : AnimEnv Q) (states : List Q) (plan : List U)
    (overlay : Option (List Q)) (h : states.length = plan.length + 1) :
    (plannerAnimation A states plan overlay).map Frame.state = states ∧
    (plannerAnimation A states plan overlay).map Frame.action = plan.map some ++ [none] := by
  obtain ⟨h1, h2⟩ := C67_frames A states (plan.map some ++ [none]) overlay
  have hl : (createAnimation A states (plan.map some ++ [none]) overlay).length = states.length := by
    rw [h1]; simp [h]
  unfold plannerAnimation
  constructor
  · apply List.ext_getElem?
    intro k
    rw [List.getElem?_map]
    cases hf : (createAnimation A states (plan.map some ++ [none]) overlay)[k]? with
    | none =>
      rw [List.getElem?_eq_none_iff] at hf
      rw [Option.map_none, eq_comm, List.getElem?_eq_none_iff]; omega
    | some f => rw [Option.map_some, (h2 k f hf).1]
  · apply List.ext_getElem?
    intro k
    rw [List.getElem?_map]
    cases hf : (createAnimation A states (plan.map some ++ [none]) overlay)[k]? with
    | none =>
      rw [List.getElem?_eq_none_iff] at hf
      rw [Option.map_none, eq_comm, List.getElem?_eq_none_iff]
      simp only [List.length_append, List.length_map, List.length_singleton]; omega
    | some f => rw [Option.map_some, (h2 k f hf).2.1]

/-- **C67 (planning run).** The animation at the end of a planning run without guidance has exactly one
frame per returned state, in order, with the returned actions (the final state without action). With
guidance it has as many frames, starts at the same state and carries the returned states as the overlay. -/
theorem C67_run {Q : Type} (E : PlanEnv Q) (stepOff : St Q → U → St Q) (A : AnimEnv Q)
    (normal : Key → ℕ → ℕ → ℕ → ℕ → U) (cfg : Cfg) :
    let R := runDiffusion E normal cfg
    let fr := runAnimation E stepOff A cfg R
    fr.length = cfg.Hsample + 1 ∧ fr.map Frame.action = R.Y0.map some ++ [none] ∧
    (cfg.enableGuidance = false → fr.map Frame.state = R.xs ∧ ∀ f ∈ fr, f.overlay = []) ∧
    (cfg.enableGuidance = true → (fr.map Frame.state).head? = R.xs.head? ∧
      ∀ k f, fr[k]? = some f → f.overlay = (R.xs.take (k + 1)).map A.pos) ∧
    (∀ k f, fr[k]? = some f → (f.collisionMark ↔ A.coll f.state) ∧ (f.hitchMark ↔ A.hitch f.state) ∧
      f.trace = ((fr.map Frame.state).take (k + 1)).map A.pos) := by
  intro R fr
  obtain ⟨c1, c2, -⟩ := C31_result E normal cfg
  have key : ∀ (st : St Q → U → St Q) (ov : Option (List Q)),
      let F := plannerAnimation A ((E.reset keyReset).q :: (scanStates st (E.reset keyReset) R.Y0).map St.q)
        R.Y0 ov
      F.length = cfg.Hsample + 1 ∧ F.map Frame.action = R.Y0.map some ++ [none] ∧
      F.map Frame.state = (E.reset keyReset).q :: (scanStates st (E.reset keyReset) R.Y0).map St.q ∧
      ∀ k f, F[k]? = some f → (f.collisionMark ↔ A.coll f.state) ∧ (f.hitchMark ↔ A.hitch f.state) ∧
        f.trace = ((F.map Frame.state).take (k + 1)).map A.pos ∧
        f.overlay = ((ov.getD []).take (k + 1)).map A.pos := by
    intro st ov F
    have hl : ((E.reset keyReset).q :: (scanStates st (E.reset keyReset) R.Y0).map St.q).length
        = R.Y0.length + 1 := by simp [scanStates_length]
    obtain ⟨e1, e2⟩ := planner_frames A _ R.Y0 ov hl
    refine ⟨?_, e2, e1, fun k f hf => ?_⟩
    · have := congrArg List.length e1
      rw [List.length_map, hl, c1] at this
      exact this
    · obtain ⟨-, h2⟩ := C67_frames A ((E.reset keyReset).q :: (scanStates st (E.reset keyReset) R.Y0).map St.q)
        (R.Y0.map some ++ [none]) ov
      obtain ⟨a1, a2, a3, a4, a5, a6⟩ := h2 k f hf
      exact ⟨a3, a4, by rw [e1]; exact a5, a6⟩
  cases hg : cfg.enableGuidance
  · obtain ⟨k1, k2, k3, k4⟩ := key E.step none
    have hfr : fr = plannerAnimation A ((E.reset keyReset).q ::
        (scanStates E.step (E.reset keyReset) R.Y0).map St.q) R.Y0 none := by
      simp only [fr, runAnimation, hg]; rfl
    rw [hfr]
    refine ⟨k1, k2, fun _ => ⟨?_, fun f hf => ?_⟩, by simp, fun k f hf => ?_⟩
    · rw [k3]
      simp only [R, runDiffusion, hg]; rfl
    · obtain ⟨k, hk, rfl⟩ := List.mem_iff_getElem.mp hf
      simpa using (k4 k _ (List.getElem?_eq_getElem hk)).2.2.2
    · obtain ⟨a, b, c, -⟩ := k4 k f hf
      exact ⟨a, b, c⟩
  · obtain ⟨k1, k2, k3, k4⟩ := key stepOff (some R.xs)
    have hfr : fr = plannerAnimation A ((E.reset keyReset).q ::
        (scanStates stepOff (E.reset keyReset) R.Y0).map St.q) R.Y0 (some R.xs) := by
      simp only [fr, runAnimation, hg, if_true]
    rw [hfr]
    refine ⟨k1, k2, by simp, fun _ => ⟨?_, fun k f hf => ?_⟩, fun k f hf => ?_⟩
    · rw [k3]
      simp only [R, runDiffusion]; rfl
    · exact (k4 k f hf).2.2.2
    · obtain ⟨a, b, c, -⟩ := k4 k f hf
      exact ⟨a, b, c⟩

example := fun ext xref stepOff normal cfg =>
  C67_run (Wit.tt.planEnv ext xref) stepOff (TT2d.animEnv Wit.params) normal cfg

/-- **C67 (evaluation).** The progress animation of a statistical evaluation is made from the returned
states and actions: one frame per returned state, for every robot and configuration. -/
theorem C67_progress {Q : Type} (E : PlanEnv Q) (A : AnimEnv Q)
    (normal : Key → ℕ → ℕ → ℕ → ℕ → U) (cfg : Cfg) :
    let R := runDiffusion E normal cfg
    (plannerAnimation A R.xs R.Y0 none).map Frame.state = R.xs ∧
    (plannerAnimation A R.xs R.Y0 none).map Frame.action = R.Y0.map some ++ [none] := by
  intro R
  obtain ⟨c1, c2, -⟩ := C31_result E normal cfg
  exact planner_frames A R.xs R.Y0 none (by rw [c1, c2])

/-! ## Marks -/

/-- **C67 (marks).** For all four robots the two violation marks of a frame are the verdicts of the robot's
own checks on the complete state shown (a bicycle built by name or as a tractor-trailer without trailers
never shows a jackknife mark). -/
theorem C67_marks (P : Params) (T : NTrailer) :
    (∀ q : Q4, ((TT2d.animEnv P).coll q ↔ TT2d.checkObstacle P q) ∧
      ((TT2d.animEnv P).hitch q ↔ Spec.exceedsModTurns (40 * π / 180) (q.th1 - q.th2))) ∧
    (∀ A : Acc, ∀ q : Q6, ((Acc.animEnv A.toParams).coll q ↔ A.checkObstacle q) ∧
      ((Acc.animEnv A.toParams).hitch q ↔ Spec.exceedsModTurns (40 * π / 180) (q.th1 - q.th2))) ∧
    (∀ (name : String) (q : Q3), ((Bicycle.animEnv P name).coll q ↔ Bicycle.checkObstacle P q) ∧
      ¬ (Bicycle.animEnv P name).hitch q) ∧
    (∀ q : QN, q.ths.length = T.N → (T.animEnv.coll q ↔ T.checkObstacle q) ∧
      (T.animEnv.hitch q ↔ T.checkHitch q)) := by
  refine ⟨fun q => ⟨Iff.rfl, C06_tt2d P q⟩, fun A q => ⟨Iff.rfl, C06_acc A q⟩,
    fun name q => ⟨Iff.rfl, ?_⟩, fun q hq => ?_⟩
  · unfold Bicycle.animEnv
    simp only
    split_ifs
    · exact id
    · exact C06_bicycle P q
  · unfold NTrailer.animEnv
    simp only
    split_ifs with h
    · exact ⟨Iff.rfl, Iff.rfl⟩
    · rw [List.take_of_length_le (by omega)]
      exact ⟨Iff.rfl, Iff.rfl⟩

example := C67_marks Wit.params Wit.train

/-- **C67 (shielded runs show no marks).** No frame of the animation of a planning run of a tractor-trailer
with both shields, started in a state that passes the checks, shows a violation mark. -/
theorem C67_shielded_tt2d (T : TT2d) (ext : Ext Q4) (xref : List (Q4 × Bool)) (stepOff : St Q4 → U → St Q4)
    (h1 : T.shieldCollision = true) (h2 : T.shieldHitch = true) (hp : T.enableProjection = false)
    (hgT : T.enableGuidance = false) (hc0 : ¬ TT2d.checkObstacle T.toParams T.x0)
    (hh0 : ¬ TT2d.checkHitch T.toParams T.x0) (normal : Key → ℕ → ℕ → ℕ → ℕ → U) (cfg : Cfg)
    (hg : cfg.enableGuidance = false) :
    ∀ f ∈ runAnimation (T.planEnv ext xref) stepOff (TT2d.animEnv T.toParams) cfg
      (runDiffusion (T.planEnv ext xref) normal cfg), ¬ f.collisionMark ∧ ¬ f.hitchMark := by
  intro f hf
  obtain ⟨-, -, e1, -, e2⟩ := C67_run (T.planEnv ext xref) stepOff (TT2d.animEnv T.toParams) normal cfg
  have hmem : f.state ∈ (runDiffusion (T.planEnv ext xref) normal cfg).xs := by
    rw [← (e1 hg).1]; exact List.mem_map_of_mem hf
  obtain ⟨k, hk, rfl⟩ := List.mem_iff_getElem.mp hf
  obtain ⟨m1, m2, -⟩ := e2 k _ (List.getElem?_eq_getElem hk)
  have hs := (C32_tt2d T ext xref h1 h2 hp hgT hc0 hh0 normal cfg hg).2.1 _ hmem
  exact ⟨fun h => hs.1 (m1.mp h), fun h => hs.2 (m2.mp h)⟩

example := fun ext xref stepOff normal cfg hg =>
  C67_shielded_tt2d Wit.tt ext xref stepOff rfl rfl rfl rfl Wit.tt_clear Wit.tt_straight normal cfg hg

/-- C67, bicycle with the collision shield. -/
theorem C67_shielded_bicycle (T : Bicycle) (ext : Ext Q3) (xref : List (Q3 × Bool))
    (stepOff : St Q3 → U → St Q3) (name : String)
    (h1 : T.shieldCollision = true) (hp : T.enableProjection = false)
    (hgT : T.enableGuidance = false) (hc0 : ¬ Bicycle.checkObstacle T.toParams T.x0)
    (normal : Key → ℕ → ℕ → ℕ → ℕ → U) (cfg : Cfg) (hg : cfg.enableGuidance = false) :
    ∀ f ∈ runAnimation (T.planEnv ext xref) stepOff (Bicycle.animEnv T.toParams name) cfg
      (runDiffusion (T.planEnv ext xref) normal cfg), ¬ f.collisionMark ∧ ¬ f.hitchMark := by
  intro f hf
  obtain ⟨-, -, e1, -, e2⟩ := C67_run (T.planEnv ext xref) stepOff (Bicycle.animEnv T.toParams name) normal cfg
  have hmem : f.state ∈ (runDiffusion (T.planEnv ext xref) normal cfg).xs := by
    rw [← (e1 hg).1]; exact List.mem_map_of_mem hf
  obtain ⟨k, hk, rfl⟩ := List.mem_iff_getElem.mp hf
  obtain ⟨m1, m2, -⟩ := e2 k _ (List.getElem?_eq_getElem hk)
  have hs := (C32_bicycle T ext xref h1 hp hgT hc0 normal cfg hg).2.1 _ hmem
  have hb := ((C67_marks T.toParams Wit.train).2.2.1 name)
  exact ⟨fun h => hs (m1.mp h), fun h => (hb _).2 (m2.mp h)⟩

example := fun ext xref stepOff normal cfg hg =>
  C67_shielded_bicycle Wit.bike ext xref stepOff "tt2d" rfl rfl rfl Wit.bike_clear normal cfg hg

/-- C67, train with both shields. -/
theorem C67_shielded_ntrailer (T : NTrailer) (guide : QN → QN) (xref : List (Q4 × Bool))
    (stepOff : St QN → U → St QN)
    (h1 : T.shieldCollision = true) (h2 : T.shieldHitch = true) (hp : T.enableProjection = false)
    (hgT : T.enableGuidance = false) (hl : T.x0.ths.length = T.N) (hc0 : ¬ T.checkObstacle T.x0)
    (hh0 : ¬ T.checkHitch T.x0) (hN : 2 ≤ T.N) (normal : Key → ℕ → ℕ → ℕ → ℕ → U) (cfg : Cfg)
    (hg : cfg.enableGuidance = false) :
    ∀ f ∈ runAnimation (T.planEnv guide xref) stepOff T.animEnv cfg
      (runDiffusion (T.planEnv guide xref) normal cfg), ¬ f.collisionMark ∧ ¬ f.hitchMark := by
  intro f hf
  obtain ⟨-, -, e1, -, e2⟩ := C67_run (T.planEnv guide xref) stepOff T.animEnv normal cfg
  have hmem : f.state ∈ (runDiffusion (T.planEnv guide xref) normal cfg).xs := by
    rw [← (e1 hg).1]; exact List.mem_map_of_mem hf
  obtain ⟨k, hk, rfl⟩ := List.mem_iff_getElem.mp hf
  obtain ⟨m1, m2, -⟩ := e2 k _ (List.getElem?_eq_getElem hk)
  have hs := (C32_ntrailer T guide xref h1 h2 hp hgT hl hc0 hh0 normal cfg hg).2.1 _ hmem
  have ec : ∀ q, T.animEnv.coll q = T.checkObstacle q := fun q => by
    simp only [NTrailer.animEnv, if_pos hN]
  have eh : ∀ q, T.animEnv.hitch q = T.checkHitch q := fun q => by
    simp only [NTrailer.animEnv, if_pos hN]
  rw [ec] at m1
  rw [eh] at m2
  exact ⟨fun h => hs.1 (m1.mp h), fun h => hs.2 (m2.mp h)⟩

example := fun guide xref stepOff normal cfg hg =>
  C67_shielded_ntrailer Wit.train guide xref stepOff rfl rfl rfl rfl rfl Wit.train_clear Wit.train_straight
    (by decide) normal cfg hg

/-! ## Denoising animation -/

theorem denoisePath_eq {S : Type} (pos : S → V2) (step : S → U → S) : ∀ (us : List U) (s : S),
    denoisePath pos step s us = pos s :: (scanStates step s us).map pos
  | [], s => rfl
  | u :: us, s => by rw [denoisePath, denoisePath_eq, scanStates, List.map_cons]

theorem denoiseLoop_spec {S : Type} (pos : S → V2) (step : S → U → S) (s0 : S) (n : ℤ) (skip : ℕ)
    (h : 1 ≤ skip) : ∀ (rows : List (List U)) (k f : ℕ),
    ∃ fr, denoiseLoop pos step s0 n skip k f rows = some fr ∧
      ∀ j, fr[j]? = (rows[((k + skip - 1) / skip + j) * skip - k]?).map fun row =>
        ⟨n - 1 - ((((k + skip - 1) / skip + j) * skip : ℕ) : ℤ), f + j, denoisePath pos step s0 row⟩ := by
  intro rows
  induction rows with
  | nil => intro k f; exact ⟨[], rfl, by simp⟩
  | cons row rows ih =>
    intro k f
    have hdm := Nat.div_add_mod k skip
    have hlt := Nat.mod_lt k h
    set a := k / skip with ha
    set b := k % skip with hb
    by_cases hk : b = 0
    · have hck : (k + skip - 1) / skip = a := by
        rw [Nat.div_eq_iff (by omega)]
        have hm : a * skip = skip * a := Nat.mul_comm _ _
        have hm' : (a + 1) * skip = skip * a + skip := by rw [Nat.add_mul, hm]; omega
        constructor <;> omega
      have hck' : (k + 1 + skip - 1) / skip = a + 1 := by
        rw [show k + 1 + skip - 1 = k + skip by omega, Nat.add_div_right _ h]
      obtain ⟨fr, e1, e2⟩ := ih (k + 1) (f + 1)
      refine ⟨⟨n - 1 - k, f, denoisePath pos step s0 row⟩ :: fr, ?_, ?_⟩
      · rw [denoiseLoop, if_neg (by omega), if_pos (by rw [← hb]; exact hk), e1]; rfl
      · intro j
        have hak : a * skip = k := by rw [Nat.mul_comm]; omega
        cases j with
        | zero => rw [hck]; simp [hak]
        | succ j =>
          rw [List.getElem?_cons_succ, e2 j, hck, hck']
          have h1 : (a + (j + 1)) * skip = k + (j + 1) * skip := by rw [Nat.add_mul, hak]
          have h2 : (a + 1 + j) * skip = k + (j + 1) * skip := by
            rw [← h1]; congr 1; omega
          have h3 : 1 ≤ (j + 1) * skip := Nat.mul_pos (by omega) h
          rw [h1, h2]
          rw [show k + (j + 1) * skip - k = (k + (j + 1) * skip - (k + 1)) + 1 by omega,
            List.getElem?_cons_succ, show f + 1 + j = f + (j + 1) by omega]
    · have hck : (k + skip - 1) / skip = a + 1 := by
        rw [Nat.div_eq_iff (by omega)]
        have hm : a * skip = skip * a := Nat.mul_comm _ _
        have hm' : (a + 1) * skip = skip * a + skip := by rw [Nat.add_mul, hm]; omega
        constructor <;> omega
      have hck' : (k + 1 + skip - 1) / skip = a + 1 := by
        rw [show k + 1 + skip - 1 = k + skip by omega, Nat.add_div_right _ h]
      obtain ⟨fr, e1, e2⟩ := ih (k + 1) f
      refine ⟨fr, ?_, ?_⟩
      · rw [denoiseLoop, if_neg (by omega), if_neg (by rw [← hb]; exact hk), e1]
      · intro j
        rw [e2 j, hck, hck']
        have h3 : k + 1 ≤ (a + 1 + j) * skip := by nlinarith
        rw [show (a + 1 + j) * skip - k = ((a + 1 + j) * skip - (k + 1)) + 1 by omega,
          List.getElem?_cons_succ]

/-- **C67 (denoising frames).** With a frame skip of at least one, the denoising animation shows every
`skip`-th plan of the history, beginning with the first: picture `j` (saved under number `j`, so
without gaps) shows the path driven under plan `j·skip`, entitled with the number of the denoising
iteration that produced it. -/
theorem C67_denoising {S : Type} (pos : S → V2) (step : S → U → S) (s0 : S) (n : ℤ) (skip : ℕ)
    (h : 1 ≤ skip) (hist : List (List U)) :
    ∃ fr, createDenoising pos step s0 n skip hist = some fr ∧
      (∀ j, j < fr.length ↔ j * skip < hist.length) ∧
      ∀ j f, fr[j]? = some f → ∃ row, hist[j * skip]? = some row ∧ f.file = j ∧
        f.title = n - 1 - (j * skip : ℕ) ∧ f.path = pos s0 :: (scanStates step s0 row).map pos := by
  obtain ⟨fr, e1, e2⟩ := denoiseLoop_spec pos step s0 n skip h hist 0 0
  have h0 : (skip - 1) / skip = 0 := by rw [Nat.div_eq_zero_iff]; omega
  simp only [Nat.zero_add, h0, Nat.sub_zero] at e2
  refine ⟨fr, e1, fun j => ?_, fun j f hf => ?_⟩
  · have := e2 j
    constructor
    · intro hj
      rw [List.getElem?_eq_getElem hj] at this
      by_contra hc
      rw [List.getElem?_eq_none (by omega)] at this
      simp at this
    · intro hj
      rw [List.getElem?_eq_getElem hj] at this
      by_contra hc
      rw [List.getElem?_eq_none (by omega)] at this
      simp at this
  · rw [e2 j] at hf
    cases hr : hist[j * skip]? with
    | none => rw [hr] at hf; simp at hf
    | some row =>
      rw [hr] at hf
      simp only [Option.map_some, Option.some.injEq] at hf
      subst hf
      exact ⟨row, rfl, rfl, rfl, denoisePath_eq pos step row s0⟩

/-- C67: a frame skip of zero raises (division by zero) as soon as there is a plan to show. -/
theorem C67_denoising_zero {S : Type} (pos : S → V2) (step : S → U → S) (s0 : S) (n : ℤ)
    (hist : List (List U)) (h : hist ≠ []) : createDenoising pos step s0 n 0 hist = none := by
  cases hist with
  | nil => exact absurd rfl h
  | cons r rs => rfl

/-- **C67 (denoising run).** In a planning run with at least two noise levels, picture `j` is entitled with
noise level `Ndiffuse - 1 - j·skip` and shows the path driven under the plan produced at that level; the plan
produced at the last level (1) is shown exactly when the skip divides `Ndiffuse - 2`. -/
theorem C67_denoising_run {Q : Type} (E : PlanEnv Q) (stepOff : St Q → U → St Q) (pos : Q → V2)
    (normal : Key → ℕ → ℕ → ℕ → ℕ → U) (cfg : Cfg) (skip : ℕ) (h : 1 ≤ skip) (hN : 2 ≤ cfg.Ndiffuse) :
    ∃ fr, runDenoising E stepOff pos cfg skip (runDiffusion E normal cfg) = some fr ∧
      (∀ j f, fr[j]? = some f → f.file = j ∧ 1 ≤ f.title ∧ f.title = (cfg.Ndiffuse : ℤ) - 1 - (j * skip : ℕ) ∧
        f.path.length = cfg.Hsample + 1) ∧
      ((∃ f ∈ fr, f.title = 1) ↔ skip ∣ cfg.Ndiffuse - 2) := by
  obtain ⟨c1, c2, c3, c4, -⟩ := C31_result E normal cfg
  obtain ⟨fr, e1, e2, e3⟩ := C67_denoising (fun s : St Q => pos s.q)
    (if cfg.enableGuidance then stepOff else E.step) (E.reset keyReset) cfg.Ndiffuse skip h
    (runDiffusion E normal cfg).hist
  refine ⟨fr, e1, fun j f hf => ?_, ?_⟩
  · obtain ⟨row, r1, r2, r3, r4⟩ := e3 j f hf
    have hj : j < fr.length := (List.getElem?_eq_some_iff.mp hf).1
    have hj' := (e2 j).mp hj
    rw [c3] at hj'
    refine ⟨r2, by rw [r3]; omega, r3, ?_⟩
    rw [r4, List.length_cons, List.length_map, scanStates_length, c4 row (List.mem_of_getElem? r1)]
  · constructor
    · rintro ⟨f, hf, ht⟩
      obtain ⟨j, hj, rfl⟩ := List.mem_iff_getElem.mp hf
      obtain ⟨row, r1, r2, r3, r4⟩ := e3 j _ (List.getElem?_eq_getElem hj)
      exact ⟨j, by rw [Nat.mul_comm skip j]; omega⟩
    · rintro ⟨j, hj⟩
      have hj' : j * skip = cfg.Ndiffuse - 2 := by rw [Nat.mul_comm]; exact hj.symm
      have hl : j < fr.length := by rw [e2, c3]; omega
      obtain ⟨row, r1, r2, r3, r4⟩ := e3 j _ (List.getElem?_eq_getElem hl)
      exact ⟨fr[j], List.getElem_mem hl, by rw [r3, hj']; omega⟩

/-- C67 is false for some frame skips: the returned plan need not be shown at all (here: four noise levels,
every third plan). -/
theorem C67_denoising_final_refuted :
    ¬ ∀ (E : PlanEnv Q4) (stepOff : St Q4 → U → St Q4) (normal : Key → ℕ → ℕ → ℕ → ℕ → U) (cfg : Cfg) (skip : ℕ)
      (fr : List DenoiseFrame), 1 ≤ skip → 2 ≤ cfg.Ndiffuse →
      runDenoising E stepOff (fun q => (q.px, q.py)) cfg skip (runDiffusion E normal cfg) = some fr →
      ∃ f ∈ fr, f.title = 1 := by
  intro hall
  let cfg : Cfg := ⟨0, 1, false, false, 10, 5, 4, 0.1, 0.2⟩
  obtain ⟨fr, e1, -, e2⟩ := C67_denoising_run (Wit.tt.planEnv ⟨fun _ u => u, id⟩ []) (fun s _ => s)
    (fun q : Q4 => (q.px, q.py)) (fun _ _ _ _ _ => (0, 0)) cfg 3 (by norm_num) (by decide)
  have := e2.mp (hall _ _ _ cfg 3 fr (by norm_num) (by decide) e1)
  exact absurd this (by decide)

/-- **C67 (last denoising picture), partial.** For the tractor-trailer without guidance and projection the picture of
the last noise level shows exactly the returned trajectory.  Missing for the full property: frame skips which do
not divide `Ndiffuse - 2` never show it. -/
theorem C67_denoising_final_partial (T : TT2d) (ext : Ext Q4) (xref : List (Q4 × Bool))
    (stepOff : St Q4 → U → St Q4)
    (h1 : T.shieldCollision = true) (h2 : T.shieldHitch = true) (hp : T.enableProjection = false)
    (hgT : T.enableGuidance = false) (hc0 : ¬ TT2d.checkObstacle T.toParams T.x0)
    (hh0 : ¬ TT2d.checkHitch T.toParams T.x0) (normal : Key → ℕ → ℕ → ℕ → ℕ → U) (cfg : Cfg)
    (hg : cfg.enableGuidance = false) (skip : ℕ) (hs : 1 ≤ skip) (hN : 2 ≤ cfg.Ndiffuse)
    (fr : List DenoiseFrame)
    (hfr : runDenoising (T.planEnv ext xref) stepOff (fun q => (q.px, q.py)) cfg skip
      (runDiffusion (T.planEnv ext xref) normal cfg) = some fr) (f : DenoiseFrame) (hf : f ∈ fr)
    (ht : f.title = 1) :
    f.path = (runDiffusion (T.planEnv ext xref) normal cfg).xs.map fun q => (q.px, q.py) := by
  obtain ⟨c1, c2, c3, c4, -⟩ := C31_result (T.planEnv ext xref) normal cfg
  obtain ⟨fr', e1, e2, e3⟩ := C67_denoising (fun s : St Q4 => (s.q.px, s.q.py))
    (if cfg.enableGuidance then stepOff else (T.planEnv ext xref).step) ((T.planEnv ext xref).reset keyReset)
    cfg.Ndiffuse skip hs (runDiffusion (T.planEnv ext xref) normal cfg).hist
  have he : fr' = fr := Option.some.inj (e1.symm.trans hfr)
  subst he
  obtain ⟨j, hj, rfl⟩ := List.mem_iff_getElem.mp hf
  obtain ⟨row, r1, r2, r3, r4⟩ := e3 j _ (List.getElem?_eq_getElem hj)
  obtain ⟨b1, -, -, b4, -, b6⟩ := C32_tt2d T ext xref h1 h2 hp hgT hc0 hh0 normal cfg hg
  obtain ⟨Y, y1, y2, y3⟩ := b6 hN
  have hjj : j * skip = cfg.Ndiffuse - 2 := by omega
  have hrow : row = Y := by
    rw [List.getLast?_eq_getElem?, c3, show cfg.Ndiffuse - 1 - 1 = cfg.Ndiffuse - 2 by omega, ← hjj, r1] at y1
    exact Option.some.inj y1
  subst hrow
  have hproj : T.enableProjection = true → ext.project = fun _ u => u := by simp [hp]
  have hscan := C18_rollout_tt2d T ext hproj row
  have hx : (runDiffusion (T.planEnv ext xref) normal cfg).xs
      = T.x0 :: (scanStates (T.step ext) T.reset row).map St.q := by
    have hne : (runDiffusion (T.planEnv ext xref) normal cfg).xs =
        T.x0 :: (runDiffusion (T.planEnv ext xref) normal cfg).xs.tail := by
      cases hxs : (runDiffusion (T.planEnv ext xref) normal cfg).xs with
      | nil => rw [hxs] at b1; simp at b1
      | cons a l => rw [hxs] at b1; simp at b1; rw [b1]; rfl
    rw [hne, y3]
    congr 1
    exact congrArg (fun r => r.2.1) hscan
  rw [r4, hx, hg]
  simp only [Bool.false_eq_true, if_false, List.map_cons, List.map_map]
  rfl

example := fun ext xref stepOff normal cfg hg =>
  C67_denoising_final_partial Wit.tt ext xref stepOff rfl rfl rfl rfl Wit.tt_clear Wit.tt_straight normal cfg hg 1
    le_rfl

/-! ## Static picture -/

/-- **C67 (static picture).** `render` of a planned trajectory draws exactly the path of the returned states
if the robot was built with the planning horizon, and raises otherwise; the bicycle's never raises. -/
theorem C67_render {Q : Type} (E : PlanEnv Q) (normal : Key → ℕ → ℕ → ℕ → ℕ → U) (cfg : Cfg) (H : ℕ)
    (pos : Q → V2) :
    let R := runDiffusion E normal cfg
    (H = cfg.Hsample → renderPath H pos R.xs = some (R.xs.map pos)) ∧
    (H ≠ cfg.Hsample → renderPath H pos R.xs = none) ∧
    renderPathBike pos R.xs = some (R.xs.map pos) := by
  intro R
  obtain ⟨-, c2, -⟩ := C31_result E normal cfg
  have c2 : R.xs.length = cfg.Hsample + 1 := c2
  have hne : R.xs ≠ [] := by intro h; rw [h] at c2; simp at c2
  unfold renderPath
  refine ⟨fun h => ?_, fun h => ?_, rfl⟩
  · rw [if_neg hne, if_pos (by rw [c2, h])]
  · rw [if_neg hne, if_neg (by rw [c2]; omega)]

example := fun ext xref normal cfg =>
  (C67_render (Wit.tt.planEnv ext xref) normal cfg cfg.Hsample (fun q => (q.px, q.py))).1 rfl

end Mbd
