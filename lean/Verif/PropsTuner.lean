import Verif.Tuner
import Verif.PropsWiring
import Verif.PropsEndToEnd

/-!
# C64: hyperparameter tuning
-/

namespace Spec

open Mbd

/-- The attributes of a tuning trial's configuration that must come from the base configuration. -/
def fixedFields : List Field :=
  [.seed, .env_name, .case, .verbose, .Nsample, .Hsample, .Ndiffuse, .temp_sample, .beta0, .betaT,
   .enable_demo, .motion_preference, .collision_penalty, .hitch_penalty,
   .enable_shielded_rollout_collision, .enable_shielded_rollout_hitch, .enable_projection,
   .enable_guidance, .l1, .l2, .lh, .lf1, .lr, .lf2, .lr2, .tractor_width, .trailer_width, .v_max,
   .delta_max_deg, .a_max, .omega_max, .reward_threshold, .ref_reward_threshold, .max_w_theta,
   .hitch_angle_weight, .terminal_reward_threshold, .terminal_reward_weight, .steering_weight,
   .preference_penalty_weight, .heading_reward_weight, .ref_pos_weight, .ref_theta1_weight,
   .ref_theta2_weight, .frame_skip, .dt]

/-- The four rendering switches. -/
def renderFields : List Field := [.render, .save_animation, .show_animation, .save_denoising_animation]

end Spec

namespace Mbd

open Real Classical

/-! ### The configuration of a trial -/

theorem tuned_fold (base : Config) (params : Dict) (l : List (Field × Source)) (hnd : (l.map Prod.fst).Nodup)
    (h : ∀ a ∈ l, ∃ v, tunedArg base params a.1 a.2 = .ok v) (c0 : Config) :
    ∃ c, l.foldlM (fun c a => (do
      let v ← tunedArg base params a.1 a.2
      pure (Function.update c a.1 v) : Except CfgErr Config)) c0 = .ok c ∧
      (∀ a ∈ l, tunedArg base params a.1 a.2 = .ok (c a.1)) ∧ ∀ f, f ∉ l.map Prod.fst → c f = c0 f := by
  induction l generalizing c0 with
  | nil => exact ⟨c0, rfl, by simp, fun _ _ => rfl⟩
  | cons a l ih =>
    obtain ⟨v, hv⟩ := h a (by simp)
    rw [List.map_cons, List.nodup_cons] at hnd
    obtain ⟨c, h1, h2, h3⟩ := ih hnd.2 (fun b hb => h b (by simp [hb])) (Function.update c0 a.1 v)
    refine ⟨c, ?_, ?_, ?_⟩
    · rw [List.foldlM_cons, hv]
      exact h1
    · intro b hb
      rcases List.mem_cons.1 hb with rfl | hb
      · rw [hv, h3 _ hnd.1, Function.update_self]
      · exact h2 b hb
    · intro f hf
      rw [List.map_cons, List.mem_cons, not_or] at hf
      rw [h3 f hf.2, Function.update_of_ne hf.1]

/-- **C64 (configuration, partial).** For every base configuration and every pair of suggested values the
trial's configuration exists; the two tuned attributes are the suggested values, rendering is off and
every other attribute is the base configuration's — except the number of trailers, which is always 1. -/
theorem C64_config_partial (base : Config) (params : Dict) (d k : Val)
    (hd : params "d_thr_factor" = some d) (hk : params "k_switch" = some k) :
    ∃ c, tunedConfig base params = .ok c ∧ c .d_thr_factor = d ∧ c .k_switch = k ∧
      (∀ f ∈ Spec.fixedFields, c f = base f) ∧ (∀ f ∈ Spec.renderFields, c f = .bool false) ∧
      c .num_trailers = .int 1 := by
  obtain ⟨c, h1, h2, h3⟩ := tuned_fold base params tunedCall (by decide) (by
    intro a ha
    rcases a with ⟨f, s⟩
    cases s with
    | base => exact ⟨_, rfl⟩
    | off => exact ⟨_, rfl⟩
    | param =>
      have : f = .d_thr_factor ∨ f = .k_switch := by
        revert ha; revert f; intro f ha
        simp [tunedCall] at ha
        exact ha
      rcases this with rfl | rfl
      · exact ⟨d, by simp [tunedArg, Field.name, hd]⟩
      · exact ⟨k, by simp [tunedArg, Field.name, hk]⟩) dataclassDefault
  refine ⟨c, h1, ?_, ?_, ?_, ?_, ?_⟩
  · have := h2 (.d_thr_factor, .param) (by decide)
    simpa [tunedArg, Field.name, hd] using this.symm
  · have := h2 (.k_switch, .param) (by decide)
    simpa [tunedArg, Field.name, hk] using this.symm
  · intro f hf
    have hm : ∀ f ∈ Spec.fixedFields, (f, Source.base) ∈ tunedCall := by decide
    have := h2 _ (hm f hf)
    simpa [tunedArg] using this.symm
  · intro f hf
    have hm : ∀ f ∈ Spec.renderFields, (f, Source.off) ∈ tunedCall := by decide
    have := h2 _ (hm f hf)
    simpa [tunedArg] using this.symm
  · rw [h3 _ (by decide)]
    rfl

theorem tuned_fold_error (base : Config) (params : Dict) (l : List (Field × Source))
    (h : ∃ a ∈ l, ∀ v, tunedArg base params a.1 a.2 ≠ .ok v) : ∀ c0 : Config,
    ∃ f, (f, Source.param) ∈ l ∧ params f.name = none ∧ l.foldlM (fun c a => (do
      let v ← tunedArg base params a.1 a.2
      pure (Function.update c a.1 v) : Except CfgErr Config)) c0 = .error (.keyError f.name) := by
  induction l with
  | nil => obtain ⟨a, ha, -⟩ := h; simp at ha
  | cons a l ih =>
    intro c0
    cases hv : tunedArg base params a.1 a.2 with
    | error e =>
      rcases a with ⟨f, s⟩
      cases s with
      | base => simp [tunedArg] at hv
      | off => simp [tunedArg] at hv
      | param =>
        cases hp : params f.name with
        | some v => simp [tunedArg, hp] at hv
        | none =>
          simp only [tunedArg, hp, Except.error.injEq] at hv
          refine ⟨f, by simp, hp, ?_⟩
          rw [List.foldlM_cons]
          simp only [tunedArg, hp]
          rfl
    | ok v =>
      obtain ⟨b, hb, hne⟩ := h
      rcases List.mem_cons.1 hb with rfl | hb
      · exact absurd hv (hne v)
      · obtain ⟨f, h1, h2, h3⟩ := ih ⟨b, hb, hne⟩ (Function.update c0 a.1 v)
        refine ⟨f, by simp [h1], h2, ?_⟩
        rw [List.foldlM_cons, hv]
        exact h3

/-- **C64 (missing value).** When one of the two tuned values is not supplied there is no trial
configuration: a `KeyError` naming a missing one is raised, nothing is silently defaulted. -/
theorem C64_missing (base : Config) (params : Dict)
    (h : params "d_thr_factor" = none ∨ params "k_switch" = none) :
    ∃ name, (name = "d_thr_factor" ∨ name = "k_switch") ∧ params name = none ∧
      tunedConfig base params = .error (.keyError name) := by
  obtain ⟨f, h1, h2, h3⟩ := tuned_fold_error base params tunedCall (by
    rcases h with h | h
    · exact ⟨(.d_thr_factor, .param), by decide, fun v => by simp [tunedArg, Field.name, h]⟩
    · exact ⟨(.k_switch, .param), by decide, fun v => by simp [tunedArg, Field.name, h]⟩)
    dataclassDefault
  have : f = .d_thr_factor ∨ f = .k_switch := by
    simp [tunedCall] at h1
    exact h1
  refine ⟨f.name, ?_, h2, h3⟩
  rcases this with rfl | rfl
  · exact .inl rfl
  · exact .inr rfl

/-- Non-vacuous: an incomplete dictionary. -/
example : tunedConfig dataclassDefault (fun s => if s = "k_switch" then some (.float 1) else none) =
    .error (.keyError "d_thr_factor") := by
  obtain ⟨n, hn, h1, h2⟩ := C64_missing dataclassDefault
    (fun s => if s = "k_switch" then some (.float 1) else none) (.inl (by simp))
  rcases hn with rfl | rfl
  · exact h2
  · simp at h1

/-- All attributes are covered by the statement above. -/
theorem fields_covered : ∀ f : Field, f ∈ Spec.fixedFields ∨ f ∈ Spec.renderFields ∨
    f ∈ [Field.d_thr_factor, .k_switch, .num_trailers] := by
  intro f; cases f <;> decide

/-- **C64 refuted (number of trailers).** Tuning a two-trailer train evaluates single-trailer robots. -/
theorem C64_trailers_refuted : ∃ base : Config, base .env_name = .str "tt2d" ∧ base .num_trailers = .int 2 ∧
    (∃ a, buildRobot statCall base = .ok (.nTrailer 2, a)) ∧
    ∀ k, ∃ c a, tunedConfig base (suggested k) = .ok c ∧ buildRobot statCall c = .ok (.tractorTrailer, a) := by
  refine ⟨Function.update (Function.update dataclassDefault .env_name (.str "tt2d")) .num_trailers (.int 2),
    ?_, by simp, ?_, ?_⟩
  · simp
  · refine ⟨robotAttr statCall (Function.update (Function.update dataclassDefault .env_name (.str "tt2d"))
      .num_trailers (.int 2)) (.nTrailer 2), ?_⟩
    simp only [buildRobot, getEnvArg, statCall, List.mem_cons, Val.text, Val.int', getEnvKind]
    simp
  · intro k
    obtain ⟨c, hc, -, -, hf, -, hn⟩ := C64_config_partial (Function.update (Function.update dataclassDefault
      .env_name (.str "tt2d")) .num_trailers (.int 2)) (suggested k) (.float (gridValue k.1))
      (.float (gridValue k.2)) (by simp [suggested]) (by simp [suggested])
    refine ⟨c, robotAttr statCall c .tractorTrailer, hc, ?_⟩
    have h1 : c .env_name = .str "tt2d" := by rw [hf _ (by decide)]; simp
    have e1 : getEnvArg statCall c .env_name = some (.str "tt2d") := by
      rw [getEnvArg, if_pos (by decide), h1]
    have e2 : getEnvArg statCall c .num_trailers = some (.int 1) := by
      rw [getEnvArg, if_pos (by decide), hn]
    simp only [buildRobot, e1, e2, Val.text, Val.int', (C44_dispatch 1).2.1]

/-- **C64 (search range).** Every suggested value is one of 0.5, 1, …, 5. -/
theorem C64_grid (k : Fin 10 × Fin 10) : ∃ d s : ℝ, suggested k "d_thr_factor" = some (.float d) ∧
    suggested k "k_switch" = some (.float s) ∧ 0.5 ≤ d ∧ d ≤ 5 ∧ 0.5 ≤ s ∧ s ≤ 5 ∧
    (∃ m : ℕ, 1 ≤ m ∧ m ≤ 10 ∧ d = m / 2) ∧ (∃ m : ℕ, 1 ≤ m ∧ m ≤ 10 ∧ s = m / 2) := by
  have hg : ∀ i : Fin 10, 0.5 ≤ gridValue i ∧ gridValue i ≤ 5 ∧
      ∃ m : ℕ, 1 ≤ m ∧ m ≤ 10 ∧ gridValue i = m / 2 := by
    intro i
    have h1 : ((i : ℕ) : ℝ) ≤ 9 := by exact_mod_cast (by omega : (i : ℕ) ≤ 9)
    have h0 : (0 : ℝ) ≤ ((i : ℕ) : ℝ) := Nat.cast_nonneg _
    refine ⟨by unfold gridValue; norm_num, ?_, (i : ℕ) + 1, by omega, by omega, ?_⟩
    · have e : gridValue i = 1 / 2 + 1 / 2 * ((i : ℕ) : ℝ) := by unfold gridValue; norm_num
      rw [e]; linarith
    · unfold gridValue; push_cast; ring
  refine ⟨gridValue k.1, gridValue k.2, by simp [suggested], by simp [suggested], (hg _).1, (hg _).2.1,
    (hg _).1, (hg _).2.1, (hg _).2.2, (hg _).2.2⟩

/-! ### One evaluation in a running process -/

namespace World

theorem run_xs_ne {Q : Type} (w : World Q) (o : ℕ) (normal : Key → ℕ → ℕ → ℕ → ℕ → U) (cfg : Cfg) :
    (w.run o normal cfg).2.xs ≠ [] := by simp [run]

theorem batch_length {Q : Type} (normal : Key → ℕ → ℕ → ℕ → ℕ → U) (cfg : Cfg) (os : List ℕ) :
    ∀ w : World Q, (batch normal cfg w os).length = os.length := by
  induction os with
  | nil => intro w; rfl
  | cons o os ih => intro w; simp [batch, ih]

theorem batch_xs_ne {Q : Type} (normal : Key → ℕ → ℕ → ℕ → ℕ → U) (cfg : Cfg) (os : List ℕ) :
    ∀ w : World Q, ∀ r ∈ batch normal cfg w os, r.xs ≠ [] := by
  induction os with
  | nil => intro w r hr; simp [batch] at hr
  | cons o os ih =>
    intro w r hr
    rw [batch, List.mem_cons] at hr
    rcases hr with rfl | hr
    · exact run_xs_ne w o normal cfg
    · exact ih _ r hr

theorem batchEnd_wf {Q : Type} (normal : Key → ℕ → ℕ → ℕ → ℕ → U) (cfg : Cfg) (os : List ℕ) :
    ∀ {w : World Q}, WF w → WF (batchEnd normal cfg w os) := by
  induction os with
  | nil => intro w h; exact h
  | cons o os ih => intro w h; exact ih (run_wf h o normal cfg)

theorem batchEnd_unused {Q : Type} (normal : Key → ℕ → ℕ → ℕ → ℕ → U) (cfg : Cfg) (os : List ℕ) (p : ℕ)
    (hp : p ∉ os) : ∀ {w : World Q}, Unused w p → Unused (batchEnd normal cfg w os) p := by
  induction os with
  | nil => intro w h; exact h
  | cons o os ih =>
    intro w h
    rw [List.mem_cons, not_or] at hp
    exact ih hp.2 (run_unused h (Ne.symm hp.1) normal cfg)

/-- Batches on equal robots of one class, both started with an empty dictionary and unused objects, give
the same results. -/
theorem batch_transfer {Q : Type} {w w' : World Q} (hw : WF w) (hf : w.funcs = fun _ => none)
    (hr : w.rev = none) (hw' : WF w') (hf' : w'.funcs = fun _ => none) (hr' : w'.rev = none)
    (l : List ℕ) (f g : ℕ → ℕ) (hnf : (l.map f).Nodup) (hng : (l.map g).Nodup)
    (huf : ∀ i ∈ l, Unused w (f i)) (hug : ∀ i ∈ l, Unused w' (g i))
    (heq : ∀ i ∈ l, w.heap (f i) = w'.heap (g i))
    (hcls : ∀ i ∈ l, ∀ j ∈ l, (w.heap (f i)).cls = (w.heap (f j)).cls)
    (normal : Key → ℕ → ℕ → ℕ → ℕ → U) (cfg : Cfg) :
    batch normal cfg w (l.map f) = batch normal cfg w' (l.map g) := by
  by_cases hg : cfg.enableGuidance = true
  · rw [batch_guided hg normal _ hw hf hr hnf (by simpa using huf),
      batch_guided hg normal _ hw' hf' hr' hng (by simpa using hug), List.map_map, List.map_map]
    apply List.map_congr_left
    intro i hi
    simp only [Function.comp, heq i hi]
  · have hg : cfg.enableGuidance = false := by simpa using hg
    cases l with
    | nil => rfl
    | cons a l =>
      rw [List.map_cons, List.map_cons,
        batch_cleared hw hf hr (f a) (l.map f) hnf (by simpa using huf) ?_ normal cfg hg,
        batch_cleared hw' hf' hr' (g a) (l.map g) hng (by simpa using hug) ?_ normal cfg hg,
        heq a (by simp), List.map_map, List.map_map]
      · congr 1
        apply List.map_congr_left
        intro i hi
        simp only [Function.comp, heq i (List.mem_cons_of_mem _ hi)]
      · intro o ho
        obtain ⟨i, hi, rfl⟩ := List.mem_map.1 ho
        rw [← heq i (by simp [hi]), ← heq a (by simp)]
        exact hcls i (by simp [hi]) a (by simp)
      · intro o ho
        obtain ⟨i, hi, rfl⟩ := List.mem_map.1 ho
        exact hcls i (by simp [hi]) a (by simp)

/-- A process in which the objects from `next` on are unused. -/
structure Ready (w : World Q4) (next : ℕ) : Prop where
  wf : WF w
  unused : ∀ o, next ≤ o → Unused w o

theorem Ready.clear {w : World Q4} {next : ℕ} (h : Ready w next) : Ready w.clear next :=
  ⟨clear_wf h.wf, fun o ho =>
    let u := h.unused o ho
    ⟨u.reset, u.step, u.viz, u.term, fun _ _ hh => by simp [World.clear] at hh,
      fun _ hh => by simp [World.clear] at hh⟩⟩

/-- One evaluation in a running process whose dictionary is empty: the report is the one a new process
gives, and the process is ready for the next evaluation. -/
theorem evaluate_isolated {w : World Q4} {next : ℕ} (h : Ready w next) (hf : w.funcs = fun _ => none)
    (hr : w.rev = none) (base : Params) (ext : Ext Q4) (normal : Key → ℕ → ℕ → ℕ → ℕ → U) (cfg : Cfg)
    (times : ℕ → ℝ) (draws : ℕ → Draw) (n : ℕ) :
    (w.evaluate next base ext normal cfg times draws n).2.2 =
      evaluateTT2d base ext normal cfg times draws n ∧
    Ready (w.evaluate next base ext normal cfg times draws n).1
      (w.evaluate next base ext normal cfg times draws n).2.1 := by
  unfold World.evaluate evaluateTT2d
  simp only
  cases hm : (sampleInitialConditions isValidStart draws n).1.mapM
      (fun t => (trialTT2d base t).toOption) with
  | none => exact ⟨rfl, h⟩
  | some robots =>
    simp only
    set robot := fun (i : ℕ) => robots.getD i
      { toParams := base, x0 := ⟨0, 0, 0, 0⟩, xg := ⟨0, 0, 0, 0⟩ } with hrob
    set w1 : World Q4 := w.alloc next robots.length fun i => (robot i).obj ext with hw1
    have hready : Ready w1 next :=
      ⟨⟨h.wf.roll, h.wf.funcs, h.wf.rev⟩, fun o ho =>
        let u := h.unused o ho
        ⟨u.reset, u.step, u.viz, u.term, u.funcs, u.rev⟩⟩
    have hheap : ∀ i ∈ List.range robots.length, w1.heap (next + i) = (robot i).obj ext := by
      intro i hi
      rw [List.mem_range] at hi
      simp only [hw1, alloc]
      rw [if_pos ⟨by omega, by omega⟩, Nat.add_sub_cancel_left]
    have hb : batch normal cfg w1 ((List.range robots.length).map (next + ·)) =
        batch normal cfg (init fun i => (robot i).obj ext) (List.range robots.length) := by
      have := batch_transfer (w := w1) (w' := init fun i => (robot i).obj ext) hready.wf hf hr
        (init_wf _) rfl rfl (List.range robots.length) (next + ·) id
        (List.nodup_range.map (fun a b hab => by simpa using hab)) (by simpa using List.nodup_range)
        (fun i _ => hready.unused _ (by omega)) (fun i _ => init_unused _ _)
        (fun i hi => hheap i hi) (fun i hi j hj => by rw [hheap i hi, hheap j hj]; rfl) normal cfg
      simpa using this
    refine ⟨by rw [hb]; rfl, batchEnd_wf normal cfg _ hready.wf, ?_⟩
    intro o ho
    apply batchEnd_unused normal cfg _ o _ (hready.unused o (by omega))
    intro hmem
    obtain ⟨i, hi, rfl⟩ := List.mem_map.1 hmem
    rw [List.mem_range] at hi
    omega

end World

/-- A report of the evaluation exists for every positive number of trials; its rates are exact fractions. -/
theorem evaluateTT2d_total (base : Params) (ext : Ext Q4) (normal : Key → ℕ → ℕ → ℕ → ℕ → U) (cfg : Cfg)
    (times : ℕ → ℝ) (draws : ℕ → Draw) (n : ℕ) :
    ∃ rs : List TrialResult, evaluateTT2d base ext normal cfg times draws n = aggregate n rs ∧
      rs.length ≤ n ∧ ∀ r ∈ rs, Spec.Evaluated 4 r.verdict := by
  set ts := (sampleInitialConditions isValidStart draws n).1 with hts
  have hle : ts.length ≤ n := (C52_sampling isValidStart isValidStart_ignores draws n).1
  have hm : ts.mapM (fun t => (trialTT2d base t).toOption) = some (ts.map (trialRobot base)) := by
    clear hts hle
    induction ts with
    | nil => rfl
    | cons a l ih =>
      rw [List.mapM_cons, ih, trialTT2d_closed]
      rfl
  simp only [evaluateTT2d, ← hts, hm, List.length_map]
  set robot := fun (i : ℕ) => (ts.map (trialRobot base)).getD i
    { toParams := base, x0 := ⟨0, 0, 0, 0⟩, xg := ⟨0, 0, 0, 0⟩ } with hrob
  set runs := World.batch normal cfg (World.init fun i => (robot i).obj ext) (List.range ts.length) with hruns
  have hne : ∀ r ∈ runs, r.xs ≠ [] := World.batch_xs_ne normal cfg _ _
  obtain ⟨rs, h1, h2⟩ := mapM_option (fun p : ℕ × Result Q4 =>
      (evaluateTrial (robot p.1).evalEnv goalThreshold p.2.xs).map
        fun v => (⟨v, times p.1⟩ : TrialResult)) ((List.range ts.length).zip runs) (by
    intro p hp
    have hp2 : p.2 ∈ runs := (List.of_mem_zip hp).2
    cases hv : evaluateTrial (robot p.1).evalEnv goalThreshold p.2.xs with
    | none => exact absurd ((evaluate_ok _ goalThreshold _).1.1 hv) (hne _ hp2)
    | some v => exact ⟨⟨v, times p.1⟩, rfl⟩)
  rw [h1]
  have hlen : rs.length = ts.length := by
    rw [← h2.length_eq, List.length_zip, List.length_range, hruns, World.batch_length]
    simp
  refine ⟨rs, rfl, hlen ▸ hle, ?_⟩
  intro r hr
  obtain ⟨j, hj, rfl⟩ := List.getElem_of_mem hr
  have := List.Forall₂.get h2 (i := j) (by rw [h2.length_eq]; exact hj) hj
  simp only [List.get_eq_getElem] at this
  set p := ((List.range ts.length).zip runs)[j]'(by rw [h2.length_eq]; exact hj) with hp
  cases hv : evaluateTrial (robot p.1).evalEnv goalThreshold p.2.xs with
  | none => rw [hv] at this; simp at this
  | some v =>
    rw [hv] at this
    simp only [Option.map_some, Option.some.injEq] at this
    rw [← this]
    exact ⟨Q4, _, _, hv⟩

/-! ### A study -/

theorem attrParams_congr {a b : Field → Option Val} (h : ∀ f ∈ Spec.robotSettings, a f = b f)
    {circles : List Circle} {rects : List Rect} :
    attrParams a circles rects = attrParams b circles rects := by
  simp only [Spec.robotSettings, List.mem_cons, List.not_mem_nil, or_false, forall_eq_or_imp,
    forall_eq] at h
  simp only [attrParams, h]

/-- The configuration of trial `i` of a study. -/
theorem study_config (base : Config) (k : Fin 10 × Fin 10) (hb : base .env_name = .str "tt2d") :
    ∃ c, tunedConfig base (suggested k) = .ok c ∧ c .d_thr_factor = .float (gridValue k.1) ∧
      c .k_switch = .float (gridValue k.2) ∧ (∀ f ∈ Spec.fixedFields, c f = base f) ∧
      buildRobot statCall c = .ok (.tractorTrailer, robotAttr statCall c .tractorTrailer) := by
  obtain ⟨c, hc, hd, hk, hf, -, hn⟩ := C64_config_partial base (suggested k) (.float (gridValue k.1))
    (.float (gridValue k.2)) (by simp [suggested]) (by simp [suggested])
  refine ⟨c, hc, hd, hk, hf, ?_⟩
  have h1 : c .env_name = .str "tt2d" := by rw [hf _ (by decide), hb]
  have e1 : getEnvArg statCall c .env_name = some (.str "tt2d") := by
    rw [getEnvArg, if_pos (by decide), h1]
  have e2 : getEnvArg statCall c .num_trailers = some (.int 1) := by
    rw [getEnvArg, if_pos (by decide), hn]
  simp only [buildRobot, e1, e2, Val.text, Val.int', (C44_dispatch 1).2.1]

/-- The report a new process gives for the values `k`: the tractor-trailer built from the base
configuration with the two values replaced, planned with that configuration. -/
noncomputable def isolatedReport (base : Config) (ext : Ext Q4) (O : TuneOracle) (n i : ℕ)
    (k : Fin 10 × Fin 10) : Option Stats :=
  let c := Function.update (Function.update base .d_thr_factor (.float (gridValue k.1)))
    .k_switch (.float (gridValue k.2))
  evaluateTT2d (attrParams (fun f => some (c f)) [] []) ext (O.normal (Val.int' (some (c .seed)))) (Config.plan c)
    (O.times i) O.draws n

theorem objective_isolated {w : World Q4} {next : ℕ} (h : World.Ready w next) (base : Config)
    (hb : base .env_name = .str "tt2d") (ext : Ext Q4) (O : TuneOracle) (n i : ℕ) (hn : n ≠ 0) :
    ∃ s w' next' out, isolatedReport base ext O n i (O.suggest i) = some s ∧
      w.objective next base ext O n i = some (w', next', out) ∧ World.Ready w' next' ∧
      out = (if O.prune i s.successRate then .pruned s.successRate
        else .complete s.successRate (safetyScore s) s) := by
  obtain ⟨c, hc, hd, hk, hf, hbuild⟩ := study_config base (O.suggest i) hb
  have hiso := World.evaluate_isolated h.clear rfl rfl
    (attrParams (robotAttr statCall c .tractorTrailer) [] []) ext
    (O.normal (Val.int' (some (c .seed)))) (Config.plan c) (O.times i) O.draws n
  have hattr : ∀ f ∈ Spec.robotSettings, robotAttr statCall c .tractorTrailer f =
      some (Function.update (Function.update base .d_thr_factor (.float (gridValue (O.suggest i).1)))
        .k_switch (.float (gridValue (O.suggest i).2)) f) := by
    intro f hfs
    rw [(C63_honoured_partial c (Or.inr hbuild)).2 f (List.mem_append_left _ hfs)]
    by_cases e1 : f = .k_switch
    · subst e1; rw [Function.update_self, hk]
    · rw [Function.update_of_ne e1]
      by_cases e2 : f = .d_thr_factor
      · subst e2; rw [Function.update_self, hd]
      · rw [Function.update_of_ne e2, hf]
        rcases fields_covered f with h | h | h
        · exact h
        · exfalso
          simp only [Spec.renderFields, List.mem_cons, List.not_mem_nil, or_false] at h
          rcases h with rfl | rfl | rfl | rfl <;> simp [Spec.robotSettings] at hfs
        · exfalso
          simp only [List.mem_cons, List.not_mem_nil, or_false] at h
          rcases h with rfl | rfl | rfl
          · exact e2 rfl
          · exact e1 rfl
          · simp [Spec.robotSettings] at hfs
  have hP : attrParams (robotAttr statCall c .tractorTrailer) [] [] =
      attrParams (fun f => some (Function.update (Function.update base .d_thr_factor
        (.float (gridValue (O.suggest i).1))) .k_switch (.float (gridValue (O.suggest i).2)) f)) [] [] := by
    exact attrParams_congr hattr
  have hplan : (Config.plan c) = Config.plan (Function.update (Function.update base .d_thr_factor
        (.float (gridValue (O.suggest i).1))) .k_switch (.float (gridValue (O.suggest i).2))) ∧
      c .seed = base .seed := by
    have hf' := hf
    simp only [Spec.fixedFields, List.mem_cons, List.not_mem_nil, or_false, forall_eq_or_imp, forall_eq] at hf'
    unfold Config.plan
    simp only [hf', ne_eq, reduceCtorEq, not_false_eq_true,
      Function.update_of_ne, and_self]
  have hrep : (w.clear.evaluate next (attrParams (robotAttr statCall c .tractorTrailer) [] []) ext
      (O.normal (Val.int' (some (c .seed)))) (Config.plan c) (O.times i) O.draws n).2.2 =
      isolatedReport base ext O n i (O.suggest i) := by
    rw [hiso.1, hP, hplan.1, hplan.2]
    unfold isolatedReport
    simp
  obtain ⟨rs, h1, h2, h3⟩ := evaluateTT2d_total (attrParams (fun f => some (Function.update (Function.update
    base .d_thr_factor (.float (gridValue (O.suggest i).1))) .k_switch
      (.float (gridValue (O.suggest i).2)) f)) [] []) ext (O.normal (Val.int' (some (Function.update
        (Function.update base .d_thr_factor (.float (gridValue (O.suggest i).1))) .k_switch
        (.float (gridValue (O.suggest i).2)) .seed)))) (Config.plan (Function.update (Function.update
        base .d_thr_factor (.float (gridValue (O.suggest i).1))) .k_switch
        (.float (gridValue (O.suggest i).2)))) (O.times i) O.draws n
  have hs : ∃ s, isolatedReport base ext O n i (O.suggest i) = some s := by
    unfold isolatedReport
    simp only
    rw [h1, aggregate, if_neg hn]
    exact ⟨_, rfl⟩
  obtain ⟨s, hs⟩ := hs
  refine ⟨s, _, _, _, hs, ?_, hiso.2, rfl⟩
  unfold World.objective
  simp only [hc, hbuild, hrep, hs]
  split_ifs <;> rfl

theorem study_isolated (base : Config) (hb : base .env_name = .str "tt2d") (ext : Ext Q4) (O : TuneOracle)
    (n : ℕ) (hn : n ≠ 0) (m : ℕ) : ∀ (i : ℕ) (w : World Q4) (next : ℕ), World.Ready w next →
    ∃ outs, World.study base ext O n m i w next = some outs ∧ outs.length = m ∧
      ∀ j (hj : j < outs.length), ∃ s, isolatedReport base ext O n (i + j) (O.suggest (i + j)) = some s ∧
        outs[j] = (if O.prune (i + j) s.successRate then .pruned s.successRate
          else .complete s.successRate (safetyScore s) s) := by
  induction m with
  | zero => intro i w next _; exact ⟨[], rfl, rfl, fun j hj => by simp at hj⟩
  | succ m ih =>
    intro i w next h
    obtain ⟨s, w', next', out, h1, h2, h3, h4⟩ := objective_isolated h base hb ext O n i hn
    obtain ⟨outs, g1, g2, g3⟩ := ih (i + 1) w' next' h3
    refine ⟨out :: outs, by simp only [World.study, h2, g1], by simp [g2], ?_⟩
    intro j hj
    cases j with
    | zero => exact ⟨s, by simpa using h1, by simpa using h4⟩
    | succ j =>
      obtain ⟨s', k1, k2⟩ := g3 j (by simpa using hj)
      have e : i + (j + 1) = i + 1 + j := by omega
      rw [e]
      exact ⟨s', k1, by simpa using k2⟩

/-- **C64 (scores).** A study of any number of trials, with any suggestions and pruning decisions, in a
process with any history (any earlier runs, on any robots): every trial ends with a score, and
the score and the recorded report of trial `j` are exactly those that evaluating the base configuration
with this trial's two values would give alone in a new process. -/
theorem C64_scores (base : Config) (hb : base .env_name = .str "tt2d") (ext : Ext Q4) (O : TuneOracle)
    (n : ℕ) (hn : n ≠ 0) (m : ℕ) (heap : ℕ → Obj Q4) (ops : List (Op Q4)) (next : ℕ)
    (hops : ∀ op ∈ ops, ∀ o, next ≤ o → Op.NotUsing o op) :
    ∃ outs, World.study base ext O n m 0 ((World.init heap).history ops) next = some outs ∧
      outs.length = m ∧
      ∀ j (hj : j < outs.length), ∃ s, isolatedReport base ext O n j (O.suggest j) = some s ∧
        (outs[j] = .pruned s.successRate ∨ outs[j] = .complete s.successRate (safetyScore s) s) := by
  have hready : World.Ready ((World.init heap).history ops) next :=
    ⟨World.history_wf ops (World.init_wf heap), fun o ho =>
      World.history_unused ops (World.init_unused heap o) (fun op hop => hops op hop o ho)⟩
  obtain ⟨outs, h1, h2, h3⟩ := study_isolated base hb ext O n hn m 0 _ next hready
  refine ⟨outs, h1, h2, fun j hj => ?_⟩
  obtain ⟨s, k1, k2⟩ := h3 j hj
  simp only [Nat.zero_add] at k1 k2
  refine ⟨s, k1, ?_⟩
  rw [k2]
  split_ifs
  · exact Or.inl rfl
  · exact Or.inr rfl

/-- **C64 (no zero).** With zero trials per evaluation every study of at least one trial raises. -/
theorem C64_zero (base : Config) (hb : base .env_name = .str "tt2d") (ext : Ext Q4) (O : TuneOracle) (m : ℕ)
    (heap : ℕ → Obj Q4) : World.study base ext O 0 (m + 1) 0 (World.init heap) 0 = none := by
  obtain ⟨c, hc, hd, hk, hf, hbuild⟩ := study_config base (O.suggest 0) hb
  have hready : World.Ready (World.init heap) 0 := ⟨World.init_wf heap, fun o _ => World.init_unused heap o⟩
  have hiso := (World.evaluate_isolated hready.clear rfl rfl
    (attrParams (robotAttr statCall c .tractorTrailer) [] []) ext
    (O.normal (Val.int' (some (c .seed)))) (Config.plan c) (O.times 0) O.draws 0).1
  obtain ⟨rs, h1, -⟩ := evaluateTT2d_total (attrParams (robotAttr statCall c .tractorTrailer) [] []) ext
    (O.normal (Val.int' (some (c .seed)))) (Config.plan c) (O.times 0) O.draws 0
  rw [h1, C53_zero_trials] at hiso
  simp only [World.study, World.objective, hc, hbuild, hiso]

/-- **C64 (meaning of the score).** The score is the fraction of the requested trials that succeeded; if
at least one start was sampled, the recorded safety is one minus the average of the collision rate and the
jackknife rate, and both lie between 0 and 1. -/
theorem C64_range (base : Config) (ext : Ext Q4) (O : TuneOracle) (n i : ℕ) (hn : n ≠ 0)
    (k : Fin 10 × Fin 10) :
    ∃ s, isolatedReport base ext O n i k = some s ∧
      Spec.IsRate s.successRate (Spec.countOf (fun r : TrialResult => r.verdict.success = true) s.results) n ∧
      (s.results ≠ [] → ∃ x c j, safetyScore s = some x ∧ 0 ≤ x ∧ x ≤ 1 ∧ x = ((1 - c) + (1 - j)) / 2 ∧
        Spec.IsRate c (Spec.countOf (fun r : TrialResult => r.verdict.collision = true) s.results)
          s.results.length ∧
        Spec.IsRate j (Spec.countOf (fun r : TrialResult => r.verdict.jackknife = true) s.results)
          s.results.length ∧
        s.successRate ≤ x) := by
  unfold isolatedReport
  simp only
  set c := Function.update (Function.update base Field.d_thr_factor (.float (gridValue k.1)))
    Field.k_switch (.float (gridValue k.2))
  obtain ⟨rs, h1, h2, h3⟩ := evaluateTT2d_total (attrParams (fun f => some (c f)) [] []) ext
    (O.normal (Val.int' (some (c .seed)))) (Config.plan c) (O.times i) O.draws n
  rw [h1]
  by_cases hrs : rs = []
  · subst hrs
    rw [aggregate, if_neg hn]
    refine ⟨_, rfl, ?_, fun h => absurd rfl h⟩
    simp [Spec.IsRate, Spec.countOf]
  · obtain ⟨s, c', j, g1, g2, g3, g4, g5, g6, g7, g8, g9, g10, g11, g12, -⟩ := C53_consistent n 4 rs hrs h2 h3
    refine ⟨s, g1, ?_, fun _ => ⟨1 - (c' + j) / 2, c', j, ?_, ?_, ?_, by ring, ?_, ?_, ?_⟩⟩
    · rw [g4, ← g6]; exact g8
    · rw [safetyScore, g2, g3]
    · linarith [g9.2.1, g10.2.1]
    · linarith [g9.1, g10.1]
    · rw [g4]; exact g9
    · rw [g4]; exact g10
    · linarith

/-- **C64 (safe vehicles).** For a base configuration of the default shape with both shields and without
projection and guidance, every trial with at least one start has safety exactly 1. -/
theorem C64_safe (base : Config) (ht : ∀ f ∈ [Field.l1, .lf1, .lr, .lh, .l2, .lf2, .lr2, .tractor_width,
      .trailer_width, .enable_shielded_rollout_collision, .enable_shielded_rollout_hitch,
      .enable_projection, .enable_guidance], base f = dataclassDefault f)
    (ext : Ext Q4) (O : TuneOracle) (n i : ℕ) (hn : n ≠ 0) (k : Fin 10 × Fin 10) :
    ∃ s, isolatedReport base ext O n i k = some s ∧ (s.results ≠ [] → safetyScore s = some 1) := by
  simp only [List.mem_cons, List.not_mem_nil, or_false, forall_eq_or_imp, forall_eq] at ht
  obtain ⟨a1, a2, a3, a4, a5, a6, a7, a8, a9, a10, a11, a12, a13⟩ := ht
  unfold isolatedReport
  simp only
  obtain ⟨S, hS, -, -, hr⟩ := C62_safe (attrParams (fun f => some (Function.update (Function.update base
    Field.d_thr_factor (.float (gridValue k.1))) Field.k_switch (.float (gridValue k.2)) f)) [] [])
    (by
      constructor <;>
        simp [attrParams, Function.update_of_ne, a1, a2, a3, a4, a5, a6, a7, a8, a9, dataclassDefault,
          Params.default, Val.num] <;> norm_num)
    (by simp [attrParams, a10, dataclassDefault, Val.flag])
    (by simp [attrParams, a11, dataclassDefault, Val.flag])
    (by simp [attrParams, a12, dataclassDefault, Val.flag])
    (by simp [attrParams, a13, dataclassDefault, Val.flag]) ext
    (O.normal (Val.int' (some (Function.update (Function.update base
      Field.d_thr_factor (.float (gridValue k.1))) Field.k_switch (.float (gridValue k.2)) .seed))))
    (Config.plan (Function.update (Function.update base
      Field.d_thr_factor (.float (gridValue k.1))) Field.k_switch (.float (gridValue k.2))))
    (by simp [Config.plan, a13, dataclassDefault, Val.flag]) (O.times i) O.draws n hn
  refine ⟨S, hS, fun hne => ?_⟩
  obtain ⟨h1, h2⟩ := hr hne
  rw [safetyScore, h1, h2]
  norm_num

example : ∃ base : Config, base .env_name = .str "tt2d" ∧ ∀ f ∈ [Field.l1, .lf1, .lr, .lh, .l2, .lf2, .lr2,
    .tractor_width, .trailer_width, .enable_shielded_rollout_collision, .enable_shielded_rollout_hitch,
      .enable_projection, .enable_guidance], base f = dataclassDefault f :=
  ⟨Function.update dataclassDefault .env_name (.str "tt2d"), by simp, by
    intro f hf
    rw [Function.update_of_ne]
    rintro rfl
    simp at hf⟩

end Mbd
