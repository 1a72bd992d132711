import Verif.Wiring
import Verif.PropsConfig
import Verif.PropsSetup
import Mathlib.Tactic.FinCases

/-!
# C63: the robot is built from the configuration
-/

namespace Spec

open Mbd

/-- Every attribute has a value of its declared type. -/
def WellTyped (c : Config) : Prop := ∀ f, HasKind (c f) (declaredKind f)

/-- The settings of a configuration that describe the robot and its reward (and not the planner, the
rendering or the choice of the class); `Hsample` is the robot's horizon `H`. -/
def robotSettings : List Field :=
  [.case, .dt, .Hsample, .motion_preference, .collision_penalty, .hitch_penalty,
   .enable_shielded_rollout_collision, .enable_shielded_rollout_hitch, .enable_projection,
   .enable_guidance, .l1, .l2, .lh, .lf1, .lr, .lf2, .lr2, .tractor_width, .trailer_width, .v_max,
   .delta_max_deg, .reward_threshold, .ref_reward_threshold, .max_w_theta, .hitch_angle_weight,
   .terminal_reward_threshold, .terminal_reward_weight, .d_thr_factor, .k_switch, .steering_weight,
   .preference_penalty_weight, .heading_reward_weight, .ref_pos_weight, .ref_theta1_weight,
   .ref_theta2_weight]

/-- The additional settings of one class. -/
def extraSettings : Kind → List Field
  | .acc => [.a_max, .omega_max]
  | .nTrailer _ => [.num_trailers]
  | _ => []

/-- The settings a program does not hand over to the robot. -/
def ignoredBy (call : List Field) (k : Kind) : List Field :=
  (robotSettings ++ extraSettings k).filter fun f => f ∉ call

end Spec

namespace Mbd

open Classical

theorem built_class {call : List Field} {c : Config} {k : Kind} {a : Field → Option Val}
    (h : buildRobot call c = .ok (k, a)) : a = robotAttr call c k ∧
    getEnvKind (Val.text (getEnvArg call c .env_name)) (Val.int' (getEnvArg call c .num_trailers)) = .ok k := by
  unfold buildRobot at h
  split at h
  · simp at h
  · rename_i k' hk
    simp only [Except.ok.injEq, Prod.mk.injEq] at h
    obtain ⟨rfl, rfl⟩ := h
    exact ⟨rfl, hk⟩

theorem attr_of_passed {call : List Field} {c : Config} {k : Kind} {f : Field}
    (hf : f ∈ Spec.robotSettings ++ Spec.extraSettings k) (hc : f ∈ call) :
    robotAttr call c k f = some (c f) := by
  have hfw : f ∈ forwardedKeywords k := by
    rcases List.mem_append.1 hf with h | h
    · have : ∀ f ∈ Spec.robotSettings, f ∈ commonKeywords := by decide
      have := this f h
      cases k <;> simp [forwardedKeywords, this]
    · cases k <;> simp [Spec.extraSettings] at h
      · subst h; simp [forwardedKeywords]
      · rcases h with rfl | rfl <;> simp [forwardedKeywords]
  rw [robotAttr, if_pos hfw, getEnvArg, if_pos hc]

theorem attr_of_dropped {call : List Field} {c : Config} {k : Kind} {f : Field}
    (hf : f ∈ Spec.ignoredBy call k) : robotAttr call c k f = getEnvDefault f := by
  unfold Spec.ignoredBy at hf
  rw [List.mem_filter] at hf
  obtain ⟨hf, hc⟩ := hf
  have hc : f ∉ call := by simpa using hc
  have hfw : f ∈ forwardedKeywords k := by
    rcases List.mem_append.1 hf with h | h
    · have : ∀ f ∈ Spec.robotSettings, f ∈ commonKeywords := by decide
      have := this f h
      cases k <;> simp [forwardedKeywords, this]
    · cases k <;> simp [Spec.extraSettings] at h
      · subst h; simp [forwardedKeywords]
      · rcases h with rfl | rfl <;> simp [forwardedKeywords]
  rw [robotAttr, if_pos hfw, getEnvArg, if_neg hc]

/-- Every robot setting is passed by the main program and by the statistical evaluation. -/
theorem passed_all (k : Kind) : ∀ f ∈ Spec.robotSettings ++ Spec.extraSettings k,
    f ∈ mainCall ∧ f ∈ statCall := by
  intro f hf
  rcases List.mem_append.1 hf with h | h
  · have : ∀ f ∈ Spec.robotSettings, f ∈ mainCall ∧ f ∈ statCall := by decide
    exact this f h
  · cases k <;> simp [Spec.extraSettings] at h
    · subst h; decide
    · rcases h with rfl | rfl <;> decide

/-- **C63.** The main program and the statistical evaluation build the class named by the configuration,
and every setting of that robot is the configuration's. -/
theorem C63_honoured_partial (c : Config) {k : Kind} {a : Field → Option Val}
    (h : buildRobot mainCall c = .ok (k, a) ∨ buildRobot statCall c = .ok (k, a)) :
    getEnvKind (Val.text (some (c .env_name))) (Val.int' (some (c .num_trailers))) = .ok k ∧
    ∀ f ∈ Spec.robotSettings ++ Spec.extraSettings k, a f = some (c f) := by
  rcases h with h | h
  · obtain ⟨rfl, hk⟩ := built_class h
    exact ⟨hk, fun f hf => attr_of_passed hf (passed_all k f hf).1⟩
  · obtain ⟨rfl, hk⟩ := built_class h
    exact ⟨hk, fun f hf => attr_of_passed hf (passed_all k f hf).2⟩

example : ∃ k a, buildRobot mainCall dataclassDefault = .ok (k, a) :=
  ⟨.acc, robotAttr mainCall dataclassDefault .acc, by simp [buildRobot, getEnvArg, mainCall,
    Val.text, getEnvKind, dataclassDefault]⟩

/-- **C63 (exceptions).** Building fails exactly for an unknown name and for an N-trailer with fewer than
two trailers. -/
theorem C63_errors (c : Config) (name : String) (n : ℤ) (hn : c .env_name = .str name)
    (hm : c .num_trailers = .int n) (call : List Field) (hc : call = mainCall ∨ call = statCall) :
    (∃ e, buildRobot call c = .error e) ↔
      name ∉ ["tt2d", "n_trailer2d", "acc_tt2d", "kinematic_bicycle2d"] ∨
      (name = "n_trailer2d" ∧ n < 2) := by
  have hargs : getEnvArg call c .env_name = some (.str name) ∧
      getEnvArg call c .num_trailers = some (.int n) := by
    rcases hc with rfl | rfl <;>
    · refine ⟨?_, ?_⟩
      · rw [getEnvArg, if_pos (by decide), hn]
      · rw [getEnvArg, if_pos (by decide), hm]
  have hk : (∃ e, buildRobot call c = .error e) ↔ ∃ e, getEnvKind name n = .error e := by
    unfold buildRobot
    rw [hargs.1, hargs.2]
    simp only [Val.text, Val.int']
    cases getEnvKind name n <;> simp
  rw [hk, ← C44_unknown name n]
  constructor
  · rintro ⟨e, he⟩
    by_cases h1 : getEnvKind name n = .error .unknownEnvironment
    · exact Or.inl h1
    · right
      unfold getEnvKind at he h1
      simp only at he h1
      split_ifs at he h1 <;> first | contradiction | (simp at he; done) | (simp at h1; done) |
        exact ⟨by assumption, by omega⟩
  · rintro (h | ⟨rfl, h⟩)
    · exact ⟨_, h⟩
    · exact ⟨_, (C44_dispatch n).2.2.2.2.1 h⟩

example : ∃ e, buildRobot mainCall (Function.update dataclassDefault .env_name (.str "tt3d")) = .error e :=
  (C63_errors _ "tt3d" 1 (by simp) (by simp [dataclassDefault]) mainCall (Or.inl rfl)).2
    (Or.inl (by decide))

/-- **C63 (defaults).** Where a program passes nothing, `get_env` and the constructor of the
tractor-trailer have the same defaults. -/
theorem C63_defaults (circles : List Circle) (rects : List Rect) :
    attrParams getEnvDefault circles rects = Params.default circles rects := by
  simp only [attrParams, getEnvDefault, Params.default, Val.num, Val.int', Val.flag]
  norm_num
  rfl

/-- The settings for which `MBDConfig()` and `get_env` have different defaults. -/
def Spec.disputedDefaults : List Field :=
  [.case, .dt, .reward_threshold, .ref_reward_threshold, .max_w_theta, .hitch_angle_weight, .steering_weight,
   .preference_penalty_weight, .terminal_reward_threshold, .terminal_reward_weight, .ref_pos_weight,
   .ref_theta1_weight, .ref_theta2_weight]

/-- **C63 (two sets of defaults).** A setting that a program fails to pass on comes out as in the default configuration
object exactly if it is not one of thirteen, among them the time step (0.2 instead of 0.25), the scenario and eleven
reward settings. -/
theorem C63_two_defaults (f : Field) (hf : f ∈ Spec.robotSettings ++ [.a_max, .omega_max, .num_trailers]) :
    getEnvDefault f = some (dataclassDefault f) ↔ f ∉ Spec.disputedDefaults := by
  simp only [Spec.robotSettings, List.cons_append, List.nil_append, List.mem_cons, List.not_mem_nil, or_false] at hf
  rcases hf with h | h | h | h | h | h | h | h | h | h | h | h | h | h | h | h | h | h | h | h | h | h | h | h | h | h |
    h | h | h | h | h | h | h | h | h | h | h | h <;> subst h <;>
    simp only [getEnvDefault, dataclassDefault, Spec.disputedDefaults, Option.some.injEq, Val.float.injEq, Val.int.injEq,
      Val.bool.injEq, Val.str.injEq] <;> norm_num <;> decide

example : getEnvDefault .dt ≠ some (dataclassDefault .dt) ∧ getEnvDefault .l2 = some (dataclassDefault .l2) :=
  ⟨fun h => (C63_two_defaults .dt (by decide)).mp h (by decide), (C63_two_defaults .l2 (by decide)).mpr (by decide)⟩

/-- **C63 (which settings are lost).** For every program, configuration and class: a setting the program
passes is honoured, one it does not pass is replaced by the default whatever the configuration says. -/
theorem C63_exact (call : List Field) (c : Config) (k : Kind) (a : Field → Option Val)
    (h : buildRobot call c = .ok (k, a)) : ∀ f ∈ Spec.robotSettings ++ Spec.extraSettings k,
    (f ∈ call → a f = some (c f)) ∧ (f ∉ call → a f = getEnvDefault f) := by
  obtain ⟨rfl, -⟩ := built_class h
  intro f hf
  refine ⟨fun hc => attr_of_passed hf hc, fun hc => attr_of_dropped ?_⟩
  unfold Spec.ignoredBy
  rw [List.mem_filter]
  exact ⟨hf, by simpa using hc⟩

example : ∃ k a, buildRobot benchCall dataclassDefault = .ok (k, a) := ⟨_, _, rfl⟩

/-- **C63 fails for the benchmark script.** These settings of the configuration never reach the robot; with
the script's own configuration (the dataclass defaults) the robot's terminal reward has weight 1 and
threshold 10 instead of 5 and 20. -/
theorem C63_benchmark_refuted :
    Spec.ignoredBy benchCall .tractorTrailer =
      [.enable_projection, .enable_guidance, .lf1, .lr, .lf2, .lr2, .terminal_reward_threshold,
       .terminal_reward_weight] ∧
    ∀ c : Config, c .env_name = .str "tt2d" →
      ∃ a, buildRobot benchCall c = .ok (.tractorTrailer, a) ∧
        a .terminal_reward_weight = some (.float 1.0) ∧ a .terminal_reward_threshold = some (.float 10.0) ∧
        dataclassDefault .terminal_reward_weight = .float 5.0 ∧
        dataclassDefault .terminal_reward_threshold = .float 20.0 := by
  refine ⟨by decide, fun c hc => ⟨robotAttr benchCall c .tractorTrailer, ?_, ?_, ?_, rfl, rfl⟩⟩
  · have h1 : getEnvArg benchCall c .env_name = some (.str "tt2d") := by
      rw [getEnvArg, if_pos (by decide), hc]
    have h2 : getEnvArg benchCall c .num_trailers = some (.int 1) := by
      rw [getEnvArg, if_neg (by decide)]; rfl
    simp only [buildRobot, h1, h2, Val.text, Val.int', (C44_dispatch 1).2.1]
  · exact attr_of_dropped (by decide)
  · exact attr_of_dropped (by decide)

/-- **C63 fails for the example program** (`tests/test_mbd.py`): two configurations that agree in name, case,
time step and horizon build the same robot, so turning off the shields or changing the size of
the vehicle in the configuration has no effect; every other setting has its default. -/
theorem C63_example_refuted (c c' : Config) (hc : c .env_name = .str "acc_tt2d")
    (hsame : c' .env_name = c .env_name ∧ c' .case = c .case ∧ c' .dt = c .dt ∧
      c' .Hsample = c .Hsample) :
    ∃ a, buildRobot exampleCall c = .ok (.acc, a) ∧ buildRobot exampleCall c' = .ok (.acc, a) ∧
      (∀ f ∈ Spec.robotSettings ++ Spec.extraSettings .acc, f ∉ [Field.case, .dt, .Hsample] →
        a f = getEnvDefault f) ∧
      a .enable_shielded_rollout_collision = some (.bool true) := by
  have hb : ∀ c : Config, c .env_name = .str "acc_tt2d" →
      buildRobot exampleCall c = .ok (.acc, robotAttr exampleCall c .acc) := by
    intro c hc
    have h1 : getEnvArg exampleCall c .env_name = some (.str "acc_tt2d") := by
      rw [getEnvArg, if_pos (by decide), hc]
    simp only [buildRobot, h1, Val.text, (C44_dispatch _).2.2.2.2.2.1]
  refine ⟨_, hb c hc, ?_, ?_, attr_of_dropped (by decide)⟩
  · rw [hb c' (hsame.1.trans hc)]
    congr 2
    funext f
    have : getEnvArg exampleCall c' f = getEnvArg exampleCall c f := by
      unfold getEnvArg
      split_ifs with hf
      · simp only [exampleCall, List.mem_cons, List.not_mem_nil, or_false] at hf
        rcases hf with rfl | rfl | rfl | rfl
        · rw [hsame.1]
        · rw [hsame.2.1]
        · rw [hsame.2.2.1]
        · rw [hsame.2.2.2]
      · rfl
    simp only [robotAttr, this]
  · intro f hf hne
    apply attr_of_dropped
    unfold Spec.ignoredBy
    rw [List.mem_filter]
    refine ⟨hf, ?_⟩
    simp only [decide_not, Bool.not_eq_eq_eq_not, Bool.not_true, decide_eq_false_iff_not]
    intro hcall
    have hne' : f ≠ .env_name := by
      rintro rfl
      revert hf
      decide
    simp only [exampleCall, List.mem_cons, List.not_mem_nil, or_false] at hcall hne
    tauto

example : ∃ c c' : Config, c .env_name = .str "acc_tt2d" ∧ (c' .env_name = c .env_name ∧
    c' .case = c .case ∧ c' .dt = c .dt ∧ c' .Hsample = c .Hsample) ∧
    c' .enable_shielded_rollout_collision = .bool false :=
  ⟨dataclassDefault, Function.update dataclassDefault .enable_shielded_rollout_collision (.bool false),
    rfl, ⟨rfl, rfl, rfl, rfl⟩, by simp⟩

/-- **C63 fails for the test fixtures** in guidance, projection and the number of trailers. -/
theorem C63_fixture_refuted :
    Spec.ignoredBy fixtureCall .tractorTrailer = [.enable_projection, .enable_guidance] ∧
    Spec.ignoredBy fixtureCall (.nTrailer 2) = [.enable_projection, .enable_guidance, .num_trailers] ∧
    ∀ (c : Config) (n : ℤ), c .env_name = .str "tt2d" → c .num_trailers = .int n →
      ∃ a, buildRobot fixtureCall c = .ok (.tractorTrailer, a) := by
  refine ⟨by decide, by decide, fun c n hc _ => ⟨robotAttr fixtureCall c .tractorTrailer, ?_⟩⟩
  have h1 : getEnvArg fixtureCall c .env_name = some (.str "tt2d") := by
    rw [getEnvArg, if_pos (by decide), hc]
  have h2 : getEnvArg fixtureCall c .num_trailers = some (.int 1) := by
    rw [getEnvArg, if_neg (by decide)]; rfl
  simp only [buildRobot, h1, h2, Val.text, Val.int', (C44_dispatch 1).2.1]

/-- **C63 (numbers).** The parameter record of a robot built by the main program or the evaluation, from a
well-typed configuration: every number and flag is the configuration's. -/
theorem C63_params (c : Config) (ht : Spec.WellTyped c) {k : Kind} {a : Field → Option Val}
    (h : buildRobot mainCall c = .ok (k, a) ∨ buildRobot statCall c = .ok (k, a))
    (circles : List Circle) (rects : List Rect) :
    let P := attrParams a circles rects
    c .dt = .float P.dt ∧ (∃ n : ℤ, c .Hsample = .int n ∧ P.H = n.toNat) ∧
    c .motion_preference = .int P.motionPreference ∧
    c .enable_shielded_rollout_collision = .bool P.shieldCollision ∧
    c .enable_shielded_rollout_hitch = .bool P.shieldHitch ∧
    c .enable_projection = .bool P.enableProjection ∧ c .enable_guidance = .bool P.enableGuidance ∧
    c .l1 = .float P.l1 ∧ c .l2 = .float P.l2 ∧ c .lh = .float P.lh ∧ c .lf1 = .float P.lf1 ∧
    c .lr = .float P.lr ∧ c .lf2 = .float P.lf2 ∧ c .lr2 = .float P.lr2 ∧
    c .tractor_width = .float P.tractorWidth ∧ c .trailer_width = .float P.trailerWidth ∧
    c .v_max = .float P.vMax ∧ c .delta_max_deg = .float P.deltaMaxDeg ∧
    c .collision_penalty = .float P.collisionPenalty ∧ c .hitch_penalty = .float P.hitchPenalty ∧
    c .reward_threshold = .float P.rewardThreshold ∧
    c .ref_reward_threshold = .float P.refRewardThreshold ∧ c .max_w_theta = .float P.maxWTheta ∧
    c .hitch_angle_weight = .float P.hitchAngleWeight ∧
    c .terminal_reward_threshold = .float P.terminalRewardThreshold ∧
    c .terminal_reward_weight = .float P.terminalRewardWeight ∧ c .d_thr_factor = .float P.dThrFactor ∧
    c .k_switch = .float P.kSwitch ∧ c .steering_weight = .float P.steeringWeight ∧
    c .preference_penalty_weight = .float P.preferencePenaltyWeight ∧
    c .heading_reward_weight = .float P.headingRewardWeight ∧ c .ref_pos_weight = .float P.refPosWeight ∧
    c .ref_theta1_weight = .float P.refTheta1Weight ∧ c .ref_theta2_weight = .float P.refTheta2Weight := by
  obtain ⟨-, ha⟩ := C63_honoured_partial c h
  have hs : ∀ f ∈ Spec.robotSettings, a f = some (c f) := fun f hf => ha f (List.mem_append_left _ hf)
  have hnum : ∀ f ∈ Spec.robotSettings, Spec.declaredKind f = .float → c f = .float (Val.num (a f)) := by
    intro f hf hk
    rw [hs f hf]
    have := ht f
    rw [hk] at this
    cases hv : c f <;> rw [hv] at this <;> first | exact this.elim | rfl
  have hbool : ∀ f ∈ Spec.robotSettings, Spec.declaredKind f = .bool → c f = .bool (Val.flag (a f)) := by
    intro f hf hk
    rw [hs f hf]
    have := ht f
    rw [hk] at this
    cases hv : c f <;> rw [hv] at this <;> first | exact this.elim | rfl
  have hint : ∀ f ∈ Spec.robotSettings, Spec.declaredKind f = .int → c f = .int (Val.int' (a f)) := by
    intro f hf hk
    rw [hs f hf]
    have := ht f
    rw [hk] at this
    cases hv : c f <;> rw [hv] at this <;> first | exact this.elim | rfl
  refine ⟨hnum _ (by decide) rfl, ⟨_, hint _ (by decide) rfl, rfl⟩, hint _ (by decide) rfl,
    hbool _ (by decide) rfl, hbool _ (by decide) rfl, hbool _ (by decide) rfl, hbool _ (by decide) rfl,
    ?_⟩
  refine ⟨?_, ?_, ?_, ?_, ?_, ?_, ?_, ?_, ?_, ?_, ?_, ?_, ?_, ?_, ?_, ?_, ?_, ?_, ?_, ?_, ?_, ?_, ?_,
    ?_, ?_, ?_, ?_⟩ <;> exact hnum _ (by decide) rfl

/-- **C63 (number of trailers).** Only a train has the configured number of trailers; every other class reports
one trailer, whatever the configuration and the program say. -/
theorem C63_single_trailer (call : List Field) (c : Config) {k : Kind} {a : Field → Option Val}
    (h : buildRobot call c = .ok (k, a)) : (∀ n, k ≠ .nTrailer n) → a .num_trailers = some (.int 1) := by
  obtain ⟨rfl, -⟩ := built_class h
  intro hk
  have hf : Field.num_trailers ∉ forwardedKeywords k := by
    cases k with
    | nTrailer n => exact absurd rfl (hk n)
    | _ => decide
  rw [robotAttr, if_neg hf, if_pos rfl]

/-- The acceleration model of the dataclass defaults, with three trailers requested. -/
example : ∃ a, buildRobot mainCall (Function.update dataclassDefault .num_trailers (.int 3)) = .ok (.acc, a) ∧
    a .num_trailers = some (.int 1) := by
  have h : buildRobot mainCall (Function.update dataclassDefault .num_trailers (.int 3)) =
      .ok (.acc, robotAttr mainCall (Function.update dataclassDefault .num_trailers (.int 3)) .acc) := by
    simp [buildRobot, getEnvArg, mainCall, Val.text, getEnvKind, dataclassDefault]
  exact ⟨_, h, C63_single_trailer _ _ h (by simp)⟩

/-- **C63 (scenario).** Every program passes the class, the scenario, the time step and the horizon, so the
built robot has the configuration's scenario in all of them. -/
theorem C63_scenario (c : Config) (call : List Field)
    (hc : call ∈ [mainCall, statCall, benchCall, exampleCall, fixtureCall]) {k : Kind} {a : Field → Option Val}
    (h : buildRobot call c = .ok (k, a)) :
    a .case = some (c .case) ∧ a .dt = some (c .dt) ∧ a .Hsample = some (c .Hsample) := by
  have hin : ∀ call ∈ [mainCall, statCall, benchCall, exampleCall, fixtureCall],
      Field.case ∈ call ∧ Field.dt ∈ call ∧ Field.Hsample ∈ call := by decide
  obtain ⟨h1, h2, h3⟩ := hin call hc
  have hs : ∀ f ∈ [Field.case, .dt, .Hsample], f ∈ Spec.robotSettings ++ Spec.extraSettings k := by
    intro f hf
    apply List.mem_append_left
    have : ∀ f ∈ [Field.case, .dt, .Hsample], f ∈ Spec.robotSettings := by decide
    exact this f hf
  exact ⟨(C63_exact call c k a h _ (hs _ (by simp))).1 h1, (C63_exact call c k a h _ (hs _ (by simp))).1 h2,
    (C63_exact call c k a h _ (hs _ (by simp))).1 h3⟩

/-- **C63 (planner).** The planner's settings are the configuration's, and where robot and planner read the
same setting they agree: preference, guidance and horizon. -/
theorem C63_planner (c : Config) (ht : Spec.WellTyped c) :
    (c .temp_sample = .float (Config.plan c).temp ∧ c .beta0 = .float (Config.plan c).beta0 ∧
      c .betaT = .float (Config.plan c).betaT ∧ c .enable_demo = .bool (Config.plan c).enableDemo ∧
      c .enable_guidance = .bool (Config.plan c).enableGuidance ∧
      c .motion_preference = .int (Config.plan c).motionPreference ∧
      (∃ n : ℤ, c .Nsample = .int n ∧ (Config.plan c).Nsample = n.toNat) ∧
      (∃ n : ℤ, c .Hsample = .int n ∧ (Config.plan c).Hsample = n.toNat) ∧
      (∃ n : ℤ, c .Ndiffuse = .int n ∧ (Config.plan c).Ndiffuse = n.toNat)) ∧
    ∀ (k : Kind) (a : Field → Option Val),
      buildRobot mainCall c = .ok (k, a) ∨ buildRobot statCall c = .ok (k, a) →
      ∀ (circles : List Circle) (rects : List Rect),
        (attrParams a circles rects).motionPreference = (Config.plan c).motionPreference ∧
        (attrParams a circles rects).enableGuidance = (Config.plan c).enableGuidance ∧
        (attrParams a circles rects).H = (Config.plan c).Hsample := by
  have hnum : ∀ f, Spec.declaredKind f = .float → c f = .float (Val.num (some (c f))) := by
    intro f hk
    have := ht f
    rw [hk] at this
    cases hv : c f <;> rw [hv] at this <;> first | exact this.elim | rfl
  have hbool : ∀ f, Spec.declaredKind f = .bool → c f = .bool (Val.flag (some (c f))) := by
    intro f hk
    have := ht f
    rw [hk] at this
    cases hv : c f <;> rw [hv] at this <;> first | exact this.elim | rfl
  have hint : ∀ f, Spec.declaredKind f = .int → c f = .int (Val.int' (some (c f))) := by
    intro f hk
    have := ht f
    rw [hk] at this
    cases hv : c f <;> rw [hv] at this <;> first | exact this.elim | rfl
  refine ⟨⟨hnum _ rfl, hnum _ rfl, hnum _ rfl, hbool _ rfl, hbool _ rfl, hint _ rfl, ⟨_, hint _ rfl, rfl⟩,
    ⟨_, hint _ rfl, rfl⟩, ⟨_, hint _ rfl, rfl⟩⟩, ?_⟩
  intro k a h circles rects
  obtain ⟨-, ha⟩ := C63_honoured_partial c h
  have hs : ∀ f ∈ Spec.robotSettings, a f = some (c f) := fun f hf => ha f (List.mem_append_left _ hf)
  unfold attrParams Config.plan
  simp only
  rw [hs .motion_preference (by decide), hs .enable_guidance (by decide), hs .Hsample (by decide)]
  exact ⟨rfl, rfl, rfl⟩

example : Spec.WellTyped dataclassDefault := by intro f; cases f <;> exact True.intro

end Mbd
