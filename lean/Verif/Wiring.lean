import Verif.Config
import Verif.Env
import Verif.TT2d
import Verif.Planner

/-!
# From the configuration object to the robot

Model of the keyword arguments of `get_env` (`mbd/envs/__init__.py:6-287`), of the argument lists of
the programs that call it, and of the attributes the constructors store
(`mbd/robots/tt2d.py:49-116`, `acc_tt2d.py:28-43`, `n_trailer2d.py:18-25`).

The keyword `H` of `get_env` is the configuration's `Hsample`; all other keywords have the same name as
the configuration's attribute, so `Field` names both.  The keyword `env_config` (the map) is not part
of this model.
-/

namespace Mbd

noncomputable section

/-- The keywords of `get_env` with their defaults (`mbd/envs/__init__.py:6-49`); `none`: there is no
such keyword.  `env_name` is positional and has no default. -/
def getEnvDefault : Field → Option Val
  | .case => some (.str "navigation") | .dt => some (.float 0.2) | .Hsample => some (.int 50)
  | .motion_preference => some (.int 0)
  | .collision_penalty => some (.float 0.15) | .hitch_penalty => some (.float 0.10)
  | .enable_shielded_rollout_collision => some (.bool true)
  | .enable_shielded_rollout_hitch => some (.bool true)
  | .enable_projection => some (.bool false) | .enable_guidance => some (.bool false)
  | .reward_threshold => some (.float 25.0) | .ref_reward_threshold => some (.float 5.0)
  | .max_w_theta => some (.float 0.75) | .hitch_angle_weight => some (.float 0.2)
  | .l1 => some (.float 3.23) | .l2 => some (.float 2.9) | .lh => some (.float 1.15)
  | .lf1 => some (.float 0.9) | .lr => some (.float 1.848) | .lf2 => some (.float 1.42)
  | .lr2 => some (.float 3.225)
  | .tractor_width => some (.float 2.0) | .trailer_width => some (.float 2.5)
  | .v_max => some (.float 3.0) | .delta_max_deg => some (.float 55.0)
  | .d_thr_factor => some (.float 1.0) | .k_switch => some (.float 2.5)
  | .steering_weight => some (.float 0.05) | .preference_penalty_weight => some (.float 0.05)
  | .heading_reward_weight => some (.float 0.5)
  | .terminal_reward_threshold => some (.float 10.0) | .terminal_reward_weight => some (.float 1.0)
  | .ref_pos_weight => some (.float 0.3) | .ref_theta1_weight => some (.float 0.5)
  | .ref_theta2_weight => some (.float 0.2)
  | .a_max => some (.float 2.0) | .omega_max => some (.float 1.0)
  | .num_trailers => some (.int 1)
  | _ => none

/-- The call in the main program (`mbd_planner.py:773-815`). -/
def mainCall : List Field :=
  [.env_name, .case, .dt, .Hsample, .motion_preference, .collision_penalty,
   .enable_shielded_rollout_collision, .hitch_penalty, .enable_shielded_rollout_hitch,
   .enable_projection, .enable_guidance, .reward_threshold, .ref_reward_threshold, .max_w_theta,
   .hitch_angle_weight, .l1, .l2, .lh, .lf1, .lr, .lf2, .lr2, .tractor_width, .trailer_width,
   .v_max, .delta_max_deg, .a_max, .omega_max, .d_thr_factor, .k_switch, .steering_weight,
   .preference_penalty_weight, .heading_reward_weight, .terminal_reward_threshold,
   .terminal_reward_weight, .ref_pos_weight, .ref_theta1_weight, .ref_theta2_weight, .num_trailers]

/-- The call in `create_trial_environment` (`tests/stat_mbd.py:221-264`). -/
def statCall : List Field :=
  [.env_name, .case, .dt, .Hsample, .motion_preference, .collision_penalty, .hitch_penalty,
   .enable_shielded_rollout_collision, .enable_shielded_rollout_hitch, .enable_projection,
   .enable_guidance, .reward_threshold, .ref_reward_threshold, .max_w_theta, .hitch_angle_weight,
   .l1, .l2, .lh, .lf1, .lr, .lf2, .lr2, .tractor_width, .trailer_width, .v_max, .delta_max_deg,
   .a_max, .omega_max, .d_thr_factor, .k_switch, .steering_weight, .preference_penalty_weight,
   .heading_reward_weight, .terminal_reward_threshold, .terminal_reward_weight, .ref_pos_weight,
   .ref_theta1_weight, .ref_theta2_weight, .num_trailers]

/-- The call in `benchmark_parking_scenario` (`mbd/scripts/benchmark_diffusion.py:190-219`). -/
def benchCall : List Field :=
  [.env_name, .case, .dt, .Hsample, .motion_preference, .collision_penalty,
   .enable_shielded_rollout_collision, .hitch_penalty, .enable_shielded_rollout_hitch,
   .reward_threshold, .ref_reward_threshold, .max_w_theta, .hitch_angle_weight, .l1, .l2, .lh,
   .tractor_width, .trailer_width, .v_max, .delta_max_deg, .d_thr_factor, .k_switch,
   .steering_weight, .preference_penalty_weight, .heading_reward_weight, .ref_pos_weight,
   .ref_theta1_weight, .ref_theta2_weight]

/-- The call in the example program (`tests/test_mbd.py:43-49`). -/
def exampleCall : List Field := [.env_name, .case, .dt, .Hsample]

/-- The call in the test fixtures (`tests/test_planners/fixtures/test_environments.py:73-112`). -/
def fixtureCall : List Field :=
  [.env_name, .case, .dt, .Hsample, .motion_preference, .collision_penalty,
   .enable_shielded_rollout_collision, .hitch_penalty, .enable_shielded_rollout_hitch,
   .reward_threshold, .ref_reward_threshold, .max_w_theta, .hitch_angle_weight, .l1, .l2, .lh,
   .lf1, .lr, .lf2, .lr2, .tractor_width, .trailer_width, .v_max, .delta_max_deg, .a_max,
   .omega_max, .d_thr_factor, .k_switch, .steering_weight, .preference_penalty_weight,
   .heading_reward_weight, .terminal_reward_threshold, .terminal_reward_weight, .ref_pos_weight,
   .ref_theta1_weight, .ref_theta2_weight]

/-- The value `get_env` receives for a keyword: the configuration's if the caller passes it, otherwise
the default. (envs/__init__.py:6-288) -/
def getEnvArg (call : List Field) (c : Config) (f : Field) : Option Val :=
  if f ∈ call then some (c f) else getEnvDefault f

/-- The keywords every branch of `get_env` passes on to the constructor (`envs/__init__.py:50-87,
89-127, 129-166, 168-206, 208-247, 249-286`). -/
def commonKeywords : List Field :=
  [.case, .dt, .Hsample, .motion_preference, .collision_penalty, .hitch_penalty,
   .enable_shielded_rollout_collision, .enable_shielded_rollout_hitch, .enable_projection,
   .enable_guidance, .reward_threshold, .ref_reward_threshold, .max_w_theta, .hitch_angle_weight,
   .l1, .l2, .lh, .lf1, .lr, .lf2, .lr2, .tractor_width, .trailer_width, .v_max, .delta_max_deg,
   .d_thr_factor, .k_switch, .steering_weight, .preference_penalty_weight, .heading_reward_weight,
   .terminal_reward_threshold, .terminal_reward_weight, .ref_pos_weight, .ref_theta1_weight,
   .ref_theta2_weight]

/-- The keywords passed on, by class: the acceleration model also gets its input limits
(`envs/__init__.py:245-246`), the train its number of trailers (`envs/__init__.py:90, 169`). -/
def forwardedKeywords : Kind → List Field
  | .acc => .a_max :: .omega_max :: commonKeywords
  | .nTrailer _ => .num_trailers :: commonKeywords
  | _ => commonKeywords

/-- The attribute of the built robot for a keyword: what was passed on; `num_trailers` otherwise has
the constructor's default 1 (`tt2d.py:56`); `none`: the robot has no such attribute. -/
def robotAttr (call : List Field) (c : Config) (k : Kind) (f : Field) : Option Val :=
  if f ∈ forwardedKeywords k then getEnvArg call c f
  else if f = .num_trailers then some (.int 1) else none

/-- A value used as a number, text, flag or integer.  Values of other types (which Python would reject
later) give 0, the empty text or `false`; the theorems exclude them. (envs/__init__.py:6-288) -/
def Val.num : Option Val → ℝ
  | some (.float x) => x
  | some (.int n) => n
  | _ => 0

/-- See `Val.num`. (envs/__init__.py:6-288) -/
def Val.int' : Option Val → ℤ
  | some (.int n) => n
  | _ => 0

/-- See `Val.num`. (envs/__init__.py:6-288) -/
def Val.flag : Option Val → Bool
  | some (.bool b) => b
  | _ => false

/-- See `Val.num`. (envs/__init__.py:6-288) -/
def Val.text : Option Val → String
  | some (.str s) => s
  | _ => ""

/-- `get_env(...)` as called by a program: class and attributes, or the exception.
(envs/__init__.py:6-288) -/
def buildRobot (call : List Field) (c : Config) : Except EnvErr (Kind × (Field → Option Val)) :=
  match getEnvKind (Val.text (getEnvArg call c .env_name)) (Val.int' (getEnvArg call c .num_trailers)) with
  | .error e => .error e
  | .ok k => .ok (k, robotAttr call c k)

/-- The attributes as the parameter record of the robot models (`tt2d.py:58-111`). -/
def attrParams (a : Field → Option Val) (circles : List Circle) (rects : List Rect) : Params :=
  { dt := Val.num (a .dt), H := (Val.int' (a .Hsample)).toNat
    motionPreference := Val.int' (a .motion_preference)
    collisionPenalty := Val.num (a .collision_penalty)
    shieldCollision := Val.flag (a .enable_shielded_rollout_collision)
    hitchPenalty := Val.num (a .hitch_penalty)
    shieldHitch := Val.flag (a .enable_shielded_rollout_hitch)
    enableProjection := Val.flag (a .enable_projection)
    enableGuidance := Val.flag (a .enable_guidance)
    rewardThreshold := Val.num (a .reward_threshold)
    refRewardThreshold := Val.num (a .ref_reward_threshold)
    maxWTheta := Val.num (a .max_w_theta), hitchAngleWeight := Val.num (a .hitch_angle_weight)
    l1 := Val.num (a .l1), l2 := Val.num (a .l2), lh := Val.num (a .lh), lf1 := Val.num (a .lf1)
    lr := Val.num (a .lr), lf2 := Val.num (a .lf2), lr2 := Val.num (a .lr2)
    tractorWidth := Val.num (a .tractor_width), trailerWidth := Val.num (a .trailer_width)
    vMax := Val.num (a .v_max), deltaMaxDeg := Val.num (a .delta_max_deg)
    dThrFactor := Val.num (a .d_thr_factor), kSwitch := Val.num (a .k_switch)
    steeringWeight := Val.num (a .steering_weight)
    preferencePenaltyWeight := Val.num (a .preference_penalty_weight)
    headingRewardWeight := Val.num (a .heading_reward_weight)
    terminalRewardThreshold := Val.num (a .terminal_reward_threshold)
    terminalRewardWeight := Val.num (a .terminal_reward_weight)
    refPosWeight := Val.num (a .ref_pos_weight), refTheta1Weight := Val.num (a .ref_theta1_weight)
    refTheta2Weight := Val.num (a .ref_theta2_weight), circles := circles, rects := rects }

/-- What `run_diffusion` reads of the configuration (`mbd_planner.py:219-221, 260, 298, 440-447,
482-495, 534`). -/
def Config.plan (c : Config) : Cfg :=
  { motionPreference := Val.int' (some (c .motion_preference)), temp := Val.num (some (c .temp_sample))
    enableDemo := Val.flag (some (c .enable_demo)), enableGuidance := Val.flag (some (c .enable_guidance))
    Nsample := (Val.int' (some (c .Nsample))).toNat, Hsample := (Val.int' (some (c .Hsample))).toNat
    Ndiffuse := (Val.int' (some (c .Ndiffuse))).toNat
    beta0 := Val.num (some (c .beta0)), betaT := Val.num (some (c .betaT)) }

end

end Mbd
