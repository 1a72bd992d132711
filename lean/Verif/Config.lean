import Mathlib.Data.Real.Basic
import Mathlib.Algebra.Order.Floor.Ring
import Mathlib.Algebra.Order.Archimedean.Real.Basic
import Mathlib.Logic.Function.Basic

/-!
# Configuration dictionaries

Model of `MBDConfig` (`mbd/planners/mbd_planner.py:51-117`),
`dict_to_config_obj` (`mbd/planners/mbd_planner.py:120-186`) and of the
argument handling at the top of `run_diffusion`
(`mbd/planners/mbd_planner.py:204-207`).

The configuration object is a record with 52 named attributes.  It is
modelled as a function from attribute names to values.  Floating point
numbers are real numbers (no NaN or infinity).
-/

namespace Mbd

noncomputable section

/-- A Python value found in a configuration dictionary.  `none` is Python's
`None`, which stands for every value that `int` and `float` reject with a
`TypeError`. (values read at mbd_planner.py:132-186) -/
inductive Val where
  | int (n : ℤ)
  | float (x : ℝ)
  | bool (b : Bool)
  | str (s : String)
  | none

/-- The declared type of an attribute (`mbd_planner.py:52-117`). -/
inductive PyKind where
  | int | float | bool | str
  deriving DecidableEq

/-- Exceptions raised while building the configuration.
(KeyError, TypeError, ValueError out of mbd_planner.py:132-186 and 206) -/
inductive CfgErr where
  | keyError (key : String)
  | valueError
  | typeError
  deriving DecidableEq

/-- How Python reads numbers from strings and prints values as strings; these
library functions are left open. (`int(...)`, `float(...)`, `str(...)` at mbd_planner.py:132-186) -/
structure PyText where
  /-- `int(s)` for a string. -/
  parseInt : String → Option ℤ
  /-- `float(s)` for a string. -/
  parseFloat : String → Option ℝ
  /-- `str(v)` for a value that is not a string. -/
  print : Val → String

/-- Truncation towards zero: Python's `int(x)` of a float. (`int(...)` at mbd_planner.py:132-186) -/
def truncZero (x : ℝ) : ℤ := if 0 ≤ x then ⌊x⌋ else ⌈x⌉

/-- `int(v)`. (mbd_planner.py:132-186) -/
def toInt (T : PyText) : Val → Except CfgErr ℤ
  | .int n => .ok n
  | .float x => .ok (truncZero x)
  | .bool b => .ok (if b then 1 else 0)
  | .str s => match T.parseInt s with
      | some n => .ok n
      | Option.none => .error .valueError
  | .none => .error .typeError

/-- `float(v)`. (mbd_planner.py:132-186) -/
def toFloat (T : PyText) : Val → Except CfgErr ℝ
  | .int n => .ok (n : ℝ)
  | .float x => .ok x
  | .bool b => .ok (if b then 1 else 0)
  | .str s => match T.parseFloat s with
      | some x => .ok x
      | Option.none => .error .valueError
  | .none => .error .typeError

open Classical in
/-- `bool(v)`: zero, the empty string, `False` and `None` are false, everything
else (in particular the string `"False"`) is true. (mbd_planner.py:132-186) -/
def toBool : Val → Bool
  | .int n => decide (n ≠ 0)
  | .float x => decide (x ≠ 0)
  | .bool b => b
  | .str s => decide (s ≠ "")
  | .none => false

/-- `str(v)`. (mbd_planner.py:132-186) -/
def toStr (T : PyText) : Val → String
  | .str s => s
  | v => T.print v

/-- The conversion call wrapped around a looked-up value
(`mbd_planner.py:134-185`). -/
def convert (T : PyText) : PyKind → Val → Except CfgErr Val
  | .int, v => (toInt T v).map .int
  | .float, v => (toFloat T v).map .float
  | .bool, v => .ok (.bool (toBool v))
  | .str, v => .ok (.str (toStr T v))

/-- The attributes of `MBDConfig`, in order of declaration
(`mbd_planner.py:53-117`). -/
inductive Field where
  | seed | env_name | case | verbose
  | Nsample | Hsample | Ndiffuse | temp_sample | beta0 | betaT | enable_demo
  | motion_preference | collision_penalty | hitch_penalty
  | enable_shielded_rollout_collision | enable_shielded_rollout_hitch
  | enable_projection | enable_guidance
  | l1 | l2 | lh | lf1 | lr | lf2 | lr2 | tractor_width | trailer_width
  | v_max | delta_max_deg | a_max | omega_max
  | reward_threshold | ref_reward_threshold | max_w_theta | hitch_angle_weight
  | terminal_reward_threshold | terminal_reward_weight
  | d_thr_factor | k_switch | steering_weight | preference_penalty_weight
  | heading_reward_weight
  | ref_pos_weight | ref_theta1_weight | ref_theta2_weight
  | render | save_animation | show_animation | save_denoising_animation
  | frame_skip | dt | num_trailers
  deriving DecidableEq

/-- The attribute's name, which is also its dictionary key. (mbd_planner.py:51-117) -/
def Field.name : Field → String
  | .seed => "seed" | .env_name => "env_name" | .case => "case"
  | .verbose => "verbose"
  | .Nsample => "Nsample" | .Hsample => "Hsample" | .Ndiffuse => "Ndiffuse"
  | .temp_sample => "temp_sample" | .beta0 => "beta0" | .betaT => "betaT"
  | .enable_demo => "enable_demo"
  | .motion_preference => "motion_preference"
  | .collision_penalty => "collision_penalty" | .hitch_penalty => "hitch_penalty"
  | .enable_shielded_rollout_collision => "enable_shielded_rollout_collision"
  | .enable_shielded_rollout_hitch => "enable_shielded_rollout_hitch"
  | .enable_projection => "enable_projection"
  | .enable_guidance => "enable_guidance"
  | .l1 => "l1" | .l2 => "l2" | .lh => "lh" | .lf1 => "lf1" | .lr => "lr"
  | .lf2 => "lf2" | .lr2 => "lr2" | .tractor_width => "tractor_width"
  | .trailer_width => "trailer_width"
  | .v_max => "v_max" | .delta_max_deg => "delta_max_deg" | .a_max => "a_max"
  | .omega_max => "omega_max"
  | .reward_threshold => "reward_threshold"
  | .ref_reward_threshold => "ref_reward_threshold"
  | .max_w_theta => "max_w_theta" | .hitch_angle_weight => "hitch_angle_weight"
  | .terminal_reward_threshold => "terminal_reward_threshold"
  | .terminal_reward_weight => "terminal_reward_weight"
  | .d_thr_factor => "d_thr_factor" | .k_switch => "k_switch"
  | .steering_weight => "steering_weight"
  | .preference_penalty_weight => "preference_penalty_weight"
  | .heading_reward_weight => "heading_reward_weight"
  | .ref_pos_weight => "ref_pos_weight"
  | .ref_theta1_weight => "ref_theta1_weight"
  | .ref_theta2_weight => "ref_theta2_weight"
  | .render => "render" | .save_animation => "save_animation"
  | .show_animation => "show_animation"
  | .save_denoising_animation => "save_denoising_animation"
  | .frame_skip => "frame_skip" | .dt => "dt" | .num_trailers => "num_trailers"

/-- An `MBDConfig` object. (mbd_planner.py:51-117) -/
abbrev Config := Field → Val

/-- `MBDConfig()`: the defaults of the dataclass (`mbd_planner.py:53-117`). -/
def dataclassDefault : Config
  | .seed => .int 42 | .env_name => .str "acc_tt2d" | .case => .str "parking"
  | .verbose => .bool false
  | .Nsample => .int 20000 | .Hsample => .int 50 | .Ndiffuse => .int 100
  | .temp_sample => .float 0.00001 | .beta0 => .float 1e-5 | .betaT => .float 1e-2
  | .enable_demo => .bool false
  | .motion_preference => .int 0
  | .collision_penalty => .float 0.15 | .hitch_penalty => .float 0.10
  | .enable_shielded_rollout_collision => .bool true
  | .enable_shielded_rollout_hitch => .bool true
  | .enable_projection => .bool false | .enable_guidance => .bool false
  | .l1 => .float 3.23 | .l2 => .float 2.9 | .lh => .float 1.15
  | .lf1 => .float 0.9 | .lr => .float 1.848 | .lf2 => .float 1.42
  | .lr2 => .float 3.225 | .tractor_width => .float 2.0
  | .trailer_width => .float 2.5
  | .v_max => .float 3.0 | .delta_max_deg => .float 55.0
  | .a_max => .float 2.0 | .omega_max => .float 1.0
  | .reward_threshold => .float 50.0 | .ref_reward_threshold => .float 10.0
  | .max_w_theta => .float 0.5 | .hitch_angle_weight => .float 0.01
  | .terminal_reward_threshold => .float 20.0
  | .terminal_reward_weight => .float 5.0
  | .d_thr_factor => .float 1.0 | .k_switch => .float 2.5
  | .steering_weight => .float 0.01 | .preference_penalty_weight => .float 0.5
  | .heading_reward_weight => .float 0.5
  | .ref_pos_weight => .float 0.8 | .ref_theta1_weight => .float 0.1
  | .ref_theta2_weight => .float 0.1
  | .render => .bool true | .save_animation => .bool false
  | .show_animation => .bool true | .save_denoising_animation => .bool false
  | .frame_skip => .int 1 | .dt => .float 0.25 | .num_trailers => .int 1

/-- How one keyword argument of the `MBDConfig(...)` call is computed:
`kind(config_dict[key])` or `kind(config_dict.get(key, default))`. (mbd_planner.py:132-186) -/
inductive Lookup where
  | required (k : PyKind)
  | optional (k : PyKind) (dflt : Val)

/-- The keyword arguments of the call, in evaluation order
(`mbd_planner.py:133-186`). -/
def callArgs : List (Field × Lookup) := [
  (.seed, .required .int), (.render, .required .bool),
  (.env_name, .required .str), (.case, .required .str),
  (.Nsample, .required .int), (.Hsample, .required .int),
  (.Ndiffuse, .required .int), (.temp_sample, .required .float),
  (.beta0, .required .float), (.betaT, .required .float),
  (.enable_demo, .required .bool),
  (.motion_preference, .optional .int (.int 0)),
  (.collision_penalty, .optional .float (.float 0.15)),
  (.enable_shielded_rollout_collision, .optional .bool (.bool true)),
  (.hitch_penalty, .optional .float (.float 0.10)),
  (.enable_shielded_rollout_hitch, .optional .bool (.bool true)),
  (.enable_projection, .optional .bool (.bool false)),
  (.enable_guidance, .optional .bool (.bool false)),
  (.reward_threshold, .optional .float (.float 25.0)),
  (.ref_reward_threshold, .optional .float (.float 5.0)),
  (.max_w_theta, .optional .float (.float 0.75)),
  (.hitch_angle_weight, .optional .float (.float 0.2)),
  (.l1, .optional .float (.float 3.23)), (.l2, .optional .float (.float 2.9)),
  (.lh, .optional .float (.float 1.15)), (.lf1, .optional .float (.float 0.9)),
  (.lr, .optional .float (.float 1.848)), (.lf2, .optional .float (.float 1.42)),
  (.lr2, .optional .float (.float 3.225)),
  (.tractor_width, .optional .float (.float 2.0)),
  (.trailer_width, .optional .float (.float 2.5)),
  (.v_max, .optional .float (.float 3.0)),
  (.delta_max_deg, .optional .float (.float 55.0)),
  (.a_max, .optional .float (.float 2.0)),
  (.omega_max, .optional .float (.float 1.0)),
  (.d_thr_factor, .optional .float (.float 1.0)),
  (.k_switch, .optional .float (.float 2.5)),
  (.steering_weight, .optional .float (.float 0.05)),
  (.preference_penalty_weight, .optional .float (.float 0.05)),
  (.heading_reward_weight, .optional .float (.float 0.5)),
  (.terminal_reward_threshold, .optional .float (.float 10.0)),
  (.terminal_reward_weight, .optional .float (.float 1.0)),
  (.ref_pos_weight, .optional .float (.float 0.3)),
  (.ref_theta1_weight, .optional .float (.float 0.5)),
  (.ref_theta2_weight, .optional .float (.float 0.2)),
  (.save_animation, .required .bool), (.show_animation, .required .bool),
  (.save_denoising_animation, .required .bool), (.dt, .required .float)]

/-- A Python dictionary with string keys. (argument of dict_to_config_obj, mbd_planner.py:120) -/
abbrev Dict := String → Option Val

/-- One keyword argument (`mbd_planner.py:134-185`). -/
def evalArg (T : PyText) (d : Dict) (f : Field) : Lookup → Except CfgErr Val
  | .required k => match d f.name with
      | some v => convert T k v
      | Option.none => .error (.keyError f.name)
  | .optional k dflt => convert T k ((d f.name).getD dflt)

/-- `dict_to_config_obj(config_dict)` (`mbd_planner.py:120-186`): arguments are
evaluated in order, the first exception propagates; attributes for which no
keyword is passed keep their dataclass default. -/
def dictToConfig (T : PyText) (d : Dict) : Except CfgErr Config :=
  callArgs.foldlM (fun c a => do
    let v ← evalArg T d a.1 a.2
    pure (Function.update c a.1 v)) dataclassDefault

/-- The argument `args` of `run_diffusion`: a dictionary, a ready configuration
object, or `None`. (mbd_planner.py:189, 203-206) -/
inductive RunArgs where
  | dict (d : Dict)
  | config (c : Config)
  | none

/-- The argument handling of `run_diffusion` (`mbd_planner.py:203-207`). -/
def resolveArgs (T : PyText) : RunArgs → Except CfgErr Config
  | .dict d => dictToConfig T d
  | .config c => .ok c
  | .none => .error .valueError

end

end Mbd
