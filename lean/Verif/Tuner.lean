import Verif.Wiring
import Verif.Stat

/-!
# Hyperparameter tuning (tests/tune_mbd.py)

The search for `d_thr_factor` and `k_switch`: configuration of a trial, its evaluation in the running
process and the recorded score.  Optuna is left open: it supplies the grid indices of every trial
(`suggest`) and the decision to prune (`prune`).  Logging to W&B, the heat map and the JSON file are
not modelled.
-/

namespace Mbd

open Classical

/-- Where the value of a keyword of the `MBDConfig(...)` call comes from. (tune_mbd.py:172-258) -/
inductive Source where
  | base
  | param
  | off
  deriving DecidableEq

/-- The keyword arguments of the call in `create_config_with_params` (`tune_mbd.py:189-258`). -/
def tunedCall : List (Field × Source) :=
  [(.seed, .base), (.env_name, .base), (.case, .base), (.verbose, .base), (.Nsample, .base),
   (.Hsample, .base), (.Ndiffuse, .base), (.temp_sample, .base), (.beta0, .base), (.betaT, .base),
   (.enable_demo, .base), (.motion_preference, .base), (.collision_penalty, .base),
   (.hitch_penalty, .base), (.enable_shielded_rollout_collision, .base),
   (.enable_shielded_rollout_hitch, .base), (.enable_projection, .base), (.enable_guidance, .base),
   (.reward_threshold, .base), (.ref_reward_threshold, .base), (.max_w_theta, .base),
   (.hitch_angle_weight, .base), (.l1, .base), (.l2, .base), (.lh, .base), (.lf1, .base),
   (.lr, .base), (.lf2, .base), (.lr2, .base), (.tractor_width, .base), (.trailer_width, .base),
   (.v_max, .base), (.delta_max_deg, .base), (.a_max, .base), (.omega_max, .base),
   (.terminal_reward_threshold, .base), (.terminal_reward_weight, .base),
   (.d_thr_factor, .param), (.k_switch, .param), (.steering_weight, .base),
   (.preference_penalty_weight, .base), (.heading_reward_weight, .base), (.ref_pos_weight, .base),
   (.ref_theta1_weight, .base), (.ref_theta2_weight, .base), (.render, .off),
   (.save_animation, .off), (.show_animation, .off), (.save_denoising_animation, .off),
   (.frame_skip, .base), (.dt, .base)]

/-- One keyword argument: `self.base_config.x`, `params['x']` or `False`. (tune_mbd.py:172-258) -/
def tunedArg (base : Config) (params : Dict) (f : Field) : Source → Except CfgErr Val
  | .base => .ok (base f)
  | .param => match params f.name with
      | some v => .ok v
      | none => .error (.keyError f.name)
  | .off => .ok (.bool false)

/-- `create_config_with_params(params)` (`tune_mbd.py:172-258`).  The dictionary built at 183-186 is not
used by the call. -/
noncomputable def tunedConfig (base : Config) (params : Dict) : Except CfgErr Config :=
  tunedCall.foldlM (fun c a => do
    let v ← tunedArg base params a.1 a.2
    pure (Function.update c a.1 v)) dataclassDefault

/-- A value of `trial.suggest_float(name, 0.5, 5.0, step=0.5)`: Optuna picks one of the ten grid
points. (tune_mbd.py:135-170) -/
noncomputable def gridValue (k : Fin 10) : ℝ := 0.5 + 0.5 * (k : ℕ)

/-- `define_hyperparameter_space(trial)` (`tune_mbd.py:135-170`). -/
noncomputable def suggested (k : Fin 10 × Fin 10) : Dict := fun s =>
  if s = "d_thr_factor" then some (.float (gridValue k.1))
  else if s = "k_switch" then some (.float (gridValue k.2)) else none

/-- The process after a batch of runs (`stat_mbd.py:390-402`). -/
noncomputable def World.batchEnd {Q : Type} (normal : Key → ℕ → ℕ → ℕ → ℕ → U) (cfg : Cfg) :
    World Q → List ℕ → World Q
  | w, [] => w
  | w, o :: os => World.batchEnd normal cfg (w.run o normal cfg).1 os

/-- New robot objects with the numbers `next, …, next + k - 1` (`stat_mbd.py:396`). -/
def World.alloc {Q : Type} (w : World Q) (next k : ℕ) (x : ℕ → Obj Q) : World Q :=
  { w with heap := fun o => if next ≤ o ∧ o < next + k then x (o - next) else w.heap o }

/-- `run_statistical_evaluation` for the tractor-trailer (`stat_mbd.py:351-507`) in a running process:
the objects with numbers from `next` on are not in use yet and become the trial robots.  Returns the
process, the next free number and the report (`none`: an exception). -/
noncomputable def World.evaluate (w : World Q4) (next : ℕ) (base : Params) (ext : Ext Q4)
    (normal : Key → ℕ → ℕ → ℕ → ℕ → U) (cfg : Cfg) (times : ℕ → ℝ) (draws : ℕ → Draw) (n : ℕ) :
    World Q4 × ℕ × Option Stats :=
  let trials := (sampleInitialConditions isValidStart draws n).1
  match trials.mapM (fun t => (trialTT2d base t).toOption) with
  | none => (w, next, none)
  | some robots =>
    let robot := fun (i : ℕ) => robots.getD i { toParams := base, x0 := ⟨0, 0, 0, 0⟩, xg := ⟨0, 0, 0, 0⟩ }
    let w1 := w.alloc next robots.length fun i => (robot i).obj ext
    let os := (List.range robots.length).map (next + ·)
    let runs := World.batch normal cfg w1 os
    let outcome := fun (p : ℕ × Result Q4) =>
      (evaluateTrial (robot p.1).evalEnv goalThreshold p.2.xs).map
        fun v => (⟨v, times p.1⟩ : TrialResult)
    (World.batchEnd normal cfg w1 os, next + robots.length,
      match ((List.range robots.length).zip runs).mapM outcome with
      | none => none
      | some rs => aggregate n rs)

/-- The score components of a report (`tune_mbd.py:291-293`): success rate and
`safety = 1 - (collision_rate + jackknife_rate) / 2` (`none` is `nan`). -/
noncomputable def safetyScore (s : Stats) : Option ℝ :=
  match s.collisionRate, s.jackknifeRate with
  | some c, some j => some (1 - (c + j) / 2)
  | _, _ => none

/-- What a tuning trial leaves behind: an entry of `optimization_results` with the objective score, or
a pruned trial. (tune_mbd.py:260-346) -/
inductive TuneOutcome where
  | complete (score : ℝ) (safety : Option ℝ) (report : Stats)
  | pruned (score : ℝ)

/-- What the environment of the tuner supplies: Optuna's choices, the noise for each planner seed, the
measured times, the start draws of seed 42. (tune_mbd.py:260-441) -/
structure TuneOracle where
  suggest : ℕ → Fin 10 × Fin 10
  prune : ℕ → ℝ → Bool
  normal : ℤ → Key → ℕ → ℕ → ℕ → ℕ → U
  times : ℕ → ℕ → ℝ
  draws : ℕ → Draw

/-- `objective_function(trial)` (`tune_mbd.py:260-346`) for trial number `i`; `base` must be a `tt2d`
configuration.  `none`: an exception other than `TrialPruned` escapes. -/
noncomputable def World.objective (w : World Q4) (next : ℕ) (base : Config) (ext : Ext Q4)
    (O : TuneOracle) (n i : ℕ) : Option (World Q4 × ℕ × TuneOutcome) :=
  match tunedConfig base (suggested (O.suggest i)) with
  | .error _ => none
  | .ok c =>
    match buildRobot statCall c with
    | .error _ => none
    | .ok (_, a) =>
      let r := w.clear.evaluate next (attrParams a [] []) ext (O.normal (Val.int' (some (c .seed)))) c.plan
        (O.times i) O.draws n
      match r.2.2 with
      | none => none
      | some s =>
        if O.prune i s.successRate then some (r.1, r.2.1, .pruned s.successRate)
        else some (r.1, r.2.1, .complete s.successRate (safetyScore s) s)

/-- `study.optimize(self.objective_function, n_trials=..., n_jobs=1)` (`tune_mbd.py:402-408`): trials
`i, i+1, …`, `m` of them, one after another in one process. -/
noncomputable def World.study (base : Config) (ext : Ext Q4) (O : TuneOracle) (n : ℕ) :
    ℕ → ℕ → World Q4 → ℕ → Option (List TuneOutcome)
  | 0, _, _, _ => some []
  | m + 1, i, w, next =>
    match w.objective next base ext O n i with
    | none => none
    | some (w', next', out) =>
      match World.study base ext O n m (i + 1) w' next' with
      | none => none
      | some outs => some (out :: outs)

end Mbd
