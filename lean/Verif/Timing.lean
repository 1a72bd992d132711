import Mathlib.Data.Real.Basic

/-!
# The timing report of a planning run

Model of the clock readings of `run_diffusion`
(`mbd/planners/mbd_planner.py:210-619`) and of the report built from them
(`mbd_planner.py:622-636`, printed at `mbd_planner.py:738-747`).

`time.time()` is read 14 times without demonstration and 16 times with it; the
`k`-th reading is `clock k`.
-/

namespace Mbd

noncomputable section

/-- The dictionary `timing_info` (`mbd_planner.py:625-636`). -/
structure Timing where
  total : ℝ
  demoGeneration : ℝ
  compilation : ℝ
  jitSetup : ℝ
  warmup : ℝ
  rewardCompile : ℝ
  diffusionSetup : ℝ
  pureDiffusion : ℝ
  postProcessing : ℝ
  overhead : ℝ

/-- The report of a run whose readings of `time.time()` are `clock 0, clock 1, …`
in order of execution (lines 210, 217, [223, 225], 227, 230, 251, 266 or 293,
454, 461, 470, 475, 516, 520, 616, 619 of `mbd_planner.py`). -/
def timingReport (clock : ℕ → ℝ) (enableDemo : Bool) : Timing :=
  let totalStart := clock 0
  let demoStart := clock 1
  -- the reward function is only compiled early when a demonstration is used
  let rewardCompile := if enableDemo then clock 3 - clock 2 else 0
  let k := if enableDemo then 4 else 2
  let demo := clock k - demoStart
  let jitSetup := clock (k + 2) - clock (k + 1)
  let warmup := clock (k + 4) - clock (k + 3)
  let diffusionSetup := clock (k + 6) - clock (k + 5)
  let pure := clock (k + 8) - clock (k + 7)
  let post := clock (k + 10) - clock (k + 9)
  let total := clock (k + 11) - totalStart
  let compilation := jitSetup + warmup + rewardCompile
  { total := total
    demoGeneration := demo - rewardCompile
    compilation := compilation
    jitSetup := jitSetup
    warmup := warmup
    rewardCompile := rewardCompile
    diffusionSetup := diffusionSetup
    pureDiffusion := pure
    postProcessing := post
    overhead := total - pure }

/-- The two percentages of the printed summary (`mbd_planner.py:739-740`); Python
evaluates the divisions whatever the log level, and a zero total time raises
`ZeroDivisionError` (`none`). -/
def timingPercent (t : Timing) : Option (ℝ × ℝ) :=
  open Classical in
  if t.total = 0 then none
  else some (t.pureDiffusion / t.total * 100, t.overhead / t.total * 100)

end

end Mbd
