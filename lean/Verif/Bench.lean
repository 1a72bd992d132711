import Verif.Cache
import Verif.Timing
import Verif.Wiring
import Mathlib.Data.List.Sort

/-!
# The benchmark script (mbd/scripts/benchmark_diffusion.py)

`benchmark_diffusion` plans the same problem several times in the running process and reports the usual
statistics of the timing dictionaries and of the rewards; `benchmark_parking_scenario` does this for three
configurations, each with its own robot.  Printing is not modelled, except for the division in
`run_diffusion`'s own summary (`mbd_planner.py:739-740`, see `timingPercent`), which can raise.
-/

namespace Mbd

open Classical

noncomputable section

/-- `np.min` of a non-empty list. (benchmark_diffusion.py:66, 73, 80, 87, 94) -/
def listMin : List ℝ → ℝ
  | [] => 0
  | a :: l => l.foldl min a

/-- `np.median` of a non-empty list: sort; the middle entry, or the mean of the two middle entries.
(benchmark_diffusion.py:68, 75, 82, 89, 96) -/
def median (l : List ℝ) : ℝ :=
  let s := l.insertionSort (· ≤ ·)
  if l.length % 2 = 1 then s.getD (l.length / 2) 0
  else (s.getD (l.length / 2 - 1) 0 + s.getD (l.length / 2) 0) / 2

/-- One entry of the report: `mean`, `std`, `min`, `max`, `median` (`benchmark_diffusion.py:63-69`). -/
structure Summary where
  mean : ℝ
  std : ℝ
  min : ℝ
  max : ℝ
  median : ℝ

/-- What can stop the benchmark. (exceptions out of benchmark_diffusion.py:21-132) -/
inductive BenchErr where
  /-- `np.min` of an empty array (`benchmark_diffusion.py:66`) -/
  | valueError
  /-- total time 0 in the planner's summary (`mbd_planner.py:739`) -/
  | zeroDivision
  /-- incompatible shapes when the cached `reverse_once` is traced for a new horizon (`tt2d.py:1116`) -/
  | shape
  deriving DecidableEq

/-- The five statistics; `np.mean([])` only warns, `np.min([])` raises
(`benchmark_diffusion.py:63-97`). -/
def summarise (l : List ℝ) : Except BenchErr Summary :=
  if l = [] then .error .valueError
  else .ok { mean := Mbd.mean l, std := Mbd.std l, min := listMin l, max := listMax l, median := Mbd.median l }

/-- The dictionary `benchmark_results` (`benchmark_diffusion.py:60-101`). -/
structure BenchReport where
  numTrials : ℕ
  pureDiffusion : Summary
  total : Summary
  overhead : Summary
  compilation : Summary
  rewards : Summary
  allTiming : List Timing
  allRewards : List ℝ

/-- Arrays of `n` and `m` rows can be subtracted: equal, or one of them has one row
(`xs_pos - ref_pos`, `tt2d.py:1116`). -/
def broadcastable (n m : ℕ) : Prop := n = m ∨ n = 1 ∨ m = 1

/-- Does the run have to trace `reverse_once` with a reference whose number of rows does not fit?  The
reference is that of the robot captured when the function was cached (`mbd_planner.py:339-345, 413`);
the trace for a combination of static arguments is recorded once. `rows o` is the number of rows of the
reference of robot `o`. -/
def World.shapeError {Q : Type} (rows : ℕ → ℕ) (w : World Q) (o : ℕ) (cfg : Cfg) : Prop :=
  cfg.enableDemo = true ∧ (w.rev.bind fun r => r.traces (World.revKey cfg)) = none ∧
    ¬ broadcastable (rows ((w.rev.map Rev.env).getD o)) cfg.Hsample

/-- Number of clock readings of one run (`mbd_planner.py:210-619`). -/
def readings (cfg : Cfg) : ℕ := if cfg.enableDemo then 16 else 14

/-- `run_diffusion(args, env)` with its timing dictionary and the exceptions above; `clock` are the
readings of this run. (mbd_planner.py:189-751) -/
def World.timedRun {Q : Type} (rows : ℕ → ℕ) (clock : ℕ → ℝ) (w : World Q) (o : ℕ)
    (normal : Key → ℕ → ℕ → ℕ → ℕ → U) (cfg : Cfg) : Except BenchErr (World Q × Result Q × Timing) :=
  if World.shapeError rows w o cfg then .error .shape
  else
    let t := timingReport clock cfg.enableDemo
    match timingPercent t with
    | none => .error .zeroDivision
    | some _ => .ok ((w.run o normal cfg).1, (w.run o normal cfg).2, t)

/-- `n` runs one after the other (`benchmark_diffusion.py:40-43, 47-52`); the first one starts at clock
reading `t`. -/
def World.timedRuns {Q : Type} (rows : ℕ → ℕ) (clock : ℕ → ℝ) (o : ℕ)
    (normal : Key → ℕ → ℕ → ℕ → ℕ → U) (cfg : Cfg) :
    ℕ → ℕ → World Q → Except BenchErr (World Q × List (Result Q × Timing))
  | 0, _, w => .ok (w, [])
  | n + 1, t, w =>
    match World.timedRun rows (fun k => clock (t + k)) w o normal cfg with
    | .error e => .error e
    | .ok (w', r, tm) =>
      match World.timedRuns rows clock o normal cfg n (t + readings cfg) w' with
      | .error e => .error e
      | .ok (w'', l) => .ok (w'', (r, tm) :: l)

/-- `benchmark_diffusion(args, env, num_trials, warmup_trials)` (`benchmark_diffusion.py:20-139`). -/
def World.benchmark {Q : Type} (rows : ℕ → ℕ) (clock : ℕ → ℝ) (w : World Q) (o : ℕ)
    (normal : Key → ℕ → ℕ → ℕ → ℕ → U) (cfg : Cfg) (num warm : ℕ) :
    Except BenchErr (World Q × BenchReport) := do
  let (w1, _) ← World.timedRuns rows clock o normal cfg warm 0 w
  let (w2, l) ← World.timedRuns rows clock o normal cfg num (warm * readings cfg) w1
  let pureDiffusion ← summarise (l.map fun x => x.2.pureDiffusion)
  let total ← summarise (l.map fun x => x.2.total)
  let overhead ← summarise (l.map fun x => x.2.overhead)
  let compilation ← summarise (l.map fun x => x.2.compilation)
  let rewards ← summarise (l.map fun x => x.1.rew)
  pure (w2, ⟨num, pureDiffusion, total, overhead, compilation, rewards, l.map Prod.snd,
    l.map fun x => x.1.rew⟩)

/-- The three configurations of the parking benchmark: samples, horizon, levels
(`benchmark_diffusion.py:159-182`). -/
def parkingSizes : List (ℕ × ℕ × ℕ) := [(5000, 30, 100), (10000, 40, 120), (20000, 50, 150)]

/-- The configuration object of one test (`benchmark_diffusion.py:147-157, 190-192`). -/
def parkingConfig (s : ℕ × ℕ × ℕ) : Config
  | .env_name => .str "tt2d" | .case => .str "parking" | .motion_preference => .int (-1)
  | .enable_demo => .bool true | .render => .bool false | .save_animation => .bool false
  | .show_animation => .bool false | .save_denoising_animation => .bool false | .dt => .float 0.25
  | .Nsample => .int s.1 | .Hsample => .int s.2.1 | .Ndiffuse => .int s.2.2
  | f => dataclassDefault f

/-- `benchmark_parking_scenario` (`benchmark_diffusion.py:141-262`): one new robot per configuration
(numbers `0, 1, 2`), three trials and one warm-up each, in one process, nothing cleared in between.
`clock i` are the readings during test `i`.  Returns the reports. -/
def World.parking (rows : ℕ → ℕ) (clock : ℕ → ℕ → ℝ) (normal : Key → ℕ → ℕ → ℕ → ℕ → U)
    {Q : Type} : ℕ → List (ℕ × ℕ × ℕ) → World Q → Except BenchErr (List BenchReport)
  | _, [], _ => .ok []
  | i, s :: ss, w =>
    match World.benchmark rows (clock i) w i normal (Config.plan (parkingConfig s)) 3 1 with
    | .error e => .error e
    | .ok (w', r) =>
      match World.parking rows clock normal (i + 1) ss w' with
      | .error e => .error e
      | .ok rs => .ok (r :: rs)

/-- The robots of the parking benchmark (`benchmark_diffusion.py:195-230`) in a map with the given
obstacles, start and goal. -/
def parkingRobot (circles : List Circle) (rects : List Rect) (x0 xg : Q4) (s : ℕ × ℕ × ℕ) : TT2d :=
  { toParams := attrParams (robotAttr benchCall (parkingConfig s) .tractorTrailer) circles rects
    x0 := x0, xg := xg }

end

end Mbd
