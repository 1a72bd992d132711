import Verif.Rollout
import Mathlib.Algebra.BigOperators.Group.List.Basic

/-!
# The diffusion planner (mbd/planners/mbd_planner.py:189-751), without the function cache

The function cache is modelled in `Verif/Cache.lean`; here all functions are built from the given
environment and configuration, as in a process where nothing was cached before.

Pseudo-random numbers: a key is the path of `split` choices from `PRNGKey(seed)`;
`normal key n h : ℕ → ℕ → U` is the array `jax.random.normal(key, (n, h, 2))`, an arbitrary function
(nothing about its distribution is assumed).
-/

namespace Mbd

open Real Classical

/-- A PRNG key: path from `PRNGKey(seed)`; child 0 and child 1 are the results of `split`.
(mbd_planner.py:212, 249, 363, 509) -/
abbrev Key := List ℕ

/-- `jax.random.split(key)` (mbd_planner.py:249, 363, 509). -/
def split (k : Key) : Key × Key := (k ++ [0], k ++ [1])

/-- The entries of `MBDConfig` the planner uses (mbd_planner.py:51-117). -/
structure Cfg where
  motionPreference : ℤ
  temp : ℝ
  enableDemo : Bool
  enableGuidance : Bool
  Nsample : ℕ
  Hsample : ℕ
  Ndiffuse : ℕ
  beta0 : ℝ
  betaT : ℝ

/-- What the planner uses of the robot object. `stepViz` is `_step_internal(.., True)`
(mbd_planner.py:539), `xrefLogpd pref qs` is `env.eval_xref_logpd(qs, motion_preference=pref)`. -/
structure PlanEnv (Q : Type) where
  reset : Key → St Q
  step : St Q → U → St Q
  stepViz : St Q → U → St Q
  terminal : Q → ℝ
  terminalWeight : ℝ
  steeringWeight : ℝ
  deltaMax : ℝ
  xrefLogpd : ℤ → List Q → ℝ
  rewXref : ℝ

/-! ## Noise schedule -/

/-- `jnp.linspace(a, b, n)` as a list. (mbd_planner.py:298) -/
noncomputable def linspace (a b : ℝ) (n : ℕ) : List ℝ :=
  (List.range n).map fun k : ℕ => if n = 1 then a else a + (k : ℝ) * ((b - a) / (n - 1))

/-- `jnp.cumprod`, running product starting from `acc`. (mbd_planner.py:300) -/
noncomputable def cumprodFrom (acc : ℝ) : List ℝ → List ℝ
  | [] => []
  | a :: l => acc * a :: cumprodFrom (acc * a) l

/-- `betas, alphas, alphas_bar, sigmas` (mbd_planner.py:298-301). -/
structure Schedule where
  alphas : List ℝ
  alphasBar : List ℝ
  sigmas : List ℝ

/-- mbd_planner.py:298-301. -/
noncomputable def mkSchedule (beta0 betaT : ℝ) (n : ℕ) : Schedule :=
  let alphas := (linspace beta0 betaT n).map fun b => 1 - b
  let ab := cumprodFrom 1 alphas
  { alphas := alphas, alphasBar := ab, sigmas := ab.map fun a => √(1 - a) }

/-- `jnp.roll(l, 1)`. (mbd_planner.py:464) -/
def roll1 (l : List ℝ) : List ℝ :=
  match l.getLast? with
  | none => []
  | some a => a :: l.dropLast

/-- `Sigmas_cond` before the square root (mbd_planner.py:465-467). -/
noncomputable def sigmasCondSq (S : Schedule) : List ℝ :=
  List.zipWith (fun (p : ℝ × ℝ) ab => (1 - p.1) * (1 - √p.2) / (1 - ab))
    (S.alphas.zip (roll1 S.alphasBar)) S.alphasBar

/-- `sigmas_cond` (mbd_planner.py:468-469): square root, then entry 0 set to 0. -/
noncomputable def sigmasCond (S : Schedule) : List ℝ := ((sigmasCondSq S).map Real.sqrt).set 0 0

/-! ## Rewards and weights of one batch -/

/-- `compute_steering_reward` for one action sequence (mbd_planner.py:305-336). -/
noncomputable def steeringReward (deltaMax : ℝ) (Y : List U) : ℝ :=
  let deltas := Y.map Prod.snd
  let scaled := deltas.map (· * deltaMax)
  let rDelta := deltas.map fun d => 1 - |d| ^ 2
  let diffs := List.zipWith (fun a b => b - a) scaled scaled.tail
  let thr := 0.1 * deltaMax
  let rDot := diffs.map fun d => 1 - clip ((|d| / thr) ^ 2) 0 1
  mean (List.zipWith (fun a b => 0.5 * (a + b)) rDelta (1 :: rDot))

/-- `x.max()` of a list (0 for the empty list, which `jnp` rejects). (mbd_planner.py:412) -/
noncomputable def listMax : List ℝ → ℝ
  | [] => 0
  | a :: l => l.foldl max a

/-- `x.std()`: population standard deviation. (mbd_planner.py:404) -/
noncomputable def std (l : List ℝ) : ℝ := √(mean (l.map fun r => (r - mean l) ^ 2))

/-- `rew_std` with its guard (mbd_planner.py:406-407). -/
noncomputable def guardedStd (l : List ℝ) : ℝ := if std l < 1e-4 then 1 else std l

/-- `logp0` before the demonstration (mbd_planner.py:408-409). -/
noncomputable def logp0 (temp : ℝ) (rews : List ℝ) : List ℝ :=
  rews.map fun r => (r - mean rews) / guardedStd rews / temp

/-- `logpdemo` (mbd_planner.py:413-417). -/
noncomputable def logpDemo (temp rewXref : ℝ) (rews xrefs : List ℝ) : List ℝ :=
  xrefs.map fun x => ((x - listMax xrefs) + rewXref - mean rews) / guardedStd rews / temp

/-- Log weights with the demonstration mask (mbd_planner.py:412-419). -/
noncomputable def logWeights (temp : ℝ) (enableDemo : Bool) (rewXref : ℝ) (rews xrefs : List ℝ) :
    List ℝ :=
  if enableDemo then
    List.zipWith (fun d p => if d > p then d else p) (logpDemo temp rewXref rews xrefs)
      (logp0 temp rews)
  else logp0 temp rews

/-- `jax.nn.softmax` (mbd_planner.py:422). -/
noncomputable def softmax (l : List ℝ) : List ℝ :=
  let e := l.map fun x => exp (x - listMax l)
  e.map fun x => x / e.sum

/-- `jnp.einsum("n,nij->ij", weights, Y)` for plans of length `h` (mbd_planner.py:423). -/
noncomputable def weightedPlan (h : ℕ) (w : List ℝ) (Ys : List (List U)) : List U :=
  (List.range h).map fun t =>
    ((List.zipWith (fun a Y => a * (Y.getD t (0, 0)).1) w Ys).sum,
     (List.zipWith (fun a Y => a * (Y.getD t (0, 0)).2) w Ys).sum)

/-! ## One reverse step -/

/-- Clipping of one sampled action: to `[-1,1]`, then the strict direction clip of the first
component for preference 2 / -2 (mbd_planner.py:366-393). -/
noncomputable def clipSample (pref : ℤ) (u : U) : U :=
  let c := clipU u
  (if pref = 2 then clip c.1 0 1 else if pref = -2 then clip c.1 (-1) 0 else c.1, c.2)

/-- `Y0s` (mbd_planner.py:363-393): perturb every action of `Ybar` with scaled noise and clip. -/
noncomputable def samplePlans (cfg : Cfg) (scale : ℝ) (eps : ℕ → ℕ → U) (Ybar : List U) :
    List (List U) :=
  (List.range cfg.Nsample).map fun n => Ybar.mapIdx fun t y =>
    clipSample cfg.motionPreference ((eps n t).1 * scale + y.1, (eps n t).2 * scale + y.2)

/-- Everything one batch computes (mbd_planner.py:396-423). -/
structure Batch (Q : Type) where
  rews : List ℝ
  qs : List (List Q)
  eff : List (List U)
  combined : List ℝ
  logw : List ℝ
  weights : List ℝ
  ybar : List U

/-- mbd_planner.py:396-423: roll out, combine rewards, weights, weighted mean of applied actions. -/
noncomputable def evalBatch {Q : Type} (E : PlanEnv Q) (cfg : Cfg) (s0 : St Q)
    (Y0s : List (List U)) : Batch Q :=
  let ro := Y0s.map (rolloutUsWithTerminal E.step E.terminal E.terminalWeight s0)
  let rews := ro.map fun r => r.1
  let qs := ro.map fun r => r.2.1
  let eff := ro.map fun r => r.2.2
  let combined := List.zipWith (fun r Y => r + E.steeringWeight * steeringReward E.deltaMax Y) rews eff
  let xrefs := qs.map (E.xrefLogpd cfg.motionPreference)
  let logw := logWeights cfg.temp cfg.enableDemo E.rewXref combined xrefs
  let w := softmax logw
  { rews := rews, qs := qs, eff := eff, combined := combined, logw := logw, weights := w
    ybar := weightedPlan cfg.Hsample w eff }

/-- Score and rescaling of one action component (mbd_planner.py:425-428), with `ab = alphas_bar[i]`,
`a = alphas[i]`, `abp = alphas_bar[i-1]`. -/
noncomputable def rescale (ab a abp y ybar : ℝ) : ℝ :=
  let yi := y * √ab
  let score := 1 / (1 - ab) * (-yi + √ab * ybar)
  let yim1 := 1 / √a * (yi + (1 - ab) * score)
  yim1 / √abp

/-- `reverse_once` (mbd_planner.py:345-431).  Carry `(i, rng, Ybar_i)`; returns the new carry and
the mean combined reward.  The level `i` is a traced value, so JAX clamps the schedule reads. -/
noncomputable def reverseOnce {Q : Type} (E : PlanEnv Q) (S : Schedule)
    (normal : Key → ℕ → ℕ → ℕ → ℕ → U) (cfg : Cfg) (s0 : St Q) (carry : ℕ × Key × List U) :
    (ℕ × Key × List U) × ℝ :=
  let i := carry.1
  let ks := split carry.2.1
  let Ybar := carry.2.2
  let ab := clampGet S.alphasBar i
  let abp := clampGet S.alphasBar (i - 1)
  let eps := normal ks.2 cfg.Nsample cfg.Hsample
  let scale := clampGet S.sigmas i / √abp
  let B := evalBatch E cfg s0 (samplePlans cfg scale eps Ybar)
  let next := List.zipWith (fun y yb => (rescale ab (clampGet S.alphas i) abp y.1 yb.1,
    rescale ab (clampGet S.alphas i) abp y.2 yb.2)) Ybar B.ybar
  ((i - 1, ks.1, next), mean B.combined)

/-- Loop state of `reverse`: key, plan, history array. (mbd_planner.py:478-507) -/
structure LoopSt where
  rng : Key
  Y : List U
  hist : List (List U)

/-- One pass of the loop in `reverse` (mbd_planner.py:495-504), iteration `idx`, level
`i = Ndiffuse - 1 - idx`. -/
noncomputable def reverseBody (once : ℕ × Key × List U → (ℕ × Key × List U) × ℝ) (n : ℕ)
    (st : LoopSt) (idx : ℕ) : LoopSt :=
  let r := (once (n - 1 - idx, st.rng, st.Y)).1
  { rng := r.2.1, Y := r.2.2, hist := st.hist.set idx r.2.2 }

/-- `reverse` (mbd_planner.py:478-507): preallocated zero history, `range(Ndiffuse-1, 0, -1)`. -/
noncomputable def reverseLoop (once : ℕ × Key × List U → (ℕ × Key × List U) × ℝ) (cfg : Cfg)
    (YN : List U) (rng : Key) : LoopSt :=
  (List.range (cfg.Ndiffuse - 1)).foldl (reverseBody once cfg.Ndiffuse)
    { rng := rng, Y := YN
      hist := List.replicate (cfg.Ndiffuse - 1) (List.replicate cfg.Hsample (0, 0)) }

/-- `YN = jnp.zeros([Hsample, Nu])` (mbd_planner.py:260). -/
noncomputable def zeroPlan (cfg : Cfg) : List U := List.replicate cfg.Hsample (0, 0)

/-- Key after the first split (mbd_planner.py:249): `rng`, `rng_reset`. -/
def keyMain : Key := (split []).1

/-- `rng_reset`. (mbd_planner.py:249) -/
def keyReset : Key := (split []).2

/-- `rng_exp` (mbd_planner.py:509). -/
def keyExp : Key := (split keyMain).1

/-- Result of `run_diffusion`: final reward, applied plan, states; and the history saved as
`mu_0ts.npy`. (mbd_planner.py:189-751) -/
structure Result (Q : Type) where
  rew : ℝ
  Y0 : List U
  xs : List Q
  hist : List (List U)

/-- `run_diffusion` (mbd_planner.py:189-751) without cache, rendering, logging and timing.  The
warm-up calls (mbd_planner.py:262-295, 433-455) have no effect on the result. -/
noncomputable def runDiffusion {Q : Type} (E : PlanEnv Q) (normal : Key → ℕ → ℕ → ℕ → ℕ → U)
    (cfg : Cfg) : Result Q :=
  let S := mkSchedule cfg.beta0 cfg.betaT cfg.Ndiffuse
  let s0 := E.reset keyReset
  let lp := reverseLoop (reverseOnce E S normal cfg s0) cfg (zeroPlan cfg) keyExp
  let roll := rolloutUsWithTerminal E.step E.terminal E.terminalWeight s0
  let Y0 := (roll lp.Y).2.2
  let stepFinal := if cfg.enableGuidance then E.stepViz else E.step
  { rew := (roll Y0).1
    Y0 := Y0
    xs := s0.q :: (scanStates stepFinal s0 Y0).map St.q
    hist := lp.hist }

end Mbd
