import Verif.Planner
import Verif.Rounded

/-!
# The planner with rounded arithmetic

`Planner.lean` reads the weights, the averaged plan and the reverse step over `ℝ`.  This file models the
same code (mbd_planner.py:298-302, 345-431, 478-507) with an arbitrary implementation of the array
arithmetic, as `Rounded.lean` does for the simulator.  Exact, as in IEEE arithmetic: negation, comparison,
`max`, `clip`, `where`.  Overflow and NaN do not occur in this model.

Simplification: the rollout of a sampled plan, its steering reward and its demonstration score are
arbitrary functions (`Sim`), so the results hold for every robot, every simulator and every rounding of
the rewards.
-/

namespace Mbd

open Real Classical

/-- The array arithmetic of the planner: the arithmetic of the simulator and the reductions
(mbd_planner.py:298-302, 404-428). -/
structure PlanArith extends Arith where
  /-- the exponential inside `jax.nn.softmax` -/
  exp : ℝ → ℝ
  /-- the sum inside `mean`, `std` and `jax.nn.softmax`, in any order -/
  sum : List ℝ → ℝ
  /-- the contraction over the samples in `jnp.einsum("n,nij->ij", …)` -/
  dot : List ℝ → List ℝ → ℝ
  /-- `jnp.cumprod` -/
  cumprod : List ℝ → List ℝ

/-- What a rollout delivers for one sampled plan: the combined reward, the score against the demonstration and
the applied actions (mbd_planner.py:396-402, 411; simplification: arbitrary). -/
structure Sim where
  reward : List U → ℝ
  xref : List U → ℝ
  applied : List U → List U

namespace Rounded

variable (A : PlanArith)

/-- `x.mean()` (mbd_planner.py:408). -/
noncomputable def mean (l : List ℝ) : ℝ := A.div (A.sum l) (A.const l.length)

/-- `x.std()` (mbd_planner.py:404). -/
noncomputable def std (l : List ℝ) : ℝ :=
  A.sqrt (mean A (l.map fun r => A.mul (A.sub r (mean A l)) (A.sub r (mean A l))))

/-- `rew_std` with its guard (mbd_planner.py:404-407). -/
noncomputable def guardedStd (l : List ℝ) : ℝ := if std A l < A.const 1e-4 then 1 else std A l

/-- `logp0` (mbd_planner.py:408-409). -/
noncomputable def logp0 (temp : ℝ) (rews : List ℝ) : List ℝ :=
  rews.map fun r => A.div (A.div (A.sub r (mean A rews)) (guardedStd A rews)) (A.const temp)

/-- `logpdemo` (mbd_planner.py:412-417). -/
noncomputable def logpDemo (temp rewXref : ℝ) (rews xrefs : List ℝ) : List ℝ :=
  xrefs.map fun x => A.div (A.div (A.sub (A.add (A.sub x (listMax xrefs)) rewXref) (mean A rews))
    (guardedStd A rews)) (A.const temp)

/-- Log weights with the demonstration mask (mbd_planner.py:411-419). -/
noncomputable def logWeights (temp : ℝ) (enableDemo : Bool) (rewXref : ℝ) (rews xrefs : List ℝ) : List ℝ :=
  if enableDemo then
    List.zipWith (fun d p => if d > p then d else p) (logpDemo A temp rewXref rews xrefs) (logp0 A temp rews)
  else logp0 A temp rews

/-- The exponentials of `jax.nn.softmax`, after subtraction of the largest entry (mbd_planner.py:422). -/
noncomputable def softmaxExps (l : List ℝ) : List ℝ := l.map fun x => A.exp (A.sub x (listMax l))

/-- `jax.nn.softmax` (mbd_planner.py:422). -/
noncomputable def softmax (l : List ℝ) : List ℝ :=
  (softmaxExps A l).map fun e => A.div e (A.sum (softmaxExps A l))

/-- `jnp.einsum("n,nij->ij", weights, Y)` for plans of length `h` (mbd_planner.py:423). -/
noncomputable def weightedPlan (h : ℕ) (w : List ℝ) (Ys : List (List U)) : List U :=
  (List.range h).map fun t =>
    (A.dot w (Ys.map fun Y => (Y.getD t (0, 0)).1), A.dot w (Ys.map fun Y => (Y.getD t (0, 0)).2))

/-- The noise schedule from the list `betas` (mbd_planner.py:298-302); `betas` is the result of
`jnp.linspace`, whose rounding is left open. -/
noncomputable def schedule (betas : List ℝ) : Schedule :=
  let alphas := betas.map fun b => A.sub 1 b
  { alphas := alphas
    alphasBar := A.cumprod alphas
    sigmas := (A.cumprod alphas).map fun ab => A.sqrt (A.sub 1 ab) }

/-- `Y0s` (mbd_planner.py:363-393). -/
noncomputable def samplePlans (cfg : Cfg) (sigma abp : ℝ) (eps : ℕ → ℕ → U) (Ybar : List U) : List (List U) :=
  (List.range cfg.Nsample).map fun n => Ybar.mapIdx fun t y =>
    clipSample cfg.motionPreference
      (A.add (A.div (A.mul (eps n t).1 sigma) (A.sqrt abp)) y.1,
       A.add (A.div (A.mul (eps n t).2 sigma) (A.sqrt abp)) y.2)

/-- Weights of one batch of sampled plans (mbd_planner.py:396-422). -/
noncomputable def batchWeights (cfg : Cfg) (sim : Sim) (rewXref : ℝ) (Y0s : List (List U)) : List ℝ :=
  softmax A (logWeights A cfg.temp cfg.enableDemo rewXref (Y0s.map sim.reward) (Y0s.map sim.xref))

/-- Score and rescaling of one action component (mbd_planner.py:361, 425-429). -/
noncomputable def rescale (ab a abp y ybar : ℝ) : ℝ :=
  let yi := A.mul y (A.sqrt ab)
  let score := A.mul (A.div 1 (A.sub 1 ab)) (A.add (-yi) (A.mul (A.sqrt ab) ybar))
  let yim1 := A.mul (A.div 1 (A.sqrt a)) (A.add yi (A.mul (A.sub 1 ab) score))
  A.div yim1 (A.sqrt abp)

/-- The new plan of `reverse_once` at level `i` (mbd_planner.py:345-431). -/
noncomputable def reversePlan (S : Schedule) (cfg : Cfg) (sim : Sim) (rewXref : ℝ) (eps : ℕ → ℕ → U) (i : ℕ)
    (Ybar : List U) : List U :=
  let ab := clampGet S.alphasBar i
  let abp := clampGet S.alphasBar (i - 1)
  let Y0s := samplePlans A cfg (clampGet S.sigmas i) abp eps Ybar
  let yb := weightedPlan A cfg.Hsample (batchWeights A cfg sim rewXref Y0s) (Y0s.map sim.applied)
  List.zipWith (fun y b => (rescale A ab (clampGet S.alphas i) abp y.1 b.1,
    rescale A ab (clampGet S.alphas i) abp y.2 b.2)) Ybar yb

/-- The plans computed by `reverse` at the levels `n - 1, …, 1`, from the plan `Y` (mbd_planner.py:478-507);
`eps i` is the noise drawn at level `i`. -/
noncomputable def plansFrom (S : Schedule) (cfg : Cfg) (sim : Sim) (rewXref : ℝ) (eps : ℕ → ℕ → ℕ → U) :
    ℕ → List U → List (List U)
  | 0, _ => []
  | i + 1, Y =>
    let Y' := reversePlan A S cfg sim rewXref (eps (i + 1)) (i + 1) Y
    Y' :: plansFrom S cfg sim rewXref eps i Y'

/-- All plans of one run of the reverse process, starting from zero (mbd_planner.py:260, 478-507). -/
noncomputable def plans (betas : List ℝ) (cfg : Cfg) (sim : Sim) (rewXref : ℝ) (eps : ℕ → ℕ → ℕ → U) :
    List (List U) :=
  plansFrom A (schedule A betas) cfg sim rewXref eps (cfg.Ndiffuse - 1) (zeroPlan cfg)

end Rounded

end Mbd
