import Verif.PropsWeights
import Verif.PropsPlan
import Verif.PropsSetup
import Mathlib.Algebra.BigOperators.Field

/-!
# C83: the planner computes the stated update, in closed form

The specification below writes one denoising step, and the whole run, with functions `ℕ → U` and
finite sums only: no list function of the model (`evalBatch`, `samplePlans`, `softmax`, `rescale`,
`scanStates`, `steeringReward`, ...) occurs in it.
-/

namespace Spec

open Mbd Real

/-- Average of `f 0, ..., f (N-1)`. -/
noncomputable def avg (N : ℕ) (f : ℕ → ℝ) : ℝ := (∑ n ∈ Finset.range N, f n) / N

/-- Population standard deviation of `f 0, ..., f (N-1)`, replaced by 1 when below `1e-4`. -/
noncomputable def scaleOf (N : ℕ) (f : ℕ → ℝ) : ℝ :=
  if √(avg N fun n => (f n - avg N f) ^ 2) < 1e-4 then 1 else √(avg N fun n => (f n - avg N f) ^ 2)

/-- The point of `[lo, hi]` nearest to `x`. -/
noncomputable def into (lo hi x : ℝ) : ℝ := if x < lo then lo else if hi < x then hi else x

/-- Candidate action: the plan's action plus scaled noise, each component with its own noise, moved
into the allowed range: `[-1,1]` for the steering, and for the first component `[0,1]` when only
forward driving is allowed (2), `[-1,0]` when only backward (-2), else `[-1,1]`. -/
noncomputable def candidate (pref : ℤ) (scale : ℝ) (plan noise : ℕ → U) (t : ℕ) : U :=
  (into (if pref = 2 then 0 else -1) (if pref = -2 then 0 else 1) ((plan t).1 + scale * (noise t).1),
   into (-1) 1 ((plan t).2 + scale * (noise t).2))

/-- States visited by a candidate: first one step with the zero action from the start, then the
actions in order. -/
def visit {Q : Type} (step : St Q → U → St Q) (s : St Q) (u : ℕ → U) : ℕ → St Q
  | 0 => step s (0, 0)
  | t + 1 => step (visit step s u t) (u t)

/-- States visited from `s` under the actions, in order, the first being `s` itself. -/
def follow {Q : Type} (step : St Q → U → St Q) (s : St Q) (u : ℕ → U) : ℕ → St Q
  | 0 => s
  | t + 1 => step (follow step s u t) (u t)

/-- The action really executed at time `t`. -/
def executed {Q : Type} (step : St Q → U → St Q) (s : St Q) (u : ℕ → U) (t : ℕ) : U :=
  (visit step s u (t + 1)).applied

/-- Steering bonus of an action sequence of length `H`: per action the average of `1 - delta²` and of
`1 - ((change of the steering angle)/(a tenth of the largest angle))²`, the latter kept in `[0,1]`
and 1 for the first action. -/
noncomputable def smoothness (dm : ℝ) (H : ℕ) (u : ℕ → U) : ℝ :=
  avg H fun t => ((1 - (u t).2 ^ 2) +
    (if t = 0 then 1 else 1 - into 0 1 ((((u t).2 - (u (t - 1)).2) * dm / (0.1 * dm)) ^ 2))) / 2

/-- Return of a candidate: average stage reward plus weighted terminal reward of the last state. -/
noncomputable def ret {Q : Type} (E : PlanEnv Q) (H : ℕ) (s : St Q) (u : ℕ → U) : ℝ :=
  (avg H fun t => (visit E.step s u (t + 1)).reward) +
    E.terminalWeight * E.terminal (visit E.step s u H).q

/-- Score of a candidate: return plus weighted steering bonus of the executed actions. -/
noncomputable def score {Q : Type} (E : PlanEnv Q) (H : ℕ) (s : St Q) (u : ℕ → U) : ℝ :=
  ret E H s u + E.steeringWeight * smoothness E.deltaMax H (executed E.step s u)

/-- Match of a candidate with the demonstration. -/
noncomputable def demoMatch {Q : Type} (E : PlanEnv Q) (pref : ℤ) (H : ℕ) (s : St Q) (u : ℕ → U) : ℝ :=
  E.xrefLogpd pref ((List.range H).map fun t => (visit E.step s u (t + 1)).q)

/-- Log weight of candidate `n` among `N` with scores `R` and matches `x`: the standardised score over
the temperature; with a demonstration at least its standardised match. -/
noncomputable def logit (temp : ℝ) (demo : Bool) (rx : ℝ) (N : ℕ) (R x : ℕ → ℝ) (n : ℕ) : ℝ :=
  let own := (R n - avg N R) / scaleOf N R / temp
  let dem := (x n - sSup (x '' {m | m < N}) + rx - avg N R) / scaleOf N R / temp
  if demo then max own dem else own

/-- Average of `a 0, ..., a (N-1)` weighted by the exponentials of `z`. -/
noncomputable def expAvg (N : ℕ) (z a : ℕ → ℝ) : ℝ :=
  (∑ n ∈ Finset.range N, exp (z n) * a n) / ∑ n ∈ Finset.range N, exp (z n)

/-- One denoising step: `N` candidates around `plan`, then the exponentially weighted average of the
actions they really executed. -/
noncomputable def update {Q : Type} (E : PlanEnv Q) (cfg : Cfg) (s : St Q) (scale : ℝ) (plan : ℕ → U)
    (noise : ℕ → ℕ → U) (t : ℕ) : U :=
  let cand := fun n => candidate cfg.motionPreference scale plan (noise n)
  let z := logit cfg.temp cfg.enableDemo E.rewXref cfg.Nsample
    (fun n => score E cfg.Hsample s (cand n))
    (fun n => demoMatch E cfg.motionPreference cfg.Hsample s (cand n))
  (expAvg cfg.Nsample z fun n => (executed E.step s (cand n) t).1,
   expAvg cfg.Nsample z fun n => (executed E.step s (cand n) t).2)

/-- Noise scale at level `i`. -/
noncomputable def noiseScale (cfg : Cfg) (i : ℕ) : ℝ :=
  √(1 - alphaBar cfg.beta0 cfg.betaT cfg.Ndiffuse i) /
    √(alphaBar cfg.beta0 cfg.betaT cfg.Ndiffuse (i - 1))

/-- The plans of a run: zero at first, then one denoising step per level, from the highest level down
to level 1, step `k` with its own noise. -/
noncomputable def planAt {Q : Type} (E : PlanEnv Q) (cfg : Cfg) (s : St Q) (noise : ℕ → ℕ → ℕ → U) :
    ℕ → ℕ → U
  | 0 => fun _ => (0, 0)
  | k + 1 => update E cfg s (noiseScale cfg (cfg.Ndiffuse - 1 - k)) (planAt E cfg s noise k) (noise k)

end Spec

namespace Mbd

open Real Classical _root_.Spec

theorem sum_range_map (N : ℕ) (f : ℕ → ℝ) : ((List.range N).map f).sum = ∑ n ∈ Finset.range N, f n := by
  induction N with
  | zero => simp
  | succ N ih => rw [List.range_succ, List.map_append, List.sum_append, ih, Finset.sum_range_succ]; simp

theorem mean_range_map (N : ℕ) (f : ℕ → ℝ) : mean ((List.range N).map f) = Spec.avg N f := by
  simp [mean, Spec.avg, sum_range_map]

theorem guardedStd_range (N : ℕ) (f : ℕ → ℝ) :
    guardedStd ((List.range N).map f) = Spec.scaleOf N f := by
  have : std ((List.range N).map f) = √(Spec.avg N fun n => (f n - Spec.avg N f) ^ 2) := by
    unfold std
    rw [List.map_map, mean_range_map]
    simp only [mean_range_map]
    rfl
  simp only [guardedStd, Spec.scaleOf, this]

theorem clip_into {lo hi : ℝ} (h : lo ≤ hi) (x : ℝ) : clip x lo hi = Spec.into lo hi x := by
  unfold clip Spec.into
  split_ifs with h1 h2
  · rw [max_eq_right h1.le, min_eq_left h]
  · rw [max_eq_left (by linarith), min_eq_right h2.le]
  · rw [max_eq_left (by linarith), min_eq_left (by linarith)]

theorem clipSample_candidate (pref : ℤ) (scale : ℝ) (plan noise : ℕ → U) (t : ℕ) :
    clipSample pref ((noise t).1 * scale + (plan t).1, (noise t).2 * scale + (plan t).2) =
      Spec.candidate pref scale plan noise t := by
  unfold clipSample Spec.candidate clipU
  have e1 : (noise t).1 * scale + (plan t).1 = (plan t).1 + scale * (noise t).1 := by ring
  have e2 : (noise t).2 * scale + (plan t).2 = (plan t).2 + scale * (noise t).2 := by ring
  simp only [e1, e2]
  generalize (plan t).1 + scale * (noise t).1 = a
  refine Prod.ext ?_ (clip_into (by norm_num) _)
  by_cases h2 : pref = 2
  · subst h2
    simp only [if_true, clip, Spec.into]
    norm_num
    split_ifs with h3 h4 <;> simp only [max_def, min_def] <;> split_ifs <;> linarith
  · by_cases h3 : pref = -2
    · subst h3
      simp only [clip, Spec.into]
      norm_num
      split_ifs with h3 h4 <;> simp only [max_def, min_def] <;> split_ifs <;> linarith
    · simp only [h2, h3, if_false]
      exact clip_into (by norm_num) _

theorem scanStates_follow {Q : Type} (step : St Q → U → St Q) (s : St Q) (u : ℕ → U) (H : ℕ) :
    scanStates step s ((List.range H).map u) =
        (List.range H).map (fun t => Spec.follow step s u (t + 1)) := by
  induction H generalizing s u with
  | zero => rfl
  | succ H ih =>
    have hf : ∀ t, Spec.follow step (step s (u 0)) (fun t => u (t + 1)) t =
        Spec.follow step s u (t + 1) := by
      intro t
      induction t with
      | zero => rfl
      | succ t iht => simp only [Spec.follow, iht]
    rw [List.range_succ_eq_map]
    simp only [List.map_cons, List.map_map, scanStates]
    have := ih (step s (u 0)) (fun t => u (t + 1))
    simp only [hf] at this
    exact congrArg₂ _ rfl this

theorem scanStates_range {Q : Type} (step : St Q → U → St Q) (s : St Q) (u : ℕ → U) (H : ℕ) :
    scanStates step (step s (0, 0)) ((List.range H).map u) =
        (List.range H).map (fun t => Spec.visit step s u (t + 1)) ∧
      finalState step (step s (0, 0)) ((List.range H).map u) = Spec.visit step s u H := by
  have app : ∀ (l : List U) (s : St Q) (v : U), scanStates step s (l ++ [v]) =
      scanStates step s l ++ [step (finalState step s l) v] ∧
      finalState step s (l ++ [v]) = step (finalState step s l) v := by
    intro l
    induction l with
    | nil => intro s v; exact ⟨rfl, rfl⟩
    | cons a l ih => intro s v; exact ⟨by simp [scanStates, finalState, (ih (step s a) v).1],
        by simp [finalState, (ih (step s a) v).2]⟩
  induction H with
  | zero => exact ⟨rfl, rfl⟩
  | succ H ih =>
    rw [List.range_succ, List.map_append, List.map_append, List.map_singleton, List.map_singleton]
    obtain ⟨a1, a2⟩ := app ((List.range H).map u) (step s (0, 0)) (u H)
    rw [a1, a2, ih.1, ih.2]
    exact ⟨rfl, rfl⟩

theorem rollout_range {Q : Type} (E : PlanEnv Q) (s : St Q) (u : ℕ → U) (H : ℕ) :
    rolloutUsWithTerminal E.step E.terminal E.terminalWeight s ((List.range H).map u) =
      (Spec.ret E H s u, (List.range H).map (fun t => (Spec.visit E.step s u (t + 1)).q),
        (List.range H).map (Spec.executed E.step s u)) := by
  obtain ⟨h1, h2⟩ := scanStates_range E.step s u H
  unfold rolloutUsWithTerminal warmState
  simp only [h1, h2, List.map_map]
  refine Prod.ext ?_ (Prod.ext rfl rfl)
  exact congrArg (· + _) (mean_range_map H _)

theorem zipWith_range {α β γ : Type} (f : α → β → γ) (a : ℕ → α) (b : ℕ → β) (N : ℕ) :
    List.zipWith f ((List.range N).map a) ((List.range N).map b) =
      (List.range N).map fun n => f (a n) (b n) := by
  apply List.ext_getElem <;> simp

theorem steering_range (dm : ℝ) (H : ℕ) (u : ℕ → U) :
    steeringReward dm ((List.range H).map u) = Spec.smoothness dm H u := by
  unfold steeringReward Spec.smoothness
  rw [← mean_range_map]
  simp only [List.map_map]
  congr 1
  apply List.ext_getElem
  · simp
    omega
  · intro t h1 h2
    simp only [List.getElem_zipWith, List.getElem_map, List.getElem_range, Function.comp]
    rcases t with _ | t
    · simp
      ring
    · simp only [List.getElem_cons_succ, List.getElem_map, List.getElem_zipWith, List.getElem_tail,
        List.getElem_range, Function.comp, Nat.add_sub_cancel, Nat.succ_ne_zero, if_false]
      rw [clip_into (by norm_num), sq_abs, div_pow, div_pow, sq_abs, sub_mul]
      norm_num
      ring

theorem listMax_range {N : ℕ} (f : ℕ → ℝ) (hN : 0 < N) :
    listMax ((List.range N).map f) = sSup (f '' {m | m < N}) := by
  have hne : (List.range N).map f ≠ [] := by simp; omega
  symm
  apply IsGreatest.csSup_eq
  constructor
  · have := listMax_mem hne
    simp only [List.mem_map, List.mem_range] at this
    obtain ⟨n, hn, e⟩ := this
    exact ⟨n, hn, e⟩
  · rintro _ ⟨n, hn, rfl⟩
    exact le_listMax (by simp; exact ⟨n, hn, rfl⟩)

theorem logWeights_range (temp : ℝ) (demo : Bool) (rx : ℝ) (N : ℕ) (R x : ℕ → ℝ) :
    logWeights temp demo rx ((List.range N).map R) ((List.range N).map x) =
      (List.range N).map (Spec.logit temp demo rx N R x) := by
  rcases Nat.eq_zero_or_pos N with rfl | hN
  · cases demo <;> simp [logWeights, logp0, logpDemo]
  unfold logWeights logp0 logpDemo Spec.logit
  simp only [List.map_map, mean_range_map, guardedStd_range, listMax_range x hN]
  cases demo
  · simp [Function.comp_def]
  · simp only [if_true, zipWith_range, Function.comp]
    apply List.map_congr_left
    intro n _
    rw [max_def]
    split_ifs with h1 h2 h2
    · rfl
    · exact absurd h1.le h2
    · exact le_antisymm h2 (not_lt.mp h1)
    · rfl

theorem softmax_range (N : ℕ) (z : ℕ → ℝ) : softmax ((List.range N).map z) =
    (List.range N).map fun n => exp (z n) / ∑ m ∈ Finset.range N, exp (z m) := by
  rw [softmax_eq, List.map_map, List.map_map]
  have := sum_range_map N (exp ∘ z)
  rw [this]
  rfl

theorem evalBatch_range {Q : Type} (E : PlanEnv Q) (cfg : Cfg) (s : St Q) (c : ℕ → ℕ → U) :
    let Ys := (List.range cfg.Nsample).map fun n => (List.range cfg.Hsample).map (c n)
    let z := Spec.logit cfg.temp cfg.enableDemo E.rewXref cfg.Nsample
      (fun n => Spec.score E cfg.Hsample s (c n))
      (fun n => Spec.demoMatch E cfg.motionPreference cfg.Hsample s (c n))
    (evalBatch E cfg s Ys).weights =
        ((List.range cfg.Nsample).map fun n => exp (z n) / ∑ m ∈ Finset.range cfg.Nsample, exp (z m)) ∧
    (evalBatch E cfg s Ys).eff = ((List.range cfg.Nsample).map fun n =>
        (List.range cfg.Hsample).map (Spec.executed E.step s (c n))) ∧
    (evalBatch E cfg s Ys).combined =
      (List.range cfg.Nsample).map fun n => Spec.score E cfg.Hsample s (c n) := by
  intro Ys z
  have hc : (evalBatch E cfg s Ys).combined =
      (List.range cfg.Nsample).map fun n => Spec.score E cfg.Hsample s (c n) := by
    simp only [evalBatch, Ys, List.map_map, zipWith_range, Function.comp, rollout_range, steering_range]
    rfl
  refine ⟨?_, ?_, hc⟩
  · have hw : (evalBatch E cfg s Ys).weights = softmax (logWeights cfg.temp cfg.enableDemo E.rewXref
        (evalBatch E cfg s Ys).combined
        ((evalBatch E cfg s Ys).qs.map (E.xrefLogpd cfg.motionPreference))) := rfl
    have hq : (evalBatch E cfg s Ys).qs.map (E.xrefLogpd cfg.motionPreference) =
        (List.range cfg.Nsample).map fun n =>
          Spec.demoMatch E cfg.motionPreference cfg.Hsample s (c n) := by
      simp only [evalBatch, Ys, List.map_map]
      apply List.map_congr_left
      intro n _
      simp only [Function.comp, rollout_range, Spec.demoMatch]
    rw [hw, hc, hq, logWeights_range, softmax_range]
  · simp only [evalBatch, Ys, List.map_map]
    apply List.map_congr_left
    intro n _
    simp only [Function.comp, rollout_range]

/-- C83, one step: at level `i` the planner replaces the plan by the exponentially weighted average of
the actions its candidates really executed - candidates, scores, weights and average exactly as in
`Spec.update` - counts the level down, moves on to a fresh key, and reports the average score. -/
theorem C83_step {Q : Type} (E : PlanEnv Q) (normal : Key → ℕ → ℕ → ℕ → ℕ → U) (cfg : Cfg) (s : St Q)
    (h0 : 0 < cfg.beta0) (h1 : cfg.beta0 ≤ cfg.betaT) (h2 : cfg.betaT < 1) (i : ℕ) (hi : 1 ≤ i)
    (hn : i < cfg.Ndiffuse) (k : Key) (plan : ℕ → U) :
    reverseOnce E (mkSchedule cfg.beta0 cfg.betaT cfg.Ndiffuse) normal cfg s
        (i, k, (List.range cfg.Hsample).map plan) =
      ((i - 1, k ++ [0], (List.range cfg.Hsample).map (Spec.update E cfg s (Spec.noiseScale cfg i) plan
          (normal (k ++ [1]) cfg.Nsample cfg.Hsample))),
       Spec.avg cfg.Nsample fun n => Spec.score E cfg.Hsample s (Spec.candidate cfg.motionPreference
         (Spec.noiseScale cfg i) plan (normal (k ++ [1]) cfg.Nsample cfg.Hsample n))) := by
  have h := C21_reverse_step E h0 h1 h2 normal cfg s i hi hn k ((List.range cfg.Hsample).map plan)
    (by simp)
  have hv := (C19_values cfg.beta0 cfg.betaT cfg.Ndiffuse).2.2.2
  simp only at h
  rw [(hv i hn).2.2, (hv (i - 1) (by omega)).2.1] at h
  rw [h]
  set noise := normal (k ++ [1]) cfg.Nsample cfg.Hsample
  have hs : samplePlans cfg (Spec.noiseScale cfg i) noise ((List.range cfg.Hsample).map plan) =
      (List.range cfg.Nsample).map fun n => (List.range cfg.Hsample).map
        (Spec.candidate cfg.motionPreference (Spec.noiseScale cfg i) plan (noise n)) := by
    unfold samplePlans
    apply List.map_congr_left
    intro n _
    apply List.ext_getElem
    · simp
    · intro t _ _
      simp only [List.getElem_mapIdx, List.getElem_map, List.getElem_range]
      exact clipSample_candidate _ _ plan (noise n) t
  have hb := evalBatch_range E cfg s fun n =>
    Spec.candidate cfg.motionPreference (Spec.noiseScale cfg i) plan (noise n)
  simp only at hb
  change ((_, _, List.map (fun t => (((List.zipWith _ (evalBatch E cfg s (samplePlans cfg
    (Spec.noiseScale cfg i) noise _)).weights (evalBatch E cfg s (samplePlans cfg
    (Spec.noiseScale cfg i) noise _)).eff).sum, (List.zipWith _ (evalBatch E cfg s (samplePlans cfg
    (Spec.noiseScale cfg i) noise _)).weights (evalBatch E cfg s (samplePlans cfg
    (Spec.noiseScale cfg i) noise _)).eff).sum) : U)) _), mean (evalBatch E cfg s (samplePlans cfg
    (Spec.noiseScale cfg i) noise _)).combined) = _
  rw [hs, hb.1, hb.2.1, hb.2.2, mean_range_map]
  refine Prod.ext (Prod.ext rfl (Prod.ext rfl ?_)) rfl
  apply List.map_congr_left
  intro t ht
  have ht' : t < cfg.Hsample := by simpa using ht
  simp only [zipWith_range, sum_range_map, Spec.update, Spec.expAvg, Finset.sum_div]
  congr 1 <;>
  · apply Finset.sum_congr rfl
    intro n _
    rw [show ∀ f : ℕ → U, ((List.range cfg.Hsample).map f).getD t (0, 0) = f t from fun f => by
      simp [List.getD_eq_getElem?_getD, ht']]
    ring

/-- C83, the run: every saved plan is the corresponding plan of `Spec.planAt`, the returned actions
are those executed by the last one, the returned reward is the return of executing those again, and
the returned states are the start followed by the states visited from the start (without the
zero-action step) under the returned actions. -/
theorem C83_run {Q : Type} (E : PlanEnv Q) (normal : Key → ℕ → ℕ → ℕ → ℕ → U) (cfg : Cfg)
    (h0 : 0 < cfg.beta0) (h1 : cfg.beta0 ≤ cfg.betaT) (h2 : cfg.betaT < 1) :
    let s := E.reset keyReset
    let plan := Spec.planAt E cfg s fun k => normal (sampleKey k) cfg.Nsample cfg.Hsample
    let act := Spec.executed E.step s (plan (cfg.Ndiffuse - 1))
    let R := runDiffusion E normal cfg
    R.hist = ((List.range (cfg.Ndiffuse - 1)).map fun k => (List.range cfg.Hsample).map (plan (k + 1))) ∧
    R.Y0 = (List.range cfg.Hsample).map act ∧
    R.rew = Spec.ret E cfg.Hsample s act ∧
    R.xs = (List.range (cfg.Hsample + 1)).map fun t =>
      (Spec.follow (if cfg.enableGuidance then E.stepViz else E.step) s act t).q := by
  intro s plan act R
  set once := reverseOnce E (mkSchedule cfg.beta0 cfg.betaT cfg.Ndiffuse) normal cfg s with honce
  have hz : zeroPlan cfg = (List.range cfg.Hsample).map (plan 0) := by
    apply List.ext_getElem <;> simp [zeroPlan, plan, Spec.planAt]
  have key : ∀ k ≤ cfg.Ndiffuse - 1, Spec.denoised once cfg.Ndiffuse keyExp (zeroPlan cfg) k =
      ([0, 0] ++ List.replicate k 0, (List.range cfg.Hsample).map (plan k)) := by
    intro k
    induction k with
    | zero => intro _; exact Prod.ext (by simp [Spec.denoised, keyExp, keyMain, split]) hz
    | succ k ih =>
      intro hk
      simp only [Spec.denoised]
      rw [ih (by omega), honce]
      simp only
      rw [C83_step E normal cfg s h0 h1 h2 (cfg.Ndiffuse - 1 - k) (by omega) (by omega)]
      refine Prod.ext ?_ rfl
      simp [List.replicate_succ']
  obtain ⟨c1, c2, c3, -⟩ := C20_history once cfg (zeroPlan cfg) keyExp
  have hY : R.Y0 = (List.range cfg.Hsample).map act := by
    change (rolloutUsWithTerminal E.step E.terminal E.terminalWeight s
      (reverseLoop once cfg (zeroPlan cfg) keyExp).Y).2.2 = _
    rw [c3, key _ le_rfl, rollout_range]
  refine ⟨?_, hY, ?_, ?_⟩
  · change (reverseLoop once cfg (zeroPlan cfg) keyExp).hist = _
    apply List.ext_getElem
    · simp [c1]
    · intro k hk _
      have := c2 k (c1 ▸ hk)
      rw [key _ (by have := c1 ▸ hk; omega)] at this
      simpa [List.getD_eq_getElem?_getD, hk] using this
  · change (rolloutUsWithTerminal E.step E.terminal E.terminalWeight s R.Y0).1 = _
    rw [hY, rollout_range]
  · change s.q :: (scanStates (if cfg.enableGuidance then E.stepViz else E.step) s R.Y0).map St.q = _
    rw [hY, scanStates_follow, List.range_succ_eq_map]
    simp [Spec.follow, Function.comp_def]

/-- The default configuration of the code meets the hypotheses. -/
example {Q : Type} (E : PlanEnv Q) (normal : Key → ℕ → ℕ → ℕ → ℕ → U) :=
  C83_run E normal defaultCfg (by norm_num [defaultCfg]) (by norm_num [defaultCfg])
    (by norm_num [defaultCfg])

/-- A step at the highest level of the default configuration, from an arbitrary plan. -/
example {Q : Type} (E : PlanEnv Q) (normal : Key → ℕ → ℕ → ℕ → ℕ → U) (s : St Q) (k : Key)
    (plan : ℕ → U) :=
  C83_step E normal defaultCfg s (by norm_num [defaultCfg]) (by norm_num [defaultCfg])
    (by norm_num [defaultCfg]) 99 (by norm_num) (by norm_num [defaultCfg]) k plan

end Mbd
