import Verif.PropsWeights
import Mathlib.Analysis.SpecialFunctions.Exp
import Mathlib.Algebra.BigOperators.Group.List.Basic
import Mathlib.Topology.Algebra.Monoid

/-! # C77: what the temperature does, and that the order of the samples does not matter

Specification: a sample is judged by one number, its *score* - the combined reward, or, with a
demonstration, the larger of the combined reward and the reward the demonstration grants it.  The
claims compare the weights and the averaged plan of one batch at different temperatures, and of the
same samples in a different order. -/

namespace Spec
open Mbd

/-- What the vehicle executes for a sampled plan: reward, states and applied actions of its rollout. -/
noncomputable def execute {Q : Type} (E : PlanEnv Q) (s0 : St Q) (Y : List U) : ℝ × List Q × List U :=
  rolloutUsWithTerminal E.step E.terminal E.terminalWeight s0 Y

/-- Combined reward of a sample: rollout reward plus weighted steering reward of the executed plan. -/
noncomputable def sampleReward {Q : Type} (E : PlanEnv Q) (s0 : St Q) (Y : List U) : ℝ :=
  (execute E s0 Y).1 + E.steeringWeight * steeringReward E.deltaMax (execute E s0 Y).2.2

/-- Agreement of a sample's states with the demonstration. -/
noncomputable def sampleMatch {Q : Type} (E : PlanEnv Q) (cfg : Cfg) (s0 : St Q) (Y : List U) : ℝ :=
  E.xrefLogpd cfg.motionPreference (execute E s0 Y).2.1

/-- The one number by which a sample is judged among the samples `Ys`. -/
noncomputable def sampleScore {Q : Type} (E : PlanEnv Q) (cfg : Cfg) (s0 : St Q) (Ys : List (List U))
    (Y : List U) : ℝ :=
  if cfg.enableDemo then
    max (sampleReward E s0 Y)
      (sampleMatch E cfg s0 Y - listMax (Ys.map (sampleMatch E cfg s0)) + E.rewXref)
  else sampleReward E s0 Y

/-- Spread of the combined rewards of a batch, replaced by 1 when it is below `1e-4`. -/
noncomputable def rewardSpread {Q : Type} (E : PlanEnv Q) (s0 : St Q) (Ys : List (List U)) : ℝ :=
  guardedStd (Ys.map (sampleReward E s0))

end Spec

namespace Mbd
open Real Classical _root_.Spec

variable {Q : Type}

theorem combined_eq_map (E : PlanEnv Q) (cfg : Cfg) (s0 : St Q) (Ys : List (List U)) :
    (evalBatch E cfg s0 Ys).combined = Ys.map (sampleReward E s0) := C24_combined E cfg s0 Ys

theorem zipWith_map_same {α β γ δ : Type} (f : β → γ → δ) (g : α → β) (h : α → γ) (l : List α) :
    List.zipWith f (l.map g) (l.map h) = l.map fun a => f (g a) (h a) := by
  induction l with
  | nil => rfl
  | cons a l ih => simp [ih]

theorem logw_eq_map (E : PlanEnv Q) (cfg : Cfg) (ht : 0 < cfg.temp) (s0 : St Q) (Ys : List (List U)) :
    (evalBatch E cfg s0 Ys).logw = Ys.map fun Y =>
      (sampleScore E cfg s0 Ys Y - mean (Ys.map (sampleReward E s0))) / rewardSpread E s0 Ys / cfg.temp := by
  have hc := combined_eq_map E cfg s0 Ys
  have hx : (evalBatch E cfg s0 Ys).logw = logWeights cfg.temp cfg.enableDemo E.rewXref
      (evalBatch E cfg s0 Ys).combined (Ys.map (sampleMatch E cfg s0)) := by
    simp only [evalBatch, List.map_map]
    rfl
  rw [hx, hc]
  have hg := guardedStd_pos (Ys.map (sampleReward E s0))
  cases hd : cfg.enableDemo
  · simp only [logWeights, Bool.false_eq_true, if_false, logp0, List.map_map]
    apply List.map_congr_left
    intro Y _
    simp [sampleScore, hd, rewardSpread]
  · simp only [logWeights, if_true, logp0, logpDemo, List.map_map, zipWith_map_same]
    apply List.map_congr_left
    intro Y _
    simp only [Function.comp, sampleScore, hd, if_true, rewardSpread]
    generalize sampleReward E s0 Y = r
    generalize sampleMatch E cfg s0 Y - listMax (Ys.map (sampleMatch E cfg s0)) + E.rewXref = d
    generalize guardedStd (Ys.map (sampleReward E s0)) = g at *
    generalize mean (Ys.map (sampleReward E s0)) = m
    have hm : Monotone fun x : ℝ => (x - m) / g / cfg.temp := fun a b h =>
      div_le_div_of_nonneg_right (div_le_div_of_nonneg_right (by linarith) hg.le) ht.le
    have := hm.map_max (a := r) (b := d)
    rw [this]
    split_ifs with h
    · exact (max_eq_right h.le).symm
    · exact (max_eq_left (not_lt.mp h)).symm

theorem softmax_shift (l : List ℝ) (c : ℝ) : softmax (l.map fun x => x - c) = softmax l := by
  rcases eq_or_ne l [] with rfl | hl
  · rfl
  rw [softmax_eq, softmax_eq, List.map_map, List.map_map]
  apply List.map_congr_left
  intro x _
  have h1 : (l.map (exp ∘ fun x => x - c)).sum = (l.map exp).sum * (exp c)⁻¹ := by
    rw [← sum_map_const_mul, List.map_map]
    congr 1
    apply List.map_congr_left
    intro y _
    simp only [Function.comp, exp_sub, div_eq_mul_inv]
  have h2 := (sum_exp_pos hl).ne'
  have h3 := (exp_pos c).ne'
  simp only [Function.comp]
  rw [h1, exp_sub]
  field_simp

/-- Weight of a sample whose score is `s` among samples with scores given by `f`, at inverse
temperature `b`. -/
noncomputable def gibbs (b : ℝ) (f : List U → ℝ) (Ys : List (List U)) (Y : List U) : ℝ :=
  exp (b * f Y) / (Ys.map fun Z => exp (b * f Z)).sum

theorem weights_eq_map (E : PlanEnv Q) (cfg : Cfg) (ht : 0 < cfg.temp) (s0 : St Q) (Ys : List (List U)) :
    (evalBatch E cfg s0 Ys).weights = Ys.map
      (gibbs (1 / (rewardSpread E s0 Ys * cfg.temp)) (sampleScore E cfg s0 Ys) Ys) := by
  have h : (evalBatch E cfg s0 Ys).weights = softmax (evalBatch E cfg s0 Ys).logw := rfl
  rw [h, logw_eq_map E cfg ht]
  have hs : Ys.map (fun Y => (sampleScore E cfg s0 Ys Y - mean (Ys.map (sampleReward E s0))) /
      rewardSpread E s0 Ys / cfg.temp) =
      (Ys.map fun Y => 1 / (rewardSpread E s0 Ys * cfg.temp) * sampleScore E cfg s0 Ys Y).map
        fun x => x - mean (Ys.map (sampleReward E s0)) / rewardSpread E s0 Ys / cfg.temp := by
    rw [List.map_map]
    apply List.map_congr_left
    intro Y _
    have : rewardSpread E s0 Ys ≠ 0 := (guardedStd_pos _).ne'
    simp only [Function.comp]
    field_simp
  rw [hs, softmax_shift, softmax_eq, List.map_map]
  apply List.map_congr_left
  intro Y _
  simp only [Function.comp, gibbs, List.map_map]
  rfl

theorem ybar_eq_map (E : PlanEnv Q) (cfg : Cfg) (ht : 0 < cfg.temp) (s0 : St Q) (Ys : List (List U)) :
    (evalBatch E cfg s0 Ys).ybar = (List.range cfg.Hsample).map fun k =>
      ((Ys.map fun Y => gibbs (1 / (rewardSpread E s0 Ys * cfg.temp)) (sampleScore E cfg s0 Ys) Ys Y *
          ((execute E s0 Y).2.2.getD k (0, 0)).1).sum,
       (Ys.map fun Y => gibbs (1 / (rewardSpread E s0 Ys * cfg.temp)) (sampleScore E cfg s0 Ys) Ys Y *
          ((execute E s0 Y).2.2.getD k (0, 0)).2).sum) := by
  have h : (evalBatch E cfg s0 Ys).ybar = weightedPlan cfg.Hsample (evalBatch E cfg s0 Ys).weights
      (Ys.map fun Y => (execute E s0 Y).2.2) := by
    simp only [evalBatch, List.map_map]
    rfl
  rw [h, weights_eq_map E cfg ht, weightedPlan]
  simp only [zipWith_map_same]

/-! ## Order of the samples -/

theorem mean_perm {l m : List ℝ} (h : l.Perm m) : mean l = mean m := by
  simp only [mean, h.sum_eq, h.length_eq]

theorem std_perm {l m : List ℝ} (h : l.Perm m) : std l = std m := by
  simp only [std, mean_perm h]
  rw [mean_perm (h.map _)]

theorem listMax_perm {l m : List ℝ} (h : l.Perm m) : listMax l = listMax m := by
  rcases eq_or_ne l [] with rfl | hl
  · rw [List.nil_perm.mp h]
  have hm : m ≠ [] := by
    rintro rfl
    exact hl (List.perm_nil.mp h)
  exact le_antisymm (le_listMax (h.mem_iff.mp (listMax_mem hl))) (le_listMax (h.mem_iff.mpr (listMax_mem hm)))

theorem gibbs_perm {Ys Zs : List (List U)} (h : Ys.Perm Zs) (b : ℝ) (f : List U → ℝ) :
    gibbs b f Ys = gibbs b f Zs := by
  funext Y
  simp only [gibbs, (h.map _).sum_eq]

/-- C77: reordering the samples of a batch changes neither the averaged plan nor the reported mean
reward; every sample keeps its weight. -/
theorem C77_order (E : PlanEnv Q) (cfg : Cfg) (ht : 0 < cfg.temp) (s0 : St Q) {Ys Zs : List (List U)}
    (h : Ys.Perm Zs) :
    (evalBatch E cfg s0 Ys).ybar = (evalBatch E cfg s0 Zs).ybar ∧
    mean (evalBatch E cfg s0 Ys).combined = mean (evalBatch E cfg s0 Zs).combined ∧
    ∀ i j : ℕ, i < Ys.length → j < Zs.length → Ys.getD i [] = Zs.getD j [] →
      (evalBatch E cfg s0 Ys).weights.getD i 0 = (evalBatch E cfg s0 Zs).weights.getD j 0 := by
  have hs : sampleScore E cfg s0 Ys = sampleScore E cfg s0 Zs := by
    funext Y
    simp only [sampleScore, listMax_perm (h.map _)]
  have hg : rewardSpread E s0 Ys = rewardSpread E s0 Zs := by
    simp only [rewardSpread, guardedStd, std_perm (h.map _)]
  refine ⟨?_, ?_, ?_⟩
  · rw [ybar_eq_map E cfg ht, ybar_eq_map E cfg ht, hs, hg, gibbs_perm h]
    apply List.map_congr_left
    intro k _
    rw [(h.map _).sum_eq, (h.map (fun Y => _ * ((execute E s0 Y).2.2.getD k (0, 0)).2)).sum_eq]
  · rw [combined_eq_map, combined_eq_map, mean_perm (h.map _)]
  · intro i j hi hj hij
    rw [weights_eq_map E cfg ht, weights_eq_map E cfg ht, hs, hg, gibbs_perm h]
    simp only [List.getD_eq_getElem?_getD, List.getElem?_map, List.getElem?_eq_getElem hi,
      List.getElem?_eq_getElem hj, Option.map_some, Option.getD_some] at hij ⊢
    rw [hij]

/-- One denoising step does not depend on which sample got which noise. -/
theorem reverseOnce_noise_order (E : PlanEnv Q) (S : Schedule) (cfg : Cfg) (ht : 0 < cfg.temp) (s0 : St Q)
    (normal normal' : Key → ℕ → ℕ → ℕ → ℕ → U) (carry : ℕ × Key × List U)
    (h : ∀ k, ∃ σ : Equiv.Perm ℕ, (∀ n, σ n < cfg.Nsample ↔ n < cfg.Nsample) ∧
      ∀ n < cfg.Nsample, normal' k cfg.Nsample cfg.Hsample n = normal k cfg.Nsample cfg.Hsample (σ n)) :
    reverseOnce E S normal' cfg s0 carry = reverseOnce E S normal cfg s0 carry := by
  obtain ⟨σ, hσ, hn⟩ := h (split carry.2.1).2
  have hp : ((List.range cfg.Nsample).map σ).Perm (List.range cfg.Nsample) := by
    rw [List.perm_ext_iff_of_nodup ((List.nodup_range).map σ.injective) List.nodup_range]
    intro m
    simp only [List.mem_map, List.mem_range]
    constructor
    · rintro ⟨n, hn', rfl⟩
      exact (hσ n).mpr hn'
    · intro hm
      refine ⟨σ.symm m, ?_, by simp⟩
      rw [← hσ]; simpa using hm
  have key : ∀ scale, (samplePlans cfg scale (normal' (split carry.2.1).2 cfg.Nsample cfg.Hsample)
      carry.2.2).Perm (samplePlans cfg scale (normal (split carry.2.1).2 cfg.Nsample cfg.Hsample)
      carry.2.2) := by
    intro scale
    simp only [samplePlans]
    have e : (List.range cfg.Nsample).map (fun n => carry.2.2.mapIdx fun t y =>
        clipSample cfg.motionPreference
          ((normal' (split carry.2.1).2 cfg.Nsample cfg.Hsample n t).1 * scale + y.1,
           (normal' (split carry.2.1).2 cfg.Nsample cfg.Hsample n t).2 * scale + y.2)) =
        ((List.range cfg.Nsample).map σ).map (fun n => carry.2.2.mapIdx fun t y =>
        clipSample cfg.motionPreference
          ((normal (split carry.2.1).2 cfg.Nsample cfg.Hsample n t).1 * scale + y.1,
           (normal (split carry.2.1).2 cfg.Nsample cfg.Hsample n t).2 * scale + y.2)) := by
      rw [List.map_map]
      apply List.map_congr_left
      intro n hn'
      rw [hn n (List.mem_range.mp hn')]
      rfl
    rw [e]
    exact hp.map _
  have hb := C77_order E cfg ht s0 (key (clampGet S.sigmas carry.1 /
    √(clampGet S.alphasBar (carry.1 - 1))))
  simp only [reverseOnce, hb.1, hb.2.1]

/-- C77: a whole planning run does not depend on which sample got which noise: if at every denoising
step the noise sequences are only handed to the samples in a different order, the reward, the plan, the
trajectory and the history are unchanged. -/
theorem C77_noise_order (E : PlanEnv Q) (cfg : Cfg) (ht : 0 < cfg.temp)
    (normal normal' : Key → ℕ → ℕ → ℕ → ℕ → U)
    (h : ∀ k, ∃ σ : Equiv.Perm ℕ, (∀ n, σ n < cfg.Nsample ↔ n < cfg.Nsample) ∧
      ∀ n < cfg.Nsample, normal' k cfg.Nsample cfg.Hsample n = normal k cfg.Nsample cfg.Hsample (σ n)) :
    runDiffusion E normal' cfg = runDiffusion E normal cfg := by
  have hr : ∀ S s0, reverseOnce E S normal' cfg s0 = reverseOnce E S normal cfg s0 := fun S s0 =>
    funext fun c => reverseOnce_noise_order E S cfg ht s0 normal normal' c h
  simp only [runDiffusion, hr]

/-! ## Temperature -/

/-- C77: the ratio of two weights is the exponential of the score difference, in units of the reward
spread, divided by the temperature. -/
theorem C77_ratio (E : PlanEnv Q) (cfg : Cfg) (ht : 0 < cfg.temp) (s0 : St Q) (Ys : List (List U))
    (i j : ℕ) (hi : i < Ys.length) (hj : j < Ys.length) :
    (evalBatch E cfg s0 Ys).weights.getD i 0 / (evalBatch E cfg s0 Ys).weights.getD j 0 =
      exp ((sampleScore E cfg s0 Ys (Ys.getD i []) - sampleScore E cfg s0 Ys (Ys.getD j [])) /
        (rewardSpread E s0 Ys * cfg.temp)) := by
  rw [weights_eq_map E cfg ht]
  simp only [List.getD_eq_getElem?_getD, List.getElem?_map, List.getElem?_eq_getElem hi,
      List.getElem?_eq_getElem hj, Option.map_some, Option.getD_some, gibbs]
  have hS : 0 < (Ys.map fun Z => exp (1 / (rewardSpread E s0 Ys * cfg.temp) * sampleScore E cfg s0 Ys Z)).sum := by
    apply sum_pos_of
    · intro h
      rw [List.map_eq_nil_iff.mp h] at hi
      simp at hi
    · intro x hx
      obtain ⟨Z, _, rfl⟩ := List.mem_map.mp hx
      exact exp_pos _
  rw [div_div_div_cancel_right₀ hS.ne', ← exp_sub]
  congr 1
  ring

theorem gibbs_den_pos (b : ℝ) (f : List U → ℝ) {Ys : List (List U)} (h : Ys ≠ []) :
    0 < (Ys.map fun Z => exp (b * f Z)).sum := by
  apply sum_pos_of (by simpa using h)
  intro x hx
  obtain ⟨Z, _, rfl⟩ := List.mem_map.mp hx
  exact exp_pos _

theorem gibbs_inv (b : ℝ) (f : List U → ℝ) (Ys : List (List U)) (Y : List U) :
    gibbs b f Ys Y = 1 / (Ys.map fun Z => exp (-(b * (f Y - f Z)))).sum := by
  have : (Ys.map fun Z => exp (b * f Z)).sum = (Ys.map fun Z => exp (-(b * (f Y - f Z)))).sum * exp (b * f Y) := by
    rw [← sum_map_const_mul, List.map_map]
    congr 1
    apply List.map_congr_left
    intro Z _
    simp only [Function.comp, ← exp_add]
    congr 1; ring
  rw [gibbs, this]
  have h := (exp_pos (b * f Y)).ne'
  rw [div_mul_eq_div_div_swap, div_self h]

theorem sum_map_le {α : Type} {l : List α} {f g : α → ℝ} (h : ∀ a ∈ l, f a ≤ g a) :
    (l.map f).sum ≤ (l.map g).sum := by
  induction l with
  | nil => simp
  | cons a l ih =>
    simp only [List.map_cons, List.sum_cons]
    exact add_le_add (h a (by simp)) (ih fun b hb => h b (by simp [hb]))

/-- The score does not depend on the temperature. -/
theorem sampleScore_temp (E : PlanEnv Q) (cfg : Cfg) (t : ℝ) (s0 : St Q) (Ys : List (List U)) :
    sampleScore E { cfg with temp := t } s0 Ys = sampleScore E cfg s0 Ys := rfl

theorem getD_map_lt {α : Type} (f : α → ℝ) (l : List α) (d : α) {i : ℕ} (h : i < l.length) :
    (l.map f).getD i 0 = f (l.getD i d) := by
  simp [List.getD_eq_getElem?_getD, List.getElem?_map, List.getElem?_eq_getElem h]

theorem weight_temp (E : PlanEnv Q) (cfg : Cfg) (s0 : St Q) (Ys : List (List U)) {t : ℝ} (ht : 0 < t)
    (i : ℕ) (hi : i < Ys.length) :
    (evalBatch E { cfg with temp := t } s0 Ys).weights.getD i 0 =
      gibbs (1 / (rewardSpread E s0 Ys * t)) (sampleScore E cfg s0 Ys) Ys (Ys.getD i []) := by
  rw [weights_eq_map E _ (by exact ht), getD_map_lt _ _ [] hi]
  rfl

theorem gibbs_inv_den_pos (b : ℝ) (f : List U → ℝ) {Ys : List (List U)} (h : Ys ≠ []) (Y : List U) :
    0 < (Ys.map fun Z => exp (-(b * (f Y - f Z)))).sum := by
  apply sum_pos_of (by simpa using h)
  intro x hx
  obtain ⟨Z, _, rfl⟩ := List.mem_map.mp hx
  exact exp_pos _

theorem inv_temp_le {g t t' : ℝ} (hg : 0 < g) (h0 : 0 < t') (h1 : t' ≤ t) : 1 / (g * t) ≤ 1 / (g * t') :=
  one_div_le_one_div_of_le (by positivity) (by nlinarith)

/-- C77: lowering the temperature never takes weight from a sample with the greatest score, and never
gives weight to one with the least score. -/
theorem C77_cooler (E : PlanEnv Q) (cfg : Cfg) (s0 : St Q) (Ys : List (List U)) {t t' : ℝ}
    (h0 : 0 < t') (h1 : t' ≤ t) (i : ℕ) (hi : i < Ys.length) :
    ((∀ Y ∈ Ys, sampleScore E cfg s0 Ys Y ≤ sampleScore E cfg s0 Ys (Ys.getD i [])) →
      (evalBatch E { cfg with temp := t } s0 Ys).weights.getD i 0 ≤
      (evalBatch E { cfg with temp := t' } s0 Ys).weights.getD i 0) ∧
    ((∀ Y ∈ Ys, sampleScore E cfg s0 Ys (Ys.getD i []) ≤ sampleScore E cfg s0 Ys Y) →
      (evalBatch E { cfg with temp := t' } s0 Ys).weights.getD i 0 ≤
      (evalBatch E { cfg with temp := t } s0 Ys).weights.getD i 0) := by
  have ht : 0 < t := lt_of_lt_of_le h0 h1
  have hne : Ys ≠ [] := by rintro rfl; simp at hi
  rw [weight_temp E cfg s0 Ys ht i hi, weight_temp E cfg s0 Ys h0 i hi]
  have hb := inv_temp_le (guardedStd_pos (Ys.map (sampleReward E s0))) h0 h1
  change 1 / (rewardSpread E s0 Ys * t) ≤ 1 / (rewardSpread E s0 Ys * t') at hb
  generalize sampleScore E cfg s0 Ys = f
  generalize Ys.getD i [] = Y
  generalize 1 / (rewardSpread E s0 Ys * t) = b at *
  generalize 1 / (rewardSpread E s0 Ys * t') = b' at *
  rw [gibbs_inv, gibbs_inv]
  constructor
  · intro h
    apply one_div_le_one_div_of_le (gibbs_inv_den_pos _ _ hne _)
    apply sum_map_le
    intro Z hZ
    rw [exp_le_exp]
    nlinarith [h Z hZ]
  · intro h
    apply one_div_le_one_div_of_le (gibbs_inv_den_pos _ _ hne _)
    apply sum_map_le
    intro Z hZ
    rw [exp_le_exp]
    nlinarith [h Z hZ]

/-- Mean of a list of scores under the weights at inverse temperature `b`. -/
noncomputable def gibbsMean (b : ℝ) (f : List U → ℝ) (Ys : List (List U)) : ℝ :=
  (Ys.map fun Y => gibbs b f Ys Y * f Y).sum

theorem gibbsMean_eq (b : ℝ) (f : List U → ℝ) (Ys : List (List U)) :
    gibbsMean b f Ys = (∑ i : Fin Ys.length, exp (b * f Ys[i.1]) * f Ys[i.1]) /
      ∑ i : Fin Ys.length, exp (b * f Ys[i.1]) := by
  rw [Fin.sum_univ_fun_getElem Ys fun Y => exp (b * f Y) * f Y, Fin.sum_univ_fun_getElem Ys fun Y => exp (b * f Y),
    gibbsMean, div_eq_mul_inv, ← sum_map_const_mul, List.map_map]
  congr 1
  apply List.map_congr_left
  intro Y _
  simp only [Function.comp, gibbs, div_eq_mul_inv]
  ring

theorem tilt_le {ι : Type} [Fintype ι] (x : ι → ℝ) {b b' : ℝ} (hb : b ≤ b') :
    (∑ i, exp (b * x i) * x i) * (∑ i, exp (b' * x i)) ≤
      (∑ i, exp (b' * x i) * x i) * (∑ i, exp (b * x i)) := by
  have h1 : (∑ i, exp (b' * x i) * x i) * (∑ i, exp (b * x i)) -
      (∑ i, exp (b * x i) * x i) * (∑ i, exp (b' * x i)) =
      ∑ i, ∑ j, x i * (exp (b' * x i) * exp (b * x j) - exp (b * x i) * exp (b' * x j)) := by
    rw [Finset.sum_mul_sum, Finset.sum_mul_sum, ← Finset.sum_sub_distrib]
    apply Finset.sum_congr rfl
    intro i _
    rw [← Finset.sum_sub_distrib]
    apply Finset.sum_congr rfl
    intro j _
    ring
  have h2 : ∑ i, ∑ j, x i * (exp (b' * x i) * exp (b * x j) - exp (b * x i) * exp (b' * x j)) =
      ∑ i, ∑ j, x j * (exp (b' * x j) * exp (b * x i) - exp (b * x j) * exp (b' * x i)) :=
    Finset.sum_comm
  have h3 : 0 ≤ ∑ i, ∑ j, (x i * (exp (b' * x i) * exp (b * x j) - exp (b * x i) * exp (b' * x j)) +
      x j * (exp (b' * x j) * exp (b * x i) - exp (b * x j) * exp (b' * x i))) := by
    apply Finset.sum_nonneg
    intro i _
    apply Finset.sum_nonneg
    intro j _
    have e : x i * (exp (b' * x i) * exp (b * x j) - exp (b * x i) * exp (b' * x j)) +
      x j * (exp (b' * x j) * exp (b * x i) - exp (b * x j) * exp (b' * x i)) =
      (x i - x j) * (exp (b' * x i + b * x j) - exp (b * x i + b' * x j)) := by
      simp only [exp_add]; ring
    rw [e]
    rcases le_total (x i) (x j) with h | h
    · apply mul_nonneg_of_nonpos_of_nonpos (by linarith)
      rw [sub_nonpos, exp_le_exp]
      nlinarith
    · apply mul_nonneg (by linarith)
      rw [sub_nonneg, exp_le_exp]
      nlinarith
  simp only [Finset.sum_add_distrib] at h3
  linarith

theorem gibbsMean_mono (f : List U → ℝ) {Ys : List (List U)} (h : Ys ≠ []) {b b' : ℝ} (hb : b ≤ b') :
    gibbsMean b f Ys ≤ gibbsMean b' f Ys := by
  have hp : ∀ c, 0 < ∑ i : Fin Ys.length, exp (c * f Ys[i.1]) := by
    intro c
    rw [Fin.sum_univ_fun_getElem Ys fun Y => exp (c * f Y)]
    exact gibbs_den_pos c f h
  rw [gibbsMean_eq, gibbsMean_eq, div_le_div_iff₀ (hp b) (hp b')]
  exact tilt_le (fun i : Fin Ys.length => f Ys[i.1]) hb

theorem gibbs_zero (f : List U → ℝ) (Ys : List (List U)) (Y : List U) : gibbs 0 f Ys Y = 1 / Ys.length := by
  simp [gibbs]

theorem zipWith_map_left {α β γ : Type} (f : β → α → γ) (g : α → β) (l : List α) :
    List.zipWith f (l.map g) l = l.map fun a => f (g a) a := by
  induction l with
  | nil => rfl
  | cons a l ih => simp [ih]

theorem zipWith_weights (E : PlanEnv Q) (cfg : Cfg) (s0 : St Q) (Ys : List (List U)) {t : ℝ} (ht : 0 < t) :
    (List.zipWith (fun w Y => w * sampleScore E cfg s0 Ys Y)
      (evalBatch E { cfg with temp := t } s0 Ys).weights Ys).sum =
    gibbsMean (1 / (rewardSpread E s0 Ys * t)) (sampleScore E cfg s0 Ys) Ys := by
  rw [weights_eq_map E _ (by exact ht)]
  rw [zipWith_map_left]
  rfl

/-- C77: the weighted mean score of a batch never drops when the temperature is lowered, and at every
temperature it is at least the plain mean of the scores. -/
theorem C77_mean_score (E : PlanEnv Q) (cfg : Cfg) (s0 : St Q) (Ys : List (List U)) (hne : Ys ≠ [])
    {t t' : ℝ} (h0 : 0 < t') (h1 : t' ≤ t) :
    (List.zipWith (fun w Y => w * sampleScore E cfg s0 Ys Y)
      (evalBatch E { cfg with temp := t } s0 Ys).weights Ys).sum ≤
    (List.zipWith (fun w Y => w * sampleScore E cfg s0 Ys Y)
      (evalBatch E { cfg with temp := t' } s0 Ys).weights Ys).sum ∧
    mean (Ys.map (sampleScore E cfg s0 Ys)) ≤
    (List.zipWith (fun w Y => w * sampleScore E cfg s0 Ys Y)
      (evalBatch E { cfg with temp := t } s0 Ys).weights Ys).sum := by
  have ht : 0 < t := lt_of_lt_of_le h0 h1
  have hg : 0 < rewardSpread E s0 Ys := guardedStd_pos _
  rw [zipWith_weights E cfg s0 Ys ht, zipWith_weights E cfg s0 Ys h0]
  refine ⟨gibbsMean_mono _ hne (inv_temp_le hg h0 h1), ?_⟩
  have h := gibbsMean_mono (sampleScore E cfg s0 Ys) hne (b := 0)
    (b' := 1 / (rewardSpread E s0 Ys * t)) (by positivity)
  refine le_trans (le_of_eq ?_) h
  simp only [gibbsMean, gibbs_zero, mean, List.length_map]
  rw [div_eq_mul_inv, ← sum_map_const_mul, List.map_map]
  congr 1
  apply List.map_congr_left
  intro Y _
  simp only [Function.comp, one_div]
  ring

theorem gibbs_inv_fin (b : ℝ) (f : List U → ℝ) (Ys : List (List U)) (Y : List U) :
    gibbs b f Ys Y = 1 / ∑ j : Fin Ys.length, exp (-(b * (f Y - f Ys[j.1]))) := by
  rw [gibbs_inv, Fin.sum_univ_fun_getElem Ys fun Z => exp (-(b * (f Y - f Z)))]

theorem getD_fin (Ys : List (List U)) (j : Fin Ys.length) : Ys.getD j.1 [] = Ys[j.1] := by
  simp [List.getD_eq_getElem?_getD]

/-- C77: if one sample beats every other by at least `gap`, the weight left for all the others together
is at most `(N - 1) exp (-gap / (spread * temp))`. -/
theorem C77_cold (E : PlanEnv Q) (cfg : Cfg) (ht : 0 < cfg.temp) (s0 : St Q) (Ys : List (List U)) (gap : ℝ)
    (i : ℕ) (hi : i < Ys.length)
    (h : ∀ j < Ys.length, j ≠ i →
      sampleScore E cfg s0 Ys (Ys.getD j []) + gap ≤ sampleScore E cfg s0 Ys (Ys.getD i [])) :
    1 - (evalBatch E cfg s0 Ys).weights.getD i 0 ≤
      ((Ys.length : ℝ) - 1) * exp (-(gap / (rewardSpread E s0 Ys * cfg.temp))) := by
  have hg : 0 < rewardSpread E s0 Ys := guardedStd_pos _
  have hw : (evalBatch E cfg s0 Ys).weights.getD i 0 = _ := weight_temp E cfg s0 Ys ht i hi
  rw [hw, gibbs_inv_fin]
  have hb : 0 < 1 / (rewardSpread E s0 Ys * cfg.temp) := by positivity
  have he : gap / (rewardSpread E s0 Ys * cfg.temp) = 1 / (rewardSpread E s0 Ys * cfg.temp) * gap := by ring
  rw [he]
  generalize sampleScore E cfg s0 Ys = f at *
  generalize 1 / (rewardSpread E s0 Ys * cfg.temp) = b at *
  have hsum := Finset.add_sum_erase Finset.univ
    (fun j : Fin Ys.length => exp (-(b * (f (Ys.getD i []) - f Ys[j.1])))) (Finset.mem_univ ⟨i, hi⟩)
  have h1 : exp (-(b * (f (Ys.getD i []) - f Ys[i]))) = 1 := by
    have := getD_fin Ys ⟨i, hi⟩
    simp only at this
    rw [this, sub_self, mul_zero, neg_zero, exp_zero]
  have h2 : ∑ j ∈ Finset.univ.erase (⟨i, hi⟩ : Fin Ys.length), exp (-(b * (f (Ys.getD i []) - f Ys[j.1]))) ≤
      ∑ j ∈ Finset.univ.erase (⟨i, hi⟩ : Fin Ys.length), exp (-(b * gap)) := by
    apply Finset.sum_le_sum
    intro j hj
    have hji : j.1 ≠ i := fun hh => (Finset.mem_erase.mp hj).1 (Fin.ext hh)
    have := h j.1 j.2 hji
    rw [getD_fin] at this
    rw [exp_le_exp]
    nlinarith
  have h3 : 0 ≤ ∑ j ∈ Finset.univ.erase (⟨i, hi⟩ : Fin Ys.length), exp (-(b * (f (Ys.getD i []) - f Ys[j.1]))) :=
    Finset.sum_nonneg fun j _ => (exp_pos _).le
  rw [Finset.sum_const, Finset.card_erase_of_mem (Finset.mem_univ _), Finset.card_univ, Fintype.card_fin,
    nsmul_eq_mul, Nat.cast_sub (by omega), Nat.cast_one] at h2
  simp only [h1] at hsum
  rw [← hsum]
  refine le_trans ?_ h2
  generalize ∑ j ∈ Finset.univ.erase (⟨i, hi⟩ : Fin Ys.length), exp (-(b * (f (Ys.getD i []) - f Ys[j.1]))) = D at *
  have : 1 - 1 / (1 + D) = D / (1 + D) := by field_simp; ring
  rw [this, div_le_iff₀ (by linarith)]
  nlinarith

theorem gibbs_shift_fin (b c : ℝ) (f : List U → ℝ) (Ys : List (List U)) (Y : List U) :
    gibbs b f Ys Y = exp (b * (f Y - c)) / ∑ j : Fin Ys.length, exp (b * (f Ys[j.1] - c)) := by
  rw [Fin.sum_univ_fun_getElem Ys fun Z => exp (b * (f Z - c)), gibbs]
  have h : (Ys.map fun Z => exp (b * (f Z - c))).sum = (Ys.map fun Z => exp (b * f Z)).sum * exp (-(b * c)) := by
    rw [← sum_map_const_mul, List.map_map]
    congr 1
    apply List.map_congr_left
    intro Z _
    simp only [Function.comp, ← exp_add]
    congr 1; ring
  have h2 : exp (b * (f Y - c)) = exp (b * f Y) * exp (-(b * c)) := by
    rw [← exp_add]; congr 1; ring
  rw [h, h2, mul_div_mul_right _ _ (exp_pos _).ne']

/-- As the inverse temperature grows all the weight goes to the strictly best sample. -/
theorem gibbs_tendsto_best (f : List U → ℝ) (Ys : List (List U)) (i : Fin Ys.length)
    (h : ∀ j : Fin Ys.length, j ≠ i → f Ys[j.1] < f Ys[i.1]) (j : Fin Ys.length) :
    Filter.Tendsto (fun b => gibbs b f Ys Ys[j.1]) Filter.atTop (nhds (if j = i then 1 else 0)) := by
  have key : ∀ k : Fin Ys.length, Filter.Tendsto (fun b => exp (b * (f Ys[k.1] - f Ys[i.1]))) Filter.atTop
      (nhds (if k = i then 1 else 0)) := by
    intro k
    by_cases hk : k = i
    · subst hk
      simp
    · rw [if_neg hk]
      apply Real.tendsto_exp_atBot.comp
      exact Filter.tendsto_id.atTop_mul_const_of_neg (sub_neg.mpr (h k hk))
  have hs := tendsto_finsetSum Finset.univ fun k _ => key k
  rw [Finset.sum_ite_eq' Finset.univ i, if_pos (Finset.mem_univ i)] at hs
  have := (key j).div hs one_ne_zero
  rw [div_one] at this
  refine this.congr fun b => ?_
  exact (gibbs_shift_fin b _ f Ys _).symm

theorem gibbs_tendsto_uniform (f : List U → ℝ) {Ys : List (List U)} (hne : Ys ≠ []) (Y : List U) :
    Filter.Tendsto (fun b => gibbs b f Ys Y) (nhds 0) (nhds (1 / Ys.length)) := by
  rw [← gibbs_zero f Ys Y]
  apply ContinuousAt.tendsto (f := fun b => gibbs b f Ys Y)
  have he : (fun b => gibbs b f Ys Y) = fun b => exp (b * f Y) / ∑ j : Fin Ys.length, exp (b * f Ys[j.1]) := by
    funext b
    rw [Fin.sum_univ_fun_getElem Ys fun Z => exp (b * f Z), gibbs]
  rw [he]
  apply ContinuousAt.div
  · exact (by fun_prop : Continuous fun b => exp (b * f Y)).continuousAt
  · exact (by fun_prop : Continuous fun b => ∑ j : Fin Ys.length, exp (b * f Ys[j.1])).continuousAt
  · rw [Fin.sum_univ_fun_getElem Ys fun Z => exp (0 * f Z)]
    exact (gibbs_den_pos 0 f hne).ne'

theorem ybar_temp (E : PlanEnv Q) (cfg : Cfg) (s0 : St Q) (Ys : List (List U)) {t : ℝ} (ht : 0 < t)
    (k : ℕ) (hk : k < cfg.Hsample) :
    (evalBatch E { cfg with temp := t } s0 Ys).ybar.getD k (0, 0) =
      (∑ j : Fin Ys.length, gibbs (1 / (rewardSpread E s0 Ys * t)) (sampleScore E cfg s0 Ys) Ys Ys[j.1] *
          ((execute E s0 Ys[j.1]).2.2.getD k (0, 0)).1,
       ∑ j : Fin Ys.length, gibbs (1 / (rewardSpread E s0 Ys * t)) (sampleScore E cfg s0 Ys) Ys Ys[j.1] *
          ((execute E s0 Ys[j.1]).2.2.getD k (0, 0)).2) := by
  rw [ybar_eq_map E _ (by exact ht)]
  rw [Fin.sum_univ_fun_getElem Ys fun Y => gibbs (1 / (rewardSpread E s0 Ys * t)) (sampleScore E cfg s0 Ys) Ys Y *
          ((execute E s0 Y).2.2.getD k (0, 0)).1,
    Fin.sum_univ_fun_getElem Ys fun Y => gibbs (1 / (rewardSpread E s0 Ys * t)) (sampleScore E cfg s0 Ys) Ys Y *
          ((execute E s0 Y).2.2.getD k (0, 0)).2]
  simp only [List.getD_eq_getElem?_getD, List.getElem?_map, List.getElem?_range hk, Option.map_some,
    Option.getD_some]
  rfl

/-- C77: as the temperature goes to zero, the averaged plan tends to the executed plan of the sample
with the strictly greatest score. -/
theorem C77_cold_limit (E : PlanEnv Q) (cfg : Cfg) (s0 : St Q) (Ys : List (List U))
    (i : ℕ) (hi : i < Ys.length)
    (h : ∀ j < Ys.length, j ≠ i →
      sampleScore E cfg s0 Ys (Ys.getD j []) < sampleScore E cfg s0 Ys (Ys.getD i []))
    (k : ℕ) (hk : k < cfg.Hsample) :
    Filter.Tendsto (fun t => (evalBatch E { cfg with temp := t } s0 Ys).ybar.getD k (0, 0))
      (nhdsWithin 0 (Set.Ioi 0)) (nhds ((execute E s0 (Ys.getD i [])).2.2.getD k (0, 0))) := by
  have hg : 0 < rewardSpread E s0 Ys := guardedStd_pos _
  have hb : Filter.Tendsto (fun t => 1 / (rewardSpread E s0 Ys * t)) (nhdsWithin 0 (Set.Ioi 0))
      Filter.atTop := by
    have : (fun t => 1 / (rewardSpread E s0 Ys * t)) = fun t => (rewardSpread E s0 Ys)⁻¹ * t⁻¹ := by
      funext t; rw [one_div, mul_inv]
    rw [this]
    exact tendsto_inv_nhdsGT_zero.const_mul_atTop (inv_pos.mpr hg)
  have hf : ∀ j : Fin Ys.length, j ≠ ⟨i, hi⟩ →
      sampleScore E cfg s0 Ys Ys[j.1] < sampleScore E cfg s0 Ys Ys[i] := by
    intro j hj
    have := h j.1 j.2 fun hh => hj (Fin.ext hh)
    rw [getD_fin, getD_fin Ys ⟨i, hi⟩] at this
    exact this
  have hw := fun j => (gibbs_tendsto_best (sampleScore E cfg s0 Ys) Ys ⟨i, hi⟩ hf j).comp hb
  have hlim : ∀ a : Fin Ys.length → ℝ, Filter.Tendsto (fun t => ∑ j : Fin Ys.length,
      gibbs (1 / (rewardSpread E s0 Ys * t)) (sampleScore E cfg s0 Ys) Ys Ys[j.1] * a j)
      (nhdsWithin 0 (Set.Ioi 0)) (nhds (a ⟨i, hi⟩)) := by
    intro a
    have := tendsto_finsetSum Finset.univ fun j _ => (hw j).mul_const (a j)
    simp only [ite_mul, one_mul, zero_mul, Finset.sum_ite_eq', Finset.mem_univ, if_true] at this
    exact this
  have hp := (hlim fun j => ((execute E s0 Ys[j.1]).2.2.getD k (0, 0)).1).prodMk_nhds
    (hlim fun j => ((execute E s0 Ys[j.1]).2.2.getD k (0, 0)).2)
  have hi' := getD_fin Ys ⟨i, hi⟩
  simp only at hi'
  rw [hi']
  refine hp.congr' ?_
  filter_upwards [self_mem_nhdsWithin] with t ht
  exact (ybar_temp E cfg s0 Ys ht k hk).symm

/-- C77: as the temperature grows, the averaged plan tends to the plain average of the executed plans. -/
theorem C77_hot_limit (E : PlanEnv Q) (cfg : Cfg) (s0 : St Q) (Ys : List (List U)) (hne : Ys ≠ [])
    (k : ℕ) (hk : k < cfg.Hsample) :
    Filter.Tendsto (fun t => (evalBatch E { cfg with temp := t } s0 Ys).ybar.getD k (0, 0))
      Filter.atTop (nhds (mean (Ys.map fun Y => ((execute E s0 Y).2.2.getD k (0, 0)).1),
        mean (Ys.map fun Y => ((execute E s0 Y).2.2.getD k (0, 0)).2))) := by
  have hg : 0 < rewardSpread E s0 Ys := guardedStd_pos _
  have hb : Filter.Tendsto (fun t => 1 / (rewardSpread E s0 Ys * t)) Filter.atTop (nhds 0) := by
    have : (fun t => 1 / (rewardSpread E s0 Ys * t)) = fun t => (rewardSpread E s0 Ys)⁻¹ * t⁻¹ := by
      funext t; rw [one_div, mul_inv]
    rw [this]
    simpa using tendsto_inv_atTop_zero.const_mul (rewardSpread E s0 Ys)⁻¹
  have hlim : ∀ a : List U → ℝ, Filter.Tendsto (fun t => ∑ j : Fin Ys.length,
      gibbs (1 / (rewardSpread E s0 Ys * t)) (sampleScore E cfg s0 Ys) Ys Ys[j.1] * a Ys[j.1])
      Filter.atTop (nhds (mean (Ys.map a))) := by
    intro a
    have := tendsto_finsetSum Finset.univ fun (j : Fin Ys.length) _ =>
      ((gibbs_tendsto_uniform (sampleScore E cfg s0 Ys) hne Ys[j.1]).comp hb).mul_const (a Ys[j.1])
    have e : ∑ j : Fin Ys.length, 1 / (Ys.length : ℝ) * a Ys[j.1] = mean (Ys.map a) := by
      rw [← Finset.mul_sum, Fin.sum_univ_fun_getElem Ys a, mean, List.length_map]
      ring
    rw [e] at this
    exact this
  have hp := (hlim fun Y => ((execute E s0 Y).2.2.getD k (0, 0)).1).prodMk_nhds
    (hlim fun Y => ((execute E s0 Y).2.2.getD k (0, 0)).2)
  refine hp.congr' ?_
  filter_upwards [Filter.eventually_gt_atTop 0] with t ht
  exact (ybar_temp E cfg s0 Ys ht k hk).symm

/-! ## The hypotheses can be met

A vehicle on a line that is rewarded for the first action component, with two samples "forward" and
"backward": their scores are `1` and `-1`, with or without the demonstration. -/

/-- A vehicle on a line (models no code: an instance of the planner's interface,
mbd_planner.py:189-751). -/
noncomputable def lineEnv : PlanEnv ℝ :=
  { reset := fun _ => ⟨0, 0, 0, 0, (0, 0), false⟩
    step := fun s u => ⟨s.q + u.1, s.q + u.1, u.1, 0, u, false⟩
    stepViz := fun s u => ⟨s.q + u.1, s.q + u.1, u.1, 0, u, false⟩
    terminal := fun _ => 0, terminalWeight := 1, steeringWeight := 0, deltaMax := 1
    xrefLogpd := fun _ qs => (qs.getD 0 0) / 2, rewXref := 0.5 }

/-- Configuration with one action per plan and two samples (mbd_planner.py:51-117). -/
noncomputable def lineCfg (demo : Bool) : Cfg :=
  { motionPreference := 0, temp := 0.1, enableDemo := demo, enableGuidance := false, Nsample := 2,
    Hsample := 1, Ndiffuse := 3, beta0 := 1e-4, betaT := 1e-2 }

theorem line_scores (demo : Bool) (s : St ℝ) (hs : s.q = 0) :
    sampleScore lineEnv (lineCfg demo) s [[(1, 0)], [(-1, 0)]] [(1, 0)] = 1 ∧
    sampleScore lineEnv (lineCfg demo) s [[(1, 0)], [(-1, 0)]] [(-1, 0)] ≤ 0 := by
  cases demo <;>
    simp [sampleScore, sampleReward, sampleMatch, execute, lineEnv, lineCfg, rolloutUsWithTerminal,
      scanStates, warmState, mean, listMax, hs]; norm_num

example (demo : Bool) := C77_order lineEnv (lineCfg demo) (by norm_num [lineCfg]) (lineEnv.reset [])
  (List.Perm.swap ([(1, 0)] : List U) [(-1, 0)] [])

example (demo : Bool) (normal : Key → ℕ → ℕ → ℕ → ℕ → U) :=
  C77_noise_order lineEnv (lineCfg demo) (by norm_num [lineCfg]) normal
    (fun k a b n => normal k a b (Equiv.swap 0 1 n)) (fun k => by
      refine ⟨Equiv.swap 0 1, fun n => ?_, fun n _ => rfl⟩
      change _ < 2 ↔ _ < 2
      rcases n with _ | _ | n
      · simp
      · simp
      · rw [Equiv.swap_apply_of_ne_of_ne] <;> omega)

example (demo : Bool) :=
  (C77_cooler lineEnv (lineCfg demo) (lineEnv.reset []) [[(1, 0)], [(-1, 0)]] (t := 0.1) (t' := 0.01)
    (by norm_num) (by norm_num) 0 (by simp)).1 (by
      have h := line_scores demo (lineEnv.reset []) rfl
      intro Y hY
      simp only [List.mem_cons, List.not_mem_nil, or_false] at hY
      rcases hY with rfl | rfl
      · simp
      · simp only [List.getD_cons_zero, h.1]; linarith [h.2])

example (demo : Bool) :=
  C77_mean_score lineEnv (lineCfg demo) (lineEnv.reset []) [[(1, 0)], [(-1, 0)]] (by simp) (t := 0.1) (t' := 0.01)
    (by norm_num) (by norm_num)

theorem line_gap (demo : Bool) : ∀ j < ([[(1, 0)], [(-1, 0)]] : List (List U)).length, j ≠ 0 →
    sampleScore lineEnv (lineCfg demo) (lineEnv.reset []) [[(1, 0)], [(-1, 0)]]
      (([[(1, 0)], [(-1, 0)]] : List (List U)).getD j []) + 1 ≤
    sampleScore lineEnv (lineCfg demo) (lineEnv.reset []) [[(1, 0)], [(-1, 0)]]
      (([[(1, 0)], [(-1, 0)]] : List (List U)).getD 0 []) := by
  have h := line_scores demo (lineEnv.reset []) rfl
  intro j hj h0
  rcases j with _ | _ | j
  · exact absurd rfl h0
  · simp only [List.getD_cons_zero, List.getD_cons_succ, h.1]; linarith [h.2]
  · simp at hj

example (demo : Bool) := C77_cold lineEnv (lineCfg demo) (by norm_num [lineCfg]) (lineEnv.reset [])
  [[(1, 0)], [(-1, 0)]] 1 0 (by simp) (line_gap demo)

example (demo : Bool) := C77_cold_limit lineEnv (lineCfg demo) (lineEnv.reset [])
  [[(1, 0)], [(-1, 0)]] 0 (by simp) (fun j hj h0 => by have := line_gap demo j hj h0; linarith) 0
  (by simp [lineCfg])

example (demo : Bool) := C77_hot_limit lineEnv (lineCfg demo) (lineEnv.reset [])
  [[(1, 0)], [(-1, 0)]] (by simp) 0 (by simp [lineCfg])

end Mbd
