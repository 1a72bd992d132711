import Verif.PropsPlanner
import Verif.GeomLemmas
import Mathlib.Analysis.SpecialFunctions.Exp

/-!
# Importance weights and steering reward: C24, C25, C26, C27, C37
-/

namespace Mbd

open Real Classical

/-! ## Lists -/

theorem foldl_max_ge (l : List ℝ) : ∀ a, a ≤ l.foldl max a ∧ ∀ x ∈ l, x ≤ l.foldl max a := by
  induction l with
  | nil => intro a; simp
  | cons b l ih =>
    intro a
    obtain ⟨h1, h2⟩ := ih (max a b)
    refine ⟨(le_max_left _ _).trans h1, ?_⟩
    intro x hx
    rcases List.mem_cons.mp hx with rfl | h
    · exact (le_max_right _ _).trans h1
    · exact h2 x h

theorem foldl_max_mem (l : List ℝ) : ∀ a, l.foldl max a ∈ a :: l := by
  induction l with
  | nil => intro a; simp
  | cons b l ih =>
    intro a
    have h := ih (max a b)
    simp only [List.foldl_cons, List.mem_cons] at h ⊢
    rcases h with h | h
    · rcases max_choice a b with hm | hm
      · left; rw [h, hm]
      · right; left; rw [h, hm]
    · right; right; exact h

theorem le_listMax {l : List ℝ} {x : ℝ} (h : x ∈ l) : x ≤ listMax l := by
  cases l with
  | nil => simp at h
  | cons a l =>
    rcases List.mem_cons.mp h with rfl | h
    · exact (foldl_max_ge l _).1
    · exact (foldl_max_ge l a).2 x h

theorem listMax_mem {l : List ℝ} (h : l ≠ []) : listMax l ∈ l := by
  cases l with
  | nil => simp at h
  | cons a l => exact foldl_max_mem l a

theorem sum_pos_of {l : List ℝ} (hl : l ≠ []) (h : ∀ x ∈ l, 0 < x) : 0 < l.sum := by
  cases l with
  | nil => simp at hl
  | cons a l =>
    have h1 := h a (by simp)
    have h2 : 0 ≤ l.sum := List.sum_nonneg (fun x hx => (h x (by simp [hx])).le)
    simp only [List.sum_cons]
    linarith

theorem sum_map_const_mul (c : ℝ) (l : List ℝ) : (l.map fun x => x * c).sum = l.sum * c := by
  induction l with
  | nil => simp
  | cons a l ih => simp [ih]; ring

theorem mean_map_add (c : ℝ) {l : List ℝ} (hl : l ≠ []) :
    mean (l.map fun x => x + c) = mean l + c := by
  have hn : (l.length : ℝ) ≠ 0 := by
    have := List.length_pos_iff.mpr hl
    positivity
  have hs : (l.map fun x => x + c).sum = l.sum + l.length * c := by
    clear hl hn
    induction l with
    | nil => simp
    | cons a l ih => simp [ih]; ring
  unfold mean
  rw [hs, List.length_map]
  field_simp

theorem mean_map_mul (c : ℝ) (l : List ℝ) : mean (l.map fun x => c * x) = c * mean l := by
  have hs : (l.map fun x => c * x).sum = c * l.sum := by
    induction l with
    | nil => simp
    | cons a l ih => simp [ih]; ring
  unfold mean
  rw [hs, List.length_map]
  ring

theorem mean_const {c : ℝ} {l : List ℝ} (hl : l ≠ []) (h : ∀ x ∈ l, x = c) : mean l = c := by
  have hn : (l.length : ℝ) ≠ 0 := by
    have := List.length_pos_iff.mpr hl
    positivity
  have hs : l.sum = l.length * c := by
    have : l = List.replicate l.length c := List.eq_replicate_iff.mpr ⟨rfl, h⟩
    rw [this]
    simp
  unfold mean
  rw [hs]
  field_simp

theorem mean_mem_Icc {a b : ℝ} {l : List ℝ} (hl : l ≠ []) (h : ∀ x ∈ l, a ≤ x ∧ x ≤ b) :
    a ≤ mean l ∧ mean l ≤ b := by
  have hn : (0 : ℝ) < l.length := by
    have := List.length_pos_iff.mpr hl
    positivity
  have hs : l.length * a ≤ l.sum ∧ l.sum ≤ l.length * b := by
    clear hl hn
    induction l with
    | nil => simp
    | cons x l ih =>
      obtain ⟨h1, h2⟩ := ih (fun y hy => h y (by simp [hy]))
      have := h x (by simp)
      simp only [List.sum_cons, List.length_cons]
      push_cast
      constructor <;> nlinarith
  unfold mean
  rw [le_div_iff₀ hn, div_le_iff₀ hn]
  constructor <;> linarith [hs.1, hs.2]

/-! ## Softmax -/

theorem softmax_length (l : List ℝ) : (softmax l).length = l.length := by simp [softmax]

theorem softmax_den_pos {l : List ℝ} (hl : l ≠ []) :
    0 < (l.map fun x => exp (x - listMax l)).sum :=
  sum_pos_of (by simpa using hl) (by
    intro x hx
    obtain ⟨y, -, rfl⟩ := List.mem_map.mp hx
    exact exp_pos _)

theorem softmax_pos {l : List ℝ} {w : ℝ} (h : w ∈ softmax l) : 0 < w := by
  have hl : l ≠ [] := by intro h'; simp [softmax, h'] at h
  unfold softmax at h
  obtain ⟨y, hy, rfl⟩ := List.mem_map.mp h
  obtain ⟨z, -, rfl⟩ := List.mem_map.mp hy
  exact div_pos (exp_pos _) (softmax_den_pos hl)

theorem softmax_sum {l : List ℝ} (hl : l ≠ []) : (softmax l).sum = 1 := by
  have hp := softmax_den_pos hl
  unfold softmax
  simp only [div_eq_mul_inv]
  rw [sum_map_const_mul]
  exact mul_inv_cancel₀ hp.ne'

/-- Softmax in closed form: the subtraction of the maximum cancels. -/
theorem softmax_eq (l : List ℝ) : softmax l = l.map fun x => exp x / (l.map exp).sum := by
  have hs : (l.map fun x => exp (x - listMax l)).sum = (l.map exp).sum * exp (-listMax l) := by
    rw [← sum_map_const_mul, List.map_map]
    congr 1
    apply List.map_congr_left
    intro x _
    simp [sub_eq_add_neg, exp_add]
  unfold softmax
  simp only [hs, List.map_map]
  apply List.map_congr_left
  intro x _
  simp only [Function.comp, sub_eq_add_neg, exp_add]
  rw [mul_div_mul_right _ _ (exp_ne_zero _)]

theorem softmax_getD {l : List ℝ} {i : ℕ} (h : i < l.length) :
    (softmax l).getD i 0 = exp (l.getD i 0) / (l.map exp).sum := by
  rw [softmax_eq]
  simp [List.getD_eq_getElem?_getD, h]

theorem sum_exp_pos {l : List ℝ} (hl : l ≠ []) : 0 < (l.map exp).sum :=
  sum_pos_of (by simpa using hl) (by
    intro x hx
    obtain ⟨y, -, rfl⟩ := List.mem_map.mp hx
    exact exp_pos _)

theorem softmax_lt_iff {l : List ℝ} {i j : ℕ} (hi : i < l.length) (hj : j < l.length) :
    (softmax l).getD i 0 < (softmax l).getD j 0 ↔ l.getD i 0 < l.getD j 0 := by
  have hl : l ≠ [] := by intro h; simp [h] at hi
  rw [softmax_getD hi, softmax_getD hj, div_lt_div_iff_of_pos_right (sum_exp_pos hl), exp_lt_exp]

theorem std_nonneg (l : List ℝ) : 0 ≤ std l := Real.sqrt_nonneg _

/-! ## C26: guarded spread -/

/-- C26: the divisor is never below `1e-4`. -/
theorem C26_guard (l : List ℝ) : 1e-4 ≤ guardedStd l := by
  unfold guardedStd
  split_ifs with h
  · norm_num
  · linarith

theorem guardedStd_pos (l : List ℝ) : 0 < guardedStd l :=
  lt_of_lt_of_le (by norm_num) (C26_guard l)

theorem logp0_getD (temp : ℝ) {l : List ℝ} {i : ℕ} (h : i < l.length) :
    (logp0 temp l).getD i 0 = (l.getD i 0 - mean l) / guardedStd l / temp := by
  simp [logp0, List.getD_eq_getElem?_getD, h]

theorem std_const {c : ℝ} {l : List ℝ} (h : ∀ x ∈ l, x = c) : std l = 0 := by
  rcases eq_or_ne l [] with rfl | hl
  · simp [std, mean]
  · have hm := mean_const hl h
    unfold std
    rw [hm, mean_const (c := 0) (by simpa using hl), Real.sqrt_zero]
    intro x hx
    obtain ⟨y, hy, rfl⟩ := List.mem_map.mp hx
    rw [h y hy]; ring

/-- C26: with equal rewards every sample has weight `1 / Nsample`, and the new plan is the plain
mean of the executed action sequences. -/
theorem C26_uniform {temp c rx : ℝ} {rews xrefs : List ℝ} (h : ∀ x ∈ rews, x = c) :
    ∀ w ∈ softmax (logWeights temp false rx rews xrefs), w = 1 / (rews.length : ℝ) := by
  intro w hw
  have hl : rews ≠ [] := by intro h'; simp [softmax, logWeights, logp0, h'] at hw
  have hlog : logWeights temp false rx rews xrefs = List.replicate rews.length 0 := by
    simp only [logWeights, Bool.false_eq_true, if_false, logp0]
    apply List.eq_replicate_iff.mpr
    refine ⟨by simp, ?_⟩
    intro x hx
    obtain ⟨y, hy, rfl⟩ := List.mem_map.mp hx
    rw [h y hy, mean_const hl h]; simp
  rw [hlog, softmax_eq] at hw
  obtain ⟨y, hy, rfl⟩ := List.mem_map.mp hw
  rw [List.eq_of_mem_replicate hy]
  simp

example : ∀ w ∈ softmax (logWeights 0.1 false 0 [0.25, 0.25, 0.25] []), w = 1 / (3 : ℝ) := by
  have := C26_uniform (temp := 0.1) (c := 0.25) (rx := 0) (rews := [0.25, 0.25, 0.25]) (xrefs := [])
    (by simp)
  simpa using this

theorem C26_plain_mean {temp c rx : ℝ} {rews xrefs : List ℝ} (h : ∀ x ∈ rews, x = c) (H : ℕ)
    (Ys : List (List U)) (hY : Ys.length = rews.length) :
    weightedPlan H (softmax (logWeights temp false rx rews xrefs)) Ys =
      (List.range H).map fun t => (mean (Ys.map fun Y => (Y.getD t (0, 0)).1),
        mean (Ys.map fun Y => (Y.getD t (0, 0)).2)) := by
  have hu := C26_uniform (temp := temp) (rx := rx) (xrefs := xrefs) h
  have hlen : (softmax (logWeights temp false rx rews xrefs)).length = Ys.length := by
    simp [softmax_length, logWeights, logp0, hY]
  have key : ∀ (f : List U → ℝ) (n : ℝ) (Ys : List (List U)) (w : List ℝ), w.length = Ys.length →
      (∀ x ∈ w, x = 1 / n) → (List.zipWith (fun a Y => a * f Y) w Ys).sum = (Ys.map f).sum / n := by
    intro f n Ys
    induction Ys with
    | nil => intro w hw _; simp
    | cons Y Ys ih =>
      intro w hw hx
      cases w with
      | nil => simp at hw
      | cons a w =>
        simp only [List.zipWith_cons_cons, List.sum_cons, List.map_cons]
        rw [ih w (by simpa using hw) (fun x hx' => hx x (by simp [hx'])), hx a (by simp)]
        ring
  unfold weightedPlan
  apply List.map_congr_left
  intro t _
  rw [key (fun Y => (Y.getD t (0, 0)).1) rews.length Ys _ hlen hu,
    key (fun Y => (Y.getD t (0, 0)).2) rews.length Ys _ hlen hu]
  unfold mean
  rw [List.length_map, List.length_map, hY]

example : ∃ rews : List ℝ, rews.length = 3 ∧ ∀ x ∈ rews, x = 0.25 :=
  ⟨[0.25, 0.25, 0.25], rfl, by simp⟩

/-! ## C24: weights are a reward-monotone distribution -/

theorem evalBatch_combined_length {Q : Type} (E : PlanEnv Q) (cfg : Cfg) (s0 : St Q)
    (Ys : List (List U)) : (evalBatch E cfg s0 Ys).combined.length = Ys.length := by
  simp [evalBatch]

theorem logWeights_length (temp : ℝ) (d : Bool) (rx : ℝ) (rews xrefs : List ℝ)
    (h : xrefs.length = rews.length) : (logWeights temp d rx rews xrefs).length = rews.length := by
  unfold logWeights
  split_ifs <;> simp [logp0, logpDemo, h]

theorem evalBatch_weights_length {Q : Type} (E : PlanEnv Q) (cfg : Cfg) (s0 : St Q)
    (Ys : List (List U)) : (evalBatch E cfg s0 Ys).weights.length = Ys.length := by
  simp only [evalBatch]
  rw [softmax_length, logWeights_length _ _ _ _ _ (by simp)]
  simp

/-- C24: one weight per sample, all positive, summing to one - with or without demonstration. -/
theorem C24_distribution {Q : Type} (E : PlanEnv Q) (cfg : Cfg) (s0 : St Q) (Ys : List (List U))
    (h : Ys ≠ []) :
    (evalBatch E cfg s0 Ys).weights.length = Ys.length ∧
    (∀ w ∈ (evalBatch E cfg s0 Ys).weights, 0 < w ∧ w ≤ 1) ∧
    (evalBatch E cfg s0 Ys).weights.sum = 1 := by
  have hlen := evalBatch_weights_length E cfg s0 Ys
  have hpos : ∀ w ∈ (evalBatch E cfg s0 Ys).weights, 0 < w := fun w hw => softmax_pos hw
  have hsum : (evalBatch E cfg s0 Ys).weights.sum = 1 := by
    apply softmax_sum
    intro h'
    have : (evalBatch E cfg s0 Ys).weights.length = 0 := by
      rw [show (evalBatch E cfg s0 Ys).weights = softmax (evalBatch E cfg s0 Ys).logw from rfl,
        softmax_length]
      exact List.length_eq_zero_iff.mpr h'
    rw [hlen] at this
    exact h (List.length_eq_zero_iff.mp this)
  refine ⟨hlen, fun w hw => ⟨hpos w hw, ?_⟩, hsum⟩
  rw [← hsum]
  exact List.single_le_sum (fun x hx => (hpos x hx).le) w hw

example {Q : Type} (E : PlanEnv Q) (cfg : Cfg) (s0 : St Q) :=
  C24_distribution E cfg s0 [[(1, 0)], [(-1, 0.5)]] (by simp)

/-- C24: without demonstration a sample with a higher combined reward gets a strictly higher
weight, and conversely. -/
theorem C24_monotone {Q : Type} (E : PlanEnv Q) (cfg : Cfg) (s0 : St Q) (Ys : List (List U))
    (ht : 0 < cfg.temp) (hd : cfg.enableDemo = false) (i j : ℕ) (hi : i < Ys.length)
    (hj : j < Ys.length) :
    (evalBatch E cfg s0 Ys).weights.getD i 0 < (evalBatch E cfg s0 Ys).weights.getD j 0 ↔
    (evalBatch E cfg s0 Ys).combined.getD i 0 < (evalBatch E cfg s0 Ys).combined.getD j 0 := by
  set c := (evalBatch E cfg s0 Ys).combined with hc
  have hlen : c.length = Ys.length := evalBatch_combined_length E cfg s0 Ys
  have hw : (evalBatch E cfg s0 Ys).weights = softmax (logp0 cfg.temp c) := by
    simp only [evalBatch, logWeights, hd, Bool.false_eq_true, if_false, hc]
  rw [hw, softmax_lt_iff (by simp [logp0, hlen, hi]) (by simp [logp0, hlen, hj]),
    logp0_getD _ (by omega), logp0_getD _ (by omega), div_lt_div_iff_of_pos_right ht,
    div_lt_div_iff_of_pos_right (guardedStd_pos c)]
  constructor <;> intro h <;> linarith

example {Q : Type} (E : PlanEnv Q) (cfg : Cfg) (s0 : St Q) :=
  C24_monotone E { cfg with temp := 0.01, enableDemo := false } s0 [[(1, 0)], [(-1, 0.5)]]
    (by norm_num) rfl 0 1 (by simp) (by simp)

/-- The combined reward of a sample is its rollout reward plus the weighted steering reward of the
executed actions. -/
theorem C24_combined {Q : Type} (E : PlanEnv Q) (cfg : Cfg) (s0 : St Q) (Ys : List (List U)) :
    (evalBatch E cfg s0 Ys).combined = Ys.map fun Y =>
      (rolloutUsWithTerminal E.step E.terminal E.terminalWeight s0 Y).1 + E.steeringWeight *
        steeringReward E.deltaMax (rolloutUsWithTerminal E.step E.terminal E.terminalWeight s0 Y).2.2 := by
  simp only [evalBatch]
  induction Ys with
  | nil => rfl
  | cons Y Ys ih => simp only [List.map_cons, List.zipWith_cons_cons, ih]

/-! ## C25: offset and scale invariance -/

theorem std_map_add (c : ℝ) (l : List ℝ) : std (l.map fun x => x + c) = std l := by
  rcases eq_or_ne l [] with rfl | hl
  · rfl
  · unfold std
    rw [mean_map_add c hl, List.map_map]
    congr 2
    apply List.map_congr_left
    intro x _
    simp only [Function.comp]; ring

theorem std_map_mul {c : ℝ} (hc : 0 ≤ c) (l : List ℝ) : std (l.map fun x => c * x) = c * std l := by
  unfold std
  rw [mean_map_mul, List.map_map]
  have : ((fun r => (r - c * mean l) ^ 2) ∘ fun x => c * x) = fun x => c ^ 2 * ((x - mean l) ^ 2) := by
    funext x; simp only [Function.comp]; ring
  rw [this]
  have := mean_map_mul (c ^ 2) (l.map fun x => (x - mean l) ^ 2)
  rw [List.map_map] at this
  rw [show (fun x => c ^ 2 * (x - mean l) ^ 2) =
    ((fun x => c ^ 2 * x) ∘ fun x => (x - mean l) ^ 2) from rfl, this,
    Real.sqrt_mul (sq_nonneg c), Real.sqrt_sq hc]

/-- C25: adding a constant to all rewards does not change the weights. -/
theorem C25_offset (temp rx c : ℝ) (rews xrefs : List ℝ) :
    softmax (logWeights temp false rx (rews.map fun r => r + c) xrefs) =
      softmax (logWeights temp false rx rews xrefs) := by
  rcases eq_or_ne rews [] with rfl | hl
  · rfl
  · congr 1
    simp only [logWeights, Bool.false_eq_true, if_false, logp0, guardedStd, std_map_add,
      mean_map_add c hl, List.map_map]
    apply List.map_congr_left
    intro x _
    simp only [Function.comp]; ring_nf

/-- C25: scaling all rewards by a positive factor does not change the weights, as long as both
spreads stay at or above the guard. -/
theorem C25_scale (temp rx c : ℝ) (hc : 0 < c) (rews xrefs : List ℝ) (h1 : 1e-4 ≤ std rews)
    (h2 : 1e-4 ≤ c * std rews) :
    softmax (logWeights temp false rx (rews.map fun r => c * r) xrefs) =
      softmax (logWeights temp false rx rews xrefs) := by
  congr 1
  have g1 : ¬ std rews < 1e-4 := not_lt.mpr h1
  have g2 : ¬ c * std rews < 1e-4 := not_lt.mpr h2
  simp only [logWeights, Bool.false_eq_true, if_false, logp0, guardedStd, std_map_mul hc.le,
    mean_map_mul, List.map_map, g1, g2]
  apply List.map_congr_left
  intro x _
  simp only [Function.comp]
  rw [← mul_sub, mul_div_mul_left _ _ hc.ne']

/-- C25 with demonstration: shifting the rewards and the demonstration's reward together changes
nothing. -/
theorem C25_offset_demo (temp rx c : ℝ) (d : Bool) (rews xrefs : List ℝ) (hl : rews ≠ []) :
    softmax (logWeights temp d (rx + c) (rews.map fun r => r + c) xrefs) =
      softmax (logWeights temp d rx rews xrefs) := by
  have e1 : logp0 temp (rews.map fun r => r + c) = logp0 temp rews := by
    simp only [logp0, guardedStd, std_map_add, mean_map_add c hl, List.map_map]
    apply List.map_congr_left
    intro x _
    simp only [Function.comp]; ring_nf
  have e2 : logpDemo temp (rx + c) (rews.map fun r => r + c) xrefs = logpDemo temp rx rews xrefs := by
    simp only [logpDemo, guardedStd, std_map_add, mean_map_add c hl]
    apply List.map_congr_left
    intro x _
    ring_nf
  unfold logWeights
  rw [e1, e2]

example := C25_offset_demo 0.1 0.8 3 true [0, 1] [-1, -0.25] (by simp)

theorem std_zero_one : std [0, 1] = 1 / 2 := by
  unfold std mean
  norm_num
  rw [show (4 : ℝ) = 2 ^ 2 by norm_num, Real.sqrt_sq (by norm_num)]
  norm_num

/-- C25, scale below the guard: the invariance does need the guard condition: scaling a spread of
`1/2` down to `5e-5` changes the weights. -/
theorem C25_scale_guard_needed : ∃ rews : List ℝ, 1e-4 ≤ std rews ∧
    softmax (logWeights 1 false 0 (rews.map fun r => 1e-4 * r) []) ≠
      softmax (logWeights 1 false 0 rews []) := by
  have hs := std_zero_one
  have hs2 : std [0, (1e-4 : ℝ)] = 5e-5 := by
    have := std_map_mul (c := 1e-4) (by norm_num) [0, 1]
    rw [hs] at this
    norm_num at this ⊢
    exact this
  refine ⟨[0, 1], by rw [hs]; norm_num, ?_⟩
  intro h
  have hm1 : mean [0, (1 : ℝ)] = 1 / 2 := by unfold mean; norm_num
  have hm2 : mean [0, (1e-4 : ℝ)] = 5e-5 := by unfold mean; norm_num
  have l1 : logWeights 1 false 0 [0, 1] [] = [-1, 1] := by
    simp only [logWeights, Bool.false_eq_true, if_false, logp0, guardedStd, hs, hm1, List.map_cons,
      List.map_nil]
    norm_num
  have l2 : logWeights 1 false 0 ([0, 1].map fun r => (1e-4 : ℝ) * r) [] = [-5e-5, 5e-5] := by
    simp only [List.map_cons, List.map_nil, mul_zero, mul_one]
    simp only [logWeights, Bool.false_eq_true, if_false, logp0, guardedStd, hs2, hm2, List.map_cons,
      List.map_nil]
    norm_num
  rw [l1, l2, softmax_eq, softmax_eq] at h
  simp only [List.map_cons, List.map_nil, List.sum_cons, List.sum_nil, add_zero, List.cons.injEq,
    and_true] at h
  have h1 := h.2
  have p1 := exp_pos (-5e-5 : ℝ)
  have p2 := exp_pos (5e-5 : ℝ)
  have p3 := exp_pos (-1 : ℝ)
  have p4 := exp_pos (1 : ℝ)
  rw [div_eq_div_iff (by positivity) (by positivity)] at h1
  have h2 : exp 5e-5 * exp (-1) = exp 1 * exp (-5e-5) := by linarith
  rw [← exp_add, ← exp_add, exp_eq_exp] at h2
  norm_num at h2

example : 1e-4 ≤ std [0, 1] ∧ (0 : ℝ) < 2 ∧ 1e-4 ≤ 2 * std [0, 1] := by
  have hs := std_zero_one
  rw [hs]; norm_num

/-! ## C27: demonstration -/

/-- C27: with the demonstration the log-weight of every sample is the larger of its reward term and
its demonstration term; it never drops. -/
theorem C27_raises (temp rx : ℝ) (rews xrefs : List ℝ) (hx : xrefs.length = rews.length) (i : ℕ)
    (hi : i < rews.length) :
    (logWeights temp true rx rews xrefs).getD i 0 =
      max ((rews.getD i 0 - mean rews) / guardedStd rews / temp)
        ((xrefs.getD i 0 - listMax xrefs + rx - mean rews) / guardedStd rews / temp) ∧
    (logWeights temp false rx rews xrefs).getD i 0 ≤ (logWeights temp true rx rews xrefs).getD i 0 := by
  have h1 := logp0_getD temp hi
  have hi' : i < xrefs.length := by omega
  have key : (logWeights temp true rx rews xrefs).getD i 0 =
      max ((rews.getD i 0 - mean rews) / guardedStd rews / temp)
        ((xrefs.getD i 0 - listMax xrefs + rx - mean rews) / guardedStd rews / temp) := by
    simp only [logWeights, if_true, List.getD_eq_getElem?_getD, List.getElem?_zipWith, logp0, logpDemo,
      List.getElem?_map, List.getElem?_eq_getElem hi, List.getElem?_eq_getElem hi', Option.map_some,
      Option.getD_some]
    split_ifs with h
    · exact (max_eq_right h.le).symm
    · exact (max_eq_left (not_lt.mp h)).symm
  refine ⟨key, ?_⟩
  rw [key]
  simp only [logWeights, Bool.false_eq_true, if_false, h1]
  exact le_max_left _ _

example := C27_raises 0.1 0.8 [0.3, 0.4] [-1, -0.25] rfl 1 (by simp)

/-- C27: the sample that matches the reference best gets at least the normalised log-weight of the
demonstration's own reward. -/
theorem C27_best (temp rx : ℝ) (rews xrefs : List ℝ) (hx : xrefs.length = rews.length) (i : ℕ)
    (hi : i < rews.length) (hbest : ∀ y ∈ xrefs, y ≤ xrefs.getD i 0) :
    (rx - mean rews) / guardedStd rews / temp ≤ (logWeights temp true rx rews xrefs).getD i 0 := by
  rw [(C27_raises temp rx rews xrefs hx i hi).1]
  have hne : xrefs ≠ [] := by intro h; simp [h] at hx; omega
  have hmem : xrefs.getD i 0 ∈ xrefs := by
    rw [List.getD_eq_getElem _ _ (by omega)]; exact List.getElem_mem _
  have : xrefs.getD i 0 = listMax xrefs := le_antisymm (le_listMax hmem) (hbest _ (listMax_mem hne))
  rw [this, sub_self, zero_add]
  exact le_max_right _ _

example := C27_best 0.1 0.8 [0.3, 0.4] [-1, -0.25] rfl 1 (by simp)
  (by simp only [List.mem_cons, List.not_mem_nil, or_false, forall_eq_or_imp, forall_eq]; norm_num)

/-- C27: a demonstration term never exceeds the demonstration's normalised reward: bad matches are
not promoted beyond it. -/
theorem C27_cap (temp rx : ℝ) (ht : 0 < temp) (rews xrefs : List ℝ) (hx : xrefs.length = rews.length)
    (i : ℕ) (hi : i < rews.length) :
    (logWeights temp true rx rews xrefs).getD i 0 ≤
      max ((rews.getD i 0 - mean rews) / guardedStd rews / temp)
        ((rx - mean rews) / guardedStd rews / temp) := by
  rw [(C27_raises temp rx rews xrefs hx i hi).1]
  apply max_le_max le_rfl
  have hmem : xrefs.getD i 0 ∈ xrefs := by
    rw [List.getD_eq_getElem _ _ (by omega)]; exact List.getElem_mem _
  have := le_listMax hmem
  rw [div_le_div_iff_of_pos_right ht, div_le_div_iff_of_pos_right (guardedStd_pos _)]
  linarith

example := C27_cap 0.1 0.8 (by norm_num) [0.3, 0.4] [-1, -0.25] rfl 0 (by simp)

/-- C27: with the demonstration disabled, a batch is unaffected by the reference trajectory. -/
theorem C27_disabled {Q : Type} (E E' : PlanEnv Q) (cfg : Cfg) (hd : cfg.enableDemo = false)
    (h : E' = { E with xrefLogpd := E'.xrefLogpd, rewXref := E'.rewXref }) (s0 : St Q)
    (Ys : List (List U)) : evalBatch E' cfg s0 Ys = evalBatch E cfg s0 Ys := by
  rw [h]
  simp only [evalBatch, logWeights, hd, Bool.false_eq_true, if_false]

example : ∀ y ∈ [(-1 : ℝ), -0.25], y ≤ [(-1 : ℝ), -0.25].getD 1 0 := by
  intro y hy
  simp only [List.mem_cons, List.not_mem_nil, or_false] at hy
  rcases hy with rfl | rfl <;> norm_num

/-! ## C37: steering reward -/

/-- Summands of the steering reward. -/
theorem steering_terms (dm : ℝ) (Y : List U) (hY : ∀ u ∈ Y, |u.2| ≤ 1) :
    (∀ x ∈ (Y.map Prod.snd).map (fun d => 1 - |d| ^ 2), 0 ≤ x ∧ x ≤ 1) ∧
    ∀ x ∈ (1 : ℝ) :: (List.zipWith (fun a b => b - a) ((Y.map Prod.snd).map (· * dm))
      ((Y.map Prod.snd).map (· * dm)).tail).map
        (fun d => 1 - clip ((|d| / (0.1 * dm)) ^ 2) 0 1), 0 ≤ x ∧ x ≤ 1 := by
  constructor
  · intro x hx
    obtain ⟨d, hd, rfl⟩ := List.mem_map.mp hx
    obtain ⟨u, hu, rfl⟩ := List.mem_map.mp hd
    have := hY u hu
    have h0 := abs_nonneg u.2
    constructor <;> nlinarith
  · intro x hx
    rcases List.mem_cons.mp hx with rfl | hx
    · norm_num
    · obtain ⟨d, -, rfl⟩ := List.mem_map.mp hx
      have h1 : clip ((|d| / (0.1 * dm)) ^ 2) 0 1 ≤ 1 := min_le_right _ _
      have h2 : 0 ≤ clip ((|d| / (0.1 * dm)) ^ 2) 0 1 := le_min (le_max_right _ _) zero_le_one
      constructor <;> linarith

theorem zipWith_half_mem {l m : List ℝ} {x : ℝ}
    (hl : ∀ y ∈ l, 0 ≤ y ∧ y ≤ 1) (hm : ∀ y ∈ m, 0 ≤ y ∧ y ≤ 1)
    (hx : x ∈ List.zipWith (fun a b => 0.5 * (a + b)) l m) : 0 ≤ x ∧ x ≤ 1 := by
  obtain ⟨i, hi, rfl⟩ := List.mem_iff_getElem.mp hx
  have hi' := hi
  simp only [List.length_zipWith, lt_inf_iff] at hi'
  rw [List.getElem_zipWith]
  have h1 := hl _ (List.getElem_mem hi'.1)
  have h2 := hm _ (List.getElem_mem hi'.2)
  constructor <;> linarith [h1.1, h1.2, h2.1, h2.2]

/-- C37: for a non-empty plan with steering in `[-1,1]` the steering reward lies in `[0,1]`. -/
theorem C37_range (dm : ℝ) (Y : List U) (hne : Y ≠ []) (hY : ∀ u ∈ Y, |u.2| ≤ 1) :
    0 ≤ steeringReward dm Y ∧ steeringReward dm Y ≤ 1 := by
  obtain ⟨h1, h2⟩ := steering_terms dm Y hY
  unfold steeringReward
  apply mean_mem_Icc
  · cases Y with
    | nil => simp at hne
    | cons a Y => simp
  · intro x hx
    exact zipWith_half_mem h1 h2 hx

example := C37_range (55 * π / 180) [(1, 0.5), (-1, 0)] (by simp)
  (by simp only [List.mem_cons, List.not_mem_nil, or_false, forall_eq_or_imp, forall_eq]
      norm_num [abs_of_nonneg])

/-- C37: only the steering column matters. -/
theorem C37_steering_only (dm : ℝ) (Y Y' : List U) (h : Y.map Prod.snd = Y'.map Prod.snd) :
    steeringReward dm Y = steeringReward dm Y' := by
  unfold steeringReward
  rw [h]

example := C37_steering_only (55 * π / 180) [(1, 0.5), (-1, 0)] [(0.2, 0.5), (0, 0)] rfl

/-- C37: the maximum 1 is attained exactly by plans with zero steering throughout. -/
theorem C37_max_iff (dm : ℝ) (Y : List U) (hdm : 0 < dm) (hne : Y ≠ []) (hY : ∀ u ∈ Y, |u.2| ≤ 1) :
    steeringReward dm Y = 1 ↔ ∀ u ∈ Y, u.2 = 0 := by
  obtain ⟨h1, h2⟩ := steering_terms dm Y hY
  constructor
  · intro h u hu
    by_contra hne0
    -- the summand at the position of `u` is strictly below one
    obtain ⟨i, hi, rfl⟩ := List.mem_iff_getElem.mp hu
    unfold steeringReward at h
    simp only at h
    set l := List.zipWith (fun a b => 0.5 * (a + b)) ((Y.map Prod.snd).map fun d => 1 - |d| ^ 2)
      ((1 : ℝ) :: (List.zipWith (fun a b => b - a) ((Y.map Prod.snd).map (· * dm))
        ((Y.map Prod.snd).map (· * dm)).tail).map
          (fun d => 1 - clip ((|d| / (0.1 * dm)) ^ 2) 0 1)) with hl
    have hmem : ∀ x ∈ l, 0 ≤ x ∧ x ≤ 1 := fun x hx => zipWith_half_mem h1 h2 hx
    have hlen : l.length = Y.length := by
      have : 0 < Y.length := by omega
      simp only [hl, List.length_zipWith, List.length_map, List.length_cons, List.length_tail]
      omega
    have hil : i < l.length := by omega
    have hlt : l[i] < 1 := by
      simp only [hl]
      rw [List.getElem_zipWith]
      have ha := h2 _ (List.getElem_mem (l := ((1 : ℝ) :: (List.zipWith (fun a b => b - a)
        ((Y.map Prod.snd).map (· * dm)) ((Y.map Prod.snd).map (· * dm)).tail).map
          (fun d => 1 - clip ((|d| / (0.1 * dm)) ^ 2) 0 1))) (n := i) (by
            simp only [List.length_zipWith, List.length_map, List.length_cons, List.length_tail]
            omega))
      simp only [List.getElem_map]
      have : 0 < |Y[i].2| := abs_pos.mpr hne0
      have : 0 < |Y[i].2| ^ 2 := by positivity
      linarith [ha.2]
    have hsum : l.sum < l.length := by
      have := List.sum_lt_sum (l := l) (fun x => x) (fun _ => (1 : ℝ)) (fun x hx => (hmem x hx).2)
        ⟨l[i], List.getElem_mem hil, hlt⟩
      simpa using this
    have hpos : (0 : ℝ) < l.length := by
      have : 0 < l.length := by omega
      exact_mod_cast this
    unfold mean at h
    rw [div_eq_one_iff_eq hpos.ne'] at h
    linarith
  · intro h
    have hz : Y.map Prod.snd = List.replicate Y.length 0 := by
      apply List.eq_replicate_iff.mpr
      refine ⟨by simp, ?_⟩
      intro d hd
      obtain ⟨u, hu, rfl⟩ := List.mem_map.mp hd
      exact h u hu
    unfold steeringReward
    simp only [hz]
    apply mean_const
    · cases Y with
      | nil => simp at hne
      | cons a Y => simp [List.replicate_succ]
    · intro x hx
      obtain ⟨i, hi, rfl⟩ := List.mem_iff_getElem.mp hx
      rw [List.getElem_zipWith]
      cases i with
      | zero => simp; norm_num
      | succ i =>
        simp [clip]
        norm_num

example : (0 : ℝ) < 55 * π / 180 ∧ ([(1, 0.5), (-1, 0)] : List U) ≠ [] ∧
    ∀ u ∈ ([(1, 0.5), (-1, 0)] : List U), |u.2| ≤ 1 := by
  refine ⟨by positivity, by simp, ?_⟩
  intro u hu
  simp only [List.mem_cons, List.not_mem_nil, or_false] at hu
  rcases hu with rfl | rfl <;> norm_num [abs_le]

end Mbd
