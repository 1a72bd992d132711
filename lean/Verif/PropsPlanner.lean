import Verif.Planner
import Verif.StepLemmas
import Mathlib.Algebra.BigOperators.Group.Finset.Basic
import Mathlib.Algebra.Order.BigOperators.Group.List
import Mathlib.Algebra.Order.BigOperators.Ring.Finset
import Mathlib.Data.List.GetD
import Mathlib.Tactic.Positivity
import Mathlib.Tactic.FieldSimp
import Mathlib.Tactic.Linarith

/-!
# Properties of the diffusion loop: C19, C20, C21, C28
-/

namespace Mbd

open Real Classical

/-! ## Specification of the noise schedule -/

end Mbd

namespace Spec

/-- Linear schedule from `b0` to `bT` in `n` levels. -/
noncomputable def beta (b0 bT : ℝ) (n i : ℕ) : ℝ := b0 + i * ((bT - b0) / (n - 1))

/-- Signal retention up to level `i`: product of `1 - beta` over levels `0..i`. -/
noncomputable def alphaBar (b0 bT : ℝ) (n i : ℕ) : ℝ := ∏ j ∈ Finset.range (i + 1), (1 - beta b0 bT n j)

end Spec

namespace Mbd

open Real Classical

theorem cumprodFrom_length (l : List ℝ) : ∀ c, (cumprodFrom c l).length = l.length := by
  induction l with
  | nil => intro c; rfl
  | cons a l ih => intro c; simp [cumprodFrom, ih]

theorem cumprodFrom_getD (l : List ℝ) : ∀ (c : ℝ) (i : ℕ), i < l.length →
    (cumprodFrom c l).getD i 0 = c * ∏ j ∈ Finset.range (i + 1), l.getD j 0 := by
  induction l with
  | nil => intro c i h; simp at h
  | cons a l ih =>
    intro c i h
    cases i with
    | zero => simp [cumprodFrom]
    | succ i =>
      have h' : i < l.length := by simpa using h
      rw [Finset.prod_range_succ']
      simp only [cumprodFrom, List.getD_cons_succ, List.getD_cons_zero]
      rw [ih (c * a) i h']
      ring

theorem linspace_length (a b : ℝ) (n : ℕ) : (linspace a b n).length = n := by simp [linspace]

theorem linspace_getD (a b : ℝ) (n i : ℕ) (h : i < n) (d : ℝ) :
    (linspace a b n).getD i d = if n = 1 then a else a + i * ((b - a) / (n - 1)) := by
  simp [linspace, List.getD_eq_getElem?_getD, h]

theorem linspace_getD_beta (a b : ℝ) (n i : ℕ) (h : i < n) (d : ℝ) :
    (linspace a b n).getD i d = Spec.beta a b n i := by
  rw [linspace_getD a b n i h, Spec.beta]
  split_ifs with h1
  · subst h1
    have : i = 0 := by omega
    subst this; simp
  · rfl

theorem beta_mem {b0 bT : ℝ} (h1 : b0 ≤ bT) {n i : ℕ} (h : i < n) :
    b0 ≤ Spec.beta b0 bT n i ∧ Spec.beta b0 bT n i ≤ bT := by
  unfold Spec.beta
  rcases Nat.lt_or_ge 1 n with hn | hn
  · have hp : (0 : ℝ) < n - 1 := by
      have : (1 : ℝ) < n := by exact_mod_cast hn
      linarith
    have hi : (i : ℝ) ≤ n - 1 := by
      have : (i : ℝ) + 1 ≤ n := by exact_mod_cast h
      linarith
    have hd : 0 ≤ (bT - b0) / (n - 1) := div_nonneg (by linarith) hp.le
    refine ⟨by nlinarith [Nat.cast_nonneg (α := ℝ) i, mul_nonneg (Nat.cast_nonneg (α := ℝ) i) hd], ?_⟩
    have : (i : ℝ) * ((bT - b0) / (n - 1)) ≤ (n - 1) * ((bT - b0) / (n - 1)) :=
      mul_le_mul_of_nonneg_right hi hd
    rw [mul_div_cancel₀ _ hp.ne'] at this
    linarith
  · have : i = 0 := by omega
    subst this; simp [h1]

/-! ## C19: noise schedule -/

/-- C19: lengths, explicit values, and cumulative products. -/
theorem C19_values (b0 bT : ℝ) (n : ℕ) :
    (mkSchedule b0 bT n).alphas.length = n ∧ (mkSchedule b0 bT n).alphasBar.length = n ∧
    (mkSchedule b0 bT n).sigmas.length = n ∧
    ∀ i < n, (mkSchedule b0 bT n).alphas.getD i 0 = 1 - Spec.beta b0 bT n i ∧
      (mkSchedule b0 bT n).alphasBar.getD i 0 = Spec.alphaBar b0 bT n i ∧
      (mkSchedule b0 bT n).sigmas.getD i 0 = √(1 - Spec.alphaBar b0 bT n i) := by
  have hl : ∀ i < n, ((linspace b0 bT n).map fun b => 1 - b).getD i 0 = 1 - Spec.beta b0 bT n i := by
    intro i hi
    have := linspace_getD_beta b0 bT n i hi 0
    rw [← this]
    simp [List.getD_eq_getElem?_getD, linspace_length, hi]
  have hb : ∀ i < n, (mkSchedule b0 bT n).alphasBar.getD i 0 = Spec.alphaBar b0 bT n i := by
    intro i hi
    simp only [mkSchedule]
    rw [cumprodFrom_getD _ _ _ (by simpa [linspace_length] using hi), one_mul, Spec.alphaBar]
    apply Finset.prod_congr rfl
    intro j hj
    exact hl j (by have := Finset.mem_range.mp hj; omega)
  refine ⟨by simp [mkSchedule, linspace_length], by simp [mkSchedule, cumprodFrom_length, linspace_length],
    by simp [mkSchedule, cumprodFrom_length, linspace_length], fun i hi => ⟨hl i hi, hb i hi, ?_⟩⟩
  rw [← hb i hi]
  simp [mkSchedule, List.getD_eq_getElem?_getD, cumprodFrom_length, linspace_length, hi]

theorem alphaBar_pos {b0 bT : ℝ} (h1 : b0 ≤ bT) (h2 : bT < 1) {n i : ℕ} (hi : i < n) :
    0 < Spec.alphaBar b0 bT n i := by
  apply Finset.prod_pos
  intro j hj
  have := (beta_mem h1 (show j < n by have := Finset.mem_range.mp hj; omega)).2
  linarith

theorem alphaBar_succ (b0 bT : ℝ) (n i : ℕ) :
    Spec.alphaBar b0 bT n (i + 1) = Spec.alphaBar b0 bT n i * (1 - Spec.beta b0 bT n (i + 1)) :=
  Finset.prod_range_succ _ _

theorem alphaBar_lt_one {b0 bT : ℝ} (h0 : 0 < b0) (h1 : b0 ≤ bT) (h2 : bT < 1) {n i : ℕ}
    (hi : i < n) : Spec.alphaBar b0 bT n i < 1 := by
  induction i with
  | zero =>
    have := (beta_mem h1 hi).1
    simp only [Spec.alphaBar, zero_add, Finset.prod_range_one]
    linarith
  | succ i ih =>
    rw [alphaBar_succ]
    have h3 := ih (by omega)
    have h4 := (beta_mem h1 hi).1
    have h5 := alphaBar_pos h1 h2 (show i < n by omega)
    nlinarith

theorem alphaBar_lt {b0 bT : ℝ} (h0 : 0 < b0) (h1 : b0 ≤ bT) (h2 : bT < 1) {n i j : ℕ}
    (hij : i < j) (hj : j < n) : Spec.alphaBar b0 bT n j < Spec.alphaBar b0 bT n i := by
  induction j with
  | zero => omega
  | succ j ih =>
    have h5 := alphaBar_pos h1 h2 (show j < n by omega)
    have h4 := (beta_mem h1 hj).1
    have : Spec.alphaBar b0 bT n (j + 1) < Spec.alphaBar b0 bT n j := by
      rw [alphaBar_succ]; nlinarith
    rcases Nat.lt_succ_iff_lt_or_eq.mp hij with h | h
    · exact this.trans (ih h (by omega))
    · subst h; exact this

/-- C19: for `0 < beta0 ≤ betaT < 1` every level has `0 < alpha < 1`, `0 < alpha_bar < 1`,
`0 < sigma < 1`, the cumulative products strictly decrease, the noise levels strictly increase,
consecutive levels are related by `alpha`. -/
theorem C19_schedule {b0 bT : ℝ} (h0 : 0 < b0) (h1 : b0 ≤ bT) (h2 : bT < 1) (n : ℕ) :
    (∀ i < n, 0 < (mkSchedule b0 bT n).alphas.getD i 0 ∧ (mkSchedule b0 bT n).alphas.getD i 0 < 1 ∧
      0 < (mkSchedule b0 bT n).alphasBar.getD i 0 ∧ (mkSchedule b0 bT n).alphasBar.getD i 0 < 1 ∧
      0 < (mkSchedule b0 bT n).sigmas.getD i 0 ∧ (mkSchedule b0 bT n).sigmas.getD i 0 < 1) ∧
    (∀ i j, i < j → j < n →
      (mkSchedule b0 bT n).alphasBar.getD j 0 < (mkSchedule b0 bT n).alphasBar.getD i 0 ∧
      (mkSchedule b0 bT n).sigmas.getD i 0 < (mkSchedule b0 bT n).sigmas.getD j 0) ∧
    (∀ i, i + 1 < n → (mkSchedule b0 bT n).alphasBar.getD (i + 1) 0 =
      (mkSchedule b0 bT n).alphasBar.getD i 0 * (mkSchedule b0 bT n).alphas.getD (i + 1) 0) := by
  have hv := (C19_values b0 bT n).2.2.2
  refine ⟨fun i hi => ?_, fun i j hij hj => ?_, fun i hi => ?_⟩
  · obtain ⟨e1, e2, e3⟩ := hv i hi
    rw [e1, e2, e3]
    have hb := beta_mem h1 hi
    have hp := alphaBar_pos h1 h2 hi
    have hl := alphaBar_lt_one h0 h1 h2 hi
    refine ⟨by linarith, by linarith, hp, hl, Real.sqrt_pos.mpr (by linarith), ?_⟩
    rw [Real.sqrt_lt' one_pos]; linarith
  · rw [(hv i (hij.trans hj)).2.1, (hv j hj).2.1, (hv i (hij.trans hj)).2.2, (hv j hj).2.2]
    have := alphaBar_lt h0 h1 h2 hij hj
    have hl := alphaBar_lt_one h0 h1 h2 (hij.trans hj)
    exact ⟨this, Real.sqrt_lt_sqrt (by linarith) (by linarith)⟩
  · rw [(hv _ hi).2.1, (hv i (by omega)).2.1, (hv _ hi).1, alphaBar_succ]

/-- The default schedule (mbd_planner.py:78-79, `beta0 = 1e-5`, `betaT = 1e-2`, 100 levels) meets
the hypotheses. -/
example : (0 : ℝ) < 1e-5 ∧ (1e-5 : ℝ) ≤ 1e-2 ∧ (1e-2 : ℝ) < 1 := by norm_num

/-- C19: outside that range the schedule breaks: with `betaT > 1` a cumulative product can be
negative, so the square roots of the reverse step are taken of negative numbers. -/
theorem C19_range_needed : (mkSchedule 0.5 1.5 2).alphasBar.getD 1 0 < 0 := by
  rw [((C19_values 0.5 1.5 2).2.2.2 1 (by norm_num)).2.1, alphaBar_succ]
  norm_num [Spec.alphaBar, Spec.beta]

/-- C19: the conditional variances are well defined: `n` entries, each radicand non-negative, every
denominator positive, and the first entry of `sigmas_cond` is zero. -/
theorem C19_conditional {b0 bT : ℝ} (h0 : 0 < b0) (h1 : b0 ≤ bT) (h2 : bT < 1) (n : ℕ) :
    (sigmasCondSq (mkSchedule b0 bT n)).length = n ∧
    (∀ x ∈ sigmasCondSq (mkSchedule b0 bT n), 0 ≤ x) ∧
    (∀ i < n, 0 < 1 - (mkSchedule b0 bT n).alphasBar.getD i 0) ∧
    (sigmasCond (mkSchedule b0 bT n)).length = n ∧
    (∀ i, 1 ≤ i → i < n → (sigmasCond (mkSchedule b0 bT n)).getD i 0 ^ 2 =
      (1 - (mkSchedule b0 bT n).alphas.getD i 0) *
        (1 - √((mkSchedule b0 bT n).alphasBar.getD (i - 1) 0)) /
        (1 - (mkSchedule b0 bT n).alphasBar.getD i 0)) ∧
    (sigmasCond (mkSchedule b0 bT n)).getD 0 0 = 0 := by
  set S := mkSchedule b0 bT n with hS
  obtain ⟨l1, l2, l3, -⟩ := C19_values b0 bT n
  obtain ⟨c1, -, -⟩ := C19_schedule h0 h1 h2 n
  rw [← hS] at l1 l2 l3 c1
  have hroll : ∀ l : List ℝ, (roll1 l).length = l.length := by
    intro l
    unfold roll1
    cases h : l.getLast? with
    | none => simp_all
    | some a =>
      have : l ≠ [] := by intro h'; simp [h'] at h
      have := List.length_pos_iff.mpr this
      simp; omega
  have hrollD : ∀ l : List ℝ, ∀ i, 1 ≤ i → i < l.length → (roll1 l).getD i 0 = l.getD (i - 1) 0 := by
    intro l i hi hl
    unfold roll1
    cases h : l.getLast? with
    | none =>
      have : l = [] := by simpa using h
      simp [this] at hl
    | some a =>
      obtain ⟨i, rfl⟩ : ∃ k, i = k + 1 := ⟨i - 1, by omega⟩
      simp only [List.getD_eq_getElem?_getD, Nat.add_sub_cancel, List.getElem?_cons_succ,
        List.getElem?_dropLast, show i < l.length - 1 by omega, if_true]
  have hrollm : ∀ x ∈ roll1 S.alphasBar, 0 < x ∧ x < 1 := by
    have hm : ∀ x ∈ S.alphasBar, 0 < x ∧ x < 1 := by
      intro x hx
      obtain ⟨i, hi, rfl⟩ := List.mem_iff_getElem.mp hx
      have := c1 i (by omega)
      rw [List.getD_eq_getElem _ _ hi] at this
      exact ⟨this.2.2.1, this.2.2.2.1⟩
    intro x hx
    unfold roll1 at hx
    cases h : S.alphasBar.getLast? with
    | none => simp [h] at hx
    | some a =>
      rw [h] at hx
      rcases List.mem_cons.mp hx with rfl | h'
      · exact hm _ (List.mem_of_getLast? h)
      · exact hm _ (List.dropLast_subset _ h')
  have hlen : (sigmasCondSq S).length = n := by
    simp [sigmasCondSq, hroll, l1, l2]
  have hget : ∀ i (hi : i < n), (sigmasCondSq S).getD i 0 = (1 - S.alphas.getD i 0) *
      (1 - √((roll1 S.alphasBar).getD i 0)) / (1 - S.alphasBar.getD i 0) := by
    intro i hi
    simp [sigmasCondSq, List.getD_eq_getElem?_getD, l1, l2, hroll, hi]
  have hnn : ∀ i < n, 0 ≤ (sigmasCondSq S).getD i 0 := by
    intro i hi
    rw [hget i hi]
    have h := c1 i hi
    have hr := hrollm ((roll1 S.alphasBar).getD i 0) (by
      rw [List.getD_eq_getElem _ _ (by rw [hroll, l2]; exact hi)]
      exact List.getElem_mem _)
    have : √((roll1 S.alphasBar).getD i 0) ≤ 1 := by rw [Real.sqrt_le_one]; exact hr.2.le
    exact div_nonneg (mul_nonneg (by linarith [h.2.1]) (by linarith)) (by linarith [h.2.2.2.1])
  refine ⟨hlen, ?_, fun i hi => by linarith [(c1 i hi).2.2.2.1], by simp [sigmasCond, hlen], ?_, ?_⟩
  · intro x hx
    obtain ⟨i, hi, rfl⟩ := List.mem_iff_getElem.mp hx
    have := hnn i (by omega)
    rwa [List.getD_eq_getElem _ _ hi] at this
  · intro i hi hn
    rw [← hrollD S.alphasBar i hi (by omega), ← hget i hn]
    have e : (sigmasCond S).getD i 0 = √((sigmasCondSq S).getD i 0) := by
      unfold sigmasCond
      simp [List.getD_eq_getElem?_getD, List.getElem?_set, show (0 : ℕ) ≠ i by omega, hlen, hn]
    rw [e, Real.sq_sqrt (hnn i hn)]
  · unfold sigmasCond
    rcases Nat.eq_zero_or_pos n with h | h
    · have : sigmasCondSq S = [] := by rw [← List.length_eq_zero_iff, hlen, h]
      simp [this]
    · simp [List.getD_eq_getElem?_getD, List.getElem?_set, hlen, h]

example := C19_conditional (b0 := 1e-5) (bT := 1e-2) (by norm_num) (by norm_num) (by norm_num) 100

/-! ## C20: the reverse loop -/

end Mbd

namespace Spec

open Mbd

/-- Key and plan after `k` denoising iterations starting at the highest level `n - 1`. -/
noncomputable def denoised (once : ℕ × Key × List U → (ℕ × Key × List U) × ℝ) (n : ℕ) (rng : Key)
    (Y : List U) : ℕ → Key × List U
  | 0 => (rng, Y)
  | k + 1 =>
    let p := denoised once n rng Y k
    (once (n - 1 - k, p.1, p.2)).1.2

end Spec

namespace Mbd

open Real Classical

theorem foldl_reverseBody (once : ℕ × Key × List U → (ℕ × Key × List U) × ℝ) (n : ℕ)
    (rng : Key) (Y : List U) (h0 : List (List U)) : ∀ m ≤ h0.length,
    let st := (List.range m).foldl (reverseBody once n) { rng := rng, Y := Y, hist := h0 }
    (st.rng, st.Y) = Spec.denoised once n rng Y m ∧ st.hist.length = h0.length ∧
    (∀ k < m, st.hist.getD k [] = (Spec.denoised once n rng Y (k + 1)).2) ∧
    (∀ k, m ≤ k → st.hist.getD k [] = h0.getD k []) := by
  intro m
  induction m with
  | zero => intro _; simp [Spec.denoised]
  | succ m ih =>
    intro hm
    obtain ⟨i1, i2, i3, i4⟩ := ih (by omega)
    simp only [List.range_succ, List.foldl_append, List.foldl_cons, List.foldl_nil]
    generalize hst : (List.range m).foldl (reverseBody once n) { rng := rng, Y := Y, hist := h0 } = st at *
    have hr : st.rng = (Spec.denoised once n rng Y m).1 := by rw [← i1]
    have hY : st.Y = (Spec.denoised once n rng Y m).2 := by rw [← i1]
    have hd : (once (n - 1 - m, st.rng, st.Y)).1.2 = Spec.denoised once n rng Y (m + 1) := by
      rw [hr, hY, Spec.denoised]
    refine ⟨?_, by simp [reverseBody, i2], ?_, ?_⟩
    · simp only [reverseBody]
      rw [← hd]
    · intro k hk
      simp only [reverseBody]
      rcases Nat.lt_succ_iff_lt_or_eq.mp hk with h | h
      · rw [← i3 k h]
        simp [List.getD_eq_getElem?_getD, List.getElem?_set, show m ≠ k by omega]
      · subst h
        rw [← hd]
        have : k < st.hist.length := by omega
        simp [List.getD_eq_getElem?_getD, this]
    · intro k hk
      simp only [reverseBody]
      rw [← i4 k (by omega)]
      simp [List.getD_eq_getElem?_getD, List.getElem?_set, show m ≠ k by omega]

/-- C20: the history has `Ndiffuse - 1` rows, row `k` is the plan after `k + 1` iterations (level
`Ndiffuse - 1 - k`), the returned plan is the plan after all iterations, and it is the last row. -/
theorem C20_history (once : ℕ × Key × List U → (ℕ × Key × List U) × ℝ) (cfg : Cfg) (YN : List U)
    (rng : Key) :
    (reverseLoop once cfg YN rng).hist.length = cfg.Ndiffuse - 1 ∧
    (∀ k < cfg.Ndiffuse - 1, (reverseLoop once cfg YN rng).hist.getD k [] =
      (Spec.denoised once cfg.Ndiffuse rng YN (k + 1)).2) ∧
    (reverseLoop once cfg YN rng).Y =
      (Spec.denoised once cfg.Ndiffuse rng YN (cfg.Ndiffuse - 1)).2 ∧
    (2 ≤ cfg.Ndiffuse → (reverseLoop once cfg YN rng).hist.getLast? =
      some (reverseLoop once cfg YN rng).Y) := by
  have h := foldl_reverseBody once cfg.Ndiffuse rng YN
    (List.replicate (cfg.Ndiffuse - 1) (List.replicate cfg.Hsample (0, 0))) (cfg.Ndiffuse - 1)
    (by simp)
  simp only at h
  obtain ⟨h1, h2, h3, -⟩ := h
  have hY : (reverseLoop once cfg YN rng).Y =
      (Spec.denoised once cfg.Ndiffuse rng YN (cfg.Ndiffuse - 1)).2 := by
    rw [← h1]; rfl
  refine ⟨by rw [reverseLoop, h2, List.length_replicate], h3, hY, fun hn => ?_⟩
  have hl : (reverseLoop once cfg YN rng).hist.length = cfg.Ndiffuse - 1   := by
    rw [reverseLoop, h2, List.length_replicate]
  have := h3 (cfg.Ndiffuse - 2) (by omega)
  rw [List.getLast?_eq_getElem?, hl, hY, show cfg.Ndiffuse - 1 - 1 = cfg.Ndiffuse - 2 by omega]
  have hlt : cfg.Ndiffuse - 2 < (reverseLoop once cfg YN rng).hist.length := by omega
  rw [show cfg.Ndiffuse - 1 = cfg.Ndiffuse - 2 + 1 by omega, ← this]
  change _ = some ((reverseLoop once cfg YN rng).hist.getD _ _)
  rw [List.getElem?_eq_getElem hlt, List.getD_eq_getElem _ _ hlt]

/-- C20: a loop body that only records the level it is called with sees exactly
`Ndiffuse - 1, ..., 2, 1`, each once and in this order. -/
theorem C20_levels (cfg : Cfg) (YN : List U) :
    (reverseLoop (fun c => ((c.1 - 1, c.2.1 ++ [c.1], c.2.2), 0)) cfg YN []).rng =
      (List.range' 1 (cfg.Ndiffuse - 1)).reverse := by
  have h := foldl_reverseBody (fun c => ((c.1 - 1, c.2.1 ++ [c.1], c.2.2), 0)) cfg.Ndiffuse [] YN
    (List.replicate (cfg.Ndiffuse - 1) (List.replicate cfg.Hsample (0, 0))) (cfg.Ndiffuse - 1)
    (by simp)
  have h1 := congrArg Prod.fst h.1
  have key : ∀ m, (Spec.denoised (fun c => ((c.1 - 1, c.2.1 ++ [c.1], c.2.2), 0)) cfg.Ndiffuse []
      YN m).1 = (List.range m).map fun k => cfg.Ndiffuse - 1 - k := by
    intro m
    induction m with
    | zero => rfl
    | succ m ih => simp [Spec.denoised, ih, List.range_succ]
  change _ = _
  rw [show (reverseLoop (fun c => ((c.1 - 1, c.2.1 ++ [c.1], c.2.2), 0)) cfg YN []).rng = _ from h1,
    key]
  apply List.ext_getElem
  · simp
  · intro i a b
    simp only [List.length_map, List.length_range] at a
    simp only [List.getElem_map, List.getElem_range, List.getElem_reverse, List.length_range',
      List.getElem_range']
    omega

/-- C20: all indices the reverse step reads (`i` and `i - 1`) are inside the schedule arrays. -/
theorem C20_in_range (cfg : Cfg) (b0 bT : ℝ) : ∀ i ∈ (List.range' 1 (cfg.Ndiffuse - 1)).reverse,
    1 ≤ i ∧ i < (mkSchedule b0 bT cfg.Ndiffuse).alphasBar.length ∧
    i < (mkSchedule b0 bT cfg.Ndiffuse).alphas.length ∧
    i < (mkSchedule b0 bT cfg.Ndiffuse).sigmas.length := by
  intro i hi
  obtain ⟨l1, l2, l3, -⟩ := C19_values b0 bT cfg.Ndiffuse
  rw [l1, l2, l3]
  simp only [List.mem_reverse, List.mem_range'_1] at hi
  omega

example := fun cfg : Cfg => C20_in_range { cfg with Ndiffuse := 100 } 1e-5 1e-2 99 (by simp)

/-! ## C21: algebra of the reverse step -/

/-- C21, algebra: score and rescaling cancel. -/
theorem C21_rescale {ab a abp : ℝ} (ha : 0 < a) (hp : 0 < abp) (h1 : ab < 1) (he : ab = abp * a)
    (y ybar : ℝ) : rescale ab a abp y ybar = ybar := by
  have hab : 0 < ab := by rw [he]; positivity
  have h1' : (1 - ab) ≠ 0 := by linarith
  have hsa : √a ≠ 0 := (Real.sqrt_pos.mpr ha).ne'
  have hsp : √abp ≠ 0 := (Real.sqrt_pos.mpr hp).ne'
  have hs : √ab = √abp * √a := by rw [he, Real.sqrt_mul hp.le]
  unfold rescale
  simp only
  rw [hs]
  field_simp
  ring

example := fun y ybar => C21_rescale (ab := 0.72) (a := 0.8) (abp := 0.9) (by norm_num) (by norm_num)
  (by norm_num) (by norm_num) y ybar

theorem weightedPlan_length (h : ℕ) (w : List ℝ) (Ys : List (List U)) :
    (weightedPlan h w Ys).length = h := by simp [weightedPlan]

theorem clampGet_eq {l : List ℝ} {i : ℕ} (h : i < l.length) : clampGet l i = l.getD i 0 := by
  unfold clampGet; rw [min_eq_left (by omega)]

/-- C21: one reverse step at level `1 ≤ i < Ndiffuse` returns the weighted average of the executed
action sequences of its samples, whatever the level and the incoming plan's scale. -/
theorem C21_reverse_step {Q : Type} (E : PlanEnv Q) {b0 bT : ℝ} (h0 : 0 < b0) (h1 : b0 ≤ bT)
    (h2 : bT < 1) (normal : Key → ℕ → ℕ → ℕ → ℕ → U) (cfg : Cfg) (s0 : St Q) (i : ℕ) (hi : 1 ≤ i)
    (hn : i < cfg.Ndiffuse) (k : Key) (Y : List U) (hY : Y.length = cfg.Hsample) :
    let S := mkSchedule b0 bT cfg.Ndiffuse
    let B := evalBatch E cfg s0 (samplePlans cfg
      (S.sigmas.getD i 0 / √(S.alphasBar.getD (i - 1) 0))
      (normal (k ++ [1]) cfg.Nsample cfg.Hsample) Y)
    reverseOnce E S normal cfg s0 (i, k, Y) =
      ((i - 1, k ++ [0], (List.range cfg.Hsample).map fun t =>
        ((List.zipWith (fun w (A : List U) => w * (A.getD t (0, 0)).1) B.weights B.eff).sum,
         (List.zipWith (fun w (A : List U) => w * (A.getD t (0, 0)).2) B.weights B.eff).sum)),
       mean B.combined) := by
  intro S B
  obtain ⟨c1, -, c3⟩ := C19_schedule h0 h1 h2 cfg.Ndiffuse
  have ca := c1 i hn
  have cp := c1 (i - 1) (by omega)
  have ce := c3 (i - 1) (by omega)
  rw [show i - 1 + 1 = i by omega] at ce
  have hr : ∀ y yb, rescale (S.alphasBar.getD i 0) (S.alphas.getD i 0) (S.alphasBar.getD (i - 1) 0) y yb
      = yb := fun y yb => C21_rescale ca.1 cp.2.2.1 ca.2.2.2.1 ce y yb
  have hb : reverseOnce E S normal cfg s0 (i, k, Y) =
      ((i - 1, k ++ [0], List.zipWith (fun y yb => (rescale (S.alphasBar.getD i 0) (S.alphas.getD i 0)
        (S.alphasBar.getD (i - 1) 0) y.1 yb.1, rescale (S.alphasBar.getD i 0) (S.alphas.getD i 0)
        (S.alphasBar.getD (i - 1) 0) y.2 yb.2)) Y B.ybar), mean B.combined) := by
    have l1 : S.alphasBar.length = cfg.Ndiffuse := by simp [S, mkSchedule, cumprodFrom_length, linspace]
    have l2 : S.alphas.length = cfg.Ndiffuse := by simp [S, mkSchedule, linspace]
    have l3 : S.sigmas.length = cfg.Ndiffuse := by simp [S, mkSchedule, cumprodFrom_length, linspace]
    simp only [reverseOnce, split]
    rw [clampGet_eq (l := S.alphasBar) (i := i) (by omega), clampGet_eq (l := S.alphasBar) (i := i - 1) (by omega),
      clampGet_eq (l := S.alphas) (i := i) (by omega), clampGet_eq (l := S.sigmas) (i := i) (by omega)]
  rw [hb]
  simp only [hr]
  have hlen : B.ybar.length = cfg.Hsample := weightedPlan_length _ _ _
  have : List.zipWith (fun (_ : U) (yb : U) => (yb.1, yb.2)) Y B.ybar = B.ybar := by
    apply List.ext_getElem
    · simp [hlen, hY]
    · intro t a b; simp
  rw [this]
  rfl

example {Q : Type} (E : PlanEnv Q) (normal : Key → ℕ → ℕ → ℕ → ℕ → U) (cfg : Cfg)
    (hN : cfg.Ndiffuse = 100) (s0 : St Q) (k : Key) :=
  C21_reverse_step E (b0 := 1e-5) (bT := 1e-2) (by norm_num) (by norm_num) (by norm_num) normal cfg
    s0 99 (by norm_num) (by omega) k (zeroPlan cfg) (by simp [zeroPlan])

/-! ## C28: random keys -/

/-- Key of the noise of iteration `k` (specification). -/
def sampleKey (k : ℕ) : Key := [0, 0] ++ List.replicate k 0 ++ [1]

theorem reverseOnce_key {Q : Type} (E : PlanEnv Q) (S : Schedule) (cfg : Cfg) (s0 : St Q)
    (normal : Key → ℕ → ℕ → ℕ → ℕ → U) (i : ℕ) (k : Key) (Y : List U) :
    (reverseOnce E S normal cfg s0 (i, k, Y)).1.2.1 = k ++ [0] := rfl

theorem reverseOnce_congr {Q : Type} (E : PlanEnv Q) (S : Schedule) (cfg : Cfg) (s0 : St Q)
    (normal normal' : Key → ℕ → ℕ → ℕ → ℕ → U) (i : ℕ) (k : Key) (Y : List U)
    (h : normal (k ++ [1]) = normal' (k ++ [1])) :
    reverseOnce E S normal cfg s0 (i, k, Y) = reverseOnce E S normal' cfg s0 (i, k, Y) := by
  simp only [reverseOnce, split, h]

theorem denoised_congr (once once' : ℕ × Key × List U → (ℕ × Key × List U) × ℝ) (n : ℕ) (k0 : Key)
    (Y : List U) (m : ℕ) (hkey : ∀ i k Y, (once (i, k, Y)).1.2.1 = k ++ [0])
    (h : ∀ j < m, ∀ i Y, once (i, k0 ++ List.replicate j 0, Y) = once' (i, k0 ++ List.replicate j 0, Y)) :
    (Spec.denoised once n k0 Y m).1 = k0 ++ List.replicate m 0 ∧
    Spec.denoised once n k0 Y m = Spec.denoised once' n k0 Y m := by
  induction m with
  | zero => simp [Spec.denoised]
  | succ m ih =>
    obtain ⟨i1, i2⟩ := ih (fun k hk => h k (by omega))
    simp only [Spec.denoised]
    rw [← i2]
    refine ⟨by rw [hkey, i1, List.replicate_succ', List.append_assoc], ?_⟩
    rw [i1, h m (by omega)]

/-- C28: after `k` iterations the loop's key is `[0,0,0^k]` (never consumed for sampling, only
split), and plans up to there depend on the noise source only through its values at the sample
keys of the iterations `0..k-1`. -/
theorem C28_denoised {Q : Type} (E : PlanEnv Q) (S : Schedule) (cfg : Cfg) (s0 : St Q)
    (normal normal' : Key → ℕ → ℕ → ℕ → ℕ → U) (Y : List U) (m : ℕ)
    (h : ∀ k < m, normal (sampleKey k) = normal' (sampleKey k)) :
    (Spec.denoised (reverseOnce E S normal cfg s0) cfg.Ndiffuse keyExp Y m).1 =
      [0, 0] ++ List.replicate m 0 ∧
    Spec.denoised (reverseOnce E S normal cfg s0) cfg.Ndiffuse keyExp Y m =
      Spec.denoised (reverseOnce E S normal' cfg s0) cfg.Ndiffuse keyExp Y m := by
  exact denoised_congr _ _ cfg.Ndiffuse keyExp Y m (fun i k Y => reverseOnce_key E S cfg s0 normal i k Y)
    (fun j hj i Y => reverseOnce_congr E S cfg s0 normal normal' i _ Y (h j hj))

/-- Two different noise sources that agree on the first sample key. -/
example {Q : Type} (E : PlanEnv Q) (S : Schedule) (cfg : Cfg) (s0 : St Q) :=
  C28_denoised E S cfg s0 (fun _ _ _ _ _ => (1, 1))
    (fun k _ _ _ _ => if k = sampleKey 0 then (1, 1) else (0, 0)) (zeroPlan cfg) 1
    (by intro k hk; obtain rfl : k = 0 := by omega
        simp)

/-- C28: the whole run uses the noise source only at the sample keys of its iterations. -/
theorem C28_run {Q : Type} (E : PlanEnv Q) (cfg : Cfg)
    (normal normal' : Key → ℕ → ℕ → ℕ → ℕ → U)
    (h : ∀ k < cfg.Ndiffuse - 1, normal (sampleKey k) = normal' (sampleKey k)) :
    runDiffusion E normal cfg = runDiffusion E normal' cfg := by
  have key : ∀ S, reverseLoop (reverseOnce E S normal cfg (E.reset keyReset)) cfg (zeroPlan cfg) keyExp =
      reverseLoop (reverseOnce E S normal' cfg (E.reset keyReset)) cfg (zeroPlan cfg) keyExp := by
    intro S
    have a := foldl_reverseBody (reverseOnce E S normal cfg (E.reset keyReset)) cfg.Ndiffuse keyExp
      (zeroPlan cfg) (List.replicate (cfg.Ndiffuse - 1) (List.replicate cfg.Hsample (0, 0)))
      (cfg.Ndiffuse - 1) (by simp)
    have b := foldl_reverseBody (reverseOnce E S normal' cfg (E.reset keyReset)) cfg.Ndiffuse keyExp
      (zeroPlan cfg) (List.replicate (cfg.Ndiffuse - 1) (List.replicate cfg.Hsample (0, 0)))
      (cfg.Ndiffuse - 1) (by simp)
    have e : ∀ m ≤ cfg.Ndiffuse - 1, Spec.denoised (reverseOnce E S normal cfg (E.reset keyReset))
        cfg.Ndiffuse keyExp (zeroPlan cfg) m = Spec.denoised (reverseOnce E S normal' cfg
          (E.reset keyReset)) cfg.Ndiffuse keyExp (zeroPlan cfg) m := fun m hm =>
      (C28_denoised E S cfg _ normal normal' _ m (fun k hk => h k (by omega))).2
    obtain ⟨a1, a2, a3, -⟩ := a
    obtain ⟨b1, b2, b3, -⟩ := b
    rw [e _ le_rfl, ← b1] at a1
    have hh : (reverseLoop (reverseOnce E S normal cfg (E.reset keyReset)) cfg (zeroPlan cfg)
        keyExp).hist = (reverseLoop (reverseOnce E S normal' cfg (E.reset keyReset)) cfg
        (zeroPlan cfg) keyExp).hist := by
      apply List.ext_getElem
      · exact a2.trans b2.symm
      · intro t ha hb
        have hlt : t < cfg.Ndiffuse - 1 := by
          have := a2
          simp only [List.length_replicate] at this
          simp only [reverseLoop] at ha
          omega
        have x := a3 t hlt
        have y := b3 t hlt
        rw [e (t + 1) (by omega)] at x
        rw [← y] at x
        have ha' := ha
        have hb' := hb
        simp only [reverseLoop] at ha' hb'
        rw [List.getD_eq_getElem _ _ ha', List.getD_eq_getElem _ _ hb'] at x
        exact x
    have h1 := congrArg Prod.fst a1
    have h2 := congrArg Prod.snd a1
    cases hl : reverseLoop (reverseOnce E S normal cfg (E.reset keyReset)) cfg (zeroPlan cfg) keyExp
    cases hl' : reverseLoop (reverseOnce E S normal' cfg (E.reset keyReset)) cfg (zeroPlan cfg) keyExp
    rw [hl, hl'] at hh
    unfold reverseLoop at hl hl'
    rw [hl, hl'] at h1 h2
    simp_all
  unfold runDiffusion
  simp only [key]

example {Q : Type} (E : PlanEnv Q) (cfg : Cfg) (h : cfg.Ndiffuse = 2) :=
  C28_run E cfg (fun _ _ _ _ _ => (1, 1))
    (fun k _ _ _ _ => if k = sampleKey 0 then (1, 1) else (0, 0))
    (by intro k hk; obtain rfl : k = 0 := by omega
        simp)

/-- C28: the keys consumed by a run - reset, warm-up sample, and one per iteration - are pairwise
distinct, none of them is ever split further (no consumed key is a proper prefix of another), and
none is a key the loop carries. -/
theorem C28_distinct :
    (∀ j k, sampleKey j = sampleKey k → j = k) ∧
    (∀ k, sampleKey k ≠ keyReset) ∧ (∀ k, sampleKey k ≠ (split keyMain).2) ∧
    keyReset ≠ (split keyMain).2 ∧
    (∀ j k, sampleKey j <+: sampleKey k → j = k) ∧
    (∀ k, ¬ keyReset <+: sampleKey k ∧ ¬ (split keyMain).2 <+: sampleKey k) ∧
    (∀ j k, sampleKey j ≠ [0, 0] ++ List.replicate k 0) := by
  have hpre : ∀ j k, sampleKey j <+: sampleKey k → j = k := by
    intro j k h
    have hl := h.length_le
    simp only [sampleKey, List.length_append, List.length_cons, List.length_nil,
      List.length_replicate] at hl
    by_contra hne
    have hlt : j < k := by omega
    have e := h.getElem (i := 2 + j) (by simp [sampleKey]; omega)
    have e1 : (sampleKey j)[2 + j]'(by simp [sampleKey]; omega) = 1 := by
      unfold sampleKey
      rw [List.getElem_append_right (by simp; omega)]
      simp
    have e2 : (sampleKey k)[2 + j]'(by simp [sampleKey]; omega) = 0 := by
      unfold sampleKey
      rw [List.getElem_append_left (by simp; omega), List.getElem_append_right (by simp)]
      simp
    rw [e1, e2] at e
    exact one_ne_zero e
  refine ⟨fun j k h => hpre j k (h ▸ List.prefix_refl _), ?_, ?_, by decide, hpre, ?_, ?_⟩
  · intro k; simp [sampleKey, keyReset, split]
  · intro k; simp [sampleKey, keyMain, split]
  · intro k; constructor <;> simp [sampleKey, keyReset, keyMain, split, List.cons_prefix_cons]
  · intro j k h
    have : (1 : ℕ) ∈ [0, 0] ++ List.replicate k 0 := by rw [← h]; simp [sampleKey]
    simp at this

/-- The warm-up call samples with `(split keyMain).2`: noise elsewhere does not influence it. -/
theorem C28_warmup {Q : Type} (E : PlanEnv Q) (S : Schedule) (cfg : Cfg) (s0 : St Q)
    (normal normal' : Key → ℕ → ℕ → ℕ → ℕ → U)
    (h : normal (split keyMain).2 = normal' (split keyMain).2) :
    reverseOnce E S normal cfg s0 (cfg.Ndiffuse - 1, keyMain, zeroPlan cfg) =
      reverseOnce E S normal' cfg s0 (cfg.Ndiffuse - 1, keyMain, zeroPlan cfg) := by
  exact reverseOnce_congr E S cfg s0 normal normal' _ _ _ h

example {Q : Type} (E : PlanEnv Q) (S : Schedule) (cfg : Cfg) (s0 : St Q) :=
  C28_warmup E S cfg s0 (fun _ _ _ _ _ => (1, 1))
    (fun k _ _ _ _ => if k = (split keyMain).2 then (1, 1) else (0, 0)) (by simp)

end Mbd
