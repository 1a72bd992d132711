import Verif.PropsStat
import Verif.PropsSampling
import Mathlib.Tactic.FieldSimp
import Mathlib.Tactic.Ring

/-!
# C53: aggregated statistics
-/

namespace Spec

open Mbd

/-- A verdict that some trajectory evaluation produced with the given threshold. -/
def Evaluated (thr : ℝ) (v : Verdict) : Prop :=
  ∃ (Q : Type) (E : EvalEnv Q) (xs : List Q), evaluateTrial E thr xs = some v

/-- Number of entries of a list with a property. -/
noncomputable def countOf {α : Type} (p : α → Prop) (l : List α) : ℕ :=
  (l.filter fun a => @decide (p a) (Classical.dec _)).length

/-- A reported rate is the exact fraction `k / n` and lies between 0 and 1. -/
def IsRate (x : ℝ) (k n : ℕ) : Prop := 0 ≤ x ∧ x ≤ 1 ∧ x * n = k

end Spec

namespace Mbd

open Real Classical

theorem sum_ite_eq_count {α : Type} (p : α → Bool) (l : List α) :
    ((l.map p).map fun b => if b then (1 : ℝ) else 0).sum = ((l.filter p).length : ℝ) := by
  induction l with
  | nil => simp
  | cons a l ih =>
    simp only [List.map_cons, List.sum_cons, List.filter_cons]
    rw [ih]
    cases p a <;> simp [add_comm]

theorem filter_add_filter_le {α : Type} (p q : α → Bool) (l : List α)
    (h : ∀ a ∈ l, p a = true → q a = false) :
    (l.filter p).length + (l.filter q).length ≤ l.length := by
  induction l with
  | nil => simp
  | cons a l ih =>
    have ih' := ih fun b hb => h b (List.mem_cons_of_mem _ hb)
    have ha := h a (List.mem_cons_self)
    simp only [List.filter_cons, List.length_cons]
    cases hp : p a <;> cases hq : q a <;> simp_all <;> omega

theorem filter_partition {α : Type} (p : α → Bool) (l : List α) :
    (l.filter p).length + (l.filter fun a => !p a).length = l.length := by
  induction l with
  | nil => simp
  | cons a l ih =>
    simp only [List.filter_cons, List.length_cons]
    cases hp : p a <;> simp <;> omega

theorem boolMean_rate {α : Type} (p : α → Bool) (l : List α) (hl : l ≠ []) :
    ∃ x, boolMean (l.map p) = some x ∧ Spec.IsRate x (l.filter p).length l.length := by
  have hn : (0 : ℝ) < l.length := by exact_mod_cast List.length_pos_of_ne_nil hl
  have hle : ((l.filter p).length : ℝ) ≤ l.length := by exact_mod_cast List.length_filter_le p l
  refine ⟨((l.filter p).length : ℝ) / l.length, ?_, ?_, ?_, ?_⟩
  · rw [boolMean, npMean, if_neg (by simpa using hl), mean, sum_ite_eq_count]
    simp
  · positivity
  · rw [div_le_one hn]; exact hle
  · field_simp

theorem mean_between {l : List ℝ} (hl : l ≠ []) {a b : ℝ} (h : ∀ x ∈ l, a ≤ x ∧ x ≤ b) :
    a ≤ mean l ∧ mean l ≤ b := by
  have hn : (0 : ℝ) < l.length := by exact_mod_cast List.length_pos_of_ne_nil hl
  have key : ∀ l : List ℝ, (∀ x ∈ l, a ≤ x ∧ x ≤ b) →
      a * l.length ≤ l.sum ∧ l.sum ≤ b * l.length := by
    intro l
    induction l with
    | nil => intro _; simp
    | cons x l ih =>
      intro h
      obtain ⟨i1, i2⟩ := ih fun y hy => h y (List.mem_cons_of_mem _ hy)
      obtain ⟨h1, h2⟩ := h x (List.mem_cons_self)
      simp only [List.sum_cons, List.length_cons]
      push_cast
      constructor <;> linarith
  obtain ⟨k1, k2⟩ := key l h
  rw [mean, le_div_iff₀ hn, div_le_iff₀ hn]
  exact ⟨k1, k2⟩

theorem evaluated_success {thr : ℝ} {v : Verdict} (h : Spec.Evaluated thr v) (hs : v.success = true) :
    v.collision = false ∧ v.jackknife = false ∧ 0 ≤ v.positionError ∧ v.positionError ≤ thr := by
  obtain ⟨Q, E, xs, he⟩ := h
  have ok := (evaluate_ok E thr xs).2 v he
  obtain ⟨h1, h2⟩ := ok.success.1 hs
  have hne : xs.getLast? ≠ none := by
    intro h0
    rw [evaluateTrial, h0] at he
    simp at he
  obtain ⟨q, hq⟩ := Option.ne_none_iff_exists'.1 hne
  refine ⟨?_, ?_, ?_, ?_⟩
  · rw [← Bool.not_eq_true, ok.collision]; rintro ⟨q, hq, hc⟩; exact (h2 q hq).1 hc
  · rw [← Bool.not_eq_true, ok.jackknife]; rintro ⟨q, hq, hc⟩; exact (h2 q hq).2 hc
  · rw [ok.positionError, ok.tractorError q hq, ok.trailerError q hq]
    exact le_min (sqrt_nonneg _) (sqrt_nonneg _)
  · rw [ok.positionError]
    exact min_le_iff.2 h1

/-- **C53 (at least one completed trial).** For every list of completed trials — at most as many as were
requested, at least one — with verdicts from the evaluation: the statistics exist; the reported counts
are the numbers of successful trials and of requested trials, successes and failures partition the
completed trials; the collision and jackknife rates are the exact fractions of the completed trials
and the success rate the exact fraction of the *requested* trials, all in [0, 1]; the success rate
exceeds neither one minus the collision rate nor one minus the jackknife rate; the average position error,
reported iff some trial succeeded, lies between 0 and the threshold; mean and deviation of
the times are nonnegative; and the individual results are returned unchanged. -/
theorem C53_consistent (n : ℕ) (thr : ℝ) (rs : List TrialResult) (hrs : rs ≠ []) (hn : rs.length ≤ n)
    (hv : ∀ r ∈ rs, Spec.Evaluated thr r.verdict) :
    ∃ s c j, aggregate n rs = some s ∧ s.collisionRate = some c ∧ s.jackknifeRate = some j ∧
      s.results = rs ∧ s.numTrials = n ∧
      s.successfulTrials = Spec.countOf (fun r : TrialResult => r.verdict.success = true) rs ∧
      s.successfulTrials + Spec.countOf (fun r : TrialResult => r.verdict.success = false) rs
        = rs.length ∧
      Spec.IsRate s.successRate s.successfulTrials n ∧
      Spec.IsRate c (Spec.countOf (fun r : TrialResult => r.verdict.collision = true) rs) rs.length ∧
      Spec.IsRate j (Spec.countOf (fun r : TrialResult => r.verdict.jackknife = true) rs) rs.length ∧
      s.successRate ≤ 1 - c ∧ s.successRate ≤ 1 - j ∧
      (s.avgPositionError = none ↔ s.successfulTrials = 0) ∧
      (∀ e, s.avgPositionError = some e → 0 ≤ e ∧ e ≤ thr) ∧
      0 ≤ s.avgTime ∧ 0 ≤ s.stdTime := by
  have hlen : 0 < rs.length := List.length_pos_of_ne_nil hrs
  have hn0 : n ≠ 0 := by omega
  have hnpos : (0 : ℝ) < n := by exact_mod_cast Nat.pos_of_ne_zero hn0
  have hlpos : (0 : ℝ) < rs.length := by exact_mod_cast hlen
  have hlen' : ((rs.length : ℕ) : ℝ) ≤ n := by exact_mod_cast hn
  obtain ⟨c, hc, hcr⟩ := boolMean_rate (fun r : TrialResult => r.verdict.collision) rs hrs
  obtain ⟨j, hj, hjr⟩ := boolMean_rate (fun r : TrialResult => r.verdict.jackknife) rs hrs
  have hcnt : ∀ p : TrialResult → Bool,
      Spec.countOf (fun r => p r = true) rs = (rs.filter p).length := by
    intro p
    simp only [Spec.countOf]
    congr 1
    apply List.filter_congr
    intro x _
    rw [Bool.eq_iff_iff]
    exact (@decide_eq_true_iff _ (Classical.dec _)).trans (by simp)
  have hcntF : ∀ p : TrialResult → Bool,
      Spec.countOf (fun r => p r = false) rs = (rs.filter fun r => !p r).length := by
    intro p
    simp only [Spec.countOf]
    congr 1
    apply List.filter_congr
    intro x _
    rw [Bool.eq_iff_iff]
    exact (@decide_eq_true_iff _ (Classical.dec _)).trans (by simp)
  set S := rs.filter fun r => r.verdict.success with hS
  have hSle : (S.length : ℝ) ≤ rs.length := by exact_mod_cast List.length_filter_le _ rs
  have hSn : (S.length : ℝ) / n ≤ (S.length : ℝ) / rs.length :=
    div_le_div_of_nonneg_left (Nat.cast_nonneg _) hlpos hlen'
  have hcompl : ∀ (p : TrialResult → Bool) (x : ℝ),
      Spec.IsRate x (rs.filter p).length rs.length →
      (∀ r ∈ rs, r.verdict.success = true → p r = false) → (S.length : ℝ) / n ≤ 1 - x := by
    intro p x hx hp
    have h1 := filter_add_filter_le (fun r : TrialResult => r.verdict.success) p rs hp
    have h2 : (S.length : ℝ) + ((rs.filter p).length : ℝ) ≤ rs.length := by exact_mod_cast h1
    refine hSn.trans ?_
    rw [div_le_iff₀ hlpos]
    have := hx.2.2
    linarith
  have htimes : ∀ t ∈ (rs.map TrialResult.time).filter (fun t => decide (t > 0)), (0 : ℝ) ≤ t := by
    intro t ht
    have := (List.mem_filter.1 ht).2
    exact (of_decide_eq_true this).le
  refine ⟨_, c, j, by rw [aggregate, if_neg hn0], hc, hj, rfl, rfl, (hcnt _).symm, ?_, ?_, ?_, ?_,
    ?_, ?_, ?_, ?_, ?_, ?_⟩
  · rw [hcntF]
    exact filter_partition (fun r : TrialResult => r.verdict.success) rs
  · refine ⟨by positivity, ?_, ?_⟩
    · show (S.length : ℝ) / n ≤ 1
      rw [div_le_one hnpos]; linarith
    · show (S.length : ℝ) / n * n = S.length
      field_simp
  · rw [hcnt]; exact hcr
  · rw [hcnt]; exact hjr
  · exact hcompl _ c hcr fun r hr hs => (evaluated_success (hv r hr) hs).1
  · exact hcompl _ j hjr fun r hr hs => (evaluated_success (hv r hr) hs).2.1
  · show (if S = [] then none else _) = none ↔ S.length = 0
    rw [List.length_eq_zero_iff]
    split_ifs with h <;> simp [h]
  · intro e he
    change (if S = [] then none else _) = some e at he
    split_ifs at he with h
    simp only [Option.some.injEq] at he
    rw [← he]
    apply mean_between (fun h0 => h (List.map_eq_nil_iff.1 h0))
    intro x hx
    obtain ⟨r, hr, rfl⟩ := List.mem_map.1 hx
    obtain ⟨hr1, hr2⟩ := List.mem_filter.1 hr
    exact (evaluated_success (hv r hr1) hr2).2.2
  · show 0 ≤ if _ then (0 : ℝ) else _
    split_ifs with h
    · exact le_rfl
    · rw [mean]
      exact div_nonneg (List.sum_nonneg htimes) (Nat.cast_nonneg _)
  · show 0 ≤ if _ then (0 : ℝ) else _
    split_ifs with h
    · exact le_rfl
    · exact sqrt_nonneg _

/-- **C53 (sampled).** The hypothesis `rs.length ≤ n` is what the sampler guarantees: one result per
sampled configuration is never more than requested. -/
theorem C53_sampled (valid : Trial → Prop) (draws : ℕ → Draw) (n : ℕ) (rs : List TrialResult)
    (h : rs.length = (sampleInitialConditions valid draws n).1.length) (hid : Spec.IgnoresId valid) :
    rs.length ≤ n := by
  rw [h]
  exact (C52_sampling valid hid draws n).1

/-- **C53 (no trials requested).** Asking for zero trials is an exception, not a result. -/
theorem C53_zero_trials (rs : List TrialResult) : aggregate 0 rs = none := by
  simp [aggregate]

/-- **C53 refuted (no completed trial).** When the sampler finds no valid start, the success rate
is 0, but the collision and jackknife rates are not numbers (`nan`, `none` here) rather than values
in [0, 1]. -/
theorem C53_empty_refuted (n : ℕ) (hn : n ≠ 0) :
    ∃ s, aggregate n [] = some s ∧ s.successRate = 0 ∧ s.collisionRate = none ∧
      s.jackknifeRate = none := by
  refine ⟨_, by rw [aggregate, if_neg hn], ?_, ?_, ?_⟩ <;> simp [boolMean, npMean]

/-- **C53 refuted (denominator).** The three rates do not refer to the same population: with two
trials requested and one completed, successful trial the report says 50 % success although no trial
failed and the collision and jackknife rates are 0. -/
theorem C53_denominator_refuted : ∃ (rs : List TrialResult) (s : Stats),
    (∀ r ∈ rs, Spec.Evaluated 4 r.verdict ∧ r.verdict.success = true) ∧ rs ≠ [] ∧
    aggregate 2 rs = some s ∧ s.successRate = 1 / 2 ∧ s.collisionRate = some 0 ∧
    s.jackknifeRate = some 0 := by
  refine ⟨[⟨⟨true, 0, 0, 0, false, false⟩, 1⟩], _, ?_, by simp, by rw [aggregate, if_neg (by simp)],
    ?_, ?_, ?_⟩
  · intro r hr
    rw [List.mem_singleton] at hr
    subst hr
    refine ⟨⟨Unit, ⟨fun _ => False, fun _ => False, fun _ => (0, 0), fun _ => (0, 0), (0, 0)⟩, [()],
      ?_⟩, rfl⟩
    simp [evaluateTrial, flagLoop, dist2]
  · simp
  · simp [boolMean, npMean, mean]
  · simp [boolMean, npMean, mean]

/-- Non-vacuity of `C53_consistent`: one success and one collision out of three requested trials. -/
example : ∃ rs : List TrialResult, rs.length = 2 ∧ rs ≠ [] ∧ rs.length ≤ 3 ∧
    ∀ r ∈ rs, Spec.Evaluated 4 r.verdict := by
  refine ⟨[⟨⟨true, 0, 0, 0, false, false⟩, 1⟩, ⟨⟨false, 0, 0, 0, true, false⟩, 2⟩], rfl, by simp,
    by simp, ?_⟩
  intro r hr
  simp only [List.mem_cons, List.not_mem_nil, or_false] at hr
  rcases hr with rfl | rfl
  · refine ⟨Unit, ⟨fun _ => False, fun _ => False, fun _ => (0, 0), fun _ => (0, 0), (0, 0)⟩, [()],
      ?_⟩
    simp [evaluateTrial, flagLoop, dist2]
  · refine ⟨Unit, ⟨fun _ => True, fun _ => False, fun _ => (0, 0), fun _ => (0, 0), (0, 0)⟩, [()],
      ?_⟩
    simp [evaluateTrial, flagLoop, dist2]

end Mbd
