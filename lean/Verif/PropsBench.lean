import Verif.Bench
import Verif.PropsBatch
import Verif.PropsTiming
import Verif.PropsAggregate
import Verif.PropsWeights
import Verif.PropsScore

/-!
# C65: the benchmark
-/

namespace Mbd

open Classical

variable {Q : Type}

/-! ## The statistics -/

theorem listMin_le {l : List ℝ} {x : ℝ} (h : x ∈ l) : listMin l ≤ x := by
  cases l with
  | nil => simp at h
  | cons a l =>
    have key : ∀ (l : List ℝ) (b : ℝ), l.foldl min b ≤ b ∧ ∀ y ∈ l, l.foldl min b ≤ y := by
      intro l
      induction l with
      | nil => intro b; simp
      | cons c l ih =>
        intro b
        obtain ⟨h1, h2⟩ := ih (min b c)
        refine ⟨h1.trans (min_le_left _ _), fun y hy => ?_⟩
        rcases List.mem_cons.1 hy with rfl | hy
        · exact h1.trans (min_le_right _ _)
        · exact h2 y hy
    rcases List.mem_cons.1 h with rfl | h
    · exact (key l _).1
    · exact (key l a).2 x h

theorem listMin_mem {l : List ℝ} (h : l ≠ []) : listMin l ∈ l := by
  cases l with
  | nil => simp at h
  | cons a l =>
    have key : ∀ (l : List ℝ) (b : ℝ), l.foldl min b = b ∨ l.foldl min b ∈ l := by
      intro l
      induction l with
      | nil => intro b; simp
      | cons c l ih =>
        intro b
        rcases ih (min b c) with h | h
        · rcases min_choice b c with h' | h'
          · left; rw [List.foldl_cons, h, h']
          · right; rw [List.foldl_cons, h, h']; simp
        · right; rw [List.foldl_cons]; exact List.mem_cons_of_mem _ h
    rcases key l a with h | h
    · rw [listMin, h]; simp
    · exact List.mem_cons_of_mem _ h

/-- The median is between the two middle entries of the sorted list. -/
theorem median_mid {l : List ℝ} (hl : l ≠ []) :
    let s := l.insertionSort (· ≤ ·)
    median l = (s.getD ((l.length - 1) / 2) 0 + s.getD (l.length / 2) 0) / 2 := by
  have hn : 0 < l.length := List.length_pos_of_ne_nil hl
  simp only [median]
  split_ifs with h
  · rw [show (l.length - 1) / 2 = l.length / 2 by omega]; ring
  · rw [show (l.length - 1) / 2 = l.length / 2 - 1 by omega]

theorem sorted_getD {l : List ℝ} {i j : ℕ} (hij : i ≤ j) (hj : j < l.length) :
    (l.insertionSort (· ≤ ·)).getD i 0 ≤ (l.insertionSort (· ≤ ·)).getD j 0 := by
  have hs : (l.insertionSort (· ≤ ·)).Pairwise (· ≤ ·) := List.pairwise_insertionSort (· ≤ ·) l
  have hlen : (l.insertionSort (· ≤ ·)).length = l.length := List.length_insertionSort _ _
  rcases Nat.lt_or_eq_of_le hij with h | rfl
  · rw [List.getD_eq_getElem _ _ (by omega), List.getD_eq_getElem _ _ (by omega)]
    exact List.pairwise_iff_getElem.1 hs i j (by omega) (by omega) h
  · exact le_rfl

theorem countP_take_le {s : List ℝ} {p : ℝ → Bool} {k : ℕ} (hk : k ≤ s.length)
    (h : ∀ i < k, p (s.getD i 0) = true) : k ≤ s.countP p := by
  have h1 : (s.take k).countP p = k := by
    rw [List.countP_eq_length.2]
    · rw [List.length_take, min_eq_left hk]
    · intro a ha
      obtain ⟨i, hi, rfl⟩ := List.mem_iff_getElem.1 ha
      rw [List.length_take] at hi
      have := h i (by omega)
      rw [List.getD_eq_getElem _ _ (by omega)] at this
      simpa using this
  have h2 := List.countP_append (p := p) (l₁ := s.take k) (l₂ := s.drop k)
  rw [List.take_append_drop] at h2
  omega

theorem countP_drop_le {s : List ℝ} {p : ℝ → Bool} {k : ℕ} (hk : k ≤ s.length)
    (h : ∀ i, k ≤ i → i < s.length → p (s.getD i 0) = true) : s.length - k ≤ s.countP p := by
  have h1 : (s.drop k).countP p = s.length - k := by
    rw [List.countP_eq_length.2]
    · rw [List.length_drop]
    · intro a ha
      obtain ⟨i, hi, rfl⟩ := List.mem_iff_getElem.1 ha
      rw [List.length_drop] at hi
      have := h (k + i) (by omega) (by omega)
      rw [List.getD_eq_getElem _ _ (by omega)] at this
      simpa using this
  have h2 := List.countP_append (p := p) (l₁ := s.take k) (l₂ := s.drop k)
  rw [List.take_append_drop] at h2
  omega

/-- Specification of the five statistics of a non-empty list. -/
structure _root_.Spec.IsSummary (l : List ℝ) (s : Summary) : Prop where
  minMem : s.min ∈ l
  maxMem : s.max ∈ l
  range : ∀ x ∈ l, s.min ≤ x ∧ x ≤ s.max
  mean : s.mean * l.length = l.sum
  meanRange : s.min ≤ s.mean ∧ s.mean ≤ s.max
  /-- at least half of the entries are at most, and at least half are at least the median -/
  medianLow : l.length ≤ 2 * l.countP (fun x => x ≤ s.median)
  medianHigh : l.length ≤ 2 * l.countP (fun x => s.median ≤ x)
  medianRange : s.min ≤ s.median ∧ s.median ≤ s.max
  std : 0 ≤ s.std
  variance : s.std ^ 2 * l.length = (l.map fun x => (x - s.mean) ^ 2).sum
  stdZero : s.std = 0 ↔ ∀ x ∈ l, x = s.mean

theorem sum_sq_zero (c : ℝ) (l : List ℝ) :
    0 ≤ (l.map fun x => (x - c) ^ 2).sum ∧
    ((l.map fun x => (x - c) ^ 2).sum = 0 ↔ ∀ x ∈ l, x = c) := by
  induction l with
  | nil => simp
  | cons a l ih =>
    obtain ⟨h1, h2⟩ := ih
    have ha := sq_nonneg (a - c)
    refine ⟨by rw [List.map_cons, List.sum_cons]; linarith, ?_⟩
    rw [List.map_cons, List.sum_cons]
    constructor
    · intro h x hx
      have e1 : (a - c) ^ 2 = 0 := by linarith
      have e2 : (l.map fun x => (x - c) ^ 2).sum = 0 := by linarith
      rcases List.mem_cons.1 hx with rfl | hx
      · have := pow_eq_zero_iff (two_ne_zero) |>.1 e1; linarith
      · exact h2.1 e2 x hx
    · intro h
      have e1 := h a (by simp)
      have e2 := h2.2 fun x hx => h x (by simp [hx])
      rw [e1, e2]; ring

/-- **C65 (statistics).** Every entry of the report consists of the minimum, maximum, mean, population
standard deviation and median of the values, for any values; an empty list raises. -/
theorem C65_summary (l : List ℝ) :
    (summarise l = .error .valueError ↔ l = []) ∧
    (∀ s, summarise l = .ok s → Spec.IsSummary l s) ∧ (l ≠ [] → ∃ s, summarise l = .ok s) := by
  refine ⟨?_, ?_, ?_⟩
  · unfold summarise
    split_ifs with h <;> simp [h]
  · intro s h
    unfold summarise at h
    split_ifs at h with hl
    injection h with h
    subst h
    have hn : 0 < l.length := List.length_pos_of_ne_nil hl
    have hnR : (0 : ℝ) < l.length := by exact_mod_cast hn
    have hrange : ∀ x ∈ l, listMin l ≤ x ∧ x ≤ listMax l := fun x hx => ⟨listMin_le hx, le_listMax hx⟩
    have hmed := median_mid hl
    simp only at hmed
    have hlen : (l.insertionSort (· ≤ ·)).length = l.length := List.length_insertionSort _ _
    have hmid := sorted_getD (l := l) (i := (l.length - 1) / 2) (j := l.length / 2) (by omega) (by omega)
    have hmem : ∀ i < l.length, (l.insertionSort (· ≤ ·)).getD i 0 ∈ l := by
      intro i hi
      rw [List.getD_eq_getElem _ _ (by omega)]
      exact (List.mem_insertionSort (· ≤ ·)).1 (List.getElem_mem _)
    have hvar : mean (l.map fun r => (r - mean l) ^ 2) * l.length = (l.map fun x => (x - mean l) ^ 2).sum := by
      rw [mean, List.length_map, div_mul_cancel₀ _ hnR.ne']
    have hvar0 : 0 ≤ mean (l.map fun r => (r - mean l) ^ 2) := by
      rw [mean]
      exact div_nonneg (sum_sq_zero (mean l) l).1 (by positivity)
    have hstd2 : std l ^ 2 = mean (l.map fun r => (r - mean l) ^ 2) := Real.sq_sqrt hvar0
    refine ⟨listMin_mem hl, listMax_mem hl, hrange, ?_, mean_between hl hrange, ?_, ?_, ?_,
      Real.sqrt_nonneg _, ?_, ?_⟩
    · simp only [mean]; rw [div_mul_cancel₀ _ hnR.ne']
    · rw [← (List.perm_insertionSort (· ≤ ·) l).countP_eq]
      have := countP_take_le (s := l.insertionSort (· ≤ ·)) (p := fun x => x ≤ median l)
        (k := (l.length - 1) / 2 + 1) (by omega) (by
          intro i hi
          have := sorted_getD (l := l) (i := i) (j := (l.length - 1) / 2) (by omega) (by omega)
          rw [decide_eq_true_iff, hmed]
          linarith)
      simp only at this ⊢
      omega
    · rw [← (List.perm_insertionSort (· ≤ ·) l).countP_eq]
      have := countP_drop_le (s := l.insertionSort (· ≤ ·)) (p := fun x => median l ≤ x)
        (k := l.length / 2) (by omega) (by
          intro i hi hi2
          have := sorted_getD (l := l) (i := l.length / 2) (j := i) (by omega) (by omega)
          rw [decide_eq_true_iff, hmed]
          linarith)
      simp only at this ⊢
      omega
    · have h1 := hrange _ (hmem ((l.length - 1) / 2) (by omega))
      have h2 := hrange _ (hmem (l.length / 2) (by omega))
      simp only
      rw [hmed]
      constructor <;> linarith [h1.1, h1.2, h2.1, h2.2]
    · simp only
      rw [hstd2, hvar]
    · simp only
      rw [← (sum_sq_zero (mean l) l).2, ← hvar, ← hstd2]
      constructor
      · intro h; rw [h]; ring
      · intro h
        have : std l ^ 2 = 0 := by
          rcases mul_eq_zero.1 h with h | h
          · exact h
          · exact absurd h hnR.ne'
        exact pow_eq_zero_iff two_ne_zero |>.1 this
  · intro h
    exact ⟨_, by rw [summarise, if_neg h]⟩

/-- Non-vacuity and a sanity check of the median with an even number of values. -/
example : median [4, 1, 3, 2] = 5 / 2 := by
  norm_num [median, List.insertionSort, List.orderedInsert]

/-- The statistics of equal values. -/
theorem summary_const {l : List ℝ} {s : Summary} {v : ℝ} (h : Spec.IsSummary l s)
    (hv : ∀ x ∈ l, x = v) : s.mean = v ∧ s.std = 0 ∧ s.min = v ∧ s.max = v ∧ s.median = v := by
  have h1 := hv _ h.minMem
  have h2 := hv _ h.maxMem
  have hm : s.mean = v := le_antisymm (h2 ▸ h.meanRange.2) (h1 ▸ h.meanRange.1)
  exact ⟨hm, h.stdZero.2 (fun x hx => (hv x hx).trans hm.symm), h1, h2,
    le_antisymm (h2 ▸ h.medianRange.2) (h1 ▸ h.medianRange.1)⟩

/-! ## The runs -/

namespace World

theorem warm_shape {w : World Q} {o : ℕ} {x0 : Obj Q} {cfg : Cfg} {rows : ℕ → ℕ} {S : Schedule}
    (h : Warm w o x0 S) (hs : cfg.enableDemo = true → broadcastable (rows o) cfg.Hsample) :
    ¬ shapeError rows w o cfg := by
  rintro ⟨hd, -, hb⟩
  apply hb
  rcases hr : w.rev with _ | r
  · simpa using hs hd
  · simpa [(h.rev r hr).2.1] using hs hd

/-- In a warm process `n` timed runs succeed iff no run takes no time at all; all results are the
isolated one and run `i` has its own block of clock readings. -/
theorem timedRuns_warm {o : ℕ} {x0 : Obj Q} {cfg : Cfg} {rows : ℕ → ℕ} (clock : ℕ → ℝ)
    (normal : Key → ℕ → ℕ → ℕ → ℕ → U)
    (hs : cfg.enableDemo = true → broadcastable (rows o) cfg.Hsample) (n : ℕ) : ∀ (t : ℕ) (w : World Q),
    Warm w o x0 (mkSchedule cfg.beta0 cfg.betaT cfg.Ndiffuse) →
    ((∃ x, timedRuns rows clock o normal cfg n t w = .ok x) ↔
      ∀ i < n, timingPercent (timingReport (fun k => clock (t + i * readings cfg + k)) cfg.enableDemo) ≠ none) ∧
    ∀ x, timedRuns rows clock o normal cfg n t w = .ok x →
      Warm x.1 o x0 (mkSchedule cfg.beta0 cfg.betaT cfg.Ndiffuse) ∧
      x.2 = (List.range n).map fun i => (runDiffusion (withDemo x0 cfg).view normal cfg,
        timingReport (fun k => clock (t + i * readings cfg + k)) cfg.enableDemo) := by
  induction n with
  | zero =>
    intro t w h
    refine ⟨by simp [timedRuns], fun x hx => ?_⟩
    simp only [timedRuns, Except.ok.injEq] at hx
    subst hx
    exact ⟨h, rfl⟩
  | succ n ih =>
    intro t w h
    obtain ⟨hres, hw'⟩ := run_warm normal cfg h
    obtain ⟨ih1, ih2⟩ := ih (t + readings cfg) _ hw'
    have hsh := warm_shape (rows := rows) h hs
    have hidx : ∀ i k, t + readings cfg + i * readings cfg + k = t + (i + 1) * readings cfg + k := by
      intro i k; ring
    simp only [hidx] at ih1 ih2
    rcases htp : timingPercent (timingReport (fun k => clock (t + k)) cfg.enableDemo) with _ | p
    · have e : timedRuns rows clock o normal cfg (n + 1) t w = .error .zeroDivision := by
        simp only [timedRuns, timedRun, if_neg hsh, htp]
      rw [e]
      refine ⟨⟨by rintro ⟨x, hx⟩; simp at hx, fun hh => ?_⟩, fun x hx => by simp at hx⟩
      exact absurd (by simpa using htp) (hh 0 (by omega))
    · rcases hr : timedRuns rows clock o normal cfg n (t + readings cfg) (w.run o normal cfg).1 with e | y
      · have e1 : timedRuns rows clock o normal cfg (n + 1) t w = .error e := by
          simp only [timedRuns, timedRun, if_neg hsh, htp, hr]
        rw [e1]
        refine ⟨⟨by rintro ⟨x, hx⟩; simp at hx, fun hh => ?_⟩, fun x hx => by simp at hx⟩
        have := ih1.2 fun i hi => hh (i + 1) (by omega)
        rw [hr] at this
        simp at this
      · have e1 : timedRuns rows clock o normal cfg (n + 1) t w =
            .ok (y.1, ((w.run o normal cfg).2, timingReport (fun k => clock (t + k)) cfg.enableDemo) :: y.2) := by
          simp only [timedRuns, timedRun, if_neg hsh, htp, hr]
        rw [e1]
        refine ⟨⟨fun _ i hi => ?_, fun _ => ⟨_, rfl⟩⟩, fun x hx => ?_⟩
        · rcases i with _ | i
          · simp [htp]
          · exact ih1.1 ⟨y, hr⟩ i (by omega)
        · injection hx with hx
          obtain ⟨a, b⟩ := ih2 y hr
          subst hx
          refine ⟨a, ?_⟩
          rw [List.range_succ_eq_map, List.map_cons, List.map_map]
          simp only [b, hres, Nat.zero_mul, Nat.add_zero]
          rfl

end World

/-- The timing dictionary of run number `i` of a benchmark that starts at reading 0. -/
noncomputable def _root_.Spec.runTiming (clock : ℕ → ℝ) (demo : Bool) (i : ℕ) : Timing :=
  timingReport (fun k => clock (i * (if demo then 16 else 14) + k)) demo

/-- What the benchmark computes in a process whose caches are empty, for a robot not used before. -/
theorem World.benchmark_warm {o : ℕ} {x0 : Obj Q} {cfg : Cfg} {rows : ℕ → ℕ} (clock : ℕ → ℝ)
    (normal : Key → ℕ → ℕ → ℕ → ℕ → U)
    (hs : cfg.enableDemo = true → broadcastable (rows o) cfg.Hsample) (num warm : ℕ) (w : World Q)
    (h : World.Warm w o x0 (mkSchedule cfg.beta0 cfg.betaT cfg.Ndiffuse)) :
    ((∃ x, World.benchmark rows clock w o normal cfg num warm = .ok x) ↔
      num ≠ 0 ∧ ∀ i < warm + num, timingPercent (Spec.runTiming clock cfg.enableDemo i) ≠ none) ∧
    ∀ x, World.benchmark rows clock w o normal cfg num warm = .ok x →
      World.Warm x.1 o x0 (mkSchedule cfg.beta0 cfg.betaT cfg.Ndiffuse) ∧
      x.2.numTrials = num ∧
      x.2.allRewards = List.replicate num (runDiffusion (World.withDemo x0 cfg).view normal cfg).rew ∧
      x.2.allTiming = (List.range num).map (fun i => Spec.runTiming clock cfg.enableDemo (warm + i)) ∧
      Spec.IsSummary x.2.allRewards x.2.rewards ∧
      Spec.IsSummary (x.2.allTiming.map Timing.pureDiffusion) x.2.pureDiffusion ∧
      Spec.IsSummary (x.2.allTiming.map Timing.total) x.2.total ∧
      Spec.IsSummary (x.2.allTiming.map Timing.overhead) x.2.overhead ∧
      Spec.IsSummary (x.2.allTiming.map Timing.compilation) x.2.compilation := by
  have hR : readings cfg = if cfg.enableDemo then 16 else 14 := rfl
  have hrt : ∀ i, timingReport (fun k => clock (0 + i * readings cfg + k)) cfg.enableDemo =
      Spec.runTiming clock cfg.enableDemo i := by
    intro i; simp only [Spec.runTiming, hR, Nat.zero_add]
  have hrt2 : ∀ i, timingReport (fun k => clock (warm * readings cfg + i * readings cfg + k)) cfg.enableDemo =
      Spec.runTiming clock cfg.enableDemo (warm + i) := by
    intro i; simp only [Spec.runTiming, ← hR, Nat.add_mul]
  obtain ⟨a1, a2⟩ := World.timedRuns_warm clock normal hs warm 0 w h
  simp only [hrt] at a1 a2
  rcases hr1 : World.timedRuns rows clock o normal cfg warm 0 w with e | ⟨w1, l1⟩
  · have hb : World.benchmark rows clock w o normal cfg num warm = .error e := by
      simp only [World.benchmark, hr1]; rfl
    rw [hb]
    refine ⟨⟨by rintro ⟨x, hx⟩; simp at hx, fun hh => ?_⟩, fun x hx => by simp at hx⟩
    have := a1.2 fun i hi => hh.2 i (by omega)
    rw [hr1] at this
    simp at this
  · obtain ⟨hw1, -⟩ := a2 _ hr1
    have a1' := a1.1 ⟨_, hr1⟩
    obtain ⟨b1, b2⟩ := World.timedRuns_warm clock normal hs num (warm * readings cfg) w1 hw1
    simp only [hrt2] at b1 b2
    rcases hr2 : World.timedRuns rows clock o normal cfg num (warm * readings cfg) w1 with e | ⟨w2, l⟩
    · have hb : World.benchmark rows clock w o normal cfg num warm = .error e := by
        simp only [World.benchmark, hr1, bind, Except.bind, hr2]
      rw [hb]
      refine ⟨⟨by rintro ⟨x, hx⟩; simp at hx, fun hh => ?_⟩, fun x hx => by simp at hx⟩
      have := b1.2 fun i hi => hh.2 (warm + i) (by omega)
      rw [hr2] at this
      simp at this
    · obtain ⟨hw2, hl⟩ := b2 _ hr2
      have b1' := b1.1 ⟨_, hr2⟩
      simp only at hl hw2
      by_cases hnum : num = 0
      · have hb : World.benchmark rows clock w o normal cfg num warm = .error .valueError := by
          subst hnum
          simp only [World.benchmark, hr1, bind, Except.bind, hr2, hl, List.range_zero, List.map_nil,
            summarise, if_true]
        rw [hb]
        refine ⟨⟨by rintro ⟨x, hx⟩; simp at hx, fun hh => absurd hnum hh.1⟩, fun x hx => by simp at hx⟩
      · have hlne : l ≠ [] := by
          rw [hl]; simpa using hnum
        have hsum : ∀ f : Result Q × Timing → ℝ, ∃ s, summarise (l.map f) = .ok s ∧ Spec.IsSummary (l.map f) s := by
          intro f
          obtain ⟨s, hs⟩ := (C65_summary (l.map f)).2.2 (by simpa using hlne)
          exact ⟨s, hs, (C65_summary _).2.1 s hs⟩
        obtain ⟨s1, h1, i1⟩ := hsum fun x => x.2.pureDiffusion
        obtain ⟨s2, h2, i2⟩ := hsum fun x => x.2.total
        obtain ⟨s3, h3, i3⟩ := hsum fun x => x.2.overhead
        obtain ⟨s4, h4, i4⟩ := hsum fun x => x.2.compilation
        obtain ⟨s5, h5, i5⟩ := hsum fun x => x.1.rew
        have hb : World.benchmark rows clock w o normal cfg num warm =
            .ok (w2, ⟨num, s1, s2, s3, s4, s5, l.map Prod.snd, l.map fun x => x.1.rew⟩) := by
          simp only [World.benchmark, hr1, bind, Except.bind, hr2, h1, h2, h3, h4, h5]
          rfl
        rw [hb]
        refine ⟨⟨fun _ => ⟨hnum, fun i hi => ?_⟩, fun _ => ⟨_, rfl⟩⟩, fun x hx => ?_⟩
        · rcases Nat.lt_or_ge i warm with h | h
          · exact a1' i h
          · have := b1' (i - warm) (by omega)
            rwa [show warm + (i - warm) = i by omega] at this
        · injection hx with hx
          subst hx
          have hcomp : ∀ f : Timing → ℝ, (l.map fun x => f x.2) = (l.map Prod.snd).map f := by
            intro f; rw [List.map_map]; rfl
          refine ⟨hw2, rfl, ?_, ?_, i5, ?_, ?_, ?_, ?_⟩
          · simp only [hl, List.map_map]
            rw [List.eq_replicate_iff]
            simp
          · simp only [hl, List.map_map]; rfl
          · simp only; rw [← hcomp]; exact i1
          · simp only; rw [← hcomp]; exact i2
          · simp only; rw [← hcomp]; exact i3
          · simp only; rw [← hcomp]; exact i4

/-- A robot that the program has not used yet, after `clear_jit_cache`. -/
theorem World.cleared_warm (heap : ℕ → Obj Q) (o : ℕ) (before : List (Op Q))
    (hb : ∀ op ∈ before, Op.NotUsing o op) (S : Schedule) :
    World.Warm ((World.init heap).history before).clear o (((World.init heap).history before).heap o) S :=
  World.clear_warm (World.history_wf before (World.init_wf heap))
    (World.history_unused before (World.init_unused heap o) hb).clean S

/-- **C65 (rewards).** Benchmark a robot that has not been planned for yet, after `clear_jit_cache` and any
history of the process. Whatever the number of trials and warm-ups and the clock: every reported reward is
the reward of planning this robot alone in a new process; so the reported mean, minimum, maximum and median
are that reward and the reported deviation is 0. -/
theorem C65_rewards (heap : ℕ → Obj Q) (o : ℕ) (before : List (Op Q)) (hb : ∀ op ∈ before, Op.NotUsing o op)
    (cfg : Cfg) (rows : ℕ → ℕ) (hs : cfg.enableDemo = true → broadcastable (rows o) cfg.Hsample)
    (clock : ℕ → ℝ) (normal : Key → ℕ → ℕ → ℕ → ℕ → U) (num warm : ℕ) (w' : World Q) (r : BenchReport)
    (h : World.benchmark rows clock ((World.init heap).history before).clear o normal cfg num warm =
      .ok (w', r)) :
    let v := ((World.init ((World.init heap).history before).heap).run o normal cfg).2.rew
    r.numTrials = num ∧ r.allRewards = List.replicate num v ∧
    r.rewards.mean = v ∧ r.rewards.std = 0 ∧ r.rewards.min = v ∧ r.rewards.max = v ∧ r.rewards.median = v := by
  obtain ⟨-, h2⟩ := World.benchmark_warm clock normal hs num warm _ (World.cleared_warm heap o before hb
    (mkSchedule cfg.beta0 cfg.betaT cfg.Ndiffuse))
  obtain ⟨-, e1, e2, -, e3, -⟩ := h2 _ h
  have hfresh : ((World.init ((World.init heap).history before).heap).run o normal cfg).2 =
      runDiffusion (World.withDemo (((World.init heap).history before).heap o) cfg).view normal cfg :=
    World.run_fresh (World.init_wf _) rfl rfl (World.init_unused _ o).clean normal cfg
  simp only
  rw [hfresh]
  refine ⟨e1, e2, summary_const e3 ?_⟩
  intro x hx
  rw [e2] at hx
  exact List.eq_of_mem_replicate hx

/-- **C65 (when it completes).** In the same situation the benchmark returns a report exactly when at least
one trial is requested and no run, warm-ups included, takes exactly no time. -/
theorem C65_completes (heap : ℕ → Obj Q) (o : ℕ) (before : List (Op Q)) (hb : ∀ op ∈ before, Op.NotUsing o op)
    (cfg : Cfg) (rows : ℕ → ℕ) (hs : cfg.enableDemo = true → broadcastable (rows o) cfg.Hsample)
    (clock : ℕ → ℝ) (normal : Key → ℕ → ℕ → ℕ → ℕ → U) (num warm : ℕ) :
    let R := if cfg.enableDemo then 16 else 14
    (∃ x, World.benchmark rows clock ((World.init heap).history before).clear o normal cfg num warm = .ok x) ↔
      num ≠ 0 ∧ ∀ i < warm + num, clock (i * R + (R - 1)) ≠ clock (i * R) := by
  intro R
  rw [(World.benchmark_warm clock normal hs num warm _ (World.cleared_warm heap o before hb
    (mkSchedule cfg.beta0 cfg.betaT cfg.Ndiffuse))).1]
  have ht : ∀ i, timingPercent (Spec.runTiming clock cfg.enableDemo i) ≠ none ↔
      clock (i * R + (R - 1)) ≠ clock (i * R) := by
    intro i
    have : (Spec.runTiming clock cfg.enableDemo i).total = clock (i * R + (R - 1)) - clock (i * R) := by
      cases hd : cfg.enableDemo <;> simp [Spec.runTiming, timingReport, R, hd]
    rw [timingPercent]
    split_ifs with h0
    · rw [this, sub_eq_zero] at h0; simp [h0]
    · rw [this, sub_eq_zero] at h0; simp [h0]
  simp only [ht]

/-- **C65 (times).** With a clock that never goes back: the reported times belong to the counted trials
only, in order, each measured over its own readings after those of the warm-ups; every statistic is
non-negative; mean overhead plus mean pure diffusion time is the mean total; mean compilation does not exceed
mean overhead; and the counted trials together do not take longer than the time between the first reading
after the warm-ups and the last reading. -/
theorem C65_times (heap : ℕ → Obj Q) (o : ℕ) (before : List (Op Q)) (hb : ∀ op ∈ before, Op.NotUsing o op)
    (cfg : Cfg) (rows : ℕ → ℕ) (hs : cfg.enableDemo = true → broadcastable (rows o) cfg.Hsample)
    (clock : ℕ → ℝ) (hc : Monotone clock) (normal : Key → ℕ → ℕ → ℕ → ℕ → U) (num warm : ℕ) (w' : World Q)
    (r : BenchReport)
    (h : World.benchmark rows clock ((World.init heap).history before).clear o normal cfg num warm =
      .ok (w', r)) :
    let R := if cfg.enableDemo then 16 else 14
    (r.allTiming = (List.range num).map fun i =>
      timingReport (fun k => clock ((warm + i) * R + k)) cfg.enableDemo) ∧
    (∀ s ∈ [r.pureDiffusion, r.total, r.overhead, r.compilation],
      0 ≤ s.min ∧ 0 ≤ s.mean ∧ 0 ≤ s.median ∧ 0 ≤ s.max ∧ 0 ≤ s.std) ∧
    r.overhead.mean + r.pureDiffusion.mean = r.total.mean ∧
    r.compilation.mean ≤ r.overhead.mean ∧
    (r.allTiming.map Timing.total).sum ≤ clock ((warm + num) * R - 1) - clock (warm * R) := by
  intro R
  obtain ⟨hok, h2⟩ := World.benchmark_warm clock normal hs num warm _ (World.cleared_warm heap o before hb
    (mkSchedule cfg.beta0 cfg.betaT cfg.Ndiffuse))
  obtain ⟨hnum, -⟩ := hok.1 ⟨_, h⟩
  obtain ⟨-, e1, -, e2, -, s1, s2, s3, s4⟩ := h2 _ h
  simp only at e1 e2 s1 s2 s3 s4
  have hRpos : 14 ≤ R := by simp only [R]; split <;> omega
  have hmono : ∀ i, Monotone fun k => clock (i * R + k) := fun i a b hab => hc (by omega)
  have hnn : ∀ t ∈ r.allTiming, 0 ≤ t.total ∧ 0 ≤ t.pureDiffusion ∧ 0 ≤ t.overhead ∧ 0 ≤ t.compilation ∧
      t.overhead + t.pureDiffusion = t.total ∧ t.compilation ≤ t.overhead := by
    intro t ht
    rw [e2, List.mem_map] at ht
    obtain ⟨i, -, rfl⟩ := ht
    obtain ⟨a1, a2, a3, -, -, -, a4, a5, a6, a7⟩ := C56_nonneg _ (hmono (warm + i)) cfg.enableDemo
    obtain ⟨-, b2⟩ := C56_parts_le_total _ (hmono (warm + i)) cfg.enableDemo
    obtain ⟨c1, -⟩ := C56_identities (fun k => clock ((warm + i) * R + k)) cfg.enableDemo
    have b3 : (timingReport (fun k => clock ((warm + i) * R + k)) cfg.enableDemo).compilation ≤
        (timingReport (fun k => clock ((warm + i) * R + k)) cfg.enableDemo).overhead := by linarith
    exact ⟨a1, a5, a7, a3, c1, b3⟩
  have hlen : r.allTiming.length = num := by rw [e2]; simp
  have hnR : (0 : ℝ) < num := by exact_mod_cast Nat.pos_of_ne_zero hnum
  have nonneg : ∀ {f : Timing → ℝ} {s : Summary}, Spec.IsSummary (r.allTiming.map f) s →
      (∀ t ∈ r.allTiming, 0 ≤ f t) → 0 ≤ s.min ∧ 0 ≤ s.mean ∧ 0 ≤ s.median ∧ 0 ≤ s.max ∧ 0 ≤ s.std := by
    intro f s hi hf
    obtain ⟨t, ht, htm⟩ := List.mem_map.1 hi.minMem
    have h0 : 0 ≤ s.min := htm ▸ hf t ht
    exact ⟨h0, h0.trans hi.meanRange.1, h0.trans hi.medianRange.1,
      h0.trans (hi.meanRange.1.trans hi.meanRange.2), hi.std⟩
  have hmean : ∀ {f : Timing → ℝ} {s : Summary}, Spec.IsSummary (r.allTiming.map f) s →
      s.mean * num = (r.allTiming.map f).sum := by
    intro f s hi
    have := hi.mean
    rwa [List.length_map, hlen] at this
  refine ⟨e2, ?_, ?_, ?_, ?_⟩
  · simp only [List.mem_cons, List.not_mem_nil, or_false, forall_eq_or_imp, forall_eq]
    exact ⟨nonneg s1 fun t ht => (hnn t ht).2.1, nonneg s2 fun t ht => (hnn t ht).1,
      nonneg s3 fun t ht => (hnn t ht).2.2.1, nonneg s4 fun t ht => (hnn t ht).2.2.2.1⟩
  · have key : ∀ l : List Timing, (∀ t ∈ l, t.overhead + t.pureDiffusion = t.total) →
        (l.map Timing.overhead).sum + (l.map Timing.pureDiffusion).sum = (l.map Timing.total).sum := by
      intro l
      induction l with
      | nil => intro _; simp
      | cons a l ih =>
        intro hh
        have := ih fun t ht => hh t (by simp [ht])
        have := hh a (by simp)
        simp only [List.map_cons, List.sum_cons]
        linarith
    have := key r.allTiming fun t ht => (hnn t ht).2.2.2.2.1
    rw [← hmean s1, ← hmean s2, ← hmean s3, ← add_mul] at this
    exact mul_right_cancel₀ hnR.ne' this
  · have key : ∀ l : List Timing, (∀ t ∈ l, t.compilation ≤ t.overhead) →
        (l.map Timing.compilation).sum ≤ (l.map Timing.overhead).sum := by
      intro l
      induction l with
      | nil => intro _; simp
      | cons a l ih =>
        intro hh
        have := ih fun t ht => hh t (by simp [ht])
        have := hh a (by simp)
        simp only [List.map_cons, List.sum_cons]
        linarith
    have := key r.allTiming fun t ht => (hnn t ht).2.2.2.2.2
    rw [← hmean s3, ← hmean s4] at this
    exact le_of_mul_le_mul_right this hnR
  · have htot : ∀ i, (Spec.runTiming clock cfg.enableDemo i).total = clock (i * R + (R - 1)) - clock (i * R) := by
      intro i
      cases hd : cfg.enableDemo <;> simp [Spec.runTiming, timingReport, R, hd]
    have key : ∀ n, ((List.range (n + 1)).map fun i => clock ((warm + i) * R + (R - 1)) - clock ((warm + i) * R)).sum ≤
        clock ((warm + (n + 1)) * R - 1) - clock (warm * R) := by
      intro n
      induction n with
      | zero =>
        simp only [zero_add, List.range_one, List.map_cons, List.map_nil, List.sum_singleton, Nat.add_zero]
        rw [show (warm + 1) * R - 1 = warm * R + (R - 1) by rw [add_mul, one_mul]; omega]
      | succ n ih =>
        rw [List.range_succ, List.map_append, List.sum_append]
        simp only [List.map_cons, List.map_nil, List.sum_singleton]
        have e : (warm + (n + 1 + 1)) * R - 1 = (warm + (n + 1)) * R + (R - 1) := by
          rw [show warm + (n + 1 + 1) = (warm + (n + 1)) + 1 by ring, add_mul _ 1, one_mul]; omega
        rw [e]
        have := hc (show (warm + (n + 1)) * R - 1 ≤ (warm + (n + 1)) * R by omega)
        linarith
    obtain ⟨m, rfl⟩ : ∃ m, num = m + 1 := ⟨num - 1, by omega⟩
    have := key m
    rw [e2, List.map_map]
    simpa only [Function.comp_def, htot] using this

/-! ## The parking benchmark -/

/-- Number of rows of a robot's demonstration (0 if the generator raises). -/
noncomputable def _root_.Spec.referenceRows (T : TT2d) (pref : ℤ) : ℕ :=
  match T.demo pref with
  | .ok rows => rows.length
  | .error _ => 0

theorem referenceRows_eq (T : TT2d) (pref : ℤ) (hH : 4 ≤ T.H) : Spec.referenceRows T pref = T.H := by
  obtain ⟨rows, path, h1, -, h3⟩ := C48_tt2d T pref hH
  rw [Spec.referenceRows, h1]
  exact h3.length

theorem parkingPlan (s : ℕ × ℕ × ℕ) : (Config.plan (parkingConfig s)).enableDemo = true ∧
    (Config.plan (parkingConfig s)).enableGuidance = false ∧
    (Config.plan (parkingConfig s)).Hsample = s.2.1 ∧ (Config.plan (parkingConfig s)).Nsample = s.1 ∧
    (Config.plan (parkingConfig s)).Ndiffuse = s.2.2 := by
  simp [Config.plan, parkingConfig, Val.flag, Val.int', dataclassDefault]

theorem parkingRobot_H (circles : List Circle) (rects : List Rect) (x0 xg : Q4) (s : ℕ × ℕ × ℕ) :
    (parkingRobot circles rects x0 xg s).H = s.2.1 := by
  simp [parkingRobot, attrParams, robotAttr, forwardedKeywords, commonKeywords, getEnvArg, benchCall,
    parkingConfig, Val.int']

/-- The robots of the benchmark as objects: number `i` belongs to configuration `i`. -/
noncomputable def _root_.Spec.parkingRobots (circles : List Circle) (rects : List Rect) (x0 xg : Q4)
    (i : ℕ) : TT2d :=
  parkingRobot circles rects x0 xg (parkingSizes.getD i (0, 0, 0))

/-- A process that benchmarked some robot captures it: the next benchmark on a robot with another horizon
has to trace the captured robot's reference with the new horizon. -/
theorem World.run_rev {w : World Q} (hr : w.rev = none) (o : ℕ) (normal : Key → ℕ → ℕ → ℕ → ℕ → U) (cfg : Cfg)
    (hg : cfg.enableGuidance = false) : ∃ r, (w.run o normal cfg).1.rev = some r ∧ r.env = o ∧
      ∀ k, k ≠ World.revKey cfg → r.traces k = none := by
  refine ⟨_, by simp only [World.run, hg, hr, Option.getD_none, Bool.false_eq_true, if_false]; rfl, rfl, ?_⟩
  intro k hk
  simp only
  rw [Function.update_of_ne hk]

theorem World.run_rev_keep {w : World Q} {o : ℕ} {cfg : Cfg} (hg : cfg.enableGuidance = false)
    (h : ∃ r, w.rev = some r ∧ r.env = o ∧ ∀ k, k ≠ World.revKey cfg → r.traces k = none) (p : ℕ)
    (normal : Key → ℕ → ℕ → ℕ → ℕ → U) : ∃ r, (w.run p normal cfg).1.rev = some r ∧ r.env = o ∧
      ∀ k, k ≠ World.revKey cfg → r.traces k = none := by
  obtain ⟨r, h1, h2, h3⟩ := h
  have e : ∃ at', (w.run p normal cfg).1.rev = some (⟨r.sched, r.env, r.handle,
      Function.update r.traces (World.revKey cfg) at'⟩ : Rev Q) := by
    simp only [World.run, hg, h1, Option.getD_some, Bool.false_eq_true, if_false]
    exact ⟨_, rfl⟩
  obtain ⟨at', e⟩ := e
  refine ⟨_, e, h2, ?_⟩
  intro k hk
  simp only
  rw [Function.update_of_ne hk, h3 k hk]

theorem World.timedRuns_rev {o : ℕ} {cfg : Cfg} (hg : cfg.enableGuidance = false) {rows : ℕ → ℕ} (clock : ℕ → ℝ)
    (normal : Key → ℕ → ℕ → ℕ → ℕ → U) (n : ℕ) : ∀ (t : ℕ) (w : World Q) x,
    World.timedRuns rows clock o normal cfg n t w = .ok x →
    ((∃ r, w.rev = some r ∧ r.env = o ∧ ∀ k, k ≠ World.revKey cfg → r.traces k = none) →
      ∃ r, x.1.rev = some r ∧ r.env = o ∧ ∀ k, k ≠ World.revKey cfg → r.traces k = none) ∧
    (w.rev = none → n ≠ 0 →
      ∃ r, x.1.rev = some r ∧ r.env = o ∧ ∀ k, k ≠ World.revKey cfg → r.traces k = none) ∧
    (w.rev = none → n = 0 → x.1.rev = none) := by
  induction n with
  | zero =>
    intro t w x hx
    simp only [World.timedRuns, Except.ok.injEq] at hx
    subst hx
    exact ⟨fun h => h, fun _ h => absurd rfl h, fun h _ => h⟩
  | succ n ih =>
    intro t w x hx
    simp only [World.timedRuns] at hx
    split at hx
    · simp at hx
    next w' r tm h1 =>
      simp only [World.timedRun] at h1
      split_ifs at h1
      split at h1
      · simp at h1
      simp only [Except.ok.injEq, Prod.mk.injEq] at h1
      obtain ⟨rfl, -, -⟩ := h1
      split at hx
      · simp at hx
      next w'' l h2 =>
        simp only [Except.ok.injEq] at hx
        subst hx
        obtain ⟨i1, -, -⟩ := ih _ _ _ h2
        refine ⟨fun h => i1 (World.run_rev_keep hg h o normal), fun h _ => i1 (World.run_rev h o normal cfg hg),
          fun _ h => by omega⟩

theorem World.benchmark_rev {o : ℕ} {cfg : Cfg} (hg : cfg.enableGuidance = false) {rows : ℕ → ℕ} (clock : ℕ → ℝ)
    (normal : Key → ℕ → ℕ → ℕ → ℕ → U) (num warm : ℕ) (w : World Q) (hr : w.rev = none) x
    (h : World.benchmark rows clock w o normal cfg num warm = .ok x) (hn : num ≠ 0) :
    ∃ r, x.1.rev = some r ∧ r.env = o ∧ ∀ k, k ≠ World.revKey cfg → r.traces k = none := by
  simp only [World.benchmark, bind, Except.bind] at h
  split at h
  · simp at h
  next y1 h1 =>
    split at h
    · simp at h
    next y2 h2 =>
      obtain ⟨-, a1, a2⟩ := World.timedRuns_rev hg clock normal warm _ _ _ h1
      obtain ⟨b1, b2, -⟩ := World.timedRuns_rev hg clock normal num _ _ _ h2
      have hx : x.1 = y2.1 := by
        repeat' split at h
        all_goals first
          | (exfalso; simp at h; done)
          | (simp only [pure, Except.pure, Except.ok.injEq] at h; rw [← h])
      rw [hx]
      by_cases hw : warm = 0
      · exact b2 (a2 hr hw) hn
      · exact b1 (a1 hr hw)

/-- **C65 refuted for the parking benchmark.** Whatever the map, start, goal, noise and (advancing) clock:
the first configuration is benchmarked, the second one raises, because the planner functions cached by
the first one still use its robot, whose reference has 30 rows, while the second horizon is 40. -/
theorem C65_parking_refuted (circles : List Circle) (rects : List Rect) (x0 xg : Q4) (ext : Ext Q4)
    (normal : Key → ℕ → ℕ → ℕ → ℕ → U) (clock : ℕ → ℕ → ℝ) (hc : ∀ i, StrictMono (clock i)) :
    let T := Spec.parkingRobots circles rects x0 xg
    let rows := fun i => Spec.referenceRows (T i) (-1)
    (∃ rep, World.parking rows clock normal 0 (parkingSizes.take 1) (World.init fun i => (T i).obj ext) =
      .ok [rep]) ∧
    World.parking rows clock normal 0 parkingSizes (World.init fun i => (T i).obj ext) = .error .shape := by
  intro T rows
  have hrow0 : rows 0 = 30 := by
    simp only [rows, T]
    rw [referenceRows_eq _ _ (by rw [Spec.parkingRobots, parkingRobot_H]; simp [parkingSizes])]
    rw [Spec.parkingRobots, parkingRobot_H]; simp [parkingSizes]
  have hstart : World.init (fun i => (T i).obj ext) =
      ((World.init fun i => (T i).obj ext).history []).clear := rfl
  obtain ⟨d1, d2, d3, -, -⟩ := parkingPlan (5000, 30, 100)
  obtain ⟨q1, q2, q3, -, -⟩ := parkingPlan (10000, 40, 120)
  have hfirst : ∃ x, World.benchmark rows (clock 0) (World.init fun i => (T i).obj ext) 0 normal
      (Config.plan (parkingConfig (5000, 30, 100))) 3 1 = .ok x := by
    rw [hstart]
    refine (C65_completes (fun i => (T i).obj ext) 0 [] (by simp) _ rows
      (fun _ => by rw [hrow0, d3]; exact Or.inl rfl) (clock 0) normal 3 1).2 ⟨by norm_num, fun i _ => ne_of_gt ((hc 0) ?_)⟩
    rw [d1]; simp
  obtain ⟨⟨w1, r1⟩, hx⟩ := hfirst
  constructor
  · refine ⟨r1, ?_⟩
    simp only [parkingSizes, List.take_succ_cons, List.take_zero, World.parking, hx]
  · obtain ⟨r, hr, henv, htr⟩ := World.benchmark_rev d2 (clock 0) normal 3 1 _ rfl _ hx (by norm_num)
    have hkey : World.revKey (Config.plan (parkingConfig (10000, 40, 120))) ≠
        World.revKey (Config.plan (parkingConfig (5000, 30, 100))) := by
      intro h
      have := congrArg (fun k => k.2.2.2.2) h
      simp only [World.revKey, d3, q3] at this
      norm_num at this
    have hse : World.shapeError rows w1 1 (Config.plan (parkingConfig (10000, 40, 120))) := by
      refine ⟨q1, ?_, ?_⟩
      · simp only at hr
        rw [hr, Option.bind_some, htr _ hkey]
      · simp only at hr
        rw [hr, Option.map_some, Option.getD_some, henv, hrow0, q3]
        norm_num [broadcastable]
    have hb : World.benchmark rows (clock 1) w1 1 normal (Config.plan (parkingConfig (10000, 40, 120))) 3 1 =
        .error .shape := by
      simp only [World.benchmark, bind, Except.bind, World.timedRuns, World.timedRun, if_pos hse]
    simp only [parkingSizes, World.parking, hx, hb]

/-- **C65 (what clearing would give).** With `clear_jit_cache()` before each configuration the second and
third benchmark complete as well, whatever ran before on other robots. -/
theorem C65_parking_cleared (circles : List Circle) (rects : List Rect) (x0 xg : Q4) (ext : Ext Q4)
    (normal : Key → ℕ → ℕ → ℕ → ℕ → U) (clock : ℕ → ℝ) (hc : StrictMono clock) (i : ℕ) (hi : i < 3)
    (before : List (Op Q4)) (hb : ∀ op ∈ before, Op.NotUsing i op) :
    let T := Spec.parkingRobots circles rects x0 xg
    ∃ x, World.benchmark (fun i => Spec.referenceRows (T i) (-1)) clock
      ((World.init fun i => (T i).obj ext).history before).clear i normal
      (Config.plan (parkingConfig (parkingSizes.getD i (0, 0, 0)))) 3 1 = .ok x := by
  intro T
  obtain ⟨d1, d2, d3, -, -⟩ := parkingPlan (parkingSizes.getD i (0, 0, 0))
  have hH : 4 ≤ (T i).H := by
    simp only [T, Spec.parkingRobots, parkingRobot_H]
    rcases i with _ | _ | _ | i <;> simp [parkingSizes]
    omega
  refine (C65_completes (fun i => (T i).obj ext) i before hb _ _ (fun _ => by
    rw [referenceRows_eq _ _ hH, d3]
    simp only [T, Spec.parkingRobots, parkingRobot_H]
    exact Or.inl rfl) clock normal 3 1).2 ⟨by norm_num, fun j _ => ne_of_gt (hc ?_)⟩
  rw [d1]; simp

/-- Non-vacuity of `C65_rewards`, `C65_times`: the first parking benchmark completes. -/
example (ext : Ext Q4) (normal : Key → ℕ → ℕ → ℕ → ℕ → U) : ∃ x,
    World.benchmark (fun i => Spec.referenceRows (Spec.parkingRobots [] [] ⟨0, 0, 0, 0⟩ ⟨1, 0, 0, 0⟩ i) (-1))
      (fun k => (k : ℝ))
      ((World.init fun i => (Spec.parkingRobots [] [] ⟨0, 0, 0, 0⟩ ⟨1, 0, 0, 0⟩ i).obj ext).history []).clear
      0 normal (Config.plan (parkingConfig (parkingSizes.getD 0 (0, 0, 0)))) 3 1 = .ok x :=
  C65_parking_cleared [] [] ⟨0, 0, 0, 0⟩ ⟨1, 0, 0, 0⟩ ext normal (fun k => (k : ℝ)) Nat.strictMono_cast 0
    (by norm_num) [] (by simp)

/-- **C65 (what is timed).** In all tests of the parking benchmark the robot disfavours forward motion (and only
forward motion), in proportion to the speed, steps by 0.25 s, has both shields on, and robot and planner
agree on preference and horizon. -/
theorem C65_robot (circles : List Circle) (rects : List Rect) (x0 xg : Q4) (s : ℕ × ℕ × ℕ) :
    let T := parkingRobot circles rects x0 xg s
    (∀ v, T.prefPenaltyV v = 0.5 * max 0 v) ∧ T.dt = 0.25 ∧ T.shieldCollision = true ∧ T.shieldHitch = true ∧
    T.motionPreference = (Config.plan (parkingConfig s)).motionPreference ∧
    T.H = (Config.plan (parkingConfig s)).Hsample := by
  intro T
  have hm : T.motionPreference = -1 := by
    simp [T, parkingRobot, attrParams, robotAttr, forwardedKeywords, commonKeywords, getEnvArg, benchCall,
      parkingConfig, Val.int']
  have hw : T.preferencePenaltyWeight = 0.5 := by
    simp [T, parkingRobot, attrParams, robotAttr, forwardedKeywords, commonKeywords, getEnvArg, benchCall,
      parkingConfig, Val.num, dataclassDefault]
  refine ⟨fun v => ?_, ?_, ?_, ?_, ?_, ?_⟩
  · rw [prefPenaltyV_eq, hm, hw]
    norm_num [Spec.prefPenalty]
  all_goals
    simp [T, parkingRobot, attrParams, robotAttr, forwardedKeywords, commonKeywords, getEnvArg, benchCall,
      parkingConfig, Val.num, Val.int', Val.flag, dataclassDefault, Config.plan]

end Mbd
