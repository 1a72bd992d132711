import Verif.Timing
import Mathlib.Order.Monotone.Basic
import Mathlib.Tactic.Linarith
import Mathlib.Tactic.FieldSimp
import Mathlib.Tactic.NormNum
import Mathlib.Tactic.Ring

/-!
# C56: the timing report
-/

namespace Mbd

/-- **C56 (identities).** For any clock whatsoever, overhead plus pure diffusion
time is the total time, and the compilation time is the sum of its parts. -/
theorem C56_identities (clock : ℕ → ℝ) (demo : Bool) :
    let t := timingReport clock demo
    t.overhead + t.pureDiffusion = t.total ∧
    t.compilation = t.jitSetup + t.warmup + t.rewardCompile := by
  refine ⟨?_, ?_⟩ <;> simp only [timingReport] <;> ring

/-- **C56 (non-negative).** With a clock that never goes back every entry is
non-negative, including the demonstration time from which the compilation
inside it has been subtracted. -/
theorem C56_nonneg (clock : ℕ → ℝ) (hc : Monotone clock) (demo : Bool) :
    let t := timingReport clock demo
    0 ≤ t.total ∧ 0 ≤ t.demoGeneration ∧ 0 ≤ t.compilation ∧ 0 ≤ t.jitSetup ∧
    0 ≤ t.warmup ∧ 0 ≤ t.rewardCompile ∧ 0 ≤ t.diffusionSetup ∧
    0 ≤ t.pureDiffusion ∧ 0 ≤ t.postProcessing ∧ 0 ≤ t.overhead := by
  have m : ∀ i j, i ≤ j → clock i ≤ clock j := fun i j h => hc h
  cases demo <;> simp only [timingReport, if_true, if_false, Bool.false_eq_true]
  · have h1 := m 0 5 (by omega)
    have h2 := m 1 2 (by omega)
    have h3 := m 3 4 (by omega)
    have h4 := m 5 6 (by omega)
    have h5 := m 7 8 (by omega)
    have h6 := m 9 10 (by omega)
    have h7 := m 11 12 (by omega)
    have h8 := m 0 9 (by omega)
    have h9 := m 10 13 (by omega)
    norm_num
    refine ⟨?_, ?_, ?_, ?_, ?_, ?_, ?_, ?_, ?_⟩ <;> linarith [m 0 13 (by omega)]
  · have h1 := m 0 15 (by omega)
    have h2 := m 1 2 (by omega)
    have h3 := m 2 3 (by omega)
    have h4 := m 3 4 (by omega)
    have h5 := m 5 6 (by omega)
    have h6 := m 7 8 (by omega)
    have h7 := m 9 10 (by omega)
    have h8 := m 11 12 (by omega)
    have h9 := m 13 14 (by omega)
    have h10 := m 0 11 (by omega)
    have h11 := m 12 15 (by omega)
    norm_num
    refine ⟨?_, ?_, ?_, ?_, ?_, ?_, ?_, ?_, ?_, ?_⟩ <;> linarith

/-- **C56 (accounting).** With a clock that never goes back the five phases are
disjoint parts of the run: together they never exceed the total, and the four
phases other than the diffusion never exceed the overhead. -/
theorem C56_parts_le_total (clock : ℕ → ℝ) (hc : Monotone clock) (demo : Bool) :
    let t := timingReport clock demo
    t.demoGeneration + t.compilation + t.diffusionSetup + t.pureDiffusion +
      t.postProcessing ≤ t.total ∧
    t.demoGeneration + t.compilation + t.diffusionSetup + t.postProcessing ≤
      t.overhead := by
  have m : ∀ i j, i ≤ j → clock i ≤ clock j := fun i j h => hc h
  cases demo <;> simp only [timingReport, if_true, if_false, Bool.false_eq_true]
  · have h1 := m 0 1 (by omega)
    have h2 := m 2 3 (by omega)
    have h3 := m 4 5 (by omega)
    have h4 := m 6 7 (by omega)
    have h5 := m 8 9 (by omega)
    have h6 := m 10 11 (by omega)
    have h7 := m 12 13 (by omega)
    norm_num
    constructor <;> linarith
  · have h1 := m 0 1 (by omega)
    have h2 := m 4 5 (by omega)
    have h3 := m 6 7 (by omega)
    have h4 := m 8 9 (by omega)
    have h5 := m 10 11 (by omega)
    have h6 := m 12 13 (by omega)
    have h7 := m 14 15 (by omega)
    norm_num
    constructor <;> linarith

/-- **C56 (no demonstration).** Without a demonstration no compilation of the
reward is charged and the demonstration time is the raw interval. -/
theorem C56_no_demo (clock : ℕ → ℝ) :
    (timingReport clock false).rewardCompile = 0 ∧
    (timingReport clock false).demoGeneration = clock 2 - clock 1 := by
  simp [timingReport]

/-- **C56 (summary).** With a clock that never goes back the printed summary
raises exactly when no time has passed at all; otherwise the two percentages lie
between 0 and 100 and add up to 100. -/
theorem C56_percentages (clock : ℕ → ℝ) (hc : Monotone clock) (demo : Bool) :
    (timingPercent (timingReport clock demo) = none ↔
      ∀ k ≤ (if demo then 15 else 13), clock k = clock 0) ∧
    ∀ p q, timingPercent (timingReport clock demo) = some (p, q) →
      0 ≤ p ∧ p ≤ 100 ∧ 0 ≤ q ∧ q ≤ 100 ∧ p + q = 100 := by
  obtain ⟨h0, -, -, -, -, -, -, hp, -, ho⟩ := C56_nonneg clock hc demo
  obtain ⟨hid, -⟩ := C56_identities clock demo
  have htot : (timingReport clock demo).total =
      clock (if demo then 15 else 13) - clock 0 := by
    cases demo <;> simp [timingReport]
  constructor
  · rw [timingPercent]
    constructor
    · intro h k hk
      have h0' : (timingReport clock demo).total = 0 := by
        by_contra hne
        rw [if_neg hne] at h
        cases h
      rw [htot] at h0'
      have := hc hk
      have := hc (Nat.zero_le k)
      linarith
    · intro h
      have := h _ le_rfl
      rw [if_pos (by rw [htot, this]; ring)]
  · intro p q h
    rw [timingPercent] at h
    split_ifs at h with hz
    injection h with h
    injection h with e1 e2
    have hpos : 0 < (timingReport clock demo).total := lt_of_le_of_ne h0 (Ne.symm hz)
    set t := timingReport clock demo with ht
    have hsum : p + q = 100 := by
      rw [← e1, ← e2]
      have : t.pureDiffusion / t.total * 100 + t.overhead / t.total * 100 =
          (t.overhead + t.pureDiffusion) / t.total * 100 := by ring
      rw [this, hid, div_self hz, one_mul]
    have hp0 : 0 ≤ p := by rw [← e1]; positivity
    have hq0 : 0 ≤ q := by rw [← e2]; positivity
    exact ⟨hp0, by linarith, hq0, by linarith, hsum⟩

/-- **C56 (wall clock, refuted).** `time.time()` is a wall clock and may be set
back; then reported durations, even the main metric, can be negative. -/
theorem C56_wall_clock_refuted : ∃ clock : ℕ → ℝ,
    (timingReport clock false).pureDiffusion < 0 ∧ 0 < (timingReport clock false).total := by
  refine ⟨fun k => if k = 10 then -1 else if 10 < k then 1 else 0, ?_, ?_⟩ <;>
    norm_num [timingReport]

/-- A strictly advancing clock meets the hypotheses and gives non-trivial entries. -/
example : Monotone (fun k : ℕ => (k : ℝ)) ∧
    (timingReport (fun k : ℕ => (k : ℝ)) true).total = 15 ∧
    (timingReport (fun k : ℕ => (k : ℝ)) true).demoGeneration = 2 ∧
    (timingReport (fun k : ℕ => (k : ℝ)) true).compilation = 3 := by
  refine ⟨Nat.mono_cast, ?_, ?_, ?_⟩ <;> norm_num [timingReport]

end Mbd
