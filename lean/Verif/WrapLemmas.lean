import Verif.Prim
import Verif.Spec
import Mathlib.Tactic.Linarith
import Mathlib.Tactic.LinearCombination
import Mathlib.Tactic.FieldSimp

/-! # Lemmas about `wrapPi` -/

namespace Mbd

open Real

theorem wrapPi_eq (a : ℝ) : wrapPi a = a - 2 * π * ⌊(a + π) / (2 * π)⌋ := by
  unfold wrapPi fmod; ring

/-- `wrapPi a` differs from `a` by a whole number of turns. -/
theorem wrapPi_congr (a : ℝ) : ∃ k : ℤ, wrapPi a = a + 2 * π * k :=
  ⟨-⌊(a + π) / (2 * π)⌋, by rw [wrapPi_eq]; push_cast; ring⟩

theorem wrapPi_lower (a : ℝ) : -π ≤ wrapPi a := by
  have hp := pi_pos
  have h := Int.floor_le ((a + π) / (2 * π))
  rw [le_div_iff₀ (by positivity)] at h
  rw [wrapPi_eq]; linarith

theorem wrapPi_upper (a : ℝ) : wrapPi a < π := by
  have hp := pi_pos
  have h := Int.lt_floor_add_one ((a + π) / (2 * π))
  rw [div_lt_iff₀ (by positivity)] at h
  rw [wrapPi_eq]; linarith

theorem abs_wrapPi_le (a : ℝ) : |wrapPi a| ≤ π :=
  abs_le.mpr ⟨wrapPi_lower a, (wrapPi_upper a).le⟩

theorem wrapPi_of_mem {a : ℝ} (h₁ : -π ≤ a) (h₂ : a < π) : wrapPi a = a := by
  have hp := pi_pos
  rw [wrapPi_eq]
  have : ⌊(a + π) / (2 * π)⌋ = 0 := by
    rw [Int.floor_eq_zero_iff]
    constructor
    · apply div_nonneg <;> linarith
    · rw [div_lt_one (by positivity)]; linarith
  rw [this]; simp

@[simp] theorem wrapPi_zero : wrapPi 0 = 0 :=
  wrapPi_of_mem (by linarith [pi_pos]) pi_pos

theorem wrapPi_add_turns (a : ℝ) (k : ℤ) : wrapPi (a + 2 * π * k) = wrapPi a := by
  have hp := pi_pos
  rw [wrapPi_eq, wrapPi_eq]
  have : (a + 2 * π * k + π) / (2 * π) = (a + π) / (2 * π) + k := by
    field_simp; ring
  rw [this, Int.floor_add_intCast]
  push_cast; ring

/-- `wrapPi` picks the representative of least magnitude. -/
theorem abs_wrapPi_le_turns (a : ℝ) (k : ℤ) : |wrapPi a| ≤ |a + 2 * π * k| := by
  have hp := pi_pos
  obtain ⟨j, hj⟩ := wrapPi_congr a
  have hb := abs_le.mp (abs_wrapPi_le a)
  have e : a + 2 * π * k = wrapPi a + 2 * π * ((k - j : ℤ) : ℝ) := by
    rw [hj]; push_cast; ring
  rcases lt_trichotomy (k - j) 0 with h | h | h
  · have h' : ((k - j : ℤ) : ℝ) ≤ -1 := by exact_mod_cast Int.le_sub_one_of_lt h
    have : a + 2 * π * k ≤ -π := by rw [e]; nlinarith [wrapPi_upper a]
    rw [abs_of_nonpos (by linarith : a + 2 * π * k ≤ 0)]
    exact (abs_wrapPi_le a).trans (by linarith)
  · rw [e, h]; simp
  · have h' : (1 : ℝ) ≤ ((k - j : ℤ) : ℝ) := by exact_mod_cast h
    have : π ≤ a + 2 * π * k := by rw [e]; nlinarith
    rw [abs_of_nonneg (by linarith : 0 ≤ a + 2 * π * k)]
    exact (abs_wrapPi_le a).trans this

/-- The wrapped comparison is the comparison modulo full turns. -/
theorem wrapPi_gt_iff (lim a : ℝ) : |wrapPi a| > lim ↔ Spec.exceedsModTurns lim a := by
  constructor
  · intro h k
    exact lt_of_lt_of_le h (abs_wrapPi_le_turns a k)
  · intro h
    obtain ⟨k, hk⟩ := wrapPi_congr a
    rw [hk]; exact h k

theorem exceeds_add_turns (lim a : ℝ) (k : ℤ) :
    Spec.exceedsModTurns lim (a + 2 * π * k) ↔ Spec.exceedsModTurns lim a := by
  rw [← wrapPi_gt_iff, ← wrapPi_gt_iff, wrapPi_add_turns]

end Mbd
