import Verif.PropsStat
import Mathlib.Data.List.Range

/-!
# C52: sampling of initial conditions
-/

namespace Spec

open Mbd

/-- A configuration without its number. -/
def anonymous (t : Trial) : Trial := { t with id := 0 }

/-- What the sampler should return for `n` trials: of the first `10 n` proposals of the random stream,
the valid ones, in order, at most `n` of them. -/
noncomputable def firstValid (valid : Trial → Prop) (draws : ℕ → Draw) (n : ℕ) : List Trial :=
  open Classical in
  (((List.range (10 * n)).map fun a => propose (draws a) 0).filter fun t => decide (valid t)).take n

/-- Validity does not look at the trial number. -/
def IgnoresId (valid : Trial → Prop) : Prop := ∀ t i, valid { t with id := i } ↔ valid t

/-- The random numbers are uniform numbers of `[0, 1)`. -/
def UnitDraws (draws : ℕ → Draw) : Prop := ∀ a,
  (0 ≤ (draws a).u0 ∧ (draws a).u0 < 1) ∧ (0 ≤ (draws a).u1 ∧ (draws a).u1 < 1) ∧
  (0 ≤ (draws a).u2 ∧ (draws a).u2 < 1) ∧ (0 ≤ (draws a).u3 ∧ (draws a).u3 < 1) ∧
  (0 ≤ (draws a).u4 ∧ (draws a).u4 < 1)

end Spec

namespace Mbd

open Real Classical

theorem propose_anonymous (d : Draw) (i : ℕ) : Spec.anonymous (propose d i) = propose d 0 := rfl

theorem sampleLoop_spec (valid : Trial → Prop) (hid : Spec.IgnoresId valid) (draws : ℕ → Draw)
    (n : ℕ) : ∀ (fuel a : ℕ) (cs : List Trial), cs.length ≤ n →
    cs.map Trial.id = List.range cs.length → (∀ t ∈ cs, valid t) →
    let R := sampleLoop valid draws n fuel a cs
    R.1.length ≤ n ∧ R.1.map Trial.id = List.range R.1.length ∧ (∀ t ∈ R.1, valid t) ∧
    a ≤ R.2 ∧ R.2 ≤ a + fuel ∧ (R.1.length < n → R.2 = a + fuel) ∧
    (∀ t ∈ R.1, t ∈ cs ∨ ∃ b < a + fuel, ∃ i, t = propose (draws b) i) ∧
    R.1.map Spec.anonymous = cs.map Spec.anonymous ++
      ((((List.range' a fuel).map fun b => propose (draws b) 0).filter
        fun t => decide (valid t)).take (n - cs.length)) := by
  intro fuel
  induction fuel with
  | zero =>
    intro a cs h1 h2 h3
    simp only [sampleLoop]
    exact ⟨h1, h2, h3, le_rfl, le_rfl, fun _ => rfl, fun t ht => Or.inl ht, by simp⟩
  | succ fuel ih =>
    intro a cs h1 h2 h3
    by_cases hlt : cs.length < n
    · simp only [sampleLoop, if_pos hlt]
      have hv : valid (propose (draws a) cs.length) ↔ valid (propose (draws a) 0) :=
        hid (propose (draws a) 0) cs.length
      by_cases hvalid : valid (propose (draws a) cs.length)
      · rw [if_pos hvalid]
        obtain ⟨r1, r2, r3, r4, r5, r6, r8, r7⟩ := ih (a + 1) (cs ++ [propose (draws a) cs.length])
          (by rw [List.length_append, List.length_singleton]; omega)
          (by rw [List.map_append, h2, List.length_append, List.length_singleton,
                List.range_succ]; rfl)
          (by intro t ht
              rcases List.mem_append.1 ht with ht | ht
              · exact h3 t ht
              · rw [List.mem_singleton] at ht; rw [ht]; exact hvalid)
        refine ⟨r1, r2, r3, by omega, by omega, fun h => by rw [r6 h]; omega, ?_, ?_⟩
        · intro t ht
          rcases r8 t ht with h | ⟨b, hb, i, h⟩
          · rcases List.mem_append.1 h with h | h
            · exact Or.inl h
            · exact Or.inr ⟨a, by omega, _, List.mem_singleton.1 h⟩
          · exact Or.inr ⟨b, by omega, i, h⟩
        rw [r7, List.range'_succ, List.map_cons, List.filter_cons,
          if_pos (by simpa using hv.1 hvalid)]
        have : n - cs.length = (n - (cs ++ [propose (draws a) cs.length]).length) + 1 := by
          rw [List.length_append, List.length_singleton]; omega
        rw [this, List.take_succ_cons, List.map_append, List.append_assoc]
        rfl
      · rw [if_neg hvalid]
        obtain ⟨r1, r2, r3, r4, r5, r6, r8, r7⟩ := ih (a + 1) cs h1 h2 h3
        refine ⟨r1, r2, r3, by omega, by omega, fun h => by rw [r6 h]; omega, ?_, ?_⟩
        · intro t ht
          rcases r8 t ht with h | ⟨b, hb, i, h⟩
          · exact Or.inl h
          · exact Or.inr ⟨b, by omega, i, h⟩
        rw [r7, List.range'_succ, List.map_cons, List.filter_cons,
          if_neg (by simpa using fun h => hvalid (hv.2 h))]
    · simp only [sampleLoop, if_neg hlt]
      have he : n - cs.length = 0 := by omega
      refine ⟨h1, h2, h3, le_rfl, by omega, fun h => absurd h hlt, fun t ht => Or.inl ht, ?_⟩
      rw [he, List.take_zero, List.append_nil]

/-- **C52 (sampling).** For every random stream, every validity check that ignores the trial number
and every requested count: at most `n` configurations after at most `10 n` attempts, all valid,
numbered 0, 1, 2, … in order; they are exactly the first `n` valid proposals; and when fewer are
returned, all `10 n` attempts were made. -/
theorem C52_sampling (valid : Trial → Prop) (hid : Spec.IgnoresId valid) (draws : ℕ → Draw) (n : ℕ) :
    let R := sampleInitialConditions valid draws n
    R.1.length ≤ n ∧ R.2 ≤ 10 * n ∧ R.1.map Trial.id = List.range R.1.length ∧
    (∀ t ∈ R.1, valid t) ∧ R.1.map Spec.anonymous = Spec.firstValid valid draws n ∧
    (R.1.length < n → R.2 = 10 * n) := by
  obtain ⟨r1, r2, r3, r4, r5, r6, r8, r7⟩ := sampleLoop_spec valid hid draws n (n * 10) 0 []
    (Nat.zero_le _) rfl (by simp)
  refine ⟨r1, by rw [sampleInitialConditions]; omega, r2, r3, ?_,
    fun h => by rw [sampleInitialConditions, r6 h]; omega⟩
  rw [sampleInitialConditions, r7]
  simp [Spec.firstValid, List.range_eq_range', Nat.mul_comm]

/-- **C52 (shortage).** Fewer than `n` configurations are returned exactly when fewer than `n` of the
first `10 n` proposals are valid. -/
theorem C52_shortage (valid : Trial → Prop) (hid : Spec.IgnoresId valid) (draws : ℕ → Draw) (n : ℕ) :
    (sampleInitialConditions valid draws n).1.length < n ↔
      ((List.range (10 * n)).filter fun a => decide (valid (propose (draws a) 0))).length < n := by
  have h := (C52_sampling valid hid draws n).2.2.2.2.1
  have hl := congrArg List.length h
  rw [List.length_map, Spec.firstValid, List.length_take, List.filter_map, List.length_map] at hl
  rw [hl, min_lt_iff, Function.comp_def]
  simp

/-- **C52 (prefix).** Asking for more trials never changes the earlier ones: with the same seed the
configurations for `m ≤ n` trials are a prefix of those for `n` trials. -/
theorem C52_prefix (valid : Trial → Prop) (hid : Spec.IgnoresId valid) (draws : ℕ → Draw)
    {m n : ℕ} (hmn : m ≤ n) :
    (sampleInitialConditions valid draws m).1 <+: (sampleInitialConditions valid draws n).1 := by
  obtain ⟨a1, -, a3, -, a5, -⟩ := C52_sampling valid hid draws m
  obtain ⟨b1, -, b3, -, b5, -⟩ := C52_sampling valid hid draws n
  set A := (sampleInitialConditions valid draws m).1
  set B := (sampleInitialConditions valid draws n).1
  have hpre : Spec.firstValid valid draws m <+: Spec.firstValid valid draws n := by
    simp only [Spec.firstValid]
    have hr : List.range (10 * m) <+: List.range (10 * n) := by
      obtain ⟨k, rfl⟩ : ∃ k, n = m + k := ⟨n - m, by omega⟩
      rw [Nat.mul_add, List.range_add]
      exact List.prefix_append _ _
    have hf := (hr.map fun a => propose (draws a) 0).filter fun t => decide (valid t)
    obtain ⟨l, hl⟩ := hf
    rw [← hl]
    refine (List.prefix_append _ l).take m |>.trans ?_
    exact List.take_prefix_take_left hmn
  rw [← a5, ← b5] at hpre
  have hlen : A.length ≤ B.length := by
    have := hpre.length_le
    simpa using this
  rw [List.prefix_iff_eq_take]
  apply List.ext_getElem?
  intro i
  by_cases hi : i < A.length
  · rw [List.getElem?_take_of_lt hi]
    have e1 : A.map Spec.anonymous = (B.map Spec.anonymous).take A.length := by
      have := List.prefix_iff_eq_take.1 hpre
      rwa [List.length_map] at this
    have e2 := congrArg (fun l => l[i]?) e1
    simp only [List.getElem?_take_of_lt hi, List.getElem?_map] at e2
    have e3 := congrArg (fun l => l[i]?) a3
    have e4 := congrArg (fun l => l[i]?) b3
    simp only [List.getElem?_map] at e3 e4
    have hiB : i < B.length := by omega
    rw [List.getElem?_range hi] at e3
    rw [List.getElem?_range hiB] at e4
    rw [List.getElem?_eq_getElem hi, List.getElem?_eq_getElem hiB] at e2 ⊢
    rw [List.getElem?_eq_getElem hi] at e3
    rw [List.getElem?_eq_getElem hiB] at e4
    simp only [Option.map_some, Option.some.injEq] at e2 e3 e4 ⊢
    generalize A[i] = x at *
    generalize B[i] = y at *
    obtain ⟨_, _, _, _, _⟩ := x
    obtain ⟨_, _, _, _, _⟩ := y
    simp only [Spec.anonymous, Trial.mk.injEq] at *
    exact ⟨e2.1, e2.2.1, e2.2.2.1, e2.2.2.2.1, by rw [e3, e4]⟩
  · have h1 : A.length ≤ i := by omega
    rw [List.getElem?_eq_none h1, List.getElem?_eq_none (by simp; omega)]

/-- The validity check of the module ignores the trial number. -/
theorem isValidStart_ignores : Spec.IgnoresId isValidStart := fun _ _ => Iff.rfl

/-- The ranges of one proposal. -/
theorem propose_ranges {draws : ℕ → Draw} (hu : Spec.UnitDraws draws) (a i : ℕ) :
    (-12 ≤ (propose (draws a) i).dx ∧ (propose (draws a) i).dx < 12) ∧
    (2 ≤ (propose (draws a) i).dy ∧ (propose (draws a) i).dy < 7) ∧
    (|(propose (draws a) i).theta1| ≤ π / 10 ∨ |(propose (draws a) i).theta1 - π| ≤ π / 10) ∧
    |(propose (draws a) i).theta1 - (propose (draws a) i).theta2| ≤ π / 10 := by
  obtain ⟨h0, h1, h2, h3, h4⟩ := hu a
  have hpi := pi_pos
  refine ⟨⟨?_, ?_⟩, ⟨?_, ?_⟩, ?_, ?_⟩
  · simp only [propose, uniform]; nlinarith
  · simp only [propose, uniform]; nlinarith
  · simp only [propose, uniform]; nlinarith
  · simp only [propose, uniform]; nlinarith
  · simp only [propose, uniform]
    have p0 := mul_nonneg hpi.le h3.1
    have p1 := mul_lt_mul_of_pos_left h3.2 hpi
    split
    · left; rw [abs_le]; constructor <;> linarith
    · right; rw [abs_le]; constructor <;> linarith
  · simp only [propose, uniform]
    have p0 := mul_nonneg hpi.le h4.1
    have p1 := mul_lt_mul_of_pos_left h4.2 hpi
    rw [abs_le]; constructor <;> linarith

/-- **C52 (ranges).** For uniform numbers in `[0, 1)` every returned configuration has
`dx ∈ [-12, 12)`, `dy ∈ [2, 7)`, the tractor heading within 18° of straight ahead or straight back,
and the two headings within 18° of each other. -/
theorem C52_ranges (valid : Trial → Prop) (hid : Spec.IgnoresId valid) (draws : ℕ → Draw)
    (hu : Spec.UnitDraws draws) (n : ℕ) : ∀ t ∈ (sampleInitialConditions valid draws n).1,
    (-12 ≤ t.dx ∧ t.dx < 12) ∧ (2 ≤ t.dy ∧ t.dy < 7) ∧
    (|t.theta1| ≤ π / 10 ∨ |t.theta1 - π| ≤ π / 10) ∧ |t.theta1 - t.theta2| ≤ π / 10 := by
  intro t ht
  obtain ⟨-, -, -, -, -, -, r8, -⟩ := sampleLoop_spec valid hid draws n (n * 10) 0 []
    (Nat.zero_le _) rfl (by simp)
  rcases r8 t ht with h | ⟨b, -, i, rfl⟩
  · simp at h
  · exact propose_ranges hu b i

/-- A stream of numbers, and the trivially true check: all `n` requested trials are returned after
`n` attempts, numbered from 0. -/
example : Spec.UnitDraws (fun _ => ⟨0.5, 0.5, 0.25, 0.5, 0.5⟩) ∧
    (sampleInitialConditions (fun _ => True) (fun _ => ⟨0.5, 0.5, 0.25, 0.5, 0.5⟩) 2).1.map Trial.id
      = [0, 1] ∧
    (sampleInitialConditions (fun _ => True) (fun _ => ⟨0.5, 0.5, 0.25, 0.5, 0.5⟩) 2).2 = 2 := by
  refine ⟨fun _ => ?_, ?_, ?_⟩
  · norm_num
  · simp [sampleInitialConditions, sampleLoop, propose]
  · simp [sampleInitialConditions, sampleLoop]

end Mbd
