import Verif.Witness
import Verif.Stat
import Verif.WrapLemmas
import Mathlib.Analysis.Real.Pi.Bounds
import Mathlib.Tactic.Linarith
import Mathlib.Tactic.Positivity

/-!
# C51-C53: trial verdicts, sampling of starts, aggregated statistics
-/

namespace Mbd

open Real Classical

/-! ## C51 -/

theorem flagLoop_spec {Q : Type} (coll hitch : Q → Prop) (qs : List Q) : ∀ oc hv : Bool,
    ((flagLoop coll hitch oc hv qs).1 = true ↔ oc = true ∨ ∃ q ∈ qs, coll q) ∧
    ((flagLoop coll hitch oc hv qs).2 = true ↔ hv = true ∨ ∃ q ∈ qs, hitch q) := by
  induction qs with
  | nil => intro oc hv; simp [flagLoop]
  | cons q qs ih =>
    intro oc hv
    simp only [flagLoop]
    by_cases h1 : coll q <;> by_cases h2 : hitch q <;>
      simp only [h1, h2, if_true, if_false, Bool.and_true, Bool.true_and]
    · simp [h1, h2]
    · split
      · rename_i h; simp [h, h1]
      · rw [(ih _ _).1, (ih _ _).2]; simp [h1, h2]
    · split
      · rename_i h; simp [h, h2]
      · rw [(ih _ _).1, (ih _ _).2]; simp [h1, h2]
    · split
      · rename_i h
        rw [Bool.and_eq_true] at h
        simp [h.1, h.2]
      · rw [(ih _ _).1, (ih _ _).2]; simp [h1, h2]

/-- **C51 (early exit).** Leaving the loop early never changes the two flags: each is the disjunction
over the whole trajectory. -/
theorem C51_early_exit {Q : Type} (coll hitch : Q → Prop) (qs : List Q) :
    flagLoop coll hitch false false qs =
      (decide (∃ q ∈ qs, coll q), decide (∃ q ∈ qs, hitch q)) := by
  obtain ⟨h1, h2⟩ := flagLoop_spec coll hitch qs false false
  simp only [Bool.false_eq_true, false_or] at h1 h2
  ext1
  · rw [Bool.eq_iff_iff, h1, decide_eq_true_iff]
  · rw [Bool.eq_iff_iff, h2, decide_eq_true_iff]

end Mbd

namespace Spec

open Mbd

/-- The verdict a trajectory `q₁, …, qₙ` deserves, given what collides, what jackknifes, the two
points whose distance to the goal counts, and the threshold: a collision (jackknife) is reported
iff some visited state has one; success iff neither occurs and one of the two points ends within
the threshold. -/
structure VerdictOK {Q : Type} (coll jack : Q → Prop) (p₁ p₂ : Q → V2) (goal : V2) (thr : ℝ)
    (xs : List Q) (v : Verdict) : Prop where
  collision : v.collision = true ↔ ∃ q ∈ xs, coll q
  jackknife : v.jackknife = true ↔ ∃ q ∈ xs, jack q
  tractorError : ∀ q, xs.getLast? = some q → v.tractorError = √(((p₁ q).1 - goal.1) ^ 2 + ((p₁ q).2 - goal.2) ^ 2)
  trailerError : ∀ q, xs.getLast? = some q → v.trailerError = √(((p₂ q).1 - goal.1) ^ 2 + ((p₂ q).2 - goal.2) ^ 2)
  positionError : v.positionError = min v.tractorError v.trailerError
  success : v.success = true ↔ (v.tractorError ≤ thr ∨ v.trailerError ≤ thr) ∧
    ∀ q ∈ xs, ¬ coll q ∧ ¬ jack q

end Spec

namespace Mbd

open Real Classical

theorem evaluate_ok {Q : Type} (E : EvalEnv Q) (thr : ℝ) (xs : List Q) :
    (evaluateTrial E thr xs = none ↔ xs = []) ∧
    ∀ v, evaluateTrial E thr xs = some v → Spec.VerdictOK E.coll E.hitch E.ref E.back E.goal thr xs v := by
  constructor
  · rw [evaluateTrial]
    cases h : xs.getLast? with
    | none => simpa using h
    | some q =>
      simp only [reduceCtorEq, false_iff]
      rintro rfl
      simp at h
  · intro v hv
    rw [evaluateTrial] at hv
    cases h : xs.getLast? with
    | none => rw [h] at hv; cases hv
    | some q =>
      rw [h] at hv
      simp only [Option.some.injEq] at hv
      subst hv
      refine ⟨?_, ?_, ?_, ?_, rfl, ?_⟩
      · rw [C51_early_exit]; simp
      · rw [C51_early_exit]; simp
      · intro q' hq'; rw [h] at hq'; cases hq'; rfl
      · intro q' hq'; rw [h] at hq'; cases hq'; rfl
      · rw [C51_early_exit]
        simp only [Bool.and_eq_true, decide_eq_true_iff, Bool.not_eq_true', decide_eq_false_iff_not,
          min_le_iff, and_assoc]
        constructor
        · rintro ⟨h1, h2, h3⟩
          exact ⟨h1, fun q' hq' => ⟨fun hc => h2 ⟨q', hq', hc⟩, fun hc => h3 ⟨q', hq', hc⟩⟩⟩
        · rintro ⟨h1, h2⟩
          exact ⟨h1, fun ⟨q', hq', hc⟩ => (h2 q' hq').1 hc, fun ⟨q', hq', hc⟩ => (h2 q' hq').2 hc⟩

/-- **C51, tractor-trailer.** Exactly the deserved verdict, for every trajectory and threshold: the
points are the reference point and the trailer's rear end; the evaluation raises only on an empty
trajectory. -/
theorem C51_tt2d (T : TT2d) (thr : ℝ) (xs : List Q4) :
    (evaluateTrial T.evalEnv thr xs = none ↔ xs = []) ∧
    ∀ v, evaluateTrial T.evalEnv thr xs = some v →
      Spec.VerdictOK (TT2d.checkObstacle T.toParams)
        (fun q => Spec.exceedsModTurns (deg2rad 40) (q.th1 - q.th2))
        (fun q => (q.px, q.py))
        (fun q => (q.px - T.lh * cos q.th1 - (T.l2 + T.lr2) * cos q.th2,
          q.py - T.lh * sin q.th1 - (T.l2 + T.lr2) * sin q.th2))
        (T.xg.px, T.xg.py) thr xs v := by
  have h := evaluate_ok T.evalEnv thr xs
  have e : T.evalEnv.hitch = fun q => Spec.exceedsModTurns (deg2rad 40) (q.th1 - q.th2) := by
    funext q
    exact propext (wrapPi_gt_iff _ _)
  rw [e] at h
  exact h

/-- **C51, acceleration model.** The verdict only depends on the poses and is the deserved one. -/
theorem C51_acc (T : Acc) (thr : ℝ) (xs : List Q6) :
    (evaluateTrial T.evalEnv thr xs = none ↔ xs = []) ∧
    ∀ v, evaluateTrial T.evalEnv thr xs = some v →
      Spec.VerdictOK T.checkObstacle T.checkHitch (fun q => (q.px, q.py))
        (fun q => TT2d.trailerBackPos T.toParams q.pose) (T.xg.px, T.xg.py) thr xs v :=
  evaluate_ok T.evalEnv thr xs

/-- **C51, bicycle.** The deserved verdict; a bicycle never jackknifes. -/
theorem C51_bicycle (T : Bicycle) (thr : ℝ) (xs : List Q3) :
    (evaluateTrial T.evalEnv thr xs = none ↔ xs = []) ∧
    ∀ v, evaluateTrial T.evalEnv thr xs = some v →
      Spec.VerdictOK (Bicycle.checkObstacle T.toParams) (fun _ => False) (fun q => (q.px, q.py))
        (fun q => (q.px - T.lh * cos q.th1, q.py - T.lh * sin q.th1)) (T.xg.px, T.xg.py) thr xs v ∧
      v.jackknife = false := by
  obtain ⟨h1, h2⟩ := evaluate_ok T.evalEnv thr xs
  refine ⟨h1, fun v hv => ⟨h2 v hv, ?_⟩⟩
  have := (h2 v hv).jackknife
  rw [Bool.eq_false_iff]
  intro h
  obtain ⟨q, -, hq⟩ := this.1 h
  exact hq

/-- Whether a train state jackknifes at some hitch: consecutive headings differ by more than 40°. -/
theorem ntrailer_slice4_hitch (T : NTrailer) (hN : 1 ≤ T.N) (q : QN) (hq : q.ths ≠ []) :
    T.checkHitch q.slice4 ↔ |wrapPi (q.th0 - q.ths.headD 0)| > T.phiMax := by
  obtain ⟨a, l, hl⟩ : ∃ a l, q.ths = a :: l := by
    cases h : q.ths with
    | nil => exact absurd h hq
    | cons a l => exact ⟨a, l, rfl⟩
  obtain ⟨m, hm⟩ : ∃ m, T.N = m + 1 := ⟨T.N - 1, by omega⟩
  simp [NTrailer.checkHitch, NTrailer.slice, QN.slice4, hl, hm, NTrailer.hitchScan]

theorem hitchScan_mono (phi : ℝ) (l : List ℝ) : ∀ (prev : ℝ) (v : Prop), v →
    NTrailer.hitchScan phi prev v l := by
  induction l with
  | nil => intro _ v h; exact h
  | cons a l ih => intro prev v h; exact ih _ _ (Or.inl h)

/-- **C51, train (partial).** What a jackknife report means for a train: it is raised exactly when the
*first* hitch exceeds its limit somewhere, so a report is always justified.  Missing: the other
hitches, which are not evaluated (refuted below). -/
theorem C51_ntrailer_jackknife_partial (T : NTrailer) (hN : 1 ≤ T.N) (thr : ℝ) (xs : List QN)
    (hx : ∀ q ∈ xs, q.ths ≠ []) (v : Verdict) (hv : evaluateTrial T.evalEnv thr xs = some v) :
    (v.jackknife = true ↔ ∃ q ∈ xs, |wrapPi (q.th0 - q.ths.headD 0)| > deg2rad 40) ∧
    (v.jackknife = true → ∃ q ∈ xs, T.checkHitch q) := by
  have h := ((evaluate_ok T.evalEnv thr xs).2 v hv).jackknife
  have h1 : v.jackknife = true ↔ ∃ q ∈ xs, |wrapPi (q.th0 - q.ths.headD 0)| > deg2rad 40 := by
    rw [h]
    constructor
    · rintro ⟨q, hq, hc⟩
      exact ⟨q, hq, (ntrailer_slice4_hitch T hN q (hx q hq)).1 hc⟩
    · rintro ⟨q, hq, hc⟩
      exact ⟨q, hq, (ntrailer_slice4_hitch T hN q (hx q hq)).2 hc⟩
  refine ⟨h1, fun hj => ?_⟩
  obtain ⟨q, hq, hc⟩ := h1.1 hj
  refine ⟨q, hq, ?_⟩
  obtain ⟨a, l, hl⟩ : ∃ a l, q.ths = a :: l := by
    cases h : q.ths with
    | nil => exact absurd h (hx q hq)
    | cons a l => exact ⟨a, l, rfl⟩
  obtain ⟨m, hm⟩ : ∃ m, T.N = m + 1 := ⟨T.N - 1, by omega⟩
  simp only [NTrailer.checkHitch]
  apply hitchScan_mono
  rw [hl] at hc
  simpa [NTrailer.slice, hl, hm, Params.phiMax] using hc

example : ∃ v, evaluateTrial Wit.train.evalEnv goalThreshold [⟨0, 0, 1, [0, 0]⟩] = some v ∧
    v.jackknife = true := by
  obtain ⟨v, hv⟩ : ∃ v, evaluateTrial Wit.train.evalEnv goalThreshold [⟨0, 0, 1, [0, 0]⟩] = some v :=
    ⟨_, rfl⟩
  refine ⟨v, hv, (C51_ntrailer_jackknife_partial Wit.train (by norm_num [Wit.train]) goalThreshold _
    (by simp) v hv).1.2 ⟨_, List.mem_singleton.2 rfl, ?_⟩⟩
  have h3 := pi_gt_three
  have h4 := pi_le_four
  have : wrapPi ((1 : ℝ) - [(0 : ℝ), 0].headD 0) = 1 := by
    rw [wrapPi_of_mem] <;> simp <;> linarith
  rw [this, abs_one, deg2rad]
  linarith

theorem clampGet_replicate (n : ℕ) (a : ℝ) (i : ℕ) : clampGet (List.replicate (n + 1) a) i = a := by
  simp only [clampGet, List.length_replicate, Nat.add_sub_cancel]
  rw [List.getD_eq_getElem?_getD, List.getElem?_replicate, if_pos (by omega)]
  rfl

/-- For a train in line from the first trailer on, the sliced state has the same collision check. -/
theorem ntrailer_slice4_obstacle (T : NTrailer) (hN : 1 ≤ T.N) (q : QN) (m : ℕ) (a : ℝ)
    (hq : q.ths = List.replicate (m + 1) a) :
    T.checkObstacle q.slice4 ↔ T.checkObstacle q := by
  obtain ⟨k, hk⟩ : ∃ k, T.N = k + 1 := ⟨T.N - 1, by omega⟩
  have hth : ∀ i, T.theta q.slice4 i = T.theta q i := by
    intro i
    have e1 : T.slice q.slice4 = List.replicate (0 + 1) a := by
      simp [NTrailer.slice, QN.slice4, hq, hk, List.replicate_succ]
    have e2 : T.slice q = List.replicate (min k m + 1) a := by
      rw [NTrailer.slice, hq, hk, List.take_replicate]
      congr 1; omega
    rw [NTrailer.theta, NTrailer.theta, e1, e2, clampGet_replicate, clampGet_replicate]
  have hh : ∀ i, T.rectHitch q.slice4 i = T.rectHitch q i := by
    intro i
    induction i with
    | zero => rfl
    | succ i ih => simp only [NTrailer.rectHitch, ih, hth]
  have hc : T.allTrailerCorners q.slice4 = T.allTrailerCorners q := by
    simp only [NTrailer.allTrailerCorners]
    apply List.map_congr_left
    intro i _
    simp only [NTrailer.trailerCorners, hh, hth]
  simp only [NTrailer.checkObstacle, hc]
  rfl

/-- **C51, train in line (partial).** If in every visited state the trailers are in line with the
first one, the verdict of a train is the deserved one (errors: reference point and rear end of the
*first* trailer).  Missing: bent trains. -/
theorem C51_ntrailer_inline_partial (T : NTrailer) (hN : 1 ≤ T.N) (thr : ℝ) (xs : List QN)
    (hx : ∀ q ∈ xs, ∃ m a, q.ths = List.replicate (m + 1) a) (v : Verdict)
    (hv : evaluateTrial T.evalEnv thr xs = some v) :
    (v.collision = true ↔ ∃ q ∈ xs, T.checkObstacle q) ∧
    (v.jackknife = true ↔ ∃ q ∈ xs, |wrapPi (q.th0 - q.ths.headD 0)| > deg2rad 40) := by
  refine ⟨?_, (C51_ntrailer_jackknife_partial T hN thr xs (fun q hq => ?_) v hv).1⟩
  · rw [((evaluate_ok T.evalEnv thr xs).2 v hv).collision]
    constructor
    · rintro ⟨q, hq, hc⟩
      obtain ⟨m, a, hqs⟩ := hx q hq
      exact ⟨q, hq, (ntrailer_slice4_obstacle T hN q m a hqs).1 hc⟩
    · rintro ⟨q, hq, hc⟩
      obtain ⟨m, a, hqs⟩ := hx q hq
      exact ⟨q, hq, (ntrailer_slice4_obstacle T hN q m a hqs).2 hc⟩
  · obtain ⟨m, a, h⟩ := hx q hq
    rw [h]; simp

example (v : Verdict) (hv : evaluateTrial Wit.train.evalEnv goalThreshold [⟨0, 0, 1, [0, 0]⟩] = some v) :=
  C51_ntrailer_inline_partial Wit.train (by norm_num [Wit.train]) goalThreshold [⟨0, 0, 1, [0, 0]⟩]
    (by simp only [List.mem_singleton, forall_eq]; exact ⟨1, 0, rfl⟩) v hv

/-- **C51, train (refuted).** A train whose second trailer stands at a right angle to the first
jackknifes according to its own check, yet the evaluation reports success. -/
theorem C51_ntrailer_refuted : ∃ (T : NTrailer) (q : QN) (v : Verdict),
    T.N = 2 ∧ q.ths.length = 2 ∧ T.checkHitch q ∧
    evaluateTrial T.evalEnv goalThreshold [q] = some v ∧ v.success = true ∧ v.jackknife = false := by
  let T : NTrailer :=
    { toParams := Params.default [] [], N := 2, lengths := [2.9, 2.9], fronts := [1.42, 1.42]
      rears := [3.225, 3.225], x0 := ⟨0, 0, 0, [0, 0]⟩, xg := ⟨0, 0, 0, [0, 0]⟩ }
  let q : QN := ⟨0, 0, 0, [0, π / 2]⟩
  have hpi := pi_pos
  have hw0 : wrapPi 0 = 0 := wrapPi_of_mem (by linarith) (by linarith)
  have hw : wrapPi (0 - π / 2) = -(π / 2) := by
    rw [zero_sub]
    exact wrapPi_of_mem (by linarith) (by linarith)
  have hph : deg2rad 40 < π / 2 := by unfold deg2rad; linarith
  have hph0 : 0 < deg2rad 40 := by unfold deg2rad; positivity
  have hc : T.checkHitch q := by
    show |wrapPi (0 - 0)| > deg2rad 40 ∨ |wrapPi (0 - π / 2)| > deg2rad 40
    right
    rw [hw, abs_neg, abs_of_pos (by linarith)]
    exact hph
  have hex : ∃ v, evaluateTrial T.evalEnv goalThreshold [q] = some v := by
    cases h : evaluateTrial T.evalEnv goalThreshold [q] with
    | none => simp [evaluate_ok] at h
    | some v => exact ⟨v, rfl⟩
  obtain ⟨v, hv⟩ := hex
  have ok := (evaluate_ok T.evalEnv goalThreshold [q]).2 v hv
  have hj : ¬ T.checkHitch q.slice4 := by
    rw [ntrailer_slice4_hitch T (by decide) q (by simp [q])]
    show ¬ |wrapPi (0 - 0)| > deg2rad 40
    rw [sub_zero, hw0, abs_zero, not_lt]
    exact hph0.le
  have hcol : ¬ T.checkObstacle q.slice4 := by
    simp [NTrailer.checkObstacle, T, Params.default]
  refine ⟨T, q, v, rfl, rfl, hc, hv, ?_, ?_⟩
  · rw [ok.success]
    refine ⟨Or.inl ?_, ?_⟩
    · rw [ok.tractorError q rfl]
      show √((0 - 0) ^ 2 + (0 - 0) ^ 2) ≤ 4
      norm_num
    · intro q' hq'
      rw [List.mem_singleton] at hq'
      subst hq'
      exact ⟨hcol, hj⟩
  · rw [Bool.eq_false_iff]
    intro h
    obtain ⟨q', hq', hc'⟩ := ok.jackknife.1 h
    rw [List.mem_singleton] at hq'
    subst hq'
    exact hj hc'

/-- The hypotheses of the positive theorems are met by a default tractor-trailer standing at its
goal, which is judged successful. -/
example : ∃ (T : TT2d) (v : Verdict), evaluateTrial T.evalEnv goalThreshold [T.x0] = some v ∧
    v.success = true := by
  let T : TT2d := { toParams := Params.default [] [], x0 := ⟨1, 2, 0, 0⟩, xg := ⟨1, 2, 0, 0⟩ }
  obtain ⟨h1, h2⟩ := C51_tt2d T goalThreshold [T.x0]
  cases h : evaluateTrial T.evalEnv goalThreshold [T.x0] with
  | none => simp [h1] at h
  | some v =>
    refine ⟨T, v, h, ?_⟩
    have ok := h2 v h
    rw [ok.success]
    refine ⟨Or.inl ?_, ?_⟩
    · rw [ok.tractorError _ rfl]
      show √((1 - 1) ^ 2 + (2 - 2) ^ 2) ≤ 4
      norm_num
    · intro q hq
      rw [List.mem_singleton] at hq
      subst hq
      have hpi := pi_pos
      have hw0 : wrapPi 0 = 0 := wrapPi_of_mem (by linarith) (by linarith)
      refine ⟨by simp [TT2d.checkObstacle, T, Params.default], ?_⟩
      show ¬ Spec.exceedsModTurns (deg2rad 40) (0 - 0)
      rw [← wrapPi_gt_iff, sub_zero, hw0, abs_zero, not_lt]
      unfold deg2rad; positivity

end Mbd
