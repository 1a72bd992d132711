import Verif.Witness
import Verif.PropsDemo
import Verif.PlanLemmas

/-!
# Score of a trajectory against the demonstration: C50; demonstrations of the four robots (C48)
-/

namespace Spec

open Real

/-- The same direction: angles that differ by full turns. -/
def SameDir (a b : ℝ) : Prop := ∃ k : ℤ, a - b = 2 * π * k

/-- A row is matched: same position and, on the final leg, same headings; without preference both
headings may also be reversed. -/
def RowMatch (pref : ℤ) (onLastLeg : Bool) (pos refPos : Pt) (a1 a2 r1 r2 : ℝ) : Prop :=
  pos = refPos ∧ (onLastLeg = true → (SameDir a1 r1 ∧ SameDir a2 r2) ∨
    (pref = 0 ∧ SameDir a1 (r1 + π) ∧ SameDir a2 (r2 + π)))

/-- The point of the vehicle that is compared with the reference: tractor for the forward
preferences, trailer axle otherwise. -/
noncomputable def tracked (pref : ℤ) (tractor trailer : Pt) : Pt :=
  if pref = 1 ∨ pref = 2 then tractor else trailer

end Spec

namespace Mbd

open Real Classical

namespace Demo

theorem quadTerm_range {thr : ℝ} (h : 0 < thr) (e : ℝ) : -1 ≤ quadTerm e thr ∧ quadTerm e thr ≤ 0 := by
  unfold quadTerm
  have h1 : 0 ≤ clip e 0 thr := le_clip h.le
  have h2 : clip e 0 thr ≤ thr := clip_le _ _ _
  have h3 : clip e 0 thr / thr ≤ 1 := (div_le_one h).2 h2
  have h4 : 0 ≤ clip e 0 thr / thr := by positivity
  constructor <;> nlinarith

theorem quadTerm_zero {thr e : ℝ} (h : 0 < thr) (he : 0 ≤ e) : quadTerm e thr = 0 ↔ e = 0 := by
  unfold quadTerm
  rw [neg_eq_zero, sq_eq_zero_iff, div_eq_zero_iff, or_iff_left h.ne']
  unfold clip
  constructor
  · intro hz
    rcases min_choice (max e 0) thr with hm | hm
    · rw [hm, max_eq_left he] at hz; exact hz
    · rw [hm] at hz; exact absurd hz h.ne'
  · rintro rfl
    simp [h.le]

theorem norm2_eq_zero_iff (v : V2) : norm2 v = 0 ↔ v = 0 := by
  unfold norm2
  rw [sqrt_eq_zero (by positivity)]
  constructor
  · intro h
    have a1 := sq_nonneg v.1
    have a2 := sq_nonneg v.2
    have h1 : v.1 ^ 2 = 0 := by linarith
    have h2 : v.2 ^ 2 = 0 := by linarith
    exact Prod.ext (by simpa using h1) (by simpa using h2)
  · rintro rfl; simp

theorem phiMax_pos (P : Params) : 0 < P.phiMax := by
  unfold Params.phiMax deg2rad
  positivity

theorem wrapPi_eq_zero (a : ℝ) : wrapPi a = 0 ↔ ∃ k : ℤ, a = 2 * π * k := by
  constructor
  · intro h
    rw [wrapPi_eq] at h
    exact ⟨_, by linarith⟩
  · rintro ⟨k, rfl⟩
    have := wrapPi_add_turns 0 k
    rw [zero_add] at this
    rw [this, wrapPi_zero]

theorem wrap_same (a b : ℝ) : wrapPi (a - b) = 0 ↔ Spec.SameDir a b := wrapPi_eq_zero _

theorem wrap_opp (a b : ℝ) : wrapPi (a - b - π) = 0 ↔ Spec.SameDir a (b + π) := by
  rw [show a - b - π = a - (b + π) by ring]; exact wrapPi_eq_zero _

theorem opp_ne {a b : ℝ} (h : Spec.SameDir a b) : wrapPi (a - b - π) ≠ 0 := by
  rw [Ne, wrap_opp]
  rintro ⟨k, hk⟩
  obtain ⟨m, hm⟩ := h
  have hp := pi_pos
  have e : π * (2 * ((m : ℝ) - k) - 1) = 0 := by linarith
  rcases mul_eq_zero.1 e with h | h
  · exact hp.ne' h
  · have : (2 * (m - k) : ℤ) = 1 := by
      have : ((2 * (m - k) : ℤ) : ℝ) = ((1 : ℤ) : ℝ) := by push_cast; linarith
      exact_mod_cast this
    omega

/-- Both heading errors vanish exactly for matching (or, without preference, reversed) headings. -/
theorem headErr_zero (pref : ℤ) (a1 a2 r1 r2 : ℝ) :
    (headErr pref a1 a2 r1 r2).1 = 0 ∧ (headErr pref a1 a2 r1 r2).2 = 0 ↔
      (Spec.SameDir a1 r1 ∧ Spec.SameDir a2 r2) ∨
      (pref = 0 ∧ Spec.SameDir a1 (r1 + π) ∧ Spec.SameDir a2 (r2 + π)) := by
  rw [← wrap_opp, ← wrap_opp, ← wrap_same, ← wrap_same]
  simp only [headErr]
  by_cases hp : pref = 0
  · simp only [hp, if_true, true_and]
    by_cases hd : |wrapPi (a1 - r1)| + |wrapPi (a2 - r2)| <
        |wrapPi (a1 - r1 - π)| + |wrapPi (a2 - r2 - π)|
    · simp only [hd, if_true]
      constructor
      · exact Or.inl
      · rintro (h | h)
        · exact h
        · rw [h.1, h.2, abs_zero, add_zero] at hd
          exact absurd hd (not_lt.2 (by positivity))
    · simp only [hd, if_false]
      constructor
      · exact Or.inr
      · rintro (h | h)
        · exfalso
          apply hd
          rw [h.1, h.2, abs_zero, add_zero]
          have := abs_pos.2 (opp_ne ((wrap_same _ _).1 h.1))
          have := abs_nonneg (wrapPi (a2 - r2 - π))
          linarith
        · exact h
  · simp [hp]

theorem rowLogpd_range (P : Params) (h1 : 0 ≤ P.refPosWeight) (h2 : 0 ≤ P.refTheta1Weight)
    (h3 : 0 ≤ P.refTheta2Weight) (ht : 0 < P.refRewardThreshold) (pref : ℤ) (tr tp : V2)
    (a1 a2 : ℝ) (ref : Q4 × Bool) :
    -(P.refPosWeight + P.refTheta1Weight + P.refTheta2Weight) ≤ rowLogpd P pref tr tp a1 a2 ref ∧
      rowLogpd P pref tr tp a1 a2 ref ≤ 0 := by
  simp only [rowLogpd]
  have q1 := quadTerm_range ht (norm2 ((if pref = 1 ∨ pref = 2 then tr else tp) -
    (ref.1.px, ref.1.py)))
  have q2 := quadTerm_range (phiMax_pos P) |if ref.2 then
    (headErr pref a1 a2 ref.1.th1 ref.1.th2).1 else 0|
  have q3 := quadTerm_range (phiMax_pos P) |if ref.2 then
    (headErr pref a1 a2 ref.1.th1 ref.1.th2).2 else 0|
  constructor <;> nlinarith

theorem rowLogpd_zero (P : Params) (h1 : 0 < P.refPosWeight) (h2 : 0 < P.refTheta1Weight)
    (h3 : 0 < P.refTheta2Weight) (ht : 0 < P.refRewardThreshold) (pref : ℤ) (tr tp : V2)
    (a1 a2 : ℝ) (ref : Q4 × Bool) :
    rowLogpd P pref tr tp a1 a2 ref = 0 ↔ Spec.RowMatch pref ref.2 (Spec.tracked pref tr tp)
      (ref.1.px, ref.1.py) a1 a2 ref.1.th1 ref.1.th2 := by
  simp only [rowLogpd, Spec.RowMatch, ← headErr_zero]
  change _ ↔ (if pref = 1 ∨ pref = 2 then tr else tp) = _ ∧ _
  set pos := if pref = 1 ∨ pref = 2 then tr else tp
  set e := headErr pref a1 a2 ref.1.th1 ref.1.th2
  have q1 := quadTerm_range ht (norm2 (pos - (ref.1.px, ref.1.py)))
  have q2 := quadTerm_range (phiMax_pos P) |if ref.2 then e.1 else 0|
  have q3 := quadTerm_range (phiMax_pos P) |if ref.2 then e.2 else 0|
  have z1 := quadTerm_zero ht (e := norm2 (pos - (ref.1.px, ref.1.py))) (sqrt_nonneg _)
  have z2 := quadTerm_zero (phiMax_pos P) (abs_nonneg (if ref.2 then e.1 else 0))
  have z3 := quadTerm_zero (phiMax_pos P) (abs_nonneg (if ref.2 then e.2 else 0))
  rw [norm2_eq_zero_iff, sub_eq_zero] at z1
  rw [abs_eq_zero] at z2 z3
  constructor
  · intro h
    have s1 : quadTerm (norm2 (pos - (ref.1.px, ref.1.py))) P.refRewardThreshold = 0 := by
      nlinarith
    have s2 : quadTerm |if ref.2 then e.1 else 0| P.phiMax = 0 := by nlinarith
    have s3 : quadTerm |if ref.2 then e.2 else 0| P.phiMax = 0 := by nlinarith
    refine ⟨z1.1 s1, fun hm => ⟨?_, ?_⟩⟩
    · simpa [hm] using z2.1 s2
    · simpa [hm] using z3.1 s3
  · rintro ⟨hp, hm⟩
    have e2 : (if ref.2 then e.1 else 0) = 0 := by
      by_cases hb : ref.2 = true
      · simp [hb, (hm hb).1]
      · simp [hb]
    have e3 : (if ref.2 then e.2 else 0) = 0 := by
      by_cases hb : ref.2 = true
      · simp [hb, (hm hb).2]
      · simp [hb]
    rw [z1.2 hp, z2.2 e2, z3.2 e3]
    ring

theorem sum_nonpos' (l : List ℝ) (h : ∀ x ∈ l, x ≤ 0) : l.sum ≤ 0 := by
  induction l with
  | nil => simp
  | cons a l ih =>
    have := h a (by simp)
    have := ih (fun x hx => h x (by simp [hx]))
    simp only [List.sum_cons]
    linarith

theorem sum_eq_zero_iff_of_nonpos (l : List ℝ) (h : ∀ x ∈ l, x ≤ 0) :
    l.sum = 0 ↔ ∀ x ∈ l, x = 0 := by
  induction l with
  | nil => simp
  | cons a l ih =>
    have ha := h a (by simp)
    have hl : l.sum ≤ 0 := sum_nonpos' l (fun x hx => h x (by simp [hx]))
    have ih := ih (fun x hx => h x (by simp [hx]))
    simp only [List.sum_cons, List.mem_cons, forall_eq_or_imp]
    rw [← ih]
    constructor
    · intro hs; constructor <;> linarith
    · rintro ⟨rfl, hs⟩; rw [hs]; ring

theorem mean_eq_zero_iff {l : List ℝ} (hl : l ≠ []) (h : ∀ x ∈ l, x ≤ 0) :
    mean l = 0 ↔ ∀ x ∈ l, x = 0 := by
  rw [← sum_eq_zero_iff_of_nonpos l h]
  unfold mean
  rw [div_eq_zero_iff]
  have : (l.length : ℝ) ≠ 0 := by
    have := List.length_pos_iff.mpr hl
    positivity
  exact or_iff_left this

theorem trailerPos_eq (P : Params) (q : Q4) : TT2d.trailerPos P q = Spec.trailerAxle P q := by
  simp only [TT2d.trailerPos, TT2d.hitchPoint, Spec.trailerAxle, Spec.frame, Prod.mk.injEq]
  constructor <;> ring

end Demo

/-- Non-negative weights, positive threshold. -/
structure ScoreOK (P : Params) : Prop where
  pos : 0 ≤ P.refPosWeight
  th1 : 0 ≤ P.refTheta1Weight
  th2 : 0 ≤ P.refTheta2Weight
  thr : 0 < P.refRewardThreshold

theorem zip_ne_nil {α β : Type} {l : List α} {m : List β} (h : l.length = m.length) (hl : l ≠ []) :
    l.zip m ≠ [] := by
  intro hz
  have h2 : (l.zip m).length = 0 := by rw [hz]; rfl
  rw [List.length_zip, ← h, min_self, List.length_eq_zero_iff] at h2
  exact hl h2

/-- **C50, range** (tractor-trailer; the acceleration robot calls it with the pose part). -/
theorem C50_range (P : Params) (hP : ScoreOK P) (xref : List (Q4 × Bool)) (pref : ℤ) (xs : List Q4)
    (hlen : xs.length = xref.length) (hne : xs ≠ []) :
    -(P.refPosWeight + P.refTheta1Weight + P.refTheta2Weight) ≤ Demo.evalXref P xref pref xs ∧
      Demo.evalXref P xref pref xs ≤ 0 := by
  unfold Demo.evalXref
  rw [← List.map_uncurry_zip_eq_zipWith]
  refine mean_mem_Icc (by simpa using zip_ne_nil hlen hne) ?_
  intro x hx
  obtain ⟨⟨q, r⟩, _, rfl⟩ := List.mem_map.1 hx
  exact Demo.rowLogpd_range P hP.pos hP.th1 hP.th2 hP.thr _ _ _ _ _ _

theorem wit_scoreOK : ScoreOK (Params.default [] []) := by
  constructor <;> norm_num [Params.default]

example := C50_range (Params.default [] []) wit_scoreOK [(⟨0, 0, 0, 0⟩, false), (⟨1, 0, 0, 0⟩, true)] 0
  [⟨0, 3, 1, 0⟩, ⟨1, 2, 0.5, 0⟩] rfl (by simp)

/-- **C50, range** for the train. -/
theorem C50_range_ntrailer (T : NTrailer) (hP : ScoreOK T.toParams) (xref : List (Q4 × Bool))
    (pref : ℤ) (xs : List QN) (hlen : xs.length = xref.length) (hne : xs ≠ []) :
    -(T.refPosWeight + T.refTheta1Weight + T.refTheta2Weight) ≤ Demo.evalXrefN T xref pref xs ∧
      Demo.evalXrefN T xref pref xs ≤ 0 := by
  unfold Demo.evalXrefN
  rw [← List.map_uncurry_zip_eq_zipWith]
  refine mean_mem_Icc (by simpa using zip_ne_nil hlen hne) ?_
  intro x hx
  obtain ⟨⟨q, r⟩, _, rfl⟩ := List.mem_map.1 hx
  exact Demo.rowLogpd_range T.toParams hP.pos hP.th1 hP.th2 hP.thr _ _ _ _ _ _

example := C50_range_ntrailer Wit.train (by constructor <;> norm_num [Wit.train, Wit.params, Params.default])
  [(⟨0, 0, 0, 0⟩, true)] 0 [⟨0, 3, 1, [0, 0]⟩] rfl (by simp)

/-- **C50, zero exactly on a match** (tractor-trailer): the score is 0 iff in every row the tracked
point is at the reference position and, on the final leg, the headings agree. -/
theorem C50_zero_iff (P : Params) (h1 : 0 < P.refPosWeight) (h2 : 0 < P.refTheta1Weight)
    (h3 : 0 < P.refTheta2Weight) (ht : 0 < P.refRewardThreshold) (xref : List (Q4 × Bool))
    (pref : ℤ) (xs : List Q4) (hlen : xs.length = xref.length) (hne : xs ≠ []) :
    Demo.evalXref P xref pref xs = 0 ↔ ∀ p ∈ xs.zip xref,
      Spec.RowMatch pref p.2.2 (Spec.tracked pref (p.1.px, p.1.py) (Spec.trailerAxle P p.1))
        (p.2.1.px, p.2.1.py) p.1.th1 p.1.th2 p.2.1.th1 p.2.1.th2 := by
  have ht' : ∀ q : Q4, TT2d.trailerPos P q = Spec.trailerAxle P q := by
    intro q
    exact Demo.trailerPos_eq P q
  unfold Demo.evalXref
  rw [← List.map_uncurry_zip_eq_zipWith, Demo.mean_eq_zero_iff (by simpa using zip_ne_nil hlen hne)]
  · simp only [List.forall_mem_map]
    refine forall₂_congr ?_
    rintro ⟨q, r⟩ _
    simp only [Function.uncurry]
    rw [Demo.rowLogpd_zero P h1 h2 h3 ht, ht']
  · intro x hx
    obtain ⟨⟨q, r⟩, _, rfl⟩ := List.mem_map.1 hx
    exact (Demo.rowLogpd_range P h1.le h2.le h3.le ht _ _ _ _ _ _).2

example := C50_zero_iff (Params.default [] []) (by norm_num [Params.default])
  (by norm_num [Params.default]) (by norm_num [Params.default]) (by norm_num [Params.default])
  [(⟨0, 0, 0, 0⟩, false), (⟨1, 0, 0, 0⟩, true)] 0 [⟨0, 3, 1, 0⟩, ⟨1, 2, 0.5, 0⟩] rfl (by simp)

/-- **C50, mask** (tractor-trailer): two trajectories with the same tracked points whose headings
agree on the final leg get the same score, whatever their headings are elsewhere. -/
theorem C50_mask (P : Params) (xref : List (Q4 × Bool)) (pref : ℤ) (xs ys : List Q4)
    (hx : xs.length = xref.length) (hy : ys.length = xref.length)
    (h : ∀ i (h : i < xref.length),
      Spec.tracked pref (xs[i].px, xs[i].py) (Spec.trailerAxle P xs[i]) =
        Spec.tracked pref (ys[i].px, ys[i].py) (Spec.trailerAxle P ys[i]) ∧
      (xref[i].2 = true → xs[i].th1 = ys[i].th1 ∧ xs[i].th2 = ys[i].th2)) :
    Demo.evalXref P xref pref xs = Demo.evalXref P xref pref ys := by
  have ht' : ∀ q : Q4, TT2d.trailerPos P q = Spec.trailerAxle P q := by
    intro q
    exact Demo.trailerPos_eq P q
  unfold Demo.evalXref
  congr 1
  apply List.ext_getElem (by simp [hx, hy])
  intro i a b
  have hi : i < xref.length := by simp at a; omega
  obtain ⟨h1, h2⟩ := h i hi
  simp only [List.getElem_zipWith, Demo.rowLogpd, ht']
  have e1 : (if pref = 1 ∨ pref = 2 then ((xs[i].px, xs[i].py) : V2) else Spec.trailerAxle P xs[i]) =
      if pref = 1 ∨ pref = 2 then (ys[i].px, ys[i].py) else Spec.trailerAxle P ys[i] := h1
  rw [e1]
  by_cases hm : xref[i].2 = true
  · rw [(h2 hm).1, (h2 hm).2]
  · simp [hm]

/-- Two different trajectories that agree where the score looks. -/
example := C50_mask (Params.default [] []) [(⟨0, 0, 0, 0⟩, false)] 1 [⟨0, 3, 1, 0⟩] [⟨0, 3, 2, 0.7⟩] rfl rfl
  (by intro i h
      have : i = 0 := by simpa using h
      subst this
      simp [Spec.tracked])

/-- **C50, zero exactly on a match** (train): the tracked point is the reported last trailer
position, the second heading the first trailer's. -/
theorem C50_zero_iff_ntrailer (T : NTrailer) (h1 : 0 < T.refPosWeight) (h2 : 0 < T.refTheta1Weight)
    (h3 : 0 < T.refTheta2Weight) (ht : 0 < T.refRewardThreshold) (xref : List (Q4 × Bool))
    (pref : ℤ) (xs : List QN) (hlen : xs.length = xref.length) (hne : xs ≠ []) :
    Demo.evalXrefN T xref pref xs = 0 ↔ ∀ p ∈ xs.zip xref,
      Spec.RowMatch pref p.2.2 (Spec.tracked pref (p.1.px, p.1.py) (T.lastTrailerPos p.1))
        (p.2.1.px, p.2.1.py) p.1.th0 (p.1.ths.getD 0 0) p.2.1.th1 p.2.1.th2 := by
  unfold Demo.evalXrefN
  rw [← List.map_uncurry_zip_eq_zipWith, Demo.mean_eq_zero_iff (by simpa using zip_ne_nil hlen hne)]
  · simp only [List.forall_mem_map]
    refine forall₂_congr ?_
    rintro ⟨q, r⟩ _
    simp only [Function.uncurry]
    rw [Demo.rowLogpd_zero T.toParams h1 h2 h3 ht]
  · intro x hx
    obtain ⟨⟨q, r⟩, _, rfl⟩ := List.mem_map.1 hx
    exact (Demo.rowLogpd_range T.toParams h1.le h2.le h3.le ht _ _ _ _ _ _).2

example := C50_zero_iff_ntrailer Wit.train (by norm_num [Wit.train, Wit.params, Params.default])
  (by norm_num [Wit.train, Wit.params, Params.default])
  (by norm_num [Wit.train, Wit.params, Params.default])
  (by norm_num [Wit.train, Wit.params, Params.default]) [(⟨0, 0, 0, 0⟩, true)] 0 [⟨0, 3, 1, [0, 0]⟩] rfl
  (by simp)

/-- The bicycle's row is the tractor row with the single heading in both slots and no weight on the
second. -/
theorem rowLogpdBicycle_range (P : Params) (h1 : 0 ≤ P.refPosWeight) (h2 : 0 ≤ P.refTheta1Weight)
    (ht : 0 < P.refRewardThreshold) (pref : ℤ) (q : Q3) (ref : Q3 × Bool) :
    -(P.refPosWeight + P.refTheta1Weight) ≤ Demo.rowLogpdBicycle P pref q ref ∧
      Demo.rowLogpdBicycle P pref q ref ≤ 0 := by
  simp only [Demo.rowLogpdBicycle]
  have q1 := Demo.quadTerm_range ht (norm2 ((q.px, q.py) - (ref.1.px, ref.1.py)))
  have q2 := Demo.quadTerm_range (Demo.phiMax_pos P) |if ref.2 then (if pref = 0 then
    (if |wrapPi (q.th1 - ref.1.th1)| < |wrapPi (q.th1 - ref.1.th1 - π)| then
      wrapPi (q.th1 - ref.1.th1) else wrapPi (q.th1 - ref.1.th1 - π))
    else wrapPi (q.th1 - ref.1.th1)) else 0|
  constructor <;> nlinarith

/-- **C50, range** for the bicycle. -/
theorem C50_range_bicycle (P : Params) (hP : ScoreOK P) (xref : List (Q3 × Bool)) (pref : ℤ)
    (xs : List Q3) (hlen : xs.length = xref.length) (hne : xs ≠ []) :
    -(P.refPosWeight + P.refTheta1Weight) ≤ Demo.evalXrefBicycle P xref pref xs ∧
      Demo.evalXrefBicycle P xref pref xs ≤ 0 := by
  unfold Demo.evalXrefBicycle
  rw [← List.map_uncurry_zip_eq_zipWith]
  refine mean_mem_Icc (by simpa using zip_ne_nil hlen hne) ?_
  intro x hx
  obtain ⟨⟨q, r⟩, _, rfl⟩ := List.mem_map.1 hx
  exact rowLogpdBicycle_range P hP.pos hP.th1 hP.thr _ _ _

example := C50_range_bicycle (Params.default [] []) wit_scoreOK [(⟨0, 0, 0⟩, false), (⟨1, 0, 0⟩, true)] 0
  [⟨0, 3, 1⟩, ⟨1, 2, 0.5⟩] rfl (by simp)

theorem rowLogpdBicycle_zero (P : Params) (h1 : 0 < P.refPosWeight) (h2 : 0 < P.refTheta1Weight)
    (ht : 0 < P.refRewardThreshold) (pref : ℤ) (q : Q3) (ref : Q3 × Bool) :
    Demo.rowLogpdBicycle P pref q ref = 0 ↔ Spec.RowMatch pref ref.2 (q.px, q.py)
      (ref.1.px, ref.1.py) q.th1 q.th1 ref.1.th1 ref.1.th1 := by
  have e : ∀ w, Demo.rowLogpd { P with refTheta2Weight := w } pref (q.px, q.py) (q.px, q.py) q.th1
      q.th1 (⟨ref.1.px, ref.1.py, ref.1.th1, ref.1.th1⟩, ref.2) = 0 ↔
      Demo.rowLogpdBicycle P pref q ref
        + w * Demo.quadTerm |if ref.2 then
          (Demo.headErr pref q.th1 q.th1 ref.1.th1 ref.1.th1).2 else 0| P.phiMax = 0 := by
    intro w
    have hlt : ∀ a b : ℝ, |a| + |a| < |b| + |b| ↔ |a| < |b| := by
      intro a b; constructor <;> intro h <;> linarith
    simp only [Demo.rowLogpd, Demo.rowLogpdBicycle, Demo.headErr, ite_self, hlt, Params.phiMax]
    by_cases hp : pref = 0
    · simp only [hp, if_true]
    · simp only [hp, if_false]
  have z := Demo.rowLogpd_zero { P with refTheta2Weight := 1 } h1 h2 one_pos ht pref (q.px, q.py)
    (q.px, q.py) q.th1 q.th1 (⟨ref.1.px, ref.1.py, ref.1.th1, ref.1.th1⟩, ref.2)
  rw [e 1] at z
  have ht' : Spec.tracked pref (q.px, q.py) (q.px, q.py) = (q.px, q.py) := by simp [Spec.tracked]
  rw [ht'] at z
  rw [← z]
  have r1 := (rowLogpdBicycle_range P h1.le h2.le ht pref q ref).2
  have r2 := (Demo.quadTerm_range (Demo.phiMax_pos P) |if ref.2 then
          (Demo.headErr pref q.th1 q.th1 ref.1.th1 ref.1.th1).2 else 0|).2
  constructor
  · intro h0
    rw [h0, zero_add, one_mul]
    rw [Demo.quadTerm_zero (Demo.phiMax_pos P) (abs_nonneg _), abs_eq_zero]
    by_cases hm : ref.2 = true
    · simp only [hm, if_true]
      simp only [Demo.rowLogpdBicycle, hm, if_true] at h0
      have q1 := Demo.quadTerm_range ht (norm2 ((q.px, q.py) - (ref.1.px, ref.1.py)))
      have hlt : ∀ a b : ℝ, |a| + |a| < |b| + |b| ↔ |a| < |b| := by
        intro a b; constructor <;> intro h <;> linarith
      simp only [Demo.headErr, hlt]
      generalize wrapPi (q.th1 - ref.1.th1) = d at *
      generalize wrapPi (q.th1 - ref.1.th1 - π) = o at *
      have q2 := Demo.quadTerm_range (Demo.phiMax_pos P)
        |if pref = 0 then (if |d| < |o| then d else o) else d|
      have : Demo.quadTerm |if pref = 0 then (if |d| < |o| then d else o) else d| P.phiMax = 0 := by
        nlinarith
      rw [Demo.quadTerm_zero (Demo.phiMax_pos P) (abs_nonneg _), abs_eq_zero] at this
      by_cases hp : pref = 0
      · simpa [hp] using this
      · simpa [hp] using this
    · simp [hm]
  · intro hs; linarith

/-- **C50, zero exactly on a match** (bicycle). -/
theorem C50_zero_iff_bicycle (P : Params) (h1 : 0 < P.refPosWeight) (h2 : 0 < P.refTheta1Weight)
    (ht : 0 < P.refRewardThreshold) (xref : List (Q3 × Bool)) (pref : ℤ) (xs : List Q3)
    (hlen : xs.length = xref.length) (hne : xs ≠ []) :
    Demo.evalXrefBicycle P xref pref xs = 0 ↔ ∀ p ∈ xs.zip xref,
      Spec.RowMatch pref p.2.2 (p.1.px, p.1.py) (p.2.1.px, p.2.1.py) p.1.th1 p.1.th1 p.2.1.th1
        p.2.1.th1 := by
  unfold Demo.evalXrefBicycle
  rw [← List.map_uncurry_zip_eq_zipWith, Demo.mean_eq_zero_iff (by simpa using zip_ne_nil hlen hne)]
  · simp only [List.forall_mem_map]
    refine forall₂_congr ?_
    rintro ⟨q, r⟩ _
    simp only [Function.uncurry]
    rw [rowLogpdBicycle_zero P h1 h2 ht]
  · intro x hx
    obtain ⟨⟨q, r⟩, _, rfl⟩ := List.mem_map.1 hx
    exact (rowLogpdBicycle_range P h1.le h2.le ht _ _ _).2

example := C50_zero_iff_bicycle (Params.default [] []) (by norm_num [Params.default])
  (by norm_num [Params.default]) (by norm_num [Params.default])
  [(⟨0, 0, 0⟩, false), (⟨1, 0, 0⟩, true)] 0 [⟨0, 3, 1⟩, ⟨1, 2, 0.5⟩] rfl (by simp)

/-- **C50, mask** (bicycle). -/
theorem C50_mask_bicycle (P : Params) (xref : List (Q3 × Bool)) (pref : ℤ) (xs ys : List Q3)
    (hx : xs.length = xref.length) (hy : ys.length = xref.length)
    (h : ∀ i (h : i < xref.length), xs[i].px = ys[i].px ∧ xs[i].py = ys[i].py ∧
      (xref[i].2 = true → xs[i].th1 = ys[i].th1)) :
    Demo.evalXrefBicycle P xref pref xs = Demo.evalXrefBicycle P xref pref ys := by
  unfold Demo.evalXrefBicycle
  congr 1
  apply List.ext_getElem (by simp [hx, hy])
  intro i a b
  have hi : i < xref.length := by simp at a; omega
  obtain ⟨h1, h2, h3⟩ := h i hi
  simp only [List.getElem_zipWith, Demo.rowLogpdBicycle, h1, h2]
  by_cases hm : xref[i].2 = true
  · rw [h3 hm]
  · simp [hm]

example := C50_mask_bicycle (Params.default [] []) [(⟨0, 0, 0⟩, false)] 0 [⟨0, 3, 1⟩] [⟨0, 3, 2⟩] rfl rfl
  (by intro i h
      have : i = 0 := by simpa using h
      subst this
      simp)

/-- **C50, mask** (train): same reported last-trailer (or tractor) points, same first two headings on
the final leg. -/
theorem C50_mask_ntrailer (T : NTrailer) (xref : List (Q4 × Bool)) (pref : ℤ) (xs ys : List QN)
    (hx : xs.length = xref.length) (hy : ys.length = xref.length)
    (h : ∀ i (h : i < xref.length),
      Spec.tracked pref (xs[i].px, xs[i].py) (T.lastTrailerPos xs[i]) =
        Spec.tracked pref (ys[i].px, ys[i].py) (T.lastTrailerPos ys[i]) ∧
      (xref[i].2 = true → xs[i].th0 = ys[i].th0 ∧ xs[i].ths.getD 0 0 = ys[i].ths.getD 0 0)) :
    Demo.evalXrefN T xref pref xs = Demo.evalXrefN T xref pref ys := by
  unfold Demo.evalXrefN
  congr 1
  apply List.ext_getElem (by simp [hx, hy])
  intro i a b
  have hi : i < xref.length := by simp at a; omega
  obtain ⟨h1, h2⟩ := h i hi
  simp only [List.getElem_zipWith, Demo.rowLogpd]
  have e1 : (if pref = 1 ∨ pref = 2 then ((xs[i].px, xs[i].py) : V2) else T.lastTrailerPos xs[i]) =
      if pref = 1 ∨ pref = 2 then (ys[i].px, ys[i].py) else T.lastTrailerPos ys[i] := h1
  rw [e1]
  by_cases hm : xref[i].2 = true
  · rw [(h2 hm).1, (h2 hm).2]
  · simp [hm]

example := C50_mask_ntrailer Wit.train [(⟨0, 0, 0, 0⟩, false)] 1 [⟨0, 3, 1, [0, 0]⟩] [⟨0, 3, 2, [0.7, 1]⟩] rfl
  rfl (by intro i h
          have : i = 0 := by simpa using h
          subst this
          simp [Spec.tracked])

theorem mem_zip_self {α : Type} {l : List α} {a b : α} (h : (a, b) ∈ l.zip l) : a = b := by
  induction l with
  | nil => simp at h
  | cons x l ih =>
    simp only [List.zip_cons_cons, List.mem_cons, Prod.mk.injEq] at h
    rcases h with ⟨rfl, rfl⟩ | h
    · rfl
    · exact ih h

theorem sameDir_refl (a : ℝ) : Spec.SameDir a a := ⟨0, by simp⟩

/-- **C50, the demonstration against itself**: with a forward preference a trajectory equal to the
demonstration has score 0. -/
theorem C50_self_score_forward (P : Params) (h1 : 0 < P.refPosWeight) (h2 : 0 < P.refTheta1Weight)
    (h3 : 0 < P.refTheta2Weight) (ht : 0 < P.refRewardThreshold) (xref : List (Q4 × Bool))
    (hne : xref ≠ []) (pref : ℤ) (hp : pref = 1 ∨ pref = 2) :
    Demo.evalXref P xref pref (xref.map Prod.fst) = 0 := by
  rw [C50_zero_iff P h1 h2 h3 ht xref pref _ (by simp) (by simpa using hne)]
  intro p hp'
  rw [List.zip_map_left, List.mem_map] at hp'
  obtain ⟨⟨a, b⟩, hab, rfl⟩ := hp'
  have : a = b := mem_zip_self hab
  subst this
  refine ⟨by simp [Spec.tracked, hp], fun _ => Or.inl ⟨sameDir_refl _, sameDir_refl _⟩⟩

example := C50_self_score_forward (Params.default [] []) (by norm_num [Params.default])
  (by norm_num [Params.default]) (by norm_num [Params.default]) (by norm_num [Params.default])
  [(⟨0, 0, 0, 0⟩, false), (⟨1, 0, 0, 0⟩, true)] (by simp) 1 (Or.inl rfl)

/-- **C50, the demonstration against itself**: for every other preference it is strictly negative
as soon as the trailer axle is not at the tractor point (`l2 ≠ lh` in length), because the trailer
is compared with the tractor's path. -/
theorem C50_self_score_trailer (P : Params) (h1 : 0 < P.refPosWeight) (h2 : 0 < P.refTheta1Weight)
    (h3 : 0 < P.refTheta2Weight) (ht : 0 < P.refRewardThreshold) (hl : |P.lh| ≠ |P.l2|)
    (xref : List (Q4 × Bool)) (hne : xref ≠ []) (pref : ℤ) (hp : ¬ (pref = 1 ∨ pref = 2)) :
    Demo.evalXref P xref pref (xref.map Prod.fst) < 0 := by
  have hr := (C50_range P ⟨h1.le, h2.le, h3.le, ht⟩ xref pref (xref.map Prod.fst) (by simp)
    (by simpa using hne)).2
  refine lt_of_le_of_ne hr ?_
  rw [Ne, C50_zero_iff P h1 h2 h3 ht xref pref _ (by simp) (by simpa using hne)]
  intro h
  cases xref with
  | nil => exact hne rfl
  | cons r l =>
    have := (h (r.1, r) (by simp)).1
    simp only [Spec.tracked, hp, if_false, Spec.trailerAxle, Spec.frame, Prod.mk.injEq] at this
    obtain ⟨e1, e2⟩ := this
    have c1 := cos_sq_add_sin_sq r.1.th1
    have c2 := cos_sq_add_sin_sq r.1.th2
    apply hl
    rw [← sq_eq_sq_iff_abs_eq_abs]
    have a1 : P.lh * cos r.1.th1 = -(P.l2 * cos r.1.th2) := by linarith
    have a2 : P.lh * sin r.1.th1 = -(P.l2 * sin r.1.th2) := by linarith
    calc P.lh ^ 2 = (P.lh * cos r.1.th1) ^ 2 + (P.lh * sin r.1.th1) ^ 2 := by
          linear_combination -P.lh ^ 2 * c1
      _ = P.l2 ^ 2 := by rw [a1, a2]; linear_combination P.l2 ^ 2 * c2

example := C50_self_score_trailer (Params.default [] []) (by norm_num [Params.default])
  (by norm_num [Params.default]) (by norm_num [Params.default]) (by norm_num [Params.default])
  (by norm_num [Params.default]) [(⟨0, 0, 0, 0⟩, false), (⟨1, 0, 0, 0⟩, true)] (by simp) 0 (by norm_num)

/-- Non-vacuity: the default vehicle meets all hypotheses on weights, thresholds and lengths. -/
example : ScoreOK (Params.default [] []) ∧ 0 < (Params.default [] []).refPosWeight ∧
    |(Params.default [] []).lh| ≠ |(Params.default [] []).l2| := by
  refine ⟨⟨?_, ?_, ?_, ?_⟩, ?_, ?_⟩ <;> norm_num [Params.default]

/-! ## C48 for the four robots -/

/-- **C48** for `TractorTrailer2d`. -/
theorem C48_tt2d (T : TT2d) (pref : ℤ) (hH : 4 ≤ T.H) : ∃ rows path, T.demo pref = .ok rows ∧
    Spec.Chosen T.toParams true (T.x0.px, T.x0.py) (T.xg.px, T.xg.py) path ∧
    Spec.Follows path T.H T.xg rows :=
  C48_wellformed T.toParams true pref (T.x0.px, T.x0.py) T.xg hH

example := C48_tt2d Wit.tt 0 (by norm_num [Wit.tt, Wit.params, Params.default])

/-- **C48** for `AccTractorTrailer2d`: rows are poses, the last one the goal pose. -/
theorem C48_acc (T : Acc) (pref : ℤ) (hH : 4 ≤ T.H) : ∃ rows path, T.demo pref = .ok rows ∧
    Spec.Chosen T.toParams true (T.x0.px, T.x0.py) (T.xg.px, T.xg.py) path ∧
    Spec.Follows path T.H ⟨T.xg.px, T.xg.py, T.xg.th1, T.xg.th2⟩ rows :=
  C48_wellformed T.toParams true pref (T.x0.px, T.x0.py) T.xg.pose hH

example := C48_acc Wit.acc 0 (by norm_num [Wit.acc, Wit.params, Params.default])

/-- **C48** for `NTrailer2d`: the rows carry the tractor's and the first trailer's heading. -/
theorem C48_ntrailer (T : NTrailer) (pref : ℤ) (hH : 4 ≤ T.H) : ∃ rows path,
    T.demo pref = .ok rows ∧
    Spec.Chosen T.toParams true (T.x0.px, T.x0.py) (T.xg.px, T.xg.py) path ∧
    Spec.Follows path T.H ⟨T.xg.px, T.xg.py, T.xg.th0, T.xg.ths.getD 0 0⟩ rows :=
  C48_wellformed T.toParams true pref (T.x0.px, T.x0.py)
    ⟨T.xg.px, T.xg.py, T.xg.th0, T.xg.ths.getD 0 0⟩ hH

example := C48_ntrailer Wit.train 0 (by norm_num [Wit.train, Wit.params, Params.default])

/-- **C48** for `KinematicBicycle2d`: the rows are those of the tractor-trailer without the second
heading. -/
theorem C48_bicycle (T : Bicycle) (pref : ℤ) (hH : 4 ≤ T.H) : ∃ rows rows4 path,
    T.demo pref = .ok rows ∧
    rows = rows4.map (fun r : Q4 × Bool => (⟨r.1.px, r.1.py, r.1.th1⟩, r.2)) ∧
    Spec.Chosen T.toParams true (T.x0.px, T.x0.py) (T.xg.px, T.xg.py) path ∧
    Spec.Follows path T.H ⟨T.xg.px, T.xg.py, T.xg.th1, T.xg.th1⟩ rows4 := by
  obtain ⟨rows, path, h1, h2, h3⟩ := C48_wellformed T.toParams true pref (T.x0.px, T.x0.py)
    ⟨T.xg.px, T.xg.py, T.xg.th1, T.xg.th1⟩ hH
  refine ⟨_, rows, path, ?_, rfl, h2, h3⟩
  unfold Bicycle.demo
  rw [h1]

example := C48_bicycle Wit.bike 0 (by norm_num [Wit.bike, Wit.params, Params.default])

/-! ## The value of the demonstration itself -/

/-- `compute_demonstration_reward` of rows whose last element is known. -/
theorem rewardOf_last {Q : Type} (reward terminal : Q → ℝ) (w : ℝ) (rows : List Q) (g : Q)
    (h : rows.getLast? = some g) :
    Demo.rewardOf reward terminal w rows = mean (rows.map reward) + w * terminal g := by
  unfold Demo.rewardOf
  rw [h]
  rfl

/-- **C48 (value)** for `TractorTrailer2d`: the demonstration is worth the mean of the rewards of its rows plus
the weighted terminal reward of the goal pose, where it ends. -/
theorem C48_reward_tt2d (T : TT2d) (pref : ℤ) (hH : 4 ≤ T.H) : ∃ rows, T.demo pref = .ok rows ∧
    ∀ ext, (T.planEnv ext rows).rewXref =
      mean (rows.map fun r => TT2d.getReward T.toParams T.xg r.1)
        + T.terminalRewardWeight * TT2d.getTerminalReward T.toParams T.xg T.xg := by
  obtain ⟨rows, path, h1, h2, h3⟩ := C48_tt2d T pref hH
  refine ⟨rows, h1, fun ext => ?_⟩
  rw [TT2d.planEnv]
  simp only
  rw [rewardOf_last _ _ _ _ T.xg (by rw [List.getLast?_map, h3.goal]; rfl), List.map_map]
  rfl

example := C48_reward_tt2d Wit.tt 0 (by norm_num [Wit.tt, Wit.params, Params.default])

/-- **C48 (value)** for `AccTractorTrailer2d`: rewards of poses. -/
theorem C48_reward_acc (T : Acc) (pref : ℤ) (hH : 4 ≤ T.H) : ∃ rows, T.demo pref = .ok rows ∧
    ∀ ext, (T.planEnv ext rows).rewXref =
      mean (rows.map fun r => TT2d.getReward T.toParams T.xg.pose r.1)
        + T.terminalRewardWeight * TT2d.getTerminalReward T.toParams T.xg.pose T.xg.pose := by
  obtain ⟨rows, path, h1, h2, h3⟩ := C48_acc T pref hH
  refine ⟨rows, h1, fun ext => ?_⟩
  rw [Acc.planEnv]
  simp only
  rw [rewardOf_last _ _ _ _ T.xg.pose (by rw [List.getLast?_map, h3.goal]; rfl), List.map_map]
  rfl

example := C48_reward_acc Wit.acc 0 (by norm_num [Wit.acc, Wit.params, Params.default])

/-- **C48 (value)** for `KinematicBicycle2d`. -/
theorem C48_reward_bicycle (T : Bicycle) (pref : ℤ) (hH : 4 ≤ T.H) : ∃ rows, T.demo pref = .ok rows ∧
    ∀ ext, (T.planEnv ext rows).rewXref =
      mean (rows.map fun r => Bicycle.getReward T.toParams T.xg r.1)
        + T.terminalRewardWeight * Bicycle.getTerminalReward T.toParams T.xg T.xg := by
  obtain ⟨rows, rows4, path, h1, h2, h3, h4⟩ := C48_bicycle T pref hH
  refine ⟨rows, h1, fun ext => ?_⟩
  rw [Bicycle.planEnv]
  simp only
  rw [rewardOf_last _ _ _ _ T.xg (by
    rw [List.getLast?_map, h2, List.getLast?_map, h4.goal]; rfl), List.map_map]
  rfl

example := C48_reward_bicycle Wit.bike 0 (by norm_num [Wit.bike, Wit.params, Params.default])

/-- **C48 (value)** for `NTrailer2d`: rows have the first trailer's heading only, so the value is computed on
poses with a single trailer heading, at the end too. -/
theorem C48_reward_ntrailer (T : NTrailer) (pref : ℤ) (hH : 4 ≤ T.H) : ∃ rows, T.demo pref = .ok rows ∧
    ∀ guide, (T.planEnv guide rows).rewXref =
      mean (rows.map fun r => T.getReward ⟨r.1.px, r.1.py, r.1.th1, [r.1.th2]⟩)
        + T.terminalRewardWeight *
          T.getTerminalReward ⟨T.xg.px, T.xg.py, T.xg.th0, [T.xg.ths.getD 0 0]⟩ := by
  obtain ⟨rows, path, h1, h2, h3⟩ := C48_ntrailer T pref hH
  refine ⟨rows, h1, fun guide => ?_⟩
  rw [NTrailer.planEnv]
  simp only
  rw [rewardOf_last _ _ _ _ ⟨T.xg.px, T.xg.py, T.xg.th0, [T.xg.ths.getD 0 0]⟩
    (by rw [List.getLast?_map, h3.goal]; rfl), List.map_map]
  rfl

example := C48_reward_ntrailer Wit.train 0 (by norm_num [Wit.train, Wit.params, Params.default])

/-- The same for the bicycle: a trajectory equal to its demonstration has score 0. -/
theorem C50_self_score_bicycle (P : Params) (h1 : 0 < P.refPosWeight) (h2 : 0 < P.refTheta1Weight)
    (ht : 0 < P.refRewardThreshold) (xref : List (Q3 × Bool)) (hne : xref ≠ []) (pref : ℤ) :
    Demo.evalXrefBicycle P xref pref (xref.map Prod.fst) = 0 := by
  rw [C50_zero_iff_bicycle P h1 h2 ht xref pref _ (by simp) (by simpa using hne)]
  intro p hp'
  rw [List.zip_map_left, List.mem_map] at hp'
  obtain ⟨⟨a, b⟩, hab, rfl⟩ := hp'
  have : a = b := mem_zip_self hab
  subst this
  exact ⟨rfl, fun _ => Or.inl ⟨sameDir_refl _, sameDir_refl _⟩⟩

example := C50_self_score_bicycle (Params.default [] []) (by norm_num [Params.default])
  (by norm_num [Params.default]) (by norm_num [Params.default])
  [(⟨0, 0, 0⟩, false), (⟨1, 0, 0⟩, true)] (by simp) 0

end Mbd
