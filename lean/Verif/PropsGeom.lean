import Verif.Witness
import Verif.WrapLemmas
import Verif.SpecVehicle
import Verif.Bicycle
import Verif.Acc

/-!
# Properties of the collision and jackknife checks: C04, C05, C06, C07, C57, C58
-/

namespace Mbd

open Real

/-! ## C04: rectangle-rectangle check is exact -/

/-- C04. For rectangles with positive half sizes the check answers "collision" exactly when the
closed solid rectangles share a point. -/
theorem C04_rectRect_exact (c₁ c₂ : V2) (a₁ a₂ : ℝ) {l₁ w₁ l₂ w₂ : ℝ} (h1 : 0 < l₁)
    (h2 : 0 < w₁) (h3 : 0 < l₂) (h4 : 0 < w₂) :
    rectRect (boxCorners c₁ a₁ l₁ w₁) (boxCorners c₂ a₂ l₂ w₂) ↔
      ∃ p, p ∈ Spec.solidRect c₁ a₁ l₁ w₁ ∧ p ∈ Spec.solidRect c₂ a₂ l₂ w₂ :=
  rectRect_iff_intersect c₁ c₂ a₁ a₂ h1 h2 h3 h4

/-- Two overlapping unit squares, one rotated by 45 degrees, are reported. -/
example : rectRect (boxCorners (0, 0) 0 1 1) (boxCorners (1, 1) (π / 4) 1 1) :=
  (C04_rectRect_exact _ _ _ _ one_pos one_pos one_pos one_pos).mpr
    ⟨(1, 1), ⟨1, 1, by norm_num, by norm_num, by simp [Spec.frame]⟩,
      ⟨0, 0, by norm_num, by norm_num, by simp [Spec.frame]⟩⟩

/-- Two squares far apart are not reported. -/
example : ¬ rectRect (boxCorners (0, 0) 0 1 1) (boxCorners (9, 0) 0 1 1) := by
  rw [C04_rectRect_exact _ _ _ _ one_pos one_pos one_pos one_pos]
  rintro ⟨p, ⟨s, t, hs, _, rfl⟩, ⟨s', t', hs', _, e⟩⟩
  have e1 := congrArg Prod.fst e
  simp [Spec.frame] at e1
  obtain ⟨_, u⟩ := abs_le.mp hs
  obtain ⟨u', _⟩ := abs_le.mp hs'
  linarith

/-! ## corner arrays enclose solid rectangles -/

theorem hull_boxCorners (c : V2) (ang : ℝ) {hl hw : ℝ} (h1 : 0 ≤ hl) (h2 : 0 ≤ hw) :
    Spec.hull (boxCorners c ang hl hw) = Spec.solidRect c ang hl hw := by
  apply Set.Subset.antisymm
  · apply convexHull_min _ (solidRect_convex c ang hl hw)
    intro p hp
    simp only [boxCorners, placePoint_eq_frame, Set.mem_insert_iff, Set.mem_singleton_iff] at hp
    have e1 : |hl| ≤ hl := (abs_of_nonneg h1).le
    have e2 : |hw| ≤ hw := (abs_of_nonneg h2).le
    rcases hp with rfl | rfl | rfl | rfl
    all_goals exact ⟨_, _, by first | exact e1 | (rw [abs_neg]; exact e1),
      by first | exact e2 | (rw [abs_neg]; exact e2), rfl⟩
  · rintro p ⟨s, t, hs, ht, rfl⟩
    have par : ∀ h x : ℝ, 0 ≤ h → |x| ≤ h → ∃ l : ℝ, 0 ≤ l ∧ l ≤ 1 ∧ x = -h + l * (2 * h) := by
      intro h x hh hx
      obtain ⟨x1, x2⟩ := abs_le.mp hx
      rcases eq_or_lt_of_le hh with e | e
      · exact ⟨0, le_rfl, zero_le_one, by rw [← e] at x1 x2 ⊢; linarith⟩
      · exact ⟨(x + h) / (2 * h), by apply div_nonneg <;> linarith,
          by rw [div_le_one (by linarith)]; linarith, by field_simp; ring⟩
    obtain ⟨l, l0, l1, el⟩ := par hl s h1 hs
    obtain ⟨m, m0, m1, em⟩ := par hw t h2 ht
    set k := boxCorners c ang hl hw with hk
    have cv := convex_convexHull ℝ ({k.c0, k.c1, k.c2, k.c3} : Set V2)
    have i0 : k.c0 ∈ Spec.hull k := subset_convexHull _ _ (by simp)
    have i1 : k.c1 ∈ Spec.hull k := subset_convexHull _ _ (by simp)
    have i2 : k.c2 ∈ Spec.hull k := subset_convexHull _ _ (by simp)
    have i3 : k.c3 ∈ Spec.hull k := subset_convexHull _ _ (by simp)
    have A := cv i0 i1 (sub_nonneg.mpr m1) m0 (by ring)
    have B := cv i3 i2 (sub_nonneg.mpr m1) m0 (by ring)
    have Q := cv A B (sub_nonneg.mpr l1) l0 (by ring)
    have : Spec.frame c ang s t = (1 - l) • ((1 - m) • k.c0 + m • k.c1)
        + l • ((1 - m) • k.c3 + m • k.c2) := by
      rw [hk, el, em]
      simp only [boxCorners, placePoint_eq_frame, Spec.frame]
      ext <;> simp <;> ring
    rw [this]; exact Q

/-- A rectangle given by its axle offsets as a body. -/
theorem body_eq_solidRect (a : V2) (ang rear front width : ℝ) :
    Spec.body a ang rear front width = Spec.solidRect
      (a.1 + 0.5 * (front - rear) * cos ang, a.2 + 0.5 * (front - rear) * sin ang) ang
      ((front + rear) / 2) (width / 2) := by
  ext p
  constructor
  · rintro ⟨s, t, h1, h2, h3, rfl⟩
    refine ⟨s - 0.5 * (front - rear), t, abs_le.mpr ⟨by linarith, by linarith⟩, h3, ?_⟩
    unfold Spec.frame; ext <;> simp only <;> ring
  · rintro ⟨s, t, h1, h3, rfl⟩
    obtain ⟨g1, g2⟩ := abs_le.mp h1
    refine ⟨s + 0.5 * (front - rear), t, by linarith, by linarith, h3, ?_⟩
    unfold Spec.frame; ext <;> simp only <;> ring

/-! ## C05: rectangle-circle check -/

/-- C05 (what the check decides): for rectangles with sides of at least `1e-4` the check answers
"collision" exactly when the closed disc meets the *outline* of the rectangle.
Missing for the full property: discs strictly inside the rectangle (see `C05_solid_refuted`). -/
theorem C05_outline_exact_partial (c : V2) (ang : ℝ) {hl hw : ℝ} (h1 : 5e-5 ≤ hl) (h2 : 5e-5 ≤ hw)
    (o : V2) (r : ℝ) :
    rectCircle (boxCorners c ang hl hw) o r ↔
      ∃ p, p ∈ Spec.outline c ang hl hw ∧ p ∈ Spec.disc o r :=
  rectCircle_iff_outline c ang h1 h2 o r

example := C05_outline_exact_partial (3, 1) (π / 6) (hl := 3) (hw := 1) (by norm_num) (by norm_num)
  (6, 2) 1

/-- C05, no false alarms: a reported collision is a common point of solid rectangle and disc
(any non-negative sizes). -/
theorem C05_sound (c : V2) (ang : ℝ) {hl hw : ℝ} (h1 : 0 ≤ hl) (h2 : 0 ≤ hw) (o : V2) (r : ℝ)
    (h : rectCircle (boxCorners c ang hl hw) o r) :
    ∃ p, p ∈ Spec.solidRect c ang hl hw ∧ p ∈ Spec.disc o r := by
  obtain ⟨p, hp, hd⟩ := rectCircle_sound c ang h1 h2 o r h
  exact ⟨p, outline_subset_solid hp, hd⟩

/-- A disc centred on the front edge is reported. -/
example := C05_sound (0, 0) 0 (hl := 3) (hw := 1) (by norm_num) (by norm_num) (3, 0) 1
  ((C05_outline_exact_partial (0, 0) 0 (by norm_num) (by norm_num) (3, 0) 1).mpr
    ⟨(3, 0), ⟨3, 0, by norm_num, by norm_num, by norm_num, by simp [Spec.frame]⟩,
      by simp [Spec.disc]⟩)

/-- C05 at full strength for every disc whose radius is at least one of the half sizes, or whose
centre is not inside the open rectangle: the check is exact for the solid rectangle. -/
theorem C05_solid_exact_partial (c : V2) (ang : ℝ) {hl hw : ℝ} (h1 : 5e-5 ≤ hl) (h2 : 5e-5 ≤ hw)
    (o : V2) (r : ℝ)
    (h : hl ≤ r ∨ hw ≤ r ∨ ∀ s t, |s| < hl → |t| < hw → o ≠ Spec.frame c ang s t) :
    rectCircle (boxCorners c ang hl hw) o r ↔
      ∃ p, p ∈ Spec.solidRect c ang hl hw ∧ p ∈ Spec.disc o r := by
  have p1 : 0 ≤ hl := le_trans (by norm_num) h1
  have p2 : 0 ≤ hw := le_trans (by norm_num) h2
  refine ⟨C05_sound c ang p1 p2 o r, fun hs => ?_⟩
  rw [rectCircle_iff_outline c ang h1 h2]
  obtain ⟨a, b, rfl⟩ := exists_frame c ang o
  by_cases hin : |a| < hl ∧ |b| < hw
  · rcases h with h | h | h
    · exact outline_of_big_radius hin.1.le hin.2.le (Or.inl h)
    · exact outline_of_big_radius hin.1.le hin.2.le (Or.inr h)
    · exact absurd rfl (h a b hin.1 hin.2)
  · rw [not_and_or, not_lt, not_lt] at hin
    exact outline_of_solid_outside p1 p2 hin hs

/-- The tractor (half width 1) against the default parking obstacles (radius 1) is in the exact
range of `C05_solid_exact_partial`. -/
example : (5e-5 : ℝ) ≤ 2.989 ∧ (5e-5 : ℝ) ≤ 1 ∧ (1 : ℝ) ≤ 1 := by norm_num

/-- C05 is false as stated: a disc of the default parking radius 1 strictly inside a rectangle of
the default trailer size is not reported. -/
theorem C05_solid_refuted :
    ¬ (∀ (c : V2) (ang hl hw : ℝ) (o : V2) (r : ℝ), 5e-5 ≤ hl → 5e-5 ≤ hw → 0 ≤ r →
      (∃ p, p ∈ Spec.solidRect c ang hl hw ∧ p ∈ Spec.disc o r) →
      rectCircle (boxCorners c ang hl hw) o r) := by
  intro h
  have := h (0, 0) 0 ((1.42 + 3.225) / 2) (2.5 / 2) (0, 0) 1 (by norm_num) (by norm_num)
    (by norm_num) ⟨(0, 0), ⟨0, 0, by norm_num, by norm_num, by simp [Spec.frame]⟩,
      by simp [Spec.disc]⟩
  rw [rectCircle_iff_outline _ _ (by norm_num) (by norm_num)] at this
  obtain ⟨p, ⟨s, t, _, _, he, rfl⟩, hd⟩ := this
  have hd' : s ^ 2 + t ^ 2 ≤ 1 := by simpa [Spec.disc, Spec.frame] using hd
  rcases he with he | he
  · have : s ^ 2 = ((1.42 + 3.225) / 2) ^ 2 := by rw [← sq_abs, he]
    nlinarith [sq_nonneg t]
  · have : t ^ 2 = (2.5 / 2) ^ 2 := by rw [← sq_abs, he]
    nlinarith [sq_nonneg s]

/-- C05: what a missed collision looks like: the whole disc lies in the solid rectangle. -/
theorem C05_missed_only_if_contained (c : V2) (ang : ℝ) {hl hw : ℝ} (h1 : 5e-5 ≤ hl)
    (h2 : 5e-5 ≤ hw) (o : V2) {r : ℝ} (hr : 0 ≤ r)
    (hsol : ∃ p, p ∈ Spec.solidRect c ang hl hw ∧ p ∈ Spec.disc o r)
    (hno : ¬ rectCircle (boxCorners c ang hl hw) o r) :
    Spec.disc o r ⊆ Spec.solidRect c ang hl hw := by
  rw [rectCircle_iff_outline c ang h1 h2] at hno
  exact contained_of_not_outline (le_trans (by norm_num) h1) (le_trans (by norm_num) h2) hr hsol hno

/-- The hypotheses are met by a pole in the middle of a body (`C05_solid_refuted`). -/
example : ∃ (c : V2) (hl hw : ℝ) (o : V2) (r : ℝ), 5e-5 ≤ hl ∧ 5e-5 ≤ hw ∧ 0 ≤ r ∧
    (∃ p, p ∈ Spec.solidRect c 0 hl hw ∧ p ∈ Spec.disc o r) ∧
    ¬ rectCircle (boxCorners c 0 hl hw) o r := by
  refine ⟨(0, 0), 3, 1, (0, 0), 1 / 2, by norm_num, by norm_num, by norm_num,
    ⟨(0, 0), ⟨0, 0, by norm_num, by norm_num, by simp [Spec.frame]⟩, by simp [Spec.disc]⟩, ?_⟩
  rw [C05_outline_exact_partial _ _ (by norm_num) (by norm_num)]
  rintro ⟨p, ⟨s, t, -, -, he, rfl⟩, hd⟩
  have hd' : s ^ 2 + t ^ 2 ≤ (1 / 2) ^ 2 := by simpa [Spec.disc, Spec.frame] using hd
  rcases he with he | he
  · have : s ^ 2 = 3 ^ 2 := by rw [← sq_abs, he]
    nlinarith [sq_nonneg t]
  · have : t ^ 2 = 1 ^ 2 := by rw [← sq_abs, he]
    nlinarith [sq_nonneg s]

/-! ## C06: jackknife check -/

/-- C06, single trailer: the check is true exactly when the articulation angle, read modulo full
turns, exceeds 40 degrees. -/
theorem C06_tt2d (P : Params) (q : Q4) :
    TT2d.checkHitch P q ↔ Spec.exceedsModTurns (40 * π / 180) (q.th1 - q.th2) :=
  wrapPi_gt_iff _ _

/-- C06, acceleration model: same check on the pose. -/
theorem C06_acc (T : Acc) (q : Q6) :
    T.checkHitch q ↔ Spec.exceedsModTurns (40 * π / 180) (q.th1 - q.th2) :=
  wrapPi_gt_iff _ _

/-- C06, bicycle: there is no hitch, the check is never true. -/
theorem C06_bicycle (P : Params) (q : Q3) : ¬ Bicycle.checkHitch P q := id

theorem hitchScan_iff (phi : ℝ) (l : List ℝ) : ∀ (prev : ℝ) (v : Prop),
    NTrailer.hitchScan phi prev v l ↔
      v ∨ ∃ i, ∃ h : i < l.length, |wrapPi ((prev :: l)[i]'(by simp; omega) - l[i])| > phi := by
  induction l with
  | nil => intro prev v; simp [NTrailer.hitchScan]
  | cons a l ih =>
    intro prev v
    unfold NTrailer.hitchScan
    rw [ih, or_assoc]
    apply or_congr Iff.rfl
    constructor
    · rintro (h | ⟨i, hi, h⟩)
      · exact ⟨0, by simp, by simpa using h⟩
      · exact ⟨i + 1, by simp; omega, by simpa using h⟩
    · rintro ⟨i, hi, h⟩
      cases i with
      | zero => left; simpa using h
      | succ j => right; exact ⟨j, by simp at hi; omega, by simpa using h⟩

/-- C06, N trailers: the check is true exactly when some pair of consecutive bodies (tractor and
trailer 0, trailer `i-1` and trailer `i`) exceeds 40 degrees modulo full turns. -/
theorem C06_ntrailer (T : NTrailer) (x : QN) (hlen : x.ths.length = T.N) (hN : 1 ≤ T.N) :
    T.checkHitch x ↔ ∃ i, ∃ h : i < x.ths.length,
      Spec.exceedsModTurns (40 * π / 180)
        ((x.th0 :: x.ths)[i]'(by simp; omega) - x.ths[i]) := by
  unfold NTrailer.checkHitch NTrailer.slice
  rw [List.take_of_length_le hlen.le]
  simp only
  rw [hitchScan_iff]
  simp_rw [wrapPi_gt_iff]
  have hphi : T.phiMax = 40 * π / 180 := rfl
  rw [hphi]
  obtain ⟨a, l, hl⟩ : ∃ a l, x.ths = a :: l := by
    cases h : x.ths with
    | nil => rw [h] at hlen; simp at hlen; omega
    | cons a l => exact ⟨a, l, rfl⟩
  simp only [hl, List.headD_cons, List.tail_cons]
  constructor
  · rintro (h | ⟨i, hi, h⟩)
    · exact ⟨0, by simp, by simpa using h⟩
    · exact ⟨i + 1, by simp; omega, by simpa using h⟩
  · rintro ⟨i, hi, h⟩
    cases i with
    | zero => left; simpa using h
    | succ j => right; exact ⟨j, by simp at hi; omega, by simpa using h⟩

example := C06_ntrailer Wit.train ⟨1, 2, 0.1, [0.2, 0.3]⟩ rfl (by norm_num [Wit.train])

/-- C06, full turns: adding any whole number of turns to either heading does not change the
single-trailer verdict. -/
theorem C06_turns_tt2d (P : Params) (q : Q4) (k₁ k₂ : ℤ) :
    TT2d.checkHitch P { q with th1 := q.th1 + 2 * π * k₁, th2 := q.th2 + 2 * π * k₂ } ↔
      TT2d.checkHitch P q := by
  rw [C06_tt2d, C06_tt2d, ← exceeds_add_turns _ (q.th1 - q.th2) (k₁ - k₂)]
  simp only
  rw [show q.th1 + 2 * π * (k₁ : ℝ) - (q.th2 + 2 * π * (k₂ : ℝ))
    = q.th1 - q.th2 + 2 * π * ((k₁ - k₂ : ℤ) : ℝ) by push_cast; ring]

/-- C06, full turns for the train: adding whole turns to any of the headings does not change the
verdict. -/
theorem C06_turns_ntrailer (T : NTrailer) (x y : QN) (hlen : x.ths.length = T.N)
    (hlen' : y.ths.length = T.N) (hN : 1 ≤ T.N)
    (h0 : ∃ k : ℤ, y.th0 = x.th0 + 2 * π * k)
    (hi : ∀ i, ∀ (h : i < x.ths.length), ∃ k : ℤ, y.ths[i]'(by omega) = x.ths[i] + 2 * π * k) :
    T.checkHitch y ↔ T.checkHitch x := by
  rw [C06_ntrailer T x hlen hN, C06_ntrailer T y hlen' hN]
  have diff : ∀ i, ∀ (h : i < x.ths.length), ∃ k : ℤ,
      (y.th0 :: y.ths)[i]'(by simp; omega) - y.ths[i]'(by omega)
        = (x.th0 :: x.ths)[i]'(by simp; omega) - x.ths[i] + 2 * π * k := by
    intro i h
    obtain ⟨k, hk⟩ := hi i h
    cases i with
    | zero =>
      obtain ⟨k', hk'⟩ := h0
      exact ⟨k' - k, by simp only [List.getElem_cons_zero]; rw [hk, hk']; push_cast; ring⟩
    | succ j =>
      obtain ⟨k', hk'⟩ := hi j (by omega)
      exact ⟨k' - k, by simp only [List.getElem_cons_succ]; rw [hk, hk']; push_cast; ring⟩
  constructor
  · rintro ⟨i, h, he⟩
    obtain ⟨k, hk⟩ := diff i (by omega)
    exact ⟨i, by omega, by rw [hk, exceeds_add_turns] at he; exact he⟩
  · rintro ⟨i, h, he⟩
    obtain ⟨k, hk⟩ := diff i h
    exact ⟨i, by omega, by rw [hk, exceeds_add_turns]; exact he⟩

/-- A 90 degree fold is a violation, a full turn of articulation is not. -/
example : TT2d.checkHitch (Params.default [] []) ⟨0, 0, π / 2, 0⟩ ∧
    ¬ TT2d.checkHitch (Params.default [] []) ⟨0, 0, 2 * π, 0⟩ := by
  have hp := pi_pos
  constructor
  · show |wrapPi (π / 2 - 0)| > 40 * π / 180
    rw [wrapPi_of_mem (by linarith) (by linarith), abs_of_pos (by linarith)]; linarith
  · rw [C06_tt2d]
    intro h
    have := h (-1)
    push_cast at this
    rw [show 2 * π - 0 + 2 * π * (-1) = 0 by ring, abs_zero] at this
    linarith

/-! ## C07: collision footprint -/

/-- C07: the tractor rectangle used by the collision check of all robots encloses exactly the
tractor body. -/
theorem C07_tractor (P : Params) (px py th : ℝ) (h1 : 0 ≤ P.l1 + P.lf1 + P.lr)
    (h2 : 0 ≤ P.tractorWidth) :
    Spec.hull (P.tractorCorners px py th) = Spec.tractorBody P px py th := by
  unfold Params.tractorCorners Spec.tractorBody
  rw [hull_boxCorners _ _ (by linarith) (by linarith), body_eq_solidRect]

example := C07_tractor Wit.params 1 2 0.3 (by norm_num [Wit.params, Params.default])
  (by norm_num [Wit.params, Params.default])

/-- C07: the trailer rectangle of the single-trailer robots encloses exactly the trailer body. -/
theorem C07_trailer (P : Params) (q : Q4) (h1 : 0 ≤ P.lf2 + P.lr2) (h2 : 0 ≤ P.trailerWidth) :
    Spec.hull (TT2d.trailerCorners P q) = Spec.trailerBody P q := by
  unfold TT2d.trailerCorners Spec.trailerBody Spec.trailerAxle
  rw [hull_boxCorners _ _ (by linarith) (by linarith), body_eq_solidRect]
  congr 1
  unfold TT2d.hitchPoint Spec.frame
  ext <;> simp only <;> ring

example := C07_trailer Wit.params ⟨1, 2, 0.3, 0.1⟩ (by norm_num [Wit.params, Params.default])
  (by norm_num [Wit.params, Params.default])

/-- C07: `get_trailer_position` is the trailer axle, `get_trailer_back_position` the middle of the
trailer's rear face. -/
theorem C07_trailer_points (P : Params) (q : Q4) :
    TT2d.trailerPos P q = Spec.trailerAxle P q ∧
    TT2d.trailerBackPos P q = Spec.frame (Spec.trailerAxle P q) q.th2 (-P.lr2) 0 := by
  unfold TT2d.trailerPos TT2d.trailerBackPos Spec.trailerAxle TT2d.hitchPoint Spec.frame
  constructor <;> ext <;> simp only <;> ring

theorem clampGet_of_lt {l : List ℝ} {i : ℕ} (h : i < l.length) : clampGet l i = l.getD i 0 := by
  unfold clampGet; rw [min_eq_left (by omega)]

theorem theta_of_lt {T : NTrailer} {x : QN} (h : Spec.WellSized T x) {i : ℕ} (hi : i < T.N) :
    T.theta x i = x.ths.getD i 0 := by
  unfold NTrailer.theta NTrailer.slice
  rw [List.take_of_length_le h.ths.le, clampGet_of_lt (by rw [h.ths]; exact hi)]

theorem rectHitch_eq {T : NTrailer} {x : QN} (h : Spec.WellSized T x) {i : ℕ} (hi : i ≤ T.N) :
    T.rectHitch x i = Spec.hitchN T x i := by
  induction i with
  | zero =>
    unfold NTrailer.rectHitch NTrailer.hitch0 Spec.hitchN Spec.frame
    ext <;> simp only <;> ring
  | succ j ih =>
    have hj : j < T.N := hi
    unfold NTrailer.rectHitch Spec.hitchN
    simp only
    rw [ih hj.le, theta_of_lt h hj, clampGet_of_lt (l := T.lengths) (by rw [h.lengths]; exact hj),
      clampGet_of_lt (l := T.fronts) (by rw [h.fronts]; exact hj), clampGet_of_lt (l := T.rears) (by rw [h.rears]; exact hj)]
    unfold Spec.frame
    ext <;> simp only <;> ring

/-- C07: rectangle `i` of the train encloses exactly the body of trailer `i`. -/
theorem C07_ntrailer (T : NTrailer) (x : QN) (h : Spec.WellSized T x) (hw : 0 ≤ T.trailerWidth)
    (i : ℕ) (hi : i < T.N) (hs : 0 ≤ T.fronts.getD i 0 + T.rears.getD i 0) :
    Spec.hull (T.trailerCorners x i) = Spec.trailerBodyN T x i := by
  unfold NTrailer.trailerCorners Spec.trailerBodyN Spec.axleN
  simp only
  rw [rectHitch_eq h hi.le, theta_of_lt h hi, clampGet_of_lt (l := T.lengths) (by rw [h.lengths]; exact hi),
      clampGet_of_lt (l := T.fronts) (by rw [h.fronts]; exact hi), clampGet_of_lt (l := T.rears) (by rw [h.rears]; exact hi),
      hull_boxCorners _ _ (by linarith) (by linarith), body_eq_solidRect]
  congr 1
  · unfold Spec.frame; ext <;> simp only <;> ring
  · ring

example := C07_ntrailer Wit.train ⟨1, 2, 0.3, [0.1, 0.2]⟩ ⟨rfl, rfl, rfl, rfl⟩
  (by norm_num [Wit.train, Wit.params, Params.default]) 1 (by norm_num [Wit.train])
  (by norm_num [Wit.train])

/-- C07: the check of the train uses one rectangle per trailer, in order. -/
theorem C07_ntrailer_count (T : NTrailer) (x : QN) :
    (T.allTrailerCorners x).length = T.N ∧
      ∀ i, ∀ (h : i < (T.allTrailerCorners x).length),
        (T.allTrailerCorners x)[i] = T.trailerCorners x i := by
  unfold NTrailer.allTrailerCorners
  constructor
  · simp
  · intro i h; simp

/-- C07: the four corners of the tractor rectangle, in the order rear-right, rear-left,
front-left, front-right, with the lengths given by the parameters. -/
theorem C07_tractor_corners (P : Params) (px py th : ℝ) :
    (P.tractorCorners px py th).c0 = Spec.frame (px, py) th (-P.lr) (-(P.tractorWidth / 2)) ∧
    (P.tractorCorners px py th).c1 = Spec.frame (px, py) th (-P.lr) (P.tractorWidth / 2) ∧
    (P.tractorCorners px py th).c2 = Spec.frame (px, py) th (P.l1 + P.lf1) (P.tractorWidth / 2) ∧
    (P.tractorCorners px py th).c3 =
      Spec.frame (px, py) th (P.l1 + P.lf1) (-(P.tractorWidth / 2)) := by
  unfold Params.tractorCorners boxCorners
  simp only [placePoint_eq_frame, Spec.frame]
  refine ⟨?_, ?_, ?_, ?_⟩ <;> ext <;> simp only <;> ring

/-- The default dimensions satisfy the hypotheses of C07. -/
example : 0 ≤ (Params.default [] []).l1 + (Params.default [] []).lf1 + (Params.default [] []).lr ∧
    0 ≤ (Params.default [] []).tractorWidth ∧
    0 ≤ (Params.default [] []).lf2 + (Params.default [] []).lr2 := by
  norm_num [Params.default]

/-- A two-trailer train satisfies `WellSized`. -/
example : Spec.WellSized
    { toParams := Params.default [] [], N := 2, lengths := [2.9, 2.9], fronts := [1.42, 1.42],
      rears := [1.848, 3.225], x0 := ⟨0, 0, 0, [0, 0]⟩, xg := ⟨0, 0, 0, [0, 0]⟩ }
    ⟨1, 2, 0, [0.1, 0.2]⟩ := ⟨rfl, rfl, rfl, rfl⟩

/-! ## C57: rigid motions -/

theorem move_frame (α : ℝ) (d c : V2) (ang s t : ℝ) :
    Spec.move α d (Spec.frame c ang s t) = Spec.frame (Spec.move α d c) (ang + α) s t := by
  unfold Spec.move Spec.frame
  rw [cos_add, sin_add]
  ext <;> simp only <;> ring

/-- A moved corner array. -/
noncomputable def Corners.move (α : ℝ) (d : V2) (k : Corners) : Corners :=
  ⟨Spec.move α d k.c0, Spec.move α d k.c1, Spec.move α d k.c2, Spec.move α d k.c3⟩

theorem boxCorners_move (α : ℝ) (d c : V2) (ang hl hw : ℝ) :
    boxCorners (Spec.move α d c) (ang + α) hl hw = (boxCorners c ang hl hw).move α d := by
  unfold Corners.move boxCorners
  simp only [placePoint_eq_frame, move_frame]

theorem edgeDistSq_move (α : ℝ) (d s e c : V2) :
    edgeDistSq (Spec.move α d s) (Spec.move α d e) (Spec.move α d c) = edgeDistSq s e c := by
  have h := cos_sq_add_sin_sq α
  have lin : ∀ p q : V2, (Spec.move α d p).1 - (Spec.move α d q).1
        = (p.1 - q.1) * cos α - (p.2 - q.2) * sin α ∧
      (Spec.move α d p).2 - (Spec.move α d q).2
        = (p.1 - q.1) * sin α + (p.2 - q.2) * cos α := by
    intro p q; unfold Spec.move Spec.frame; constructor <;> simp only <;> ring
  have len : ∀ p q : V2, ((Spec.move α d p).1 - (Spec.move α d q).1) ^ 2
      + ((Spec.move α d p).2 - (Spec.move α d q).2) ^ 2 = (p.1 - q.1) ^ 2 + (p.2 - q.2) ^ 2 := by
    intro p q; rw [(lin p q).1, (lin p q).2]
    linear_combination ((p.1 - q.1) ^ 2 + (p.2 - q.2) ^ 2) * h
  have dt : ∀ p q r : V2, ((Spec.move α d p).1 - (Spec.move α d r).1)
        * ((Spec.move α d q).1 - (Spec.move α d r).1)
      + ((Spec.move α d p).2 - (Spec.move α d r).2)
        * ((Spec.move α d q).2 - (Spec.move α d r).2)
      = (p.1 - r.1) * (q.1 - r.1) + (p.2 - r.2) * (q.2 - r.2) := by
    intro p q r; rw [(lin p r).1, (lin p r).2, (lin q r).1, (lin q r).2]
    linear_combination ((p.1 - r.1) * (q.1 - r.1) + (p.2 - r.2) * (q.2 - r.2)) * h
  unfold edgeDistSq
  simp only
  rw [len, dt]
  generalize (clip (((c.1 - s.1) * (e.1 - s.1) + (c.2 - s.2) * (e.2 - s.2)) /
    if (e.1 - s.1) ^ 2 + (e.2 - s.2) ^ 2 < 1e-8 then 1e-8
    else (e.1 - s.1) ^ 2 + (e.2 - s.2) ^ 2) 0 1) = t
  unfold Spec.move Spec.frame
  simp only
  linear_combination ((c.1 - (s.1 + t * (e.1 - s.1))) ^ 2 + (c.2 - (s.2 + t * (e.2 - s.2))) ^ 2) * h

theorem rectCircle_move (α : ℝ) (d : V2) (k : Corners) (c : V2) (r : ℝ) :
    rectCircle (k.move α d) (Spec.move α d c) r ↔ rectCircle k c r := by
  unfold rectCircle Corners.move
  simp only [edgeDistSq_move]

/-- Rotation of a direction. -/
noncomputable def rotV (α : ℝ) (n : V2) : V2 := (n.1 * cos α - n.2 * sin α, n.1 * sin α + n.2 * cos α)

theorem edgeNormal_move (α : ℝ) (d s e : V2) :
    edgeNormal (Spec.move α d s) (Spec.move α d e) = rotV α (edgeNormal s e) := by
  have h := cos_sq_add_sin_sq α
  have l1 : (Spec.move α d e).1 - (Spec.move α d s).1
      = (e.1 - s.1) * cos α - (e.2 - s.2) * sin α := by
    unfold Spec.move Spec.frame; simp only; ring
  have l2 : (Spec.move α d e).2 - (Spec.move α d s).2
      = (e.1 - s.1) * sin α + (e.2 - s.2) * cos α := by
    unfold Spec.move Spec.frame; simp only; ring
  unfold edgeNormal
  simp only
  rw [l1, l2]
  have hn : norm2 (-((e.1 - s.1) * sin α + (e.2 - s.2) * cos α),
      (e.1 - s.1) * cos α - (e.2 - s.2) * sin α) = norm2 (-(e.2 - s.2), e.1 - s.1) := by
    unfold norm2; congr 1; simp only
    linear_combination ((e.1 - s.1) ^ 2 + (e.2 - s.2) ^ 2) * h
  rw [hn]
  unfold rotV
  ext <;> simp only <;> ring

theorem dot_move_rot (α : ℝ) (d p n : V2) :
    dot (Spec.move α d p) (rotV α n) = dot p n + dot d (rotV α n) := by
  have h := cos_sq_add_sin_sq α
  unfold dot Spec.move Spec.frame rotV
  simp only
  linear_combination (p.1 * n.1 + p.2 * n.2) * h

theorem axisSeparated_move (α : ℝ) (d : V2) (k₁ k₂ : Corners) (n : V2) :
    axisSeparated (k₁.move α d) (k₂.move α d) (rotV α n) ↔ axisSeparated k₁ k₂ n := by
  unfold axisSeparated projMax projMin Corners.move
  simp only [dot_move_rot, max_add_add_right, min_add_add_right, add_lt_add_iff_right]

theorem rectRect_move (α : ℝ) (d : V2) (k₁ k₂ : Corners) :
    rectRect (k₁.move α d) (k₂.move α d) ↔ rectRect k₁ k₂ := by
  unfold rectRect
  have e : ∀ k : Corners, edgeNormal (k.move α d).c0 (k.move α d).c1
        = rotV α (edgeNormal k.c0 k.c1) ∧
      edgeNormal (k.move α d).c1 (k.move α d).c2 = rotV α (edgeNormal k.c1 k.c2) := by
    intro k; exact ⟨edgeNormal_move .., edgeNormal_move ..⟩
  rw [(e k₁).1, (e k₁).2, (e k₂).1, (e k₂).2]
  simp only [axisSeparated_move]

/-- Obstacles moved by a rigid motion. -/
noncomputable def Params.moveObstacles (P : Params) (α : ℝ) (d : V2) : Params :=
  { P with
    circles := P.circles.map fun c =>
      ⟨(Spec.move α d (c.x, c.y)).1, (Spec.move α d (c.x, c.y)).2, c.r⟩
    rects := P.rects.map fun o =>
      ⟨(Spec.move α d (o.x, o.y)).1, (Spec.move α d (o.x, o.y)).2, o.w, o.h, o.ang + α⟩ }

theorem tractorCorners_move (P : Params) (α : ℝ) (d : V2) (px py th : ℝ) :
    (P.moveObstacles α d).tractorCorners (Spec.move α d (px, py)).1 (Spec.move α d (px, py)).2
      (th + α) = (P.tractorCorners px py th).move α d := by
  unfold Params.tractorCorners
  rw [← boxCorners_move]
  simp only [Params.moveObstacles]
  congr 1
  unfold Spec.move Spec.frame
  rw [cos_add, sin_add]
  ext <;> simp only <;> ring

theorem rectCorners_move (α : ℝ) (d : V2) (o : Rect) :
    Rect.corners ⟨(Spec.move α d (o.x, o.y)).1, (Spec.move α d (o.x, o.y)).2, o.w, o.h, o.ang + α⟩
      = o.corners.move α d := by
  unfold Rect.corners
  rw [← boxCorners_move]

/-- C57, single trailer: moving vehicle and obstacles by the same rotation and translation changes
neither verdict. -/
theorem C57_tt2d (P : Params) (α : ℝ) (d : V2) (q : Q4) :
    (TT2d.checkObstacle (P.moveObstacles α d) ⟨(Spec.move α d (q.px, q.py)).1,
        (Spec.move α d (q.px, q.py)).2, q.th1 + α, q.th2 + α⟩ ↔ TT2d.checkObstacle P q) ∧
    (TT2d.checkHitch (P.moveObstacles α d) ⟨(Spec.move α d (q.px, q.py)).1,
        (Spec.move α d (q.px, q.py)).2, q.th1 + α, q.th2 + α⟩ ↔ TT2d.checkHitch P q) := by
  constructor
  · have ht : TT2d.trailerCorners (P.moveObstacles α d) ⟨(Spec.move α d (q.px, q.py)).1,
        (Spec.move α d (q.px, q.py)).2, q.th1 + α, q.th2 + α⟩
        = (TT2d.trailerCorners P q).move α d := by
      unfold TT2d.trailerCorners TT2d.hitchPoint
      rw [← boxCorners_move]
      simp only [Params.moveObstacles]
      congr 1
      unfold Spec.move Spec.frame
      rw [cos_add, sin_add, cos_add, sin_add]
      ext <;> simp only <;> ring
    unfold TT2d.checkObstacle
    simp only
    rw [tractorCorners_move, ht]
    simp only [Params.moveObstacles, List.mem_map, exists_exists_and_eq_and, rectCorners_move,
      rectRect_move]
    simp only [Prod.mk.eta, rectCircle_move]
  · unfold TT2d.checkHitch
    simp only
    rw [show q.th1 + α - (q.th2 + α) = q.th1 - q.th2 by ring]
    rfl

/-- C57, bicycle. -/
theorem C57_bicycle (P : Params) (α : ℝ) (d : V2) (q : Q3) :
    Bicycle.checkObstacle (P.moveObstacles α d) ⟨(Spec.move α d (q.px, q.py)).1,
        (Spec.move α d (q.px, q.py)).2, q.th1 + α⟩ ↔ Bicycle.checkObstacle P q := by
  unfold Bicycle.checkObstacle
  simp only
  rw [tractorCorners_move]
  simp only [Params.moveObstacles, List.mem_map, exists_exists_and_eq_and, rectCorners_move,
    rectRect_move]
  simp only [Prod.mk.eta, rectCircle_move]

/-- C57, acceleration model. -/
theorem C57_acc (T : Acc) (α : ℝ) (d : V2) (q : Q6) :
    (Acc.checkObstacle { T with toParams := T.toParams.moveObstacles α d }
      ⟨(Spec.move α d (q.px, q.py)).1, (Spec.move α d (q.px, q.py)).2, q.th1 + α, q.th2 + α,
        q.v, q.delta⟩ ↔ T.checkObstacle q) ∧
    (Acc.checkHitch { T with toParams := T.toParams.moveObstacles α d }
      ⟨(Spec.move α d (q.px, q.py)).1, (Spec.move α d (q.px, q.py)).2, q.th1 + α, q.th2 + α,
        q.v, q.delta⟩ ↔ T.checkHitch q) :=
  C57_tt2d T.toParams α d q.pose

/-- The train moved by a rigid motion. -/
noncomputable def QN.move (α : ℝ) (d : V2) (x : QN) : QN :=
  ⟨(Spec.move α d (x.px, x.py)).1, (Spec.move α d (x.px, x.py)).2, x.th0 + α,
    x.ths.map (· + α)⟩

theorem theta_move (T : NTrailer) (α : ℝ) (d : V2) (P' : Params) (x : QN) (i : ℕ)
    (h : T.slice x ≠ []) :
    NTrailer.theta { T with toParams := P' } (x.move α d) i = T.theta x i + α := by
  unfold NTrailer.theta NTrailer.slice QN.move clampGet
  simp only [List.length_take, List.length_map]
  rw [← List.map_take]
  unfold NTrailer.slice at h
  have hlen : 0 < (List.take T.N x.ths).length := List.length_pos_iff.mpr h
  rw [List.length_take] at hlen
  have hb : min i (min T.N x.ths.length - 1) < (List.take T.N x.ths).length := by simp; omega
  simp only [List.getD_eq_getElem?_getD, List.getElem?_map, List.getElem?_eq_getElem hb,
    Option.map_some, Option.getD_some]

theorem rectHitch_move (T : NTrailer) (α : ℝ) (d : V2) (x : QN) (h : T.slice x ≠ []) (i : ℕ) :
    NTrailer.rectHitch { T with toParams := T.toParams.moveObstacles α d } (x.move α d) i
      = Spec.move α d (T.rectHitch x i) := by
  induction i with
  | zero =>
    unfold NTrailer.rectHitch NTrailer.hitch0 QN.move Spec.move Spec.frame Params.moveObstacles
    rw [cos_add, sin_add]
    ext <;> simp only <;> ring
  | succ i ih =>
    unfold NTrailer.rectHitch
    simp only
    rw [ih, theta_move T α d _ x i h, cos_add, sin_add]
    unfold Spec.move Spec.frame
    ext <;> simp only [Params.moveObstacles] <;> ring

theorem hitchScan_move (phi α : ℝ) : ∀ (ths : List ℝ) (prev : ℝ) (b : Prop),
    NTrailer.hitchScan phi (prev + α) b (ths.map (· + α)) = NTrailer.hitchScan phi prev b ths
  | [], _, _ => rfl
  | th :: ths, prev, b => by
    simp only [List.map_cons, NTrailer.hitchScan]
    rw [hitchScan_move phi α ths, show prev + α - (th + α) = prev - th by ring]

/-- C57, N trailers: neither verdict changes. -/
theorem C57_ntrailer (T : NTrailer) (α : ℝ) (d : V2) (x : QN) (h : T.slice x ≠ []) :
    (NTrailer.checkObstacle { T with toParams := T.toParams.moveObstacles α d } (x.move α d) ↔
      T.checkObstacle x) ∧
    (NTrailer.checkHitch { T with toParams := T.toParams.moveObstacles α d } (x.move α d) ↔
      T.checkHitch x) := by
  refine ⟨?_, ?_⟩
  swap
  · unfold NTrailer.checkHitch
    have e : NTrailer.slice { T with toParams := T.toParams.moveObstacles α d } (x.move α d) =
        (T.slice x).map (· + α) := by
      unfold NTrailer.slice QN.move; rw [List.map_take]
    simp only
    rw [e]
    cases hs : T.slice x with
    | nil => exact absurd hs h
    | cons a l =>
      simp only [List.map_cons, List.headD_cons, List.tail_cons]
      rw [hitchScan_move]
      simp only [QN.move, Params.moveObstacles]
      rw [show x.th0 + α - (a + α) = x.th0 - a by ring]
      exact Iff.rfl
  have hk : NTrailer.allTrailerCorners { T with toParams := T.toParams.moveObstacles α d }
      (x.move α d) = (T.allTrailerCorners x).map (Corners.move α d) := by
    unfold NTrailer.allTrailerCorners
    rw [List.map_map]
    apply List.map_congr_left
    intro i _
    unfold NTrailer.trailerCorners
    simp only [Function.comp]
    rw [rectHitch_move T α d x h, theta_move T α d _ x i h, ← boxCorners_move]
    simp only [Params.moveObstacles]
    congr 1
    rw [cos_add, sin_add]
    unfold Spec.move Spec.frame
    ext <;> simp only <;> ring
  have ht : Params.tractorCorners (T.toParams.moveObstacles α d) (x.move α d).px (x.move α d).py
      (x.move α d).th0 = (T.tractorCorners x.px x.py x.th0).move α d :=
    tractorCorners_move T.toParams α d x.px x.py x.th0
  unfold NTrailer.checkObstacle
  simp only
  rw [hk, ht]
  simp only [Params.moveObstacles, List.mem_map, exists_exists_and_eq_and, rectCorners_move,
    rectRect_move]
  simp only [Prod.mk.eta, rectCircle_move]

example := fun α d => C57_ntrailer Wit.train α d ⟨1, 2, 0.3, [0.1, 0.2]⟩ (by simp [NTrailer.slice, Wit.train])

/-! ## C58: monotone in the obstacles -/

theorem rectCircle_mono {k : Corners} {c : V2} {r r' : ℝ} (h0 : 0 ≤ r) (h : r ≤ r')
    (hc : rectCircle k c r) : rectCircle k c r' :=
  hc.trans (by gcongr)

theorem solidRect_mono {c : V2} {ang hl hw hl' hw' : ℝ} (h1 : hl ≤ hl') (h2 : hw ≤ hw') :
    Spec.solidRect c ang hl hw ⊆ Spec.solidRect c ang hl' hw' := by
  rintro p ⟨s, t, hs, ht, rfl⟩
  exact ⟨s, t, hs.trans h1, ht.trans h2, rfl⟩

/-- `P'` has the same vehicle as `P`, and every obstacle of `P` is covered by one of `P'` with the
same centre and orientation and at least the same size. -/
structure Covers (P' P : Params) : Prop where
  same : { P' with circles := [], rects := [] } = { P with circles := [], rects := [] }
  circ : ∀ c ∈ P.circles, ∃ c' ∈ P'.circles, c'.x = c.x ∧ c'.y = c.y ∧ c.r ≤ c'.r
  rect : ∀ o ∈ P.rects, ∃ o' ∈ P'.rects, o'.x = o.x ∧ o'.y = o.y ∧ o'.ang = o.ang ∧
    o.w ≤ o'.w ∧ o.h ≤ o'.h

/-- Admissible sizes: vehicle rectangles and obstacles have positive sides, radii are
non-negative. -/
structure Spec.PosSizes (P : Params) : Prop where
  tractorLen : 0 < P.l1 + P.lf1 + P.lr
  tractorWid : 0 < P.tractorWidth
  trailerLen : 0 < P.lf2 + P.lr2
  trailerWid : 0 < P.trailerWidth
  radii : ∀ c ∈ P.circles, 0 ≤ c.r
  sides : ∀ o ∈ P.rects, 0 < o.w ∧ 0 < o.h

theorem rectRect_box_mono {c : V2} {ang hl hw : ℝ} (h1 : 0 < hl) (h2 : 0 < hw) {o o' : Rect}
    (hx : o'.x = o.x) (hy : o'.y = o.y) (ha : o'.ang = o.ang) (hw' : o.w ≤ o'.w) (hh : o.h ≤ o'.h)
    (p1 : 0 < o.w) (p2 : 0 < o.h) (h : rectRect (boxCorners c ang hl hw) o.corners) :
    rectRect (boxCorners c ang hl hw) o'.corners := by
  unfold Rect.corners at *
  rw [rectRect_iff_intersect _ _ _ _ h1 h2 (by linarith) (by linarith)] at h ⊢
  obtain ⟨p, ha', hb⟩ := h
  rw [hx, hy, ha]
  exact ⟨p, ha', solidRect_mono (by linarith) (by linarith) hb⟩

/-- C58, single trailer: enlarging the obstacle set or any obstacle (padding, radius) keeps every
reported collision. -/
theorem C58_mono_tt2d (P P' : Params) (hc : Covers P' P) (hs : Spec.PosSizes P) (q : Q4)
    (h : TT2d.checkObstacle P q) : TT2d.checkObstacle P' q := by
  have e1 : P'.tractorCorners q.px q.py q.th1 = P.tractorCorners q.px q.py q.th1 := by
    have := congrArg (fun R : Params => R.tractorCorners q.px q.py q.th1) hc.same
    exact this
  have e2 : TT2d.trailerCorners P' q = TT2d.trailerCorners P q := by
    have := congrArg (fun R : Params => TT2d.trailerCorners R q) hc.same
    exact this
  unfold TT2d.checkObstacle at *
  simp only at *
  rw [e1, e2]
  rcases h with ⟨c, hm, h⟩ | ⟨o, hm, h⟩
  · obtain ⟨c', hm', hx, hy, hr⟩ := hc.circ c hm
    refine Or.inl ⟨c', hm', ?_⟩
    rw [hx, hy]
    exact h.imp (rectCircle_mono (hs.radii c hm) hr) (rectCircle_mono (hs.radii c hm) hr)
  · obtain ⟨o', hm', hx, hy, ha, hw, hh⟩ := hc.rect o hm
    refine Or.inr ⟨o', hm', ?_⟩
    obtain ⟨s1, s2⟩ := hs.sides o hm
    have a1 := hs.tractorLen
    have a2 := hs.tractorWid
    have a3 := hs.trailerLen
    have a4 := hs.trailerWid
    unfold Params.tractorCorners TT2d.trailerCorners at *
    exact h.imp (rectRect_box_mono (by linarith) (by linarith) hx hy ha hw hh s1 s2)
      (rectRect_box_mono (by linarith) (by linarith) hx hy ha hw hh s1 s2)

/-- C58, bicycle. -/
theorem C58_mono_bicycle (P P' : Params) (hc : Covers P' P) (hs : Spec.PosSizes P) (q : Q3)
    (h : Bicycle.checkObstacle P q) : Bicycle.checkObstacle P' q := by
  have e1 : P'.tractorCorners q.px q.py q.th1 = P.tractorCorners q.px q.py q.th1 := by
    have := congrArg (fun R : Params => R.tractorCorners q.px q.py q.th1) hc.same
    exact this
  unfold Bicycle.checkObstacle at *
  simp only at *
  rw [e1]
  rcases h with ⟨c, hm, h⟩ | ⟨o, hm, h⟩
  · obtain ⟨c', hm', hx, hy, hr⟩ := hc.circ c hm
    refine Or.inl ⟨c', hm', ?_⟩
    rw [hx, hy]
    exact rectCircle_mono (hs.radii c hm) hr h
  · obtain ⟨o', hm', hx, hy, ha, hw, hh⟩ := hc.rect o hm
    refine Or.inr ⟨o', hm', ?_⟩
    obtain ⟨s1, s2⟩ := hs.sides o hm
    have a1 := hs.tractorLen
    have a2 := hs.tractorWid
    unfold Params.tractorCorners at *
    exact rectRect_box_mono (by linarith) (by linarith) hx hy ha hw hh s1 s2 h

/-- C58, N trailers (`P'` replaces the parameters of the train `T`). -/
theorem C58_mono_ntrailer (T : NTrailer) (P' : Params) (hc : Covers P' T.toParams)
    (hs : Spec.PosSizes T.toParams) (hlen : ∀ i < T.N, 0 < clampGet T.fronts i + clampGet T.rears i)
    (x : QN) (h : T.checkObstacle x) : NTrailer.checkObstacle { T with toParams := P' } x := by
  have e1 : P'.tractorCorners x.px x.py x.th0 = T.tractorCorners x.px x.py x.th0 := by
    have := congrArg (fun R : Params => R.tractorCorners x.px x.py x.th0) hc.same
    exact this
  have hlh : P'.lh = T.lh := by
    have := congrArg (fun R : Params => R.lh) hc.same
    exact this
  have htw : P'.trailerWidth = T.trailerWidth := by
    have := congrArg (fun R : Params => R.trailerWidth) hc.same
    exact this
  have eh : ∀ i, NTrailer.rectHitch { T with toParams := P' } x i = T.rectHitch x i := by
    intro i
    induction i with
    | zero => unfold NTrailer.rectHitch NTrailer.hitch0; simp only; rw [hlh]
    | succ i ih =>
      unfold NTrailer.rectHitch; simp only; rw [ih, hlh]; rfl
  have e2 : NTrailer.allTrailerCorners { T with toParams := P' } x = T.allTrailerCorners x := by
    unfold NTrailer.allTrailerCorners
    apply List.map_congr_left
    intro i _
    unfold NTrailer.trailerCorners
    simp only
    rw [eh, htw]; rfl
  have box : ∀ kt ∈ T.allTrailerCorners x, ∃ c ang hl hw, 0 < hl ∧ 0 < hw ∧
      kt = boxCorners c ang hl hw := by
    intro kt hk
    unfold NTrailer.allTrailerCorners at hk
    obtain ⟨i, hi, rfl⟩ := List.mem_map.mp hk
    have := hlen i (List.mem_range.mp hi)
    have a4 := hs.trailerWid
    exact ⟨_, _, _, _, by linarith, by linarith, rfl⟩
  unfold NTrailer.checkObstacle at *
  simp only at *
  rw [e1, e2]
  rcases h with (⟨c, hm, h⟩ | ⟨k, hk, c, hm, h⟩) | (⟨o, hm, h⟩ | ⟨k, hk, o, hm, h⟩)
  · obtain ⟨c', hm', hx, hy, hr⟩ := hc.circ c hm
    refine Or.inl (Or.inl ⟨c', hm', ?_⟩)
    rw [hx, hy]
    exact rectCircle_mono (hs.radii c hm) hr h
  · obtain ⟨c', hm', hx, hy, hr⟩ := hc.circ c hm
    refine Or.inl (Or.inr ⟨k, hk, c', hm', ?_⟩)
    rw [hx, hy]
    exact rectCircle_mono (hs.radii c hm) hr h
  · obtain ⟨o', hm', hx, hy, ha, hw, hh⟩ := hc.rect o hm
    refine Or.inr (Or.inl ⟨o', hm', ?_⟩)
    obtain ⟨s1, s2⟩ := hs.sides o hm
    have a1 := hs.tractorLen
    have a2 := hs.tractorWid
    unfold Params.tractorCorners at *
    exact rectRect_box_mono (by linarith) (by linarith) hx hy ha hw hh s1 s2 h
  · obtain ⟨o', hm', hx, hy, ha, hw, hh⟩ := hc.rect o hm
    refine Or.inr (Or.inr ⟨k, hk, o', hm', ?_⟩)
    obtain ⟨s1, s2⟩ := hs.sides o hm
    obtain ⟨c, ang, hl, hw2, p1, p2, rfl⟩ := box k hk
    exact rectRect_box_mono p1 p2 hx hy ha hw hh s1 s2 h

/-- A pole of radius 1 m centred 5 m ahead of the rear axle touches the front face (4.13 m). -/
theorem front_hit : rectCircle ((Params.default [⟨5, 0, 1⟩] []).tractorCorners 0 0 0) (5, 0) 1 := by
  have e : (Params.default [⟨5, 0, 1⟩] []).tractorCorners 0 0 0 = boxCorners (1.141, 0) 0 2.989 1 :=
    Wit.tractor
  rw [e, C05_outline_exact_partial _ _ (by norm_num) (by norm_num)]
  refine ⟨(4.13, 0), ⟨2.989, 0, by norm_num [abs_of_pos], by norm_num, Or.inl (by norm_num [abs_of_pos]),
    by norm_num [Spec.frame]⟩, ?_⟩
  norm_num [Spec.disc]

theorem front_covers : Covers (Params.default [⟨5, 0, 2⟩] [⟨0, 9, 2, 1, 0⟩]) (Params.default [⟨5, 0, 1⟩] []) ∧
    Spec.PosSizes (Params.default [⟨5, 0, 1⟩] []) := by
  refine ⟨⟨rfl, ?_, by simp [Params.default]⟩, ⟨?_, ?_, ?_, ?_, ?_, ?_⟩⟩
  · simp [Params.default]
  all_goals norm_num [Params.default]

/-- All hypotheses of the C58 theorems are met by a vehicle touching that pole. -/
example := C58_mono_tt2d _ _ front_covers.1 front_covers.2 ⟨0, 0, 0, 0⟩
  (Or.inl ⟨⟨5, 0, 1⟩, by simp [Params.default], Or.inl front_hit⟩)

example := C58_mono_bicycle _ _ front_covers.1 front_covers.2 ⟨0, 0, 0⟩
  (Or.inl ⟨⟨5, 0, 1⟩, by simp [Params.default], front_hit⟩)

example := C58_mono_ntrailer { Wit.train with toParams := Params.default [⟨5, 0, 1⟩] [] }
  (Params.default [⟨5, 0, 2⟩] [⟨0, 9, 2, 1, 0⟩]) front_covers.1 front_covers.2
  (by
    intro i hi
    have : i < 2 := hi
    have h2 : i = 0 ∨ i = 1 := by omega
    rcases h2 with rfl | rfl <;> norm_num [Wit.train, clampGet]) ⟨0, 0, 0, [0, 0]⟩
  (Or.inl (Or.inl ⟨⟨5, 0, 1⟩, by simp [Params.default], front_hit⟩))

/-- C58: the verdict does not depend on the order (or repetition) of the obstacles. -/
theorem C58_order (P : Params) (cs : List Circle) (rs : List Rect)
    (hc : ∀ c, c ∈ cs ↔ c ∈ P.circles) (hr : ∀ o, o ∈ rs ↔ o ∈ P.rects) :
    (∀ q, TT2d.checkObstacle { P with circles := cs, rects := rs } q ↔ TT2d.checkObstacle P q) ∧
    (∀ q, Bicycle.checkObstacle { P with circles := cs, rects := rs } q ↔
      Bicycle.checkObstacle P q) := by
  constructor <;> intro q
  · unfold TT2d.checkObstacle
    simp only [hc, hr]; exact Iff.rfl
  · unfold Bicycle.checkObstacle
    simp only [hc, hr]; exact Iff.rfl

/-- Obstacles listed in another order, one twice. -/
example := C58_order (Params.default [⟨1, 2, 3⟩, ⟨4, 5, 6⟩] [⟨0, 9, 2, 1, 0⟩])
  [⟨4, 5, 6⟩, ⟨1, 2, 3⟩, ⟨4, 5, 6⟩] [⟨0, 9, 2, 1, 0⟩] (by simp [Params.default, or_comm])
  (by simp [Params.default])

/-- C58, order: acceleration model. -/
theorem C58_order_acc (T : Acc) (cs : List Circle) (rs : List Rect)
    (hc : ∀ c, c ∈ cs ↔ c ∈ T.circles) (hr : ∀ o, o ∈ rs ↔ o ∈ T.rects) (q : Q6) :
    Acc.checkObstacle { T with circles := cs, rects := rs } q ↔ T.checkObstacle q :=
  (C58_order T.toParams cs rs hc hr).1 q.pose

/-- C58, order: train. -/
theorem C58_order_ntrailer (T : NTrailer) (cs : List Circle) (rs : List Rect)
    (hc : ∀ c, c ∈ cs ↔ c ∈ T.circles) (hr : ∀ o, o ∈ rs ↔ o ∈ T.rects) (x : QN) :
    NTrailer.checkObstacle { T with circles := cs, rects := rs } x ↔ T.checkObstacle x := by
  have eh : ∀ i, NTrailer.rectHitch { T with circles := cs, rects := rs } x i = T.rectHitch x i := by
    intro i
    induction i with
    | zero => rfl
    | succ i ih => unfold NTrailer.rectHitch; simp only; rw [ih]; rfl
  have e2 : NTrailer.allTrailerCorners { T with circles := cs, rects := rs } x =
      T.allTrailerCorners x := by
    unfold NTrailer.allTrailerCorners
    apply List.map_congr_left
    intro i _
    unfold NTrailer.trailerCorners
    simp only
    rw [eh]; rfl
  unfold NTrailer.checkObstacle
  simp only
  rw [e2]
  simp only [hc, hr]; exact Iff.rfl

example := fun x => C58_order_ntrailer
  { Wit.train with toParams := Params.default [⟨1, 2, 3⟩, ⟨4, 5, 6⟩] [] }
  [⟨4, 5, 6⟩, ⟨1, 2, 3⟩] [] (by simp [Params.default, or_comm]) (by simp [Params.default]) x

example := fun q => C58_order_acc
  { Wit.acc with toParams := Params.default [⟨1, 2, 3⟩, ⟨4, 5, 6⟩] [] }
  [⟨4, 5, 6⟩, ⟨1, 2, 3⟩] [] (by simp [Params.default, or_comm]) (by simp [Params.default]) q

end Mbd
