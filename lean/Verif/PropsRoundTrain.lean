import Verif.RoundTrain
import Verif.PropsAlarm

/-!
# C76 for the train: the checks and the shield under rounding errors
-/

namespace Spec

open Real Mbd

/-- Error of one lever (length up to `2 K`) attached to a point at distance up to `B`. -/
def hopErr (u τ η B K : ℝ) : ℝ := 2 * u * B + 16 * u * K + 3 * τ * K + 10 * η

/-- Error of a coordinate of a corner of the last of `n` trailers: three levers per trailer, then the corner. -/
noncomputable def trainErr (u m τ η B K : ℝ) (n : ℕ) : ℝ :=
  3 * n * hopErr u τ η B K + (u * B + 32 * u * K + 24 * m * K + 16 * τ * K + 20 * η)

/-- Position and headings of the train are in the range for which the arithmetic is accurate. -/
structure InFieldN (R H : ℝ) (x : QN) : Prop where
  px : |x.px| ≤ R
  py : |x.py| ≤ R
  th0 : |x.th0| ≤ H
  ths : ∀ θ ∈ x.ths, |θ| ≤ H

/-- The arithmetic is accurate enough for the train and its obstacles: lengths of the vehicles up to `K`, half sizes
of the bodies at least `S`, half sizes of the rectangles up to `W`, radii up to `r`; `B` bounds the coordinates of all points of
the train, `e` the errors of its corners, `f` also those of the obstacles' corners; `tr` and `tc` are the tolerances for
rectangles and circles. -/
structure TrainRoundOK (u m τ η H R K B e f S W r tr tc : ℝ) (T : NTrailer) : Prop where
  fine : Fine u m τ η R W
  u1 : u ≤ 1 / 1000
  t1 : τ ≤ 1 / 1000
  e1 : η ≤ 1e-9
  some : 1 ≤ T.N
  range : R + 4 * K * T.N + 3 * K ≤ B
  rangeW : R + 5 * W ≤ B
  err : trainErr u m τ η B K T.N ≤ e
  err2 : e ≤ K / 50
  errW : e ≤ f ∧ cornerErr u m τ η R W ≤ f
  S0 : 0.02 ≤ S
  S1 : 5 * f ≤ S
  S2 : 3 * e + u * (2 * K + r) + η ≤ S / 500
  mid : |0.5 * (T.l1 + T.lf1 - T.lr)| ≤ K
  half : S ≤ (T.l1 + T.lf1 + T.lr) / 2 ∧ (T.l1 + T.lf1 + T.lr) / 2 ≤ K
  wide : S ≤ T.tractorWidth / 2 ∧ T.tractorWidth / 2 ≤ K
  wide2 : S ≤ T.trailerWidth / 2 ∧ T.trailerWidth / 2 ≤ K
  hitch : |T.lh| ≤ K
  trailers : ∀ i < T.N, |T.lengths.getD i 0| ≤ K ∧ |T.fronts.getD i 0| ≤ K ∧ |T.rears.getD i 0| ≤ K ∧
    S ≤ (T.fronts.getD i 0 + T.rears.getD i 0) / 2
  rectTol : 3 * (m * B + f) + 6 * η ≤ tr
  circTol : circleTol u η e B (2 * K + r) ((2 * K + r) / (2 * S)) ≤ tc
  rects : ∀ o ∈ T.rects, |o.x| ≤ R ∧ |o.y| ≤ R ∧ |o.ang| ≤ H ∧
    (0.02 ≤ o.w / 2 ∧ 5 * f ≤ o.w / 2) ∧ o.w / 2 ≤ W ∧
    (0.02 ≤ o.h / 2 ∧ 5 * f ≤ o.h / 2) ∧ o.h / 2 ≤ W ∧ tr ≤ o.w / 2 ∧ tr ≤ o.h / 2
  circles : ∀ c ∈ T.circles, 0 ≤ tc ∧ tc ≤ c.r ∧ c.r ≤ r ∧ η ≤ u * c.r ^ 2

/-- No body of the train reaches deeper than `tr` into a rectangle or deeper than `tc` into a disc. -/
def GrazesN (tr tc : ℝ) (T : NTrailer) (x : QN) : Prop :=
  (∀ c ∈ T.circles, NoDeeper tc (tractorBody T.toParams x.px x.py x.th0) (circleRegion c) ∧
    ∀ i < T.N, NoDeeper tc (trailerBodyN T x i) (circleRegion c)) ∧
  (∀ o ∈ T.rects, NoDeeper tr (tractorBody T.toParams x.px x.py x.th0) (rectRegion o) ∧
    ∀ i < T.N, NoDeeper tr (trailerBodyN T x i) (rectRegion o))

/-- What the train and the obstacles must satisfy for the rounded check to be silent at distance `ta`. -/
structure TrainAlarmOK (u m η B e f s r ta : ℝ) (T : NTrailer) : Prop where
  s0 : 0.02 ≤ s
  s1 : 50 * f ≤ s
  half : s ≤ (T.l1 + T.lf1 + T.lr) / 2
  wide : s ≤ T.tractorWidth / 2
  wide2 : s ≤ T.trailerWidth / 2
  trailers : ∀ i < T.N, s ≤ (T.fronts.getD i 0 + T.rears.getD i 0) / 2
  rects : ∀ o ∈ T.rects, s ≤ o.w / 2 ∧ s ≤ o.h / 2
  circles : ∀ c ∈ T.circles, 0 < c.r ∧ η ≤ u * c.r
  rectTol : 1.5 * rectAlarm u m η f s B (8 * B) ≤ ta
  circTol : circleAlarm u η e B r ≤ ta

end Spec

namespace Mbd

open Real Classical _root_.Spec

namespace Rounded

variable {A : Arith} {u m τ η H R K : ℝ}

theorem Accurate.weaken (acc : Spec.Accurate A u m τ η H) {η' : ℝ} (h : η ≤ η') : Spec.Accurate A u m τ η' H where
  const a := (acc.const a).trans (by linarith)
  add a b := (acc.add a b).trans (by linarith)
  sub a b := (acc.sub a b).trans (by linarith)
  mul a b := (acc.mul a b).trans (by linarith)
  div a b hb := (acc.div a b hb).trans (by linarith)
  mulAdd a b c := (acc.mulAdd a b c).trans (by linarith)
  sum2 a b c d := (acc.sum2 a b c d).trans (by linarith)
  mm a b c d := (acc.mm a b c d).trans (by linarith)
  rem a b hb := by
    obtain ⟨h1, h2, k, h3, h4⟩ := acc.rem a b hb
    exact ⟨h1, h2, k, h3, h4.trans (by linarith)⟩
  sqrt a ha := (acc.sqrt a ha).trans (by linarith)
  cos := acc.cos
  sin := acc.sin
  tan := acc.tan

/-- One lever. -/
theorem hop_err (acc : Spec.Accurate A u m τ η H) (u0 : 0 ≤ u) (u1 : u ≤ 1 / 1000) (t0 : 0 ≤ τ) (t1 : τ ≤ 1 / 1000)
    {B k k' c c' p p' e : ℝ} (hη : η ≤ K / 1000) (hk : |k| ≤ 2 * K) (hk' : |k' - k| ≤ 8 * (u * K) + 8 * η)
    (hc : |c| ≤ 1) (hc' : |c' - c| ≤ τ) (hp : |p| ≤ B) (hp' : |p' - p| ≤ e) (he : e ≤ B) :
    |A.mulAdd k' c' p' - (k * c + p)| ≤ e + Spec.hopErr u τ η B K := by
  have K0 : 0 ≤ K := by have := (abs_nonneg _).trans hk; linarith
  have huK : u * K ≤ 1 / 1000 * K := mul_le_mul_of_nonneg_right u1 K0
  have htK : τ * K ≤ 1 / 1000 * K := mul_le_mul_of_nonneg_right t1 K0
  have k1 : |k'| ≤ 2.02 * K := (abs_le_of_err hk' hk).trans (by linarith)
  have c1 : |c'| ≤ 1 + τ := abs_le_of_err hc' hc
  have hp1 : |p'| ≤ B + e := abs_le_of_err hp' hp
  have hprod := prod_err hk' hc' k1 hc
  have hkc : |k' * c'| ≤ 2.03 * K := by
    rw [abs_mul]
    have : |k'| * |c'| ≤ (2.02 * K) * (1 + τ) := mul_le_mul k1 c1 (abs_nonneg _) (by linarith)
    linarith
  have hsum : |k' * c' + p'| ≤ 2.03 * K + B + e := (abs_add_le _ _).trans (by linarith)
  have h := acc.mulAdd k' c' p'
  have e1 := mul_abs_le u0 hsum
  have e2 := mul_abs_le u0 hkc
  have e3 : u * e ≤ u * B := mul_abs_le u0 he
  have t1 : A.mulAdd k' c' p' - (k * c + p)
      = (A.mulAdd k' c' p' - (k' * c' + p')) + (k' * c' - k * c) + (p' - p) := by ring
  rw [t1]
  have := abs_add_three (A.mulAdd k' c' p' - (k' * c' + p')) (k' * c' - k * c) (p' - p)
  unfold Spec.hopErr
  have g1 := mul_nonneg u0 K0
  have g2 := mul_nonneg t0 K0
  have g3 : 0 ≤ η := by
    have := (abs_nonneg _).trans (acc.const 0)
    rwa [abs_zero, mul_zero, zero_add] at this
  linarith

/-- `s_center`. -/
theorem mid_err (acc : Spec.Accurate A u m τ η H) (u0 : 0 ≤ u) (u1 : u ≤ 1 / 1000) (e0 : 0 ≤ η) {a b l : ℝ} (ha : |a| ≤ K)
    (hb : |b| ≤ K) (hl : |l| ≤ K) :
    |A.sub (A.mul 0.5 (A.sub (A.const a) (A.const b))) (A.const l) - (0.5 * (a - b) - l)| ≤ 8 * (u * K) + 8 * η := by
  have K0 : 0 ≤ K := (abs_nonneg _).trans ha
  have g1 := mul_nonneg u0 K0
  have g2 : u * (u * K) ≤ 1 / 1000 * (u * K) := mul_le_mul_of_nonneg_right u1 g1
  have g3 : u * η ≤ 1 / 1000 * η := mul_le_mul_of_nonneg_right u1 e0
  have a1 := (acc.const a).trans (add_le_add_left (mul_abs_le u0 ha) η)
  have b1 := (acc.const b).trans (add_le_add_left (mul_abs_le u0 hb) η)
  have l1 := (acc.const l).trans (add_le_add_left (mul_abs_le u0 hl) η)
  generalize A.const a = a' at *
  generalize A.const b = b' at *
  generalize A.const l = l' at *
  have d1 : |(a' - b') - (a - b)| ≤ 2 * (u * K) + 2 * η := by
    rw [show (a' - b') - (a - b) = (a' - a) - (b' - b) by ring]
    exact (abs_sub _ _).trans (by linarith)
  have d2 : |a' - b'| ≤ 2 * K + (2 * (u * K) + 2 * η) := abs_le_of_err d1 ((abs_sub _ _).trans (by linarith))
  have d3 := (acc.sub a' b').trans (add_le_add_left (mul_abs_le u0 d2) η)
  generalize A.sub a' b' = d at *
  have d4 : |d - (a - b)| ≤ 4.01 * (u * K) + 3.01 * η := by
    have := abs_add_le (d - (a' - b')) ((a' - b') - (a - b))
    rw [sub_add_sub_cancel] at this
    rw [mul_add, mul_add] at d3
    linarith
  have d5 : |0.5 * d| ≤ K + (2.1 * (u * K) + 2 * η) := by
    rw [abs_mul, abs_of_pos (by norm_num : (0 : ℝ) < 0.5)]
    have := abs_le_of_err d4 (show |a - b| ≤ 2 * K from (abs_sub _ _).trans (by linarith))
    linarith
  have d6 := (acc.mul 0.5 d).trans (add_le_add_left (mul_abs_le u0 d5) η)
  generalize A.mul 0.5 d = h at *
  have d7 : |h - 0.5 * (a - b)| ≤ 3.1 * (u * K) + 2.7 * η := by
    have := abs_add_le (h - 0.5 * d) (0.5 * (d - (a - b)))
    rw [show h - 0.5 * d + 0.5 * (d - (a - b)) = h - 0.5 * (a - b) by ring, abs_mul 0.5 (d - (a - b)),
      abs_of_pos (by norm_num : (0 : ℝ) < 0.5)] at this
    rw [mul_add, mul_add] at d6
    linarith
  have d8 : |(h - l') - (0.5 * (a - b) - l)| ≤ 4.1 * (u * K) + 3.7 * η := by
    rw [show (h - l') - (0.5 * (a - b) - l) = (h - 0.5 * (a - b)) - (l' - l) by ring]
    exact (abs_sub _ _).trans (by linarith)
  have d9 : |h - l'| ≤ 2 * K + (4.1 * (u * K) + 3.7 * η) := by
    refine abs_le_of_err d8 ((abs_sub _ _).trans ?_)
    rw [abs_mul, abs_of_pos (by norm_num : (0 : ℝ) < 0.5)]
    have := abs_sub a b
    linarith
  have d10 := (acc.sub h l').trans (add_le_add_left (mul_abs_le u0 d9) η)
  have := abs_add_le (A.sub h l' - (h - l')) ((h - l') - (0.5 * (a - b) - l))
  rw [sub_add_sub_cancel] at this
  rw [mul_add, mul_add] at d10
  linarith

/-- `half_len`. -/
theorem half_err (acc : Spec.Accurate A u m τ η H) (u0 : 0 ≤ u) (u1 : u ≤ 1 / 1000) (e0 : 0 ≤ η) {a b : ℝ} (ha : |a| ≤ K)
    (hb : |b| ≤ K) : |A.mul 0.5 (A.add (A.const a) (A.const b)) - 0.5 * (a + b)| ≤ 4 * (u * K) + 3 * η := by
  have K0 : 0 ≤ K := (abs_nonneg _).trans ha
  have g1 := mul_nonneg u0 K0
  have g2 : u * (u * K) ≤ 1 / 1000 * (u * K) := mul_le_mul_of_nonneg_right u1 g1
  have g3 : u * η ≤ 1 / 1000 * η := mul_le_mul_of_nonneg_right u1 e0
  have a1 := (acc.const a).trans (add_le_add_left (mul_abs_le u0 ha) η)
  have b1 := (acc.const b).trans (add_le_add_left (mul_abs_le u0 hb) η)
  generalize A.const a = a' at *
  generalize A.const b = b' at *
  have d1 : |(a' + b') - (a + b)| ≤ 2 * (u * K) + 2 * η := by
    rw [show (a' + b') - (a + b) = (a' - a) + (b' - b) by ring]
    exact (abs_add_le _ _).trans (by linarith)
  have d2 : |a' + b'| ≤ 2 * K + (2 * (u * K) + 2 * η) := abs_le_of_err d1 ((abs_add_le _ _).trans (by linarith))
  have d3 := (acc.add a' b').trans (add_le_add_left (mul_abs_le u0 d2) η)
  generalize A.add a' b' = d at *
  have d4 : |d - (a + b)| ≤ 4.01 * (u * K) + 3.01 * η := by
    have := abs_add_le (d - (a' + b')) ((a' + b') - (a + b))
    rw [sub_add_sub_cancel] at this
    rw [mul_add, mul_add] at d3
    linarith
  have d5 : |0.5 * d| ≤ K + (2.1 * (u * K) + 2 * η) := by
    rw [abs_mul, abs_of_pos (by norm_num : (0 : ℝ) < 0.5)]
    have := abs_le_of_err d4 (show |a + b| ≤ 2 * K from (abs_add_le _ _).trans (by linarith))
    linarith
  have d6 := (acc.mul 0.5 d).trans (add_le_add_left (mul_abs_le u0 d5) η)
  have := abs_add_le (A.mul 0.5 d - 0.5 * d) (0.5 * (d - (a + b)))
  rw [show A.mul 0.5 d - 0.5 * d + 0.5 * (d - (a + b)) = A.mul 0.5 d - 0.5 * (a + b) by ring, abs_mul 0.5 (d - (a + b)),
    abs_of_pos (by norm_num : (0 : ℝ) < 0.5)] at this
  rw [mul_add, mul_add] at d6
  linarith

/-- Two points agree up to `e` in each coordinate, the first has coordinates up to `B`. -/
structure NearPt (e B : ℝ) (p p' : V2) : Prop where
  x : |p'.1 - p.1| ≤ e
  y : |p'.2 - p.2| ≤ e
  bx : |p.1| ≤ B
  by' : |p.2| ≤ B

theorem lever_near (acc : Spec.Accurate A u m τ η H) (u0 : 0 ≤ u) (u1 : u ≤ 1 / 1000) (t0 : 0 ≤ τ) (t1 : τ ≤ 1 / 1000)
    {B k k' th e b C : ℝ} {p p' : V2} (hη : η ≤ K / 1000) (hC : C ≤ 2 * K) (hk : |k| ≤ C)
    (hk' : |k' - k| ≤ 8 * (u * K) + 8 * η) (hth : |th| ≤ H) (hp : NearPt e b p p') (hb : b ≤ B) (he : e ≤ B) :
    NearPt (e + Spec.hopErr u τ η B K) (b + C) (k * Real.cos th + p.1, k * Real.sin th + p.2) (leverN A k' th p') where
  x := hop_err acc u0 u1 t0 t1 hη (hk.trans hC) hk' (abs_cos_le_one th) (acc.cos _ hth) (hp.bx.trans hb) hp.x he
  y := hop_err acc u0 u1 t0 t1 hη (hk.trans hC) hk' (abs_sin_le_one th) (acc.sin _ hth) (hp.by'.trans hb) hp.y he
  bx := abs_lever_le hk (abs_cos_le_one th) hp.bx
  by' := abs_lever_le hk (abs_sin_le_one th) hp.by'

theorem hopErr_nonneg {B : ℝ} (u0 : 0 ≤ u) (t0 : 0 ≤ τ) (e0 : 0 ≤ η) (K0 : 0 ≤ K) (B0 : 0 ≤ B) : 0 ≤ Spec.hopErr u τ η B K := by
  unfold Spec.hopErr; positivity

/-- What `TrainRoundOK` says about the sizes, spelt out. -/
theorem train_facts {B e f S W r tr tc : ℝ} {T : NTrailer} (ok : TrainRoundOK u m τ η H R K B e f S W r tr tc T) :
    0 < K ∧ 0 ≤ B ∧ 0 ≤ e ∧ η ≤ K / 1000 ∧ e ≤ B ∧ 0 ≤ Spec.hopErr u τ η B K ∧ 3 * (T.N : ℝ) * Spec.hopErr u τ η B K ≤ e := by
  have S0 := ok.S0
  have K1 := ok.half.1.trans ok.half.2
  have f0 := ok.fine
  have R0 := f0.R0
  have N0 : (0 : ℝ) ≤ T.N := Nat.cast_nonneg _
  have K0 : 0 < K := by linarith
  have B0 : 0 ≤ B := by
    have := ok.range
    have : 0 ≤ 4 * K * (T.N : ℝ) := by positivity
    linarith
  have h0 := hopErr_nonneg f0.u0 f0.t0 f0.e0 K0.le B0
  have he := ok.err
  unfold Spec.trainErr at he
  have hh : 0 ≤ 3 * (T.N : ℝ) * Spec.hopErr u τ η B K := by positivity
  have hr : 0 ≤ u * B + 32 * u * K + 24 * m * K + 16 * τ * K + 20 * η := by
    have := f0.u0
    have := f0.m0
    have := f0.t0
    have := f0.e0
    positivity
  have e1 := ok.e1
  have e2 := ok.err2
  have : 0 ≤ 4 * K * (T.N : ℝ) := by positivity
  have := ok.range
  exact ⟨K0, B0, by linarith, by linarith, by linarith, h0, by linarith⟩

/-- A box whose centre is known up to `n` levers. -/
theorem body_close (acc : Spec.Accurate A u m τ η H) {B e f S W r tr tc : ℝ} {T : NTrailer}
    (ok : TrainRoundOK u m τ η H R K B e f S W r tr tc T) {c c' : V2} {ang hl hl' hw hw' : ℝ}
    (hc : NearPt (3 * T.N * Spec.hopErr u τ η B K) (R + 4 * K * T.N) c c') (ha : |ang| ≤ H)
    (h1 : |hl| ≤ K) (h1' : |hl' - hl| ≤ 4 * (u * K) + 4 * η) (h2 : |hw| ≤ K) (h2' : |hw' - hw| ≤ 4 * (u * K) + 4 * η) :
    Close e (Mbd.boxCorners c ang hl hw) (boxCorners A c' ang hl' hw') ∧ Within B (boxCorners A c' ang hl' hw') := by
  obtain ⟨K0, B0, e0, hη, eB, h0, h3⟩ := train_facts ok
  have f0 := ok.fine
  have g1 := mul_nonneg f0.u0 K0.le
  have g2 := mul_nonneg f0.m0 K0.le
  have g3 := mul_nonneg f0.t0 K0.le
  have g4 := f0.e0
  have g5 := mul_nonneg f0.u0 B0
  have N1 : (1 : ℝ) ≤ T.N := by exact_mod_cast ok.some
  have hop : Spec.hopErr u τ η B K ≤ T.N * Spec.hopErr u τ η B K := by
    have := mul_le_mul_of_nonneg_right N1 h0
    linarith
  have he := ok.err
  unfold Spec.trainErr at he
  have he' : 3 * (2 * u * B + 16 * u * K + 3 * τ * K + 10 * η) + (u * B + 32 * u * K + 24 * m * K + 16 * τ * K + 20 * η) ≤ K / 50 := by
    have := ok.err2
    unfold Spec.hopErr at hop he
    linarith
  have fine : Spec.Fine u m τ (4 * η) 0 (4 * K) :=
    ⟨f0.u0, f0.m0, f0.t0, by linarith, le_rfl, by linarith, by unfold Spec.cornerErr; linarith⟩
  have acc' := Accurate.weaken acc (show η ≤ 4 * η by linarith)
  have rg := ok.range
  have cl := box_err acc' fine (R' := B) (c := c) (c' := c') (ang := ang) (hl := hl) (hl' := hl') (hw := hw) (hw' := hw')
    (e := 3 * T.N * Spec.hopErr u τ η B K) ha (by linarith) (by linarith) (by linarith) (by linarith)
    (hc.bx.trans (by linarith)) (hc.by'.trans (by linarith)) hc.x hc.y (by have := ok.err2; linarith)
  have cl' := cl.mono (show _ ≤ e by linarith)
  refine ⟨cl', ((box_within (ang := ang) h1 h2 hc.bx hc.by').close cl').mono ?_⟩
  have := ok.err2
  linarith

/-- Corners of the tractor. -/
theorem train_tractor_close (acc : Spec.Accurate A u m τ η H) {B e f S W r tr tc : ℝ} {T : NTrailer}
    (ok : TrainRoundOK u m τ η H R K B e f S W r tr tc T) {x : QN} (hx : InFieldN R H x) :
    Close e (T.toParams.tractorCorners x.px x.py x.th0) (tractorCorners A T.toParams x.px x.py x.th0) ∧
    Within B (tractorCorners A T.toParams x.px x.py x.th0) := by
  obtain ⟨K0, B0, e0, hη, eB, h0, h3⟩ := train_facts ok
  have f0 := ok.fine
  have g1 := mul_nonneg f0.u0 K0.le
  have g4 := f0.e0
  have N1 : (1 : ℝ) ≤ T.N := by exact_mod_cast ok.some
  have hop : Spec.hopErr u τ η B K ≤ T.N * Spec.hopErr u τ η B K := by
    have := mul_le_mul_of_nonneg_right N1 h0
    linarith
  have NK : K ≤ K * T.N := by
    have := mul_le_mul_of_nonneg_left N1 K0.le
    linarith
  have rg := ok.range
  have hc := lever_near acc f0.u0 ok.u1 f0.t0 ok.t1 (B := B) (k := 0.5 * (T.l1 + T.lf1 - T.lr))
    (k' := A.const (0.5 * (T.l1 + T.lf1 - T.lr))) (th := x.th0) (e := 0) (b := R) (C := K) (p := (x.px, x.py)) (p' := (x.px, x.py))
    hη (by linarith) ok.mid ((const_err acc f0.u0 ok.mid).trans (by linarith)) hx.th0
    ⟨by simp, by simp, hx.px, hx.py⟩ (by linarith) B0
  have hS := ok.S0
  have aK : |(T.l1 + T.lf1 + T.lr) / 2| ≤ K := by
    rw [abs_of_nonneg (by have := ok.half.1; linarith)]; exact ok.half.2
  have bK : |T.tractorWidth / 2| ≤ K := by
    rw [abs_of_nonneg (by have := ok.wide.1; linarith)]; exact ok.wide.2
  have := body_close acc ok (c := (0.5 * (T.l1 + T.lf1 - T.lr) * Real.cos x.th0 + x.px, 0.5 * (T.l1 + T.lf1 - T.lr) * Real.sin x.th0 + x.py))
    (c' := leverN A (A.const (0.5 * (T.l1 + T.lf1 - T.lr))) x.th0 (x.px, x.py))
    (ang := x.th0) (hl := (T.l1 + T.lf1 + T.lr) / 2) (hl' := A.const ((T.l1 + T.lf1 + T.lr) / 2)) (hw := T.tractorWidth / 2)
    (hw' := A.const (T.tractorWidth / 2))
    ⟨hc.x.trans (by linarith), hc.y.trans (by linarith), hc.bx.trans (by linarith), hc.by'.trans (by linarith)⟩ hx.th0 aK
    ((const_err acc f0.u0 aK).trans (by linarith)) bK ((const_err acc f0.u0 bK).trans (by linarith))
  have e1 : T.toParams.tractorCorners x.px x.py x.th0 = Mbd.boxCorners
      (0.5 * (T.l1 + T.lf1 - T.lr) * Real.cos x.th0 + x.px, 0.5 * (T.l1 + T.lf1 - T.lr) * Real.sin x.th0 + x.py) x.th0
      ((T.l1 + T.lf1 + T.lr) / 2) (T.tractorWidth / 2) := by
    unfold Params.tractorCorners
    simp only [add_comm]
  rw [e1]
  exact this

/-- The hitches of the train. -/
theorem hitch_near (acc : Spec.Accurate A u m τ η H) {B e f S W r tr tc : ℝ} {T : NTrailer}
    (ok : TrainRoundOK u m τ η H R K B e f S W r tr tc T) {x : QN} (hx : InFieldN R H x) (hw : WellSized T x) :
    ∀ i < T.N, NearPt ((3 * i + 1) * Spec.hopErr u τ η B K) (R + K + 4 * K * i) (T.rectHitch x i) (rectHitchN A T x i) ∧
      NearPt ((3 * i + 2) * Spec.hopErr u τ η B K) (R + 3 * K + 4 * K * i)
        ((T.rectHitch x i).1 + (0.5 * (clampGet T.fronts i - clampGet T.rears i) - clampGet T.lengths i) * Real.cos (T.theta x i),
         (T.rectHitch x i).2 + (0.5 * (clampGet T.fronts i - clampGet T.rears i) - clampGet T.lengths i) * Real.sin (T.theta x i))
        (centerN A T x i (rectHitchN A T x i)) := by
  obtain ⟨K0, B0, e0, hη, eB, h0, h3⟩ := train_facts ok
  have f0 := ok.fine
  have g1 := mul_nonneg f0.u0 K0.le
  have g4 := f0.e0
  have rg := ok.range
  have hlh : |-T.lh| ≤ K := by rw [abs_neg]; exact ok.hitch
  have hlh' : |-A.const T.lh - -T.lh| ≤ 8 * (u * K) + 8 * η := by
    rw [show -A.const T.lh - -T.lh = -(A.const T.lh - T.lh) by ring, abs_neg]
    exact (const_err acc f0.u0 ok.hitch).trans (by linarith)
  have hth : ∀ i < T.N, |T.theta x i| ≤ H := by
    intro i hi
    rw [theta_of_lt hw hi, List.getD_eq_getElem _ _ (by rw [hw.ths]; exact hi)]
    exact hx.ths _ (List.getElem_mem _)
  have sizes : ∀ i < T.N, |clampGet T.lengths i| ≤ K ∧ |clampGet T.fronts i| ≤ K ∧ |clampGet T.rears i| ≤ K := by
    intro i hi
    rw [clampGet_of_lt (l := T.lengths) (by rw [hw.lengths]; exact hi), clampGet_of_lt (l := T.fronts) (by rw [hw.fronts]; exact hi),
      clampGet_of_lt (l := T.rears) (by rw [hw.rears]; exact hi)]
    obtain ⟨a, b, c, -⟩ := ok.trailers i hi
    exact ⟨a, b, c⟩
  have bnd : ∀ i : ℕ, i < T.N → 4 * K * (i : ℝ) + 4 * K ≤ 4 * K * T.N := by
    intro i hi
    have : (i : ℝ) + 1 ≤ T.N := by exact_mod_cast hi
    have := mul_le_mul_of_nonneg_left this (show 0 ≤ 4 * K by linarith)
    linarith
  have ebd : ∀ (i : ℕ) (k : ℝ), i < T.N → k ≤ 3 → (3 * (i : ℝ) + k) * Spec.hopErr u τ η B K ≤ B := by
    intro i k hi hk
    have : (i : ℝ) + 1 ≤ T.N := by exact_mod_cast hi
    have := mul_le_mul_of_nonneg_right (show 3 * (i : ℝ) + k ≤ 3 * T.N by linarith) h0
    linarith
  have centre : ∀ i < T.N, NearPt ((3 * i + 1) * Spec.hopErr u τ η B K) (R + K + 4 * K * i) (T.rectHitch x i) (rectHitchN A T x i) →
      NearPt ((3 * i + 2) * Spec.hopErr u τ η B K) (R + 3 * K + 4 * K * i)
        ((T.rectHitch x i).1 + (0.5 * (clampGet T.fronts i - clampGet T.rears i) - clampGet T.lengths i) * Real.cos (T.theta x i),
         (T.rectHitch x i).2 + (0.5 * (clampGet T.fronts i - clampGet T.rears i) - clampGet T.lengths i) * Real.sin (T.theta x i))
        (centerN A T x i (rectHitchN A T x i)) := by
    intro i hi hn
    obtain ⟨s1, s2, s3⟩ := sizes i hi
    have hm : |0.5 * (clampGet T.fronts i - clampGet T.rears i) - clampGet T.lengths i| ≤ 2 * K := by
      refine (abs_sub _ _).trans ?_
      rw [abs_mul, abs_of_pos (by norm_num : (0 : ℝ) < 0.5)]
      have := abs_sub (clampGet T.fronts i) (clampGet T.rears i)
      linarith
    have b1 := bnd i hi
    have b2 := ebd i 1 hi (by norm_num)
    have := lever_near acc f0.u0 ok.u1 f0.t0 ok.t1 (B := B) (C := 2 * K) hη le_rfl hm
      (mid_err acc f0.u0 ok.u1 f0.e0 s2 s3 s1) (hth i hi) hn (by linarith) b2
    rw [add_comm (_ * Real.cos _), add_comm (_ * Real.sin _)] at this
    refine ⟨this.x.trans (by linarith), this.y.trans (by linarith), this.bx.trans (by linarith), this.by'.trans (by linarith)⟩
  intro i
  induction i with
  | zero =>
    intro hi
    have hn : NearPt ((3 * ((0 : ℕ) : ℝ) + 1) * Spec.hopErr u τ η B K) (R + K + 4 * K * ((0 : ℕ) : ℝ)) (T.rectHitch x 0)
        (rectHitchN A T x 0) := by
      have NK : 0 ≤ K * (T.N : ℝ) := mul_nonneg K0.le (Nat.cast_nonneg _)
      have := lever_near acc f0.u0 ok.u1 f0.t0 ok.t1 (B := B) (k := -T.lh) (th := x.th0) (e := 0) (b := R) (C := K)
        (p := (x.px, x.py)) (p' := (x.px, x.py)) hη (by linarith) hlh hlh' hx.th0 ⟨by simp, by simp, hx.px, hx.py⟩ (by linarith) B0
      have e1 : T.rectHitch x 0 = (-T.lh * Real.cos x.th0 + x.px, -T.lh * Real.sin x.th0 + x.py) := by
        unfold NTrailer.rectHitch NTrailer.hitch0
        ext <;> simp only <;> ring
      rw [e1]
      push_cast
      refine ⟨this.x.trans (by linarith), this.y.trans (by linarith), this.bx.trans (by linarith), this.by'.trans (by linarith)⟩
    exact ⟨hn, centre 0 hi hn⟩
  | succ i ih =>
    intro hi
    have hi' : i < T.N := by omega
    have hc := (ih hi').2
    obtain ⟨s1, s2, s3⟩ := sizes i hi'
    have b1 := bnd i hi'
    have hh : |-(0.5 * (clampGet T.fronts i + clampGet T.rears i))| ≤ K := by
      rw [abs_neg, abs_mul, abs_of_pos (by norm_num : (0 : ℝ) < 0.5)]
      have := abs_add_le (clampGet T.fronts i) (clampGet T.rears i)
      linarith
    have hh' : |-halfN A T i - -(0.5 * (clampGet T.fronts i + clampGet T.rears i))| ≤ 8 * (u * K) + 8 * η := by
      have := half_err acc f0.u0 ok.u1 f0.e0 s2 s3
      rw [show -halfN A T i - -(0.5 * (clampGet T.fronts i + clampGet T.rears i))
        = -(halfN A T i - 0.5 * (clampGet T.fronts i + clampGet T.rears i)) by ring, abs_neg]
      exact this.trans (by linarith)
    have n1 := lever_near acc f0.u0 ok.u1 f0.t0 ok.t1 (B := B) (C := K) hη (by linarith) hh hh' (hth i hi') hc (by linarith)
      (ebd i 2 hi' (by norm_num))
    have n2 := lever_near acc f0.u0 ok.u1 f0.t0 ok.t1 (B := B) (C := K) hη (by linarith) hlh hlh' (hth i hi') n1 (by linarith)
      (by have := ebd i 3 hi' le_rfl; linarith)
    have hn : NearPt ((3 * ((i + 1 : ℕ) : ℝ) + 1) * Spec.hopErr u τ η B K) (R + K + 4 * K * ((i + 1 : ℕ) : ℝ)) (T.rectHitch x (i + 1))
        (rectHitchN A T x (i + 1)) := by
      have e1 : T.rectHitch x (i + 1) = (-T.lh * Real.cos (T.theta x i) + (-(0.5 * (clampGet T.fronts i + clampGet T.rears i))
          * Real.cos (T.theta x i) + ((T.rectHitch x i).1 + (0.5 * (clampGet T.fronts i - clampGet T.rears i) - clampGet T.lengths i) * Real.cos (T.theta x i))),
          -T.lh * Real.sin (T.theta x i) + (-(0.5 * (clampGet T.fronts i + clampGet T.rears i))
          * Real.sin (T.theta x i) + ((T.rectHitch x i).2 + (0.5 * (clampGet T.fronts i - clampGet T.rears i) - clampGet T.lengths i) * Real.sin (T.theta x i)))) := by
        rw [NTrailer.rectHitch]
        ext <;> simp only <;> ring
      rw [e1]
      push_cast
      exact ⟨n2.x.trans (by linarith), n2.y.trans (by linarith), n2.bx.trans (by linarith), n2.by'.trans (by linarith)⟩
    exact ⟨hn, centre (i + 1) hi hn⟩

/-- Corners of trailer `i`. -/
theorem train_trailer_close (acc : Spec.Accurate A u m τ η H) {B e f S W r tr tc : ℝ} {T : NTrailer}
    (ok : TrainRoundOK u m τ η H R K B e f S W r tr tc T) {x : QN} (hx : InFieldN R H x) (hw : WellSized T x) {i : ℕ} (hi : i < T.N) :
    Close e (T.trailerCorners x i) (trailerCornersN A T x i) ∧ Within B (trailerCornersN A T x i) := by
  obtain ⟨K0, B0, e0, hη, eB, h0, h3⟩ := train_facts ok
  have f0 := ok.fine
  have g1 := mul_nonneg f0.u0 K0.le
  have g4 := f0.e0
  have hc := (hitch_near acc ok hx hw i hi).2
  have b : (i : ℝ) + 1 ≤ T.N := by exact_mod_cast hi
  have b1 := mul_le_mul_of_nonneg_left b (show 0 ≤ 4 * K by linarith)
  have b2 := mul_le_mul_of_nonneg_right (show 3 * (i : ℝ) + 2 ≤ 3 * T.N by linarith) h0
  obtain ⟨s1, s2, s3, s4⟩ := ok.trailers i hi
  rw [← clampGet_of_lt (l := T.fronts) (by rw [hw.fronts]; exact hi)] at s2 s4
  rw [← clampGet_of_lt (l := T.rears) (by rw [hw.rears]; exact hi)] at s3 s4
  have hth : |T.theta x i| ≤ H := by
    rw [theta_of_lt hw hi, List.getD_eq_getElem _ _ (by rw [hw.ths]; exact hi)]
    exact hx.ths _ (List.getElem_mem _)
  have hS := ok.S0
  have bK : |T.trailerWidth / 2| ≤ K := by
    rw [abs_of_nonneg (by have := ok.wide2.1; linarith)]; exact ok.wide2.2
  have hh : |0.5 * (clampGet T.fronts i + clampGet T.rears i)| ≤ K := by
    rw [abs_mul, abs_of_pos (by norm_num : (0 : ℝ) < 0.5)]
    have := abs_add_le (clampGet T.fronts i) (clampGet T.rears i)
    linarith
  exact body_close acc ok ⟨hc.x.trans b2, hc.y.trans b2, hc.bx.trans (by linarith), hc.by'.trans (by linarith)⟩ hth hh
    ((half_err acc f0.u0 ok.u1 f0.e0 s2 s3).trans (by linarith)) bK ((const_err acc f0.u0 bK).trans (by linarith))

/-- A box of the train whose rounded corners pass the rounded checks. -/
theorem train_box_grazes (acc : Spec.Accurate A u m τ η H) {B e f S W r tr tc : ℝ} {T : NTrailer}
    (ok : TrainRoundOK u m τ η H R K B e f S W r tr tc T) {c : V2} {a hl hw : ℝ} {k : Corners}
    (cl : Close e (Mbd.boxCorners c a hl hw) k) (hb : Within B k)
    (s1 : S ≤ hl) (s2 : S ≤ hw) (l1 : hl ≤ K) (l2 : hw ≤ K)
    (hc : ∀ c ∈ T.circles, ¬ rectCircle A k (c.x, c.y) c.r) (hr : ∀ o ∈ T.rects, ¬ rectRect A k (rectCorners A o)) :
    GrazesBody tr tc T.toParams (Spec.solidRect c a hl hw) ∧
    ∀ o ∈ T.circles, hw ≤ o.r - tc → NoDeeper tc (Spec.solidRect c a hl hw) (circleRegion o) := by
  obtain ⟨K0, B0, e0, hη, eB, h0, h3⟩ := train_facts ok
  have S0 := ok.S0
  have hW := ok.fine
  have u1 := ok.u1
  obtain ⟨ef, ef'⟩ := ok.errW
  have key : ∀ o ∈ T.circles, ¬ Mbd.rectCircle (Mbd.boxCorners c a hl hw) (o.x, o.y) (o.r - tc) := by
    intro o ho
    obtain ⟨q1, q2, q3, q4⟩ := ok.circles o ho
    exact circle_sound acc hW.u0 ok.u1 hW.e0 ok.e1 e0 cl hb ok.S0 s1 s2 l1 l2 q3 ok.S2 q1 q2 ok.circTol q4 (hc o ho)
  have t0 : 0 ≤ tr := by
    have h := ok.rectTol
    have h2 := mul_nonneg hW.m0 B0
    have := hW.e0
    linarith
  refine ⟨⟨fun o ho => ?_, fun o ho => ?_⟩, fun o ho hw' => ?_⟩
  · obtain ⟨q1, q2, -, -⟩ := ok.circles o ho
    rcases box_clear_circle (o := ⟨o.x, o.y, o.r - tc⟩) (by linarith) (by linarith) (by simp only; linarith) (key o ho) with h | h
    · exact Or.inl (noDeeper_disc q1 q2 h)
    · exact Or.inr h
  · obtain ⟨o1, o2, o3, ⟨o4, o4'⟩, o5, ⟨o6, o6'⟩, o7, o8, o9⟩ := ok.rects o ho
    have R0 := hW.R0
    have a1 : |o.w / 2| ≤ W := by rw [abs_of_nonneg (by linarith)]; exact o5
    have a2 : |o.h / 2| ≤ W := by rw [abs_of_nonneg (by linarith)]; exact o7
    have co := rect_close acc hW o1 o2 o3 a1 a2
    have sm := hW.small
    have W0 := hW.L0
    have wi : Within B (rectCorners A o) := by
      have := (box_within (ang := o.ang) (c := (o.x, o.y)) a1 a2 o1 o2).close co
      have := ok.rangeW
      exact Within.mono ‹Within _ (rectCorners A o)› (by linarith)
    have S1 := ok.S1
    exact noDeeper_rect t0 o8 o9 (rect_sound acc hW.u0 (by linarith) hW.m0 hW.e0 ok.e1 B0 (e0.trans ef)
      (by linarith) (by linarith) (by linarith) (by linarith) (by linarith) (by linarith) (by linarith) (by linarith)
      (cl.mono ef) (co.mono ef') hb wi ok.rectTol (hr o ho))
  · obtain ⟨q1, q2, -, -⟩ := ok.circles o ho
    exact noDeeper_disc q1 q2 (not_contained_of_width (o := ⟨o.x, o.y, o.r - tc⟩) (by linarith) (by linarith) hw' (key o ho))

theorem train_tractor_grazes (acc : Spec.Accurate A u m τ η H) {B e f S W r tr tc : ℝ} {T : NTrailer}
    (ok : TrainRoundOK u m τ η H R K B e f S W r tr tc T) {x : QN} (hx : InFieldN R H x)
    (hc : ∀ c ∈ T.circles, ¬ rectCircle A (tractorCorners A T.toParams x.px x.py x.th0) (c.x, c.y) c.r)
    (hr : ∀ o ∈ T.rects, ¬ rectRect A (tractorCorners A T.toParams x.px x.py x.th0) (rectCorners A o)) :
    GrazesBody tr tc T.toParams (Spec.tractorBody T.toParams x.px x.py x.th0) ∧
    ∀ o ∈ T.circles, T.tractorWidth / 2 ≤ o.r - tc →
      NoDeeper tc (Spec.tractorBody T.toParams x.px x.py x.th0) (circleRegion o) := by
  obtain ⟨k1, k2⟩ := train_tractor_close acc ok hx
  rw [tractorCorners_eq] at k1
  unfold Spec.tractorBody
  rw [body_eq]
  exact train_box_grazes acc ok k1 k2 ok.half.1 ok.wide.1 ok.half.2 ok.wide.2 hc hr

theorem train_trailer_grazes (acc : Spec.Accurate A u m τ η H) {B e f S W r tr tc : ℝ} {T : NTrailer}
    (ok : TrainRoundOK u m τ η H R K B e f S W r tr tc T) {x : QN} (hx : InFieldN R H x) (hw : WellSized T x) {i : ℕ} (hi : i < T.N)
    (hc : ∀ c ∈ T.circles, ¬ rectCircle A (trailerCornersN A T x i) (c.x, c.y) c.r)
    (hr : ∀ o ∈ T.rects, ¬ rectRect A (trailerCornersN A T x i) (rectCorners A o)) :
    GrazesBody tr tc T.toParams (Spec.trailerBodyN T x i) ∧
    ∀ o ∈ T.circles, T.trailerWidth / 2 ≤ o.r - tc → NoDeeper tc (Spec.trailerBodyN T x i) (circleRegion o) := by
  obtain ⟨k1, k2⟩ := train_trailer_close acc ok hx hw hi
  rw [trailerCornersN_eq hw hi] at k1
  obtain ⟨s1, s2, s3, s4⟩ := ok.trailers i hi
  unfold Spec.trailerBodyN
  rw [body_eq]
  have := le_abs_self (T.fronts.getD i 0)
  have := le_abs_self (T.rears.getD i 0)
  exact train_box_grazes acc ok k1 k2 s4 ok.wide2.1 (by linarith) ok.wide2.2 hc hr

/-- One body of the train that keeps away from all obstacles. -/
theorem train_box_silent (acc : Spec.Accurate A u m τ η H) {B e f S W r tr tc s ta : ℝ} {T : NTrailer}
    (ok : TrainRoundOK u m τ η H R K B e f S W r tr tc T) (al : TrainAlarmOK u m η B e f s r ta T)
    {c : V2} {a hl hw : ℝ} {k : Corners} (cl : Close e (Mbd.boxCorners c a hl hw) k) (hb : Within B k)
    (s1 : s ≤ hl) (s2 : s ≤ hw) (l1 : hl ≤ K) (l2 : hw ≤ K)
    (hc : ∀ o ∈ T.circles, KeepsAway ta (Spec.solidRect c a hl hw) (Spec.circleRegion o))
    (hr : ∀ o ∈ T.rects, KeepsAway ta (Spec.solidRect c a hl hw) (Spec.rectRegion o)) :
    (∀ o ∈ T.circles, ¬ rectCircle A k (o.x, o.y) o.r) ∧ (∀ o ∈ T.rects, ¬ rectRect A k (rectCorners A o)) := by
  obtain ⟨K0, B0, e0, hη, eB, h0, h3⟩ := train_facts ok
  have s0 := al.s0
  have hW := ok.fine
  obtain ⟨ef, ef'⟩ := ok.errW
  constructor
  · intro o ho
    obtain ⟨-, -, q3, q4⟩ := ok.circles o ho
    obtain ⟨q5, q6⟩ := al.circles o ho
    refine circle_silent acc hW.u0 ok.u1 hW.e0 (by linarith) (by linarith) cl hb e0 q5 q6 q4 (le_trans ?_ al.circTol) (hc o ho)
    unfold Spec.circleAlarm
    have := mul_abs_le hW.u0 q3
    linarith
  · intro o ho
    obtain ⟨o1, o2, o3, ⟨o4, o4'⟩, o5, ⟨o6, o6'⟩, o7, -, -⟩ := ok.rects o ho
    obtain ⟨i1, i2⟩ := al.rects o ho
    have R0 := hW.R0
    have W0 := hW.L0
    have a1 : |o.w / 2| ≤ W := by rw [abs_of_nonneg (by linarith)]; exact o5
    have a2 : |o.h / 2| ≤ W := by rw [abs_of_nonneg (by linarith)]; exact o7
    have co := rect_close acc hW o1 o2 o3 a1 a2
    have sm := hW.small
    have rW := ok.rangeW
    have wi : Within B (rectCorners A o) := by
      have := (box_within (ang := o.ang) (c := (o.x, o.y)) a1 a2 o1 o2).close co
      exact this.mono (by linarith)
    obtain ⟨z1, z2⟩ := centre_bound cl hb
    have e2 := ok.err2
    have rg := ok.range
    have N1 : (1 : ℝ) ≤ T.N := by exact_mod_cast ok.some
    have NK : K ≤ K * T.N := by
      have := mul_le_mul_of_nonneg_left N1 K0.le
      linarith
    have d1 : |o.x - c.1| ≤ R + B + K / 50 := (abs_sub _ _).trans (by linarith)
    have d2 : |o.y - c.2| ≤ R + B + K / 50 := (abs_sub _ _).trans (by linarith)
    have t0 : 0 ≤ Spec.rectAlarm u m η f s B (8 * B) := by
      unfold Spec.rectAlarm
      have := hW.u0
      have := hW.m0
      have := hW.e0
      have := e0.trans ef
      positivity
    exact rect_silent acc hW.u0 ok.u1 hW.m0 hW.e0 ok.e1 (B := B) (D := 8 * B) B0 (e0.trans ef)
      (c₁ := c) (c₂ := (o.x, o.y)) (a₁ := a) (a₂ := o.ang) (l₁ := hl) (w₁ := hw) (l₂ := o.w / 2) (w₂ := o.h / 2)
      al.s0 al.s1 s1 s2 i1 i2 (cl.mono ef) (co.mono ef') hb wi (by simp only; linarith) le_rfl
      (grown_apart (by linarith) (by linarith) t0 al.rectTol (hr o ho))

/-- Scan of the rounded hitch check. -/
theorem hitchScanN_iff (P : Params) (l : List ℝ) : ∀ (prev : ℝ) (v : Prop),
    hitchScanN A P prev v l ↔
      v ∨ ∃ i, ∃ h : i < l.length, A.const P.phiMax < |wrapPi A (A.sub ((prev :: l)[i]'(by simp; omega)) l[i])| := by
  induction l with
  | nil => intro prev v; simp [hitchScanN]
  | cons a l ih =>
    intro prev v
    unfold hitchScanN
    rw [ih, or_assoc]
    apply or_congr Iff.rfl
    constructor
    · rintro (h | ⟨i, hi, h⟩)
      · exact ⟨0, by simp, h⟩
      · exact ⟨i + 1, by simp; omega, h⟩
    · rintro ⟨i, hi, h⟩
      cases i with
      | zero => left; exact h
      | succ j => right; exact ⟨j, by simp at hi; omega, h⟩

theorem checkHitchN_iff (T : NTrailer) (x : QN) (hlen : x.ths.length = T.N) (hN : 1 ≤ T.N) :
    checkHitchN A T x ↔ ∃ i, ∃ h : i < x.ths.length,
      checkHitch A T.toParams ⟨0, 0, (x.th0 :: x.ths)[i]'(by simp; omega), x.ths[i]⟩ := by
  unfold checkHitchN NTrailer.slice checkHitch
  rw [List.take_of_length_le hlen.le]
  simp only
  rw [hitchScanN_iff]
  obtain ⟨a, l, hl⟩ : ∃ a l, x.ths = a :: l := by
    cases h : x.ths with
    | nil => rw [h] at hlen; simp at hlen; omega
    | cons a l => exact ⟨a, l, rfl⟩
  simp only [hl, List.headD_cons, List.tail_cons]
  constructor
  · rintro (h | ⟨i, hi, h⟩)
    · exact ⟨0, by simp, by simpa using h⟩
    · exact ⟨i + 1, by simp; omega, by simpa using h⟩
  · rintro ⟨i, hi, h⟩
    cases i with
    | zero => left; simpa using h
    | succ j => right; exact ⟨j, by simp at hi; omega, by simpa using h⟩

theorem stepN_cases (T : NTrailer) (x : QN) (a : U) :
    stepN A T x a = x ∨ stepN A T x a = eulerN A T x (inputScaler A T.toParams (clipU a)) := by
  unfold stepN kinShieldedRollout
  simp only
  split_ifs <;> simp

theorem stepN_wellSized {T : NTrailer} {x : QN} (h : WellSized T x) (a : U) : WellSized T (stepN A T x a) := by
  refine ⟨?_, h.lengths, h.fronts, h.rears⟩
  rcases stepN_cases (A := A) T x a with e | e
  · rw [e]; exact h.ths
  · rw [e]
    unfold eulerN
    simp [h.ths]

theorem stepN_passes {T : NTrailer} (hs : T.shieldCollision = true) (x : QN) (a : U) (h : ¬ checkObstacleN A T x) :
    ¬ checkObstacleN A T (stepN A T x a) := by
  unfold stepN kinShieldedRollout
  simp only [hs]
  split_ifs <;> simp_all

end Rounded

/-! ## The checks -/

/-- C76, train: if the collision check computed with rounding errors passes, no body of the train reaches deeper than the
tolerance into an obstacle (or the body swallows the shrunk disc, see C05). -/
theorem C76_check_ntrailer {A : Arith} {u m τ η H R K B e f S W r tr tc : ℝ} {T : NTrailer} (acc : Spec.Accurate A u m τ η H)
    (ok : TrainRoundOK u m τ η H R K B e f S W r tr tc T) {x : QN} (hx : InFieldN R H x) (hw : WellSized T x)
    (h : ¬ Rounded.checkObstacleN A T x) :
    GrazesBody tr tc T.toParams (Spec.tractorBody T.toParams x.px x.py x.th0) ∧
    ∀ i < T.N, GrazesBody tr tc T.toParams (Spec.trailerBodyN T x i) := by
  unfold Rounded.checkObstacleN at h
  simp only at h
  push Not at h
  obtain ⟨⟨c1, c2⟩, r1, r2⟩ := h
  exact ⟨(Rounded.train_tractor_grazes acc ok hx c1 r1).1,
    fun i hi => (Rounded.train_trailer_grazes acc ok hx hw hi (c2 i hi) (r2 i hi)).1⟩

/-- C76, the shielded run of the train: with the collision shield on and discs that do not fit into a body, no recorded state in
the field has a body deeper than the tolerance in an obstacle, whatever the rounding errors of the motion are. -/
theorem C76_run_ntrailer {A : Arith} {u m τ η H R K B e f S W r tr tc : ℝ} {T : NTrailer} (acc : Spec.Accurate A u m τ η H)
    (ok : TrainRoundOK u m τ η H R K B e f S W r tr tc T) (hs : T.shieldCollision = true)
    (hd : ∀ c ∈ T.circles, T.tractorWidth / 2 ≤ c.r - tc ∧ T.trailerWidth / 2 ≤ c.r - tc)
    (x : QN) (hw : WellSized T x) (h0 : ¬ Rounded.checkObstacleN A T x) (us : List U) :
    ∀ x' ∈ Rounded.states (Rounded.stepN A T) x us, InFieldN R H x' → GrazesN tr tc T x' := by
  intro x' hx' hf
  obtain ⟨hw', h⟩ := Rounded.states_forall (p := fun x => WellSized T x ∧ ¬ Rounded.checkObstacleN A T x)
    (fun x a h => ⟨Rounded.stepN_wellSized h.1 a, Rounded.stepN_passes hs x a h.2⟩) us x ⟨hw, h0⟩ x' hx'
  unfold Rounded.checkObstacleN at h
  simp only at h
  push Not at h
  obtain ⟨⟨c1, c2⟩, r1, r2⟩ := h
  obtain ⟨a1, a2⟩ := Rounded.train_tractor_grazes acc ok hf c1 r1
  have b := fun i hi => Rounded.train_trailer_grazes acc ok hf hw' (i := i) hi (c2 i hi) (r2 i hi)
  exact ⟨fun c hc => ⟨a2 c hc (hd c hc).1, fun i hi => (b i hi).2 c hc (hd c hc).2⟩,
    fun o ho => ⟨a1.2 o ho, fun i hi => (b i hi).1.2 o ho⟩⟩

/-- C76, train, no false alarms: if all bodies keep further than `ta` away from every obstacle, the collision check computed with
rounding errors reports no collision. -/
theorem C76_silent_ntrailer {A : Arith} {u m τ η H R K B e f S W r tr tc s ta : ℝ} {T : NTrailer} (acc : Spec.Accurate A u m τ η H)
    (ok : TrainRoundOK u m τ η H R K B e f S W r tr tc T) (al : TrainAlarmOK u m η B e f s r ta T) {x : QN}
    (hx : InFieldN R H x) (hw : WellSized T x) (h : MarginN ta T T.circles T.rects x) : ¬ Rounded.checkObstacleN A T x := by
  obtain ⟨h1, h2⟩ := h
  have a : (∀ o ∈ T.circles, ¬ Rounded.rectCircle A (Rounded.tractorCorners A T.toParams x.px x.py x.th0) (o.x, o.y) o.r) ∧
      (∀ o ∈ T.rects, ¬ Rounded.rectRect A (Rounded.tractorCorners A T.toParams x.px x.py x.th0) (Rounded.rectCorners A o)) := by
    obtain ⟨k1, k2⟩ := Rounded.train_tractor_close acc ok hx
    rw [tractorCorners_eq] at k1
    unfold Spec.tractorBody at h1 h2
    simp only [body_eq] at h1 h2
    exact Rounded.train_box_silent acc ok al k1 k2 al.half al.wide ok.half.2 ok.wide.2 (fun o ho => (h1 o ho).1) (fun o ho => (h2 o ho).1)
  have b : ∀ i < T.N, (∀ o ∈ T.circles, ¬ Rounded.rectCircle A (Rounded.trailerCornersN A T x i) (o.x, o.y) o.r) ∧
      (∀ o ∈ T.rects, ¬ Rounded.rectRect A (Rounded.trailerCornersN A T x i) (Rounded.rectCorners A o)) := by
    intro i hi
    obtain ⟨k1, k2⟩ := Rounded.train_trailer_close acc ok hx hw hi
    rw [trailerCornersN_eq hw hi] at k1
    obtain ⟨s1, s2, s3, s4⟩ := ok.trailers i hi
    unfold Spec.trailerBodyN at h1 h2
    simp only [body_eq] at h1 h2
    have := le_abs_self (T.fronts.getD i 0)
    have := le_abs_self (T.rears.getD i 0)
    exact Rounded.train_box_silent acc ok al k1 k2 (al.trailers i hi) al.wide2 (by linarith) ok.wide2.2
      (fun o ho => (h1 o ho).2 i hi) (fun o ho => (h2 o ho).2 i hi)
  unfold Rounded.checkObstacleN
  simp only
  rintro ((⟨c, hc, g⟩ | ⟨i, hi, c, hc, g⟩) | (⟨o, ho, g⟩ | ⟨i, hi, o, ho, g⟩))
  · exact a.1 c hc g
  · exact (b i hi).1 c hc g
  · exact a.2 o ho g
  · exact (b i hi).2 o ho g

/-- C76, hitch angles of the train: if the hitch check computed with rounding errors passes, no angle between consecutive
vehicles exceeds the limit by more than the tolerance, modulo full turns; and if all of them stay below the limit by the tolerance,
it passes. -/
theorem C76_hitch_ntrailer {A : Arith} {u m τ η H R : ℝ} {T : NTrailer} (acc : Spec.Accurate A u m τ η H) (u0 : 0 ≤ u)
    (u1 : u ≤ 1 / 1000) (e0 : 0 ≤ η) (e1 : η ≤ 1e-9) {x : QN} (hx : InFieldN R H x) (hlen : x.ths.length = T.N) (hN : 1 ≤ T.N) :
    (¬ Rounded.checkHitchN A T x → ∀ i, ∀ h : i < x.ths.length,
      ¬ Spec.exceedsModTurns (40 * π / 180 + hitchTol u η H) ((x.th0 :: x.ths)[i]'(by simp; omega) - x.ths[i])) ∧
    (hitchTol u η H ≤ 1 → (∀ i, ∀ h : i < x.ths.length,
      ¬ Spec.exceedsModTurns (40 * π / 180 - hitchTol u η H) ((x.th0 :: x.ths)[i]'(by simp; omega) - x.ths[i])) →
      ¬ Rounded.checkHitchN A T x) := by
  rw [Rounded.checkHitchN_iff T x hlen hN]
  have H0 : 0 ≤ H := (abs_nonneg _).trans hx.th0
  have field : ∀ i, ∀ h : i < x.ths.length, InField4 0 H ⟨0, 0, (x.th0 :: x.ths)[i]'(by simp; omega), x.ths[i]⟩ := by
    intro i h
    refine ⟨by simp, by simp, ?_, hx.ths _ (List.getElem_mem _)⟩
    have hm : (x.th0 :: x.ths)[i]'(by simp; omega) ∈ x.th0 :: x.ths := List.getElem_mem _
    rcases List.mem_cons.1 hm with h | h
    · rw [h]; exact hx.th0
    · exact hx.ths _ h
  constructor
  · intro h i hi
    push Not at h
    exact C76_hitch acc u0 u1 e0 e1 (field i hi) (h i hi)
  · rintro tol h ⟨i, hi, hc⟩
    exact C76_hitch_silent acc u0 u1 e0 e1 tol (field i hi) (h i hi) hc

/-! ## Exact arithmetic -/

theorem exact_hitchN (T : NTrailer) (x : QN) : ∀ i, Rounded.rectHitchN exactArith T x i = T.rectHitch x i
  | 0 => by
    unfold Rounded.rectHitchN NTrailer.rectHitch NTrailer.hitch0 Rounded.leverN
    simp only [exactArith, id]
    ext <;> simp only <;> ring
  | i + 1 => by
    unfold Rounded.rectHitchN NTrailer.rectHitch Rounded.leverN Rounded.centerN Rounded.leverN Rounded.midN Rounded.halfN
      Rounded.lengthN Rounded.frontN Rounded.rearN
    rw [exact_hitchN T x i]
    simp only [exactArith, id]
    ext <;> simp only <;> ring

theorem exact_trailerN (T : NTrailer) (x : QN) (i : ℕ) :
    Rounded.trailerCornersN exactArith T x i = T.trailerCorners x i := by
  unfold Rounded.trailerCornersN NTrailer.trailerCorners Rounded.centerN Rounded.leverN Rounded.midN Rounded.halfN
      Rounded.lengthN Rounded.frontN Rounded.rearN
  rw [exact_box, exact_hitchN]
  simp only [exactArith, id]
  congr 1
  ext <;> simp only <;> ring

/-- C76, the rounded model of the train is the model of the other claims when the arithmetic is exact: collision check. -/
theorem C76_exact_check_ntrailer (T : NTrailer) (x : QN) : Rounded.checkObstacleN exactArith T x ↔ T.checkObstacle x := by
  unfold Rounded.checkObstacleN NTrailer.checkObstacle NTrailer.allTrailerCorners
  simp only [exact_tractor, exact_trailerN, exact_rect, exact_circleCheck, exact_rectCheck, List.mem_map, List.mem_range,
    exists_exists_and_eq_and]

theorem exact_hitchScan (P : Params) : ∀ (l : List ℝ) (prev : ℝ) (v : Prop),
    Rounded.hitchScanN exactArith P prev v l ↔ NTrailer.hitchScan P.phiMax prev v l
  | [], _, _ => Iff.rfl
  | a :: l, _, _ => exact_hitchScan P l a _

/-- Hitch check. -/
theorem C76_exact_hitch_ntrailer (T : NTrailer) (x : QN) : Rounded.checkHitchN exactArith T x ↔ T.checkHitch x :=
  exact_hitchScan T.toParams _ _ _

theorem exact_carryN (T : NTrailer) (x : QN) (v d : ℝ) : ∀ i, Rounded.carryAtN exactArith T x v d i = T.carryAt x v d i
  | 0 => rfl
  | i + 1 => by
    rw [Rounded.carryAtN, NTrailer.carryAt, exact_carryN T x v d i]
    unfold Rounded.loopBodyN NTrailer.loopBody Rounded.lengthN
    simp only [exactArith, id]
    congr 1
    split_ifs <;> ring

theorem exact_eulerN (T : NTrailer) (x : QN) (w : U) :
    Rounded.eulerN exactArith T x (Rounded.inputScaler exactArith T.toParams w) = T.euler x (T.toParams.inputScaler w) := by
  unfold Rounded.eulerN NTrailer.euler QN.axpy NTrailer.dynamics Rounded.inputScaler Params.inputScaler
  simp only [exact_carryN]
  simp only [exactArith, id]
  ext
  · simp only; ring
  · simp only; ring
  · simp only; ring
  · simp only [add_comm]

/-- Motion and shield: with exact arithmetic a step of the rounded model is a step of the simulator; in backup mode the action
is replaced by the zero action. -/
theorem C76_exact_step_ntrailer (T : NTrailer) (guide : QN → QN) (hg : T.enableGuidance = false) (s s' : St QN) (a : U)
    (h : T.step guide s a = .ok s') : Rounded.stepN exactArith T s.q (effAction s.inBackup a) = s'.q := by
  rw [(T.step_spec guide hg s s' a h).1]
  unfold Rounded.stepN kinShieldedRollout
  rw [clipU_eff, exact_eulerN]
  unfold NTrailer.rejects NTrailer.proposal
  generalize T.euler s.q (T.inputScaler (effAction s.inBackup a)) = z
  have h1 := C76_exact_check_ntrailer T z
  have h2 := C76_exact_hitch_ntrailer T z
  by_cases c1 : T.checkObstacle z <;> by_cases c2 : T.checkHitch z <;>
    cases e1 : T.shieldCollision <;> cases e2 : T.shieldHitch <;> simp [c1, c2, h1, h2]

example (guide : QN → QN) (a : U) : ∃ s', Wit.train.step guide Wit.train.reset a = .ok s' ∧
    Rounded.stepN exactArith Wit.train Wit.train.reset.q (effAction false a) = s'.q := by
  obtain ⟨s', h⟩ := (Wit.train.step_ok_iff guide Wit.train.reset a).mpr ⟨rfl, rfl⟩
  exact ⟨s', h, C76_exact_step_ntrailer Wit.train guide rfl Wit.train.reset s' a h⟩

/-! ## The default train in single precision -/

/-- A train with the default vehicles and at most three trailers: lengths 2.9 m, front overhangs 1.42 m, rear overhangs 1.848 m or
3.225 m (the last trailer), as `NTrailer2d.__init__` sets them (n_trailer2d.py:26-38). -/
structure Spec.DefaultTrain (T : NTrailer) (cs : List Circle) (rs : List Rect) : Prop where
  params : T.toParams = Params.default cs rs
  some : 1 ≤ T.N
  few : T.N ≤ 3
  lengths : T.lengths = List.replicate T.N 2.9
  fronts : T.fronts = List.replicate T.N 1.42
  rears : T.rears = List.replicate (T.N - 1) 1.848 ++ [3.225]

theorem Spec.DefaultTrain.wellSized {T : NTrailer} {cs : List Circle} {rs : List Rect} (h : Spec.DefaultTrain T cs rs) {x : QN}
    (hx : x.ths.length = T.N) : Spec.WellSized T x :=
  ⟨hx, by rw [h.lengths, List.length_replicate], by rw [h.fronts, List.length_replicate],
    by rw [h.rears, List.length_append, List.length_replicate]; have := h.some; simp; omega⟩

theorem defaultTrain_sizes {T : NTrailer} {cs : List Circle} {rs : List Rect} (h : Spec.DefaultTrain T cs rs) {i : ℕ} (hi : i < T.N) :
    T.lengths.getD i 0 = 2.9 ∧ T.fronts.getD i 0 = 1.42 ∧ (T.rears.getD i 0 = 1.848 ∨ T.rears.getD i 0 = 3.225) := by
  rw [h.lengths, h.fronts, h.rears]
  refine ⟨by simp [hi], by simp [hi], ?_⟩
  rcases Nat.lt_or_ge i (T.N - 1) with g | g
  · left
    rw [List.getD_append _ _ _ _ (by simpa using g)]
    simp [g]
  · right
    have : i = T.N - 1 := by omega
    subst this
    rw [List.getD_append_right _ _ _ _ (by simp)]
    simp

/-- Obstacles on the yard of a train: discs with radii from 1.3 to 5 m, rectangles with sides from 4 cm to 20 m, up to 50 m from
the origin. -/
structure Spec.Yard (cs : List Circle) (rs : List Rect) : Prop where
  circles : ∀ c ∈ cs, 1.3 ≤ c.r ∧ c.r ≤ 5
  rects : ∀ o ∈ rs, |o.x| ≤ 50 ∧ |o.y| ≤ 50 ∧ |o.ang| ≤ 100 ∧ 0.04 ≤ o.w ∧ o.w ≤ 20 ∧ 0.04 ≤ o.h ∧ o.h ≤ 20

theorem defaultTrain_roundOK {T : NTrailer} {cs : List Circle} {rs : List Rect} (h : Spec.DefaultTrain T cs rs) (yd : Spec.Yard cs rs) :
    TrainRoundOK 6e-8 1.8e-7 5e-7 1e-30 100 50 3.3 100 2.35e-4 2.4e-4 1 10 5 0.001 0.05 T := by
  have N3 : (T.N : ℝ) ≤ 3 := by exact_mod_cast h.few
  have N0 : (0 : ℝ) ≤ T.N := Nat.cast_nonneg _
  exact {
    fine := ⟨by norm_num, by norm_num, by norm_num, by norm_num, by norm_num, by norm_num, by unfold cornerErr; norm_num⟩
    u1 := by norm_num
    t1 := by norm_num
    e1 := by norm_num
    some := h.some
    range := by linarith
    rangeW := by norm_num
    err := by unfold trainErr hopErr; linarith
    err2 := by norm_num
    errW := ⟨by norm_num, by unfold cornerErr; norm_num⟩
    S0 := by norm_num
    S1 := by norm_num
    S2 := by norm_num
    mid := by rw [h.params, abs_le]; constructor <;> norm_num [Params.default]
    half := by rw [h.params]; constructor <;> norm_num [Params.default]
    wide := by rw [h.params]; constructor <;> norm_num [Params.default]
    wide2 := by rw [h.params]; constructor <;> norm_num [Params.default]
    hitch := by rw [h.params, abs_le]; constructor <;> norm_num [Params.default]
    trailers := by
      intro i hi
      obtain ⟨e1, e2, e3⟩ := defaultTrain_sizes h hi
      rw [e1, e2]
      rcases e3 with e3 | e3 <;> rw [e3] <;> norm_num [abs_of_pos]
    rectTol := by norm_num
    circTol := by unfold circleTol; norm_num
    rects := by
      intro o ho
      rw [h.params] at ho
      obtain ⟨h1, h2, h3, h4, h5, h6, h7⟩ := yd.rects o ho
      exact ⟨h1, h2, h3, ⟨by linarith, by linarith⟩, by linarith, ⟨by linarith, by linarith⟩, by linarith, by linarith, by linarith⟩
    circles := by
      intro c hc
      rw [h.params] at hc
      obtain ⟨h1, h2⟩ := yd.circles c hc
      refine ⟨by norm_num, by linarith, h2, ?_⟩
      have : (1 : ℝ) ^ 2 ≤ c.r ^ 2 := pow_le_pow_left₀ (by norm_num) (by linarith) 2
      linarith }

/-- C76, the default train with up to three trailers in single precision: with the collision shield on (the default), started in a
state which passes the check, no recorded state within 50 m of the origin has a body more than 1 mm inside a rectangle or more
than 5 cm inside a disc, for any actions and any number of steps. -/
theorem C76_run_train {A : Arith} (acc : Spec.Float32 A) {T : NTrailer} {cs : List Circle} {rs : List Rect}
    (hT : Spec.DefaultTrain T cs rs) (yd : Spec.Yard cs rs) (x : QN) (hx : x.ths.length = T.N)
    (h0 : ¬ Rounded.checkObstacleN A T x) (us : List U) :
    ∀ x' ∈ Rounded.states (Rounded.stepN A T) x us, InFieldN 50 100 x' → GrazesN 0.001 0.05 T x' := by
  refine C76_run_ntrailer acc (defaultTrain_roundOK hT yd) (by rw [hT.params]; rfl) ?_ x (hT.wellSized hx) h0 us
  intro c hc
  rw [hT.params] at hc ⊢
  have := (yd.circles c hc).1
  constructor <;> norm_num [Params.default] <;> linarith

/-- The default train with two trailers, a pole of radius 2 and a block. -/
noncomputable def roundTrain : NTrailer :=
  { toParams := Params.default [⟨20, 0, 2⟩] [⟨0, 30, 4, 2, 0⟩], N := 2, lengths := [2.9, 2.9], fronts := [1.42, 1.42],
    rears := [1.848, 3.225], x0 := ⟨0, 0, 0, [0, 0]⟩, xg := ⟨9, 0, 0, [0, 0]⟩ }

theorem roundTrain_default : Spec.DefaultTrain roundTrain [⟨20, 0, 2⟩] [⟨0, 30, 4, 2, 0⟩] :=
  ⟨rfl, by norm_num [roundTrain], by norm_num [roundTrain], rfl, rfl, rfl⟩

theorem roundTrain_yard : Spec.Yard [(⟨20, 0, 2⟩ : Circle)] [(⟨0, 30, 4, 2, 0⟩ : Rect)] := by
  constructor
  · intro c hc; rw [List.mem_singleton] at hc; subst hc; norm_num
  · intro o ho; rw [List.mem_singleton] at ho; subst ho; norm_num [abs_of_pos]

/-- The bodies of the default train, standing straight at the origin, keep 7 m away from the pole and the block. -/
theorem roundTrain_margin : MarginN 7 roundTrain roundTrain.circles roundTrain.rects roundTrain.x0 := by
  have pole : ∀ (a : ℝ) (rear front width : ℝ), a + front ≤ 5 →
      KeepsAway 7 (Spec.body (a, 0) 0 rear front width) (Spec.circleRegion ⟨20, 0, 2⟩) := by
    rintro a rear front width h p ⟨s, t, h1, h2, h3, rfl⟩ z hz
    have hz' : (z.1 - 20) ^ 2 + (z.2 - 0) ^ 2 ≤ 2 ^ 2 := hz
    have z1 : 18 ≤ z.1 := by nlinarith [sq_nonneg (z.2 - 0)]
    unfold Spec.dist Spec.frame
    rw [lt_sqrt (by norm_num)]
    simp only [cos_zero, sin_zero, mul_one, mul_zero, sub_zero]
    nlinarith [sq_nonneg (0 + s * 0 + t - z.2), sq_nonneg (0 + (s * 0 + t) - z.2), sq_nonneg (0 + (0 + t) - z.2), sq_nonneg (0 + 0 + t - z.2)]
  have block : ∀ (a : ℝ) (rear front width : ℝ), width ≤ 4 →
      KeepsAway 7 (Spec.body (a, 0) 0 rear front width) (Spec.rectRegion ⟨0, 30, 4, 2, 0⟩) := by
    rintro a rear front width h p ⟨s, t, h1, h2, h3, rfl⟩ z ⟨s', t', h4, h5, rfl⟩
    have t1 := (abs_le.mp h3).2
    have t2 := (abs_le.mp h5).1
    norm_num at t2
    unfold Spec.dist Spec.frame
    rw [lt_sqrt (by norm_num)]
    simp only [cos_zero, sin_zero, mul_one, mul_zero, sub_zero, zero_add]
    nlinarith [sq_nonneg (a + s - s')]
  have a0 : Spec.axleN roundTrain roundTrain.x0 0 = (-4.05, 0) := by
    simp [Spec.axleN, Spec.hitchN, Spec.frame, roundTrain, Params.default]; norm_num
  have a1 : Spec.axleN roundTrain roundTrain.x0 1 = (-9.948, 0) := by
    simp [Spec.axleN, Spec.hitchN, Spec.frame, roundTrain, Params.default]; norm_num
  have tb : ∀ i < roundTrain.N, KeepsAway 7 (Spec.trailerBodyN roundTrain roundTrain.x0 i) (Spec.circleRegion ⟨20, 0, 2⟩) ∧
      KeepsAway 7 (Spec.trailerBodyN roundTrain roundTrain.x0 i) (Spec.rectRegion ⟨0, 30, 4, 2, 0⟩) := by
    intro i hi
    have : i < 2 := hi
    unfold Spec.trailerBodyN
    interval_cases i
    · rw [a0]
      exact ⟨pole _ _ _ _ (by norm_num [roundTrain]), block _ _ _ _ (by norm_num [roundTrain, Params.default])⟩
    · rw [a1]
      exact ⟨pole _ _ _ _ (by norm_num [roundTrain]), block _ _ _ _ (by norm_num [roundTrain, Params.default])⟩
  constructor
  · intro c hc
    simp only [roundTrain, Params.default, List.mem_singleton] at hc
    subst hc
    exact ⟨pole 0 _ _ _ (by norm_num [roundTrain, Params.default]), fun i hi => (tb i hi).1⟩
  · intro o ho
    simp only [roundTrain, Params.default, List.mem_singleton] at ho
    subst ho
    exact ⟨block 0 _ _ _ (by norm_num [roundTrain, Params.default]), fun i hi => (tb i hi).2⟩

theorem roundTrain_alarm : TrainAlarmOK 6e-8 1.8e-7 1e-30 100 2.35e-4 2.4e-4 1 5 0.4 roundTrain where
  s0 := by norm_num
  s1 := by norm_num
  half := by norm_num [roundTrain, Params.default]
  wide := by norm_num [roundTrain, Params.default]
  wide2 := by norm_num [roundTrain, Params.default]
  trailers := by
    intro i hi
    obtain ⟨-, e2, e3⟩ := defaultTrain_sizes roundTrain_default hi
    rw [e2]
    rcases e3 with e3 | e3 <;> rw [e3] <;> norm_num
  rects := by
    intro o ho
    simp only [roundTrain, Params.default, List.mem_singleton] at ho
    subst ho; norm_num
  circles := by
    intro c hc
    simp only [roundTrain, Params.default, List.mem_singleton] at hc
    subst hc; norm_num
  rectTol := by unfold rectAlarm; norm_num
  circTol := by unfold circleAlarm; norm_num

/-- The hypotheses of the statements about the train are met: 24-bit rounding, two trailers, standing straight at the origin. -/
theorem roundTrain_clear : ¬ Rounded.checkObstacleN single roundTrain roundTrain.x0 := by
  have mono : ∀ {b c : Set Pt}, KeepsAway 7 b c → KeepsAway 0.4 b c := fun h a ha z hz => lt_trans (by norm_num) (h a ha z hz)
  obtain ⟨m1, m2⟩ := roundTrain_margin
  refine C76_silent_ntrailer single_float32 (defaultTrain_roundOK roundTrain_default roundTrain_yard) roundTrain_alarm
    ⟨by norm_num [roundTrain], by norm_num [roundTrain], by norm_num [roundTrain], ?_⟩ (roundTrain_default.wellSized rfl)
    ⟨fun c hc => ⟨mono (m1 c hc).1, fun i hi => mono ((m1 c hc).2 i hi)⟩,
      fun o ho => ⟨mono (m2 o ho).1, fun i hi => mono ((m2 o ho).2 i hi)⟩⟩
  intro θ hθ
  simp [roundTrain] at hθ
  subst hθ; norm_num

example (us : List U) : ∀ x' ∈ Rounded.states (Rounded.stepN single roundTrain) roundTrain.x0 us, InFieldN 50 100 x' →
    GrazesN 0.001 0.05 roundTrain x' :=
  C76_run_train single_float32 roundTrain_default roundTrain_yard roundTrain.x0 rfl roundTrain_clear us

/-- `C76_hitch_ntrailer`: both directions are met by the straight train. -/
example : ¬ Rounded.checkHitchN single roundTrain roundTrain.x0 := by
  have hf : InFieldN 50 100 roundTrain.x0 := by
    refine ⟨by norm_num [roundTrain], by norm_num [roundTrain], by norm_num [roundTrain], fun θ hθ => ?_⟩
    simp [roundTrain] at hθ
    subst hθ; norm_num
  refine (C76_hitch_ntrailer single_float32 (by norm_num) (by norm_num) (by norm_num) (by norm_num) hf rfl
    (by norm_num [roundTrain])).2 (by unfold hitchTol; norm_num) ?_
  intro i hi hx
  have : i < 2 := hi
  have h0 := hx 0
  have := pi_gt_d2
  unfold hitchTol at h0
  interval_cases i <;> simp [roundTrain] at h0 <;> linarith

/-! ## Padded obstacles -/

theorem keepsAway_mono {x y : ℝ} {b c : Set Pt} (hxy : y ≤ x) (h : KeepsAway x b c) : KeepsAway y b c :=
  fun a ha z hz => lt_of_le_of_lt hxy (h a ha z hz)

theorem grazesN_padded {tr tc p t : ℝ} {T : NTrailer} {cs : List Circle} {rs : List Rect} (pad : Padded p T.toParams cs rs)
    (hp : 0 ≤ p) (h1 : tr ≤ t) (h2 : tc ≤ t) (hcs : ∀ c ∈ cs, 0 ≤ c.r) {x : QN} (g : GrazesN tr tc T x) :
    MarginN (p - t) T cs rs x := by
  obtain ⟨g1, g2⟩ := g
  constructor
  · intro c hc
    obtain ⟨c', hc', rfl⟩ := forall2_mem_right (padded_circles pad) c hc
    exact ⟨keepsAway_mono (by linarith) (Rounded.pad_circle (hcs c hc) hp (g1 _ hc').1),
      fun i hi => keepsAway_mono (by linarith) (Rounded.pad_circle (hcs c hc) hp ((g1 _ hc').2 i hi))⟩
  · intro o ho
    obtain ⟨o', ho', rfl⟩ := forall2_mem_right (padded_rects pad) o ho
    exact ⟨keepsAway_mono (by linarith) (Rounded.pad_rect hp (g2 _ ho').1),
      fun i hi => keepsAway_mono (by linarith) (Rounded.pad_rect hp ((g2 _ ho').2 i hi))⟩

/-- C76, train and padding: with obstacles registered with padding `p`, all bodies keep the padding minus the tolerance away from the
original obstacles. -/
theorem C76_padded_ntrailer {A : Arith} {u m τ η H R K B e f S W r tr tc p t : ℝ} {T : NTrailer}
    (acc : Spec.Accurate A u m τ η H) (ok : TrainRoundOK u m τ η H R K B e f S W r tr tc T) (hs : T.shieldCollision = true)
    (hd : ∀ c ∈ T.circles, T.tractorWidth / 2 ≤ c.r - tc ∧ T.trailerWidth / 2 ≤ c.r - tc)
    {cs : List Circle} {rs : List Rect} (pad : Padded p T.toParams cs rs) (hp : 0 ≤ p) (h1 : tr ≤ t) (h2 : tc ≤ t)
    (hcs : ∀ c ∈ cs, 0 ≤ c.r) (x : QN) (hw : WellSized T x) (h0 : ¬ Rounded.checkObstacleN A T x) (us : List U) :
    ∀ x' ∈ Rounded.states (Rounded.stepN A T) x us, InFieldN R H x' → MarginN (p - t) T cs rs x' :=
  fun x' hx' hf => grazesN_padded pad hp h1 h2 hcs (C76_run_ntrailer acc ok hs hd x hw h0 us x' hx' hf)

/-- C76, bicycle and padding. -/
theorem C76_padded_bicycle {A : Arith} {u m τ η H R S L W r tr tc p t : ℝ} {P : Params} (acc : Spec.Accurate A u m τ η H)
    (ok : RoundOK u m τ η H R S L W r tr tc P) (hs : P.shieldCollision = true)
    (hw : ∀ c ∈ P.circles, P.tractorWidth / 2 ≤ c.r - tc)
    {cs : List Circle} {rs : List Rect} (pad : Padded p P cs rs) (hp : 0 ≤ p) (h1 : tr ≤ t) (h2 : tc ≤ t)
    (hcs : ∀ c ∈ cs, 0 ≤ c.r) (q : Q3) (h0 : ¬ Rounded.checkObstacleB A P q) (us : List U) :
    ∀ q' ∈ Rounded.states (Rounded.stepB A P) q us, InField3 R H q' → Margin3 (p - t) P cs rs q' := by
  intro q' hq' hf
  obtain ⟨g1, g2⟩ := C76_run_bicycle acc ok hs hw q h0 us q' hq' hf
  constructor
  · intro c hc
    obtain ⟨c', hc', rfl⟩ := forall2_mem_right (padded_circles pad) c hc
    exact keepsAway_mono (by linarith) (Rounded.pad_circle (hcs c hc) hp (g1 _ hc'))
  · intro o ho
    obtain ⟨o', ho', rfl⟩ := forall2_mem_right (padded_rects pad) o ho
    exact keepsAway_mono (by linarith) (Rounded.pad_rect hp (g2 _ ho'))

/-- C76, the default train with up to three trailers in single precision, obstacles registered with a padding `p` of 5 cm or more:
within 50 m of the origin no body ever touches an original obstacle; it keeps `p` minus 5 cm away from it. -/
theorem C76_padded_train {A : Arith} (acc : Spec.Float32 A) {T : NTrailer} (hT : Spec.DefaultTrain T T.circles T.rects)
    (yd : Spec.Yard T.circles T.rects) {p : ℝ} (hp : 0.05 ≤ p) {cs : List Circle} {rs : List Rect} (pad : Padded p T.toParams cs rs)
    (hcs : ∀ c ∈ cs, 0 ≤ c.r) (x : QN) (hx : x.ths.length = T.N) (h0 : ¬ Rounded.checkObstacleN A T x) (us : List U) :
    ∀ x' ∈ Rounded.states (Rounded.stepN A T) x us, InFieldN 50 100 x' → MarginN (p - 0.05) T cs rs x' :=
  fun x' hx' hf => grazesN_padded pad (by linarith) (by norm_num) le_rfl hcs (C76_run_train acc hT yd x hx h0 us x' hx' hf)

/-- The train of the example above, its pole and block read as a pole of radius 1.9 m and a block of 3.8 m by 1.8 m registered
with 10 cm of padding. -/
theorem roundTrain_padded : Padded 0.1 roundTrain.toParams [⟨20, 0, 1.9⟩] [⟨0, 30, 3.8, 1.8, 0⟩] := by
  refine ⟨⟨⟨"case1", (0, 0), (0, 0), none, [], []⟩, [[0, 30, 3.8, 1.8, 0]], "center", ?_, ?_⟩, ⟨⟨"case1", (0, 0), (0, 0), none, [], []⟩, [[20, 0, 1.9]], ?_, ?_⟩⟩
  all_goals norm_num [roundTrain, Params.default, Env.setRectangleObs, Env.setCircleObs, Env.convertAll, Env.convertCircle,
    Env.convertRect, (by decide : ¬ "center" = "left-top")]

example (us : List U) : ∀ x' ∈ Rounded.states (Rounded.stepN single roundTrain) roundTrain.x0 us, InFieldN 50 100 x' →
    MarginN (0.1 - 0.05) roundTrain [⟨20, 0, 1.9⟩] [⟨0, 30, 3.8, 1.8, 0⟩] x' :=
  C76_padded_train single_float32 roundTrain_default roundTrain_yard (by norm_num) roundTrain_padded
    (fun c hc => by rw [List.mem_singleton] at hc; subst hc; norm_num) roundTrain.x0 rfl roundTrain_clear us

end Mbd
