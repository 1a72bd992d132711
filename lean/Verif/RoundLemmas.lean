import Verif.Rounded
import Verif.PropsSafe

/-!
# Error bounds for the rounded collision checks
-/

namespace Spec

open Real Mbd

/-- Accuracy of an implementation of the arithmetic.  `u`: relative error of one operation, `m`: relative
error of a matrix product, `τ`: error of the trigonometric functions (`sin` and `cos` for arguments up to
`H`, `tan` for arguments up to 1), `η`: absolute error near zero (numbers flushed to 0). -/
structure Accurate (A : Arith) (u m τ η H : ℝ) : Prop where
  const : ∀ a, |A.const a - a| ≤ u * |a| + η
  add : ∀ a b, |A.add a b - (a + b)| ≤ u * |a + b| + η
  sub : ∀ a b, |A.sub a b - (a - b)| ≤ u * |a - b| + η
  mul : ∀ a b, |A.mul a b - a * b| ≤ u * |a * b| + η
  div : ∀ a b, b ≠ 0 → |A.div a b - a / b| ≤ u * |a / b| + η
  mulAdd : ∀ a b c, |A.mulAdd a b c - (a * b + c)| ≤ u * |a * b + c| + 2 * u * |a * b| + η
  sum2 : ∀ a b c d, |A.sum2 a b c d - (a * b + c * d)| ≤ 3 * u * (|a * b| + |c * d|) + η
  mm : ∀ a b c d, |A.mm a b c d - (a * b + c * d)| ≤ m * (|a * b| + |c * d|) + η
  rem : ∀ a b, 0 < b → 0 ≤ A.rem a b ∧ A.rem a b ≤ b ∧
    ∃ k : ℤ, |(k : ℝ)| ≤ |a| / b + 1 ∧ |A.rem a b - (a - k * b)| ≤ u * b + η
  sqrt : ∀ a, 0 ≤ a → |A.sqrt a - √a| ≤ u * √a + η
  cos : ∀ a, |a| ≤ H → |A.cos a - Real.cos a| ≤ τ
  sin : ∀ a, |a| ≤ H → |A.sin a - Real.sin a| ≤ τ
  tan : ∀ a, |a| ≤ 1 → |A.tan a - Real.tan a| ≤ τ

/-- Error of a coordinate of a corner, for positions up to `R` and lengths up to `L`. -/
def cornerErr (u m τ η R L : ℝ) : ℝ := 3 * u * R + 40 * u * L + 8 * m * L + 8 * τ * L + 12 * η

/-- The accuracy is fine enough for positions up to `R` and lengths up to `L`: corners are computed up to a
hundredth of `L`. -/
structure Fine (u m τ η R L : ℝ) : Prop where
  u0 : 0 ≤ u
  m0 : 0 ≤ m
  t0 : 0 ≤ τ
  e0 : 0 ≤ η
  R0 : 0 ≤ R
  L0 : 0 < L
  small : cornerErr u m τ η R L ≤ L / 100

/-- The lengths of the vehicle used by the corners are at most `L`. -/
structure Lengths (P : Params) (L : ℝ) : Prop where
  mid : |0.5 * (P.l1 + P.lf1 - P.lr)| ≤ L
  half : |(P.l1 + P.lf1 + P.lr) / 2| ≤ L
  wide : |P.tractorWidth / 2| ≤ L
  hitch : |P.lh| ≤ L
  mid2 : |0.5 * (P.lf2 - P.lr2) - P.l2| ≤ L
  half2 : |(P.lf2 + P.lr2) / 2| ≤ L
  wide2 : |P.trailerWidth / 2| ≤ L

end Spec

namespace Mbd

open Real

namespace Rounded

variable {A : Arith} {u m τ η H R L : ℝ}

theorem fine_bounds (f : Spec.Fine u m τ η R L) :
    u ≤ 1 / 100 ∧ m ≤ 1 / 100 ∧ τ ≤ 1 / 100 ∧ η ≤ L / 100 ∧ u * R ≤ L / 100 := by
  obtain ⟨u0, m0, t0, e0, R0, L0, hs⟩ := f
  unfold Spec.cornerErr at hs
  have h1 := mul_nonneg u0 R0
  have h2 := mul_nonneg u0 L0.le
  have h3 := mul_nonneg m0 L0.le
  have h4 := mul_nonneg t0 L0.le
  refine ⟨?_, ?_, ?_, by linarith, by linarith⟩ <;> by_contra hc <;> push Not at hc
  · have := mul_lt_mul_of_pos_right hc L0; linarith
  · have := mul_lt_mul_of_pos_right hc L0; linarith
  · have := mul_lt_mul_of_pos_right hc L0; linarith

/-- Error of a product. -/
theorem prod_err {a a' b b' α β M N : ℝ} (ha : |a' - a| ≤ α) (hb : |b' - b| ≤ β) (hM : |a'| ≤ M)
    (hN : |b| ≤ N) : |a' * b' - a * b| ≤ M * β + α * N := by
  have e : a' * b' - a * b = a' * (b' - b) + (a' - a) * b := by ring
  rw [e]
  refine (abs_add_le _ _).trans ?_
  rw [abs_mul, abs_mul]
  have h1 : 0 ≤ M := (abs_nonneg _).trans hM
  have h2 : 0 ≤ α := (abs_nonneg _).trans ha
  exact add_le_add (mul_le_mul hM hb (abs_nonneg _) h1) (mul_le_mul ha hN (abs_nonneg _) h2)

theorem abs_le_of_err {a a' e M : ℝ} (h : |a' - a| ≤ e) (hM : |a| ≤ M) : |a'| ≤ M + e := by
  have := abs_add_le (a' - a) a
  rw [sub_add_cancel] at this
  linarith

theorem mul_abs_le {u x X : ℝ} (hu : 0 ≤ u) (h : x ≤ X) : u * x ≤ u * X := mul_le_mul_of_nonneg_left h hu

/-- A lever of length `k` (up to `L`) in direction `ang`, attached to a point known up to `e`. -/
theorem lever_err (acc : Spec.Accurate A u m τ η H) {R' : ℝ} (f : Spec.Fine u m τ η R L)
    {k k' c c' p p' e : ℝ} (hk : |k| ≤ L) (hk' : |k' - k| ≤ u * L + η) (hc : |c| ≤ 1) (hc' : |c' - c| ≤ τ)
    (hp : |p| ≤ R') (hp' : |p' - p| ≤ e) (he : e ≤ L / 10) :
    |A.mulAdd k' c' p' - (k * c + p)| ≤ e + u * R' + 10 * u * L + 2 * τ * L + 2 * η := by
  obtain ⟨b1, b2, b3, b4, b5⟩ := fine_bounds f
  obtain ⟨u0, m0, t0, e0, R0, L0, hs⟩ := f
  have huL : u * L ≤ L / 100 := by
    have := mul_le_mul_of_nonneg_right b1 L0.le; linarith
  have k1 : |k'| ≤ 2 * L := (abs_le_of_err hk' hk).trans (by linarith)
  have c1 : |c'| ≤ 1 + τ := abs_le_of_err hc' hc
  have hp1 : |p'| ≤ R' + e := abs_le_of_err hp' hp
  have hprod := prod_err hk' hc' k1 hc
  have hkc : |k' * c'| ≤ 2.1 * L := by
    rw [abs_mul]
    have : |k'| * |c'| ≤ (2 * L) * (1 + τ) := mul_le_mul k1 c1 (abs_nonneg _) (by linarith)
    have h2 : L * τ ≤ L * (1 / 100) := mul_le_mul_of_nonneg_left b3 L0.le
    linarith
  have hsum : |k' * c' + p'| ≤ 2.1 * L + R' + e := (abs_add_le _ _).trans (by linarith)
  have h := acc.mulAdd k' c' p'
  have e1 := mul_abs_le u0 hsum
  have e2 := mul_abs_le u0 hkc
  have e3 : u * e ≤ u * (L / 10) := mul_abs_le u0 he
  have t1 : A.mulAdd k' c' p' - (k * c + p)
      = (A.mulAdd k' c' p' - (k' * c' + p')) + (k' * c' - k * c) + (p' - p) := by ring
  rw [t1]
  have := abs_add_three (A.mulAdd k' c' p' - (k' * c' + p')) (k' * c' - k * c) (p' - p)
  have huL0 := mul_nonneg u0 L0.le
  linarith

/-- Two corner arrays agree up to `e` in every coordinate. -/
structure Close (e : ℝ) (k k' : Corners) : Prop where
  c0x : |k'.c0.1 - k.c0.1| ≤ e
  c0y : |k'.c0.2 - k.c0.2| ≤ e
  c1x : |k'.c1.1 - k.c1.1| ≤ e
  c1y : |k'.c1.2 - k.c1.2| ≤ e
  c2x : |k'.c2.1 - k.c2.1| ≤ e
  c2y : |k'.c2.2 - k.c2.2| ≤ e
  c3x : |k'.c3.1 - k.c3.1| ≤ e
  c3y : |k'.c3.2 - k.c3.2| ≤ e

/-- One rotated and translated corner. -/
theorem rot_err (acc : Spec.Accurate A u m τ η H) (f : Spec.Fine u m τ η R L) {R' : ℝ}
    {x x' y y' c c' s s' p p' e : ℝ} (hx : |x| ≤ L) (hx' : |x' - x| ≤ u * L + η) (hy : |y| ≤ L)
    (hy' : |y' - y| ≤ u * L + η) (hc : |c| ≤ 1) (hc' : |c' - c| ≤ τ) (hs : |s| ≤ 1) (hs' : |s' - s| ≤ τ)
    (hp : |p| ≤ R') (hp' : |p' - p| ≤ e) (he : e ≤ L / 10) :
    |A.add (A.mm x' c' y' s') p' - (x * c + y * s + p)|
      ≤ e + u * R' + 8 * u * L + 6 * m * L + 4 * τ * L + 5 * η := by
  obtain ⟨b1, b2, b3, b4, b5⟩ := fine_bounds f
  obtain ⟨u0, m0, t0, e0, R0, L0, hs0⟩ := f
  have huL : u * L ≤ L / 100 := by
    have := mul_le_mul_of_nonneg_right b1 L0.le; linarith
  have hmL : m * L ≤ L / 100 := by
    have := mul_le_mul_of_nonneg_right b2 L0.le; linarith
  have htL : L * τ ≤ L / 100 := by
    have := mul_le_mul_of_nonneg_left b3 L0.le; linarith
  have x1 : |x'| ≤ 1.1 * L := (abs_le_of_err hx' hx).trans (by linarith)
  have y1 : |y'| ≤ 1.1 * L := (abs_le_of_err hy' hy).trans (by linarith)
  have c1 : |c'| ≤ 1 + τ := abs_le_of_err hc' hc
  have s1 : |s'| ≤ 1 + τ := abs_le_of_err hs' hs
  have hp1 : |p'| ≤ R' + e := abs_le_of_err hp' hp
  have p1 := prod_err hx' hc' x1 hc
  have p2 := prod_err hy' hs' y1 hs
  have hxc : |x' * c'| ≤ 1.2 * L := by
    rw [abs_mul]
    have : |x'| * |c'| ≤ (1.1 * L) * (1 + τ) := mul_le_mul x1 c1 (abs_nonneg _) (by linarith)
    linarith
  have hys : |y' * s'| ≤ 1.2 * L := by
    rw [abs_mul]
    have : |y'| * |s'| ≤ (1.1 * L) * (1 + τ) := mul_le_mul y1 s1 (abs_nonneg _) (by linarith)
    linarith
  have hmm := acc.mm x' c' y' s'
  have hmm2 : m * (|x' * c'| + |y' * s'|) ≤ m * (2.4 * L) := mul_abs_le m0 (by linarith)
  have hw : |x' * c' + y' * s'| ≤ 2.4 * L := (abs_add_le _ _).trans (by linarith)
  have hmmabs : |A.mm x' c' y' s'| ≤ 2.4 * L + (m * (2.4 * L) + η) :=
    abs_le_of_err (hmm.trans (by linarith)) hw
  have hsum : |A.mm x' c' y' s' + p'| ≤ 2.6 * L + R' + e := (abs_add_le _ _).trans (by linarith)
  have hadd := acc.add (A.mm x' c' y' s') p'
  have e1 := mul_abs_le u0 hsum
  have e3 : u * e ≤ u * (L / 10) := mul_abs_le u0 he
  have t1 : A.add (A.mm x' c' y' s') p' - (x * c + y * s + p)
      = (A.add (A.mm x' c' y' s') p' - (A.mm x' c' y' s' + p'))
        + (A.mm x' c' y' s' - (x' * c' + y' * s')) + (x' * c' - x * c) + (y' * s' - y * s) + (p' - p) := by
    ring
  rw [t1]
  have a1 := abs_add_le ((A.add (A.mm x' c' y' s') p' - (A.mm x' c' y' s' + p'))
        + (A.mm x' c' y' s' - (x' * c' + y' * s')) + (x' * c' - x * c) + (y' * s' - y * s)) (p' - p)
  have a2 := abs_add_le ((A.add (A.mm x' c' y' s') p' - (A.mm x' c' y' s' + p'))
        + (A.mm x' c' y' s' - (x' * c' + y' * s')) + (x' * c' - x * c)) (y' * s' - y * s)
  have a3 := abs_add_three (A.add (A.mm x' c' y' s') p' - (A.mm x' c' y' s' + p'))
        (A.mm x' c' y' s' - (x' * c' + y' * s')) (x' * c' - x * c)
  have huL0 := mul_nonneg u0 L0.le
  have hmL0 := mul_nonneg m0 L0.le
  have htL0 := mul_nonneg t0 L0.le
  linarith

/-- Corners of a box. -/
theorem box_err (acc : Spec.Accurate A u m τ η H) (f : Spec.Fine u m τ η R L) {R' : ℝ}
    {c c' : V2} {ang hl hl' hw hw' e : ℝ} (ha : |ang| ≤ H)
    (hx : |hl| ≤ L) (hx' : |hl' - hl| ≤ u * L + η) (hy : |hw| ≤ L) (hy' : |hw' - hw| ≤ u * L + η)
    (hp : |c.1| ≤ R') (hq : |c.2| ≤ R') (hp' : |c'.1 - c.1| ≤ e) (hq' : |c'.2 - c.2| ≤ e) (he : e ≤ L / 10) :
    Close (e + u * R' + 8 * u * L + 6 * m * L + 4 * τ * L + 5 * η) (Mbd.boxCorners c ang hl hw)
      (boxCorners A c' ang hl' hw') := by
  have hc := acc.cos ang ha
  have hs := acc.sin ang ha
  have hns : |-A.sin ang - -sin ang| ≤ τ := by
    rw [show -A.sin ang - -sin ang = -(A.sin ang - sin ang) by ring, abs_neg]; exact hs
  have c1 := abs_cos_le_one ang
  have s1 := abs_sin_le_one ang
  have ns1 : |-sin ang| ≤ 1 := by rw [abs_neg]; exact s1
  have nl : |-hl| ≤ L := by rw [abs_neg]; exact hx
  have nw : |-hw| ≤ L := by rw [abs_neg]; exact hy
  have nl' : |-hl' - -hl| ≤ u * L + η := by
    rw [show -hl' - -hl = -(hl' - hl) by ring, abs_neg]; exact hx'
  have nw' : |-hw' - -hw| ≤ u * L + η := by
    rw [show -hw' - -hw = -(hw' - hw) by ring, abs_neg]; exact hy'
  have X := fun {x x' y y' : ℝ} (h1 : |x| ≤ L) (h2 : |x' - x| ≤ u * L + η) (h3 : |y| ≤ L)
      (h4 : |y' - y| ≤ u * L + η) => rot_err acc f h1 h2 h3 h4 c1 hc ns1 hns hp hp' he
  have Y := fun {x x' y y' : ℝ} (h1 : |x| ≤ L) (h2 : |x' - x| ≤ u * L + η) (h3 : |y| ≤ L)
      (h4 : |y' - y| ≤ u * L + η) => rot_err acc f h1 h2 h3 h4 s1 hs c1 hc hq hq' he
  constructor <;> simp only [boxCorners, Mbd.boxCorners, placePoint, Mbd.placePoint]
  · convert X nl nl' nw nw' using 2; ring
  · exact Y nl nl' nw nw'
  · convert X nl nl' hy hy' using 2; ring
  · exact Y nl nl' hy hy'
  · convert X hx hx' hy hy' using 2; ring
  · exact Y hx hx' hy hy'
  · convert X hx hx' nw nw' using 2; ring
  · exact Y hx hx' nw nw'

theorem Close.mono {e e' : ℝ} {k k' : Corners} (h : Close e k k') (he : e ≤ e') : Close e' k k' :=
  ⟨h.c0x.trans he, h.c0y.trans he, h.c1x.trans he, h.c1y.trans he, h.c2x.trans he, h.c2y.trans he,
    h.c3x.trans he, h.c3y.trans he⟩

theorem const_err (acc : Spec.Accurate A u m τ η H) (u0 : 0 ≤ u) {k : ℝ} (hk : |k| ≤ L) :
    |A.const k - k| ≤ u * L + η := (acc.const k).trans (by have := mul_abs_le u0 hk; linarith)

theorem abs_lever_le {k c p L R' : ℝ} (hk : |k| ≤ L) (hc : |c| ≤ 1) (hp : |p| ≤ R') : |k * c + p| ≤ R' + L := by
  refine (abs_add_le _ _).trans ?_
  rw [abs_mul]
  have : |k| * |c| ≤ L * 1 := mul_le_mul hk hc (abs_nonneg _) ((abs_nonneg _).trans hk)
  linarith

/-- Tractor corners. -/
theorem tractor_close (acc : Spec.Accurate A u m τ η H) (f : Spec.Fine u m τ η R L) {P : Params}
    (hl : Spec.Lengths P L) {px py th : ℝ} (hx : |px| ≤ R) (hy : |py| ≤ R) (ha : |th| ≤ H) :
    Close (Spec.cornerErr u m τ η R L) (P.tractorCorners px py th) (tractorCorners A P px py th) := by
  have z : ∀ x : ℝ, |x - x| ≤ 0 := fun x => by simp
  have L0 := f.L0
  have u0 := f.u0
  have e1 := lever_err acc f hl.mid (const_err acc u0 hl.mid) (abs_cos_le_one th) (acc.cos th ha) hx (z px)
    (by linarith)
  have e2 := lever_err acc f hl.mid (const_err acc u0 hl.mid) (abs_sin_le_one th) (acc.sin th ha) hy (z py)
    (by linarith)
  have m1 := abs_lever_le hl.mid (abs_cos_le_one th) hx
  have m2 := abs_lever_le hl.mid (abs_sin_le_one th) hy
  have hs := f.small
  unfold Spec.cornerErr at hs
  have g1 := mul_nonneg u0 f.R0
  have g2 := mul_nonneg u0 L0.le
  have g3 := mul_nonneg f.m0 L0.le
  have g4 := mul_nonneg f.t0 L0.le
  have g5 := f.e0
  have H' := box_err acc f (R' := R + L) (c := (px + 0.5 * (P.l1 + P.lf1 - P.lr) * cos th,
      py + 0.5 * (P.l1 + P.lf1 - P.lr) * sin th)) (e := 0 + u * R + 10 * u * L + 2 * τ * L + 2 * η)
    (c' := (A.mulAdd (A.const (0.5 * (P.l1 + P.lf1 - P.lr))) (A.cos th) px,
      A.mulAdd (A.const (0.5 * (P.l1 + P.lf1 - P.lr))) (A.sin th) py)) ha hl.half
    (const_err acc u0 hl.half) hl.wide (const_err acc u0 hl.wide) (by rw [add_comm px]; exact m1)
    (by rw [add_comm py]; exact m2) (by simp only; rw [add_comm px]; exact e1)
    (by simp only; rw [add_comm py]; exact e2) (by linarith)
  exact H'.mono (by unfold Spec.cornerErr; linarith)

/-- Trailer corners. -/
theorem trailer_close (acc : Spec.Accurate A u m τ η H) (f : Spec.Fine u m τ η R L) {P : Params}
    (hl : Spec.Lengths P L) {q : Q4} (hx : |q.px| ≤ R) (hy : |q.py| ≤ R) (ha : |q.th1| ≤ H) (hb : |q.th2| ≤ H) :
    Close (Spec.cornerErr u m τ η R L) (TT2d.trailerCorners P q) (trailerCorners A P q) := by
  have z : ∀ x : ℝ, |x - x| ≤ 0 := fun x => by simp
  have L0 := f.L0
  have u0 := f.u0
  have hs := f.small
  unfold Spec.cornerErr at hs
  have g1 := mul_nonneg u0 f.R0
  have g2 := mul_nonneg u0 L0.le
  have g3 := mul_nonneg f.m0 L0.le
  have g4 := mul_nonneg f.t0 L0.le
  have g5 := f.e0
  have hlh : |-P.lh| ≤ L := by rw [abs_neg]; exact hl.hitch
  have hlh' : |-A.const P.lh - -P.lh| ≤ u * L + η := by
    rw [show -A.const P.lh - -P.lh = -(A.const P.lh - P.lh) by ring, abs_neg]
    exact const_err acc u0 hl.hitch
  have e1 := lever_err acc f hlh hlh' (abs_cos_le_one q.th1) (acc.cos _ ha) hx (z q.px) (by linarith)
  have e2 := lever_err acc f hlh hlh' (abs_sin_le_one q.th1) (acc.sin _ ha) hy (z q.py) (by linarith)
  have m1 := abs_lever_le hlh (abs_cos_le_one q.th1) hx
  have m2 := abs_lever_le hlh (abs_sin_le_one q.th1) hy
  have e3 := lever_err acc f hl.mid2 (const_err acc u0 hl.mid2) (abs_cos_le_one q.th2) (acc.cos _ hb) m1 e1
    (by linarith)
  have e4 := lever_err acc f hl.mid2 (const_err acc u0 hl.mid2) (abs_sin_le_one q.th2) (acc.sin _ hb) m2 e2
    (by linarith)
  have m3 := abs_lever_le hl.mid2 (abs_cos_le_one q.th2) m1
  have m4 := abs_lever_le hl.mid2 (abs_sin_le_one q.th2) m2
  have w1 : (TT2d.hitchPoint P q).1 + (0.5 * (P.lf2 - P.lr2) - P.l2) * cos q.th2
      = (0.5 * (P.lf2 - P.lr2) - P.l2) * cos q.th2 + (-P.lh * cos q.th1 + q.px) := by
    unfold TT2d.hitchPoint; simp only; ring
  have w2 : (TT2d.hitchPoint P q).2 + (0.5 * (P.lf2 - P.lr2) - P.l2) * sin q.th2
      = (0.5 * (P.lf2 - P.lr2) - P.l2) * sin q.th2 + (-P.lh * sin q.th1 + q.py) := by
    unfold TT2d.hitchPoint; simp only; ring
  have H' := box_err acc f (R' := R + L + L)
    (c := ((TT2d.hitchPoint P q).1 + (0.5 * (P.lf2 - P.lr2) - P.l2) * cos q.th2,
      (TT2d.hitchPoint P q).2 + (0.5 * (P.lf2 - P.lr2) - P.l2) * sin q.th2))
    (c' := (A.mulAdd (A.const (0.5 * (P.lf2 - P.lr2) - P.l2)) (A.cos q.th2)
        (A.mulAdd (-A.const P.lh) (A.cos q.th1) q.px),
      A.mulAdd (A.const (0.5 * (P.lf2 - P.lr2) - P.l2)) (A.sin q.th2)
        (A.mulAdd (-A.const P.lh) (A.sin q.th1) q.py)))
    (e := 0 + u * R + 10 * u * L + 2 * τ * L + 2 * η + u * (R + L) + 10 * u * L + 2 * τ * L + 2 * η) hb hl.half2
    (const_err acc u0 hl.half2) hl.wide2 (const_err acc u0 hl.wide2) (by simp only; rw [w1]; exact m3)
    (by simp only; rw [w2]; exact m4) (by simp only; rw [w1]; exact e3)
    (by simp only; rw [w2]; exact e4) (by linarith)
  exact H'.mono (by unfold Spec.cornerErr; linarith)

/-- Corners of a rectangular obstacle. -/
theorem rect_close (acc : Spec.Accurate A u m τ η H) (f : Spec.Fine u m τ η R L) {o : Rect}
    (hx : |o.x| ≤ R) (hy : |o.y| ≤ R) (ha : |o.ang| ≤ H) (hw : |o.w / 2| ≤ L) (hh : |o.h / 2| ≤ L) :
    Close (Spec.cornerErr u m τ η R L) o.corners (rectCorners A o) := by
  have L0 := f.L0
  have u0 := f.u0
  have g1 := mul_nonneg u0 f.R0
  have g2 := mul_nonneg u0 L0.le
  have g3 := mul_nonneg f.m0 L0.le
  have g4 := mul_nonneg f.t0 L0.le
  have g5 := f.e0
  have dv : ∀ x : ℝ, |x / 2| ≤ L → |A.div x 2 - x / 2| ≤ u * L + η := fun x hx =>
    (acc.div x 2 two_ne_zero).trans (by have := mul_abs_le u0 hx; linarith)
  have H' := box_err acc f (R' := R) (c := (o.x, o.y)) (c' := (o.x, o.y)) (e := 0) ha hw (dv _ hw) hh (dv _ hh)
    hx hy (by simp) (by simp) (by linarith)
  exact H'.mono (by unfold Spec.cornerErr; linarith)

/-- All coordinates of the corners are at most `B`. -/
structure Within (B : ℝ) (k : Corners) : Prop where
  c0x : |k.c0.1| ≤ B
  c0y : |k.c0.2| ≤ B
  c1x : |k.c1.1| ≤ B
  c1y : |k.c1.2| ≤ B
  c2x : |k.c2.1| ≤ B
  c2y : |k.c2.2| ≤ B
  c3x : |k.c3.1| ≤ B
  c3y : |k.c3.2| ≤ B

theorem box_within {c : V2} {ang hl hw R' : ℝ} (hx : |hl| ≤ L) (hy : |hw| ≤ L) (hp : |c.1| ≤ R')
    (hq : |c.2| ≤ R') : Within (R' + 2 * L) (Mbd.boxCorners c ang hl hw) := by
  have key : ∀ x y c s p : ℝ, |x| ≤ L → |y| ≤ L → |c| ≤ 1 → |s| ≤ 1 → |p| ≤ R' →
      |x * c + y * s + p| ≤ R' + 2 * L := by
    intro x y c s p h1 h2 h3 h4 h5
    have a := abs_lever_le h2 h4 h5
    have b := abs_lever_le h1 h3 a
    rw [← add_assoc] at b
    linarith
  have c1 := abs_cos_le_one ang
  have s1 := abs_sin_le_one ang
  have ns1 : |-sin ang| ≤ 1 := by rw [abs_neg]; exact s1
  have nl : |-hl| ≤ L := by rw [abs_neg]; exact hx
  have nw : |-hw| ≤ L := by rw [abs_neg]; exact hy
  constructor <;> simp only [Mbd.boxCorners, Mbd.placePoint]
  · have := key _ _ _ _ _ nl nw c1 ns1 hp
    rwa [mul_neg, ← sub_eq_add_neg] at this
  · exact key _ _ _ _ _ nl nw s1 c1 hq
  · have := key _ _ _ _ _ nl hy c1 ns1 hp
    rwa [mul_neg, ← sub_eq_add_neg] at this
  · exact key _ _ _ _ _ nl hy s1 c1 hq
  · have := key _ _ _ _ _ hx hy c1 ns1 hp
    rwa [mul_neg, ← sub_eq_add_neg] at this
  · exact key _ _ _ _ _ hx hy s1 c1 hq
  · have := key _ _ _ _ _ hx nw c1 ns1 hp
    rwa [mul_neg, ← sub_eq_add_neg] at this
  · exact key _ _ _ _ _ hx nw s1 c1 hq

theorem Within.close {B e : ℝ} {k k' : Corners} (h : Within B k) (hc : Close e k k') : Within (B + e) k' :=
  ⟨abs_le_of_err hc.c0x h.c0x, abs_le_of_err hc.c0y h.c0y, abs_le_of_err hc.c1x h.c1x,
    abs_le_of_err hc.c1y h.c1y, abs_le_of_err hc.c2x h.c2x, abs_le_of_err hc.c2y h.c2y,
    abs_le_of_err hc.c3x h.c3x, abs_le_of_err hc.c3y h.c3y⟩

theorem Within.mono {B B' : ℝ} {k : Corners} (h : Within B k) (hb : B ≤ B') : Within B' k :=
  ⟨h.c0x.trans hb, h.c0y.trans hb, h.c1x.trans hb, h.c1y.trans hb, h.c2x.trans hb, h.c2y.trans hb,
    h.c3x.trans hb, h.c3y.trans hb⟩

/-! ### The separating axis test -/

/-- Error of one projection. -/
theorem proj_err (acc : Spec.Accurate A u m τ η H) (m0 : 0 ≤ m) {B e : ℝ} {p p' : V2}
    (hx : |p'.1 - p.1| ≤ e) (hy : |p'.2 - p.2| ≤ e) (bx : |p'.1| ≤ B) (bY : |p'.2| ≤ B) (n : V2) :
    |proj A p' n - dot p n| ≤ (m * B + e) * (|n.1| + |n.2|) + η := by
  unfold proj dot
  have h := acc.mm p'.1 n.1 p'.2 n.2
  have e1 : |p'.1 * n.1| ≤ B * |n.1| := by rw [abs_mul]; exact mul_le_mul_of_nonneg_right bx (abs_nonneg _)
  have e2 : |p'.2 * n.2| ≤ B * |n.2| := by rw [abs_mul]; exact mul_le_mul_of_nonneg_right bY (abs_nonneg _)
  have d1 : |(p'.1 - p.1) * n.1| ≤ e * |n.1| := by rw [abs_mul]; exact mul_le_mul_of_nonneg_right hx (abs_nonneg _)
  have d2 : |(p'.2 - p.2) * n.2| ≤ e * |n.2| := by rw [abs_mul]; exact mul_le_mul_of_nonneg_right hy (abs_nonneg _)
  have hm := mul_abs_le m0 (add_le_add e1 e2)
  have t : A.mm p'.1 n.1 p'.2 n.2 - (p.1 * n.1 + p.2 * n.2)
      = (A.mm p'.1 n.1 p'.2 n.2 - (p'.1 * n.1 + p'.2 * n.2)) + (p'.1 - p.1) * n.1 + (p'.2 - p.2) * n.2 := by ring
  rw [t]
  have := abs_add_three (A.mm p'.1 n.1 p'.2 n.2 - (p'.1 * n.1 + p'.2 * n.2)) ((p'.1 - p.1) * n.1)
    ((p'.2 - p.2) * n.2)
  linarith

theorem projMax_err (acc : Spec.Accurate A u m τ η H) (m0 : 0 ≤ m) {B e : ℝ} {k k' : Corners}
    (hc : Close e k k') (hb : Within B k') (n : V2) :
    Mbd.projMax k n ≤ projMax A k' n + ((m * B + e) * (|n.1| + |n.2|) + η) := by
  have h0 := abs_le.mp (proj_err acc m0 hc.c0x hc.c0y hb.c0x hb.c0y n)
  have h1 := abs_le.mp (proj_err acc m0 hc.c1x hc.c1y hb.c1x hb.c1y n)
  have h2 := abs_le.mp (proj_err acc m0 hc.c2x hc.c2y hb.c2x hb.c2y n)
  have h3 := abs_le.mp (proj_err acc m0 hc.c3x hc.c3y hb.c3x hb.c3y n)
  unfold Mbd.projMax projMax
  generalize (m * B + e) * (|n.1| + |n.2|) + η = E at *
  have a0 := le_max_left (proj A k'.c0 n) (proj A k'.c1 n)
  have a1 := le_max_right (proj A k'.c0 n) (proj A k'.c1 n)
  have a2 := le_max_left (proj A k'.c2 n) (proj A k'.c3 n)
  have a3 := le_max_right (proj A k'.c2 n) (proj A k'.c3 n)
  have b0 := le_max_left (max (proj A k'.c0 n) (proj A k'.c1 n)) (max (proj A k'.c2 n) (proj A k'.c3 n))
  have b1 := le_max_right (max (proj A k'.c0 n) (proj A k'.c1 n)) (max (proj A k'.c2 n) (proj A k'.c3 n))
  refine max_le (max_le ?_ ?_) (max_le ?_ ?_) <;> linarith

theorem projMin_err (acc : Spec.Accurate A u m τ η H) (m0 : 0 ≤ m) {B e : ℝ} {k k' : Corners}
    (hc : Close e k k') (hb : Within B k') (n : V2) :
    projMin A k' n ≤ Mbd.projMin k n + ((m * B + e) * (|n.1| + |n.2|) + η) := by
  have h0 := abs_le.mp (proj_err acc m0 hc.c0x hc.c0y hb.c0x hb.c0y n)
  have h1 := abs_le.mp (proj_err acc m0 hc.c1x hc.c1y hb.c1x hb.c1y n)
  have h2 := abs_le.mp (proj_err acc m0 hc.c2x hc.c2y hb.c2x hb.c2y n)
  have h3 := abs_le.mp (proj_err acc m0 hc.c3x hc.c3y hb.c3x hb.c3y n)
  unfold Mbd.projMin projMin
  generalize (m * B + e) * (|n.1| + |n.2|) + η = E at *
  rw [← sub_le_iff_le_add]
  have a0 := min_le_left (proj A k'.c0 n) (proj A k'.c1 n)
  have a1 := min_le_right (proj A k'.c0 n) (proj A k'.c1 n)
  have a2 := min_le_left (proj A k'.c2 n) (proj A k'.c3 n)
  have a3 := min_le_right (proj A k'.c2 n) (proj A k'.c3 n)
  have b0 := min_le_left (min (proj A k'.c0 n) (proj A k'.c1 n)) (min (proj A k'.c2 n) (proj A k'.c3 n))
  have b1 := min_le_right (min (proj A k'.c0 n) (proj A k'.c1 n)) (min (proj A k'.c2 n) (proj A k'.c3 n))
  refine le_min (le_min ?_ ?_) (le_min ?_ ?_) <;> linarith

/-- In every frame the two coordinates of a vector add up to at least 0.7 of the sum of its components. -/
theorem frame_l1 (ang : ℝ) (n : V2) : 0.7 * (|n.1| + |n.2|) ≤
    |cos ang * n.1 + sin ang * n.2| + |-(sin ang) * n.1 + cos ang * n.2| := by
  have h := sin_sq_add_cos_sq ang
  set X := cos ang * n.1 + sin ang * n.2
  set Y := -(sin ang) * n.1 + cos ang * n.2
  have e : X ^ 2 + Y ^ 2 = n.1 ^ 2 + n.2 ^ 2 := by
    simp only [X, Y]
    calc _ = (sin ang ^ 2 + cos ang ^ 2) * (n.1 ^ 2 + n.2 ^ 2) := by ring
      _ = _ := by rw [h]; ring
  apply abs_le_of_sq_le_sq' _ (by positivity) |>.2
  have a1 := sq_abs X
  have a2 := sq_abs Y
  have a3 := sq_abs n.1
  have a4 := sq_abs n.2
  nlinarith [mul_nonneg (abs_nonneg X) (abs_nonneg Y), sq_nonneg (|n.1| - |n.2|), mul_nonneg (abs_nonneg n.1) (abs_nonneg n.2)]

theorem sep_sound (acc : Spec.Accurate A u m τ η H) (m0 : 0 ≤ m) (e0 : 0 ≤ η) {B e t : ℝ} (B0 : 0 ≤ B) (he : 0 ≤ e)
    {c₁ c₂ : V2} {a₁ a₂ l₁ w₁ l₂ w₂ : ℝ} {k₁ k₂ : Corners}
    (p1 : 0 ≤ l₁) (p2 : 0 ≤ w₁) (p3 : 0 ≤ l₂) (p4 : 0 ≤ w₂)
    (h₁ : Close e (Mbd.boxCorners c₁ a₁ l₁ w₁) k₁) (h₂ : Close e (Mbd.boxCorners c₂ a₂ l₂ w₂) k₂)
    (b₁ : Within B k₁) (b₂ : Within B k₂) {n : V2} (hn : 1 / 2 ≤ |n.1| + |n.2|)
    (hsep : axisSeparated A k₁ k₂ n) (ht : 3 * (m * B + e) + 6 * η ≤ t) :
    Spec.Apart (Spec.solidRect c₁ a₁ l₁ w₁) (Spec.solidRect c₂ a₂ (l₂ - t) (w₂ - t)) := by
  intro p q1 q2
  have s1 := abs_le.mp (solid_dot_le q1 n)
  have s2 := abs_le.mp (solid_dot_le q2 n)
  have r : radius a₂ (l₂ - t) (w₂ - t) n = radius a₂ l₂ w₂ n
      - t * (|cos a₂ * n.1 + sin a₂ * n.2| + |-(sin a₂) * n.1 + cos a₂ * n.2|) := by
    unfold radius; ring
  have hl1 := frame_l1 a₂ n
  have mx1 := projMax_err acc m0 h₁ b₁ n
  have mx2 := projMax_err acc m0 h₂ b₂ n
  have mn1 := projMin_err acc m0 h₁ b₁ n
  have mn2 := projMin_err acc m0 h₂ b₂ n
  rw [projMax_box _ _ p1 p2] at mx1
  rw [projMax_box _ _ p3 p4] at mx2
  rw [projMin_box _ _ p1 p2] at mn1
  rw [projMin_box _ _ p3 p4] at mn2
  rw [r] at s2
  have mB := mul_nonneg m0 B0
  have t0 : 0 ≤ t := by linarith
  have k1 : t * (0.7 * (|n.1| + |n.2|)) ≤
      t * (|cos a₂ * n.1 + sin a₂ * n.2| + |-(sin a₂) * n.1 + cos a₂ * n.2|) := mul_abs_le t0 hl1
  have N0 : 0 ≤ |n.1| + |n.2| := by linarith
  have k2 : (3 * (m * B + e) + 6 * η) * (0.7 * (|n.1| + |n.2|)) ≤ t * (0.7 * (|n.1| + |n.2|)) :=
    mul_le_mul_of_nonneg_right ht (by linarith)
  have k3 : η * (1 / 2) ≤ η * (|n.1| + |n.2|) := mul_abs_le e0 hn
  have k4 : 0 ≤ (m * B + e) * (|n.1| + |n.2|) := mul_nonneg (by linarith) N0
  rcases hsep with h | h <;> linarith

/-- Lower bound for a rounded difference. -/
theorem sub_lower (acc : Spec.Accurate A u m τ η H) (u0 : 0 ≤ u) (u1 : u ≤ 1 / 100) {a a' b b' e : ℝ}
    (ha : |a' - a| ≤ e) (hb : |b' - b| ≤ e) : 0.99 * (|a - b| - 2 * e) - η ≤ |A.sub a' b'| := by
  have h := acc.sub a' b'
  have h1 : |a' - b'| ≤ |A.sub a' b'| + |A.sub a' b' - (a' - b')| := by
    have := abs_sub (A.sub a' b') (A.sub a' b' - (a' - b'))
    rwa [sub_sub_cancel] at this
  have h2 : |a - b| ≤ |a' - b'| + 2 * e := by
    have t : a - b = (a' - b') - (a' - a) + (b' - b) := by ring
    rw [t]
    have := abs_add_le ((a' - b') - (a' - a)) (b' - b)
    have := abs_sub (a' - b') (a' - a)
    linarith
  have h3 : u * |a' - b'| ≤ 1 / 100 * |a' - b'| := mul_le_mul_of_nonneg_right u1 (abs_nonneg _)
  linarith

/-- The computed normal of an edge is not too short. -/
theorem normal_big (acc : Spec.Accurate A u m τ η H) (u0 : 0 ≤ u) (u1 : u ≤ 1 / 100) (e0 : 0 ≤ η)
    (e1 : η ≤ 1e-9) {s e s' e' : V2} {ε : ℝ} (h1 : |s'.1 - s.1| ≤ ε) (h2 : |s'.2 - s.2| ≤ ε)
    (h3 : |e'.1 - e.1| ≤ ε) (h4 : |e'.2 - e.2| ≤ ε) (hd : 0.04 ≤ |e.1 - s.1| + |e.2 - s.2|)
    (hε : 10 * ε ≤ |e.1 - s.1| + |e.2 - s.2|) :
    1 / 2 ≤ |(edgeNormal A s' e').1| + |(edgeNormal A s' e').2| := by
  have l1 := sub_lower acc u0 u1 h3 h1
  have l2 := sub_lower acc u0 u1 h4 h2
  unfold edgeNormal
  simp only
  set x := -A.sub e'.2 s'.2 with hx
  set y := A.sub e'.1 s'.1 with hy
  have lx : |x| = |A.sub e'.2 s'.2| := by rw [hx, abs_neg]
  have hN : 0.02 ≤ |x| + |y| := by rw [lx]; linarith
  set N := |x| + |y| with hNd
  set S0 := x * x + y * y with hS0
  have q1 : x * x = |x| * |x| := (abs_mul_abs_self x).symm
  have q2 : y * y = |y| * |y| := (abs_mul_abs_self y).symm
  have S1 : S0 ≤ N ^ 2 := by
    rw [hS0, q1, q2]; nlinarith [mul_nonneg (abs_nonneg x) (abs_nonneg y)]
  have S2 : N ^ 2 / 2 ≤ S0 := by
    rw [hS0, q1, q2]; nlinarith [sq_nonneg (|x| - |y|)]
  have S3 : 2e-4 ≤ S0 := by nlinarith
  have hS := acc.sum2 x x y y
  rw [abs_of_nonneg (mul_self_nonneg x), abs_of_nonneg (mul_self_nonneg y), ← hS0] at hS
  set S := A.sum2 x x y y
  have hu3 : 3 * u * S0 ≤ 3 * (1 / 100) * S0 := mul_le_mul_of_nonneg_right (by linarith) (by linarith)
  obtain ⟨hSa, hSb⟩ := abs_le.mp (hS.trans (show _ ≤ 0.04 * S0 by linarith))
  have Sp : 0 ≤ S := by linarith
  have hq := acc.sqrt S Sp
  have r0 := sqrt_nonneg S0
  have rs : √S0 ^ 2 = S0 := sq_sqrt (by linarith)
  have up : √S ≤ 1.02 * √S0 := by
    rw [sqrt_le_left (by positivity), mul_pow, rs]; linarith
  have lo : 0.97 * √S0 ≤ √S := by
    apply le_sqrt_of_sq_le; rw [mul_pow, rs]; linarith
  have r1 : 0.01 ≤ √S0 := by apply le_sqrt_of_sq_le; linarith
  have r2 : √S0 ≤ N := by
    rw [sqrt_le_left (by linarith)]; exact S1
  have hu4 : u * √S ≤ 1 / 100 * √S := mul_le_mul_of_nonneg_right u1 (sqrt_nonneg _)
  obtain ⟨ha, hb⟩ := abs_le.mp hq
  set nn := A.sqrt S
  have n1 : 0.9 * √S0 ≤ nn := by linarith
  have n2 : nn ≤ 1.05 * √S0 := by linarith
  have nl : ¬ nn < 1e-8 := by rw [not_lt]; linarith
  rw [if_neg nl]
  have np : 0 < nn := by linarith
  have dl : ∀ z : ℝ, 0.99 * (|z| / nn) - η ≤ |A.div z nn| := by
    intro z
    have h := acc.div z nn np.ne'
    rw [abs_div, abs_of_pos np] at h
    have h1 : |z| / nn ≤ |A.div z nn| + |A.div z nn - z / nn| := by
      have := abs_sub (A.div z nn) (A.div z nn - z / nn)
      rwa [sub_sub_cancel, abs_div, abs_of_pos np] at this
    have h3 : u * (|z| / nn) ≤ 1 / 100 * (|z| / nn) := mul_le_mul_of_nonneg_right u1 (by positivity)
    linarith
  have d1 := dl x
  have d2 := dl y
  have key : 0.9 ≤ |x| / nn + |y| / nn := by
    rw [← add_div, le_div_iff₀ np]; linarith
  linarith

theorem edge01 (c : V2) (a hl hw : ℝ) (h : 0 ≤ hw) : 2 * hw ≤
    |(Mbd.boxCorners c a hl hw).c1.1 - (Mbd.boxCorners c a hl hw).c0.1|
      + |(Mbd.boxCorners c a hl hw).c1.2 - (Mbd.boxCorners c a hl hw).c0.2| := by
  simp only [Mbd.boxCorners, Mbd.placePoint]
  rw [show -hl * cos a - hw * sin a + c.1 - (-hl * cos a - -hw * sin a + c.1) = -(2 * hw * sin a) by ring,
    show -hl * sin a + hw * cos a + c.2 - (-hl * sin a + -hw * cos a + c.2) = 2 * hw * cos a by ring, abs_neg,
    abs_mul, abs_mul (2 * hw), abs_of_nonneg (show 0 ≤ 2 * hw by linarith)]
  have hs := sin_sq_add_cos_sq a
  have : 1 ≤ |sin a| + |cos a| := by
    have a1 := sq_abs (sin a)
    have a2 := sq_abs (cos a)
    nlinarith [abs_nonneg (sin a), abs_nonneg (cos a), abs_sin_le_one a, abs_cos_le_one a]
  nlinarith

theorem edge12 (c : V2) (a hl hw : ℝ) (h : 0 ≤ hl) : 2 * hl ≤
    |(Mbd.boxCorners c a hl hw).c2.1 - (Mbd.boxCorners c a hl hw).c1.1|
      + |(Mbd.boxCorners c a hl hw).c2.2 - (Mbd.boxCorners c a hl hw).c1.2| := by
  simp only [Mbd.boxCorners, Mbd.placePoint]
  rw [show hl * cos a - hw * sin a + c.1 - (-hl * cos a - hw * sin a + c.1) = 2 * hl * cos a by ring,
    show hl * sin a + hw * cos a + c.2 - (-hl * sin a + hw * cos a + c.2) = 2 * hl * sin a by ring,
    abs_mul, abs_mul (2 * hl), abs_of_nonneg (show 0 ≤ 2 * hl by linarith)]
  have hs := sin_sq_add_cos_sq a
  have : 1 ≤ |cos a| + |sin a| := by
    have a1 := sq_abs (sin a)
    have a2 := sq_abs (cos a)
    nlinarith [abs_nonneg (sin a), abs_nonneg (cos a), abs_sin_le_one a, abs_cos_le_one a]
  nlinarith

/-- No separating axis is reported for boxes that overlap by more than the tolerance. -/
theorem rect_sound (acc : Spec.Accurate A u m τ η H) (u0 : 0 ≤ u) (u1 : u ≤ 1 / 100) (m0 : 0 ≤ m) (e0 : 0 ≤ η)
    (e1 : η ≤ 1e-9) {B e t : ℝ} (B0 : 0 ≤ B) (he : 0 ≤ e)
    {c₁ c₂ : V2} {a₁ a₂ l₁ w₁ l₂ w₂ : ℝ} {k₁ k₂ : Corners}
    (p1 : 0.02 ≤ l₁) (p2 : 0.02 ≤ w₁) (p3 : 0.02 ≤ l₂) (p4 : 0.02 ≤ w₂)
    (g1 : 5 * e ≤ l₁) (g2 : 5 * e ≤ w₁) (g3 : 5 * e ≤ l₂) (g4 : 5 * e ≤ w₂)
    (h₁ : Close e (Mbd.boxCorners c₁ a₁ l₁ w₁) k₁) (h₂ : Close e (Mbd.boxCorners c₂ a₂ l₂ w₂) k₂)
    (b₁ : Within B k₁) (b₂ : Within B k₂) (ht : 3 * (m * B + e) + 6 * η ≤ t) (hc : ¬ rectRect A k₁ k₂) :
    Spec.Apart (Spec.solidRect c₁ a₁ l₁ w₁) (Spec.solidRect c₂ a₂ (l₂ - t) (w₂ - t)) := by
  unfold rectRect at hc
  rw [not_not] at hc
  have go := fun {n : V2} (hn : 1 / 2 ≤ |n.1| + |n.2|) (hs : axisSeparated A k₁ k₂ n) =>
    sep_sound acc m0 e0 B0 he (by linarith) (by linarith) (by linarith) (by linarith) h₁ h₂ b₁ b₂ hn hs ht
  rcases hc with h | h | h | h
  · refine go (normal_big acc u0 u1 e0 e1 h₁.c0x h₁.c0y h₁.c1x h₁.c1y ?_ ?_) h
    · exact le_trans (by linarith) (edge01 c₁ a₁ l₁ w₁ (by linarith))
    · exact le_trans (by linarith) (edge01 c₁ a₁ l₁ w₁ (by linarith))
  · refine go (normal_big acc u0 u1 e0 e1 h₁.c1x h₁.c1y h₁.c2x h₁.c2y ?_ ?_) h
    · exact le_trans (by linarith) (edge12 c₁ a₁ l₁ w₁ (by linarith))
    · exact le_trans (by linarith) (edge12 c₁ a₁ l₁ w₁ (by linarith))
  · refine go (normal_big acc u0 u1 e0 e1 h₂.c0x h₂.c0y h₂.c1x h₂.c1y ?_ ?_) h
    · exact le_trans (by linarith) (edge01 c₂ a₂ l₂ w₂ (by linarith))
    · exact le_trans (by linarith) (edge01 c₂ a₂ l₂ w₂ (by linarith))
  · refine go (normal_big acc u0 u1 e0 e1 h₂.c1x h₂.c1y h₂.c2x h₂.c2y ?_ ?_) h
    · exact le_trans (by linarith) (edge12 c₂ a₂ l₂ w₂ (by linarith))
    · exact le_trans (by linarith) (edge12 c₂ a₂ l₂ w₂ (by linarith))

end Rounded

end Mbd
