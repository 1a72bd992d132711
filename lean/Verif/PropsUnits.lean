import Verif.PropsFrame
import Verif.MirrorLemmas
import Verif.Witness
import Verif.AccLemmas

/-! # Units of length and time (C90) -/

namespace Spec

open Real Mbd

/-- A point in units of length `1/a`. -/
def scale2 (a : ℝ) (p : Pt) : Pt := (a * p.1, a * p.2)

def scaleCircle (a : ℝ) (c : Circle) : Circle := ⟨a * c.x, a * c.y, a * c.r⟩

def scaleRect (a : ℝ) (o : Rect) : Rect := ⟨a * o.x, a * o.y, a * o.w, a * o.h, o.ang⟩

def scale3 (a : ℝ) (q : Q3) : Q3 := ⟨a * q.px, a * q.py, q.th1⟩

def scale4 (a : ℝ) (q : Q4) : Q4 := ⟨a * q.px, a * q.py, q.th1, q.th2⟩

def scaleN (a : ℝ) (q : QN) : QN := ⟨a * q.px, a * q.py, q.th0, q.ths⟩

/-- Speed in the new units of length and time. -/
noncomputable def scale6 (a b : ℝ) (q : Q6) : Q6 := ⟨a * q.px, a * q.py, q.th1, q.th2, a / b * q.v, q.delta⟩

/-- The same vehicle, obstacles and reward settings in units `1/a` of length and `1/b` of time: every number is
multiplied according to its dimension (the preference penalty is per speed). -/
noncomputable def inUnits (a b : ℝ) (P : Params) : Params :=
  { P with
    dt := b * P.dt
    rewardThreshold := a * P.rewardThreshold
    refRewardThreshold := a * P.refRewardThreshold
    terminalRewardThreshold := a * P.terminalRewardThreshold
    kSwitch := a * P.kSwitch
    l1 := a * P.l1, l2 := a * P.l2, lh := a * P.lh, lf1 := a * P.lf1, lr := a * P.lr, lf2 := a * P.lf2
    lr2 := a * P.lr2, tractorWidth := a * P.tractorWidth, trailerWidth := a * P.trailerWidth
    vMax := a / b * P.vMax
    preferencePenaltyWeight := b / a * P.preferencePenaltyWeight
    circles := P.circles.map (scaleCircle a)
    rects := P.rects.map (scaleRect a) }

noncomputable def ttInUnits (a b : ℝ) (T : TT2d) : TT2d :=
  { toParams := inUnits a b T.toParams, x0 := scale4 a T.x0, xg := scale4 a T.xg }

noncomputable def bikeInUnits (a b : ℝ) (T : Bicycle) : Bicycle :=
  { toParams := inUnits a b T.toParams, x0 := scale3 a T.x0, xg := scale3 a T.xg }

noncomputable def trainInUnits (a b : ℝ) (T : NTrailer) : NTrailer :=
  { toParams := inUnits a b T.toParams, N := T.N, lengths := T.lengths.map (a * ·), fronts := T.fronts.map (a * ·)
    rears := T.rears.map (a * ·), x0 := scaleN a T.x0, xg := scaleN a T.xg }

noncomputable def accInUnits (a b : ℝ) (T : Acc) : Acc :=
  { toParams := inUnits a b T.toParams, aMax := a / b ^ 2 * T.aMax, omegaMax := T.omegaMax / b
    x0 := scale6 a b T.x0, xg := scale6 a b T.xg }

/-- A reference trajectory in the new units. -/
def rowsInUnits (a : ℝ) (rows : List (Q4 × Bool)) : List (Q4 × Bool) := rows.map (Prod.map (scale4 a) id)

def rows3InUnits (a : ℝ) (rows : List (Q3 × Bool)) : List (Q3 × Bool) := rows.map (Prod.map (scale3 a) id)

end Spec

namespace Mbd

open Real Classical _root_.Spec

section
variable {a : ℝ}

/-! ## Geometry -/

theorem norm2_scale (ha : 0 < a) (p q : V2) : norm2 (scale2 a p - scale2 a q) = a * norm2 (p - q) := by
  have h : (a * p.1 - a * q.1) ^ 2 + (a * p.2 - a * q.2) ^ 2 = a ^ 2 * ((p.1 - q.1) ^ 2 + (p.2 - q.2) ^ 2) := by ring
  show √((a * p.1 - a * q.1) ^ 2 + (a * p.2 - a * q.2) ^ 2) = a * √((p.1 - q.1) ^ 2 + (p.2 - q.2) ^ 2)
  rw [h, sqrt_mul (sq_nonneg a), sqrt_sq ha.le]

theorem placePoint_scale (c : V2) (ang : ℝ) (l : V2) :
    placePoint (scale2 a c) ang (scale2 a l) = scale2 a (placePoint c ang l) := by
  unfold placePoint scale2
  exact Prod.ext (by simp only; ring) (by simp only; ring)

/-- Corner array in the new unit. -/
def Corners.scale (a : ℝ) (k : Corners) : Corners := ⟨scale2 a k.c0, scale2 a k.c1, scale2 a k.c2, scale2 a k.c3⟩

theorem boxCorners_scale (c : V2) (ang hl hw : ℝ) :
    boxCorners (scale2 a c) ang (a * hl) (a * hw) = (boxCorners c ang hl hw).scale a := by
  have e1 : (-(a * hl), -(a * hw)) = scale2 a (-hl, -hw) := by unfold scale2; simp
  have e2 : (-(a * hl), a * hw) = scale2 a (-hl, hw) := by unfold scale2; simp
  have e3 : (a * hl, a * hw) = scale2 a (hl, hw) := rfl
  have e4 : (a * hl, -(a * hw)) = scale2 a (hl, -hw) := by unfold scale2; simp
  unfold Corners.scale boxCorners
  rw [e1, e2, e3, e4, placePoint_scale, placePoint_scale, placePoint_scale, placePoint_scale]

theorem edgeDistSq_scale (ha : 0 < a) (s e c : V2) (h : 1e-8 ≤ (e.1 - s.1) ^ 2 + (e.2 - s.2) ^ 2)
    (h' : 1e-8 ≤ a ^ 2 * ((e.1 - s.1) ^ 2 + (e.2 - s.2) ^ 2)) :
    edgeDistSq (scale2 a s) (scale2 a e) (scale2 a c) = a ^ 2 * edgeDistSq s e c := by
  have e1 : (a * e.1 - a * s.1) ^ 2 + (a * e.2 - a * s.2) ^ 2 = a ^ 2 * ((e.1 - s.1) ^ 2 + (e.2 - s.2) ^ 2) := by ring
  have e2 : (a * c.1 - a * s.1) * (a * e.1 - a * s.1) + (a * c.2 - a * s.2) * (a * e.2 - a * s.2) =
      a ^ 2 * ((c.1 - s.1) * (e.1 - s.1) + (c.2 - s.2) * (e.2 - s.2)) := by ring
  have ha2 : a ^ 2 ≠ 0 := by positivity
  unfold edgeDistSq scale2
  simp only [e1, e2, if_neg (not_lt.2 h), if_neg (not_lt.2 h'), mul_div_mul_left _ _ ha2]
  generalize clip _ _ _ = t
  ring

/-- Bodies with sides of at least `1e-4` in both units. -/
theorem rectCircle_scale (ha : 0 < a) (c : V2) (ang : ℝ) {hl hw : ℝ} (h1 : 1e-4 ≤ 2 * hl) (h2 : 1e-4 ≤ 2 * hw)
    (h1' : 1e-4 ≤ 2 * (a * hl)) (h2' : 1e-4 ≤ 2 * (a * hw)) (p : V2) (r : ℝ) :
    rectCircle (boxCorners (scale2 a c) ang (a * hl) (a * hw)) (scale2 a p) (a * r) ↔
      rectCircle (boxCorners c ang hl hw) p r := by
  have hcs := cos_sq_add_sin_sq ang
  have q1 : (1e-8 : ℝ) ≤ 4 * hl ^ 2 := by nlinarith
  have q2 : (1e-8 : ℝ) ≤ 4 * hw ^ 2 := by nlinarith
  have q1' : (1e-8 : ℝ) ≤ a ^ 2 * (4 * hl ^ 2) := by nlinarith
  have q2' : (1e-8 : ℝ) ≤ a ^ 2 * (4 * hw ^ 2) := by nlinarith
  have ha2 : 0 < a ^ 2 := by positivity
  rw [boxCorners_scale]
  unfold rectCircle Corners.scale boxCorners
  simp only
  have s1 : ∀ x y : ℝ, (placePoint c ang (x, y)).1 = x * cos ang - y * sin ang + c.1 := fun _ _ => rfl
  have s2 : ∀ x y : ℝ, (placePoint c ang (x, y)).2 = x * sin ang + y * cos ang + c.2 := fun _ _ => rfl
  have w1 : ((placePoint c ang (-hl, hw)).1 - (placePoint c ang (-hl, -hw)).1) ^ 2 +
      ((placePoint c ang (-hl, hw)).2 - (placePoint c ang (-hl, -hw)).2) ^ 2 = 4 * hw ^ 2 := by
    rw [s1, s1, s2, s2]; linear_combination 4 * hw ^ 2 * hcs
  have w2 : ((placePoint c ang (hl, hw)).1 - (placePoint c ang (-hl, hw)).1) ^ 2 +
      ((placePoint c ang (hl, hw)).2 - (placePoint c ang (-hl, hw)).2) ^ 2 = 4 * hl ^ 2 := by
    rw [s1, s1, s2, s2]; linear_combination 4 * hl ^ 2 * hcs
  have w3 : ((placePoint c ang (hl, -hw)).1 - (placePoint c ang (hl, hw)).1) ^ 2 +
      ((placePoint c ang (hl, -hw)).2 - (placePoint c ang (hl, hw)).2) ^ 2 = 4 * hw ^ 2 := by
    rw [s1, s1, s2, s2]; linear_combination 4 * hw ^ 2 * hcs
  have w4 : ((placePoint c ang (-hl, -hw)).1 - (placePoint c ang (hl, -hw)).1) ^ 2 +
      ((placePoint c ang (-hl, -hw)).2 - (placePoint c ang (hl, -hw)).2) ^ 2 = 4 * hl ^ 2 := by
    rw [s1, s1, s2, s2]; linear_combination 4 * hl ^ 2 * hcs
  rw [edgeDistSq_scale ha _ _ _ (by rw [w1]; exact q2) (by rw [w1]; exact q2'),
    edgeDistSq_scale ha _ _ _ (by rw [w2]; exact q1) (by rw [w2]; exact q1'),
    edgeDistSq_scale ha _ _ _ (by rw [w3]; exact q2) (by rw [w3]; exact q2'),
    edgeDistSq_scale ha _ _ _ (by rw [w4]; exact q1) (by rw [w4]; exact q1'), mul_pow]
  simp only [min_le_iff, mul_le_mul_iff_right₀ ha2]

/-- The computed normal points in the same direction in both units. -/
theorem edgeNormal_scale (ha : 0 < a) (s e : V2) :
    ∃ k : ℝ, 0 < k ∧ edgeNormal (scale2 a s) (scale2 a e) = scale2 k (edgeNormal s e) := by
  have key : ∀ s e : V2, ∃ m : ℝ, 0 < m ∧ edgeNormal s e = scale2 m (-(e.2 - s.2), e.1 - s.1) := by
    intro s e
    unfold edgeNormal scale2
    simp only
    split_ifs with h
    · exact ⟨1, one_pos, by simp⟩
    · refine ⟨1 / norm2 (-(e.2 - s.2), e.1 - s.1), ?_, ?_⟩
      · have : (0 : ℝ) < norm2 (-(e.2 - s.2), e.1 - s.1) := lt_of_lt_of_le (by norm_num) (not_lt.mp h)
        positivity
      · exact Prod.ext (by simp only; ring) (by simp only; ring)
  obtain ⟨m1, p1, e1⟩ := key s e
  obtain ⟨m2, p2, e2⟩ := key (scale2 a s) (scale2 a e)
  refine ⟨m2 * a / m1, by positivity, ?_⟩
  rw [e1, e2]
  unfold scale2
  have := p1.ne'
  exact Prod.ext (by simp only; field_simp) (by simp only; field_simp)

theorem axisSeparated_scale (ha : 0 < a) {k : ℝ} (hk : 0 < k) (k₁ k₂ : Corners) (n : V2) :
    axisSeparated (k₁.scale a) (k₂.scale a) (scale2 k n) ↔ axisSeparated k₁ k₂ n := by
  have hak : 0 < a * k := mul_pos ha hk
  have hd : ∀ p : V2, dot (scale2 a p) (scale2 k n) = a * k * dot p n := by
    intro p; unfold dot scale2; simp only; ring
  have hm : ∀ c : Corners, projMin (c.scale a) (scale2 k n) = a * k * projMin c n := by
    intro c; unfold projMin Corners.scale; simp only [hd, mul_min_of_nonneg _ _ hak.le]
  have hx : ∀ c : Corners, projMax (c.scale a) (scale2 k n) = a * k * projMax c n := by
    intro c; unfold projMax Corners.scale; simp only [hd, mul_max_of_nonneg _ _ hak.le]
  unfold axisSeparated
  rw [hm, hm, hx, hx, mul_lt_mul_iff_right₀ hak, mul_lt_mul_iff_right₀ hak]

theorem rectRect_scale (ha : 0 < a) (k₁ k₂ : Corners) : rectRect (k₁.scale a) (k₂.scale a) ↔ rectRect k₁ k₂ := by
  obtain ⟨m1, p1, e1⟩ := edgeNormal_scale ha k₁.c0 k₁.c1
  obtain ⟨m2, p2, e2⟩ := edgeNormal_scale ha k₁.c1 k₁.c2
  obtain ⟨m3, p3, e3⟩ := edgeNormal_scale ha k₂.c0 k₂.c1
  obtain ⟨m4, p4, e4⟩ := edgeNormal_scale ha k₂.c1 k₂.c2
  unfold rectRect
  show ¬ (axisSeparated _ _ (edgeNormal (scale2 a k₁.c0) (scale2 a k₁.c1)) ∨
    axisSeparated _ _ (edgeNormal (scale2 a k₁.c1) (scale2 a k₁.c2)) ∨
    axisSeparated _ _ (edgeNormal (scale2 a k₂.c0) (scale2 a k₂.c1)) ∨
    axisSeparated _ _ (edgeNormal (scale2 a k₂.c1) (scale2 a k₂.c2))) ↔ _
  rw [e1, e2, e3, e4, axisSeparated_scale ha p1, axisSeparated_scale ha p2, axisSeparated_scale ha p3,
    axisSeparated_scale ha p4]

theorem rectCorners_scale (o : Rect) : (scaleRect a o).corners = o.corners.scale a := by
  unfold Rect.corners scaleRect
  rw [← boxCorners_scale]
  simp only [mul_div_assoc]
  rfl

/-! ## Checks -/

theorem tractorCorners_scale (b : ℝ) (P : Params) (px py th : ℝ) :
    ∃ c, P.tractorCorners px py th = boxCorners c th ((P.l1 + P.lf1 + P.lr) / 2) (P.tractorWidth / 2) ∧
      (inUnits a b P).tractorCorners (a * px) (a * py) th =
        boxCorners (scale2 a c) th (a * ((P.l1 + P.lf1 + P.lr) / 2)) (a * (P.tractorWidth / 2)) := by
  refine ⟨_, rfl, ?_⟩
  unfold Params.tractorCorners inUnits scale2
  simp only
  congr 1
  · exact Prod.ext (by simp only; ring) (by simp only; ring)
  · ring
  · ring

theorem trailerCorners_scale (b : ℝ) (P : Params) (q : Q4) :
    ∃ c, TT2d.trailerCorners P q = boxCorners c q.th2 ((P.lf2 + P.lr2) / 2) (P.trailerWidth / 2) ∧
      TT2d.trailerCorners (inUnits a b P) (scale4 a q) =
        boxCorners (scale2 a c) q.th2 (a * ((P.lf2 + P.lr2) / 2)) (a * (P.trailerWidth / 2)) := by
  refine ⟨_, rfl, ?_⟩
  unfold TT2d.trailerCorners TT2d.hitchPoint inUnits scale2 scale4
  simp only
  congr 1
  · exact Prod.ext (by simp only; ring) (by simp only; ring)
  · ring
  · ring

theorem box_checks_scale (ha : 0 < a) (c : V2) (ang : ℝ) {hl hw : ℝ} (h1 : 1e-4 ≤ 2 * hl) (h2 : 1e-4 ≤ 2 * hw)
    (h1' : 1e-4 ≤ 2 * (a * hl)) (h2' : 1e-4 ≤ 2 * (a * hw)) :
    (∀ k : Circle, rectCircle (boxCorners (scale2 a c) ang (a * hl) (a * hw)) ((scaleCircle a k).x, (scaleCircle a k).y)
        (scaleCircle a k).r ↔ rectCircle (boxCorners c ang hl hw) (k.x, k.y) k.r) ∧
    ∀ o : Rect, rectRect (boxCorners (scale2 a c) ang (a * hl) (a * hw)) (scaleRect a o).corners ↔
      rectRect (boxCorners c ang hl hw) o.corners := by
  refine ⟨fun k => rectCircle_scale ha c ang h1 h2 h1' h2' (k.x, k.y) k.r, fun o => ?_⟩
  rw [rectCorners_scale, boxCorners_scale, rectRect_scale ha]

theorem checkObstacle_scale (ha : 0 < a) (b : ℝ) (P : Params) (hP : SidesOK P) (hP' : SidesOK (inUnits a b P)) (q : Q4) :
    TT2d.checkObstacle (inUnits a b P) (scale4 a q) ↔ TT2d.checkObstacle P q := by
  have g1 : 1e-4 ≤ a * P.l1 + a * P.lf1 + a * P.lr := hP'.tractorLen
  have g2 : 1e-4 ≤ a * P.tractorWidth := hP'.tractorWid
  have g3 : 1e-4 ≤ a * P.lf2 + a * P.lr2 := hP'.trailerLen
  have g4 : 1e-4 ≤ a * P.trailerWidth := hP'.trailerWid
  obtain ⟨c1, e1, f1⟩ := tractorCorners_scale (a := a) b P q.px q.py q.th1
  obtain ⟨c2, e2, f2⟩ := trailerCorners_scale (a := a) b P q
  obtain ⟨x1, y1⟩ := box_checks_scale ha c1 q.th1 (hl := (P.l1 + P.lf1 + P.lr) / 2) (hw := P.tractorWidth / 2)
    (by linarith [hP.tractorLen]) (by linarith [hP.tractorWid]) (by linarith) (by linarith)
  obtain ⟨x2, y2⟩ := box_checks_scale ha c2 q.th2 (hl := (P.lf2 + P.lr2) / 2) (hw := P.trailerWidth / 2)
    (by linarith [hP.trailerLen]) (by linarith [hP.trailerWid]) (by linarith) (by linarith)
  have hc : (inUnits a b P).circles = P.circles.map (scaleCircle a) := rfl
  have hr : (inUnits a b P).rects = P.rects.map (scaleRect a) := rfl
  have f1' : (inUnits a b P).tractorCorners (scale4 a q).px (scale4 a q).py (scale4 a q).th1 = _ := f1
  unfold TT2d.checkObstacle
  simp only [f1', e1, e2, f2, hc, hr, List.mem_map, exists_exists_and_eq_and, x1, y1, x2, y2]

theorem bicycleObstacle_scale (ha : 0 < a) (b : ℝ) (P : Params) (h1 : 1e-4 ≤ P.l1 + P.lf1 + P.lr)
    (h2 : 1e-4 ≤ P.tractorWidth) (h1' : 1e-4 ≤ a * (P.l1 + P.lf1 + P.lr)) (h2' : 1e-4 ≤ a * P.tractorWidth) (q : Q3) :
    Bicycle.checkObstacle (inUnits a b P) (scale3 a q) ↔ Bicycle.checkObstacle P q := by
  obtain ⟨c1, e1, f1⟩ := tractorCorners_scale (a := a) b P q.px q.py q.th1
  obtain ⟨x1, y1⟩ := box_checks_scale ha c1 q.th1 (hl := (P.l1 + P.lf1 + P.lr) / 2) (hw := P.tractorWidth / 2)
    (by linarith) (by linarith) (by linarith) (by linarith)
  have hc : (inUnits a b P).circles = P.circles.map (scaleCircle a) := rfl
  have hr : (inUnits a b P).rects = P.rects.map (scaleRect a) := rfl
  have f1' : (inUnits a b P).tractorCorners (scale3 a q).px (scale3 a q).py (scale3 a q).th1 = _ := f1
  unfold Bicycle.checkObstacle
  simp only [f1', e1, hc, hr, List.mem_map, exists_exists_and_eq_and, x1, y1]

/-! ## Rewards -/

theorem clip_scale (ha : 0 < a) (d t : ℝ) : clip (a * d) 0 (a * t) = a * clip d 0 t := by
  unfold clip
  rw [mul_min_of_nonneg _ _ ha.le, mul_max_of_nonneg _ _ ha.le, mul_zero]

theorem posReward_scale (ha : 0 < a) (d t : ℝ) : Params.posReward (a * d) (a * t) = Params.posReward d t := by
  unfold Params.posReward
  rw [clip_scale ha, mul_div_mul_left _ _ ha.ne']

theorem quadTerm_scale (ha : 0 < a) (d t : ℝ) : Demo.quadTerm (a * d) (a * t) = Demo.quadTerm d t := by
  unfold Demo.quadTerm
  rw [clip_scale ha, mul_div_mul_left _ _ ha.ne']

theorem wTheta_scale (ha : 0 < a) (b : ℝ) (P : Params) (d : ℝ) :
    TT2d.wTheta (inUnits a b P) (a * d) = TT2d.wTheta P d := by
  unfold TT2d.wTheta
  have e : (inUnits a b P).dThr = a * P.dThr := by unfold Params.dThr inUnits; ring
  have k : (inUnits a b P).kSwitch = a * P.kSwitch := rfl
  have m : (inUnits a b P).maxWTheta = P.maxWTheta := rfl
  rw [e, k, m, ← mul_sub, mul_div_mul_left _ _ ha.ne']

theorem tractorPos_scale (b : ℝ) (P : Params) (px py th : ℝ) :
    (inUnits a b P).tractorPos (a * px) (a * py) th = scale2 a (P.tractorPos px py th) := by
  unfold Params.tractorPos inUnits scale2
  exact Prod.ext (by simp only; ring) (by simp only; ring)

theorem trailerPos_scale (b : ℝ) (P : Params) (q : Q4) :
    TT2d.trailerPos (inUnits a b P) (scale4 a q) = scale2 a (TT2d.trailerPos P q) := by
  unfold TT2d.trailerPos TT2d.hitchPoint inUnits scale2 scale4
  exact Prod.ext (by simp only; ring) (by simp only; ring)

theorem posDist_scale (ha : 0 < a) (b : ℝ) (P : Params) (xg q : Q4) :
    TT2d.posDist (inUnits a b P) (scale4 a xg) (scale4 a q) = a * TT2d.posDist P xg q := by
  unfold TT2d.posDist
  have e1 : (inUnits a b P).tractorPos (scale4 a q).px (scale4 a q).py (scale4 a q).th1 =
      scale2 a (P.tractorPos q.px q.py q.th1) := tractorPos_scale b P q.px q.py q.th1
  have e2 : ((scale4 a xg).px, (scale4 a xg).py) = scale2 a (xg.px, xg.py) := rfl
  have e3 : (inUnits a b P).tracksTractor ↔ P.tracksTractor := Iff.rfl
  simp only [e1, e2, trailerPos_scale, norm2_scale ha, e3]
  split_ifs <;> rfl

theorem reward_scale4 (ha : 0 < a) (b : ℝ) (P : Params) (xg q : Q4) :
    TT2d.getReward (inUnits a b P) (scale4 a xg) (scale4 a q) = TT2d.getReward P xg q ∧
    TT2d.getTerminalReward (inUnits a b P) (scale4 a xg) (scale4 a q) = TT2d.getTerminalReward P xg q := by
  have t1 : (inUnits a b P).rewardThreshold = a * P.rewardThreshold := rfl
  have t2 : (inUnits a b P).terminalRewardThreshold = a * P.terminalRewardThreshold := rfl
  constructor
  · unfold TT2d.getReward
    simp only [posDist_scale ha, t1, posReward_scale ha, wTheta_scale ha]
    rfl
  · unfold TT2d.getTerminalReward
    rw [posDist_scale ha, t2, posReward_scale ha]

theorem posDist_scale3 (ha : 0 < a) (b : ℝ) (P : Params) (xg q : Q3) :
    Bicycle.posDist (inUnits a b P) (scale3 a xg) (scale3 a q) = a * Bicycle.posDist P xg q := by
  unfold Bicycle.posDist
  have e1 : (inUnits a b P).tractorPos (scale3 a q).px (scale3 a q).py (scale3 a q).th1 =
      scale2 a (P.tractorPos q.px q.py q.th1) := tractorPos_scale b P q.px q.py q.th1
  have e2 : ((scale3 a xg).px, (scale3 a xg).py) = scale2 a (xg.px, xg.py) := rfl
  rw [e1, e2, norm2_scale ha]

theorem reward_scale3 (ha : 0 < a) (b : ℝ) (P : Params) (xg q : Q3) :
    Bicycle.getReward (inUnits a b P) (scale3 a xg) (scale3 a q) = Bicycle.getReward P xg q ∧
    Bicycle.getTerminalReward (inUnits a b P) (scale3 a xg) (scale3 a q) = Bicycle.getTerminalReward P xg q := by
  have t1 : (inUnits a b P).rewardThreshold = a * P.rewardThreshold := rfl
  have t2 : (inUnits a b P).terminalRewardThreshold = a * P.terminalRewardThreshold := rfl
  constructor
  · unfold Bicycle.getReward
    simp only [posDist_scale3 ha, t1, posReward_scale ha, wTheta_scale ha]
    rfl
  · unfold Bicycle.getTerminalReward
    rw [posDist_scale3 ha, t2, posReward_scale ha]

/-- The preference penalty: a number per speed times a speed. -/
theorem prefPenalty_scale (ha : 0 < a) {b : ℝ} (hb : 0 < b) (P : Params) (u : U) :
    (inUnits a b P).prefPenaltyU ((inUnits a b P).inputScaler u) = P.prefPenaltyU (P.inputScaler u) := by
  have hab : 0 < a / b := div_pos ha hb
  have e : u.1 * (a / b * P.vMax) = a / b * (u.1 * P.vMax) := by ring
  unfold Params.prefPenaltyU Params.prefPenaltyV Params.inputScaler inUnits
  simp only [e]
  generalize u.1 * P.vMax = v
  have c1 : a / b * v < 0 ↔ v < 0 := by
    constructor
    · intro h; by_contra h'; push Not at h'; linarith [mul_nonneg hab.le h']
    · intro h; exact mul_neg_of_pos_of_neg hab h
  have c2 : a / b * v > 0 ↔ v > 0 := by
    constructor
    · intro h; by_contra h'; push Not at h'; linarith [mul_nonpos_of_nonneg_of_nonpos hab.le h']
    · intro h; exact mul_pos hab h
  have c3 : b / a * P.preferencePenaltyWeight * |a / b * v| = P.preferencePenaltyWeight * |v| := by
    rw [abs_mul, abs_of_pos hab]
    have := ha.ne'
    have := hb.ne'
    field_simp
  simp only [c1, c2, c3]

end

/-! ## Steps -/

section
variable {a b : ℝ}

theorem euler_scale4 (ha : 0 < a) (hb : 0 < b) (P : Params) (q : Q4) (u : U) :
    TT2d.euler (inUnits a b P) (scale4 a q) ((inUnits a b P).inputScaler u) = scale4 a (TT2d.euler P q (P.inputScaler u)) := by
  have := ha.ne'
  have := hb.ne'
  have hd : (inUnits a b P).deltaMax = P.deltaMax := rfl
  unfold TT2d.euler TT2d.dynamics Q4.axpy Params.inputScaler
  rw [hd]
  unfold inUnits scale4
  simp only
  generalize tan (u.2 * P.deltaMax) = t
  have e2 : ∀ l : ℝ, u.1 * (a / b * P.vMax) / (a * l) = u.1 * P.vMax / l / b := by
    intro l
    rw [show u.1 * (a / b * P.vMax) = a * (u.1 * P.vMax / b) by ring, mul_div_mul_left _ _ ha.ne']
    ring
  rw [e2, e2, mul_div_mul_left _ _ ha.ne']
  ext
  · simp only; field_simp
  · simp only; field_simp
  · simp only
    rw [show b * P.dt * (u.1 * P.vMax / P.l1 / b * t) = b / b * (P.dt * (u.1 * P.vMax / P.l1 * t)) by ring,
      div_self hb.ne', one_mul]
  · simp only
    generalize sin (q.th1 - q.th2) - P.lh / P.l1 * cos (q.th1 - q.th2) * t = w
    rw [show b * P.dt * (u.1 * P.vMax / P.l2 / b * w) = b / b * (P.dt * (u.1 * P.vMax / P.l2 * w)) by ring,
      div_self hb.ne', one_mul]

theorem euler_scale3 (ha : 0 < a) (hb : 0 < b) (P : Params) (q : Q3) (u : U) :
    Bicycle.euler (inUnits a b P) (scale3 a q) ((inUnits a b P).inputScaler u) =
      scale3 a (Bicycle.euler P q (P.inputScaler u)) := by
  have h := euler_scale4 ha hb P ⟨q.px, q.py, q.th1, 0⟩ u
  have h1 := congrArg Q4.px h
  have h2 := congrArg Q4.py h
  have h3 := congrArg Q4.th1 h
  unfold Bicycle.euler Bicycle.dynamics Q3.axpy scale3
  exact Q3.ext h1 h2 h3

theorem tt2d_step_scale (ha : 0 < a) (hb : 0 < b) (T : TT2d) (hs : SidesOK T.toParams)
    (hs' : SidesOK (inUnits a b T.toParams)) (hp : T.enableProjection = false) (hg : T.enableGuidance = false)
    (ext ext' : Ext Q4) (viz : Bool) (s : St Q4) (u : U) :
    (ttInUnits a b T).stepInternal ext' viz (acted (scale4 a) 1 s) u = acted (scale4 a) 1 (T.stepInternal ext viz s u) := by
  have ho : ∀ q, TT2d.checkObstacle (inUnits a b T.toParams) (scale4 a q) = TT2d.checkObstacle T.toParams q :=
    fun q => propext (checkObstacle_scale ha b T.toParams hs hs' q)
  have hh : ∀ q, TT2d.checkHitch (inUnits a b T.toParams) (scale4 a q) = TT2d.checkHitch T.toParams q := fun _ => rfl
  have hr : ∀ q, TT2d.getReward (inUnits a b T.toParams) (scale4 a T.xg) (scale4 a q) =
    TT2d.getReward T.toParams T.xg q := fun q => (reward_scale4 ha b T.toParams T.xg q).1
  have he := euler_scale4 ha hb T.toParams
  have hpen := prefPenalty_scale ha hb T.toParams
  have f1 : (inUnits a b T.toParams).enableProjection = false := hp
  have f2 : (inUnits a b T.toParams).enableGuidance = false := hg
  have f3 : (inUnits a b T.toParams).shieldCollision = T.shieldCollision := rfl
  have f4 : (inUnits a b T.toParams).shieldHitch = T.shieldHitch := rfl
  have f5 : (inUnits a b T.toParams).collisionPenalty = T.collisionPenalty := rfl
  have f6 : (inUnits a b T.toParams).hitchPenalty = T.hitchPenalty := rfl
  have f7 : (inUnits a b T.toParams).motionPreference = T.motionPreference := rfl
  have hT : (ttInUnits a b T).toParams = inUnits a b T.toParams := rfl
  have hX : (ttInUnits a b T).xg = scale4 a T.xg := rfl
  unfold TT2d.stepInternal
  simp only [hT, hX, f1, f2, f3, f4, f5, f6, f7, hp, hg, if_false, Bool.false_eq_true, acted, he, steer_one]
  unfold kinShieldedRollout kinNaive
  simp only [f3, f4, ho, hh, ← apply_ite (scale4 a)]
  by_cases h3 : (T.shieldCollision || T.shieldHitch) = true
  · simp only [h3, if_true, hr, hpen]
  · simp only [h3, if_false, hr, hpen, Bool.false_eq_true]

theorem bicycle_step_scale (ha : 0 < a) (hb : 0 < b) (T : Bicycle) (h1 : 1e-4 ≤ T.l1 + T.lf1 + T.lr)
    (h2 : 1e-4 ≤ T.tractorWidth) (h1' : 1e-4 ≤ a * (T.l1 + T.lf1 + T.lr)) (h2' : 1e-4 ≤ a * T.tractorWidth)
    (hp : T.enableProjection = false) (hg : T.enableGuidance = false)
    (ext ext' : Ext Q3) (viz : Bool) (s : St Q3) (u : U) :
    (bikeInUnits a b T).stepInternal ext' viz (acted (scale3 a) 1 s) u =
      acted (scale3 a) 1 (T.stepInternal ext viz s u) := by
  have ho : ∀ q, Bicycle.checkObstacle (inUnits a b T.toParams) (scale3 a q) = Bicycle.checkObstacle T.toParams q :=
    fun q => propext (bicycleObstacle_scale ha b T.toParams h1 h2 h1' h2' q)
  have hh : ∀ q, Bicycle.checkHitch (inUnits a b T.toParams) (scale3 a q) = Bicycle.checkHitch T.toParams q := fun _ => rfl
  have hr : ∀ q, Bicycle.getReward (inUnits a b T.toParams) (scale3 a T.xg) (scale3 a q) =
    Bicycle.getReward T.toParams T.xg q := fun q => (reward_scale3 ha b T.toParams T.xg q).1
  have he := euler_scale3 ha hb T.toParams
  have hpen := prefPenalty_scale ha hb T.toParams
  have f1 : (inUnits a b T.toParams).enableProjection = false := hp
  have f2 : (inUnits a b T.toParams).enableGuidance = false := hg
  have f3 : (inUnits a b T.toParams).shieldCollision = T.shieldCollision := rfl
  have f4 : (inUnits a b T.toParams).shieldHitch = T.shieldHitch := rfl
  have f5 : (inUnits a b T.toParams).collisionPenalty = T.collisionPenalty := rfl
  have f6 : (inUnits a b T.toParams).hitchPenalty = T.hitchPenalty := rfl
  have f7 : (inUnits a b T.toParams).motionPreference = T.motionPreference := rfl
  have hT : (bikeInUnits a b T).toParams = inUnits a b T.toParams := rfl
  have hX : (bikeInUnits a b T).xg = scale3 a T.xg := rfl
  unfold Bicycle.stepInternal
  simp only [hT, hX, f1, f2, f3, f4, f5, f6, f7, hp, hg, if_false, Bool.false_eq_true, acted, he, steer_one]
  unfold kinShieldedRollout kinNaive
  simp only [f3, f4, ho, hh, ← apply_ite (scale3 a)]
  by_cases h3 : (T.shieldCollision || T.shieldHitch) = true
  · simp only [h3, if_true, hr, hpen]
  · simp only [h3, if_false, hr, hpen, Bool.false_eq_true]

theorem evalXref_scale (ha : 0 < a) (b : ℝ) (P : Params) (rows : List (Q4 × Bool)) (pref : ℤ) (qs : List Q4) :
    Demo.evalXref (inUnits a b P) (rowsInUnits a rows) pref (qs.map (scale4 a)) = Demo.evalXref P rows pref qs := by
  unfold Demo.evalXref rowsInUnits
  rw [List.zipWith_map]
  congr 1
  congr 1
  funext q r
  have t : (inUnits a b P).refRewardThreshold = a * P.refRewardThreshold := rfl
  have e1 : ∀ p : Q4, ((scale4 a p).px, (scale4 a p).py) = scale2 a (p.px, p.py) := fun _ => rfl
  have e2 : ((Prod.map (scale4 a) id r).1.px, (Prod.map (scale4 a) id r).1.py) = scale2 a (r.1.px, r.1.py) := rfl
  unfold Demo.rowLogpd
  simp only [e1, e2, trailerPos_scale, t, ← apply_ite (scale2 a), norm2_scale ha, quadTerm_scale ha]
  rfl

theorem evalXrefBicycle_scale (ha : 0 < a) (b : ℝ) (P : Params) (rows : List (Q3 × Bool)) (pref : ℤ) (qs : List Q3) :
    Demo.evalXrefBicycle (inUnits a b P) (rows3InUnits a rows) pref (qs.map (scale3 a)) =
      Demo.evalXrefBicycle P rows pref qs := by
  unfold Demo.evalXrefBicycle rows3InUnits
  rw [List.zipWith_map]
  congr 1
  congr 1
  funext q r
  have t : (inUnits a b P).refRewardThreshold = a * P.refRewardThreshold := rfl
  have e1 : ∀ p : Q3, ((scale3 a p).px, (scale3 a p).py) = scale2 a (p.px, p.py) := fun _ => rfl
  have e2 : ((Prod.map (scale3 a) id r).1.px, (Prod.map (scale3 a) id r).1.py) = scale2 a (r.1.px, r.1.py) := rfl
  unfold Demo.rowLogpdBicycle
  simp only [e1, e2, t, norm2_scale ha, quadTerm_scale ha]
  rfl

/-! ## Plans -/

/-- **C90**, tractor-trailer without projection and guidance, sides of the bodies at least `1e-4` in both units: the plan
for the task in other units of length and time is the same plan, with the same reward, and visits the same states in the
new units (with or without a demonstration). -/
theorem C90_tt2d (ha : 0 < a) (hb : 0 < b) (T : TT2d) (hs : SidesOK T.toParams) (hs' : SidesOK (inUnits a b T.toParams))
    (hp : T.enableProjection = false) (hg : T.enableGuidance = false) (ext ext' : Ext Q4) (rows : List (Q4 × Bool))
    (cfg : Cfg) (normal : Key → ℕ → ℕ → ℕ → ℕ → U) :
    Spec.SamePlan (scale4 a) (runDiffusion (T.planEnv ext rows) normal cfg)
      (runDiffusion ((ttInUnits a b T).planEnv ext' (rowsInUnits a rows)) normal cfg) := by
  have hr := fun q => reward_scale4 ha b T.toParams T.xg q
  have hst := fun viz s u => tt2d_step_scale ha hb T hs hs' hp hg ext ext' viz s u
  have H : SameTask (T.planEnv ext rows) ((ttInUnits a b T).planEnv ext' (rowsInUnits a rows)) (scale4 a) 1
      (fun _ => True) cfg := by
    refine ⟨.inl rfl, ?_, ?_, ?_, fun q _ => (hr q).2, rfl, rfl, rfl, ?_⟩
    · intro k; exact ⟨by simp [TT2d.planEnv, TT2d.reset, acted, steer, ttInUnits], trivial⟩
    · intro s u _; rw [steer_one]; exact ⟨hst false s u, trivial⟩
    · intro _ s u _; rw [steer_one]; exact ⟨hst true s u, trivial⟩
    · intro _
      refine ⟨?_, fun qs _ => ?_⟩
      · show Demo.rewardOf _ _ _ _ = Demo.rewardOf _ _ _ _
        have : (rowsInUnits a rows).map Prod.fst = (rows.map Prod.fst).map (scale4 a) := by
          simp [rowsInUnits, List.map_map, Function.comp_def]
        rw [this]
        exact rewardOf_shift _ _ _ _ _ _ _ (fun q _ => (hr q).1) (fun q _ => (hr q).2)
      · exact evalXref_scale ha b T.toParams rows cfg.motionPreference qs
  exact samePlan_of_task H normal

/-- **C90**, bicycle. -/
theorem C90_bicycle (ha : 0 < a) (hb : 0 < b) (T : Bicycle) (h1 : 1e-4 ≤ T.l1 + T.lf1 + T.lr)
    (h2 : 1e-4 ≤ T.tractorWidth) (h1' : 1e-4 ≤ a * (T.l1 + T.lf1 + T.lr)) (h2' : 1e-4 ≤ a * T.tractorWidth)
    (hp : T.enableProjection = false) (hg : T.enableGuidance = false) (ext ext' : Ext Q3) (rows : List (Q3 × Bool))
    (cfg : Cfg) (normal : Key → ℕ → ℕ → ℕ → ℕ → U) :
    Spec.SamePlan (scale3 a) (runDiffusion (T.planEnv ext rows) normal cfg)
      (runDiffusion ((bikeInUnits a b T).planEnv ext' (rows3InUnits a rows)) normal cfg) := by
  have hr := fun q => reward_scale3 ha b T.toParams T.xg q
  have hst := fun viz s u => bicycle_step_scale ha hb T h1 h2 h1' h2' hp hg ext ext' viz s u
  have H : SameTask (T.planEnv ext rows) ((bikeInUnits a b T).planEnv ext' (rows3InUnits a rows)) (scale3 a) 1
      (fun _ => True) cfg := by
    refine ⟨.inl rfl, ?_, ?_, ?_, fun q _ => (hr q).2, rfl, rfl, rfl, ?_⟩
    · intro k; exact ⟨by simp [Bicycle.planEnv, Bicycle.reset, acted, steer, bikeInUnits], trivial⟩
    · intro s u _; rw [steer_one]; exact ⟨hst false s u, trivial⟩
    · intro _ s u _; rw [steer_one]; exact ⟨hst true s u, trivial⟩
    · intro _
      refine ⟨?_, fun qs _ => ?_⟩
      · show Demo.rewardOf _ _ _ _ = Demo.rewardOf _ _ _ _
        have : (rows3InUnits a rows).map Prod.fst = (rows.map Prod.fst).map (scale3 a) := by
          simp [rows3InUnits, List.map_map, Function.comp_def]
        rw [this]
        exact rewardOf_shift _ _ _ _ _ _ _ (fun q _ => (hr q).1) (fun q _ => (hr q).2)
      · exact evalXrefBicycle_scale ha b T.toParams rows cfg.motionPreference qs
  exact samePlan_of_task H normal

/-! ## Trains -/

theorem clampGet_scale (l : List ℝ) (i : ℕ) : clampGet (l.map (a * ·)) i = a * clampGet l i := by
  unfold clampGet
  rw [List.length_map]
  generalize min i (l.length - 1) = j
  rw [List.getD_eq_getElem?_getD, List.getD_eq_getElem?_getD, List.getElem?_map]
  cases l[j]? <;> simp

theorem carryAt_scale (ha : 0 < a) (_hb : 0 < b) (T : NTrailer) (x : QN) (v δ : ℝ) (i : ℕ) :
    (trainInUnits a b T).carryAt (scaleN a x) (a / b * v) δ i =
      ⟨(T.carryAt x v δ i).theta, (T.carryAt x v δ i).dot / b, a / b * (T.carryAt x v δ i).speed⟩ := by
  have hth : ∀ i, (trainInUnits a b T).theta (scaleN a x) i = T.theta x i := fun _ => rfl
  have l1 : (trainInUnits a b T).l1 = a * T.l1 := rfl
  have lh : (trainInUnits a b T).lh = a * T.lh := rfl
  have ll : (trainInUnits a b T).lengths = T.lengths.map (a * ·) := rfl
  have hv : ∀ v l : ℝ, a / b * v / (a * l) = v / l / b := by
    intro v l
    rw [show a / b * v = a * (v / b) by ring, mul_div_mul_left _ _ ha.ne']
    ring
  induction i with
  | zero =>
    unfold NTrailer.carryAt
    rw [l1, hv]
    congr 1
    ring
  | succ i ih =>
    rw [NTrailer.carryAt, NTrailer.carryAt, ih]
    unfold NTrailer.loopBody
    simp only [hth, l1, lh, ll, clampGet_scale, hv, mul_div_mul_left _ _ ha.ne']
    split_ifs
    · congr 1 <;> ring
    · congr 1 <;> ring

theorem euler_scaleN (ha : 0 < a) (hb : 0 < b) (T : NTrailer) (x : QN) (u : U) :
    (trainInUnits a b T).euler (scaleN a x) ((trainInUnits a b T).inputScaler u) =
      scaleN a (T.euler x (T.inputScaler u)) := by
  have hd : (inUnits a b T.toParams).deltaMax = T.deltaMax := rfl
  have hi : (trainInUnits a b T).inputScaler u = (a / b * (T.inputScaler u).1, (T.inputScaler u).2) := by
    show (u.1 * (a / b * T.vMax), u.2 * T.deltaMax) = (a / b * (u.1 * T.vMax), u.2 * T.deltaMax)
    exact Prod.ext (by simp only; ring) rfl
  rw [hi]
  generalize T.inputScaler u = w
  have hv : ∀ v l : ℝ, a / b * v / (a * l) = v / l / b := by
    intro v l
    rw [show a / b * v = a * (v / b) by ring, mul_div_mul_left _ _ ha.ne']
    ring
  have bb : b / b = 1 := div_self hb.ne'
  unfold NTrailer.euler NTrailer.dynamics QN.axpy
  simp only [carryAt_scale ha hb]
  have dt : (trainInUnits a b T).dt = b * T.dt := rfl
  have l1 : (trainInUnits a b T).l1 = a * T.l1 := rfl
  have hN : (trainInUnits a b T).N = T.N := rfl
  rw [dt, l1, hv, hN]
  unfold scaleN
  simp only
  congr 1
  · rw [show a * x.px + b * T.dt * (a / b * w.1 * cos x.th0) = a * x.px + b / b * (a * (T.dt * (w.1 * cos x.th0))) by ring, bb]
    ring
  · rw [show a * x.py + b * T.dt * (a / b * w.1 * sin x.th0) = a * x.py + b / b * (a * (T.dt * (w.1 * sin x.th0))) by ring, bb]
    ring
  · rw [show b * T.dt * (w.1 / T.l1 / b * tan w.2) = b / b * (T.dt * (w.1 / T.l1 * tan w.2)) by ring, bb]
    ring
  · rw [List.zipWith_map_right, List.zipWith_map_right]
    congr 1
    funext t i
    rw [show b * T.dt * ((T.carryAt x w.1 w.2 (i + 1)).dot / b) = b / b * (T.dt * (T.carryAt x w.1 w.2 (i + 1)).dot) by ring, bb]
    ring

theorem lastPosLoop_scale (T : NTrailer) (x : QN) (i : ℕ) :
    (trainInUnits a b T).lastPosLoop (scaleN a x) i = Prod.map (scale2 a) (scale2 a) (T.lastPosLoop x i) := by
  have hth : ∀ i, (trainInUnits a b T).theta (scaleN a x) i = T.theta x i := fun _ => rfl
  have h0 : (trainInUnits a b T).hitch0 (scaleN a x) = scale2 a (T.hitch0 x) := by
    show (a * x.px - a * T.lh * cos x.th0, a * x.py - a * T.lh * sin x.th0) = _
    exact Prod.ext (by simp only [scale2, NTrailer.hitch0]; ring) (by simp only [scale2, NTrailer.hitch0]; ring)
  have ll : (trainInUnits a b T).lengths = T.lengths.map (a * ·) := rfl
  have lf : (trainInUnits a b T).fronts = T.fronts.map (a * ·) := rfl
  induction i with
  | zero => unfold NTrailer.lastPosLoop; rw [h0]; rfl
  | succ i ih =>
    rw [NTrailer.lastPosLoop, NTrailer.lastPosLoop, ih]
    simp only [hth, ll, lf, clampGet_scale, Prod.map, scale2]
    refine Prod.ext (Prod.ext ?_ ?_) (Prod.ext ?_ ?_) <;> simp only <;> ring

theorem rectHitch_scale (T : NTrailer) (x : QN) (i : ℕ) :
    (trainInUnits a b T).rectHitch (scaleN a x) i = scale2 a (T.rectHitch x i) := by
  have hth : ∀ i, (trainInUnits a b T).theta (scaleN a x) i = T.theta x i := fun _ => rfl
  have ll : (trainInUnits a b T).lengths = T.lengths.map (a * ·) := rfl
  have lf : (trainInUnits a b T).fronts = T.fronts.map (a * ·) := rfl
  have lr : (trainInUnits a b T).rears = T.rears.map (a * ·) := rfl
  have lh : (trainInUnits a b T).lh = a * T.lh := rfl
  induction i with
  | zero => exact congrArg Prod.fst (lastPosLoop_scale (b := b) T x 0)
  | succ i ih =>
    rw [NTrailer.rectHitch, NTrailer.rectHitch, ih]
    simp only [hth, ll, lf, lr, lh, clampGet_scale, scale2]
    exact Prod.ext (by simp only; ring) (by simp only; ring)

theorem posDist_scaleN (ha : 0 < a) (T : NTrailer) (x : QN) :
    (trainInUnits a b T).posDist (scaleN a x) = a * T.posDist x := by
  have e1 : (trainInUnits a b T).dTractor (scaleN a x) = a * T.dTractor x := by
    unfold NTrailer.dTractor
    have e1 : (trainInUnits a b T).tractorPos (scaleN a x).px (scaleN a x).py (scaleN a x).th0 =
      scale2 a (T.tractorPos x.px x.py x.th0) := tractorPos_scale b T.toParams x.px x.py x.th0
    have e2 : ((trainInUnits a b T).xg.px, (trainInUnits a b T).xg.py) = scale2 a (T.xg.px, T.xg.py) := rfl
    rw [e1, e2, norm2_scale ha]
  have e2 : (trainInUnits a b T).dLast (scaleN a x) = a * T.dLast x := by
    unfold NTrailer.dLast NTrailer.lastTrailerPos
    have hx : (trainInUnits a b T).xg = scaleN a T.xg := rfl
    have hN : (trainInUnits a b T).N = T.N := rfl
    rw [hx, hN, lastPosLoop_scale, lastPosLoop_scale, Prod.map_snd, Prod.map_snd, norm2_scale ha]
  have e3 : (trainInUnits a b T).motionPreference = T.motionPreference := rfl
  unfold NTrailer.posDist
  rw [e1, e2, e3]
  split_ifs
  · rfl
  · rfl
  · rw [mul_min_of_nonneg _ _ ha.le]

theorem reward_scaleN (ha : 0 < a) (T : NTrailer) (x : QN) :
    (trainInUnits a b T).getReward (scaleN a x) = T.getReward x ∧
    (trainInUnits a b T).getTerminalReward (scaleN a x) = T.getTerminalReward x := by
  have t1 : (trainInUnits a b T).rewardThreshold = a * T.rewardThreshold := rfl
  have t2 : (trainInUnits a b T).terminalRewardThreshold = a * T.terminalRewardThreshold := rfl
  unfold NTrailer.getReward NTrailer.getTerminalReward
  rw [posDist_scaleN ha, t1, t2, posReward_scale ha, posReward_scale ha]
  exact ⟨rfl, rfl⟩

theorem checkObstacle_scaleN (ha : 0 < a) (T : NTrailer) (hs : Spec.TrainSidesOK T)
    (hs' : Spec.TrainSidesOK (trainInUnits a b T)) (x : QN) :
    (trainInUnits a b T).checkObstacle (scaleN a x) ↔ T.checkObstacle x := by
  have g1 : 1e-4 ≤ a * T.l1 + a * T.lf1 + a * T.lr := hs'.tractorLen
  have g2 : 1e-4 ≤ a * T.tractorWidth := hs'.tractorWid
  have g4 : 1e-4 ≤ a * T.trailerWidth := hs'.trailerWid
  obtain ⟨c1, e1, f1⟩ := tractorCorners_scale (a := a) b T.toParams x.px x.py x.th0
  obtain ⟨x1, y1⟩ := box_checks_scale ha c1 x.th0 (hl := (T.l1 + T.lf1 + T.lr) / 2) (hw := T.tractorWidth / 2)
    (by linarith [hs.tractorLen]) (by linarith [hs.tractorWid]) (by linarith) (by linarith)
  have hth : ∀ i, (trainInUnits a b T).theta (scaleN a x) i = T.theta x i := fun _ => rfl
  have ll : (trainInUnits a b T).lengths = T.lengths.map (a * ·) := rfl
  have lf : (trainInUnits a b T).fronts = T.fronts.map (a * ·) := rfl
  have lr : (trainInUnits a b T).rears = T.rears.map (a * ·) := rfl
  have lw : (trainInUnits a b T).trailerWidth = a * T.trailerWidth := rfl
  have hbox : ∀ i, ∃ c, T.trailerCorners x i = boxCorners c (T.theta x i)
        (0.5 * (clampGet T.fronts i + clampGet T.rears i)) (T.trailerWidth / 2) ∧
      (trainInUnits a b T).trailerCorners (scaleN a x) i = boxCorners (scale2 a c) (T.theta x i)
        (a * (0.5 * (clampGet T.fronts i + clampGet T.rears i))) (a * (T.trailerWidth / 2)) := by
    intro i
    refine ⟨_, rfl, ?_⟩
    unfold NTrailer.trailerCorners
    simp only [rectHitch_scale, hth, ll, lf, lr, lw, clampGet_scale]
    congr 1
    · exact Prod.ext (by simp only [scale2]; ring) (by simp only [scale2]; ring)
    · ring
    · ring
  have hb2 : ∀ i < T.N, (∀ k : Circle, rectCircle ((trainInUnits a b T).trailerCorners (scaleN a x) i)
        ((scaleCircle a k).x, (scaleCircle a k).y) (scaleCircle a k).r ↔
        rectCircle (T.trailerCorners x i) (k.x, k.y) k.r) ∧
      ∀ o : Rect, rectRect ((trainInUnits a b T).trailerCorners (scaleN a x) i) (scaleRect a o).corners ↔
        rectRect (T.trailerCorners x i) o.corners := by
    intro i hi
    obtain ⟨c, e, f⟩ := hbox i
    have g3 := hs'.trailerLen i hi
    rw [lf, lr, clampGet_scale, clampGet_scale] at g3
    rw [e, f]
    exact box_checks_scale ha c _ (by linarith [hs.trailerLen i hi]) (by linarith [hs.trailerWid])
      (by linarith) (by linarith)
  have hc : (trainInUnits a b T).circles = T.circles.map (scaleCircle a) := rfl
  have hr : (trainInUnits a b T).rects = T.rects.map (scaleRect a) := rfl
  have hN : (trainInUnits a b T).N = T.N := rfl
  have f1' : (trainInUnits a b T).tractorCorners (scaleN a x).px (scaleN a x).py (scaleN a x).th0 = _ := f1
  unfold NTrailer.checkObstacle NTrailer.allTrailerCorners
  simp only [f1', e1, hc, hr, hN, List.mem_map, List.mem_range, exists_exists_and_eq_and, x1, y1]
  refine or_congr (or_congr Iff.rfl ?_) (or_congr Iff.rfl ?_)
  · exact exists_congr fun i => and_congr_right fun hi => exists_congr fun c => and_congr_right fun _ => (hb2 i hi).1 c
  · exact exists_congr fun i => and_congr_right fun hi => exists_congr fun c => and_congr_right fun _ => (hb2 i hi).2 c

theorem ntrailer_step_scale (ha : 0 < a) (hb : 0 < b) (T : NTrailer) (hs : Spec.TrainSidesOK T)
    (hs' : Spec.TrainSidesOK (trainInUnits a b T)) (hp : T.enableProjection = false) (hg : T.enableGuidance = false)
    (guide guide' : QN → QN) (viz : Bool) (s : St QN) (u : U) :
    (trainInUnits a b T).stepTotal guide' viz (acted (scaleN a) 1 s) u =
      acted (scaleN a) 1 (T.stepTotal guide viz s u) := by
  have ho : ∀ q, (trainInUnits a b T).checkObstacle (scaleN a q) = T.checkObstacle q :=
    fun q => propext (checkObstacle_scaleN ha T hs hs' q)
  have hh : ∀ q, (trainInUnits a b T).checkHitch (scaleN a q) = T.checkHitch q := fun _ => rfl
  have hr : ∀ q, (trainInUnits a b T).getReward (scaleN a q) = T.getReward q := fun q => (reward_scaleN ha T q).1
  have he := euler_scaleN ha hb T
  have hpen : ∀ u, (trainInUnits a b T).prefPenaltyU ((trainInUnits a b T).inputScaler u) =
    T.prefPenaltyU (T.inputScaler u) := prefPenalty_scale ha hb T.toParams
  have f1 : (trainInUnits a b T).enableProjection = false := hp
  have f2 : (trainInUnits a b T).enableGuidance = false := hg
  have f3 : (trainInUnits a b T).shieldCollision = T.shieldCollision := rfl
  have f4 : (trainInUnits a b T).shieldHitch = T.shieldHitch := rfl
  have f5 : (trainInUnits a b T).collisionPenalty = T.collisionPenalty := rfl
  have f6 : (trainInUnits a b T).hitchPenalty = T.hitchPenalty := rfl
  have f7 : (trainInUnits a b T).motionPreference = T.motionPreference := rfl
  have f8 : (trainInUnits a b T).N = T.N := rfl
  have f9 : (scaleN a s.q).ths = s.q.ths := rfl
  unfold NTrailer.stepTotal NTrailer.stepInternal
  simp only [f1, f2, f3, f4, f5, f6, f7, f8, f9, hp, hg, if_false, Bool.false_eq_true, acted, he, hpen]
  by_cases hl : 3 + s.q.ths.length ≠ 3 + T.N
  · simp only [if_pos hl, steer_one]
  · simp only [if_neg hl, steer_one]
    unfold kinShieldedRollout kinNaive
    simp only [f3, f4, ho, hh, ← apply_ite (scaleN a)]
    by_cases h3 : (T.shieldCollision || T.shieldHitch) = true
    · simp only [h3, if_true, hr]; rfl
    · simp only [h3, if_false, hr, Bool.false_eq_true]; rfl

/-- **C90**, train of any number of trailers. -/
theorem C90_ntrailer (ha : 0 < a) (hb : 0 < b) (T : NTrailer) (hs : Spec.TrainSidesOK T)
    (hs' : Spec.TrainSidesOK (trainInUnits a b T)) (hp : T.enableProjection = false) (hg : T.enableGuidance = false)
    (guide guide' : QN → QN) (rows : List (Q4 × Bool)) (cfg : Cfg) (normal : Key → ℕ → ℕ → ℕ → ℕ → U) :
    Spec.SamePlan (scaleN a) (runDiffusion (T.planEnv guide rows) normal cfg)
      (runDiffusion ((trainInUnits a b T).planEnv guide' (rowsInUnits a rows)) normal cfg) := by
  have hr := fun q => reward_scaleN (b := b) ha T q
  have hst := fun viz s u => ntrailer_step_scale ha hb T hs hs' hp hg guide guide' viz s u
  have H : SameTask (T.planEnv guide rows) ((trainInUnits a b T).planEnv guide' (rowsInUnits a rows)) (scaleN a) 1
      (fun _ => True) cfg := by
    refine ⟨.inl rfl, ?_, ?_, ?_, fun q _ => (hr q).2, rfl, rfl, rfl, ?_⟩
    · intro k; exact ⟨by simp [NTrailer.planEnv, NTrailer.reset, acted, steer, trainInUnits], trivial⟩
    · intro s u _; rw [steer_one]; exact ⟨hst false s u, trivial⟩
    · intro _ s u _; rw [steer_one]; exact ⟨hst true s u, trivial⟩
    · intro _
      refine ⟨?_, fun qs _ => ?_⟩
      · show Demo.rewardOf _ _ _ _ = Demo.rewardOf _ _ _ _
        have : (rowsInUnits a rows).map (fun r => (⟨r.1.px, r.1.py, r.1.th1, [r.1.th2]⟩ : QN)) =
            (rows.map (fun r => (⟨r.1.px, r.1.py, r.1.th1, [r.1.th2]⟩ : QN))).map (scaleN a) := by
          simp [rowsInUnits, List.map_map, Function.comp_def, scaleN, scale4]
        rw [this]
        exact rewardOf_shift _ _ _ _ _ _ _ (fun q _ => (hr q).1) (fun q _ => (hr q).2)
      · show Demo.evalXrefN _ _ _ _ = Demo.evalXrefN _ _ _ _
        unfold Demo.evalXrefN rowsInUnits
        rw [List.zipWith_map]
        congr 1
        congr 1
        funext q r
        have t : (trainInUnits a b T).refRewardThreshold = a * T.refRewardThreshold := rfl
        have e1 : ((scaleN a q).px, (scaleN a q).py) = scale2 a (q.px, q.py) := rfl
        have e2 : ((Prod.map (scale4 a) id r).1.px, (Prod.map (scale4 a) id r).1.py) = scale2 a (r.1.px, r.1.py) := rfl
        have e3 : (trainInUnits a b T).lastTrailerPos (scaleN a q) = scale2 a (T.lastTrailerPos q) := by
          unfold NTrailer.lastTrailerPos
          have hN : (trainInUnits a b T).N = T.N := rfl
          rw [hN, lastPosLoop_scale]
          rfl
        unfold Demo.rowLogpd
        simp only [e1, e2, e3, t, ← apply_ite (scale2 a), norm2_scale ha, quadTerm_scale ha]
        rfl
  exact samePlan_of_task H normal

/-! ## Acceleration control -/

/-- Only the steps from states reached by the planner matter. -/
theorem plan_congr {Q : Type} (E : PlanEnv Q) (step' viz' : St Q → U → St Q) (I : St Q → Prop)
    (h0 : ∀ k, I (E.reset k)) (h1 : ∀ s u, I s → step' s u = E.step s u ∧ I (E.step s u))
    (h2 : ∀ s u, I s → viz' s u = E.stepViz s u ∧ I (E.stepViz s u)) (normal : Key → ℕ → ℕ → ℕ → ℕ → U) (cfg : Cfg) :
    runDiffusion { E with step := step', stepViz := viz' } normal cfg = runDiffusion E normal cfg := by
  have hscan : ∀ (f f' : St Q → U → St Q), (∀ s u, I s → f' s u = f s u ∧ I (f s u)) → ∀ (us : List U) (s : St Q), I s →
      scanStates f' s us = scanStates f s us ∧ finalState f' s us = finalState f s us := by
    intro f f' hf us
    induction us with
    | nil => intro s _; exact ⟨rfl, rfl⟩
    | cons u us ih =>
      intro s hs
      obtain ⟨e, hi⟩ := hf s u hs
      simp only [scanStates, finalState, e, (ih _ hi).1, (ih _ hi).2]
      exact ⟨trivial, trivial⟩
  have hro : ∀ k us, rolloutUsWithTerminal step' E.terminal E.terminalWeight (E.reset k) us =
      rolloutUsWithTerminal E.step E.terminal E.terminalWeight (E.reset k) us := by
    intro k us
    obtain ⟨e, hi⟩ := h1 (E.reset k) (0, 0) (h0 k)
    unfold rolloutUsWithTerminal warmState
    simp only [e, (hscan _ _ h1 us _ hi).1, (hscan _ _ h1 us _ hi).2]
  have hb : ∀ k Ys, evalBatch { E with step := step', stepViz := viz' } cfg (E.reset k) Ys = evalBatch E cfg (E.reset k) Ys := by
    intro k Ys
    unfold evalBatch
    simp only [funext (hro k)]
  have hone : ∀ S k, reverseOnce { E with step := step', stepViz := viz' } S normal cfg (E.reset k) =
      reverseOnce E S normal cfg (E.reset k) := by
    intro S k
    funext c
    unfold reverseOnce
    simp only [hb]
  unfold runDiffusion
  simp only [hone, hro]
  congr 2
  by_cases hg : cfg.enableGuidance = true
  · simp only [hg, if_true, (hscan _ _ h2 _ _ (h0 keyReset)).1]
  · simp only [hg, if_false, Bool.false_eq_true, (hscan _ _ h1 _ _ (h0 keyReset)).1]

theorem clip_scale_both {c : ℝ} (hc : 0 < c) (x lo hi : ℝ) : clip (c * x) (c * lo) (c * hi) = c * clip x lo hi := by
  unfold clip
  rw [mul_min_of_nonneg _ _ hc.le, mul_max_of_nonneg _ _ hc.le]

theorem euler_scale6 (ha : 0 < a) (hb : 0 < b) (T : Acc) (q : Q6) (u : U) :
    (accInUnits a b T).euler (scale6 a b q) ((accInUnits a b T).inputScaler u) (b * T.dt) =
      scale6 a b (T.euler q (T.inputScaler u) T.dt) := by
  have hab : 0 < a / b := div_pos ha hb
  have hd : (accInUnits a b T).deltaMax = T.deltaMax := rfl
  have hc : clip (a / b * q.v) (-(a / b * T.vMax)) (a / b * T.vMax) = a / b * clip q.v (-T.vMax) T.vMax := by
    rw [← mul_neg, clip_scale_both hab]
  have hb0 := hb.ne'
  have ha0 := ha.ne'
  unfold Acc.euler Acc.dynamics Q6.axpy Acc.inputScaler
  rw [hd]
  unfold accInUnits inUnits scale6
  simp only [hc]
  generalize clip q.v (-T.vMax) T.vMax = v
  generalize tan (clip q.delta (-T.deltaMax) T.deltaMax) = t
  have e2 : ∀ l : ℝ, a / b * v / (a * l) = v / l / b := by
    intro l
    rw [show a / b * v = a * (v / b) by ring, mul_div_mul_left _ _ ha0]
    ring
  rw [e2, e2, mul_div_mul_left _ _ ha0]
  ext
  · simp only; field_simp
  · simp only; field_simp
  · simp only
    rw [show b * T.dt * (v / T.l1 / b * t) = b / b * (T.dt * (v / T.l1 * t)) by ring, div_self hb0, one_mul]
  · simp only
    generalize sin (q.th1 - q.th2) - T.lh / T.l1 * cos (q.th1 - q.th2) * t = w
    rw [show b * T.dt * (v / T.l2 / b * w) = b / b * (T.dt * (v / T.l2 * w)) by ring, div_self hb0, one_mul]
  · simp only; field_simp
  · simp only; field_simp

theorem prefPenaltyV_scale (ha : 0 < a) {b : ℝ} (hb : 0 < b) (P : Params) (v : ℝ) :
    (inUnits a b P).prefPenaltyV (a / b * v) = P.prefPenaltyV v := by
  have hab : 0 < a / b := div_pos ha hb
  unfold Params.prefPenaltyV inUnits
  simp only
  have c1 : a / b * v < 0 ↔ v < 0 := by
    constructor
    · intro h; by_contra h'; push Not at h'; linarith [mul_nonneg hab.le h']
    · intro h; exact mul_neg_of_pos_of_neg hab h
  have c2 : a / b * v > 0 ↔ v > 0 := by
    constructor
    · intro h; by_contra h'; push Not at h'; linarith [mul_nonpos_of_nonneg_of_nonpos hab.le h']
    · intro h; exact mul_pos hab h
  have c3 : b / a * P.preferencePenaltyWeight * |a / b * v| = P.preferencePenaltyWeight * |v| := by
    rw [abs_mul, abs_of_pos hab]
    have := ha.ne'
    have := hb.ne'
    field_simp
  simp only [c1, c2, c3]

/-- One unshielded step, before any backup was ever recorded. -/
theorem acc_step_scale (ha : 0 < a) (hb : 0 < b) (T : Acc) (hs : SidesOK T.toParams)
    (hs' : SidesOK (inUnits a b T.toParams)) (hp : T.enableProjection = false) (hg : T.enableGuidance = false)
    (hc : T.shieldCollision = false) (hh : T.shieldHitch = false)
    (ext ext' : Ext Q6) (viz : Bool) (s : St Q6) (u : U) (hi : s.inBackup = false) :
    (accInUnits a b T).stepInternal ext' viz (acted (scale6 a b) 1 s) u =
      acted (scale6 a b) 1 (T.stepInternal ext viz s u) := by
  have ho : ∀ q, (accInUnits a b T).checkObstacle (scale6 a b q) = T.checkObstacle q :=
    fun q => propext (checkObstacle_scale ha b T.toParams hs hs' q.pose)
  have hk : ∀ q, (accInUnits a b T).checkHitch (scale6 a b q) = T.checkHitch q := fun _ => rfl
  have hr : ∀ q, (accInUnits a b T).getReward (scale6 a b q) = T.getReward q :=
    fun q => (reward_scale4 ha b T.toParams T.xg.pose q.pose).1
  have he := euler_scale6 ha hb T
  have hpen : ∀ q, (accInUnits a b T).prefPenaltyV (scale6 a b q).v = T.prefPenaltyV q.v :=
    fun q => prefPenaltyV_scale ha hb T.toParams q.v
  have f1 : (accInUnits a b T).enableProjection = false := hp
  have f2 : (accInUnits a b T).enableGuidance = false := hg
  have f3 : (accInUnits a b T).shieldCollision = false := hc
  have f4 : (accInUnits a b T).shieldHitch = false := hh
  have f5 : (accInUnits a b T).collisionPenalty = T.collisionPenalty := rfl
  have f6 : (accInUnits a b T).hitchPenalty = T.hitchPenalty := rfl
  have f7 : (accInUnits a b T).motionPreference = T.motionPreference := rfl
  have f8 : (accInUnits a b T).dt = b * T.dt := rfl
  unfold Acc.stepInternal Acc.naive
  simp only [f1, f2, f3, f4, f5, f6, f7, f8, hp, hg, hc, hh, hi, if_false, Bool.false_eq_true, acted, he, steer_one,
    Bool.or_self, Bool.false_and, ho, hk, hr, hpen]

/-- **C90**, acceleration control, partial: without the safety shields the acceleration-controlled tractor-trailer is
planned alike in any units. -/
theorem C90_acc_partial (ha : 0 < a) (hb : 0 < b) (T : Acc) (hs : SidesOK T.toParams)
    (hs' : SidesOK (inUnits a b T.toParams)) (hp : T.enableProjection = false) (hg : T.enableGuidance = false)
    (hc : T.shieldCollision = false) (hh : T.shieldHitch = false) (ext ext' : Ext Q6) (rows : List (Q4 × Bool))
    (cfg : Cfg) (normal : Key → ℕ → ℕ → ℕ → ℕ → U) :
    Spec.SamePlan (scale6 a b) (runDiffusion (T.planEnv ext rows) normal cfg)
      (runDiffusion ((accInUnits a b T).planEnv ext' (rowsInUnits a rows)) normal cfg) := by
  have hr := fun q : Q6 => reward_scale4 ha b T.toParams T.xg.pose q.pose
  have hst := fun viz (s : St Q6) u => acc_step_scale ha hb T hs hs' hp hg hc hh ext ext' viz { s with inBackup := false } u rfl
  let clr : (St Q6 → U → St Q6) → St Q6 → U → St Q6 := fun f s u => f { s with inBackup := false } u
  have hkeep : ∀ (T : Acc) (e : Ext Q6) (rw : List (Q4 × Bool)), runDiffusion { T.planEnv e rw with
      step := clr (T.planEnv e rw).step, stepViz := clr (T.planEnv e rw).stepViz } normal cfg =
      runDiffusion (T.planEnv e rw) normal cfg := by
    intro T e rw
    refine plan_congr _ _ _ (fun s => s.inBackup = false) (fun _ => rfl) ?_ ?_ normal cfg
    · intro s u h
      refine ⟨?_, h⟩
      show (T.planEnv e rw).step { s with inBackup := false } u = _
      rw [← h]
    · intro s u h
      refine ⟨?_, h⟩
      show (T.planEnv e rw).stepViz { s with inBackup := false } u = _
      rw [← h]
  rw [← hkeep T ext rows, ← hkeep (accInUnits a b T) ext' (rowsInUnits a rows)]
  refine samePlan_of_task (J := fun _ => True) ?_ normal
  refine ⟨.inl rfl, ?_, ?_, ?_, fun q _ => (hr q).2, rfl, rfl, rfl, ?_⟩
  · intro k; exact ⟨by simp [Acc.planEnv, Acc.reset, acted, steer, accInUnits], trivial⟩
  · intro s u _; rw [steer_one]; exact ⟨hst false s u, trivial⟩
  · intro _ s u _; rw [steer_one]; exact ⟨hst true s u, trivial⟩
  · intro _
    refine ⟨?_, fun qs _ => ?_⟩
    · show Demo.rewardOf _ _ _ _ = Demo.rewardOf _ _ _ _
      have : (rowsInUnits a rows).map Prod.fst = (rows.map Prod.fst).map (scale4 a) := by
        simp [rowsInUnits, List.map_map, Function.comp_def]
      rw [this]
      exact rewardOf_shift _ _ _ _ _ _ _ (fun q _ => (reward_scale4 ha b T.toParams T.xg.pose q).1)
        (fun q _ => (reward_scale4 ha b T.toParams T.xg.pose q).2)
    · have : (qs.map (scale6 a b)).map Q6.pose = (qs.map Q6.pose).map (scale4 a) := by
        rw [List.map_map, List.map_map]; rfl
      show Demo.evalXref _ _ _ _ = Demo.evalXref _ _ _ _
      rw [this]
      exact evalXref_scale ha b T.toParams rows cfg.motionPreference _

end

/-- Acceleration-controlled vehicle rolling at 5 cm/s in a jackknifed state, jackknife shield on. -/
noncomputable def slowAcc : Acc :=
  { Wit.acc with shieldHitch := true, enableProjection := false, enableGuidance := false
                 x0 := ⟨0, 0, π, 0, 0.05, 0⟩ }

theorem slowAcc_flag {c : ℝ} (T : Acc) (hl : T.shieldHitch = true) (hp : T.enableProjection = false)
    (hg : T.enableGuidance = false) (hd : T.deltaMax = slowAcc.deltaMax)
    (ext : Ext Q6) (s : St Q6) (hq : s.q = ⟨0, 0, π, 0, c, 0⟩) (hi : s.inBackup = false) :
    (T.step ext s (0, 0)).q.v = c + T.dt * (Acc.decelSign c c * T.aBackup c) := by
  have hdm : clip 0 (-T.deltaMax) T.deltaMax = 0 := by
    rw [hd]
    have : 0 < slowAcc.deltaMax := by
      norm_num [slowAcc, Wit.acc, Wit.params, Params.default, Params.deltaMax, deg2rad]
      positivity
    unfold clip
    rw [max_eq_left (by linarith), min_eq_left this.le]
  have hprop : T.euler s.q (T.inputScaler (0, 0)) T.dt =
      ⟨-(T.dt * clip c (-T.vMax) T.vMax), 0, π, 0, c, 0⟩ := by
    rw [hq]
    unfold Acc.euler Acc.dynamics Q6.axpy Acc.inputScaler
    simp [hdm]
  have hjack : T.checkHitch ⟨-(T.dt * clip c (-T.vMax) T.vMax), 0, π, 0, c, 0⟩ := by
    have hw : wrapPi (π - 0) = -π := by
      rw [show π - 0 = -π + 2 * π * ((1 : ℤ) : ℝ) by push_cast; ring, wrapPi_add_turns,
        wrapPi_of_mem le_rfl (by linarith [pi_pos])]
    unfold Acc.checkHitch TT2d.checkHitch Q6.pose
    simp only [hw, abs_neg, abs_of_pos pi_pos]
    unfold Params.phiMax deg2rad
    linarith [pi_pos]
  have hc := (T.checkSafety_self _).2 hjack
  have hz : clipU (0, 0) = (0, 0) := by simp [clipU, clip]
  unfold Acc.step Acc.stepInternal Acc.shieldedRollout
  simp only [hp, hg, hl, hi, hz, if_false, Bool.false_eq_true, Bool.or_true, if_true, hprop, hc, Bool.true_and]
  rw [hq]
  rfl

/-- **C90** does not hold for the shielded acceleration-controlled tractor-trailer: whether the backup controller brakes
is decided by a speed of 0.01 in whatever units are in use.  The same jackknifed vehicle rolling at 0.05 m/s is slowed
down when lengths are given in metres, and keeps its speed when they are given in tens of metres. -/
theorem C90_acc_refuted :
    ¬ ∀ (T : Acc) (a b : ℝ), 0 < a → 0 < b → T.enableProjection = false → T.enableGuidance = false →
      SidesOK T.toParams → SidesOK (inUnits a b T.toParams) → ∀ (ext ext' : Ext Q6) (s : St Q6) (u : U),
      (accInUnits a b T).step ext' (acted (scale6 a b) 1 s) u = acted (scale6 a b) 1 (T.step ext s u) := by
  intro h
  have ext : Ext Q6 := ⟨fun _ u => u, id⟩
  have h0 := congrArg (fun s => s.q.v) (h slowAcc (1 / 10) 1 (by norm_num) (by norm_num) rfl rfl
    (by constructor <;> norm_num [slowAcc, Wit.acc, Wit.params, Params.default])
    (by constructor <;> norm_num [slowAcc, Wit.acc, Wit.params, Params.default, inUnits, scaleCircle, scaleRect]) ext ext slowAcc.reset (0, 0))
  have e1 := slowAcc_flag (c := 0.05) slowAcc rfl rfl rfl rfl ext slowAcc.reset rfl rfl
  have e2 := slowAcc_flag (c := 0.005) (accInUnits (1 / 10) 1 slowAcc) rfl rfl rfl rfl ext
    (acted (scale6 (1 / 10) 1) 1 slowAcc.reset)
    (by ext <;> norm_num [acted, scale6, slowAcc, Acc.reset]) rfl
  have h1 : ((accInUnits (1 / 10) 1 slowAcc).step ext (acted (scale6 (1 / 10) 1) 1 slowAcc.reset) (0, 0)).q.v =
      1 / 10 / 1 * (slowAcc.step ext slowAcc.reset (0, 0)).q.v := h0
  rw [e1, e2] at h1
  have d1 : Acc.decelSign 0.05 0.05 = -1 := by unfold Acc.decelSign Acc.vThr; norm_num
  have d2 : Acc.decelSign 0.005 0.005 = 0 := by unfold Acc.decelSign Acc.vThr; norm_num
  have b1 : slowAcc.aBackup 0.05 = 0.25 := by
    unfold Acc.aBackup clip slowAcc Wit.acc Wit.params Params.default
    norm_num
  have b2 : slowAcc.dt = 0.2 := by norm_num [slowAcc, Wit.acc, Wit.params, Params.default]
  rw [d1, d2, b1, b2] at h1
  norm_num at h1

/-! ## Concrete tasks: model scale (lengths divided by ten, time by two) and centimetres -/

example (ext ext' : Ext Q4) (rows : List (Q4 × Bool)) (cfg : Cfg) (normal : Key → ℕ → ℕ → ℕ → ℕ → U) :=
  C90_tt2d (a := 1 / 10) (b := 1 / 2) (by norm_num) (by norm_num) Wit.tt
    (by constructor <;> norm_num [Wit.tt, Wit.params, Params.default])
    (by constructor <;> norm_num [Wit.tt, Wit.params, Params.default, inUnits, scaleCircle, scaleRect]) rfl rfl ext ext' rows cfg normal

example (ext ext' : Ext Q6) (rows : List (Q4 × Bool)) (cfg : Cfg) (normal : Key → ℕ → ℕ → ℕ → ℕ → U) :=
  C90_acc_partial (a := 100) (b := 1) (by norm_num) (by norm_num)
    { Wit.acc with shieldCollision := false, shieldHitch := false }
    (by constructor <;> norm_num [Wit.acc, Wit.params, Params.default])
    (by constructor <;> norm_num [Wit.acc, Wit.params, Params.default, inUnits, scaleCircle, scaleRect]) rfl rfl rfl rfl ext ext' rows cfg normal

example (ext ext' : Ext Q3) (rows : List (Q3 × Bool)) (cfg : Cfg) (normal : Key → ℕ → ℕ → ℕ → ℕ → U) :=
  C90_bicycle (a := 100) (b := 2) (by norm_num) (by norm_num) Wit.bike
    (by norm_num [Wit.bike, Wit.params, Params.default]) (by norm_num [Wit.bike, Wit.params, Params.default])
    (by norm_num [Wit.bike, Wit.params, Params.default]) (by norm_num [Wit.bike, Wit.params, Params.default])
    rfl rfl ext ext' rows cfg normal

example (guide guide' : QN → QN) (rows : List (Q4 × Bool)) (cfg : Cfg) (normal : Key → ℕ → ℕ → ℕ → ℕ → U) :=
  C90_ntrailer (a := 100) (b := 2) (by norm_num) (by norm_num) Wit.train
    ⟨by norm_num [Wit.train, Wit.params, Params.default], by norm_num [Wit.train, Wit.params, Params.default],
      fun i hi => by
        have : i < 2 := hi
        interval_cases i <;> norm_num [Wit.train, Wit.params, Params.default, clampGet],
      by norm_num [Wit.train, Wit.params, Params.default]⟩
    ⟨by norm_num [Wit.train, Wit.params, Params.default, trainInUnits, inUnits],
      by norm_num [Wit.train, Wit.params, Params.default, trainInUnits, inUnits],
      fun i hi => by
        have : i < 2 := hi
        interval_cases i <;> norm_num [Wit.train, Wit.params, Params.default, clampGet, trainInUnits, inUnits],
      by norm_num [Wit.train, Wit.params, Params.default, trainInUnits, inUnits]⟩ rfl rfl guide guide' rows cfg normal

end Mbd
