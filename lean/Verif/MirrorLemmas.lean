import Verif.PropsFrame

/-!
# Mirror images: geometry, rewards and motion
-/

namespace Spec

open Mbd

/-- Mirror image of a point in the x axis. -/
def flip (p : Pt) : Pt := (p.1, -p.2)

/-- Mirror image of a bicycle pose. -/
def flip3 (q : Q3) : Q3 := ⟨q.px, -q.py, -q.th1⟩

/-- Mirror image of a tractor-trailer pose. -/
def flip4 (q : Q4) : Q4 := ⟨q.px, -q.py, -q.th1, -q.th2⟩

/-- The same with speed (unchanged) and steering angle (opposite). -/
def flip6 (q : Q6) : Q6 := ⟨q.px, -q.py, -q.th1, -q.th2, q.v, -q.delta⟩

/-- Mirror image of a train. -/
def flipN (q : QN) : QN := ⟨q.px, -q.py, -q.th0, q.ths.map fun a => -a⟩

/-- Mirror images of the obstacles. -/
def flipObstacles (P : Params) : Params :=
  { P with
    circles := P.circles.map fun c => ⟨c.x, -c.y, c.r⟩
    rects := P.rects.map fun o => ⟨o.x, -o.y, o.w, o.h, -o.ang⟩ }

end Spec

namespace Mbd

open Real Classical _root_.Spec

/-! ## Geometry -/

theorem abs_wrapPi_neg (a : ℝ) (k : ℤ) : |wrapPi (-a + 2 * π * k)| = |wrapPi a| := by
  apply le_antisymm
  · obtain ⟨m, hm⟩ := wrapPi_congr a
    have h := abs_wrapPi_le_turns (-a + 2 * π * k) (-k - m)
    rw [show -a + 2 * π * k + 2 * π * ((-k - m : ℤ) : ℝ) = -(wrapPi a) by rw [hm]; push_cast; ring, abs_neg] at h
    exact h
  · obtain ⟨m, hm⟩ := wrapPi_congr (-a + 2 * π * k)
    have h := abs_wrapPi_le_turns a (-k - m)
    rw [show a + 2 * π * ((-k - m : ℤ) : ℝ) = -(wrapPi (-a + 2 * π * k)) by rw [hm]; push_cast; ring, abs_neg] at h
    exact h

theorem abs_wrapPi_neg' (a : ℝ) : |wrapPi (-a)| = |wrapPi a| := by
  simpa using abs_wrapPi_neg a 0

/-- The mirrored corner array: the corners in the order in which the mirrored box lists them. -/
def Corners.flip (k : Corners) : Corners := ⟨Spec.flip k.c1, Spec.flip k.c0, Spec.flip k.c3, Spec.flip k.c2⟩

theorem boxCorners_flip (c : V2) (ang hl hw : ℝ) :
    boxCorners (Spec.flip c) (-ang) hl hw = (boxCorners c ang hl hw).flip := by
  unfold Corners.flip boxCorners placePoint Spec.flip
  simp only [cos_neg, sin_neg]
  congr 1 <;> exact Prod.ext (by simp only; ring) (by simp only; ring)

theorem edgeDistSq_flip (s e c : V2) : edgeDistSq (Spec.flip s) (Spec.flip e) (Spec.flip c) = edgeDistSq s e c := by
  have h : ∀ a b : ℝ, (-a - -b) ^ 2 = (a - b) ^ 2 := fun a b => by ring
  have h2 : ∀ a b c : ℝ, (-a - -b) * (-c - -b) = (a - b) * (c - b) := fun a b c => by ring
  unfold edgeDistSq Spec.flip
  simp only [h, h2]
  set t := clip _ _ _
  ring

theorem edgeDistSq_rev (s e c : V2) (h : 1e-8 ≤ (e.1 - s.1) ^ 2 + (e.2 - s.2) ^ 2) :
    edgeDistSq e s c = edgeDistSq s e c := by
  have h' : 1e-8 ≤ (s.1 - e.1) ^ 2 + (s.2 - e.2) ^ 2 := by
    rw [show (s.1 - e.1) ^ 2 + (s.2 - e.2) ^ 2 = (e.1 - s.1) ^ 2 + (e.2 - s.2) ^ 2 by ring]; exact h
  unfold edgeDistSq
  simp only [if_neg (not_lt.2 h), if_neg (not_lt.2 h')]
  have hL : (s.1 - e.1) ^ 2 + (s.2 - e.2) ^ 2 = (e.1 - s.1) ^ 2 + (e.2 - s.2) ^ 2 := by ring
  rw [hL]
  set L := (e.1 - s.1) ^ 2 + (e.2 - s.2) ^ 2
  have hLp : 0 < L := by linarith [show (0 : ℝ) < 1e-8 by norm_num]
  have hx : ((c.1 - e.1) * (s.1 - e.1) + (c.2 - e.2) * (s.2 - e.2)) / L
      = 1 - ((c.1 - s.1) * (e.1 - s.1) + (c.2 - s.2) * (e.2 - s.2)) / L := by
    rw [eq_sub_iff_add_eq, ← add_div, div_eq_one_iff_eq hLp.ne']
    simp only [L]; ring
  rw [hx]
  set x := ((c.1 - s.1) * (e.1 - s.1) + (c.2 - s.2) * (e.2 - s.2)) / L
  have hc : clip (1 - x) 0 1 = 1 - clip x 0 1 := by
    unfold clip
    rcases le_total x 0 with h0 | h0
    · rw [max_eq_left (by linarith), min_eq_right (by linarith), max_eq_right h0, min_eq_left (by norm_num)]; ring
    · rcases le_total x 1 with h1 | h1
      · rw [max_eq_left (by linarith), min_eq_left (by linarith), max_eq_left h0, min_eq_left h1]
      · rw [max_eq_right (by linarith), min_eq_left (by norm_num), max_eq_left h0, min_eq_right h1]; ring
  rw [hc]
  set t := clip x 0 1
  ring

/-- Box with sides of at least `1e-4`. -/
theorem rectCircle_flip (c : V2) (ang : ℝ) {hl hw : ℝ} (h1 : 1e-4 ≤ 2 * hl) (h2 : 1e-4 ≤ 2 * hw) (p : V2) (r : ℝ) :
    rectCircle (boxCorners (Spec.flip c) (-ang) hl hw) (Spec.flip p) r ↔ rectCircle (boxCorners c ang hl hw) p r := by
  have hcs := cos_sq_add_sin_sq ang
  have q1 : (1e-8 : ℝ) ≤ 4 * hl ^ 2 := by nlinarith
  have q2 : (1e-8 : ℝ) ≤ 4 * hw ^ 2 := by nlinarith
  rw [boxCorners_flip]
  unfold rectCircle Corners.flip
  simp only [edgeDistSq_flip]
  unfold boxCorners
  simp only
  have s1 : ∀ x y : ℝ, (placePoint c ang (x, y)).1 = x * cos ang - y * sin ang + c.1 := fun _ _ => rfl
  have s2 : ∀ x y : ℝ, (placePoint c ang (x, y)).2 = x * sin ang + y * cos ang + c.2 := fun _ _ => rfl
  rw [edgeDistSq_rev (placePoint c ang (-hl, -hw)) (placePoint c ang (-hl, hw)) p (by
      rw [s1, s1, s2, s2]
      linarith [show (-hl * cos ang - hw * sin ang + c.1 - (-hl * cos ang - -hw * sin ang + c.1)) ^ 2
        + (-hl * sin ang + hw * cos ang + c.2 - (-hl * sin ang + -hw * cos ang + c.2)) ^ 2 = 4 * hw ^ 2 by
          linear_combination 4 * hw ^ 2 * hcs]),
    edgeDistSq_rev (placePoint c ang (hl, -hw)) (placePoint c ang (-hl, -hw)) p (by
      rw [s1, s1, s2, s2]
      linarith [show (-hl * cos ang - -hw * sin ang + c.1 - (hl * cos ang - -hw * sin ang + c.1)) ^ 2
        + (-hl * sin ang + -hw * cos ang + c.2 - (hl * sin ang + -hw * cos ang + c.2)) ^ 2 = 4 * hl ^ 2 by
          linear_combination 4 * hl ^ 2 * hcs]),
    edgeDistSq_rev (placePoint c ang (hl, hw)) (placePoint c ang (hl, -hw)) p (by
      rw [s1, s1, s2, s2]
      linarith [show (hl * cos ang - -hw * sin ang + c.1 - (hl * cos ang - hw * sin ang + c.1)) ^ 2
        + (hl * sin ang + -hw * cos ang + c.2 - (hl * sin ang + hw * cos ang + c.2)) ^ 2 = 4 * hw ^ 2 by
          linear_combination 4 * hw ^ 2 * hcs]),
    edgeDistSq_rev (placePoint c ang (-hl, hw)) (placePoint c ang (hl, hw)) p (by
      rw [s1, s1, s2, s2]
      linarith [show (hl * cos ang - hw * sin ang + c.1 - (-hl * cos ang - hw * sin ang + c.1)) ^ 2
        + (hl * sin ang + hw * cos ang + c.2 - (-hl * sin ang + hw * cos ang + c.2)) ^ 2 = 4 * hl ^ 2 by
          linear_combination 4 * hl ^ 2 * hcs])]
  set a := edgeDistSq (placePoint c ang (-hl, -hw)) (placePoint c ang (-hl, hw)) p
  set b := edgeDistSq (placePoint c ang (-hl, hw)) (placePoint c ang (hl, hw)) p
  set e := edgeDistSq (placePoint c ang (hl, hw)) (placePoint c ang (hl, -hw)) p
  set f := edgeDistSq (placePoint c ang (hl, -hw)) (placePoint c ang (-hl, -hw)) p
  simp only [min_le_iff]
  tauto

theorem edgeNormal_flip (s e : V2) : edgeNormal (Spec.flip e) (Spec.flip s) = Spec.flip (edgeNormal s e) := by
  have hn : norm2 (-(-s.2 - -e.2), s.1 - e.1) = norm2 (-(e.2 - s.2), e.1 - s.1) := by
    unfold norm2; congr 1; simp only; ring
  unfold edgeNormal Spec.flip
  simp only [hn]
  exact Prod.ext (by simp only; ring) (by simp only; ring)

theorem edgeNormal_rev (s e : V2) : edgeNormal e s = (-(edgeNormal s e).1, -(edgeNormal s e).2) := by
  have hn : norm2 (-(s.2 - e.2), s.1 - e.1) = norm2 (-(e.2 - s.2), e.1 - s.1) := by
    unfold norm2; congr 1; simp only; ring
  unfold edgeNormal
  simp only [hn]
  exact Prod.ext (by simp only; ring) (by simp only; ring)

theorem edgeNormal_congr {s e s' e' : V2} (h1 : e.1 - s.1 = e'.1 - s'.1) (h2 : e.2 - s.2 = e'.2 - s'.2) :
    edgeNormal s e = edgeNormal s' e' := by
  unfold edgeNormal; simp only [h1, h2]

theorem dot_flip (p n : V2) : dot (Spec.flip p) (Spec.flip n) = dot p n := by
  unfold dot Spec.flip; simp only; ring

theorem proj_flip (k : Corners) (n : V2) :
    projMin k.flip (Spec.flip n) = projMin k n ∧ projMax k.flip (Spec.flip n) = projMax k n := by
  unfold projMin projMax Corners.flip
  simp only [dot_flip]
  constructor
  · rw [min_comm (dot k.c1 n), min_comm (dot k.c3 n)]
  · rw [max_comm (dot k.c1 n), max_comm (dot k.c3 n)]

theorem axisSeparated_flip (k₁ k₂ : Corners) (n : V2) :
    axisSeparated k₁.flip k₂.flip (Spec.flip n) ↔ axisSeparated k₁ k₂ n := by
  unfold axisSeparated
  rw [(proj_flip k₁ n).1, (proj_flip k₁ n).2, (proj_flip k₂ n).1, (proj_flip k₂ n).2]

theorem axisSeparated_neg (k₁ k₂ : Corners) (n : V2) :
    axisSeparated k₁ k₂ (-n.1, -n.2) ↔ axisSeparated k₁ k₂ n := by
  have hd : ∀ p : V2, dot p (-n.1, -n.2) = -dot p n := by intro p; unfold dot; simp only; ring
  have hm : ∀ k : Corners, projMin k (-n.1, -n.2) = -projMax k n := by
    intro k; unfold projMin projMax; simp only [hd, min_neg_neg]
  have hx : ∀ k : Corners, projMax k (-n.1, -n.2) = -projMin k n := by
    intro k; unfold projMin projMax; simp only [hd, max_neg_neg]
  unfold axisSeparated
  rw [hm, hm, hx, hx, neg_lt_neg_iff, neg_lt_neg_iff]
  exact or_comm

theorem boxNormals_flip (c : V2) (ang hl hw : ℝ) :
    let k := boxCorners c ang hl hw
    edgeNormal k.flip.c0 k.flip.c1 = Spec.flip (edgeNormal k.c0 k.c1) ∧
    edgeNormal k.flip.c1 k.flip.c2 = Spec.flip (-(edgeNormal k.c1 k.c2).1, -(edgeNormal k.c1 k.c2).2) := by
  intro k
  refine ⟨edgeNormal_flip _ _, ?_⟩
  have h : edgeNormal k.c3 k.c0 = edgeNormal k.c2 k.c1 := by
    apply edgeNormal_congr <;> simp only [k, boxCorners, placePoint] <;> ring
  show edgeNormal (Spec.flip k.c0) (Spec.flip k.c3) = _
  rw [edgeNormal_flip, h, edgeNormal_rev]

theorem rectRect_flip (c₁ c₂ : V2) (a₁ a₂ l₁ w₁ l₂ w₂ : ℝ) :
    rectRect (boxCorners (Spec.flip c₁) (-a₁) l₁ w₁) (boxCorners (Spec.flip c₂) (-a₂) l₂ w₂) ↔
      rectRect (boxCorners c₁ a₁ l₁ w₁) (boxCorners c₂ a₂ l₂ w₂) := by
  rw [boxCorners_flip, boxCorners_flip]
  unfold rectRect
  rw [(boxNormals_flip c₁ a₁ l₁ w₁).1, (boxNormals_flip c₁ a₁ l₁ w₁).2, (boxNormals_flip c₂ a₂ l₂ w₂).1,
    (boxNormals_flip c₂ a₂ l₂ w₂).2]
  simp only [axisSeparated_flip, axisSeparated_neg]

/-! ## Checks -/

theorem tractorCorners_flip (P : Params) (px py th : ℝ) : ∃ c,
    P.tractorCorners px py th = boxCorners c th ((P.l1 + P.lf1 + P.lr) / 2) (P.tractorWidth / 2) ∧
    (flipObstacles P).tractorCorners px (-py) (-th)
      = boxCorners (Spec.flip c) (-th) ((P.l1 + P.lf1 + P.lr) / 2) (P.tractorWidth / 2) := by
  refine ⟨_, rfl, ?_⟩
  unfold Params.tractorCorners Spec.flip flipObstacles
  simp only [cos_neg, sin_neg]
  congr 1
  exact Prod.ext (by simp only) (by simp only; ring)

theorem trailerCorners_flip (P : Params) (q : Q4) : ∃ c,
    TT2d.trailerCorners P q = boxCorners c q.th2 ((P.lf2 + P.lr2) / 2) (P.trailerWidth / 2) ∧
    TT2d.trailerCorners (flipObstacles P) (flip4 q)
      = boxCorners (Spec.flip c) (-q.th2) ((P.lf2 + P.lr2) / 2) (P.trailerWidth / 2) := by
  refine ⟨_, rfl, ?_⟩
  unfold TT2d.trailerCorners TT2d.hitchPoint Spec.flip flipObstacles flip4
  simp only [cos_neg, sin_neg]
  congr 1
  exact Prod.ext (by simp only) (by simp only; ring)

theorem rectObs_flip (c : V2) (a l w : ℝ) (o : Rect) :
    rectRect (boxCorners (Spec.flip c) (-a) l w) (Rect.corners ⟨o.x, -o.y, o.w, o.h, -o.ang⟩) ↔
      rectRect (boxCorners c a l w) o.corners := rectRect_flip c (o.x, o.y) a o.ang l w _ _

theorem tractorChecks_flip (P : Params) (h1 : 1e-4 ≤ P.l1 + P.lf1 + P.lr) (h2 : 1e-4 ≤ P.tractorWidth) (px py th : ℝ) :
    (∀ c : Circle, rectCircle ((flipObstacles P).tractorCorners px (-py) (-th)) (c.x, -c.y) c.r ↔
      rectCircle (P.tractorCorners px py th) (c.x, c.y) c.r) ∧
    ∀ o : Rect, rectRect ((flipObstacles P).tractorCorners px (-py) (-th)) (Rect.corners ⟨o.x, -o.y, o.w, o.h, -o.ang⟩) ↔
      rectRect (P.tractorCorners px py th) o.corners := by
  obtain ⟨c, e1, e2⟩ := tractorCorners_flip P px py th
  rw [e1, e2]
  exact ⟨fun k => rectCircle_flip c th (by linarith) (by linarith) (k.x, k.y) k.r, fun o => rectObs_flip c th _ _ o⟩

theorem checkObstacle_flip (P : Params) (hP : SidesOK P) (q : Q4) :
    TT2d.checkObstacle (flipObstacles P) (flip4 q) ↔ TT2d.checkObstacle P q := by
  obtain ⟨a1, a2⟩ := tractorChecks_flip P hP.tractorLen hP.tractorWid q.px q.py q.th1
  have b1 : ∀ c : Circle, rectCircle (TT2d.trailerCorners (flipObstacles P) (flip4 q)) (c.x, -c.y) c.r ↔
      rectCircle (TT2d.trailerCorners P q) (c.x, c.y) c.r := by
    obtain ⟨c, e1, e2⟩ := trailerCorners_flip P q
    rw [e1, e2]
    exact fun k => rectCircle_flip c _ (by linarith [hP.trailerLen]) (by linarith [hP.trailerWid]) (k.x, k.y) k.r
  have b2 : ∀ o : Rect, rectRect (TT2d.trailerCorners (flipObstacles P) (flip4 q))
        (Rect.corners ⟨o.x, -o.y, o.w, o.h, -o.ang⟩) ↔ rectRect (TT2d.trailerCorners P q) o.corners := by
    obtain ⟨c, e1, e2⟩ := trailerCorners_flip P q
    rw [e1, e2]
    exact fun o => rectObs_flip c _ _ _ o
  unfold TT2d.checkObstacle
  have hc : (flipObstacles P).circles = P.circles.map fun c => ⟨c.x, -c.y, c.r⟩ := rfl
  have hr : (flipObstacles P).rects = P.rects.map fun o => ⟨o.x, -o.y, o.w, o.h, -o.ang⟩ := rfl
  simp only [hc, hr, List.mem_map, exists_exists_and_eq_and]
  have e : ∀ q : Q4, ((flip4 q).px, (flip4 q).py, (flip4 q).th1) = (q.px, -q.py, -q.th1) := fun _ => rfl
  show ((∃ c ∈ P.circles, rectCircle ((flipObstacles P).tractorCorners q.px (-q.py) (-q.th1)) (c.x, -c.y) c.r ∨ _) ∨
    ∃ o ∈ P.rects, rectRect ((flipObstacles P).tractorCorners q.px (-q.py) (-q.th1)) _ ∨ _) ↔ _
  simp only [a1, a2, b1, b2]

theorem checkHitch_flip (P : Params) (q : Q4) :
    TT2d.checkHitch (flipObstacles P) (flip4 q) ↔ TT2d.checkHitch P q := by
  unfold TT2d.checkHitch flip4
  simp only
  rw [show -q.th1 - -q.th2 = -(q.th1 - q.th2) by ring, abs_wrapPi_neg']
  rfl

theorem bicycleObstacle_flip (P : Params) (h1 : 1e-4 ≤ P.l1 + P.lf1 + P.lr) (h2 : 1e-4 ≤ P.tractorWidth) (q : Q3) :
    Bicycle.checkObstacle (flipObstacles P) (flip3 q) ↔ Bicycle.checkObstacle P q := by
  obtain ⟨a1, a2⟩ := tractorChecks_flip P h1 h2 q.px q.py q.th1
  unfold Bicycle.checkObstacle
  have hc : (flipObstacles P).circles = P.circles.map fun c => ⟨c.x, -c.y, c.r⟩ := rfl
  have hr : (flipObstacles P).rects = P.rects.map fun o => ⟨o.x, -o.y, o.w, o.h, -o.ang⟩ := rfl
  simp only [hc, hr, List.mem_map, exists_exists_and_eq_and]
  show ((∃ c ∈ P.circles, rectCircle ((flipObstacles P).tractorCorners q.px (-q.py) (-q.th1)) (c.x, -c.y) c.r) ∨
    ∃ o ∈ P.rects, rectRect ((flipObstacles P).tractorCorners q.px (-q.py) (-q.th1)) _) ↔ _
  simp only [a1, a2]

/-! ## Rewards and motion -/

theorem norm2_flip (p q : V2) : norm2 (Spec.flip p - Spec.flip q) = norm2 (p - q) := by
  unfold norm2 Spec.flip
  congr 1
  simp only [Prod.fst_sub, Prod.snd_sub]
  ring

theorem tractorPos_flip (P : Params) (px py th : ℝ) : P.tractorPos px (-py) (-th) = Spec.flip (P.tractorPos px py th) := by
  unfold Params.tractorPos Spec.flip
  rw [cos_neg, sin_neg]
  exact Prod.ext rfl (by simp only; ring)

theorem trailerPos_flip (P : Params) (q : Q4) : TT2d.trailerPos P (flip4 q) = Spec.flip (TT2d.trailerPos P q) := by
  unfold TT2d.trailerPos TT2d.hitchPoint flip4 Spec.flip
  simp only [cos_neg, sin_neg]
  exact Prod.ext rfl (by simp only; ring)

theorem posDist_flip (P : Params) (xg q : Q4) :
    TT2d.posDist (flipObstacles P) (flip4 xg) (flip4 q) = TT2d.posDist P xg q := by
  have e : TT2d.posDist (flipObstacles P) (flip4 xg) (flip4 q) = TT2d.posDist P (flip4 xg) (flip4 q) := rfl
  rw [e]
  unfold TT2d.posDist
  simp only
  rw [trailerPos_flip, trailerPos_flip, norm2_flip]
  have : P.tractorPos (flip4 q).px (flip4 q).py (flip4 q).th1 - ((flip4 xg).px, (flip4 xg).py)
      = Spec.flip (P.tractorPos q.px q.py q.th1) - Spec.flip (xg.px, xg.py) := by
    rw [← tractorPos_flip]; rfl
  rw [this, norm2_flip]

theorem wrap_flip (a b : ℝ) : |wrapPi (-a - -b)| = |wrapPi (a - b)| ∧
    |wrapPi (-a - -b - π)| = |wrapPi (a - b - π)| := by
  constructor
  · rw [show -a - -b = -(a - b) by ring, abs_wrapPi_neg']
  · rw [show -a - -b - π = -(a - b - π) + 2 * π * ((-1 : ℤ) : ℝ) by push_cast; ring, abs_wrapPi_neg]

theorem headingErr_flip (P : Params) (xg q : Q4) :
    |(TT2d.headingErr (flipObstacles P) (flip4 xg) (flip4 q)).1| = |(TT2d.headingErr P xg q).1| ∧
    |(TT2d.headingErr (flipObstacles P) (flip4 xg) (flip4 q)).2| = |(TT2d.headingErr P xg q).2| := by
  have e : TT2d.headingErr (flipObstacles P) (flip4 xg) (flip4 q) = TT2d.headingErr P (flip4 xg) (flip4 q) := rfl
  rw [e]
  unfold TT2d.headingErr flip4
  simp only [(wrap_flip q.th1 xg.th1).1, (wrap_flip q.th1 xg.th1).2, (wrap_flip q.th2 xg.th1).1,
    (wrap_flip q.th2 xg.th1).2]
  split_ifs <;> simp only [(wrap_flip q.th1 xg.th1).1, (wrap_flip q.th1 xg.th1).2, (wrap_flip q.th2 xg.th1).1,
    (wrap_flip q.th2 xg.th1).2, and_self]

theorem reward_flip4 (P : Params) (xg q : Q4) :
    TT2d.getReward (flipObstacles P) (flip4 xg) (flip4 q) = TT2d.getReward P xg q ∧
    TT2d.getTerminalReward (flipObstacles P) (flip4 xg) (flip4 q) = TT2d.getTerminalReward P xg q := by
  constructor
  · unfold TT2d.getReward
    simp only [posDist_flip, (headingErr_flip P xg q).1, (headingErr_flip P xg q).2]
    have : |wrapPi ((flip4 q).th1 - (flip4 q).th2)| = |wrapPi (q.th1 - q.th2)| := (wrap_flip q.th1 q.th2).1
    rw [this]
    rfl
  · unfold TT2d.getTerminalReward
    rw [posDist_flip]
    rfl

theorem euler_flip4 (P : Params) (q : Q4) (u : U) :
    TT2d.euler (flipObstacles P) (flip4 q) (steer (-1) u) = flip4 (TT2d.euler P q u) := by
  have e : TT2d.euler (flipObstacles P) (flip4 q) (steer (-1) u) = TT2d.euler P (flip4 q) (steer (-1) u) := rfl
  have h1 : ∀ a b : ℝ, -a - -b = -(a - b) := fun a b => by ring
  rw [e]
  unfold TT2d.euler TT2d.dynamics Q4.axpy flip4 steer
  simp only [h1, cos_neg, sin_neg, neg_mul, one_mul, tan_neg]
  apply Q4.ext <;> simp only <;> ring

theorem posDist_flip3 (P : Params) (xg q : Q3) :
    Bicycle.posDist (flipObstacles P) (flip3 xg) (flip3 q) = Bicycle.posDist P xg q := by
  have e : Bicycle.posDist (flipObstacles P) (flip3 xg) (flip3 q) = Bicycle.posDist P (flip3 xg) (flip3 q) := rfl
  rw [e]
  unfold Bicycle.posDist
  have : P.tractorPos (flip3 q).px (flip3 q).py (flip3 q).th1 - ((flip3 xg).px, (flip3 xg).py)
      = Spec.flip (P.tractorPos q.px q.py q.th1) - Spec.flip (xg.px, xg.py) := by
    rw [← tractorPos_flip]; rfl
  rw [this, norm2_flip]

theorem reward_flip3 (P : Params) (xg q : Q3) :
    Bicycle.getReward (flipObstacles P) (flip3 xg) (flip3 q) = Bicycle.getReward P xg q ∧
    Bicycle.getTerminalReward (flipObstacles P) (flip3 xg) (flip3 q) = Bicycle.getTerminalReward P xg q := by
  have hh : |Bicycle.headingErr (flipObstacles P) (flip3 xg) (flip3 q)| = |Bicycle.headingErr P xg q| := by
    have e : Bicycle.headingErr (flipObstacles P) (flip3 xg) (flip3 q)
      = Bicycle.headingErr P (flip3 xg) (flip3 q) := rfl
    rw [e]
    unfold Bicycle.headingErr flip3
    simp only [(wrap_flip q.th1 xg.th1).1, (wrap_flip q.th1 xg.th1).2]
    split_ifs <;> simp only [(wrap_flip q.th1 xg.th1).1, (wrap_flip q.th1 xg.th1).2]
  constructor
  · unfold Bicycle.getReward
    simp only [posDist_flip3, hh]
    rfl
  · unfold Bicycle.getTerminalReward
    rw [posDist_flip3]
    rfl

theorem euler_flip3 (P : Params) (q : Q3) (u : U) :
    Bicycle.euler (flipObstacles P) (flip3 q) (steer (-1) u) = flip3 (Bicycle.euler P q u) := by
  have e : Bicycle.euler (flipObstacles P) (flip3 q) (steer (-1) u) = Bicycle.euler P (flip3 q) (steer (-1) u) := rfl
  rw [e]
  unfold Bicycle.euler Bicycle.dynamics Q3.axpy flip3 steer
  simp only [cos_neg, sin_neg, neg_mul, one_mul, tan_neg]
  apply Q3.ext <;> simp only <;> ring

theorem clip_flip {m : ℝ} (hm : 0 ≤ m) (x : ℝ) : clip (-x) (-m) m = -clip x (-m) m := by
  unfold clip
  rcases le_total x (-m) with h | h
  · rw [max_eq_left (by linarith), min_eq_right (by linarith), max_eq_right h, min_eq_left (by linarith), neg_neg]
  · rcases le_total x m with h' | h'
    · rw [max_eq_left (by linarith), min_eq_left (by linarith), max_eq_left h, min_eq_left h']
    · rw [max_eq_right (by linarith), min_eq_left (by linarith), max_eq_left h, min_eq_right h']

/-! ## Acceleration model -/

/-- Mirror image of the acceleration robot, with the given start and goal. -/
theorem euler_flip6 (T T' : Acc) (hT : T'.toParams = flipObstacles T.toParams) (hd : 0 ≤ T.deltaMax) (q : Q6) (u : U)
    (dt : ℝ) : T'.euler (flip6 q) (steer (-1) u) dt = flip6 (T.euler q u dt) := by
  have h1 : ∀ a b : ℝ, -a - -b = -(a - b) := fun a b => by ring
  have e1 : T'.vMax = T.vMax := by rw [hT]; rfl
  have e2 : T'.deltaMax = T.deltaMax := by rw [hT]; rfl
  have e3 : T'.l1 = T.l1 := by rw [hT]; rfl
  have e4 : T'.l2 = T.l2 := by rw [hT]; rfl
  have e5 : T'.lh = T.lh := by rw [hT]; rfl
  unfold Acc.euler Acc.dynamics Q6.axpy flip6 steer
  simp only [h1, e1, e2, e3, e4, e5, clip_flip hd, cos_neg, sin_neg, neg_mul, one_mul, tan_neg]
  apply Q6.ext <;> simp only <;> ring

/-! ## Train -/

theorem theta_flip (T : NTrailer) (x : QN) (i : ℕ) : T.theta (flipN x) i = -T.theta x i := by
  unfold NTrailer.theta NTrailer.slice flipN clampGet
  simp only [List.length_take, List.length_map]
  rw [← List.map_take]
  simp only [List.getD_eq_getElem?_getD, List.getElem?_map]
  cases (List.take T.N x.ths)[min i (min T.N x.ths.length - 1)]? <;> simp

theorem carryAt_flip (T : NTrailer) (x : QN) (v δ : ℝ) (i : ℕ) :
    T.carryAt (flipN x) v (-δ) i = ⟨-(T.carryAt x v δ i).theta, -(T.carryAt x v δ i).dot, (T.carryAt x v δ i).speed⟩ := by
  have h1 : ∀ a b : ℝ, -a - -b = -(a - b) := fun a b => by ring
  induction i with
  | zero => simp [NTrailer.carryAt, flipN, tan_neg]
  | succ i ih =>
    simp only [NTrailer.carryAt]
    rw [ih]
    unfold NTrailer.loopBody
    simp only [theta_flip, h1, tan_neg, sin_neg, cos_neg]
    split_ifs <;> congr 1 <;> ring

theorem carryAt_obstacles (T T' : NTrailer) (hT : T' = { T with toParams := flipObstacles T.toParams, x0 := T'.x0, xg := T'.xg })
    (x : QN) (v δ : ℝ) (i : ℕ) : T'.carryAt x v δ i = T.carryAt x v δ i := by
  induction i with
  | zero => rw [hT]; rfl
  | succ i ih => simp only [NTrailer.carryAt]; rw [ih, hT]; rfl

/-- `T'` is the mirrored train, with any start and goal. -/
def FlippedTrain (T T' : NTrailer) : Prop :=
  T' = { T with toParams := flipObstacles T.toParams, x0 := T'.x0, xg := T'.xg }

theorem FlippedTrain.fields {T T' : NTrailer} (h : FlippedTrain T T') : T'.N = T.N ∧ T'.lengths = T.lengths ∧
    T'.fronts = T.fronts ∧ T'.rears = T.rears ∧ T'.toParams = flipObstacles T.toParams ∧
    (∀ x i, T'.theta x i = T.theta x i) ∧ T'.lh = T.lh ∧ T'.dt = T.dt ∧ T'.l1 = T.l1 := by
  unfold FlippedTrain at h
  rw [h]
  exact ⟨rfl, rfl, rfl, rfl, rfl, fun _ _ => rfl, rfl, rfl, rfl⟩

theorem euler_flipN {T T' : NTrailer} (hT : FlippedTrain T T') (x : QN) (u : U) :
    T'.euler (flipN x) (steer (-1) u) = flipN (T.euler x u) := by
  obtain ⟨f1, f2, f3, f4, f5, f6, f7, f8, f9⟩ := hT.fields
  have hc : ∀ i, T'.carryAt (flipN x) u.1 (-u.2) i = _ := fun i =>
    (carryAt_obstacles T T' hT _ _ _ i).trans (carryAt_flip T x u.1 u.2 i)
  unfold NTrailer.euler NTrailer.dynamics steer
  simp only [neg_mul, one_mul, hc, f1, f8, f9]
  unfold QN.axpy flipN
  simp only [cos_neg, sin_neg, tan_neg]
  apply QN.ext
  · rfl
  · simp only; ring
  · simp only; ring
  · simp only
    apply List.ext_getElem
    · simp
    · intro i h1 h2
      simp
      ring

theorem lastPosLoop_flip {T T' : NTrailer} (hT : FlippedTrain T T') (x : QN) (i : ℕ) :
    T'.lastPosLoop (flipN x) i = (Spec.flip (T.lastPosLoop x i).1, Spec.flip (T.lastPosLoop x i).2) := by
  obtain ⟨f1, f2, f3, f4, f5, f6, f7, f8, f9⟩ := hT.fields
  have h0 : T'.hitch0 (flipN x) = Spec.flip (T.hitch0 x) := by
    unfold NTrailer.hitch0 flipN Spec.flip
    simp only [f7, cos_neg, sin_neg]
    exact Prod.ext rfl (by simp only; ring)
  induction i with
  | zero => simp only [NTrailer.lastPosLoop, h0]
  | succ i ih =>
    simp only [NTrailer.lastPosLoop]
    rw [ih, f6, theta_flip, f2, f3]
    unfold Spec.flip
    simp only [cos_neg, sin_neg]
    refine Prod.ext ?_ ?_ <;> exact Prod.ext rfl (by simp only; ring)

theorem rectHitch_flip {T T' : NTrailer} (hT : FlippedTrain T T') (x : QN) (i : ℕ) :
    T'.rectHitch (flipN x) i = Spec.flip (T.rectHitch x i) := by
  obtain ⟨f1, f2, f3, f4, f5, f6, f7, f8, f9⟩ := hT.fields
  induction i with
  | zero =>
    unfold NTrailer.rectHitch NTrailer.hitch0 flipN Spec.flip
    simp only [f7, cos_neg, sin_neg]
    exact Prod.ext rfl (by simp only; ring)
  | succ i ih =>
    simp only [NTrailer.rectHitch]
    rw [ih, f6, theta_flip, f2, f3, f4, f7]
    unfold Spec.flip
    simp only [cos_neg, sin_neg]
    exact Prod.ext rfl (by simp only; ring)

theorem posDist_flipN {T T' : NTrailer} (hT : FlippedTrain T T') (hg : T'.xg = flipN T.xg) (x : QN) :
    T'.posDist (flipN x) = T.posDist x := by
  obtain ⟨f1, f2, f3, f4, f5, f6, f7, f8, f9⟩ := hT.fields
  have e1 : T'.dTractor (flipN x) = T.dTractor x := by
    unfold NTrailer.dTractor
    have : Params.tractorPos T'.toParams (flipN x).px (flipN x).py (flipN x).th0 - (T'.xg.px, T'.xg.py)
        = Spec.flip (T.tractorPos x.px x.py x.th0) - Spec.flip (T.xg.px, T.xg.py) := by
      rw [← tractorPos_flip, hg, f5]; rfl
    rw [this, norm2_flip]
  have e2 : T'.dLast (flipN x) = T.dLast x := by
    have hl : ∀ y, T'.lastTrailerPos (flipN y) = Spec.flip (T.lastTrailerPos y) := by
      intro y
      unfold NTrailer.lastTrailerPos
      rw [lastPosLoop_flip hT, f1]
    unfold NTrailer.dLast
    rw [hl, hg, hl, norm2_flip]
  have hm : T'.motionPreference = T.motionPreference := by rw [f5]; rfl
  unfold NTrailer.posDist
  rw [e1, e2, hm]

theorem hitchScan_flip (phi : ℝ) : ∀ (l : List ℝ) (a : ℝ) (v : Prop),
    NTrailer.hitchScan phi (-a) v (l.map fun a => -a) ↔ NTrailer.hitchScan phi a v l
  | [], _, _ => Iff.rfl
  | b :: l, a, v => by
    simp only [List.map_cons, NTrailer.hitchScan]
    rw [(wrap_flip a b).1]
    exact hitchScan_flip phi l b _

theorem checkHitch_flipN {T T' : NTrailer} (hT : FlippedTrain T T') (x : QN) :
    T'.checkHitch (flipN x) ↔ T.checkHitch x := by
  obtain ⟨f1, f2, f3, f4, f5, f6, f7, f8, f9⟩ := hT.fields
  have e : T'.slice (flipN x) = (T.slice x).map fun a => -a := by
    unfold NTrailer.slice flipN
    simp only [f1, List.map_take]
  have hp : T'.phiMax = T.phiMax := by rw [f5]; rfl
  have hhd : ((T.slice x).map fun a => -a).headD 0 = -((T.slice x).headD 0) := by
    cases T.slice x <;> simp
  unfold NTrailer.checkHitch
  simp only [e, hp, hhd, ← List.map_tail]
  have : |wrapPi ((flipN x).th0 - -(T.slice x).headD 0)| = |wrapPi (x.th0 - (T.slice x).headD 0)| :=
    (wrap_flip _ _).1
  rw [this]
  exact hitchScan_flip _ _ _ _

/-- Train bodies with sides of at least `1e-4`. -/
structure Spec.TrainSidesOK (T : NTrailer) : Prop where
  tractorLen : 1e-4 ≤ T.l1 + T.lf1 + T.lr
  tractorWid : 1e-4 ≤ T.tractorWidth
  trailerLen : ∀ i < T.N, 1e-4 ≤ clampGet T.fronts i + clampGet T.rears i
  trailerWid : 1e-4 ≤ T.trailerWidth

theorem checkObstacle_flipN {T T' : NTrailer} (hT : FlippedTrain T T') (hs : Spec.TrainSidesOK T) (x : QN) :
    T'.checkObstacle (flipN x) ↔ T.checkObstacle x := by
  obtain ⟨f1, f2, f3, f4, f5, f6, f7, f8, f9⟩ := hT.fields
  obtain ⟨a1, a2⟩ := tractorChecks_flip T.toParams hs.tractorLen hs.tractorWid x.px x.py x.th0
  have hbox : ∀ i, ∃ c, T.trailerCorners x i = boxCorners c (T.theta x i)
        (0.5 * (clampGet T.fronts i + clampGet T.rears i)) (T.trailerWidth / 2) ∧
      T'.trailerCorners (flipN x) i = boxCorners (Spec.flip c) (-T.theta x i)
        (0.5 * (clampGet T.fronts i + clampGet T.rears i)) (T.trailerWidth / 2) := by
    intro i
    refine ⟨_, rfl, ?_⟩
    have hw : T'.trailerWidth = T.trailerWidth := by rw [f5]; rfl
    unfold NTrailer.trailerCorners
    simp only [rectHitch_flip hT, f6, theta_flip, f2, f3, f4, hw]
    congr 1
    unfold Spec.flip
    simp only [cos_neg, sin_neg]
    exact Prod.ext rfl (by simp only; ring)
  have b1 : ∀ i < T.N, ∀ c : Circle, rectCircle (T'.trailerCorners (flipN x) i) (c.x, -c.y) c.r ↔
      rectCircle (T.trailerCorners x i) (c.x, c.y) c.r := by
    intro i hi c
    obtain ⟨k, e1, e2⟩ := hbox i
    rw [e1, e2]
    exact rectCircle_flip k _ (by linarith [hs.trailerLen i hi]) (by linarith [hs.trailerWid]) (c.x, c.y) c.r
  have b2 : ∀ i, ∀ o : Rect, rectRect (T'.trailerCorners (flipN x) i) (Rect.corners ⟨o.x, -o.y, o.w, o.h, -o.ang⟩) ↔
      rectRect (T.trailerCorners x i) o.corners := by
    intro i o
    obtain ⟨k, e1, e2⟩ := hbox i
    rw [e1, e2]
    exact rectObs_flip k _ _ _ o
  have hc : T'.circles = T.circles.map fun c => ⟨c.x, -c.y, c.r⟩ := by rw [f5]; rfl
  have hr : T'.rects = T.rects.map fun o => ⟨o.x, -o.y, o.w, o.h, -o.ang⟩ := by rw [f5]; rfl
  have ht : Params.tractorCorners T'.toParams (flipN x).px (flipN x).py (flipN x).th0
      = (flipObstacles T.toParams).tractorCorners x.px (-x.py) (-x.th0) := by rw [f5]; rfl
  unfold NTrailer.checkObstacle NTrailer.allTrailerCorners
  simp only [hc, hr, ht, f1, List.mem_map, List.mem_range, exists_exists_and_eq_and, a1, a2, b2]
  refine or_congr (or_congr Iff.rfl ?_) Iff.rfl
  refine exists_congr fun i => and_congr_right fun hi => exists_congr fun c => and_congr_right fun _ => b1 i hi c

/-! ## Guidance -/

namespace Guide

theorem circleGrad_flip (c : Circle) (p : V2) :
    circleGrad ⟨c.x, -c.y, c.r⟩ (Spec.flip p) = (circleGrad c p).map Spec.flip := by
  have hd : norm2 (Spec.flip p - (c.x, -c.y)) = norm2 (p - (c.x, c.y)) := norm2_flip p (c.x, c.y)
  unfold circleGrad
  simp only [hd]
  split_ifs
  · rfl
  · simp only [Option.map_some, Spec.flip, Option.some.injEq]
    exact Prod.ext rfl (by simp only; ring)

theorem sumGrad_flip (p : V2) : ∀ cs : List Circle,
    sumGrad (cs.map fun c => ⟨c.x, -c.y, c.r⟩) (Spec.flip p) = (sumGrad cs p).map Spec.flip
  | [] => by simp [sumGrad, Spec.flip]
  | c :: cs => by
    have ih := sumGrad_flip p cs
    simp only [sumGrad, List.map_cons, List.foldr_cons] at ih ⊢
    rw [ih, circleGrad_flip]
    cases circleGrad c p with
    | none => rfl
    | some g =>
      cases List.foldr _ _ cs with
      | none => rfl
      | some a =>
        simp only [Option.map_some, Spec.flip, Option.some.injEq]
        exact Prod.ext rfl (by simp only; ring)

theorem hitchPen_neg (phi a : ℝ) : hitchPen phi (-a) = hitchPen phi a := by unfold hitchPen; rw [abs_neg]

theorem hitchPenGrad_neg (phi a : ℝ) : hitchPenGrad phi (-a) = -hitchPenGrad phi a := by
  unfold hitchPenGrad
  rw [abs_neg, Left.sign_neg]
  push_cast
  ring

theorem hitchMin_neg (phi a : ℝ) : hitchMin phi (-a) = hitchMin phi a := by
  unfold hitchMin
  rw [show -a + 0 = -(a + 0) by ring, show -a + 2 * π = -(a + -(2 * π)) by ring,
    show -a + -(2 * π) = -(a + 2 * π) by ring, hitchPen_neg, hitchPen_neg, hitchPen_neg]
  rw [min_comm (hitchPen phi (a + -(2 * π)))]

theorem hitchGrad_neg (phi a : ℝ) : hitchGrad phi (-a) = -hitchGrad phi a := by
  unfold hitchGrad readings
  rw [hitchMin_neg]
  rw [show -a + 0 = -(a + 0) by ring, show -a + 2 * π = -(a + -(2 * π)) by ring,
    show -a + -(2 * π) = -(a + 2 * π) by ring]
  generalize a + 0 = x
  generalize a + -(2 * π) = y
  generalize a + 2 * π = z
  simp only [List.filter_cons, List.filter_nil, hitchPen_neg]
  split_ifs <;> simp [hitchPenGrad_neg] <;> ring

theorem hitchWeight_flip (P : Params) : hitchWeight (flipObstacles P) = hitchWeight P := by
  unfold hitchWeight flipObstacles; simp

theorem guideTrailer_flip (P : Params) (q : Q4) :
    trailerPos (flipObstacles P) (flip4 q) = Spec.flip (trailerPos P q) := by
  unfold trailerPos flip4 Spec.flip flipObstacles
  simp only [cos_neg, sin_neg]
  exact Prod.ext rfl (by simp only; ring)

theorem grad_flip (P : Params) (q : Q4) :
    grad (flipObstacles P) (flip4 q) = ((grad P q).1, (grad P q).2.1.map Neg.neg, (grad P q).2.2.1.map Neg.neg,
      (grad P q).2.2.2.map Neg.neg) := by
  have hp : (flipObstacles P).phiMax = P.phiMax := rfl
  have h1 : sumGrad (flipObstacles P).circles ((flip4 q).px, (flip4 q).py)
      = (sumGrad P.circles (q.px, q.py)).map Spec.flip := sumGrad_flip (q.px, q.py) P.circles
  have h2 : sumGrad (flipObstacles P).circles (trailerPos (flipObstacles P) (flip4 q))
      = (sumGrad P.circles (trailerPos P q)).map Spec.flip := by
    rw [guideTrailer_flip]; exact sumGrad_flip _ P.circles
  have h3 : hitchGrad P.phiMax ((flip4 q).th1 - (flip4 q).th2) = -hitchGrad P.phiMax (q.th1 - q.th2) := by
    rw [← hitchGrad_neg]; congr 1; simp only [flip4]; ring
  unfold grad
  simp only [h1, h2, hp, hitchWeight_flip, h3]
  have hl : (flipObstacles P).lh = P.lh := rfl
  have hl2 : (flipObstacles P).l2 = P.l2 := rfl
  simp only [hl, hl2]
  cases sumGrad P.circles (trailerPos P q) with
  | none => cases sumGrad P.circles (q.px, q.py) <;> rfl
  | some b =>
    cases sumGrad P.circles (q.px, q.py) with
    | none =>
      simp only [Option.map_some, Option.map_none, flip4, Spec.flip, cos_neg, sin_neg, Prod.mk.injEq,
        Option.some.injEq, true_and]
      constructor <;> ring
    | some a =>
      simp only [Option.map_some, flip4, Spec.flip, cos_neg, sin_neg, Prod.mk.injEq, Option.some.injEq, true_and]
      refine ⟨by ring, by ring, by ring⟩

theorem comp_flip (ss x : ℝ) (g : Option ℝ) {lim : ℝ} (hl : 0 ≤ lim) :
    comp ss (-x) (g.map Neg.neg) lim = -comp ss x g lim := by
  unfold comp
  have : (g.map Neg.neg).getD 0 = -(g.getD 0) := by cases g <;> simp
  rw [this, ← clip_flip hl]
  congr 1
  ring

theorem stepOnce_flip (P : Params) (ss : ℝ) (q : Q4) :
    stepOnce (flipObstacles P) ss (flip4 q) = flip4 (stepOnce P ss q) := by
  have hp := pi_pos
  unfold stepOnce
  simp only [grad_flip]
  unfold flip4
  simp only [comp_flip ss _ _ (show (0 : ℝ) ≤ 100 by norm_num), comp_flip ss _ _ (show 0 ≤ 2 * π by positivity)]

theorem apply_flip (P : Params) (ss : ℝ) (n : ℕ) (q : Q4) :
    Guide.apply (flipObstacles P) ss n (flip4 q) = flip4 (Guide.apply P ss n q) := by
  unfold Guide.apply
  have : (flipObstacles P).enableGuidance = P.enableGuidance := rfl
  rw [this]
  split_ifs
  · exact (Function.Semiconj.iterate_right (f := flip4) (fun q => (stepOnce_flip P ss q).symm) n q).symm
  · rfl

theorem applyAcc_flip (P : Params) (ss : ℝ) (n : ℕ) (q : Q6) :
    applyAcc (flipObstacles P) ss n (flip6 q) = flip6 (applyAcc P ss n q) := by
  unfold applyAcc
  have : (flipObstacles P).enableGuidance = P.enableGuidance := rfl
  rw [this]
  split_ifs
  · have h : Guide.apply (flipObstacles P) ss n (flip6 q).pose = flip4 (Guide.apply P ss n q.pose) :=
      apply_flip P ss n q.pose
    simp only [h]
    rfl
  · rfl

theorem applyBicycle_flip (P : Params) (ss : ℝ) (n : ℕ) (q : Q3) :
    applyBicycle (flipObstacles P) ss n (flip3 q) = flip3 (applyBicycle P ss n q) := by
  have hp := pi_pos
  have hs : ∀ q, stepBicycle (flipObstacles P) ss (flip3 q) = flip3 (stepBicycle P ss q) := by
    intro q
    have h1 : sumGrad (flipObstacles P).circles ((flip3 q).px, (flip3 q).py)
      = (sumGrad P.circles (q.px, q.py)).map Spec.flip := sumGrad_flip (q.px, q.py) P.circles
    unfold stepBicycle
    simp only [h1]
    have e1 : Option.map Prod.fst (Option.map Spec.flip (sumGrad P.circles (q.px, q.py)))
        = Option.map Prod.fst (sumGrad P.circles (q.px, q.py)) := by
      cases sumGrad P.circles (q.px, q.py) <;> rfl
    have e2 : Option.map Prod.snd (Option.map Spec.flip (sumGrad P.circles (q.px, q.py)))
        = (Option.map Prod.snd (sumGrad P.circles (q.px, q.py))).map Neg.neg := by
      cases sumGrad P.circles (q.px, q.py) <;> rfl
    have e3 : (some 0 : Option ℝ) = (some (0 : ℝ)).map Neg.neg := by simp
    rw [e1, e2]
    unfold flip3
    simp only [comp_flip ss _ _ (show (0 : ℝ) ≤ 100 by norm_num)]
    congr 1
    conv_lhs => rw [e3]
    exact comp_flip ss _ _ (by positivity)
  unfold applyBicycle
  have : (flipObstacles P).enableGuidance = P.enableGuidance := rfl
  rw [this]
  split_ifs
  · exact (Function.Semiconj.iterate_right (f := flip3) (fun q => (hs q).symm) n q).symm
  · rfl

theorem applyN_flip (P : Params) (ss : ℝ) (n : ℕ) (q : QN) :
    applyN (flipObstacles P) ss n (flipN q) = flipN (applyN P ss n q) := by
  have hp := pi_pos
  have hs : ∀ q, stepN (flipObstacles P) ss (flipN q) = flipN (stepN P ss q) := by
    intro q
    have h0 : (flipN q).ths.getD 0 0 = -(q.ths.getD 0 0) := by
      unfold flipN; cases q.ths <;> simp
    have h1 : (⟨(flipN q).px, (flipN q).py, (flipN q).th0, (flipN q).ths.getD 0 0⟩ : Q4)
        = flip4 ⟨q.px, q.py, q.th0, q.ths.getD 0 0⟩ := by rw [h0]; rfl
    unfold stepN
    simp only [h1, grad_flip]
    unfold flipN
    simp only [comp_flip ss _ _ (show (0 : ℝ) ≤ 100 by norm_num), comp_flip ss _ _ (show 0 ≤ 2 * π by positivity)]
    congr 1
    apply List.ext_getElem
    · simp
    · intro i h1 h2
      simp only [List.getElem_mapIdx, List.getElem_map]
      have e3 : (some 0 : Option ℝ) = (some (0 : ℝ)).map Neg.neg := by simp
      rw [← comp_flip ss _ _ (show 0 ≤ 2 * π by positivity)]
      congr 1
      split_ifs
      · rfl
      · exact e3
  unfold applyN
  have : (flipObstacles P).enableGuidance = P.enableGuidance := rfl
  rw [this]
  split_ifs
  · exact (Function.Semiconj.iterate_right (f := flipN) (fun q => (hs q).symm) n q).symm
  · rfl

end Guide

end Mbd
