import Verif.Env
import Verif.PropsSafe

/-!
# Environment properties: C39, C40, C41, C59
-/

namespace Spec

open Real Mbd

/-- Axis-aligned closed box. -/
def box (xlo xhi ylo yhi : ℝ) : Set Pt := {p | xlo ≤ p.1 ∧ p.1 ≤ xhi ∧ ylo ≤ p.2 ∧ p.2 ≤ yhi}

/-- Space number `n` is in row `r` and column `k` of the lot (numbers count from 1, row by row). -/
def IsSpace (c : ParkingConfig) (n r k : ℤ) : Prop :=
  0 ≤ r ∧ r < c.rows ∧ 0 ≤ k ∧ k < c.cols ∧ n = r * c.cols + k + 1

/-- Left end of the lot: the lot is centred at `x = 0`. -/
noncomputable def lotX (c : ParkingConfig) : ℝ := -(c.cols * c.spaceWidth / 2)

/-- Closed cell in row `r`, column `k` of a lot whose lower edge is `parking_y_offset` above the
lower end `yLow` of the map. -/
def cell (c : ParkingConfig) (yLow : ℝ) (r k : ℤ) : Set Pt :=
  box (lotX c + k * c.spaceWidth) (lotX c + (k + 1) * c.spaceWidth)
    (yLow + c.yOffset + r * c.spaceLength) (yLow + c.yOffset + (r + 1) * c.spaceLength)

/-- Interior of the cell. -/
def cellInterior (c : ParkingConfig) (yLow : ℝ) (r k : ℤ) : Set Pt :=
  {p | lotX c + k * c.spaceWidth < p.1 ∧ p.1 < lotX c + (k + 1) * c.spaceWidth ∧
    yLow + c.yOffset + r * c.spaceLength < p.2 ∧ p.2 < yLow + c.yOffset + (r + 1) * c.spaceLength}

/-- The whole lot. -/
def lot (c : ParkingConfig) (yLow : ℝ) : Set Pt :=
  box (lotX c) (-lotX c) (yLow + c.yOffset) (yLow + c.yOffset + c.rows * c.spaceLength)

/-- Middle of the cell. -/
noncomputable def cellMiddle (c : ParkingConfig) (yLow : ℝ) (r k : ℤ) : Pt :=
  (lotX c + (k + 1 / 2) * c.spaceWidth, yLow + c.yOffset + (r + 1 / 2) * c.spaceLength)

end Spec

namespace Mbd

open Real

/-! ## C39: obstacle registration -/

theorem solidRect_zero (x y w h : ℝ) :
    Spec.solidRect (x, y) 0 (w / 2) (h / 2) =
      Spec.box (x - w / 2) (x + w / 2) (y - h / 2) (y + h / 2) := by
  ext p
  unfold Spec.solidRect Spec.box Spec.frame
  simp only [cos_zero, sin_zero, Set.mem_ofPred_eq]
  constructor
  · rintro ⟨s, t, hs, ht, rfl⟩
    rw [abs_le] at hs ht
    refine ⟨?_, ?_, ?_, ?_⟩ <;> simp only <;> linarith [hs.1, hs.2, ht.1, ht.2]
  · rintro ⟨h1, h2, h3, h4⟩
    refine ⟨p.1 - x, p.2 - y, ?_, ?_, ?_⟩
    · rw [abs_le]; constructor <;> linarith
    · rw [abs_le]; constructor <;> linarith
    · ext <;> simp

theorem convertAll_ok {α β : Type} {f : α → Except EnvErr β} {g : α → β} :
    ∀ l : List α, (∀ a ∈ l, f a = .ok (g a)) → Env.convertAll f l = .ok (l.map g)
  | [], _ => rfl
  | a :: l, h => by
    have h1 := h a (by simp)
    have h2 := convertAll_ok l (fun b hb => h b (by simp [hb]))
    simp [Env.convertAll, h1, h2]

/-- C39: four-element rows in the default ("left-top") mode: the `i`-th stored obstacle denotes the
axis-aligned box whose upper-left corner is `(x, y)`, grown by `pad` on every side. -/
theorem C39_left_top (e : Env) (obs : List (ℝ × ℝ × ℝ × ℝ)) (pad : ℝ) :
    ∃ l : List Rect,
      e.setRectangleObs (obs.map fun o => [o.1, o.2.1, o.2.2.1, o.2.2.2]) "left-top" pad
        = ({ e with rects := l }, .ok l) ∧
      l.map Spec.rectRegion = obs.map fun o =>
        Spec.box (o.1 - pad) (o.1 + o.2.2.1 + pad) (o.2.1 - o.2.2.2 - pad) (o.2.1 + pad) := by
  refine ⟨obs.map fun o => ⟨o.1 + o.2.2.1 / 2, o.2.1 - o.2.2.2 / 2, o.2.2.1 + pad * 2,
    o.2.2.2 + pad * 2, 0⟩, ?_, ?_⟩
  · unfold Env.setRectangleObs
    have : Env.convertAll (Env.convertRect "left-top" pad)
        (obs.map fun o => [o.1, o.2.1, o.2.2.1, o.2.2.2]) = .ok (obs.map fun o =>
        (⟨o.1 + o.2.2.1 / 2, o.2.1 - o.2.2.2 / 2, o.2.2.1 + pad * 2, o.2.2.2 + pad * 2, 0⟩ : Rect)) := by
      clear e
      induction obs with
      | nil => rfl
      | cons a l ih => simp [Env.convertAll, Env.convertRect, ih]
    rw [this]
  · rw [List.map_map]
    congr 1
    funext o
    simp only [Function.comp, Spec.rectRegion]
    rw [solidRect_zero]
    congr 1 <;> ring

/-- The upper-left corner of a registered obstacle is a corner of its region. -/
example (e : Env) : ∃ l : List Rect,
    e.setRectangleObs [[1, 5, 2, 3]] "left-top" 0 = ({ e with rects := l }, .ok l) ∧
    l.map Spec.rectRegion = [Spec.box 1 3 2 5] := by
  obtain ⟨l, h1, h2⟩ := C39_left_top e [(1, 5, 2, 3)] 0
  refine ⟨l, h1, h2.trans ?_⟩
  norm_num

/-- C39: five-element rows: in both modes the stored region is the padded rectangle rotated by
`rotation` about its centre; the centre of a "left-top" row is that of the unrotated rectangle with
upper-left corner `(x, y)`. -/
theorem C39_rotated (e : Env) (x y w h r pad : ℝ) :
    (∃ o, e.setRectangleObs [[x, y, w, h, r]] "left-top" pad = ({ e with rects := [o] }, .ok [o]) ∧
      Spec.rectRegion o = Spec.solidRect (x + w / 2, y - h / 2) r (w / 2 + pad) (h / 2 + pad)) ∧
    (∃ o, e.setRectangleObs [[x, y, w, h, r]] "center" pad = ({ e with rects := [o] }, .ok [o]) ∧
      Spec.rectRegion o = Spec.solidRect (x, y) r (w / 2 + pad) (h / 2 + pad)) := by
  refine ⟨⟨_, rfl, ?_⟩, ⟨_, rfl, ?_⟩⟩ <;> unfold Spec.rectRegion <;> congr 1 <;> ring

/-- C39: a "left-top" registration equals the "center" registration of the equivalent centre-based
rows (any mixture of four- and five-element rows is covered row by row). -/
theorem C39_modes_agree (e : Env) (obs : List (ℝ × ℝ × ℝ × ℝ × ℝ)) (pad : ℝ) :
    e.setRectangleObs (obs.map fun o => [o.1, o.2.1, o.2.2.1, o.2.2.2.1, o.2.2.2.2]) "left-top" pad =
    e.setRectangleObs (obs.map fun o => [o.1 + o.2.2.1 / 2, o.2.1 - o.2.2.2.1 / 2, o.2.2.1,
      o.2.2.2.1, o.2.2.2.2]) "center" pad := by
  unfold Env.setRectangleObs
  congr 1
  induction obs with
  | nil => rfl
  | cons a l ih => simp only [List.map_cons, Env.convertAll, Env.convertRect]; rw [ih]; rfl

/-- C39: padding keeps at least the padding as clearance: every point within distance `pad` of the
unpadded rectangle lies in the padded one (so with `pad ≥ 0` the region never shrinks). -/
theorem C39_clearance (c : V2) (r w h : ℝ) {pad : ℝ} (hp : 0 ≤ pad) {p q : V2}
    (hq : q ∈ Spec.solidRect c r (w / 2) (h / 2)) (hd : Spec.dist p q ≤ pad) :
    p ∈ Spec.solidRect c r ((w + pad * 2) / 2) ((h + pad * 2) / 2) := by
  obtain ⟨s, t, hs, ht, rfl⟩ := hq
  obtain ⟨a, b, rfl⟩ := exists_frame c r p
  have hd2 : (a - s) ^ 2 + (b - t) ^ 2 ≤ pad ^ 2 := by
    have h1 : Spec.dist (Spec.frame c r a b) (Spec.frame c r s t) ^ 2 ≤ pad ^ 2 :=
      pow_le_pow_left₀ (Real.sqrt_nonneg _) hd 2
    unfold Spec.dist at h1
    rw [Real.sq_sqrt (by positivity)] at h1
    have : ((Spec.frame c r a b).1 - (Spec.frame c r s t).1) ^ 2 +
        ((Spec.frame c r a b).2 - (Spec.frame c r s t).2) ^ 2 = (a - s) ^ 2 + (b - t) ^ 2 := by
      unfold Spec.frame
      simp only
      linear_combination ((a - s) ^ 2 + (b - t) ^ 2) * sin_sq_add_cos_sq r
    linarith
  have ha : |a - s| ≤ pad := abs_le_of_sq_le_sq (by nlinarith [sq_nonneg (b - t)]) hp
  have hb : |b - t| ≤ pad := abs_le_of_sq_le_sq (by nlinarith [sq_nonneg (a - s)]) hp
  refine ⟨a, b, ?_, ?_, rfl⟩
  · have : |a| ≤ |a - s| + |s| := by simpa using abs_add_le (a - s) s
    linarith
  · have : |b| ≤ |b - t| + |t| := by simpa using abs_add_le (b - t) t
    linarith

example : ((1 : ℝ), (0 : ℝ)) ∈ Spec.solidRect (0, 0) 0 (2 / 2) (2 / 2) :=
  ⟨1, 0, by norm_num, by norm_num, by simp [Spec.frame]⟩

/-- C39: circles keep their centres and grow by the padding, in order. -/
theorem C39_circles (e : Env) (obs : List (ℝ × ℝ × ℝ)) (pad : ℝ) :
    ∃ l : List Circle, e.setCircleObs (obs.map fun o => [o.1, o.2.1, o.2.2]) pad
        = ({ e with circles := l }, .ok l) ∧
      l.map Spec.circleRegion = obs.map fun o => Spec.disc (o.1, o.2.1) (o.2.2 + pad) := by
  refine ⟨obs.map fun o => ⟨o.1, o.2.1, o.2.2 + pad⟩, ?_, by rw [List.map_map]; rfl⟩
  unfold Env.setCircleObs
  have : Env.convertAll (Env.convertCircle pad) (obs.map fun o => [o.1, o.2.1, o.2.2])
      = .ok (obs.map fun o => (⟨o.1, o.2.1, o.2.2 + pad⟩ : Circle)) := by
    clear e
    induction obs with
    | nil => rfl
    | cons a l ih => simp [Env.convertAll, Env.convertCircle, ih]
  rw [this]

theorem convertAll_error {α β : Type} {f : α → Except EnvErr β} : ∀ {l : List α} {a : α} {e : EnvErr},
    a ∈ l → f a = .error e → ∃ e', Env.convertAll f l = .error e'
  | b :: l, a, e, h, hf => by
    unfold Env.convertAll
    rcases List.mem_cons.mp h with rfl | h
    · exact ⟨e, by rw [hf]⟩
    · obtain ⟨e', he⟩ := convertAll_error h hf
      cases hb : f b with
      | error e2 => exact ⟨e2, rfl⟩
      | ok v => exact ⟨e', by simp [he]⟩

/-- C39: a malformed row (not four or five entries) or an unknown mode (with at least one row)
raises, and neither the environment's nor the robot's obstacles change. -/
theorem C39_errors (r : Robot) (obs : List (List ℝ)) (mode : String) (pad : ℝ)
    (h : (∃ o ∈ obs, o.length ≠ 4 ∧ o.length ≠ 5) ∨
      (obs ≠ [] ∧ mode ≠ "left-top" ∧ mode ≠ "center")) :
    (r.setRectangleObs obs mode pad).1 = r ∧
      ∃ e, (r.setRectangleObs obs mode pad).2 = .error e := by
  have hrow : ∃ o ∈ obs, ∃ e, Env.convertRect mode pad o = .error e := by
    rcases h with ⟨o, ho, h4, h5⟩ | ⟨hne, hm1, hm2⟩
    · refine ⟨o, ho, .obstacleArity, ?_⟩
      match o, h4, h5 with
      | [], _, _ => rfl
      | [_], _, _ => rfl
      | [_, _], _, _ => rfl
      | [_, _, _], _, _ => rfl
      | [_, _, _, _], h4, _ => exact absurd rfl h4
      | [_, _, _, _, _], _, h5 => exact absurd rfl h5
      | _ :: _ :: _ :: _ :: _ :: _ :: _, _, _ => rfl
    · obtain ⟨o, ho⟩ := List.exists_mem_of_ne_nil obs hne
      refine ⟨o, ho, ?_⟩
      unfold Env.convertRect
      simp only [hm1, hm2, if_false]
      split <;> exact ⟨_, rfl⟩
  obtain ⟨o, ho, e, he⟩ := hrow
  obtain ⟨e', he'⟩ := convertAll_error ho he
  simp [Robot.setRectangleObs, Env.setRectangleObs, he']

/-- A three-element row is rejected. -/
example (r : Robot) : (r.setRectangleObs [[1, 2, 3, 4], [1, 2, 3]] "left-top" 0).1 = r :=
  (C39_errors r _ _ _ (Or.inl ⟨[1, 2, 3], by simp, by simp⟩)).1

/-- C39: the same for circular obstacles. -/
theorem C39_errors_circles (r : Robot) (obs : List (List ℝ)) (pad : ℝ)
    (h : ∃ o ∈ obs, o.length ≠ 3) :
    (r.setCircleObs obs pad).1 = r ∧ ∃ e, (r.setCircleObs obs pad).2 = .error e := by
  obtain ⟨o, ho, h3⟩ := h
  have he : Env.convertCircle pad o = .error .obstacleArity := by
    match o, h3 with
    | [], _ => rfl
    | [_], _ => rfl
    | [_, _], _ => rfl
    | [_, _, _], h3 => exact absurd rfl h3
    | _ :: _ :: _ :: _ :: _, _ => rfl
  obtain ⟨e', he'⟩ := convertAll_error ho he
  simp [Robot.setCircleObs, Env.setCircleObs, he']

example (r : Robot) : (r.setCircleObs [[1, 2, 3], [1, 2]] 0).1 = r :=
  (C39_errors_circles r [[1, 2, 3], [1, 2]] 0 ⟨[1, 2], by simp, by simp⟩).1

/-- C39: a successful registration stores the same obstacles in the environment and the robot and
keeps everything else. -/
theorem C39_success (r r' : Robot) (obs : List (List ℝ)) (mode : String) (pad : ℝ)
    (h : r.setRectangleObs obs mode pad = (r', .ok ())) :
    r'.rects = r'.env.rects ∧ r'.rects.length = obs.length ∧ r'.circles = r.circles ∧
      r'.x0 = r.x0 ∧ r'.xg = r.xg := by
  have hlen : ∀ (f : List ℝ → Except EnvErr Rect) (l : List (List ℝ)) (b : List Rect),
      Env.convertAll f l = .ok b → b.length = l.length := by
    intro f l
    induction l with
    | nil => intro b hb; simp [Env.convertAll] at hb; subst hb; rfl
    | cons a l ih =>
      intro b hb
      unfold Env.convertAll at hb
      cases ha : f a with
      | error e => simp [ha] at hb
      | ok v =>
        cases hl : Env.convertAll f l with
        | error e => simp [ha, hl] at hb
        | ok bs =>
          simp [ha, hl] at hb
          subst hb; simp [ih bs hl]
  unfold Robot.setRectangleObs Env.setRectangleObs at h
  cases hc : Env.convertAll (Env.convertRect mode pad) obs with
  | error e => simp [hc] at h
  | ok l =>
    simp [hc] at h
    subst h
    exact ⟨rfl, hlen _ _ _ hc, rfl, rfl, rfl⟩

example (r : Robot) : ∃ r', r.setRectangleObs [[1, 2, 3, 4]] "center" 0 = (r', .ok ()) ∧
    r'.rects.length = 1 := by
  obtain ⟨r', h⟩ : ∃ r', r.setRectangleObs [[1, 2, 3, 4]] "center" 0 = (r', .ok ()) := ⟨_, rfl⟩
  exact ⟨r', h, (C39_success r r' _ _ _ h).2.1⟩

/-! ## C40: parking layout -/

/-- C40: every number from 1 to `rows * cols` is one space, in exactly one row and column. -/
theorem C40_numbering (c : ParkingConfig) (hc : 0 < c.cols) (n : ℤ) (h1 : 1 ≤ n)
    (h2 : n ≤ c.rows * c.cols) : ∃! p : ℤ × ℤ, Spec.IsSpace c n p.1 p.2 := by
  refine ⟨((n - 1) / c.cols, (n - 1) % c.cols), ⟨?_, ?_, ?_, ?_, ?_⟩, ?_⟩
  · exact Int.ediv_nonneg (by linarith) hc.le
  · exact Int.ediv_lt_of_lt_mul hc (by linarith)
  · exact Int.emod_nonneg _ hc.ne'
  · exact Int.emod_lt_of_pos _ hc
  · have := Int.mul_ediv_add_emod (n - 1) c.cols
    simp only
    linarith [mul_comm c.cols ((n - 1) / c.cols)]
  · rintro ⟨r, k⟩ ⟨_, _, h3, h4, h5⟩
    simp only at h3 h4 h5
    have e1 : n - 1 = k + r * c.cols := by linarith
    ext
    · simp only
      rw [e1, Int.add_mul_ediv_right _ _ hc.ne', Int.ediv_eq_zero_of_lt h3 h4]; simp
    · simp only
      rw [e1, Int.add_mul_emod_self_right, Int.emod_eq_of_lt h3 h4]

example := C40_numbering ParkingConfig.default (by norm_num [ParkingConfig.default]) 11 (by norm_num)
  (by norm_num [ParkingConfig.default])

theorem fdiv_space {c : ParkingConfig} {n r k : ℤ} (h : Spec.IsSpace c n r k) :
    (n - 1).fdiv c.cols = r ∧ (n - 1).fmod c.cols = k := by
  obtain ⟨_, _, h3, h4, h5⟩ := h
  have hc : 0 < c.cols := by omega
  have e1 : n - 1 = k + r * c.cols := by linarith
  rw [Int.fdiv_eq_ediv_of_nonneg _ hc.le, Int.fmod_eq_emod_of_nonneg _ hc.le, e1,
    Int.add_mul_ediv_right _ _ hc.ne', Int.ediv_eq_zero_of_lt h3 h4, Int.add_mul_emod_self_right,
    Int.emod_eq_of_lt h3 h4]
  simp

theorem spaceCenter_eq {c : ParkingConfig} {n r k : ℤ} (yLow : ℝ) (h : Spec.IsSpace c n r k) :
    Env.spaceCenter yLow c n = Spec.cellMiddle c yLow r k := by
  obtain ⟨e1, e2⟩ := fdiv_space h
  unfold Env.spaceCenter Spec.cellMiddle Spec.lotX
  simp only [e1, e2]
  ext <;> simp only <;> ring

/-- C40: `get_parking_space_center` returns the middle of the cell of the given number; in a
navigation environment it raises. -/
theorem C40_center (e : Env) (c : ParkingConfig) (hcase : e.case = "parking")
    (hc : e.config = some c) (n r k : ℤ) (h : Spec.IsSpace c n r k) :
    e.getParkingSpaceCenter n = .ok (Spec.cellMiddle c e.yRange.1 r k) := by
  unfold Env.getParkingSpaceCenter
  simp only [hcase, hc, ne_eq, not_true_eq_false, if_false]
  rw [spaceCenter_eq _ h]

/-- Space 11 of the default lot. -/
example : ∃ e c, Env.new 32 32 "parking" none = .ok e ∧ e.config = some c ∧
    e.getParkingSpaceCenter 11 = .ok (Spec.cellMiddle c e.yRange.1 1 2) :=
  ⟨_, ParkingConfig.default, rfl, rfl, C40_center _ _ rfl rfl 11 1 2
    (by simp [Spec.IsSpace, ParkingConfig.default])⟩

theorem C40_center_navigation (e : Env) (hcase : e.case ≠ "parking") (n : ℤ) :
    e.getParkingSpaceCenter n = .error .notParking := by
  unfold Env.getParkingSpaceCenter; simp [hcase]

example : ∃ e, Env.new 32 32 "navigation" none = .ok e ∧
    e.getParkingSpaceCenter 3 = .error .notParking :=
  ⟨_, rfl, C40_center_navigation _ (by decide) 3⟩

/-- C40: cells of different numbers do not overlap. -/
theorem C40_disjoint (c : ParkingConfig) (yLow : ℝ) (hw : 0 < c.spaceWidth) (hl : 0 < c.spaceLength)
    {n r k n' r' k' : ℤ} (h : Spec.IsSpace c n r k) (h' : Spec.IsSpace c n' r' k') (hne : n ≠ n') :
    Spec.Apart (Spec.cellInterior c yLow r k) (Spec.cell c yLow r' k') := by
  rintro p ⟨a1, a2, a3, a4⟩ ⟨b1, b2, b3, b4⟩
  have hk : k = k' := by
    by_contra hk
    rcases lt_or_gt_of_ne hk with hlt | hlt
    · have : ((k : ℝ) + 1) ≤ k' := by exact_mod_cast hlt
      nlinarith
    · have : ((k' : ℝ) + 1) ≤ k := by exact_mod_cast hlt
      nlinarith
  have hr : r = r' := by
    by_contra hr
    rcases lt_or_gt_of_ne hr with hlt | hlt
    · have : ((r : ℝ) + 1) ≤ r' := by exact_mod_cast hlt
      nlinarith
    · have : ((r' : ℝ) + 1) ≤ r := by exact_mod_cast hlt
      nlinarith
  apply hne
  rw [h.2.2.2.2, h'.2.2.2.2, hk, hr]

example := C40_disjoint ParkingConfig.default 0 (by norm_num [ParkingConfig.default])
  (by norm_num [ParkingConfig.default])
  (show Spec.IsSpace ParkingConfig.default 3 0 2 by simp [Spec.IsSpace, ParkingConfig.default])
  (show Spec.IsSpace ParkingConfig.default 11 1 2 by simp [Spec.IsSpace, ParkingConfig.default])
  (by norm_num)

/-- C40: every cell lies inside the lot. -/
theorem C40_inside_lot (c : ParkingConfig) (yLow : ℝ) (hw : 0 ≤ c.spaceWidth)
    (hl : 0 ≤ c.spaceLength) {n r k : ℤ} (h : Spec.IsSpace c n r k) :
    Spec.cell c yLow r k ⊆ Spec.lot c yLow := by
  obtain ⟨h1, h2, h3, h4, _⟩ := h
  have g1 : (0 : ℝ) ≤ r := by exact_mod_cast h1
  have g2 : (r : ℝ) + 1 ≤ c.rows := by exact_mod_cast h2
  have g3 : (0 : ℝ) ≤ k := by exact_mod_cast h3
  have g4 : (k : ℝ) + 1 ≤ c.cols := by exact_mod_cast h4
  rintro p ⟨a1, a2, a3, a4⟩
  have m1 := mul_nonneg g3 hw
  have m2 := mul_le_mul_of_nonneg_right g4 hw
  have m3 := mul_nonneg g1 hl
  have m4 := mul_le_mul_of_nonneg_right g2 hl
  unfold Spec.lotX at a1 a2
  refine ⟨?_, ?_, ?_, ?_⟩ <;> (try unfold Spec.lotX) <;> linarith

example := C40_inside_lot ParkingConfig.default 0 (by norm_num [ParkingConfig.default])
  (by norm_num [ParkingConfig.default])
  (show Spec.IsSpace ParkingConfig.default 11 1 2 by simp [Spec.IsSpace, ParkingConfig.default])

theorem new_parking {w h : ℝ} {pc : Option ParkingConfig} {e : Env}
    (he : Env.new w h "parking" pc = .ok e) :
    ∃ c, c = pc.getD ParkingConfig.default ∧ e.case = "parking" ∧ e.config = some c ∧
      e.xRange = (-w / 2, w / 2) ∧ e.yRange = (-h / 2, h / 2) ∧
      e.rects = Env.obsRectangleParking ∧
      (c.occupied ≠ [] → e.circles = Env.obsCircleParking (-h / 2) c) := by
  refine ⟨_, rfl, ?_⟩
  unfold Env.new at he
  simp only [if_true] at he
  injection he with he
  by_cases hz : (Env.obsCircleParking (-h / 2) (pc.getD ParkingConfig.default)).length = 0
  · rw [if_pos hz] at he
    subst he
    refine ⟨rfl, rfl, rfl, rfl, rfl, ?_⟩
    intro hne
    exfalso
    obtain ⟨a, l, hal⟩ := List.exists_cons_of_ne_nil hne
    unfold Env.obsCircleParking at hz
    rw [hal] at hz
    simp at hz
  · rw [if_neg hz] at he
    subst he
    exact ⟨rfl, rfl, rfl, rfl, rfl, fun _ => rfl⟩

/-- C40: in a parking environment as constructed, every disc belongs to an occupied space and lies
inside that space's own cell, when the radius fits. -/
theorem C40_obstacles_in_cell {w h : ℝ} {pc : Option ParkingConfig} {e : Env}
    (he : Env.new w h "parking" pc = .ok e) (c : ParkingConfig) (hc : e.config = some c)
    (hne : c.occupied ≠ [])
    (hocc : ∀ n ∈ c.occupied, 1 ≤ n ∧ n ≤ c.rows * c.cols) (hcols : 0 < c.cols)
    (hr0 : 0 ≤ c.radius) (hr1 : c.radius ≤ c.spaceWidth / 2)
    (hr2 : c.radius + 2 ≤ c.spaceLength / 2) :
    ∀ o ∈ e.circles, ∃ n ∈ c.occupied, ∃ r k, Spec.IsSpace c n r k ∧
      Spec.circleRegion o ⊆ Spec.cell c e.yRange.1 r k := by
  obtain ⟨c', hc', _, hcfg, _, hy, _, hcirc⟩ := new_parking he
  have : c' = c := by rw [hcfg] at hc; exact Option.some.inj hc
  subst this
  rw [hcirc hne, hy]
  intro o ho
  unfold Env.obsCircleParking at ho
  rw [List.mem_flatMap] at ho
  obtain ⟨n, hn, ho⟩ := ho
  obtain ⟨⟨r, k⟩, hs, _⟩ := C40_numbering c' hcols n (hocc n hn).1 (hocc n hn).2
  refine ⟨n, hn, r, k, hs, ?_⟩
  rw [spaceCenter_eq _ hs] at ho
  have key : ∀ d : ℝ, |d| ≤ 2 → ∀ p : V2,
      p ∈ Spec.disc ((Spec.cellMiddle c' (-h / 2) r k).1, (Spec.cellMiddle c' (-h / 2) r k).2 + d)
        c'.radius → p ∈ Spec.cell c' (-h / 2) r k := by
    intro d hd p hp
    unfold Spec.disc at hp
    simp only [Set.mem_ofPred_eq] at hp
    have hx := abs_le_of_sq_le_sq (by nlinarith [sq_nonneg (p.2 - ((Spec.cellMiddle c' (-h / 2) r k).2 + d))] :
      (p.1 - (Spec.cellMiddle c' (-h / 2) r k).1) ^ 2 ≤ c'.radius ^ 2) hr0
    have hy := abs_le_of_sq_le_sq (by nlinarith [sq_nonneg (p.1 - ((Spec.cellMiddle c' (-h / 2) r k).1))] :
      (p.2 - ((Spec.cellMiddle c' (-h / 2) r k).2 + d)) ^ 2 ≤ c'.radius ^ 2) hr0
    rw [abs_le] at hx hy hd
    unfold Spec.cellMiddle at hx hy
    simp only at hx hy
    refine ⟨?_, ?_, ?_, ?_⟩ <;> linarith [hx.1, hx.2, hy.1, hy.2, hd.1, hd.2]
  simp only [List.mem_cons, List.not_mem_nil, or_false] at ho
  intro p hp
  rcases ho with rfl | rfl | rfl
  · exact key 0 (by norm_num) p (by simpa [Spec.circleRegion] using hp)
  · exact key 2 (by norm_num) p hp
  · exact key (-2) (by norm_num) p (by simpa [Spec.circleRegion, sub_eq_add_neg] using hp)

/-- C40: hence the inside of every space that is not occupied (in particular of a vacant target)
contains no point of a disc. -/
theorem C40_vacant_free {w h : ℝ} {pc : Option ParkingConfig} {e : Env}
    (he : Env.new w h "parking" pc = .ok e) (c : ParkingConfig) (hc : e.config = some c)
    (hne : c.occupied ≠ [])
    (hocc : ∀ n ∈ c.occupied, 1 ≤ n ∧ n ≤ c.rows * c.cols) (hcols : 0 < c.cols)
    (hr0 : 0 ≤ c.radius) (hr1 : c.radius ≤ c.spaceWidth / 2)
    (hr2 : c.radius + 2 ≤ c.spaceLength / 2) (hw : 0 < c.spaceWidth)
    (n : ℤ) (hvac : n ∉ c.occupied) (r k : ℤ) (hs : Spec.IsSpace c n r k) :
    ∀ o ∈ e.circles, Spec.Apart (Spec.cellInterior c e.yRange.1 r k) (Spec.circleRegion o) := by
  intro o ho p hp hq
  obtain ⟨n', hn', r', k', hs', hsub⟩ :=
    C40_obstacles_in_cell he c hc hne hocc hcols hr0 hr1 hr2 o ho
  exact C40_disjoint c _ hw (by linarith) hs hs' (fun h => hvac (h ▸ hn')) p hp (hsub hq)

/-- The default configuration meets every hypothesis, and both its targets are vacant. -/
example : (∀ n ∈ ParkingConfig.default.occupied, 1 ≤ n ∧
      n ≤ ParkingConfig.default.rows * ParkingConfig.default.cols) ∧
    0 < ParkingConfig.default.cols ∧ 0 ≤ ParkingConfig.default.radius ∧
    ParkingConfig.default.radius ≤ ParkingConfig.default.spaceWidth / 2 ∧
    ParkingConfig.default.radius + 2 ≤ ParkingConfig.default.spaceLength / 2 ∧
    (∀ n ∈ ParkingConfig.default.target, n ∉ ParkingConfig.default.occupied) := by
  refine ⟨?_, ?_, ?_, ?_, ?_, ?_⟩ <;> norm_num [ParkingConfig.default]

/-- C40: each occupied space contributes exactly three discs, the middle one at the point
`get_parking_space_center` reports. -/
theorem C40_obstacles_of_space {w h : ℝ} {pc : Option ParkingConfig} {e : Env}
    (he : Env.new w h "parking" pc = .ok e) (c : ParkingConfig) (hc : e.config = some c)
    (n : ℤ) (hn : n ∈ c.occupied) :
    ∃ p, e.getParkingSpaceCenter n = .ok p ∧ (⟨p.1, p.2, c.radius⟩ : Circle) ∈ e.circles ∧
      (⟨p.1, p.2 + 2, c.radius⟩ : Circle) ∈ e.circles ∧
      (⟨p.1, p.2 - 2, c.radius⟩ : Circle) ∈ e.circles := by
  obtain ⟨c', hc', hcase, hcfg, _, hy, _, hcirc⟩ := new_parking he
  have : c' = c := by rw [hcfg] at hc; exact Option.some.inj hc
  subst this
  refine ⟨Env.spaceCenter e.yRange.1 c' n, ?_, ?_⟩
  · unfold Env.getParkingSpaceCenter; simp [hcase, hcfg]
  · rw [hcirc (List.ne_nil_of_mem hn), hy]
    unfold Env.obsCircleParking
    simp only [List.mem_flatMap]
    exact ⟨⟨n, hn, by simp⟩, ⟨n, hn, by simp⟩, ⟨n, hn, by simp⟩⟩

example : ∃ e c, Env.new 32 32 "parking" none = .ok e ∧ e.config = some c ∧ (1 : ℤ) ∈ c.occupied :=
  ⟨_, ParkingConfig.default, rfl, rfl, by simp [ParkingConfig.default]⟩

/-- C40 fails once the plot limits are changed: `set_plot_limits` ("for visualization") moves the
reported space centres but not the obstacles, so a registered obstacle is no longer at the centre
of its space. -/
theorem C40_plot_limits_refuted :
    ¬ (∀ (e e' : Env) (c : ParkingConfig) (xr yr : ℝ × ℝ), Env.new 32 32 "parking" none = .ok e →
      e' = e.setPlotLimits xr yr → e'.config = some c → ∀ n ∈ c.occupied,
      ∃ p, e'.getParkingSpaceCenter n = .ok p ∧ (⟨p.1, p.2, c.radius⟩ : Circle) ∈ e'.circles) := by
  intro H
  obtain ⟨e, he⟩ : ∃ e, Env.new 32 32 "parking" none = .ok e := ⟨_, rfl⟩
  obtain ⟨c, hc, hcase, hcfg, _, hy, _, hcirc⟩ := new_parking he
  obtain ⟨p, hp, hmem⟩ := H e _ c (0, 0) (1000, 1000) he rfl hcfg 1 (by rw [hc]; simp [ParkingConfig.default])
  have hne : c.occupied ≠ [] := by rw [hc]; simp [ParkingConfig.default]
  have hp2 : p = Env.spaceCenter 1000 c 1 := by
    unfold Env.getParkingSpaceCenter Env.setPlotLimits at hp
    simp [hcase, hcfg] at hp
    exact hp.symm
  have hm : (⟨p.1, p.2, c.radius⟩ : Circle) ∈ e.circles := hmem
  obtain ⟨n, hn, r, k, hs, hsub⟩ := C40_obstacles_in_cell he c hcfg hne
    (by rw [hc]; norm_num [ParkingConfig.default]) (by rw [hc]; norm_num [ParkingConfig.default])
    (by rw [hc]; norm_num [ParkingConfig.default]) (by rw [hc]; norm_num [ParkingConfig.default])
    (by rw [hc]; norm_num [ParkingConfig.default]) _ hm
  have hin := C40_inside_lot c e.yRange.1 (by rw [hc]; norm_num [ParkingConfig.default])
    (by rw [hc]; norm_num [ParkingConfig.default]) hs
    (hsub (show (p.1, p.2) ∈ _ by simp [Spec.circleRegion, Spec.disc]; positivity))
  have h4 := hin.2.2.2
  have hp3 : p.2 = 1000 + 4 + (0 + 0.5) * 7 := by
    rw [hp2, hc]; simp [Env.spaceCenter, ParkingConfig.default]
  simp only [hy, hp3] at h4
  rw [hc] at h4
  norm_num [ParkingConfig.default] at h4

end Mbd
