import Verif.PropsEnv

/-!
# Setup properties: C41 (empty map), C42 (setters), C43 (parking start), C44 (factory),
C59 (default poses)
-/

namespace Mbd

open Real

/-! ## C41: empty navigation map -/

theorem disc_zero (c p : V2) : p ∈ Spec.disc c 0 ↔ p = c := by
  unfold Spec.disc
  simp only [Set.mem_ofPred_eq]
  constructor
  · intro h
    have h1 : p.1 - c.1 = 0 := by nlinarith [sq_nonneg (p.1 - c.1), sq_nonneg (p.2 - c.2)]
    have h2 : p.2 - c.2 = 0 := by nlinarith [sq_nonneg (p.1 - c.1), sq_nonneg (p.2 - c.2)]
    ext <;> linarith
  · rintro rfl; simp

/-- C41, what holds instead: in a fresh navigation environment a state is reported as colliding
exactly when the outline of the tractor or of the trailer passes through the origin, where the
constructor places a zero-radius obstacle.  Missing for the full property: those states. -/
theorem C41_partial {w h : ℝ} {e : Env} (he : Env.new w h "navigation" none = .ok e) (P : Params)
    (hs : Spec.SidesOK P) (hc : P.circles = e.circles) (hr : P.rects = e.rects) (q : Q4) :
    TT2d.checkObstacle P q ↔
      (0, 0) ∈ Spec.outline (bodyCenter (q.px, q.py) q.th1 P.lr (P.l1 + P.lf1)) q.th1
        ((P.l1 + P.lf1 + P.lr) / 2) (P.tractorWidth / 2) ∨
      (0, 0) ∈ Spec.outline (bodyCenter (Spec.trailerAxle P q) q.th2 P.lr2 P.lf2) q.th2
        ((P.lf2 + P.lr2) / 2) (P.trailerWidth / 2) := by
  have he' : e = ⟨"navigation", (-w / 2, w / 2), (-h / 2, h / 2), none, [⟨0, 0, 0⟩], []⟩ := by
    unfold Env.new at he
    simp at he
    exact he.symm
  subst he'
  unfold TT2d.checkObstacle
  simp only [hc, hr, List.mem_singleton, List.not_mem_nil, false_and, exists_false, or_false,
    exists_eq_left]
  rw [tractorCorners_eq, trailerCorners_eq,
    rectCircle_iff_outline _ _ (by linarith [hs.tractorLen]) (by linarith [hs.tractorWid]),
    rectCircle_iff_outline _ _ (by linarith [hs.trailerLen]) (by linarith [hs.trailerWid])]
  simp only [disc_zero, exists_eq_right]

/-- The default vehicle in a fresh 32 x 32 navigation environment meets the hypotheses. -/
example : ∃ e, Env.new 32 32 "navigation" none = .ok e ∧
    Spec.SidesOK (Params.default e.circles e.rects) := by
  refine ⟨_, rfl, default_sidesOK _ _ ?_ ?_⟩ <;> simp

/-- C41 is false as stated: with no obstacle registered, the default vehicle standing with its left
rear corner at the origin is reported as colliding. -/
theorem C41_refuted :
    ¬ (∀ (e : Env), Env.new 32 32 "navigation" none = .ok e → ∀ q : Q4,
      ¬ TT2d.checkObstacle (Params.default e.circles e.rects) q) := by
  intro H
  obtain ⟨e, he⟩ : ∃ e, Env.new 32 32 "navigation" none = .ok e := ⟨_, rfl⟩
  have hcr : e.circles = [⟨0, 0, 0⟩] ∧ e.rects = [] := by
    unfold Env.new at he
    simp at he
    subst he; exact ⟨rfl, rfl⟩
  apply H e he ⟨1.848, -1, 0, 0⟩
  rw [C41_partial he (Params.default e.circles e.rects)
    (default_sidesOK _ _ (by rw [hcr.1]; simp) (by rw [hcr.2]; simp)) rfl rfl]
  left
  refine ⟨-((3.23 + 0.9 + 1.848) / 2), 1, ?_, ?_, ?_, ?_⟩
  · norm_num [Params.default, abs_of_nonpos]
  · norm_num [Params.default]
  · right; norm_num [Params.default]
  · norm_num [Params.default, bodyCenter, Spec.frame]

/-- C41: after registering an empty list of circles the placeholder is gone and no state collides. -/
theorem C41_cleared {w h : ℝ} {e : Env} (he : Env.new w h "navigation" none = .ok e) (pad : ℝ)
    (P : Params) (hc : P.circles = (e.setCircleObs [] pad).1.circles)
    (hr : P.rects = (e.setCircleObs [] pad).1.rects) (q : Q4) : ¬ TT2d.checkObstacle P q := by
  have : e.rects = [] := by
    unfold Env.new at he
    simp at he
    subst he; rfl
  unfold Env.setCircleObs Env.convertAll at hc hr
  simp only at hc hr
  rw [this] at hr
  unfold TT2d.checkObstacle
  simp [hc, hr]

example : ∃ e, Env.new 32 32 "navigation" none = .ok e ∧ ∀ q : Q4,
    ¬ TT2d.checkObstacle (Params.default (e.setCircleObs [] 0).1.circles (e.setCircleObs [] 0).1.rects) q :=
  ⟨_, rfl, fun q => C41_cleared (w := 32) (h := 32) rfl 0 _ rfl rfl q⟩

/-! ## C42: dimensions and setter semantics -/

theorem adapt_length (k : Kind) (hk : ∀ n, k = .nTrailer n → 1 ≤ n) (v d a b c t : ℝ) :
    (Robot.adapt k v d [a, b, c, t]).length = k.obsSize := by
  cases k with
  | tractorTrailer => rfl
  | bicycle => rfl
  | acc => rfl
  | nTrailer n =>
    have := hk n rfl
    simp [Robot.adapt, Robot.augment, Kind.obsSize]
    omega

theorem initPose_shape (r : Robot) (a : Robot.InitArgs) {p : List ℝ} (h : r.initPose a = .ok p) :
    ∃ x y, p = [x, y, a.theta1, a.theta2] := by
  unfold Robot.initPose at h
  split at h
  · split at h
    · exact absurd h (by simp)
    · simp only at h
      split at h
      · exact absurd h (by simp)
      · injection h with h; exact ⟨_, _, h.symm⟩
  · split at h
    · injection h with h; exact ⟨_, _, h.symm⟩
    · injection h with h; exact ⟨_, _, h.symm⟩

/-- Both stored states have the reported dimension, and the kind is fixed. -/
def Spec.DimsOK (k : Kind) (r : Robot) : Prop :=
  r.kind = k ∧ r.x0.length = k.obsSize ∧ r.xg.length = k.obsSize

theorem dims_call {k : Kind} (hk : ∀ n, k = .nTrailer n → 1 ≤ n) {r : Robot} (h : Spec.DimsOK k r)
    (c : Robot.Call) : Spec.DimsOK k (r.call c) := by
  obtain ⟨h1, h2, h3⟩ := h
  cases c with
  | init a =>
    simp only [Robot.call]
    unfold Robot.setInitPos
    cases hp : r.initPose a with
    | error e => exact ⟨h1, h2, h3⟩
    | ok p =>
      obtain ⟨x, y, rfl⟩ := initPose_shape r a hp
      refine ⟨h1, ?_, h3⟩
      simp only [h1]
      exact adapt_length k hk _ _ _ _ _ _
  | goal a =>
    simp only [Robot.call]
    unfold Robot.setGoalPos
    refine ⟨h1, h2, ?_⟩
    simp only [h1]
    exact adapt_length k hk _ _ _ _ _ _
  | rects o m p =>
    simp only [Robot.call]
    unfold Robot.setRectangleObs
    rcases r.env.setRectangleObs o m p with ⟨e, _ | l⟩ <;> exact ⟨h1, h2, h3⟩
  | circles o p =>
    simp only [Robot.call]
    unfold Robot.setCircleObs
    rcases r.env.setCircleObs o p with ⟨e, _ | l⟩ <;> exact ⟨h1, h2, h3⟩

/-- C42: after construction and any sequence of setter calls (raising or not), initial and goal
state have the dimension the robot reports as `observation_size`. -/
theorem C42_dims (name : String) (nt : ℤ) (k : Kind) (hname : getEnvKind name nt = .ok k) (e : Env)
    (case : String) (l1 : ℝ) (r : Robot) (hr : Robot.new k e case l1 = .ok r)
    (calls : List Robot.Call) :
    Spec.DimsOK k (calls.foldl Robot.call r) := by
  have hk : ∀ n, k = .nTrailer n → 1 ≤ n := by
    rintro n rfl
    unfold getEnvKind at hname
    simp only at hname
    split_ifs at hname <;> simp at hname <;> omega
  have h0 : Spec.DimsOK k r := by
    have hx : ∀ {p : List ℝ}, e.getDefaultInitPos case = .ok p → ∃ a b c d, p = [a, b, c, d] := by
      intro p hp
      unfold Env.getDefaultInitPos at hp
      split_ifs at hp
      injection hp with hp; exact ⟨_, _, _, _, hp.symm⟩
    have hg : ∀ {p : List ℝ}, e.getDefaultGoalPos case = .ok p → ∃ a b c d, p = [a, b, c, d] := by
      intro p hp
      unfold Env.getDefaultGoalPos at hp
      split_ifs at hp
      split at hp
      · exact absurd hp (by simp)
      · split at hp
        · exact absurd hp (by simp)
        · split at hp
          · exact absurd hp (by simp)
          · injection hp with hp; exact ⟨_, _, _, _, hp.symm⟩
    unfold Robot.new at hr
    simp only at hr
    split at hr
    · exact absurd hr (by simp)
    · rename_i a ha
      split at hr
      · exact absurd hr (by simp)
      · rename_i b hb
        injection hr with hr
        subst hr
        have ha' : ∃ x y z w, a = [x, y, z, w] := by
          split_ifs at ha
          · exact hx ha
          · injection ha with ha; exact ⟨_, _, _, _, ha.symm⟩
        have hb' : ∃ x y z w, b = [x, y, z, w] := by
          split_ifs at hb
          · exact hg hb
          · injection hb with hb; exact ⟨_, _, _, _, hb.symm⟩
        obtain ⟨_, _, _, _, rfl⟩ := ha'
        obtain ⟨_, _, _, _, rfl⟩ := hb'
        exact ⟨rfl, adapt_length k hk _ _ _ _ _ _, adapt_length k hk _ _ _ _ _ _⟩
  clear hr
  induction calls generalizing r with
  | nil => exact h0
  | cons c cs ih => exact ih _ (dims_call hk h0 c)

/-- A three-trailer robot in a navigation environment, two setter calls later, has 6D states. -/
example (e : Env) (r : Robot) (hr : Robot.new (.nTrailer 3) e "navigation" 3.23 = .ok r) :
    (((r.setInitPos { x := some 1 }).1).setGoalPos { theta2 := some 2 }).xg.length = 6 :=
  (C42_dims "tt2d" 3 _ (by rfl) e _ _ r hr [.init { x := some 1 }, .goal { theta2 := some 2 }]).2.2

/-- C42: `set_goal_pos` replaces exactly the given pose components and keeps the others, for every
class; obstacles, environment and initial state are untouched.  (`theta2` concerns classes with a
trailer; for the train it sets every trailer to the same angle.) -/
theorem C42_goal (r : Robot) (k : Kind) (hd : Spec.DimsOK k r) (a : Robot.GoalArgs) :
    (r.setGoalPos a).xg[0]? = some (a.x.getD (r.xg.getD 0 0)) ∧
    (r.setGoalPos a).xg[1]? = some (a.y.getD (r.xg.getD 1 0)) ∧
    (r.setGoalPos a).xg[2]? = some (a.theta1.getD (r.xg.getD 2 0)) ∧
    (k ≠ .bicycle → (r.setGoalPos a).xg[3]? = some (a.theta2.getD (r.xg.getD 3 0))) ∧
    (∀ n, k = .nTrailer n → ∀ i < n,
      (r.setGoalPos a).xg[3 + i]? = some (a.theta2.getD (r.xg.getD 3 0))) ∧
    (r.setGoalPos a).x0 = r.x0 ∧ (r.setGoalPos a).env = r.env ∧
    (r.setGoalPos a).circles = r.circles ∧ (r.setGoalPos a).rects = r.rects := by
  obtain ⟨hk, -, -⟩ := hd
  unfold Robot.setGoalPos
  simp only [hk]
  refine ⟨?_, ?_, ?_, ?_, ?_, trivial, trivial, trivial, trivial⟩
  · cases k <;> simp [Robot.adapt, Robot.augment]
  · cases k <;> simp [Robot.adapt, Robot.augment]
  · cases k <;> simp [Robot.adapt, Robot.augment]
  · intro hne
    cases k with
    | bicycle => exact absurd rfl hne
    | tractorTrailer => rfl
    | acc => rfl
    | nTrailer n => simp [Robot.adapt, Robot.augment]
  · rintro n rfl i hi
    have hlist : ∀ t : ℝ, Robot.adapt (.nTrailer n) a.v a.delta
        [a.x.getD (r.xg.getD 0 0), a.y.getD (r.xg.getD 1 0), a.theta1.getD (r.xg.getD 2 0), t]
        = [a.x.getD (r.xg.getD 0 0), a.y.getD (r.xg.getD 1 0), a.theta1.getD (r.xg.getD 2 0)]
          ++ List.replicate n t := by
      intro t
      obtain ⟨m, rfl⟩ : ∃ m, n = m + 1 := ⟨n - 1, by omega⟩
      simp [Robot.adapt, Robot.augment, List.replicate_succ]
    rw [hlist, List.getElem?_append_right (by simp)]
    simp [hi]

/-- A tractor-trailer whose goal heading is changed keeps its goal position. -/
example (e : Env) : ((Robot.mk .tractorTrailer e 3.23 [0, 0, 0, 0] [5, 6, 1, 1] [] []).setGoalPos
    { theta1 := some 2 }).xg[0]? = some 5 :=
  (C42_goal (Robot.mk .tractorTrailer e 3.23 [0, 0, 0, 0] [5, 6, 1, 1] [] []) .tractorTrailer
    ⟨rfl, rfl, rfl⟩ { theta1 := some 2 }).1

/-- All trailers of a stored train state have the same angle. -/
def Spec.Uniform (n : ℕ) (x : List ℝ) : Prop := ∀ i < n, x[3 + i]? = x[3]?

/-- C42, train: a goal set without `theta2` keeps every trailer angle, because the stored goal angles
of all trailers always agree (an invariant of construction and of every setter). -/
theorem C42_train_uniform (n : ℕ) (r : Robot) (hk : r.kind = .nTrailer n) (a : Robot.GoalArgs) :
    Spec.Uniform n (r.setGoalPos a).xg ∧
    (Spec.Uniform n r.xg → r.xg.length = 3 + n → a.theta2 = none →
      ∀ i < n, (r.setGoalPos a).xg[3 + i]? = r.xg[3 + i]?) := by
  have key : ∀ i < n, (r.setGoalPos a).xg[3 + i]? = some (a.theta2.getD (r.xg.getD 3 0)) := by
    intro i hi
    have hlist : ∀ x y z t v d : ℝ, Robot.adapt (.nTrailer n) v d [x, y, z, t]
        = [x, y, z] ++ List.replicate n t := by
      intro x y z t v d
      obtain ⟨m, rfl⟩ : ∃ m, n = m + 1 := ⟨n - 1, by omega⟩
      simp [Robot.adapt, Robot.augment, List.replicate_succ]
    unfold Robot.setGoalPos
    simp only [hk]
    rw [hlist, List.getElem?_append_right (by simp)]
    simp [hi]
  refine ⟨fun i hi => ?_, fun hu hl ht i hi => ?_⟩
  · rw [key i hi]
    have := key 0 (by omega)
    rw [← this]
  · rw [key i hi, hu i hi, ht]
    simp only [Option.getD_none]
    have h3 : 3 < r.xg.length := by omega
    rw [List.getD_eq_getElem?_getD, List.getElem?_eq_getElem h3]; rfl

example (e : Env) := C42_train_uniform 2 (Robot.mk (.nTrailer 2) e 3.23 [0, 0, 0, 0, 0] [5, 6, 1, 1, 1] [] [])
  rfl { theta1 := some 2 }

/-- C42: explicit coordinates are stored as given, for every class (whenever the parking-relative
form is not used). -/
theorem C42_init_explicit (r : Robot) (x y t1 t2 v d : ℝ) :
    (r.setInitPos { x := some x, y := some y, theta1 := t1, theta2 := t2, v := v, delta := d }).1.x0 =
      match r.kind with
      | .tractorTrailer => [x, y, t1, t2]
      | .bicycle => [x, y, t1]
      | .nTrailer n => [x, y, t1] ++ ([t2] ++ List.replicate (n - 1) t2)
      | .acc => [x, y, t1, t2, v, d] := by
  unfold Robot.setInitPos Robot.initPose
  simp only [Option.isSome_none, Option.isSome_some, Bool.false_eq_true, false_and, and_false,
    if_false, and_true, if_true, Option.getD_some]
  cases r.kind <;> rfl

/-- C42 fails for the rates of the acceleration model: changing only the goal heading resets a goal
speed set earlier. -/
theorem C42_acc_rates_refuted :
    ¬ (∀ (r : Robot), r.kind = .acc → r.xg.length = 6 → ∀ t : ℝ,
      (r.setGoalPos { theta1 := some t }).xg[4]? = r.xg[4]?) := by
  intro H
  have := H ⟨.acc, ⟨"navigation", (0, 0), (0, 0), none, [], []⟩, 1, [], [0, 0, 0, 0, 1, 0], [], []⟩
    rfl rfl 0
  simp [Robot.setGoalPos, Robot.adapt] at this

/-! ## C43: parking-relative start -/

theorem sortByY_spec (l : List (ℝ × ℝ)) (lo : ℝ × ℝ) (rest : List (ℝ × ℝ))
    (h : Robot.sortByY l = lo :: rest) :
    lo ∈ l ∧ (∀ p ∈ l, lo.2 ≤ p.2) ∧
    (lo :: rest).getLast (by simp) ∈ l ∧ ∀ p ∈ l, p.2 ≤ ((lo :: rest).getLast (by simp)).2 := by
  have hperm : (lo :: rest).Perm l := by
    rw [← h]; exact List.perm_insertionSort _ l
  have hsort : List.Pairwise (fun a b : ℝ × ℝ => a.2 ≤ b.2) (lo :: rest) := by
    rw [← h]
    haveI : Std.Total (fun a b : ℝ × ℝ => a.2 ≤ b.2) := ⟨fun a b => le_total a.2 b.2⟩
    haveI : IsTrans (ℝ × ℝ) (fun a b => a.2 ≤ b.2) := ⟨fun a b c => le_trans⟩
    exact List.pairwise_insertionSort _ l
  refine ⟨hperm.subset (by simp), ?_, hperm.subset (List.getLast_mem _), ?_⟩
  · intro p hp
    have hp' := hperm.symm.subset hp
    rcases List.mem_cons.mp hp' with rfl | hp'
    · exact le_rfl
    · exact (List.pairwise_cons.mp hsort).1 p hp'
  · intro p hp
    have hp' := hperm.symm.subset hp
    have hd := List.dropLast_append_getLast (l := lo :: rest) (by simp)
    rw [← hd] at hp' hsort
    rcases List.mem_append.mp hp' with hp' | hp'
    · exact (List.pairwise_append.mp hsort).2.2 p hp' _ (by simp)
    · simp at hp'; rw [hp']

/-- C43, what the code does: the front axle is `dx` to the right of the *lowest* target's centre and
the reference point is `dy` above the upper edge of the highest target.  Missing for the full
property: the x-reference is the first (tractor) target only if that is the lowest one
(`C43_first`); otherwise see `C43_refuted`. -/
theorem C43_partial (r : Robot) (c : ParkingConfig) (hcase : r.env.case = "parking")
    (hc : r.env.config = some c) (hne : c.target ≠ []) (dx dy t1 t2 : ℝ) (x y : Option ℝ) :
    ∃ lo ∈ c.target, ∃ hi ∈ c.target, ∃ plo phi px py,
      r.env.getParkingSpaceCenter lo = .ok plo ∧ r.env.getParkingSpaceCenter hi = .ok phi ∧
      (∀ t ∈ c.target, ∀ p, r.env.getParkingSpaceCenter t = .ok p → plo.2 ≤ p.2 ∧ p.2 ≤ phi.2) ∧
      r.initPose { x := x, y := y, dx := some dx, dy := some dy, theta1 := t1, theta2 := t2 }
        = .ok [px, py, t1, t2] ∧
      px + r.l1 * cos t1 = plo.1 + dx ∧
      py = phi.2 + c.spaceLength / 2 + dy := by
  have hcen : ∀ t, r.env.getParkingSpaceCenter t = .ok (Env.spaceCenter r.env.yRange.1 c t) := by
    intro t; unfold Env.getParkingSpaceCenter; simp [hcase, hc]
  cases hs : Robot.sortByY (c.target.map (Env.spaceCenter r.env.yRange.1 c)) with
  | nil =>
    exfalso
    have := (List.perm_insertionSort (fun a b : ℝ × ℝ => a.2 ≤ b.2)
      (c.target.map (Env.spaceCenter r.env.yRange.1 c))).length_eq
    unfold Robot.sortByY at hs
    rw [hs] at this
    simp at this
    exact hne (List.eq_nil_of_length_eq_zero this.symm)
  | cons lo rest =>
    obtain ⟨h1, h2, h3, h4⟩ := sortByY_spec _ lo rest hs
    obtain ⟨tlo, htlo, rfl⟩ := List.mem_map.mp h1
    obtain ⟨thi, hthi, hhi⟩ := List.mem_map.mp h3
    refine ⟨tlo, htlo, thi, hthi, _, _,
      (Env.spaceCenter r.env.yRange.1 c tlo).1 + dx - r.l1 * cos t1,
      (Env.spaceCenter r.env.yRange.1 c thi).2 + c.spaceLength / 2 + dy,
      hcen _, hcen _, ?_, ?_, ?_, rfl⟩
    · intro t ht p hp
      rw [hcen] at hp
      injection hp with hp
      subst hp
      have := List.mem_map_of_mem (f := Env.spaceCenter r.env.yRange.1 c) ht
      exact ⟨h2 _ this, by rw [hhi]; exact h4 _ this⟩
    · unfold Robot.initPose
      simp only [hcase, Option.isSome_some, and_self, if_true, hc, Option.getD_some]
      rw [hs]
      simp only [hhi]
    · ring

example : ∃ e c, Env.new 32 32 "parking" none = .ok e ∧ e.case = "parking" ∧ e.config = some c ∧
    c.target ≠ [] :=
  ⟨_, _, rfl, rfl, rfl, by simp [ParkingConfig.default]⟩

/-- C43 when the first target is a lowest one (as in the default configuration): the front axle is
`dx` from the tractor target's centre. -/
theorem C43_first (r : Robot) (c : ParkingConfig) (hcase : r.env.case = "parking")
    (hc : r.env.config = some c) (t : ℤ) (ts : List ℤ) (ht : c.target = t :: ts)
    (hlow : ∀ s ∈ ts, ∀ p ps, r.env.getParkingSpaceCenter t = .ok p →
      r.env.getParkingSpaceCenter s = .ok ps → p.2 ≤ ps.2) (dx dy t1 t2 : ℝ) :
    ∃ p px py, r.env.getParkingSpaceCenter t = .ok p ∧
      r.initPose { dx := some dx, dy := some dy, theta1 := t1, theta2 := t2 }
        = .ok [px, py, t1, t2] ∧ px + r.l1 * cos t1 = p.1 + dx := by
  have hcen : ∀ t, r.env.getParkingSpaceCenter t = .ok (Env.spaceCenter r.env.yRange.1 c t) := by
    intro t; unfold Env.getParkingSpaceCenter; simp [hcase, hc]
  set f := Env.spaceCenter r.env.yRange.1 c with hf
  have hsort : Robot.sortByY (c.target.map f) = f t :: Robot.sortByY (ts.map f) := by
    rw [ht, List.map_cons]
    unfold Robot.sortByY
    rw [List.insertionSort_cons]
    cases hi : List.insertionSort (fun a b : ℝ × ℝ => a.2 ≤ b.2) (ts.map f) with
    | nil => rfl
    | cons b l =>
      have hb : b ∈ ts.map f :=
        (List.perm_insertionSort (fun a b : ℝ × ℝ => a.2 ≤ b.2) (ts.map f)).subset (by rw [hi]; simp)
      obtain ⟨s, hs, rfl⟩ := List.mem_map.mp hb
      rw [List.orderedInsert_cons_of_le]
      exact hlow s hs _ _ (hcen t) (hcen s)
  have hx : ∃ py, r.initPose { dx := some dx, dy := some dy, theta1 := t1, theta2 := t2 }
      = .ok [(f t).1 + dx - r.l1 * cos t1, py, t1, t2] := by
    unfold Robot.initPose
    simp only [hcase, Option.isSome_some, and_self, if_true, hc, Option.getD_some]
    rw [← hf, hsort]
    exact ⟨_, rfl⟩
  obtain ⟨py, hx⟩ := hx
  exact ⟨f t, _, py, hcen t, hx, by ring⟩

/-- Default parking layout, first target 3 (row 0), second target 11 (row 1). -/
example : ∃ e, Env.new 32 32 "parking" none = .ok e ∧ ∀ p ps,
    e.getParkingSpaceCenter 3 = .ok p → e.getParkingSpaceCenter 11 = .ok ps → p.2 ≤ ps.2 := by
  refine ⟨_, rfl, ?_⟩
  intro p ps h1 h2
  obtain ⟨c, hc, hcase, hcfg, _, hy, _⟩ := new_parking (w := 32) (h := 32) (pc := none) rfl
  rw [C40_center _ c hcase hcfg 3 0 2 (by rw [hc]; simp [Spec.IsSpace, ParkingConfig.default])] at h1
  rw [C40_center _ c hcase hcfg 11 1 2 (by rw [hc]; simp [Spec.IsSpace, ParkingConfig.default])] at h2
  injection h1 with h1
  injection h2 with h2
  subst h1; subst h2
  rw [hc]
  norm_num [Spec.cellMiddle, ParkingConfig.default]

/-- C43 is false as stated: with the tractor target in the upper row and the trailer target in
another column of the lower row, `dx` is measured from the trailer target. -/
theorem C43_refuted :
    ¬ (∀ (r : Robot) (c : ParkingConfig) (t : ℤ) (ts : List ℤ), r.env.case = "parking" →
      r.env.config = some c → c.target = t :: ts → (∀ n ∈ c.target, 1 ≤ n ∧ n ≤ c.rows * c.cols) →
      ∀ dx dy t1 t2 : ℝ, ∃ p px py, r.env.getParkingSpaceCenter t = .ok p ∧
      r.initPose { dx := some dx, dy := some dy, theta1 := t1, theta2 := t2 }
        = .ok [px, py, t1, t2] ∧ px + r.l1 * cos t1 = p.1 + dx) := by
  intro H
  let c : ParkingConfig := { ParkingConfig.default with target := [12, 3] }
  let e : Env := ⟨"parking", (-16, 16), (-16, 16), some c, [], []⟩
  let r : Robot := ⟨.tractorTrailer, e, 0, [], [], [], []⟩
  obtain ⟨p, px, py, h1, h2, h3⟩ := H r c 12 [3] rfl rfl rfl
    (by simp [c, ParkingConfig.default]) 0 0 0 0
  obtain ⟨lo, hlo, hi, hhi, plo, phi, px', py', g1, g2, g3, g4, g5, g6⟩ :=
    C43_partial r c rfl rfl (by simp [c]) 0 0 0 0 none none
  rw [h2] at g4
  injection g4 with g4
  simp only [List.cons.injEq] at g4
  have e3 := C40_center e c rfl rfl 3 0 2 (by simp [Spec.IsSpace, c, ParkingConfig.default])
  have e12 := C40_center e c rfl rfl 12 1 3 (by simp [Spec.IsSpace, c, ParkingConfig.default])
  have hlow := (g3 3 (by simp [c]) _ e3).1
  have hlo' : lo = 3 := by
    simp only [c, List.mem_cons, List.not_mem_nil, or_false] at hlo
    rcases hlo with rfl | rfl
    · exfalso
      rw [show r.env = e from rfl, e12] at g1
      injection g1 with g1
      subst g1
      norm_num [Spec.cellMiddle, c, ParkingConfig.default] at hlow
    · rfl
  subst hlo'
  rw [show r.env = e from rfl] at h1 g1
  rw [e3] at g1
  rw [e12] at h1
  injection g1 with g1
  injection h1 with h1
  subst g1; subst h1
  rw [← g4.1, h3] at g5
  norm_num [Spec.cellMiddle, Spec.lotX, c, ParkingConfig.default] at g5

/-- The documented meaning of `dx` ("tractor front face", README and docstring) also fails: the
front face of the default vehicle is `lf1` further ahead. -/
theorem C43_front_face_refuted :
    ¬ (∀ (r : Robot) (c : ParkingConfig) (t : ℤ), r.env.case = "parking" →
      r.env.config = some c → c.target = [t] → r.l1 = 3.23 →
      ∀ dx dy t1 t2 : ℝ, ∃ p px py, r.env.getParkingSpaceCenter t = .ok p ∧
      r.initPose { dx := some dx, dy := some dy, theta1 := t1, theta2 := t2 }
        = .ok [px, py, t1, t2] ∧ (Spec.frame (px, py) t1 (3.23 + 0.9) 0).1 = p.1 + dx) := by
  intro H
  let c : ParkingConfig := { ParkingConfig.default with target := [3] }
  let e : Env := ⟨"parking", (-16, 16), (-16, 16), some c, [], []⟩
  let r : Robot := ⟨.tractorTrailer, e, 3.23, [], [], [], []⟩
  obtain ⟨p, px, py, h1, h2, h3⟩ := H r c 3 rfl rfl rfl rfl 0 0 0 0
  obtain ⟨p', px', py', g1, g2, g3⟩ := C43_first r c rfl rfl 3 [] rfl (by simp) 0 0 0 0
  rw [h1] at g1
  injection g1 with g1
  subst g1
  rw [h2] at g2
  injection g2 with g2
  simp only [List.cons.injEq] at g2
  simp only [Spec.frame, cos_zero, sin_zero] at h3
  rw [← g2.1] at g3
  simp only [r, cos_zero] at g3
  linarith

/-! ## C44: factory -/

/-- C44: the class built for each name and count. -/
theorem C44_dispatch (n : ℤ) :
    (getEnvKind "tt2d" n = .ok .bicycle ↔ n = 0) ∧
    (getEnvKind "tt2d" 1 = .ok .tractorTrailer) ∧
    (2 ≤ n → getEnvKind "tt2d" n = .ok (.nTrailer n.toNat)) ∧
    (2 ≤ n → getEnvKind "n_trailer2d" n = .ok (.nTrailer n.toNat)) ∧
    (n < 2 → getEnvKind "n_trailer2d" n = .error .assertion) ∧
    getEnvKind "acc_tt2d" n = .ok .acc ∧
    getEnvKind "kinematic_bicycle2d" n = .ok .bicycle := by
  unfold getEnvKind
  simp only [reduceIte, String.reduceEq]
  refine ⟨?_, by decide, ?_, ?_, ?_, trivial, trivial⟩
  · constructor
    · intro h
      split_ifs at h with h1 h2
      · exact h1
      · simp at h
      · simp at h
    · rintro rfl; simp
  · intro h; rw [if_neg (by omega), if_pos h, if_pos h]
  · intro h; rw [if_pos h]
  · intro h; rw [if_neg (by omega)]

/-- C44: a name is rejected with `ValueError` exactly when it is none of the four known ones; no
other outcome than a robot, that error or the assertion of the N-trailer class is possible. -/
theorem C44_unknown (name : String) (n : ℤ) :
    getEnvKind name n = .error .unknownEnvironment ↔
      name ∉ ["tt2d", "n_trailer2d", "acc_tt2d", "kinematic_bicycle2d"] := by
  unfold getEnvKind
  simp only [List.mem_cons, List.not_mem_nil, or_false, not_or]
  constructor
  · intro h
    split_ifs at h with h1 h2 h3 h4 h5 h6 h7 h8 <;> first | contradiction | exact ⟨h1, by assumption, by assumption, by assumption⟩
  · rintro ⟨h1, h2, h3, h4⟩
    simp [h1, h2, h3, h4]

example : getEnvKind "tt3d" 1 = .error .unknownEnvironment :=
  (C44_unknown _ _).mpr (by decide)

/-- C44: the train has as many trailers as requested. -/
theorem C44_count (name : String) (n : ℤ) (m : ℕ) (h : getEnvKind name n = .ok (.nTrailer m)) :
    (m : ℤ) = n ∧ 2 ≤ m ∧ (Kind.nTrailer m).numTrailers = m ∧ (Kind.nTrailer m).obsSize = 3 + m := by
  unfold getEnvKind at h
  simp only at h
  split_ifs at h <;> simp at h <;> exact ⟨by omega, by omega, rfl, rfl⟩

example := C44_count "tt2d" 3 3 rfl

/-- C44 fails for the attribute and for the other classes: the built robot does not in general
report the requested number of trailers. -/
theorem C44_count_refuted :
    ¬ (∀ (name : String) (n : ℤ) (k : Kind), getEnvKind name n = .ok k → (k.numTrailers : ℤ) = n) := by
  intro H
  exact absurd (H "tt2d" 0 .bicycle rfl) (by decide)

/-- The acceleration model silently ignores the requested count, and negative counts build a
single-trailer robot. -/
theorem C44_ignored : getEnvKind "acc_tt2d" 3 = .ok .acc ∧ Kind.acc.numTrailers = 1 ∧
    ∀ n : ℤ, n < 0 → getEnvKind "tt2d" n = .ok .tractorTrailer := by
  refine ⟨rfl, rfl, fun n hn => ?_⟩
  unfold getEnvKind
  simp only [reduceIte]
  rw [if_neg (by omega), if_neg (by omega)]

/-! ## C59: default poses of the parking scenario -/

theorem default_circles {e : Env} (he : Env.new 32 32 "parking" none = .ok e) :
    ∀ o ∈ e.circles, o.r = 1 ∧ 3 ≤ |o.x + 5.25| := by
  obtain ⟨c, hc, _, _, _, _, _, hcirc⟩ := new_parking he
  have hc' : c = ParkingConfig.default := hc
  rw [hcirc (by rw [hc']; simp [ParkingConfig.default]), hc']
  intro o ho
  unfold Env.obsCircleParking at ho
  rw [List.mem_flatMap] at ho
  obtain ⟨n, hn, ho⟩ := ho
  have hx : o.x = (Env.spaceCenter (-32 / 2) ParkingConfig.default n).1 ∧ o.r = 1 := by
    simp only [List.mem_cons, List.not_mem_nil, or_false] at ho
    rcases ho with rfl | rfl | rfl <;> exact ⟨rfl, rfl⟩
  refine ⟨hx.2, ?_⟩
  rw [hx.1]
  have hcol : ∃ k : ℤ, (n - 1).fmod 8 = k ∧ (k ≤ 1 ∨ 3 ≤ k) ∧ 0 ≤ k := by
    simp only [ParkingConfig.default, List.mem_cons, List.not_mem_nil, or_false] at hn
    rcases hn with rfl | rfl | rfl | rfl | rfl | rfl | rfl | rfl | rfl | rfl | rfl | rfl <;>
      exact ⟨_, rfl, by decide, by decide⟩
  obtain ⟨k, hk, h1, h2⟩ := hcol
  have e1 : (Env.spaceCenter (-32 / 2) ParkingConfig.default n).1
      = -14 + ((k : ℝ) + 0.5) * 3.5 := by
    unfold Env.spaceCenter
    simp only [ParkingConfig.default]
    rw [hk]
    norm_num
  rw [e1, le_abs]
  rcases h1 with h1 | h1
  · right
    have : (k : ℝ) ≤ 1 := by exact_mod_cast h1
    norm_num; linarith
  · left
    have : (3 : ℝ) ≤ k := by exact_mod_cast h1
    norm_num; linarith

/-- C59: the default goal pose of the default parking scenario is collision free for the default
vehicle, geometrically and for the robot's checks.  (Missing: the start pose, which is not, see
`C59_start_refuted`.) -/
theorem C59_goal_partial {e : Env} (he : Env.new 32 32 "parking" none = .ok e) :
    ∃ gx gy, e.getDefaultGoalPos "parking" = .ok [gx, gy, -π / 2, -π / 2] ∧
      Spec.SafeTT (Params.default e.circles e.rects) ⟨gx, gy, -π / 2, -π / 2⟩ ∧
      ¬ TT2d.checkCollision (Params.default e.circles e.rects) ⟨gx, gy, -π / 2, -π / 2⟩ := by
  have hcs := default_circles he
  obtain ⟨c, hc, hcase, hcfg, _, hy, hrects, _⟩ := new_parking he
  have hc' : c = ParkingConfig.default := hc
  have hgoal : e.getDefaultGoalPos "parking" = .ok [-5.25, -8.5, -π / 2, -π / 2] := by
    unfold Env.getDefaultGoalPos
    simp only [if_true, hcfg]
    have ht : c.target = [3, 11] := by rw [hc']; rfl
    rw [ht]
    simp only
    rw [C40_center e c hcase hcfg 3 0 2 (by rw [hc']; simp [Spec.IsSpace, ParkingConfig.default])]
    simp only [hy, hc']
    norm_num [Spec.cellMiddle, Spec.lotX, ParkingConfig.default]
  have hcos : cos (-π / 2) = 0 := by rw [neg_div, cos_neg, cos_pi_div_two]
  have hsin : sin (-π / 2) = -1 := by rw [neg_div, sin_neg, sin_pi_div_two]
  set P := Params.default e.circles e.rects with hP
  have hbody : ∀ p : V2, p ∈ Spec.tractorBody P (-5.25) (-8.5) (-π / 2) ∨
      p ∈ Spec.trailerBody P ⟨-5.25, -8.5, -π / 2, -π / 2⟩ →
      |p.1 + 5.25| ≤ 1.25 ∧ -13 ≤ p.2 ∧ p.2 ≤ 0 := by
    intro p hp
    rcases hp with ⟨s, t, h1, h2, h3, rfl⟩ | ⟨s, t, h1, h2, h3, rfl⟩
    · simp only [hP, Params.default] at h1 h2 h3
      rw [abs_le] at h3
      simp only [Spec.frame, hcos, hsin]
      rw [abs_le]
      norm_num at *
      refine ⟨⟨?_, ?_⟩, ?_, ?_⟩ <;> linarith [h3.1, h3.2]
    · simp only [hP, Params.default] at h1 h2 h3
      rw [abs_le] at h3
      simp only [Spec.frame, Spec.trailerAxle, hcos, hsin, hP, Params.default]
      rw [abs_le]
      norm_num at *
      refine ⟨⟨?_, ?_⟩, ?_, ?_⟩ <;> linarith [h3.1, h3.2]
  have hcirc : ∀ o ∈ P.circles, ∀ p : V2, p ∈ Spec.tractorBody P (-5.25) (-8.5) (-π / 2) ∨
      p ∈ Spec.trailerBody P ⟨-5.25, -8.5, -π / 2, -π / 2⟩ → p ∈ Spec.circleRegion o → False := by
    intro o ho p hp hq
    obtain ⟨hr, hx⟩ := hcs o ho
    obtain ⟨h1, -, -⟩ := hbody p hp
    have hq' : (p.1 - o.x) ^ 2 + (p.2 - o.y) ^ 2 ≤ o.r ^ 2 := hq
    rw [hr] at hq'
    have hd : |p.1 - o.x| ≤ 1 := abs_le_of_sq_le_sq (by nlinarith [sq_nonneg (p.2 - o.y)]) one_pos.le
    have htri : |o.x + 5.25| ≤ |p.1 + 5.25| + |p.1 - o.x| := by
      have := abs_sub (p.1 + 5.25) (p.1 - o.x)
      rwa [show p.1 + 5.25 - (p.1 - o.x) = o.x + 5.25 by ring] at this
    norm_num at *
    linarith
  have hrect : ∀ o ∈ P.rects, ∀ p : V2, p ∈ Spec.tractorBody P (-5.25) (-8.5) (-π / 2) ∨
      p ∈ Spec.trailerBody P ⟨-5.25, -8.5, -π / 2, -π / 2⟩ → p ∈ Spec.rectRegion o → False := by
    intro o ho p hp hq
    obtain ⟨-, h1, h2⟩ := hbody p hp
    have ho' : o ∈ e.rects := ho
    rw [hrects] at ho'
    unfold Env.obsRectangleParking at ho'
    simp only [List.mem_cons, List.not_mem_nil, or_false] at ho'
    rcases ho' with rfl | rfl
    · simp only [Spec.rectRegion] at hq
      rw [solidRect_zero] at hq
      have := hq.2.2.1
      norm_num at this; linarith
    · simp only [Spec.rectRegion] at hq
      rw [solidRect_zero] at hq
      have := hq.2.2.2
      norm_num at this; linarith
  have hsafe : Spec.SafeTT P ⟨-5.25, -8.5, -π / 2, -π / 2⟩ :=
    ⟨fun o ho => ⟨fun p hp hq => hcirc o ho p (Or.inl hp) hq, fun p hp hq => hcirc o ho p (Or.inr hp) hq⟩,
     fun o ho => ⟨fun p hp hq => hrect o ho p (Or.inl hp) hq, fun p hp hq => hrect o ho p (Or.inr hp) hq⟩⟩
  have hsides : Spec.SidesOK P := by
    apply default_sidesOK
    · intro o ho; rw [(hcs o ho).1]; norm_num
    · intro o ho
      rw [hrects] at ho
      unfold Env.obsRectangleParking at ho
      simp only [List.mem_cons, List.not_mem_nil, or_false] at ho
      rcases ho with rfl | rfl <;> norm_num
  refine ⟨-5.25, -8.5, hgoal, hsafe, ?_⟩
  rintro (h | h)
  · exact safe_passes hsides hsafe h
  · rw [C06_tt2d] at h
    have := h 0
    simp at this
    linarith [pi_pos]

example : ∃ e, Env.new 32 32 "parking" none = .ok e := ⟨_, rfl⟩

/-- C59 is false for the start: the default initial pose of the default parking scenario is reported
as colliding (the default vehicle overlaps the upper wall). -/
theorem C59_start_refuted :
    ¬ (∀ (e : Env) (x y t1 t2 : ℝ), Env.new 32 32 "parking" none = .ok e →
      e.getDefaultInitPos "parking" = .ok [x, y, t1, t2] →
      ¬ TT2d.checkObstacle (Params.default e.circles e.rects) ⟨x, y, t1, t2⟩) := by
  intro H
  obtain ⟨e, he⟩ : ∃ e, Env.new 32 32 "parking" none = .ok e := ⟨_, rfl⟩
  have hcs := default_circles he
  obtain ⟨c, hc, hcase, hcfg, hx, hy, hrects, _⟩ := new_parking he
  have h0 := H e (-14) 14 0.1 0.1 he (by
    unfold Env.getDefaultInitPos; simp only [if_true, hx, hy]; norm_num)
  have hsides : Spec.SidesOK (Params.default e.circles e.rects) := by
    apply default_sidesOK
    · intro o ho; rw [(hcs o ho).1]; norm_num
    · intro o ho
      rw [hrects] at ho
      unfold Env.obsRectangleParking at ho
      simp only [List.mem_cons, List.not_mem_nil, or_false] at ho
      rcases ho with rfl | rfl <;> norm_num
  have := (checkObstacle_clear hsides h0).1.1 ⟨0, 15, 30, 1, 0⟩ (by
    show _ ∈ e.rects
    rw [hrects]; simp [Env.obsRectangleParking])
  have hs1 : 0 ≤ sin (0.1 : ℝ) := sin_nonneg_of_nonneg_of_le_pi (by norm_num) (by linarith [two_le_pi])
  have hs2 : sin (0.1 : ℝ) ≤ 0.1 := sin_le (by norm_num)
  have hc1 : 1 - (0.1 : ℝ) ^ 2 / 2 ≤ cos 0.1 := one_sub_sq_div_two_le_cos
  have hc2 := cos_le_one (0.1 : ℝ)
  apply this (Spec.frame (-14, 14) 0.1 0 1)
  · refine ⟨0, 1, ?_, ?_, ?_, rfl⟩ <;> norm_num [Params.default]
  · simp only [Spec.rectRegion]
    rw [solidRect_zero]
    refine ⟨?_, ?_, ?_, ?_⟩ <;> simp only [Spec.frame] <;> norm_num at * <;> linarith

/-- The README recipe for another pair of targets (`parking_config['target_spaces'] = [4, 12]` on an
existing environment) yields a default goal position that lies inside an obstacle: space 4 stays
occupied. -/
theorem C59_readme_target_refuted :
    ¬ (∀ (e e' : Env) (c : ParkingConfig) (x y t1 t2 : ℝ), Env.new 32 32 "parking" none = .ok e →
      e.config = some c → e' = { e with config := some { c with target := [4, 12] } } →
      e'.getDefaultGoalPos "parking" = .ok [x, y, t1, t2] →
      ∀ o ∈ e'.circles, (x, y) ∉ Spec.circleRegion o) := by
  intro H
  obtain ⟨e, he⟩ : ∃ e, Env.new 32 32 "parking" none = .ok e := ⟨_, rfl⟩
  obtain ⟨c, hc, hcase, hcfg, hx, hy, hrects, _⟩ := new_parking he
  have hc' : c = ParkingConfig.default := hc
  obtain ⟨p, hp, hmem, -, -⟩ := C40_obstacles_of_space he c hcfg 4 (by
    rw [hc']; simp [ParkingConfig.default])
  have hp' : p = Env.spaceCenter e.yRange.1 c 4 := by
    unfold Env.getParkingSpaceCenter at hp
    simp [hcase, hcfg] at hp
    exact hp.symm
  refine H e _ c p.1 p.2 (-π / 2) (-π / 2) he hcfg rfl ?_ _ hmem ?_
  · unfold Env.getDefaultGoalPos Env.getParkingSpaceCenter
    simp only [if_true, hcase, ne_eq, not_true_eq_false, if_false]
    rw [hp']
    rfl
  · simp [Spec.circleRegion, Spec.disc]
    positivity

end Mbd
