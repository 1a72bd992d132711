import Verif.Harness
import Verif.PropsStat
import Verif.PropsEndToEnd
import Verif.PropsAcc

/-!
# C69: the integration tests judge what they promise

The robot of a scenario has exactly the obstacles of the scenario and its start; the report tells whether
the vehicle ends at the goal and which constraints were violated on the way.
-/

namespace Spec

open Real Mbd

/-- `p` is the middle of space `n` of the lot `c` on a 32 m map. -/
def SpaceAt (c : ParkingConfig) (n : ℤ) (p : Pt) : Prop :=
  ∃ r k, IsSpace c n r k ∧ p = cellMiddle c (-16) r k

end Spec

namespace Mbd

open Real Classical

/-! ## The report -/

theorem trajectoryViolations_spec {Q : Type} (E : EvalEnv Q) : ∀ xs : List Q,
    ((trajectoryViolations E xs).1 = true ↔ ∃ q ∈ xs, E.hitch q) ∧
    ((trajectoryViolations E xs).2 = true ↔ ∃ q ∈ xs, E.coll q)
  | [] => by simp [trajectoryViolations]
  | q :: qs => by
    obtain ⟨h1, h2⟩ := trajectoryViolations_spec E qs
    simp only [trajectoryViolations, Bool.or_eq_true, decide_eq_true_eq, h1, h2, List.mem_cons]
    constructor <;> constructor
    · rintro (h | ⟨x, hx, h⟩)
      · exact ⟨q, Or.inl rfl, h⟩
      · exact ⟨x, Or.inr hx, h⟩
    · rintro ⟨x, rfl | hx, h⟩
      · exact Or.inl h
      · exact Or.inr ⟨x, hx, h⟩
    · rintro (h | ⟨x, hx, h⟩)
      · exact ⟨q, Or.inl rfl, h⟩
      · exact ⟨x, Or.inr hx, h⟩
    · rintro ⟨x, rfl | hx, h⟩
      · exact Or.inl h
      · exact Or.inr ⟨x, hx, h⟩

/-- **C69 (report).** For every robot and trajectory: a test passes exactly when the lengths are right and
the nearer one of the two measured points (reference point, rear end of the trailer) ends within the
limits; the logged violations are those of the visited states; only an empty trajectory has no report. -/
theorem C69_report {Q : Type} (E : EvalEnv Q) (s : TestSetup) (H : ℕ) (actions : List U) (xs : List Q) :
    (testReport E s H actions xs = none ↔ xs = []) ∧
    ∀ r, testReport E s H actions xs = some r →
      ((r.hitch = true ↔ ∃ q ∈ xs, E.hitch q) ∧ (r.collision = true ↔ ∃ q ∈ xs, E.coll q)) ∧
      (r.passed = true ↔ actions.length = H ∧ xs.length = H + 1 ∧ ∃ q, xs.getLast? = some q ∧
        s.expectedMin ≤ dist2 (E.ref q) E.goal ∧ s.expectedMin ≤ dist2 (E.back q) E.goal ∧
        (dist2 (E.ref q) E.goal ≤ min s.expectedMax s.limit ∨
          dist2 (E.back q) E.goal ≤ min s.expectedMax s.limit)) := by
  unfold testReport
  cases h : xs.getLast? with
  | none => simpa using h
  | some q =>
    constructor
    · simp only [reduceCtorEq, false_iff]
      rintro rfl
      simp at h
    · intro r hr
      simp only [Option.some.injEq] at hr
      subst hr
      refine ⟨trajectoryViolations_spec E xs, ?_⟩
      simp only [finalMinDistance, positionSuccess, Bool.and_eq_true, Bool.or_eq_true, decide_eq_true_eq,
        le_min_iff, min_le_iff, Option.some.injEq, exists_eq_left']
      constructor
      · rintro ⟨⟨⟨⟨⟨h1, h2⟩, h3⟩, h4⟩, h5⟩, h6⟩
        refine ⟨h5, h6, h1, h2, ?_⟩
        rcases le_total (dist2 (E.ref q) E.goal) (dist2 (E.back q) E.goal) with hle | hle
        · left
          refine ⟨?_, ?_⟩
          · rcases h3 with h3 | h3
            · exact h3
            · exact hle.trans h3
          · rcases h4 with h4 | h4
            · exact h4
            · exact hle.trans h4
        · right
          refine ⟨?_, ?_⟩
          · rcases h3 with h3 | h3
            · exact hle.trans h3
            · exact h3
          · rcases h4 with h4 | h4
            · exact hle.trans h4
            · exact h4
      · rintro ⟨h5, h6, h1, h2, h3 | h3⟩
        · exact ⟨⟨⟨⟨⟨h1, h2⟩, Or.inl h3.1⟩, Or.inl h3.2⟩, h5⟩, h6⟩
        · exact ⟨⟨⟨⟨⟨h1, h2⟩, Or.inr h3.1⟩, Or.inr h3.2⟩, h5⟩, h6⟩

/-- A report that passes. -/
example (T : TT2d) (q : Q4) (hq : (q.px, q.py) = (T.xg.px, T.xg.py)) : ∃ r,
    testReport T.evalEnv {} 1 [(0, 0)] [T.x0, q] = some r ∧ r.passed = true := by
  obtain ⟨hn, hr⟩ := C69_report T.evalEnv {} 1 [(0, 0)] [T.x0, q]
  cases e : testReport T.evalEnv {} 1 [(0, 0)] [T.x0, q] with
  | none => rw [hn] at e; cases e
  | some r =>
    refine ⟨r, rfl, ((hr r e).2).2 ⟨rfl, rfl, q, rfl, Real.sqrt_nonneg _, Real.sqrt_nonneg _, Or.inl ?_⟩⟩
    simp only [TT2d.evalEnv, hq, dist2, sub_self]
    norm_num

/-- **C69 (refuted: passing means safe).** A test passes although every visited state collides: the
violations are logged, not judged. -/
theorem C69_pass_refuted :
    ¬ ∀ (T : TT2d) (s : TestSetup) (H : ℕ) (actions : List U) (xs : List Q4) (r : TestReport),
      testReport T.evalEnv s H actions xs = some r → r.passed = true → r.collision = false := by
  intro h
  let T : TT2d := { toParams := Params.default [⟨0, 0, 5⟩] [], x0 := ⟨0, 0, 0, 0⟩, xg := ⟨0, 0, 0, 0⟩ }
  have hc : TT2d.checkObstacle T.toParams ⟨0, 0, 0, 0⟩ := by
    left
    refine ⟨⟨0, 0, 5⟩, by simp [T, Params.default], Or.inl ?_⟩
    unfold Params.tractorCorners
    simp only [T, Params.default, cos_zero, sin_zero]
    have := rectCircle_axis (X := 0) (r := 5) (a := 1.141) (hl := 2.989) (hw := 1) (by norm_num) (by norm_num)
      (by norm_num) (by rw [abs_le]; constructor <;> norm_num)
    convert this using 2 <;> norm_num
  obtain ⟨hn, hr⟩ := C69_report T.evalEnv {} 0 [] [⟨0, 0, 0, 0⟩]
  cases e : testReport T.evalEnv {} 0 [] [⟨0, 0, 0, 0⟩] with
  | none => rw [hn] at e; cases e
  | some r =>
    obtain ⟨⟨-, h2⟩, h3⟩ := hr r e
    have := h T {} 0 [] _ r e (h3.2 ⟨rfl, rfl, ⟨0, 0, 0, 0⟩, rfl, ?_, ?_, Or.inl ?_⟩)
    · rw [h2.2 ⟨_, List.mem_singleton.2 rfl, hc⟩] at this
      cases this
    · exact Real.sqrt_nonneg _
    · exact Real.sqrt_nonneg _
    · simp [dist2, TT2d.evalEnv, T]

/-! ## The robot -/

theorem setup_spec (s : TestSetup) : ∃ e, setupParkingEnvironment s = .ok e ∧ e.case = "parking" ∧
    e.yRange = (-16, 16) ∧ e.config = some (s.parking.getD ParkingConfig.default) ∧
    e.rects = [⟨0, 15, 30, 1, 0⟩, ⟨0, -14, 30, 1, 0⟩] ++ s.rects ∧
    (∀ o : Circle, 0 < o.r → (o ∈ e.circles ↔
      o ∈ Env.obsCircleParking (-16) (s.parking.getD ParkingConfig.default) ∨ o ∈ s.circles)) ∧
    (∀ o ∈ e.circles, o ∈ Env.obsCircleParking (-16) (s.parking.getD ParkingConfig.default) ∨ o ∈ s.circles ∨
      ((s.parking.getD ParkingConfig.default).occupied = [] ∧ s.circles = [] ∧ o = ⟨0, 0, 0⟩)) := by
  obtain ⟨pk, cs, rs, i, g, a, b, l⟩ := s
  have h0 : ∃ e, Env.new 32 32 "parking" pk = .ok e ∧ e.case = "parking" ∧
      e.yRange = (-16, 16) ∧ e.config = some (pk.getD ParkingConfig.default) ∧
      e.rects = [⟨0, 15, 30, 1, 0⟩, ⟨0, -14, 30, 1, 0⟩] ∧
      (∀ o : Circle, 0 < o.r → (o ∈ e.circles ↔ o ∈ Env.obsCircleParking (-16) (pk.getD ParkingConfig.default))) ∧
      (∀ o ∈ e.circles, o ∈ Env.obsCircleParking (-16) (pk.getD ParkingConfig.default) ∨
        ((pk.getD ParkingConfig.default).occupied = [] ∧ o = ⟨0, 0, 0⟩)) := by
    have e16' : (-32 : ℝ) / 2 = -16 := by norm_num
    have e16 : (32 : ℝ) / 2 = 16 := by norm_num
    unfold Env.new
    simp only [e16, e16', if_true]
    refine ⟨_, rfl, ?_⟩
    split_ifs with hz
    · rw [List.length_eq_zero_iff] at hz
      refine ⟨rfl, rfl, rfl, rfl, fun o ho => ?_, fun o ho => Or.inr ⟨?_, ?_⟩⟩
      · rw [hz]
        simp only [List.mem_cons, List.not_mem_nil, or_false, iff_false]
        rintro rfl
        exact lt_irrefl _ ho
      · unfold Env.obsCircleParking at hz
        rw [List.flatMap_eq_nil_iff] at hz
        cases hocc : (pk.getD ParkingConfig.default).occupied with
        | nil => rfl
        | cons n l =>
          have := hz n (by rw [hocc]; simp)
          simp at this
      · simpa using ho
    · exact ⟨rfl, rfl, rfl, rfl, fun o _ => Iff.rfl, fun o ho => Or.inl ho⟩
  obtain ⟨e, he, h1, h2, h3, h4, h5, h6⟩ := h0
  unfold setupParkingEnvironment
  simp only [he]
  refine ⟨_, rfl, ?_⟩
  have h6' : ∀ o ∈ (e.circles.filter fun o => decide (0 < o.r)) ++ cs,
      o ∈ Env.obsCircleParking (-16) (pk.getD ParkingConfig.default) ∨ o ∈ cs := by
    intro o ho
    rw [List.mem_append, List.mem_filter] at ho
    rcases ho with ⟨ho, hp⟩ | ho
    · left; exact (h5 o (by simpa using hp)).1 ho
    · exact Or.inr ho
  by_cases hc : cs = [] <;> by_cases hr : rs = []
  · simp only [hc, hr, if_true]
    exact ⟨h1, h2, h3, by rw [h4]; rfl, fun o ho => by rw [h5 o ho]; simp,
      fun o ho => by rcases h6 o ho with h | h <;> simp [h]⟩
  · simp only [hc, hr, if_true, if_false]
    exact ⟨h1, h2, h3, by rw [h4], fun o ho => by rw [h5 o ho]; simp,
      fun o ho => by rcases h6 o ho with h | h <;> simp [h]⟩
  · simp only [hc, hr, if_true, if_false]
    refine ⟨h1, h2, h3, by rw [h4]; rfl, fun o ho => ?_,
      fun o ho => by rcases h6' o ho with h | h <;> simp [h]⟩
    rw [List.mem_append, List.mem_filter, h5 o ho]
    simp [ho]
  · simp only [hc, hr, if_false]
    refine ⟨h1, h2, h3, by rw [h4], fun o ho => ?_,
      fun o ho => by rcases h6' o ho with h | h <;> simp [h]⟩
    rw [List.mem_append, List.mem_filter, h5 o ho]
    simp [ho]

/-- The obstacles and poses of the robot built for a scenario with any lot. -/
theorem fixture_robot (base : Params) (s : TestSetup) (c : ParkingConfig)
    (hc : s.parking.getD ParkingConfig.default = c) (hne : c.target ≠ [])
    (hsp : ∀ n ∈ c.target, ∃ p, Spec.SpaceAt c n p) :
    ∃ T, fixtureTT2d base "parking" s = .ok T ∧
      T.toParams = { base with circles := T.circles, rects := T.rects } ∧
      T.rects = [⟨0, 15, 30, 1, 0⟩, ⟨0, -14, 30, 1, 0⟩] ++ s.rects ∧
      (∀ o : Circle, 0 < o.r → (o ∈ T.circles ↔ o ∈ Env.obsCircleParking (-16) c ∨ o ∈ s.circles)) ∧
      (∀ o ∈ T.circles, o ∈ Env.obsCircleParking (-16) c ∨ o ∈ s.circles ∨
        (c.occupied = [] ∧ s.circles = [] ∧ o = ⟨0, 0, 0⟩)) ∧
      (s.init = none → T.x0 = ⟨-14, 14, 0.1, 0.1⟩) ∧
      (∀ dx dy t1 t2, s.init = some (dx, dy, t1, t2) →
        ∃ lo ∈ c.target, ∃ hi ∈ c.target, ∃ plo phi,
          Spec.SpaceAt c lo plo ∧ Spec.SpaceAt c hi phi ∧
          (∀ n ∈ c.target, ∀ p, Spec.SpaceAt c n p → plo.2 ≤ p.2 ∧ p.2 ≤ phi.2) ∧
          T.x0.px + base.l1 * cos t1 = plo.1 + dx ∧ T.x0.py = phi.2 + c.spaceLength / 2 + dy ∧
          T.x0.th1 = t1 ∧ T.x0.th2 = t2) ∧
      (s.goal = none → T.xg = ⟨-5.25, -8.5, -π / 2, -π / 2⟩) ∧
      (∀ g1 g2, s.goal = some (g1, g2) → T.xg = ⟨-5.25, -8.5, g1, g2⟩) := by
  obtain ⟨e, he, h1, h2, h3, h4, h5, h6⟩ := setup_spec s
  rw [hc] at h3 h5 h6
  have hcen : ∀ n p, Spec.SpaceAt c n p → e.getParkingSpaceCenter n = .ok p := by
    rintro n p ⟨r, k, hs, rfl⟩
    rw [C40_center e c h1 h3 n r k hs, h2]
  obtain ⟨own, hown⟩ : ∃ own, Env.new 32 32 "parking" none = .ok own := ⟨_, rfl⟩
  obtain ⟨cd, hcd, hcase, hcfg, hx, hy, -, -⟩ := new_parking hown
  have hcd' : cd = ParkingConfig.default := hcd
  have hg : own.getDefaultGoalPos "parking" = .ok [-5.25, -8.5, -π / 2, -π / 2] := by
    unfold Env.getDefaultGoalPos
    simp only [if_true, hcfg]
    have ht : cd.target = [3, 11] := by rw [hcd']; rfl
    rw [ht]
    simp only
    rw [C40_center own cd hcase hcfg 3 0 2 (by rw [hcd']; simp [Spec.IsSpace, ParkingConfig.default])]
    simp only [hy, hcd']
    norm_num [Spec.cellMiddle, Spec.lotX, ParkingConfig.default]
  have hi : own.getDefaultInitPos "parking" = .ok [-14, 14, 0.1, 0.1] := by
    unfold Env.getDefaultInitPos; simp only [if_true, hx, hy]; norm_num
  have hr : Robot.new .tractorTrailer own "parking" base.l1 = .ok ⟨.tractorTrailer, own, base.l1,
      [-14, 14, 0.1, 0.1], [-5.25, -8.5, -π / 2, -π / 2], own.circles, own.rects⟩ := by
    unfold Robot.new
    simp only [if_true, hg, hi, Robot.adapt]
  unfold fixtureTT2d fixtureRobot
  simp only [he, hown, hr]
  cases hin : s.init with
  | none =>
    cases hgo : s.goal with
    | none =>
      simp only [asQ4]
      refine ⟨_, rfl, rfl, h4, h5, h6, fun _ => rfl, ?_, fun _ => rfl, ?_⟩
      · intro dx dy t1 t2 h; cases h
      · intro g1 g2 h; cases h
    | some g =>
      obtain ⟨g1, g2⟩ := g
      simp only [Robot.setGoalPos, Robot.adapt, Option.getD_none, Option.getD_some, asQ4]
      refine ⟨_, rfl, rfl, h4, h5, h6, fun _ => rfl, ?_, ?_, ?_⟩
      · intro dx dy t1 t2 h; cases h
      · intro h; cases h
      · intro a b h; cases h; simp
  | some i =>
    obtain ⟨dx, dy, t1, t2⟩ := i
    obtain ⟨lo, hlo, hi', hhi, plo, phi, px, py, g1, g2, g3, g4, g5, g6⟩ :=
      C43_partial (⟨.tractorTrailer, e, base.l1, [-14, 14, 0.1, 0.1], [-5.25, -8.5, -π / 2, -π / 2],
        e.circles, e.rects⟩ : Robot) c h1 h3 hne dx dy t1 t2 none none
    have key : ∃ lo ∈ c.target, ∃ hi ∈ c.target, ∃ plo phi,
          Spec.SpaceAt c lo plo ∧ Spec.SpaceAt c hi phi ∧
          (∀ n ∈ c.target, ∀ p, Spec.SpaceAt c n p → plo.2 ≤ p.2 ∧ p.2 ≤ phi.2) ∧
          px + base.l1 * cos t1 = plo.1 + dx ∧ py = phi.2 + c.spaceLength / 2 + dy := by
      obtain ⟨p1, hp1⟩ := hsp lo hlo
      obtain ⟨p2, hp2⟩ := hsp hi' hhi
      have e1 := hcen _ _ hp1
      have e2 := hcen _ _ hp2
      have q1 : p1 = plo := by
        have : (Except.ok p1 : Except EnvErr (ℝ × ℝ)) = .ok plo := e1.symm.trans g1
        injection this
      have q2 : p2 = phi := by
        have : (Except.ok p2 : Except EnvErr (ℝ × ℝ)) = .ok phi := e2.symm.trans g2
        injection this
      subst q1; subst q2
      exact ⟨lo, hlo, hi', hhi, p1, p2, hp1, hp2, fun n hn p hp => g3 n hn p (hcen n p hp), g5, g6⟩
    cases hgo : s.goal with
    | none =>
      simp only [Robot.setInitPos, g4, Robot.adapt, asQ4]
      refine ⟨_, rfl, rfl, h4, h5, h6, ?_, ?_, fun _ => rfl, ?_⟩
      · intro h; cases h
      · intro a b c' d h
        cases h
        obtain ⟨lo, hlo, hi, hhi, p, p', k1, k2, k3, k4, k5⟩ := key
        exact ⟨lo, hlo, hi, hhi, p, p', k1, k2, k3, k4, k5, rfl, rfl⟩
      · intro g1 g2 h; cases h
    | some g =>
      obtain ⟨ga, gb⟩ := g
      simp only [Robot.setInitPos, g4, Robot.adapt, Robot.setGoalPos, Option.getD_none, Option.getD_some, asQ4]
      refine ⟨_, rfl, rfl, h4, h5, h6, ?_, ?_, ?_, ?_⟩
      · intro h; cases h
      · intro a b c' d h
        cases h
        obtain ⟨lo, hlo, hi, hhi, p, p', k1, k2, k3, k4, k5⟩ := key
        exact ⟨lo, hlo, hi, hhi, p, p', k1, k2, k3, k4, k5, rfl, rfl⟩
      · intro h; cases h
      · intro a b h; cases h; simp


/-- **C69 (robot).** The test robot of any scenario whose lot has target spaces has the scenario's vehicle
settings, the walls plus the custom rectangles, three discs per occupied space plus the custom discs, and
its start is placed relative to the targets of the scenario's own lot. -/
theorem C69_robot (base : Params) (s : TestSetup) (c : ParkingConfig)
    (hc : s.parking.getD ParkingConfig.default = c) (hne : c.target ≠ [])
    (hsp : ∀ n ∈ c.target, ∃ p, Spec.SpaceAt c n p) :
    ∃ T, fixtureTT2d base "parking" s = .ok T ∧
      T.toParams = { base with circles := T.circles, rects := T.rects } ∧
      (∀ o, o ∈ T.rects ↔ o = ⟨0, 15, 30, 1, 0⟩ ∨ o = ⟨0, -14, 30, 1, 0⟩ ∨ o ∈ s.rects) ∧
      ((∀ n ∈ c.occupied, ∃ p, Spec.SpaceAt c n p) → ∀ o : Circle, 0 < o.r →
        (o ∈ T.circles ↔ o ∈ s.circles ∨ ∃ n ∈ c.occupied, ∃ p, Spec.SpaceAt c n p ∧ o.r = c.radius ∧
          o.x = p.1 ∧ (o.y = p.2 ∨ o.y = p.2 + 2 ∨ o.y = p.2 - 2))) ∧
      (0 < c.radius → ∀ o ∈ T.circles, 0 < o.r ∨ o ∈ s.circles ∨
        (c.occupied = [] ∧ s.circles = [] ∧ o = ⟨0, 0, 0⟩)) ∧
      (∀ dx dy t1 t2, s.init = some (dx, dy, t1, t2) →
        ∃ lo ∈ c.target, ∃ hi ∈ c.target, ∃ plo phi,
          Spec.SpaceAt c lo plo ∧ Spec.SpaceAt c hi phi ∧
          (∀ n ∈ c.target, ∀ p, Spec.SpaceAt c n p → plo.2 ≤ p.2 ∧ p.2 ≤ phi.2) ∧
          T.x0.px + base.l1 * cos t1 = plo.1 + dx ∧ T.x0.py = phi.2 + c.spaceLength / 2 + dy ∧
          T.x0.th1 = t1 ∧ T.x0.th2 = t2) := by
  obtain ⟨T, hT, h1, h2, h3, h6, -, h5, -, -⟩ := fixture_robot base s c hc hne hsp
  refine ⟨T, hT, h1, ?_, ?_, ?_, h5⟩
  · intro o; rw [h2]; simp
  rotate_left
  · intro hrad o ho
    rcases h6 o ho with h | h
    · left
      unfold Env.obsCircleParking at h
      rw [List.mem_flatMap] at h
      obtain ⟨n, -, h⟩ := h
      simp only [List.mem_cons, List.not_mem_nil, or_false] at h
      rcases h with rfl | rfl | rfl <;> exact hrad
    · exact Or.inr h
  · intro hocc o ho
    rw [h3 o ho, or_comm]
    apply or_congr Iff.rfl
    unfold Env.obsCircleParking
    rw [List.mem_flatMap]
    have hcen : ∀ n p, Spec.SpaceAt c n p → Env.spaceCenter (-16) c n = p := by
      rintro n p ⟨r, k, hs, rfl⟩
      exact spaceCenter_eq _ hs
    constructor
    · rintro ⟨n, hn, hm⟩
      obtain ⟨p, hp⟩ := hocc n hn
      rw [hcen n p hp] at hm
      simp only [List.mem_cons, List.not_mem_nil, or_false] at hm
      refine ⟨n, hn, p, hp, ?_⟩
      rcases hm with rfl | rfl | rfl <;> simp
    · rintro ⟨n, hn, p, hp, hr, hx, hy⟩
      refine ⟨n, hn, ?_⟩
      rw [hcen n p hp]
      obtain ⟨ox, oy, or⟩ := o
      simp only at hr hx hy
      subst hr; subst hx
      rcases hy with rfl | rfl | rfl <;> simp

theorem default_space (n : ℤ) (h1 : 1 ≤ n) (h2 : n ≤ 16) : ∃ p, Spec.SpaceAt ParkingConfig.default n p := by
  refine ⟨_, (n - 1) / 8, (n - 1) % 8, ?_, rfl⟩
  simp only [Spec.IsSpace, ParkingConfig.default]
  omega

theorem default_targets : ∀ n ∈ ParkingConfig.default.target, ∃ p, Spec.SpaceAt ParkingConfig.default n p := by
  intro n hn
  have : n = 3 ∨ n = 11 := by simpa [ParkingConfig.default] using hn
  rcases this with rfl | rfl <;> exact default_space _ (by norm_num) (by norm_num)

theorem tight_space (n : ℤ) (h1 : 1 ≤ n) (h2 : n ≤ 18) : ∃ p, Spec.SpaceAt tightParking n p := by
  refine ⟨_, (n - 1) / 6, (n - 1) % 6, ?_, rfl⟩
  simp only [Spec.IsSpace, tightParking]
  omega

theorem tight_targets : ∀ n ∈ tightParking.target, ∃ p, Spec.SpaceAt tightParking n p := by
  intro n hn
  have : n = 6 ∨ n = 12 := by simpa [tightParking] using hn
  rcases this with rfl | rfl <;> exact tight_space _ (by norm_num) (by norm_num)

/-- Both lots of the fixtures meet the hypotheses of `C69_robot`. -/
example (base : Params) : (∃ T, fixtureTT2d base "parking" {} = .ok T) ∧
    ∃ T, fixtureTT2d base "parking" { parking := some tightParking, init := some (2, 3, 0, 0) } = .ok T := by
  obtain ⟨T, h, -⟩ := C69_robot base {} _ rfl (by simp [ParkingConfig.default]) default_targets
  obtain ⟨T', h', -⟩ := C69_robot base { parking := some tightParking, init := some (2, 3, 0, 0) } _ rfl
    (by simp [tightParking]) tight_targets
  exact ⟨⟨T, h⟩, T', h'⟩

/-- **C69 (goal, partial).** In the default lot the goal is the middle of the first target space with the
headings of the scenario.  Missing: other lots, see `C69_goal_refuted`. -/
theorem C69_goal_partial (base : Params) (s : TestSetup) (hs : s.parking = none) (g1 g2 : ℝ)
    (hg : s.goal = some (g1, g2)) (T : TT2d) (hT : fixtureTT2d base "parking" s = .ok T) :
    ∃ t p, ParkingConfig.default.target.head? = some t ∧ Spec.SpaceAt ParkingConfig.default t p ∧
      T.xg = ⟨p.1, p.2, g1, g2⟩ := by
  obtain ⟨T', hT', -, -, -, -, -, -, -, h⟩ := fixture_robot base s _ (by rw [hs]; rfl)
    (by simp [ParkingConfig.default]) default_targets
  rw [hT'] at hT
  cases hT
  refine ⟨3, (-5.25, -8.5), rfl, ⟨0, 2, by simp [Spec.IsSpace, ParkingConfig.default], ?_⟩, h g1 g2 hg⟩
  norm_num [Spec.cellMiddle, Spec.lotX, ParkingConfig.default]

/-- **C69 (goal, refuted).** With a custom lot the goal is not the target of that lot: for the tight lot
of the fixtures the robot is sent to the default lot's space 3, 12.8 m from the requested space 6. -/
theorem C69_goal_refuted :
    ¬ ∀ (base : Params) (s : TestSetup) (c : ParkingConfig) (T : TT2d) (t : ℤ) (p : V2), s.parking = some c →
      c.target.head? = some t → Spec.SpaceAt c t p → fixtureTT2d base "parking" s = .ok T →
      (T.xg.px, T.xg.py) = p := by
  intro H
  obtain ⟨T, hT, -, -, -, -, -, -, hg, -⟩ := fixture_robot (Params.default [] []) { parking := some tightParking } _ rfl
    (by simp [tightParking]) tight_targets
  have := H _ { parking := some tightParking } tightParking T 6 (Spec.cellMiddle tightParking (-16) 0 5) rfl rfl
    ⟨0, 5, by simp [Spec.IsSpace, tightParking], rfl⟩ hT
  rw [hg rfl] at this
  have := congrArg Prod.fst this
  norm_num [Spec.cellMiddle, Spec.lotX, tightParking] at this

/-! ## The standard scenarios -/

theorem lot_discs {o : Circle} (ho : o ∈ Env.obsCircleParking (-16) ParkingConfig.default) :
    o.r = 1 ∧ o.y ≤ 0.5 := by
  unfold Env.obsCircleParking at ho
  rw [List.mem_flatMap] at ho
  obtain ⟨n, hn, ho⟩ := ho
  have hrow : (n - 1).fdiv 8 ≤ 1 := by
    simp only [ParkingConfig.default, List.mem_cons, List.not_mem_nil, or_false] at hn
    rcases hn with rfl | rfl | rfl | rfl | rfl | rfl | rfl | rfl | rfl | rfl | rfl | rfl <;> decide
  have hy : (Env.spaceCenter (-16) ParkingConfig.default n).2 ≤ -1.5 := by
    unfold Env.spaceCenter
    simp only [ParkingConfig.default]
    have : (((n - 1).fdiv 8 : ℤ) : ℝ) ≤ 1 := by exact_mod_cast hrow
    norm_num at *
    linarith
  simp only [List.mem_cons, List.not_mem_nil, or_false] at ho
  rcases ho with rfl | rfl | rfl <;> refine ⟨rfl, ?_⟩ <;> norm_num at * <;> linarith

/-- Bodies of an aligned vehicle lie within 1.25 m of the axis. -/
theorem aligned_body {P : Params} (hb : Spec.SameBodies P (Params.default [] [])) {x y th : ℝ} (hs : sin th = 0)
    (p : V2) (hp : p ∈ Spec.tractorBody P x y th ∨ p ∈ Spec.trailerBody P ⟨x, y, th, th⟩) :
    |p.2 - y| ≤ 1.25 := by
  have hc : |cos th| = 1 := by
    have := sin_sq_add_cos_sq th
    rw [hs] at this
    rw [← sq_eq_sq₀ (abs_nonneg _) zero_le_one, sq_abs]
    linarith
  have key : ∀ w : ℝ, |w| ≤ 1.25 → |w * cos th| ≤ 1.25 := by
    intro w hw; rw [abs_mul, hc, mul_one]; exact hw
  have e1 := hb.tractorWidth
  have e2 := hb.trailerWidth
  rcases hp with ⟨a, w, h1, h2, h3, rfl⟩ | ⟨a, w, h1, h2, h3, rfl⟩
  · rw [e1] at h3
    simp only [Spec.frame, hs]
    have := key w (h3.trans (by norm_num [Params.default]))
    convert this using 2
    ring
  · rw [e2] at h3
    simp only [Spec.frame, Spec.trailerAxle, hs]
    have := key w (h3.trans (by norm_num [Params.default]))
    convert this using 2
    ring

/-- **C69 (starts).** A vehicle of the default shape starts every scenario in the default lot without
custom obstacles, aligned along the lane (headings with zero sine), between 1 m and 11 m above the
entrance, at any `dx`, free of collision and jackknife, in the geometric sense and for the checks. -/
theorem C69_start_free (base : Params) (hb : Spec.SameBodies base (Params.default [] [])) (s : TestSetup)
    (hp : s.parking = none) (hcs : s.circles = []) (hrs : s.rects = []) (dx dy th : ℝ)
    (hi : s.init = some (dx, dy, th, th)) (hs : sin th = 0) (h1 : 1 ≤ dy) (h2 : dy ≤ 11) (T : TT2d)
    (hT : fixtureTT2d base "parking" s = .ok T) :
    Spec.SafeTT T.toParams T.x0 ∧ ¬ TT2d.checkObstacle T.toParams T.x0 ∧ ¬ TT2d.checkHitch T.toParams T.x0 := by
  obtain ⟨T', hT', hpar, hr, -, hc, -, hx, -, -⟩ := fixture_robot base s _ (by rw [hp]; rfl)
    (by simp [ParkingConfig.default]) default_targets
  rw [hT'] at hT
  cases hT
  obtain ⟨lo, hlo, hi, hhi, plo, phi, k1, k2, k3, k4, k5, k6, k7⟩ := hx _ _ _ _ hi
  have hy : T.x0.py = 2 + dy := by
    have hs11 : Spec.SpaceAt ParkingConfig.default 11 (Spec.cellMiddle ParkingConfig.default (-16) 1 2) :=
      ⟨1, 2, by simp [Spec.IsSpace, ParkingConfig.default], rfl⟩
    have h11 := (k3 11 (by simp [ParkingConfig.default]) _ hs11).2
    obtain ⟨r, k, hsp, rfl⟩ := k2
    have hrow : (r : ℝ) ≤ 1 := by
      have : r ≤ 1 := by have := hsp.2.1; simp only [ParkingConfig.default] at this; omega
      exact_mod_cast this
    rw [k5]
    norm_num [Spec.cellMiddle, ParkingConfig.default] at h11 ⊢
    linarith
  have hq : T.x0 = ⟨T.x0.px, T.x0.py, th, th⟩ := by
    cases hx0 : T.x0 with
    | mk a b c d => rw [hx0] at k6 k7; simp only at k6 k7; rw [k6, k7]
  have hbody : Spec.SameBodies T.toParams (Params.default [] []) := by
    rw [hpar]
    exact ⟨hb.l1, hb.lf1, hb.lr, hb.lh, hb.l2, hb.lf2, hb.lr2, hb.tractorWidth, hb.trailerWidth⟩
  have hin : ∀ p : V2, p ∈ Spec.tractorBody T.toParams T.x0.px T.x0.py T.x0.th1 ∨
      p ∈ Spec.trailerBody T.toParams T.x0 → 1.75 ≤ p.2 ∧ p.2 ≤ 14.25 := by
    intro p hp
    have := aligned_body hbody (x := T.x0.px) (y := T.x0.py) hs p (by rw [k6] at hp; rw [← hq]; exact hp)
    rw [hy, abs_le] at this
    norm_num at this ⊢
    constructor <;> linarith [this.1, this.2]
  have hcirc : ∀ o ∈ T.circles, o.r = 1 ∧ ∀ p : V2, p ∈ Spec.circleRegion o → p.2 ≤ 1.5 := by
    intro o ho
    rcases hc o ho with h | h | h
    · obtain ⟨e1, e2⟩ := lot_discs h
      refine ⟨e1, fun p hp => ?_⟩
      have hp' : (p.1 - o.x) ^ 2 + (p.2 - o.y) ^ 2 ≤ o.r ^ 2 := hp
      rw [e1] at hp'
      have : |p.2 - o.y| ≤ 1 := abs_le_of_sq_le_sq (by nlinarith [sq_nonneg (p.1 - o.x)]) one_pos.le
      rw [abs_le] at this
      norm_num at *
      linarith
    · rw [hcs] at h; cases h
    · simp [ParkingConfig.default] at h
  have hrect : ∀ o ∈ T.rects, (0 < o.w ∧ 0 < o.h) ∧ ∀ p : V2, p ∈ Spec.rectRegion o → p.2 ≤ -13.5 ∨ 14.5 ≤ p.2 := by
    intro o ho
    rw [hr, hrs] at ho
    simp only [List.append_nil, List.mem_cons, List.not_mem_nil, or_false] at ho
    rcases ho with rfl | rfl
    · refine ⟨by norm_num, fun p hp => Or.inr ?_⟩
      simp only [Spec.rectRegion] at hp
      rw [solidRect_zero] at hp
      have := hp.2.2.1
      norm_num at *; linarith
    · refine ⟨by norm_num, fun p hp => Or.inl ?_⟩
      simp only [Spec.rectRegion] at hp
      rw [solidRect_zero] at hp
      have := hp.2.2.2
      norm_num at *; linarith
  have hsafe : Spec.SafeTT T.toParams T.x0 := by
    have c1 : ∀ o ∈ T.circles, ∀ p : V2, p ∈ Spec.tractorBody T.toParams T.x0.px T.x0.py T.x0.th1 ∨
        p ∈ Spec.trailerBody T.toParams T.x0 → p ∉ Spec.circleRegion o := by
      intro o ho p hp hq
      have a := (hin p hp).1
      have b := (hcirc o ho).2 p hq
      norm_num at a b; linarith
    have c2 : ∀ o ∈ T.rects, ∀ p : V2, p ∈ Spec.tractorBody T.toParams T.x0.px T.x0.py T.x0.th1 ∨
        p ∈ Spec.trailerBody T.toParams T.x0 → p ∉ Spec.rectRegion o := by
      intro o ho p hp hq
      have a := hin p hp
      have b := (hrect o ho).2 p hq
      norm_num at a b; rcases b with b | b <;> linarith [a.1, a.2]
    exact ⟨fun o ho => ⟨fun p hp => c1 o ho p (Or.inl hp), fun p hp => c1 o ho p (Or.inr hp)⟩,
      fun o ho => ⟨fun p hp => c2 o ho p (Or.inl hp), fun p hp => c2 o ho p (Or.inr hp)⟩⟩
  refine ⟨hsafe, safe_passes ?_ hsafe, ?_⟩
  · constructor
    · rw [hbody.l1, hbody.lf1, hbody.lr]; norm_num [Params.default]
    · rw [hbody.tractorWidth]; norm_num [Params.default]
    · rw [hbody.lf2, hbody.lr2]; norm_num [Params.default]
    · rw [hbody.trailerWidth]; norm_num [Params.default]
    · intro o ho; rw [(hcirc o ho).1]; norm_num
    · intro o ho; exact (hrect o ho).1
  · rw [C06_tt2d, k6, k7]
    intro h
    have := h 0
    simp at this
    linarith [pi_pos]

/-- **C69 (shielded tests).** With both shields on, every scenario of `C69_start_free`, planned with any
noise and any budget, logs no violation, and passes exactly when one of the two measured points ends within
the limits (and none nearer than the expected minimum). -/
theorem C69_safe (base : Params) (hb : Spec.SameBodies base (Params.default [] [])) (s : TestSetup)
    (h1 : base.shieldCollision = true) (h2 : base.shieldHitch = true) (hproj : base.enableProjection = false)
    (hgd : base.enableGuidance = false)
    (hp : s.parking = none) (hcs : s.circles = []) (hrs : s.rects = []) (dx dy th : ℝ)
    (hi : s.init = some (dx, dy, th, th)) (hs : sin th = 0) (hd1 : 1 ≤ dy) (hd2 : dy ≤ 11)
    (ext : Ext Q4) (rows : List (Q4 × Bool)) (normal : Key → ℕ → ℕ → ℕ → ℕ → U) (cfg : Cfg)
    (hcg : cfg.enableGuidance = false) :
    ∃ T r, fixtureTT2d base "parking" s = .ok T ∧
      testReport T.evalEnv s cfg.Hsample (runDiffusion (T.planEnv ext rows) normal cfg).Y0
        (runDiffusion (T.planEnv ext rows) normal cfg).xs = some r ∧
      r.hitch = false ∧ r.collision = false ∧
      (r.passed = true ↔ ∃ q, (runDiffusion (T.planEnv ext rows) normal cfg).xs.getLast? = some q ∧
        s.expectedMin ≤ dist2 (q.px, q.py) (T.xg.px, T.xg.py) ∧
        s.expectedMin ≤ dist2 (TT2d.trailerBackPos T.toParams q) (T.xg.px, T.xg.py) ∧
        (dist2 (q.px, q.py) (T.xg.px, T.xg.py) ≤ min s.expectedMax s.limit ∨
          dist2 (TT2d.trailerBackPos T.toParams q) (T.xg.px, T.xg.py) ≤ min s.expectedMax s.limit)) := by
  obtain ⟨T, hT, hpar, -⟩ := fixture_robot base s _ (by rw [hp]; rfl)
    (by simp [ParkingConfig.default]) default_targets
  obtain ⟨-, hc0, hh0⟩ := C69_start_free base hb s hp hcs hrs dx dy th hi hs hd1 hd2 T hT
  have e1 : T.shieldCollision = true := by rw [hpar]; exact h1
  have e2 : T.shieldHitch = true := by rw [hpar]; exact h2
  have e3 : T.enableProjection = false := by rw [hpar]; exact hproj
  have e4 : T.enableGuidance = false := by rw [hpar]; exact hgd
  have hsafe := (C32_tt2d T ext rows e1 e2 e3 e4 hc0 hh0 normal cfg hcg).2.1
  obtain ⟨l1, l2, -⟩ := C31_result (T.planEnv ext rows) normal cfg
  obtain ⟨hn, hr⟩ := C69_report T.evalEnv s cfg.Hsample (runDiffusion (T.planEnv ext rows) normal cfg).Y0
    (runDiffusion (T.planEnv ext rows) normal cfg).xs
  cases e : testReport T.evalEnv s cfg.Hsample (runDiffusion (T.planEnv ext rows) normal cfg).Y0
    (runDiffusion (T.planEnv ext rows) normal cfg).xs with
  | none =>
    rw [hn] at e
    rw [e] at l2
    simp at l2
  | some r =>
    obtain ⟨⟨k1, k2⟩, k3⟩ := hr r e
    refine ⟨T, r, hT, e, ?_, ?_, ?_⟩
    · rw [← Bool.not_eq_true, k1]
      rintro ⟨q, hq, h⟩
      exact (hsafe q hq).2 h
    · rw [← Bool.not_eq_true, k2]
      rintro ⟨q, hq, h⟩
      exact (hsafe q hq).1 h
    · rw [k3]
      simp only [l1, l2, true_and]
      rfl

/-- The five kinematic scenarios of the test suite meet the hypotheses: here the one that starts facing
left, 1 m above the entrance. -/
example (ext : Ext Q4) (normal : Key → ℕ → ℕ → ℕ → ℕ → U) :=
  C69_safe { Params.default [] [] with shieldCollision := true, shieldHitch := true } 
    ⟨rfl, rfl, rfl, rfl, rfl, rfl, rfl, rfl, rfl⟩ { init := some (-12, 1, π, π), goal := some (π / 2, π / 2) }
    rfl rfl rfl rfl rfl rfl rfl (-12) 1 π rfl sin_pi (by norm_num) (by norm_num) ext [] normal

end Mbd
