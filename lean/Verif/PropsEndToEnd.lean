import Verif.PropsAggregate
import Verif.PropsBatch
import Verif.PropsPlan
import Verif.PropsSetup
import Mathlib.Analysis.Real.Pi.Bounds
import Mathlib.Tactic.Ring

/-!
# C62: a whole statistical evaluation, from the random numbers to the reported rates
-/

namespace Spec

open Mbd

/-- Two parameter sets describe vehicles of the same shape. -/
structure SameBodies (P P' : Params) : Prop where
  l1 : P.l1 = P'.l1
  lf1 : P.lf1 = P'.lf1
  lr : P.lr = P'.lr
  lh : P.lh = P'.lh
  l2 : P.l2 = P'.l2
  lf2 : P.lf2 = P'.lf2
  lr2 : P.lr2 = P'.lr2
  tractorWidth : P.tractorWidth = P'.tractorWidth
  trailerWidth : P.trailerWidth = P'.trailerWidth

/-- The start pose of a trial: the front axle of a vehicle with wheelbase `l1` is `dx` right of the
middle of the target spaces (x = -1.75), its rear axle `dy` above their entrance (y = 2). -/
noncomputable def startPose (l1 : ℝ) (t : Trial) : Q4 :=
  ⟨-1.75 + t.dx - l1 * Real.cos t.theta1, 2 + t.dy, t.theta1, t.theta2⟩

/-- The goal pose of every trial: middle of the lower target space, heading down. -/
noncomputable def goalPose : Q4 := ⟨-1.75, -8.5, -Real.pi / 2, -Real.pi / 2⟩

end Spec

namespace Mbd

open Real Classical

/-! ### The robot of a trial in closed form -/

/-- Discs of the evaluation's parking lot. -/
noncomputable def statCircles : List Circle := Env.obsCircleParking (-16) statParking

theorem statRobot_closed (l1 : ℝ) (t : Trial) : ∃ r, statRobot .tractorTrailer "parking" l1 t = .ok r ∧
    r.kind = .tractorTrailer ∧
    r.x0 = [-1.75 + t.dx - l1 * cos t.theta1, 2 + t.dy, t.theta1, t.theta2] ∧
    r.xg = [-1.75, -8.5, -π / 2, -π / 2] ∧ r.circles = statCircles ∧ r.rects = statRects := by
  have f1 : Int.fmod 3 8 = 3 := rfl
  have f2 : Int.fdiv 3 8 = 0 := rfl
  have f3 : Int.fmod 11 8 = 3 := rfl
  have f4 : Int.fdiv 11 8 = 1 := rfl
  have h4 : Env.spaceCenter (-16) statParking 4 = (-1.75, -8.5) := by
    norm_num [Env.spaceCenter, statParking, f1, f2]
  have h12 : Env.spaceCenter (-16) statParking 12 = (-1.75, -1.5) := by
    norm_num [Env.spaceCenter, statParking, f3, f4]
  have ht : statParking.target = [4, 12] := rfl
  have hl : statParking.spaceLength = 7 := rfl
  have hlen : (Env.obsCircleParking (-16) statParking).length ≠ 0 := by
    simp [Env.obsCircleParking, statParking]
  have hsort : Robot.sortByY [((-1.75 : ℝ), (-8.5 : ℝ)), (-1.75, -1.5)] = [(-1.75, -8.5), (-1.75, -1.5)] := by
    norm_num [Robot.sortByY, List.insertionSort, List.orderedInsert]
  have hh : (-32 / 2 : ℝ) = -16 := by norm_num
  simp only [statRobot, Env.new, if_true, Option.getD_some, hh, if_neg hlen, Robot.new,
    Env.getDefaultInitPos, Env.getDefaultGoalPos, ht, Env.getParkingSpaceCenter, ne_eq,
    not_true_eq_false, if_false, h4, Robot.setInitPos, Robot.initPose, Option.isSome_some, and_self,
    List.map_cons, List.map_nil, h12, hsort, Option.getD_some, hl, Robot.adapt,
    List.getLast_cons_cons, List.getLast_singleton]
  refine ⟨_, rfl, rfl, ?_, rfl, rfl, rfl⟩
  norm_num

/-- The robot of a trial. -/
noncomputable def trialRobot (base : Params) (t : Trial) : TT2d :=
  { toParams := { base with circles := statCircles, rects := statRects }
    x0 := Spec.startPose base.l1 t, xg := Spec.goalPose }

theorem trialTT2d_closed (base : Params) (t : Trial) : trialTT2d base t = .ok (trialRobot base t) := by
  obtain ⟨r, hr, hk, h0, hg, hc, hrect⟩ := statRobot_closed base.l1 t
  simp only [trialTT2d, hr, Robot.setGoalPos, hk, hg, h0, Robot.adapt, asQ4, Option.getD_some,
    Option.getD_none, hc, hrect]
  rfl

theorem isValidStart_closed (t : Trial) : isValidStart t ↔
    ¬ (TT2d.checkObstacle (Params.default statCircles statRects) (Spec.startPose 3.23 t) ∨
       TT2d.checkHitch (Params.default statCircles statRects) (Spec.startPose 3.23 t)) := by
  obtain ⟨r, hr, hk, h0, hg, hc, hrect⟩ := statRobot_closed 3.23 t
  simp only [isValidStart, hr, h0, asQ4, hc, hrect]
  rfl

theorem checkObstacle_sameBodies {P P' : Params} (h : Spec.SameBodies P P')
    (hc : P.circles = P'.circles) (hr : P.rects = P'.rects) (q : Q4) :
    TT2d.checkObstacle P q ↔ TT2d.checkObstacle P' q := by
  obtain ⟨a1, a2, a3, a4, a5, a6, a7, a8, a9⟩ := h
  simp only [TT2d.checkObstacle, Params.tractorCorners, TT2d.trailerCorners, TT2d.hitchPoint,
    a1, a2, a3, a4, a5, a6, a7, a8, a9, hc, hr]

/-- **C62 (starts).** Every sampled start is free of collision and jackknife for the robot that is then
evaluated, if that robot has the default shape. -/
theorem C62_starts (base : Params) (hb : Spec.SameBodies base (Params.default [] []))
    (draws : ℕ → Draw) (n : ℕ) : ∀ t ∈ (sampleInitialConditions isValidStart draws n).1,
    ∃ T, trialTT2d base t = .ok T ∧ T.x0 = Spec.startPose base.l1 t ∧ T.xg = Spec.goalPose ∧
      ¬ TT2d.checkObstacle T.toParams T.x0 ∧ ¬ TT2d.checkHitch T.toParams T.x0 := by
  intro t ht
  have hv := (C52_sampling isValidStart isValidStart_ignores draws n).2.2.2.1 t ht
  rw [isValidStart_closed, not_or] at hv
  have hl : base.l1 = 3.23 := hb.l1
  refine ⟨_, trialTT2d_closed base t, rfl, rfl, ?_, ?_⟩
  · rw [checkObstacle_sameBodies (P := (trialRobot base t).toParams)
      (P' := Params.default statCircles statRects) ⟨hb.l1, hb.lf1, hb.lr, hb.lh,
      hb.l2, hb.lf2, hb.lr2, hb.tractorWidth, hb.trailerWidth⟩ rfl rfl]
    show ¬ TT2d.checkObstacle _ (Spec.startPose base.l1 t)
    rw [hl]
    exact hv.1
  · show ¬ TT2d.checkHitch _ (Spec.startPose base.l1 t)
    rw [hl]
    exact hv.2

/-! ### Which proposals are valid -/

theorem statCircles_low : ∀ o ∈ statCircles, o.r = 1 ∧ o.y ≤ 0.5 := by
  intro o ho
  unfold statCircles Env.obsCircleParking at ho
  rw [List.mem_flatMap] at ho
  obtain ⟨n, hn, ho⟩ := ho
  have hrow : (n - 1).fdiv 8 ≤ 1 := by
    simp only [statParking, List.mem_cons, List.not_mem_nil, or_false] at hn
    rcases hn with rfl | rfl | rfl | rfl | rfl | rfl | rfl | rfl | rfl | rfl | rfl | rfl <;> decide
  have hy : (Env.spaceCenter (-16) statParking n).2 ≤ -1.5 := by
    have : (((n - 1).fdiv 8 : ℤ) : ℝ) ≤ 1 := by exact_mod_cast hrow
    simp only [Env.spaceCenter, statParking]
    norm_num
    linarith
  simp only [List.mem_cons, List.not_mem_nil, or_false] at ho
  have hr : statParking.radius = 1 := rfl
  rcases ho with rfl | rfl | rfl <;> refine ⟨hr, ?_⟩ <;> norm_num at * <;> linarith

theorem stat_sidesOK : Spec.SidesOK (Params.default statCircles statRects) := by
  apply default_sidesOK
  · intro o ho; rw [(statCircles_low o ho).1]; norm_num
  · intro o ho
    simp only [statRects, List.mem_cons, List.not_mem_nil, or_false] at ho
    subst ho
    norm_num

/-- A vehicle whose bodies stay above y = 1.5 is clear of the whole lot. -/
theorem stat_high_free (q : Q4)
    (h : ∀ p : V2, p ∈ Spec.tractorBody (Params.default statCircles statRects) q.px q.py q.th1 ∨
      p ∈ Spec.trailerBody (Params.default statCircles statRects) q → 1.5 < p.2) :
    Spec.SafeTT (Params.default statCircles statRects) q ∧
    ¬ TT2d.checkObstacle (Params.default statCircles statRects) q := by
  have hc : ∀ o ∈ statCircles, ∀ p : V2, p ∈ Spec.circleRegion o → p.2 ≤ 1.5 := by
    intro o ho p hp
    obtain ⟨hr, hy⟩ := statCircles_low o ho
    have hp' : (p.1 - o.x) ^ 2 + (p.2 - o.y) ^ 2 ≤ o.r ^ 2 := hp
    rw [hr] at hp'
    have : |p.2 - o.y| ≤ 1 := abs_le_of_sq_le_sq (by nlinarith [sq_nonneg (p.1 - o.x)]) one_pos.le
    rw [abs_le] at this
    norm_num at *
    linarith
  have hr : ∀ o ∈ statRects, ∀ p : V2, p ∈ Spec.rectRegion o → p.2 ≤ 1.5 := by
    intro o ho p hp
    simp only [statRects, List.mem_cons, List.not_mem_nil, or_false] at ho
    subst ho
    simp only [Spec.rectRegion] at hp
    rw [solidRect_zero] at hp
    have := hp.2.2.2
    norm_num at *
    linarith
  have hs : Spec.SafeTT (Params.default statCircles statRects) q := by
    refine ⟨fun o ho => ⟨fun p hp hq => ?_, fun p hp hq => ?_⟩, fun o ho => ⟨fun p hp hq => ?_, fun p hp hq => ?_⟩⟩
    · exact absurd (h p (Or.inl hp)) (not_lt.2 (hc o ho p hq))
    · exact absurd (h p (Or.inr hp)) (not_lt.2 (hc o ho p hq))
    · exact absurd (h p (Or.inl hp)) (not_lt.2 (hr o ho p hq))
    · exact absurd (h p (Or.inr hp)) (not_lt.2 (hr o ho p hq))
  exact ⟨hs, safe_passes stat_sidesOK hs⟩

theorem abs_sin_le_abs' (x : ℝ) : |sin x| ≤ |x| := Real.abs_sin_le_abs

/-- **C62 (hitch).** The jackknife check never rejects a proposal of the sampler. -/
theorem C62_hitch (draws : ℕ → Draw) (hu : Spec.UnitDraws draws) (a i : ℕ) (P : Params) (l1 : ℝ) :
    ¬ TT2d.checkHitch P (Spec.startPose l1 (propose (draws a) i)) := by
  have h := (propose_ranges hu a i).2.2.2
  rw [C06_tt2d]
  intro hx
  have h0 := hx 0
  simp only [Int.cast_zero, mul_zero, add_zero] at h0
  have : |(Spec.startPose l1 (propose (draws a) i)).th1 - (Spec.startPose l1 (propose (draws a) i)).th2|
      ≤ π / 10 := h
  linarith [pi_pos]

/-- **C62 (enough room).** Every proposal at least 5 m above the entrance is a valid start, whatever its
lateral position and headings. -/
theorem C62_far_start_valid (draws : ℕ → Draw) (hu : Spec.UnitDraws draws) (a i : ℕ)
    (h5 : 5 ≤ (propose (draws a) i).dy) : isValidStart (propose (draws a) i) := by
  set t := propose (draws a) i with ht
  obtain ⟨-, -, hth, hd⟩ := propose_ranges hu a i
  rw [← ht] at hth hd
  rw [isValidStart_closed]
  have hpi := pi_lt_d2
  have hpi0 := pi_pos
  have hs1 : |sin t.theta1| ≤ π / 10 := by
    rcases hth with h | h
    · exact (abs_sin_le_abs' _).trans h
    · have : sin t.theta1 = -sin (t.theta1 - π) := by rw [sin_sub_pi]; ring
      rw [this, abs_neg]
      exact (abs_sin_le_abs' _).trans h
  have hs2 : |sin t.theta2| ≤ π / 5 := by
    rw [abs_le] at hd
    rcases hth with h | h
    · refine (abs_sin_le_abs' _).trans ?_
      rw [abs_le] at h ⊢
      constructor <;> linarith [hd.1, hd.2, h.1, h.2]
    · have : sin t.theta2 = -sin (t.theta2 - π) := by rw [sin_sub_pi]; ring
      rw [this, abs_neg]
      refine (abs_sin_le_abs' _).trans ?_
      rw [abs_le] at h ⊢
      constructor <;> linarith [hd.1, hd.2, h.1, h.2]
  have hc1 := abs_cos_le_one t.theta1
  have hc2 := abs_cos_le_one t.theta2
  rw [not_or]
  refine ⟨(stat_high_free _ ?_).2, C62_hitch draws hu a i _ _⟩
  rw [abs_le] at hs1 hs2 hc1 hc2
  intro p hp
  rcases hp with ⟨s, w, h1, h2, h3, rfl⟩ | ⟨s, w, h1, h2, h3, rfl⟩
  · simp only [Params.default] at h1 h2 h3
    rw [abs_le] at h3
    simp only [Spec.frame, Spec.startPose]
    have e1 : -(4.13 * (π / 10)) ≤ s * sin t.theta1 := by
      have : |s * sin t.theta1| ≤ 4.13 * (π / 10) := by
        rw [abs_mul]
        apply mul_le_mul _ (abs_le.2 hs1) (abs_nonneg _) (by norm_num)
        rw [abs_le]; norm_num at *; constructor <;> linarith
      exact (abs_le.1 this).1
    have e2 : -1 ≤ w * cos t.theta1 := by
      have : |w * cos t.theta1| ≤ 1 * 1 := by
        rw [abs_mul]
        apply mul_le_mul _ (abs_le.2 hc1) (abs_nonneg _) (by norm_num)
        rw [abs_le]; norm_num at *; constructor <;> linarith [h3.1, h3.2]
      have := (abs_le.1 this).1
      linarith
    norm_num at *
    linarith
  · simp only [Params.default] at h1 h2 h3
    rw [abs_le] at h3
    simp only [Spec.frame, Spec.trailerAxle, Spec.startPose, Params.default]
    have e1 : -(6.125 * (π / 5)) ≤ (s - 2.9) * sin t.theta2 := by
      have : |(s - 2.9) * sin t.theta2| ≤ 6.125 * (π / 5) := by
        rw [abs_mul]
        apply mul_le_mul _ (abs_le.2 hs2) (abs_nonneg _) (by norm_num)
        rw [abs_le]; norm_num at *; constructor <;> linarith
      exact (abs_le.1 this).1
    have e2 : -1.25 ≤ w * cos t.theta2 := by
      have : |w * cos t.theta2| ≤ 1.25 * 1 := by
        rw [abs_mul]
        apply mul_le_mul _ (abs_le.2 hc2) (abs_nonneg _) (by norm_num)
        rw [abs_le]; norm_num at *; constructor <;> linarith [h3.1, h3.2]
      have := (abs_le.1 this).1
      linarith
    norm_num at *
    linarith [hs1.1, hs1.2]

/-- **C62 (enough starts).** If at least `n` of the `10 n` possible attempts draw `dy ≥ 5`, the evaluation
gets all `n` starts it asked for. -/
theorem C62_full (draws : ℕ → Draw) (hu : Spec.UnitDraws draws) (n : ℕ)
    (h : n ≤ ((List.range (10 * n)).filter fun a => decide (5 ≤ (propose (draws a) 0).dy)).length) :
    (sampleInitialConditions isValidStart draws n).1.length = n := by
  by_contra hne
  have hle := (C52_sampling isValidStart isValidStart_ignores draws n).1
  have hlt : (sampleInitialConditions isValidStart draws n).1.length < n := lt_of_le_of_ne hle hne
  rw [C52_shortage isValidStart isValidStart_ignores] at hlt
  have hsub : ((List.range (10 * n)).filter fun a => decide (5 ≤ (propose (draws a) 0).dy)).length ≤
      ((List.range (10 * n)).filter fun a => decide (isValidStart (propose (draws a) 0))).length := by
    apply List.Sublist.length_le
    apply List.monotone_filter_right
    intro a ha
    rw [decide_eq_true_iff] at ha ⊢
    exact C62_far_start_valid draws hu a 0 ha
  omega

/-! ### The runs -/

theorem tt2d_withDemo_view (T : TT2d) (ext : Ext Q4) (cfg : Cfg) :
    ∃ rows, (World.withDemo (T.obj ext) cfg).view = T.planEnv ext rows := by
  by_cases h : cfg.enableDemo = true
  · cases hd : T.demo cfg.motionPreference with
    | ok rows => exact ⟨rows, by simp [World.withDemo, h, TT2d.obj, hd]; rfl⟩
    | error e => exact ⟨[], by simp [World.withDemo, h, TT2d.obj, hd]⟩
  · exact ⟨[], by simp [World.withDemo, h, TT2d.obj]⟩

/-- Robots that differ only in their start, planned in one process: every one is planned with its own
model and start; only the reference is shared. -/
theorem batch_tt2d (P : Params) (xg : Q4) (robot : ℕ → TT2d) (k : ℕ)
    (hr : ∀ i < k, robot i = { toParams := P, x0 := (robot i).x0, xg := xg })
    (ext : Ext Q4) (normal : Key → ℕ → ℕ → ℕ → ℕ → U) (cfg : Cfg) (hg : cfg.enableGuidance = false) :
    ∃ rows, World.batch normal cfg (World.init fun i => (robot i).obj ext) (List.range k) =
      (List.range k).map fun i => runDiffusion ((robot i).planEnv ext rows) normal cfg := by
  cases k with
  | zero => exact ⟨[], rfl⟩
  | succ k =>
    obtain ⟨rows, hv⟩ := tt2d_withDemo_view (robot 0) ext cfg
    refine ⟨rows, ?_⟩
    rw [List.range_succ_eq_map, C61_batch _ 0 _ ?_ ?_ normal cfg hg, List.map_cons, hv]
    · congr 1
      apply List.map_congr_left
      intro i hi
      obtain ⟨j, hj, rfl⟩ := List.mem_map.1 hi
      rw [List.mem_range] at hj
      rw [hr (j.succ) (by omega), hr 0 (by omega)]
      rfl
    · rw [← List.range_succ_eq_map]; exact List.nodup_range
    · intro o _; rfl

theorem mapM_option {α β : Type} (f : α → Option β) : ∀ l : List α, (∀ x ∈ l, ∃ y, f x = some y) →
    ∃ l', l.mapM f = some l' ∧ List.Forall₂ (fun x y => f x = some y) l l' := by
  intro l
  induction l with
  | nil => intro _; exact ⟨[], rfl, .nil⟩
  | cons a l ih =>
    intro h
    obtain ⟨y, hy⟩ := h a (by simp)
    obtain ⟨l', h1, h2⟩ := ih fun x hx => h x (by simp [hx])
    exact ⟨y :: l', by simp [List.mapM_cons, hy, h1], .cons hy h2⟩

/-- What an evaluation computes: one result per sampled start, the verdict on the trajectory planned for the
trial's robot. -/
theorem evaluate_runs (base : Params) (ext : Ext Q4) (normal : Key → ℕ → ℕ → ℕ → ℕ → U) (cfg : Cfg)
    (hcg : cfg.enableGuidance = false) (times : ℕ → ℝ) (draws : ℕ → Draw) (n : ℕ) :
    ∃ rs : List TrialResult, evaluateTT2d base ext normal cfg times draws n = aggregate n rs ∧
      rs.length = (sampleInitialConditions isValidStart draws n).1.length ∧
      ∀ r ∈ rs, ∃ t ∈ (sampleInitialConditions isValidStart draws n).1, ∃ rows,
        evaluateTrial (trialRobot base t).evalEnv goalThreshold
          (runDiffusion ((trialRobot base t).planEnv ext rows) normal cfg).xs = some r.verdict := by
  set ts := (sampleInitialConditions isValidStart draws n).1 with hts
  have hm : ts.mapM (fun t => (trialTT2d base t).toOption) = some (ts.map (trialRobot base)) := by
    clear hts
    induction ts with
    | nil => rfl
    | cons a l ih =>
      rw [List.mapM_cons, ih, trialTT2d_closed]
      rfl
  simp only [evaluateTT2d, ← hts, hm, List.length_map]
  set robot := fun (i : ℕ) => (ts.map (trialRobot base)).getD i
    { toParams := base, x0 := ⟨0, 0, 0, 0⟩, xg := ⟨0, 0, 0, 0⟩ } with hrob
  have hri : ∀ i (h : i < ts.length), robot i = trialRobot base ts[i] := by
    intro i h
    simp [hrob, List.getD_eq_getElem?_getD, h]
  obtain ⟨rows, hb⟩ := batch_tt2d { base with circles := statCircles, rects := statRects } Spec.goalPose
    robot ts.length (fun i hi => by rw [hri i hi]; rfl) ext normal cfg hcg
  rw [hb]
  set g := fun i => runDiffusion ((robot i).planEnv ext rows) normal cfg with hgdef
  have hzip : (List.range ts.length).zip ((List.range ts.length).map g) =
      (List.range ts.length).map fun i => (i, g i) := by
    rw [List.zip_map_right]
    generalize List.range ts.length = l
    induction l with
    | nil => rfl
    | cons a l ih => simpa using ih
  rw [hzip]
  obtain ⟨rs, h1, h2⟩ := mapM_option (fun p : ℕ × Result Q4 =>
      (evaluateTrial (robot p.1).evalEnv goalThreshold p.2.xs).map
        fun v => (⟨v, times p.1⟩ : TrialResult)) ((List.range ts.length).map fun i => (i, g i)) (by
    intro p hp
    obtain ⟨i, -, rfl⟩ := List.mem_map.1 hp
    have hne : (g i).xs ≠ [] := by
      have := (C31_result ((robot i).planEnv ext rows) normal cfg).2.1
      intro h0
      have h0' : (runDiffusion ((robot i).planEnv ext rows) normal cfg).xs = [] := h0
      rw [h0'] at this
      simp at this
    have := (C51_tt2d (robot i) goalThreshold (g i).xs).1
    cases hv : evaluateTrial (robot i).evalEnv goalThreshold (g i).xs with
    | none => exact absurd (this.1 hv) hne
    | some v => exact ⟨⟨v, times i⟩, by simp only; rfl⟩)
  rw [h1]
  refine ⟨rs, rfl, ?_, ?_⟩
  · have := h2.length_eq
    simpa using this.symm
  · intro r hr
    obtain ⟨j, hj, rfl⟩ := List.getElem_of_mem hr
    have hlen := h2.length_eq
    simp only [List.length_map, List.length_range] at hlen
    have := List.Forall₂.get h2 (i := j) (by simp; omega) hj
    simp only [List.get_eq_getElem, List.getElem_map, List.getElem_range] at this
    have hj' : j < ts.length := by omega
    refine ⟨ts[j], List.getElem_mem _, rows, ?_⟩
    rw [hri j hj'] at this
    have e : g j = runDiffusion ((trialRobot base ts[j]).planEnv ext rows) normal cfg := by
      rw [hgdef]; simp only [hri j hj']
    rw [e] at this
    cases hv : evaluateTrial (trialRobot base ts[j]).evalEnv goalThreshold
      (runDiffusion ((trialRobot base ts[j]).planEnv ext rows) normal cfg).xs with
    | none => rw [hv] at this; simp at this
    | some v =>
      rw [hv] at this
      simp only [Option.map_some, Option.some.injEq] at this
      rw [← this]

/-- **C62.** Evaluating a tractor-trailer of the default shape with both shields (no projection, no
guidance): for every random stream, noise, planner configuration (demonstrations on or off), number of
trials `n ≥ 1` and measured times the evaluation returns a report; it has one result per sampled start;
no result reports a collision or a jackknife; a result is a success exactly when its position error
is at most 4 m; and if any trial was sampled, the collision and jackknife rates are 0. -/
theorem C62_safe (base : Params) (hb : Spec.SameBodies base (Params.default [] []))
    (h1 : base.shieldCollision = true) (h2 : base.shieldHitch = true) (hp : base.enableProjection = false)
    (hg : base.enableGuidance = false) (ext : Ext Q4) (normal : Key → ℕ → ℕ → ℕ → ℕ → U) (cfg : Cfg)
    (hcg : cfg.enableGuidance = false) (times : ℕ → ℝ) (draws : ℕ → Draw) (n : ℕ) (hn : n ≠ 0) :
    ∃ S, evaluateTT2d base ext normal cfg times draws n = some S ∧
      S.results.length = (sampleInitialConditions isValidStart draws n).1.length ∧
      (∀ r ∈ S.results, r.verdict.collision = false ∧ r.verdict.jackknife = false ∧
        (r.verdict.success = true ↔ r.verdict.positionError ≤ 4)) ∧
      (S.results ≠ [] → S.collisionRate = some 0 ∧ S.jackknifeRate = some 0) := by
  obtain ⟨rs, he, hl, hr⟩ := evaluate_runs base ext normal cfg hcg times draws n
  have hclean : ∀ r ∈ rs, r.verdict.collision = false ∧ r.verdict.jackknife = false ∧
      (r.verdict.success = true ↔ r.verdict.positionError ≤ 4) := by
    intro r hrr
    obtain ⟨t, ht, rows, hv⟩ := hr r hrr
    obtain ⟨T, hT, -, -, hc0, hh0⟩ := C62_starts base hb draws n t ht
    rw [trialTT2d_closed] at hT
    cases hT
    have hok := (evaluate_ok (trialRobot base t).evalEnv goalThreshold _).2 _ hv
    have hs := (C32_tt2d (trialRobot base t) ext rows h1 h2 hp hg hc0 hh0 normal cfg hcg).2.1
    have hs' : ∀ q ∈ (runDiffusion ((trialRobot base t).planEnv ext rows) normal cfg).xs,
        ¬ (trialRobot base t).evalEnv.coll q ∧ ¬ (trialRobot base t).evalEnv.hitch q := hs
    refine ⟨?_, ?_, ?_⟩
    · rw [← Bool.not_eq_true, hok.collision]
      rintro ⟨q, hq, hc⟩
      exact (hs' q hq).1 hc
    · rw [← Bool.not_eq_true, hok.jackknife]
      rintro ⟨q, hq, hc⟩
      exact (hs' q hq).2 hc
    · rw [hok.success, hok.positionError, min_le_iff]
      exact ⟨fun h => h.1, fun h => ⟨h, hs'⟩⟩
  refine ⟨_, by rw [he, aggregate, if_neg hn], hl, hclean, ?_⟩
  intro hne
  have hz : ∀ f : TrialResult → Bool, (∀ r ∈ rs, f r = false) → boolMean (rs.map f) = some 0 := by
    intro f hf
    obtain ⟨x, hx, h0, -, h3⟩ := boolMean_rate f rs hne
    have hfil : rs.filter f = [] := by
      rw [List.filter_eq_nil_iff]
      intro a ha
      simp [hf a ha]
    rw [hfil] at h3
    have hlen : (0 : ℝ) < rs.length := by exact_mod_cast List.length_pos_of_ne_nil hne
    simp only [List.length_nil, Nat.cast_zero, mul_eq_zero] at h3
    rcases h3 with h3 | h3
    · rw [hx, h3]
    · linarith
  exact ⟨hz _ fun r hr => (hclean r hr).1, hz _ fun r hr => (hclean r hr).2.1⟩

/-- A vehicle of the default shape except for a trailer of width 6, evaluated from the start pose
`dx = 0, dy = 2`, straight. -/
noncomputable def wideBase : Params := { Params.default [] [] with trailerWidth := 6 }

/-- The middle of every range except `dy`, which is smallest. -/
noncomputable def straightDraws : ℕ → Draw := fun _ => ⟨1 / 2, 0, 0, 1 / 2, 1 / 2⟩

theorem straight_propose (a i : ℕ) : propose (straightDraws a) i = ⟨0, 2, 0, 0, i⟩ := by
  simp only [propose, straightDraws, uniform]
  norm_num
  ring

theorem straight_valid (i : ℕ) : isValidStart ⟨0, 2, 0, 0, i⟩ := by
  rw [isValidStart_closed, not_or]
  refine ⟨(stat_high_free _ ?_).2, ?_⟩
  · intro p hp
    rcases hp with ⟨s, w, h1, h2, h3, rfl⟩ | ⟨s, w, h1, h2, h3, rfl⟩
    · simp only [Params.default] at h1 h2 h3
      rw [abs_le] at h3
      simp only [Spec.frame, Spec.startPose, cos_zero, sin_zero]
      norm_num at *
      linarith [h3.1]
    · simp only [Params.default] at h1 h2 h3
      rw [abs_le] at h3
      simp only [Spec.frame, Spec.trailerAxle, Spec.startPose, Params.default, cos_zero, sin_zero]
      norm_num at *
      linarith [h3.1]
  · rw [C06_tt2d]
    intro h
    have := h 0
    simp [Spec.startPose] at this
    linarith [pi_pos]

/-- **C62 refuted (other shapes).** The start check always uses the default vehicle: for a robot with a
6 m wide trailer (both shields on, any planner configuration and noise) there is a random stream for
which the evaluation accepts a start that collides, so that the one trial is reported as a collision. -/
theorem C62_shape_refuted (ext : Ext Q4) (normal : Key → ℕ → ℕ → ℕ → ℕ → U) (cfg : Cfg)
    (hcg : cfg.enableGuidance = false) (times : ℕ → ℝ) :
    ∃ (base : Params) (draws : ℕ → Draw) (S : Stats), Spec.UnitDraws draws ∧
      base = { Params.default [] [] with trailerWidth := 6 } ∧
      base.shieldCollision = true ∧ base.shieldHitch = true ∧
      evaluateTT2d base ext normal cfg times draws 1 = some S ∧ S.collisionRate = some 1 := by
  obtain ⟨rs, he, hl, hr⟩ := evaluate_runs wideBase ext normal cfg hcg times straightDraws 1
  have hts : (sampleInitialConditions isValidStart straightDraws 1).1 = [⟨0, 2, 0, 0, 0⟩] := by
    simp [sampleInitialConditions, sampleLoop, straight_propose, straight_valid]
  rw [hts] at hl hr
  obtain ⟨r, rfl⟩ : ∃ r, rs = [r] := List.length_eq_one_iff.1 hl
  obtain ⟨t, ht, rows, hv⟩ := hr r (by simp)
  rw [List.mem_singleton] at ht
  subst ht
  have hcol : r.verdict.collision = true := by
    rw [((evaluate_ok _ goalThreshold _).2 _ hv).collision]
    refine ⟨(trialRobot wideBase ⟨0, 2, 0, 0, 0⟩).x0, ?_, ?_⟩
    · simp [runDiffusion, TT2d.planEnv, TT2d.reset]
    · left
      refine ⟨⟨-8.75, 0.5, 1⟩, ?_, Or.inr ?_⟩
      · show _ ∈ statCircles
        unfold statCircles Env.obsCircleParking
        rw [List.mem_flatMap]
        refine ⟨10, by simp [statParking], ?_⟩
        have f1 : Int.fmod 9 8 = 1 := rfl
        have f2 : Int.fdiv 9 8 = 1 := rfl
        norm_num [Env.spaceCenter, statParking, f1, f2]
      · unfold TT2d.trailerCorners
        rw [C05_outline_exact_partial _ _ (by norm_num [trialRobot, wideBase, Params.default])
          (by norm_num [trialRobot, wideBase, Params.default])]
        refine ⟨(-8.75, 1), ⟨1.1825, -3, ?_, ?_, ?_, ?_⟩, ?_⟩
        · norm_num [trialRobot, wideBase, Params.default, abs_of_pos]
        · norm_num [trialRobot, wideBase, Params.default]
        · right; norm_num [trialRobot, wideBase, Params.default]
        · norm_num [trialRobot, wideBase, Params.default, Spec.frame, TT2d.hitchPoint, Spec.startPose]
        · norm_num [Spec.disc]
  refine ⟨wideBase, straightDraws, _, ?_, rfl, rfl, rfl, by rw [he, aggregate, if_neg one_ne_zero], ?_⟩
  · intro a
    simp only [straightDraws]
    norm_num
  · simp [boolMean, npMean, mean, hcol]

/-- Non-vacuity of `C62_safe`: the default vehicle and the straight start, which is sampled. -/
example (ext : Ext Q4) (normal : Key → ℕ → ℕ → ℕ → ℕ → U) (cfg : Cfg)
    (hcg : cfg.enableGuidance = false) : ∃ S,
    evaluateTT2d (Params.default [] []) ext normal cfg (fun _ => 1) straightDraws 1 = some S ∧
    S.results.length = 1 ∧ S.collisionRate = some 0 := by
  obtain ⟨S, h1, h2, -, h4⟩ := C62_safe (Params.default [] []) ⟨rfl, rfl, rfl, rfl, rfl, rfl, rfl, rfl, rfl⟩
    rfl rfl rfl rfl ext normal cfg hcg (fun _ => 1) straightDraws 1 one_ne_zero
  have hts : (sampleInitialConditions isValidStart straightDraws 1).1 = [⟨0, 2, 0, 0, 0⟩] := by
    simp [sampleInitialConditions, sampleLoop, straight_propose, straight_valid]
  rw [hts] at h2
  refine ⟨S, h1, h2, (h4 ?_).1⟩
  intro h
  rw [h] at h2
  simp at h2

/-- Non-vacuity of `C62_full`: a generator that always draws `dy = 6`. -/
example : Spec.UnitDraws (fun _ => ⟨1 / 2, 4 / 5, 0, 1 / 2, 1 / 2⟩) ∧
    (5 : ℝ) ≤ (propose ⟨1 / 2, 4 / 5, 0, 1 / 2, 1 / 2⟩ 0).dy := by
  constructor
  · intro a; norm_num
  · norm_num [propose, uniform]

end Mbd
