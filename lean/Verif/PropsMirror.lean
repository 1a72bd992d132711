import Verif.MirrorLemmas

/-!
# C73: planning does not prefer a side
-/

namespace Spec

open Mbd

/-- The action steering to the other side. -/
def otherSide (u : U) : U := (u.1, -u.2)

/-- Planning task of a tractor-trailer mirrored in the `x` axis: obstacles, start and goal. -/
def flippedTT (T : TT2d) : TT2d :=
  { T with toParams := flipObstacles T.toParams, x0 := flip4 T.x0, xg := flip4 T.xg }

/-- The same for the bicycle. -/
def flippedBike (T : Bicycle) : Bicycle :=
  { T with toParams := flipObstacles T.toParams, x0 := flip3 T.x0, xg := flip3 T.xg }

/-- The same for the acceleration model. -/
def flippedAcc (T : Acc) : Acc :=
  { T with toParams := flipObstacles T.toParams, x0 := flip6 T.x0, xg := flip6 T.xg }

/-- The same for the train. -/
def flippedTrain (T : NTrailer) : NTrailer :=
  { T with toParams := flipObstacles T.toParams, x0 := flipN T.x0, xg := flipN T.xg }

/-- `R'` is the mirror image of the result `R`: same reward, every action of the plan and of the history
steers to the other side, the states are mirrored. -/
def MirrorPlan {Q : Type} (mirror : Q → Q) (R R' : Result Q) : Prop :=
  R'.rew = R.rew ∧ R'.Y0 = R.Y0.map otherSide ∧ R'.hist = R.hist.map (List.map otherSide) ∧
    R'.xs = R.xs.map mirror

/-- The Gaussian noise with the steering component of opposite sign. -/
def mirrorNoise (normal : Key → ℕ → ℕ → ℕ → ℕ → U) : Key → ℕ → ℕ → ℕ → ℕ → U :=
  fun k n h a t => otherSide (normal k n h a t)

/-- Two angles that are the same up to full turns. -/
def SameAngle (a b : ℝ) : Prop := ∃ k : ℤ, a = b + 2 * Real.pi * k

/-- The row `r'` of a demonstration is the mirror image of `r`, headings up to full turns. -/
def MirrorRow (r r' : Q4 × Bool) : Prop :=
  r'.2 = r.2 ∧ r'.1.px = r.1.px ∧ r'.1.py = -r.1.py ∧ SameAngle r'.1.th1 (-r.1.th1) ∧
    SameAngle r'.1.th2 (-r.1.th2)

/-- The same for the bicycle. -/
def MirrorRow3 (r r' : Q3 × Bool) : Prop :=
  r'.2 = r.2 ∧ r'.1.px = r.1.px ∧ r'.1.py = -r.1.py ∧ SameAngle r'.1.th1 (-r.1.th1)

/-- Same exception, or demonstrations related row by row. -/
inductive SameDemo {A : Type} (R : A → A → Prop) : Except DemoErr (List A) → Except DemoErr (List A) → Prop
  | error (e : DemoErr) : SameDemo R (.error e) (.error e)
  | ok {r r' : List A} : List.Forall₂ R r r' → SameDemo R (.ok r) (.ok r')

end Spec

namespace Mbd

open Real Classical _root_.Spec

theorem steer_neg_one : steer (-1) = Spec.otherSide := by
  funext u; unfold steer Spec.otherSide; simp

theorem sameVehicle_flip (P : Params) : SameVehicle P (flipObstacles P) := rfl

theorem mirrorPlan_of_task {Q : Type} {E E' : PlanEnv Q} {g : Q → Q} {J : Q → Prop} {cfg : Cfg}
    (H : SameTask E E' g (-1) J cfg) (normal : Key → ℕ → ℕ → ℕ → ℕ → U) :
    MirrorPlan g (runDiffusion E normal cfg) (runDiffusion E' (mirrorNoise normal) cfg) := by
  have := plan_sym H normal
  simp only [steer_neg_one] at this
  obtain ⟨a, b, c, e⟩ := this
  exact ⟨a, b, e, c⟩

/-! ## Demonstrations -/

namespace Demo

theorem sameAngle_refl (a : ℝ) : SameAngle a a := ⟨0, by simp⟩

theorem atan2_flip (dy dx : ℝ) : SameAngle (atan2 (-dy) dx) (-atan2 dy dx) := by
  have h : (⟨dx, -dy⟩ : ℂ) = (starRingEnd ℂ) ⟨dx, dy⟩ := rfl
  unfold atan2
  rw [h, Complex.arg_conj]
  split_ifs with hp
  · exact ⟨1, by rw [hp]; push_cast; ring⟩
  · exact sameAngle_refl _

theorem segPoint_flip (p q : V2) (t : ℝ) :
    segPoint (Spec.flip p) (Spec.flip q) t = Spec.flip (segPoint p q t) := by
  unfold segPoint Spec.flip
  exact Prod.ext rfl (by simp only; ring)

theorem lineCollides_flip (P : Params) (p q : V2) :
    lineCollides (flipObstacles P) (Spec.flip p) (Spec.flip q) ↔ lineCollides P p q := by
  unfold lineCollides
  refine exists_congr fun t => and_congr_right fun _ => ?_
  rw [segPoint_flip]
  set x := segPoint p q t
  unfold flipObstacles
  simp only [List.mem_map, exists_exists_and_eq_and]
  refine or_congr ?_ ?_
  · refine exists_congr fun c => and_congr_right fun _ => ?_
    unfold inCircle
    have : norm2 (Spec.flip x - (c.x, -c.y)) = norm2 (x - (c.x, c.y)) := norm2_flip x (c.x, c.y)
    rw [this]
  · refine exists_congr fun o => and_congr_right fun _ => ?_
    unfold inRect Spec.flip
    simp only [neg_neg, cos_neg, sin_neg]
    rw [show (x.1 - o.x) * cos o.ang - (-x.2 - -o.y) * sin o.ang
        = (x.1 - o.x) * cos o.ang - (x.2 - o.y) * -sin o.ang by ring,
      show (x.1 - o.x) * sin o.ang + (-x.2 - -o.y) * cos o.ang
        = -((x.1 - o.x) * -sin o.ang + (x.2 - o.y) * cos o.ang) by ring, abs_neg]

theorem waypoints_flip (P : Params) (hz : Bool) (p q : V2) :
    waypoints (flipObstacles P) hz (Spec.flip p) (Spec.flip q) = (waypoints P hz p q).map Spec.flip := by
  have h1 : ((Spec.flip q).1, (Spec.flip p).2) = Spec.flip (q.1, p.2) := rfl
  have h2 : ((Spec.flip p).1, (Spec.flip q).2) = Spec.flip (p.1, q.2) := rfl
  unfold waypoints
  simp only [h1, h2, ← apply_ite Spec.flip, lineCollides_flip]
  split_ifs <;> rfl

theorem segs_flip (w : List V2) : segs (w.map Spec.flip) = (segs w).map (Prod.map Spec.flip Spec.flip) := by
  unfold segs
  rw [← List.map_tail, List.zip_map]

theorem segLen_flip (s : V2 × V2) : segLen (Prod.map Spec.flip Spec.flip s) = segLen s := by
  unfold segLen
  exact norm2_flip _ _

theorem discretise_flip (w : List V2) (n : List ℤ) :
    discretise (w.map Spec.flip) n = (discretise w n).map (Prod.map Spec.flip id) := by
  unfold discretise
  rw [segs_flip, List.map_flatten, List.zip_map_left]
  congr 1
  apply List.ext_getElem
  · simp
  · intro i h1 h2
    simp only [List.getElem_mapIdx, List.getElem_map, List.length_map, List.map_map,
      Prod.map_fst, Prod.map_snd, id]
    apply List.map_congr_left
    intro t _
    simp only [segPoint_flip, Prod.map, Function.comp, id]

theorem points_flip (H : ℕ) (w : List V2) (xg : V2) :
    points H (w.map Spec.flip) (Spec.flip xg) = (points H w xg).map (List.map (Prod.map Spec.flip id)) := by
  have hl : ((segs (w.map Spec.flip)).map segLen) = (segs w).map segLen := by
    rw [segs_flip, List.map_map]
    apply List.map_congr_left
    intro s _
    exact segLen_flip s
  have h0 : ((0 : ℝ), (0 : ℝ)) = Spec.flip (0, 0) := by simp [Spec.flip]
  have hh : ((w.map Spec.flip).headD (0, 0)) = Spec.flip (w.headD (0, 0)) := by
    cases w with
    | nil => exact h0
    | cons a l => rfl
  unfold points
  simp only [hl, hh, List.length_map, discretise_flip]
  by_cases he : ((segs w).map segLen).sum > 0 ∧ ∃ k ∈ pointsPerSegment H ((segs w).map segLen), k < 0
  · rw [if_pos he, if_pos he]; rfl
  · rw [if_neg he, if_neg he]
    have hpts : (if ((segs w).map segLen).sum > 0 then
          (discretise w (pointsPerSegment H ((segs w).map segLen))).map (Prod.map Spec.flip id)
        else List.replicate H (Spec.flip (w.headD (0, 0)), 0))
        = (if ((segs w).map segLen).sum > 0 then discretise w (pointsPerSegment H ((segs w).map segLen))
          else List.replicate H (w.headD (0, 0), 0)).map (Prod.map Spec.flip id) := by
      split_ifs
      · rfl
      · rw [List.map_replicate]; rfl
    rw [hpts]
    set pts := (if ((segs w).map segLen).sum > 0 then discretise w (pointsPerSegment H ((segs w).map segLen))
          else List.replicate H (w.headD (0, 0), 0)) with hp
    simp only [List.length_map]
    by_cases hc : pts.length > H
    · rw [if_pos hc, if_pos hc]
      simp only [Except.map, List.map_map]
      congr 1
      apply List.map_congr_left
      intro i _
      simp only [Function.comp, List.getD_eq_getElem?_getD, List.getElem?_map]
      cases pts[i]? with
      | none => simp [Spec.flip]
      | some p => rfl
    · rw [if_neg hc, if_neg hc]
      simp only [Except.map, List.map_append, List.map_replicate]
      rfl

theorem angles_flip (pref : ℤ) (a b : ℝ) : ∀ (prev prev' : Option ℝ) (rows : List (V2 × Bool)),
    SameAngle (prev'.getD (-a)) (-(prev.getD a)) →
    List.Forall₂ MirrorRow (angles pref a b prev rows)
      (angles pref (-a) (-b) prev' (rows.map (Prod.map Spec.flip id)))
  | _, _, [], _ => List.Forall₂.nil
  | _, _, [r], _ => by
    simp only [angles, List.map_cons, List.map_nil, Prod.map, id, Spec.flip]
    exact List.Forall₂.cons ⟨rfl, rfl, rfl, sameAngle_refl _, sameAngle_refl _⟩ List.Forall₂.nil
  | prev, prev', r :: r' :: rest, hprev => by
    have hm : ∀ c : V2 × Bool, Prod.map Spec.flip id c = ((c.1.1, -c.1.2), c.2) := fun _ => rfl
    have hmap : (r :: r' :: rest).map (Prod.map Spec.flip id)
      = ((r.1.1, -r.1.2), r.2) :: ((r'.1.1, -r'.1.2), r'.2) :: rest.map (Prod.map Spec.flip id) := rfl
    have ih := fun p p' h => angles_flip pref a b p p' (r' :: rest) h
    rw [hmap]
    simp only [List.map_cons, hm] at ih
    simp only [angles]
    have hy : -r'.1.2 - -r.1.2 = -(r'.1.2 - r.1.2) := by ring
    simp only [hy, abs_neg]
    set dx := r'.1.1 - r.1.1
    set dy := r'.1.2 - r.1.2
    have hth : SameAngle
        (if r.2 then (if |dx| > 1e-6 ∨ |dy| > 1e-6 then
          (if pref = -1 ∨ pref = -2 then atan2 (-dy) dx + π else atan2 (-dy) dx) else prev'.getD (-a)) else 0)
        (-(if r.2 then (if |dx| > 1e-6 ∨ |dy| > 1e-6 then
          (if pref = -1 ∨ pref = -2 then atan2 dy dx + π else atan2 dy dx) else prev.getD a) else 0)) := by
      obtain ⟨k, hk⟩ := atan2_flip dy dx
      split_ifs
      · exact ⟨k + 1, by rw [hk]; push_cast; ring⟩
      · exact ⟨k, hk⟩
      · exact hprev
      · exact ⟨0, by simp⟩
    exact List.Forall₂.cons ⟨rfl, rfl, rfl, hth, hth⟩ (ih _ _ (by simpa using hth))

theorem generate_flip (P : Params) (hz : Bool) (pref : ℤ) (x0 : V2) (xg : Q4) :
    SameDemo MirrorRow (generate P hz pref x0 xg)
      (generate (flipObstacles P) hz pref (Spec.flip x0) (flip4 xg)) := by
  unfold generate
  have h1 : ((flip4 xg).px, (flip4 xg).py) = Spec.flip (xg.px, xg.py) := rfl
  have h2 : (flipObstacles P).H = P.H := rfl
  simp only [h1, h2, waypoints_flip, points_flip, List.length_map]
  cases points P.H (waypoints P hz x0 (xg.px, xg.py)) (xg.px, xg.py) with
  | error e => exact .error e
  | ok pts =>
    simp only [Except.map]
    by_cases hH : P.H = 0
    · rw [if_pos hH, if_pos hH]; exact .error _
    · rw [if_neg hH, if_neg hH]
      apply SameDemo.ok
      have := angles_flip pref xg.th1 xg.th2 none none
        (pts.map fun p => (p.1, decide (p.2 = (waypoints P hz x0 (xg.px, xg.py)).length - 2)))
        (sameAngle_refl _)
      rw [List.map_map] at this ⊢
      exact this

theorem headErr_flip (pref : ℤ) (a1 a2 r1 r2 r1' r2' : ℝ) (h1 : SameAngle r1' (-r1)) (h2 : SameAngle r2' (-r2)) :
    |(headErr pref (-a1) (-a2) r1' r2').1| = |(headErr pref a1 a2 r1 r2).1| ∧
    |(headErr pref (-a1) (-a2) r1' r2').2| = |(headErr pref a1 a2 r1 r2).2| := by
  have key : ∀ a r r', SameAngle r' (-r) → |wrapPi (-a - r')| = |wrapPi (a - r)| ∧
      |wrapPi (-a - r' - π)| = |wrapPi (a - r - π)| := by
    rintro a r r' ⟨k, rfl⟩
    constructor
    · rw [show -a - (-r + 2 * π * k) = -(a - r) + 2 * π * ((-k : ℤ) : ℝ) by push_cast; ring, abs_wrapPi_neg]
    · rw [show -a - (-r + 2 * π * k) - π = -(a - r - π) + 2 * π * ((-k - 1 : ℤ) : ℝ) by push_cast; ring,
        abs_wrapPi_neg]
  obtain ⟨k1, k2⟩ := key a1 r1 r1' h1
  obtain ⟨k3, k4⟩ := key a2 r2 r2' h2
  unfold headErr
  simp only [k1, k2, k3, k4]
  constructor <;> split_ifs <;> simp only <;> assumption

theorem quadAngle_flip {e e' thr : ℝ} (b : Bool) (h : |e'| = |e|) :
    quadTerm |if b then e' else 0| thr = quadTerm |if b then e else 0| thr := by
  cases b <;> simp [h]

theorem rowLogpd_flip (P : Params) (pref : ℤ) (tr tp : V2) (a1 a2 : ℝ) {r r' : Q4 × Bool} (h : MirrorRow r r') :
    rowLogpd (flipObstacles P) pref (Spec.flip tr) (Spec.flip tp) (-a1) (-a2) r' = rowLogpd P pref tr tp a1 a2 r := by
  obtain ⟨h0, h1, h2, h3, h4⟩ := h
  obtain ⟨e1, e2⟩ := headErr_flip pref a1 a2 _ _ _ _ h3 h4
  have hpos : ∀ p : V2, norm2 (Spec.flip p - (r.1.px, -r.1.py)) = norm2 (p - (r.1.px, r.1.py)) :=
    fun p => norm2_flip p (r.1.px, r.1.py)
  unfold rowLogpd
  simp only [← apply_ite Spec.flip, h0, h1, h2, hpos, quadAngle_flip _ e1, quadAngle_flip _ e2]
  rfl

theorem zip_flip {A B : Type} {R : B → B → Prop} {f f' : A → B → ℝ} {g : A → A} :
    ∀ (qs : List A) (rows rows' : List B), List.Forall₂ R rows rows' →
      (∀ q ∈ qs, ∀ r r', R r r' → f' (g q) r' = f q r) →
      List.zipWith f' (qs.map g) rows' = List.zipWith f qs rows
  | [], _, _, _, _ => by simp
  | _ :: _, _, _, .nil, _ => by simp
  | q :: qs, _, _, .cons h hs, hf => by
    simp only [List.map_cons, List.zipWith_cons_cons]
    rw [hf q (by simp) _ _ h, zip_flip qs _ _ hs (fun q hq => hf q (by simp [hq]))]

theorem rewardOf_flip {A Q : Type} {R : A → A → Prop} (f f' t t' : Q → ℝ) (w : ℝ) (c : A → Q)
    (hf : ∀ r r', R r r' → f' (c r') = f (c r)) (ht : ∀ r r', R r r' → t' (c r') = t (c r))
    {rows rows' : List A} (h : List.Forall₂ R rows rows') :
    rewardOf f' t' w (rows'.map c) = rewardOf f t w (rows.map c) := by
  have e : (rows'.map c).map f' = (rows.map c).map f := by
    induction h with
    | nil => rfl
    | cons h _ ih => simp only [List.map_cons, ih, hf _ _ h]
  have e2 : ((rows'.map c).getLast?).map t' = ((rows.map c).getLast?).map t := by
    have : ∀ (rows rows' : List A), List.Forall₂ R rows rows' →
        (rows'.map c).map t' = (rows.map c).map t := by
      intro r r' h
      induction h with
      | nil => rfl
      | cons h _ ih => simp only [List.map_cons, ih, ht _ _ h]
    rw [← List.getLast?_map, ← List.getLast?_map, this _ _ h]
  unfold rewardOf
  rw [e, e2]

end Demo

theorem mirrorRow_turn {r r' : Q4 × Bool} (h : MirrorRow r r') : ∃ k m : ℤ, r'.1 = Spec.turn4 k m (flip4 r.1) := by
  obtain ⟨_, h1, h2, ⟨k, h3⟩, ⟨m, h4⟩⟩ := h
  exact ⟨k, m, Q4.ext h1 h2 h3 h4⟩

theorem mirrorRow_reward (P : Params) (xg : Q4) {r r' : Q4 × Bool} (h : MirrorRow r r') :
    TT2d.getReward (flipObstacles P) (flip4 xg) r'.1 = TT2d.getReward P xg r.1 ∧
    TT2d.getTerminalReward (flipObstacles P) (flip4 xg) r'.1 = TT2d.getTerminalReward P xg r.1 := by
  obtain ⟨k, m, e⟩ := mirrorRow_turn h
  have h0 : Spec.turn4 0 0 (flip4 xg) = flip4 xg := by unfold Spec.turn4; simp
  have := C35_reward_tt2d (flipObstacles P) (flip4 xg) (flip4 r.1) k m 0 0
  rw [h0, ← e, (reward_flip4 P xg r.1).1, (reward_flip4 P xg r.1).2] at this
  exact this

/-! ## Plans -/

/-- **C73, tractor-trailer.** Mirroring obstacles, start and goal, and the steering part of the noise,
mirrors the plan: same reward, every action steers to the other side, states mirrored.  The demonstration
of the mirrored task is the mirror image of the demonstration (or the same exception), and the plan is
mirrored with it; guidance is included as it is implemented. -/
theorem C73_tt2d (T : TT2d) (hs : SidesOK T.toParams) (pr pr' : Q4 → U → U) (ss : ℝ) (n : ℕ) (cfg : Cfg)
    (hp : T.enableProjection = true → ∀ q u, pr' (flip4 q) (otherSide u) = otherSide (pr q u))
    (normal : Key → ℕ → ℕ → ℕ → ℕ → U) :
    SameDemo MirrorRow (T.demo cfg.motionPreference) ((flippedTT T).demo cfg.motionPreference) ∧
    ∀ rows rows', List.Forall₂ MirrorRow rows rows' →
      MirrorPlan flip4 (runDiffusion (T.planEnv ⟨pr, Guide.apply T.toParams ss n⟩ rows) normal cfg)
        (runDiffusion ((flippedTT T).planEnv ⟨pr', Guide.apply (flippedTT T).toParams ss n⟩ rows')
          (mirrorNoise normal) cfg) := by
  refine ⟨Demo.generate_flip T.toParams true cfg.motionPreference (T.x0.px, T.x0.py) T.xg, fun rows rows' hr => ?_⟩
  set ext : Ext Q4 := ⟨pr, Guide.apply T.toParams ss n⟩
  set ext' : Ext Q4 := ⟨pr', Guide.apply (flippedTT T).toParams ss n⟩
  have hst : ∀ viz s a, (flippedTT T).stepInternal ext' viz (acted flip4 (-1) s) (steer (-1) a)
      = acted flip4 (-1) (T.stepInternal ext viz s a) := fun viz s a =>
    tt2d_step_sym T (flippedTT T) ext ext' (sameVehicle_flip _) flip4 (.inr rfl)
      (fun q => checkObstacle_flip T.toParams hs q) (fun q => checkHitch_flip T.toParams q)
      (fun q => (reward_flip4 T.toParams T.xg q).1) (fun q u => euler_flip4 T.toParams q u)
      (fun h q u => by rw [steer_neg_one]; exact hp h q u)
      (fun _ q => Guide.apply_flip T.toParams ss n q) viz s a
  have H : SameTask (T.planEnv ext rows) ((flippedTT T).planEnv ext' rows') flip4 (-1) (fun _ => True) cfg := by
    refine ⟨.inr rfl, ?_, ?_, ?_, ?_, rfl, rfl, rfl, ?_⟩
    · intro k; exact ⟨by simp [TT2d.planEnv, TT2d.reset, acted, steer, flippedTT], trivial⟩
    · exact fun s a _ => ⟨hst false s a, trivial⟩
    · exact fun _ s a _ => ⟨hst true s a, trivial⟩
    · exact fun q _ => (reward_flip4 T.toParams T.xg q).2
    · intro _
      refine ⟨Demo.rewardOf_flip _ _ _ _ _ Prod.fst (fun r r' h => (mirrorRow_reward T.toParams T.xg h).1)
        (fun r r' h => (mirrorRow_reward T.toParams T.xg h).2) hr, fun qs _ => ?_⟩
      show Demo.evalXref _ _ _ _ = Demo.evalXref _ _ _ _
      unfold Demo.evalXref
      congr 1
      apply Demo.zip_flip qs rows rows' hr
      intro q _ r r' h
      have : TT2d.trailerPos (flippedTT T).toParams (flip4 q) = Spec.flip (TT2d.trailerPos T.toParams q) := by
        rw [← trailerPos_flip]; rfl
      rw [this]
      exact Demo.rowLogpd_flip T.toParams cfg.motionPreference (q.px, q.py) _ q.th1 q.th2 h
  exact mirrorPlan_of_task H normal

/-- C73, bicycle. -/
theorem C73_bicycle (T : Bicycle) (h1 : 1e-4 ≤ T.l1 + T.lf1 + T.lr) (h2 : 1e-4 ≤ T.tractorWidth)
    (pr pr' : Q3 → U → U) (ss : ℝ) (n : ℕ) (cfg : Cfg)
    (hp : T.enableProjection = true → ∀ q u, pr' (flip3 q) (otherSide u) = otherSide (pr q u))
    (normal : Key → ℕ → ℕ → ℕ → ℕ → U) :
    SameDemo MirrorRow3 (T.demo cfg.motionPreference) ((flippedBike T).demo cfg.motionPreference) ∧
    ∀ rows rows', List.Forall₂ MirrorRow3 rows rows' →
      MirrorPlan flip3 (runDiffusion (T.planEnv ⟨pr, Guide.applyBicycle T.toParams ss n⟩ rows) normal cfg)
        (runDiffusion ((flippedBike T).planEnv ⟨pr', Guide.applyBicycle (flippedBike T).toParams ss n⟩ rows')
          (mirrorNoise normal) cfg) := by
  constructor
  · have := Demo.generate_flip T.toParams true cfg.motionPreference (T.x0.px, T.x0.py)
      ⟨T.xg.px, T.xg.py, T.xg.th1, T.xg.th1⟩
    have e : Demo.generate (flippedBike T).toParams true cfg.motionPreference
        ((flippedBike T).x0.px, (flippedBike T).x0.py)
        ⟨(flippedBike T).xg.px, (flippedBike T).xg.py, (flippedBike T).xg.th1, (flippedBike T).xg.th1⟩
        = Demo.generate (flipObstacles T.toParams) true cfg.motionPreference (Spec.flip (T.x0.px, T.x0.py))
          (flip4 ⟨T.xg.px, T.xg.py, T.xg.th1, T.xg.th1⟩) := rfl
    unfold Bicycle.demo
    rw [e]
    generalize Demo.generate T.toParams true cfg.motionPreference (T.x0.px, T.x0.py)
      ⟨T.xg.px, T.xg.py, T.xg.th1, T.xg.th1⟩ = A at this ⊢
    generalize Demo.generate (flipObstacles T.toParams) true cfg.motionPreference (Spec.flip (T.x0.px, T.x0.py))
      (flip4 ⟨T.xg.px, T.xg.py, T.xg.th1, T.xg.th1⟩) = B at this ⊢
    cases this with
    | error e => exact .error e
    | ok h =>
      apply SameDemo.ok
      rw [List.forall₂_map_left_iff, List.forall₂_map_right_iff]
      exact h.imp fun r r' h => ⟨h.1, h.2.1, h.2.2.1, h.2.2.2.1⟩
  intro rows rows' hr
  set ext : Ext Q3 := ⟨pr, Guide.applyBicycle T.toParams ss n⟩
  set ext' : Ext Q3 := ⟨pr', Guide.applyBicycle (flippedBike T).toParams ss n⟩
  have hst : ∀ viz s a, (flippedBike T).stepInternal ext' viz (acted flip3 (-1) s) (steer (-1) a)
      = acted flip3 (-1) (T.stepInternal ext viz s a) := fun viz s a =>
    bicycle_step_sym T (flippedBike T) ext ext' (sameVehicle_flip _) flip3 (.inr rfl)
      (fun q => bicycleObstacle_flip T.toParams h1 h2 q)
      (fun q => (reward_flip3 T.toParams T.xg q).1) (fun q u => euler_flip3 T.toParams q u)
      (fun h q u => by rw [steer_neg_one]; exact hp h q u)
      (fun _ q => Guide.applyBicycle_flip T.toParams ss n q) viz s a
  have hrow : ∀ r r', MirrorRow3 r r' →
      Bicycle.getReward (flipObstacles T.toParams) (flip3 T.xg) r'.1 = Bicycle.getReward T.toParams T.xg r.1 ∧
      Bicycle.getTerminalReward (flipObstacles T.toParams) (flip3 T.xg) r'.1
        = Bicycle.getTerminalReward T.toParams T.xg r.1 := by
    rintro r r' ⟨_, g1, g2, ⟨k, g3⟩⟩
    have e : r'.1 = Spec.turn3 k (flip3 r.1) := Q3.ext g1 g2 g3
    have h0 : Spec.turn3 0 (flip3 T.xg) = flip3 T.xg := by unfold Spec.turn3; simp
    obtain ⟨-, b, c, -⟩ := C35_bicycle (flipObstacles T.toParams) (flip3 T.xg) (flip3 r.1) k 0 (0, 0)
    rw [h0, ← e] at b c
    exact ⟨b.trans (reward_flip3 _ _ _).1, c.trans (reward_flip3 _ _ _).2⟩
  have H : SameTask (T.planEnv ext rows) ((flippedBike T).planEnv ext' rows') flip3 (-1) (fun _ => True) cfg := by
    refine ⟨.inr rfl, ?_, ?_, ?_, ?_, rfl, rfl, rfl, ?_⟩
    · intro k; exact ⟨by simp [Bicycle.planEnv, Bicycle.reset, acted, steer, flippedBike], trivial⟩
    · exact fun s a _ => ⟨hst false s a, trivial⟩
    · exact fun _ s a _ => ⟨hst true s a, trivial⟩
    · exact fun q _ => (reward_flip3 T.toParams T.xg q).2
    · intro _
      refine ⟨Demo.rewardOf_flip _ _ _ _ _ Prod.fst (fun r r' h => (hrow r r' h).1)
        (fun r r' h => (hrow r r' h).2) hr, fun qs _ => ?_⟩
      show Demo.evalXrefBicycle _ _ _ _ = Demo.evalXrefBicycle _ _ _ _
      unfold Demo.evalXrefBicycle
      congr 1
      apply Demo.zip_flip qs rows rows' hr
      rintro q _ r r' ⟨g0, g1, g2, g3⟩
      have hpos : norm2 (((flip3 q).px, (flip3 q).py) - (r.1.px, -r.1.py)) = norm2 ((q.px, q.py) - (r.1.px, r.1.py)) :=
        norm2_flip (q.px, q.py) (r.1.px, r.1.py)
      obtain ⟨k, hk⟩ := g3
      have k1 : |wrapPi ((flip3 q).th1 - r'.1.th1)| = |wrapPi (q.th1 - r.1.th1)| := by
        rw [hk, show (flip3 q).th1 - (-r.1.th1 + 2 * π * k) = -(q.th1 - r.1.th1) + 2 * π * ((-k : ℤ) : ℝ) by
          simp only [flip3]; push_cast; ring, abs_wrapPi_neg]
      have k2 : |wrapPi ((flip3 q).th1 - r'.1.th1 - π)| = |wrapPi (q.th1 - r.1.th1 - π)| := by
        rw [hk, show (flip3 q).th1 - (-r.1.th1 + 2 * π * k) - π
          = -(q.th1 - r.1.th1 - π) + 2 * π * ((-k - 1 : ℤ) : ℝ) by
          simp only [flip3]; push_cast; ring, abs_wrapPi_neg]
      have ke : |(if cfg.motionPreference = 0 then
            (if |wrapPi (q.th1 - r.1.th1)| < |wrapPi (q.th1 - r.1.th1 - π)| then
              wrapPi ((flip3 q).th1 - r'.1.th1) else wrapPi ((flip3 q).th1 - r'.1.th1 - π))
            else wrapPi ((flip3 q).th1 - r'.1.th1))|
          = |(if cfg.motionPreference = 0 then
            (if |wrapPi (q.th1 - r.1.th1)| < |wrapPi (q.th1 - r.1.th1 - π)| then
              wrapPi (q.th1 - r.1.th1) else wrapPi (q.th1 - r.1.th1 - π))
            else wrapPi (q.th1 - r.1.th1))| := by
        split_ifs <;> assumption
      unfold Demo.rowLogpdBicycle
      simp only [k1, k2, g0, g1, g2, hpos, Demo.quadAngle_flip _ ke]
      rfl
  exact mirrorPlan_of_task H normal

/-- C73, acceleration model, including its braking prediction. -/
theorem C73_acc (T : Acc) (hs : SidesOK T.toParams) (hd : 0 ≤ T.deltaMax) (pr pr' : Q6 → U → U) (ss : ℝ) (n : ℕ)
    (cfg : Cfg)
    (hp : T.enableProjection = true → ∀ q u, pr' (flip6 q) (otherSide u) = otherSide (pr q u))
    (normal : Key → ℕ → ℕ → ℕ → ℕ → U) :
    SameDemo MirrorRow (T.demo cfg.motionPreference) ((flippedAcc T).demo cfg.motionPreference) ∧
    ∀ rows rows', List.Forall₂ MirrorRow rows rows' →
      MirrorPlan flip6 (runDiffusion (T.planEnv ⟨pr, Guide.applyAcc T.toParams ss n⟩ rows) normal cfg)
        (runDiffusion ((flippedAcc T).planEnv ⟨pr', Guide.applyAcc (flippedAcc T).toParams ss n⟩ rows')
          (mirrorNoise normal) cfg) := by
  refine ⟨Demo.generate_flip T.toParams true cfg.motionPreference (T.x0.px, T.x0.py) T.xg.pose, fun rows rows' hr => ?_⟩
  set ext : Ext Q6 := ⟨pr, Guide.applyAcc T.toParams ss n⟩
  set ext' : Ext Q6 := ⟨pr', Guide.applyAcc (flippedAcc T).toParams ss n⟩
  have hst : ∀ viz s a, (flippedAcc T).stepInternal ext' viz (acted flip6 (-1) s) (steer (-1) a)
      = acted flip6 (-1) (T.stepInternal ext viz s a) := fun viz s a =>
    acc_step_sym T (flippedAcc T) ext ext' (sameVehicle_flip _) rfl rfl flip6 (.inr rfl) (fun _ => rfl)
      (fun q => checkObstacle_flip T.toParams hs q.pose) (fun q => checkHitch_flip T.toParams q.pose)
      (fun q => (reward_flip4 T.toParams T.xg.pose q.pose).1)
      (fun q u dt => euler_flip6 T (flippedAcc T) rfl hd q u dt)
      (fun h q u => by rw [steer_neg_one]; exact hp h q u)
      (fun _ q => Guide.applyAcc_flip T.toParams ss n q) viz s a
  have H : SameTask (T.planEnv ext rows) ((flippedAcc T).planEnv ext' rows') flip6 (-1) (fun _ => True) cfg := by
    refine ⟨.inr rfl, ?_, ?_, ?_, ?_, rfl, rfl, rfl, ?_⟩
    · intro k; exact ⟨by simp [Acc.planEnv, Acc.reset, acted, steer, flippedAcc], trivial⟩
    · exact fun s a _ => ⟨hst false s a, trivial⟩
    · exact fun _ s a _ => ⟨hst true s a, trivial⟩
    · exact fun q _ => (reward_flip4 T.toParams T.xg.pose q.pose).2
    · intro _
      refine ⟨Demo.rewardOf_flip _ _ _ _ _ Prod.fst (fun r r' h => (mirrorRow_reward T.toParams T.xg.pose h).1)
        (fun r r' h => (mirrorRow_reward T.toParams T.xg.pose h).2) hr, fun qs _ => ?_⟩
      show Demo.evalXref _ _ _ _ = Demo.evalXref _ _ _ _
      have : (qs.map flip6).map Q6.pose = (qs.map Q6.pose).map flip4 := by
        rw [List.map_map, List.map_map]; rfl
      rw [this]
      unfold Demo.evalXref
      congr 1
      apply Demo.zip_flip _ rows rows' hr
      intro q _ r r' h
      have : TT2d.trailerPos (flippedAcc T).toParams (flip4 q) = Spec.flip (TT2d.trailerPos T.toParams q) := by
        rw [← trailerPos_flip]; rfl
      rw [this]
      exact Demo.rowLogpd_flip T.toParams cfg.motionPreference (q.px, q.py) _ q.th1 q.th2 h
  exact mirrorPlan_of_task H normal

theorem flippedTrain_flipped (T : NTrailer) : FlippedTrain T (flippedTrain T) := rfl

theorem reward_flipN (T : NTrailer) (q : QN) : (flippedTrain T).getReward (flipN q) = T.getReward q ∧
    (flippedTrain T).getTerminalReward (flipN q) = T.getTerminalReward q := by
  have h := posDist_flipN (flippedTrain_flipped T) rfl q
  unfold NTrailer.getReward NTrailer.getTerminalReward
  rw [h]
  exact ⟨rfl, rfl⟩

theorem stepTotal_length (T : NTrailer) (ss : ℝ) (n : ℕ) (q : QN) :
    (Guide.applyN T.toParams ss n q).ths.length = q.ths.length := by
  have hs : ∀ q, (Guide.stepN T.toParams ss q).ths.length = q.ths.length := by
    intro q
    unfold Guide.stepN
    simp
  unfold Guide.applyN
  split_ifs
  · induction n with
    | zero => rfl
    | succ n ih => rw [Function.iterate_succ_apply', hs, ih]
  · rfl

/-- C73, train. -/
theorem C73_ntrailer (T : NTrailer) (hs : Spec.TrainSidesOK T) (ss : ℝ) (n : ℕ) (cfg : Cfg)
    (h0 : T.x0.ths.length = T.N) (hp : T.enableProjection = false)
    (normal : Key → ℕ → ℕ → ℕ → ℕ → U) :
    SameDemo MirrorRow (T.demo cfg.motionPreference) ((flippedTrain T).demo cfg.motionPreference) ∧
    ∀ rows rows', List.Forall₂ MirrorRow rows rows' →
      MirrorPlan flipN (runDiffusion (T.planEnv (Guide.applyN T.toParams ss n) rows) normal cfg)
        (runDiffusion ((flippedTrain T).planEnv (Guide.applyN (flippedTrain T).toParams ss n) rows')
          (mirrorNoise normal) cfg) := by
  have hT := flippedTrain_flipped T
  constructor
  · have := Demo.generate_flip T.toParams true cfg.motionPreference (T.x0.px, T.x0.py)
      ⟨T.xg.px, T.xg.py, T.xg.th0, T.xg.ths.getD 0 0⟩
    have e : (flippedTrain T).xg.ths.getD 0 0 = -T.xg.ths.getD 0 0 := by
      show (T.xg.ths.map fun a => -a).getD 0 0 = _
      cases T.xg.ths <;> simp
    unfold NTrailer.demo
    rw [e]
    exact this
  intro rows rows' hr
  have hst : ∀ viz s, s.q.ths.length = T.N → ∀ a,
      (flippedTrain T).stepTotal (Guide.applyN (flippedTrain T).toParams ss n) viz (acted flipN (-1) s) (steer (-1) a)
      = acted flipN (-1) (T.stepTotal (Guide.applyN T.toParams ss n) viz s a) ∧
      (T.stepTotal (Guide.applyN T.toParams ss n) viz s a).q.ths.length = T.N :=
    fun viz s hs' a => ntrailer_step_sym T (flippedTrain T) _ _ (sameVehicle_flip _) rfl hp
      flipN (.inr rfl) (fun q => by simp [flipN])
      (fun q _ => checkObstacle_flipN hT hs q) (fun q _ => checkHitch_flipN hT q)
      (fun q _ => (reward_flipN T q).1) (fun q u _ => euler_flipN hT q u)
      (fun _ q hq => ⟨Guide.applyN_flip T.toParams ss n q, by rw [stepTotal_length, hq]⟩) viz s hs' a
  have hrow : ∀ r r', MirrorRow r r' →
      (flippedTrain T).getReward ⟨r'.1.px, r'.1.py, r'.1.th1, [r'.1.th2]⟩
        = T.getReward ⟨r.1.px, r.1.py, r.1.th1, [r.1.th2]⟩ ∧
      (flippedTrain T).getTerminalReward ⟨r'.1.px, r'.1.py, r'.1.th1, [r'.1.th2]⟩
        = T.getTerminalReward ⟨r.1.px, r.1.py, r.1.th1, [r.1.th2]⟩ := by
    rintro r r' ⟨_, g1, g2, ⟨k, g3⟩, ⟨m, g4⟩⟩
    have e : (⟨r'.1.px, r'.1.py, r'.1.th1, [r'.1.th2]⟩ : QN)
        = Spec.turnN k (fun _ => m) (flipN ⟨r.1.px, r.1.py, r.1.th1, [r.1.th2]⟩) := by
      unfold Spec.turnN flipN
      simp [g1, g2, g3, g4]
    obtain ⟨-, b, c⟩ := C35_obstacle_ntrailer (flippedTrain T) (flipN ⟨r.1.px, r.1.py, r.1.th1, [r.1.th2]⟩) k
      (fun _ => m)
    rw [e]
    exact ⟨b.trans (reward_flipN T _).1, c.trans (reward_flipN T _).2⟩
  have H : SameTask (T.planEnv (Guide.applyN T.toParams ss n) rows)
      ((flippedTrain T).planEnv (Guide.applyN (flippedTrain T).toParams ss n) rows') flipN (-1)
      (fun q => q.ths.length = T.N) cfg := by
    refine ⟨.inr rfl, ?_, ?_, ?_, ?_, rfl, rfl, rfl, ?_⟩
    · intro k; exact ⟨by simp [NTrailer.planEnv, NTrailer.reset, acted, steer, flippedTrain], h0⟩
    · exact fun s a h => hst false s h a
    · exact fun _ s a h => hst true s h a
    · exact fun q _ => (reward_flipN T q).2
    · intro _
      refine ⟨Demo.rewardOf_flip _ _ _ _ _ _ (fun r r' h => (hrow r r' h).1)
        (fun r r' h => (hrow r r' h).2) hr, fun qs _ => ?_⟩
      show Demo.evalXrefN _ _ _ _ = Demo.evalXrefN _ _ _ _
      unfold Demo.evalXrefN
      congr 1
      apply Demo.zip_flip qs rows rows' hr
      intro q _ r r' h
      have e1 : (flippedTrain T).lastTrailerPos (flipN q) = Spec.flip (T.lastTrailerPos q) := by
        unfold NTrailer.lastTrailerPos
        rw [lastPosLoop_flip hT]
        rfl
      have e2 : (flipN q).ths.getD 0 0 = -q.ths.getD 0 0 := by
        unfold flipN; cases q.ths <;> simp
      rw [e1, e2]
      exact Demo.rowLogpd_flip T.toParams cfg.motionPreference (q.px, q.py) _ q.th0 _ h
  exact mirrorPlan_of_task H normal

/-! ## Non-vacuity -/

/-- Wit robots, every configuration, guidance and demonstrations included. -/
example (cfg : Cfg) (normal : Key → ℕ → ℕ → ℕ → ℕ → U) :=
  C73_tt2d { Wit.tt with enableGuidance := true }
    (by constructor <;> norm_num [Wit.tt, Wit.params, Params.default]) (fun _ u => u) (fun _ u => u) 0.05 3 cfg
    (fun _ _ _ => rfl) normal
example (cfg : Cfg) (normal : Key → ℕ → ℕ → ℕ → ℕ → U) :=
  C73_bicycle Wit.bike (by norm_num [Wit.bike, Wit.params, Params.default])
    (by norm_num [Wit.bike, Wit.params, Params.default]) (fun _ u => u) (fun _ u => u) 0.05 3 cfg
    (fun _ _ _ => rfl) normal
example (cfg : Cfg) (normal : Key → ℕ → ℕ → ℕ → ℕ → U) :=
  C73_acc Wit.acc (default_sidesOK _ _ (by simp) (by simp)) (by show (0:ℝ) ≤ 55 * π / 180; positivity)
    (fun _ u => u) (fun _ u => u) 0.05 3 cfg (fun _ _ _ => rfl) normal
example (cfg : Cfg) (normal : Key → ℕ → ℕ → ℕ → ℕ → U) :=
  C73_ntrailer Wit.train ⟨by norm_num [Wit.train, Wit.params, Params.default],
    by norm_num [Wit.train, Wit.params, Params.default], fun i hi => by
      have : i < 2 := hi
      interval_cases i <;> norm_num [Wit.train, clampGet],
    by norm_num [Wit.train, Wit.params, Params.default]⟩ 0.05 3 cfg rfl rfl normal

end Mbd
