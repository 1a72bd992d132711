import Verif.PropsMotion
import Verif.PropsPlan
import Verif.PropsGeom
import Verif.PropsSafe
import Verif.PropsFrame
import Verif.AccLemmas
import Verif.MirrorLemmas
import Verif.Witness

/-! # Obstacles out of reach (C91) -/

namespace Spec

open Real Mbd

/-- The region keeps more than `D` away from the point `p`. -/
def FarFrom (p : Pt) (D : ℝ) (region : Set Pt) : Prop := ∀ z ∈ region, D < dist z p

/-- Two obstacle lists that differ, as sets, only in obstacles farther than `D` from `p`; order and repetitions are
free. -/
def SameWithin (p : Pt) (D : ℝ) (cs cs' : List Circle) (rs rs' : List Rect) : Prop :=
  (∀ c, ¬ (c ∈ cs ↔ c ∈ cs') → FarFrom p D (circleRegion c)) ∧
  (∀ o, ¬ (o ∈ rs ↔ o ∈ rs') → FarFrom p D (rectRegion o))

/-- All dimensions of the tractor added up. -/
noncomputable def tractorSize (P : Params) : ℝ := |P.l1 + P.lf1| + |P.lr| + P.tractorWidth / 2

/-- All dimensions of tractor and trailer added up. -/
noncomputable def rigSize (P : Params) : ℝ :=
  tractorSize P + |P.lh| + |P.l2| + |P.lf2| + |P.lr2| + P.trailerWidth / 2

/-- All dimensions of tractor and trailers added up. -/
noncomputable def trainSize (T : NTrailer) : ℝ :=
  tractorSize T.toParams + T.trailerWidth / 2 +
    ((List.range T.N).map fun i => |T.lh| + |T.lengths.getD i 0| + |T.fronts.getD i 0| + |T.rears.getD i 0|).sum

end Spec

namespace Mbd

open Real Classical _root_.Spec

/-! ## Plans depend on finitely many steps only -/

theorem scan_congr_n {S : Type} {f f' : S → U → S} {I : ℕ → S → Prop} {m : ℕ}
    (hf : ∀ n < m, ∀ s u, I n s → f' s u = f s u ∧ I (n + 1) (f s u)) :
    ∀ (us : List U) (n : ℕ) (s : S), n + us.length ≤ m → I n s →
      scanStates f' s us = scanStates f s us ∧ finalState f' s us = finalState f s us := by
  intro us
  induction us with
  | nil => intro n s _ _; exact ⟨rfl, rfl⟩
  | cons u us ih =>
    intro n s hn hs
    rw [List.length_cons] at hn
    obtain ⟨e, hi⟩ := hf n (by omega) s u hs
    obtain ⟨i1, i2⟩ := ih (n + 1) _ (by omega) hi
    simp only [scanStates, finalState, e, i1, i2]
    exact ⟨trivial, trivial⟩

theorem reverseLoop_congr {once once' : ℕ × Key × List U → (ℕ × Key × List U) × ℝ} {cfg : Cfg} {h : ℕ}
    (e : ∀ i k Y, Y.length = h → once' (i, k, Y) = once (i, k, Y))
    (hl : ∀ i k Y, Y.length = h → (once (i, k, Y)).1.2.2.length = h) (YN : List U) (hY : YN.length = h) (rng : Key) :
    reverseLoop once' cfg YN rng = reverseLoop once cfg YN rng ∧ (reverseLoop once cfg YN rng).Y.length = h := by
  unfold reverseLoop
  generalize (List.replicate (cfg.Ndiffuse - 1) (List.replicate cfg.Hsample ((0 : ℝ), (0 : ℝ)))) = hist
  have key : ∀ (l : List ℕ) (st : LoopSt), st.Y.length = h →
      l.foldl (reverseBody once' cfg.Ndiffuse) st = l.foldl (reverseBody once cfg.Ndiffuse) st ∧
      (l.foldl (reverseBody once cfg.Ndiffuse) st).Y.length = h := by
    intro l
    induction l with
    | nil => intro st hs; exact ⟨rfl, hs⟩
    | cons i l ih =>
      intro st hs
      have hb : reverseBody once' cfg.Ndiffuse st i = reverseBody once cfg.Ndiffuse st i := by
        unfold reverseBody; rw [e _ _ _ hs]
      simp only [List.foldl_cons, hb]
      exact ih _ (hl _ _ _ hs)
  exact key _ _ hY

/-- A planning run looks at the steps of `Hsample + 1` successive states only. -/
theorem plan_congr_n {Q : Type} (E : PlanEnv Q) (step' viz' : St Q → U → St Q) (I : ℕ → St Q → Prop) (cfg : Cfg)
    (h0 : ∀ k, I 0 (E.reset k))
    (h1 : ∀ n < cfg.Hsample + 1, ∀ s u, I n s → step' s u = E.step s u ∧ I (n + 1) (E.step s u))
    (h2 : ∀ n < cfg.Hsample + 1, ∀ s u, I n s → viz' s u = E.stepViz s u ∧ I (n + 1) (E.stepViz s u))
    (normal : Key → ℕ → ℕ → ℕ → ℕ → U) :
    runDiffusion { E with step := step', stepViz := viz' } normal cfg = runDiffusion E normal cfg := by
  have hro : ∀ k us, us.length = cfg.Hsample → rolloutUsWithTerminal step' E.terminal E.terminalWeight (E.reset k) us =
      rolloutUsWithTerminal E.step E.terminal E.terminalWeight (E.reset k) us := by
    intro k us hl
    obtain ⟨e, hi⟩ := h1 0 (by omega) (E.reset k) (0, 0) (h0 k)
    obtain ⟨e1, e2⟩ := scan_congr_n h1 us 1 _ (by omega) hi
    unfold rolloutUsWithTerminal warmState
    simp only [e, e1, e2]
  have hb : ∀ k Ys, (∀ us ∈ Ys, us.length = cfg.Hsample) →
      evalBatch { E with step := step', stepViz := viz' } cfg (E.reset k) Ys = evalBatch E cfg (E.reset k) Ys := by
    intro k Ys hY
    have : Ys.map (rolloutUsWithTerminal step' E.terminal E.terminalWeight (E.reset k)) =
        Ys.map (rolloutUsWithTerminal E.step E.terminal E.terminalWeight (E.reset k)) :=
      List.map_congr_left fun us hu => hro k us (hY us hu)
    unfold evalBatch
    simp only [this]
  have hsl : ∀ scale eps Y, Y.length = cfg.Hsample → ∀ us ∈ samplePlans cfg scale eps Y, us.length = cfg.Hsample := by
    intro scale eps Y hY us hu
    unfold samplePlans at hu
    obtain ⟨n, -, rfl⟩ := List.mem_map.mp hu
    simpa using hY
  have hone : ∀ S k i key Y, Y.length = cfg.Hsample →
      reverseOnce { E with step := step', stepViz := viz' } S normal cfg (E.reset k) (i, key, Y) =
      reverseOnce E S normal cfg (E.reset k) (i, key, Y) := by
    intro S k i key Y hY
    unfold reverseOnce
    simp only [hb k _ (hsl _ _ Y hY)]
  have hlen : ∀ S k i key Y, Y.length = cfg.Hsample →
      (reverseOnce E S normal cfg (E.reset k) (i, key, Y)).1.2.2.length = cfg.Hsample := by
    intro S k i key Y hY
    simp only [reverseOnce, List.length_zipWith, evalBatch, weightedPlan_length, hY, min_self]
  obtain ⟨l1, l2⟩ := reverseLoop_congr (cfg := cfg) (hone (mkSchedule cfg.beta0 cfg.betaT cfg.Ndiffuse) keyReset)
    (hlen _ keyReset) (zeroPlan cfg) (by simp [zeroPlan]) keyExp
  have hlY : (rolloutUsWithTerminal E.step E.terminal E.terminalWeight (E.reset keyReset)
      (reverseLoop (reverseOnce E (mkSchedule cfg.beta0 cfg.betaT cfg.Ndiffuse) normal cfg (E.reset keyReset)) cfg
        (zeroPlan cfg) keyExp).Y).2.2.length = cfg.Hsample := by
    simp only [rolloutUsWithTerminal, List.length_map, scanStates_length, l2]
  unfold runDiffusion
  simp only [l1, hro _ _ l2, hro _ _ hlY]
  congr 2
  by_cases hg : cfg.enableGuidance = true
  · simp only [hg, if_true, (scan_congr_n h2 _ 0 _ (by rw [hlY]; omega) (h0 keyReset)).1]
  · simp only [hg, if_false, Bool.false_eq_true, (scan_congr_n h1 _ 0 _ (by rw [hlY]; omega) (h0 keyReset)).1]

/-! ## Bodies stay close to the axle -/

theorem dist_frame_le (c : Pt) (ang s t : ℝ) : Spec.dist (Spec.frame c ang s t) c ≤ |s| + |t| := by
  have e : (c.1 + s * cos ang - t * sin ang - c.1) ^ 2 + (c.2 + s * sin ang + t * cos ang - c.2) ^ 2 = s ^ 2 + t ^ 2 := by
    linear_combination (s ^ 2 + t ^ 2) * cos_sq_add_sin_sq ang
  unfold Spec.dist Spec.frame
  simp only
  rw [e, ← sq_abs s, ← sq_abs t]
  apply sqrt_le_iff.mpr
  constructor
  · positivity
  · nlinarith [mul_nonneg (abs_nonneg s) (abs_nonneg t)]

theorem body_near_axle {a : Pt} {ang rear front w : ℝ} {z : Pt} (h : z ∈ Spec.body a ang rear front w) :
    Spec.dist z a ≤ |front| + |rear| + w / 2 := by
  obtain ⟨s, t, h1, h2, h3, rfl⟩ := h
  have hs : |s| ≤ |front| + |rear| := by
    rw [abs_le]
    have := le_abs_self front; have := le_abs_self rear
    have := abs_nonneg front; have := abs_nonneg rear
    constructor <;> linarith
  linarith [dist_frame_le a ang s t]

/-- The two checks that make up every obstacle check, against far obstacles. -/
theorem box_far {a : Pt} {ang rear front w : ℝ} {k : Corners} (h1 : 0 < front + rear) (h2 : 0 < w)
    (hk : k = boxCorners (a.1 + 0.5 * (front - rear) * cos ang, a.2 + 0.5 * (front - rear) * sin ang) ang
      ((front + rear) / 2) (w / 2)) {x0 : Pt} {D d : ℝ} (ha : Spec.dist a x0 + d ≤ D) (hd : |front| + |rear| + w / 2 ≤ d) :
    (∀ c : Circle, FarFrom x0 D (circleRegion c) → ¬ rectCircle k (c.x, c.y) c.r) ∧
    (∀ o : Rect, 0 < o.w ∧ 0 < o.h → FarFrom x0 D (rectRegion o) → ¬ rectRect k o.corners) := by
  subst hk
  constructor
  · intro c hc h
    obtain ⟨p, hp, hq⟩ := rectCircle_sound _ _ (by linarith) (by linarith) _ _ h
    have hb : p ∈ Spec.body a ang rear front w := by
      rw [body_eq_solidRect]
      obtain ⟨s, t, hs, ht, -, rfl⟩ := hp
      exact ⟨s, t, hs, ht, rfl⟩
    have := hc p hq
    linarith [body_near_axle hb, dist_triangle' p a x0]
  · intro o ho hc h
    obtain ⟨p, hp, hq⟩ := (C04_rectRect_exact _ _ _ _ (by linarith) (by linarith) (by linarith [ho.1])
      (by linarith [ho.2])).mp h
    have hb : p ∈ Spec.body a ang rear front w := by rw [body_eq_solidRect]; exact hp
    have := hc p hq
    linarith [body_near_axle hb, dist_triangle' p a x0]

theorem exists_far {α : Type} {l l' : List α} {p : α → Prop} (h : ∀ a, ¬ (a ∈ l ↔ a ∈ l') → ¬ p a) :
    (∃ a ∈ l', p a) ↔ ∃ a ∈ l, p a := by
  constructor
  · rintro ⟨a, ha, hp⟩
    by_contra hn
    exact h a (fun e => hn ⟨a, e.mpr ha, hp⟩) hp
  · rintro ⟨a, ha, hp⟩
    by_contra hn
    exact h a (fun e => hn ⟨a, e.mp ha, hp⟩) hp

theorem tractor_far {P : Params} (h1 : 1e-4 ≤ P.l1 + P.lf1 + P.lr) (h2 : 1e-4 ≤ P.tractorWidth) {px py th : ℝ} {x0 : Pt}
    {D d : ℝ} (ha : Spec.dist (px, py) x0 + d ≤ D) (hd : tractorSize P ≤ d) :
    (∀ c : Circle, FarFrom x0 D (circleRegion c) → ¬ rectCircle (P.tractorCorners px py th) (c.x, c.y) c.r) ∧
    (∀ o : Rect, 0 < o.w ∧ 0 < o.h → FarFrom x0 D (rectRegion o) → ¬ rectRect (P.tractorCorners px py th) o.corners) :=
  box_far (a := (px, py)) (front := P.l1 + P.lf1) (rear := P.lr) (w := P.tractorWidth) (by linarith) (by linarith) rfl ha hd

theorem abs_tail_nonneg (P : Params) (hw : 1e-4 ≤ P.trailerWidth) :
    0 ≤ |P.lh| + |P.l2| + |P.lf2| + |P.lr2| + P.trailerWidth / 2 := by
  have := abs_nonneg P.lh
  have := abs_nonneg P.l2
  have := abs_nonneg P.lf2
  have := abs_nonneg P.lr2
  linarith

theorem trailer_far {P : Params} (hs : SidesOK P) {q : Q4} {x0 : Pt} {D : ℝ}
    (ha : Spec.dist (q.px, q.py) x0 + rigSize P ≤ D) :
    (∀ c : Circle, FarFrom x0 D (circleRegion c) → ¬ rectCircle (TT2d.trailerCorners P q) (c.x, c.y) c.r) ∧
    (∀ o : Rect, 0 < o.w ∧ 0 < o.h → FarFrom x0 D (rectRegion o) → ¬ rectRect (TT2d.trailerCorners P q) o.corners) := by
  have h1 := hs.trailerLen
  have h2 := hs.trailerWid
  have h3 := hs.tractorWid
  have d1 := dist_frame_le (q.px, q.py) q.th1 (-P.lh) 0
  have d2 := dist_frame_le (Spec.frame (q.px, q.py) q.th1 (-P.lh) 0) q.th2 (-P.l2) 0
  have t1 := dist_triangle' (trailerAxle P q) (Spec.frame (q.px, q.py) q.th1 (-P.lh) 0) (q.px, q.py)
  have t2 := dist_triangle' (trailerAxle P q) (q.px, q.py) x0
  have e : Spec.dist (trailerAxle P q) (Spec.frame (q.px, q.py) q.th1 (-P.lh) 0) ≤ |-P.l2| + |(0 : ℝ)| := d2
  have n1 := abs_nonneg (P.l1 + P.lf1)
  have n2 := abs_nonneg P.lr
  simp only [abs_neg, abs_zero, add_zero] at d1 e
  have k0 : TT2d.trailerCorners P q = boxCorners ((trailerAxle P q).1 + 0.5 * (P.lf2 - P.lr2) * cos q.th2,
      (trailerAxle P q).2 + 0.5 * (P.lf2 - P.lr2) * sin q.th2) q.th2 ((P.lf2 + P.lr2) / 2) (P.trailerWidth / 2) := by
    unfold TT2d.trailerCorners trailerAxle TT2d.hitchPoint Spec.frame
    congr 1
    ext <;> simp only <;> ring
  refine box_far (a := trailerAxle P q) (front := P.lf2) (rear := P.lr2) (w := P.trailerWidth)
    (d := |P.lf2| + |P.lr2| + P.trailerWidth / 2) (by linarith) (by linarith) k0 ?_ le_rfl
  unfold rigSize tractorSize at ha
  linarith

/-- The obstacle check of the tractor-trailer sees obstacles within the size of the rig only. -/
theorem checkObstacle_far {P : Params} (hs : SidesOK P) {cs : List Circle} {rs : List Rect} (hr : ∀ o ∈ rs, 0 < o.w ∧ 0 < o.h)
    {x0 : Pt} {D : ℝ} (hf : SameWithin x0 D P.circles cs P.rects rs) (q : Q4)
    (ha : Spec.dist (q.px, q.py) x0 + rigSize P ≤ D) :
    TT2d.checkObstacle { P with circles := cs, rects := rs } q ↔ TT2d.checkObstacle P q := by
  have hpos : ∀ o, ¬ (o ∈ P.rects ↔ o ∈ rs) → 0 < o.w ∧ 0 < o.h := by
    intro o ho
    by_cases h : o ∈ P.rects
    · exact hs.sides o h
    · exact hr o (by by_contra h'; exact ho ⟨fun e => absurd e h, fun e => absurd e h'⟩)
  have hsz : tractorSize P ≤ rigSize P := by
    have := abs_tail_nonneg P hs.trailerWid
    unfold rigSize; linarith
  obtain ⟨a1, a2⟩ := tractor_far hs.tractorLen hs.tractorWid (th := q.th1) ha hsz
  obtain ⟨b1, b2⟩ := trailer_far hs ha
  unfold TT2d.checkObstacle
  refine or_congr (exists_far fun c hc => ?_) (exists_far fun o ho => ?_)
  · have := hf.1 c hc
    exact fun h => h.elim (a1 c this) (b1 c this)
  · have := hf.2 o ho
    exact fun h => h.elim (a2 o (hpos o ho) this) (b2 o (hpos o ho) this)

/-- The obstacle check of the bicycle. -/
theorem bicycleObstacle_far {P : Params} (h1 : 1e-4 ≤ P.l1 + P.lf1 + P.lr) (h2 : 1e-4 ≤ P.tractorWidth)
    {cs : List Circle} {rs : List Rect} (hr : ∀ o ∈ P.rects ++ rs, 0 < o.w ∧ 0 < o.h)
    {x0 : Pt} {D : ℝ} (hf : SameWithin x0 D P.circles cs P.rects rs) (q : Q3)
    (ha : Spec.dist (q.px, q.py) x0 + tractorSize P ≤ D) :
    Bicycle.checkObstacle { P with circles := cs, rects := rs } q ↔ Bicycle.checkObstacle P q := by
  have hpos : ∀ o, ¬ (o ∈ P.rects ↔ o ∈ rs) → 0 < o.w ∧ 0 < o.h := by
    intro o ho
    refine hr o (List.mem_append.mpr ?_)
    by_contra h
    push Not at h
    exact ho ⟨fun e => absurd e h.1, fun e => absurd e h.2⟩
  obtain ⟨a1, a2⟩ := tractor_far h1 h2 (th := q.th1) ha le_rfl
  unfold Bicycle.checkObstacle
  exact or_congr (exists_far fun c hc => a1 c (hf.1 c hc)) (exists_far fun o ho => a2 o (hpos o ho) (hf.2 o ho))

/-! ## Plans -/

theorem shift_le {x0 p p' : Pt} {n : ℕ} {w : ℝ} (h : Spec.dist p x0 ≤ n * w) (h' : Spec.dist p' p ≤ w) :
    Spec.dist p' x0 ≤ (n + 1 : ℕ) * w := by
  have := dist_triangle' p' p x0
  push_cast
  linarith

/-- Two tasks that agree except on the obstacles take the same step if they judge the Euler successor alike. -/
theorem tt2d_step_reach (T T' : TT2d) (hp : T.enableProjection = false) (hp' : T'.enableProjection = false)
    (hg : T.enableGuidance = false) (hg' : T'.enableGuidance = false) (f3 : T'.shieldCollision = T.shieldCollision)
    (f4 : T'.shieldHitch = T.shieldHitch) (f5 : T'.collisionPenalty = T.collisionPenalty)
    (f6 : T'.hitchPenalty = T.hitchPenalty) (f7 : T'.motionPreference = T.motionPreference)
    (hX : T'.xg = T.xg)
    (he : ∀ q u, TT2d.euler T'.toParams q (T'.inputScaler u) = TT2d.euler T.toParams q (T.inputScaler u))
    (hh : ∀ q, TT2d.checkHitch T'.toParams q = TT2d.checkHitch T.toParams q)
    (hr : TT2d.getReward T'.toParams T.xg = TT2d.getReward T.toParams T.xg)
    (hpen : ∀ u, T'.prefPenaltyU (T'.inputScaler u) = T.prefPenaltyU (T.inputScaler u))
    (ext : Ext Q4) (viz : Bool) (s : St Q4) (u : U)
    (hc : TT2d.checkObstacle T'.toParams (TT2d.euler T.toParams s.q
        (T.inputScaler (if s.inBackup = true then (0, 0) else clipU u))) =
      TT2d.checkObstacle T.toParams (TT2d.euler T.toParams s.q
        (T.inputScaler (if s.inBackup = true then (0, 0) else clipU u)))) :
    T'.stepInternal ext viz s u = T.stepInternal ext viz s u := by
  unfold TT2d.stepInternal kinShieldedRollout kinNaive
  simp only [hp, hg, hp', hg', f3, f4, f5, f6, f7, hX, if_false, Bool.false_eq_true, he, hh, hc, hr, hpen]

/-- The bicycle. -/
theorem bicycle_step_reach (T T' : Bicycle) (hp : T.enableProjection = false) (hp' : T'.enableProjection = false)
    (hg : T.enableGuidance = false) (hg' : T'.enableGuidance = false) (f3 : T'.shieldCollision = T.shieldCollision)
    (f4 : T'.shieldHitch = T.shieldHitch) (f5 : T'.collisionPenalty = T.collisionPenalty)
    (f6 : T'.hitchPenalty = T.hitchPenalty) (f7 : T'.motionPreference = T.motionPreference)
    (hX : T'.xg = T.xg)
    (he : ∀ q u, Bicycle.euler T'.toParams q (T'.inputScaler u) = Bicycle.euler T.toParams q (T.inputScaler u))
    (hh : ∀ q, Bicycle.checkHitch T'.toParams q = Bicycle.checkHitch T.toParams q)
    (hr : Bicycle.getReward T'.toParams T.xg = Bicycle.getReward T.toParams T.xg)
    (hpen : ∀ u, T'.prefPenaltyU (T'.inputScaler u) = T.prefPenaltyU (T.inputScaler u))
    (ext : Ext Q3) (viz : Bool) (s : St Q3) (u : U)
    (hc : Bicycle.checkObstacle T'.toParams (Bicycle.euler T.toParams s.q
        (T.inputScaler (if s.inBackup = true then (0, 0) else clipU u))) =
      Bicycle.checkObstacle T.toParams (Bicycle.euler T.toParams s.q
        (T.inputScaler (if s.inBackup = true then (0, 0) else clipU u)))) :
    T'.stepInternal ext viz s u = T.stepInternal ext viz s u := by
  unfold Bicycle.stepInternal kinShieldedRollout kinNaive
  simp only [hp, hg, hp', hg', f3, f4, f5, f6, f7, hX, if_false, Bool.false_eq_true, he, hh, hc, hr, hpen]

/-- **C91**, tractor-trailer: two maps that agree, as sets of obstacles, on everything within the distance the vehicle
can drive in `Hsample + 1` time steps plus its own size of the start give exactly the same result — plan, states, reward
and history — with any shields, any noise and any reference (projection and guidance off). -/
theorem C91_tt2d (T : TT2d) (cs : List Circle) (rs : List Rect) (hs : SidesOK T.toParams)
    (hr : ∀ o ∈ rs, 0 < o.w ∧ 0 < o.h) (hv : 0 ≤ T.vMax) (hdt : 0 ≤ T.dt)
    (hp : T.enableProjection = false) (hg : T.enableGuidance = false) (ext : Ext Q4) (rows : List (Q4 × Bool)) (cfg : Cfg)
    (normal : Key → ℕ → ℕ → ℕ → ℕ → U)
    (hf : SameWithin (T.x0.px, T.x0.py) ((cfg.Hsample + 1) * (T.vMax * T.dt) + rigSize T.toParams)
      T.circles cs T.rects rs) :
    runDiffusion (TT2d.planEnv { T with circles := cs, rects := rs } ext rows) normal cfg =
      runDiffusion (T.planEnv ext rows) normal cfg := by
  have hw : 0 ≤ T.vMax * T.dt := by positivity
  have hst : ∀ viz, ∀ n < cfg.Hsample + 1, ∀ (s : St Q4) u,
      Spec.dist (s.q.px, s.q.py) (T.x0.px, T.x0.py) ≤ n * (T.vMax * T.dt) →
      TT2d.stepInternal { T with circles := cs, rects := rs } ext viz s u = T.stepInternal ext viz s u ∧
      Spec.dist ((T.stepInternal ext viz s u).q.px, (T.stepInternal ext viz s u).q.py) (T.x0.px, T.x0.py) ≤
        (n + 1 : ℕ) * (T.vMax * T.dt) := by
    intro viz n hn s u hd
    have hviz : T.stepInternal ext viz s u = T.step ext s u := by
      unfold TT2d.step TT2d.stepInternal
      simp only [hp, hg, if_false, Bool.false_eq_true]
    have hm := shift_le hd (C15_tt2d T ext hv hdt (fun h => absurd (hp.symm.trans h) (by decide)) s u)
    refine ⟨?_, by rw [hviz]; exact hm⟩
    have hprop := shift_le hd (straight_shift hdt (scaled_speed hv (inBox_eff s.inBackup u)) s.q.px s.q.py s.q.th1)
    have hc := propext (checkObstacle_far hs hr hf (TT2d.euler T.toParams s.q (T.inputScaler (effAction s.inBackup u))) (by
      have h1 : ((n + 1 : ℕ) : ℝ) * (T.vMax * T.dt) ≤ (cfg.Hsample + 1) * (T.vMax * T.dt) := by
        apply mul_le_mul_of_nonneg_right _ hw
        exact_mod_cast (by omega : n + 1 ≤ cfg.Hsample + 1)
      have h2 := hprop.trans h1
      have h3 : Spec.dist ((TT2d.euler T.toParams s.q (T.inputScaler (effAction s.inBackup u))).px,
        (TT2d.euler T.toParams s.q (T.inputScaler (effAction s.inBackup u))).py) (T.x0.px, T.x0.py) ≤ _ := h2
      linarith))
    unfold effAction at hc
    exact tt2d_step_reach T ({ T with circles := cs, rects := rs } : TT2d) hp hp hg hg rfl rfl rfl rfl rfl rfl (fun _ _ => rfl)
      (fun _ => rfl) rfl (fun _ => rfl) ext viz s u hc
  have := plan_congr_n (T.planEnv ext rows) (TT2d.step { T with circles := cs, rects := rs } ext)
    (TT2d.stepInternal { T with circles := cs, rects := rs } ext true)
    (fun n s => Spec.dist (s.q.px, s.q.py) (T.x0.px, T.x0.py) ≤ n * (T.vMax * T.dt)) cfg
    (fun _ => by simp [TT2d.planEnv, TT2d.reset, dist_self'])
    (fun n hn s u h => hst false n hn s u h) (fun n hn s u h => hst true n hn s u h) normal
  exact this

/-- **C91**, bicycle. -/
theorem C91_bicycle (T : Bicycle) (cs : List Circle) (rs : List Rect) (h1 : 1e-4 ≤ T.l1 + T.lf1 + T.lr)
    (h2 : 1e-4 ≤ T.tractorWidth) (hr : ∀ o ∈ T.rects ++ rs, 0 < o.w ∧ 0 < o.h) (hv : 0 ≤ T.vMax) (hdt : 0 ≤ T.dt)
    (hp : T.enableProjection = false) (hg : T.enableGuidance = false) (ext : Ext Q3) (rows : List (Q3 × Bool)) (cfg : Cfg)
    (normal : Key → ℕ → ℕ → ℕ → ℕ → U)
    (hf : SameWithin (T.x0.px, T.x0.py) ((cfg.Hsample + 1) * (T.vMax * T.dt) + tractorSize T.toParams)
      T.circles cs T.rects rs) :
    runDiffusion (Bicycle.planEnv { T with circles := cs, rects := rs } ext rows) normal cfg =
      runDiffusion (T.planEnv ext rows) normal cfg := by
  have hw : 0 ≤ T.vMax * T.dt := by positivity
  have hst : ∀ viz, ∀ n < cfg.Hsample + 1, ∀ (s : St Q3) u,
      Spec.dist (s.q.px, s.q.py) (T.x0.px, T.x0.py) ≤ n * (T.vMax * T.dt) →
      Bicycle.stepInternal { T with circles := cs, rects := rs } ext viz s u = T.stepInternal ext viz s u ∧
      Spec.dist ((T.stepInternal ext viz s u).q.px, (T.stepInternal ext viz s u).q.py) (T.x0.px, T.x0.py) ≤
        (n + 1 : ℕ) * (T.vMax * T.dt) := by
    intro viz n hn s u hd
    have hviz : T.stepInternal ext viz s u = T.step ext s u := by
      unfold Bicycle.step Bicycle.stepInternal
      simp only [hp, hg, if_false, Bool.false_eq_true]
    have hm := shift_le hd (C15_bicycle T ext hv hdt (fun h => absurd (hp.symm.trans h) (by decide)) s u)
    refine ⟨?_, by rw [hviz]; exact hm⟩
    have hprop := shift_le hd (straight_shift hdt (scaled_speed hv (inBox_eff s.inBackup u)) s.q.px s.q.py s.q.th1)
    have hc := propext (bicycleObstacle_far h1 h2 hr hf
      (Bicycle.euler T.toParams s.q (T.inputScaler (effAction s.inBackup u))) (by
      have h1 : ((n + 1 : ℕ) : ℝ) * (T.vMax * T.dt) ≤ (cfg.Hsample + 1) * (T.vMax * T.dt) := by
        apply mul_le_mul_of_nonneg_right _ hw
        exact_mod_cast (by omega : n + 1 ≤ cfg.Hsample + 1)
      have h2 := hprop.trans h1
      have h3 : Spec.dist ((Bicycle.euler T.toParams s.q (T.inputScaler (effAction s.inBackup u))).px,
        (Bicycle.euler T.toParams s.q (T.inputScaler (effAction s.inBackup u))).py) (T.x0.px, T.x0.py) ≤ _ := h2
      linarith))
    unfold effAction at hc
    exact bicycle_step_reach T ({ T with circles := cs, rects := rs } : Bicycle) hp hp hg hg rfl rfl rfl rfl rfl rfl
      (fun _ _ => rfl) (fun _ => rfl) rfl (fun _ => rfl) ext viz s u hc
  exact plan_congr_n (T.planEnv ext rows) (Bicycle.step { T with circles := cs, rects := rs } ext)
    (Bicycle.stepInternal { T with circles := cs, rects := rs } ext true)
    (fun n s => Spec.dist (s.q.px, s.q.py) (T.x0.px, T.x0.py) ≤ n * (T.vMax * T.dt)) cfg
    (fun _ => by simp [Bicycle.planEnv, Bicycle.reset, dist_self'])
    (fun n hn s u h => hst false n hn s u h) (fun n hn s u h => hst true n hn s u h) normal

/-! ## Trains -/

/-- The same train among other obstacles. -/
def Moved (T T' : NTrailer) : Prop := T' = { T with circles := T'.circles, rects := T'.rects }

theorem carryAt_moved {T T' : NTrailer} (h : Moved T T') (x : QN) (v δ : ℝ) (i : ℕ) :
    T'.carryAt x v δ i = T.carryAt x v δ i := by
  unfold Moved at h
  induction i with
  | zero => rw [h]; rfl
  | succ i ih => simp only [NTrailer.carryAt]; rw [ih, h]; rfl

theorem euler_moved {T T' : NTrailer} (h : Moved T T') (x : QN) (u : U) :
    T'.euler x (T'.inputScaler u) = T.euler x (T.inputScaler u) := by
  have hc := carryAt_moved h
  unfold Moved at h
  unfold NTrailer.euler NTrailer.dynamics
  simp only [hc]
  rw [h]
  rfl

theorem lastPosLoop_moved {T T' : NTrailer} (h : Moved T T') (x : QN) (i : ℕ) :
    T'.lastPosLoop x i = T.lastPosLoop x i := by
  unfold Moved at h
  induction i with
  | zero => rw [h]; rfl
  | succ i ih => simp only [NTrailer.lastPosLoop]; rw [ih, h]; rfl

theorem rectHitch_moved {T T' : NTrailer} (h : Moved T T') (x : QN) (i : ℕ) :
    T'.rectHitch x i = T.rectHitch x i := by
  unfold Moved at h
  induction i with
  | zero => rw [h]; rfl
  | succ i ih => simp only [NTrailer.rectHitch]; rw [ih, h]; rfl

theorem posDist_moved {T T' : NTrailer} (h : Moved T T') (x : QN) : T'.posDist x = T.posDist x := by
  have hl := lastPosLoop_moved h
  unfold Moved at h
  unfold NTrailer.posDist NTrailer.dTractor NTrailer.dLast NTrailer.lastTrailerPos
  simp only [hl]
  rw [h]
  rfl

theorem rewards_moved {T T' : NTrailer} (h : Moved T T') :
    T'.getReward = T.getReward ∧ T'.getTerminalReward = T.getTerminalReward := by
  have hd := posDist_moved h
  unfold Moved at h
  have t1 : T'.rewardThreshold = T.rewardThreshold := by rw [h]
  have t2 : T'.terminalRewardThreshold = T.terminalRewardThreshold := by rw [h]
  constructor
  · funext q; unfold NTrailer.getReward; rw [hd, t1]
  · funext q; unfold NTrailer.getTerminalReward; rw [hd, t2]

theorem trailerCorners_moved {T T' : NTrailer} (h : Moved T T') (x : QN) (i : ℕ) :
    T'.trailerCorners x i = T.trailerCorners x i := by
  have hd := rectHitch_moved h
  unfold Moved at h
  unfold NTrailer.trailerCorners
  simp only [hd]
  rw [h]
  rfl

theorem ntrailer_step_reach {T T' : NTrailer} (h : Moved T T') (hp : T.enableProjection = false)
    (hg : T.enableGuidance = false) (guide : QN → QN) (viz : Bool) (s : St QN) (u : U)
    (hc : T'.checkObstacle (T.euler s.q (T.inputScaler (if s.inBackup = true then (0, 0) else clipU u))) =
      T.checkObstacle (T.euler s.q (T.inputScaler (if s.inBackup = true then (0, 0) else clipU u)))) :
    T'.stepTotal guide viz s u = T.stepTotal guide viz s u := by
  have he := euler_moved h
  have hr := (rewards_moved h).1
  unfold Moved at h
  have hh : ∀ q, T'.checkHitch q = T.checkHitch q := by rw [h]; exact fun _ => rfl
  have hpen : ∀ u, T'.prefPenaltyU (T'.inputScaler u) = T.prefPenaltyU (T.inputScaler u) := by rw [h]; exact fun _ => rfl
  have f1 : T'.enableProjection = false := by rw [h]; exact hp
  have f2 : T'.enableGuidance = false := by rw [h]; exact hg
  have f3 : T'.shieldCollision = T.shieldCollision := by rw [h]
  have f4 : T'.shieldHitch = T.shieldHitch := by rw [h]
  have f5 : T'.collisionPenalty = T.collisionPenalty := by rw [h]
  have f6 : T'.hitchPenalty = T.hitchPenalty := by rw [h]
  have f7 : T'.motionPreference = T.motionPreference := by rw [h]
  have f8 : T'.N = T.N := by rw [h]
  unfold NTrailer.stepTotal NTrailer.stepInternal kinShieldedRollout kinNaive
  simp only [f1, f2, f3, f4, f5, f6, f7, f8, hp, hg, if_false, Bool.false_eq_true, he, hh, hc, hr, hpen]

/-- Length of one car: coupling, hitch to axle, and its overhangs. -/
noncomputable def carLen (T : NTrailer) (i : ℕ) : ℝ :=
  |T.lh| + |T.lengths.getD i 0| + |T.fronts.getD i 0| + |T.rears.getD i 0|

noncomputable def carSum (T : NTrailer) (n : ℕ) : ℝ := ((List.range n).map (carLen T)).sum

theorem carLen_nonneg (T : NTrailer) (i : ℕ) : 0 ≤ carLen T i := by unfold carLen; positivity

theorem carSum_succ (T : NTrailer) (n : ℕ) : carSum T (n + 1) = carSum T n + carLen T n := by
  unfold carSum
  rw [List.range_succ, List.map_append, List.sum_append]
  simp

theorem carSum_mono (T : NTrailer) {m n : ℕ} (h : m ≤ n) : carSum T m ≤ carSum T n := by
  induction n, h using Nat.le_induction with
  | base => exact le_rfl
  | succ n _ ih => rw [carSum_succ]; linarith [carLen_nonneg T n]

theorem rectHitch_near (T : NTrailer) (hl : T.lengths.length = T.N) (hr : T.rears.length = T.N) (x : QN) {i : ℕ}
    (hi : i ≤ T.N) : Spec.dist (T.rectHitch x i) (x.px, x.py) ≤ |T.lh| + carSum T i := by
  induction i with
  | zero =>
    have e : T.rectHitch x 0 = Spec.frame (x.px, x.py) x.th0 (-T.lh) 0 := by
      unfold NTrailer.rectHitch NTrailer.hitch0 Spec.frame
      ext <;> simp only <;> ring
    have := dist_frame_le (x.px, x.py) x.th0 (-T.lh) 0
    simp only [abs_neg, abs_zero, add_zero] at this
    rw [e]
    simpa [carSum] using this
  | succ i ih =>
    have ih := ih (by omega)
    have e : T.rectHitch x (i + 1) =
        Spec.frame (T.rectHitch x i) (T.theta x i) (-(T.lengths.getD i 0 + T.rears.getD i 0 + T.lh)) 0 := by
      rw [NTrailer.rectHitch, ← clampGet_of_lt (l := T.lengths) (by omega), ← clampGet_of_lt (l := T.rears) (by omega)]
      unfold Spec.frame
      ext <;> simp only <;> ring
    have d := dist_frame_le (T.rectHitch x i) (T.theta x i) (-(T.lengths.getD i 0 + T.rears.getD i 0 + T.lh)) 0
    rw [← e, abs_neg, abs_zero, add_zero] at d
    have a1 := abs_add_three (T.lengths.getD i 0) (T.rears.getD i 0) T.lh
    have t := dist_triangle' (T.rectHitch x (i + 1)) (T.rectHitch x i) (x.px, x.py)
    have := abs_nonneg (T.fronts.getD i 0)
    rw [carSum_succ]
    unfold carLen
    linarith

/-- The obstacle check of the train sees obstacles within its size only. -/
theorem trainObstacle_far {T T' : NTrailer} (h : Moved T T') (hl : T.lengths.length = T.N) (hf : T.fronts.length = T.N)
    (hr : T.rears.length = T.N) (hs : Spec.TrainSidesOK T) (hpos : ∀ o ∈ T.rects ++ T'.rects, 0 < o.w ∧ 0 < o.h)
    {x0 : Pt} {D : ℝ} (hfar : SameWithin x0 D T.circles T'.circles T.rects T'.rects) (x : QN)
    (ha : Spec.dist (x.px, x.py) x0 + trainSize T ≤ D) : T'.checkObstacle x ↔ T.checkObstacle x := by
  have ek := trailerCorners_moved h
  unfold Moved at h
  have e0 : T'.tractorCorners = T.tractorCorners := by rw [h]; rfl
  have eN : T'.N = T.N := by rw [h]
  have hsz : trainSize T = tractorSize T.toParams + T.trailerWidth / 2 + carSum T T.N := rfl
  have hw := hs.trailerWid
  have hw1 := hs.tractorWid
  have hn : 0 ≤ carSum T T.N := by
    have := carSum_mono T (Nat.zero_le T.N)
    simpa [carSum] using this
  have hd : ∀ o, ¬ (o ∈ T.rects ↔ o ∈ T'.rects) → 0 < o.w ∧ 0 < o.h := by
    intro o ho
    refine hpos o (List.mem_append.mpr ?_)
    by_contra h
    push Not at h
    exact ho ⟨fun e => absurd e h.1, fun e => absurd e h.2⟩
  obtain ⟨a1, a2⟩ := tractor_far (P := T.toParams) hs.tractorLen hs.tractorWid (th := x.th0) ha (by linarith)
  have hb : ∀ i < T.N, (∀ c : Circle, FarFrom x0 D (circleRegion c) → ¬ rectCircle (T.trailerCorners x i) (c.x, c.y) c.r) ∧
      (∀ o : Rect, 0 < o.w ∧ 0 < o.h → FarFrom x0 D (rectRegion o) → ¬ rectRect (T.trailerCorners x i) o.corners) := by
    intro i hi
    have g3 := hs.trailerLen i hi
    rw [clampGet_of_lt (by omega), clampGet_of_lt (by omega)] at g3
    have n1 := rectHitch_near T hl hr x hi.le
    have d := dist_frame_le (T.rectHitch x i) (T.theta x i) (-T.lengths.getD i 0) 0
    rw [abs_neg, abs_zero, add_zero] at d
    have t1 := dist_triangle' (Spec.frame (T.rectHitch x i) (T.theta x i) (-T.lengths.getD i 0) 0) (T.rectHitch x i) (x.px, x.py)
    have t2 := dist_triangle' (Spec.frame (T.rectHitch x i) (T.theta x i) (-T.lengths.getD i 0) 0) (x.px, x.py) x0
    have m := carSum_mono T (Nat.succ_le_of_lt hi)
    rw [Nat.succ_eq_add_one, carSum_succ] at m
    unfold carLen at m
    refine box_far (a := Spec.frame (T.rectHitch x i) (T.theta x i) (-T.lengths.getD i 0) 0)
      (ang := T.theta x i) (front := T.fronts.getD i 0) (rear := T.rears.getD i 0) (w := T.trailerWidth)
      (d := |T.fronts.getD i 0| + |T.rears.getD i 0| + T.trailerWidth / 2) (by linarith) (by linarith) ?_ ?_ le_rfl
    · unfold NTrailer.trailerCorners Spec.frame
      simp only
      rw [clampGet_of_lt (by omega), clampGet_of_lt (by omega), clampGet_of_lt (by omega)]
      congr 1
      · ext <;> simp only <;> ring
      · ring
    · have : 0 ≤ tractorSize T.toParams := by
        unfold tractorSize
        have := abs_nonneg (T.l1 + T.lf1)
        have := abs_nonneg T.lr
        linarith
      linarith
  unfold NTrailer.checkObstacle NTrailer.allTrailerCorners
  simp only [e0, eN, ek, List.mem_map, List.mem_range, exists_exists_and_eq_and]
  refine or_congr (or_congr (exists_far fun c hc => a1 c (hfar.1 c hc)) ?_)
    (or_congr (exists_far fun o ho => a2 o (hd o ho) (hfar.2 o ho)) ?_)
  · exact exists_congr fun i => and_congr_right fun hi => exists_far fun c hc => (hb i hi).1 c (hfar.1 c hc)
  · exact exists_congr fun i => and_congr_right fun hi => exists_far fun o ho => (hb i hi).2 o (hd o ho) (hfar.2 o ho)

/-- **C91**, train of any number of trailers. -/
theorem C91_ntrailer (T : NTrailer) (cs : List Circle) (rs : List Rect) (hw : Spec.WellSized T T.x0)
    (hs : Spec.TrainSidesOK T) (hr : ∀ o ∈ T.rects ++ rs, 0 < o.w ∧ 0 < o.h) (hv : 0 ≤ T.vMax) (hdt : 0 ≤ T.dt)
    (hp : T.enableProjection = false) (hg : T.enableGuidance = false) (guide : QN → QN) (rows : List (Q4 × Bool))
    (cfg : Cfg) (normal : Key → ℕ → ℕ → ℕ → ℕ → U)
    (hf : SameWithin (T.x0.px, T.x0.py) ((cfg.Hsample + 1) * (T.vMax * T.dt) + trainSize T) T.circles cs T.rects rs) :
    runDiffusion (NTrailer.planEnv { T with circles := cs, rects := rs } guide rows) normal cfg =
      runDiffusion (T.planEnv guide rows) normal cfg := by
  have hw0 : 0 ≤ T.vMax * T.dt := by positivity
  obtain ⟨T', hT'⟩ : ∃ T' : NTrailer, T' = { T with circles := cs, rects := rs } := ⟨_, rfl⟩
  have hM : Moved T T' := by unfold Moved; rw [hT']
  have c1 : T'.circles = cs := by rw [hT']
  have c2 : T'.rects = rs := by rw [hT']
  have c3 : T'.x0 = T.x0 := by rw [hT']
  have c4 : T'.toParams = { T.toParams with circles := cs, rects := rs } := by rw [hT']
  have c5 : T'.N = T.N := by rw [hT']
  rw [← hT']
  have hst : ∀ viz, ∀ n < cfg.Hsample + 1, ∀ (s : St QN) u,
      Spec.dist (s.q.px, s.q.py) (T.x0.px, T.x0.py) ≤ n * (T.vMax * T.dt) →
      T'.stepTotal guide viz s u = T.stepTotal guide viz s u ∧
      Spec.dist ((T.stepTotal guide viz s u).q.px, (T.stepTotal guide viz s u).q.py) (T.x0.px, T.x0.py) ≤
        (n + 1 : ℕ) * (T.vMax * T.dt) := by
    intro viz n hn s u hd
    have hviz : T.stepTotal guide viz s u = T.stepTotal guide false s u := by
      unfold NTrailer.stepTotal NTrailer.stepInternal
      simp only [hp, hg, if_false, Bool.false_eq_true]
    have hm : Spec.dist ((T.stepTotal guide false s u).q.px, (T.stepTotal guide false s u).q.py) (s.q.px, s.q.py) ≤
        T.vMax * T.dt := by
      unfold NTrailer.stepTotal
      cases h : T.stepInternal guide false s u with
      | error e => simpa [dist_self'] using hw0
      | ok s' => exact C15_ntrailer T guide hv hdt s s' u h
    refine ⟨?_, by rw [hviz]; exact shift_le hd hm⟩
    have hprop := shift_le hd (straight_shift hdt (scaled_speed (P := T.toParams) hv (inBox_eff s.inBackup u))
      s.q.px s.q.py s.q.th0)
    have hc := propext (trainObstacle_far hM hw.lengths hw.fronts hw.rears hs (by rw [c2]; exact hr)
      (by rw [c1, c2]; exact hf) (T.euler s.q (T.inputScaler (effAction s.inBackup u))) (by
      have h1 : ((n + 1 : ℕ) : ℝ) * (T.vMax * T.dt) ≤ (cfg.Hsample + 1) * (T.vMax * T.dt) := by
        apply mul_le_mul_of_nonneg_right _ hw0
        exact_mod_cast (by omega : n + 1 ≤ cfg.Hsample + 1)
      have h2 := hprop.trans h1
      have h3 : Spec.dist ((T.euler s.q (T.inputScaler (effAction s.inBackup u))).px,
        (T.euler s.q (T.inputScaler (effAction s.inBackup u))).py) (T.x0.px, T.x0.py) ≤ _ := h2
      linarith))
    unfold effAction at hc
    exact ntrailer_step_reach hM hp hg guide viz s u hc
  have hE : T'.planEnv guide rows =
      { T.planEnv guide rows with step := T'.stepTotal guide false, stepViz := T'.stepTotal guide true } := by
    have hre : T'.reset = T.reset := by unfold NTrailer.reset; rw [c3]
    have hx : Demo.evalXrefN T' rows = Demo.evalXrefN T rows := by
      have hrow : Demo.rowLogpd T'.toParams = Demo.rowLogpd T.toParams := by rw [hT']; rfl
      have hlast : ∀ q, T'.lastTrailerPos q = T.lastTrailerPos q := by
        intro q; unfold NTrailer.lastTrailerPos; rw [lastPosLoop_moved hM, c5]
      funext pref xs
      unfold Demo.evalXrefN
      simp only [hrow, hlast]
    unfold NTrailer.planEnv
    simp only [hre, (rewards_moved hM).1, (rewards_moved hM).2, hx]
    rw [c4]
    rfl
  rw [hE]
  exact plan_congr_n (T.planEnv guide rows) (T'.stepTotal guide false) (T'.stepTotal guide true)
    (fun n s => Spec.dist (s.q.px, s.q.py) (T.x0.px, T.x0.py) ≤ n * (T.vMax * T.dt)) cfg
    (fun _ => by simp [NTrailer.planEnv, NTrailer.reset, dist_self'])
    (fun n hn s u h => hst false n hn s u h) (fun n hn s u h => hst true n hn s u h) normal

/-! ## Acceleration control -/

/-- The same vehicle among other obstacles. -/
def MovedAcc (T T' : Acc) : Prop := T' = { T with circles := T'.circles, rects := T'.rects }

theorem acc_move (T : Acc) (hv : 0 ≤ T.vMax) {dt : ℝ} (hdt : 0 ≤ dt) (q : Q6) (u : U) :
    Spec.dist ((T.euler q u dt).px, (T.euler q u dt).py) (q.px, q.py) ≤ T.vMax * dt := by
  apply straight_shift hdt
  unfold clip
  rw [abs_le]
  exact ⟨le_min (le_max_right _ _) (by linarith), min_le_right _ _⟩

theorem rolloutScan_moved {T T' : Acc} (h : MovedAcc T T') (hv : 0 ≤ T.vMax) {x0 : Pt} {D : ℝ}
    (hc : ∀ q : Q6, Spec.dist (q.px, q.py) x0 ≤ D → (T'.checkObstacle q ↔ T.checkObstacle q)) (q : Q6) (n : ℕ) :
    Spec.dist (q.px, q.py) x0 + n * T.vMax ≤ D → T'.rolloutScan q n = T.rolloutScan q n ∧
    Spec.dist ((T.rolloutScan q n).q.px, (T.rolloutScan q n).q.py) x0 ≤ Spec.dist (q.px, q.py) x0 + n * T.vMax := by
  have he : ∀ q u dt, T'.euler q u dt = T.euler q u dt := by
    unfold MovedAcc at h; rw [h]; exact fun _ _ _ => rfl
  have hh : ∀ q, T'.checkHitch q = T.checkHitch q := by
    unfold MovedAcc at h; rw [h]; exact fun _ => rfl
  have hu : ∀ v, T'.uStop v = T.uStop v := by
    unfold MovedAcc at h; rw [h]; exact fun _ => rfl
  induction n with
  | zero =>
    intro hD
    simp only [Nat.cast_zero, zero_mul, add_zero] at hD
    unfold Acc.rolloutScan
    simp [propext (hc q hD), hh]
  | succ n ih =>
    intro hD
    push_cast at hD
    obtain ⟨e, hb⟩ := ih (by linarith)
    have s1 : T'.rolloutScan q (n + 1) = T'.rolloutStep (T'.uStop q.v) (T'.rolloutScan q n) := by
      unfold Acc.rolloutScan; rw [Function.iterate_succ_apply']
    have s2 : T.rolloutScan q (n + 1) = T.rolloutStep (T.uStop q.v) (T.rolloutScan q n) := by
      unfold Acc.rolloutScan; rw [Function.iterate_succ_apply']
    rw [s1, s2, e, hu]
    generalize T.rolloutScan q n = c at hb
    have hq : Spec.dist ((if |c.q.v| > Acc.vThr then T.euler c.q (T.uStop q.v) Acc.rolloutDt else c.q).px,
        (if |c.q.v| > Acc.vThr then T.euler c.q (T.uStop q.v) Acc.rolloutDt else c.q).py) x0 ≤
        Spec.dist (q.px, q.py) x0 + (n + 1 : ℕ) * T.vMax := by
      push_cast
      split_ifs
      · have m := acc_move T hv (dt := Acc.rolloutDt) zero_le_one c.q (T.uStop q.v)
        have t := dist_triangle' ((T.euler c.q (T.uStop q.v) Acc.rolloutDt).px, (T.euler c.q (T.uStop q.v) Acc.rolloutDt).py)
          (c.q.px, c.q.py) x0
        have : T.vMax * Acc.rolloutDt = T.vMax := mul_one _
        linarith
      · linarith
    refine ⟨?_, hq⟩
    unfold Acc.rolloutStep
    simp only [he, hh]
    push_cast at hq
    rw [propext (hc _ (hq.trans (by linarith)))]

theorem acc_step_reach {T T' : Acc} (h : MovedAcc T T') (hp : T.enableProjection = false)
    (hg : T.enableGuidance = false) (hv : 0 ≤ T.vMax) {x0 : Pt} {D : ℝ}
    (hc : ∀ q : Q6, Spec.dist (q.px, q.py) x0 ≤ D → (T'.checkObstacle q ↔ T.checkObstacle q))
    (ext : Ext Q6) (viz : Bool) (s : St Q6) (u : U)
    (hD : ∀ u, Spec.dist ((T.euler s.q u T.dt).px, (T.euler s.q u T.dt).py) x0 + T.maxRolloutSteps * T.vMax ≤ D) :
    T'.stepInternal ext viz s u = T.stepInternal ext viz s u := by
  have hsc := fun q hq => (rolloutScan_moved h hv hc q T.maxRolloutSteps hq).1
  unfold MovedAcc at h
  have he : ∀ q u dt, T'.euler q u dt = T.euler q u dt := by rw [h]; exact fun _ _ _ => rfl
  have hi : ∀ u, T'.inputScaler u = T.inputScaler u := by rw [h]; exact fun _ => rfl
  have hh : ∀ q, T'.checkHitch q = T.checkHitch q := by rw [h]; exact fun _ => rfl
  have hr : ∀ q, T'.getReward q = T.getReward q := by rw [h]; exact fun _ => rfl
  have hb : ∀ v, T'.uBackupNorm v = T.uBackupNorm v := by rw [h]; exact fun _ => rfl
  have hb2 : ∀ v w, T'.uBackupScaled v w = T.uBackupScaled v w := by rw [h]; exact fun _ _ => rfl
  have hpen : ∀ v, T'.prefPenaltyV v = T.prefPenaltyV v := by rw [h]; exact fun _ => rfl
  have f0 : T'.dt = T.dt := by rw [h]
  have f1 : T'.enableProjection = false := by rw [h]; exact hp
  have f2 : T'.enableGuidance = false := by rw [h]; exact hg
  have f3 : T'.shieldCollision = T.shieldCollision := by rw [h]
  have f4 : T'.shieldHitch = T.shieldHitch := by rw [h]
  have f5 : T'.collisionPenalty = T.collisionPenalty := by rw [h]
  have f6 : T'.hitchPenalty = T.hitchPenalty := by rw [h]
  have f7 : T'.motionPreference = T.motionPreference := by rw [h]
  have f8 : T'.maxRolloutSteps = T.maxRolloutSteps := by rw [h]; rfl
  have hn : 0 ≤ (T.maxRolloutSteps : ℝ) * T.vMax := by positivity
  have ho : ∀ u, T'.checkObstacle (T.euler s.q u T.dt) = T.checkObstacle (T.euler s.q u T.dt) :=
    fun u => propext (hc _ (by linarith [hD u]))
  have hs : ∀ u, T'.rolloutScan (T.euler s.q u T.dt) T.maxRolloutSteps = T.rolloutScan (T.euler s.q u T.dt) T.maxRolloutSteps :=
    fun u => hsc _ (hD u)
  unfold Acc.stepInternal Acc.shieldedRollout Acc.naive Acc.checkSafety
  simp only [f0, f1, f2, f3, f4, f5, f6, f7, f8, hp, hg, if_false, Bool.false_eq_true, he, hi, hh, hr, hb, hb2, hpen, ho, hs]

/-- **C91**, acceleration control: the reach also covers the predicted stop. -/
theorem C91_acc (T : Acc) (cs : List Circle) (rs : List Rect) (hs : SidesOK T.toParams)
    (hr : ∀ o ∈ rs, 0 < o.w ∧ 0 < o.h) (hv : 0 ≤ T.vMax) (hdt : 0 ≤ T.dt)
    (hp : T.enableProjection = false) (hg : T.enableGuidance = false) (ext : Ext Q6) (rows : List (Q4 × Bool)) (cfg : Cfg)
    (normal : Key → ℕ → ℕ → ℕ → ℕ → U)
    (hf : SameWithin (T.x0.px, T.x0.py)
      ((cfg.Hsample + 1) * (T.vMax * T.dt) + ⌊2 * T.vMax / T.aMax⌋₊ * T.vMax + rigSize T.toParams)
      T.circles cs T.rects rs) :
    runDiffusion (Acc.planEnv { T with circles := cs, rects := rs } ext rows) normal cfg =
      runDiffusion (T.planEnv ext rows) normal cfg := by
  have hw : 0 ≤ T.vMax * T.dt := by positivity
  have hsteps : T.maxRolloutSteps = ⌊2 * T.vMax / T.aMax⌋₊ := by
    unfold Acc.maxRolloutSteps Acc.rolloutDt; rw [sub_zero, mul_one]
  rw [← hsteps] at hf
  have hc : ∀ q : Q6, Spec.dist (q.px, q.py) (T.x0.px, T.x0.py) ≤
      (cfg.Hsample + 1) * (T.vMax * T.dt) + T.maxRolloutSteps * T.vMax →
      (Acc.checkObstacle { T with circles := cs, rects := rs } q ↔ T.checkObstacle q) := fun q hq =>
    checkObstacle_far hs hr hf q.pose (by
      have : Spec.dist (q.pose.px, q.pose.py) (T.x0.px, T.x0.py) ≤ _ := hq
      linarith)
  have hst : ∀ viz, ∀ n < cfg.Hsample + 1, ∀ (s : St Q6) u,
      Spec.dist (s.q.px, s.q.py) (T.x0.px, T.x0.py) ≤ n * (T.vMax * T.dt) →
      Acc.stepInternal { T with circles := cs, rects := rs } ext viz s u = T.stepInternal ext viz s u ∧
      Spec.dist ((T.stepInternal ext viz s u).q.px, (T.stepInternal ext viz s u).q.py) (T.x0.px, T.x0.py) ≤
        (n + 1 : ℕ) * (T.vMax * T.dt) := by
    intro viz n hn s u hd
    have hviz : T.stepInternal ext viz s u = T.step ext s u := by
      unfold Acc.step Acc.stepInternal
      simp only [hp, hg, if_false, Bool.false_eq_true]
    have hm := shift_le hd (C15_acc T ext hv hdt s u)
    refine ⟨?_, by rw [hviz]; exact hm⟩
    refine acc_step_reach (T' := ({ T with circles := cs, rects := rs } : Acc)) rfl hp hg hv hc ext viz s u fun u' => ?_
    have h1 : ((n + 1 : ℕ) : ℝ) * (T.vMax * T.dt) ≤ (cfg.Hsample + 1) * (T.vMax * T.dt) := by
      apply mul_le_mul_of_nonneg_right _ hw
      exact_mod_cast (by omega : n + 1 ≤ cfg.Hsample + 1)
    linarith [shift_le hd (acc_move T hv hdt s.q u')]
  exact plan_congr_n (T.planEnv ext rows) (Acc.step { T with circles := cs, rects := rs } ext)
    (Acc.stepInternal { T with circles := cs, rects := rs } ext true)
    (fun n s => Spec.dist (s.q.px, s.q.py) (T.x0.px, T.x0.py) ≤ n * (T.vMax * T.dt)) cfg
    (fun _ => by simp [Acc.planEnv, Acc.reset, dist_self'])
    (fun n hn s u h => hst false n hn s u h) (fun n hn s u h => hst true n hn s u h) normal

/-! ## Instances -/

/-- A tank a kilometre away. -/
theorem wit_sameWithin {D : ℝ} (h : D < 900) :
    SameWithin (0, 0) D [⟨20, 0, 1⟩] [⟨1000, 0, 1⟩, ⟨20, 0, 1⟩, ⟨20, 0, 1⟩] [⟨0, 30, 4, 2, 0⟩] [⟨0, 30, 4, 2, 0⟩] := by
  refine ⟨fun c hc => ?_, fun o ho => absurd Iff.rfl ho⟩
  have : c = ⟨1000, 0, 1⟩ := by
    by_contra hne
    apply hc
    simp [hne]
  subst this
  intro z hz
  have hz' : (z.1 - 1000) ^ 2 + (z.2 - 0) ^ 2 ≤ 1 ^ 2 := hz
  have h1 : 999 ≤ z.1 := by nlinarith [sq_nonneg (z.2 - 0)]
  have : (900 : ℝ) ≤ Spec.dist z (0, 0) := by
    unfold Spec.dist
    apply le_sqrt_of_sq_le
    simp only
    nlinarith [sq_nonneg (z.2 - 0)]
  linarith

example (ext : Ext Q4) (rows : List (Q4 × Bool)) (normal : Key → ℕ → ℕ → ℕ → ℕ → U) :=
  C91_tt2d Wit.tt [⟨1000, 0, 1⟩, ⟨20, 0, 1⟩, ⟨20, 0, 1⟩] [⟨0, 30, 4, 2, 0⟩]
    (by constructor <;> norm_num [Wit.tt, Wit.params, Params.default])
    (by norm_num) (by norm_num [Wit.tt, Wit.params, Params.default]) (by norm_num [Wit.tt, Wit.params, Params.default])
    rfl rfl ext rows { defaultCfg with Hsample := 50 } normal
    (wit_sameWithin (by norm_num [Wit.tt, Wit.params, Params.default, rigSize, tractorSize, abs_of_nonneg]))

example (ext : Ext Q3) (rows : List (Q3 × Bool)) (normal : Key → ℕ → ℕ → ℕ → ℕ → U) :=
  C91_bicycle Wit.bike [⟨1000, 0, 1⟩, ⟨20, 0, 1⟩, ⟨20, 0, 1⟩] [⟨0, 30, 4, 2, 0⟩]
    (by norm_num [Wit.bike, Wit.params, Params.default]) (by norm_num [Wit.bike, Wit.params, Params.default])
    (by norm_num [Wit.bike, Wit.params, Params.default])
    (by norm_num [Wit.bike, Wit.params, Params.default]) (by norm_num [Wit.bike, Wit.params, Params.default])
    rfl rfl ext rows { defaultCfg with Hsample := 50 } normal
    (wit_sameWithin (by norm_num [Wit.bike, Wit.params, Params.default, tractorSize, abs_of_nonneg]))

example (guide : QN → QN) (rows : List (Q4 × Bool)) (normal : Key → ℕ → ℕ → ℕ → ℕ → U) :=
  C91_ntrailer Wit.train [⟨1000, 0, 1⟩, ⟨20, 0, 1⟩, ⟨20, 0, 1⟩] [⟨0, 30, 4, 2, 0⟩]
    ⟨rfl, rfl, rfl, rfl⟩
    ⟨by norm_num [Wit.train, Wit.params, Params.default], by norm_num [Wit.train, Wit.params, Params.default],
      fun i hi => by
        have : i < 2 := hi
        interval_cases i <;> norm_num [Wit.train, Wit.params, Params.default, clampGet],
      by norm_num [Wit.train, Wit.params, Params.default]⟩
    (by norm_num [Wit.train, Wit.params, Params.default])
    (by norm_num [Wit.train, Wit.params, Params.default]) (by norm_num [Wit.train, Wit.params, Params.default])
    rfl rfl guide rows { defaultCfg with Hsample := 50 } normal
    (wit_sameWithin (by
      norm_num [Wit.train, Wit.params, Params.default, trainSize, tractorSize, abs_of_nonneg, List.range_succ]))

example (ext : Ext Q6) (rows : List (Q4 × Bool)) (normal : Key → ℕ → ℕ → ℕ → ℕ → U) :=
  C91_acc Wit.acc [⟨1000, 0, 1⟩, ⟨20, 0, 1⟩, ⟨20, 0, 1⟩] [⟨0, 30, 4, 2, 0⟩]
    (by constructor <;> norm_num [Wit.acc, Wit.params, Params.default])
    (by norm_num) (by norm_num [Wit.acc, Wit.params, Params.default]) (by norm_num [Wit.acc, Wit.params, Params.default])
    rfl rfl ext rows { defaultCfg with Hsample := 50 } normal
    (wit_sameWithin (by norm_num [Wit.acc, Wit.params, Params.default, rigSize, tractorSize, abs_of_nonneg]))

end Mbd
