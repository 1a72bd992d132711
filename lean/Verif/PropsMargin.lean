import Verif.PropsSafe
import Verif.PropsEnv
import Verif.PropsAcc
import Verif.PropsPenalty
import Mathlib.Analysis.Real.Pi.Bounds

/-!
# C74: obstacle padding keeps the vehicle clear of the obstacles, also between recorded states
-/

namespace Spec

open Real Mbd

/-- Every point of `A` is more than `m` away from every point of `B`. -/
def KeepsAway (m : ℝ) (A B : Set Pt) : Prop := ∀ a ∈ A, ∀ b ∈ B, m < dist a b

/-- The robot's obstacles are the ones registered with padding `p`; registered without padding the same
rows give `cs` and `rs`. -/
structure Padded (p : ℝ) (P : Params) (cs : List Circle) (rs : List Rect) : Prop where
  rects : ∃ (e : Env) (rows : List (List ℝ)) (mode : String),
    (e.setRectangleObs rows mode p).2 = .ok P.rects ∧ (e.setRectangleObs rows mode 0).2 = .ok rs
  circles : ∃ (e : Env) (rows : List (List ℝ)),
    (e.setCircleObs rows p).2 = .ok P.circles ∧ (e.setCircleObs rows 0).2 = .ok cs

/-- Straight-line interpolation of numbers. -/
def mix (lam a b : ℝ) : ℝ := a + lam * (b - a)

/-- State at the fraction `lam` of the way from one recorded state to the next. -/
def between4 (lam : ℝ) (q q' : Q4) : Q4 :=
  ⟨mix lam q.px q'.px, mix lam q.py q'.py, mix lam q.th1 q'.th1, mix lam q.th2 q'.th2⟩

/-- The same for the bicycle. -/
def between3 (lam : ℝ) (q q' : Q3) : Q3 := ⟨mix lam q.px q'.px, mix lam q.py q'.py, mix lam q.th1 q'.th1⟩

/-- The same for the train. -/
def betweenN (lam : ℝ) (x x' : QN) : QN :=
  ⟨mix lam x.px x'.px, mix lam x.py x'.py, mix lam x.th0 x'.th0, List.zipWith (mix lam) x.ths x'.ths⟩

/-- Bodies at least `m` away from all the obstacles. -/
def Margin4 (m : ℝ) (P : Params) (cs : List Circle) (rs : List Rect) (q : Q4) : Prop :=
  (∀ c ∈ cs, KeepsAway m (tractorBody P q.px q.py q.th1) (circleRegion c) ∧
    KeepsAway m (trailerBody P q) (circleRegion c)) ∧
  (∀ o ∈ rs, KeepsAway m (tractorBody P q.px q.py q.th1) (rectRegion o) ∧
    KeepsAway m (trailerBody P q) (rectRegion o))

/-- The same for the bicycle. -/
def Margin3 (m : ℝ) (P : Params) (cs : List Circle) (rs : List Rect) (q : Q3) : Prop :=
  (∀ c ∈ cs, KeepsAway m (tractorBody P q.px q.py q.th1) (circleRegion c)) ∧
  (∀ o ∈ rs, KeepsAway m (tractorBody P q.px q.py q.th1) (rectRegion o))

/-- The same for the train. -/
def MarginN (m : ℝ) (T : NTrailer) (cs : List Circle) (rs : List Rect) (x : QN) : Prop :=
  (∀ c ∈ cs, KeepsAway m (tractorBody T.toParams x.px x.py x.th0) (circleRegion c) ∧
    ∀ i < T.N, KeepsAway m (trailerBodyN T x i) (circleRegion c)) ∧
  (∀ o ∈ rs, KeepsAway m (tractorBody T.toParams x.px x.py x.th0) (rectRegion o) ∧
    ∀ i < T.N, KeepsAway m (trailerBodyN T x i) (rectRegion o))

/-- How far a point of the trailer can travel in one step: travel of the tractor's axle, swing of the hitch
and of the trailer. -/
noncomputable def trailerSweep (P : Params) : ℝ :=
  let w := P.vMax * P.dt
  let tn := tan (P.deltaMaxDeg * π / 180)
  let Δ₁ := w * tn / P.l1
  let Δ₂ := w * √(1 + (P.lh * tn / P.l1) ^ 2) / P.l2
  w + P.lh * Δ₁ + (P.l2 + max P.lr2 P.lf2 + P.trailerWidth / 2) * Δ₂

/-- Largest speed and turning rate of unit `i` of the train (0: tractor). -/
noncomputable def unitRates (T : NTrailer) : ℕ → ℝ × ℝ
  | 0 => (T.vMax, T.vMax / T.l1 * tan (T.deltaMaxDeg * π / 180))
  | i + 1 => (√((unitRates T i).1 ^ 2 + (T.lh * (unitRates T i).2) ^ 2),
      √((unitRates T i).1 ^ 2 + (T.lh * (unitRates T i).2) ^ 2) / T.lengths.getD i 0)

/-- Largest travel of the hitch in front of trailer `i` in one step. -/
noncomputable def hitchTravel (T : NTrailer) : ℕ → ℝ
  | 0 => T.dt * T.vMax + T.lh * (T.dt * (unitRates T 0).2)
  | i + 1 => hitchTravel T i + (T.lengths.getD i 0 + (T.rears.getD i 0 + T.lh)) * (T.dt * (unitRates T (i + 1)).2)

/-- Largest travel of a point of trailer `i` in one step. -/
noncomputable def trailerSweepN (T : NTrailer) (i : ℕ) : ℝ :=
  hitchTravel T i + (T.lengths.getD i 0 + (max (T.rears.getD i 0) (T.fronts.getD i 0) + T.trailerWidth / 2))
    * (T.dt * (unitRates T (i + 1)).2)

end Spec

namespace Mbd

open Real Classical _root_.Spec

/-! ## Registration -/

theorem convertAll_pair {A B : Type} {f g : A → Except EnvErr B} {R : B → B → Prop}
    (h : ∀ a b b', f a = .ok b → g a = .ok b' → R b b') :
    ∀ (l : List A) (bs bs' : List B), Env.convertAll f l = .ok bs → Env.convertAll g l = .ok bs' →
      List.Forall₂ R bs bs'
  | [], bs, bs', h1, h2 => by
    simp only [Env.convertAll, Except.ok.injEq] at h1 h2
    subst h1 h2
    exact .nil
  | a :: l, bs, bs', h1, h2 => by
    simp only [Env.convertAll] at h1 h2
    cases hf : f a with
    | error e => simp [hf] at h1
    | ok b =>
      cases hg : g a with
      | error e => simp [hg] at h2
      | ok b' =>
        cases hfl : Env.convertAll f l with
        | error e => simp [hf, hfl] at h1
        | ok bl =>
          cases hgl : Env.convertAll g l with
          | error e => simp [hg, hgl] at h2
          | ok bl' =>
            simp only [hf, hfl, Except.ok.injEq] at h1
            simp only [hg, hgl, Except.ok.injEq] at h2
            subst h1 h2
            exact .cons (h a b b' hf hg) (convertAll_pair h l bl bl' hfl hgl)

theorem padded_rects {p : ℝ} {P : Params} {cs rs} (h : Padded p P cs rs) :
    List.Forall₂ (fun o o0 : Rect => o = ⟨o0.x, o0.y, o0.w + p * 2, o0.h + p * 2, o0.ang⟩) P.rects rs := by
  obtain ⟨e, rows, mode, h1, h2⟩ := h.rects
  unfold Env.setRectangleObs at h1 h2
  cases e1 : Env.convertAll (Env.convertRect mode p) rows with
  | error err => simp [e1] at h1
  | ok l =>
    cases e2 : Env.convertAll (Env.convertRect mode 0) rows with
    | error err => simp [e2] at h2
    | ok l' =>
      simp only [e1, Except.ok.injEq] at h1
      simp only [e2, Except.ok.injEq] at h2
      subst h1 h2
      refine convertAll_pair ?_ rows _ _ e1 e2
      intro a b b' f1 f2
      unfold Env.convertRect at f1 f2
      have key : ∀ x y w h r : ℝ, (if mode = "left-top" then
            Except.ok (⟨x + w / 2, y - h / 2, w + p * 2, h + p * 2, r⟩ : Rect)
          else if mode = "center" then .ok ⟨x, y, w + p * 2, h + p * 2, r⟩ else .error EnvErr.coordinateMode) = .ok b →
          (if mode = "left-top" then Except.ok (⟨x + w / 2, y - h / 2, w + 0 * 2, h + 0 * 2, r⟩ : Rect)
          else if mode = "center" then .ok ⟨x, y, w + 0 * 2, h + 0 * 2, r⟩ else .error EnvErr.coordinateMode) = .ok b' →
          b = ⟨b'.x, b'.y, b'.w + p * 2, b'.h + p * 2, b'.ang⟩ := by
        intro x y w h r g1 g2
        split_ifs at g1 g2
        · injection g1 with g1; injection g2 with g2
          rw [← g1, ← g2]; simp
        · injection g1 with g1; injection g2 with g2
          rw [← g1, ← g2]; simp
      rcases a with _ | ⟨x, _ | ⟨y, _ | ⟨w, _ | ⟨h, _ | ⟨r, _ | ⟨z, l⟩⟩⟩⟩⟩⟩
      · simp at f1
      · simp at f1
      · simp at f1
      · simp at f1
      · exact key x y w h 0 f1 f2
      · exact key x y w h r f1 f2
      · simp at f1

theorem padded_circles {p : ℝ} {P : Params} {cs rs} (h : Padded p P cs rs) :
    List.Forall₂ (fun c c0 : Circle => c = ⟨c0.x, c0.y, c0.r + p⟩) P.circles cs := by
  obtain ⟨e, rows, h1, h2⟩ := h.circles
  unfold Env.setCircleObs at h1 h2
  cases e1 : Env.convertAll (Env.convertCircle p) rows with
  | error err => simp [e1] at h1
  | ok l =>
    cases e2 : Env.convertAll (Env.convertCircle 0) rows with
    | error err => simp [e2] at h2
    | ok l' =>
      simp only [e1, Except.ok.injEq] at h1
      simp only [e2, Except.ok.injEq] at h2
      subst h1 h2
      refine convertAll_pair ?_ rows _ _ e1 e2
      intro a b b' f1 f2
      unfold Env.convertCircle at f1 f2
      split at f1 <;> simp_all
      subst f2 f1
      simp

theorem forall2_mem_right {A B : Type} {R : A → B → Prop} {l : List A} {l' : List B} (h : List.Forall₂ R l l') :
    ∀ b ∈ l', ∃ a ∈ l, R a b := by
  induction h with
  | nil => simp
  | cons h _ ih =>
    intro b hb
    rcases List.mem_cons.1 hb with rfl | hb
    · exact ⟨_, by simp, h⟩
    · obtain ⟨a, ha, hr⟩ := ih b hb
      exact ⟨a, by simp [ha], hr⟩

theorem forall2_mem_left {A B : Type} {R : A → B → Prop} {l : List A} {l' : List B} (h : List.Forall₂ R l l') :
    ∀ a ∈ l, ∃ b ∈ l', R a b := by
  induction h with
  | nil => simp
  | cons h _ ih =>
    intro b hb
    rcases List.mem_cons.1 hb with rfl | hb
    · exact ⟨_, by simp, h⟩
    · obtain ⟨a, ha, hr⟩ := ih b hb
      exact ⟨a, by simp [ha], hr⟩

/-- Being clear of a padded disc. -/
theorem away_circle {A : Set Pt} {c : Circle} {p : ℝ} (hr : 0 ≤ c.r) (hp : 0 ≤ p)
    (h : Spec.Apart A (Spec.circleRegion ⟨c.x, c.y, c.r + p⟩)) : KeepsAway p A (Spec.circleRegion c) := by
  intro a ha b hb
  by_contra hn
  rw [not_lt] at hn
  apply h a ha
  have h1 : Spec.dist b (c.x, c.y) ≤ c.r := by
    unfold Spec.dist
    rw [sqrt_le_left hr]
    exact hb
  have h2 : Spec.dist a (c.x, c.y) ≤ c.r + p := by
    rw [dist_eq] at *
    calc ‖toC a - toC (c.x, c.y)‖ = ‖(toC a - toC b) + (toC b - toC (c.x, c.y))‖ := by congr 1; ring
      _ ≤ ‖toC a - toC b‖ + ‖toC b - toC (c.x, c.y)‖ := norm_add_le _ _
      _ ≤ c.r + p := by linarith
  unfold Spec.dist at h2
  rw [sqrt_le_left (by linarith)] at h2
  exact h2

/-- Being clear of a padded rectangle. -/
theorem away_rect {A : Set Pt} {o : Rect} {p : ℝ} (hp : 0 ≤ p)
    (h : Spec.Apart A (Spec.rectRegion ⟨o.x, o.y, o.w + p * 2, o.h + p * 2, o.ang⟩)) :
    KeepsAway p A (Spec.rectRegion o) := by
  intro a ha b hb
  by_contra hn
  rw [not_lt] at hn
  exact h a ha (C39_clearance (o.x, o.y) o.ang o.w o.h hp hb hn)

/-- **C74, recorded states of a tractor-trailer**: a state that is clear of the padded obstacles is more
than the padding away from the obstacles themselves. -/
theorem C74_margin_tt2d {p : ℝ} (hp : 0 ≤ p) {P : Params} {cs : List Circle} {rs : List Rect}
    (h : Padded p P cs rs) (hr : ∀ c ∈ cs, 0 ≤ c.r) {q : Q4} (hq : Spec.SafeTT P q) : Margin4 p P cs rs q := by
  constructor
  · intro c hc
    obtain ⟨c', hc', rfl⟩ := forall2_mem_right (padded_circles h) c hc
    exact ⟨away_circle (hr c hc) hp (hq.1 _ hc').1, away_circle (hr c hc) hp (hq.1 _ hc').2⟩
  · intro o ho
    obtain ⟨o', ho', rfl⟩ := forall2_mem_right (padded_rects h) o ho
    exact ⟨away_rect hp (hq.2 _ ho').1, away_rect hp (hq.2 _ ho').2⟩

/-- The same for the bicycle. -/
theorem C74_margin_bicycle {p : ℝ} (hp : 0 ≤ p) {P : Params} {cs : List Circle} {rs : List Rect}
    (h : Padded p P cs rs) (hr : ∀ c ∈ cs, 0 ≤ c.r) {q : Q3} (hq : Spec.SafeBicycle P q) : Margin3 p P cs rs q := by
  constructor
  · intro c hc
    obtain ⟨c', hc', rfl⟩ := forall2_mem_right (padded_circles h) c hc
    exact away_circle (hr c hc) hp (hq.1 _ hc')
  · intro o ho
    obtain ⟨o', ho', rfl⟩ := forall2_mem_right (padded_rects h) o ho
    exact away_rect hp (hq.2 _ ho')

/-- The same for the train. -/
theorem C74_margin_ntrailer {p : ℝ} (hp : 0 ≤ p) {T : NTrailer} {cs : List Circle} {rs : List Rect}
    (h : Padded p T.toParams cs rs) (hr : ∀ c ∈ cs, 0 ≤ c.r) {x : QN} (hx : Spec.SafeN T x) :
    MarginN p T cs rs x := by
  constructor
  · intro c hc
    obtain ⟨c', hc', rfl⟩ := forall2_mem_right (padded_circles h) c hc
    exact ⟨away_circle (hr c hc) hp (hx.1 _ hc').1, fun i hi => away_circle (hr c hc) hp ((hx.1 _ hc').2 i hi)⟩
  · intro o ho
    obtain ⟨o', ho', rfl⟩ := forall2_mem_right (padded_rects h) o ho
    exact ⟨away_rect hp (hx.2 _ ho').1, fun i hi => away_rect hp ((hx.2 _ ho').2 i hi)⟩

/-! ## Between recorded states -/

/-- `B` lies within `d` of `A` or within `d` of `A'`; whatever both keep away from, `B` misses. -/
theorem between_apart {A A' B O : Set Pt} {d p : ℝ} (hdp : d ≤ p)
    (h1 : KeepsAway p A O) (h2 : KeepsAway p A' O)
    (hB : ∀ b ∈ B, (∃ a ∈ A, Spec.dist a b ≤ d) ∨ ∃ a ∈ A', Spec.dist a b ≤ d) : Spec.Apart B O := by
  intro b hb hO
  rcases hB b hb with ⟨a, ha, hd⟩ | ⟨a, ha, hd⟩
  · linarith [h1 a ha b hO]
  · linarith [h2 a ha b hO]

theorem toC_mix (lam : ℝ) (c c' : V2) : toC (mix lam c.1 c'.1, mix lam c.2 c'.2) = toC c + lam * (toC c' - toC c) := by
  unfold toC mix
  apply Complex.ext <;> simp

theorem hd_mix (lam a a' : ℝ) : ‖hd (mix lam a a') - hd a‖ ≤ |lam| * |a' - a| ∧
    ‖hd (mix lam a a') - hd a'‖ ≤ |1 - lam| * |a' - a| := by
  constructor
  · refine (norm_hd_sub _ _).trans (le_of_eq ?_)
    rw [← abs_mul]; congr 1; unfold mix; ring
  · refine (norm_hd_sub _ _).trans (le_of_eq ?_)
    rw [← abs_mul, abs_sub_comm]; congr 1; unfold mix; ring

theorem half_cases {lam : ℝ} (h0 : 0 ≤ lam) (h1 : lam ≤ 1) :
    (|lam| ≤ 1 / 2 ∨ |1 - lam| ≤ 1 / 2) := by
  rcases le_total lam (1 / 2) with h | h
  · left; rw [abs_of_nonneg h0]; exact h
  · right; rw [abs_of_nonneg (by linarith)]; linarith

/-- Points of a body whose axle and heading are interpolated, `D` bounding the travel of the axle. -/
theorem body_between {lam : ℝ} (h0 : 0 ≤ lam) (h1 : lam ≤ 1) {a a' am : V2} {ang ang' rear front width D : ℝ}
    (hA : Spec.dist am a ≤ |lam| * D) (hA' : Spec.dist am a' ≤ |1 - lam| * D)
    (b : Pt) (hb : b ∈ Spec.body am (mix lam ang ang') rear front width) :
    let d := (D + (max rear front + width / 2) * |ang' - ang|) / 2
    (∃ x ∈ Spec.body a ang rear front width, Spec.dist x b ≤ d) ∨
      ∃ x ∈ Spec.body a' ang' rear front width, Spec.dist x b ≤ d := by
  intro d
  obtain ⟨s, t, hs1, hs2, ht, rfl⟩ := hb
  have hs : |s| ≤ max rear front := by
    rw [abs_le]
    exact ⟨by linarith [le_max_left rear front], by linarith [le_max_right rear front]⟩
  have e1 : |mix lam ang ang' - ang| = |lam| * |ang' - ang| := by
    rw [← abs_mul]; congr 1; unfold mix; ring
  have e2 : |mix lam ang ang' - ang'| = |1 - lam| * |ang' - ang| := by
    rw [← abs_mul, abs_sub_comm]; congr 1; unfold mix; ring
  have key : ∀ c : V2, ∀ g k : ℝ, 0 ≤ k → k ≤ 1 / 2 → 0 ≤ D → Spec.dist am c ≤ k * D →
      |mix lam ang ang' - g| = k * |ang' - ang| →
      Spec.dist (Spec.frame c g s t) (Spec.frame am (mix lam ang ang') s t) ≤ d := by
    intro c g k hk hk2 hD hc hg
    rw [dist_comm']
    refine (frame_shift c am g (mix lam ang ang') s t).trans ?_
    rw [hg]
    have hx : (|s| + |t|) * |ang' - ang| ≤ (max rear front + width / 2) * |ang' - ang| :=
      mul_le_mul_of_nonneg_right (by linarith) (abs_nonneg _)
    have hxn : 0 ≤ (|s| + |t|) * |ang' - ang| := by positivity
    have : Spec.dist am c + (|s| + |t|) * (k * |ang' - ang|) ≤ k * (D + (|s| + |t|) * |ang' - ang|) := by nlinarith
    refine this.trans ?_
    show _ ≤ (D + (max rear front + width / 2) * |ang' - ang|) / 2
    nlinarith
  have hDn : 0 ≤ D := by
    by_contra hneg
    rw [not_le] at hneg
    have d1 : 0 ≤ Spec.dist am a := sqrt_nonneg _
    have d2 : 0 ≤ Spec.dist am a' := sqrt_nonneg _
    rcases half_cases h0 h1 with h | h
    · have : 1 / 2 ≤ |1 - lam| := by
        rw [abs_of_nonneg h0] at h; rw [abs_of_nonneg (by linarith)]; linarith
      nlinarith
    · have : 1 / 2 ≤ |lam| := by
        rw [abs_of_nonneg (by linarith)] at h; rw [abs_of_nonneg h0]; linarith
      nlinarith
  rcases half_cases h0 h1 with h | h
  · exact .inl ⟨_, ⟨s, t, hs1, hs2, ht, rfl⟩, key a ang _ (abs_nonneg _) h hDn hA e1⟩
  · exact .inr ⟨_, ⟨s, t, hs1, hs2, ht, rfl⟩, key a' ang' _ (abs_nonneg _) h hDn hA' e2⟩

theorem point_between (lam : ℝ) (c c' : V2) :
    Spec.dist (mix lam c.1 c'.1, mix lam c.2 c'.2) c ≤ |lam| * Spec.dist c' c ∧
    Spec.dist (mix lam c.1 c'.1, mix lam c.2 c'.2) c' ≤ |1 - lam| * Spec.dist c' c := by
  simp only [dist_eq, toC_mix]
  constructor
  · rw [show toC c + lam * (toC c' - toC c) - toC c = (lam : ℂ) * (toC c' - toC c) by ring, norm_mul]
    simp
  · rw [show toC c + lam * (toC c' - toC c) - toC c' = -(((1 - lam : ℝ) : ℂ) * (toC c' - toC c)) by
      push_cast; ring, norm_neg, norm_mul, Complex.norm_real, Real.norm_eq_abs]

/-- Axle of the trailer between two states. -/
theorem axle_between (P : Params) (hl : 0 ≤ P.lh) (hl2 : 0 ≤ P.l2) (lam : ℝ) (q q' : Q4) :
    let D := Spec.dist (q'.px, q'.py) (q.px, q.py) + P.lh * |q'.th1 - q.th1| + P.l2 * |q'.th2 - q.th2|
    Spec.dist (Spec.trailerAxle P (between4 lam q q')) (Spec.trailerAxle P q) ≤ |lam| * D ∧
    Spec.dist (Spec.trailerAxle P (between4 lam q q')) (Spec.trailerAxle P q') ≤ |1 - lam| * D := by
  intro D
  have ax : ∀ x : Q4, toC (Spec.trailerAxle P x)
      = toC (x.px, x.py) - P.lh * hd x.th1 - P.l2 * hd x.th2 := by
    intro x
    unfold Spec.trailerAxle
    rw [toC_frame, toC_frame]
    have r1 : (⟨-P.lh, 0⟩ : ℂ) = -(P.lh : ℂ) := by apply Complex.ext <;> simp
    have r2 : (⟨-P.l2, 0⟩ : ℂ) = -(P.l2 : ℂ) := by apply Complex.ext <;> simp
    rw [r1, r2]; ring
  obtain ⟨p1, p2⟩ := point_between lam (q.px, q.py) (q'.px, q'.py)
  obtain ⟨a1, a2⟩ := hd_mix lam q.th1 q'.th1
  obtain ⟨b1, b2⟩ := hd_mix lam q.th2 q'.th2
  have tri : ∀ (x y z : ℂ), ‖x - P.lh * y - P.l2 * z‖ ≤ ‖x‖ + P.lh * ‖y‖ + P.l2 * ‖z‖ := by
    intro x y z
    refine (norm_sub_le _ _).trans (add_le_add ((norm_sub_le _ _).trans (add_le_add le_rfl ?_)) ?_)
    · rw [norm_mul]; simp [abs_of_nonneg hl]
    · rw [norm_mul]; simp [abs_of_nonneg hl2]
  constructor
  · rw [dist_eq, ax, ax]
    rw [dist_eq] at p1
    have e : toC ((between4 lam q q').px, (between4 lam q q').py) - P.lh * hd (between4 lam q q').th1
        - P.l2 * hd (between4 lam q q').th2 - (toC (q.px, q.py) - P.lh * hd q.th1 - P.l2 * hd q.th2)
        = (toC (mix lam q.px q'.px, mix lam q.py q'.py) - toC (q.px, q.py))
          - P.lh * (hd (mix lam q.th1 q'.th1) - hd q.th1) - P.l2 * (hd (mix lam q.th2 q'.th2) - hd q.th2) := by
      simp only [between4]; ring
    rw [e]
    refine (tri _ _ _).trans ?_
    have := mul_le_mul_of_nonneg_left a1 hl
    have := mul_le_mul_of_nonneg_left b1 hl2
    show _ ≤ |lam| * (_ + _ + _)
    linarith
  · rw [dist_eq, ax, ax]
    rw [dist_eq] at p2
    have e : toC ((between4 lam q q').px, (between4 lam q q').py) - P.lh * hd (between4 lam q q').th1
        - P.l2 * hd (between4 lam q q').th2 - (toC (q'.px, q'.py) - P.lh * hd q'.th1 - P.l2 * hd q'.th2)
        = (toC (mix lam q.px q'.px, mix lam q.py q'.py) - toC (q'.px, q'.py))
          - P.lh * (hd (mix lam q.th1 q'.th1) - hd q'.th1) - P.l2 * (hd (mix lam q.th2 q'.th2) - hd q'.th2) := by
      simp only [between4]; ring
    rw [e]
    refine (tri _ _ _).trans ?_
    have := mul_le_mul_of_nonneg_left a2 hl
    have := mul_le_mul_of_nonneg_left b2 hl2
    show _ ≤ |1 - lam| * (_ + _ + _)
    linarith

/-- Two states with the given margin and bounded travel: everything in between is clear. -/
theorem tt_between {P : Params} {cs : List Circle} {rs : List Rect} {p : ℝ} (hl : 0 ≤ P.lh) (hl2 : 0 ≤ P.l2)
    {q q' : Q4}
    (h1 : Spec.dist (q'.px, q'.py) (q.px, q.py)
      + (max P.lr (P.l1 + P.lf1) + P.tractorWidth / 2) * |q'.th1 - q.th1| ≤ 2 * p)
    (h2 : Spec.dist (q'.px, q'.py) (q.px, q.py) + P.lh * |q'.th1 - q.th1| + P.l2 * |q'.th2 - q.th2|
      + (max P.lr2 P.lf2 + P.trailerWidth / 2) * |q'.th2 - q.th2| ≤ 2 * p)
    (m : Margin4 p P cs rs q) (m' : Margin4 p P cs rs q') {lam : ℝ} (l0 : 0 ≤ lam) (l1 : lam ≤ 1) :
    Spec.SafeTT { P with circles := cs, rects := rs } (between4 lam q q') := by
  obtain ⟨p1, p2⟩ := point_between lam (q.px, q.py) (q'.px, q'.py)
  obtain ⟨a1, a2⟩ := axle_between P hl hl2 lam q q'
  have tr : ∀ b ∈ Spec.tractorBody P (between4 lam q q').px (between4 lam q q').py (between4 lam q q').th1, _ :=
    fun b hb => body_between (rear := P.lr) (front := P.l1 + P.lf1) (width := P.tractorWidth) l0 l1 p1 p2 b hb
  have ta : ∀ b ∈ Spec.trailerBody P (between4 lam q q'), _ :=
    fun b hb => body_between (rear := P.lr2) (front := P.lf2) (width := P.trailerWidth) l0 l1 a1 a2 b hb
  simp only at tr ta
  constructor
  · intro c hc
    exact ⟨between_apart (by linarith) (m.1 c hc).1 (m'.1 c hc).1 tr,
      between_apart (by linarith) (m.1 c hc).2 (m'.1 c hc).2 ta⟩
  · intro o ho
    exact ⟨between_apart (by linarith) (m.2 o ho).1 (m'.2 o ho).1 tr,
      between_apart (by linarith) (m.2 o ho).2 (m'.2 o ho).2 ta⟩

/-- Travel in one step of the model. -/
theorem euler_travel {P : Params} (h : DriveOK P) (hs : Spec.SidesOK P) (hov : -P.lr ≤ P.l1 + P.lf1) {u : U}
    (hu : Spec.InBox u) {q q' : Q4} (hq : Spec.EulerTT P q u q') (h2 : -P.lr2 ≤ P.lf2) :
    Spec.dist (q'.px, q'.py) (q.px, q.py)
      + (max P.lr (P.l1 + P.lf1) + P.tractorWidth / 2) * |q'.th1 - q.th1| ≤ Spec.tractorShift P 0 ∧
    Spec.dist (q'.px, q'.py) (q.px, q.py) + P.lh * |q'.th1 - q.th1| + P.l2 * |q'.th2 - q.th2|
      + (max P.lr2 P.lf2 + P.trailerWidth / 2) * |q'.th2 - q.th2| ≤ trailerSweep P := by
  obtain ⟨e1, e2, e3, e4⟩ := hq
  have t0 : Spec.dist (q'.px, q'.py) (q.px, q.py) ≤ P.vMax * P.dt := by
    rw [e1, e2]; exact ref_shift h hu q.px q.py q.th1
  have t1 : |q'.th1 - q.th1| ≤ P.vMax * P.dt * tan (P.deltaMaxDeg * π / 180) / P.l1 := by
    rw [e3, add_sub_cancel_left]; exact dth1_le h hu
  have t2 : |q'.th2 - q.th2| ≤
      P.vMax * P.dt * √(1 + (P.lh * tan (P.deltaMaxDeg * π / 180) / P.l1) ^ 2) / P.l2 := by
    rw [e4, add_sub_cancel_left]; exact dth2_le h hu _
  have m1 : 0 ≤ max P.lr (P.l1 + P.lf1) := by
    rcases le_total 0 P.lr with h | h
    · exact h.trans (le_max_left _ _)
    · exact (by linarith : (0 : ℝ) ≤ P.l1 + P.lf1).trans (le_max_right _ _)
  have m2 : 0 ≤ max P.lr2 P.lf2 := by
    rcases le_total 0 P.lr2 with h | h
    · exact h.trans (le_max_left _ _)
    · exact (by linarith : (0 : ℝ) ≤ P.lf2).trans (le_max_right _ _)
  have w1 : 0 ≤ P.tractorWidth / 2 := by linarith [hs.tractorWid]
  have w2 : 0 ≤ P.trailerWidth / 2 := by linarith [hs.trailerWid]
  have b1 := mul_le_mul_of_nonneg_left t1 (add_nonneg m1 w1)
  have b2 := mul_le_mul_of_nonneg_left t1 h.lh
  have b3 := mul_le_mul_of_nonneg_left t2 (add_nonneg (add_nonneg h.l2.le m2) w2)
  unfold Spec.tractorShift trailerSweep
  simp only
  constructor
  · rw [mul_zero, sub_zero]; linarith
  · have : (P.l2 + max P.lr2 P.lf2 + P.trailerWidth / 2) * |q'.th2 - q.th2|
      = P.l2 * |q'.th2 - q.th2| + (max P.lr2 P.lf2 + P.trailerWidth / 2) * |q'.th2 - q.th2| := by ring
    linarith


/-- **C74, tractor-trailer with shield**: the obstacles were registered with a padding of at least half the
distance a point of the vehicle can travel in one step. Then, for every action sequence from a safe start,
the vehicle is clear of the actual obstacles at every recorded state and at every moment between two
consecutive recorded states. -/
theorem C74_tt2d (T : TT2d) (ext : Ext Q4) (hs : T.shieldCollision = true)
    (hp : T.enableProjection = false) (hg : T.enableGuidance = false)
    (hsz : Spec.SidesOK T.toParams) (hd : DriveOK T.toParams)
    (hov : -T.lr ≤ T.l1 + T.lf1) (hov2 : -T.lr2 ≤ T.lf2)
    (hnt : ∀ c ∈ T.circles, Spec.NoTunnel T.toParams c)
    {p : ℝ} {cs : List Circle} {rs : List Rect} (hP : Padded p T.toParams cs rs) (hr : ∀ c ∈ cs, 0 ≤ c.r)
    (h1 : Spec.tractorShift T.toParams 0 ≤ 2 * p) (h2 : trailerSweep T.toParams ≤ 2 * p) (s : St Q4)
    (h0 : Spec.SafeTT T.toParams s.q) (us : List U) :
    List.IsChain (fun s s' : St Q4 => ∀ lam, 0 ≤ lam → lam ≤ 1 →
        Spec.SafeTT { T.toParams with circles := cs, rects := rs } (between4 lam s.q s'.q))
      (s :: scanStates (T.step ext) s us) := by
  induction us generalizing s with
  | nil => exact List.isChain_singleton s
  | cons a us ih =>
    have hin : T.step ext s a ∈ scanStates (T.step ext) s [a] := by simp [scanStates]
    have hsafe := C03_solid_tt2d_partial T ext hs hp hg hsz hd hnt s h0 [a] _ hin
    have hbox := C08_tt2d T ext hp s a
    have heul : Spec.EulerTT T.toParams s.q (T.step ext s a).applied (T.step ext s a).q := by
      have := C09_tt2d T ext s [a]
      simp only [scanStates, List.isChain_cons_cons] at this
      exact this.1
    obtain ⟨t1, t2⟩ := euler_travel hd hsz hov hbox heul hov2
    have p0 : 0 ≤ p := by
      have d : 0 ≤ Spec.dist ((T.step ext s a).q.px, (T.step ext s a).q.py) (s.q.px, s.q.py) := sqrt_nonneg _
      have m1 : 0 ≤ max T.lr (T.l1 + T.lf1) := by
        rcases le_total 0 T.lr with h | h
        · exact h.trans (le_max_left _ _)
        · exact (by linarith : (0 : ℝ) ≤ T.l1 + T.lf1).trans (le_max_right _ _)
      have w1 : 0 ≤ T.tractorWidth / 2 := by linarith [hsz.tractorWid]
      have := mul_nonneg (add_nonneg m1 w1) (abs_nonneg ((T.step ext s a).q.th1 - s.q.th1))
      linarith
    exact List.isChain_cons_cons.mpr ⟨fun lam l0 l1 => tt_between hd.lh hd.l2.le (t1.trans h1) (t2.trans h2)
      (C74_margin_tt2d p0 hP hr h0) (C74_margin_tt2d p0 hP hr hsafe) l0 l1, ih _ hsafe⟩

/-- Two states of the bicycle. -/
theorem bicycle_between {P : Params} {cs : List Circle} {rs : List Rect} {p : ℝ} {q q' : Q3}
    (h1 : Spec.dist (q'.px, q'.py) (q.px, q.py)
      + (max P.lr (P.l1 + P.lf1) + P.tractorWidth / 2) * |q'.th1 - q.th1| ≤ 2 * p)
    (m : Margin3 p P cs rs q) (m' : Margin3 p P cs rs q') {lam : ℝ} (l0 : 0 ≤ lam) (l1 : lam ≤ 1) :
    Spec.SafeBicycle { P with circles := cs, rects := rs } (between3 lam q q') := by
  obtain ⟨p1, p2⟩ := point_between lam (q.px, q.py) (q'.px, q'.py)
  have tr : ∀ b ∈ Spec.tractorBody P (between3 lam q q').px (between3 lam q q').py (between3 lam q q').th1, _ :=
    fun b hb => body_between (rear := P.lr) (front := P.l1 + P.lf1) (width := P.tractorWidth) l0 l1 p1 p2 b hb
  simp only at tr
  exact ⟨fun c hc => between_apart (by linarith) (m.1 c hc) (m'.1 c hc) tr,
    fun o ho => between_apart (by linarith) (m.2 o ho) (m'.2 o ho) tr⟩

/-- **C74, bicycle with shield**. The padding itself excludes that a disc slips inside the body. -/
theorem C74_bicycle (T : Bicycle) (ext : Ext Q3) (hs : T.shieldCollision = true)
    (hp : T.enableProjection = false) (hg : T.enableGuidance = false)
    (hsz : Spec.SidesOK T.toParams) (hd : DriveOK T.toParams) (hov : -T.lr ≤ T.l1 + T.lf1)
    {p : ℝ} {cs : List Circle} {rs : List Rect} (hP : Padded p T.toParams cs rs) (hr : ∀ c ∈ cs, 0 ≤ c.r)
    (h1 : Spec.tractorShift T.toParams 0 ≤ 2 * p) (s : St Q3)
    (h0 : Spec.SafeBicycle T.toParams s.q) (us : List U) :
    List.IsChain (fun s s' : St Q3 => ∀ lam, 0 ≤ lam → lam ≤ 1 →
        Spec.SafeBicycle { T.toParams with circles := cs, rects := rs } (between3 lam s.q s'.q))
      (s :: scanStates (T.step ext) s us) := by
  have m1 : 0 ≤ max T.lr (T.l1 + T.lf1) := by
    rcases le_total 0 T.lr with h | h
    · exact h.trans (le_max_left _ _)
    · exact (by linarith : (0 : ℝ) ≤ T.l1 + T.lf1).trans (le_max_right _ _)
  have w1 : 0 ≤ T.tractorWidth / 2 := by linarith [hsz.tractorWid]
  have tn : 0 ≤ tan (T.deltaMaxDeg * π / 180) :=
    tan_nonneg_of_nonneg_of_le_pi_div_two hd.steer.1 hd.steer.2.le
  have hΔ : 0 ≤ T.vMax * T.dt * tan (T.deltaMaxDeg * π / 180) / T.l1 :=
    div_nonneg (mul_nonneg (mul_nonneg hd.v hd.dt) tn) hd.l1.le
  have hw : 0 ≤ T.vMax * T.dt := mul_nonneg hd.v hd.dt
  unfold Spec.tractorShift at h1
  simp only [mul_zero, sub_zero] at h1
  have p0 : 0 ≤ p := by
    have := mul_nonneg (add_nonneg m1 w1) hΔ
    linarith
  have hnt : ∀ c ∈ T.circles, T.tractorWidth / 2 ≤ c.r ∨ Spec.tractorShift T.toParams c.r ≤ 2 * c.r := by
    intro c hc
    right
    obtain ⟨c0, hc0, rfl⟩ : ∃ c0 ∈ cs, c = ⟨c0.x, c0.y, c0.r + p⟩ := by
      exact forall2_mem_left (padded_circles hP) c hc
    have := hr c0 hc0
    unfold Spec.tractorShift
    simp only
    have : 0 ≤ 2 * (c0.r + p) * (T.vMax * T.dt * tan (T.deltaMaxDeg * π / 180) / T.l1) :=
      mul_nonneg (by linarith) hΔ
    nlinarith
  induction us generalizing s with
  | nil => exact List.isChain_singleton s
  | cons a us ih =>
    have hin : T.step ext s a ∈ scanStates (T.step ext) s [a] := by simp [scanStates]
    have hsafe := C03_solid_bicycle_partial T ext hs hp hg hsz hd hnt s h0 [a] _ hin
    have hbox := C08_bicycle T ext hp s a
    have heul : Spec.EulerBicycle T.toParams s.q (T.step ext s a).applied (T.step ext s a).q := by
      have := C09_bicycle T ext s [a]
      simp only [scanStates, List.isChain_cons_cons] at this
      exact this.1
    obtain ⟨e1, e2, e3⟩ := heul
    have t0 : Spec.dist ((T.step ext s a).q.px, (T.step ext s a).q.py) (s.q.px, s.q.py) ≤ T.vMax * T.dt := by
      rw [e1, e2]; exact ref_shift hd hbox s.q.px s.q.py s.q.th1
    have t1 : |(T.step ext s a).q.th1 - s.q.th1| ≤ T.vMax * T.dt * tan (T.deltaMaxDeg * π / 180) / T.l1 := by
      rw [e3, add_sub_cancel_left]; exact dth1_le hd hbox
    have b1 := mul_le_mul_of_nonneg_left t1 (add_nonneg m1 w1)
    exact List.isChain_cons_cons.mpr ⟨fun lam l0 l1 => bicycle_between (by linarith)
      (C74_margin_bicycle p0 hP hr h0) (C74_margin_bicycle p0 hP hr hsafe) l0 l1, ih _ hsafe⟩


/-! ## Acceleration-controlled vehicle -/

/-- In every mode the planner's step is one Euler step of the vehicle, with some acceleration and steering rate. -/
theorem acc_step_euler (T : Acc) (ext : Ext Q6) (s : St Q6) (a : U) :
    ∃ u : U, (T.step ext s a).q = T.euler s.q u T.dt := by
  unfold Acc.step Acc.stepInternal Acc.shieldedRollout Acc.naive
  simp only [Bool.false_eq_true, if_false]
  split_ifs <;> exact ⟨_, rfl⟩

/-- **C74, acceleration-controlled vehicle**, all modes: between two consecutive recorded states that both
are clear of the padded obstacles the vehicle is clear of the actual ones. -/
theorem C74_acc (T : Acc) (ext : Ext Q6) (hsz : Spec.SidesOK T.toParams) (hd : DriveOK T.toParams)
    (hv : 0 < T.vMax) (hdl : 0 < T.deltaMaxDeg)
    (hov : -T.lr ≤ T.l1 + T.lf1) (hov2 : -T.lr2 ≤ T.lf2)
    {p : ℝ} {cs : List Circle} {rs : List Rect} (hP : Padded p T.toParams cs rs) (hr : ∀ c ∈ cs, 0 ≤ c.r)
    (hp : 0 ≤ p) (h1 : Spec.tractorShift T.toParams 0 ≤ 2 * p) (h2 : trailerSweep T.toParams ≤ 2 * p)
    (s : St Q6) (us : List U) :
    List.IsChain (fun s s' : St Q6 => Spec.SafeTT T.toParams s.q.pose → Spec.SafeTT T.toParams s'.q.pose →
        ∀ lam, 0 ≤ lam → lam ≤ 1 →
        Spec.SafeTT { T.toParams with circles := cs, rects := rs } (between4 lam s.q.pose s'.q.pose))
      (s :: scanStates (T.step ext) s us) := by
  apply scan_isChain
  intro s a m m' lam l0 l1
  obtain ⟨u, hu⟩ := acc_step_euler T ext s a
  have hD : 0 < T.deltaMaxDeg * π / 180 := by have := pi_pos; positivity
  have cl : ∀ x L : ℝ, 0 < L → |clip x (-L) L / L| ≤ 1 := by
    intro x L hL
    rw [abs_div, abs_of_pos hL, div_le_one hL, abs_le]
    unfold clip
    constructor
    · exact le_min (le_max_right _ _) (by linarith)
    · exact min_le_right _ _
  have hbox : Spec.InBox (clip s.q.v (-T.vMax) T.vMax / T.vMax,
      clip s.q.delta (-T.deltaMax) T.deltaMax / (T.deltaMaxDeg * π / 180)) := by
    refine ⟨cl _ _ hv, cl _ _ hD⟩
  have heul : Spec.EulerTT T.toParams s.q.pose (clip s.q.v (-T.vMax) T.vMax / T.vMax,
      clip s.q.delta (-T.deltaMax) T.deltaMax / (T.deltaMaxDeg * π / 180)) (T.step ext s a).q.pose := by
    rw [hu]
    unfold Spec.EulerTT Acc.euler Q6.axpy Acc.dynamics Q6.pose
    simp only [div_mul_cancel₀ _ hv.ne', div_mul_cancel₀ _ hD.ne']
    exact ⟨trivial, trivial, trivial, trivial⟩
  obtain ⟨t1, t2⟩ := euler_travel hd hsz hov hbox heul hov2
  exact tt_between hd.lh hd.l2.le (t1.trans h1) (t2.trans h2)
      (C74_margin_tt2d hp hP hr m) (C74_margin_tt2d hp hP hr m') l0 l1

/-! ## Trains -/

theorem unit_rates {T : NTrailer} (hd : DriveOK T.toParams) (hl : ∀ i < T.N, 0 < T.lengths.getD i 0)
    {u : U} (hu : Spec.InBox u) {s w : ℕ → ℝ} {heading : ℕ → ℝ}
    (s0 : s 0 = u.1 * T.vMax) (w0 : w 0 = u.1 * T.vMax / T.l1 * tan (u.2 * (T.deltaMaxDeg * π / 180)))
    (rec : ∀ i < T.N,
      s (i + 1) = s i * cos (heading i - heading (i + 1)) + T.lh * w i * sin (heading i - heading (i + 1)) ∧
      w (i + 1) = (s i * sin (heading i - heading (i + 1))
        - T.lh * w i * cos (heading i - heading (i + 1))) / T.lengths.getD i 0) :
    ∀ i ≤ T.N, |s i| ≤ (unitRates T i).1 ∧ |w i| ≤ (unitRates T i).2
  | 0, _ => by
    have hv : |u.1 * T.vMax| ≤ T.vMax := by
      rw [abs_mul, abs_of_nonneg hd.v]
      exact mul_le_of_le_one_left hd.v hu.1
    refine ⟨by rw [s0]; exact hv, ?_⟩
    rw [w0, abs_mul, abs_div, abs_of_pos hd.l1]
    exact mul_le_mul (div_le_div_of_nonneg_right hv hd.l1.le) (abs_tan_le hu.2 hd.steer.1 hd.steer.2) (abs_nonneg _)
      (div_nonneg hd.v hd.l1.le)
  | i + 1, hi => by
    obtain ⟨i1, i2⟩ := unit_rates hd hl hu s0 w0 rec i (by omega)
    obtain ⟨r1, r2⟩ := rec i (by omega)
    have hli := hl i (by omega)
    set φ := heading i - heading (i + 1)
    have q1 : (s i) ^ 2 ≤ (unitRates T i).1 ^ 2 := by
      rw [← sq_abs]; exact pow_le_pow_left₀ (abs_nonneg _) i1 2
    have q2 : (T.lh * w i) ^ 2 ≤ (T.lh * (unitRates T i).2) ^ 2 := by
      rw [mul_pow, mul_pow, ← sq_abs (w i)]
      exact mul_le_mul_of_nonneg_left (pow_le_pow_left₀ (abs_nonneg _) i2 2) (sq_nonneg _)
    have cs := sin_sq_add_cos_sq φ
    have e : (s i * cos φ + T.lh * w i * sin φ) ^ 2 + (s i * sin φ - T.lh * w i * cos φ) ^ 2
        = (s i ^ 2 + (T.lh * w i) ^ 2) * (sin φ ^ 2 + cos φ ^ 2) := by ring
    rw [cs, mul_one] at e
    constructor
    · rw [r1]
      apply abs_le_sqrt
      nlinarith [sq_nonneg (s i * sin φ - T.lh * w i * cos φ)]
    · rw [r2, abs_div, abs_of_pos hli]
      refine div_le_div_of_nonneg_right (abs_le_sqrt ?_) hli.le
      nlinarith [sq_nonneg (s i * cos φ + T.lh * w i * sin φ)]

theorem mix_diff (lam a a' : ℝ) : |mix lam a a' - a| = |lam| * |a' - a| ∧
    |mix lam a a' - a'| = |1 - lam| * |a' - a| := by
  constructor
  · rw [← abs_mul]; congr 1; unfold mix; ring
  · rw [← abs_mul, abs_sub_comm]; congr 1; unfold mix; ring

theorem betweenN_getD {lam : ℝ} {x x' : QN} (h : x'.ths.length = x.ths.length) (i : ℕ) :
    (betweenN lam x x').ths.getD i 0 = mix lam (x.ths.getD i 0) (x'.ths.getD i 0) := by
  unfold betweenN
  simp only [List.getD_eq_getElem?_getD, List.getElem?_zipWith]
  by_cases hi : i < x.ths.length
  · rw [List.getElem?_eq_getElem hi, List.getElem?_eq_getElem (h ▸ hi)]
    simp
  · rw [List.getElem?_eq_none (by omega), List.getElem?_eq_none (by omega)]
    simp [mix]

/-- Hitch and axle points between two states of the train; `H`, `D` bound travel and turn. -/
theorem hitch_between {T : NTrailer} {x x' : QN} (h : x'.ths.length = x.ths.length)
    (hlh : 0 ≤ T.lh) (hl : ∀ i < T.N, 0 < T.lengths.getD i 0) (hre : ∀ i < T.N, 0 ≤ T.rears.getD i 0)
    {D : ℕ → ℝ} (hD : ∀ i < T.N, |x'.ths.getD i 0 - x.ths.getD i 0| ≤ D i)
    {d D0 : ℝ} (hd0 : Spec.dist (x'.px, x'.py) (x.px, x.py) ≤ d) (hD0 : |x'.th0 - x.th0| ≤ D0)
    {H : ℕ → ℝ} (H0 : d + T.lh * D0 ≤ H 0)
    (HS : ∀ i < T.N, H i + (T.lengths.getD i 0 + (T.rears.getD i 0 + T.lh)) * D i ≤ H (i + 1)) (lam : ℝ) :
    ∀ i ≤ T.N, Spec.dist (Spec.hitchN T (betweenN lam x x') i) (Spec.hitchN T x i) ≤ |lam| * H i ∧
      Spec.dist (Spec.hitchN T (betweenN lam x x') i) (Spec.hitchN T x' i) ≤ |1 - lam| * H i
  | 0, _ => by
    obtain ⟨p1, p2⟩ := point_between lam (x.px, x.py) (x'.px, x'.py)
    obtain ⟨m1, m2⟩ := mix_diff lam x.th0 x'.th0
    have key : ∀ (k g : ℝ) (c : V2), 0 ≤ k →
        Spec.dist (mix lam x.px x'.px, mix lam x.py x'.py) c ≤ k * Spec.dist (x'.px, x'.py) (x.px, x.py) →
        |mix lam x.th0 x'.th0 - g| = k * |x'.th0 - x.th0| →
        Spec.dist (Spec.frame (mix lam x.px x'.px, mix lam x.py x'.py) (mix lam x.th0 x'.th0) (-T.lh) 0)
          (Spec.frame c g (-T.lh) 0) ≤ k * H 0 := by
      intro k g c hk hc hg
      refine (frame_shift _ _ _ _ _ _).trans ?_
      rw [hg, abs_neg, abs_of_nonneg hlh, abs_zero, add_zero]
      have b1 := mul_le_mul_of_nonneg_left hd0 hk
      have b2 := mul_le_mul_of_nonneg_left (mul_le_mul_of_nonneg_left hD0 hlh) hk
      have b3 := mul_le_mul_of_nonneg_left H0 hk
      linarith
    exact ⟨key _ _ _ (abs_nonneg _) p1 m1, key _ _ _ (abs_nonneg _) p2 m2⟩
  | i + 1, hi => by
    obtain ⟨i1, i2⟩ := hitch_between h hlh hl hre hD hd0 hD0 H0 HS lam i (by omega)
    have hli := hl i (by omega)
    have hri := hre i (by omega)
    have hDi := hD i (by omega)
    have hS := HS i (by omega)
    obtain ⟨m1, m2⟩ := mix_diff lam (x.ths.getD i 0) (x'.ths.getD i 0)
    have key : ∀ (k : ℝ) (y : QN), 0 ≤ k →
        Spec.dist (Spec.hitchN T (betweenN lam x x') i) (Spec.hitchN T y i) ≤ k * H i →
        |mix lam (x.ths.getD i 0) (x'.ths.getD i 0) - y.ths.getD i 0| = k * |x'.ths.getD i 0 - x.ths.getD i 0| →
        Spec.dist (Spec.hitchN T (betweenN lam x x') (i + 1)) (Spec.hitchN T y (i + 1)) ≤ k * H (i + 1) := by
      intro k y hk hc hg
      simp only [Spec.hitchN, betweenN_getD h]
      have f1 := frame_shift (Spec.frame (Spec.hitchN T y i) (y.ths.getD i 0) (-T.lengths.getD i 0) 0)
        (Spec.frame (Spec.hitchN T (betweenN lam x x') i) (mix lam (x.ths.getD i 0) (x'.ths.getD i 0))
          (-T.lengths.getD i 0) 0) (y.ths.getD i 0) (mix lam (x.ths.getD i 0) (x'.ths.getD i 0))
        (-(T.rears.getD i 0 + T.lh)) 0
      have f2 := frame_shift (Spec.hitchN T y i) (Spec.hitchN T (betweenN lam x x') i) (y.ths.getD i 0)
        (mix lam (x.ths.getD i 0) (x'.ths.getD i 0)) (-T.lengths.getD i 0) 0
      rw [hg, abs_neg, abs_zero, add_zero] at f1 f2
      rw [abs_of_nonneg (by linarith : 0 ≤ T.rears.getD i 0 + T.lh)] at f1
      rw [abs_of_pos hli] at f2
      have b2 := mul_le_mul_of_nonneg_left (mul_le_mul_of_nonneg_left hDi
        (by linarith : 0 ≤ T.lengths.getD i 0 + (T.rears.getD i 0 + T.lh))) hk
      have b3 := mul_le_mul_of_nonneg_left hS hk
      refine f1.trans ((add_le_add_left f2 _).trans ?_)
      calc _ = Spec.dist (Spec.hitchN T (betweenN lam x x') i) (Spec.hitchN T y i)
            + k * ((T.lengths.getD i 0 + (T.rears.getD i 0 + T.lh)) * |x'.ths.getD i 0 - x.ths.getD i 0|) := by ring
        _ ≤ _ := by linarith
    exact ⟨key _ _ (abs_nonneg _) i1 m1, key _ _ (abs_nonneg _) i2 m2⟩


theorem hitchN_obstacles (T : NTrailer) (cs : List Circle) (rs : List Rect) (x : QN) :
    ∀ i, Spec.hitchN { T with circles := cs, rects := rs } x i = Spec.hitchN T x i
  | 0 => rfl
  | i + 1 => by simp only [Spec.hitchN]; rw [hitchN_obstacles T cs rs x i]

/-- Two states of the train. -/
theorem train_between {T : NTrailer} {cs : List Circle} {rs : List Rect} {p : ℝ} {x x' : QN} {u : U}
    (hd : DriveOK T.toParams) (hsz : Spec.SidesOK T.toParams) (hov : -T.lr ≤ T.l1 + T.lf1)
    (hl : ∀ i < T.N, 0 < T.lengths.getD i 0) (hre : ∀ i < T.N, 0 ≤ T.rears.getD i 0)
    (hw : x.ths.length = T.N) (hu : Spec.InBox u) (hE : Spec.EulerN T x u x')
    (h1 : Spec.tractorShift T.toParams 0 ≤ 2 * p) (h2 : ∀ i < T.N, trailerSweepN T i ≤ 2 * p)
    (m : MarginN p T cs rs x) (m' : MarginN p T cs rs x') {lam : ℝ} (l0 : 0 ≤ lam) (l1 : lam ≤ 1) :
    Spec.SafeN { T with circles := cs, rects := rs } (betweenN lam x x') := by
  obtain ⟨s, w, s0, w0, rec, e1, e2, e3, hlen, e4⟩ := hE
  have rates := unit_rates hd hl hu s0 w0 rec
  have hlen' : x'.ths.length = x.ths.length := hlen.trans hw.symm
  have hdt := hd.dt
  have turn : ∀ i ≤ T.N, |T.dt * w i| ≤ T.dt * (unitRates T i).2 := by
    intro i hi
    rw [abs_mul, abs_of_nonneg hdt]
    exact mul_le_mul_of_nonneg_left (rates i hi).2 hdt
  have t0 : Spec.dist (x'.px, x'.py) (x.px, x.py) ≤ T.dt * T.vMax := by
    rw [e1, e2, mul_comm T.dt T.vMax]; exact ref_shift hd hu x.px x.py x.th0
  have t1 : |x'.th0 - x.th0| ≤ T.dt * (unitRates T 0).2 := by
    rw [e3, add_sub_cancel_left]; exact turn 0 (by omega)
  have tD : ∀ i < T.N, |x'.ths.getD i 0 - x.ths.getD i 0| ≤ T.dt * (unitRates T (i + 1)).2 := by
    intro i hi
    rw [e4 i hi, add_sub_cancel_left]; exact turn (i + 1) (by omega)
  have hb := hitch_between hlen' hd.lh hl hre tD t0 t1 (H := hitchTravel T) le_rfl
    (fun i _ => le_rfl) lam
  obtain ⟨p1, p2⟩ := point_between lam (x.px, x.py) (x'.px, x'.py)
  have m1 : 0 ≤ max T.lr (T.l1 + T.lf1) := by
    rcases le_total 0 T.lr with h | h
    · exact h.trans (le_max_left _ _)
    · exact (by linarith : (0 : ℝ) ≤ T.l1 + T.lf1).trans (le_max_right _ _)
  have w1 : 0 ≤ T.tractorWidth / 2 := by linarith [hsz.tractorWid]
  have w2 : 0 ≤ T.trailerWidth / 2 := by linarith [hsz.trailerWid]
  have tr : ∀ b ∈ Spec.tractorBody T.toParams (betweenN lam x x').px (betweenN lam x x').py (betweenN lam x x').th0, _ :=
    fun b hb => body_between (rear := T.lr) (front := T.l1 + T.lf1) (width := T.tractorWidth) l0 l1 p1 p2 b hb
  simp only at tr
  have htr : (Spec.dist (x'.px, x'.py) (x.px, x.py)
      + (max T.lr (T.l1 + T.lf1) + T.tractorWidth / 2) * |x'.th0 - x.th0|) / 2 ≤ p := by
    have := mul_le_mul_of_nonneg_left t1 (add_nonneg m1 w1)
    unfold Spec.tractorShift at h1
    simp only [mul_zero, sub_zero, unitRates] at h1 this
    have e : T.vMax * T.dt * tan (T.deltaMaxDeg * π / 180) / T.l1
        = T.dt * (T.vMax / T.l1 * tan (T.deltaMaxDeg * π / 180)) := by ring
    rw [e] at h1
    linarith
  have trailer : ∀ i < T.N, ∀ O : Set Pt, KeepsAway p (Spec.trailerBodyN T x i) O →
      KeepsAway p (Spec.trailerBodyN T x' i) O →
      Spec.Apart (Spec.trailerBodyN { T with circles := cs, rects := rs } (betweenN lam x x') i) O := by
    intro i hi O k k'
    obtain ⟨b1, b2⟩ := hb i hi.le
    obtain ⟨d1, d2⟩ := mix_diff lam (x.ths.getD i 0) (x'.ths.getD i 0)
    have hli := hl i hi
    have hri := hre i hi
    have ax : ∀ (k : ℝ) (y : QN), 0 ≤ k →
        Spec.dist (Spec.hitchN T (betweenN lam x x') i) (Spec.hitchN T y i) ≤ k * hitchTravel T i →
        |mix lam (x.ths.getD i 0) (x'.ths.getD i 0) - y.ths.getD i 0| = k * |x'.ths.getD i 0 - x.ths.getD i 0| →
        Spec.dist (Spec.axleN { T with circles := cs, rects := rs } (betweenN lam x x') i) (Spec.axleN T y i)
          ≤ k * (hitchTravel T i + T.lengths.getD i 0 * |x'.ths.getD i 0 - x.ths.getD i 0|) := by
      intro k y hk hc hg
      unfold Spec.axleN
      rw [hitchN_obstacles, betweenN_getD hlen']
      have f := frame_shift (Spec.hitchN T y i) (Spec.hitchN T (betweenN lam x x') i) (y.ths.getD i 0)
        (mix lam (x.ths.getD i 0) (x'.ths.getD i 0)) (-T.lengths.getD i 0) 0
      rw [hg, abs_neg, abs_zero, add_zero, abs_of_pos hli] at f
      refine f.trans ?_
      calc _ ≤ k * hitchTravel T i + T.lengths.getD i 0 * (k * |x'.ths.getD i 0 - x.ths.getD i 0|) := by linarith
        _ = _ := by ring
    have a1 := ax _ x (abs_nonneg lam) b1 d1
    have a2 := ax _ x' (abs_nonneg (1 - lam)) b2 d2
    have ta : ∀ b ∈ Spec.body (Spec.axleN { T with circles := cs, rects := rs } (betweenN lam x x') i)
        (mix lam (x.ths.getD i 0) (x'.ths.getD i 0)) (T.rears.getD i 0) (T.fronts.getD i 0) T.trailerWidth, _ :=
      fun b hbm => body_between (rear := T.rears.getD i 0) (front := T.fronts.getD i 0) (width := T.trailerWidth)
        l0 l1 a1 a2 b hbm
    simp only at ta
    unfold Spec.trailerBodyN
    rw [betweenN_getD hlen']
    refine between_apart ?_ k k' ta
    have hs := h2 i hi
    unfold trailerSweepN at hs
    have m2 : 0 ≤ max (T.rears.getD i 0) (T.fronts.getD i 0) := hri.trans (le_max_left _ _)
    have := mul_le_mul_of_nonneg_left (tD i hi) (add_nonneg hli.le (add_nonneg m2 w2))
    have e : (T.lengths.getD i 0 + (max (T.rears.getD i 0) (T.fronts.getD i 0) + T.trailerWidth / 2))
        * |x'.ths.getD i 0 - x.ths.getD i 0| = T.lengths.getD i 0 * |x'.ths.getD i 0 - x.ths.getD i 0|
        + (max (T.rears.getD i 0) (T.fronts.getD i 0) + T.trailerWidth / 2) * |x'.ths.getD i 0 - x.ths.getD i 0| := by ring
    linarith
  constructor
  · intro c hc
    exact ⟨between_apart htr (m.1 c hc).1 (m'.1 c hc).1 tr,
      fun i hi => trailer i hi _ ((m.1 c hc).2 i hi) ((m'.1 c hc).2 i hi)⟩
  · intro o ho
    exact ⟨between_apart htr (m.2 o ho).1 (m'.2 o ho).1 tr,
      fun i hi => trailer i hi _ ((m.2 o ho).2 i hi) ((m'.2 o ho).2 i hi)⟩

/-- A train that is clear of the obstacles passes the code's check. -/
theorem safeN_passes {T : NTrailer} (hsz : Spec.SidesOK T.toParams) (htr : Spec.TrailersOK T) {x : QN}
    (hw : x.ths.length = T.N) (h : Spec.SafeN T x) : ¬ T.checkObstacle x := by
  obtain ⟨a1, a2, a3, a4, hrad, hsides⟩ := hsz
  obtain ⟨hc, hr⟩ := h
  have hws : Spec.WellSized T x := ⟨hw, htr.1, htr.2.1, htr.2.2.1⟩
  unfold Spec.tractorBody Spec.trailerBodyN at hc hr
  simp only [body_eq] at hc hr
  unfold NTrailer.checkObstacle NTrailer.allTrailerCorners
  simp only
  rw [tractorCorners_eq]
  simp only [List.mem_map, List.mem_range, exists_exists_and_eq_and]
  push Not
  refine ⟨⟨fun c hcm => apart_not_circle (by linarith) (by linarith) (hc c hcm).1, fun i hi c hcm => ?_⟩,
    fun o ho => (box_clear_rect (by linarith) (by linarith) (hsides o ho).1 (hsides o ho).2).mpr (hr o ho).1,
    fun i hi o ho => ?_⟩
  · have hi' := htr.2.2.2 i hi
    rw [trailerCornersN_eq hws hi]
    exact apart_not_circle (by linarith) (by linarith) ((hc c hcm).2 i hi)
  · have hi' := htr.2.2.2 i hi
    rw [trailerCornersN_eq hws hi]
    exact (box_clear_rect (by linarith) (by linarith) (hsides o ho).1 (hsides o ho).2).mpr ((hr o ho).2 i hi)

/-- **C74, train with shield**. -/
theorem C74_ntrailer (T : NTrailer) (guide : QN → QN) (hs : T.shieldCollision = true)
    (hg : T.enableGuidance = false) (hsz : Spec.SidesOK T.toParams) (hd : DriveOK T.toParams)
    (hov : -T.lr ≤ T.l1 + T.lf1) (htr : Spec.TrailersOK T)
    (hl : ∀ i < T.N, 0 < T.lengths.getD i 0) (hre : ∀ i < T.N, 0 ≤ T.rears.getD i 0)
    {p : ℝ} {cs : List Circle} {rs : List Rect} (hP : Padded p T.toParams cs rs) (hr : ∀ c ∈ cs, 0 ≤ c.r)
    (hwd : T.tractorWidth / 2 ≤ p ∧ T.trailerWidth / 2 ≤ p)
    (h1 : Spec.tractorShift T.toParams 0 ≤ 2 * p) (h2 : ∀ i < T.N, trailerSweepN T i ≤ 2 * p) (s : St QN)
    (h0 : Spec.SafeN T s.q) (hw : s.q.ths.length = T.N) (us : List U)
    (tr : List (St QN)) (h : scanStatesE (T.step guide) s us = .ok tr) :
    List.IsChain (fun s s' : St QN => ∀ lam, 0 ≤ lam → lam ≤ 1 →
        Spec.SafeN { T with circles := cs, rects := rs } (betweenN lam s.q s'.q)) (s :: tr) := by
  have p0 : 0 ≤ p := by linarith [hwd.1, hsz.tractorWid]
  have hwc : ∀ c ∈ T.circles, T.tractorWidth / 2 ≤ c.r ∧ T.trailerWidth / 2 ≤ c.r := by
    intro c hc
    obtain ⟨c0, hc0, rfl⟩ := forall2_mem_left (padded_circles hP) c hc
    have := hr c0 hc0
    exact ⟨by simp only; linarith [hwd.1], by simp only; linarith [hwd.2]⟩
  have hsafe := C03_solid_ntrailer_partial T guide hs hg hsz htr hwc s
    (safeN_passes hsz htr hw h0) us tr h
  have hE := C09_train T guide s ⟨hw, htr.1, htr.2.1, htr.2.2.1⟩ us tr h
  have hbox : List.IsChain (fun s s' : St QN => Spec.InBox s'.applied) (s :: tr) :=
    scanE_isChain _ (fun s a s' hst => C08_ntrailer T guide s s' a hst) us s tr h
  clear h
  induction tr generalizing s with
  | nil => exact List.isChain_singleton s
  | cons t tr ih =>
    rw [List.isChain_cons_cons] at hE hbox ⊢
    have ht := hsafe t (by simp)
    exact ⟨fun lam l0 l1 => train_between hd hsz hov hl hre hw hbox.1 hE.1 h1 h2
      (C74_margin_ntrailer p0 hP hr h0) (C74_margin_ntrailer p0 hP hr ht) l0 l1,
      ih t ht (by obtain ⟨_, _, _, _, _, _, _, _, hlen, _⟩ := hE.1; exact hlen)
        (fun s' hs' => hsafe s' (by simp [hs'])) hE.2 hbox.2⟩


/-! ## The hypotheses can be met -/

/-- Registering a pole of radius 1 with padding `p` (no code is modelled here). -/
theorem pole_padded (p : ℝ) (cs : List Circle) (hcs : cs = [⟨20, 0, 1 + p⟩]) :
    Padded p (Params.default cs []) [⟨20, 0, 1⟩] [] := by
  subst hcs
  refine ⟨⟨⟨"case1", (0, 0), (0, 0), none, [], []⟩, [], "center", rfl, rfl⟩,
    ⟨⟨"case1", (0, 0), (0, 0), none, [], []⟩, [[20, 0, 1]], ?_, ?_⟩⟩
  · simp [Env.setCircleObs, Env.convertAll, Env.convertCircle, Params.default]
  · simp [Env.setCircleObs, Env.convertAll, Env.convertCircle]

theorem default_travel (cs : List Circle) (rs : List Rect) :
    Spec.tractorShift (Params.default cs rs) 0 ≤ 3 ∧ trailerSweep (Params.default cs rs) ≤ 3 := by
  have h3 : √3 ≤ 1.7321 := by
    rw [sqrt_le_left (by norm_num)]; norm_num
  have ht := tan_55_le.trans h3
  have ht0 : 0 ≤ tan (55 * π / 180) := by
    have hp := pi_pos
    exact tan_nonneg_of_nonneg_of_le_pi_div_two (by positivity) (by linarith)
  unfold Spec.tractorShift trailerSweep
  simp only [Params.default]
  set t := tan (55 * π / 180) with htd
  set κ := √(1 + (1.15 * t / 3.23) ^ 2) with hκ
  have k1 : κ ≤ 1.176 := by
    rw [hκ, sqrt_le_left (by norm_num)]
    have : 1.15 * t / 3.23 ≤ 0.617 := by
      rw [div_le_iff₀ (by norm_num)]; linarith
    have h0 : 0 ≤ 1.15 * t / 3.23 := by positivity
    nlinarith
  have e1 : 3 * 0.2 * t / 3.23 ≤ 0.3218 := by
    rw [div_le_iff₀ (by norm_num)]; linarith
  have e2 : 3 * 0.2 * κ / 2.9 ≤ 0.2434 := by
    rw [div_le_iff₀ (by norm_num)]; linarith
  have m : max (3.225 : ℝ) 1.42 = 3.225 := max_eq_left (by norm_num)
  have m' : max (1.848 : ℝ) (3.23 + 0.9) = 3.23 + 0.9 := max_eq_right (by norm_num)
  rw [m, m']
  constructor <;> linarith

/-- The default tractor-trailer, a pole of radius 1 registered with 1.5 m padding. -/
noncomputable def marginTT : TT2d :=
  { toParams := Params.default [⟨20, 0, 1 + 3 / 2⟩] [], x0 := ⟨0, 0, 0, 0⟩, xg := ⟨9, 0, 0, 0⟩ }

theorem margin_far (r : ℝ) (hr : 0 ≤ r) (hr2 : r ≤ 4) (a rear front width : ℝ) (h : a + front < 16) :
    Spec.Apart (Spec.body (a, 0) 0 rear front width) (Spec.circleRegion ⟨20, 0, r⟩) := by
  rintro p ⟨s, t, h1, h2, h3, rfl⟩ hd
  have hd' : (a + s - 20) ^ 2 + t ^ 2 ≤ r ^ 2 := by
    simpa [Spec.circleRegion, Spec.disc, Spec.frame] using hd
  nlinarith [sq_nonneg t]

theorem marginTT_safe : Spec.SafeTT marginTT.toParams marginTT.reset.q := by
  refine ⟨?_, by simp [marginTT, Params.default]⟩
  intro c hc
  simp only [marginTT, Params.default, List.mem_singleton] at hc
  subst hc
  constructor
  · exact margin_far _ (by norm_num) (by norm_num) _ _ _ _ (by norm_num [marginTT, TT2d.reset, Params.default])
  · unfold Spec.trailerBody
    have : Spec.trailerAxle marginTT.toParams marginTT.reset.q = (-4.05, 0) := by
      unfold Spec.trailerAxle Spec.frame
      simp [marginTT, TT2d.reset, Params.default]; norm_num
    rw [this]
    exact margin_far _ (by norm_num) (by norm_num) _ _ _ _ (by norm_num [marginTT, TT2d.reset, Params.default])

theorem margin_sides (p : ℝ) (hp : 0 ≤ p) : Spec.SidesOK (Params.default [⟨20, 0, 1 + p⟩] []) :=
  default_sidesOK _ _ (by intro c hc; simp only [List.mem_singleton] at hc; subst hc; simp only; linarith) (by simp)

/-- For the default vehicle 1.5 m of padding are enough. -/
example := fun ext us => C74_tt2d marginTT ext rfl rfl rfl (margin_sides _ (by norm_num)) (default_driveOK _ _)
  (by norm_num [marginTT, Params.default]) (by norm_num [marginTT, Params.default])
  (fun c hc => default_noTunnel _ _ c (by
    simp only [marginTT, Params.default, List.mem_singleton] at hc; subst hc; norm_num))
  (pole_padded (3 / 2) _ rfl) (by intro c hc; simp only [List.mem_singleton] at hc; subst hc; norm_num)
  ((default_travel _ _).1.trans (by norm_num)) ((default_travel _ _).2.trans (by norm_num))
  marginTT.reset marginTT_safe us

example := fun ext us => C74_bicycle (Bicycle.mk marginTT.toParams ⟨0, 0, 0⟩ ⟨9, 0, 0⟩) ext rfl rfl rfl
  (margin_sides _ (by norm_num)) (default_driveOK _ _)
  (by norm_num [marginTT, Params.default])
  (pole_padded (3 / 2) _ rfl) (by intro c hc; simp only [List.mem_singleton] at hc; subst hc; norm_num)
  ((default_travel _ _).1.trans (by norm_num)) (Bicycle.reset ⟨marginTT.toParams, ⟨0, 0, 0⟩, ⟨9, 0, 0⟩⟩)
  ⟨fun c hc => (marginTT_safe.1 c hc).1, fun o ho => (marginTT_safe.2 o ho).1⟩ us

example := fun ext us => C74_acc (Acc.mk marginTT.toParams 2 1 ⟨0, 0, 0, 0, 0, 0⟩ ⟨9, 0, 0, 0, 0, 0⟩) ext (margin_sides _ (by norm_num)) (default_driveOK _ _)
  (by norm_num [marginTT, Params.default]) (by norm_num [marginTT, Params.default])
  (by norm_num [marginTT, Params.default]) (by norm_num [marginTT, Params.default])
  (pole_padded (3 / 2) _ rfl) (by intro c hc; simp only [List.mem_singleton] at hc; subst hc; norm_num) (by norm_num)
  ((default_travel _ _).1.trans (by norm_num)) ((default_travel _ _).2.trans (by norm_num))
  (Acc.reset ⟨marginTT.toParams, 2, 1, ⟨0, 0, 0, 0, 0, 0⟩, ⟨9, 0, 0, 0, 0, 0⟩⟩) us

/-- The default train, the pole registered with 3 m padding. -/
noncomputable def marginTrain : NTrailer :=
  { toParams := Params.default [⟨20, 0, 1 + 3⟩] [], N := 2, lengths := [2.9, 2.9], fronts := [1.42, 1.42],
    rears := [1.848, 3.225], x0 := ⟨0, 0, 0, [0, 0]⟩, xg := ⟨9, 0, 0, [0, 0]⟩ }

theorem marginTrain_sweep : ∀ i < marginTrain.N, trailerSweepN marginTrain i ≤ 2 * 3 := by
  have h3 : √3 ≤ 1.7321 := by
    rw [sqrt_le_left (by norm_num)]; norm_num
  have ht := tan_55_le.trans h3
  have ht0 : 0 ≤ tan (55 * π / 180) := by
    have hp := pi_pos
    exact tan_nonneg_of_nonneg_of_le_pi_div_two (by positivity) (by linarith)
  have u00 : (unitRates marginTrain 0).1 = 3 := by simp [unitRates, marginTrain, Params.default]
  have u01 : (unitRates marginTrain 0).2 ≤ 1.61 ∧ 0 ≤ (unitRates marginTrain 0).2 := by
    simp only [unitRates, marginTrain, Params.default]
    constructor
    · nlinarith
    · positivity
  have u10 : (unitRates marginTrain 1).1 ≤ 3.6 ∧ 0 ≤ (unitRates marginTrain 1).1 := by
    refine ⟨?_, by simp only [unitRates]; exact sqrt_nonneg _⟩
    rw [unitRates, u00, sqrt_le_left (by norm_num)]
    obtain ⟨a, b⟩ := u01
    generalize (unitRates marginTrain 0).2 = w at *
    norm_num [marginTrain, Params.default]
    nlinarith
  have u11 : (unitRates marginTrain 1).2 ≤ 1.25 ∧ 0 ≤ (unitRates marginTrain 1).2 := by
    have e : (unitRates marginTrain 1).2 = (unitRates marginTrain 1).1 / 2.9 := by
      simp [unitRates, marginTrain]
    rw [e]
    exact ⟨by rw [div_le_iff₀ (by norm_num)]; linarith [u10.1], div_nonneg u10.2 (by norm_num)⟩
  have u20 : (unitRates marginTrain 2).1 ≤ 4 ∧ 0 ≤ (unitRates marginTrain 2).1 := by
    refine ⟨?_, by simp only [unitRates]; exact sqrt_nonneg _⟩
    rw [unitRates, sqrt_le_left (by norm_num)]
    obtain ⟨a, b⟩ := u10
    obtain ⟨c, d⟩ := u11
    generalize (unitRates marginTrain 1).2 = w at *
    generalize (unitRates marginTrain 1).1 = z at *
    norm_num [marginTrain, Params.default]
    nlinarith
  have u21 : (unitRates marginTrain 2).2 ≤ 1.4 := by
    have e : (unitRates marginTrain 2).2 = (unitRates marginTrain 2).1 / 2.9 := by
      simp [unitRates, marginTrain]
    rw [e, div_le_iff₀ (by norm_num)]; linarith [u20.1]
  have h0 : hitchTravel marginTrain 0 ≤ 0.98 := by
    rw [hitchTravel]
    obtain ⟨a, b⟩ := u01
    generalize (unitRates marginTrain 0).2 = w at *
    norm_num [marginTrain, Params.default]
    linarith
  have h1 : hitchTravel marginTrain 1 ≤ 2.46 := by
    rw [hitchTravel]
    obtain ⟨a, b⟩ := u11
    simp only [zero_add]
    generalize (unitRates marginTrain 1).2 = w at *
    generalize hitchTravel marginTrain 0 = z at *
    norm_num [marginTrain, Params.default]
    linarith
  intro i hi
  have : i = 0 ∨ i = 1 := by simp only [marginTrain] at hi; omega
  rcases this with rfl | rfl
  · rw [trailerSweepN]
    simp only [zero_add]
    obtain ⟨a, b⟩ := u11
    generalize (unitRates marginTrain 1).2 = w at *
    generalize hitchTravel marginTrain 0 = z at *
    norm_num [marginTrain, Params.default]
    linarith
  · rw [trailerSweepN]
    simp only [Nat.reduceAdd]
    generalize (unitRates marginTrain 2).2 = w at *
    generalize hitchTravel marginTrain 1 = z at *
    norm_num [marginTrain, Params.default]
    linarith

theorem marginTrain_safe : Spec.SafeN marginTrain marginTrain.reset.q := by
  refine ⟨?_, by simp [marginTrain, Params.default]⟩
  intro c hc
  simp only [marginTrain, Params.default, List.mem_singleton] at hc
  subst hc
  constructor
  · exact margin_far _ (by norm_num) (by norm_num) _ _ _ _ (by norm_num [marginTrain, NTrailer.reset, Params.default])
  · intro i hi
    have : i = 0 ∨ i = 1 := by simp only [marginTrain] at hi; omega
    rcases this with rfl | rfl
    · unfold Spec.trailerBodyN
      have : Spec.axleN marginTrain marginTrain.reset.q 0 = (-4.05, 0) := by
        simp [Spec.axleN, Spec.hitchN, Spec.frame, marginTrain, NTrailer.reset, Params.default]; norm_num
      rw [this]
      have h0 : marginTrain.reset.q.ths.getD 0 0 = 0 := rfl
      rw [h0]
      exact margin_far _ (by norm_num) (by norm_num) _ _ _ _ (by norm_num [marginTrain, NTrailer.reset, Params.default])
    · unfold Spec.trailerBodyN
      have : Spec.axleN marginTrain marginTrain.reset.q 1 = (-9.948, 0) := by
        simp [Spec.axleN, Spec.hitchN, Spec.frame, marginTrain, NTrailer.reset, Params.default]; norm_num
      rw [this]
      have h0 : marginTrain.reset.q.ths.getD 1 0 = 0 := rfl
      rw [h0]
      exact margin_far _ (by norm_num) (by norm_num) _ _ _ _ (by norm_num [marginTrain, NTrailer.reset, Params.default])

example (guide : QN → QN) (us : List U) :
    ∃ tr, scanStatesE (marginTrain.step guide) marginTrain.reset us = .ok tr ∧ tr.length = us.length ∧
    List.IsChain (fun s s' : St QN => ∀ lam, 0 ≤ lam → lam ≤ 1 →
        Spec.SafeN { marginTrain with circles := [⟨20, 0, 1⟩], rects := [] } (betweenN lam s.q s'.q))
      (marginTrain.reset :: tr) := by
  obtain ⟨tr, h, hl⟩ := ntrailer_rollout_ok marginTrain guide rfl us marginTrain.reset rfl
  have two : ∀ i < marginTrain.N, i = 0 ∨ i = 1 := by intro i hi; simp only [marginTrain] at hi; omega
  refine ⟨tr, h, hl, C74_ntrailer marginTrain guide rfl rfl (margin_sides _ (by norm_num)) (default_driveOK _ _)
    (by norm_num [marginTrain, Params.default]) ⟨rfl, rfl, rfl, ?_⟩ ?_ ?_ (pole_padded 3 _ rfl)
    (by intro c hc; simp only [List.mem_singleton] at hc; subst hc; norm_num)
    (by norm_num [marginTrain, Params.default]) ((default_travel _ _).1.trans (by norm_num)) marginTrain_sweep
    marginTrain.reset marginTrain_safe rfl us tr h⟩
  all_goals
    intro i hi
    rcases two i hi with rfl | rfl <;> norm_num [marginTrain]

/-! ## Without padding the claim is false -/

/-- A bicycle that turns a quarter circle in one step, a thin pole just outside both recorded bodies. -/
noncomputable def turnBike : Bicycle :=
  { toParams := { Params.default [⟨π / 2 + √2 / 2, -(√2 / 2), 0.1⟩] [] with
      dt := π, l1 := 2, lf1 := 0, lr := 0, vMax := 1, deltaMaxDeg := 45 }
    x0 := ⟨0, 0, 0⟩, xg := ⟨9, 0, 0⟩ }

theorem sqrt2_half : 0.7 ≤ √2 / 2 ∧ √2 / 2 ≤ 0.71 := by
  constructor
  · have : 1.4 ≤ √2 := by apply le_sqrt_of_sq_le; norm_num
    linarith
  · have : √2 ≤ 1.42 := by rw [sqrt_le_left (by norm_num)]; norm_num
    linarith

theorem turn_start : Spec.SafeBicycle turnBike.toParams ⟨0, 0, 0⟩ := by
  refine ⟨?_, by simp [turnBike, Params.default]⟩
  intro c hc
  simp only [turnBike, Params.default, List.mem_singleton] at hc
  subst hc
  rintro p ⟨s, t, h1, h2, h3, rfl⟩ hd
  simp only [turnBike] at h2
  have hd' : (s - (π / 2 + √2 / 2)) ^ 2 + (t - -(√2 / 2)) ^ 2 ≤ 0.1 ^ 2 := by
    simpa [Spec.circleRegion, Spec.disc, Spec.frame] using hd
  have := sqrt2_half.1
  have := pi_gt_d2
  nlinarith [sq_nonneg (t - -(√2 / 2))]

theorem turn_end : Spec.SafeBicycle turnBike.toParams ⟨π, 0, π / 2⟩ := by
  refine ⟨?_, by simp [turnBike, Params.default]⟩
  intro c hc
  simp only [turnBike, Params.default, List.mem_singleton] at hc
  subst hc
  rintro p ⟨s, t, h1, h2, h3, rfl⟩ hd
  simp only [turnBike, neg_zero] at h1
  have hd' : (π - t - (π / 2 + √2 / 2)) ^ 2 + (s - -(√2 / 2)) ^ 2 ≤ 0.1 ^ 2 := by
    simpa [Spec.circleRegion, Spec.disc, Spec.frame] using hd
  have := sqrt2_half.1
  nlinarith [sq_nonneg (π - t - (π / 2 + √2 / 2))]

theorem turn_between : ¬ Spec.SafeBicycle turnBike.toParams (between3 (1 / 2) ⟨0, 0, 0⟩ ⟨π, 0, π / 2⟩) := by
  intro h
  refine h.1 ⟨π / 2 + √2 / 2, -(√2 / 2), 0.1⟩ (by simp [turnBike, Params.default])
    (π / 2 + √2 / 2, -(√2 / 2)) ?_ (by simp [Spec.circleRegion, Spec.disc]; norm_num)
  refine ⟨0, -1, by norm_num [turnBike], by norm_num [turnBike], by norm_num [turnBike, Params.default], ?_⟩
  have e : mix (1 / 2) 0 (π / 2) = π / 4 := by unfold mix; ring
  simp only [between3, e, Spec.frame, cos_pi_div_four, sin_pi_div_four]
  ext
  · simp [mix]; ring
  · simp [mix]

theorem turn_step (ext : Ext Q3) : (turnBike.step ext turnBike.reset (1, 1)).q = ⟨π, 0, π / 2⟩ := by
  have hpr : turnBike.proposal turnBike.reset (1, 1) = ⟨π, 0, π / 2⟩ := by
    have e : (45 * π / 180 : ℝ) = π / 4 := by ring
    simp only [Bicycle.proposal, Bicycle.euler, Q3.axpy, Bicycle.dynamics, Params.inputScaler, Params.deltaMax,
      turnBike, Bicycle.reset, effAction, clipU, Bool.false_eq_true, if_false]
    rw [clip_of_mem (by norm_num) (by norm_num)]
    simp [e]
    ring
  rw [Bicycle.step_q turnBike ext rfl rfl, hpr, if_neg]
  rintro (⟨_, hc⟩ | ⟨_, hh⟩)
  · have hs := turn_end
    obtain ⟨hc1, hr1⟩ := hs
    unfold Spec.tractorBody at hc1
    rw [body_eq] at hc1
    unfold Bicycle.checkObstacle at hc
    simp only at hc
    rw [tractorCorners_eq] at hc
    rcases hc with ⟨c, hcm, hcc⟩ | ⟨o, ho, _⟩
    · exact apart_not_circle (by norm_num [turnBike]) (by norm_num [turnBike, Params.default]) (hc1 c hcm) hcc
    · simp [turnBike, Params.default] at ho
  · exact hh

/-- **C74 fails without padding**: both recorded states are clear of the obstacles, but in between the
vehicle hits one. -/
theorem C74_unpadded_refuted : ¬ ∀ (T : Bicycle) (ext : Ext Q3), T.shieldCollision = true →
    T.enableProjection = false → T.enableGuidance = false → Spec.SidesOK T.toParams → DriveOK T.toParams →
    -T.lr ≤ T.l1 + T.lf1 → ∀ (cs : List Circle) (rs : List Rect), Padded 0 T.toParams cs rs →
    ∀ s : St Q3, Spec.SafeBicycle T.toParams s.q → ∀ us : List U,
    (∀ s' ∈ scanStates (T.step ext) s us, Spec.SafeBicycle T.toParams s'.q) →
    List.IsChain (fun s s' : St Q3 => ∀ lam, 0 ≤ lam → lam ≤ 1 →
        Spec.SafeBicycle { T.toParams with circles := cs, rects := rs } (between3 lam s.q s'.q))
      (s :: scanStates (T.step ext) s us) := by
  intro h
  have hP : Padded 0 turnBike.toParams turnBike.circles [] := by
    refine ⟨⟨⟨"case1", (0, 0), (0, 0), none, [], []⟩, [], "center", rfl, rfl⟩,
      ⟨⟨"case1", (0, 0), (0, 0), none, [], []⟩, [[π / 2 + √2 / 2, -(√2 / 2), 0.1]], ?_, ?_⟩⟩
    · simp [Env.setCircleObs, Env.convertAll, Env.convertCircle, turnBike, Params.default]
    · simp [Env.setCircleObs, Env.convertAll, Env.convertCircle, turnBike, Params.default]
  have ext : Ext Q3 := ⟨fun _ u => u, id⟩
  have := h turnBike ext rfl rfl rfl
    (by constructor <;> norm_num [turnBike, Params.default])
    (by constructor <;> norm_num [turnBike, Params.default, pi_pos.le])
    (by norm_num [turnBike]) _ _ hP turnBike.reset turn_start [(1, 1)]
    (by
      intro s' hs'
      simp only [scanStates, List.mem_singleton] at hs'
      subst hs'
      rw [turn_step]; exact turn_end)
  simp only [scanStates, List.isChain_cons_cons] at this
  have := this.1 (1 / 2) (by norm_num) (by norm_num)
  rw [turn_step] at this
  exact turn_between this

end Mbd
