import Verif.RoundAcc
import Verif.RoundSingle
import Verif.PropsAcc
import Verif.PropsDefined
import Verif.PropsAlarm

/-!
# C85: the acceleration model with rounding errors
-/

namespace Spec

open Real Mbd

/-- What a floating-point arithmetic with machine numbers `F` guarantees of zero: products and quotients of zero are zero, results are
machine numbers, and adding zero keeps a machine number. -/
structure KeepsZero (A : Arith) (F : Set ℝ) : Prop where
  left : ∀ a, A.mul 0 a = 0
  right : ∀ a, A.mul a 0 = 0
  div : ∀ a, A.div 0 a = 0
  result : ∀ a b c, A.mulAdd a b c ∈ F
  keep : ∀ a, ∀ c ∈ F, A.mulAdd a 0 c = c

/-- Every component is a machine number. -/
structure Stored (F : Set ℝ) (q : Q6) : Prop where
  px : q.px ∈ F
  py : q.py ∈ F
  th1 : q.th1 ∈ F
  th2 : q.th2 ∈ F
  v : q.v ∈ F
  delta : q.delta ∈ F

/-- The default acceleration-controlled vehicle (constructor defaults) with any obstacles, start and goal. -/
structure DefaultAcc (T : Acc) (cs : List Circle) (rs : List Rect) : Prop where
  params : T.toParams = Params.default cs rs
  aMax : T.aMax = 2
  omegaMax : T.omegaMax = 1

end Spec

namespace Mbd

open Real Classical _root_.Spec

namespace Rounded

variable {A : Arith}

/-- The shield, computed with rounding errors, rejects the requested motion. -/
def OverridesA (A : Arith) (T : Acc) (q : Q6) (a : U) : Prop :=
  (checkSafety A T (eulerA A T q (inputScalerA A T (clipU a)) T.dt)).1 = true ∨
  (checkSafety A T (eulerA A T q (inputScalerA A T (clipU a)) T.dt)).2 = true

theorem carry_keeps (T : Acc) (u : U) (n : ℕ) (c : Acc.RCarry) :
    (c.oc = true → ((rolloutStep A T u)^[n] c).oc = true) ∧ (c.hv = true → ((rolloutStep A T u)^[n] c).hv = true) := by
  induction n generalizing c with
  | zero => exact ⟨id, id⟩
  | succ n ih =>
    rw [Function.iterate_succ_apply]
    obtain ⟨h1, h2⟩ := ih (rolloutStep A T u c)
    exact ⟨fun h => h1 (by simp [rolloutStep, h]), fun h => h2 (by simp [rolloutStep, h])⟩

theorem safety_self (T : Acc) (q : Q6) :
    (checkObstacle A T.toParams q.pose → (checkSafety A T q).1 = true) ∧
    (checkHitch A T.toParams q.pose → (checkSafety A T q).2 = true) := by
  unfold checkSafety
  split_ifs with hv
  · exact ⟨fun h => by simpa using h, fun h => by simpa using h⟩
  · simp only
    exact ⟨fun h => (carry_keeps T _ _ _).1 (by simpa using h), fun h => (carry_keeps T _ _ _).2 (by simpa using h)⟩

theorem stepA_eq {T : Acc} (h : T.Shielded) (q : Q6) (a : U) :
    stepA A T q false a = if OverridesA A T q a then
      eulerA A T q (A.mul (decelSign A q.v (eulerA A T q (inputScalerA A T (clipU a)) T.dt).v) (aBackup A T q.v), 0) T.dt
      else eulerA A T q (inputScalerA A T (clipU a)) T.dt := by
  unfold stepA OverridesA
  simp [h.coll, h.hitch]

theorem clip_zero' {a : ℝ} (h : 0 ≤ a) : clip 0 (-a) a = 0 := by
  unfold clip
  rw [max_eq_left (by linarith), min_eq_left h]

/-- At rest a braking vehicle stays exactly where it is. -/
theorem rest_stays {F : Set ℝ} (hF : KeepsZero A F) {T : Acc} {q : Q6} (hq : Stored F q) (hv : 0 ≤ A.const T.vMax)
    (ha : 0 ≤ A.const T.aMax) (h0 : q.v = 0) (s : ℝ) : eulerA A T q (A.mul s (aBackup A T q.v), 0) T.dt = q := by
  have e1 : clip q.v (-A.const T.vMax) (A.const T.vMax) = 0 := by rw [h0]; exact clip_zero' hv
  have e2 : aBackup A T q.v = 0 := by
    unfold aBackup clip
    rw [h0, hF.div, abs_zero, max_self, min_eq_left ha]
  unfold eulerA
  simp only [e1, e2, hF.left, hF.right, hF.div]
  rw [hF.keep _ _ hq.px, hF.keep _ _ hq.py, hF.keep _ _ hq.th1, hF.keep _ _ hq.th2, hF.keep _ _ hq.v, hF.keep _ _ hq.delta]

theorem eulerA_stored {F : Set ℝ} (hF : KeepsZero A F) (T : Acc) (q : Q6) (u : U) (h : ℝ) : Stored F (eulerA A T q u h) :=
  ⟨hF.result _ _ _, hF.result _ _ _, hF.result _ _ _, hF.result _ _ _, hF.result _ _ _, hF.result _ _ _⟩

end Rounded

/-- C85, one step, for every arithmetic however inaccurate: a motion that the shield lets pass ends in a state which passes both computed
checks; a vehicle at rest that the shield overrides keeps its state bit for bit. -/
theorem C85_checked {A : Arith} {F : Set ℝ} (hF : KeepsZero A F) {T : Acc} (h : T.Shielded) (hv : 0 ≤ A.const T.vMax)
    (ha : 0 ≤ A.const T.aMax) {q : Q6} (hq : Stored F q) (a : U) :
    (¬ Rounded.OverridesA A T q a → ¬ Rounded.checkObstacle A T.toParams (Rounded.stepA A T q false a).pose ∧
      ¬ Rounded.checkHitch A T.toParams (Rounded.stepA A T q false a).pose) ∧
    (Rounded.OverridesA A T q a → q.v = 0 → Rounded.stepA A T q false a = q) := by
  rw [Rounded.stepA_eq h]
  constructor
  · intro ho
    rw [if_neg ho]
    unfold Rounded.OverridesA at ho
    rw [not_or] at ho
    exact ⟨fun hc => ho.1 ((Rounded.safety_self T _).1 hc), fun hc => ho.2 ((Rounded.safety_self T _).2 hc)⟩
  · intro ho h0
    rw [if_pos ho]
    exact Rounded.rest_stays hF hq hv ha h0 _

namespace Rounded

/-- State after a list of actions. -/
noncomputable def lastA (A : Arith) (T : Acc) : Q6 → List U → Q6
  | q, [] => q
  | q, a :: us => lastA A T (stepA A T q false a) us

variable {A : Arith}

theorem run_or_bad {F : Set ℝ} (hF : KeepsZero A F) {T : Acc} (h : T.Shielded) (hv : 0 ≤ A.const T.vMax)
    (ha : 0 ≤ A.const T.aMax) : ∀ (us : List U) (q : Q6), Stored F q → ¬ checkObstacle A T.toParams q.pose →
      ¬ checkHitch A T.toParams q.pose →
      (∀ q' ∈ states (fun q a => stepA A T q false a) q us,
        ¬ checkObstacle A T.toParams q'.pose ∧ ¬ checkHitch A T.toParams q'.pose) ∨
      ∃ pre a post, us = pre ++ a :: post ∧ OverridesA A T (lastA A T q pre) a ∧ (lastA A T q pre).v ≠ 0
  | [], _, _, _, _ => Or.inl (by simp [states])
  | a :: us, q, hq, h1, h2 => by
    by_cases hb : OverridesA A T q a ∧ q.v ≠ 0
    · exact Or.inr ⟨[], a, us, rfl, hb.1, hb.2⟩
    have p := C85_checked hF h hv ha hq a
    have hn : Stored F (stepA A T q false a) ∧ ¬ checkObstacle A T.toParams (stepA A T q false a).pose ∧
        ¬ checkHitch A T.toParams (stepA A T q false a).pose := by
      by_cases ho : OverridesA A T q a
      · have h0 : q.v = 0 := by by_contra hz; exact hb ⟨ho, hz⟩
        rw [p.2 ho h0]
        exact ⟨hq, h1, h2⟩
      · refine ⟨?_, p.1 ho⟩
        rw [stepA_eq h, if_neg ho]
        exact eulerA_stored hF _ _ _ _
    rcases run_or_bad hF h hv ha us _ hn.1 hn.2.1 hn.2.2 with h' | ⟨pre, b, post, e, k1, k2⟩
    · left
      intro q' hq'
      rw [states, List.mem_cons] at hq'
      rcases hq' with rfl | hq'
      · exact hn.2
      · exact h' q' hq'
    · exact Or.inr ⟨a :: pre, b, post, by rw [e]; rfl, k1, k2⟩

end Rounded

/-- C85, the run (what C11 guarantees, with rounding errors): started from a state that passes the computed checks, no recorded state in
the field has a body deeper than the tolerance in an obstacle or a hitch angle beyond the limit by more than the tolerance, unless
the shield had to intervene while the vehicle was moving (after that safety is false even without rounding, `C11_refuted`). -/
theorem C85_run {A : Arith} {F : Set ℝ} {u m τ η H R S L W r tr tc : ℝ} {T : Acc} (acc : Spec.Accurate A u m τ η H)
    (hF : KeepsZero A F) (ok : RoundOK u m τ η H R S L W r tr tc T.toParams) (u0 : 0 ≤ u) (u1 : u ≤ 1 / 1000) (e0 : 0 ≤ η)
    (e1 : η ≤ 1e-9) (h : T.Shielded) (hv : 0 ≤ A.const T.vMax) (ha : 0 ≤ A.const T.aMax)
    (q : Q6) (hq : Stored F q) (h1 : ¬ Rounded.checkObstacle A T.toParams q.pose) (h2 : ¬ Rounded.checkHitch A T.toParams q.pose)
    (us : List U) :
    (∀ q' ∈ Rounded.states (fun q a => Rounded.stepA A T q false a) q us, InField4 R H q'.pose →
      GrazesBody tr tc T.toParams (Spec.tractorBody T.toParams q'.px q'.py q'.th1) ∧
      GrazesBody tr tc T.toParams (Spec.trailerBody T.toParams q'.pose) ∧
      ¬ Spec.exceedsModTurns (T.phiMax + hitchTol u η H) (q'.th1 - q'.th2)) ∨
    ∃ pre a post, us = pre ++ a :: post ∧ Rounded.OverridesA A T (Rounded.lastA A T q pre) a ∧ (Rounded.lastA A T q pre).v ≠ 0 := by
  rcases Rounded.run_or_bad hF h hv ha us q hq h1 h2 with h' | h'
  · left
    intro q' hq' hf
    obtain ⟨k1, k2⟩ := h' q' hq'
    obtain ⟨g1, g2⟩ := C76_check_tt2d acc ok hf k1
    exact ⟨g1, g2, C76_hitch acc u0 u1 e0 e1 hf k2⟩
  · exact Or.inr h'

namespace Rounded

variable {A : Arith}

/-! ### Braking -/

theorem clip_lip {x y a : ℝ} : |clip x 0 a - clip y 0 a| ≤ |x - y| := by
  unfold clip
  exact (abs_min_sub_min_le_max _ _ _ _).trans (by
    rw [sub_self, abs_zero, max_eq_left (abs_nonneg _)]
    exact (abs_max_sub_max_le_max _ _ _ _).trans (by rw [sub_self, abs_zero, max_eq_left (abs_nonneg _)]))

theorem clip_hi {x a b : ℝ} : |clip x 0 a - clip x 0 b| ≤ |a - b| := by
  unfold clip
  exact (abs_min_sub_min_le_max _ _ _ _).trans (by rw [sub_self, abs_zero, max_eq_right (abs_nonneg _)])

theorem clip_sym {x a b : ℝ} : |clip x (-a) a - clip x (-b) b| ≤ |a - b| := by
  unfold clip
  refine (abs_min_sub_min_le_max _ _ _ _).trans (max_le ?_ le_rfl)
  refine (abs_max_sub_max_le_max _ _ _ _).trans (max_le (by simp) ?_)
  rw [show -a - -b = -(a - b) by ring, abs_neg]

theorem quot32 (acc : Spec.Float32 A) {v : ℝ} (hv : |v| ≤ 5) : |A.div v (A.const 0.2) - v / 0.2| ≤ 3.5e-6 := by
  have hc := acc.const 0.2
  rw [abs_of_pos (by norm_num : (0 : ℝ) < 0.2)] at hc
  generalize A.const 0.2 = c at *
  have hc' : |c - 0.2| ≤ 1.21e-8 := hc.trans (by norm_num)
  obtain ⟨c1, c2⟩ := abs_le.mp hc'
  have cp : 0 < c := by linarith
  have h := acc.div v c cp.ne'
  have q1 : |v / c| ≤ 25.01 := by
    rw [abs_div, abs_of_pos cp, div_le_iff₀ cp]; linarith
  have q2 : |v / c - v / 0.2| ≤ 1.6e-6 := by
    have e : v / c - v / 0.2 = v / c * ((0.2 - c) / 0.2) := by field_simp
    rw [e, abs_mul, abs_div (0.2 - c), abs_of_pos (by norm_num : (0 : ℝ) < 0.2), abs_sub_comm]
    have := mul_le_mul q1 (show |c - 0.2| / 0.2 ≤ 6.05e-8 by rw [div_le_iff₀ (by norm_num)]; linarith) (by positivity) (by norm_num)
    linarith
  have t := abs_add_le (A.div v c - v / c) (v / c - v / 0.2)
  rw [sub_add_sub_cancel] at t
  linarith

theorem aBackup32 (acc : Spec.Float32 A) {T : Acc} {cs : List Circle} {rs : List Rect} (hT : DefaultAcc T cs rs) {v : ℝ}
    (hv : |v| ≤ 5) : |aBackup A T v - T.aBackup v| ≤ 4e-6 ∧ |T.aBackup v| ≤ 2 := by
  have hdt : T.dt = 0.2 := by rw [hT.params]; rfl
  unfold aBackup Acc.aBackup
  rw [hdt, hT.aMax]
  have h1 := quot32 acc hv
  have h2 := const32 acc (a := 2) (by norm_num)
  have h3 : |(|A.div v (A.const 0.2)| - |v / 0.2|)| ≤ 3.5e-6 := (abs_abs_sub_abs_le _ _).trans h1
  have k1 := clip_lip (x := |A.div v (A.const 0.2)|) (y := |v / 0.2|) (a := A.const 2)
  have k2 := clip_hi (x := |v / 0.2|) (a := A.const 2) (b := 2)
  have t := abs_add_le (clip |A.div v (A.const 0.2)| 0 (A.const 2) - clip |v / 0.2| 0 (A.const 2))
    (clip |v / 0.2| 0 (A.const 2) - clip |v / 0.2| 0 2)
  rw [sub_add_sub_cancel] at t
  refine ⟨by linarith, abs_le.mpr ⟨?_, clip_le _ _ _⟩⟩
  have := le_clip (x := |v / 0.2|) (lo := 0) (hi := 2) (by norm_num)
  linarith

theorem speed32 (acc : Spec.Float32 A) {s s' b b' v : ℝ} (hs : s' = s) (h1 : |s| ≤ 1) (hb : |b' - b| ≤ 4e-6) (h2 : |b| ≤ 2)
    (hv : |v| ≤ 5) : |A.mulAdd (A.const 0.2) (A.mul s' b') v - (v + 0.2 * (s * b))| ≤ 2e-5 := by
  subst hs
  have k := mul32 acc (show |s' - s'| ≤ 0 by simp) hb h1 h2 (by norm_num) (by norm_num)
  have kb : |s' * b| ≤ 2 := by
    rw [abs_mul]; have := mul_le_mul h1 h2 (abs_nonneg _) (by norm_num); linarith
  have k' : |A.mul s' b' - s' * b| ≤ 1e-5 := k.trans (by norm_num)
  have := mulAdd32 acc (const32 acc (show |(0.2 : ℝ)| ≤ 5 by norm_num)) k' (show |v - v| ≤ 0 by simp)
    (show |(0.2 : ℝ)| ≤ 0.2 by norm_num) kb hv (by norm_num) (by norm_num) (by norm_num)
  rw [add_comm v]
  exact this.trans (by norm_num)

end Rounded

/-- C85, braking (what C12 guarantees, with rounding errors): an overridden step of the default vehicle at a speed of up to 5 m/s brakes as
documented up to 0.02 mm/s, and keeps the wheels where they are (relative error 2e-7). Conditions as in `C12_partial`; in the other
cases braking is wrong even without rounding (`C12_refuted`). -/
theorem C85_brake {A : Arith} (acc : Spec.Float32 A) {T : Acc} {cs : List Circle} {rs : List Rect} (hT : DefaultAcc T cs rs)
    (h : T.Shielded) {q : Q6} (a : U) (ho : Rounded.OverridesA A T q a) (h5 : |q.v| ≤ 5)
    (hc : 0.011 < q.v ∨ (q.v < -0.011 ∧ (Rounded.eulerA A T q (Rounded.inputScalerA A T (clipU a)) T.dt).v < -0.011)) :
    |(Rounded.stepA A T q false a).v - Spec.brake q.v (2 * 0.2)| ≤ 2e-5 ∧
    |(Rounded.stepA A T q false a).delta - q.delta| ≤ 2e-7 * |q.delta| + 1e-29 := by
  rw [Rounded.stepA_eq h, if_pos ho]
  refine ⟨?_, by
    have := acc.mulAdd (A.const T.dt) 0 q.delta
    rw [mul_zero, zero_add, abs_zero] at this
    have := abs_nonneg q.delta
    show |A.mulAdd (A.const T.dt) 0 q.delta - q.delta| ≤ _
    linarith⟩
  obtain ⟨b1, b2⟩ := Rounded.aBackup32 acc hT h5
  have hdt : T.dt = 0.2 := by rw [hT.params]; rfl
  have hthr := acc.const Acc.vThr
  have ev : Acc.vThr = 0.01 := rfl
  rw [ev, abs_of_pos (by norm_num : (0 : ℝ) < 0.01)] at hthr
  obtain ⟨t1, t2⟩ := abs_le.mp hthr
  have thr : A.const Acc.vThr < 0.011 := by rw [ev]; linarith
  have thr0 : 0 < A.const Acc.vThr := by rw [ev]; linarith
  generalize (Rounded.eulerA A T q (Rounded.inputScalerA A T (clipU a)) T.dt).v = w at *
  have e : (Rounded.eulerA A T q (A.mul (Rounded.decelSign A q.v w) (Rounded.aBackup A T q.v), 0) T.dt).v
      = A.mulAdd (A.const 0.2) (A.mul (Rounded.decelSign A q.v w) (Rounded.aBackup A T q.v)) q.v := by
    unfold Rounded.eulerA; rw [hdt]
  rw [e]
  have ha0 : 0 ≤ T.aMax := by rw [hT.aMax]; norm_num
  have hd0 : 0 < T.dt := by rw [hdt]; norm_num
  rcases hc with hc | ⟨hc, hw⟩
  · have := brake_pos ha0 hd0 (v := q.v) (by linarith)
    rw [hT.aMax, hdt] at this
    rw [← this]
    exact Rounded.speed32 acc (by unfold Rounded.decelSign; rw [if_pos (by linarith)]) (by norm_num) b1 b2 h5
  · have := brake_neg ha0 hd0 (v := q.v) (by linarith)
    rw [hT.aMax, hdt] at this
    rw [← this]
    refine Rounded.speed32 acc ?_ (by norm_num) b1 b2 h5
    unfold Rounded.decelSign
    rw [if_neg (by linarith), if_pos (by linarith)]

namespace Rounded

variable {A : Arith}

/-! ### Motion -/

/-- Kinematics with slightly wrong speed and steering: the four components of the Euler step. -/
theorem core32 (acc : Spec.Float32 A) {x y a b v v' t t' : ℝ} (hx : |x| ≤ 50) (hy : |y| ≤ 50) (ha : |a| ≤ 49) (hb : |b| ≤ 49)
    (h1 : |v' - v| ≤ 2e-6) (v3 : |v| ≤ 3) (h2 : |t' - t| ≤ 6e-6) (h3 : |t| ≤ 1.8) :
    |A.mulAdd (A.const 0.2) (A.mul v' (A.cos a)) x - (x + 0.2 * (v * cos a))| ≤ 2e-4 ∧
    |A.mulAdd (A.const 0.2) (A.mul v' (A.sin a)) y - (y + 0.2 * (v * sin a))| ≤ 2e-4 ∧
    |A.mulAdd (A.const 0.2) (A.mul (A.div v' (A.const 3.23)) t') a - (a + 0.2 * (v / 3.23 * t))| ≤ 2e-4 ∧
    |A.mulAdd (A.const 0.2) (A.mul (A.div v' (A.const 2.9)) (A.mulAdd (-A.mul (A.const (1.15 / 3.23)) (A.cos (A.sub a b))) t'
      (A.sin (A.sub a b)))) b - (b + 0.2 * (v / 2.9 * (sin (a - b) - 1.15 / 3.23 * cos (a - b) * t)))| ≤ 2e-4 := by
  have cl1 : |A.const 3.23 - 3.23| ≤ 4e-7 := const32 acc (by norm_num)
  have cl2 : |A.const 2.9 - 2.9| ≤ 4e-7 := const32 acc (by norm_num)
  have clh : |A.const (1.15 / 3.23) - 1.15 / 3.23| ≤ 4e-7 := const32 acc (by norm_num)
  have cx := acc.cos a (ha.trans (by norm_num))
  have sx := acc.sin a (ha.trans (by norm_num))
  obtain ⟨dc, ds⟩ := hitch32 acc ha hb
  have cb := abs_cos_le_one a
  have sb := abs_sin_le_one a
  have cb2 := abs_cos_le_one (a - b)
  have sb2 := abs_sin_le_one (a - b)
  have w1 := div32 acc h1 cl1 v3 (by norm_num)
  have w2 := div32 acc h1 cl2 v3 (by norm_num)
  have w1b : |v / 3.23| ≤ 1.5 := by
    rw [abs_div, abs_of_pos (by norm_num : (0 : ℝ) < 3.23), div_le_iff₀ (by norm_num)]; linarith
  have w2b : |v / 2.9| ≤ 1.5 := by
    rw [abs_div, abs_of_pos (by norm_num : (0 : ℝ) < 2.9), div_le_iff₀ (by norm_num)]; linarith
  have k1 := (mul32 acc h1 cx v3 cb (by norm_num) (by norm_num))
  have k2 := (mul32 acc h1 sx v3 sb (by norm_num) (by norm_num))
  have k3 := (mul32 acc w1 h2 w1b h3 (by norm_num) (by norm_num))
  have i1 := mul32 acc clh dc (show |(1.15 / 3.23 : ℝ)| ≤ 0.36 by norm_num) cb2 (by norm_num) (by norm_num)
  have i1b : |1.15 / 3.23 * cos (a - b)| ≤ 0.36 := by
    rw [abs_mul, abs_of_pos (by norm_num : (0 : ℝ) < 1.15 / 3.23)]
    linarith
  generalize A.mul (A.const (1.15 / 3.23)) (A.cos (A.sub a b)) = c' at *
  generalize 1.15 / 3.23 * cos (a - b) = c at *
  have i1' : |-c' - -c| ≤ 9.6e-6 := by
    rw [show -c' - -c = -(c' - c) by ring, abs_neg]
    exact i1.trans (by norm_num)
  have i2 := mulAdd32 acc i1' h2 ds (show |-c| ≤ 0.36 by rw [abs_neg]; exact i1b) h3 sb2 (by norm_num) (by norm_num)
    (by norm_num)
  have i2b : |-c * t + sin (a - b)| ≤ 1.7 := by
    refine (abs_add_le _ _).trans ?_
    rw [abs_mul, abs_neg]
    have := mul_le_mul i1b h3 (abs_nonneg _) (by norm_num)
    linarith
  generalize A.mulAdd (-c') t' (A.sin (A.sub a b)) = s' at *
  have i2' : |s' - (-c * t + sin (a - b))| ≤ 3.4e-5 := i2.trans (by norm_num)
  have k4 := (mul32 acc w2 i2' w2b i2b (by norm_num) (by norm_num))
  have m1 : |v * cos a| ≤ 5 := by
    rw [abs_mul]; have := mul_le_mul v3 cb (abs_nonneg _) (by norm_num); linarith
  have m2 : |v * sin a| ≤ 5 := by
    rw [abs_mul]; have := mul_le_mul v3 sb (abs_nonneg _) (by norm_num); linarith
  have m3 : |v / 3.23 * t| ≤ 5 := by
    rw [abs_mul]; have := mul_le_mul w1b h3 (abs_nonneg _) (by norm_num); linarith
  have m4 : |v / 2.9 * (-c * t + sin (a - b))| ≤ 5 := by
    rw [abs_mul]; have := mul_le_mul w2b i2b (abs_nonneg _) (by norm_num); linarith
  refine ⟨last32 acc (k1.trans (by norm_num)) m1 hx, last32 acc (k2.trans (by norm_num)) m2 hy,
    last32 acc (k3.trans (by norm_num)) m3 (ha.trans (by norm_num)), ?_⟩
  rw [show sin (a - b) - c * t = -c * t + sin (a - b) by ring]
  exact last32 acc (k4.trans (by norm_num)) m4 (hb.trans (by norm_num))

theorem clip_sym_le {x a : ℝ} (h : 0 ≤ a) : |clip x (-a) a| ≤ a :=
  abs_le.mpr ⟨le_clip (by linarith), clip_le _ _ _⟩

/-- Tangent of the clipped steering angle. -/
theorem steer32 (acc : Spec.Float32 A) (x : ℝ) :
    |A.tan (clip x (-A.const (55 * π / 180)) (A.const (55 * π / 180))) - tan (clip x (-(55 * π / 180)) (55 * π / 180))| ≤ 6e-6 ∧
    |tan (clip x (-(55 * π / 180)) (55 * π / 180))| ≤ 1.8 := by
  obtain ⟨d1, d2⟩ := deg55
  have cd : |A.const (55 * π / 180) - 55 * π / 180| ≤ 4e-7 := const32 acc (by rw [abs_of_pos] <;> linarith)
  have e := (clip_sym (x := x) (a := A.const (55 * π / 180)) (b := 55 * π / 180)).trans cd
  have b0 := clip_sym_le (x := x) (a := 55 * π / 180) (by linarith)
  generalize clip x (-A.const (55 * π / 180)) (A.const (55 * π / 180)) = δ at *
  generalize clip x (-(55 * π / 180)) (55 * π / 180) = δ0 at *
  have b : |δ0| ≤ 0.97 := b0.trans d2.le
  have b' : |δ| ≤ 1 := (abs_le_of_err e b).trans (by norm_num)
  constructor
  · have t1 := acc.tan δ b'
    have t2 := tan_err b' (show |δ0| ≤ 1 by linarith)
    have t := abs_add_le (A.tan δ - tan δ) (tan δ - tan δ0)
    rw [sub_add_sub_cancel] at t
    linarith
  · have h1 : |tan δ0| ≤ √3 := by
      rw [abs_le]
      have hp := pi_gt_d2
      have hb := abs_le.mp b
      rw [← tan_pi_div_three, ← tan_neg]
      constructor
      · exact (tan_lt_tan_of_lt_of_lt_pi_div_two (by linarith) (by linarith) (by linarith)).le
      · exact (tan_lt_tan_of_lt_of_lt_pi_div_two (by linarith) (by linarith) (by linarith)).le
    refine h1.trans ?_
    rw [sqrt_le_left (by norm_num)]; norm_num

end Rounded

/-- The computed motion of the default vehicle before the shield looks at it. -/
theorem Rounded.eulerA_close {A : Arith} (acc : Spec.Float32 A) {T : Acc} {cs : List Circle} {rs : List Rect} (hT : DefaultAcc T cs rs)
    {q : Q6} (hq : OnSite q.pose) (h5 : |q.v| ≤ 50) (h6 : |q.delta| ≤ 50) (a : U) :
    |(Rounded.eulerA A T q (Rounded.inputScalerA A T (clipU a)) T.dt).px - (q.px + 0.2 * (clip q.v (-3) 3 * cos q.th1))| ≤ 2e-4 ∧
    |(Rounded.eulerA A T q (Rounded.inputScalerA A T (clipU a)) T.dt).py - (q.py + 0.2 * (clip q.v (-3) 3 * sin q.th1))| ≤ 2e-4 ∧
    |(Rounded.eulerA A T q (Rounded.inputScalerA A T (clipU a)) T.dt).th1
      - (q.th1 + 0.2 * (clip q.v (-3) 3 / 3.23 * tan (clip q.delta (-(55 * π / 180)) (55 * π / 180))))| ≤ 2e-4 ∧
    |(Rounded.eulerA A T q (Rounded.inputScalerA A T (clipU a)) T.dt).th2 - (q.th2 + 0.2 * (clip q.v (-3) 3 / 2.9 * (sin (q.th1 - q.th2)
      - 1.15 / 3.23 * cos (q.th1 - q.th2) * tan (clip q.delta (-(55 * π / 180)) (55 * π / 180)))))| ≤ 2e-4 ∧
    |(Rounded.eulerA A T q (Rounded.inputScalerA A T (clipU a)) T.dt).v - (q.v + 0.2 * (2 * (clipU a).1))| ≤ 2e-5 ∧
    |(Rounded.eulerA A T q (Rounded.inputScalerA A T (clipU a)) T.dt).delta - (q.delta + 0.2 * (clipU a).2)| ≤ 2e-5 := by
  have hdt : T.dt = 0.2 := by rw [hT.params]; rfl
  have hv : T.vMax = 3 := by rw [hT.params]; rfl
  have hd : T.deltaMax = 55 * π / 180 := by rw [hT.params]; rfl
  have h1 : T.l1 = 3.23 := by rw [hT.params]; rfl
  have h2 : T.l2 = 2.9 := by rw [hT.params]; rfl
  have h3 : T.lh = 1.15 := by rw [hT.params]; rfl
  unfold Rounded.eulerA Rounded.inputScalerA
  simp only [hdt, hv, hd, h1, h2, h3, hT.aMax, hT.omegaMax]
  have c3 := Rounded.const32 (A := A) acc (a := 3) (by norm_num)
  have e := (Rounded.clip_sym (x := q.v) (a := A.const 3) (b := 3)).trans c3
  obtain ⟨s1, s2⟩ := Rounded.steer32 acc q.delta
  obtain ⟨k1, k2, k3, k4⟩ := Rounded.core32 acc hq.px hq.py hq.th1 hq.th2 (e.trans (by norm_num))
    (Rounded.clip_sym_le (x := q.v) (by norm_num : (0 : ℝ) ≤ 3)) s1 s2
  obtain ⟨b1, b2⟩ := Rounded.clipU_inBox a
  refine ⟨k1, k2, k3, k4, ?_, ?_⟩
  · have m := Rounded.mul32 acc (show |(clipU a).1 - (clipU a).1| ≤ 0 by simp) (Rounded.const32 acc (a := 2) (by norm_num)) b1
      (show |(2 : ℝ)| ≤ 2 by norm_num) (by norm_num) (by norm_num)
    have mb : |(clipU a).1 * 2| ≤ 2 := by rw [abs_mul, abs_of_pos (by norm_num : (0 : ℝ) < 2)]; linarith
    have := Rounded.mulAdd32 acc (Rounded.const32 acc (show |(0.2 : ℝ)| ≤ 5 by norm_num)) m (show |q.v - q.v| ≤ 0 by simp)
      (show |(0.2 : ℝ)| ≤ 0.2 by norm_num) mb h5 (by norm_num) (by norm_num) (by norm_num)
    rw [show q.v + 0.2 * (2 * (clipU a).1) = 0.2 * ((clipU a).1 * 2) + q.v by ring]
    exact this.trans (by norm_num)
  · have m := Rounded.mul32 acc (show |(clipU a).2 - (clipU a).2| ≤ 0 by simp) (Rounded.const32 acc (a := 1) (by norm_num)) b2
      (show |(1 : ℝ)| ≤ 1 by norm_num) (by norm_num) (by norm_num)
    rw [mul_one] at m
    have := Rounded.mulAdd32 acc (Rounded.const32 acc (show |(0.2 : ℝ)| ≤ 5 by norm_num)) m (show |q.delta - q.delta| ≤ 0 by simp)
      (show |(0.2 : ℝ)| ≤ 0.2 by norm_num) b2 h6 (by norm_num) (by norm_num) (by norm_num)
    rw [add_comm q.delta]
    exact this.trans (by norm_num)

/-- C85, motion: one step of the default vehicle that the shield lets pass ends within 0.2 mm and 0.2 mrad of the exact motion, with speed
and steering angle within 2e-5 of the exact ones. -/
theorem C85_motion {A : Arith} (acc : Spec.Float32 A) {T : Acc} {cs : List Circle} {rs : List Rect} (hT : DefaultAcc T cs rs)
    (h : T.Shielded) {q : Q6} (hq : OnSite q.pose) (h5 : |q.v| ≤ 50) (h6 : |q.delta| ≤ 50) (a : U)
    (ho : ¬ Rounded.OverridesA A T q a) :
    |(Rounded.stepA A T q false a).px - (q.px + 0.2 * (clip q.v (-3) 3 * cos q.th1))| ≤ 2e-4 ∧
    |(Rounded.stepA A T q false a).py - (q.py + 0.2 * (clip q.v (-3) 3 * sin q.th1))| ≤ 2e-4 ∧
    |(Rounded.stepA A T q false a).th1
      - (q.th1 + 0.2 * (clip q.v (-3) 3 / 3.23 * tan (clip q.delta (-(55 * π / 180)) (55 * π / 180))))| ≤ 2e-4 ∧
    |(Rounded.stepA A T q false a).th2 - (q.th2 + 0.2 * (clip q.v (-3) 3 / 2.9 * (sin (q.th1 - q.th2)
      - 1.15 / 3.23 * cos (q.th1 - q.th2) * tan (clip q.delta (-(55 * π / 180)) (55 * π / 180)))))| ≤ 2e-4 ∧
    |(Rounded.stepA A T q false a).v - (q.v + 0.2 * (2 * (clipU a).1))| ≤ 2e-5 ∧
    |(Rounded.stepA A T q false a).delta - (q.delta + 0.2 * (clipU a).2)| ≤ 2e-5 := by
  rw [Rounded.stepA_eq h, if_neg ho]
  exact Rounded.eulerA_close acc hT hq h5 h6 a

/-! ## Witnesses -/

theorem rnd_of_mul {e N : ℤ} {y : ℝ} (h : y = (2 : ℝ) ^ (e - 23) * N) (he : Int.log 2 |y| = e) : rnd y = y := by
  unfold rnd
  rw [he]
  have hp : (2 : ℝ) ^ (e - 23) ≠ 0 := by positivity
  rw [h, mul_div_cancel_left₀ _ hp, round_intCast]

theorem rnd_rnd (x : ℝ) : rnd (rnd x) = rnd x := by
  rcases eq_or_ne x 0 with rfl | hx
  · simp [rnd]
  set e := Int.log 2 |x| with he
  set N := round (x / (2 : ℝ) ^ (e - 23)) with hN
  have hy : rnd x = (2 : ℝ) ^ (e - 23) * N := rfl
  have hp : (0 : ℝ) < 2 ^ (e - 23) := by positivity
  have l1 : (2 : ℝ) ^ e ≤ |x| := by
    have := Int.zpow_log_le_self (R := ℝ) (b := 2) (by norm_num) (abs_pos.mpr hx)
    simpa using this
  have l2 : |x| < (2 : ℝ) ^ (e + 1) := by
    have := Int.lt_zpow_succ_log_self (R := ℝ) (b := 2) (by norm_num) |x|
    simpa using this
  have q23 : (2 : ℝ) ^ e = 2 ^ (e - 23) * 8388608 := by
    rw [zpow_sub₀ (by norm_num)]; norm_num
  have q24 : (2 : ℝ) ^ (e + 1) = 2 ^ (e - 23) * 16777216 := by
    rw [zpow_add_one₀ (by norm_num), q23]; ring
  have b : |x / (2 : ℝ) ^ (e - 23)| = |x| / 2 ^ (e - 23) := by rw [abs_div, abs_of_pos hp]
  have b1 : 8388608 ≤ |x / (2 : ℝ) ^ (e - 23)| := by rw [b, le_div_iff₀ hp]; linarith
  have b2 : |x / (2 : ℝ) ^ (e - 23)| < 16777216 := by rw [b, div_lt_iff₀ hp]; linarith
  have rr := abs_sub_round (x / (2 : ℝ) ^ (e - 23))
  rw [← hN] at rr
  have t1 := abs_sub_abs_le_abs_sub (x / (2 : ℝ) ^ (e - 23)) (N : ℝ)
  have t2 := abs_sub_abs_le_abs_sub (N : ℝ) (x / (2 : ℝ) ^ (e - 23))
  rw [abs_sub_comm] at t2
  have n1 : (8388608 : ℤ) ≤ |N| := by
    have : (8388607 : ℝ) < ((|N| : ℤ) : ℝ) := by push_cast; linarith
    have : (8388607 : ℤ) < |N| := by exact_mod_cast this
    omega
  have n2 : |N| ≤ (16777216 : ℤ) := by
    have : ((|N| : ℤ) : ℝ) < 16777217 := by push_cast; linarith
    have : |N| < (16777217 : ℤ) := by exact_mod_cast this
    omega
  have ay : |rnd x| = 2 ^ (e - 23) * ((|N| : ℤ) : ℝ) := by rw [hy, abs_mul, abs_of_pos hp]; push_cast; rfl
  rcases lt_or_eq_of_le n2 with h | h
  · refine rnd_of_mul hy ?_
    have c1 : (8388608 : ℝ) ≤ ((|N| : ℤ) : ℝ) := by exact_mod_cast n1
    have c2 : ((|N| : ℤ) : ℝ) < 16777216 := by exact_mod_cast h
    have m1 := mul_le_mul_of_nonneg_left c1 hp.le
    have m2 := mul_lt_mul_of_pos_left c2 hp
    have y0 : 0 < |rnd x| := by rw [ay]; linarith
    apply le_antisymm
    · rw [← Int.lt_add_one_iff, ← Int.lt_zpow_iff_log_lt (by norm_num) y0]
      push_cast
      rw [q24, ay]; exact m2
    · rw [← Int.zpow_le_iff_le_log (by norm_num) y0]
      push_cast
      rw [q23, ay]; exact m1
  · have hy2 : ∃ M : ℤ, rnd x = (2 : ℝ) ^ (e + 1 - 23) * M := by
      rcases abs_eq (by norm_num : (0 : ℤ) ≤ 16777216) |>.mp h with hM | hM
      · refine ⟨8388608, ?_⟩
        rw [hy, hM, show e + 1 - 23 = (e - 23) + 1 by ring, zpow_add_one₀ (by norm_num)]
        push_cast; ring
      · refine ⟨-8388608, ?_⟩
        rw [hy, hM, show e + 1 - 23 = (e - 23) + 1 by ring, zpow_add_one₀ (by norm_num)]
        push_cast; ring
    obtain ⟨M, hM⟩ := hy2
    refine rnd_of_mul hM ?_
    rw [ay, h]
    push_cast
    rw [← q24]
    have := Int.log_zpow (R := ℝ) (b := 2) (by norm_num) (e + 1)
    simpa using this

/-- The numbers with 24 significant bits. -/
def machine : Set ℝ := {x | rnd x = x}

theorem rnd_zero : rnd 0 = 0 := by simp [rnd]

/-- 24-bit rounding meets the assumptions of C85 on zero. -/
theorem single_zero : KeepsZero single machine where
  left a := by show rnd (0 * a) = 0; rw [zero_mul, rnd_zero]
  right a := by show rnd (a * 0) = 0; rw [mul_zero, rnd_zero]
  div a := by show rnd (0 / a) = 0; rw [zero_div, rnd_zero]
  result a b c := rnd_rnd _
  keep a c hc := by
    show rnd (rnd (a * 0) + c) = c
    rw [mul_zero, rnd_zero, zero_add]; exact hc

/-- C85 for the default vehicle in single precision: started on the site with both bodies 6 cm or more from the obstacles and the hitch
angle below the limit by a thousandth, every recorded state on the site has both bodies at most 2 mm inside a rectangle and at most
1 cm inside a disc (or swallowing the shrunk disc) and the hitch angle at most 1e-4 rad beyond the limit, unless the shield had to
intervene while the vehicle was moving. -/
theorem C85_run_default {A : Arith} {F : Set ℝ} (acc : Spec.Float32 A) (hF : KeepsZero A F) {T : Acc} {cs : List Circle}
    {rs : List Rect} (hT : DefaultAcc T cs rs) (h : T.Shielded) (hb : Blocks cs rs) (q : Q6) (hq : Stored F q) (hs : OnSite q.pose)
    (hm : Margin4 0.06 (Params.default cs rs) cs rs q.pose)
    (hh : ¬ Spec.exceedsModTurns ((Params.default cs rs).phiMax - 0.001) (q.th1 - q.th2)) (us : List U) :
    (∀ q' ∈ Rounded.states (fun q a => Rounded.stepA A T q false a) q us, OnSite q'.pose →
      GrazesBody 0.002 0.01 T.toParams (Spec.tractorBody T.toParams q'.px q'.py q'.th1) ∧
      GrazesBody 0.002 0.01 T.toParams (Spec.trailerBody T.toParams q'.pose) ∧
      ¬ Spec.exceedsModTurns (T.phiMax + 1e-4) (q'.th1 - q'.th2)) ∨
    ∃ pre a post, us = pre ++ a :: post ∧ Rounded.OverridesA A T (Rounded.lastA A T q pre) a ∧ (Rounded.lastA A T q pre).v ≠ 0 := by
  have ord : Ordinary 1 cs rs := by
    refine ⟨hb.circles, fun o ho => ?_⟩
    obtain ⟨h1, h2, h3, h4, h5, h6, h7⟩ := hb.rects o ho
    exact ⟨h1, h2, h3, by linarith, by linarith, by linarith, by linarith⟩
  have ok := default_roundOK (by norm_num) ord
  have wide : ∀ {z : Q4}, OnSite z → InField4 50 100 z := fun hz =>
    ⟨hz.px, hz.py, hz.th1.trans (by norm_num), hz.th2.trans (by norm_num)⟩
  have tol : hitchTol 6e-8 1e-30 100 ≤ 1e-4 := by unfold hitchTol; norm_num
  have mono : ∀ {a b x : ℝ}, a ≤ b → Spec.exceedsModTurns b x → Spec.exceedsModTurns a x :=
    fun hab hx k => lt_of_le_of_lt hab (hx k)
  have c3 := abs_le.mp (Rounded.const32 acc (a := 3) (by norm_num))
  have c2 := abs_le.mp (Rounded.const32 acc (a := 2) (by norm_num))
  rcases C85_run acc hF (hT.params ▸ ok) (by norm_num) (by norm_num) (by norm_num) (by norm_num) h
    (by rw [show T.vMax = 3 by rw [hT.params]; rfl]; linarith) (by rw [hT.aMax]; linarith) q hq
    (by rw [hT.params]; exact C76_silent_default acc hb (wide hs) hm)
    (by
      rw [hT.params]
      exact C76_hitch_silent acc (by norm_num) (by norm_num) (by norm_num) (by norm_num) (by linarith) (wide hs)
        (fun hx => hh (mono (by linarith) hx))) us with h' | h'
  · left
    intro q' hq' hs'
    obtain ⟨g1, g2, g3⟩ := h' q' hq' (wide hs')
    exact ⟨g1, g2, fun hx => g3 (mono (by linarith) hx)⟩
  · exact Or.inr h'

theorem wit_acc_default : DefaultAcc Wit.acc Wit.params.circles Wit.params.rects := ⟨rfl, rfl, rfl⟩

theorem wit_acc_shielded : Wit.acc.Shielded := ⟨rfl, rfl, rfl, rfl⟩

theorem zero_stored : Stored machine ⟨0, 0, 0, 0, 0, 0⟩ := ⟨rnd_zero, rnd_zero, rnd_zero, rnd_zero, rnd_zero, rnd_zero⟩

theorem wit_margin06 : Margin4 0.06 Wit.params Wit.params.circles Wit.params.rects ⟨0, 0, 0, 0⟩ := by
  have m := wit_margin (x := 0) (by norm_num)
  have mono : ∀ {b c : Set Pt}, KeepsAway 0.07 b c → KeepsAway 0.06 b c :=
    fun h a ha z hz => lt_trans (by norm_num) (h a ha z hz)
  exact ⟨fun c hc => ⟨mono (m.1 c hc).1, mono (m.1 c hc).2⟩, fun o ho => ⟨mono (m.2 o ho).1, mono (m.2 o ho).2⟩⟩

/-- The hypotheses of `C85_run_default` (and of `C85_run`) hold for 24-bit rounding and the default vehicle at the origin. -/
example (us : List U) : (∀ q' ∈ Rounded.states (fun q a => Rounded.stepA single Wit.acc q false a) ⟨0, 0, 0, 0, 0, 0⟩ us, OnSite q'.pose →
      GrazesBody 0.002 0.01 Wit.params (Spec.tractorBody Wit.params q'.px q'.py q'.th1) ∧
      GrazesBody 0.002 0.01 Wit.params (Spec.trailerBody Wit.params q'.pose) ∧
      ¬ Spec.exceedsModTurns (Wit.params.phiMax + 1e-4) (q'.th1 - q'.th2)) ∨
    ∃ pre a post, us = pre ++ a :: post ∧ Rounded.OverridesA single Wit.acc (Rounded.lastA single Wit.acc ⟨0, 0, 0, 0, 0, 0⟩ pre) a ∧
      (Rounded.lastA single Wit.acc ⟨0, 0, 0, 0, 0, 0⟩ pre).v ≠ 0 :=
  C85_run_default single_float32 single_zero wit_acc_default wit_acc_shielded wit_blocks _ zero_stored
    ⟨by simp [Q6.pose], by simp [Q6.pose], by simp [Q6.pose], by simp [Q6.pose]⟩ wit_margin06
    (wit_straight_hitch (by unfold Params.phiMax deg2rad; have := pi_gt_d2; linarith)) us

/-- `C85_motion` and `C85_checked`, first part: standing at the origin and turning the wheels, 24-bit rounding, the shield lets the motion
pass. -/
example : ¬ Rounded.OverridesA single Wit.acc ⟨0, 0, 0, 0, 0, 0⟩ (0, 1) := by
  have hk := single_zero
  have c : clipU ((0, 1) : U) = (0, 1) := by unfold clipU clip; norm_num
  have c3 := abs_le.mp (Rounded.const32 single_float32 (a := 3) (by norm_num))
  have e1 : clip 0 (-single.const Wit.acc.vMax) (single.const Wit.acc.vMax) = 0 :=
    Rounded.clip_zero' (by rw [show Wit.acc.vMax = 3 from rfl]; linarith)
  have e : (Rounded.eulerA single Wit.acc ⟨0, 0, 0, 0, 0, 0⟩ (Rounded.inputScalerA single Wit.acc (clipU (0, 1))) Wit.acc.dt).pose
      = ⟨0, 0, 0, 0⟩ ∧
      (Rounded.eulerA single Wit.acc ⟨0, 0, 0, 0, 0, 0⟩ (Rounded.inputScalerA single Wit.acc (clipU (0, 1))) Wit.acc.dt).v = 0 := by
    rw [c]
    unfold Rounded.eulerA Rounded.inputScalerA Q6.pose
    simp only [e1, hk.left, hk.div, hk.keep _ _ (show (0 : ℝ) ∈ machine from rnd_zero)]
    exact ⟨trivial, trivial⟩
  unfold Rounded.OverridesA Rounded.checkSafety
  have thr := abs_le.mp (single_float32.const Acc.vThr)
  have ev : Acc.vThr = 0.01 := rfl
  have t0 : |(0 : ℝ)| ≤ single.const Acc.vThr := by
    rw [ev] at thr ⊢
    rw [abs_of_pos (by norm_num : (0 : ℝ) < 0.01)] at thr
    rw [abs_zero]
    linarith [thr.1]
  rw [e.1, e.2, if_pos t0]
  simp only [decide_eq_true_eq, not_or]
  constructor
  · exact C76_silent_default single_float32 wit_blocks ⟨by norm_num, by norm_num, by norm_num, by norm_num⟩ wit_margin06
  · exact C76_hitch_silent (R := 50) single_float32 (by norm_num) (by norm_num) (by norm_num) (by norm_num)
      (by unfold hitchTol; norm_num) ⟨by norm_num, by norm_num, by norm_num, by norm_num⟩ (wit_straight_hitch (by
        unfold Params.phiMax deg2rad hitchTol
        have := pi_gt_d2
        norm_num at *
        linarith))

/-- `C85_brake`: a jackknifed vehicle at 1 m/s is overridden, in any single-precision arithmetic. -/
example {A : Arith} (acc : Spec.Float32 A) : |(Rounded.stepA A Wit.acc ⟨0, 0, 1, 0, 1, 0⟩ false (0, 0)).v - 0.6| ≤ 2e-5 := by
  have c : clipU ((0, 0) : U) = (0, 0) := by unfold clipU clip; norm_num
  obtain ⟨h1, h2, h3, h4, -, -⟩ := Rounded.eulerA_close acc wit_acc_default (q := ⟨0, 0, 1, 0, 1, 0⟩)
    ⟨by simp [Q6.pose], by simp [Q6.pose], by norm_num [Q6.pose], by simp [Q6.pose]⟩ (by norm_num) (by norm_num) (0, 0)
  have ho : Rounded.OverridesA A Wit.acc ⟨0, 0, 1, 0, 1, 0⟩ (0, 0) := by
    right
    apply (Rounded.safety_self Wit.acc _).2
    by_contra hn
    have cl : clip (1 : ℝ) (-3) 3 = 1 := by unfold clip; norm_num
    have cd : clip (0 : ℝ) (-(55 * π / 180)) (55 * π / 180) = 0 := Rounded.clip_zero' (by positivity)
    have s1 := sin_le_one (1 - 0)
    have s2 := (abs_le.mp (abs_sin_le_one (1 - 0))).1
    have c1 := abs_cos_le_one (0 : ℝ)
    simp only [cl, cd, tan_zero, mul_zero, add_zero, zero_add, sub_zero] at h1 h2 h3 h4 s1 s2
    generalize Rounded.eulerA A Wit.acc ⟨0, 0, 1, 0, 1, 0⟩ (Rounded.inputScalerA A Wit.acc (clipU (0, 0))) Wit.acc.dt = z at *
    obtain ⟨a1, a2⟩ := abs_le.mp h3
    obtain ⟨b1, b2⟩ := abs_le.mp h4
    have k1 : |0.2 * (1 * cos 1)| ≤ 1 := by
      rw [abs_mul, one_mul, abs_of_pos (by norm_num : (0 : ℝ) < 0.2)]; have := abs_cos_le_one 1; linarith
    have k2 : |0.2 * (1 * sin 1)| ≤ 1 := by
      rw [abs_mul, one_mul, abs_of_pos (by norm_num : (0 : ℝ) < 0.2)]; have := abs_sin_le_one 1; linarith
    refine C76_hitch (P := Wit.acc.toParams) (R := 50) acc (by norm_num) (by norm_num) (by norm_num) (by norm_num)
      ⟨(Rounded.abs_le_of_err h1 k1).trans (by norm_num), (Rounded.abs_le_of_err h2 k2).trans (by norm_num),
        abs_le.mpr ⟨?_, ?_⟩, abs_le.mpr ⟨?_, ?_⟩⟩ hn ?_
    · show _ ≤ z.th1; linarith
    · show z.th1 ≤ _; linarith
    · show _ ≤ z.th2; linarith
    · show z.th2 ≤ _; linarith
    · intro k
      show _ < |z.th1 - z.th2 + 2 * π * k|
      have p1 := pi_gt_d2
      have p2 := pi_lt_d2
      have ph : Wit.acc.toParams.phiMax = 40 * π / 180 := rfl
      have d1 : 0.9 ≤ z.th1 - z.th2 := by linarith
      have d2 : z.th1 - z.th2 ≤ 1.3 := by linarith
      rw [ph]
      unfold hitchTol
      norm_num
      rcases lt_trichotomy k 0 with hk | rfl | hk
      · have : (k : ℝ) ≤ -1 := by exact_mod_cast Int.le_sub_one_of_lt hk
        rw [lt_abs]; right; nlinarith
      · rw [lt_abs]; left; push_cast; linarith
      · have : (1 : ℝ) ≤ k := by exact_mod_cast hk
        rw [lt_abs]; left; nlinarith
  have := (C85_brake acc wit_acc_default wit_acc_shielded (0, 0) ho (by norm_num) (Or.inl (by norm_num))).1
  have e : Spec.brake 1 (2 * 0.2) = 0.6 := by
    unfold Spec.brake
    rw [if_pos (by norm_num)]
    norm_num
  rwa [e] at this

end Mbd
