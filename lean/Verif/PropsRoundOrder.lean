import Verif.PropsRoundPlan
import Verif.PropsPlan

/-!
# C78: order of the weights, exact arithmetic, noise levels under rounding
-/

namespace Spec

open Mbd

/-- Operations that respect the order, as correctly rounded operations do. -/
structure Monotone (A : PlanArith) : Prop where
  add : ∀ a b c, a ≤ b → A.add a c ≤ A.add b c
  sub : ∀ a b c, a ≤ b → A.sub a c ≤ A.sub b c
  div : ∀ a b c, a ≤ b → 0 < c → A.div a c ≤ A.div b c
  exp : ∀ a b, a ≤ b → A.exp a ≤ A.exp b

/-- Arithmetic without rounding. -/
noncomputable def exactArith : PlanArith where
  const := id
  add a b := a + b
  sub a b := a - b
  mul a b := a * b
  div a b := a / b
  mulAdd a b c := a * b + c
  sum2 a b c d := a * b + c * d
  mm a b c d := a * b + c * d
  rem a b := fmod a b
  sqrt := Real.sqrt
  sin := Real.sin
  cos := Real.cos
  tan := Real.tan
  exp := Real.exp
  sum := List.sum
  dot w y := (List.zipWith (· * ·) w y).sum
  cumprod := cumprodFrom 1

end Spec

namespace Mbd

open Real Classical _root_.Spec

/-- The simulator of an environment, as the planner uses it (mbd_planner.py:396-402, 411). -/
noncomputable def simOf {Q : Type} (E : PlanEnv Q) (cfg : Cfg) (s0 : St Q) : Sim where
  reward Y :=
    let r := rolloutUsWithTerminal E.step E.terminal E.terminalWeight s0 Y
    r.1 + E.steeringWeight * steeringReward E.deltaMax r.2.2
  xref Y := E.xrefLogpd cfg.motionPreference (rolloutUsWithTerminal E.step E.terminal E.terminalWeight s0 Y).2.1
  applied Y := (rolloutUsWithTerminal E.step E.terminal E.terminalWeight s0 Y).2.2

theorem mean_exact (l : List ℝ) : Rounded.mean exactArith l = mean l := rfl

theorem std_exact (l : List ℝ) : Rounded.std exactArith l = std l := by
  unfold Rounded.std std
  simp only [mean_exact, sq]; rfl

theorem guardedStd_exact (l : List ℝ) : Rounded.guardedStd exactArith l = guardedStd l := by
  unfold Rounded.guardedStd guardedStd
  simp only [std_exact]; rfl

theorem logWeights_exact (temp : ℝ) (d : Bool) (rx : ℝ) (rews xrefs : List ℝ) :
    Rounded.logWeights exactArith temp d rx rews xrefs = logWeights temp d rx rews xrefs := by
  unfold Rounded.logWeights logWeights Rounded.logpDemo logpDemo Rounded.logp0 logp0
  simp only [guardedStd_exact, mean_exact]; rfl

theorem zipWith_map_right_mul (w : List ℝ) (Ys : List (List U)) (g : List U → ℝ) :
    List.zipWith (· * ·) w (Ys.map g) = List.zipWith (fun a Y => a * g Y) w Ys := by
  rw [List.zipWith_map_right]

/-- C78: with exact arithmetic the model of this claim is the planner of the other claims: same noise levels, same
new plan in every step of the reverse process. -/
theorem C78_exact {Q : Type} (E : PlanEnv Q) (normal : Key → ℕ → ℕ → ℕ → ℕ → U) (cfg : Cfg) (s0 : St Q) (i : ℕ)
    (key : Key) (Y : List U) :
    Rounded.schedule exactArith (linspace cfg.beta0 cfg.betaT cfg.Ndiffuse) =
      mkSchedule cfg.beta0 cfg.betaT cfg.Ndiffuse ∧
    Rounded.reversePlan exactArith (mkSchedule cfg.beta0 cfg.betaT cfg.Ndiffuse) cfg (simOf E cfg s0) E.rewXref
        (normal (split key).2 cfg.Nsample cfg.Hsample) i Y =
      (reverseOnce E (mkSchedule cfg.beta0 cfg.betaT cfg.Ndiffuse) normal cfg s0 (i, key, Y)).1.2.2 := by
  refine ⟨rfl, ?_⟩
  have hs : ∀ (S : Schedule) (eps : ℕ → ℕ → U),
      Rounded.samplePlans exactArith cfg (clampGet S.sigmas i) (clampGet S.alphasBar (i - 1)) eps Y =
      samplePlans cfg (clampGet S.sigmas i / √(clampGet S.alphasBar (i - 1))) eps Y := by
    intro S eps
    unfold Rounded.samplePlans samplePlans
    simp only [exactArith, mul_div_assoc]
  unfold Rounded.reversePlan reverseOnce
  simp only [hs]
  generalize samplePlans cfg _ _ Y = Ys
  have hw : Rounded.batchWeights exactArith cfg (simOf E cfg s0) E.rewXref Ys = (evalBatch E cfg s0 Ys).weights := by
    unfold Rounded.batchWeights evalBatch
    simp only [logWeights_exact, simOf, List.map_map]
    have e1 : List.map (fun Y => (rolloutUsWithTerminal E.step E.terminal E.terminalWeight s0 Y).1 +
        E.steeringWeight * steeringReward E.deltaMax
          (rolloutUsWithTerminal E.step E.terminal E.terminalWeight s0 Y).2.2) Ys =
        List.zipWith (fun r Y => r + E.steeringWeight * steeringReward E.deltaMax Y)
          (List.map ((fun r => r.1) ∘ rolloutUsWithTerminal E.step E.terminal E.terminalWeight s0) Ys)
          (List.map ((fun r => r.2.2) ∘ rolloutUsWithTerminal E.step E.terminal E.terminalWeight s0) Ys) := by
      rw [List.zipWith_map, List.zipWith_self]; rfl
    rw [e1]; rfl
  have hp : ∀ (w : List ℝ) (Zs : List (List U)), Rounded.weightedPlan exactArith cfg.Hsample w Zs =
      weightedPlan cfg.Hsample w Zs := by
    intro w Zs
    unfold Rounded.weightedPlan weightedPlan
    simp only [exactArith, zipWith_map_right_mul]
  rw [hw, hp]
  have he : (evalBatch E cfg s0 Ys).ybar =
      weightedPlan cfg.Hsample (evalBatch E cfg s0 Ys).weights (Ys.map (simOf E cfg s0).applied) := by
    simp only [evalBatch, simOf, List.map_map]; rfl
  rw [← he]
  rfl

/-! ## Order -/

variable {A : PlanArith} {N : ℕ} {u s m p η : ℝ}

theorem logp0_mono (mono : Monotone A) {temp : ℝ} (ht : 0 < A.const temp) {rews : List ℝ}
    (hg : 0 < Rounded.guardedStd A rews) {i j : ℕ} (hi : i < rews.length) (hj : j < rews.length)
    (h : rews.getD i 0 ≤ rews.getD j 0) :
    (Rounded.logp0 A temp rews).getD i 0 ≤ (Rounded.logp0 A temp rews).getD j 0 := by
  unfold Rounded.logp0
  rw [List.getD_eq_getElem _ _ (by simpa using hi), List.getD_eq_getElem _ _ (by simpa using hj), List.getElem_map,
    List.getElem_map]
  rw [List.getD_eq_getElem _ _ hi, List.getD_eq_getElem _ _ hj] at h
  exact mono.div _ _ _ (mono.div _ _ _ (mono.sub _ _ _ h) hg) ht

theorem logpDemo_mono (mono : Monotone A) {temp rx : ℝ} (ht : 0 < A.const temp) {rews xs : List ℝ}
    (hg : 0 < Rounded.guardedStd A rews) {i j : ℕ} (hi : i < xs.length) (hj : j < xs.length)
    (h : xs.getD i 0 ≤ xs.getD j 0) :
    (Rounded.logpDemo A temp rx rews xs).getD i 0 ≤ (Rounded.logpDemo A temp rx rews xs).getD j 0 := by
  unfold Rounded.logpDemo
  rw [List.getD_eq_getElem _ _ (by simpa using hi), List.getD_eq_getElem _ _ (by simpa using hj), List.getElem_map,
    List.getElem_map]
  rw [List.getD_eq_getElem _ _ hi, List.getD_eq_getElem _ _ hj] at h
  exact mono.div _ _ _ (mono.div _ _ _ (mono.sub _ _ _ (mono.add _ _ _ (mono.sub _ _ _ h))) hg) ht

theorem logWeights_mono (mono : Monotone A) {temp rx : ℝ} (ht : 0 < A.const temp) {d : Bool} {rews xs : List ℝ}
    (hg : 0 < Rounded.guardedStd A rews) (hl : rews.length = xs.length) {i j : ℕ} (hi : i < rews.length)
    (hj : j < rews.length) (h : rews.getD i 0 ≤ rews.getD j 0) (hx : d = true → xs.getD i 0 ≤ xs.getD j 0) :
    (Rounded.logWeights A temp d rx rews xs).getD i 0 ≤ (Rounded.logWeights A temp d rx rews xs).getD j 0 := by
  have h1 := logp0_mono mono ht hg hi hj h
  cases d with
  | false => simpa [Rounded.logWeights] using h1
  | true =>
    have h2 := logpDemo_mono (rx := rx) mono ht hg (hl ▸ hi) (hl ▸ hj) (hx rfl)
    have li : i < (Rounded.logpDemo A temp rx rews xs).length := by simpa [Rounded.logpDemo] using hl ▸ hi
    have lj : j < (Rounded.logpDemo A temp rx rews xs).length := by simpa [Rounded.logpDemo] using hl ▸ hj
    have ki : i < (Rounded.logp0 A temp rews).length := by simpa [Rounded.logp0] using hi
    have kj : j < (Rounded.logp0 A temp rews).length := by simpa [Rounded.logp0] using hj
    unfold Rounded.logWeights
    rw [if_pos rfl]
    rw [List.getD_eq_getElem _ _ li, List.getD_eq_getElem _ _ lj] at h2
    rw [List.getD_eq_getElem _ _ ki, List.getD_eq_getElem _ _ kj] at h1
    rw [List.getD_eq_getElem _ _ (by rw [List.length_zipWith]; exact lt_min li ki),
      List.getD_eq_getElem _ _ (by rw [List.length_zipWith]; exact lt_min lj kj), List.getElem_zipWith,
      List.getElem_zipWith]
    split_ifs <;> linarith

/-- C78: if the operations respect the order, as correctly rounded ones do, then so do the computed weights: a
sample that is at least as good (in reward and, with a demonstration, in its score against it) never gets a
smaller weight. -/
theorem C78_order (acc : PlanAccurate A N u s m p η) (f : PlanFine N u s m p η) (mono : Monotone A)
    (hη : η ≤ 1e-5) (cfg : Cfg) (ht : 2 * η < cfg.temp) (sim : Sim) (rewXref : ℝ) {Ys : List (List U)}
    (hN : Ys.length ≤ N) {i j : ℕ} (hi : i < Ys.length) (hj : j < Ys.length)
    (hrew : sim.reward (Ys.getD i []) ≤ sim.reward (Ys.getD j []))
    (hdemo : cfg.enableDemo = true → sim.xref (Ys.getD i []) ≤ sim.xref (Ys.getD j [])) :
    (Rounded.batchWeights A cfg sim rewXref Ys).getD i 0 ≤ (Rounded.batchWeights A cfg sim rewXref Ys).getD j 0 := by
  have hne : Ys ≠ [] := by rintro rfl; simp at hi
  have hlen : (Rounded.logWeights A cfg.temp cfg.enableDemo rewXref (Ys.map sim.reward) (Ys.map sim.xref)).length =
      Ys.length := by rw [Rounded.logWeights_length _ _ _ _ _ (by simp)]; simp
  have hl : Rounded.logWeights A cfg.temp cfg.enableDemo rewXref (Ys.map sim.reward) (Ys.map sim.xref) ≠ [] := by
    intro h; rw [h] at hlen; exact hne (List.length_eq_zero_iff.mp hlen.symm)
  have hd := C78_divisors acc f hη (Ys.map sim.reward) _ hl (by omega)
  have hct : 0 < A.const cfg.temp := by
    have h1 := (abs_le.mp (acc.const cfg.temp)).1
    have t0 : 0 < cfg.temp := by linarith [f.e0]
    rw [abs_of_pos t0] at h1
    have := mul_le_mul_of_nonneg_right f.u1 t0.le
    linarith
  have hlog := logWeights_mono (rx := rewXref) (d := cfg.enableDemo) (rews := Ys.map sim.reward) (xs := Ys.map sim.xref)
    (i := i) (j := j) mono hct (by linarith [hd.2]) (by simp) (by simpa using hi) (by simpa using hj)
    (by
      rw [List.getD_eq_getElem _ _ (by simpa using hi), List.getD_eq_getElem _ _ (by simpa using hj),
        List.getElem_map, List.getElem_map]
      rwa [List.getD_eq_getElem _ _ hi, List.getD_eq_getElem _ _ hj] at hrew)
    (by
      intro hh
      have := hdemo hh
      rw [List.getD_eq_getElem _ _ (by simpa using hi), List.getD_eq_getElem _ _ (by simpa using hj),
        List.getElem_map, List.getElem_map]
      rwa [List.getD_eq_getElem _ _ hi, List.getD_eq_getElem _ _ hj] at this)
  unfold Rounded.batchWeights
  generalize Rounded.logWeights A cfg.temp cfg.enableDemo rewXref (Ys.map sim.reward) (Ys.map sim.xref) = l at *
  have hi' : i < l.length := by omega
  have hj' : j < l.length := by omega
  rw [List.getD_eq_getElem _ _ hi', List.getD_eq_getElem _ _ hj'] at hlog
  unfold Rounded.softmax
  rw [List.getD_eq_getElem _ _ (by simpa [Rounded.softmaxExps] using hi'),
    List.getD_eq_getElem _ _ (by simpa [Rounded.softmaxExps] using hj'), List.getElem_map, List.getElem_map]
  refine mono.div _ _ _ ?_ (by linarith [hd.1])
  simp only [Rounded.softmaxExps, List.getElem_map]
  exact mono.exp _ _ (mono.sub _ _ _ hlog)

/-! ## Noise levels -/

theorem prod_bounds {lo hi : ℝ} (h0 : 0 ≤ lo) (h1 : hi ≤ 1) : ∀ l : List ℝ, (∀ a ∈ l, lo ≤ a ∧ a ≤ hi) →
    lo ^ l.length ≤ l.prod ∧ 0 ≤ l.prod ∧ l.prod ≤ 1 ∧ (l ≠ [] → l.prod ≤ hi)
  | [], _ => by simp
  | a :: l, h => by
    obtain ⟨i1, i2, i3, -⟩ := prod_bounds h0 h1 l fun x hx => h x (List.mem_cons_of_mem _ hx)
    obtain ⟨a1, a2⟩ := h a List.mem_cons_self
    have a0 : 0 ≤ a := h0.trans a1
    have b : a * l.prod ≤ a := mul_le_of_le_one_right a0 i3
    rw [List.prod_cons, List.length_cons, pow_succ']
    exact ⟨mul_le_mul a1 i1 (pow_nonneg h0 _) a0, mul_nonneg a0 i2, by linarith, fun _ => by linarith⟩

/-- C78: the noise levels computed from `betas` in `[b, B]` are usable: enough that `b` exceeds the rounding
errors and that `(1 - B - u - η) ^ n` is at least `4 c²`. -/
theorem C78_levels (acc : PlanAccurate A N u s m p η) (f : PlanFine N u s m p η) (betas : List ℝ) {b B c : ℝ}
    (c0 : 0 < c) (hη : η ≤ u * c ^ 2) (hb : ∀ x ∈ betas, b ≤ x ∧ x ≤ B) (hB : B ≤ 1 - u - η)
    (hlow : u + p + 5 * η < b) (hhigh : 4 * c ^ 2 ≤ (1 - B - u - η) ^ betas.length) (hne : betas ≠ []) :
    LevelsOK (Rounded.schedule A betas) betas.length η c := by
  obtain ⟨u0, s0, m0, p0, e0, u1, s1, m1, p1, e1⟩ := f
  have cc : 0 < c ^ 2 := by positivity
  have hal : ∀ a ∈ betas.map (fun x => A.sub 1 x), 1 - B - u - η ≤ a ∧ a ≤ 1 - b + u + η := by
    intro a ha
    obtain ⟨x, hx, rfl⟩ := List.mem_map.mp ha
    obtain ⟨x1, x2⟩ := hb x hx
    have h1 := abs_le.mp (acc.sub 1 x)
    have hx1 : 0 ≤ 1 - x := by linarith
    rw [abs_of_nonneg hx1] at h1
    have h2 : u * (1 - x) ≤ u * 1 := mul_le_mul_of_nonneg_left (by linarith) u0
    constructor <;> linarith [h1.1, h1.2]
  have l0 : 0 ≤ 1 - B - u - η := by linarith
  have l1 : 1 - B - u - η ≤ 1 := by
    obtain ⟨x, hx⟩ := List.exists_mem_of_ne_nil betas hne
    have := hb x hx
    linarith
  have hh : 1 - b + u + η ≤ 1 := by linarith
  have hn : 1 ≤ betas.length := List.length_pos_iff.mpr hne
  refine ⟨by simp [Rounded.schedule], by simp [Rounded.schedule, acc.cumprodLen], ?_, ?_⟩
  · intro a ha
    obtain ⟨h1, h2⟩ := hal a ha
    have h3 : (1 - B - u - η) ^ betas.length ≤ (1 - B - u - η) ^ 1 := pow_le_pow_of_le_one l0 l1 hn
    rw [pow_one] at h3
    exact ⟨by linarith, by linarith⟩
  · intro ab hab
    have hab' : ab ∈ A.cumprod (betas.map fun x => A.sub 1 x) := hab
    obtain ⟨k, hk, rfl⟩ := List.mem_iff_getElem.mp hab'
    have hk2 : k < (betas.map fun x => A.sub 1 x).length := by rw [← acc.cumprodLen]; exact hk
    have h1 := acc.cumprod _ k hk2
    rw [List.getD_eq_getElem _ _ hk] at h1
    generalize (A.cumprod (betas.map fun x => A.sub 1 x))[k] = ab at *
    obtain ⟨q1, q2, q3, q4⟩ := prod_bounds l0 hh ((betas.map fun x => A.sub 1 x).take (k + 1))
      fun a ha => hal a (List.mem_of_mem_take ha)
    have hlen : ((betas.map fun x => A.sub 1 x).take (k + 1)).length = k + 1 := by
      rw [List.length_take]; simp at hk2 ⊢; omega
    have q5 := q4 (by intro h; rw [h] at hlen; simp at hlen)
    rw [hlen] at q1
    have q6 : (1 - B - u - η) ^ betas.length ≤ (1 - B - u - η) ^ (k + 1) :=
      pow_le_pow_of_le_one l0 l1 (by simpa using hk2)
    generalize ((betas.map fun x => A.sub 1 x).take (k + 1)).prod = P at *
    rw [abs_of_nonneg q2] at h1
    have h2 := abs_le.mp h1
    have h3 := mul_le_mul_of_nonneg_right p1 q2
    have h4 := mul_le_mul_of_nonneg_left q3 p0
    have h5 := mul_le_mul_of_nonneg_right u1 cc.le
    exact ⟨by linarith [h2.1], by linarith [h2.2]⟩

/-! ## Default configuration -/

/-- C78: default number of samples and noise levels (20000 samples, 100 levels from 1e-5 to 1e-2), single
precision with a contraction in TF32: the weights sum to 1 up to 0.00025, and every plan of the reverse process
stays within 1.0016. -/
theorem C78_default (acc : PlanAccurate A 20000 1.2e-7 1e-4 1.1e-3 9e-6 1e-12) (cfg : Cfg)
    (hn : 0 < cfg.Nsample) (hN : cfg.Nsample ≤ 20000) (hd : cfg.Ndiffuse = 100) (sim : Sim)
    (hsim : ∀ Y, PlanIn 1 Y → PlanIn 1 (sim.applied Y)) (rewXref : ℝ) (betas : List ℝ) (hlen : betas.length = 100)
    (hb : ∀ x ∈ betas, 9.9e-6 ≤ x ∧ x ≤ 0.0101) (eps : ℕ → ℕ → ℕ → U) :
    (∀ Ys : List (List U), Ys ≠ [] → Ys.length ≤ 20000 →
      |(Rounded.batchWeights A cfg sim rewXref Ys).sum - 1| ≤ 0.00025) ∧
    (Rounded.plans A betas cfg sim rewXref eps).length = 99 ∧
    ∀ Y ∈ Rounded.plans A betas cfg sim rewXref eps, Y.length = cfg.Hsample ∧ PlanIn 1.0016 Y := by
  have f : PlanFine 20000 1.2e-7 1e-4 1.1e-3 9e-6 1e-12 := by
    constructor <;> norm_num
  have ok := C78_levels acc f betas (c := 0.3) (b := 9.9e-6) (B := 0.0101) (by norm_num) (by norm_num) hb (by norm_num)
    (by norm_num) (by rw [hlen]; norm_num) (by intro h; rw [h] at hlen; simp at hlen)
  rw [hlen, ← hd] at ok
  constructor
  · intro Ys hne hY
    refine (C78_weights acc f cfg sim rewXref hne hY).2.2.trans ?_
    unfold weightTol; norm_num
  · obtain ⟨h1, h2⟩ := C78_plans acc f cfg sim rewXref betas (by norm_num) (by norm_num) (by norm_num) ok hn hN hsim eps
    rw [hd] at h1
    refine ⟨h1, fun Y hY => ⟨(h2 Y hY).1, fun a ha => ?_⟩⟩
    have ht : 1 + planTol 20000 1.2e-7 1e-4 1.1e-3 9e-6 1e-12 ≤ 1.0016 := by
      unfold planTol stepTol weightTol; norm_num
    exact ⟨((h2 Y hY).2 a ha).1.trans ht, ((h2 Y hY).2 a ha).2.trans ht⟩

/-! ## Examples -/

theorem cumprodFrom_take (l : List ℝ) : ∀ (c : ℝ) (k : ℕ), k < l.length →
    (cumprodFrom c l).getD k 0 = c * (l.take (k + 1)).prod := by
  induction l with
  | nil => intro c k h; simp at h
  | cons a l ih =>
    intro c k h
    cases k with
    | zero => simp [cumprodFrom]
    | succ k =>
      have := ih (c * a) k (by simpa using h)
      rw [cumprodFrom, List.getD_cons_succ, this, List.take_succ_cons, List.prod_cons]
      ring

/-- An arithmetic that is always off: every result is too large by a factor `1 + 1e-7`. -/
noncomputable def biased : PlanArith :=
  { exactArith with
    const := fun a => a * (1 + 1e-7)
    add := fun a b => (a + b) * (1 + 1e-7)
    sub := fun a b => (a - b) * (1 + 1e-7)
    mul := fun a b => a * b * (1 + 1e-7)
    div := fun a b => a / b * (1 + 1e-7)
    sqrt := fun a => √a * (1 + 1e-7)
    exp := fun a => exp a * (1 + 1e-7)
    sum := fun l => l.sum * (1 + 1e-7)
    dot := fun w y => (List.zipWith (· * ·) w y).sum * (1 + 1e-7) }

theorem biased_acc (N : ℕ) {u s m p η : ℝ} (hu : 1e-7 ≤ u) (hs : 1e-7 ≤ s) (hm : 1e-7 ≤ m) (hp : 0 ≤ p) (hη : 0 ≤ η) :
    PlanAccurate biased N u s m p η := by
  have one : ∀ x : ℝ, |x * (1 + 1e-7) - x| ≤ 1e-7 * |x| := by
    intro x
    have : x * (1 + 1e-7) - x = 1e-7 * x := by ring
    rw [this, abs_mul, abs_of_pos (by norm_num : (0:ℝ) < 1e-7)]
  have two : ∀ x : ℝ, |x * (1 + 1e-7) - x| ≤ u * |x| + η := fun x => by
    linarith [one x, mul_le_mul_of_nonneg_right hu (abs_nonneg x)]
  refine ⟨fun a => two a, fun a b => two _, fun a b => two _, fun a b => two _, fun a b _ => two _, ?_, ?_, ?_, ?_, ?_,
    ?_, ?_, ?_⟩
  · intro a b ha hb
    exact mul_nonneg (div_nonneg ha hb.le) (by norm_num)
  · intro a _
    have := two √a
    rw [abs_of_nonneg (sqrt_nonneg a)] at this
    exact this
  · intro x _
    have := two (Real.exp x)
    rw [abs_of_pos (exp_pos x)] at this
    exact this
  · intro x
    exact mul_nonneg (exp_pos x).le (by norm_num)
  · intro l _
    have h1 := one l.sum
    have h2 : |l.sum| ≤ (l.map abs).sum := by
      induction l with
      | nil => simp
      | cons a l ih =>
        rename_i hl
        simp only [List.sum_cons, List.map_cons]
        exact (abs_add_le _ _).trans (by linarith [ih (by simp at hl; omega) (one _)])
    have h3 : (0:ℝ) ≤ (l.map abs).sum := (abs_nonneg _).trans h2
    have h4 := mul_le_mul_of_nonneg_right hs h3
    change |l.sum * (1 + 1e-7) - l.sum| ≤ _
    linarith
  · intro w y _
    have h1 := one (List.zipWith (· * ·) w y).sum
    have h2 := Rounded.zip_sum_abs_le w y
    have h3 : (0:ℝ) ≤ (List.zipWith (fun a b => |a * b|) w y).sum := (abs_nonneg _).trans h2
    have h4 := mul_le_mul_of_nonneg_right hm h3
    change |(List.zipWith (· * ·) w y).sum * (1 + 1e-7) - (List.zipWith (· * ·) w y).sum| ≤ _
    linarith
  · intro l; exact cumprodFrom_length l 1
  · intro l k hk
    have : (biased.cumprod l).getD k 0 = (l.take (k + 1)).prod := by
      change (cumprodFrom 1 l).getD k 0 = _
      rw [cumprodFrom_take l 1 k hk, one_mul]
    rw [this, sub_self, abs_zero]
    positivity

theorem biased_accurate (N : ℕ) : PlanAccurate biased N 1.2e-7 1e-4 1.1e-3 9e-6 1e-12 :=
  biased_acc N (by norm_num) (by norm_num) (by norm_num) (by norm_num) (by norm_num)

theorem biased_mono : Monotone biased := by
  have hp : (0:ℝ) ≤ 1 + 1e-7 := by norm_num
  refine ⟨fun a b c h => ?_, fun a b c h => ?_, fun a b c h hc => ?_, fun a b h => ?_⟩
  · exact mul_le_mul_of_nonneg_right (by linarith) hp
  · exact mul_le_mul_of_nonneg_right (by linarith) hp
  · exact mul_le_mul_of_nonneg_right (div_le_div_of_nonneg_right h hc.le) hp
  · exact mul_le_mul_of_nonneg_right (exp_le_exp.mpr h) hp

/-- The tractor-trailer applies actions in `[-1, 1]²`. -/
theorem simOf_tt2d_in (T : TT2d) (ext : Ext Q4) (xref : List (Q4 × Bool)) (hp : T.enableProjection = false)
    (cfg : Cfg) (s0 : St Q4) (Y : List U) : PlanIn 1 ((simOf (T.planEnv ext xref) cfg s0).applied Y) := by
  have hr := tt2d_records T ext hp
  intro a ha
  have : InRange (-1) 1 a := by
    have := scan_applied_mem (step := (T.planEnv ext xref).step) (fun _ => True) (fun _ _ _ => trivial) (fun _ => True)
      (InRange (-1) 1) (fun s u _ _ => hr.inRange s u trivial)
    simp only [simOf, rolloutUsWithTerminal] at ha
    exact this _ _ trivial (fun _ _ => trivial) a ha
  obtain ⟨a1, a2, a3, a4⟩ := this
  exact ⟨abs_le.mpr ⟨a1, a2⟩, abs_le.mpr ⟨a3, a4⟩⟩

/-- The default planner of the example tractor-trailer, with the biased arithmetic. -/
example (ext : Ext Q4) (xref : List (Q4 × Bool)) (s0 : St Q4) (eps : ℕ → ℕ → ℕ → U) :=
  C78_default (biased_accurate 20000) defaultCfg (by norm_num [defaultCfg]) (by norm_num [defaultCfg]) rfl
    (simOf (Wit.tt.planEnv ext xref) defaultCfg s0)
    (fun Y _ => simOf_tt2d_in Wit.tt ext xref rfl defaultCfg s0 Y) 0
    (linspace 1e-5 1e-2 100) (by simp [linspace])
    (by
      intro x hx
      obtain ⟨k, hk, rfl⟩ := List.mem_map.mp hx
      have hk1 : (k:ℝ) ≤ 99 := by exact_mod_cast Nat.le_of_lt_succ (by simpa using hk)
      have hk0 : (0:ℝ) ≤ k := Nat.cast_nonneg k
      norm_num
      constructor <;> linarith) eps

/-- Order of the weights: three plans, the second one best. -/
example (cfg : Cfg) (ht : cfg.temp = 0.01) (hdm : cfg.enableDemo = false) :=
  C78_order (i := 0) (j := 1) (Ys := [[(0, 0)], [(1, 0)], [(-1, 0)]]) (biased_accurate 20000)
    (by constructor <;> norm_num) biased_mono (by norm_num) cfg (by rw [ht]; norm_num)
    ⟨fun Y => (Y.getD 0 (0, 0)).1, fun _ => 0, id⟩ 0 (by simp) (by simp) (by simp) (by simp)
    (by simp [hdm])

/-- The noise levels of the default configuration, with the biased arithmetic. -/
theorem biased_levels : LevelsOK (Rounded.schedule biased (linspace 1e-5 1e-2 100)) 100 1e-12 0.3 := by
  have := C78_levels (biased_accurate 20000) (by constructor <;> norm_num) (linspace 1e-5 1e-2 100) (c := 0.3)
    (b := 9.9e-6) (B := 0.0101) (by norm_num) (by norm_num) (by
      intro x hx
      obtain ⟨k, hk, rfl⟩ := List.mem_map.mp hx
      have hk1 : (k:ℝ) ≤ 99 := by exact_mod_cast Nat.le_of_lt_succ (by simpa using hk)
      have hk0 : (0:ℝ) ≤ k := Nat.cast_nonneg k
      norm_num
      constructor <;> linarith) (by norm_num) (by norm_num) (by simp [linspace]; norm_num) (by simp [linspace])
  simpa [linspace] using this

/-- One step of the default planner of the example tractor-trailer, from the zero plan. -/
example (ext : Ext Q4) (xref : List (Q4 × Bool)) (s0 : St Q4) (eps : ℕ → ℕ → U) :=
  C78_step (biased_accurate 20000) (by constructor <;> norm_num) defaultCfg
    (simOf (Wit.tt.planEnv ext xref) defaultCfg s0) 0 _ (c := 0.3) (by norm_num) (by norm_num) (by norm_num)
    biased_levels (by norm_num [defaultCfg]) (by norm_num [defaultCfg])
    (fun Y _ => simOf_tt2d_in Wit.tt ext xref rfl defaultCfg s0 Y) eps (i := 99) (Y := zeroPlan defaultCfg)
    (by norm_num) (by norm_num [defaultCfg]) (by simp [zeroPlan])
    (fun a ha => by rw [List.eq_of_mem_replicate ha]; norm_num)

/-- Forward-only planning in a simulator that applies the actions as they are. -/
example (eps : ℕ → ℕ → ℕ → U) :=
  (C78_direction (biased_accurate 20000) (by constructor <;> norm_num) { defaultCfg with motionPreference := 2 }
    ⟨fun Y => (Y.map Prod.fst).sum, fun _ => 0, id⟩ 0 _ (c := 0.3) (by norm_num) (by norm_num) (by norm_num)
    biased_levels (by norm_num [defaultCfg]) (by norm_num [defaultCfg]) (fun _ h => h) eps).1 rfl (fun _ h => h)

/-- Two equal rewards: the guard replaces the spread, nothing divides by zero. -/
example := C78_divisors (biased_accurate 20000) (by constructor <;> norm_num) (by norm_num) [5, 5] [0, -1] (by simp)
  (by simp)

end Mbd
