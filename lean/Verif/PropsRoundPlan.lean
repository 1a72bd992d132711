import Verif.RoundWeights

/-!
# C78: the planner's weights and plans under rounding errors
-/

namespace Spec

open Mbd

/-- The computed noise levels: every `α` and `ᾱ` between `c²` and 1, and `ᾱ` below 1 by more than underflow. -/
structure LevelsOK (S : Schedule) (n : ℕ) (η c : ℝ) : Prop where
  lenA : S.alphas.length = n
  lenB : S.alphasBar.length = n
  alpha : ∀ a ∈ S.alphas, c ^ 2 ≤ a ∧ a ≤ 1
  bar : ∀ ab ∈ S.alphasBar, c ^ 2 ≤ ab ∧ ab + 2 * η < 1

/-- Every action of a plan lies in `[-r, r]²`. -/
def PlanIn (r : ℝ) (Y : List U) : Prop := ∀ a ∈ Y, |a.1| ≤ r ∧ |a.2| ≤ r

/-- How far a component of the new plan may be from the weighted mean of the applied actions. -/
noncomputable def stepTol (u m p η : ℝ) : ℝ := 1.1 * m + η + 4 * (50 * u + 3 * p)

/-- How far the plan may leave `[-1, 1]`. -/
noncomputable def planTol (N : ℕ) (u s m p η : ℝ) : ℝ := weightTol N u s η + stepTol u m p η

/-- Weighted mean of the actions `f` of several plans. -/
noncomputable def weightedMean (w y : List ℝ) : ℝ := (List.zipWith (· * ·) w y).sum

end Spec

namespace Mbd

open Real Classical _root_.Spec

namespace Rounded

variable {A : PlanArith} {N : ℕ} {u s m p η : ℝ}

theorem logWeights_length (temp : ℝ) (d : Bool) (rx : ℝ) (rews xrefs : List ℝ) (h : rews.length = xrefs.length) :
    (logWeights A temp d rx rews xrefs).length = rews.length := by
  cases d <;> simp [logWeights, logp0, logpDemo, h]

theorem clampGet_mem {l : List ℝ} {i : ℕ} (h : i < l.length) : clampGet l i ∈ l := by
  have h1 : min i (l.length - 1) < l.length := by omega
  rw [clampGet, List.getD_eq_getElem _ _ h1]
  exact List.getElem_mem h1

theorem clampGet_getD {l : List ℝ} {i : ℕ} (h : i < l.length) : clampGet l i = l.getD i 0 := by
  rw [clampGet, min_eq_left (by omega)]

/-- One component of the rescaling. -/
theorem rescale_err (acc : PlanAccurate A N u s m p η) (f : PlanFine N u s m p η) {ab a abp y yb c Y κ : ℝ}
    (c0 : 0 < c) (c1 : c ≤ 1) (hη : η ≤ u * c ^ 2) (hab : c ^ 2 ≤ ab) (hab1 : ab + 2 * η < 1) (ha : c ^ 2 ≤ a)
    (ha1 : a ≤ 1) (hp : c ^ 2 ≤ abp) (hp1 : abp ≤ 1) (hk : |a * abp - ab| ≤ κ * ab) (hκ : κ ≤ 1 / 40)
    (hY : |y| + |yb| + 1 ≤ Y) : |rescale A ab a abp y yb - yb| ≤ (46 * u + 1.2 * κ) * Y := by
  have u0 := f.u0
  have u1 := f.u1
  have e0 := f.e0
  have cc : 0 < c ^ 2 := by positivity
  have hcc : c ^ 2 ≤ c := by
    have := mul_le_mul_of_nonneg_left c1 c0.le
    rw [mul_one] at this
    rw [sq]; exact this
  have hηc : η ≤ u * c := hη.trans (mul_le_mul_of_nonneg_left hcc u0)
  have sb : c ≤ √ab := Real.le_sqrt_of_sq_le hab
  have sA : c ≤ √a := Real.le_sqrt_of_sq_le ha
  have sP : c ≤ √abp := Real.le_sqrt_of_sq_le hp
  have eb := sqrt_err acc (cc.le.trans hab) hηc u0 sb
  have ea := sqrt_err acc (cc.le.trans ha) hηc u0 sA
  have ep := sqrt_err acc (cc.le.trans hp) hηc u0 sP
  have la : √a ≤ 1 := Real.sqrt_le_one.mpr ha1
  have lp : √abp ≤ 1 := Real.sqrt_le_one.mpr hp1
  have g1 := abs_le.mp (acc.sub 1 ab)
  rw [abs_of_pos (by linarith : 0 < 1 - ab)] at g1
  have hg : 0 < A.sub 1 ab := by
    have := mul_le_mul_of_nonneg_right u1 (by linarith : 0 ≤ 1 - ab)
    linarith [g1.1]
  have hg2 : A.sub 1 ab ≤ 2 := by
    have := mul_le_mul_of_nonneg_right u1 (by linarith : 0 ≤ 1 - ab)
    have := eta_le f
    linarith [g1.2]
  have Y1 : 1 ≤ Y := by linarith [abs_nonneg y, abs_nonneg yb]
  have h1 := rescale_sum acc f (y := y) (yb := yb) hg hg2 c0 hηc c1 sb eb hY
  have h2 := roots_err u0 u1 (cc.trans_le hab) (cc.trans_le ha) (cc.trans_le hp) ea ep hk hκ
  have pos : ∀ {x' x : ℝ}, c ≤ x → x ≤ 1 → |x' - x| ≤ 2 * u * x → 0 < x' ∧ x' ≤ 2 := by
    intro x' x hx hx1 hh
    have h3 := abs_le.mp hh
    have h4 := mul_le_mul_of_nonneg_right u1 (by linarith : 0 ≤ x)
    constructor <;> linarith [h3.1, h3.2]
  obtain ⟨pa, pa2⟩ := pos sA la ea
  obtain ⟨pp, pp2⟩ := pos sP lp ep
  have h3 := rescale_quot acc f c0 hηc c1 sb pa pa2 pp pp2 Y1 (by linarith [abs_nonneg y]) h1 h2 (by linarith)
  have : (0:ℝ) ≤ u * Y := mul_nonneg u0 (by linarith)
  refine (show rescale A ab a abp y yb = _ from rfl) ▸ h3.trans ?_
  have e : (46 * u + 1.2 * κ) * Y - (37 * u + 1.2 * (κ + 4.2 * u)) * Y = 3.96 * (u * Y) := by ring
  linarith

/-- Neighbouring noise levels: `ᾱᵢ = αᵢ ᾱᵢ₋₁` up to rounding. -/
theorem levels_ratio (acc : PlanAccurate A N u s m p η) (f : PlanFine N u s m p η) {betas : List ℝ} {c : ℝ} {n : ℕ}
    (ok : LevelsOK (schedule A betas) n η c) (c0 : 0 < c) (hη : η ≤ u * c ^ 2) {i : ℕ} (hi : 1 ≤ i)
    (hin : i < n) :
    |clampGet (schedule A betas).alphas i * clampGet (schedule A betas).alphasBar (i - 1) -
      clampGet (schedule A betas).alphasBar i| ≤ (2.2 * p + 3 * u) * clampGet (schedule A betas).alphasBar i := by
  have lA := ok.lenA
  have lB := ok.lenB
  have hab := (ok.bar _ (clampGet_mem (by rw [lB]; exact hin))).1
  have ha := ok.alpha _ (clampGet_mem (l := (schedule A betas).alphas) (i := i) (by rw [lA]; exact hin))
  rw [clampGet_getD (l := (schedule A betas).alphasBar) (i := i) (by rw [lB]; exact hin)] at hab ⊢
  rw [clampGet_getD (l := (schedule A betas).alphas) (by rw [lA]; exact hin)] at ha ⊢
  rw [clampGet_getD (l := (schedule A betas).alphasBar) (i := i - 1) (by rw [lB]; omega)]
  obtain ⟨al, hal⟩ : ∃ al, al = (schedule A betas).alphas := ⟨_, rfl⟩
  have hbar : (schedule A betas).alphasBar = A.cumprod al := by rw [hal]; rfl
  rw [hbar] at hab ⊢
  rw [← hal] at ha ⊢ lA
  have k1 := acc.cumprod al i (by omega)
  have k2 := acc.cumprod al (i - 1) (by omega)
  have e1 : i - 1 + 1 = i := by omega
  rw [e1] at k2
  have e2 : (al.take (i + 1)).prod = (al.take i).prod * al.getD i 0 := by
    rw [List.prod_take_succ _ _ (by omega : i < al.length), List.getD_eq_getElem _ _ (by omega : i < al.length)]
  have pos : 0 ≤ (al.take i).prod := by
    refine List.prod_nonneg fun a hm => ?_
    have := (ok.alpha a (hal ▸ List.mem_of_mem_take hm)).1
    exact (sq_nonneg c).trans this
  rw [e2] at k1
  generalize (A.cumprod al).getD i 0 = ab at *
  generalize (A.cumprod al).getD (i - 1) 0 = abp at *
  generalize al.getD i 0 = a at *
  generalize (al.take i).prod = P at *
  obtain ⟨u0, s0, m0, p0, e0, u1, s1, m1, p1, e1⟩ := f
  have cc : 0 < c ^ 2 := by positivity
  have a0 : 0 < a := by linarith
  rw [abs_of_nonneg pos] at k2
  rw [abs_of_nonneg (mul_nonneg pos a0.le)] at k1
  have hη2 : η ≤ u * ab := hη.trans (mul_le_mul_of_nonneg_left hab u0)
  have k3 : |a * abp - P * a| ≤ p * (P * a) + η := by
    have e : a * abp - P * a = a * (abp - P) := by ring
    rw [e, abs_mul, abs_of_pos a0]
    have h1 := mul_le_mul_of_nonneg_left k2 a0.le
    have h2 := mul_le_mul_of_nonneg_right ha.2 e0
    linarith
  have Q0 : 0 ≤ P * a := mul_nonneg pos a0.le
  generalize P * a = Q at *
  have k4 := abs_le.mp k1
  have hpQ := mul_le_mul_of_nonneg_right p1 Q0
  have huab : u * ab ≤ 1 / 1000 * ab := mul_le_mul_of_nonneg_right u1 (by linarith)
  have hQ : Q ≤ 1.05 * ab := by linarith [k4.1]
  have hpQ2 := mul_le_mul_of_nonneg_left hQ p0
  have h5 := abs_sub_le (a * abp) Q ab
  rw [abs_sub_comm Q ab] at h5
  have : 0 ≤ p * ab := mul_nonneg p0 (by linarith)
  have : 0 ≤ u * ab := mul_nonneg u0 (by linarith)
  linarith

/-- Sampled plans lie in `[-1, 1]²` exactly. -/
theorem clipSample_in (pref : ℤ) (v : U) : |(clipSample pref v).1| ≤ 1 ∧ |(clipSample pref v).2| ≤ 1 := by
  have hc : ∀ x : ℝ, -1 ≤ clip x (-1) 1 ∧ clip x (-1) 1 ≤ 1 := by
    intro x; unfold clip; constructor
    · simp
    · simp
  unfold clipSample clipU
  simp only [abs_le]
  refine ⟨?_, hc _⟩
  split_ifs
  · constructor
    · exact le_trans (by norm_num) (show (0:ℝ) ≤ clip _ 0 1 by unfold clip; simp)
    · unfold clip; simp
  · constructor
    · unfold clip; simp
    · exact (show clip _ (-1) (0:ℝ) ≤ 0 by unfold clip; simp).trans (by norm_num)
  · exact hc _

theorem samplePlans_in {cfg : Cfg} {sigma abp : ℝ} {eps : ℕ → ℕ → U} {Ybar Y : List U}
    (h : Y ∈ samplePlans A cfg sigma abp eps Ybar) : PlanIn 1 Y ∧ Y.length = Ybar.length := by
  obtain ⟨n, -, rfl⟩ := List.mem_map.mp h
  refine ⟨fun a ha => ?_, by simp⟩
  obtain ⟨t, ht, rfl⟩ := List.mem_mapIdx.mp ha
  exact clipSample_in _ _

theorem planTol_le (f : PlanFine N u s m p η) : planTol N u s m p η ≤ 0.36 ∧ 0 ≤ planTol N u s m p η := by
  have h1 := tol_le f
  have h2 := tol_nonneg f
  have h3 := eta_le f
  obtain ⟨u0, s0, m0, p0, e0, u1, s1, m1, p1, e1⟩ := f
  unfold planTol stepTol
  constructor <;> linarith

theorem planIn_getD {r : ℝ} (r0 : 0 ≤ r) {Y : List U} (h : PlanIn r Y) (t : ℕ) :
    |(Y.getD t (0, 0)).1| ≤ r ∧ |(Y.getD t (0, 0)).2| ≤ r := by
  by_cases ht : t < Y.length
  · rw [List.getD_eq_getElem _ _ ht]; exact h _ (List.getElem_mem ht)
  · rw [List.getD_eq_default _ _ (by omega)]; simpa using r0

theorem reversePlan_getD {S : Schedule} {cfg : Cfg} {sim : Sim} {rx : ℝ} {eps : ℕ → ℕ → U} {i : ℕ} {Y : List U}
    (hY : Y.length = cfg.Hsample) {t : ℕ} (ht : t < cfg.Hsample) :
    (reversePlan A S cfg sim rx eps i Y).getD t (0, 0) =
      (rescale A (clampGet S.alphasBar i) (clampGet S.alphas i) (clampGet S.alphasBar (i - 1)) (Y.getD t (0, 0)).1
        (A.dot (batchWeights A cfg sim rx
          (samplePlans A cfg (clampGet S.sigmas i) (clampGet S.alphasBar (i - 1)) eps Y))
          (((samplePlans A cfg (clampGet S.sigmas i) (clampGet S.alphasBar (i - 1)) eps Y).map sim.applied).map
            fun Y => (Y.getD t (0, 0)).1)),
       rescale A (clampGet S.alphasBar i) (clampGet S.alphas i) (clampGet S.alphasBar (i - 1)) (Y.getD t (0, 0)).2
        (A.dot (batchWeights A cfg sim rx
          (samplePlans A cfg (clampGet S.sigmas i) (clampGet S.alphasBar (i - 1)) eps Y))
          (((samplePlans A cfg (clampGet S.sigmas i) (clampGet S.alphasBar (i - 1)) eps Y).map sim.applied).map
            fun Y => (Y.getD t (0, 0)).2))) := by
  unfold reversePlan weightedPlan
  simp only
  rw [List.getD_eq_getElem _ _ (by simp [hY, ht]), List.getElem_zipWith, List.getElem_map, List.getElem_range,
    List.getD_eq_getElem _ _ (by omega : t < Y.length)]

theorem reversePlan_length {S : Schedule} {cfg : Cfg} {sim : Sim} {rx : ℝ} {eps : ℕ → ℕ → U} {i : ℕ} {Y : List U}
    (hY : Y.length = cfg.Hsample) : (reversePlan A S cfg sim rx eps i Y).length = cfg.Hsample := by
  unfold reversePlan weightedPlan
  simp [hY]

end Rounded

open Rounded

variable {A : PlanArith} {N : ℕ} {u s m p η : ℝ}

/-- C78: whatever the rewards are (equal, tiny, huge), the computed weights of a batch are nonnegative, at most
`1 + tol` each, and sum to 1 up to `tol`. -/
theorem C78_weights (acc : PlanAccurate A N u s m p η) (f : PlanFine N u s m p η) (cfg : Cfg) (sim : Sim)
    (rewXref : ℝ) {Ys : List (List U)} (hne : Ys ≠ []) (hN : Ys.length ≤ N) :
    (batchWeights A cfg sim rewXref Ys).length = Ys.length ∧
    (∀ w ∈ batchWeights A cfg sim rewXref Ys, 0 ≤ w ∧ w ≤ 1 + weightTol N u s η) ∧
    |(batchWeights A cfg sim rewXref Ys).sum - 1| ≤ weightTol N u s η := by
  have hlen : (Rounded.logWeights A cfg.temp cfg.enableDemo rewXref (Ys.map sim.reward) (Ys.map sim.xref)).length =
      Ys.length := by rw [Rounded.logWeights_length _ _ _ _ _ (by simp)]; simp
  have hl : Rounded.logWeights A cfg.temp cfg.enableDemo rewXref (Ys.map sim.reward) (Ys.map sim.xref) ≠ [] := by
    intro h; rw [h] at hlen; exact hne (List.length_eq_zero_iff.mp hlen.symm)
  have ht := softmax_total_r acc f hl (by omega)
  have h0 : ∀ w ∈ batchWeights A cfg sim rewXref Ys, 0 ≤ w := fun w hw => softmax_nonneg_r acc f (by omega) hw
  refine ⟨by rw [batchWeights, Rounded.softmax_length, hlen], fun w hw => ⟨h0 w hw, ?_⟩, ht⟩
  have h1 : w ≤ (batchWeights A cfg sim rewXref Ys).sum := List.single_le_sum h0 w hw
  have h2 := (abs_le.mp ht).2
  unfold batchWeights at h1
  linarith

/-- C78: no division by zero: the divisor of the softmax is at least 0.9, and the guarded standard deviation at
least 8e-5, for all rewards. -/
theorem C78_divisors (acc : PlanAccurate A N u s m p η) (f : PlanFine N u s m p η) (hη : η ≤ 1e-5)
    (rews logits : List ℝ) (hne : logits ≠ []) (hN : logits.length ≤ N) :
    0.9 ≤ A.sum (softmaxExps A logits) ∧ 8e-5 ≤ Rounded.guardedStd A rews := by
  refine ⟨(softmax_divisor acc f hne hN).2.2, ?_⟩
  unfold Rounded.guardedStd
  split_ifs with h
  · norm_num
  · push Not at h
    have h1 := (abs_le.mp (acc.const 1e-4)).1
    rw [abs_of_pos (by norm_num : (0:ℝ) < 1e-4)] at h1
    have := f.u1
    linarith

/-- C78: every action of the new plan is, up to `stepTol`, the weighted mean of the actions applied in the
rollouts of the sampled plans. -/
theorem C78_step (acc : PlanAccurate A N u s m p η) (f : PlanFine N u s m p η) (cfg : Cfg) (sim : Sim)
    (rewXref : ℝ) (betas : List ℝ) {c : ℝ} (c0 : 0 < c) (c1 : c ≤ 1) (hη : η ≤ u * c ^ 2)
    (ok : LevelsOK (schedule A betas) cfg.Ndiffuse η c) (hns : 0 < cfg.Nsample) (hN : cfg.Nsample ≤ N)
    (hsim : ∀ Y, PlanIn 1 Y → PlanIn 1 (sim.applied Y)) (eps : ℕ → ℕ → U) {i : ℕ} (hi : 1 ≤ i)
    (hin : i < cfg.Ndiffuse) {Y : List U} (hlen : Y.length = cfg.Hsample) (hY : PlanIn 1.5 Y) :
    let Ys := Rounded.samplePlans A cfg (clampGet (schedule A betas).sigmas i)
      (clampGet (schedule A betas).alphasBar (i - 1)) eps Y
    let w := batchWeights A cfg sim rewXref Ys
    let Y' := reversePlan A (schedule A betas) cfg sim rewXref eps i Y
    Ys.length = cfg.Nsample ∧ (∀ Z ∈ Ys, PlanIn 1 Z ∧ Z.length = cfg.Hsample) ∧ Y'.length = cfg.Hsample ∧
    ∀ t < cfg.Hsample,
      |(Y'.getD t (0, 0)).1 - weightedMean w (Ys.map fun Z => ((sim.applied Z).getD t (0, 0)).1)| ≤
        stepTol u m p η ∧
      |(Y'.getD t (0, 0)).2 - weightedMean w (Ys.map fun Z => ((sim.applied Z).getD t (0, 0)).2)| ≤
        stepTol u m p η := by
  intro Ys w Y'
  have hYs : Ys.length = cfg.Nsample := by simp [Ys, Rounded.samplePlans]
  have hin1 : ∀ Z ∈ Ys, PlanIn 1 Z ∧ Z.length = cfg.Hsample := fun Z hZ => by
    have := samplePlans_in hZ; rw [hlen] at this; exact this
  refine ⟨hYs, hin1, reversePlan_length hlen, fun t ht => ?_⟩
  have hne : Ys ≠ [] := by intro h; rw [h] at hYs; simp at hYs; omega
  have hlogl : (Rounded.logWeights A cfg.temp cfg.enableDemo rewXref (Ys.map sim.reward)
      (Ys.map sim.xref)).length = Ys.length := by rw [Rounded.logWeights_length _ _ _ _ _ (by simp)]; simp
  have hl : Rounded.logWeights A cfg.temp cfg.enableDemo rewXref (Ys.map sim.reward) (Ys.map sim.xref) ≠ [] := by
    intro h; rw [h] at hlogl; exact hne (List.length_eq_zero_iff.mp hlogl.symm)
  have lB := ok.lenB
  have lA := ok.lenA
  have hb := ok.bar _ (clampGet_mem (l := (schedule A betas).alphasBar) (i := i) (by omega))
  have hbp := ok.bar _ (clampGet_mem (l := (schedule A betas).alphasBar) (i := i - 1) (by omega))
  have ha := ok.alpha _ (clampGet_mem (l := (schedule A betas).alphas) (i := i) (by omega))
  have hr := levels_ratio acc f ok c0 hη hi hin
  have hκ : 2.2 * p + 3 * u ≤ 1 / 40 := by linarith [f.p1, f.u1]
  have htol := tol_le f
  have heta := eta_le f
  have one : ∀ (y : ℝ) (l : List ℝ), |y| ≤ 1.5 → (∀ b ∈ l, |b| ≤ 1) →
      |Rounded.rescale A (clampGet (schedule A betas).alphasBar i) (clampGet (schedule A betas).alphas i)
        (clampGet (schedule A betas).alphasBar (i - 1)) y (A.dot w l) - weightedMean w l| ≤ stepTol u m p η := by
    intro y l hy hb'
    obtain ⟨d1, d2⟩ := dot_err acc f hl (by omega) hb'
    have h3 : |y| + |A.dot w l| + 1 ≤ 4 := by
      have : |A.dot w l| ≤ 1 + weightTol N u s η + 1.1 * m + η := d2
      linarith [f.m1]
    have h1 := rescale_err acc f c0 c1 hη hb.1 hb.2 ha.1 ha.2 hbp.1 (by linarith [hbp.2, f.e0]) hr hκ h3
    have h2 := abs_sub_le (Rounded.rescale A (clampGet (schedule A betas).alphasBar i) (clampGet (schedule A betas).alphas i)
        (clampGet (schedule A betas).alphasBar (i - 1)) y (A.dot w l)) (A.dot w l) (weightedMean w l)
    have d1' : |A.dot w l - weightedMean w l| ≤ 1.1 * m + η := d1
    unfold stepTol
    linarith [f.p0, f.u0]
  have hap : ∀ b ∈ Ys.map fun Z => ((sim.applied Z).getD t (0, 0)).1, |b| ≤ 1 := by
    intro b hb; obtain ⟨Z, hZ, rfl⟩ := List.mem_map.mp hb
    exact (planIn_getD (by norm_num) (hsim Z (hin1 Z hZ).1) t).1
  have hap2 : ∀ b ∈ Ys.map fun Z => ((sim.applied Z).getD t (0, 0)).2, |b| ≤ 1 := by
    intro b hb; obtain ⟨Z, hZ, rfl⟩ := List.mem_map.mp hb
    exact (planIn_getD (by norm_num) (hsim Z (hin1 Z hZ).1) t).2
  have hy := planIn_getD (by norm_num) hY t
  have e := reversePlan_getD (A := A) (S := schedule A betas) (sim := sim) (rx := rewXref) (eps := eps) (i := i) hlen ht
  simp only [List.map_map] at e
  change Y'.getD t (0, 0) = _ at e
  rw [e]
  exact ⟨one _ _ hy.1 hap, one _ _ hy.2 hap2⟩

/-- One step of the loop keeps the plan in `[-(1 + tol), 1 + tol]²`. -/
theorem reverse_keeps (acc : PlanAccurate A N u s m p η) (f : PlanFine N u s m p η) (cfg : Cfg) (sim : Sim)
    (rewXref : ℝ) (betas : List ℝ) {c : ℝ} (c0 : 0 < c) (c1 : c ≤ 1) (hη : η ≤ u * c ^ 2)
    (ok : LevelsOK (schedule A betas) cfg.Ndiffuse η c) (hns : 0 < cfg.Nsample) (hN : cfg.Nsample ≤ N)
    (hsim : ∀ Y, PlanIn 1 Y → PlanIn 1 (sim.applied Y)) (eps : ℕ → ℕ → U) {i : ℕ} (hi : 1 ≤ i)
    (hin : i < cfg.Ndiffuse) {Y : List U} (hlen : Y.length = cfg.Hsample) (hY : PlanIn 1.5 Y) :
    PlanIn (1 + planTol N u s m p η) (reversePlan A (schedule A betas) cfg sim rewXref eps i Y) := by
  obtain ⟨h1, h2, h3, h4⟩ := C78_step acc f cfg sim rewXref betas c0 c1 hη ok hns hN hsim eps hi hin hlen hY
  intro a ha
  obtain ⟨t, ht, rfl⟩ := List.mem_iff_getElem.mp ha
  have ht' : t < cfg.Hsample := by rw [← h3]; exact ht
  obtain ⟨q1, q2⟩ := h4 t ht'
  rw [List.getD_eq_getElem _ _ ht] at q1 q2
  have hne : Rounded.samplePlans A cfg (clampGet (schedule A betas).sigmas i)
      (clampGet (schedule A betas).alphasBar (i - 1)) eps Y ≠ [] := by
    intro h; rw [h] at h1; simp at h1; omega
  obtain ⟨w1, w2, w3⟩ := C78_weights acc f cfg sim rewXref hne (by omega)
  have hw : ∀ y : List ℝ, (∀ b ∈ y, |b| ≤ 1) → |weightedMean (batchWeights A cfg sim rewXref
      (Rounded.samplePlans A cfg (clampGet (schedule A betas).sigmas i)
      (clampGet (schedule A betas).alphasBar (i - 1)) eps Y)) y| ≤ 1 + weightTol N u s η := by
    intro y hy
    have e1 := zip_sum_abs_le (batchWeights A cfg sim rewXref
      (Rounded.samplePlans A cfg (clampGet (schedule A betas).sigmas i)
      (clampGet (schedule A betas).alphasBar (i - 1)) eps Y)) y
    have e2 := zip_abs_le _ y (fun a ha => (w2 a ha).1) hy
    have e3 := (abs_le.mp w3).2
    unfold weightedMean
    linarith
  have fin : ∀ x z : ℝ, |x - z| ≤ stepTol u m p η → |z| ≤ 1 + weightTol N u s η → |x| ≤ 1 + planTol N u s m p η := by
    intro x z hx hz
    have := abs_add_le (x - z) z
    rw [sub_add_cancel] at this
    unfold planTol; linarith
  refine ⟨fin _ _ q1 (hw _ ?_), fin _ _ q2 (hw _ ?_)⟩
  · intro b hb; obtain ⟨Z, hZ, rfl⟩ := List.mem_map.mp hb
    exact (planIn_getD (by norm_num) (hsim Z (h2 Z hZ).1) t).1
  · intro b hb; obtain ⟨Z, hZ, rfl⟩ := List.mem_map.mp hb
    exact (planIn_getD (by norm_num) (hsim Z (h2 Z hZ).1) t).2

theorem plansFrom_spec (Q : List U → Prop) (S : Schedule) (cfg : Cfg) (sim : Sim) (rx : ℝ) (eps : ℕ → ℕ → ℕ → U)
    (n : ℕ) (hstep : ∀ i, 1 ≤ i → i ≤ n → ∀ Y, Q Y → Q (reversePlan A S cfg sim rx (eps i) i Y)) :
    ∀ k ≤ n, ∀ Y, Q Y → (plansFrom A S cfg sim rx eps k Y).length = k ∧
      ∀ Z ∈ plansFrom A S cfg sim rx eps k Y, Q Z
  | 0, _, _, _ => by simp [plansFrom]
  | k + 1, hk, Y, hY => by
    have h1 := hstep (k + 1) (by omega) hk Y hY
    obtain ⟨i1, i2⟩ := plansFrom_spec Q S cfg sim rx eps n hstep k (by omega) _ h1
    simp only [plansFrom, List.length_cons, i1, List.mem_cons, forall_eq_or_imp]
    exact ⟨trivial, h1, i2⟩

/-- C78: every plan of the reverse process, at every noise level, stays within `1 + tol` in every component, and
has the length of the horizon. -/
theorem C78_plans (acc : PlanAccurate A N u s m p η) (f : PlanFine N u s m p η) (cfg : Cfg) (sim : Sim)
    (rewXref : ℝ) (betas : List ℝ) {c : ℝ} (c0 : 0 < c) (c1 : c ≤ 1) (hη : η ≤ u * c ^ 2)
    (ok : LevelsOK (schedule A betas) cfg.Ndiffuse η c) (hns : 0 < cfg.Nsample) (hN : cfg.Nsample ≤ N)
    (hsim : ∀ Y, PlanIn 1 Y → PlanIn 1 (sim.applied Y)) (eps : ℕ → ℕ → ℕ → U) :
    (plans A betas cfg sim rewXref eps).length = cfg.Ndiffuse - 1 ∧
    ∀ Y ∈ plans A betas cfg sim rewXref eps,
      Y.length = cfg.Hsample ∧ PlanIn (1 + planTol N u s m p η) Y := by
  have ht := planTol_le f
  refine plansFrom_spec (fun Y => Y.length = cfg.Hsample ∧ PlanIn (1 + planTol N u s m p η) Y) _ cfg sim rewXref eps
    (cfg.Ndiffuse - 1) (fun i hi hin Y hY => ⟨reversePlan_length hY.1, ?_⟩) _ le_rfl _ ⟨by simp [zeroPlan], ?_⟩
  · refine reverse_keeps acc f cfg sim rewXref betas c0 c1 hη ok hns hN hsim (eps i) hi (by omega) hY.1 ?_
    exact fun a ha => ⟨(hY.2 a ha).1.trans (by linarith [ht.1]), (hY.2 a ha).2.trans (by linarith [ht.1])⟩
  · intro a ha
    rw [List.eq_of_mem_replicate ha]
    simp only [abs_zero]
    constructor <;> linarith [ht.2]

/-- One step with a direction preference: nonnegative speeds stay nonnegative up to rounding. -/
theorem reverse_speed (acc : PlanAccurate A N u s m p η) (f : PlanFine N u s m p η) (cfg : Cfg) (sim : Sim)
    (rewXref : ℝ) (betas : List ℝ) {c : ℝ} (c0 : 0 < c) (c1 : c ≤ 1) (hη : η ≤ u * c ^ 2)
    (ok : LevelsOK (schedule A betas) cfg.Ndiffuse η c) (hns : 0 < cfg.Nsample) (hN : cfg.Nsample ≤ N)
    (hsim : ∀ Y, PlanIn 1 Y → PlanIn 1 (sim.applied Y)) (σ : ℝ) (hσ : σ = 1 ∨ σ = -1)
    (hdir : ∀ Y, (∀ a ∈ Y, 0 ≤ σ * a.1) → ∀ a ∈ sim.applied Y, 0 ≤ σ * a.1)
    (hclip : ∀ v, 0 ≤ σ * (clipSample cfg.motionPreference v).1)
    (eps : ℕ → ℕ → U) {i : ℕ} (hi : 1 ≤ i)
    (hin : i < cfg.Ndiffuse) {Y : List U} (hlen : Y.length = cfg.Hsample) (hY : PlanIn 1.5 Y) :
    ∀ a ∈ reversePlan A (schedule A betas) cfg sim rewXref eps i Y, -stepTol u m p η ≤ σ * a.1 := by
  obtain ⟨h1, h2, h3, h4⟩ := C78_step acc f cfg sim rewXref betas c0 c1 hη ok hns hN hsim eps hi hin hlen hY
  intro a ha
  obtain ⟨t, ht, rfl⟩ := List.mem_iff_getElem.mp ha
  have ht' : t < cfg.Hsample := by rw [← h3]; exact ht
  obtain ⟨q1, -⟩ := h4 t ht'
  rw [List.getD_eq_getElem _ _ ht] at q1
  have hne : Rounded.samplePlans A cfg (clampGet (schedule A betas).sigmas i)
      (clampGet (schedule A betas).alphasBar (i - 1)) eps Y ≠ [] := by
    intro h; rw [h] at h1; simp at h1; omega
  obtain ⟨w1, w2, w3⟩ := C78_weights acc f cfg sim rewXref hne (by omega)
  have hs : ∀ Z ∈ Rounded.samplePlans A cfg (clampGet (schedule A betas).sigmas i)
      (clampGet (schedule A betas).alphasBar (i - 1)) eps Y, ∀ a ∈ Z, 0 ≤ σ * a.1 := by
    intro Z hZ a ha
    obtain ⟨n, -, rfl⟩ := List.mem_map.mp hZ
    obtain ⟨t, ht, rfl⟩ := List.mem_mapIdx.mp ha
    exact hclip _
  have hg : ∀ b ∈ (Rounded.samplePlans A cfg (clampGet (schedule A betas).sigmas i)
      (clampGet (schedule A betas).alphasBar (i - 1)) eps Y).map
        fun Z => ((sim.applied Z).getD t (0, 0)).1, 0 ≤ σ * b := by
    intro b hb
    obtain ⟨Z, hZ, rfl⟩ := List.mem_map.mp hb
    by_cases hlt : t < (sim.applied Z).length
    · rw [List.getD_eq_getElem _ _ hlt]; exact hdir Z (hs Z hZ) _ (List.getElem_mem hlt)
    · rw [List.getD_eq_default _ _ (by omega)]; simp
  have hz : 0 ≤ σ * weightedMean (batchWeights A cfg sim rewXref (Rounded.samplePlans A cfg
      (clampGet (schedule A betas).sigmas i) (clampGet (schedule A betas).alphasBar (i - 1)) eps Y))
      ((Rounded.samplePlans A cfg (clampGet (schedule A betas).sigmas i)
      (clampGet (schedule A betas).alphasBar (i - 1)) eps Y).map
        fun Z => ((sim.applied Z).getD t (0, 0)).1) := by
    have key : ∀ w y : List ℝ, (∀ a ∈ w, 0 ≤ a) → (∀ b ∈ y, 0 ≤ σ * b) → 0 ≤ σ * weightedMean w y := by
      unfold weightedMean
      intro w
      induction w with
      | nil => intro y _ _; simp
      | cons a w ih =>
        intro y ha hb
        cases y with
        | nil => simp
        | cons b y =>
          have i1 := ih y (fun x hx => ha x (List.mem_cons_of_mem _ hx)) fun x hx => hb x (List.mem_cons_of_mem _ hx)
          have i2 := mul_nonneg (ha a List.mem_cons_self) (hb b List.mem_cons_self)
          simp only [List.zipWith_cons_cons, List.sum_cons]
          nlinarith
    exact key _ _ (fun a ha => (w2 a ha).1) hg
  have q2 := abs_le.mp q1
  rcases hσ with rfl | rfl <;> linarith [q2.1, q2.2]

/-- C78: with the forward-only preference (2), in a simulator that applies no reverse speed to a forward plan, no
plan of the reverse process has a speed below `-stepTol`; with the backward-only preference (-2) none is above
`stepTol`. -/
theorem C78_direction (acc : PlanAccurate A N u s m p η) (f : PlanFine N u s m p η) (cfg : Cfg) (sim : Sim)
    (rewXref : ℝ) (betas : List ℝ) {c : ℝ} (c0 : 0 < c) (c1 : c ≤ 1) (hη : η ≤ u * c ^ 2)
    (ok : LevelsOK (schedule A betas) cfg.Ndiffuse η c) (hns : 0 < cfg.Nsample) (hN : cfg.Nsample ≤ N)
    (hsim : ∀ Y, PlanIn 1 Y → PlanIn 1 (sim.applied Y)) (eps : ℕ → ℕ → ℕ → U) :
    (cfg.motionPreference = 2 → (∀ Y, (∀ a ∈ Y, 0 ≤ a.1) → ∀ a ∈ sim.applied Y, 0 ≤ a.1) →
      ∀ Y ∈ plans A betas cfg sim rewXref eps, ∀ a ∈ Y, -stepTol u m p η ≤ a.1) ∧
    (cfg.motionPreference = -2 → (∀ Y, (∀ a ∈ Y, a.1 ≤ 0) → ∀ a ∈ sim.applied Y, a.1 ≤ 0) →
      ∀ Y ∈ plans A betas cfg sim rewXref eps, ∀ a ∈ Y, a.1 ≤ stepTol u m p η) := by
  have ht := planTol_le f
  have st : 0 ≤ stepTol u m p η := by unfold stepTol; linarith [f.m0, f.e0, f.u0, f.p0]
  have main : ∀ σ : ℝ, (σ = 1 ∨ σ = -1) → (∀ v, 0 ≤ σ * (clipSample cfg.motionPreference v).1) →
      (∀ Y, (∀ a ∈ Y, 0 ≤ σ * a.1) → ∀ a ∈ sim.applied Y, 0 ≤ σ * a.1) →
      ∀ Y ∈ plans A betas cfg sim rewXref eps, ∀ a ∈ Y, -stepTol u m p η ≤ σ * a.1 := by
    intro σ hσ hclip hdir
    have := (plansFrom_spec (A := A) (fun Y => (Y.length = cfg.Hsample ∧ PlanIn (1 + planTol N u s m p η) Y) ∧
      ∀ a ∈ Y, -stepTol u m p η ≤ σ * a.1) (schedule A betas) cfg sim rewXref eps
      (cfg.Ndiffuse - 1) (fun i hi hin Y hY => ?_) _ le_rfl (zeroPlan cfg) ⟨⟨by simp [zeroPlan], ?_⟩, ?_⟩).2
    · exact fun Y hY => (this Y hY).2
    · have hin2 : PlanIn 1.5 Y := fun a ha =>
        ⟨(hY.1.2 a ha).1.trans (by linarith [ht.1]), (hY.1.2 a ha).2.trans (by linarith [ht.1])⟩
      exact ⟨⟨reversePlan_length hY.1.1, reverse_keeps acc f cfg sim rewXref betas c0 c1 hη ok hns hN hsim (eps i) hi
        (by omega) hY.1.1 hin2⟩, reverse_speed acc f cfg sim rewXref betas c0 c1 hη ok hns hN hsim σ hσ hdir hclip
        (eps i) hi (by omega) hY.1.1 hin2⟩
    · intro a ha
      rw [List.eq_of_mem_replicate ha]
      simp only [abs_zero]
      constructor <;> linarith [ht.2]
    · intro a ha
      rw [List.eq_of_mem_replicate ha]
      simpa using st
  constructor
  · intro hm hd Y hY a ha
    have := main 1 (Or.inl rfl) (fun v => by rw [hm, one_mul]; simp [clipSample, clip])
      (fun Y h => by simpa using hd Y (by simpa using h)) Y hY a ha
    linarith
  · intro hm hd Y hY a ha
    have := main (-1) (Or.inr rfl) (fun v => by
        rw [hm]; simp [clipSample, clip])
      (fun Y h => by simpa using hd Y (by simpa using h)) Y hY a ha
    linarith

end Mbd
