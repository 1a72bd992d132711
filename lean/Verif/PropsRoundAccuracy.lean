import Verif.RoundAccuracy

/-!
# C78: the computed weights and plans are close to the exact ones
-/

namespace Spec

/-- Relative error of the computed weights. -/
noncomputable def weightErr (N : ℕ) (u s η k temp : ℝ) : ℝ :=
  Real.exp (4.4 * logitTol u s k temp) * (1 + relTol N u s η) - 1

end Spec

namespace Mbd

open Real Classical _root_.Spec

variable {A : PlanArith} {N : ℕ} {u s m p η : ℝ}

/-- C78: every computed weight is close to the exact weight of its sample, relative to the exact weight, apart from
underflow.  `k` bounds the rewards (and what the demonstration grants) in units of the spread of the rewards. -/
theorem C78_accuracy (acc : PlanAccurate A N u s m p η) (f : PlanFine N u s m p η) (hη : η ≤ 1e-9 * u) (cfg : Cfg)
    (t0 : 0 < cfg.temp) (ht : cfg.temp ≤ 1000) (hηt : η ≤ u * cfg.temp) (sim : Sim) (rewXref : ℝ) {Ys : List (List U)}
    (hN : Ys.length ≤ N) {k : ℝ} (hσ : 1.3e-4 ≤ spread (Ys.map sim.reward))
    (hR : ∀ Y ∈ Ys, |sim.reward Y| ≤ k * spread (Ys.map sim.reward))
    (hd : cfg.enableDemo = true → |rewXref| ≤ k * spread (Ys.map sim.reward) ∧
      ∀ Y ∈ Ys, listMax (Ys.map sim.xref) - sim.xref Y ≤ k * spread (Ys.map sim.reward))
    (hk : (1.1 * s + 4.1 * u) * k ≤ 1 / 40) {i : ℕ} (hi : i < Ys.length) :
    |(Rounded.batchWeights A cfg sim rewXref Ys).getD i 0 - exactWeight cfg sim rewXref Ys (Ys.getD i [])| ≤
      weightErr N u s η k cfg.temp * exactWeight cfg sim rewXref Ys (Ys.getD i []) + 3 * η := by
  obtain ⟨h1, h2⟩ := Rounded.weights_err acc f hη cfg t0 ht hηt sim rewXref hN hσ hR hd hk hi
  have w0 : 0 ≤ exactWeight cfg sim rewXref Ys (Ys.getD i []) := by
    unfold exactWeight
    refine div_nonneg (exp_pos _).le (List.sum_nonneg ?_)
    intro x hx; obtain ⟨_, -, rfl⟩ := List.mem_map.mp hx; exact (exp_pos _).le
  generalize exactWeight cfg sim rewXref Ys (Ys.getD i []) = w at *
  generalize (Rounded.batchWeights A cfg sim rewXref Ys).getD i 0 = w' at *
  have rt0 : 0 ≤ relTol N u s η := by
    unfold relTol; have := f.u0; have := f.s0; have := f.e0; positivity
  have k0 : 0 ≤ k := by
    have hm : Ys.getD i [] ∈ Ys := by rw [List.getD_eq_getElem _ _ hi]; exact List.getElem_mem hi
    exact nonneg_of_mul_nonneg_left ((abs_nonneg _).trans (hR _ hm)) (by linarith)
  have l0 : 0 ≤ logitTol u s k cfg.temp := by
    unfold logitTol; have := f.u0; have := f.s0; positivity
  unfold weightErr
  generalize logitTol u s k cfg.temp = δ at *
  generalize relTol N u s η = ρ at *
  have e1 : 1 ≤ exp (4.4 * δ) := Real.one_le_exp (by linarith)
  have e2 : exp (-(4.4 * δ)) ≤ 1 := Real.exp_le_one_iff.mpr (by linarith)
  have e3 : exp (4.4 * δ) * exp (-(4.4 * δ)) = 1 := by rw [← exp_add, add_neg_cancel, exp_zero]
  generalize exp (4.4 * δ) = a at *
  generalize exp (-(4.4 * δ)) = b at *
  have e4 : 2 ≤ a + b := by
    have := mul_nonneg (by linarith : 0 ≤ a - 1) (by linarith : 0 ≤ 1 - b)
    linarith
  have e5 : 2 ≤ a * (1 + ρ) + b * (1 - ρ) := by
    have := mul_nonneg rt0 (by linarith : 0 ≤ a - b)
    linarith
  have e6 := mul_le_mul_of_nonneg_right e5 w0
  rw [abs_le]
  constructor <;> linarith

theorem exactWeight_total (cfg : Cfg) (sim : Sim) (rx : ℝ) {Ys : List (List U)} (hne : Ys ≠ []) :
    (Ys.map (exactWeight cfg sim rx Ys)).sum = 1 := by
  unfold exactWeight
  have := (sum_exp_pos (l := Ys.map fun Z => sampleValue cfg sim rx Ys Z / (spread (Ys.map sim.reward) * cfg.temp))
    (by simpa using hne)).ne'
  rw [List.map_map] at this
  simp only [div_eq_mul_inv _ ((List.map _ Ys).sum)]
  rw [List.sum_map_mul_right]
  exact mul_inv_cancel₀ this

theorem zip_diff {α : Type} (y : α → ℝ) (w : α → ℝ) {c e : ℝ} : ∀ (Ys : List α) (w' : List ℝ), w'.length = Ys.length →
    (∀ Y ∈ Ys, |y Y| ≤ 1) → (∀ i (h : i < Ys.length), |w'.getD i 0 - w Ys[i]| ≤ c * w Ys[i] + e) →
    |(List.zipWith (· * ·) w' (Ys.map y)).sum - (Ys.map fun Y => w Y * y Y).sum| ≤ c * (Ys.map w).sum + Ys.length * e
  | [], _, _, _, _ => by simp
  | Y :: Ys, [], h, _, _ => by simp at h
  | Y :: Ys, a :: w', hl, hy, hw => by
    have ih := zip_diff y w Ys w' (by simpa using hl) (fun Z hZ => hy Z (List.mem_cons_of_mem _ hZ)) (c := c) (e := e)
      (fun i h => by
        have := hw (i + 1) (by simpa using h)
        rwa [List.getD_cons_succ, List.getElem_cons_succ] at this)
    have h0 := hw 0 (by simp)
    simp only [List.getD_cons_zero, List.getElem_cons_zero] at h0
    simp only [List.map_cons, List.zipWith_cons_cons, List.sum_cons, List.length_cons, Nat.cast_add, Nat.cast_one]
    have h1 : |(a - w Y) * y Y| ≤ c * w Y + e := by
      rw [abs_mul]
      exact (mul_le_of_le_one_right (abs_nonneg _) (hy Y List.mem_cons_self)).trans h0
    have h2 := abs_add_le ((a - w Y) * y Y) ((List.zipWith (· * ·) w' (Ys.map y)).sum - (Ys.map fun Y => w Y * y Y).sum)
    have e2 : (a - w Y) * y Y + ((List.zipWith (· * ·) w' (Ys.map y)).sum - (Ys.map fun Y => w Y * y Y).sum) =
        a * y Y + (List.zipWith (· * ·) w' (Ys.map y)).sum - (w Y * y Y + (Ys.map fun Y => w Y * y Y).sum) := by ring
    rw [e2] at h2
    linarith

/-- C78: every action of the new plan is close to the mean, with the exact weights, of the actions applied in the
rollouts of the sampled plans. -/
theorem C78_step_accuracy (acc : PlanAccurate A N u s m p η) (f : PlanFine N u s m p η) (hη : η ≤ 1e-9 * u) (cfg : Cfg)
    (t0 : 0 < cfg.temp) (ht : cfg.temp ≤ 1000) (hηt : η ≤ u * cfg.temp) (sim : Sim) (rewXref : ℝ)
    (betas : List ℝ) {c : ℝ} (c0 : 0 < c) (c1 : c ≤ 1) (hηc : η ≤ u * c ^ 2)
    (ok : LevelsOK (Rounded.schedule A betas) cfg.Ndiffuse η c) (hns : 0 < cfg.Nsample) (hN : cfg.Nsample ≤ N)
    (hsim : ∀ Y, PlanIn 1 Y → PlanIn 1 (sim.applied Y)) (eps : ℕ → ℕ → U) {i : ℕ} (hi : 1 ≤ i)
    (hin : i < cfg.Ndiffuse) {Y : List U} (hlen : Y.length = cfg.Hsample) (hY : PlanIn 1.5 Y) {k : ℝ}
    (hk : (1.1 * s + 4.1 * u) * k ≤ 1 / 40) :
    let Ys := Rounded.samplePlans A cfg (clampGet (Rounded.schedule A betas).sigmas i)
      (clampGet (Rounded.schedule A betas).alphasBar (i - 1)) eps Y
    let Y' := Rounded.reversePlan A (Rounded.schedule A betas) cfg sim rewXref eps i Y
    1.3e-4 ≤ spread (Ys.map sim.reward) →
    (∀ Z ∈ Ys, |sim.reward Z| ≤ k * spread (Ys.map sim.reward)) →
    (cfg.enableDemo = true → |rewXref| ≤ k * spread (Ys.map sim.reward) ∧
      ∀ Z ∈ Ys, listMax (Ys.map sim.xref) - sim.xref Z ≤ k * spread (Ys.map sim.reward)) →
    ∀ t < cfg.Hsample,
      |(Y'.getD t (0, 0)).1 -
        (Ys.map fun Z => exactWeight cfg sim rewXref Ys Z * ((sim.applied Z).getD t (0, 0)).1).sum| ≤
        weightErr N u s η k cfg.temp + 3 * N * η + stepTol u m p η ∧
      |(Y'.getD t (0, 0)).2 -
        (Ys.map fun Z => exactWeight cfg sim rewXref Ys Z * ((sim.applied Z).getD t (0, 0)).2).sum| ≤
        weightErr N u s η k cfg.temp + 3 * N * η + stepTol u m p η := by
  intro Ys Y' hσ hR hd t htt
  obtain ⟨h1, h2, -, h4⟩ := C78_step acc f cfg sim rewXref betas c0 c1 hηc ok hns hN hsim eps hi hin hlen hY
  obtain ⟨q1, q2⟩ := h4 t htt
  change Ys.length = _ at h1
  have hne : Ys ≠ [] := by intro h; rw [h] at h1; simp at h1; omega
  have hN' : Ys.length ≤ N := by omega
  have hw := C78_weights acc f cfg sim rewXref hne hN'
  have hacc := fun j (hj : j < Ys.length) => C78_accuracy acc f hη cfg t0 ht hηt sim rewXref hN' hσ hR hd hk hj
  have key : ∀ y : List U → ℝ, (∀ Z ∈ Ys, |y Z| ≤ 1) →
      |weightedMean (Rounded.batchWeights A cfg sim rewXref Ys) (Ys.map y) -
        (Ys.map fun Z => exactWeight cfg sim rewXref Ys Z * y Z).sum| ≤ weightErr N u s η k cfg.temp + 3 * N * η := by
    intro y hy
    have := zip_diff y (exactWeight cfg sim rewXref Ys) (c := weightErr N u s η k cfg.temp) (e := 3 * η) Ys
      (Rounded.batchWeights A cfg sim rewXref Ys) hw.1 hy (fun j hj => by
        have := hacc j hj
        rwa [List.getD_eq_getElem Ys [] hj] at this)
    rw [exactWeight_total cfg sim rewXref hne] at this
    have hl : (Ys.length : ℝ) * (3 * η) ≤ 3 * N * η := by
      have h5 : (Ys.length : ℝ) ≤ N := by exact_mod_cast hN'
      have := mul_le_mul_of_nonneg_right h5 f.e0
      linarith
    unfold weightedMean
    linarith
  have hap : ∀ Z ∈ Ys, |((sim.applied Z).getD t (0, 0)).1| ≤ 1 ∧ |((sim.applied Z).getD t (0, 0)).2| ≤ 1 :=
    fun Z hZ => Rounded.planIn_getD (by norm_num) (hsim Z (h2 Z hZ).1) t
  have k1 := key (fun Z => ((sim.applied Z).getD t (0, 0)).1) fun Z hZ => (hap Z hZ).1
  have k2 := key (fun Z => ((sim.applied Z).getD t (0, 0)).2) fun Z hZ => (hap Z hZ).2
  have tri : ∀ {a b c x y : ℝ}, |a - b| ≤ x → |b - c| ≤ y → |a - c| ≤ y + x := fun h1 h2 =>
    (abs_sub_le _ _ _).trans (by linarith)
  exact ⟨tri q1 k1, tri q2 k2⟩

/-- C78: temperature 0.01 (the default), single precision with sums by pairs (error 2e-6), rewards up to five times
their spread: every weight is right to 6 %. -/
theorem C78_accuracy_default (acc : PlanAccurate A 20000 1.2e-7 2e-6 m p 1e-16)
    (f : PlanFine 20000 1.2e-7 2e-6 m p 1e-16) (cfg : Cfg) (ht : cfg.temp = 0.01) (hdm : cfg.enableDemo = false)
    (sim : Sim) (rewXref : ℝ) {Ys : List (List U)} (hN : Ys.length ≤ 20000)
    (hσ : 1.3e-4 ≤ spread (Ys.map sim.reward))
    (hR : ∀ Y ∈ Ys, |sim.reward Y| ≤ 5 * spread (Ys.map sim.reward)) {i : ℕ} (hi : i < Ys.length) :
    |(Rounded.batchWeights A cfg sim rewXref Ys).getD i 0 - exactWeight cfg sim rewXref Ys (Ys.getD i [])| ≤
      0.06 * exactWeight cfg sim rewXref Ys (Ys.getD i []) + 3e-16 := by
  have h := C78_accuracy acc f (by norm_num) cfg (by rw [ht]; norm_num) (by rw [ht]; norm_num)
    (by rw [ht]; norm_num) sim rewXref hN hσ hR (by rw [hdm]; simp) (by norm_num) hi
  have w0 : 0 ≤ exactWeight cfg sim rewXref Ys (Ys.getD i []) := by
    unfold exactWeight
    refine div_nonneg (exp_pos _).le (List.sum_nonneg ?_)
    intro x hx; obtain ⟨_, -, rfl⟩ := List.mem_map.mp hx; exact (exp_pos _).le
  have hδ : 4.4 * logitTol 1.2e-7 2e-6 5 cfg.temp ≤ 0.053 := by
    unfold logitTol; rw [ht]; norm_num
  have hr : relTol 20000 1.2e-7 2e-6 1e-16 ≤ 1e-5 := by unfold relTol; norm_num
  have he : weightErr 20000 1.2e-7 2e-6 1e-16 5 cfg.temp ≤ 0.06 := by
    unfold weightErr
    have e1 : exp (4.4 * logitTol 1.2e-7 2e-6 5 cfg.temp) ≤ 1.056 := by
      refine (exp_le_exp.mpr hδ).trans ?_
      have h2 := Real.exp_bound' (x := 0.053) (by norm_num) (by norm_num) (n := 3) (by norm_num)
      refine h2.trans ?_
      norm_num [Finset.sum_range_succ, Nat.factorial]
    have e2 : exp (4.4 * logitTol 1.2e-7 2e-6 5 cfg.temp) * (1 + relTol 20000 1.2e-7 2e-6 1e-16) ≤ 1.056 * (1 + 1e-5) :=
      mul_le_mul e1 (by linarith) (by unfold relTol; norm_num) (by norm_num)
    linarith
  refine h.trans ?_
  have := mul_le_mul_of_nonneg_right he w0
  linarith

/-! ## Examples -/

/-- Two plans with rewards ±1 (spread 1). -/
theorem two_spread : spread [1, -1] = 1 := by
  unfold spread; norm_num

example (cfg : Cfg) (ht : cfg.temp = 0.01) (hdm : cfg.enableDemo = false) :=
  C78_accuracy_default (i := 0) (Ys := [[(1, 0)], [(-1, 0)]]) (m := 1e-3) (p := 9e-6)
    (biased_acc 20000 (by norm_num) (by norm_num) (by norm_num) (by norm_num) (by norm_num))
    (by constructor <;> norm_num) cfg ht hdm ⟨fun Y => (Y.getD 0 (0, 0)).1, fun _ => 0, id⟩ 0 (by simp)
    (by simp [two_spread]; norm_num) (by simp [two_spread]) (by simp)

/-- The same with a demonstration. -/
example (cfg : Cfg) (ht : cfg.temp = 0.01) (sim : Sim)
    (hs : sim = ⟨fun Y => (Y.getD 0 (0, 0)).1, fun Y => (Y.getD 0 (0, 0)).1, id⟩) :=
  C78_accuracy (i := 1) (Ys := [[(1, 0)], [(-1, 0)]]) (k := 5)
    (biased_acc 20000 (u := 1.2e-7) (s := 2e-6) (m := 1e-3) (p := 9e-6) (η := 1e-16) (by norm_num) (by norm_num)
      (by norm_num) (by norm_num) (by norm_num))
    (by constructor <;> norm_num) (by norm_num) cfg (by rw [ht]; norm_num) (by rw [ht]; norm_num)
    (by rw [ht]; norm_num) sim 2 (by simp) (by subst hs; simp [two_spread]; norm_num)
    (by subst hs; simp [two_spread])
    (fun _ => by subst hs; simp [two_spread, listMax]; norm_num) (by norm_num) (by simp)

theorem biased_pos {e sg q : ℝ} (h : 0 < sg) (hq : 0 < q) :
    (0 < e → 0 < biased.add (biased.div (biased.mul e sg) (biased.sqrt q)) 0) ∧
    (e < 0 → biased.add (biased.div (biased.mul e sg) (biased.sqrt q)) 0 < 0) := by
  have hs : 0 < √q := Real.sqrt_pos.mpr hq
  have p : (0:ℝ) < 1 + 1e-7 := by norm_num
  have e1 : biased.add (biased.div (biased.mul e sg) (biased.sqrt q)) 0 =
      e * (sg * (1 + 1e-7) / (√q * (1 + 1e-7)) * (1 + 1e-7) * (1 + 1e-7)) := by
    simp only [biased]; ring
  have e2 : 0 < sg * (1 + 1e-7) / (√q * (1 + 1e-7)) * (1 + 1e-7) * (1 + 1e-7) := by positivity
  rw [e1]
  exact ⟨fun he => mul_pos he e2, fun he => mul_neg_of_neg_of_pos he e2⟩

/-- One step with two samples, drawn to either side, the first one rewarded. -/
example : ∃ (cfg : Cfg) (sim : Sim) (eps : ℕ → ℕ → U) (Y : List U),
    let Ys := Rounded.samplePlans biased cfg (clampGet (Rounded.schedule biased (linspace 1e-5 1e-2 100)).sigmas 99)
      (clampGet (Rounded.schedule biased (linspace 1e-5 1e-2 100)).alphasBar 98) eps Y
    let Y' := Rounded.reversePlan biased (Rounded.schedule biased (linspace 1e-5 1e-2 100)) cfg sim 0 eps 99 Y
    Ys.map sim.reward = [1, -1] ∧ ∀ t < cfg.Hsample,
      |(Y'.getD t (0, 0)).1 -
        (Ys.map fun Z => exactWeight cfg sim 0 Ys Z * ((sim.applied Z).getD t (0, 0)).1).sum| ≤
        weightErr 20000 1.2e-7 2e-6 1e-16 5 0.01 + 3 * 20000 * 1e-16 + stepTol 1.2e-7 1e-3 9e-6 1e-16 := by
  let cfg : Cfg := { defaultCfg with Nsample := 2, enableDemo := false, temp := 0.01, motionPreference := 0 }
  let sim : Sim := ⟨fun Y => if 0 < (Y.getD 0 (0, 0)).1 then 1 else -1, fun _ => 0, id⟩
  let eps : ℕ → ℕ → U := fun n _ => if n = 0 then (1, 0) else (-1, 0)
  have ok : LevelsOK (Rounded.schedule biased (linspace 1e-5 1e-2 100)) 100 1e-16 0.3 := by
    have h := biased_levels
    exact ⟨h.lenA, h.lenB, h.alpha, fun x hx => ⟨(h.bar x hx).1, by linarith [(h.bar x hx).2]⟩⟩
  have hab : ∀ j < 100, 0 < clampGet (Rounded.schedule biased (linspace 1e-5 1e-2 100)).alphasBar j ∧
      clampGet (Rounded.schedule biased (linspace 1e-5 1e-2 100)).alphasBar j < 1 := by
    intro j hj
    have := ok.bar _ (Rounded.clampGet_mem (i := j) (by rw [ok.lenB]; exact hj))
    exact ⟨by linarith [this.1], by linarith [this.2]⟩
  have hsg : 0 < clampGet (Rounded.schedule biased (linspace 1e-5 1e-2 100)).sigmas 99 := by
    have hl : (Rounded.schedule biased (linspace 1e-5 1e-2 100)).sigmas =
      (Rounded.schedule biased (linspace 1e-5 1e-2 100)).alphasBar.map fun ab => biased.sqrt (biased.sub 1 ab) := rfl
    have hlen := ok.lenB
    have hm : clampGet (Rounded.schedule biased (linspace 1e-5 1e-2 100)).sigmas 99 ∈
        (Rounded.schedule biased (linspace 1e-5 1e-2 100)).sigmas :=
      Rounded.clampGet_mem (by rw [hl, List.length_map, hlen]; norm_num)
    rw [hl] at hm
    obtain ⟨ab, hm1, hm2⟩ := List.mem_map.mp hm
    rw [hl, ← hm2]
    have h1 := ok.bar ab hm1
    have h2 : 0 < 1 - ab := by linarith [h1.2]
    change 0 < √((1 - ab) * (1 + 1e-7)) * (1 + 1e-7)
    positivity
  have hab98 := (hab 98 (by norm_num)).1
  refine ⟨cfg, sim, eps, zeroPlan cfg, ?_⟩
  intro Ys Y'
  have hrew : Ys.map sim.reward = [1, -1] := by
    have hp := biased_pos (e := 1) hsg hab98
    have hn := biased_pos (e := -1) hsg hab98
    have h1 := hp.1 (by norm_num)
    have h2 := hn.2 (by norm_num)
    have hz : zeroPlan cfg = (0, 0) :: List.replicate (cfg.Hsample - 1) ((0, 0) : U) := by
      simp [zeroPlan, cfg, defaultCfg, List.replicate_succ]
    simp only [Ys, Rounded.samplePlans, hz]
    simp only [cfg, List.range_succ, List.range_zero, List.nil_append, List.map_cons, List.map_nil,
      List.mapIdx_cons, sim, List.getD_cons_zero, eps, if_true, List.cons_append]
    have c1 : ∀ a b : ℝ, 0 < a → 0 < (clipSample 0 (a, b)).1 := fun a b h => by
      simp [clipSample, clipU, clip, h]
    have c2 : ∀ a b : ℝ, a < 0 → ¬ 0 < (clipSample 0 (a, b)).1 := fun a b h => by
      have h3 : max (-1) a ≤ 0 := max_le (by norm_num) h.le
      simp [clipSample, clipU, clip, h.le]
    simp [c1 _ _ h1, c2 _ _ h2]
  refine ⟨hrew, fun t ht => ?_⟩
  have := (C78_step_accuracy (k := 5) (biased_acc 20000 (u := 1.2e-7) (s := 2e-6) (m := 1e-3) (p := 9e-6) (η := 1e-16)
      (by norm_num) (by norm_num) (by norm_num) (by norm_num) (by norm_num)) (by constructor <;> norm_num) (by norm_num)
    cfg (by norm_num [cfg]) (by norm_num [cfg]) (by norm_num [cfg]) sim 0 (linspace 1e-5 1e-2 100) (c := 0.3)
    (by norm_num) (by norm_num) (by norm_num) ok (by norm_num [cfg]) (by norm_num [cfg]) (fun _ h => h) eps (i := 99)
    (by norm_num) (by norm_num [cfg, defaultCfg]) (Y := zeroPlan cfg) (by simp [zeroPlan])
    (fun a ha => by rw [List.eq_of_mem_replicate ha]; norm_num) (by norm_num)
    (by change 1.3e-4 ≤ spread (Ys.map sim.reward); rw [hrew, two_spread]; norm_num)
    (fun Z _ => by
      change |sim.reward Z| ≤ 5 * spread (Ys.map sim.reward)
      rw [hrew, two_spread]
      simp only [sim]; split_ifs <;> norm_num)
    (by simp [cfg]) t ht).1
  exact this

end Mbd
