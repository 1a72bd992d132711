import Verif.PropsWeights
import Verif.PropsShield
import Verif.PropsMotion
import Verif.Demo

/-!
# Lemmas about whole runs of the planner
-/

namespace Mbd

open Real Classical

/-- An action with the first component in `[a,b]` and the second in `[-1,1]`. -/
def InRange (a b : ℝ) (u : U) : Prop := a ≤ u.1 ∧ u.1 ≤ b ∧ -1 ≤ u.2 ∧ u.2 ≤ 1

theorem inRange_box (u : U) : InRange (-1) 1 u ↔ Spec.InBox u := by
  unfold InRange Spec.InBox
  rw [abs_le, abs_le, and_assoc]

theorem convex_sum {a b : ℝ} (ha : a ≤ 0) (hb : 0 ≤ b) {α : Type} (f : α → ℝ) :
    ∀ (w : List ℝ) (Ys : List α), (∀ x ∈ w, 0 ≤ x) → (∀ Y ∈ Ys, a ≤ f Y ∧ f Y ≤ b) →
    w.sum * a ≤ (List.zipWith (fun x Y => x * f Y) w Ys).sum ∧
    (List.zipWith (fun x Y => x * f Y) w Ys).sum ≤ w.sum * b := by
  intro w
  induction w with
  | nil => intro Ys _ _; simp
  | cons x w ih =>
    intro Ys hw hY
    cases Ys with
    | nil =>
      have : 0 ≤ (x :: w).sum := List.sum_nonneg hw
      simp only [List.zipWith_nil_right, List.sum_nil]
      constructor <;> nlinarith
    | cons Y Ys =>
      obtain ⟨h1, h2⟩ := ih Ys (fun x hx => hw x (by simp [hx])) (fun Y hY' => hY Y (by simp [hY']))
      have hx := hw x (by simp)
      have hy := hY Y (by simp)
      simp only [List.zipWith_cons_cons, List.sum_cons]
      constructor <;> nlinarith

theorem getD_inRange {a b : ℝ} (ha : a ≤ 0) (hb : 0 ≤ b) {Y : List U} (h : ∀ u ∈ Y, InRange a b u)
    (t : ℕ) : InRange a b (Y.getD t (0, 0)) := by
  rcases Nat.lt_or_ge t Y.length with ht | ht
  · rw [List.getD_eq_getElem _ _ ht]; exact h _ (List.getElem_mem ht)
  · rw [List.getD_eq_default _ _ ht]
    exact ⟨ha, hb, by norm_num, by norm_num⟩

/-- A convex combination of plans with actions in range has actions in range. -/
theorem weightedPlan_inRange {a b : ℝ} (ha : a ≤ 0) (hb : 0 ≤ b) (h : ℕ) (w : List ℝ)
    (Ys : List (List U)) (hw : ∀ x ∈ w, 0 ≤ x) (hs : w.sum ≤ 1)
    (hY : ∀ Y ∈ Ys, ∀ u ∈ Y, InRange a b u) : ∀ u ∈ weightedPlan h w Ys, InRange a b u := by
  intro u hu
  unfold weightedPlan at hu
  obtain ⟨t, -, rfl⟩ := List.mem_map.mp hu
  have c1 := convex_sum ha hb (fun Y : List U => (Y.getD t (0, 0)).1) w Ys hw
    (fun Y hY' => ⟨(getD_inRange ha hb (hY Y hY') t).1, (getD_inRange ha hb (hY Y hY') t).2.1⟩)
  have c2 := convex_sum (a := -1) (b := 1) (by norm_num) (by norm_num)
    (fun Y : List U => (Y.getD t (0, 0)).2) w Ys hw
    (fun Y hY' => ⟨(getD_inRange ha hb (hY Y hY') t).2.2.1, (getD_inRange ha hb (hY Y hY') t).2.2.2⟩)
  have h0 : 0 ≤ w.sum := List.sum_nonneg hw
  refine ⟨?_, ?_, ?_, ?_⟩ <;> simp only <;> nlinarith [c1.1, c1.2, c2.1, c2.2]

theorem evalBatch_eff {Q : Type} (E : PlanEnv Q) (cfg : Cfg) (s0 : St Q) (Ys : List (List U)) :
    (evalBatch E cfg s0 Ys).eff =
      Ys.map fun Y => (scanStates E.step (warmState E.step s0) Y).map St.applied := by
  simp [evalBatch, rolloutUsWithTerminal, Function.comp_def]

theorem softmax_sum_le_one (l : List ℝ) : (softmax l).sum ≤ 1 := by
  rcases eq_or_ne l [] with rfl | h
  · simp [softmax]
  · exact (softmax_sum h).le

theorem scan_applied_mem {Q : Type} {step : St Q → U → St Q} (Inv : St Q → Prop)
    (hinv : ∀ s u, Inv s → Inv (step s u)) (R R' : U → Prop)
    (h : ∀ s u, Inv s → R u → R' (step s u).applied) : ∀ (us : List U) (s : St Q), Inv s →
    (∀ u ∈ us, R u) → ∀ u ∈ (scanStates step s us).map St.applied, R' u := by
  intro us
  induction us with
  | nil => intro s _ _ u hu; simp [scanStates] at hu
  | cons x us ih =>
    intro s hs hus u hu
    simp only [scanStates, List.map_cons, List.mem_cons] at hu
    rcases hu with rfl | hu
    · exact h s x hs (hus x (by simp))
    · exact ih (step s x) (hinv s x hs) (fun y hy => hus y (by simp [hy])) u hu

/-- The plan after any number of iterations has `Hsample` actions in the given range, if executing
a (clipped) sample always records an action in the range. -/
theorem denoised_inRange {Q : Type} (E : PlanEnv Q) {b0 bT : ℝ} (h0 : 0 < b0) (h1 : b0 ≤ bT)
    (h2 : bT < 1) (normal : Key → ℕ → ℕ → ℕ → ℕ → U) (cfg : Cfg) (s0 : St Q) (k0 : Key) {a b : ℝ}
    (ha : a ≤ 0) (hb : 0 ≤ b) (Inv : St Q → Prop) (hinv0 : Inv s0)
    (hinv : ∀ s u, Inv s → Inv (E.step s u))
    (hstep : ∀ s u, Inv s → InRange a b (E.step s (clipSample cfg.motionPreference u)).applied) :
    ∀ m ≤ cfg.Ndiffuse - 1,
    (Spec.denoised (reverseOnce E (mkSchedule b0 bT cfg.Ndiffuse) normal cfg s0) cfg.Ndiffuse k0
      (zeroPlan cfg) m).2.length = cfg.Hsample ∧
    ∀ u ∈ (Spec.denoised (reverseOnce E (mkSchedule b0 bT cfg.Ndiffuse) normal cfg s0) cfg.Ndiffuse
      k0 (zeroPlan cfg) m).2, InRange a b u := by
  intro m
  induction m with
  | zero =>
    intro _
    refine ⟨by simp [Spec.denoised, zeroPlan], ?_⟩
    intro u hu
    simp only [Spec.denoised, zeroPlan] at hu
    rw [List.eq_of_mem_replicate hu]
    exact ⟨ha, hb, by norm_num, by norm_num⟩
  | succ m ih =>
    intro hm
    obtain ⟨i1, -⟩ := ih (by omega)
    simp only [Spec.denoised]
    rw [C21_reverse_step E h0 h1 h2 normal cfg s0 (cfg.Ndiffuse - 1 - m) (by omega) (by omega) _ _ i1]
    simp only
    refine ⟨by simp, ?_⟩
    apply weightedPlan_inRange ha hb
    · intro x hx; exact (softmax_pos hx).le
    · exact softmax_sum_le_one _
    · intro Y hY
      rw [evalBatch_eff] at hY
      obtain ⟨Z, hZ, rfl⟩ := List.mem_map.mp hY
      refine scan_applied_mem Inv hinv (fun u => ∃ v, u = clipSample cfg.motionPreference v)
        (InRange a b) ?_ Z _ (hinv _ _ hinv0) ?_
      · rintro s u hs ⟨v, rfl⟩; exact hstep s v hs
      · intro u hu
        unfold samplePlans at hZ
        obtain ⟨n, -, rfl⟩ := List.mem_map.mp hZ
        obtain ⟨t, ht, rfl⟩ := List.mem_iff_getElem.mp hu
        rw [List.getElem_mapIdx]
        exact ⟨_, rfl⟩

/-- The returned plan and every row of the history have `Hsample` actions in range. -/
theorem run_inRange {Q : Type} (E : PlanEnv Q) (normal : Key → ℕ → ℕ → ℕ → ℕ → U) (cfg : Cfg)
    (h0 : 0 < cfg.beta0) (h1 : cfg.beta0 ≤ cfg.betaT) (h2 : cfg.betaT < 1) {a b : ℝ}
    (ha : a ≤ 0) (hb : 0 ≤ b) (Inv : St Q → Prop) (hinv0 : Inv (E.reset keyReset))
    (hinv : ∀ s u, Inv s → Inv (E.step s u))
    (hstep : ∀ s u, Inv s → InRange a b (E.step s (clipSample cfg.motionPreference u)).applied)
    (hstep' : ∀ s u, Inv s → InRange a b u → InRange a b (E.step s u).applied) :
    (runDiffusion E normal cfg).Y0.length = cfg.Hsample ∧
    (∀ u ∈ (runDiffusion E normal cfg).Y0, InRange a b u) ∧
    (runDiffusion E normal cfg).hist.length = cfg.Ndiffuse - 1 ∧
    ∀ row ∈ (runDiffusion E normal cfg).hist, row.length = cfg.Hsample ∧ ∀ u ∈ row, InRange a b u := by
  have hd := denoised_inRange E h0 h1 h2 normal cfg (E.reset keyReset) keyExp ha hb Inv hinv0 hinv
    hstep
  obtain ⟨c1, c2, c3, -⟩ := C20_history (reverseOnce E (mkSchedule cfg.beta0 cfg.betaT cfg.Ndiffuse)
    normal cfg (E.reset keyReset)) cfg (zeroPlan cfg) keyExp
  obtain ⟨d1, d2⟩ := hd (cfg.Ndiffuse - 1) le_rfl
  rw [← c3] at d1 d2
  refine ⟨?_, ?_, c1, ?_⟩
  · simp only [runDiffusion, rolloutUsWithTerminal, List.length_map, scanStates_length]
    exact d1
  · simp only [runDiffusion, rolloutUsWithTerminal]
    exact scan_applied_mem Inv hinv (InRange a b) (InRange a b) hstep' _ _ (hinv _ _ hinv0) d2
  · intro row hrow
    obtain ⟨k, hk, rfl⟩ := List.mem_iff_getElem.mp hrow
    have hk' : k < cfg.Ndiffuse - 1 := by rw [← c1]; exact hk
    have e : (runDiffusion E normal cfg).hist.getD k [] = _ := c2 k hk'
    rw [List.getD_eq_getElem _ _ hk] at e
    have := hd (k + 1) (by omega)
    rw [← e] at this
    exact this

/-! ## The train with its total step -/

theorem NTrailer.stepTotal_ok (T : NTrailer) (guide : QN → QN) (hp : T.enableProjection = false)
    (s : St QN) (hl : s.q.ths.length = T.N) (a : U) :
    T.step guide s a = .ok (T.stepTotal guide false s a) := by
  obtain ⟨s', h⟩ := (T.step_ok_iff guide s a).mpr ⟨hl, hp⟩
  rw [h]
  unfold NTrailer.stepTotal
  rw [show T.stepInternal guide false s a = .ok s' from h]

theorem NTrailer.stepTotal_length (T : NTrailer) (guide : QN → QN) (s : St QN)
    (hp : T.enableProjection = false) (hl : s.q.ths.length = T.N) (a : U) :
    (T.stepTotal guide false s a).q.ths.length = T.N :=
  T.step_length' guide s _ a (T.stepTotal_ok guide hp s hl a)

/-- The total scan is the scan of the code, which raises nothing. -/
theorem NTrailer.scanTotal_ok (T : NTrailer) (guide : QN → QN) (hp : T.enableProjection = false) :
    ∀ (us : List U) (s : St QN), s.q.ths.length = T.N →
    scanStatesE (T.step guide) s us = .ok (scanStates (T.stepTotal guide false) s us) := by
  intro us
  induction us with
  | nil => intro s _; rfl
  | cons u us ih =>
    intro s hl
    rw [scanStatesE, T.stepTotal_ok guide hp s hl u]
    simp only [ih _ (T.stepTotal_length guide s hp hl u)]
    rfl

/-! ## Directions -/

theorem clip_nonneg {x : ℝ} (h : 0 ≤ x) : 0 ≤ clip x (-1) 1 := by
  unfold clip; exact le_min (h.trans (le_max_left _ _)) zero_le_one

theorem clip_nonpos {x : ℝ} (h : x ≤ 0) : clip x (-1) 1 ≤ 0 := by
  unfold clip
  exact (min_le_left _ _).trans (max_le h (by norm_num))

theorem clipSample_two (u : U) : 0 ≤ (clipSample 2 u).1 := by
  simp only [clipSample, if_true]
  unfold clip; exact le_min (le_max_right _ _) zero_le_one

theorem clipSample_neg_two (u : U) : (clipSample (-2) u).1 ≤ 0 := by
  simp only [clipSample, show ((-2 : ℤ) = 2) = False by decide, if_false, if_true]
  exact min_le_right _ _

/-- What a kinematic step records: nothing, or the clipped request. -/
def RecordsClipped {Q : Type} (step : St Q → U → St Q) (Inv : St Q → Prop) : Prop :=
  ∀ s u, Inv s → (step s u).applied = (0, 0) ∨ (step s u).applied = clipU u

theorem tt2d_records (T : TT2d) (ext : Ext Q4) (hp : T.enableProjection = false) :
    RecordsClipped (T.step ext) (fun _ => True) := by
  intro s u _
  cases hg : T.enableGuidance
  · rw [TT2d.step_applied T ext hp hg]
    split <;> simp
  · rw [(TT2d.step_guided T ext hp hg s u).2]
    unfold effAction
    split <;> simp

theorem bicycle_records (T : Bicycle) (ext : Ext Q3) (hp : T.enableProjection = false) :
    RecordsClipped (T.step ext) (fun _ => True) := by
  intro s u _
  cases hg : T.enableGuidance
  · rw [Bicycle.step_applied T ext hp hg]
    split <;> simp
  · rw [(Bicycle.step_guided T ext hp hg s u).2]
    unfold effAction
    split <;> simp

theorem ntrailer_records (T : NTrailer) (guide : QN → QN) (hp : T.enableProjection = false) :
    RecordsClipped (T.stepTotal guide false) (fun s => s.q.ths.length = T.N) := by
  intro s u hl
  have h := T.stepTotal_ok guide hp s hl u
  cases hg : T.enableGuidance
  · rw [(T.step_spec guide hg s _ u h).2.1]
    split <;> simp
  · rw [(T.step_guided guide hg s _ u h).2.1]
    unfold effAction
    split <;> simp

theorem RecordsClipped.inRange {Q : Type} {step : St Q → U → St Q} {Inv : St Q → Prop}
    (h : RecordsClipped step Inv) (s : St Q) (u : U) (hs : Inv s) :
    InRange (-1) 1 (step s u).applied := by
  rw [inRange_box]
  rcases h s u hs with e | e <;> rw [e]
  · exact inBox_zero
  · exact inBox_clipU u

theorem RecordsClipped.forward {Q : Type} {step : St Q → U → St Q} {Inv : St Q → Prop}
    (h : RecordsClipped step Inv) (s : St Q) (u : U) (hs : Inv s) (hu : 0 ≤ u.1) :
    InRange 0 1 (step s u).applied := by
  have hb := h.inRange s u hs
  refine ⟨?_, hb.2.1, hb.2.2.1, hb.2.2.2⟩
  rcases h s u hs with e | e <;> rw [e]
  exact clip_nonneg hu

theorem RecordsClipped.backward {Q : Type} {step : St Q → U → St Q} {Inv : St Q → Prop}
    (h : RecordsClipped step Inv) (s : St Q) (u : U) (hs : Inv s) (hu : u.1 ≤ 0) :
    InRange (-1) 0 (step s u).applied := by
  have hb := h.inRange s u hs
  refine ⟨hb.1, ?_, hb.2.2.1, hb.2.2.2⟩
  rcases h s u hs with e | e <;> rw [e]
  exact clip_nonpos hu

end Mbd
