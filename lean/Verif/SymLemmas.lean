import Verif.Planner
import Verif.PlanLemmas

/-!
# Symmetric planning tasks

Two robots whose steps correspond to each other under a change `g` of the vehicle state and a change of
sign `σ` of the steering are planned alike.
-/

namespace Spec

/-- The action with the steering multiplied by `σ` (`1`: same action, `-1`: steering to the other side). -/
def steer (σ : ℝ) (u : Mbd.U) : Mbd.U := (u.1, σ * u.2)

/-- The simulator state with the vehicle state changed by `g` and the recorded action by `steer σ`. -/
def acted {Q : Type} (g : Q → Q) (σ : ℝ) (s : Mbd.St Q) : Mbd.St Q :=
  { s with q := g s.q, obs := g s.obs, applied := steer σ s.applied }

/-- The planning task `E'` is `E` seen through `g` and `σ`, for vehicle states in `J`. -/
structure SameTask {Q : Type} (E E' : Mbd.PlanEnv Q) (g : Q → Q) (σ : ℝ) (J : Q → Prop) (cfg : Mbd.Cfg) :
    Prop where
  sign : σ = 1 ∨ σ = -1
  reset : ∀ k, E'.reset k = acted g σ (E.reset k) ∧ J (E.reset k).q
  step : ∀ s a, J s.q → E'.step (acted g σ s) (steer σ a) = acted g σ (E.step s a) ∧ J (E.step s a).q
  viz : cfg.enableGuidance = true →
    ∀ s a, J s.q → E'.stepViz (acted g σ s) (steer σ a) = acted g σ (E.stepViz s a) ∧ J (E.stepViz s a).q
  terminal : ∀ q, J q → E'.terminal (g q) = E.terminal q
  tw : E'.terminalWeight = E.terminalWeight
  sw : E'.steeringWeight = E.steeringWeight
  dm : E'.deltaMax = E.deltaMax
  demo : cfg.enableDemo = true → E'.rewXref = E.rewXref ∧ ∀ qs, (∀ q ∈ qs, J q) →
    E'.xrefLogpd cfg.motionPreference (qs.map g) = E.xrefLogpd cfg.motionPreference qs

end Spec

namespace Mbd

open Real Classical _root_.Spec

section
variable {Q : Type} {g : Q → Q} {σ : ℝ} {J : Q → Prop}

theorem steer_one (u : U) : steer 1 u = u := by simp [steer]

theorem map_steer_one (us : List U) : us.map (steer 1) = us := by
  rw [show steer 1 = id from funext steer_one, List.map_id]

theorem steer_zero : steer σ (0, 0) = (0, 0) := by simp [steer]

theorem clip_sign (hσ : σ = 1 ∨ σ = -1) (x : ℝ) : clip (σ * x) (-1) 1 = σ * clip x (-1) 1 := by
  rcases hσ with rfl | rfl
  · simp
  · unfold clip
    simp only [neg_mul, one_mul]
    rcases le_total x (-1) with h | h
    · rw [max_eq_left (by linarith : (-1 : ℝ) ≤ -x), min_eq_right (by linarith), max_eq_right h]
      norm_num
    · rcases le_total x 1 with h' | h'
      · rw [max_eq_left (by linarith : (-1 : ℝ) ≤ -x), min_eq_left (by linarith), max_eq_left h,
          min_eq_left h']
      · rw [max_eq_right (by linarith : -x ≤ (-1 : ℝ)), max_eq_left h, min_eq_right h']
        norm_num

theorem clipU_steer (hσ : σ = 1 ∨ σ = -1) (u : U) : clipU (steer σ u) = steer σ (clipU u) := by
  unfold clipU steer
  simp only [clip_sign hσ]

theorem clipSample_steer (hσ : σ = 1 ∨ σ = -1) (p : ℤ) (u : U) :
    clipSample p (steer σ u) = steer σ (clipSample p u) := by
  unfold clipSample
  simp only [clipU_steer hσ]
  rfl

theorem samplePlans_steer (hσ : σ = 1 ∨ σ = -1) (cfg : Cfg) (scale : ℝ) (eps : ℕ → ℕ → U) (Y : List U) :
    samplePlans cfg scale (fun n t => steer σ (eps n t)) (Y.map (steer σ)) =
      (samplePlans cfg scale eps Y).map (List.map (steer σ)) := by
  unfold samplePlans
  rw [List.map_map]
  apply List.map_congr_left
  intro n _
  simp only [Function.comp]
  apply List.ext_getElem
  · simp
  · intro t h1 h2
    simp only [List.getElem_mapIdx, List.getElem_map]
    rw [← clipSample_steer hσ]
    congr 1
    simp only [steer]
    exact Prod.ext (by ring) (by simp only; ring)

theorem steeringReward_steer (hσ : σ = 1 ∨ σ = -1) (dm : ℝ) (Y : List U) :
    steeringReward dm (Y.map (steer σ)) = steeringReward dm Y := by
  have habs : |σ| = 1 := by rcases hσ with rfl | rfl <;> simp
  unfold steeringReward
  simp only [List.map_map]
  have e1 : ((fun d : ℝ => 1 - |d| ^ 2) ∘ Prod.snd ∘ steer σ) = ((fun d : ℝ => 1 - |d| ^ 2) ∘ Prod.snd) := by
    funext u; simp only [Function.comp, steer, abs_mul, habs, one_mul]
  have e2 : ((fun x : ℝ => x * dm) ∘ Prod.snd ∘ steer σ) = (fun x => σ * x) ∘ ((fun x : ℝ => x * dm) ∘ Prod.snd) := by
    funext u; simp [steer, mul_assoc]
  rw [e1, e2, ← List.map_map (g := fun x => σ * x)]
  set l := List.map ((fun x : ℝ => x * dm) ∘ Prod.snd) Y
  have e3 : List.zipWith (fun a b => b - a) (l.map (fun x => σ * x)) (l.map (fun x => σ * x)).tail
      = (List.zipWith (fun a b => b - a) l l.tail).map (fun x => σ * x) := by
    rw [← List.map_tail, List.zipWith_map, List.map_zipWith]
    congr 1; funext a b; ring
  rw [e3, List.map_map]
  have e4 : ((fun d : ℝ => 1 - clip ((|d| / (0.1 * dm)) ^ 2) 0 1) ∘ fun x => σ * x)
      = fun d : ℝ => 1 - clip ((|d| / (0.1 * dm)) ^ 2) 0 1 := by
    funext d; simp [abs_mul, habs]
  rw [e4]

theorem getD_steer (Y : List U) (t : ℕ) : (Y.map (steer σ)).getD t (0, 0) = steer σ (Y.getD t (0, 0)) := by
  rw [List.getD_eq_getElem?_getD, List.getD_eq_getElem?_getD, List.getElem?_map]
  cases Y[t]? <;> simp [steer]

theorem weightedPlan_steer (h : ℕ) (w : List ℝ) (Ys : List (List U)) :
    weightedPlan h w (Ys.map (List.map (steer σ))) = (weightedPlan h w Ys).map (steer σ) := by
  unfold weightedPlan
  rw [List.map_map]
  apply List.map_congr_left
  intro t _
  simp only [Function.comp, List.zipWith_map_right, getD_steer, steer]
  congr 1
  have : (List.zipWith (fun (a : ℝ) (Y : List U) => a * (σ * (Y.getD t (0, 0)).2)) w Ys)
      = (List.zipWith (fun (a : ℝ) (Y : List U) => a * (Y.getD t (0, 0)).2) w Ys).map (fun x => σ * x) := by
    rw [List.map_zipWith]; congr 1; funext a Y; ring
  rw [this, List.sum_map_mul_left]
  simp

theorem rescale_sign (ab a abp y yb : ℝ) : rescale ab a abp (σ * y) (σ * yb) = σ * rescale ab a abp y yb := by
  unfold rescale
  simp only
  ring

/-- The scan of the symmetric task. -/
theorem scan_sym {step step' : St Q → U → St Q}
    (h : ∀ s a, J s.q → step' (acted g σ s) (steer σ a) = acted g σ (step s a) ∧ J (step s a).q) :
    ∀ (us : List U) (s : St Q), J s.q →
      scanStates step' (acted g σ s) (us.map (steer σ)) = (scanStates step s us).map (acted g σ) ∧
      finalState step' (acted g σ s) (us.map (steer σ)) = acted g σ (finalState step s us) ∧
      (∀ x ∈ scanStates step s us, J x.q) ∧ J (finalState step s us).q
  | [], s, hs => ⟨rfl, rfl, by simp [scanStates], hs⟩
  | u :: us, s, hs => by
    obtain ⟨e, hj⟩ := h s u hs
    obtain ⟨i1, i2, i3, i4⟩ := scan_sym h us (step s u) hj
    simp only [List.map_cons, scanStates, finalState, e, i1, i2, List.mem_cons, forall_eq_or_imp]
    exact ⟨trivial, trivial, ⟨hj, i3⟩, i4⟩

/-- The scored rollout of the symmetric task: same score, states changed by `g`, actions by `σ`. -/
theorem rollout_sym {step step' : St Q → U → St Q} {term term' : Q → ℝ} {w : ℝ}
    (h : ∀ s a, J s.q → step' (acted g σ s) (steer σ a) = acted g σ (step s a) ∧ J (step s a).q)
    (ht : ∀ q, J q → term' (g q) = term q) (s : St Q) (hs : J s.q) (us : List U) :
    (rolloutUsWithTerminal step' term' w (acted g σ s) (us.map (steer σ))).1
      = (rolloutUsWithTerminal step term w s us).1 ∧
    (rolloutUsWithTerminal step' term' w (acted g σ s) (us.map (steer σ))).2.1
      = (rolloutUsWithTerminal step term w s us).2.1.map g ∧
    (rolloutUsWithTerminal step' term' w (acted g σ s) (us.map (steer σ))).2.2
      = (rolloutUsWithTerminal step term w s us).2.2.map (steer σ) ∧
    ∀ q ∈ (rolloutUsWithTerminal step term w s us).2.1, J q := by
  have h0 := h s (0, 0) hs
  rw [steer_zero] at h0
  obtain ⟨e1, e2, e3, e4⟩ := scan_sym h us (step s (0, 0)) h0.2
  unfold rolloutUsWithTerminal warmState
  simp only [h0.1, e1, e2, List.map_map]
  refine ⟨?_, rfl, rfl, ?_⟩
  · rw [show (acted g σ (finalState step (step s (0, 0)) us)).q = g (finalState step (step s (0, 0)) us).q
      from rfl, ht _ e4]
    rfl
  · intro q hq
    obtain ⟨x, hx, rfl⟩ := List.mem_map.mp hq
    exact e3 x hx

end

section
variable {Q : Type} {g : Q → Q} {σ : ℝ} {J : Q → Prop} {E E' : PlanEnv Q} {cfg : Cfg}

theorem evalBatch_sym (H : SameTask E E' g σ J cfg) (s0 : St Q) (hs : J s0.q) (Ys : List (List U)) :
    (evalBatch E' cfg (acted g σ s0) (Ys.map (List.map (steer σ)))).ybar
      = (evalBatch E cfg s0 Ys).ybar.map (steer σ) ∧
    (evalBatch E' cfg (acted g σ s0) (Ys.map (List.map (steer σ)))).combined
      = (evalBatch E cfg s0 Ys).combined := by
  have hro := fun us => rollout_sym (w := E.terminalWeight) H.step H.terminal s0 hs us
  have hcomb : (evalBatch E' cfg (acted g σ s0) (Ys.map (List.map (steer σ)))).combined
      = (evalBatch E cfg s0 Ys).combined := by
    unfold evalBatch
    simp only [List.map_map, H.tw, H.sw, H.dm, List.zipWith_map_left, List.zipWith_map_right,
      List.zipWith_self, Function.comp]
    apply List.map_congr_left
    intro us _
    rw [(hro us).1, (hro us).2.2.1, steeringReward_steer H.sign]
  have hx : cfg.enableDemo = true →
      ((Ys.map (List.map (steer σ))).map fun us => E'.xrefLogpd cfg.motionPreference
        (rolloutUsWithTerminal E'.step E'.terminal E'.terminalWeight (acted g σ s0) us).2.1)
      = Ys.map fun us => E.xrefLogpd cfg.motionPreference
        (rolloutUsWithTerminal E.step E.terminal E.terminalWeight s0 us).2.1 := by
    intro hd
    rw [List.map_map]
    apply List.map_congr_left
    intro us _
    simp only [Function.comp, H.tw]
    rw [(hro us).2.1, (H.demo hd).2 _ (hro us).2.2.2]
  refine ⟨?_, hcomb⟩
  have hw : (evalBatch E' cfg (acted g σ s0) (Ys.map (List.map (steer σ)))).weights
      = (evalBatch E cfg s0 Ys).weights := by
    have hc := hcomb
    unfold evalBatch at hc ⊢
    simp only at hc ⊢
    rw [hc]
    congr 1
    unfold logWeights
    split_ifs with hd
    · rw [(H.demo hd).1]
      have := hx hd
      rw [List.map_map] at this
      congr 2
      simp only [List.map_map]
      exact this
    · rfl
  have he : (evalBatch E' cfg (acted g σ s0) (Ys.map (List.map (steer σ)))).eff
      = (evalBatch E cfg s0 Ys).eff.map (List.map (steer σ)) := by
    unfold evalBatch
    simp only [List.map_map, H.tw]
    apply List.map_congr_left
    intro us _
    exact (hro us).2.2.1
  have e : ∀ (F : PlanEnv Q) s (Z : List (List U)), (evalBatch F cfg s Z).ybar =
      weightedPlan cfg.Hsample (evalBatch F cfg s Z).weights (evalBatch F cfg s Z).eff := fun _ _ _ => rfl
  rw [e, e, hw, he, weightedPlan_steer]

theorem reverseOnce_sym (H : SameTask E E' g σ J cfg) (S : Schedule) (normal : Key → ℕ → ℕ → ℕ → ℕ → U)
    (s0 : St Q) (hs : J s0.q) (i : ℕ) (k : Key) (Y : List U) :
    reverseOnce E' S (fun k n h a t => steer σ (normal k n h a t)) cfg (acted g σ s0)
      (i, k, Y.map (steer σ)) =
    (((reverseOnce E S normal cfg s0 (i, k, Y)).1.1, (reverseOnce E S normal cfg s0 (i, k, Y)).1.2.1,
      (reverseOnce E S normal cfg s0 (i, k, Y)).1.2.2.map (steer σ)),
      (reverseOnce E S normal cfg s0 (i, k, Y)).2) := by
  unfold reverseOnce
  simp only
  rw [samplePlans_steer H.sign, (evalBatch_sym H s0 hs _).1, (evalBatch_sym H s0 hs _).2]
  refine Prod.ext (Prod.ext rfl (Prod.ext rfl ?_)) rfl
  simp only [List.zipWith_map, List.map_zipWith]
  congr 1
  funext y yb
  simp only [steer, rescale_sign]

theorem reverseLoop_sym {once once' : ℕ × Key × List U → (ℕ × Key × List U) × ℝ}
    (h : ∀ i k Y, (once' (i, k, Y.map (steer σ))).1 = ((once (i, k, Y)).1.1, (once (i, k, Y)).1.2.1,
      (once (i, k, Y)).1.2.2.map (steer σ))) (YN : List U) (rng : Key) :
    reverseLoop once' cfg (YN.map (steer σ)) rng =
      LoopSt.mk (reverseLoop once cfg YN rng).rng ((reverseLoop once cfg YN rng).Y.map (steer σ))
        ((reverseLoop once cfg YN rng).hist.map (List.map (steer σ))) := by
  unfold reverseLoop
  have key : ∀ (l : List ℕ) (st : LoopSt),
      l.foldl (reverseBody once' cfg.Ndiffuse)
        (LoopSt.mk st.rng (st.Y.map (steer σ)) (st.hist.map (List.map (steer σ)))) =
      LoopSt.mk (l.foldl (reverseBody once cfg.Ndiffuse) st).rng
        ((l.foldl (reverseBody once cfg.Ndiffuse) st).Y.map (steer σ))
        ((l.foldl (reverseBody once cfg.Ndiffuse) st).hist.map (List.map (steer σ))) := by
    intro l
    induction l with
    | nil => intro st; rfl
    | cons a l ih =>
      intro st
      simp only [List.foldl_cons]
      rw [← ih]
      congr 1
      unfold reverseBody
      simp only [h, List.map_set]
  have := key (List.range (cfg.Ndiffuse - 1))
    (LoopSt.mk rng YN (List.replicate (cfg.Ndiffuse - 1) (List.replicate cfg.Hsample (0, 0))))
  simp only [List.map_replicate, steer_zero] at this
  exact this

/-- **Symmetric tasks are planned alike**: with the noise changed in the same way, every plan of the
history and the returned plan are changed by `σ`, the returned states by `g`, and the reward is the same. -/
theorem plan_sym (H : SameTask E E' g σ J cfg) (normal : Key → ℕ → ℕ → ℕ → ℕ → U) :
    (runDiffusion E' (fun k n h a t => steer σ (normal k n h a t)) cfg).rew
      = (runDiffusion E normal cfg).rew ∧
    (runDiffusion E' (fun k n h a t => steer σ (normal k n h a t)) cfg).Y0
      = (runDiffusion E normal cfg).Y0.map (steer σ) ∧
    (runDiffusion E' (fun k n h a t => steer σ (normal k n h a t)) cfg).xs
      = (runDiffusion E normal cfg).xs.map g ∧
    (runDiffusion E' (fun k n h a t => steer σ (normal k n h a t)) cfg).hist
      = (runDiffusion E normal cfg).hist.map (List.map (steer σ)) := by
  obtain ⟨hr, hj⟩ := H.reset keyReset
  set s0 := E.reset keyReset with hs0
  have hz : zeroPlan cfg = (zeroPlan cfg).map (steer σ) := by
    unfold zeroPlan; rw [List.map_replicate, steer_zero]
  have hl := reverseLoop_sym (σ := σ) (cfg := cfg)
    (once := reverseOnce E (mkSchedule cfg.beta0 cfg.betaT cfg.Ndiffuse) normal cfg s0)
    (once' := reverseOnce E' (mkSchedule cfg.beta0 cfg.betaT cfg.Ndiffuse)
      (fun k n h a t => steer σ (normal k n h a t)) cfg (acted g σ s0))
    (fun i k Y => by rw [reverseOnce_sym H _ normal s0 hj]) (zeroPlan cfg) keyExp
  rw [← hz] at hl
  have hro := fun us => rollout_sym (w := E.terminalWeight) H.step H.terminal s0 hj us
  unfold runDiffusion
  simp only [hr, hl, ← hs0, H.tw]
  set L := reverseLoop (reverseOnce E (mkSchedule cfg.beta0 cfg.betaT cfg.Ndiffuse) normal cfg s0) cfg
    (zeroPlan cfg) keyExp
  rw [(hro L.Y).2.2.1]
  refine ⟨(hro _).1, rfl, ?_, trivial⟩
  simp only [List.map_cons, List.map_map]
  congr 1
  by_cases hg : cfg.enableGuidance = true
  · simp only [hg, if_true]
    rw [(scan_sym (H.viz hg) _ s0 hj).1, List.map_map]
    rfl
  · simp only [hg, if_false, Bool.false_eq_true]
    rw [(scan_sym H.step _ s0 hj).1, List.map_map]
    rfl

end

end Mbd
