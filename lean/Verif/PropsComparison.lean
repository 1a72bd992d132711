import Verif.Comparison
import Verif.PropsCacheGuide
import Verif.PropsFrames
import Verif.PropsAcc

/-!
# C71: the comparison run of a guided plan

After a run with guidance the planner shows the vehicle along a second execution of the planned
actions, made with the robot's guidance flag switched off.
-/

namespace Spec

open Mbd

/-- `xs` is a trajectory of the motion `move` under the actions `us`: one state more than actions, and
every state is the motion of the previous one. -/
def Executes {Q : Type} (move : Q → U → Q) : List Q → List U → Prop
  | [_], [] => True
  | q :: q' :: xs, u :: us => q' = move q u ∧ Executes move (q' :: xs) us
  | _, _ => False

end Spec

namespace Mbd

open Real Classical

variable {Q : Type}

/-- Which step function the comparison run uses: the recorded trace of the robot's own `step` if there is
one (from earlier or from this run), the step without guidance otherwise. -/
theorem comparison_step (w : World Q) (o : ℕ) (normal : Key → ℕ → ℕ → ℕ → ℕ → U) (cfg : Cfg)
    (hg : cfg.enableGuidance = true) :
    ∃ f, (w.run o normal cfg).1.stepTr o = some f ∧
      w.comparison o normal cfg = some (((w.resetTr o).getD (w.heap o).view.reset keyReset).q ::
        (scanStates f ((w.resetTr o).getD (w.heap o).view.reset keyReset)
          (w.run o normal cfg).2.Y0).map St.q) := by
  have h1 : ∃ f, (w.run o normal cfg).1.stepTr o = some f := by
    simp only [World.run, hg, if_true]
    exact ⟨_, touch_same _ _ _⟩
  obtain ⟨f, hf⟩ := h1
  refine ⟨f, hf, ?_⟩
  unfold World.comparison
  simp only [hg, if_true, hf, Option.getD_some]

/-- **C71 (shape).** Whatever was run before, the comparison run exists exactly for runs with guidance,
starts at the same state as the returned trajectory and has one state per planned action and one more. -/
theorem C71_shape (w : World Q) (o : ℕ) (normal : Key → ℕ → ℕ → ℕ → ℕ → U) (cfg : Cfg) :
    ((w.comparison o normal cfg).isSome ↔ cfg.enableGuidance = true) ∧
    ∀ xs, w.comparison o normal cfg = some xs → xs.length = (w.run o normal cfg).2.Y0.length + 1 ∧
      xs.length = (w.run o normal cfg).2.xs.length ∧ xs.head? = (w.run o normal cfg).2.xs.head? := by
  constructor
  · unfold World.comparison
    cases cfg.enableGuidance <;> simp
  · intro xs h
    have hg : cfg.enableGuidance = true := by
      by_contra hc
      unfold World.comparison at h
      simp [hc] at h
    obtain ⟨f, -, he⟩ := comparison_step w o normal cfg hg
    rw [he] at h
    obtain rfl := Option.some.inj h
    have hv : (World.withDemo (w.heap o) cfg).view.reset = (w.heap o).view.reset := by
      unfold World.withDemo; split <;> rfl
    have hx : (w.run o normal cfg).2.xs = ((w.resetTr o).getD (w.heap o).view.reset keyReset).q ::
        (scanStates ((w.vizTr o).getD (World.withDemo (w.heap o) cfg).view.stepViz)
          ((w.resetTr o).getD (w.heap o).view.reset keyReset) (w.run o normal cfg).2.Y0).map St.q := by
      simp only [World.run, hg, if_true, Function.update_self, hv]
    rw [hx]
    simp [scanStates_length]

/-- **C71 (which motion is shown).** After `clear_jit_cache` (or in a new process), for a robot whose
attributes were not reassigned since it was first used, the comparison run replays the robot's own
guided `step` - the attribute switched off for it is not read again. -/
theorem C71_replayed (heap : ℕ → Obj Q) (o : ℕ) (before after : List (Op Q))
    (hb : ∀ op ∈ before, Op.NotUsing o op)
    (ha : ∀ op ∈ after, Op.Keeps o (((World.init heap).history before).heap o) op)
    (normal : Key → ℕ → ℕ → ℕ → ℕ → U) (cfg : Cfg) (hg : cfg.enableGuidance = true) :
    let x := (((World.init heap).history before).heap o)
    let s0 := x.view.reset keyReset
    (((World.init heap).history before).history after).clear.comparison o normal cfg =
      some (s0.q :: (scanStates x.view.step s0
        (runDiffusion (World.withDemo x cfg).view normal cfg).Y0).map St.q) := by
  intro x s0
  have hr := C29_cleared heap o before after hb ha normal cfg
  have hu := World.history_unused before (World.init_unused heap o) hb
  have hc := World.history_clean after hu.clean ha
  have hc' : World.Clean (((World.init heap).history before).history after).clear o x :=
    ⟨hc.core, hc.reset, hc.step, hc.viz, hc.term⟩
  obtain ⟨f, hf, he⟩ := comparison_step
    (((World.init heap).history before).history after).clear o normal cfg hg
  have h3 := (World.run_clean hc' o normal cfg (fun _ _ => Or.inr (by simp [World.clear]))).step
  rw [hf] at h3
  rcases h3 with h3 | h3
  · simp at h3
  · have hv : ((((World.init heap).history before).history after).clear.heap o).view.reset = x.view.reset := by
      obtain ⟨-, -, a, b, hv⟩ := hc'.core
      rw [hv]
    rw [he, hr, hv, hc'.reset.getD, Option.some.inj h3]

example (ext : Ext Q4) (robots : ℕ → TT2d) (n : Key → ℕ → ℕ → ℕ → ℕ → U) (cfg : Cfg) :=
  C71_replayed (fun i => (robots i).obj ext) 0 [.run 1 n cfg] [.clear] (by simp [Op.NotUsing])
    (by simp [Op.Keeps]) n { cfg with enableGuidance := true } rfl

/-- **C71 (second robot).** If the run uses the functions of an earlier robot of the same class and the
robot itself was never used before, the comparison run is made with the robot's step without guidance. -/
theorem C71_second_robot (heap : ℕ → Obj Q) {a b : ℕ} (hab : a ≠ b)
    (hcls : (heap a).cls = (heap b).cls) (n1 n2 : Key → ℕ → ℕ → ℕ → ℕ → U) (c1 c2 : Cfg)
    (hg1 : c1.enableGuidance = false) (hg2 : c2.enableGuidance = true) :
    let w := ((World.init heap).run a n1 c1).1
    let s0 := (heap b).view.reset keyReset
    w.comparison b n2 c2 = some (s0.q :: (scanStates (heap b).stepOff s0 (w.run b n2 c2).2.Y0).map St.q) := by
  intro w s0
  have hc1 : ∀ (x : Obj Q) (c : Cfg), (World.withDemo x c).cls = x.cls := fun x c =>
    ((World.Core.refl x).withDemo c).1
  have hc2 : ∀ (x : Obj Q) (c : Cfg), (World.withDemo x c).stepOff = x.stepOff := fun x c =>
    ((World.Core.refl x).withDemo c).2.1.2
  have hb : w.heap b = heap b := by
    simp only [w, World.run, World.init]
    rw [Function.update_of_ne hab.symm]
  have hfu : w.funcs (heap b).cls = some (0, a) := by
    simp only [w, World.run, World.init, hg1, Function.update_self, hc1, hcls]
    simp
  have hrv : ∃ r, w.rev = some r ∧ r.handle = (0, a) := by
    simp only [w, World.run, World.init, hg1, Option.getD_none, Bool.false_eq_true,
      if_false, Option.some.injEq, exists_eq_left']
  have hst : w.stepTr b = none := by
    simp only [w, World.run, World.init, hg1, Option.getD_none, Bool.false_eq_true, if_false]
    rw [touch_ne _ hab.symm, touch_ne _ hab.symm]
  have hrs : w.resetTr b = none := by
    simp only [w, World.run, World.init]
    rw [touch_ne _ hab.symm]
  obtain ⟨r, hr, hrh⟩ := hrv
  have hst2 : (w.run b n2 c2).1.stepTr b = some (heap b).stepOff := by
    simp only [World.run, hg2, if_true, Function.update_self, hb, hc1, hfu, Option.getD_some, hr, hrh]
    rw [touch_same, touch_ne _ hab.symm, touch_ne _ hab.symm, hst, hc2]
    rfl
  obtain ⟨f, hf, he⟩ := comparison_step w b n2 c2 hg2
  rw [hst2] at hf
  obtain rfl := Option.some.inj hf
  rw [he, hrs, hb]
  rfl

example (ext : Ext Q4) (robots : ℕ → TT2d) (n : Key → ℕ → ℕ → ℕ → ℕ → U) (cfg : Cfg) :=
  C71_second_robot (fun i => (robots i).obj ext) (a := 0) (b := 1) (by norm_num) rfl n n
    { cfg with enableGuidance := false } { cfg with enableGuidance := true } rfl rfl

/-- **C71 (second robot)** for `TractorTrailer2d`: the shown trajectory is the second robot's own, stepped with its guidance
switch off. -/
theorem C71_second_tt2d (ext : Ext Q4) (robots : ℕ → TT2d) {a b : ℕ} (hab : a ≠ b)
    (n1 n2 : Key → ℕ → ℕ → ℕ → ℕ → U) (c1 c2 : Cfg) (hg1 : c1.enableGuidance = false)
    (hg2 : c2.enableGuidance = true) :
    let w := ((World.init fun i => (robots i).obj ext).run a n1 c1).1
    w.comparison b n2 c2 = some ((robots b).reset.q :: (scanStates
      ({ robots b with enableGuidance := false }.step ext) (robots b).reset (w.run b n2 c2).2.Y0).map St.q) :=
  C71_second_robot (fun i => (robots i).obj ext) hab rfl n1 n2 c1 c2 hg1 hg2

/-- **C71 (second robot)** for `KinematicBicycle2d`: the shown trajectory is the second robot's own, stepped with its guidance
switch off. -/
theorem C71_second_bicycle (ext : Ext Q3) (robots : ℕ → Bicycle) (demo : ℕ → ℤ → (ℤ → List Q3 → ℝ) × ℝ) {a b : ℕ} (hab : a ≠ b)
    (n1 n2 : Key → ℕ → ℕ → ℕ → ℕ → U) (c1 c2 : Cfg) (hg1 : c1.enableGuidance = false)
    (hg2 : c2.enableGuidance = true) :
    let w := ((World.init fun i => (robots i).obj ext (demo i)).run a n1 c1).1
    w.comparison b n2 c2 = some ((robots b).reset.q :: (scanStates
      ({ robots b with enableGuidance := false }.step ext) (robots b).reset (w.run b n2 c2).2.Y0).map St.q) :=
  C71_second_robot (fun i => (robots i).obj ext (demo i)) hab rfl n1 n2 c1 c2 hg1 hg2

/-- **C71 (second robot)** for `AccTractorTrailer2d`: the shown trajectory is the second robot's own, stepped with its guidance
switch off. -/
theorem C71_second_acc (ext : Ext Q6) (robots : ℕ → Acc) (demo : ℕ → ℤ → (ℤ → List Q6 → ℝ) × ℝ) {a b : ℕ} (hab : a ≠ b)
    (n1 n2 : Key → ℕ → ℕ → ℕ → ℕ → U) (c1 c2 : Cfg) (hg1 : c1.enableGuidance = false)
    (hg2 : c2.enableGuidance = true) :
    let w := ((World.init fun i => (robots i).obj ext (demo i)).run a n1 c1).1
    w.comparison b n2 c2 = some ((robots b).reset.q :: (scanStates
      ({ robots b with enableGuidance := false }.step ext) (robots b).reset (w.run b n2 c2).2.Y0).map St.q) :=
  C71_second_robot (fun i => (robots i).obj ext (demo i)) hab rfl n1 n2 c1 c2 hg1 hg2

example (ext : Ext Q4) (n : Key → ℕ → ℕ → ℕ → ℕ → U) (cfg : Cfg) :=
  C71_second_tt2d ext (fun _ => Wit.tt) (a := 0) (b := 1) (by norm_num) n n
    { cfg with enableGuidance := false } { cfg with enableGuidance := true } rfl rfl

example (ext : Ext Q3) (n : Key → ℕ → ℕ → ℕ → ℕ → U) (cfg : Cfg) :=
  C71_second_bicycle ext (fun _ => Wit.bike) (fun _ _ => (fun _ _ => 0, 0)) (a := 0) (b := 1) (by norm_num) n n
    { cfg with enableGuidance := false } { cfg with enableGuidance := true } rfl rfl

example (ext : Ext Q6) (n : Key → ℕ → ℕ → ℕ → ℕ → U) (cfg : Cfg) :=
  C71_second_acc ext (fun _ => Wit.acc) (fun _ _ => (fun _ _ => 0, 0)) (a := 0) (b := 1) (by norm_num) n n
    { cfg with enableGuidance := false } { cfg with enableGuidance := true } rfl rfl

/-- **C71 (display).** The animation of a guided run shows the comparison run state by state, with the planned
actions, and overlays the returned (guided) trajectory. -/
theorem C71_displayed (w : World Q) (o : ℕ) (normal : Key → ℕ → ℕ → ℕ → ℕ → U) (cfg : Cfg)
    (A : AnimEnv Q) (xs : List Q) (h : w.comparison o normal cfg = some xs) :
    let R := (w.run o normal cfg).2
    let fr := plannerAnimation A xs R.Y0 (some R.xs)
    fr.map Frame.state = xs ∧ fr.map Frame.action = R.Y0.map some ++ [none] ∧
    ∀ k f, fr[k]? = some f → (f.collisionMark ↔ A.coll f.state) ∧ (f.hitchMark ↔ A.hitch f.state) ∧
      f.overlay = (R.xs.take (k + 1)).map A.pos := by
  intro R fr
  obtain ⟨h1, -, -⟩ := (C71_shape w o normal cfg).2 xs h
  obtain ⟨e1, e2⟩ := planner_frames A xs R.Y0 (some R.xs) h1
  refine ⟨e1, e2, fun k f hf => ?_⟩
  obtain ⟨-, h2⟩ := C67_frames A xs (R.Y0.map some ++ [none]) (some R.xs)
  obtain ⟨-, -, a3, a4, -, a6⟩ := h2 k f hf
  exact ⟨a3, a4, a6⟩

example (ext : Ext Q4) (robots : ℕ → TT2d) (n : Key → ℕ → ℕ → ℕ → ℕ → U) (cfg : Cfg) :
    ∃ xs, (World.init fun i => (robots i).obj ext).comparison 0 n { cfg with enableGuidance := true } = some xs :=
  Option.isSome_iff_exists.mp ((C71_shape _ _ _ _).1.mpr rfl)

/-! ## What the vehicle does in it -/

theorem executes_scan {step : St Q → U → St Q} {move : Q → U → Q} (I : St Q → Prop)
    (h : ∀ s u, I s → (step s u).q = move s.q u ∧ I (step s u)) :
    ∀ (us : List U) (s : St Q), I s → Spec.Executes move (s.q :: (scanStates step s us).map St.q) us := by
  intro us
  induction us with
  | nil => intro s _; simp [scanStates, Spec.Executes]
  | cons u us ih =>
    intro s hs
    simp only [scanStates, List.map_cons, Spec.Executes]
    exact ⟨(h s u hs).1, ih _ (h s u hs).2⟩

/-- **C71 (kinematics), tractor-trailer.** In a new process the comparison run of a guided robot is the
plain motion model under the clipped planned actions: shields, collision and hitch checks play no part. -/
theorem C71_tt2d (robots : ℕ → TT2d) (ext : Ext Q4) (o : ℕ) (normal : Key → ℕ → ℕ → ℕ → ℕ → U) (cfg : Cfg)
    (hp : (robots o).enableProjection = false) (hgr : (robots o).enableGuidance = true)
    (hg : cfg.enableGuidance = true) :
    let w := World.init (fun i => (robots i).obj ext)
    ∃ xs, w.comparison o normal cfg = some xs ∧ xs.head? = some (robots o).x0 ∧
      Spec.Executes (fun q u => TT2d.euler (robots o).toParams q ((robots o).inputScaler (clipU u)))
        xs (w.run o normal cfg).2.Y0 := by
  intro w
  have h := C71_replayed (fun i => (robots i).obj ext) o [] [] (by simp) (by simp) normal cfg hg
  have hr := C29_cleared (fun i => (robots i).obj ext) o [] [] (by simp) (by simp) normal cfg
  refine ⟨_, h, rfl, ?_⟩
  have hr' : (w.run o normal cfg).2 = _ := hr
  rw [hr']
  refine executes_scan (fun s => s.inBackup = false) (fun s u hs => ⟨?_, ?_⟩) _ _ rfl
  · exact (C47_executed_tt2d (robots o) ext s u hp hgr hs).1
  · show ((robots o).step ext s u).inBackup = false
    unfold TT2d.step TT2d.stepInternal
    exact hs

example (ext : Ext Q4) (normal : Key → ℕ → ℕ → ℕ → ℕ → U) (cfg : Cfg) :=
  C71_tt2d (fun _ => { Wit.tt with enableGuidance := true }) ext 0 normal
    { cfg with enableGuidance := true } rfl rfl rfl

/-- C71 (kinematics), bicycle. -/
theorem C71_bicycle (robots : ℕ → Bicycle) (ext : Ext Q3) (demo : ℤ → (ℤ → List Q3 → ℝ) × ℝ) (o : ℕ)
    (normal : Key → ℕ → ℕ → ℕ → ℕ → U) (cfg : Cfg)
    (hp : (robots o).enableProjection = false) (hgr : (robots o).enableGuidance = true)
    (hg : cfg.enableGuidance = true) :
    let w := World.init (fun i => (robots i).obj ext demo)
    ∃ xs, w.comparison o normal cfg = some xs ∧ xs.head? = some (robots o).x0 ∧
      Spec.Executes (fun q u => Bicycle.euler (robots o).toParams q ((robots o).inputScaler (clipU u)))
        xs (w.run o normal cfg).2.Y0 := by
  intro w
  have h := C71_replayed (fun i => (robots i).obj ext demo) o [] [] (by simp) (by simp) normal cfg hg
  have hr := C29_cleared (fun i => (robots i).obj ext demo) o [] [] (by simp) (by simp) normal cfg
  refine ⟨_, h, rfl, ?_⟩
  have hr' : (w.run o normal cfg).2 = _ := hr
  rw [hr']
  refine executes_scan (fun s => s.inBackup = false) (fun s u hs => ⟨?_, ?_⟩) _ _ rfl
  · exact (C47_executed_bicycle (robots o) ext s u hp hgr hs).1
  · show ((robots o).step ext s u).inBackup = false
    unfold Bicycle.step Bicycle.stepInternal
    exact hs

example (ext : Ext Q3) (normal : Key → ℕ → ℕ → ℕ → ℕ → U) (cfg : Cfg) :=
  C71_bicycle (fun _ => { Wit.bike with enableGuidance := true }) ext (fun _ => (fun _ _ => 0, 0)) 0 normal
    { cfg with enableGuidance := true } rfl rfl rfl

/-- C71 (kinematics), acceleration model. -/
theorem C71_acc (robots : ℕ → Acc) (ext : Ext Q6) (demo : ℤ → (ℤ → List Q6 → ℝ) × ℝ) (o : ℕ)
    (normal : Key → ℕ → ℕ → ℕ → ℕ → U) (cfg : Cfg)
    (hp : (robots o).enableProjection = false) (hgr : (robots o).enableGuidance = true)
    (hg : cfg.enableGuidance = true) :
    let w := World.init (fun i => (robots i).obj ext demo)
    ∃ xs, w.comparison o normal cfg = some xs ∧ xs.head? = some (robots o).x0 ∧
      Spec.Executes (fun q u => (robots o).euler q ((robots o).inputScaler (clipU u)) (robots o).dt)
        xs (w.run o normal cfg).2.Y0 := by
  intro w
  have h := C71_replayed (fun i => (robots i).obj ext demo) o [] [] (by simp) (by simp) normal cfg hg
  have hr := C29_cleared (fun i => (robots i).obj ext demo) o [] [] (by simp) (by simp) normal cfg
  refine ⟨_, h, rfl, ?_⟩
  have hr' : (w.run o normal cfg).2 = _ := hr
  rw [hr']
  refine executes_scan (fun s => s.inBackup = false) (fun s u hs => ⟨?_, ?_⟩) _ _ rfl
  · exact (C47_executed_acc (robots o) ext s u hp hgr hs).1
  · show ((robots o).step ext s u).inBackup = false
    unfold Acc.step Acc.stepInternal
    exact hs

example (ext : Ext Q6) (normal : Key → ℕ → ℕ → ℕ → ℕ → U) (cfg : Cfg) :=
  C71_acc (fun _ => { Wit.acc with enableGuidance := true }) ext (fun _ => (fun _ _ => 0, 0)) 0 normal
    { cfg with enableGuidance := true } rfl rfl rfl

/-! ## The shields are not part of it -/

/-- With one sample and one noise level the optimised plan is the executed action of that sample. -/
theorem single_sample {Q : Type} (E : PlanEnv Q) (normal : Key → ℕ → ℕ → ℕ → ℕ → U) (cfg : Cfg)
    (hs : Spec.ScheduleOK cfg) (hN : cfg.Nsample = 1) (hH : cfg.Hsample = 1) (hD : cfg.Ndiffuse = 2)
    (s0 : St Q) :
    let S := mkSchedule cfg.beta0 cfg.betaT cfg.Ndiffuse
    let c := S.sigmas.getD 1 0 / √(S.alphasBar.getD 0 0)
    let e := normal (keyExp ++ [1]) 1 1 0 0
    (reverseLoop (reverseOnce E S normal cfg s0) cfg (zeroPlan cfg) keyExp).Y =
      (rolloutUsWithTerminal E.step E.terminal E.terminalWeight s0
        [clipSample cfg.motionPreference (e.1 * c, e.2 * c)]).2.2 := by
  intro S c e
  have h := C21_reverse_step E hs.1 hs.2.1 hs.2.2 normal cfg s0 1 le_rfl (by omega) keyExp (zeroPlan cfg)
    (by simp [zeroPlan])
  have hY : (reverseLoop (reverseOnce E S normal cfg s0) cfg (zeroPlan cfg) keyExp).Y =
      (reverseOnce E S normal cfg s0 (1, keyExp, zeroPlan cfg)).1.2.2 := by
    unfold reverseLoop
    rw [hD]
    simp [reverseBody, List.range_succ]
  rw [hY]
  simp only [S] at h ⊢
  rw [h]
  have hsp : samplePlans cfg (S.sigmas.getD 1 0 / √(S.alphasBar.getD (1 - 1) 0))
      (normal (keyExp ++ [1]) cfg.Nsample cfg.Hsample) (zeroPlan cfg) =
      [[clipSample cfg.motionPreference (e.1 * c, e.2 * c)]] := by
    simp [samplePlans, hN, hH, zeroPlan, c, e, List.range_succ]
  simp only [S] at hsp
  rw [hsp]
  set ro := rolloutUsWithTerminal E.step E.terminal E.terminalWeight s0
    [clipSample cfg.motionPreference (e.1 * c, e.2 * c)] with hro
  have hl : ro.2.2.length = 1 := by simp [hro, rolloutUsWithTerminal, scanStates_length]
  obtain ⟨u, hu⟩ := List.length_eq_one_iff.mp hl
  set B := evalBatch E cfg s0 [[clipSample cfg.motionPreference (e.1 * c, e.2 * c)]] with hB
  have heff : B.eff = [[u]] := by
    simp only [hB, evalBatch, List.map_cons, List.map_nil]
    rw [← hro, hu]
  have hw : B.weights = [1] := by
    have hlog : ∃ x, B.logw = [x] := by
      apply List.length_eq_one_iff.mp
      simp only [hB, evalBatch, logWeights, List.map_cons, List.map_nil, List.zipWith_cons_cons,
        List.zipWith_nil_right, logp0, logpDemo]
      split <;> simp
    obtain ⟨x, hx⟩ := hlog
    have hwe : B.weights = softmax B.logw := rfl
    rw [hwe, hx]
    simp [softmax, listMax]
  rw [heff, hw, hu, hH]
  simp [List.range_succ]

/-- The planned action of a guided tractor-trailer with one sample, one noise level and one action, for a
noise source that asks for full speed ahead. -/
theorem guided_plan (T : TT2d) (ext : Ext Q4) (hp : T.enableProjection = false)
    (hgr : T.enableGuidance = true) (cfg : Cfg) (hs : Spec.ScheduleOK cfg) (hN : cfg.Nsample = 1)
    (hH : cfg.Hsample = 1) (hD : cfg.Ndiffuse = 2) (hm : cfg.motionPreference = 0) :
    ∃ normal, (runDiffusion (T.planEnv ext []) normal cfg).Y0 = [(1, 0)] := by
  set S := mkSchedule cfg.beta0 cfg.betaT cfg.Ndiffuse with hS
  set c := S.sigmas.getD 1 0 / √(S.alphasBar.getD 0 0) with hc
  refine ⟨fun _ _ _ _ _ => (1 / c, 0), ?_⟩
  have hcpos : c ≠ 0 := by
    obtain ⟨c1, -, -⟩ := C19_schedule hs.1 hs.2.1 hs.2.2 cfg.Ndiffuse
    have a1 := c1 1 (by omega)
    have a0 := c1 0 (by omega)
    have e1 : 0 < S.sigmas.getD 1 0 := by
      have := a1.2.2.2.2
      first | exact this | exact this.1
    exact (div_pos e1 (Real.sqrt_pos.mpr a0.2.2.1)).ne'
  have h1 := single_sample (T.planEnv ext []) (fun _ _ _ _ _ => (1 / c, 0)) cfg hs hN hH hD
    ((T.planEnv ext []).reset keyReset)
  have hcl : clipU (1, 0) = (1, 0) := clipU_one_zero
  have hsam : clipSample cfg.motionPreference (1 / c * c, 0 * c) = (1, 0) := by
    rw [one_div, inv_mul_cancel₀ hcpos, zero_mul]
    unfold clipSample
    simp only [hm, hcl]
    norm_num
  have hap : ∀ s : St Q4, s.inBackup = false →
      (rolloutUsWithTerminal (T.planEnv ext []).step (T.planEnv ext []).terminal
        (T.planEnv ext []).terminalWeight s [(1, 0)]).2.2 = [(1, 0)] := by
    intro s hb
    have hb' : (warmState (T.step ext) s).inBackup = false := by
      unfold warmState TT2d.step TT2d.stepInternal; exact hb
    show [((T.step ext (warmState (T.step ext) s) (1, 0)).applied)] = [(1, 0)]
    rw [(C47_executed_tt2d T ext _ (1, 0) hp hgr hb').2, hcl]
  simp only at h1
  rw [← hS, ← hc, hsam, hap _ rfl] at h1
  have h2 : (runDiffusion (T.planEnv ext []) (fun _ _ _ _ _ => (1 / c, 0)) cfg).Y0 =
      (rolloutUsWithTerminal (T.planEnv ext []).step (T.planEnv ext []).terminal
        (T.planEnv ext []).terminalWeight ((T.planEnv ext []).reset keyReset)
        (reverseLoop (reverseOnce (T.planEnv ext []) S (fun _ _ _ _ _ => (1 / c, 0)) cfg
          ((T.planEnv ext []).reset keyReset)) cfg (zeroPlan cfg) keyExp).Y).2.2 := rfl
  rw [h2, h1, hap _ rfl]

/-- The default tractor-trailer with both shields and guidance, half a metre in front of a post of radius
0.5 m. -/
noncomputable def postRobot : TT2d :=
  { Params.default [⟨4.73, 0, 0.5⟩] [] with x0 := ⟨0, 0, 0, 0⟩, xg := ⟨20, 0, 0, 0⟩, enableGuidance := true }

theorem postRobot_check (x : ℝ) : TT2d.checkObstacle postRobot.toParams ⟨x, 0, 0, 0⟩ ↔
    (accDefault [⟨4.73, 0, 0.5⟩] (straight 0 0)).checkObstacle (straight x 0) := Iff.rfl

/-- **C71 is false for the shields**: both shields are on, the start is clear, and yet the comparison run,
made with guidance switched off, drives into the post. -/
theorem C71_shield_refuted :
    ¬ ∀ (T : TT2d) (ext : Ext Q4) (normal : Key → ℕ → ℕ → ℕ → ℕ → U) (cfg : Cfg),
      T.shieldCollision = true → T.shieldHitch = true → T.enableProjection = false →
      T.enableGuidance = true → ¬ TT2d.checkObstacle T.toParams T.x0 → Spec.ScheduleOK cfg →
      cfg.enableGuidance = true → cfg.enableDemo = false →
      ∀ xs, (World.init fun _ => T.obj ext).comparison 0 normal cfg = some xs →
        ∀ q ∈ xs, ¬ TT2d.checkObstacle T.toParams q := by
  intro hall
  let ext : Ext Q4 := ⟨fun _ u => u, Guide.apply postRobot.toParams 0.05 3⟩
  let cfg : Cfg := { defaultCfg with enableGuidance := true, Nsample := 1, Hsample := 1, Ndiffuse := 2 }
  have hs : Spec.ScheduleOK cfg := by unfold Spec.ScheduleOK; norm_num [cfg, defaultCfg]
  obtain ⟨normal, hY⟩ := guided_plan postRobot ext rfl rfl cfg hs rfl rfl rfl rfl
  have hfree : ¬ TT2d.checkObstacle postRobot.toParams postRobot.x0 := by
    show ¬ TT2d.checkObstacle postRobot.toParams ⟨0, 0, 0, 0⟩
    rw [postRobot_check]
    exact straight_free (by norm_num) (by norm_num) _ _ (Or.inl (by norm_num))
  have h := hall postRobot ext normal cfg rfl rfl rfl rfl hfree hs rfl rfl
  have hcomp := C71_replayed (fun _ => postRobot.obj ext) 0 [] [] (by simp) (by simp) normal cfg rfl
  have hd : (World.withDemo (postRobot.obj ext) cfg).view = postRobot.planEnv ext [] := by
    simp [World.withDemo, cfg, defaultCfg, TT2d.obj]
  have h2 := h _ hcomp
  have h3 := h2 (postRobot.step ext postRobot.reset (1, 0)).q (by
    show _ ∈ _ :: List.map St.q (scanStates (postRobot.step ext) postRobot.reset
      (runDiffusion (World.withDemo (postRobot.obj ext) cfg).view normal cfg).Y0)
    rw [hd, hY]
    simp [scanStates])
  rw [(C47_executed_tt2d postRobot ext postRobot.reset (1, 0) rfl rfl rfl).1, clipU_one_zero] at h3
  apply h3
  have hq : TT2d.euler postRobot.toParams postRobot.reset.q (postRobot.inputScaler (1, 0)) = ⟨0.6, 0, 0, 0⟩ := by
    simp only [TT2d.euler, TT2d.dynamics, Q4.axpy, TT2d.reset, postRobot, Params.default,
      Params.inputScaler]
    norm_num
  rw [hq, postRobot_check, straight_check]
  left
  apply rectCircle_axis (by norm_num) (by norm_num) (by norm_num)
  rw [abs_le]; constructor <;> norm_num

/-- **C71 is false as the display is labelled**: the trajectory shown as the unguided one need not be the
trajectory of the same robot with guidance switched off. -/
theorem C71_unguided_refuted :
    ¬ ∀ (T : TT2d) (ext : Ext Q4) (normal : Key → ℕ → ℕ → ℕ → ℕ → U) (cfg : Cfg),
      Spec.ScheduleOK cfg → cfg.enableGuidance = true →
      let w := World.init fun _ => T.obj ext
      w.comparison 0 normal cfg = some (T.x0 :: (scanStates ({ T with enableGuidance := false }.step ext)
        T.reset (w.run 0 normal cfg).2.Y0).map St.q) := by
  intro hall
  refine C71_shield_refuted fun T ext normal cfg h1 h2 hp _ hc hs hg _ xs hxs => ?_
  have h := hall T ext normal cfg hs hg
  simp only at h
  rw [h] at hxs
  obtain rfl := Option.some.inj hxs
  intro q hq
  rcases List.mem_cons.mp hq with rfl | hq
  · exact hc
  · obtain ⟨s', hs', rfl⟩ := List.mem_map.mp hq
    exact C01_tt2d { T with enableGuidance := false } ext h1 hp rfl
      (TT2d.reset { T with enableGuidance := false }) hc _ s' hs'

end Mbd
