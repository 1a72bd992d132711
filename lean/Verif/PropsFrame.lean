import Verif.SymSteps
import Verif.PropsGeom
import Verif.PropsReward
import Verif.Demo
import Verif.PropsTurns
import Verif.PropsDemo
import Verif.PropsPlan
import Verif.PropsGuidance
import Verif.Guidance
import Verif.Witness

/-!
# C72: planning does not depend on the coordinate frame
-/

namespace Spec

open Mbd

/-- A pose moved by the rotation `α` followed by the translation `d`. -/
noncomputable def move3 (α : ℝ) (d : Pt) (q : Q3) : Q3 :=
  ⟨(move α d (q.px, q.py)).1, (move α d (q.px, q.py)).2, q.th1 + α⟩

/-- The same for tractor and trailer. -/
noncomputable def move4 (α : ℝ) (d : Pt) (q : Q4) : Q4 :=
  ⟨(move α d (q.px, q.py)).1, (move α d (q.px, q.py)).2, q.th1 + α, q.th2 + α⟩

/-- The same with speed and steering angle, which do not change. -/
noncomputable def move6 (α : ℝ) (d : Pt) (q : Q6) : Q6 :=
  ⟨(move α d (q.px, q.py)).1, (move α d (q.px, q.py)).2, q.th1 + α, q.th2 + α, q.v, q.delta⟩

end Spec

namespace Mbd

open Real Classical _root_.Spec

/-- The obstacles moved along do not change the vehicle. -/
theorem sameVehicle_move (P : Params) (α : ℝ) (d : V2) : SameVehicle P (P.moveObstacles α d) := rfl

theorem norm2_move (α : ℝ) (d p q : V2) : norm2 (Spec.move α d p - Spec.move α d q) = norm2 (p - q) := by
  have h := cos_sq_add_sin_sq α
  unfold norm2 Spec.move Spec.frame
  congr 1
  simp only [Prod.fst_sub, Prod.snd_sub]
  linear_combination ((p.1 - q.1) ^ 2 + (p.2 - q.2) ^ 2) * h

theorem tractorPos_move (P : Params) (α : ℝ) (d : V2) (px py th : ℝ) :
    P.tractorPos (Spec.move α d (px, py)).1 (Spec.move α d (px, py)).2 (th + α)
      = Spec.move α d (P.tractorPos px py th) := by
  unfold Params.tractorPos Spec.move Spec.frame
  rw [cos_add, sin_add]
  exact Prod.ext (by simp only; ring) (by simp only; ring)

theorem trailerPos_move (P : Params) (α : ℝ) (d : V2) (q : Q4) :
    TT2d.trailerPos P (move4 α d q) = Spec.move α d (TT2d.trailerPos P q) := by
  unfold TT2d.trailerPos TT2d.hitchPoint move4 Spec.move Spec.frame
  simp only
  rw [cos_add, sin_add, cos_add, sin_add]
  exact Prod.ext (by simp only; ring) (by simp only; ring)

theorem posDist_move (P : Params) (α : ℝ) (d : V2) (xg q : Q4) :
    TT2d.posDist (P.moveObstacles α d) (move4 α d xg) (move4 α d q) = TT2d.posDist P xg q := by
  have e : TT2d.posDist (P.moveObstacles α d) (move4 α d xg) (move4 α d q)
      = TT2d.posDist P (move4 α d xg) (move4 α d q) := rfl
  rw [e]
  unfold TT2d.posDist
  simp only
  rw [trailerPos_move, trailerPos_move, norm2_move]
  have : P.tractorPos (move4 α d q).px (move4 α d q).py (move4 α d q).th1
      - ((move4 α d xg).px, (move4 α d xg).py)
      = Spec.move α d (P.tractorPos q.px q.py q.th1) - Spec.move α d (xg.px, xg.py) := by
    rw [← tractorPos_move]; rfl
  rw [this, norm2_move]

theorem headingErr_move (P : Params) (α : ℝ) (d : V2) (xg q : Q4) :
    TT2d.headingErr (P.moveObstacles α d) (move4 α d xg) (move4 α d q) = TT2d.headingErr P xg q := by
  have h1 : ∀ a b : ℝ, a + α - (b + α) = a - b := fun a b => by ring
  have e : TT2d.headingErr (P.moveObstacles α d) (move4 α d xg) (move4 α d q)
      = TT2d.headingErr P (move4 α d xg) (move4 α d q) := rfl
  rw [e]
  unfold TT2d.headingErr move4
  simp only [h1]

/-- C72, rewards of a tractor-trailer: measured relative to the goal, they do not change. -/
theorem C72_reward_tt2d (P : Params) (α : ℝ) (d : V2) (xg q : Q4) :
    TT2d.getReward (P.moveObstacles α d) (move4 α d xg) (move4 α d q) = TT2d.getReward P xg q ∧
    TT2d.getTerminalReward (P.moveObstacles α d) (move4 α d xg) (move4 α d q)
      = TT2d.getTerminalReward P xg q := by
  constructor
  · unfold TT2d.getReward
    simp only [posDist_move, headingErr_move]
    have : (move4 α d q).th1 - (move4 α d q).th2 = q.th1 - q.th2 := by unfold move4; simp only; ring
    rw [this]
    rfl
  · unfold TT2d.getTerminalReward
    rw [posDist_move]
    rfl

/-- C72, motion of a tractor-trailer: the moved vehicle moves the same way. -/
theorem C72_motion_tt2d (P : Params) (α : ℝ) (d : V2) (q : Q4) (u : U) :
    TT2d.euler (P.moveObstacles α d) (move4 α d q) u = move4 α d (TT2d.euler P q u) := by
  have h1 : ∀ a b : ℝ, a + α - (b + α) = a - b := fun a b => by ring
  have e : TT2d.euler (P.moveObstacles α d) (move4 α d q) u = TT2d.euler P (move4 α d q) u := rfl
  rw [e]
  unfold TT2d.euler TT2d.dynamics Q4.axpy move4 Spec.move Spec.frame
  simp only [h1, cos_add, sin_add]
  apply Q4.ext <;> simp only <;> ring

theorem euler_move3 (P : Params) (α : ℝ) (d : V2) (q : Q3) (u : U) :
    Bicycle.euler (P.moveObstacles α d) (move3 α d q) u = move3 α d (Bicycle.euler P q u) := by
  have e : Bicycle.euler (P.moveObstacles α d) (move3 α d q) u = Bicycle.euler P (move3 α d q) u := rfl
  rw [e]
  unfold Bicycle.euler Bicycle.dynamics Q3.axpy move3 Spec.move Spec.frame
  simp only [cos_add, sin_add]
  apply Q3.ext <;> simp only <;> ring

theorem reward_move3 (P : Params) (α : ℝ) (d : V2) (xg q : Q3) :
    Bicycle.getReward (P.moveObstacles α d) (move3 α d xg) (move3 α d q) = Bicycle.getReward P xg q ∧
    Bicycle.getTerminalReward (P.moveObstacles α d) (move3 α d xg) (move3 α d q)
      = Bicycle.getTerminalReward P xg q := by
  have h1 : ∀ a b : ℝ, a + α - (b + α) = a - b := fun a b => by ring
  have hd : Bicycle.posDist (P.moveObstacles α d) (move3 α d xg) (move3 α d q) = Bicycle.posDist P xg q := by
    have e : Bicycle.posDist (P.moveObstacles α d) (move3 α d xg) (move3 α d q)
      = Bicycle.posDist P (move3 α d xg) (move3 α d q) := rfl
    rw [e]
    unfold Bicycle.posDist
    have : P.tractorPos (move3 α d q).px (move3 α d q).py (move3 α d q).th1
        - ((move3 α d xg).px, (move3 α d xg).py)
        = Spec.move α d (P.tractorPos q.px q.py q.th1) - Spec.move α d (xg.px, xg.py) := by
      rw [← tractorPos_move]; rfl
    rw [this, norm2_move]
  have hh : Bicycle.headingErr (P.moveObstacles α d) (move3 α d xg) (move3 α d q)
      = Bicycle.headingErr P xg q := by
    have e : Bicycle.headingErr (P.moveObstacles α d) (move3 α d xg) (move3 α d q)
      = Bicycle.headingErr P (move3 α d xg) (move3 α d q) := rfl
    rw [e]
    unfold Bicycle.headingErr move3
    simp only [h1]
  constructor
  · unfold Bicycle.getReward
    simp only [hd, hh]
    rfl
  · unfold Bicycle.getTerminalReward
    rw [hd]
    rfl

theorem euler_move6 (T : Acc) (α : ℝ) (d : V2) (xa xb : Q6) (q : Q6) (u : U) (dt : ℝ) :
    Acc.euler { T with toParams := T.toParams.moveObstacles α d, x0 := xa, xg := xb } (move6 α d q) u dt
      = move6 α d (T.euler q u dt) := by
  have h1 : ∀ a b : ℝ, a + α - (b + α) = a - b := fun a b => by ring
  have e : Acc.euler { T with toParams := T.toParams.moveObstacles α d, x0 := xa, xg := xb } (move6 α d q) u dt
      = T.euler (move6 α d q) u dt := rfl
  rw [e]
  unfold Acc.euler Acc.dynamics Q6.axpy move6 Spec.move Spec.frame
  simp only [h1, cos_add, sin_add]
  apply Q6.ext <;> simp only <;> ring

/-! ## The whole plan -/

/-- The robot with its obstacles, start and goal moved by the same rigid motion. -/
noncomputable def Spec.movedTT (α : ℝ) (d : V2) (T : TT2d) : TT2d :=
  { T with toParams := T.toParams.moveObstacles α d, x0 := move4 α d T.x0, xg := move4 α d T.xg }

/-- The same for the bicycle. -/
noncomputable def Spec.movedBike (α : ℝ) (d : V2) (T : Bicycle) : Bicycle :=
  { T with toParams := T.toParams.moveObstacles α d, x0 := move3 α d T.x0, xg := move3 α d T.xg }

/-- The same for the acceleration model. -/
noncomputable def Spec.movedAcc (α : ℝ) (d : V2) (T : Acc) : Acc :=
  { T with toParams := T.toParams.moveObstacles α d, x0 := move6 α d T.x0, xg := move6 α d T.xg }

/-- The same for the train. -/
noncomputable def Spec.movedTrain (α : ℝ) (d : V2) (T : NTrailer) : NTrailer :=
  { T with toParams := T.toParams.moveObstacles α d, x0 := T.x0.move α d, xg := T.xg.move α d }

/-- `R'` is the result `R` seen from the moved frame: same reward, same actions, same history, moved
states. -/
def Spec.SamePlan {Q : Type} (move : Q → Q) (R R' : Result Q) : Prop :=
  R'.rew = R.rew ∧ R'.Y0 = R.Y0 ∧ R'.hist = R.hist ∧ R'.xs = R.xs.map move

theorem samePlan_of_task {Q : Type} {E E' : PlanEnv Q} {g : Q → Q} {J : Q → Prop} {cfg : Cfg}
    (H : SameTask E E' g 1 J cfg) (normal : Key → ℕ → ℕ → ℕ → ℕ → U) :
    Spec.SamePlan g (runDiffusion E normal cfg) (runDiffusion E' normal cfg) := by
  have := plan_sym H normal
  simp only [steer_one, map_steer_one] at this
  obtain ⟨a, b, c, e⟩ := this
  refine ⟨a, b, ?_, c⟩
  rw [e]
  have : (List.map (steer 1) : List U → List U) = id := by funext l; exact map_steer_one l
  rw [this, List.map_id]

theorem tt2d_task_move (T : TT2d) (α : ℝ) (d : V2) (ext ext' : Ext Q4) (xref xref' : List (Q4 × Bool))
    (cfg : Cfg)
    (hdemo : cfg.enableDemo = true →
      ((Spec.movedTT α d T).planEnv ext' xref').rewXref = (T.planEnv ext xref).rewXref ∧
      ∀ qs : List Q4, (∀ q ∈ qs, (fun _ : Q4 => True) q) →
        ((Spec.movedTT α d T).planEnv ext' xref').xrefLogpd cfg.motionPreference (qs.map (move4 α d))
          = (T.planEnv ext xref).xrefLogpd cfg.motionPreference qs)
    (hp : T.enableProjection = true → ∀ q u, ext'.project (move4 α d q) u = ext.project q u)
    (hg : T.enableGuidance = true → ∀ q, ext'.guide (move4 α d q) = move4 α d (ext.guide q))
    (normal : Key → ℕ → ℕ → ℕ → ℕ → U) :
    Spec.SamePlan (move4 α d) (runDiffusion (T.planEnv ext xref) normal cfg)
      (runDiffusion ((Spec.movedTT α d T).planEnv ext' xref') normal cfg) := by
  have hs : ∀ viz s a, (Spec.movedTT α d T).stepInternal ext' viz (acted (move4 α d) 1 s) (steer 1 a)
      = acted (move4 α d) 1 (T.stepInternal ext viz s a) := fun viz s a =>
    tt2d_step_sym T (Spec.movedTT α d T) ext ext' (sameVehicle_move _ α d) (move4 α d) (.inl rfl)
      (fun q => (C57_tt2d T.toParams α d q).1) (fun q => (C57_tt2d T.toParams α d q).2)
      (fun q => (C72_reward_tt2d T.toParams α d T.xg q).1)
      (fun q u => by rw [steer_one]; exact C72_motion_tt2d T.toParams α d q u)
      (fun h q u => by rw [steer_one, steer_one]; exact hp h q u) hg viz s a
  have H : SameTask (T.planEnv ext xref) ((Spec.movedTT α d T).planEnv ext' xref') (move4 α d) 1 (fun _ => True) cfg := by
    refine ⟨.inl rfl, ?_, ?_, ?_, ?_, rfl, rfl, rfl, ?_⟩
    · intro k; exact ⟨by simp [TT2d.planEnv, TT2d.reset, acted, steer, Spec.movedTT], trivial⟩
    · exact fun s a _ => ⟨hs false s a, trivial⟩
    · exact fun _ s a _ => ⟨hs true s a, trivial⟩
    · exact fun q _ => (C72_reward_tt2d T.toParams α d T.xg q).2
    · exact hdemo
  exact samePlan_of_task H normal

/-- **C72, tractor-trailer.** Moving obstacles, start and goal by the same rigid motion changes neither
the planned actions nor the reward nor any plan of the denoising history, and moves the states, for every
configuration and noise.  Guidance and projection are covered as far as they commute with the motion. -/
theorem C72_tt2d (T : TT2d) (α : ℝ) (d : V2) (ext ext' : Ext Q4) (cfg : Cfg) (hd : cfg.enableDemo = false)
    (hp : T.enableProjection = true → ∀ q u, ext'.project (move4 α d q) u = ext.project q u)
    (hg : T.enableGuidance = true → ∀ q, ext'.guide (move4 α d q) = move4 α d (ext.guide q))
    (normal : Key → ℕ → ℕ → ℕ → ℕ → U) :
    Spec.SamePlan (move4 α d) (runDiffusion (T.planEnv ext []) normal cfg)
      (runDiffusion ((Spec.movedTT α d T).planEnv ext' []) normal cfg) := by
  exact tt2d_task_move T α d ext ext' [] [] cfg (fun h => absurd (hd.symm.trans h) (by decide)) hp hg normal

theorem bicycle_task_move (T : Bicycle) (α : ℝ) (d : V2) (ext ext' : Ext Q3) (xref xref' : List (Q3 × Bool))
    (cfg : Cfg)
    (hdemo : cfg.enableDemo = true →
      ((Spec.movedBike α d T).planEnv ext' xref').rewXref = (T.planEnv ext xref).rewXref ∧
      ∀ qs : List Q3, (∀ q ∈ qs, (fun _ : Q3 => True) q) →
        ((Spec.movedBike α d T).planEnv ext' xref').xrefLogpd cfg.motionPreference (qs.map (move3 α d))
          = (T.planEnv ext xref).xrefLogpd cfg.motionPreference qs)
    (hp : T.enableProjection = true → ∀ q u, ext'.project (move3 α d q) u = ext.project q u)
    (hg : T.enableGuidance = true → ∀ q, ext'.guide (move3 α d q) = move3 α d (ext.guide q))
    (normal : Key → ℕ → ℕ → ℕ → ℕ → U) :
    Spec.SamePlan (move3 α d) (runDiffusion (T.planEnv ext xref) normal cfg)
      (runDiffusion ((Spec.movedBike α d T).planEnv ext' xref') normal cfg) := by
  have hs : ∀ viz s a, (Spec.movedBike α d T).stepInternal ext' viz (acted (move3 α d) 1 s) (steer 1 a)
      = acted (move3 α d) 1 (T.stepInternal ext viz s a) := fun viz s a =>
    bicycle_step_sym T (Spec.movedBike α d T) ext ext' (sameVehicle_move _ α d) (move3 α d) (.inl rfl)
      (fun q => C57_bicycle T.toParams α d q)
      (fun q => (reward_move3 T.toParams α d T.xg q).1)
      (fun q u => by rw [steer_one]; exact euler_move3 T.toParams α d q u)
      (fun h q u => by rw [steer_one, steer_one]; exact hp h q u) hg viz s a
  have H : SameTask (T.planEnv ext xref) ((Spec.movedBike α d T).planEnv ext' xref') (move3 α d) 1 (fun _ => True) cfg := by
    refine ⟨.inl rfl, ?_, ?_, ?_, ?_, rfl, rfl, rfl, ?_⟩
    · intro k; exact ⟨by simp [Bicycle.planEnv, Bicycle.reset, acted, steer, Spec.movedBike], trivial⟩
    · exact fun s a _ => ⟨hs false s a, trivial⟩
    · exact fun _ s a _ => ⟨hs true s a, trivial⟩
    · exact fun q _ => (reward_move3 T.toParams α d T.xg q).2
    · exact hdemo
  exact samePlan_of_task H normal

/-- C72, bicycle. -/
theorem C72_bicycle (T : Bicycle) (α : ℝ) (d : V2) (ext ext' : Ext Q3) (cfg : Cfg)
    (hd : cfg.enableDemo = false)
    (hp : T.enableProjection = true → ∀ q u, ext'.project (move3 α d q) u = ext.project q u)
    (hg : T.enableGuidance = true → ∀ q, ext'.guide (move3 α d q) = move3 α d (ext.guide q))
    (normal : Key → ℕ → ℕ → ℕ → ℕ → U) :
    Spec.SamePlan (move3 α d) (runDiffusion (T.planEnv ext []) normal cfg)
      (runDiffusion ((Spec.movedBike α d T).planEnv ext' []) normal cfg) := by
  exact bicycle_task_move T α d ext ext' [] [] cfg (fun h => absurd (hd.symm.trans h) (by decide)) hp hg normal

theorem acc_task_move (T : Acc) (α : ℝ) (d : V2) (ext ext' : Ext Q6) (xref xref' : List (Q4 × Bool))
    (cfg : Cfg)
    (hdemo : cfg.enableDemo = true →
      ((Spec.movedAcc α d T).planEnv ext' xref').rewXref = (T.planEnv ext xref).rewXref ∧
      ∀ qs : List Q6, (∀ q ∈ qs, (fun _ : Q6 => True) q) →
        ((Spec.movedAcc α d T).planEnv ext' xref').xrefLogpd cfg.motionPreference (qs.map (move6 α d))
          = (T.planEnv ext xref).xrefLogpd cfg.motionPreference qs)
    (hp : T.enableProjection = true → ∀ q u, ext'.project (move6 α d q) u = ext.project q u)
    (hg : T.enableGuidance = true → ∀ q, ext'.guide (move6 α d q) = move6 α d (ext.guide q))
    (normal : Key → ℕ → ℕ → ℕ → ℕ → U) :
    Spec.SamePlan (move6 α d) (runDiffusion (T.planEnv ext xref) normal cfg)
      (runDiffusion ((Spec.movedAcc α d T).planEnv ext' xref') normal cfg) := by
  have hs : ∀ viz s a, (Spec.movedAcc α d T).stepInternal ext' viz (acted (move6 α d) 1 s) (steer 1 a)
      = acted (move6 α d) 1 (T.stepInternal ext viz s a) := fun viz s a =>
    acc_step_sym T (Spec.movedAcc α d T) ext ext' (sameVehicle_move _ α d) rfl rfl (move6 α d) (.inl rfl)
      (fun _ => rfl) (fun q => (C57_acc T α d q).1) (fun q => (C57_acc T α d q).2)
      (fun q => (C72_reward_tt2d T.toParams α d T.xg.pose q.pose).1)
      (fun q u dt => by rw [steer_one]; exact euler_move6 T α d _ _ q u dt)
      (fun h q u => by rw [steer_one, steer_one]; exact hp h q u) hg viz s a
  have H : SameTask (T.planEnv ext xref) ((Spec.movedAcc α d T).planEnv ext' xref') (move6 α d) 1 (fun _ => True) cfg := by
    refine ⟨.inl rfl, ?_, ?_, ?_, ?_, rfl, rfl, rfl, ?_⟩
    · intro k; exact ⟨by simp [Acc.planEnv, Acc.reset, acted, steer, Spec.movedAcc], trivial⟩
    · exact fun s a _ => ⟨hs false s a, trivial⟩
    · exact fun _ s a _ => ⟨hs true s a, trivial⟩
    · exact fun q _ => (C72_reward_tt2d T.toParams α d T.xg.pose q.pose).2
    · exact hdemo
  exact samePlan_of_task H normal

/-- C72, acceleration model, including its braking prediction. -/
theorem C72_acc (T : Acc) (α : ℝ) (d : V2) (ext ext' : Ext Q6) (cfg : Cfg)
    (hd : cfg.enableDemo = false)
    (hp : T.enableProjection = true → ∀ q u, ext'.project (move6 α d q) u = ext.project q u)
    (hg : T.enableGuidance = true → ∀ q, ext'.guide (move6 α d q) = move6 α d (ext.guide q))
    (normal : Key → ℕ → ℕ → ℕ → ℕ → U) :
    Spec.SamePlan (move6 α d) (runDiffusion (T.planEnv ext []) normal cfg)
      (runDiffusion ((Spec.movedAcc α d T).planEnv ext' []) normal cfg) := by
  exact acc_task_move T α d ext ext' [] [] cfg (fun h => absurd (hd.symm.trans h) (by decide)) hp hg normal

/-! ### Trains -/

theorem carryAt_move (T : NTrailer) (α : ℝ) (d : V2) (xa xb : QN) (x : QN) (h : T.slice x ≠ []) (v δ : ℝ)
    (i : ℕ) :
    NTrailer.carryAt { T with toParams := T.toParams.moveObstacles α d, x0 := xa, xg := xb } (x.move α d) v δ i
      = { T.carryAt x v δ i with theta := (T.carryAt x v δ i).theta + α } := by
  have ht : ∀ i, NTrailer.theta { T with toParams := T.toParams.moveObstacles α d, x0 := xa, xg := xb }
      (x.move α d) i = T.theta x i + α := fun i => theta_move T α d (T.toParams.moveObstacles α d) x i h
  induction i with
  | zero => rfl
  | succ i ih =>
    simp only [NTrailer.carryAt]
    rw [ih]
    unfold NTrailer.loopBody
    simp only [ht]
    have h1 : ∀ a b : ℝ, a + α - (b + α) = a - b := fun a b => by ring
    simp only [h1]
    rfl

theorem euler_moveN (T : NTrailer) (α : ℝ) (d : V2) (xa xb : QN) (x : QN) (h : T.slice x ≠ []) (u : U) :
    NTrailer.euler { T with toParams := T.toParams.moveObstacles α d, x0 := xa, xg := xb } (x.move α d) u
      = (T.euler x u).move α d := by
  unfold NTrailer.euler NTrailer.dynamics
  simp only [carryAt_move T α d xa xb x h]
  unfold QN.axpy QN.move Spec.move Spec.frame
  simp only [cos_add, sin_add]
  apply QN.ext
  · simp only [Params.moveObstacles]; ring
  · simp only [Params.moveObstacles]; ring
  · simp only [Params.moveObstacles]; ring
  · simp only [Params.moveObstacles]
    apply List.ext_getElem
    · simp
    · intro i h1 h2
      simp
      ring

theorem lastPosLoop_move (T : NTrailer) (α : ℝ) (d : V2) (xa xb : QN) (x : QN) (h : T.slice x ≠ []) (i : ℕ) :
    NTrailer.lastPosLoop { T with toParams := T.toParams.moveObstacles α d, x0 := xa, xg := xb } (x.move α d) i
      = (Spec.move α d (T.lastPosLoop x i).1, Spec.move α d (T.lastPosLoop x i).2) := by
  have ht : ∀ i, NTrailer.theta { T with toParams := T.toParams.moveObstacles α d, x0 := xa, xg := xb }
      (x.move α d) i = T.theta x i + α := fun i => theta_move T α d (T.toParams.moveObstacles α d) x i h
  induction i with
  | zero =>
    unfold NTrailer.lastPosLoop NTrailer.hitch0 QN.move Spec.move Spec.frame Params.moveObstacles
    simp only [cos_add, sin_add]
    refine Prod.ext ?_ ?_ <;> exact Prod.ext (by simp only; ring) (by simp only; ring)
  | succ i ih =>
    simp only [NTrailer.lastPosLoop]
    rw [ih, ht]
    unfold Spec.move Spec.frame
    simp only [cos_add, sin_add]
    refine Prod.ext ?_ ?_ <;> exact Prod.ext (by simp only; ring) (by simp only; ring)

theorem posDist_moveN (T : NTrailer) (α : ℝ) (d : V2) (x : QN) (h : T.slice x ≠ []) (hg : T.slice T.xg ≠ []) :
    (Spec.movedTrain α d T).posDist (x.move α d) = T.posDist x := by
  have e1 : (Spec.movedTrain α d T).dTractor (x.move α d) = T.dTractor x := by
    unfold NTrailer.dTractor
    have : Params.tractorPos (Spec.movedTrain α d T).toParams (x.move α d).px (x.move α d).py (x.move α d).th0
        - ((Spec.movedTrain α d T).xg.px, (Spec.movedTrain α d T).xg.py)
        = Spec.move α d (T.tractorPos x.px x.py x.th0) - Spec.move α d (T.xg.px, T.xg.py) := by
      rw [← tractorPos_move]; rfl
    rw [this, norm2_move]
  have e2 : (Spec.movedTrain α d T).dLast (x.move α d) = T.dLast x := by
    have hl : ∀ y, T.slice y ≠ [] → (Spec.movedTrain α d T).lastTrailerPos (y.move α d)
        = Spec.move α d (T.lastTrailerPos y) := by
      intro y hy
      unfold NTrailer.lastTrailerPos Spec.movedTrain
      rw [lastPosLoop_move T α d _ _ y hy]
    unfold NTrailer.dLast
    rw [hl x h, show (Spec.movedTrain α d T).xg = T.xg.move α d from rfl, hl _ hg, norm2_move]
  unfold NTrailer.posDist
  rw [e1, e2]
  rfl

theorem rectHitch_goal (T : NTrailer) (a b : QN) (x : QN) (i : ℕ) :
    NTrailer.rectHitch { T with x0 := a, xg := b } x i = T.rectHitch x i := by
  induction i with
  | zero => rfl
  | succ i ih => simp only [NTrailer.rectHitch, ih]; rfl

theorem checkObstacle_goal (T : NTrailer) (a b : QN) (x : QN) :
    NTrailer.checkObstacle { T with x0 := a, xg := b } x ↔ T.checkObstacle x := by
  have : NTrailer.allTrailerCorners { T with x0 := a, xg := b } x = T.allTrailerCorners x := by
    unfold NTrailer.allTrailerCorners
    apply List.map_congr_left
    intro i _
    unfold NTrailer.trailerCorners
    rw [rectHitch_goal]
    rfl
  unfold NTrailer.checkObstacle
  simp only [this]

theorem ntrailer_task_move (T : NTrailer) (α : ℝ) (d : V2) (guide guide' : QN → QN)
    (xref xref' : List (Q4 × Bool)) (cfg : Cfg)
    (hdemo : cfg.enableDemo = true →
      ((Spec.movedTrain α d T).planEnv guide' xref').rewXref = (T.planEnv guide xref).rewXref ∧
      ∀ qs : List QN, (∀ q ∈ qs, (fun q : QN => q.ths.length = T.N) q) →
        ((Spec.movedTrain α d T).planEnv guide' xref').xrefLogpd cfg.motionPreference (qs.map (QN.move α d))
          = (T.planEnv guide xref).xrefLogpd cfg.motionPreference qs)
    (hN : 1 ≤ T.N) (h0 : T.x0.ths.length = T.N) (hxg : T.xg.ths.length = T.N)
    (hp : T.enableProjection = false)
    (hg : T.enableGuidance = true → ∀ q, q.ths.length = T.N → guide' (q.move α d) = (guide q).move α d ∧
      (guide q).ths.length = T.N) (normal : Key → ℕ → ℕ → ℕ → ℕ → U) :
    Spec.SamePlan (QN.move α d) (runDiffusion (T.planEnv guide xref) normal cfg)
      (runDiffusion ((Spec.movedTrain α d T).planEnv guide' xref') normal cfg) := by
  have hsl : ∀ q : QN, q.ths.length = T.N → T.slice q ≠ [] := by
    intro q hq h
    have := congrArg List.length h
    simp [NTrailer.slice, hq] at this
    omega
  have hr : ∀ q : QN, q.ths.length = T.N → (Spec.movedTrain α d T).posDist (q.move α d) = T.posDist q :=
    fun q hq => posDist_moveN T α d q (hsl q hq) (hsl _ hxg)
  have hs : ∀ viz s, s.q.ths.length = T.N → ∀ a,
      (Spec.movedTrain α d T).stepTotal guide' viz (acted (QN.move α d) 1 s) (steer 1 a)
      = acted (QN.move α d) 1 (T.stepTotal guide viz s a) ∧ (T.stepTotal guide viz s a).q.ths.length = T.N :=
    fun viz s hs a => ntrailer_step_sym T (Spec.movedTrain α d T) guide guide' (sameVehicle_move _ α d) rfl hp
      (QN.move α d) (.inl rfl) (fun q => by simp [QN.move])
      (fun q hq => (checkObstacle_goal { T with toParams := T.toParams.moveObstacles α d } _ _ _).trans
        (C57_ntrailer T α d q (hsl q hq)).1) (fun q hq => (C57_ntrailer T α d q (hsl q hq)).2)
      (fun q hq => by unfold NTrailer.getReward; rw [hr q hq]; rfl)
      (fun q u hq => by rw [steer_one]; exact euler_moveN T α d _ _ q (hsl q hq) u) hg viz s hs a
  have H : SameTask (T.planEnv guide xref) ((Spec.movedTrain α d T).planEnv guide' xref') (QN.move α d) 1
      (fun q => q.ths.length = T.N) cfg := by
    refine ⟨.inl rfl, ?_, ?_, ?_, ?_, rfl, rfl, rfl, ?_⟩
    · intro k; exact ⟨by simp [NTrailer.planEnv, NTrailer.reset, acted, steer, Spec.movedTrain], h0⟩
    · exact fun s a h => hs false s h a
    · exact fun _ s a h => hs true s h a
    · intro q hq
      show (Spec.movedTrain α d T).getTerminalReward _ = _
      unfold NTrailer.planEnv NTrailer.getTerminalReward
      rw [hr q hq]
      rfl
    · exact hdemo
  exact samePlan_of_task H normal

/-- C72, train of at least one trailer whose goal has an angle for each trailer. -/
theorem C72_ntrailer (T : NTrailer) (α : ℝ) (d : V2) (guide guide' : QN → QN) (cfg : Cfg)
    (hd : cfg.enableDemo = false) (hN : 1 ≤ T.N) (h0 : T.x0.ths.length = T.N) (hxg : T.xg.ths.length = T.N)
    (hp : T.enableProjection = false)
    (hg : T.enableGuidance = true → ∀ q, q.ths.length = T.N → guide' (q.move α d) = (guide q).move α d ∧
      (guide q).ths.length = T.N) (normal : Key → ℕ → ℕ → ℕ → ℕ → U) :
    Spec.SamePlan (QN.move α d) (runDiffusion (T.planEnv guide []) normal cfg)
      (runDiffusion ((Spec.movedTrain α d T).planEnv guide' []) normal cfg) := by
  exact ntrailer_task_move T α d guide guide' [] [] cfg (fun h => absurd (hd.symm.trans h) (by decide)) hN h0 hxg hp hg normal

/-! ## Demonstrations: translations -/

/-- Translation of a point. -/
def Spec.shift (d p : V2) : V2 := (p.1 + d.1, p.2 + d.2)

theorem move_zero (d p : V2) : Spec.move 0 d p = Spec.shift d p := by
  unfold Spec.move Spec.frame Spec.shift
  exact Prod.ext (by simp; ring) (by simp; ring)

/-- A pose translated, headings unchanged. -/
def Spec.shift4 (d : V2) (q : Q4) : Q4 := ⟨q.px + d.1, q.py + d.2, q.th1, q.th2⟩

theorem move4_zero (d : V2) (q : Q4) : move4 0 d q = Spec.shift4 d q := by
  unfold move4 Spec.shift4
  rw [move_zero]
  simp [Spec.shift]

namespace Demo

theorem segPoint_shift (d p q : V2) (t : ℝ) :
    segPoint (Spec.shift d p) (Spec.shift d q) t = Spec.shift d (segPoint p q t) := by
  unfold segPoint Spec.shift
  exact Prod.ext (by simp only; ring) (by simp only; ring)

theorem lineCollides_shift (P : Params) (d p q : V2) :
    lineCollides (P.moveObstacles 0 d) (Spec.shift d p) (Spec.shift d q) ↔ lineCollides P p q := by
  unfold lineCollides
  refine exists_congr fun t => and_congr_right fun _ => ?_
  rw [segPoint_shift]
  set x := segPoint p q t
  unfold Params.moveObstacles
  simp only [List.mem_map, exists_exists_and_eq_and, move_zero]
  refine or_congr ?_ ?_
  · refine exists_congr fun c => and_congr_right fun _ => ?_
    unfold inCircle
    simp only
    have : Spec.shift d x - ((Spec.shift d (c.x, c.y)).1, (Spec.shift d (c.x, c.y)).2) = x - (c.x, c.y) := by
      unfold Spec.shift
      exact Prod.ext (by simp) (by simp)
    rw [this]
  · refine exists_congr fun o => and_congr_right fun _ => ?_
    unfold inRect Spec.shift
    simp only [add_zero, add_sub_add_right_eq_sub]

theorem waypoints_shift (P : Params) (hz : Bool) (d p q : V2) :
    waypoints (P.moveObstacles 0 d) hz (Spec.shift d p) (Spec.shift d q)
      = (waypoints P hz p q).map (Spec.shift d) := by
  have h1 : ((Spec.shift d q).1, (Spec.shift d p).2) = Spec.shift d (q.1, p.2) := rfl
  have h2 : ((Spec.shift d p).1, (Spec.shift d q).2) = Spec.shift d (p.1, q.2) := rfl
  unfold waypoints
  simp only [h1, h2, ← apply_ite (Spec.shift d), lineCollides_shift]
  split_ifs <;> rfl

theorem segs_shift (d : V2) (w : List V2) :
    segs (w.map (Spec.shift d)) = (segs w).map (Prod.map (Spec.shift d) (Spec.shift d)) := by
  unfold segs
  rw [← List.map_tail, List.zip_map]

theorem segLen_shift (d : V2) (s : V2 × V2) : segLen (Prod.map (Spec.shift d) (Spec.shift d) s) = segLen s := by
  unfold segLen Spec.shift
  congr 1
  exact Prod.ext (by simp) (by simp)

theorem discretise_shift (d : V2) (w : List V2) (n : List ℤ) :
    discretise (w.map (Spec.shift d)) n = (discretise w n).map (Prod.map (Spec.shift d) id) := by
  unfold discretise
  rw [segs_shift, List.map_flatten, List.zip_map_left]
  congr 1
  apply List.ext_getElem
  · simp
  · intro i h1 h2
    simp only [List.getElem_mapIdx, List.getElem_map, List.length_map, List.map_map,
      Prod.map_fst, Prod.map_snd, id]
    apply List.map_congr_left
    intro t _
    simp only [segPoint_shift, Prod.map, Function.comp, id]

theorem intSpace_le (m n : ℕ) : ∀ i ∈ intSpace m n, i ≤ m := by
  intro i hi
  unfold intSpace linspace at hi
  simp only [List.map_map, List.mem_map, List.mem_range, Function.comp] at hi
  obtain ⟨k, hk, rfl⟩ := hi
  split_ifs with h1
  · simp
  · apply Nat.floor_le_of_le
    have hn : (0 : ℝ) < n - 1 := by
      have : (2 : ℝ) ≤ n := by exact_mod_cast (by omega : 2 ≤ n)
      linarith
    have hkn : (k : ℝ) ≤ n - 1 := by
      have : (k : ℝ) + 1 ≤ n := by exact_mod_cast hk
      linarith
    have hm : (0 : ℝ) ≤ m := Nat.cast_nonneg m
    have : (k : ℝ) * (((m : ℝ) - 0) / (n - 1)) ≤ m := by
      rw [sub_zero, ← mul_div_assoc, div_le_iff₀ hn]
      nlinarith
    linarith

theorem points_shift (H : ℕ) (d : V2) (w : List V2) (hw : w ≠ []) (xg : V2) :
    points H (w.map (Spec.shift d)) (Spec.shift d xg)
      = (points H w xg).map (List.map (Prod.map (Spec.shift d) id)) := by
  have hl : ((segs (w.map (Spec.shift d))).map segLen) = (segs w).map segLen := by
    rw [segs_shift, List.map_map]
    apply List.map_congr_left
    intro s _
    exact segLen_shift d s
  have hh : ((w.map (Spec.shift d)).headD (0, 0)) = Spec.shift d (w.headD (0, 0)) := by
    cases w with
    | nil => exact absurd rfl hw
    | cons => rfl
  have hget : ∀ (l : List (V2 × ℕ)) (i : ℕ), i < l.length → (l.map (Prod.map (Spec.shift d) id)).getD i ((0, 0), 0)
      = Prod.map (Spec.shift d) id (l.getD i ((0, 0), 0)) := by
    intro l i hi
    rw [List.getD_eq_getElem _ _ (by simpa using hi), List.getD_eq_getElem _ _ hi, List.getElem_map]
  unfold points
  simp only [hl, hh, discretise_shift, List.length_map]
  set lens := (segs w).map segLen
  set n := pointsPerSegment H lens
  by_cases hc : lens.sum > 0 ∧ ∃ k ∈ n, k < 0
  · rw [if_pos hc, if_pos hc]; rfl
  · rw [if_neg hc, if_neg hc]
    set pts := if lens.sum > 0 then discretise w n else List.replicate H (w.headD (0, 0), 0) with hpts
    have e : (if lens.sum > 0 then (discretise w n).map (Prod.map (Spec.shift d) id)
        else List.replicate H (Spec.shift d (w.headD (0, 0)), 0)) = pts.map (Prod.map (Spec.shift d) id) := by
      rw [hpts]
      split_ifs
      · rfl
      · rw [List.map_replicate]; rfl
    rw [e, List.length_map]
    by_cases hlen : pts.length > H
    · rw [if_pos hlen, if_pos hlen]
      show Except.ok _ = Except.ok _
      congr 1
      rw [List.map_map]
      apply List.map_congr_left
      intro i hi
      have := intSpace_le _ _ i hi
      exact hget pts i (by omega)
    · rw [if_neg hlen, if_neg hlen]
      show Except.ok _ = Except.ok _
      congr 1
      rw [List.map_append, List.map_replicate]
      rfl

theorem angles_shift (pref : ℤ) (a b : ℝ) (d : V2) : ∀ (prev : Option ℝ) (l : List (V2 × Bool)),
    angles pref a b prev (l.map (Prod.map (Spec.shift d) id))
      = (angles pref a b prev l).map (Prod.map (Spec.shift4 d) id)
  | _, [] => rfl
  | _, [r] => rfl
  | prev, r :: r' :: rest => by
    have ih := fun p => angles_shift pref a b d p (r' :: rest)
    simp only [List.map_cons] at ih
    simp only [List.map_cons, angles]
    rw [ih]
    simp only [Prod.map, id, Spec.shift, add_sub_add_right_eq_sub]
    rfl

theorem generate_shift (P : Params) (hz : Bool) (pref : ℤ) (d x0 : V2) (xg : Q4) :
    generate (P.moveObstacles 0 d) hz pref (Spec.shift d x0) (Spec.shift4 d xg)
      = (generate P hz pref x0 xg).map (List.map (Prod.map (Spec.shift4 d) id)) := by
  unfold generate
  have h1 : ((Spec.shift4 d xg).px, (Spec.shift4 d xg).py) = Spec.shift d (xg.px, xg.py) := rfl
  have h2 : (P.moveObstacles 0 d).H = P.H := rfl
  have hw : waypoints P hz x0 (xg.px, xg.py) ≠ [] := by
    unfold waypoints; simp only; split_ifs <;> simp
  simp only [h1, h2, waypoints_shift, points_shift _ _ _ hw, List.length_map]
  cases points P.H (waypoints P hz x0 (xg.px, xg.py)) (xg.px, xg.py) with
  | error e => rfl
  | ok pts =>
    simp only [Except.map]
    by_cases hH : P.H = 0
    · rw [if_pos hH, if_pos hH]
    · rw [if_neg hH, if_neg hH]
      simp only [List.map_map]
      congr 1
      rw [← angles_shift, List.map_map]
      rfl

end Demo

/-! ### Plans with demonstrations under translations -/

theorem evalXref_shift (P : Params) (d : V2) (rows : List (Q4 × Bool)) (pref : ℤ) (qs : List Q4) :
    Demo.evalXref (P.moveObstacles 0 d) (rows.map (Prod.map (Spec.shift4 d) id)) pref (qs.map (Spec.shift4 d))
      = Demo.evalXref P rows pref qs := by
  unfold Demo.evalXref
  rw [List.zipWith_map]
  congr 1
  congr 1
  funext q r
  have h : TT2d.trailerPos (P.moveObstacles 0 d) (Spec.shift4 d q) = Spec.shift d (TT2d.trailerPos P q) := by
    rw [← move4_zero, ← move_zero, ← trailerPos_move]; rfl
  rw [h]
  unfold Demo.rowLogpd Params.moveObstacles Spec.shift4 Spec.shift
  simp only [Prod.map, id, Prod.sub_def]
  split_ifs <;> simp only [add_sub_add_right_eq_sub] <;> rfl

theorem rewardOf_shift {Q : Type} (f f' t t' : Q → ℝ) (w : ℝ) (g : Q → Q) (rows : List Q)
    (hf : ∀ q ∈ rows, f' (g q) = f q) (ht : ∀ q ∈ rows, t' (g q) = t q) :
    Demo.rewardOf f' t' w (rows.map g) = Demo.rewardOf f t w rows := by
  unfold Demo.rewardOf
  rw [List.map_map, List.getLast?_map]
  have : List.map (f' ∘ g) rows = rows.map f := List.map_congr_left hf
  rw [this]
  congr 2
  cases h : rows.getLast? with
  | none => rfl
  | some q => simp [ht q (List.mem_of_getLast? h)]

/-- C72, demonstrations of a tractor-trailer: a translated task has the translated demonstration (or
the same exception), and the plan with it is the translated plan. -/
theorem C72_demo_tt2d (T : TT2d) (d : V2) (ext ext' : Ext Q4) (cfg : Cfg)
    (hp : T.enableProjection = true → ∀ q u, ext'.project (move4 0 d q) u = ext.project q u)
    (hg : T.enableGuidance = true → ∀ q, ext'.guide (move4 0 d q) = move4 0 d (ext.guide q))
    (normal : Key → ℕ → ℕ → ℕ → ℕ → U) :
    (Spec.movedTT 0 d T).demo cfg.motionPreference
      = (T.demo cfg.motionPreference).map (List.map (Prod.map (Spec.shift4 d) id)) ∧
    ∀ rows, Spec.SamePlan (Spec.shift4 d) (runDiffusion (T.planEnv ext rows) normal cfg)
      (runDiffusion ((Spec.movedTT 0 d T).planEnv ext' (rows.map (Prod.map (Spec.shift4 d) id))) normal cfg) := by
  have hfun : move4 0 d = Spec.shift4 d := funext (move4_zero d)
  refine ⟨?_, fun rows => ?_⟩
  · unfold TT2d.demo
    rw [← Demo.generate_shift]
    have h1 : ((Spec.movedTT 0 d T).x0.px, (Spec.movedTT 0 d T).x0.py) = Spec.shift d (T.x0.px, T.x0.py) := by
      rw [← move_zero]; rfl
    have h2 : (Spec.movedTT 0 d T).xg = Spec.shift4 d T.xg := by rw [← move4_zero]; rfl
    rw [h1, h2]
    rfl
  · rw [← hfun]
    apply tt2d_task_move T 0 d ext ext' rows _ cfg _ hp hg
    intro _
    refine ⟨?_, fun qs _ => ?_⟩
    · show Demo.rewardOf _ _ _ _ = Demo.rewardOf _ _ _ _
      have : (rows.map (Prod.map (move4 0 d) id)).map Prod.fst = (rows.map Prod.fst).map (move4 0 d) := by
        simp [List.map_map, Function.comp_def]
      rw [this]
      exact rewardOf_shift _ _ _ _ _ _ _ (fun q _ => (C72_reward_tt2d T.toParams 0 d T.xg q).1)
        (fun q _ => (C72_reward_tt2d T.toParams 0 d T.xg q).2)
    · rw [hfun]
      exact evalXref_shift T.toParams d rows cfg.motionPreference qs

/-- The same for the acceleration model. -/
theorem C72_demo_acc (T : Acc) (d : V2) (ext ext' : Ext Q6) (cfg : Cfg)
    (hp : T.enableProjection = true → ∀ q u, ext'.project (move6 0 d q) u = ext.project q u)
    (hg : T.enableGuidance = true → ∀ q, ext'.guide (move6 0 d q) = move6 0 d (ext.guide q))
    (normal : Key → ℕ → ℕ → ℕ → ℕ → U) :
    (Spec.movedAcc 0 d T).demo cfg.motionPreference
      = (T.demo cfg.motionPreference).map (List.map (Prod.map (Spec.shift4 d) id)) ∧
    ∀ rows, Spec.SamePlan (move6 0 d) (runDiffusion (T.planEnv ext rows) normal cfg)
      (runDiffusion ((Spec.movedAcc 0 d T).planEnv ext' (rows.map (Prod.map (Spec.shift4 d) id))) normal cfg) := by
  have hfun : move4 0 d = Spec.shift4 d := funext (move4_zero d)
  have hg4 : (Spec.movedAcc 0 d T).xg.pose = move4 0 d T.xg.pose := rfl
  refine ⟨?_, fun rows => ?_⟩
  · unfold Acc.demo
    rw [← Demo.generate_shift]
    have h1 : ((Spec.movedAcc 0 d T).x0.px, (Spec.movedAcc 0 d T).x0.py) = Spec.shift d (T.x0.px, T.x0.py) := by
      rw [← move_zero]; rfl
    rw [h1, hg4, hfun]
    rfl
  · apply acc_task_move T 0 d ext ext' rows _ cfg _ hp hg
    intro _
    refine ⟨?_, fun qs _ => ?_⟩
    · show Demo.rewardOf _ _ _ _ = Demo.rewardOf _ _ _ _
      have : (rows.map (Prod.map (Spec.shift4 d) id)).map Prod.fst = (rows.map Prod.fst).map (move4 0 d) := by
        simp [List.map_map, Function.comp_def, hfun]
      rw [this]
      exact rewardOf_shift _ _ _ _ _ _ _ (fun q _ => (C72_reward_tt2d T.toParams 0 d T.xg.pose q).1)
        (fun q _ => (C72_reward_tt2d T.toParams 0 d T.xg.pose q).2)
    · have : (qs.map (move6 0 d)).map Q6.pose = (qs.map Q6.pose).map (Spec.shift4 d) := by
        rw [List.map_map, List.map_map, ← hfun]; rfl
      show Demo.evalXref _ _ _ _ = Demo.evalXref _ _ _ _
      rw [this]
      exact evalXref_shift T.toParams d rows cfg.motionPreference _

/-- The same for the bicycle. -/
theorem C72_demo_bicycle (T : Bicycle) (d : V2) (ext ext' : Ext Q3) (cfg : Cfg)
    (hp : T.enableProjection = true → ∀ q u, ext'.project (move3 0 d q) u = ext.project q u)
    (hg : T.enableGuidance = true → ∀ q, ext'.guide (move3 0 d q) = move3 0 d (ext.guide q))
    (normal : Key → ℕ → ℕ → ℕ → ℕ → U) :
    (Spec.movedBike 0 d T).demo cfg.motionPreference
      = (T.demo cfg.motionPreference).map (List.map (Prod.map (move3 0 d) id)) ∧
    ∀ rows, Spec.SamePlan (move3 0 d) (runDiffusion (T.planEnv ext rows) normal cfg)
      (runDiffusion ((Spec.movedBike 0 d T).planEnv ext' (rows.map (Prod.map (move3 0 d) id))) normal cfg) := by
  have h3 : ∀ q : Q3, move3 0 d q = ⟨q.px + d.1, q.py + d.2, q.th1⟩ := by
    intro q; unfold move3; rw [move_zero]; simp [Spec.shift]
  refine ⟨?_, fun rows => ?_⟩
  · have h1 : ((Spec.movedBike 0 d T).x0.px, (Spec.movedBike 0 d T).x0.py) = Spec.shift d (T.x0.px, T.x0.py) := by
      rw [← move_zero]; rfl
    have h2 : (Spec.movedBike 0 d T).xg = ⟨T.xg.px + d.1, T.xg.py + d.2, T.xg.th1⟩ := by rw [← h3]; rfl
    have h4 := Demo.generate_shift T.toParams true cfg.motionPreference d (T.x0.px, T.x0.py)
      ⟨T.xg.px, T.xg.py, T.xg.th1, T.xg.th1⟩
    unfold Bicycle.demo
    rw [h1, h2]
    have h5 : Demo.generate (Spec.movedBike 0 d T).toParams true cfg.motionPreference (Spec.shift d (T.x0.px, T.x0.py))
        ⟨T.xg.px + d.1, T.xg.py + d.2, T.xg.th1, T.xg.th1⟩ = _ := h4
    simp only [h5]
    cases Demo.generate T.toParams true cfg.motionPreference (T.x0.px, T.x0.py)
      ⟨T.xg.px, T.xg.py, T.xg.th1, T.xg.th1⟩ with
    | error e => rfl
    | ok r =>
      show Except.ok _ = Except.ok _
      congr 1
      rw [List.map_map, List.map_map]
      apply List.map_congr_left
      intro r _
      simp [Prod.map, h3, Spec.shift4]
  · apply bicycle_task_move T 0 d ext ext' rows _ cfg _ hp hg
    intro _
    refine ⟨?_, fun qs _ => ?_⟩
    · show Demo.rewardOf _ _ _ _ = Demo.rewardOf _ _ _ _
      have : (rows.map (Prod.map (move3 0 d) id)).map Prod.fst = (rows.map Prod.fst).map (move3 0 d) := by
        simp [List.map_map, Function.comp_def]
      rw [this]
      exact rewardOf_shift _ _ _ _ _ _ _ (fun q _ => (reward_move3 T.toParams 0 d T.xg q).1)
        (fun q _ => (reward_move3 T.toParams 0 d T.xg q).2)
    · show Demo.evalXrefBicycle _ _ _ _ = Demo.evalXrefBicycle _ _ _ _
      unfold Demo.evalXrefBicycle
      rw [List.zipWith_map]
      congr 1
      congr 1
      funext q r
      unfold Demo.rowLogpdBicycle
      simp only [h3, Prod.map, id, Prod.mk_sub_mk, add_sub_add_right_eq_sub]
      rfl

/-- The same for the train. -/
theorem C72_demo_ntrailer (T : NTrailer) (d : V2) (guide guide' : QN → QN) (cfg : Cfg)
    (hN : 1 ≤ T.N) (h0 : T.x0.ths.length = T.N) (hxg : T.xg.ths.length = T.N)
    (hp : T.enableProjection = false)
    (hg : T.enableGuidance = true → ∀ q, q.ths.length = T.N → guide' (q.move 0 d) = (guide q).move 0 d ∧
      (guide q).ths.length = T.N) (normal : Key → ℕ → ℕ → ℕ → ℕ → U) :
    (Spec.movedTrain 0 d T).demo cfg.motionPreference
      = (T.demo cfg.motionPreference).map (List.map (Prod.map (Spec.shift4 d) id)) ∧
    ∀ rows, Spec.SamePlan (QN.move 0 d) (runDiffusion (T.planEnv guide rows) normal cfg)
      (runDiffusion ((Spec.movedTrain 0 d T).planEnv guide' (rows.map (Prod.map (Spec.shift4 d) id))) normal cfg) := by
  have hq : ∀ q : QN, q.move 0 d = ⟨q.px + d.1, q.py + d.2, q.th0, q.ths⟩ := by
    intro q; unfold QN.move; rw [move_zero]; simp [Spec.shift]
  have hsl : ∀ q : QN, 1 ≤ q.ths.length → T.slice q ≠ [] := by
    intro q hq h
    have := congrArg List.length h
    simp only [NTrailer.slice, List.length_take, List.length_nil] at this
    omega
  have hpd : ∀ q : QN, 1 ≤ q.ths.length → (Spec.movedTrain 0 d T).posDist (q.move 0 d) = T.posDist q :=
    fun q hq => posDist_moveN T 0 d q (hsl q hq) (hsl _ (by omega))
  refine ⟨?_, fun rows => ?_⟩
  · have h1 : ((Spec.movedTrain 0 d T).x0.px, (Spec.movedTrain 0 d T).x0.py) = Spec.shift d (T.x0.px, T.x0.py) := by
      rw [← move_zero]; rfl
    have h2 : (Spec.movedTrain 0 d T).xg = ⟨T.xg.px + d.1, T.xg.py + d.2, T.xg.th0, T.xg.ths⟩ := by rw [← hq]; rfl
    unfold NTrailer.demo
    rw [h1, h2]
    exact Demo.generate_shift T.toParams true cfg.motionPreference d (T.x0.px, T.x0.py)
      ⟨T.xg.px, T.xg.py, T.xg.th0, T.xg.ths.getD 0 0⟩
  · apply ntrailer_task_move T 0 d guide guide' rows _ cfg _ hN h0 hxg hp hg
    intro _
    refine ⟨?_, fun qs hqs => ?_⟩
    · show Demo.rewardOf _ _ _ _ = Demo.rewardOf _ _ _ _
      have : (rows.map (Prod.map (Spec.shift4 d) id)).map
            (fun r => (⟨r.1.px, r.1.py, r.1.th1, [r.1.th2]⟩ : QN))
          = (rows.map fun r => (⟨r.1.px, r.1.py, r.1.th1, [r.1.th2]⟩ : QN)).map (QN.move 0 d) := by
        rw [List.map_map, List.map_map]
        apply List.map_congr_left
        intro r _
        simp [hq, Spec.shift4]
      rw [this]
      refine rewardOf_shift _ _ _ _ _ _ _ (fun q hq => ?_) (fun q hq => ?_)
      · obtain ⟨r, _, rfl⟩ := List.mem_map.1 hq
        unfold NTrailer.getReward
        rw [hpd _ (by simp)]
        rfl
      · obtain ⟨r, _, rfl⟩ := List.mem_map.1 hq
        unfold NTrailer.getTerminalReward
        rw [hpd _ (by simp)]
        rfl
    · show Demo.evalXrefN _ _ _ _ = Demo.evalXrefN _ _ _ _
      unfold Demo.evalXrefN
      rw [List.zipWith_map]
      congr 1
      have hl : ∀ y : QN, T.slice y ≠ [] → (Spec.movedTrain 0 d T).lastTrailerPos (y.move 0 d)
          = Spec.shift d (T.lastTrailerPos y) := by
        intro y hy
        unfold NTrailer.lastTrailerPos Spec.movedTrain
        rw [lastPosLoop_move T 0 d _ _ y hy]
        exact move_zero _ _
      have hrow : ∀ q ∈ qs, ∀ r : Q4 × Bool,
          Demo.rowLogpd (Spec.movedTrain 0 d T).toParams cfg.motionPreference
            ((QN.move 0 d q).px, (QN.move 0 d q).py) ((Spec.movedTrain 0 d T).lastTrailerPos (QN.move 0 d q))
            (QN.move 0 d q).th0 ((QN.move 0 d q).ths.getD 0 0) (Prod.map (Spec.shift4 d) id r)
          = Demo.rowLogpd T.toParams cfg.motionPreference (q.px, q.py) (T.lastTrailerPos q) q.th0
            (q.ths.getD 0 0) r := by
        intro q hqm r
        have := hqs q hqm
        simp only at this
        rw [hl q (hsl q (by omega))]
        unfold Demo.rowLogpd Spec.shift4 Spec.shift
        simp only [hq, Prod.map, id]
        have e : (Spec.movedTrain 0 d T).toParams = T.toParams.moveObstacles 0 d := rfl
        rw [e]
        unfold Params.moveObstacles
        split_ifs <;> simp only [Prod.sub_def, add_sub_add_right_eq_sub] <;> rfl
      clear hqs
      induction qs generalizing rows with
      | nil => rfl
      | cons q qs ih =>
        cases rows with
        | nil => rfl
        | cons r rows =>
          simp only [List.zipWith_cons_cons]
          rw [hrow q (by simp) r, ih rows (fun q hq => hrow q (by simp [hq]))]

/-! ## Where it fails -/

/-- **C72 fails for demonstrations under rotations**: in the frame turned by a right angle the
demonstration takes the corner on the other side of the obstacle. -/
theorem C72_demo_refuted :
    let T : TT2d := ⟨cornerCase 50, ⟨0, 0, 0, 0⟩, ⟨1, 9, 0, 0⟩⟩
    let pos := fun r : Q4 × Bool => ((r.1.px, r.1.py) : V2)
    ∃ rows rows', T.demo 0 = .ok rows ∧ (Spec.movedTT (π / 2) (0, 0) T).demo 0 = .ok rows' ∧
      Spec.Follows [(0, 0), (1, 0), (1, 9)] 50 T.xg rows ∧
      Spec.Follows [(0, 0), (-9, 0), (-9, 1)] 50 (Spec.movedTT (π / 2) (0, 0) T).xg rows' ∧
      rows'.map pos ≠ (rows.map pos).map (Spec.move (π / 2) (0, 0)) := by
  intro T pos
  have hm : ∀ x y : ℝ, Spec.move (π / 2) (0, 0) (x, y) = (-y, x) := by
    intro x y
    unfold Spec.move Spec.frame
    simp
  have hc := Demo.waypoints_chosen (cornerCase 50) true (0, 0) (1, 9)
  rw [cornerCase_waypoints] at hc
  obtain ⟨rows, path, e1, e2, e3⟩ := C48_wellformed (cornerCase 50) true 0 (0, 0) ⟨1, 9, 0, 0⟩
    (by norm_num [cornerCase])
  have hb : ¬ Spec.Clear (cornerCase 50) (Spec.straight (0, 0) (1, 9)) := by
    intro h; have := hc.direct h; simp [Spec.straight] at this
  have far0 : ∀ p : V2, (p.2 = 0 ∨ p.1 = 1) → ¬ Spec.Hits (cornerCase 50) p := by
    intro p hp h
    simp only [Spec.Hits, cornerCase, Params.default, List.mem_singleton, exists_eq_left,
      List.not_mem_nil, false_and, exists_false, or_false, Spec.dist] at h
    rw [sqrt_le_left (by norm_num)] at h
    rcases hp with hp | hp
    · rw [hp] at h; nlinarith [sq_nonneg (p.1 - 24 / 49)]
    · rw [hp] at h; nlinarith [sq_nonneg (p.2 - 216 / 49)]
  have hcl : Spec.Clear (cornerCase 50) (Spec.cornerH (0, 0) (1, 9)) := by
    intro s hs
    simp only [Spec.cornerH, List.tail_cons, List.zip_cons_cons, List.zip_nil_right,
      List.mem_cons, List.not_mem_nil, or_false] at hs
    rcases hs with rfl | rfl
    · rintro ⟨k, _, hk⟩
      exact far0 _ (Or.inl (by simp [Spec.lerp])) hk
    · rintro ⟨k, _, hk⟩
      exact far0 _ (Or.inr (by simp [Spec.lerp])) hk
  have hpath := e2.first hb (by simpa using hcl)
  simp only [if_true, Spec.cornerH] at hpath
  subst hpath
  -- the rotated task
  set P' := (cornerCase 50).moveObstacles (π / 2) (0, 0) with hP'
  have hcs : P'.circles = [⟨-(216 / 49), 24 / 49, 0.1⟩] := by
    simp [hP', Params.moveObstacles, cornerCase, Params.default, hm]
  have hrs : P'.rects = [] := by simp [hP', Params.moveObstacles, cornerCase, Params.default]
  have hgoal : (Spec.movedTT (π / 2) (0, 0) T).xg = ⟨-9, 1, 0 + π / 2, 0 + π / 2⟩ := by
    show move4 _ _ _ = _
    simp only [move4, T, hm]
  have hstart : ((Spec.movedTT (π / 2) (0, 0) T).x0.px, (Spec.movedTT (π / 2) (0, 0) T).x0.py) = (0, 0) := by
    show Spec.move (π / 2) (0, 0) (0, 0) = _
    rw [hm]; simp
  obtain ⟨rows', path', f1, f2, f3⟩ := C48_wellformed P' true 0 (0, 0) ⟨-9, 1, 0 + π / 2, 0 + π / 2⟩
    (by norm_num [hP', Params.moveObstacles, cornerCase])
  have hb' : ¬ Spec.Clear P' (Spec.straight (0, 0) (-9, 1)) := by
    intro h
    refine h ((0, 0), (-9, 1)) (by simp [Spec.straight]) ⟨24, by norm_num, Or.inl
      ⟨⟨-(216 / 49), 24 / 49, 0.1⟩, by rw [hcs]; simp, ?_⟩⟩
    have : Spec.dist (Spec.lerp (0, 0) (-9, 1) ((24 : ℕ) / 49)) (-(216 / 49), 24 / 49) = 0 := by
      norm_num [Spec.dist, Spec.lerp]
    show Spec.dist (Spec.lerp (0, 0) (-9, 1) ((24 : ℕ) / 49)) (-(216 / 49), 24 / 49) ≤ 0.1
    rw [this]
    norm_num
  have far : ∀ p : V2, (p.2 = 0 ∨ p.1 = -9) → ¬ Spec.Hits P' p := by
    intro p hp h
    simp only [Spec.Hits, hcs, hrs, List.mem_singleton, exists_eq_left,
      List.not_mem_nil, false_and, exists_false, or_false, Spec.dist] at h
    rw [sqrt_le_left (by norm_num)] at h
    rcases hp with hp | hp
    · rw [hp] at h; nlinarith [sq_nonneg (p.1 + 216 / 49)]
    · rw [hp] at h; nlinarith [sq_nonneg (p.2 - 24 / 49)]
  have hcl' : Spec.Clear P' (Spec.cornerH (0, 0) (-9, 1)) := by
    intro s hs
    simp only [Spec.cornerH, List.tail_cons, List.zip_cons_cons, List.zip_nil_right,
      List.mem_cons, List.not_mem_nil, or_false] at hs
    rcases hs with rfl | rfl
    · rintro ⟨k, _, hk⟩
      exact far _ (Or.inl (by simp [Spec.lerp])) hk
    · rintro ⟨k, _, hk⟩
      exact far _ (Or.inr (by simp [Spec.lerp])) hk
  have hpath' := f2.first hb' (by simpa using hcl')
  simp only [if_true, Spec.cornerH] at hpath'
  subst hpath'
  have hH : (cornerCase 50).H = 50 := rfl
  have hH' : P'.H = 50 := rfl
  rw [hH] at e3
  rw [hH'] at f3
  refine ⟨rows, rows', e1, ?_, e3, by rw [hgoal]; exact f3, ?_⟩
  · unfold TT2d.demo
    rw [hstart, hgoal]
    exact f1
  · intro heq
    obtain ⟨σ, s0, s1, s2, s3⟩ := e3.along
    obtain ⟨τ, t0, t1, t2, t3⟩ := f3.along
    have l1 := e3.length
    have l2 := f3.length
    have a1 := (s3 1 (by omega)).1
    have b1 := (t3 1 (by omega)).1
    have key : (rows'[1].1.px, rows'[1].1.py) = (-rows[1].1.py, rows[1].1.px) := by
      have h := congrArg (fun l => l[1]?) heq
      simp only [List.getElem?_map, List.getElem?_eq_getElem (show 1 < rows.length by omega),
        List.getElem?_eq_getElem (show 1 < rows'.length by omega), Option.map_some, Option.some.injEq, pos, hm] at h
      exact h
    have hs1 := s2 0 1 (by norm_num) (by norm_num)
    have hs2 := s2 1 49 (by norm_num) (by norm_num)
    have hs3 : σ 49 = 2 := by have := s1; norm_num at this; exact this
    rw [s0] at hs1
    rw [hs3] at hs2
    have hpx : 0 < rows[1].1.px ∧ rows[1].1.py < 9 := by
      unfold Spec.polyline at a1
      split_ifs at a1 with h
      · simp only [Prod.mk.injEq] at a1
        constructor <;> [rw [a1.1]; rw [a1.2]] <;> norm_num
        exact hs1
      · unfold Spec.polyline at a1
        rw [if_pos (by linarith)] at a1
        simp only [Prod.mk.injEq] at a1
        constructor <;> [rw [a1.1]; rw [a1.2]] <;> norm_num
        linarith
    rw [Prod.mk.injEq] at key
    have : rows'[1].1.py = 0 ∨ rows'[1].1.px ≤ -9 := by
      unfold Spec.polyline at b1
      split_ifs at b1 with h
      · left; simp only [Prod.mk.injEq] at b1; rw [b1.2]; norm_num
      · right
        unfold Spec.polyline at b1
        have hlt : τ 1 ≤ 2 := by
          have h49 : τ 49 = 2 := by have := t1; norm_num at this; exact this
          rw [← h49]; exact (t2 1 49 (by norm_num) (by norm_num)).le
        rw [if_pos (by linarith)] at b1
        simp only [Prod.mk.injEq] at b1
        rw [b1.1]; norm_num
    rcases this with h | h
    · rw [key.2] at h; linarith [hpx.1]
    · rw [key.1] at h; linarith [hpx.2]

theorem scanStates_reached {S A : Type} {step : S → A → S} : ∀ (us : List A) (s : S),
    ∀ s' ∈ scanStates step s us, ∃ t a, s' = step t a
  | [], _, _, h => by simp [scanStates] at h
  | u :: us, s, s', h => by
    simp only [scanStates, List.mem_cons] at h
    rcases h with rfl | h
    · exact ⟨_, _, rfl⟩
    · exact scanStates_reached us _ s' h

/-- **C72 fails for guided runs far from the origin**: guidance clips positions to the square of side
200 m around the origin, so no plan with guidance is merely translated by 300 m. -/
theorem C72_guidance_refuted (T : TT2d) (hg : T.enableGuidance = true) (hp : T.enableProjection = false)
    (ss : ℝ) (n : ℕ) (hn : 0 < n) (pr pr' : Q4 → U → U) (cfg : Cfg) (hc : cfg.enableGuidance = true)
    (hH : 0 < cfg.Hsample) (normal : Key → ℕ → ℕ → ℕ → ℕ → U) :
    let T' := Spec.movedTT 0 (300, 0) T
    ¬ Spec.SamePlan (move4 0 (300, 0)) (runDiffusion (T.planEnv ⟨pr, Guide.apply T.toParams ss n⟩ []) normal cfg)
      (runDiffusion (T'.planEnv ⟨pr', Guide.apply T'.toParams ss n⟩ []) normal cfg) := by
  intro T' h
  have box : ∀ (T : TT2d) (pr : Q4 → U → U), T.enableGuidance = true → T.enableProjection = false →
      ∀ q ∈ (runDiffusion (T.planEnv ⟨pr, Guide.apply T.toParams ss n⟩ []) normal cfg).xs.tail, |q.px| ≤ 100 := by
    intro T pr hg hp q hq
    simp only [runDiffusion, hc, if_true, List.tail_cons, List.mem_map] at hq
    obtain ⟨s, hs, rfl⟩ := hq
    obtain ⟨t, a, rfl⟩ := scanStates_reached _ _ s hs
    show |(T.stepInternal ⟨pr, Guide.apply T.toParams ss n⟩ true t a).q.px| ≤ 100
    unfold TT2d.stepInternal
    simp only [hp, hg, Bool.false_eq_true, if_false, if_true]
    exact (C47_box T.toParams hg ss n hn _).1
  have l := (C31_result (T.planEnv ⟨pr, Guide.apply T.toParams ss n⟩ []) normal cfg).2.1
  obtain ⟨-, -, -, hx⟩ := h
  set xs := (runDiffusion (T.planEnv ⟨pr, Guide.apply T.toParams ss n⟩ []) normal cfg).xs
  obtain ⟨q, hq⟩ : ∃ q, q ∈ xs.tail := by
    apply List.exists_mem_of_ne_nil
    intro h0
    have := congrArg List.length h0
    rw [List.length_tail, List.length_nil] at this
    omega
  have b1 := box T pr hg hp q hq
  have b2 := box T' pr' hg hp (move4 0 (300, 0) q) (by
    rw [hx, ← List.map_tail]
    exact List.mem_map_of_mem hq)
  rw [move4_zero] at b2
  simp only [Spec.shift4] at b2
  rw [abs_le] at b1 b2
  linarith

/-! ## Non-vacuity -/

/-- Wit robots turned by one radian and moved; every configuration without demonstrations. -/
example (ext : Ext Q4) (cfg : Cfg) (h : cfg.enableDemo = false) (normal : Key → ℕ → ℕ → ℕ → ℕ → U) :=
  C72_tt2d Wit.tt 1 (300, -20) ext ext cfg h (by simp [Wit.tt, Wit.params, Params.default])
    (by simp [Wit.tt, Wit.params, Params.default]) normal
example (ext : Ext Q3) (cfg : Cfg) (h : cfg.enableDemo = false) (normal : Key → ℕ → ℕ → ℕ → ℕ → U) :=
  C72_bicycle Wit.bike 1 (300, -20) ext ext cfg h (by simp [Wit.bike, Wit.params, Params.default])
    (by simp [Wit.bike, Wit.params, Params.default]) normal
example (ext : Ext Q6) (cfg : Cfg) (h : cfg.enableDemo = false) (normal : Key → ℕ → ℕ → ℕ → ℕ → U) :=
  C72_acc Wit.acc 1 (300, -20) ext ext cfg h (by simp [Wit.acc, Wit.params, Params.default])
    (by simp [Wit.acc, Wit.params, Params.default]) normal
example (guide : QN → QN) (cfg : Cfg) (h : cfg.enableDemo = false) (normal : Key → ℕ → ℕ → ℕ → ℕ → U) :=
  C72_ntrailer Wit.train 1 (300, -20) guide guide cfg h (by simp [Wit.train]) rfl rfl rfl
    (by simp [Wit.train, Wit.params, Params.default]) normal
/-- Demonstrations on. -/
example (ext : Ext Q4) (cfg : Cfg) (normal : Key → ℕ → ℕ → ℕ → ℕ → U) :=
  C72_demo_tt2d Wit.tt (300, -20) ext ext { cfg with enableDemo := true }
    (by simp [Wit.tt, Wit.params, Params.default]) (by simp [Wit.tt, Wit.params, Params.default]) normal
example (ext : Ext Q6) (cfg : Cfg) (normal : Key → ℕ → ℕ → ℕ → ℕ → U) :=
  C72_demo_acc Wit.acc (300, -20) ext ext { cfg with enableDemo := true }
    (by simp [Wit.acc, Wit.params, Params.default]) (by simp [Wit.acc, Wit.params, Params.default]) normal
example (ext : Ext Q3) (cfg : Cfg) (normal : Key → ℕ → ℕ → ℕ → ℕ → U) :=
  C72_demo_bicycle Wit.bike (300, -20) ext ext { cfg with enableDemo := true }
    (by simp [Wit.bike, Wit.params, Params.default]) (by simp [Wit.bike, Wit.params, Params.default]) normal
example (guide : QN → QN) (cfg : Cfg) (normal : Key → ℕ → ℕ → ℕ → ℕ → U) :=
  C72_demo_ntrailer Wit.train (300, -20) guide guide { cfg with enableDemo := true } (by simp [Wit.train]) rfl rfl rfl
    (by simp [Wit.train, Wit.params, Params.default]) normal
/-- A guided robot. -/
example (cfg : Cfg) (h : cfg.enableGuidance = true) (hH : 0 < cfg.Hsample)
    (normal : Key → ℕ → ℕ → ℕ → ℕ → U) :=
  C72_guidance_refuted { Wit.tt with enableGuidance := true } rfl rfl 0.05 3 (by norm_num)
    (fun _ u => u) (fun _ u => u) cfg h hH normal

end Mbd
