import Verif.Cache
import Verif.Render

/-!
# The comparison run of a guided plan (mbd_planner.py:573-605, 662-668, 688-714)

After a run with guidance the planner executes the planned actions once more with
`env.enable_guidance = False` and shows that trajectory.  The step function is
`env._step_internal(state, action, False)`, a jitted method: by the assumption of `Verif/Cache.lean`
it replays the trace recorded for the object if there is one.
-/

namespace Mbd

open Real Classical

/-- `unguided_trajectory_states` of a run (mbd_planner.py:573-605); `none` without guidance.  The trace
used is the one `World.run` leaves in `stepTr`. -/
noncomputable def World.comparison {Q : Type} (w : World Q) (o : ℕ)
    (normal : Key → ℕ → ℕ → ℕ → ℕ → U) (cfg : Cfg) : Option (List Q) :=
  let r := w.run o normal cfg
  let s0 := ((w.resetTr o).getD (w.heap o).view.reset) keyReset
  let step := (r.1.stepTr o).getD (r.1.heap o).stepOff
  if cfg.enableGuidance then some (s0.q :: (scanStates step s0 r.2.Y0).map St.q) else none

/-- A `KinematicBicycle2d` object. The reference data are the demonstration's
(kinematic_bicycle2d.py:335-361), as in `TT2d.obj`. -/
noncomputable def Bicycle.obj (T : Bicycle) (ext : Ext Q3) (demo : ℤ → (ℤ → List Q3 → ℝ) × ℝ) : Obj Q3 :=
  { cls := "KinematicBicycle2d"
    view := T.planEnv ext []
    stepOff := { T with enableGuidance := false }.step ext
    demo := demo }

/-- An `AccTractorTrailer2d` object (acc_tt2d.py:20-75); the reference data are kept arbitrary. -/
noncomputable def Acc.obj (T : Acc) (ext : Ext Q6) (demo : ℤ → (ℤ → List Q6 → ℝ) × ℝ) : Obj Q6 :=
  { cls := "AccTractorTrailer2d"
    view := T.planEnv ext []
    stepOff := { T with enableGuidance := false }.step ext
    demo := demo }

end Mbd
