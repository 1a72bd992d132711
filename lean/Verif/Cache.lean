import Verif.Demo

/-!
# Function caching (mbd_planner.py:37-47, 234-246, 252-257, 339-434, 573-605) and JAX tracing

Assumption about JAX (the only one in this file): a function wrapped by `jax.jit` runs its Python
body once per combination of wrapped function, static arguments and argument shapes; everything it
reads from Python objects during that run is a constant of the recorded trace, and later calls with
the same combination replay the trace. The methods `reset`, `step`, `_step_internal`,
`get_terminal_reward` are wrapped with the object itself as static argument
(tt2d.py:263, 296, 301, 795), so their traces are recorded per object (by identity) and live outside
the dictionary that `clear_jit_cache` empties. `step_env_jit`, the two rollouts and `reverse_once` are
wrapped anew whenever the dictionary has no entry, so their traces are recorded per handle.

Simplifications: all robots share one state type `Q` (in Python two classes can share a handle only if
their states have the same size); `get_reward` inside `compute_demonstration_reward` reads the
current attributes; array shapes other than `Hsample` do not vary; the unguided comparison run
(mbd_planner.py:573-605) is modelled only through the trace it may record, its states are not part
of the result.
-/

namespace Mbd

open Real Classical

/-- A robot object: class name, the attributes the planner uses, the step it would perform with
`enable_guidance = False` (mbd_planner.py:581-586), and the reference data
`generate_demonstration_trajectory` / `compute_demonstration_reward` would store for a preference. -/
structure Obj (Q : Type) where
  cls : String
  view : PlanEnv Q
  stepOff : St Q → U → St Q
  demo : ℤ → (ℤ → List Q → ℝ) × ℝ

/-- Static arguments of `reverse_once` (mbd_planner.py:440-447): preference, temperature, demo flag,
Nsample, Hsample. -/
abbrev RevKey := ℤ × ℝ × Bool × ℕ × ℕ

/-- Attributes `reverse_once` reads from its captured `env` while it is traced
(mbd_planner.py:316, 323, 404, 413, 416). -/
structure RevAttrs (Q : Type) where
  steeringWeight : ℝ
  deltaMax : ℝ
  xrefLogpd : ℤ → List Q → ℝ
  rewXref : ℝ

/-- The cached `reverse_once` (mbd_planner.py:345-434): captured schedule, captured object, captured
rollout handle, traces per static argument. -/
structure Rev (Q : Type) where
  sched : Schedule
  env : ℕ
  handle : ℕ × ℕ
  traces : RevKey → Option (RevAttrs Q)

/-- Process state. Objects have numbers (identity). A handle `(k, p)` is the tuple stored at
mbd_planner.py:246, number `k`, built from object `p`; `rollTr k H` is the terminal weight recorded
in the trace of its rollout for plans of length `H` (utils.py:48). -/
structure World (Q : Type) where
  heap : ℕ → Obj Q
  resetTr : ℕ → Option (Key → St Q)
  stepTr : ℕ → Option (St Q → U → St Q)
  vizTr : ℕ → Option (St Q → U → St Q)
  termTr : ℕ → Option (Q → ℝ)
  nextHandle : ℕ
  rollTr : ℕ → ℕ → Option ℝ
  funcs : String → Option (ℕ × ℕ)
  rev : Option (Rev Q)

/-- Calling a jitted function: replay the trace if there is one, otherwise record the current value.
(`jax.jit` as used at mbd_planner.py:244-293) -/
def touch {κ α : Type} [DecidableEq κ] (tr : κ → Option α) (k : κ) (live : α) : κ → Option α :=
  Function.update tr k (some ((tr k).getD live))

namespace World

variable {Q : Type}

/-- A new process with the given objects. (module state at import, mbd_planner.py:20-47) -/
def init (heap : ℕ → Obj Q) : World Q :=
  { heap := heap, resetTr := fun _ => none, stepTr := fun _ => none, vizTr := fun _ => none
    termTr := fun _ => none, nextHandle := 0, rollTr := fun _ _ => none, funcs := fun _ => none
    rev := none }

/-- `clear_jit_cache` (mbd_planner.py:41-47). -/
def clear (w : World Q) : World Q := { w with funcs := fun _ => none, rev := none }

/-- Assigning attributes of an object (setters, constructor). (tt2d.py:170-261) -/
def set (w : World Q) (o : ℕ) (x : Obj Q) : World Q := { w with heap := Function.update w.heap o x }

/-- The object after the demonstration block (mbd_planner.py:216-226). -/
def withDemo (x : Obj Q) (cfg : Cfg) : Obj Q :=
  if cfg.enableDemo then
    { x with view := { x.view with
                        xrefLogpd := (x.demo cfg.motionPreference).1
                        rewXref := (x.demo cfg.motionPreference).2 } }
  else x

/-- Static arguments of this run (mbd_planner.py:440-447, 486-493). -/
def revKey (cfg : Cfg) : RevKey :=
  (cfg.motionPreference, cfg.temp, cfg.enableDemo, cfg.Nsample, cfg.Hsample)

/-- `run_diffusion` on object `o` with the function cache (mbd_planner.py:189-751). -/
noncomputable def run (w : World Q) (o : ℕ) (normal : Key → ℕ → ℕ → ℕ → ℕ → U) (cfg : Cfg) :
    World Q × Result Q :=
  -- demonstration, 216-226
  let heap := Function.update w.heap o (withDemo (w.heap o) cfg)
  let cls := (heap o).cls
  -- environment functions, 236-246
  let h := (w.funcs cls).getD (w.nextHandle, o)
  let funcs := Function.update w.funcs cls (some h)
  let next := if (w.funcs cls).isSome then w.nextHandle else w.nextHandle + 1
  -- initial state, 250
  let reset := (w.resetTr o).getD (heap o).view.reset
  let s0 := reset keyReset
  -- reverse_once, 298-301, 339-434
  let r := w.rev.getD { sched := mkSchedule cfg.beta0 cfg.betaT cfg.Ndiffuse, env := o, handle := h
                        traces := fun _ => none }
  let rv := (heap r.env).view
  let attrs := (r.traces (revKey cfg)).getD
    ⟨rv.steeringWeight, rv.deltaMax, rv.xrefLogpd, rv.rewXref⟩
  let stepOf := fun p => (w.stepTr p).getD (heap p).view.step
  let termOf := fun p => (w.termTr p).getD (heap p).view.terminal
  let weightOf := fun (k : ℕ × ℕ) => (w.rollTr k.1 cfg.Hsample).getD (heap k.2).view.terminalWeight
  let E : PlanEnv Q :=
    { reset := reset, step := stepOf r.handle.2, stepViz := stepOf r.handle.2
      terminal := termOf r.handle.2, terminalWeight := weightOf r.handle
      steeringWeight := attrs.steeringWeight, deltaMax := attrs.deltaMax
      xrefLogpd := attrs.xrefLogpd, rewXref := attrs.rewXref }
  let lp := reverseLoop (reverseOnce E r.sched normal cfg s0) cfg (zeroPlan cfg) keyExp
  -- final rollout with this run's handle, 513
  let roll := rolloutUsWithTerminal (stepOf h.2) (termOf h.2) (weightOf h) s0
  let Y0 := (roll lp.Y).2.2
  let viz := (w.vizTr o).getD (heap o).view.stepViz
  let stepFinal := if cfg.enableGuidance then viz else stepOf h.2
  let res : Result Q :=
    { rew := (roll Y0).1, Y0 := Y0, xs := s0.q :: (scanStates stepFinal s0 Y0).map St.q
      hist := lp.hist }
  -- recorded traces
  let stepTr := touch (touch w.stepTr h.2 (heap h.2).view.step) r.handle.2
    (heap r.handle.2).view.step
  let termTr := touch (touch w.termTr h.2 (heap h.2).view.terminal) r.handle.2
    (heap r.handle.2).view.terminal
  let rollTr := Function.update w.rollTr h.1 (touch (w.rollTr h.1) cfg.Hsample
    (heap h.2).view.terminalWeight)
  let rollTr := Function.update rollTr r.handle.1 (touch (rollTr r.handle.1) cfg.Hsample
    (heap r.handle.2).view.terminalWeight)
  let w' : World Q :=
    { heap := heap
      resetTr := touch w.resetTr o (heap o).view.reset
      -- comparison run with `env.enable_guidance = False`, 581-602
      stepTr := if cfg.enableGuidance then touch stepTr o (heap o).stepOff else stepTr
      vizTr := if cfg.enableGuidance then touch w.vizTr o (heap o).view.stepViz else w.vizTr
      termTr := termTr
      nextHandle := next
      rollTr := rollTr
      -- guidance empties the dictionary before the comparison run, 578
      funcs := if cfg.enableGuidance then fun _ => none else funcs
      rev := if cfg.enableGuidance then none
        else some { r with traces := Function.update r.traces (revKey cfg) (some attrs) } }
  (w', res)

end World

/-- What a user program can do.
(the calls of mbd_planner.py:41-47, 189-751 and the setters tt2d.py:170-261) -/
inductive Op (Q : Type) where
  | run (o : ℕ) (normal : Key → ℕ → ℕ → ℕ → ℕ → U) (cfg : Cfg)
  | clear
  | set (o : ℕ) (x : Obj Q)

/-- Effect of one operation on the process. (mbd_planner.py:41-47, 189-751) -/
noncomputable def World.exec {Q : Type} (w : World Q) : Op Q → World Q
  | .run o normal cfg => (w.run o normal cfg).1
  | .clear => w.clear
  | .set o x => w.set o x

/-- Effect of a history. (a sequence of the calls of mbd_planner.py:41-47, 189-751) -/
noncomputable def World.history {Q : Type} (w : World Q) (ops : List (Op Q)) : World Q :=
  ops.foldl World.exec w

/-- A `TractorTrailer2d` object. The reference data are the demonstration's (tt2d.py:466-683,
685-704); where the generator raises, `run_diffusion` stops there, and the value given here (no
reference) is not used. -/
noncomputable def TT2d.obj (T : TT2d) (ext : Ext Q4) : Obj Q4 :=
  { cls := "TractorTrailer2d"
    view := T.planEnv ext []
    stepOff := { T with enableGuidance := false }.step ext
    demo := fun pref =>
      match T.demo pref with
      | .ok rows => ((T.planEnv ext rows).xrefLogpd, (T.planEnv ext rows).rewXref)
      | .error _ => ((T.planEnv ext []).xrefLogpd, (T.planEnv ext []).rewXref) }

end Mbd
