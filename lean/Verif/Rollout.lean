import Verif.TT2d

/-!
# Rollouts (mbd/utils.py)

A step function may raise (N-trailer), so rollouts are in `Except`; a robot whose step cannot
raise is used through `pureStep`.
-/

namespace Mbd

/-- `jax.lax.scan(step, state, us)` keeping every visited state (utils.py:23, 33, 44):
the list of states *after* each action. -/
def scanStates {S A : Type} (step : S → A → S) : S → List A → List S
  | _, [] => []
  | s, u :: us => step s u :: scanStates step (step s u) us

/-- Final carry of the scan. (utils.py:36-51) -/
def finalState {S A : Type} (step : S → A → S) : S → List A → S
  | s, [] => s
  | s, u :: us => finalState step (step s u) us

/-- The same scan for a step function that may raise: the first error aborts it. (utils.py:26-34) -/
def scanStatesE {E S A : Type} (step : S → A → Except E S) : S → List A → Except E (List S)
  | _, [] => .ok []
  | s, u :: us =>
    match step s u with
    | .error e => .error e
    | .ok s' =>
      match scanStatesE step s' us with
      | .error e => .error e
      | .ok l => .ok (s' :: l)

/-- `eval_us` (utils.py:18-24): rewards along the scan. -/
def evalUs {Q : Type} (step : St Q → U → St Q) (s : St Q) (us : List U) : List ℝ :=
  (scanStates step s us).map St.reward

/-- `state_init = step_env(state, zero_u)` (utils.py:31-32, 41-42). -/
def warmState {Q : Type} (step : St Q → U → St Q) (s : St Q) : St Q := step s (0, 0)

/-- `rollout_us` (utils.py:26-34): rewards, states, applied actions of the scan started from the
warm-up state. -/
def rolloutUs {Q : Type} (step : St Q → U → St Q) (s : St Q) (us : List U) :
    List ℝ × List Q × List U :=
  let tr := scanStates step (warmState step s) us
  (tr.map St.reward, tr.map St.q, tr.map St.applied)

/-- `rollout_us_with_terminal` (utils.py:36-51): mean stage reward plus weighted terminal reward of
the final state; states; applied actions. -/
noncomputable def rolloutUsWithTerminal {Q : Type} (step : St Q → U → St Q) (terminal : Q → ℝ)
    (terminalWeight : ℝ) (s : St Q) (us : List U) : ℝ × List Q × List U :=
  let s0 := warmState step s
  let tr := scanStates step s0 us
  let fin := finalState step s0 us
  (mean (tr.map St.reward) + terminalWeight * terminal fin.q, tr.map St.q, tr.map St.applied)

end Mbd
