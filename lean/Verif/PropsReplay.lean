import Verif.PropsMotion

/-!
# C17: every value of a rollout
-/

namespace Mbd

/-- C17, values: reward, state and applied action number `i` of a rollout are those of the state reached by executing the first `i + 1`
actions one after the other; `rollout_us` starts after one step with the zero action, `eval_us` directly from the given state. -/
theorem C17_values {Q : Type} (step : St Q → U → St Q) (s : St Q) (us : List U) (i : ℕ) (hi : i < us.length) :
    (evalUs step s us)[i]? = some ((us.take (i + 1)).foldl step s).reward ∧
    (rolloutUs step s us).1[i]? = some ((us.take (i + 1)).foldl step (step s (0, 0))).reward ∧
    (rolloutUs step s us).2.1[i]? = some ((us.take (i + 1)).foldl step (step s (0, 0))).q ∧
    (rolloutUs step s us).2.2[i]? = some ((us.take (i + 1)).foldl step (step s (0, 0))).applied := by
  have key : ∀ (us : List U) (s : St Q) (i : ℕ), i < us.length → (scanStates step s us)[i]? = some ((us.take (i + 1)).foldl step s) := by
    intro us
    induction us with
    | nil => intro s i hi; simp at hi
    | cons u us ih =>
      intro s i hi
      cases i with
      | zero => simp [scanStates]
      | succ i => simpa [scanStates] using ih (step s u) i (by simpa using hi)
  unfold evalUs rolloutUs warmState
  simp [key us s i hi, key us (step s (0, 0)) i hi]

example := fun ext => C17_values (Wit.tt.step ext) Wit.tt.reset [(1, 0), (1, 1)] 1 (by norm_num)

end Mbd
