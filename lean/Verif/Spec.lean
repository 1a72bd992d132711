import Verif.Prim

/-!
# Independent geometric specification

Nothing here refers to the model of the code (only to `V2 = ℝ × ℝ`).
-/

namespace Spec

open Real

/-- The plane. -/
abbrev Pt := ℝ × ℝ

/-- The point with longitudinal coordinate `s` and lateral coordinate `t` in the frame at `c` with
heading `ang`. -/
noncomputable def frame (c : Pt) (ang s t : ℝ) : Pt :=
  (c.1 + s * cos ang - t * sin ang, c.2 + s * sin ang + t * cos ang)

/-- Closed solid rectangle with centre `c`, heading `ang`, half-length `hl`, half-width `hw`. -/
def solidRect (c : Pt) (ang hl hw : ℝ) : Set Pt :=
  {p | ∃ s t, |s| ≤ hl ∧ |t| ≤ hw ∧ p = frame c ang s t}

/-- Outline (boundary) of that rectangle. -/
def outline (c : Pt) (ang hl hw : ℝ) : Set Pt :=
  {p | ∃ s t, |s| ≤ hl ∧ |t| ≤ hw ∧ (|s| = hl ∨ |t| = hw) ∧ p = frame c ang s t}

/-- Closed disc. -/
def disc (c : Pt) (r : ℝ) : Set Pt := {p | (p.1 - c.1) ^ 2 + (p.2 - c.2) ^ 2 ≤ r ^ 2}

/-- Euclidean distance. -/
noncomputable def dist (a b : Pt) : ℝ := √((a.1 - b.1) ^ 2 + (a.2 - b.2) ^ 2)

/-- A body of a vehicle: from `rear` behind to `front` ahead of the axle point `a`, total width
`width`, heading `ang`. -/
def body (a : Pt) (ang rear front width : ℝ) : Set Pt :=
  {p | ∃ s t, -rear ≤ s ∧ s ≤ front ∧ |t| ≤ width / 2 ∧ p = frame a ang s t}

/-- The angle `a`, read modulo full turns, exceeds `lim` in magnitude. -/
def exceedsModTurns (lim a : ℝ) : Prop := ∀ k : ℤ, lim < |a + 2 * π * k|

/-- Two sets share no point. -/
def Apart (A B : Set Pt) : Prop := ∀ p, p ∈ A → p ∈ B → False

end Spec
