import Verif.PropsFrame
import Verif.PropsMirror
import Verif.Projection
import Verif.Guidance

/-!
# C72, C73: the projection problem and the guidance in another frame
-/

namespace Spec

open Real Mbd

/-- Strictly inside the box to which guidance clips. -/
def InsideBox (q : Q4) : Prop := |q.px| < 100 ∧ |q.py| < 100 ∧ |q.th1| < 2 * π ∧ |q.th2| < 2 * π

/-- The same for the bicycle. -/
def InsideBox3 (q : Q3) : Prop := |q.px| < 100 ∧ |q.py| < 100 ∧ |q.th1| < 2 * π

end Spec

namespace Mbd

open Real Classical _root_.Spec

namespace Proj

/-! ## Distances -/

theorem sdfBox_move (α : ℝ) (d p c half : V2) (a : ℝ) :
    sdfBox (Spec.move α d p) (Spec.move α d c) half (a + α) = sdfBox p c half a := by
  have h := cos_sq_add_sin_sq α
  have e1 : dot (Spec.move α d p - Spec.move α d c) (cos (a + α), sin (a + α)) = dot (p - c) (cos a, sin a) := by
    unfold dot Spec.move Spec.frame
    simp only [Prod.fst_sub, Prod.snd_sub, cos_add, sin_add]
    linear_combination ((p.1 - c.1) * cos a + (p.2 - c.2) * sin a) * h
  have e2 : dot (Spec.move α d p - Spec.move α d c) (-sin (a + α), cos (a + α)) = dot (p - c) (-sin a, cos a) := by
    unfold dot Spec.move Spec.frame
    simp only [Prod.fst_sub, Prod.snd_sub, cos_add, sin_add]
    linear_combination (-(p.1 - c.1) * sin a + (p.2 - c.2) * cos a) * h
  unfold sdfBox
  simp only [e1, e2]

theorem gapAxis_move (α : ℝ) (d c1 h1 : V2) (a1 : ℝ) (c2 h2 : V2) (a2 : ℝ) (n : V2) :
    gapOnAxis (Spec.move α d c1) h1 (a1 + α) (Spec.move α d c2) h2 (a2 + α) (rotV α n)
      = gapOnAxis c1 h1 a1 c2 h2 a2 n := by
  have h := cos_sq_add_sin_sq α
  have ep : ∀ c : V2, dot (Spec.move α d c) (rotV α n) = dot c n + dot d (rotV α n) := by
    intro c
    unfold dot Spec.move Spec.frame rotV
    simp only
    linear_combination (c.1 * n.1 + c.2 * n.2) * h
  have e1 : ∀ a, dot (cos (a + α), sin (a + α)) (rotV α n) = dot (cos a, sin a) n := by
    intro a
    unfold dot rotV
    simp only [cos_add, sin_add]
    linear_combination (cos a * n.1 + sin a * n.2) * h
  have e2 : ∀ a, dot (-sin (a + α), cos (a + α)) (rotV α n) = dot (-sin a, cos a) n := by
    intro a
    unfold dot rotV
    simp only [cos_add, sin_add]
    linear_combination (-sin a * n.1 + cos a * n.2) * h
  unfold gapOnAxis
  simp only [ep, e1, e2]
  congr 1 <;> ring

theorem gapBoxes_move (α : ℝ) (d c1 h1 : V2) (a1 : ℝ) (c2 h2 : V2) (a2 : ℝ) :
    gapBoxes (Spec.move α d c1) h1 (a1 + α) (Spec.move α d c2) h2 (a2 + α) = gapBoxes c1 h1 a1 c2 h2 a2 := by
  have r1 : ∀ a, ((cos (a + α), sin (a + α)) : V2) = rotV α (cos a, sin a) := by
    intro a; unfold rotV; rw [cos_add, sin_add]; exact Prod.ext (by simp only) (by simp only; ring)
  have r2 : ∀ a, ((-sin (a + α), cos (a + α)) : V2) = rotV α (-sin a, cos a) := by
    intro a; unfold rotV; rw [cos_add, sin_add]; exact Prod.ext (by simp only; ring) (by simp only; ring)
  unfold gapBoxes
  simp only [r1, r2, gapAxis_move]

theorem tractorCenter_move (P : Params) (α : ℝ) (d : V2) (px py th : ℝ) :
    tractorCenter P (Spec.move α d (px, py)).1 (Spec.move α d (px, py)).2 (th + α)
      = Spec.move α d (tractorCenter P px py th) := by
  unfold tractorCenter Spec.move Spec.frame
  rw [cos_add, sin_add]
  exact Prod.ext (by simp only; ring) (by simp only; ring)

theorem trailerCenter_move (P : Params) (α : ℝ) (d : V2) (q : Q4) :
    trailerCenter P (move4 α d q) = Spec.move α d (trailerCenter P q) := by
  unfold trailerCenter move4 Spec.move Spec.frame
  simp only [cos_add, sin_add]
  exact Prod.ext (by simp only; ring) (by simp only; ring)

theorem constraints_move (P : Params) (α : ℝ) (d : V2) (q : Q4) :
    constraints (P.moveObstacles α d) (move4 α d q) = constraints P q := by
  have t1 : ∀ q : Q4, tractorCenter P (move4 α d q).px (move4 α d q).py (move4 α d q).th1
      = Spec.move α d (tractorCenter P q.px q.py q.th1) := fun q => tractorCenter_move P α d _ _ _
  have t2 := trailerCenter_move P α d q
  unfold constraints
  congr 1
  · congr 1
    · show List.map _ (List.map _ _) = _
      rw [List.map_map]
      apply List.map_congr_left
      intro c _
      have e : distCircle (P.moveObstacles α d) = distCircle P := rfl
      simp only [Function.comp, e]
      unfold distCircle
      rw [t1, t2]
      simp only [Prod.mk.eta]
      rw [show (move4 α d q).th1 = q.th1 + α from rfl, show (move4 α d q).th2 = q.th2 + α from rfl,
        sdfBox_move, sdfBox_move]
    · show List.map _ (List.map _ _) = _
      rw [List.map_map]
      apply List.map_congr_left
      intro o _
      have e : distRect (P.moveObstacles α d) = distRect P := rfl
      simp only [Function.comp, e]
      unfold distRect
      rw [t1, t2]
      simp only [Prod.mk.eta]
      rw [show (move4 α d q).th1 = q.th1 + α from rfl, show (move4 α d q).th2 = q.th2 + α from rfl,
        gapBoxes_move, gapBoxes_move]
  · have : (move4 α d q).th1 - (move4 α d q).th2 = q.th1 - q.th2 := by unfold move4; simp only; ring
    rw [this]
    rfl

theorem constraintsB_move (P : Params) (α : ℝ) (d : V2) (q : Q3) :
    constraintsB (P.moveObstacles α d) (move3 α d q) = constraintsB P q := by
  have t1 : tractorCenter P (move3 α d q).px (move3 α d q).py (move3 α d q).th1
      = Spec.move α d (tractorCenter P q.px q.py q.th1) := tractorCenter_move P α d _ _ _
  have e0 : tractorCenter (P.moveObstacles α d) = tractorCenter P := rfl
  have ec : (P.moveObstacles α d).circles.map (fun o => sdfBox (o.x, o.y)
      (Spec.move α d (tractorCenter P q.px q.py q.th1)) ((P.l1 + P.lf1 + P.lr) / 2, P.tractorWidth / 2) (q.th1 + α) - o.r)
      = P.circles.map (fun o => sdfBox (o.x, o.y) (tractorCenter P q.px q.py q.th1)
        ((P.l1 + P.lf1 + P.lr) / 2, P.tractorWidth / 2) q.th1 - o.r) := by
    show List.map _ (List.map _ _) = _
    rw [List.map_map]
    apply List.map_congr_left
    intro c _
    simp only [Function.comp, Prod.mk.eta, sdfBox_move]
  have er : (P.moveObstacles α d).rects.map (fun o => gapBoxes (Spec.move α d (tractorCenter P q.px q.py q.th1))
      ((P.l1 + P.lf1 + P.lr) / 2, P.tractorWidth / 2) (q.th1 + α) (o.x, o.y) (o.w / 2, o.h / 2) o.ang)
      = P.rects.map (fun o => gapBoxes (tractorCenter P q.px q.py q.th1)
        ((P.l1 + P.lf1 + P.lr) / 2, P.tractorWidth / 2) q.th1 (o.x, o.y) (o.w / 2, o.h / 2) o.ang) := by
    show List.map _ (List.map _ _) = _
    rw [List.map_map]
    apply List.map_congr_left
    intro c _
    simp only [Function.comp, Prod.mk.eta, gapBoxes_move]
  unfold constraintsB
  simp only [e0, t1]
  rw [← ec, ← er]
  rfl

/-! ## Prediction -/

theorem rk4_move (P : Params) (α : ℝ) (d : V2) (q : Q4) (u : U) :
    rk4 (P.moveObstacles α d) (move4 α d q) u = move4 α d (rk4 P q u) := by
  have hs : ∀ a b : ℝ, a + α - (b + α) = a - b := fun a b => by ring
  have ed : ∀ x : Q4, TT2d.dynamics (P.moveObstacles α d) (move4 α d x) u
      = ⟨(rotV α ((TT2d.dynamics P x u).px, (TT2d.dynamics P x u).py)).1,
        (rotV α ((TT2d.dynamics P x u).px, (TT2d.dynamics P x u).py)).2, (TT2d.dynamics P x u).th1,
        (TT2d.dynamics P x u).th2⟩ := by
    intro x
    have e : TT2d.dynamics (P.moveObstacles α d) = TT2d.dynamics P := rfl
    rw [e]
    unfold TT2d.dynamics move4 rotV
    simp only [hs, cos_add, sin_add]
    apply Q4.ext <;> simp only <;> ring
  have ea : ∀ (x k : Q4) (h : ℝ), (move4 α d x).axpy h ⟨(rotV α (k.px, k.py)).1, (rotV α (k.px, k.py)).2, k.th1, k.th2⟩
      = move4 α d (x.axpy h k) := by
    intro x k h
    unfold Q4.axpy move4 rotV Spec.move Spec.frame
    apply Q4.ext <;> simp only <;> ring
  have hdt : (P.moveObstacles α d).dt = P.dt := rfl
  unfold rk4
  simp only [hdt, ed, ea]
  rw [← ea]
  congr 1
  unfold rotV
  apply Q4.ext <;> simp only <;> ring

theorem rk4B_move (P : Params) (α : ℝ) (d : V2) (q : Q3) (u : U) :
    rk4B (P.moveObstacles α d) (move3 α d q) u = move3 α d (rk4B P q u) := by
  have ed : ∀ x : Q3, Bicycle.dynamics (P.moveObstacles α d) (move3 α d x) u
      = ⟨(rotV α ((Bicycle.dynamics P x u).px, (Bicycle.dynamics P x u).py)).1,
        (rotV α ((Bicycle.dynamics P x u).px, (Bicycle.dynamics P x u).py)).2, (Bicycle.dynamics P x u).th1⟩ := by
    intro x
    have e : Bicycle.dynamics (P.moveObstacles α d) = Bicycle.dynamics P := rfl
    rw [e]
    unfold Bicycle.dynamics move3 rotV
    simp only [cos_add, sin_add]
    apply Q3.ext <;> simp only <;> ring
  have ea : ∀ (x k : Q3) (h : ℝ), (move3 α d x).axpy h ⟨(rotV α (k.px, k.py)).1, (rotV α (k.px, k.py)).2, k.th1⟩
      = move3 α d (x.axpy h k) := by
    intro x k h
    unfold Q3.axpy move3 rotV Spec.move Spec.frame
    apply Q3.ext <;> simp only <;> ring
  have hdt : (P.moveObstacles α d).dt = P.dt := rfl
  unfold rk4B
  simp only [hdt, ed, ea]
  rw [← ea]
  congr 1
  unfold rotV
  apply Q3.ext <;> simp only <;> ring

/-! ## Mirror image -/

theorem sdfBox_flip (p c half : V2) (a : ℝ) : sdfBox (Spec.flip p) (Spec.flip c) half (-a) = sdfBox p c half a := by
  have e1 : dot (Spec.flip p - Spec.flip c) (cos (-a), sin (-a)) = dot (p - c) (cos a, sin a) := by
    unfold dot Spec.flip
    simp only [Prod.fst_sub, Prod.snd_sub, cos_neg, sin_neg]
    ring
  have e2 : dot (Spec.flip p - Spec.flip c) (-sin (-a), cos (-a)) = -dot (p - c) (-sin a, cos a) := by
    unfold dot Spec.flip
    simp only [Prod.fst_sub, Prod.snd_sub, cos_neg, sin_neg]
    ring
  unfold sdfBox
  simp only [e1, e2, abs_neg]

theorem gapAxis_flip (c1 h1 : V2) (a1 : ℝ) (c2 h2 : V2) (a2 : ℝ) (n : V2) :
    gapOnAxis (Spec.flip c1) h1 (-a1) (Spec.flip c2) h2 (-a2) (Spec.flip n) = gapOnAxis c1 h1 a1 c2 h2 a2 n := by
  have ep : ∀ c : V2, dot (Spec.flip c) (Spec.flip n) = dot c n := by
    intro c; unfold dot Spec.flip; simp only; ring
  have e1 : ∀ a, dot (cos (-a), sin (-a)) (Spec.flip n) = dot (cos a, sin a) n := by
    intro a; unfold dot Spec.flip; simp only [cos_neg, sin_neg]; ring
  have e2 : ∀ a, dot (-sin (-a), cos (-a)) (Spec.flip n) = -dot (-sin a, cos a) n := by
    intro a; unfold dot Spec.flip; simp only [cos_neg, sin_neg]; ring
  unfold gapOnAxis
  simp only [ep, e1, e2, abs_neg]

theorem gapAxis_neg (c1 h1 : V2) (a1 : ℝ) (c2 h2 : V2) (a2 : ℝ) (n : V2) :
    gapOnAxis c1 h1 a1 c2 h2 a2 (-n) = gapOnAxis c1 h1 a1 c2 h2 a2 n := by
  have ep : ∀ c : V2, dot c (-n) = -dot c n := by
    intro c; unfold dot; simp only [Prod.fst_neg, Prod.snd_neg]; ring
  unfold gapOnAxis
  simp only [ep, abs_neg]
  rw [max_comm]
  congr 1 <;> ring

theorem gapBoxes_flip (c1 h1 : V2) (a1 : ℝ) (c2 h2 : V2) (a2 : ℝ) :
    gapBoxes (Spec.flip c1) h1 (-a1) (Spec.flip c2) h2 (-a2) = gapBoxes c1 h1 a1 c2 h2 a2 := by
  have r1 : ∀ a, ((cos (-a), sin (-a)) : V2) = Spec.flip (cos a, sin a) := by
    intro a; unfold Spec.flip; rw [cos_neg, sin_neg]
  have r2 : ∀ a, ((-sin (-a), cos (-a)) : V2) = Spec.flip (-(-sin a, cos a)) := by
    intro a; unfold Spec.flip; rw [cos_neg, sin_neg]; exact Prod.ext (by simp) (by simp)
  unfold gapBoxes
  simp only [r1, r2, gapAxis_flip, gapAxis_neg]

theorem constraints_flip (P : Params) (q : Q4) : constraints (flipObstacles P) (flip4 q) = constraints P q := by
  have t1 : tractorCenter P (flip4 q).px (flip4 q).py (flip4 q).th1 = Spec.flip (tractorCenter P q.px q.py q.th1) := by
    unfold tractorCenter flip4 Spec.flip
    simp only [cos_neg, sin_neg]
    exact Prod.ext rfl (by simp only; ring)
  have t2 : trailerCenter P (flip4 q) = Spec.flip (trailerCenter P q) := by
    unfold trailerCenter flip4 Spec.flip
    simp only [cos_neg, sin_neg]
    exact Prod.ext rfl (by simp only; ring)
  have hf : ∀ x y : ℝ, ((x, -y) : V2) = Spec.flip (x, y) := fun _ _ => rfl
  unfold constraints
  congr 1
  · congr 1
    · show List.map _ (List.map _ _) = _
      rw [List.map_map]
      apply List.map_congr_left
      intro c _
      have e : distCircle (flipObstacles P) = distCircle P := rfl
      simp only [Function.comp, e]
      unfold distCircle
      rw [t1, t2]
      simp only [hf]
      rw [show (flip4 q).th1 = -q.th1 from rfl, show (flip4 q).th2 = -q.th2 from rfl, sdfBox_flip, sdfBox_flip]
    · show List.map _ (List.map _ _) = _
      rw [List.map_map]
      apply List.map_congr_left
      intro o _
      have e : distRect (flipObstacles P) = distRect P := rfl
      simp only [Function.comp, e]
      unfold distRect
      rw [t1, t2]
      simp only [hf]
      rw [show (flip4 q).th1 = -q.th1 from rfl, show (flip4 q).th2 = -q.th2 from rfl, gapBoxes_flip, gapBoxes_flip]
  · have : |wrapPi ((flip4 q).th1 - (flip4 q).th2)| = |wrapPi (q.th1 - q.th2)| := (wrap_flip q.th1 q.th2).1
    rw [this]
    rfl

theorem constraintsB_flip (P : Params) (q : Q3) : constraintsB (flipObstacles P) (flip3 q) = constraintsB P q := by
  have t1 : tractorCenter P (flip3 q).px (flip3 q).py (flip3 q).th1 = Spec.flip (tractorCenter P q.px q.py q.th1) := by
    unfold tractorCenter flip3 Spec.flip
    simp only [cos_neg, sin_neg]
    exact Prod.ext rfl (by simp only; ring)
  have hf : ∀ x y : ℝ, ((x, -y) : V2) = Spec.flip (x, y) := fun _ _ => rfl
  have e0 : tractorCenter (flipObstacles P) = tractorCenter P := rfl
  have ec : (flipObstacles P).circles.map (fun o => sdfBox (o.x, o.y) (Spec.flip (tractorCenter P q.px q.py q.th1))
      ((P.l1 + P.lf1 + P.lr) / 2, P.tractorWidth / 2) (-q.th1) - o.r)
      = P.circles.map (fun o => sdfBox (o.x, o.y) (tractorCenter P q.px q.py q.th1)
        ((P.l1 + P.lf1 + P.lr) / 2, P.tractorWidth / 2) q.th1 - o.r) := by
    show List.map _ (List.map _ _) = _
    rw [List.map_map]
    apply List.map_congr_left
    intro c _
    simp only [Function.comp, hf, sdfBox_flip]
  have er : (flipObstacles P).rects.map (fun o => gapBoxes (Spec.flip (tractorCenter P q.px q.py q.th1))
      ((P.l1 + P.lf1 + P.lr) / 2, P.tractorWidth / 2) (-q.th1) (o.x, o.y) (o.w / 2, o.h / 2) o.ang)
      = P.rects.map (fun o => gapBoxes (tractorCenter P q.px q.py q.th1)
        ((P.l1 + P.lf1 + P.lr) / 2, P.tractorWidth / 2) q.th1 (o.x, o.y) (o.w / 2, o.h / 2) o.ang) := by
    show List.map _ (List.map _ _) = _
    rw [List.map_map]
    apply List.map_congr_left
    intro c _
    simp only [Function.comp, hf, gapBoxes_flip]
  unfold constraintsB
  simp only [e0, t1]
  rw [← ec, ← er]
  rfl

theorem rk4_flip (P : Params) (q : Q4) (u : U) :
    rk4 (flipObstacles P) (flip4 q) (otherSide u) = flip4 (rk4 P q u) := by
  have hs : ∀ a b : ℝ, -a - -b = -(a - b) := fun a b => by ring
  have ed : ∀ x : Q4, TT2d.dynamics (flipObstacles P) (flip4 x) (otherSide u) = flip4 (TT2d.dynamics P x u) := by
    intro x
    have e : TT2d.dynamics (flipObstacles P) = TT2d.dynamics P := rfl
    rw [e]
    unfold TT2d.dynamics flip4 otherSide
    simp only [hs, cos_neg, sin_neg, tan_neg]
    apply Q4.ext <;> simp only <;> ring
  have ea : ∀ (x k : Q4) (h : ℝ), (flip4 x).axpy h (flip4 k) = flip4 (x.axpy h k) := by
    intro x k h
    unfold Q4.axpy flip4
    apply Q4.ext <;> simp only <;> ring
  have hdt : (flipObstacles P).dt = P.dt := rfl
  unfold rk4
  simp only [hdt, ed, ea]
  rw [← ea]
  congr 1
  unfold flip4
  apply Q4.ext <;> simp only <;> ring

theorem rk4B_flip (P : Params) (q : Q3) (u : U) :
    rk4B (flipObstacles P) (flip3 q) (otherSide u) = flip3 (rk4B P q u) := by
  have ed : ∀ x : Q3, Bicycle.dynamics (flipObstacles P) (flip3 x) (otherSide u) = flip3 (Bicycle.dynamics P x u) := by
    intro x
    have e : Bicycle.dynamics (flipObstacles P) = Bicycle.dynamics P := rfl
    rw [e]
    unfold Bicycle.dynamics flip3 otherSide
    simp only [cos_neg, sin_neg, tan_neg]
    apply Q3.ext <;> simp only <;> ring
  have ea : ∀ (x k : Q3) (h : ℝ), (flip3 x).axpy h (flip3 k) = flip3 (x.axpy h k) := by
    intro x k h
    unfold Q3.axpy flip3
    apply Q3.ext <;> simp only <;> ring
  have hdt : (flipObstacles P).dt = P.dt := rfl
  unfold rk4B
  simp only [hdt, ed, ea]
  rw [← ea]
  congr 1
  unfold flip3
  apply Q3.ext <;> simp only <;> ring

end Proj

/-- **C72, projection.** The optimisation problem of the projection does not depend on the coordinate frame: for every control the
constraint values at the predicted state are the same (the bounds and the distance from the requested control do not mention the
state). -/
theorem C72_projection (P : Params) (α : ℝ) (d : V2) (q : Q4) (q3 : Q3) (x : U) :
    Proj.constraints (P.moveObstacles α d) (Proj.rk4 (P.moveObstacles α d) (move4 α d q) ((P.moveObstacles α d).inputScaler x))
      = Proj.constraints P (Proj.rk4 P q (P.inputScaler x)) ∧
    (Proj.Accepts (P.moveObstacles α d) (move4 α d q) x ↔ Proj.Accepts P q x) ∧
    Proj.constraintsB (P.moveObstacles α d)
        (Proj.rk4B (P.moveObstacles α d) (move3 α d q3) ((P.moveObstacles α d).inputScaler x))
      = Proj.constraintsB P (Proj.rk4B P q3 (P.inputScaler x)) ∧
    (Proj.AcceptsB (P.moveObstacles α d) (move3 α d q3) x ↔ Proj.AcceptsB P q3 x) := by
  have hi : (P.moveObstacles α d).inputScaler x = P.inputScaler x := rfl
  have h1 : Proj.constraints (P.moveObstacles α d)
      (Proj.rk4 (P.moveObstacles α d) (move4 α d q) ((P.moveObstacles α d).inputScaler x))
      = Proj.constraints P (Proj.rk4 P q (P.inputScaler x)) := by
    rw [hi, Proj.rk4_move, Proj.constraints_move]
  have h2 : Proj.constraintsB (P.moveObstacles α d)
      (Proj.rk4B (P.moveObstacles α d) (move3 α d q3) ((P.moveObstacles α d).inputScaler x))
      = Proj.constraintsB P (Proj.rk4B P q3 (P.inputScaler x)) := by
    rw [hi, Proj.rk4B_move, Proj.constraintsB_move]
  refine ⟨h1, ?_, h2, ?_⟩
  · unfold Proj.Accepts; rw [h1]
  · unfold Proj.AcceptsB; rw [h2]

/-- **C73, projection.** The optimisation problem of the mirrored task is the mirrored problem. -/
theorem C73_projection (P : Params) (q : Q4) (q3 : Q3) (x : U) :
    Proj.constraints (flipObstacles P) (Proj.rk4 (flipObstacles P) (flip4 q) ((flipObstacles P).inputScaler (otherSide x)))
      = Proj.constraints P (Proj.rk4 P q (P.inputScaler x)) ∧
    (Proj.Accepts (flipObstacles P) (flip4 q) (otherSide x) ↔ Proj.Accepts P q x) ∧
    Proj.constraintsB (flipObstacles P)
        (Proj.rk4B (flipObstacles P) (flip3 q3) ((flipObstacles P).inputScaler (otherSide x)))
      = Proj.constraintsB P (Proj.rk4B P q3 (P.inputScaler x)) ∧
    (Proj.AcceptsB (flipObstacles P) (flip3 q3) (otherSide x) ↔ Proj.AcceptsB P q3 x) := by
  have hi : (flipObstacles P).inputScaler (otherSide x) = otherSide (P.inputScaler x) := by
    unfold Params.inputScaler otherSide
    refine Prod.ext rfl ?_
    show -x.2 * (flipObstacles P).deltaMax = -(x.2 * P.deltaMax)
    rw [show (flipObstacles P).deltaMax = P.deltaMax from rfl]; ring
  have h1 : Proj.constraints (flipObstacles P)
      (Proj.rk4 (flipObstacles P) (flip4 q) ((flipObstacles P).inputScaler (otherSide x)))
      = Proj.constraints P (Proj.rk4 P q (P.inputScaler x)) := by
    rw [hi, Proj.rk4_flip, Proj.constraints_flip]
  have h2 : Proj.constraintsB (flipObstacles P)
      (Proj.rk4B (flipObstacles P) (flip3 q3) ((flipObstacles P).inputScaler (otherSide x)))
      = Proj.constraintsB P (Proj.rk4B P q3 (P.inputScaler x)) := by
    rw [hi, Proj.rk4B_flip, Proj.constraintsB_flip]
  have hb : ∀ y : ℝ, (-1 ≤ -y ∧ -y ≤ 1) ↔ (-1 ≤ y ∧ y ≤ 1) := by
    intro y; constructor <;> rintro ⟨a, b⟩ <;> constructor <;> linarith
  refine ⟨h1, ?_, h2, ?_⟩
  · unfold Proj.Accepts; rw [h1]; simp only [otherSide, hb]
  · unfold Proj.AcceptsB; rw [h2]; simp only [otherSide, hb]

/-! ## Guidance -/

namespace Guide

theorem circleGrad_move (α : ℝ) (d : V2) (c : Circle) (p : V2) :
    circleGrad ⟨(Spec.move α d (c.x, c.y)).1, (Spec.move α d (c.x, c.y)).2, c.r⟩ (Spec.move α d p)
      = (circleGrad c p).map (rotV α) := by
  have hd := norm2_move α d p (c.x, c.y)
  unfold circleGrad
  simp only [Prod.mk.eta, hd]
  split_ifs
  · rfl
  · simp only [Option.map_some, Option.some.injEq]
    unfold rotV Spec.move Spec.frame
    exact Prod.ext (by simp only; ring) (by simp only; ring)

theorem sumGrad_move (α : ℝ) (d p : V2) : ∀ cs : List Circle,
    sumGrad (cs.map fun c => ⟨(Spec.move α d (c.x, c.y)).1, (Spec.move α d (c.x, c.y)).2, c.r⟩) (Spec.move α d p)
      = (sumGrad cs p).map (rotV α)
  | [] => by simp [sumGrad, rotV]
  | c :: cs => by
    have ih := sumGrad_move α d p cs
    simp only [sumGrad, List.map_cons, List.foldr_cons] at ih ⊢
    rw [ih, circleGrad_move]
    cases circleGrad c p with
    | none => rfl
    | some g =>
      cases List.foldr _ _ cs with
      | none => rfl
      | some a =>
        simp only [Option.map_some, rotV, Option.some.injEq]
        exact Prod.ext (by simp only; ring) (by simp only; ring)

theorem guideTrailer_move (P : Params) (α : ℝ) (d : V2) (q : Q4) :
    trailerPos (P.moveObstacles α d) (move4 α d q) = Spec.move α d (trailerPos P q) := by
  have e : trailerPos (P.moveObstacles α d) (move4 α d q) = trailerPos P (move4 α d q) := rfl
  rw [e]
  unfold trailerPos move4 Spec.move Spec.frame
  simp only [cos_add, sin_add]
  exact Prod.ext (by simp only; ring) (by simp only; ring)

/-- The update before clipping. -/
noncomputable def raw (P : Params) (ss : ℝ) (q : Q4) : Q4 :=
  let g := grad P q
  ⟨q.px - ss * g.1.getD 0, q.py - ss * g.2.1.getD 0, q.th1 - ss * g.2.2.1.getD 0, q.th2 - ss * g.2.2.2.getD 0⟩

theorem raw_move (P : Params) (α : ℝ) (d : V2) (ss : ℝ) (q : Q4) :
    raw (P.moveObstacles α d) ss (move4 α d q) = move4 α d (raw P ss q) := by
  have h := cos_sq_add_sin_sq α
  have hp : (P.moveObstacles α d).phiMax = P.phiMax := rfl
  have hl : (P.moveObstacles α d).lh = P.lh := rfl
  have hl2 : (P.moveObstacles α d).l2 = P.l2 := rfl
  have hw : hitchWeight (P.moveObstacles α d) = hitchWeight P := by
    unfold hitchWeight Params.moveObstacles; simp
  have h1 : sumGrad (P.moveObstacles α d).circles ((move4 α d q).px, (move4 α d q).py)
      = (sumGrad P.circles (q.px, q.py)).map (rotV α) := sumGrad_move α d (q.px, q.py) P.circles
  have h2 : sumGrad (P.moveObstacles α d).circles (trailerPos (P.moveObstacles α d) (move4 α d q))
      = (sumGrad P.circles (trailerPos P q)).map (rotV α) := by
    rw [guideTrailer_move]; exact sumGrad_move α d _ P.circles
  have h3 : (move4 α d q).th1 - (move4 α d q).th2 = q.th1 - q.th2 := by unfold move4; simp only; ring
  unfold raw grad
  simp only [h1, h2, hp, hw, h3, hl, hl2]
  generalize hitchWeight P * hitchGrad P.phiMax (q.th1 - q.th2) = w
  have t1 : ∀ (b : V2) (l th : ℝ), (rotV α b).1 * (l * sin (th + α)) + (rotV α b).2 * -(l * cos (th + α))
      = b.1 * (l * sin th) + b.2 * -(l * cos th) := by
    intro b l th
    unfold rotV
    simp only [cos_add, sin_add]
    linear_combination (b.1 * (l * sin th) - b.2 * (l * cos th)) * h
  cases sumGrad P.circles (trailerPos P q) with
  | none =>
    cases sumGrad P.circles (q.px, q.py) <;>
    · simp only [Option.map_none, Option.map_some, Option.getD_none]
      unfold move4 Spec.move Spec.frame
      apply Q4.ext <;> simp only <;> ring
  | some b =>
    cases sumGrad P.circles (q.px, q.py) with
    | none =>
      simp only [Option.map_none, Option.map_some, Option.getD_none, Option.getD_some]
      have e1 : (move4 α d q).th1 = q.th1 + α := rfl
      have e2 : (move4 α d q).th2 = q.th2 + α := rfl
      rw [e1, e2, t1, t1]
      unfold move4 Spec.move Spec.frame
      apply Q4.ext <;> simp only <;> ring
    | some a =>
      simp only [Option.map_some, Option.getD_some]
      have e1 : (move4 α d q).th1 = q.th1 + α := rfl
      have e2 : (move4 α d q).th2 = q.th2 + α := rfl
      rw [e1, e2, t1, t1]
      unfold move4 Spec.move Spec.frame rotV
      apply Q4.ext <;> simp only <;> ring

theorem clip_inside {x l : ℝ} (h : |clip x (-l) l| < l) : clip x (-l) l = x := by
  have hl := abs_lt.1 h
  unfold clip at hl ⊢
  rcases le_total x (-l) with h1 | h1
  · rw [max_eq_right h1] at hl ⊢
    rcases le_total (-l) l with h2 | h2
    · rw [min_eq_left h2] at hl; linarith [hl.1]
    · rw [min_eq_right h2] at hl; linarith [hl.2]
  · rw [max_eq_left h1] at hl ⊢
    rcases le_total x l with h2 | h2
    · exact min_eq_left h2
    · rw [min_eq_right h2] at hl; linarith [hl.2]

theorem stepOnce_raw {P : Params} {ss : ℝ} {q : Q4} (h : InsideBox (stepOnce P ss q)) : stepOnce P ss q = raw P ss q := by
  obtain ⟨h1, h2, h3, h4⟩ := h
  unfold stepOnce comp at h1 h2 h3 h4 ⊢
  unfold raw
  simp only at h1 h2 h3 h4 ⊢
  rw [clip_inside h1, clip_inside h2, clip_inside h3, clip_inside h4]

theorem stepOnce_of_raw {P : Params} {ss : ℝ} {q : Q4} (h : InsideBox (raw P ss q)) : stepOnce P ss q = raw P ss q := by
  obtain ⟨h1, h2, h3, h4⟩ := h
  unfold raw at h1 h2 h3 h4 ⊢
  unfold stepOnce comp
  simp only at h1 h2 h3 h4 ⊢
  rw [clip_of_mem (abs_lt.1 h1).1.le (abs_lt.1 h1).2.le, clip_of_mem (abs_lt.1 h2).1.le (abs_lt.1 h2).2.le,
    clip_of_mem (abs_lt.1 h3).1.le (abs_lt.1 h3).2.le, clip_of_mem (abs_lt.1 h4).1.le (abs_lt.1 h4).2.le]

end Guide

/-- **C72, guidance.** Guidance commutes with every rotation and translation as long as the guided states, and their images, stay
strictly inside the box to which positions and angles are clipped. -/
theorem C72_guidance (P : Params) (α : ℝ) (d : V2) (ss : ℝ) (q : Q4) : ∀ n : ℕ,
    (∀ k, 1 ≤ k → k ≤ n → InsideBox (Guide.apply P ss k q) ∧ InsideBox (move4 α d (Guide.apply P ss k q))) →
    Guide.apply (P.moveObstacles α d) ss n (move4 α d q) = move4 α d (Guide.apply P ss n q) := by
  intro n
  have eg : (P.moveObstacles α d).enableGuidance = P.enableGuidance := rfl
  by_cases hg : P.enableGuidance = true
  · unfold Guide.apply
    simp only [eg, hg, if_true]
    induction n with
    | zero => intro _; rfl
    | succ n ih =>
      intro h
      have hn := h (n + 1) (by omega) le_rfl
      rw [Function.iterate_succ_apply', ih (fun k h1 h2 => h k h1 (by omega))]
      rw [Function.iterate_succ_apply'] at hn ⊢
      generalize (Guide.stepOnce P ss)^[n] q = y at hn ⊢
      have e1 := Guide.stepOnce_raw hn.1
      rw [e1] at hn ⊢
      rw [← Guide.raw_move]
      apply Guide.stepOnce_of_raw
      rw [Guide.raw_move]
      exact hn.2
  · intro _
    unfold Guide.apply
    simp only [eg, hg]
    rfl

/-- The acceleration model: the pose is guided, speed and steering angle are kept. -/
theorem C72_guidance_acc (P : Params) (α : ℝ) (d : V2) (ss : ℝ) (q : Q6) (n : ℕ)
    (h : ∀ k, 1 ≤ k → k ≤ n → InsideBox (Guide.apply P ss k q.pose) ∧ InsideBox (move4 α d (Guide.apply P ss k q.pose))) :
    Guide.applyAcc (P.moveObstacles α d) ss n (move6 α d q) = move6 α d (Guide.applyAcc P ss n q) := by
  have e := C72_guidance P α d ss q.pose n h
  have hp : (move6 α d q).pose = move4 α d q.pose := rfl
  have eg : (P.moveObstacles α d).enableGuidance = P.enableGuidance := rfl
  unfold Guide.applyAcc
  simp only [eg, hp, e]
  split_ifs <;> rfl

/-- The bicycle. -/
theorem C72_guidance_bicycle (P : Params) (α : ℝ) (d : V2) (ss : ℝ) (q : Q3) : ∀ n : ℕ,
    (∀ k, 1 ≤ k → k ≤ n → InsideBox3 (Guide.applyBicycle P ss k q) ∧ InsideBox3 (move3 α d (Guide.applyBicycle P ss k q))) →
    Guide.applyBicycle (P.moveObstacles α d) ss n (move3 α d q) = move3 α d (Guide.applyBicycle P ss n q) := by
  intro n
  have eg : (P.moveObstacles α d).enableGuidance = P.enableGuidance := rfl
  have key : ∀ y : Q3, InsideBox3 (Guide.stepBicycle P ss y) → InsideBox3 (move3 α d (Guide.stepBicycle P ss y)) →
      Guide.stepBicycle (P.moveObstacles α d) ss (move3 α d y) = move3 α d (Guide.stepBicycle P ss y) := by
    intro y ⟨h1, h2, h3⟩ hm
    have hs : Guide.sumGrad (P.moveObstacles α d).circles ((move3 α d y).px, (move3 α d y).py)
        = (Guide.sumGrad P.circles (y.px, y.py)).map (rotV α) := Guide.sumGrad_move α d (y.px, y.py) P.circles
    unfold Guide.stepBicycle Guide.comp at h1 h2 h3 hm ⊢
    simp only [hs] at h1 h2 h3 hm ⊢
    rw [Guide.clip_inside h1, Guide.clip_inside h2, Guide.clip_inside h3] at hm ⊢
    have e : (⟨(move3 α d y).px - ss * (((Guide.sumGrad P.circles (y.px, y.py)).map (rotV α)).map Prod.fst).getD 0,
        (move3 α d y).py - ss * (((Guide.sumGrad P.circles (y.px, y.py)).map (rotV α)).map Prod.snd).getD 0,
        (move3 α d y).th1 - ss * (some (0 : ℝ)).getD 0⟩ : Q3)
        = move3 α d ⟨y.px - ss * ((Guide.sumGrad P.circles (y.px, y.py)).map Prod.fst).getD 0,
          y.py - ss * ((Guide.sumGrad P.circles (y.px, y.py)).map Prod.snd).getD 0, y.th1 - ss * (some (0 : ℝ)).getD 0⟩ := by
      cases Guide.sumGrad P.circles (y.px, y.py) with
      | none =>
        simp only [Option.map_none, Option.getD_none]
        unfold move3 Spec.move Spec.frame
        apply Q3.ext <;> simp
      | some g =>
        simp only [Option.map_some, Option.getD_some]
        unfold move3 Spec.move Spec.frame rotV
        apply Q3.ext <;> simp only <;> ring
    rw [← e] at hm ⊢
    obtain ⟨m1, m2, m3⟩ := hm
    simp only at m1 m2 m3
    rw [clip_of_mem (abs_lt.1 m1).1.le (abs_lt.1 m1).2.le, clip_of_mem (abs_lt.1 m2).1.le (abs_lt.1 m2).2.le,
      clip_of_mem (abs_lt.1 m3).1.le (abs_lt.1 m3).2.le]
  by_cases hg : P.enableGuidance = true
  · unfold Guide.applyBicycle
    simp only [eg, hg, if_true]
    induction n with
    | zero => intro _; rfl
    | succ n ih =>
      intro h
      have hn := h (n + 1) (by omega) le_rfl
      rw [Function.iterate_succ_apply', ih (fun k h1 h2 => h k h1 (by omega))]
      rw [Function.iterate_succ_apply'] at hn ⊢
      exact key _ hn.1 hn.2
  · intro _
    unfold Guide.applyBicycle
    simp only [eg, hg]
    rfl

/-- A state that guidance moves: two metres before an obstacle of radius one, seen in a frame turned by a right angle. -/
example : let P : Params := { Params.default [⟨5, 0, 1⟩] [] with enableGuidance := true }
    Guide.applyBicycle P 0.05 1 ⟨3, 0, 0⟩ = ⟨2.9, 0, 0⟩ ∧
    Guide.applyBicycle (P.moveObstacles (π / 2) (1, 1)) 0.05 1 (move3 (π / 2) (1, 1) ⟨3, 0, 0⟩)
      = move3 (π / 2) (1, 1) ⟨2.9, 0, 0⟩ := by
  intro P
  have hpi := pi_gt_three
  have hpi4 := pi_le_four
  have hn : norm2 (((3, 0) : V2) - (5, 0)) = 2 := by
    unfold norm2
    simp only [Prod.fst_sub, Prod.snd_sub]
    rw [show ((3 : ℝ) - 5) ^ 2 + (0 - 0) ^ 2 = 2 ^ 2 by norm_num]
    exact sqrt_sq (by norm_num)
  have hs : Guide.sumGrad P.circles (3, 0) = some (2, 0) := by
    show Guide.sumGrad [⟨5, 0, 1⟩] (3, 0) = _
    unfold Guide.sumGrad Guide.circleGrad
    simp only [List.foldr_cons, List.foldr_nil, hn, Guide.hinge]
    norm_num
  have e : Guide.applyBicycle P 0.05 1 ⟨3, 0, 0⟩ = ⟨2.9, 0, 0⟩ := by
    unfold Guide.applyBicycle
    rw [if_pos rfl]
    simp only [Function.iterate_one]
    unfold Guide.stepBicycle Guide.comp
    simp only [hs, Option.map_some, Option.getD_some]
    rw [clip_of_mem (by norm_num) (by norm_num), clip_of_mem (by norm_num) (by norm_num),
      clip_of_mem (by nlinarith) (by nlinarith)]
    norm_num
  refine ⟨e, ?_⟩
  rw [← e]
  apply C72_guidance_bicycle
  intro k h1 h2
  obtain rfl : k = 1 := by omega
  rw [e]
  constructor
  · refine ⟨?_, ?_, ?_⟩ <;> rw [abs_lt] <;> constructor <;> norm_num <;> linarith
  · unfold move3 Spec.move Spec.frame
    simp only [cos_pi_div_two, sin_pi_div_two]
    refine ⟨?_, ?_, ?_⟩ <;> rw [abs_lt] <;> constructor <;> norm_num <;> linarith

end Mbd
