import Verif.PropsRender

/-!
# Size of the drawn wheels (C66)
-/

namespace Mbd

open Real

theorem setTransforms_inv {p : Patch} : ∀ {ws : List Patch} {ts : List (ℝ × V2)} {ws' : List Patch},
    (∀ w ∈ ws, ∃ t, w = p.setTransform t) → setTransforms ws ts = some ws' →
    ∀ w ∈ ws', ∃ t, w = p.setTransform t
  | [], ts, ws', _, h => by
    simp only [setTransforms, Option.some.injEq] at h
    subst h
    simp
  | a :: ws, [], ws', _, h => by simp [setTransforms] at h
  | a :: ws, t :: ts, ws', hi, h => by
    simp only [setTransforms, Option.map_eq_some_iff] at h
    obtain ⟨r, hr, rfl⟩ := h
    intro w hw
    rcases List.mem_cons.1 hw with rfl | hw
    · obtain ⟨t0, h0⟩ := hi a (by simp)
      exact ⟨t, by rw [h0]; rfl⟩
    · exact setTransforms_inv (fun v hv => hi v (by simp [hv])) hr w hw

theorem framesOf_inv {A X : Type} {update : A → X → Option A} {I : A → Prop}
    (h : ∀ a x a', I a → update a x = some a' → I a') (fs : List X) :
    ∀ a pics a', I a → framesOf update a fs = some (pics, a') → ∀ b ∈ pics, I b := by
  induction fs with
  | nil =>
    intro a pics a' _ e
    simp only [framesOf, Option.some.injEq, Prod.mk.injEq] at e
    obtain ⟨rfl, -⟩ := e
    simp
  | cons x xs ih =>
    intro a pics a' ha e
    simp only [framesOf] at e
    cases hu : update a x with
    | none => rw [hu] at e; simp at e
    | some a1 =>
      rw [hu] at e
      simp only [Option.map_eq_some_iff] at e
      obtain ⟨⟨r1, r2⟩, hr, hp⟩ := e
      simp only [Prod.mk.injEq] at hp
      obtain ⟨rfl, rfl⟩ := hp
      have h1 := h a x a1 ha hu
      intro b hb
      rcases List.mem_cons.1 hb with rfl | hb
      · exact h1
      · exact ih a1 r1 r2 h1 hr b hb

/-- The specification of a wheel on the axes: the solid rectangle 0.8 m long (along its own angle) and
0.45 m wide about its centre. -/
def Spec.IsWheel (w : Patch) : Prop := w.region = Spec.solidRect w.center w.ang 0.4 0.225

theorem wheel_shape {w : Patch} (h : ∃ t, w = wheelPatch.setTransform t) : Spec.IsWheel w := by
  obtain ⟨⟨a, c⟩, rfl⟩ := h
  unfold Spec.IsWheel wheelPatch
  rw [centred_region (by norm_num) (by norm_num)]
  simp only [Patch.setTransform]
  norm_num

theorem updateWith_wheels (P : Params) {a a' : AnimTT} {q : Q4} {s : ℝ}
    (h : ∀ w ∈ a.tractorWheels ++ a.trailerWheels, ∃ t, w = wheelPatch.setTransform t)
    (e : a.updateWith P q s = some a') :
    ∀ w ∈ a'.tractorWheels ++ a'.trailerWheels, ∃ t, w = wheelPatch.setTransform t := by
  unfold AnimTT.updateWith at e
  split at e
  · split at e
    · rename_i _ _ _ _ _ _ e1 e2
      simp only [Option.some.injEq] at e
      subst e
      intro w hw
      rcases List.mem_append.1 hw with hw | hw
      · exact setTransforms_inv (fun v hv => h v (List.mem_append_left _ hv)) e1 w hw
      · exact setTransforms_inv (fun v hv => h v (List.mem_append_right _ hv)) e2 w hw
    · cases e
  · cases e

theorem setup_wheels (P : Params) : ∀ w ∈ (AnimTT.new.setup P).tractorWheels ++
    (AnimTT.new.setup P).trailerWheels, ∃ t, w = wheelPatch.setTransform t := by
  intro w hw
  simp only [AnimTT.setup, AnimTT.new, List.nil_append, List.cons_append, List.mem_cons, List.not_mem_nil,
    or_false, or_self] at hw
  subst hw
  exact ⟨(0, (0, 0)), rfl⟩

/-- **C66 (wheels).** In every picture of every animation, of every vehicle and whatever was drawn, every
wheel is the rectangle 0.8 m long and 0.45 m wide about its centre. -/
theorem C66_wheels (P : Params) (T : NTrailer) :
    (∀ (fs : List (Q4 × Option U)) pics a', animate (AnimTT.setup P)
        (fun a (x : Q4 × Option U) => a.update P x.1 x.2) AnimTT.new fs = some (pics, a') →
      ∀ b ∈ pics, ∀ w ∈ b.tractorWheels ++ b.trailerWheels, Spec.IsWheel w) ∧
    (∀ (fs : List (Q6 × Option U)) pics a', animate (AnimTT.setup P)
        (fun a (x : Q6 × Option U) => a.updateAcc P x.1 x.2) AnimTT.new fs = some (pics, a') →
      ∀ b ∈ pics, ∀ w ∈ b.tractorWheels ++ b.trailerWheels, Spec.IsWheel w) ∧
    (∀ (a₀ : AnimBike) (fs : List (Q3 × Option U)) pics a', animate (AnimBike.setup P)
        (fun a (x : Q3 × Option U) => a.update P x.1 x.2) a₀ fs = some (pics, a') →
      ∀ b ∈ pics, ∀ w ∈ b.wheels, Spec.IsWheel w) ∧
    (∀ (a₀ : AnimN) (fs : List (QN × Option U)) pics a', animate (AnimN.setup T)
        (fun a (x : QN × Option U) => a.update T x.1 x.2) a₀ fs = some (pics, a') →
      ∀ b ∈ pics, ∀ w ∈ b.tractorWheels ++ b.wheels, Spec.IsWheel w) := by
  refine ⟨?_, ?_, ?_, ?_⟩
  · intro fs pics a' e b hb w hw
    exact wheel_shape (framesOf_inv (I := fun a : AnimTT => ∀ w ∈ a.tractorWheels ++ a.trailerWheels,
      ∃ t, w = wheelPatch.setTransform t) (fun a x a1 ha he => updateWith_wheels P ha he) fs _ pics a'
      (setup_wheels P) e b hb w hw)
  · intro fs pics a' e b hb w hw
    exact wheel_shape (framesOf_inv (I := fun a : AnimTT => ∀ w ∈ a.tractorWheels ++ a.trailerWheels,
      ∃ t, w = wheelPatch.setTransform t) (fun a x a1 ha he => updateWith_wheels P ha he) fs _ pics a'
      (setup_wheels P) e b hb w hw)
  · intro a₀ fs pics a' e b hb w hw
    refine wheel_shape (framesOf_inv (I := fun a : AnimBike => ∀ w ∈ a.wheels,
      ∃ t, w = wheelPatch.setTransform t) (fun a x a1 ha he => ?_) fs _ pics a' ?_ e b hb w hw)
    · unfold AnimBike.update at he
      split at he
      · cases he
      · simp only [Option.map_eq_some_iff] at he
        obtain ⟨ws, h1, rfl⟩ := he
        exact setTransforms_inv ha h1
    · intro w hw
      simp only [AnimBike.setup, List.mem_cons, List.not_mem_nil, or_false, or_self] at hw
      subst hw
      exact ⟨(0, (0, 0)), rfl⟩
  · intro a₀ fs pics a' e b hb w hw
    refine wheel_shape (framesOf_inv (I := fun a : AnimN => ∀ w ∈ a.tractorWheels ++ a.wheels,
      ∃ t, w = wheelPatch.setTransform t) (fun a x a1 ha he => ?_) fs _ pics a' ?_ e b hb w hw)
    · unfold AnimN.update at he
      split at he
      · cases he
      · simp only at he
        split at he
        · rename_i _ _ _ e1 _ e2
          simp only [Option.some.injEq] at he
          subst he
          intro w hw
          rcases List.mem_append.1 hw with hw | hw
          · exact setTransforms_inv (fun v hv => ha v (List.mem_append_left _ hv)) e1 w hw
          · exact setTransforms_inv (fun v hv => ha v (List.mem_append_right _ hv)) e2 w hw
        · cases he
    · intro w hw
      simp only [AnimN.setup, List.cons_append, List.nil_append, List.mem_cons, List.mem_map] at hw
      rcases hw with rfl | rfl | ⟨_, -, rfl⟩ <;> exact ⟨(0, (0, 0)), rfl⟩

/-- There are such pictures: an animation of two poses has two, and each shows three wheels. -/
example : ∃ pics a', animate (AnimTT.setup Wit.params)
      (fun a (x : Q4 × Option U) => a.update Wit.params x.1 x.2) AnimTT.new
      [(⟨0, 0, 0.1, 0.2⟩, some (1, 0.5)), (⟨1, 0, 0.1, 0.2⟩, none)] = some (pics, a') ∧
    pics.length = 2 ∧
    ∀ b ∈ pics, ∀ w ∈ b.tractorWheels ++ b.trailerWheels, Spec.IsWheel w := by
  obtain ⟨pics, a', h, h2⟩ := C66_tt2d Wit.params wit_bodySizes
    [(⟨0, 0, 0.1, 0.2⟩, some (1, 0.5)), (⟨1, 0, 0.1, 0.2⟩, none)]
  exact ⟨pics, a', h, h2.length_eq.symm, (C66_wheels Wit.params Wit.train).1 _ pics a' h⟩

end Mbd
