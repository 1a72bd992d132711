import Mathlib.Data.List.GetD
import Verif.Render
import Verif.PropsSafe
import Verif.PropsEnv
import Verif.Witness
import Mathlib.Tactic.Linarith
import Mathlib.Tactic.Ring
import Mathlib.Analysis.Real.Pi.Bounds

/-!
# C66: what is drawn is what is checked
-/

namespace Spec

open Real Mbd

/-- The picture of a tractor with one trailer at pose `q`, front wheel turned by `steer`: both bodies
as solid rectangles where the vehicle is, one wheel per axle, the hitch lines from the tractor's
axle to the hitch and from the middle of the trailer's front face to the hitch. -/
structure PictureTT (P : Params) (q : Q4) (steer : ℝ) (a : AnimTT) : Prop where
  tractor : ∃ b, a.tractorBody = some b ∧ b.region = tractorBody P q.px q.py q.th1
  trailer : ∃ b, a.trailerBody = some b ∧ b.region = trailerBody P q
  wheels : a.tractorWheels.map (fun w => (w.center, w.ang)) =
    [((q.px, q.py), q.th1), (frame (q.px, q.py) q.th1 P.l1 0, q.th1 + steer)]
  trailerWheel : a.trailerWheels.map (fun w => (w.center, w.ang)) = [(trailerAxle P q, q.th2)]
  hitch1 : a.tractorHitch = some ((q.px, q.py), frame (q.px, q.py) q.th1 (-P.lh) 0)
  hitch2 : a.trailerHitch = some (frame (trailerAxle P q) q.th2 P.lf2 0,
    frame (q.px, q.py) q.th1 (-P.lh) 0)

/-- The picture of a bicycle. -/
structure PictureBike (P : Params) (q : Q3) (steer : ℝ) (a : AnimBike) : Prop where
  body : ∃ b, a.body = some b ∧ b.region = tractorBody P q.px q.py q.th1
  wheels : a.wheels.map (fun w => (w.center, w.ang)) =
    [((q.px, q.py), q.th1), (frame (q.px, q.py) q.th1 P.l1 0, q.th1 + steer)]

/-- The picture of a train, except for the trailer wheels: tractor, its wheels, one body per trailer,
hitch lines from the tractor's axle, from each hitch to the front face of the trailer behind it, and
from each rear face (but the last) to the next hitch. -/
structure PictureN (T : NTrailer) (x : QN) (steer : ℝ) (a : AnimN) : Prop where
  tractor : ∃ b, a.tractorBody = some b ∧ b.region = tractorBody T.toParams x.px x.py x.th0
  wheels : a.tractorWheels.map (fun w => (w.center, w.ang)) =
    [((x.px, x.py), x.th0), (frame (x.px, x.py) x.th0 T.l1 0, x.th0 + steer)]
  bodies : a.bodies.map Patch.region = (List.range T.N).map (trailerBodyN T x)
  hitch1 : a.tractorHitch = some ((x.px, x.py), hitchN T x 0)
  front : a.front = (List.range T.N).map fun i =>
    (hitchN T x i, frame (axleN T x i) (x.ths.getD i 0) (T.fronts.getD i 0) 0)
  back : a.back = (List.range (T.N - 1)).map fun i =>
    (frame (axleN T x i) (x.ths.getD i 0) (-T.rears.getD i 0) 0, hitchN T x (i + 1))

/-- Non-negative body sizes. -/
structure BodySizes (P : Params) : Prop where
  tractorLen : 0 ≤ P.l1 + P.lf1 + P.lr
  tractorWid : 0 ≤ P.tractorWidth
  trailerLen : 0 ≤ P.lf2 + P.lr2
  trailerWid : 0 ≤ P.trailerWidth

end Spec

namespace Mbd

open Real

theorem centred_region {l w : ℝ} (hl : 0 ≤ l) (hw : 0 ≤ w) (a : ℝ) (c : V2) :
    ((Patch.centred l w).setTransform (a, c)).region = Spec.solidRect c a (l / 2) (w / 2) := by
  ext z
  simp only [Patch.region, Patch.setTransform, Patch.centred, Spec.solidRect, Set.mem_ofPred_eq]
  rw [min_eq_left (by linarith), max_eq_right (by linarith), min_eq_left (by linarith),
    max_eq_right (by linarith)]
  constructor
  · rintro ⟨s, t, h1, h2, h3, h4, rfl⟩
    exact ⟨s, t, abs_le.mpr ⟨by linarith, by linarith⟩, abs_le.mpr ⟨by linarith, by linarith⟩,
      placePoint_eq_frame _ _ _ _⟩
  · rintro ⟨s, t, h1, h2, rfl⟩
    obtain ⟨g1, g2⟩ := abs_le.mp h1
    obtain ⟨g3, g4⟩ := abs_le.mp h2
    exact ⟨s, t, by linarith, by linarith, by linarith, by linarith,
      (placePoint_eq_frame _ _ _ _).symm⟩

theorem tractor_region {P : Params} (h : Spec.BodySizes P) (px py th : ℝ) :
    ((Patch.centred (P.l1 + P.lf1 + P.lr) P.tractorWidth).setTransform
      (th, P.drawnTractorCenter px py th)).region = Spec.tractorBody P px py th := by
  rw [centred_region h.tractorLen h.tractorWid, Spec.tractorBody, body_eq_solidRect]
  rfl

theorem trailer_region {P : Params} (h : Spec.BodySizes P) (q : Q4) :
    ((Patch.centred (P.lf2 + P.lr2) P.trailerWidth).setTransform
      (q.th2, drawnTrailerCenter P q)).region = Spec.trailerBody P q := by
  rw [centred_region h.trailerLen h.trailerWid, Spec.trailerBody, body_eq_solidRect]
  congr 1
  unfold drawnTrailerCenter drawnHitch Spec.trailerAxle Spec.frame
  ext <;> simp only <;> ring

/-- Attributes after one `setup` and any number of updates: the sizes of the patches. -/
def AnimTT.Ready (P : Params) (a : AnimTT) : Prop :=
  (∃ t, a.tractorBody = some ((Patch.centred (P.l1 + P.lf1 + P.lr) P.tractorWidth).setTransform t)) ∧
  (∃ t, a.trailerBody = some ((Patch.centred (P.lf2 + P.lr2) P.trailerWidth).setTransform t)) ∧
  a.tractorWheels.length = 2 ∧ a.trailerWheels.length = 1

theorem update_ready {P : Params} (hs : Spec.BodySizes P) {a : AnimTT} (h : a.Ready P) (q : Q4)
    (steer : ℝ) : ∃ a', a.updateWith P q steer = some a' ∧ a'.Ready P ∧ Spec.PictureTT P q steer a' := by
  obtain ⟨⟨t1, h1⟩, ⟨t2, h2⟩, h3, h4⟩ := h
  obtain ⟨w1, w2, e3⟩ := List.length_eq_two.mp h3
  obtain ⟨w3, e4⟩ := List.length_eq_one_iff.mp h4
  refine ⟨⟨some ((Patch.centred (P.l1 + P.lf1 + P.lr) P.tractorWidth).setTransform
        (q.th1, P.drawnTractorCenter q.px q.py q.th1)),
      some ((Patch.centred (P.lf2 + P.lr2) P.trailerWidth).setTransform (q.th2, drawnTrailerCenter P q)),
      [w1.setTransform (q.th1, (q.px, q.py)),
        w2.setTransform (q.th1 + steer, P.drawnFrontAxle q.px q.py q.th1)],
      [w3.setTransform (q.th2, drawnTrailerAxle P q)],
      some ((q.px, q.py), drawnHitch P q), some (drawnTrailerFront P q, drawnHitch P q)⟩, ?_, ?_, ?_⟩
  · unfold AnimTT.updateWith
    rw [h1, h2, e3, e4]
    rfl
  · exact ⟨⟨_, rfl⟩, ⟨_, rfl⟩, rfl, rfl⟩
  · refine ⟨⟨_, rfl, tractor_region hs _ _ _⟩, ⟨_, rfl, trailer_region hs q⟩, ?_, ?_, ?_, ?_⟩
    · simp only [Patch.setTransform, Params.drawnFrontAxle, Spec.frame, List.map_cons, List.map_nil]
      congr 3
      ext <;> simp only <;> ring
    · simp only [Patch.setTransform, drawnTrailerAxle, drawnHitch, Spec.trailerAxle, Spec.frame,
        List.map_cons, List.map_nil]
      congr 2
      ext <;> simp only <;> ring
    · simp only [drawnHitch, Spec.frame]
      congr 2
      ext <;> simp only <;> ring
    · simp only [drawnTrailerFront, drawnHitch, Spec.trailerAxle, Spec.frame]
      congr 2
      · ext <;> simp only <;> ring
      · ext <;> simp only <;> ring

theorem setup_ready (P : Params) : (AnimTT.new.setup P).Ready P :=
  ⟨⟨(0, (0, 0)), rfl⟩, ⟨(0, (0, 0)), rfl⟩, rfl, rfl⟩

theorem framesOf_good {A X : Type} {update : A → X → Option A} {I : A → Prop} {G : X → A → Prop}
    (h : ∀ a x, I a → ∃ a', update a x = some a' ∧ I a' ∧ G x a') (fs : List X) :
    ∀ a, I a → ∃ r, framesOf update a fs = some r ∧ I r.2 ∧ List.Forall₂ G fs r.1 := by
  induction fs with
  | nil => intro a ha; exact ⟨([], a), rfl, ha, .nil⟩
  | cons x xs ih =>
    intro a ha
    obtain ⟨a', e, ha', g⟩ := h a x ha
    obtain ⟨r, er, hr, fr⟩ := ih a' ha'
    refine ⟨(a' :: r.1, r.2), ?_, hr, .cons g fr⟩
    simp only [framesOf, e, er, Option.map_some]

/-- **C66 (tractor-trailer).** Animating any sequence of poses and actions with a new robot never raises,
and every picture shows the tractor and the trailer exactly on the points of their bodies, the wheels
on the axles and the hitch lines between axle, hitch and trailer.  (Front wheel: turned by the second
entry of the action that is handed in; see `C66_steering_refuted`.) -/
theorem C66_tt2d (P : Params) (hs : Spec.BodySizes P) (fs : List (Q4 × Option U)) :
    ∃ pics a', animate (AnimTT.setup P) (fun a (x : Q4 × Option U) => a.update P x.1 x.2) AnimTT.new fs = some (pics, a') ∧
      List.Forall₂ (fun f a => Spec.PictureTT P f.1 ((f.2.map Prod.snd).getD 0) a) fs pics := by
  obtain ⟨r, h1, -, h3⟩ := framesOf_good (I := AnimTT.Ready P)
    (G := fun f a => Spec.PictureTT P f.1 ((f.2.map Prod.snd).getD 0) a)
    (update := fun a x => a.update P x.1 x.2)
    (fun a x ha => by
      obtain ⟨a', e, h1, h2⟩ := update_ready hs ha x.1 (steerOfAction x.2)
      refine ⟨a', e, h1, ?_⟩
      rcases x with ⟨q, _ | u⟩ <;> exact h2) fs _ (setup_ready P)
  exact ⟨r.1, r.2, h1, h3⟩

/-- **C66 (acceleration model).** The same; the front wheel is drawn at the steering angle of the state. -/
theorem C66_acc (P : Params) (hs : Spec.BodySizes P) (fs : List (Q6 × Option U)) :
    ∃ pics a', animate (AnimTT.setup P) (fun a x => a.updateAcc P x.1 x.2) AnimTT.new fs =
        some (pics, a') ∧
      List.Forall₂ (fun f a => Spec.PictureTT P f.1.pose f.1.delta a) fs pics := by
  obtain ⟨r, h1, -, h3⟩ := framesOf_good (I := AnimTT.Ready P)
    (G := fun f a => Spec.PictureTT P f.1.pose f.1.delta a)
    (update := fun a (x : Q6 × Option U) => a.updateAcc P x.1 x.2)
    (fun a x ha => by
      obtain ⟨a', e, h1, h2⟩ := update_ready hs ha x.1.pose x.1.delta
      exact ⟨a', e, h1, h2⟩) fs _ (setup_ready P)
  exact ⟨r.1, r.2, h1, h3⟩

theorem wit_bodySizes : Spec.BodySizes Wit.params :=
  ⟨by norm_num [Wit.params, Params.default], by norm_num [Wit.params, Params.default],
   by norm_num [Wit.params, Params.default], by norm_num [Wit.params, Params.default]⟩

example := C66_tt2d Wit.params wit_bodySizes [(⟨0, 0, 0.1, 0.2⟩, some (1, 0.5)), (⟨1, 0, 0.1, 0.2⟩, none)]
example := C66_acc Wit.params wit_bodySizes [(⟨0, 0, 0.1, 0.2, 1, 0.3⟩, none)]

/-- **C66 (bicycle).** Whatever was drawn before with the same robot, an animation never raises and every
picture shows the body exactly where it is. -/
theorem C66_bicycle (P : Params) (hs : Spec.BodySizes P) (a₀ : AnimBike) (fs : List (Q3 × Option U)) :
    ∃ pics a', animate (AnimBike.setup P) (fun a (x : Q3 × Option U) => a.update P x.1 x.2) a₀ fs = some (pics, a') ∧
      List.Forall₂ (fun f a => Spec.PictureBike P f.1 ((f.2.map Prod.snd).getD 0) a) fs pics := by
  obtain ⟨r, h1, -, h3⟩ := framesOf_good
    (I := fun a : AnimBike => (∃ t, a.body = some ((Patch.centred (P.l1 + P.lf1 + P.lr)
      P.tractorWidth).setTransform t)) ∧ a.wheels.length = 2)
    (G := fun f a => Spec.PictureBike P f.1 ((f.2.map Prod.snd).getD 0) a)
    (update := fun a x => a.update P x.1 x.2)
    (fun a x ha => by
      obtain ⟨⟨t1, e1⟩, e3⟩ := ha
      obtain ⟨w1, w2, e3⟩ := List.length_eq_two.mp e3
      have : ∃ a', a.update P x.1 x.2 = some a' ∧
          a'.body = some ((Patch.centred (P.l1 + P.lf1 + P.lr) P.tractorWidth).setTransform
            (x.1.th1, P.drawnTractorCenter x.1.px x.1.py x.1.th1)) ∧
          a'.wheels = [w1.setTransform (x.1.th1, (x.1.px, x.1.py)),
            w2.setTransform (x.1.th1 + steerOfAction x.2, P.drawnFrontAxle x.1.px x.1.py x.1.th1)] := by
        unfold AnimBike.update
        rw [e1, e3]
        exact ⟨_, rfl, rfl, rfl⟩
      obtain ⟨a', e, hb, hw⟩ := this
      refine ⟨a', e, ⟨⟨_, hb⟩, by rw [hw]; rfl⟩, ⟨⟨_, hb, tractor_region hs _ _ _⟩, ?_⟩⟩
      rw [hw]
      have : steerOfAction x.2 = (x.2.map Prod.snd).getD 0 := by
        rcases x with ⟨q, _ | u⟩ <;> rfl
      simp only [Patch.setTransform, Params.drawnFrontAxle, Spec.frame, List.map_cons, List.map_nil, this]
      congr 3
      ext <;> simp only <;> ring) fs (a₀.setup P)
      ⟨⟨(0, (0, 0)), rfl⟩, rfl⟩
  exact ⟨r.1, r.2, h1, h3⟩

example := C66_bicycle Wit.params wit_bodySizes AnimBike.new [(⟨0, 0, 0.1⟩, some (1, 0.5))]

theorem setTransforms_same {ps : List Patch} : ∀ {ts : List (ℝ × V2)}, ps.length = ts.length →
    setTransforms ps ts = some (List.zipWith Patch.setTransform ps ts) := by
  induction ps with
  | nil => intro ts _; rfl
  | cons p ps ih =>
    intro ts h
    cases ts with
    | nil => simp at h
    | cons t ts =>
      simp only [setTransforms, List.zipWith_cons_cons]
      rw [ih (by simpa using h)]
      rfl

theorem drawnTheta_eq {T : NTrailer} {x : QN} (h : x.ths.length = T.N) {i : ℕ} :
    T.drawnTheta x i = x.ths.getD i 0 := by
  unfold NTrailer.drawnTheta
  simp only
  rw [if_neg (by omega), List.take_of_length_le h.le]

theorem drawnHitchN_eq {T : NTrailer} {x : QN} (h : Spec.WellSized T x) {i : ℕ} (hi : i ≤ T.N) :
    T.drawnHitchN x i = Spec.hitchN T x i := by
  induction i with
  | zero =>
    unfold NTrailer.drawnHitchN Spec.hitchN Spec.frame
    ext <;> simp only <;> ring
  | succ j ih =>
    have hj : j < T.N := hi
    unfold NTrailer.drawnHitchN Spec.hitchN
    simp only
    rw [ih hj.le, drawnTheta_eq h.ths, clampGet_of_lt (l := T.lengths) (by rw [h.lengths]; exact hj),
      clampGet_of_lt (l := T.fronts) (by rw [h.fronts]; exact hj),
      clampGet_of_lt (l := T.rears) (by rw [h.rears]; exact hj)]
    unfold Spec.frame
    ext <;> simp only <;> ring

theorem drawnCenter_eq {T : NTrailer} {x : QN} (h : Spec.WellSized T x) {i : ℕ} (hi : i < T.N) :
    T.drawnCenter x i = Spec.frame (Spec.axleN T x i) (x.ths.getD i 0)
      (0.5 * (T.fronts.getD i 0 - T.rears.getD i 0)) 0 := by
  unfold NTrailer.drawnCenter
  simp only
  rw [drawnHitchN_eq h hi.le, drawnTheta_eq h.ths,
    clampGet_of_lt (l := T.lengths) (by rw [h.lengths]; exact hi),
    clampGet_of_lt (l := T.fronts) (by rw [h.fronts]; exact hi),
    clampGet_of_lt (l := T.rears) (by rw [h.rears]; exact hi)]
  unfold Spec.axleN Spec.frame
  ext <;> simp only <;> ring

/-- Attributes of a train after `setup` and any number of updates. -/
def AnimN.Ready (T : NTrailer) (a : AnimN) : Prop :=
  (∃ t, a.tractorBody = some ((Patch.centred (T.l1 + T.lf1 + T.lr) T.tractorWidth).setTransform t)) ∧
  a.tractorWheels.length = 2 ∧
  (∃ ts : List (ℝ × V2), ts.length = T.N ∧ a.bodies = List.zipWith Patch.setTransform
    ((List.range T.N).map fun i =>
      Patch.centred (clampGet T.fronts i + clampGet T.rears i) T.trailerWidth) ts) ∧
  a.wheels.length = T.N

theorem zip_setTransform (l : List Patch) : ∀ (ts ts' : List (ℝ × V2)), l.length = ts.length →
    List.zipWith Patch.setTransform (List.zipWith Patch.setTransform l ts) ts' =
      List.zipWith Patch.setTransform l ts' := by
  induction l with
  | nil => intro ts ts' _; simp
  | cons p l ih =>
    intro ts ts' h
    cases ts with
    | nil => simp at h
    | cons t ts =>
      cases ts' with
      | nil => simp
      | cons t' ts' =>
        simp only [List.zipWith_cons_cons, ih ts ts' (by simpa using h)]
        rfl

theorem updateN_ready {T : NTrailer}
    {a : AnimN} (h : a.Ready T) (x : QN) (u : Option U) :
    ∃ a', a.update T x u = some a' ∧ a'.Ready T ∧
      a'.tractorBody = some ((Patch.centred (T.l1 + T.lf1 + T.lr) T.tractorWidth).setTransform
        (x.th0, T.toParams.drawnTractorCenter x.px x.py x.th0)) ∧
      a'.tractorWheels.map (fun w => (w.center, w.ang)) =
        [((x.px, x.py), x.th0), (T.toParams.drawnFrontAxle x.px x.py x.th0, x.th0 + steerOfAction u)] ∧
      a'.bodies = (List.range T.N).map (fun i => (Patch.centred (clampGet T.fronts i + clampGet T.rears i)
        T.trailerWidth).setTransform (T.drawnTheta x i, T.drawnCenter x i)) ∧
      a'.wheels.map (fun w => (w.center, w.ang)) =
        (List.range T.N).map (fun i => (T.drawnCenter x i, T.drawnTheta x i)) ∧
      a'.tractorHitch = some ((x.px, x.py), T.drawnHitchN x 0) ∧
      a'.front = (List.range T.N).map (fun i => (T.drawnHitchN x i, T.drawnFront x i)) ∧
      a'.back = (List.range (T.N - 1)).map (fun i => (T.drawnRear x i, T.drawnHitchN x (i + 1))) := by
  obtain ⟨⟨t1, h1⟩, h2, ⟨ts, hts, h3⟩, h4⟩ := h
  obtain ⟨w1, w2, e2⟩ := List.length_eq_two.mp h2
  have hb : setTransforms a.bodies ((List.range T.N).map fun i => (T.drawnTheta x i, T.drawnCenter x i))
      = some ((List.range T.N).map (fun i => (Patch.centred (clampGet T.fronts i + clampGet T.rears i)
        T.trailerWidth).setTransform (T.drawnTheta x i, T.drawnCenter x i))) := by
    rw [h3, setTransforms_same (by simp [hts]), zip_setTransform _ _ _ (by simp [hts]),
      List.zipWith_map, List.zipWith_self]
  have hw : setTransforms a.wheels ((List.range T.N).map fun i => (T.drawnTheta x i, T.drawnCenter x i))
      = some (List.zipWith Patch.setTransform a.wheels
        ((List.range T.N).map fun i => (T.drawnTheta x i, T.drawnCenter x i))) :=
    setTransforms_same (by simp [h4])
  have hupd : ∃ a', a.update T x u = some a' ∧
      a'.tractorBody = some ((Patch.centred (T.l1 + T.lf1 + T.lr) T.tractorWidth).setTransform
        (x.th0, T.toParams.drawnTractorCenter x.px x.py x.th0)) ∧
      a'.tractorWheels = [w1.setTransform (x.th0, (x.px, x.py)),
        w2.setTransform (x.th0 + steerOfAction u, T.toParams.drawnFrontAxle x.px x.py x.th0)] ∧
      a'.bodies = (List.range T.N).map (fun i => (Patch.centred (clampGet T.fronts i + clampGet T.rears i)
        T.trailerWidth).setTransform (T.drawnTheta x i, T.drawnCenter x i)) ∧
      a'.wheels = List.zipWith Patch.setTransform a.wheels
        ((List.range T.N).map fun i => (T.drawnTheta x i, T.drawnCenter x i)) ∧
      a'.tractorHitch = some ((x.px, x.py), T.drawnHitchN x 0) ∧
      a'.front = (List.range T.N).map (fun i => (T.drawnHitchN x i, T.drawnFront x i)) ∧
      a'.back = (List.range (T.N - 1)).map (fun i => (T.drawnRear x i, T.drawnHitchN x (i + 1))) := by
    unfold AnimN.update
    rw [h1, e2]
    simp only [hb, hw, setTransforms, Option.map_some]
    exact ⟨_, rfl, rfl, rfl, rfl, rfl, rfl, rfl, rfl⟩
  obtain ⟨a', e, r1, r2, r3, r4, r5, r6, r7⟩ := hupd
  refine ⟨a', e, ⟨⟨_, r1⟩, by rw [r2]; rfl,
    ⟨(List.range T.N).map fun i => (T.drawnTheta x i, T.drawnCenter x i), by simp, ?_⟩,
    by rw [r4]; simp [h4]⟩, r1, by rw [r2]; rfl, r3, ?_, r5, r6, r7⟩
  · rw [r3, List.zipWith_map, List.zipWith_self]
  · rw [r4]
    apply List.ext_getElem
    · simp [h4]
    · intro i g1 g2
      simp [Patch.setTransform]

/-- **C66 (train).** Whatever was drawn before with the same robot, animating well-sized states never
raises and every picture shows the tractor and every trailer exactly on the points of their bodies. -/
theorem C66_ntrailer (T : NTrailer) (hs : Spec.BodySizes T.toParams)
    (hlen : ∀ i < T.N, 0 ≤ T.fronts.getD i 0 + T.rears.getD i 0) (a₀ : AnimN)
    (fs : List (QN × Option U)) (hfs : ∀ f ∈ fs, Spec.WellSized T f.1) :
    ∃ pics a', animate (AnimN.setup T) (fun a x => a.update T x.1 x.2) a₀ fs = some (pics, a') ∧
      List.Forall₂ (fun f a => Spec.PictureN T f.1 ((f.2.map Prod.snd).getD 0) a) fs pics := by
  have key : ∀ (fs : List (QN × Option U)) (a : AnimN), a.Ready T → (∀ f ∈ fs, Spec.WellSized T f.1) →
      ∃ r, framesOf (fun a (x : QN × Option U) => a.update T x.1 x.2) a fs = some r ∧
        List.Forall₂ (fun f a => Spec.PictureN T f.1 ((f.2.map Prod.snd).getD 0) a) fs r.1 := by
    intro fs
    induction fs with
    | nil => intro a _ _; exact ⟨([], a), rfl, .nil⟩
    | cons f fs ih =>
      intro a ha hw
      obtain ⟨a', e, hr, p1, p2, p3, -, p5, p6, p7⟩ := updateN_ready ha f.1 f.2
      obtain ⟨r, er, fr⟩ := ih a' hr (fun g hg => hw g (List.mem_cons_of_mem _ hg))
      have hz := hw f List.mem_cons_self
      refine ⟨(a' :: r.1, r.2), by simp only [framesOf, e, er, Option.map_some], .cons ?_ fr⟩
      have hst : steerOfAction f.2 = (f.2.map Prod.snd).getD 0 := by
        rcases f with ⟨q, _ | u⟩ <;> rfl
      refine ⟨⟨_, p1, tractor_region hs _ _ _⟩, ?_, ?_, ?_, ?_, ?_⟩
      · rw [p2, hst]
        simp only [Params.drawnFrontAxle, Spec.frame]
        congr 3
        ext <;> simp only <;> ring
      · rw [p3, List.map_map]
        apply List.map_congr_left
        intro i hi
        have hi : i < T.N := List.mem_range.mp hi
        have e1 := clampGet_of_lt (l := T.fronts) (i := i) (by rw [hz.fronts]; exact hi)
        have e2 := clampGet_of_lt (l := T.rears) (i := i) (by rw [hz.rears]; exact hi)
        simp only [Function.comp]
        rw [e1, e2, centred_region (hlen i hi) hs.trailerWid, Spec.trailerBodyN, body_eq_solidRect,
          drawnTheta_eq hz.ths, drawnCenter_eq hz hi]
        congr 1
        unfold Spec.frame
        ext <;> simp only <;> ring
      · rw [p5, drawnHitchN_eq hz (Nat.zero_le _)]
      · rw [p6]
        apply List.map_congr_left
        intro i hi
        have hi : i < T.N := List.mem_range.mp hi
        have e1 := clampGet_of_lt (l := T.fronts) (i := i) (by rw [hz.fronts]; exact hi)
        have e2 := clampGet_of_lt (l := T.rears) (i := i) (by rw [hz.rears]; exact hi)
        rw [drawnHitchN_eq hz hi.le]
        congr 1
        unfold NTrailer.drawnFront
        simp only
        rw [drawnCenter_eq hz hi, drawnTheta_eq hz.ths, e1, e2]
        unfold Spec.frame
        ext <;> simp only <;> ring
      · rw [p7]
        apply List.map_congr_left
        intro i hi
        have hi : i < T.N := by have := List.mem_range.mp hi; omega
        have e1 := clampGet_of_lt (l := T.fronts) (i := i) (by rw [hz.fronts]; exact hi)
        have e2 := clampGet_of_lt (l := T.rears) (i := i) (by rw [hz.rears]; exact hi)
        rw [drawnHitchN_eq hz hi]
        congr 1
        unfold NTrailer.drawnRear
        simp only
        rw [drawnCenter_eq hz hi, drawnTheta_eq hz.ths, e1, e2]
        unfold Spec.frame
        ext <;> simp only <;> ring
  obtain ⟨r, h1, h2⟩ := key fs (a₀.setup T)
    ⟨⟨(0, (0, 0)), rfl⟩, rfl, ⟨List.replicate T.N (0, (0, 0)), by simp, by
      apply List.ext_getElem
      · simp [AnimN.setup]
      · intro i g1 g2
        simp [AnimN.setup, Patch.setTransform, Patch.centred]⟩, by simp [AnimN.setup]⟩ hfs
  exact ⟨r.1, r.2, h1, h2⟩

example := C66_ntrailer Wit.train (by constructor <;> norm_num [Wit.train, Wit.params, Params.default])
  (by intro i hi; have : i < 2 := hi; interval_cases i <;> norm_num [Wit.train]) AnimN.new
  [(⟨1, 2, 0.3, [0.1, 0.2]⟩, some (1, 0))] (by simp; exact ⟨rfl, rfl, rfl, rfl⟩)

/-- **C66 (states with too few headings).** The drawing of a train fills missing trailer headings the
way the collision check does (the last given heading is repeated): every drawn trailer is the
rectangle handed to the check, for states of any length with at least one trailer heading. -/
theorem C66_ntrailer_short (T : NTrailer) (x : QN) (hx : x.ths ≠ []) (hw : 0 ≤ T.trailerWidth)
    (i : ℕ) (hi : i < T.N) (hs : 0 ≤ clampGet T.fronts i + clampGet T.rears i) :
    ((Patch.centred (clampGet T.fronts i + clampGet T.rears i) T.trailerWidth).setTransform
      (T.drawnTheta x i, T.drawnCenter x i)).region = Spec.hull (T.trailerCorners x i) := by
  have hth : ∀ j < T.N, T.drawnTheta x j = T.theta x j := by
    intro j hj
    have hpos : 0 < x.ths.length := List.length_pos_iff.mpr hx
    unfold NTrailer.drawnTheta NTrailer.theta NTrailer.slice clampGet
    simp only
    split_ifs with h
    · rw [List.take_of_length_le h.le]
      rcases lt_or_ge j x.ths.length with h1 | h1
      · rw [min_eq_left (by omega), List.getD_append _ _ _ _ h1]
      · rw [min_eq_right (by omega), List.getD_append_right _ _ _ _ h1,
          List.getD_eq_getElem _ _ (by simp; omega), List.getElem_replicate,
          List.getD_eq_getElem _ _ (by omega)]
        rw [List.getLastD_eq_getLast?, List.getLast?_eq_getElem?, List.getElem?_eq_getElem (by omega)]
        rfl
    · rw [min_eq_left (by simp; omega)]
  have hh : ∀ j ≤ T.N, T.drawnHitchN x j = T.rectHitch x j := by
    intro j
    induction j with
    | zero => intro _; rfl
    | succ j ih =>
      intro hj
      unfold NTrailer.drawnHitchN NTrailer.rectHitch
      simp only
      rw [ih (by omega), hth j (by omega)]
  unfold NTrailer.trailerCorners NTrailer.drawnCenter
  simp only
  rw [hh i hi.le, hth i hi, centred_region hs hw, hull_boxCorners _ _ (by linarith) (by linarith)]
  congr 1
  ring

example := C66_ntrailer_short Wit.train ⟨1, 2, 0.3, [0.1]⟩ (by simp)
  (by norm_num [Wit.train, Wit.params, Params.default]) 1 (by norm_num [Wit.train])
  (by norm_num [Wit.train, clampGet])

/-- **C66 (trailer wheels of a train).** The wheel of trailer `i` is drawn in the middle of its body, which
is its axle only if the overhangs in front of and behind the axle are equal. -/
theorem C66_train_wheels (T : NTrailer) (x : QN) (h : Spec.WellSized T x) (u : Option U) (a₀ : AnimN) :
    ∃ a', (a₀.setup T).update T x u = some a' ∧ a'.wheels.length = T.N ∧
      ∀ i (hi : i < a'.wheels.length), (a'.wheels[i].center = Spec.axleN T x i ↔
        T.fronts.getD i 0 = T.rears.getD i 0) := by
  obtain ⟨a', e, -, -, -, -, p4, -⟩ := updateN_ready (T := T) (a := a₀.setup T)
    ⟨⟨(0, (0, 0)), rfl⟩, rfl, ⟨List.replicate T.N (0, (0, 0)), by simp, by
      apply List.ext_getElem
      · simp [AnimN.setup]
      · intro i g1 g2
        simp [AnimN.setup, Patch.setTransform, Patch.centred]⟩, by simp [AnimN.setup]⟩ x u
  have hl : a'.wheels.length = T.N := by
    have := congrArg List.length p4
    simpa using this
  refine ⟨a', e, hl, fun i hi => ?_⟩
  have hiN : i < T.N := hl ▸ hi
  have hc : a'.wheels[i].center = T.drawnCenter x i := by
    have := congrArg (fun l => l[i]?) p4
    simp only [List.getElem?_map, List.getElem?_eq_getElem hi, Option.map_some,
      List.getElem?_range hiN, Option.some.injEq, Prod.mk.injEq] at this
    exact this.1
  rw [hc, drawnCenter_eq h hiN]
  generalize Spec.axleN T x i = ax
  generalize T.fronts.getD i 0 = f
  generalize T.rears.getD i 0 = r
  have hz : ax = Spec.frame ax (x.ths.getD i 0) 0 0 := by unfold Spec.frame; ext <;> simp
  constructor
  · intro he
    rw [hz] at he
    have hf : Spec.frame (Spec.frame ax (x.ths.getD i 0) 0 0) (x.ths.getD i 0) (0.5 * (f - r)) 0 =
        Spec.frame ax (x.ths.getD i 0) (0.5 * (f - r)) 0 := by rw [← hz]
    rw [hf] at he
    have := (frame_inj he).1
    linarith
  · intro he
    rw [he]
    unfold Spec.frame
    ext <;> simp

/-- C66 is false for the trailer wheels of the default train: they are not drawn on the axles. -/
theorem C66_train_wheels_refuted :
    ¬ ∀ (T : NTrailer) (x : QN) (a' : AnimN), Spec.WellSized T x →
      (AnimN.new.setup T).update T x none = some a' →
      a'.wheels.map Patch.center = (List.range T.N).map (Spec.axleN T x) := by
  intro h
  have hw : Spec.WellSized Wit.train ⟨1, 2, 0.3, [0.1, 0.2]⟩ := ⟨rfl, rfl, rfl, rfl⟩
  obtain ⟨a', e, hl, hi⟩ := C66_train_wheels Wit.train ⟨1, 2, 0.3, [0.1, 0.2]⟩ hw none AnimN.new
  have h0 := h _ _ _ hw e
  have hpos : 0 < a'.wheels.length := by rw [hl]; norm_num [Wit.train]
  have := congrArg (fun l => l[0]?) h0
  simp only [List.getElem?_map, List.getElem?_eq_getElem hpos, Option.map_some,
    List.getElem?_range (show 0 < Wit.train.N by norm_num [Wit.train]), Option.some.injEq] at this
  have := (hi 0 hpos).mp this
  norm_num [Wit.train] at this

theorem setTransforms_long {ps : List Patch} : ∀ {ts : List (ℝ × V2)}, ts.length < ps.length →
    setTransforms ps ts = none := by
  induction ps with
  | nil => intro ts h; simp at h
  | cons p ps ih =>
    intro ts h
    cases ts with
    | nil => rfl
    | cons t ts =>
      simp only [setTransforms]
      rw [ih (by simpa using h)]
      rfl

/-- **C66 (second animation).** After one animation with a tractor-trailer robot, of any frames, the first
frame of every further animation with the same robot raises. -/
theorem C66_second_animation (P : Params) (hs : Spec.BodySizes P) (fs : List (Q4 × Option U)) :
    ∃ pics a', animate (AnimTT.setup P) (fun a (x : Q4 × Option U) => a.update P x.1 x.2) AnimTT.new fs = some (pics, a') ∧
      ∀ (f : Q4 × Option U) (fs' : List (Q4 × Option U)), animate (AnimTT.setup P) (fun a (x : Q4 × Option U) => a.update P x.1 x.2) a' (f :: fs') = none := by
  obtain ⟨r, h1, h2, -⟩ := framesOf_good (I := AnimTT.Ready P) (G := fun _ _ => True)
    (update := fun a (x : Q4 × Option U) => a.update P x.1 x.2)
    (fun a x ha => by
      obtain ⟨a', e, h1, h2⟩ := update_ready hs ha x.1 (steerOfAction x.2)
      exact ⟨a', e, h1, trivial⟩) fs _ (setup_ready P)
  refine ⟨r.1, r.2, h1, fun f fs' => ?_⟩
  have : (r.2.setup P).update P f.1 f.2 = none := by
    unfold AnimTT.update AnimTT.updateWith
    simp only [AnimTT.setup]
    rw [setTransforms_long (by simp [h2.2.2.1])]
  simp only [animate, framesOf, this]

/-- C66 is false for the second animation with the same tractor-trailer robot (`IndexError`: the wheel
lists are extended by every `setup_animation_patches`). -/
theorem C66_second_animation_refuted :
    ¬ ∀ (P : Params) (fs fs' : List (Q4 × Option U)) (pics : List AnimTT) (a' : AnimTT),
      Spec.BodySizes P →
      animate (AnimTT.setup P) (fun a (x : Q4 × Option U) => a.update P x.1 x.2) AnimTT.new fs = some (pics, a') →
      animate (AnimTT.setup P) (fun a (x : Q4 × Option U) => a.update P x.1 x.2) a' fs' ≠ none := by
  intro h
  obtain ⟨pics, a', e, hn⟩ := C66_second_animation Wit.params wit_bodySizes [(⟨0, 0, 0, 0⟩, none)]
  exact h _ _ _ _ _ wit_bodySizes e (hn (⟨0, 0, 0, 0⟩, none) [])

/-- **C66 (front wheel), partial.** For the kinematic robots the drawn steering angle is the steering
angle of the executed step exactly when the steering limit is one radian or the action is neutral.
Missing for the full property: all other steering limits. -/
theorem C66_steering_partial (P : Params) (u : U) :
    steerOfAction (some u) = (P.inputScaler u).2 ↔ u.2 = 0 ∨ P.deltaMax = 1 := by
  unfold steerOfAction Params.inputScaler
  simp only
  constructor
  · intro h
    have : u.2 * (P.deltaMax - 1) = 0 := by linarith
    rcases mul_eq_zero.mp this with h | h
    · exact Or.inl h
    · right; linarith
  · rintro (h | h) <;> rw [h] <;> ring

/-- C66 is false for the front wheel of the kinematic robots: at full steering the default vehicle
steers 55 degrees but is drawn with its wheel turned by one radian. -/
theorem C66_steering_refuted :
    ¬ ∀ (P : Params) (q : Q4) (u : U) (a' : AnimTT), Spec.BodySizes P → Spec.InBox u →
      (AnimTT.new.setup P).update P q (some u) = some a' →
      a'.tractorWheels.map (fun w => w.ang - q.th1) = [0, (P.inputScaler u).2] := by
  intro h
  obtain ⟨a', e, -, hp⟩ := update_ready wit_bodySizes (setup_ready Wit.params) ⟨0, 0, 0, 0⟩
    (steerOfAction (some (1, 1)))
  have h1 := h _ _ (1, 1) a' wit_bodySizes (by norm_num [Spec.InBox]) e
  have h2 := hp.wheels
  have h3 := congrArg (List.map Prod.snd) h2
  simp only [List.map_map, List.map_cons, List.map_nil] at h3
  have h4 : a'.tractorWheels.map (fun w => w.ang - 0) = [0, 0 + (1 : ℝ)] := by
    simpa [Function.comp_def, steerOfAction] using h3
  rw [h1] at h4
  simp only [List.cons.injEq, and_true, true_and, Params.inputScaler, Params.deltaMax, Wit.params,
    Params.default] at h4
  have := pi_lt_d2
  have := pi_gt_three
  linarith

/-! ### Obstacles -/

/-- **C66 (obstacles).** The drawn obstacles cover exactly the points of the obstacles of the check. -/
theorem C66_obstacles (cs : List Circle) (rs : List Rect) (h : ∀ o ∈ rs, 0 ≤ o.w ∧ 0 ≤ o.h) (z : V2) :
    z ∈ drawnObstacles cs rs ↔
      (∃ c ∈ cs, z ∈ Spec.circleRegion c) ∨ ∃ o ∈ rs, z ∈ Spec.rectRegion o := by
  have hr : ∀ o ∈ rs, o.patch.region = Spec.rectRegion o := by
    intro o ho
    exact centred_region (h o ho).1 (h o ho).2 o.ang (o.x, o.y)
  unfold drawnObstacles
  simp only [Set.mem_ofPred_eq]
  refine or_congr Iff.rfl ⟨?_, ?_⟩
  · rintro ⟨o, ho, hz⟩; exact ⟨o, ho, hr o ho ▸ hz⟩
  · rintro ⟨o, ho, hz⟩; exact ⟨o, ho, (hr o ho).symm ▸ hz⟩

example := C66_obstacles [⟨1, 2, 1⟩] [⟨0, 15, 30, 1, 0.2⟩] (by norm_num) (1, 2)

/-- **C66 (same obstacles everywhere).** For a robot built on an environment and any sequence of calls of
the robot's setters, the animation (which draws the environment's obstacles) and `render` (which draws
the robot's) show the same obstacles, namely those the robot's checks use. -/
theorem C66_same_obstacles (k : Kind) (e : Env) (case : String) (l1 : ℝ) (r : Robot)
    (hr : Robot.new k e case l1 = .ok r) (calls : List Robot.Call) :
    let r' := calls.foldl Robot.call r
    r'.animationObstacles = drawnObstacles r'.circles r'.rects ∧
    r'.renderObstacles = drawnObstacles r'.circles r'.rects := by
  have key : ∀ (calls : List Robot.Call) (r : Robot), (r.env.circles = r.circles ∧ r.env.rects = r.rects) →
      ((calls.foldl Robot.call r).env.circles = (calls.foldl Robot.call r).circles ∧
       (calls.foldl Robot.call r).env.rects = (calls.foldl Robot.call r).rects) := by
    intro calls
    induction calls with
    | nil => intro r h; exact h
    | cons c cs ih =>
      intro r h
      rw [List.foldl_cons]
      apply ih
      cases c with
      | init a =>
        simp only [Robot.call]; unfold Robot.setInitPos
        cases r.initPose a <;> exact h
      | goal a => exact h
      | rects o m p =>
        simp only [Robot.call, Robot.setRectangleObs, Env.setRectangleObs]
        cases Env.convertAll (Env.convertRect m p) o with
        | error e => exact h
        | ok l => exact ⟨h.1, rfl⟩
      | circles o p =>
        simp only [Robot.call, Robot.setCircleObs, Env.setCircleObs]
        cases Env.convertAll (Env.convertCircle p) o with
        | error e => exact h
        | ok l => exact ⟨rfl, h.2⟩
  have h0 : r.env.circles = r.circles ∧ r.env.rects = r.rects := by
    unfold Robot.new at hr
    simp only at hr
    split at hr
    · simp at hr
    · split at hr
      · simp at hr
      · injection hr with hr; subst hr; exact ⟨rfl, rfl⟩
  obtain ⟨h1, h2⟩ := key calls r h0
  intro r'
  refine ⟨?_, rfl⟩
  unfold Robot.animationObstacles
  rw [h1, h2]

example : ∃ e r, Env.new 32 32 "parking" none = .ok e ∧
    Robot.new .tractorTrailer e "navigation" 3.23 = .ok r ∧
    ((r.call (.circles [[1, 2, 3]] 0)).animationObstacles =
      drawnObstacles (r.call (.circles [[1, 2, 3]] 0)).circles (r.call (.circles [[1, 2, 3]] 0)).rects) := by
  obtain ⟨e, he⟩ : ∃ e, Env.new 32 32 "parking" none = .ok e := ⟨_, rfl⟩
  obtain ⟨r, hr⟩ : ∃ r, Robot.new .tractorTrailer e "navigation" 3.23 = .ok r := ⟨_, rfl⟩
  exact ⟨e, r, he, hr, (C66_same_obstacles _ e _ _ r hr [.circles [[1, 2, 3]] 0]).1⟩

/-- C66 is false when the obstacles are registered with the environment object instead of the robot:
the animation then shows obstacles which the robot's checks do not know. -/
theorem C66_env_obstacles_refuted :
    ¬ ∀ (e : Env) (r : Robot) (obs : List (List ℝ)), Robot.new .tractorTrailer e "navigation" 3.23 = .ok r →
      ({ r with env := (r.env.setCircleObs obs 0).1 } : Robot).animationObstacles =
        drawnObstacles r.circles r.rects := by
  intro h
  have := h ⟨"navigation", (-16, 16), (-16, 16), none, [], []⟩ _ [[5, 5, 1]] rfl
  have h2 : ((5, 5) : V2) ∈ drawnObstacles [⟨5, 5, 1 + 0⟩] [] := by
    left; exact ⟨_, List.mem_cons_self, by simp [Circle.drawn]⟩
  have h3 : drawnObstacles [⟨5, 5, 1 + 0⟩] [] = drawnObstacles [] [] := this
  rw [h3] at h2
  simp [drawnObstacles] at h2

/-! ### Marks and pictures -/

/-- **C66 (collision marks), partial.** When the check used for the collision mark answers yes, the drawn
vehicle and the drawn obstacles overlap; without circular obstacles also conversely.  Missing: circular
obstacles that lie entirely inside a drawn body are not marked (`C05_solid_refuted`). -/
theorem C66_mark_partial (P : Params) (hs : Spec.SidesOK P) (q : Q4) :
    ((TT2d.animEnv P).coll q → ∃ z, (z ∈ Spec.tractorBody P q.px q.py q.th1 ∨ z ∈ Spec.trailerBody P q) ∧
      z ∈ drawnObstacles P.circles P.rects) ∧
    (P.circles = [] → (∃ z, (z ∈ Spec.tractorBody P q.px q.py q.th1 ∨ z ∈ Spec.trailerBody P q) ∧
      z ∈ drawnObstacles P.circles P.rects) → (TT2d.animEnv P).coll q) := by
  have ho := C66_obstacles P.circles P.rects
    (fun o h => ⟨(hs.sides o h).1.le, (hs.sides o h).2.le⟩)
  constructor
  · intro h
    by_contra hno
    push Not at hno
    refine safe_passes hs (q := q) ⟨fun c hc => ⟨fun z h1 h2 => ?_, fun z h1 h2 => ?_⟩,
      fun o hc => ⟨fun z h1 h2 => ?_, fun z h1 h2 => ?_⟩⟩ h
    · exact hno z (Or.inl h1) ((ho z).mpr (Or.inl ⟨c, hc, h2⟩))
    · exact hno z (Or.inr h1) ((ho z).mpr (Or.inl ⟨c, hc, h2⟩))
    · exact hno z (Or.inl h1) ((ho z).mpr (Or.inr ⟨o, hc, h2⟩))
    · exact hno z (Or.inr h1) ((ho z).mpr (Or.inr ⟨o, hc, h2⟩))
  · rintro hc ⟨z, hz, hd⟩
    by_contra hno
    obtain ⟨h1, h2⟩ := checkObstacle_clear hs (q := q) hno
    rcases (ho z).mp hd with ⟨c, hcm, -⟩ | ⟨o, hom, hzo⟩
    · rw [hc] at hcm; simp at hcm
    · rcases hz with hz | hz
      · exact h1.1 o hom z hz hzo
      · exact h2.1 o hom z hz hzo

example := C66_mark_partial (Params.default [] [⟨0, 15, 30, 1, 0⟩])
  (default_sidesOK _ _ (by simp) (by norm_num)) ⟨0, 13, 0, 0⟩

/-! ### Parking lot -/

/-- **C66 (space labels).** Every space that is not occupied carries exactly its own number, at the
centre which `get_parking_space_center` reports for that number, green when it is a target; there are
no other labels. -/
theorem C66_labels (e : Env) (c : ParkingConfig) (hcase : e.case = "parking") (hc : e.config = some c)
    (l : Label) : l ∈ drawnLabels e.yRange.1 c ↔
      (∃ r k, Spec.IsSpace c l.num r k) ∧ l.num ∉ c.occupied ∧
      e.getParkingSpaceCenter l.num = .ok l.pos ∧
      (l.color = .lightgreen ↔ l.num ∈ c.target) ∧ (l.color = .lightblue ↔ l.num ∉ c.target) := by
  unfold drawnLabels
  simp only [List.mem_flatMap, List.mem_map, List.mem_filter, List.mem_range, decide_eq_true_eq]
  constructor
  · rintro ⟨row, hrow, col, ⟨hcol, hocc⟩, rfl⟩
    have hsp : Spec.IsSpace c (row * c.cols + col + 1) row col := by
      refine ⟨by positivity, ?_, by positivity, ?_, rfl⟩ <;> omega
    refine ⟨⟨row, col, hsp⟩, hocc, ?_, ?_, ?_⟩
    · rw [C40_center e c hcase hc _ _ _ hsp]
      unfold Spec.cellMiddle Spec.lotX
      congr 1
      ext <;> push_cast <;> ring
    · simp only
      split_ifs with h <;> simp [h]
    · simp only
      split_ifs with h <;> simp [h]
  · rintro ⟨⟨r, k, hsp⟩, hocc, hpos, hg, hb⟩
    obtain ⟨h0, h1, h2, h3, h4⟩ := hsp
    refine ⟨r.toNat, by omega, k.toNat, ⟨by omega, ?_⟩, ?_⟩
    · rw [Int.toNat_of_nonneg h0, Int.toNat_of_nonneg h2, ← h4]; exact hocc
    · have e1 : ((r.toNat : ℤ)) = r := Int.toNat_of_nonneg h0
      have e2 : ((k.toNat : ℤ)) = k := Int.toNat_of_nonneg h2
      have e3 : ((r.toNat : ℝ)) = (r : ℝ) := by exact_mod_cast congrArg (Int.cast : ℤ → ℝ) e1
      have e4 : ((k.toNat : ℝ)) = (k : ℝ) := by exact_mod_cast congrArg (Int.cast : ℤ → ℝ) e2
      rw [C40_center e c hcase hc _ _ _ ⟨h0, h1, h2, h3, h4⟩] at hpos
      injection hpos with hpos
      rcases l with ⟨num, pos, color⟩
      simp only at hocc hpos hg hb h4
      simp only [Label.mk.injEq, e1, e2, e3, e4, ← h4]
      refine ⟨trivial, ?_, ?_⟩
      · rw [← hpos]
        unfold Spec.cellMiddle Spec.lotX
        ext <;> simp only <;> ring
      · by_cases ht : num ∈ c.target
        · rw [if_pos ht, hg.mpr ht]
        · rw [if_neg ht, if_neg hocc, hb.mpr ht]

example : ∃ e, Env.new 32 32 "parking" none = .ok e ∧ ∃ l ∈ drawnLabels e.yRange.1 ParkingConfig.default,
    l.num = 11 ∧ l.color = .lightgreen := by
  obtain ⟨e, he, hc, hcase⟩ : ∃ e, Env.new 32 32 "parking" none = .ok e ∧
      e.config = some ParkingConfig.default ∧ e.case = "parking" := ⟨_, rfl, rfl, rfl⟩
  refine ⟨e, he, ⟨11, Spec.cellMiddle ParkingConfig.default e.yRange.1 1 2, .lightgreen⟩,
    (C66_labels e _ hcase hc _).mpr ⟨⟨1, 2, ?_⟩, ?_, C40_center e _ hcase hc _ _ _ ?_, ?_, ?_⟩, rfl, rfl⟩
  all_goals simp [Spec.IsSpace, ParkingConfig.default]

/-- **C66 (lines of the lot).** The edges of every cell lie on drawn lines, and every drawn line is an
edge of the lot's grid: a horizontal line per row boundary over the whole width, a vertical line per
column boundary over the whole height. -/
theorem C66_lines (c : ParkingConfig) (hr : 0 ≤ c.rows) (hk : 0 ≤ c.cols) (yLow : ℝ) (s : V2 × V2) :
    s ∈ drawnLines yLow c ↔
      (∃ r : ℤ, 0 ≤ r ∧ r ≤ c.rows ∧
        s = ((Spec.lotX c, yLow + c.yOffset + r * c.spaceLength),
             (-Spec.lotX c, yLow + c.yOffset + r * c.spaceLength))) ∨
      (∃ k : ℤ, 0 ≤ k ∧ k ≤ c.cols ∧
        s = ((Spec.lotX c + k * c.spaceWidth, yLow + c.yOffset),
             (Spec.lotX c + k * c.spaceWidth, yLow + c.yOffset + c.rows * c.spaceLength))) := by
  have e1 : ∀ x : ℝ, -((c.cols : ℝ) * c.spaceWidth) / 2 = Spec.lotX c := by
    intro _; unfold Spec.lotX; ring
  have e2 : Spec.lotX c + c.cols * c.spaceWidth = -Spec.lotX c := by unfold Spec.lotX; ring
  unfold drawnLines
  simp only [List.mem_append, List.mem_map, List.mem_range, e1 0, e2]
  refine or_congr ⟨?_, ?_⟩ ⟨?_, ?_⟩
  · rintro ⟨n, hn, rfl⟩
    exact ⟨n, by positivity, by omega, by push_cast; rfl⟩
  · rintro ⟨r, h0, h1, rfl⟩
    refine ⟨r.toNat, by omega, ?_⟩
    have e4 : ((r.toNat : ℝ)) = (r : ℝ) := by
      exact_mod_cast congrArg (Int.cast : ℤ → ℝ) (Int.toNat_of_nonneg h0)
    rw [e4]
  · rintro ⟨n, hn, rfl⟩
    exact ⟨n, by positivity, by omega, by push_cast; rfl⟩
  · rintro ⟨r, h0, h1, rfl⟩
    refine ⟨r.toNat, by omega, ?_⟩
    have e4 : ((r.toNat : ℝ)) = (r : ℝ) := by
      exact_mod_cast congrArg (Int.cast : ℤ → ℝ) (Int.toNat_of_nonneg h0)
    rw [e4]

example := C66_lines ParkingConfig.default (by norm_num [ParkingConfig.default])
  (by norm_num [ParkingConfig.default]) (-16) ((-14, -12), (14, -12))

end Mbd
