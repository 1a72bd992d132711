import Verif.PropsGeom
import Verif.PropsShield
import Verif.MotionLemmas
import Mathlib.Tactic.IntervalCases

/-!
# C03: geometric safety of shielded kinematic rollouts
-/

namespace Mbd

open Real Classical

/-! ## bodies and checks -/

theorem box_clear_rect {c : V2} {a hl hw : ℝ} (h1 : 0 < hl) (h2 : 0 < hw) {o : Rect}
    (p1 : 0 < o.w) (p2 : 0 < o.h) :
    ¬ rectRect (boxCorners c a hl hw) o.corners ↔
      Spec.Apart (Spec.solidRect c a hl hw) (Spec.rectRegion o) := by
  unfold Rect.corners
  rw [rectRect_iff_intersect _ _ _ _ h1 h2 (by linarith) (by linarith)]
  unfold Spec.Apart Spec.rectRegion
  push Not
  exact Iff.rfl

theorem box_clear_circle {c : V2} {a hl hw : ℝ} (h1 : 5e-5 ≤ hl) (h2 : 5e-5 ≤ hw) {o : Circle}
    (hr : 0 ≤ o.r) (h : ¬ rectCircle (boxCorners c a hl hw) (o.x, o.y) o.r) :
    Spec.Apart (Spec.solidRect c a hl hw) (Spec.circleRegion o) ∨
      Spec.circleRegion o ⊆ Spec.solidRect c a hl hw := by
  by_cases hs : ∃ p, p ∈ Spec.solidRect c a hl hw ∧ p ∈ Spec.disc (o.x, o.y) o.r
  · exact Or.inr (C05_missed_only_if_contained c a h1 h2 _ hr hs h)
  · left
    intro p hp hd
    exact hs ⟨p, hp, hd⟩

theorem apart_not_circle {c : V2} {a hl hw : ℝ} (h1 : 0 ≤ hl) (h2 : 0 ≤ hw) {o : Circle}
    (h : Spec.Apart (Spec.solidRect c a hl hw) (Spec.circleRegion o)) :
    ¬ rectCircle (boxCorners c a hl hw) (o.x, o.y) o.r := by
  intro hc
  obtain ⟨p, hp, hd⟩ := C05_sound c a h1 h2 _ _ hc
  exact h p hp hd

/-- Centre of a body given by its axle and overhangs. -/
noncomputable def bodyCenter (a : V2) (ang rear front : ℝ) : V2 :=
  (a.1 + 0.5 * (front - rear) * cos ang, a.2 + 0.5 * (front - rear) * sin ang)

theorem body_eq (a : V2) (ang rear front width : ℝ) : Spec.body a ang rear front width =
    Spec.solidRect (bodyCenter a ang rear front) ang ((front + rear) / 2) (width / 2) :=
  body_eq_solidRect a ang rear front width

theorem tractorCorners_eq (P : Params) (px py th : ℝ) : P.tractorCorners px py th =
    boxCorners (bodyCenter (px, py) th P.lr (P.l1 + P.lf1)) th ((P.l1 + P.lf1 + P.lr) / 2)
      (P.tractorWidth / 2) := rfl

theorem trailerCorners_eq (P : Params) (q : Q4) : TT2d.trailerCorners P q =
    boxCorners (bodyCenter (Spec.trailerAxle P q) q.th2 P.lr2 P.lf2) q.th2 ((P.lf2 + P.lr2) / 2)
      (P.trailerWidth / 2) := by
  unfold TT2d.trailerCorners bodyCenter Spec.trailerAxle TT2d.hitchPoint Spec.frame
  congr 1
  ext <;> simp only <;> ring

theorem trailerCornersN_eq {T : NTrailer} {x : QN} (h : Spec.WellSized T x) {i : ℕ} (hi : i < T.N) :
    T.trailerCorners x i =
    boxCorners (bodyCenter (Spec.axleN T x i) (x.ths.getD i 0) (T.rears.getD i 0)
      (T.fronts.getD i 0)) (x.ths.getD i 0) ((T.fronts.getD i 0 + T.rears.getD i 0) / 2)
      (T.trailerWidth / 2) := by
  unfold NTrailer.trailerCorners bodyCenter Spec.axleN
  simp only
  rw [rectHitch_eq h hi.le, theta_of_lt h hi, clampGet_of_lt (l := T.lengths) (by rw [h.lengths]; exact hi),
      clampGet_of_lt (l := T.fronts) (by rw [h.fronts]; exact hi),
      clampGet_of_lt (l := T.rears) (by rw [h.rears]; exact hi)]
  congr 1
  · unfold Spec.frame; ext <;> simp only <;> ring
  · ring

theorem frame_bodyCenter (a : V2) (ang rear front s t : ℝ) :
    Spec.frame (bodyCenter a ang rear front) ang s t
      = Spec.frame a ang (s + 0.5 * (front - rear)) t := by
  unfold Spec.frame bodyCenter; ext <;> simp only <;> ring

/-- Tunnelling of a body needs a large displacement of one of its points. -/
theorem body_tunnel {a a' : V2} {ang ang' rear front width : ℝ} {o : Circle} (hr : 0 ≤ o.r)
    (hb : Spec.Apart (Spec.body a ang rear front width) (Spec.circleRegion o))
    (ha : Spec.circleRegion o ⊆ Spec.body a' ang' rear front width) :
    ∃ s t, -rear + o.r ≤ s ∧ s ≤ front - o.r ∧ |t| + o.r ≤ width / 2 ∧
      2 * o.r < Spec.dist (Spec.frame a' ang' s t) (Spec.frame a ang s t) := by
  rw [body_eq] at hb ha
  obtain ⟨s, t, h1, h2, h3⟩ := tunnel_needs_shift hr hb ha
  rw [frame_bodyCenter, frame_bodyCenter] at h3
  refine ⟨s + 0.5 * (front - rear), t, ?_, ?_, h2, h3⟩
  · linarith [neg_abs_le s]
  · linarith [le_abs_self s]

/-! ## C03, first part: rectangles exactly, circles up to containment -/

/-- What a passed obstacle check means for one body. -/
def Spec.ClearBody (P : Params) (B : Set Spec.Pt) : Prop :=
  (∀ o ∈ P.rects, Spec.Apart B (Spec.rectRegion o)) ∧
  (∀ c ∈ P.circles, Spec.Apart B (Spec.circleRegion c) ∨ Spec.circleRegion c ⊆ B)

/-- Meaning of a passed obstacle check, tractor-trailer. -/
theorem checkObstacle_clear {P : Params} (hs : Spec.SidesOK P) {q : Q4}
    (h : ¬ TT2d.checkObstacle P q) :
    Spec.ClearBody P (Spec.tractorBody P q.px q.py q.th1) ∧
    Spec.ClearBody P (Spec.trailerBody P q) := by
  obtain ⟨a1, a2, a3, a4, hrad, hsides⟩ := hs
  unfold TT2d.checkObstacle at h
  simp only at h
  rw [tractorCorners_eq, trailerCorners_eq] at h
  push Not at h
  obtain ⟨hc, hr⟩ := h
  unfold Spec.tractorBody Spec.trailerBody
  rw [body_eq, body_eq]
  refine ⟨⟨?_, ?_⟩, ?_, ?_⟩
  · intro o ho
    exact (box_clear_rect (by linarith) (by linarith) (hsides o ho).1 (hsides o ho).2).mp (hr o ho).1
  · intro c hcm
    exact box_clear_circle (by linarith) (by linarith) (hrad c hcm) (hc c hcm).1
  · intro o ho
    exact (box_clear_rect (by linarith) (by linarith) (hsides o ho).1 (hsides o ho).2).mp (hr o ho).2
  · intro c hcm
    exact box_clear_circle (by linarith) (by linarith) (hrad c hcm) (hc c hcm).2

/-- A geometrically safe state passes the obstacle check. -/
theorem safe_passes {P : Params} (hs : Spec.SidesOK P) {q : Q4} (h : Spec.SafeTT P q) :
    ¬ TT2d.checkObstacle P q := by
  obtain ⟨a1, a2, a3, a4, hrad, hsides⟩ := hs
  obtain ⟨hc, hr⟩ := h
  unfold Spec.tractorBody Spec.trailerBody at hc hr
  rw [body_eq, body_eq] at hc hr
  unfold TT2d.checkObstacle
  simp only
  rw [tractorCorners_eq, trailerCorners_eq]
  push Not
  refine ⟨fun c hcm => ⟨?_, ?_⟩, fun o ho => ⟨?_, ?_⟩⟩
  · exact apart_not_circle (by linarith) (by linarith) (hc c hcm).1
  · exact apart_not_circle (by linarith) (by linarith) (hc c hcm).2
  · exact (box_clear_rect (by linarith) (by linarith) (hsides o ho).1 (hsides o ho).2).mpr (hr o ho).1
  · exact (box_clear_rect (by linarith) (by linarith) (hsides o ho).1 (hsides o ho).2).mpr (hr o ho).2

/-- C03, tractor-trailer, for every shielded rollout from a state that passes the check: no body
shares a point with a rectangular obstacle, and a body shares a point with a circular obstacle only
if it contains it entirely.  Missing for the full property: the contained case, which does happen
(`C03_tunnel_refuted`). -/
theorem C03_tt2d_partial (T : TT2d) (ext : Ext Q4) (hs : T.shieldCollision = true)
    (hp : T.enableProjection = false) (hg : T.enableGuidance = false)
    (hsz : Spec.SidesOK T.toParams) (s : St Q4) (h0 : ¬ TT2d.checkObstacle T.toParams s.q)
    (us : List U) :
    ∀ s' ∈ scanStates (T.step ext) s us,
      Spec.ClearBody T.toParams (Spec.tractorBody T.toParams s'.q.px s'.q.py s'.q.th1) ∧
      Spec.ClearBody T.toParams (Spec.trailerBody T.toParams s'.q) :=
  fun s' hm => checkObstacle_clear hsz (C01_tt2d T ext hs hp hg s h0 us s' hm)

example := fun ext us => C03_tt2d_partial Wit.tt ext rfl rfl rfl Wit.sides Wit.tt.reset Wit.tt_clear us

/-- C03, bicycle. -/
theorem C03_bicycle_partial (T : Bicycle) (ext : Ext Q3) (hs : T.shieldCollision = true)
    (hp : T.enableProjection = false) (hg : T.enableGuidance = false)
    (hsz : Spec.SidesOK T.toParams) (s : St Q3) (h0 : ¬ Bicycle.checkObstacle T.toParams s.q)
    (us : List U) :
    ∀ s' ∈ scanStates (T.step ext) s us,
      Spec.ClearBody T.toParams (Spec.tractorBody T.toParams s'.q.px s'.q.py s'.q.th1) := by
  intro s' hm
  have h := C01_bicycle T ext hs hp hg s h0 us s' hm
  obtain ⟨a1, a2, a3, a4, hrad, hsides⟩ := hsz
  unfold Bicycle.checkObstacle at h
  simp only at h
  rw [tractorCorners_eq] at h
  push Not at h
  obtain ⟨hc, hr⟩ := h
  unfold Spec.tractorBody
  rw [body_eq]
  constructor
  · intro o ho
    exact (box_clear_rect (by linarith) (by linarith) (hsides o ho).1 (hsides o ho).2).mp (hr o ho)
  · intro c hcm
    exact box_clear_circle (by linarith) (by linarith) (hrad c hcm) (hc c hcm)

example := fun ext us =>
  C03_bicycle_partial Wit.bike ext rfl rfl rfl Wit.sides Wit.bike.reset Wit.bike_clear us

/-- Sizes of the trailers of a train. -/
def Spec.TrailersOK (T : NTrailer) : Prop :=
  T.lengths.length = T.N ∧ T.fronts.length = T.N ∧ T.rears.length = T.N ∧
  ∀ i < T.N, 1e-4 ≤ T.fronts.getD i 0 + T.rears.getD i 0

/-- C03, N trailers. -/
theorem C03_ntrailer_partial (T : NTrailer) (guide : QN → QN) (hs : T.shieldCollision = true)
    (hg : T.enableGuidance = false) (hsz : Spec.SidesOK T.toParams) (htr : Spec.TrailersOK T)
    (s : St QN) (h0 : ¬ T.checkObstacle s.q) (us : List U) (tr : List (St QN))
    (h : scanStatesE (T.step guide) s us = .ok tr) :
    ∀ s' ∈ tr,
      Spec.ClearBody T.toParams (Spec.tractorBody T.toParams s'.q.px s'.q.py s'.q.th0) ∧
      ∀ i < T.N, Spec.ClearBody T.toParams (Spec.trailerBodyN T s'.q i) := by
  intro s' hm
  have hc := C01_ntrailer T guide hs hg s h0 us tr h s' hm
  have hlen : s'.q.ths.length = T.N := by
    by_cases hl : s.q.ths.length = T.N
    · exact scanStatesE_forall (fun s : St QN => s.q.ths.length = T.N)
        (fun s a s' _ hst => T.step_length' guide s s' a hst) us s tr hl h s' hm
    · exfalso
      cases us with
      | nil => simp only [scanStatesE, Except.ok.injEq] at h; subst h; simp at hm
      | cons u us =>
        rw [scanStatesE] at h
        cases h1 : T.step guide s u with
        | error e => simp [h1] at h
        | ok s1 => exact hl (T.step_length guide s s1 u h1).1
  have hw : Spec.WellSized T s'.q := ⟨hlen, htr.1, htr.2.1, htr.2.2.1⟩
  obtain ⟨a1, a2, a3, a4, hrad, hsides⟩ := hsz
  unfold NTrailer.checkObstacle at hc
  simp only at hc
  rw [tractorCorners_eq] at hc
  unfold NTrailer.allTrailerCorners at hc
  simp only [List.mem_map, List.mem_range, exists_exists_and_eq_and] at hc
  push Not at hc
  obtain ⟨⟨c1, c2⟩, r1, r2⟩ := hc
  constructor
  · unfold Spec.tractorBody
    rw [body_eq]
    constructor
    · intro o ho
      exact (box_clear_rect (by linarith) (by linarith) (hsides o ho).1 (hsides o ho).2).mp (r1 o ho)
    · intro c hcm
      exact box_clear_circle (by linarith) (by linarith) (hrad c hcm) (c1 c hcm)
  · intro i hi
    have hi' := htr.2.2.2 i hi
    unfold Spec.trailerBodyN
    rw [body_eq]
    constructor
    · intro o ho
      have := r2 i hi o ho
      rw [trailerCornersN_eq hw hi] at this
      exact (box_clear_rect (by linarith) (by linarith) (hsides o ho).1 (hsides o ho).2).mp this
    · intro c hcm
      have := c2 i hi c hcm
      rw [trailerCornersN_eq hw hi] at this
      exact box_clear_circle (by linarith) (by linarith) (hrad c hcm) this

example (guide : QN → QN) (us : List U) :
    ∃ tr, scanStatesE (Wit.train.step guide) Wit.train.reset us = .ok tr := by
  obtain ⟨tr, h, -⟩ := ntrailer_rollout_ok Wit.train guide rfl us Wit.train.reset rfl
  have := C03_ntrailer_partial Wit.train guide rfl rfl Wit.sides (by
      refine ⟨rfl, rfl, rfl, fun i hi => ?_⟩
      have : i < 2 := hi
      interval_cases i <;> norm_num [Wit.train]) Wit.train.reset
    Wit.train_clear us tr h
  exact ⟨tr, h⟩

/-! ## C03, second part: no tunnelling -/

/-- Per-obstacle condition: either the disc cannot fit into the body, or no point of the body can
move by more than the disc's diameter in one step. -/
def Spec.NoTunnel (P : Params) (c : Circle) : Prop :=
  (P.tractorWidth / 2 ≤ c.r ∨ Spec.tractorShift P c.r ≤ 2 * c.r) ∧
  (P.trailerWidth / 2 ≤ c.r ∨ Spec.trailerShift P c.r ≤ 2 * c.r)

/-- A disc with radius at least the half width is not inside a body, unless it touches the
outline. -/
theorem not_contained_of_width {c : V2} {a hl hw : ℝ} (h1 : 5e-5 ≤ hl) (h2 : 5e-5 ≤ hw) {o : Circle}
    (hr : hw ≤ o.r) (h : ¬ rectCircle (boxCorners c a hl hw) (o.x, o.y) o.r) :
    Spec.Apart (Spec.solidRect c a hl hw) (Spec.circleRegion o) := by
  intro p hp hd
  exact h ((C05_solid_exact_partial c a h1 h2 (o.x, o.y) o.r (Or.inr (Or.inl hr))).mpr ⟨p, hp, hd⟩)

/-- C03, tractor-trailer, full solid safety: if every circular obstacle satisfies the
no-tunnelling condition, then from a geometrically safe start (bodies disjoint from all obstacles)
every state of every shielded rollout is geometrically safe.
Missing for the full property: obstacles violating the condition (`C03_tunnel_refuted`). -/
theorem C03_solid_tt2d_partial (T : TT2d) (ext : Ext Q4) (hs : T.shieldCollision = true)
    (hp : T.enableProjection = false) (hg : T.enableGuidance = false)
    (hsz : Spec.SidesOK T.toParams) (hd : DriveOK T.toParams)
    (hnt : ∀ c ∈ T.circles, Spec.NoTunnel T.toParams c) (s : St Q4)
    (h0 : Spec.SafeTT T.toParams s.q) (us : List U) :
    ∀ s' ∈ scanStates (T.step ext) s us, Spec.SafeTT T.toParams s'.q := by
  apply scanStates_forall (fun s : St Q4 => Spec.SafeTT T.toParams s.q) _ us s h0
  intro s a hsafe
  -- one step
  have hin : T.step ext s a ∈ scanStates (T.step ext) s [a] := by simp [scanStates]
  have hnc := C01_tt2d T ext hs hp hg s (safe_passes hsz hsafe) [a] _ hin
  obtain ⟨ct, cr⟩ := checkObstacle_clear hsz hnc
  have hbox := C08_tt2d T ext hp s a
  have heul : Spec.EulerTT T.toParams s.q (T.step ext s a).applied (T.step ext s a).q := by
    have := C09_tt2d T ext s [a]
    simp only [scanStates, List.isChain_cons_cons] at this
    exact this.1
  generalize T.step ext s a = s' at *
  refine ⟨fun c hc => ?_, fun o ho => ⟨ct.1 o ho, cr.1 o ho⟩⟩
  obtain ⟨n1, n2⟩ := hnt c hc
  have hr := hsz.radii c hc
  have hck := hnc
  unfold TT2d.checkObstacle at hck
  simp only at hck
  rw [tractorCorners_eq, trailerCorners_eq] at hck
  push Not at hck
  have hcc := hck.1 c hc
  have a1 := hsz.tractorLen
  have a2 := hsz.tractorWid
  have a3 := hsz.trailerLen
  have a4 := hsz.trailerWid
  constructor
  · rcases n1 with n1 | n1
    · unfold Spec.tractorBody
      rw [body_eq]
      exact not_contained_of_width (by linarith) (by linarith) n1 hcc.1
    · rcases ct.2 c hc with h | h
      · exact h
      · exfalso
        obtain ⟨x, y, h1, h2, h3, h4⟩ := body_tunnel hr (hsafe.1 c hc).1 h
        have := tractor_point_shift hd hbox (px := s.q.px) (py := s.q.py) (th := s.q.th1) h1 h2 h3
        obtain ⟨e1, e2, e3, _⟩ := heul
        rw [← e1, ← e2, ← e3] at this
        linarith
  · rcases n2 with n2 | n2
    · unfold Spec.trailerBody
      rw [body_eq]
      exact not_contained_of_width (by linarith) (by linarith) n2 hcc.2
    · rcases cr.2 c hc with h | h
      · exact h
      · exfalso
        obtain ⟨x, y, h1, h2, h3, h4⟩ := body_tunnel hr (hsafe.1 c hc).2 h
        have := trailer_point_shift hd hbox heul h1 h2 h3
        linarith

/-- C03, bicycle, full solid safety under the same kind of per-obstacle condition. -/
theorem C03_solid_bicycle_partial (T : Bicycle) (ext : Ext Q3) (hs : T.shieldCollision = true)
    (hp : T.enableProjection = false) (hg : T.enableGuidance = false)
    (hsz : Spec.SidesOK T.toParams) (hd : DriveOK T.toParams)
    (hnt : ∀ c ∈ T.circles, T.tractorWidth / 2 ≤ c.r ∨ Spec.tractorShift T.toParams c.r ≤ 2 * c.r)
    (s : St Q3) (h0 : Spec.SafeBicycle T.toParams s.q) (us : List U) :
    ∀ s' ∈ scanStates (T.step ext) s us, Spec.SafeBicycle T.toParams s'.q := by
  have a1 := hsz.tractorLen
  have a2 := hsz.tractorWid
  apply scanStates_forall (fun s : St Q3 => Spec.SafeBicycle T.toParams s.q) _ us s h0
  intro s a hsafe
  have hpass : ¬ Bicycle.checkObstacle T.toParams s.q := by
    obtain ⟨hc, hr⟩ := hsafe
    unfold Spec.tractorBody at hc hr
    rw [body_eq] at hc hr
    unfold Bicycle.checkObstacle
    simp only
    rw [tractorCorners_eq]
    push Not
    exact ⟨fun c hcm => apart_not_circle (by linarith) (by linarith) (hc c hcm), fun o ho =>
      (box_clear_rect (by linarith) (by linarith) (hsz.sides o ho).1 (hsz.sides o ho).2).mpr (hr o ho)⟩
  have hin : T.step ext s a ∈ scanStates (T.step ext) s [a] := by simp [scanStates]
  have hnc := C01_bicycle T ext hs hp hg s hpass [a] _ hin
  have ct := C03_bicycle_partial T ext hs hp hg hsz s hpass [a] _ hin
  have hbox := C08_bicycle T ext hp s a
  have heul : Spec.EulerBicycle T.toParams s.q (T.step ext s a).applied (T.step ext s a).q := by
    have := C09_bicycle T ext s [a]
    simp only [scanStates, List.isChain_cons_cons] at this
    exact this.1
  generalize T.step ext s a = s' at *
  refine ⟨fun c hc => ?_, ct.1⟩
  rcases hnt c hc with n1 | n1
  · have hck := hnc
    unfold Bicycle.checkObstacle at hck
    simp only at hck
    rw [tractorCorners_eq] at hck
    push Not at hck
    unfold Spec.tractorBody
    rw [body_eq]
    exact not_contained_of_width (by linarith) (by linarith) n1 (hck.1 c hc)
  · rcases ct.2 c hc with h | h
    · exact h
    · exfalso
      obtain ⟨x, y, h1, h2, h3, h4⟩ := body_tunnel (hsz.radii c hc) (hsafe.1 c hc) h
      have := tractor_point_shift hd hbox (px := s.q.px) (py := s.q.py) (th := s.q.th1) h1 h2 h3
      obtain ⟨e1, e2, e3⟩ := heul
      rw [← e1, ← e2, ← e3] at this
      linarith

/-- C03, train, full solid safety when no disc fits into a body (radii at least the half widths;
1.25 m for the default train). -/
theorem C03_solid_ntrailer_partial (T : NTrailer) (guide : QN → QN) (hs : T.shieldCollision = true)
    (hg : T.enableGuidance = false) (hsz : Spec.SidesOK T.toParams) (htr : Spec.TrailersOK T)
    (hwd : ∀ c ∈ T.circles, T.tractorWidth / 2 ≤ c.r ∧ T.trailerWidth / 2 ≤ c.r)
    (s : St QN) (h0 : ¬ T.checkObstacle s.q) (us : List U) (tr : List (St QN))
    (h : scanStatesE (T.step guide) s us = .ok tr) : ∀ s' ∈ tr, Spec.SafeN T s'.q := by
  intro s' hm
  have hcl := C03_ntrailer_partial T guide hs hg hsz htr s h0 us tr h s' hm
  have hnc := C01_ntrailer T guide hs hg s h0 us tr h s' hm
  have a1 := hsz.tractorLen
  have a2 := hsz.tractorWid
  have a4 := hsz.trailerWid
  have hlen : s'.q.ths.length = T.N := by
    cases us with
    | nil => simp only [scanStatesE, Except.ok.injEq] at h; subst h; simp at hm
    | cons u us =>
      have hl : s.q.ths.length = T.N := by
        rw [scanStatesE] at h
        cases h1 : T.step guide s u with
        | error e => simp [h1] at h
        | ok s1 => exact (T.step_length guide s s1 u h1).1
      exact scanStatesE_forall (fun s : St QN => s.q.ths.length = T.N)
        (fun s a s' _ hst => T.step_length' guide s s' a hst) (u :: us) s tr hl h s' hm
  have hw : Spec.WellSized T s'.q := ⟨hlen, htr.1, htr.2.1, htr.2.2.1⟩
  unfold NTrailer.checkObstacle at hnc
  simp only at hnc
  rw [tractorCorners_eq] at hnc
  unfold NTrailer.allTrailerCorners at hnc
  simp only [List.mem_map, List.mem_range, exists_exists_and_eq_and] at hnc
  push Not at hnc
  obtain ⟨⟨c1, c2⟩, -⟩ := hnc
  refine ⟨fun c hc => ⟨?_, fun i hi => ?_⟩, fun o ho => ⟨hcl.1.1 o ho, fun i hi => (hcl.2 i hi).1 o ho⟩⟩
  · unfold Spec.tractorBody
    rw [body_eq]
    exact not_contained_of_width (by linarith) (by linarith) (hwd c hc).1 (c1 c hc)
  · have hi' := htr.2.2.2 i hi
    have := c2 i hi c hc
    rw [trailerCornersN_eq hw hi] at this
    unfold Spec.trailerBodyN
    rw [body_eq]
    exact not_contained_of_width (by linarith) (by linarith) (hwd c hc).2 this

theorem tan_55_le : tan (55 * π / 180) ≤ √3 := by
  have hp := pi_pos
  rw [← tan_pi_div_three]
  exact (tan_lt_tan_of_lt_of_lt_pi_div_two (by linarith) (by linarith) (by linarith)).le

/-- The default vehicle satisfies the no-tunnelling condition for every disc of radius at least 1
(the default parking obstacle radius is 1). -/
theorem default_noTunnel (cs : List Circle) (rs : List Rect) (c : Circle) (hc : 1 ≤ c.r) :
    Spec.NoTunnel (Params.default cs rs) c := by
  constructor
  · left; norm_num [Params.default]; exact hc
  · right
    have h3 : √3 ≤ 1.7321 := by
      rw [sqrt_le_left (by norm_num)]; norm_num
    have ht := tan_55_le.trans h3
    have ht0 : 0 ≤ tan (55 * π / 180) := by
      have hp := pi_pos
      exact tan_nonneg_of_nonneg_of_le_pi_div_two (by positivity) (by linarith)
    unfold Spec.trailerShift
    simp only [Params.default]
    set t := tan (55 * π / 180) with htd
    set κ := √(1 + (1.15 * t / 3.23) ^ 2) with hκ
    have k1 : κ ≤ 1.176 := by
      rw [hκ, sqrt_le_left (by norm_num)]
      have : 1.15 * t / 3.23 ≤ 0.617 := by
        rw [div_le_iff₀ (by norm_num)]; linarith
      have h0 : 0 ≤ 1.15 * t / 3.23 := by positivity
      nlinarith
    have k0 : 0 ≤ κ := sqrt_nonneg _
    have e1 : 3 * 0.2 * t / 3.23 ≤ 0.3218 := by
      rw [div_le_iff₀ (by norm_num)]; linarith
    have e10 : 0 ≤ 3 * 0.2 * t / 3.23 := by positivity
    have e2 : 3 * 0.2 * κ / 2.9 ≤ 0.2434 := by
      rw [div_le_iff₀ (by norm_num)]; linarith
    have e20 : 0 ≤ 3 * 0.2 * κ / 2.9 := by positivity
    have c1 := cube_mono e10 e1
    have c2 := cube_mono e20 e2
    have m : max (3.225 : ℝ) 1.42 = 3.225 := max_eq_left (by norm_num)
    rw [m]
    have m1 : (3.225 + 2.5 / 2 - 2 * c.r) * (3 * 0.2 * κ / 2.9) ≤ 2.475 * 0.2434 := by
      calc (3.225 + 2.5 / 2 - 2 * c.r) * (3 * 0.2 * κ / 2.9)
          ≤ 2.475 * (3 * 0.2 * κ / 2.9) := mul_le_mul_of_nonneg_right (by linarith) e20
        _ ≤ 2.475 * 0.2434 := by linarith
    have c3 : (1.15 : ℝ) * ((3 * 0.2 * t / 3.23) ^ 2 / 2 + (3 * 0.2 * t / 3.23) ^ 3 / 6)
        ≤ 1.15 * (0.3218 ^ 2 / 2 + 0.3218 ^ 3 / 6) := by linarith
    have c4 : (2.9 : ℝ) * ((3 * 0.2 * κ / 2.9) ^ 2 / 2 + (3 * 0.2 * κ / 2.9) ^ 3 / 6)
        ≤ 2.9 * (0.2434 ^ 2 / 2 + 0.2434 ^ 3 / 6) := by linarith
    have : (1.15 : ℝ) * (0.3218 ^ 2 / 2 + 0.3218 ^ 3 / 6) + 2.9 * (0.2434 ^ 2 / 2 + 0.2434 ^ 3 / 6)
        + 2.475 * 0.2434 + 0.6 * 1.176 ≤ 2 := by norm_num
    linarith

theorem default_driveOK (cs : List Circle) (rs : List Rect) : DriveOK (Params.default cs rs) := by
  constructor <;> norm_num [Params.default]

theorem default_sidesOK (cs : List Circle) (rs : List Rect) (h1 : ∀ c ∈ cs, 0 ≤ c.r)
    (h2 : ∀ o ∈ rs, 0 < o.w ∧ 0 < o.h) : Spec.SidesOK (Params.default cs rs) := by
  constructor
  · norm_num [Params.default]
  · norm_num [Params.default]
  · norm_num [Params.default]
  · norm_num [Params.default]
  · exact h1
  · exact h2

/-- The hypotheses of the three solid theorems are met by the default robots of `Wit` (the train
with the pole widened to 2 m). -/
example := fun ext us => C03_solid_bicycle_partial Wit.bike ext rfl rfl rfl Wit.sides
  (default_driveOK _ _) (fun c hc => Or.inl (by
    simp only [Wit.bike, Wit.params, Params.default, List.mem_singleton] at hc
    subst hc; norm_num [Wit.bike, Wit.params, Params.default]))
  Wit.bike.reset ⟨fun c hc => (Wit.safe.1 c hc).1, fun o ho => (Wit.safe.2 o ho).1⟩ us

example : Spec.TrailersOK Wit.train := by
  refine ⟨rfl, rfl, rfl, fun i hi => ?_⟩
  have : i < 2 := hi
  interval_cases i <;> norm_num [Wit.train]

example (ext : Ext Q4) (us : List U) :
    ∀ s' ∈ scanStates (Wit.tt.step ext) Wit.tt.reset us, Spec.SafeTT Wit.tt.toParams s'.q :=
  C03_solid_tt2d_partial Wit.tt ext rfl rfl rfl Wit.sides (default_driveOK _ _)
    (fun c hc => default_noTunnel _ _ c (by
      simp only [Wit.tt, Wit.params, Params.default, List.mem_singleton] at hc
      subst hc; norm_num)) Wit.tt.reset Wit.safe us

/-- C03 at full strength for the default vehicle, time step and speed, and circular obstacles of
radius at least 1: from a geometrically safe start no body ever touches an obstacle, for any action
sequence of any length. -/
theorem C03_solid_default_partial (T : TT2d) (ext : Ext Q4) (cs : List Circle) (rs : List Rect)
    (hT : T.toParams = Params.default cs rs) (h1 : ∀ c ∈ cs, 1 ≤ c.r)
    (h2 : ∀ o ∈ rs, 0 < o.w ∧ 0 < o.h) (s : St Q4) (h0 : Spec.SafeTT T.toParams s.q)
    (us : List U) :
    ∀ s' ∈ scanStates (T.step ext) s us, Spec.SafeTT T.toParams s'.q := by
  apply C03_solid_tt2d_partial T ext
  · rw [hT]; rfl
  · rw [hT]; rfl
  · rw [hT]; rfl
  · rw [hT]; exact default_sidesOK cs rs (fun c hc => by linarith [h1 c hc]) h2
  · rw [hT]; exact default_driveOK cs rs
  · rw [hT]; intro c hc; exact default_noTunnel cs rs c (h1 c hc)
  · exact h0

/-- A geometrically safe start for the default vehicle: one disc of radius 1 far ahead. -/
example : Spec.SafeTT (Params.default [⟨20, 0, 1⟩] []) ⟨0, 0, 0, 0⟩ := by
  have key : ∀ a rear front width : ℝ, a + front < 19 →
      Spec.Apart (Spec.body (a, 0) 0 rear front width) (Spec.circleRegion ⟨20, 0, 1⟩) := by
    rintro a rear front width h p ⟨s, t, h1, h2, h3, rfl⟩ hd
    have hd' : (a + s - 20) ^ 2 + t ^ 2 ≤ 1 := by
      simpa [Spec.circleRegion, Spec.disc, Spec.frame] using hd
    nlinarith [sq_nonneg t]
  refine ⟨?_, by simp [Params.default]⟩
  intro c hc
  simp only [Params.default, List.mem_singleton] at hc
  subst hc
  constructor
  · exact key _ _ _ _ (by norm_num [Params.default])
  · unfold Spec.trailerBody
    have : Spec.trailerAxle (Params.default [⟨20, 0, 1⟩] []) ⟨0, 0, 0, 0⟩ = (-4.05, 0) := by
      unfold Spec.trailerAxle Spec.frame
      simp [Params.default]; norm_num
    rw [this]
    exact key _ _ _ _ (by norm_num [Params.default])

/-! ## C03 is false as stated -/

/-- The default tractor-trailer with a thin pole (radius 5 cm) 30 cm ahead of its front face. -/
noncomputable def tunnelTT : TT2d :=
  { toParams := Params.default [⟨4.43, 0, 0.05⟩] [], x0 := ⟨0, 0, 0, 0⟩, xg := ⟨9, 0, 0, 0⟩ }

theorem tunnelTT_start_safe : Spec.SafeTT tunnelTT.toParams tunnelTT.reset.q := by
  have key : ∀ a rear front width : ℝ, a + front < 4.38 →
      Spec.Apart (Spec.body (a, 0) 0 rear front width) (Spec.circleRegion ⟨4.43, 0, 0.05⟩) := by
    rintro a rear front width h p ⟨s, t, h1, h2, h3, rfl⟩ hd
    have hd' : (a + s - 4.43) ^ 2 + t ^ 2 ≤ 0.05 ^ 2 := by
      simpa [Spec.circleRegion, Spec.disc, Spec.frame] using hd
    nlinarith [sq_nonneg t]
  refine ⟨?_, by simp [tunnelTT, Params.default]⟩
  intro c hc
  simp only [tunnelTT, Params.default, List.mem_singleton] at hc
  subst hc
  constructor
  · exact key _ _ _ _ (by norm_num [tunnelTT, TT2d.reset, Params.default])
  · unfold Spec.trailerBody
    have : Spec.trailerAxle tunnelTT.toParams tunnelTT.reset.q = (-4.05, 0) := by
      unfold Spec.trailerAxle Spec.frame
      simp [tunnelTT, TT2d.reset, Params.default]; norm_num
    rw [this]
    exact key _ _ _ _ (by norm_num [tunnelTT, Params.default])

/-- The pole is inside the tractor after one full-speed step and is not reported. -/
theorem tunnel_state_not_flagged :
    ¬ TT2d.checkObstacle tunnelTT.toParams ⟨0.6, 0, 0, 0⟩ := by
  unfold TT2d.checkObstacle
  simp only [tunnelTT, Params.default, List.mem_singleton, exists_eq_left, List.not_mem_nil,
    false_and, exists_false, or_false]
  have out : ∀ a hl hw : ℝ, 5e-5 ≤ hl → 5e-5 ≤ hw →
      (∀ s t, |s| ≤ hl → |t| ≤ hw → (|s| = hl ∨ |t| = hw) → 0.05 ^ 2 < (a + s - 4.43) ^ 2 + t ^ 2) →
      ¬ rectCircle (boxCorners (a, 0) 0 hl hw) (4.43, 0) 0.05 := by
    intro a hl hw h1 h2 h
    rw [rectCircle_iff_outline _ _ h1 h2]
    rintro ⟨p, ⟨s, t, hs, ht, he, rfl⟩, hd⟩
    have hd' : (a + s - 4.43) ^ 2 + t ^ 2 ≤ 0.05 ^ 2 := by
      simpa [Spec.disc, Spec.frame] using hd
    linarith [h s t hs ht he]
  rw [not_or]
  constructor
  · rw [tractorCorners_eq]
    have e : bodyCenter (0.6, 0) 0 1.848 (3.23 + 0.9) = (1.741, 0) := by
      unfold bodyCenter; simp; norm_num
    simp only [e]
    apply out _ _ _ (by norm_num) (by norm_num)
    intro s t hs ht he
    rcases he with he | he
    · rcases abs_cases s with ⟨e, _⟩ | ⟨e, _⟩
      · have : s = (3.23 + 0.9 + 1.848) / 2 := by linarith
        subst this; nlinarith [sq_nonneg t]
      · have : s = -((3.23 + 0.9 + 1.848) / 2) := by linarith
        subst this; nlinarith [sq_nonneg t]
    · have : t ^ 2 = (2 / 2) ^ 2 := by rw [← sq_abs, he]
      nlinarith [sq_nonneg (1.741 + s - 4.43)]
  · rw [trailerCorners_eq]
    have e : Spec.trailerAxle
        { Params.default [⟨4.43, 0, 0.05⟩] [] with circles := [⟨4.43, 0, 0.05⟩] }
        ⟨0.6, 0, 0, 0⟩ = (-3.45, 0) := by
      unfold Spec.trailerAxle Spec.frame; simp [Params.default]; norm_num
    simp only [Params.default] at e
    rw [e]
    have e2 : bodyCenter (-3.45, 0) 0 3.225 1.42 = (-4.3525, 0) := by
      unfold bodyCenter; simp; norm_num
    simp only [e2]
    apply out _ _ _ (by norm_num) (by norm_num)
    intro s t hs ht he
    obtain ⟨s1, s2⟩ := abs_le.mp hs
    nlinarith [sq_nonneg t]

/-- The step drives straight ahead by 0.6 m. -/
theorem tunnel_step (ext : Ext Q4) :
    (tunnelTT.step ext tunnelTT.reset (1, 0)).q = ⟨0.6, 0, 0, 0⟩ := by
  have hprop : tunnelTT.proposal tunnelTT.reset (1, 0) = ⟨0.6, 0, 0, 0⟩ := by
    unfold TT2d.proposal TT2d.euler Q4.axpy TT2d.dynamics Params.inputScaler
    have hc : clipU (1, 0) = (1, 0) := by
      unfold clipU
      rw [clip_of_mem (by norm_num) (by norm_num), clip_of_mem (by norm_num) (by norm_num)]
    simp only [TT2d.reset, effAction_false, hc]
    ext <;> simp [tunnelTT, Params.default]
    norm_num
  have hh : ¬ TT2d.checkHitch tunnelTT.toParams ⟨0.6, 0, 0, 0⟩ := by
    unfold TT2d.checkHitch
    simp only [sub_self, wrapPi_zero, abs_zero, gt_iff_lt, not_lt]
    unfold Params.phiMax deg2rad
    have := pi_pos
    positivity
  rw [TT2d.step_q _ ext rfl rfl, hprop, if_neg]
  unfold TT2d.rejects
  have := tunnel_state_not_flagged
  tauto

/-- C03 is false as stated: with both shields on and a geometrically safe start, one full-speed
step drives over a thin pole, which ends up inside the tractor body. -/
theorem C03_tunnel_refuted :
    ¬ (∀ (T : TT2d) (ext : Ext Q4) (us : List U), T.shieldCollision = true → T.shieldHitch = true →
      T.enableProjection = false → T.enableGuidance = false → Spec.SidesOK T.toParams →
      Spec.SafeTT T.toParams T.reset.q →
      ∀ s' ∈ scanStates (T.step ext) T.reset us, Spec.SafeTT T.toParams s'.q) := by
  intro h
  let ext : Ext Q4 := ⟨fun _ u => u, id⟩
  have hin : tunnelTT.step ext tunnelTT.reset (1, 0) ∈
      scanStates (tunnelTT.step ext) tunnelTT.reset [(1, 0)] := by simp [scanStates]
  have := h tunnelTT ext [(1, 0)] rfl rfl rfl rfl
    (default_sidesOK _ _ (by simp; norm_num) (by simp)) tunnelTT_start_safe _ hin
  rw [tunnel_step] at this
  have := (this.1 ⟨4.43, 0, 0.05⟩ (by simp [tunnelTT, Params.default])).1
  refine this (4.43, 0) ⟨3.83, 0, ?_, ?_, ?_, ?_⟩ ?_
  · norm_num [tunnelTT, Params.default]
  · norm_num [tunnelTT, Params.default]
  · norm_num [tunnelTT, Params.default]
  · unfold Spec.frame; simp; norm_num
  · show ((4.43 : ℝ) - 4.43) ^ 2 + (0 - 0) ^ 2 ≤ 0.05 ^ 2
    norm_num

end Mbd
