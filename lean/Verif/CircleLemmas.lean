import Verif.GeomLemmas

/-! # Rectangle-circle distance lemmas -/

namespace Mbd

open Real

/-- The value computed for an edge is the squared distance to some point of that edge. -/
theorem edgeDistSq_attained (s e c : V2) : ∃ t : ℝ, 0 ≤ t ∧ t ≤ 1 ∧
    edgeDistSq s e c = (c.1 - (s.1 + t * (e.1 - s.1))) ^ 2 + (c.2 - (s.2 + t * (e.2 - s.2))) ^ 2 :=
  ⟨_, le_clip zero_le_one, clip_le _ _ _, rfl⟩

/-- For edges of length at least `1e-4` it is the smallest one. -/
theorem edgeDistSq_le (s e c : V2) (hlen : 1e-8 ≤ (e.1 - s.1) ^ 2 + (e.2 - s.2) ^ 2) {t : ℝ}
    (h0 : 0 ≤ t) (h1 : t ≤ 1) :
    edgeDistSq s e c ≤
      (c.1 - (s.1 + t * (e.1 - s.1))) ^ 2 + (c.2 - (s.2 + t * (e.2 - s.2))) ^ 2 := by
  unfold edgeDistSq
  simp only
  rw [if_neg (not_lt.mpr hlen)]
  set a := e.1 - s.1
  set b := e.2 - s.2
  set x := c.1 - s.1 with hx
  set y := c.2 - s.2 with hy
  set L := a ^ 2 + b ^ 2 with hL
  have hLpos : 0 < L := lt_of_lt_of_le (by norm_num) hlen
  set p := (x * a + y * b) / L with hp
  have hpL : x * a + y * b = p * L := by rw [hp]; field_simp
  set q := clip p 0 1 with hq
  have expand : ∀ τ : ℝ, (c.1 - (s.1 + τ * a)) ^ 2 + (c.2 - (s.2 + τ * b)) ^ 2
      = x ^ 2 + y ^ 2 + L * ((τ - p) ^ 2 - p ^ 2) := by
    intro τ
    have : (c.1 - (s.1 + τ * a)) ^ 2 + (c.2 - (s.2 + τ * b)) ^ 2
        = x ^ 2 + y ^ 2 - 2 * τ * (x * a + y * b) + τ ^ 2 * L := by
      rw [hx, hy, hL]; ring
    rw [this, hpL]; ring
  rw [expand, expand]
  have key : (q - p) ^ 2 ≤ (t - p) ^ 2 := by
    rcases le_total p 0 with h | h
    · have : q = 0 := by rw [hq]; unfold clip; rw [max_eq_right h, min_eq_left zero_le_one]
      rw [this]; nlinarith
    · rcases le_total p 1 with h' | h'
      · have : q = p := clip_of_mem h h'
        rw [this]; nlinarith [sq_nonneg (t - p)]
      · have : q = 1 := by rw [hq]; unfold clip; rw [max_eq_left h, min_eq_right h']
        rw [this]; nlinarith
  have := mul_le_mul_of_nonneg_left key hLpos.le
  linarith

theorem frame_edge_sq (c : V2) (ang s t s' t' : ℝ) :
    ((Spec.frame c ang s' t').1 - (Spec.frame c ang s t).1) ^ 2
      + ((Spec.frame c ang s' t').2 - (Spec.frame c ang s t).2) ^ 2
    = (s' - s) ^ 2 + (t' - t) ^ 2 := by
  unfold Spec.frame; simp only
  have := cos_sq_add_sin_sq ang
  have e1 : (s' - s) ^ 2 + (t' - t) ^ 2
      = ((s' - s) ^ 2 + (t' - t) ^ 2) * (cos ang ^ 2 + sin ang ^ 2) := by rw [this, mul_one]
  rw [e1]; ring

theorem placePoint_eq_frame (c : V2) (ang s t : ℝ) :
    placePoint c ang (s, t) = Spec.frame c ang s t := by
  unfold placePoint Spec.frame; simp only
  ext <;> simp only <;> ring

/-- Every point of the plane has coordinates in every frame. -/
theorem exists_frame (c : V2) (ang : ℝ) (p : V2) : ∃ s t, p = Spec.frame c ang s t := by
  refine ⟨(p.1 - c.1) * cos ang + (p.2 - c.2) * sin ang,
    -(p.1 - c.1) * sin ang + (p.2 - c.2) * cos ang, ?_⟩
  have h := cos_sq_add_sin_sq ang
  unfold Spec.frame
  ext <;> simp only
  · linear_combination (c.1 - p.1) * h
  · linear_combination (c.2 - p.2) * h

theorem frame_inj {c : V2} {ang s t s' t' : ℝ}
    (h : Spec.frame c ang s t = Spec.frame c ang s' t') : s = s' ∧ t = t' := by
  have e := frame_edge_sq c ang s t s' t'
  rw [h] at e
  simp only [sub_self] at e
  have h1 : (s' - s) ^ 2 = 0 := by nlinarith [sq_nonneg (s' - s), sq_nonneg (t' - t)]
  have h2 : (t' - t) ^ 2 = 0 := by nlinarith [sq_nonneg (s' - s), sq_nonneg (t' - t)]
  constructor
  · linarith [pow_eq_zero_iff (two_ne_zero) |>.mp h1]
  · linarith [pow_eq_zero_iff (two_ne_zero) |>.mp h2]

/-- Segments between frame points are affine in the coordinates. -/
theorem frame_segment (c : V2) (ang s t s' t' τ : ℝ) :
    ((Spec.frame c ang s t).1 + τ * ((Spec.frame c ang s' t').1 - (Spec.frame c ang s t).1),
     (Spec.frame c ang s t).2 + τ * ((Spec.frame c ang s' t').2 - (Spec.frame c ang s t).2))
    = Spec.frame c ang (s + τ * (s' - s)) (t + τ * (t' - t)) := by
  unfold Spec.frame
  ext <;> simp only <;> ring

theorem edge_attained_frame (c : V2) (ang s t s' t' : ℝ) (p : V2) : ∃ τ : ℝ, 0 ≤ τ ∧ τ ≤ 1 ∧
    edgeDistSq (Spec.frame c ang s t) (Spec.frame c ang s' t') p
      = (p.1 - (Spec.frame c ang (s + τ * (s' - s)) (t + τ * (t' - t))).1) ^ 2
        + (p.2 - (Spec.frame c ang (s + τ * (s' - s)) (t + τ * (t' - t))).2) ^ 2 := by
  obtain ⟨τ, h0, h1, h⟩ := edgeDistSq_attained (Spec.frame c ang s t) (Spec.frame c ang s' t') p
  refine ⟨τ, h0, h1, ?_⟩
  rw [h, ← frame_segment]

theorem edge_le_frame (c : V2) (ang s t s' t' : ℝ) (p : V2)
    (hlen : 1e-8 ≤ (s' - s) ^ 2 + (t' - t) ^ 2) {τ : ℝ} (h0 : 0 ≤ τ) (h1 : τ ≤ 1) :
    edgeDistSq (Spec.frame c ang s t) (Spec.frame c ang s' t') p ≤
      (p.1 - (Spec.frame c ang (s + τ * (s' - s)) (t + τ * (t' - t))).1) ^ 2
        + (p.2 - (Spec.frame c ang (s + τ * (s' - s)) (t + τ * (t' - t))).2) ^ 2 := by
  have := edgeDistSq_le (Spec.frame c ang s t) (Spec.frame c ang s' t') p
    (by rw [frame_edge_sq]; exact hlen) h0 h1
  rwa [← frame_segment]

theorem rectCircle_iff_le (k : Corners) (c : V2) (r : ℝ) :
    rectCircle k c r ↔ edgeDistSq k.c0 k.c1 c ≤ r ^ 2 ∨ edgeDistSq k.c1 k.c2 c ≤ r ^ 2 ∨
      edgeDistSq k.c2 k.c3 c ≤ r ^ 2 ∨ edgeDistSq k.c3 k.c0 c ≤ r ^ 2 := by
  unfold rectCircle
  rw [min_le_iff, min_le_iff, min_le_iff]
  tauto

/-- A reported collision is a real contact of the disc with the outline (sizes `≥ 0`). -/
theorem rectCircle_sound (c : V2) (ang : ℝ) {hl hw : ℝ} (h1 : 0 ≤ hl) (h2 : 0 ≤ hw) (o : V2)
    (r : ℝ) (h : rectCircle (boxCorners c ang hl hw) o r) :
    ∃ p, p ∈ Spec.outline c ang hl hw ∧ p ∈ Spec.disc o r := by
  rw [rectCircle_iff_le] at h
  simp only [boxCorners, placePoint_eq_frame] at h
  have disc_of : ∀ p : V2, (o.1 - p.1) ^ 2 + (o.2 - p.2) ^ 2 ≤ r ^ 2 → p ∈ Spec.disc o r := by
    intro p hp
    have : (p.1 - o.1) ^ 2 + (p.2 - o.2) ^ 2 = (o.1 - p.1) ^ 2 + (o.2 - p.2) ^ 2 := by ring
    exact (this ▸ hp : (p.1 - o.1) ^ 2 + (p.2 - o.2) ^ 2 ≤ r ^ 2)
  rcases h with h | h | h | h
  all_goals
    first
    | obtain ⟨τ, t0, t1, e⟩ := edge_attained_frame c ang (-hl) (-hw) (-hl) hw o
      rw [e] at h
      refine ⟨_, ⟨_, _, ?_, ?_, ?_, rfl⟩, disc_of _ h⟩
      · rw [sub_self, mul_zero, add_zero, abs_neg, abs_of_nonneg h1]
      · rw [abs_le]; constructor <;> nlinarith
      · left; rw [sub_self, mul_zero, add_zero, abs_neg, abs_of_nonneg h1]
    | obtain ⟨τ, t0, t1, e⟩ := edge_attained_frame c ang (-hl) hw hl hw o
      rw [e] at h
      refine ⟨_, ⟨_, _, ?_, ?_, ?_, rfl⟩, disc_of _ h⟩
      · rw [abs_le]; constructor <;> nlinarith
      · rw [sub_self, mul_zero, add_zero, abs_of_nonneg h2]
      · right; rw [sub_self, mul_zero, add_zero, abs_of_nonneg h2]
    | obtain ⟨τ, t0, t1, e⟩ := edge_attained_frame c ang hl hw hl (-hw) o
      rw [e] at h
      refine ⟨_, ⟨_, _, ?_, ?_, ?_, rfl⟩, disc_of _ h⟩
      · rw [sub_self, mul_zero, add_zero, abs_of_nonneg h1]
      · rw [abs_le]; constructor <;> nlinarith
      · left; rw [sub_self, mul_zero, add_zero, abs_of_nonneg h1]
    | obtain ⟨τ, t0, t1, e⟩ := edge_attained_frame c ang hl (-hw) (-hl) (-hw) o
      rw [e] at h
      refine ⟨_, ⟨_, _, ?_, ?_, ?_, rfl⟩, disc_of _ h⟩
      · rw [abs_le]; constructor <;> nlinarith
      · rw [sub_self, mul_zero, add_zero, abs_neg, abs_of_nonneg h2]
      · right; rw [sub_self, mul_zero, add_zero, abs_neg, abs_of_nonneg h2]

/-- Exact characterisation: the check tests the disc against the *outline* (sides `≥ 1e-4`). -/
theorem rectCircle_iff_outline (c : V2) (ang : ℝ) {hl hw : ℝ} (h1 : 5e-5 ≤ hl) (h2 : 5e-5 ≤ hw)
    (o : V2) (r : ℝ) :
    rectCircle (boxCorners c ang hl hw) o r ↔
      ∃ p, p ∈ Spec.outline c ang hl hw ∧ p ∈ Spec.disc o r := by
  have p1 : 0 < hl := lt_of_lt_of_le (by norm_num) h1
  have p2 : 0 < hw := lt_of_lt_of_le (by norm_num) h2
  refine ⟨rectCircle_sound c ang p1.le p2.le o r, ?_⟩
  rintro ⟨p, ⟨s, t, hs, ht, hedge, rfl⟩, hd⟩
  rw [rectCircle_iff_le]
  simp only [boxCorners, placePoint_eq_frame]
  have hd' : (o.1 - (Spec.frame c ang s t).1) ^ 2 + (o.2 - (Spec.frame c ang s t).2) ^ 2 ≤ r ^ 2 := by
    have hd2 : ((Spec.frame c ang s t).1 - o.1) ^ 2 + ((Spec.frame c ang s t).2 - o.2) ^ 2 ≤ r ^ 2 :=
      hd
    have e : ∀ x y : ℝ, (x - y) ^ 2 = (y - x) ^ 2 := fun x y => by ring
    rw [e, e o.2]; exact hd2
  have hw2 : 1e-8 ≤ (hw + hw) ^ 2 := by nlinarith
  have hl2 : 1e-8 ≤ (hl + hl) ^ 2 := by nlinarith
  obtain ⟨s1, s2⟩ := abs_le.mp hs
  obtain ⟨t1, t2⟩ := abs_le.mp ht
  rcases hedge with he | he
  · rcases abs_cases s with ⟨ha, _⟩ | ⟨ha, _⟩
    · -- s = hl
      have hs' : s = hl := by linarith
      right; right; left
      have := edge_le_frame c ang hl hw hl (-hw) o (by nlinarith)
        (τ := (hw - t) / (2 * hw)) (by apply div_nonneg <;> linarith)
        (by rw [div_le_one (by linarith)]; linarith)
      rw [show hw + (hw - t) / (2 * hw) * (-hw - hw) = t by field_simp; ring,
        show hl + (hw - t) / (2 * hw) * (hl - hl) = s by rw [hs']; ring] at this
      exact this.trans hd'
    · have hs' : s = -hl := by linarith
      left
      have := edge_le_frame c ang (-hl) (-hw) (-hl) hw o (by nlinarith)
        (τ := (hw + t) / (2 * hw)) (by apply div_nonneg <;> linarith)
        (by rw [div_le_one (by linarith)]; linarith)
      rw [show -hw + (hw + t) / (2 * hw) * (hw - -hw) = t by field_simp; ring,
        show -hl + (hw + t) / (2 * hw) * (-hl - -hl) = s by rw [hs']; ring] at this
      exact this.trans hd'
  · rcases abs_cases t with ⟨ha, _⟩ | ⟨ha, _⟩
    · have ht' : t = hw := by linarith
      right; left
      have := edge_le_frame c ang (-hl) hw hl hw o (by nlinarith)
        (τ := (hl + s) / (2 * hl)) (by apply div_nonneg <;> linarith)
        (by rw [div_le_one (by linarith)]; linarith)
      rw [show -hl + (hl + s) / (2 * hl) * (hl - -hl) = s by field_simp; ring,
        show hw + (hl + s) / (2 * hl) * (hw - hw) = t by rw [ht']; ring] at this
      exact this.trans hd'
    · have ht' : t = -hw := by linarith
      right; right; right
      have := edge_le_frame c ang hl (-hw) (-hl) (-hw) o (by nlinarith)
        (τ := (hl - s) / (2 * hl)) (by apply div_nonneg <;> linarith)
        (by rw [div_le_one (by linarith)]; linarith)
      rw [show hl + (hl - s) / (2 * hl) * (-hl - hl) = s by field_simp; ring,
        show -hw + (hl - s) / (2 * hl) * (-hw - -hw) = t by rw [ht']; ring] at this
      exact this.trans hd'

theorem outline_subset_solid {c : V2} {ang hl hw : ℝ} {p : V2}
    (h : p ∈ Spec.outline c ang hl hw) : p ∈ Spec.solidRect c ang hl hw := by
  obtain ⟨s, t, hs, ht, _, e⟩ := h
  exact ⟨s, t, hs, ht, e⟩

theorem sq_sub_clip_le {a s h : ℝ} (hh : 0 ≤ h) (hs : |s| ≤ h) :
    (clip a (-h) h - a) ^ 2 ≤ (s - a) ^ 2 := by
  obtain ⟨s1, s2⟩ := abs_le.mp hs
  rcases le_total a (-h) with k | k
  · have : clip a (-h) h = -h := by unfold clip; rw [max_eq_right k, min_eq_left (by linarith)]
    rw [this]; nlinarith
  · rcases le_total a h with k' | k'
    · rw [clip_of_mem k k']; nlinarith [sq_nonneg (s - a)]
    · have : clip a (-h) h = h := by unfold clip; rw [max_eq_left k, min_eq_right k']
      rw [this]; nlinarith

theorem frame_disc_iff (c : V2) (ang a b s t r : ℝ) :
    Spec.frame c ang s t ∈ Spec.disc (Spec.frame c ang a b) r ↔
      (s - a) ^ 2 + (t - b) ^ 2 ≤ r ^ 2 := by
  unfold Spec.disc
  rw [Set.mem_ofPred_eq, frame_edge_sq]

/-- A disc whose centre is not in the interior of the rectangle meets the solid rectangle only if
it meets the outline. -/
theorem outline_of_solid_outside {c : V2} {ang hl hw : ℝ} (h1 : 0 ≤ hl) (h2 : 0 ≤ hw) {a b : ℝ}
    (hout : hl ≤ |a| ∨ hw ≤ |b|) {r : ℝ}
    (h : ∃ p, p ∈ Spec.solidRect c ang hl hw ∧ p ∈ Spec.disc (Spec.frame c ang a b) r) :
    ∃ p, p ∈ Spec.outline c ang hl hw ∧ p ∈ Spec.disc (Spec.frame c ang a b) r := by
  obtain ⟨p, ⟨s, t, hs, ht, rfl⟩, hd⟩ := h
  rw [frame_disc_iff] at hd
  have ca : |clip a (-hl) hl| ≤ hl := abs_le.mpr ⟨le_clip (by linarith), clip_le _ _ _⟩
  have cb : |clip b (-hw) hw| ≤ hw := abs_le.mpr ⟨le_clip (by linarith), clip_le _ _ _⟩
  have sat : ∀ x h : ℝ, 0 ≤ h → h ≤ |x| → |clip x (-h) h| = h := by
    intro x h hh hx
    rcases abs_cases x with ⟨e, _⟩ | ⟨e, _⟩
    · have : clip x (-h) h = h := by
        unfold clip; rw [max_eq_left (by linarith), min_eq_right (by linarith)]
      rw [this, abs_of_nonneg hh]
    · have : clip x (-h) h = -h := by
        unfold clip; rw [max_eq_right (by linarith), min_eq_left (by linarith)]
      rw [this, abs_neg, abs_of_nonneg hh]
  refine ⟨_, ⟨clip a (-hl) hl, clip b (-hw) hw, ca, cb, ?_, rfl⟩, ?_⟩
  · exact hout.imp (sat a hl h1) (sat b hw h2)
  · rw [frame_disc_iff]
    have := sq_sub_clip_le (a := a) h1 hs
    have := sq_sub_clip_le (a := b) h2 ht
    linarith

/-- A disc with centre inside and radius at least one half extent meets the outline. -/
theorem outline_of_big_radius {c : V2} {ang hl hw : ℝ} {a b : ℝ} (ha : |a| ≤ hl) (hb : |b| ≤ hw)
    {r : ℝ} (hr : hl ≤ r ∨ hw ≤ r) :
    ∃ p, p ∈ Spec.outline c ang hl hw ∧ p ∈ Spec.disc (Spec.frame c ang a b) r := by
  have h1 : 0 ≤ hl := (abs_nonneg a).trans ha
  have h2 : 0 ≤ hw := (abs_nonneg b).trans hb
  obtain ⟨a1, a2⟩ := abs_le.mp ha
  obtain ⟨b1, b2⟩ := abs_le.mp hb
  rcases hr with hr | hr
  · rcases le_total 0 a with h | h
    · refine ⟨_, ⟨hl, b, by rw [abs_of_nonneg h1], hb, Or.inl (abs_of_nonneg h1), rfl⟩, ?_⟩
      rw [frame_disc_iff]; nlinarith
    · refine ⟨_, ⟨-hl, b, by rw [abs_neg, abs_of_nonneg h1], hb,
        Or.inl (by rw [abs_neg, abs_of_nonneg h1]), rfl⟩, ?_⟩
      rw [frame_disc_iff]; nlinarith
  · rcases le_total 0 b with h | h
    · refine ⟨_, ⟨a, hw, ha, by rw [abs_of_nonneg h2], Or.inr (abs_of_nonneg h2), rfl⟩, ?_⟩
      rw [frame_disc_iff]; nlinarith
    · refine ⟨_, ⟨a, -hw, ha, by rw [abs_neg, abs_of_nonneg h2],
        Or.inr (by rw [abs_neg, abs_of_nonneg h2]), rfl⟩, ?_⟩
      rw [frame_disc_iff]; nlinarith

/-- If the disc meets the solid rectangle but not its outline, the disc is contained in it. -/
theorem contained_of_not_outline {c : V2} {ang hl hw : ℝ} (h1 : 0 ≤ hl) (h2 : 0 ≤ hw) {o : V2}
    {r : ℝ} (hr : 0 ≤ r)
    (hsol : ∃ p, p ∈ Spec.solidRect c ang hl hw ∧ p ∈ Spec.disc o r)
    (hno : ¬ ∃ p, p ∈ Spec.outline c ang hl hw ∧ p ∈ Spec.disc o r) :
    ∀ p, p ∈ Spec.disc o r → p ∈ Spec.solidRect c ang hl hw := by
  obtain ⟨a, b, rfl⟩ := exists_frame c ang o
  have hin : |a| < hl ∧ |b| < hw := by
    by_contra hcon
    rw [not_and_or, not_lt, not_lt] at hcon
    exact hno (outline_of_solid_outside h1 h2 hcon hsol)
  obtain ⟨⟨a1, a2⟩, b1, b2⟩ := And.intro (abs_lt.mp hin.1) (abs_lt.mp hin.2)
  -- distances to the four sides all exceed r
  have side : ∀ x y : ℝ, |x| ≤ hl → |y| ≤ hw → (|x| = hl ∨ |y| = hw) →
      r ^ 2 < (x - a) ^ 2 + (y - b) ^ 2 := by
    intro x y hx hy he
    by_contra hcon
    exact hno ⟨_, ⟨x, y, hx, hy, he, rfl⟩, (frame_disc_iff ..).mpr (not_lt.mp hcon)⟩
  have e1 := side hl b (by rw [abs_of_nonneg h1]) hin.2.le (Or.inl (abs_of_nonneg h1))
  have e2 := side (-hl) b (by rw [abs_neg, abs_of_nonneg h1]) hin.2.le
    (Or.inl (by rw [abs_neg, abs_of_nonneg h1]))
  have e3 := side a hw hin.1.le (by rw [abs_of_nonneg h2]) (Or.inr (abs_of_nonneg h2))
  have e4 := side a (-hw) hin.1.le (by rw [abs_neg, abs_of_nonneg h2])
    (Or.inr (by rw [abs_neg, abs_of_nonneg h2]))
  simp only [sub_self] at e1 e2 e3 e4
  have f1 : r < hl - a := by nlinarith
  have f2 : r < hl + a := by nlinarith
  have f3 : r < hw - b := by nlinarith
  have f4 : r < hw + b := by nlinarith
  intro p hp
  obtain ⟨x, y, rfl⟩ := exists_frame c ang p
  rw [frame_disc_iff] at hp
  have gx : |x - a| ≤ r := abs_le_of_sq_le_sq (by nlinarith [sq_nonneg (y - b)]) hr
  have gy : |y - b| ≤ r := abs_le_of_sq_le_sq (by nlinarith [sq_nonneg (x - a)]) hr
  obtain ⟨gx1, gx2⟩ := abs_le.mp gx
  obtain ⟨gy1, gy2⟩ := abs_le.mp gy
  exact ⟨x, y, abs_le.mpr ⟨by linarith, by linarith⟩, abs_le.mpr ⟨by linarith, by linarith⟩, rfl⟩

end Mbd
