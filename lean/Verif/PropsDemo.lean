import Verif.Demo
import Verif.PropsWeights
import Verif.SpecVehicle
import Verif.WrapLemmas

/-!
# Demonstration trajectory: C48, C49
-/

namespace Spec

open Real

/-- Point at parameter `s` of a polyline; leg `i` has the parameters from `i` to `i + 1`. -/
noncomputable def polyline : List Pt → ℝ → Pt
  | [], _ => (0, 0)
  | [p], _ => p
  | p :: q :: r, s =>
    if s ≤ 1 then (p.1 + s * (q.1 - p.1), p.2 + s * (q.2 - p.2)) else polyline (q :: r) (s - 1)

/-- The three candidate paths: straight, or with a right-angled corner. -/
def straight (a b : Pt) : List Pt := [a, b]
def cornerH (a b : Pt) : List Pt := [a, (b.1, a.2), b]
def cornerV (a b : Pt) : List Pt := [a, (a.1, b.2), b]

/-- Point `t` of the way from `a` to `b`. -/
noncomputable def lerp (a b : Pt) (t : ℝ) : Pt := (a.1 + t * (b.1 - a.1), a.2 + t * (b.2 - a.2))

open Mbd in
/-- `p` is inside or on an obstacle. -/
def Hits (P : Params) (p : Pt) : Prop :=
  (∃ c ∈ P.circles, dist p (c.x, c.y) ≤ c.r) ∨ ∃ o ∈ P.rects, p ∈ rectRegion o

open Mbd in
/-- One of the 50 evenly spaced points of the segment from `a` to `b` hits an obstacle. -/
def Blocked (P : Params) (a b : Pt) : Prop := ∃ k : ℕ, k ≤ 49 ∧ Hits P (lerp a b (k / 49))

open Mbd in
/-- `rows` is a discretisation of `path` into `H` rows that starts at the first waypoint, advances
strictly along the path, ends with the full goal pose and marks exactly the rows on the last leg. -/
structure Follows (path : List Pt) (H : ℕ) (xg : Q4) (rows : List (Q4 × Bool)) : Prop where
  length : rows.length = H
  start : (rows.head?).map (fun r => (r.1.px, r.1.py)) = path.head?
  goal : rows.getLast? = some (xg, true)
  along : ∃ σ : ℕ → ℝ, σ 0 = 0 ∧ σ (H - 1) = path.length - 1 ∧
    (∀ i j, i < j → j < H → σ i < σ j) ∧
    ∀ i (h : i < rows.length), (rows[i].1.px, rows[i].1.py) = polyline path (σ i) ∧
      (rows[i].2 = true ↔ (path.length : ℝ) - 2 ≤ σ i)

open Mbd in
/-- A path without blocked leg. -/
def Clear (P : Params) (path : List Pt) : Prop := ∀ s ∈ path.zip path.tail, ¬ Blocked P s.1 s.2

open Mbd in
/-- Order of preference: straight, corner in the search direction, other corner, and straight again
when nothing is clear. -/
structure Chosen (P : Params) (horizontal : Bool) (a b : Pt) (path : List Pt) : Prop where
  direct : Clear P (straight a b) → path = straight a b
  first : ¬ Clear P (straight a b) → Clear P (if horizontal then cornerH a b else cornerV a b) →
    path = if horizontal then cornerH a b else cornerV a b
  second : ¬ Clear P (straight a b) → ¬ Clear P (if horizontal then cornerH a b else cornerV a b) →
    Clear P (if horizontal then cornerV a b else cornerH a b) →
    path = if horizontal then cornerV a b else cornerH a b
  fallback : ¬ Clear P (straight a b) → ¬ Clear P (cornerH a b) → ¬ Clear P (cornerV a b) →
    path = straight a b

end Spec

namespace Mbd

open Real Classical

namespace Demo

/-! ## The sampled check -/

theorem mem_linspace50 (t : ℝ) : t ∈ linspace 0 1 50 ↔ ∃ k : ℕ, k ≤ 49 ∧ t = k / 49 := by
  simp only [linspace, List.mem_map, List.mem_range]
  constructor
  · rintro ⟨k, hk, rfl⟩
    refine ⟨k, by omega, ?_⟩
    norm_num
    ring
  · rintro ⟨k, hk, rfl⟩
    refine ⟨k, by omega, ?_⟩
    norm_num
    ring

theorem segPoint_eq (p q : V2) (t : ℝ) : segPoint p q t = Spec.lerp p q t := rfl

theorem inCircle_iff (c : Circle) (p : V2) : inCircle c p ↔ Spec.dist p (c.x, c.y) ≤ c.r := by
  simp [inCircle, norm2, Spec.dist]

theorem inRect_iff (o : Rect) (p : V2) : inRect o p ↔ p ∈ Spec.rectRegion o := by
  have hcs := cos_sq_add_sin_sq o.ang
  simp only [inRect, Spec.rectRegion, Spec.solidRect, Set.mem_ofPred_eq, cos_neg, sin_neg]
  constructor
  · rintro ⟨h1, h2⟩
    refine ⟨_, _, h1, h2, ?_⟩
    apply Prod.ext
    · simp only [Spec.frame]
      linear_combination (o.x - p.1) * hcs
    · simp only [Spec.frame]
      linear_combination (o.y - p.2) * hcs
  · rintro ⟨s, t, hs, ht, rfl⟩
    simp only [Spec.frame]
    have e1 : (o.x + s * cos o.ang - t * sin o.ang - o.x) * cos o.ang
        - (o.y + s * sin o.ang + t * cos o.ang - o.y) * -sin o.ang = s := by
      linear_combination s * hcs
    have e2 : (o.x + s * cos o.ang - t * sin o.ang - o.x) * -sin o.ang
        + (o.y + s * sin o.ang + t * cos o.ang - o.y) * cos o.ang = t := by
      linear_combination t * hcs
    rw [e1, e2]
    exact ⟨hs, ht⟩

theorem lineCollides_iff (P : Params) (p q : V2) : lineCollides P p q ↔ Spec.Blocked P p q := by
  unfold lineCollides Spec.Blocked Spec.Hits
  constructor
  · rintro ⟨t, ht, h⟩
    obtain ⟨k, hk, rfl⟩ := (mem_linspace50 t).1 ht
    refine ⟨k, hk, ?_⟩
    simpa only [inCircle_iff, inRect_iff, segPoint_eq] using h
  · rintro ⟨k, hk, h⟩
    refine ⟨k / 49, (mem_linspace50 _).2 ⟨k, hk, rfl⟩, ?_⟩
    simpa only [inCircle_iff, inRect_iff, segPoint_eq] using h

/-! ## Counts -/

theorem roundEven_near (x : ℝ) : |(roundEven x : ℝ) - x| ≤ 1 / 2 := by
  have h1 := Int.floor_le x
  have h2 := Int.lt_floor_add_one x
  unfold roundEven
  split_ifs <;> push_cast <;> rw [abs_le] <;> constructor <;> linarith

theorem roundEven_nat (n : ℕ) : roundEven n = n := by
  simp [roundEven]

theorem pps_one (H : ℕ) {l : ℝ} (hl : 0 < l) : pointsPerSegment H [l] = [(H : ℤ)] := by
  have e : (H : ℝ) * l / l = H := by field_simp
  simp only [pointsPerSegment, List.map_cons, List.map_nil, List.sum_cons, List.sum_nil, add_zero,
    e, roundEven_nat, argmax]
  by_cases h : max 2 (H : ℤ) = H
  · simp [h]
  · simp [h]

theorem pps_two (H : ℕ) (hH : 4 ≤ H) {l m : ℝ} (hs : 0 < l + m) :
    ∃ a b : ℕ, pointsPerSegment H [l, m] = [(a : ℤ), (b : ℤ)] ∧ 1 ≤ a ∧ 2 ≤ b ∧ a + b = H := by
  have e : (H : ℝ) * l / (l + m) + H * m / (l + m) = H := by field_simp
  have ha := abs_le.1 (roundEven_near (H * l / (l + m)))
  have hb := abs_le.1 (roundEven_near (H * m / (l + m)))
  have hu : roundEven (H * l / (l + m)) + roundEven (H * m / (l + m)) ≤ H + 1 := by
    have : ((roundEven (H * l / (l + m)) + roundEven (H * m / (l + m)) : ℤ) : ℝ) ≤
        ((H + 1 : ℤ) : ℝ) := by push_cast; linarith [ha.2, hb.2]
    exact_mod_cast this
  simp only [pointsPerSegment, List.map_cons, List.map_nil, List.sum_cons, List.sum_nil, add_zero]
  generalize roundEven (H * l / (l + m)) = r at *
  generalize roundEven (H * m / (l + m)) = s at *
  suffices h : ∃ a b : ℤ, (if max 2 r + max 2 s ≠ (H : ℤ) then
      [max 2 r, max 2 s].set (argmax [max 2 r, max 2 s])
        ([max 2 r, max 2 s].getD (argmax [max 2 r, max 2 s]) 0 + ((H : ℤ) - (max 2 r + max 2 s)))
      else [max 2 r, max 2 s]) = [a, b] ∧ 1 ≤ a ∧ 2 ≤ b ∧ a + b = H by
    obtain ⟨a, b, h1, h2, h3, h4⟩ := h
    refine ⟨a.toNat, b.toNat, ?_, by omega, by omega, by omega⟩
    rw [h1, Int.toNat_of_nonneg (by omega), Int.toNat_of_nonneg (by omega)]
  by_cases h : max 2 r + max 2 s = (H : ℤ)
  · exact ⟨max 2 r, max 2 s, by simp [h], by omega, by omega, h⟩
  · rw [if_pos h]
    by_cases hm : max 2 s ≤ max 2 r
    · have e0 : argmax [max 2 r, max 2 s] = 0 := by simp [argmax] at hm ⊢; omega
      rw [e0]
      refine ⟨max 2 r + (H - (max 2 r + max 2 s)), max 2 s, by simp, by omega, by omega, by omega⟩
    · have e0 : argmax [max 2 r, max 2 s] = 1 := by
        unfold argmax
        rw [if_neg (by simpa using hm)]
        simp [argmax]
      rw [e0]
      refine ⟨max 2 r, max 2 s + (H - (max 2 r + max 2 s)), by simp, by omega, by omega, by omega⟩

/-! ## The points -/

theorem segLen_nonneg (s : V2 × V2) : 0 ≤ segLen s := sqrt_nonneg _

theorem segLen_eq_zero {p q : V2} (h : segLen (p, q) ≤ 0) : q = p := by
  have h0 : segLen (p, q) = 0 := le_antisymm h (segLen_nonneg _)
  unfold segLen norm2 at h0
  rw [sqrt_eq_zero (by positivity)] at h0
  have h1 : (q.1 - p.1) ^ 2 = 0 := by
    have a1 := sq_nonneg (q.1 - p.1); have a2 := sq_nonneg (q.2 - p.2)
    simp only [Prod.fst_sub, Prod.snd_sub] at h0; linarith
  have h2 : (q.2 - p.2) ^ 2 = 0 := by
    have a1 := sq_nonneg (q.1 - p.1); have a2 := sq_nonneg (q.2 - p.2)
    simp only [Prod.fst_sub, Prod.snd_sub] at h0; linarith
  exact Prod.ext (by simpa [sub_eq_zero] using h1) (by simpa [sub_eq_zero] using h2)

/-- Two waypoints. -/
theorem points_two (H : ℕ) (hH : 2 ≤ H) (p q : V2) :
    points H [p, q] q = .ok ((List.range H).map fun i : ℕ =>
      (Spec.polyline [p, q] (i / (H - 1)), 0)) := by
  have hH' : (0 : ℝ) < (H : ℝ) - 1 := by
    have : (2 : ℝ) ≤ H := by exact_mod_cast hH
    linarith
  have hpoly : ∀ i : ℕ, i < H → Spec.polyline [p, q] (i / (H - 1)) =
      segPoint p q (i / (H - 1)) := by
    intro i hi
    have : (i : ℝ) ≤ H - 1 := by
      have : (i : ℝ) + 1 ≤ H := by exact_mod_cast hi
      linarith
    simp [Spec.polyline, segPoint, div_le_one hH', this]
  by_cases hl : 0 < segLen (p, q)
  · have hd : discretise [p, q] [(H : ℤ)] = (List.range H).map fun i : ℕ =>
        (Spec.polyline [p, q] (i / (H - 1)), 0) := by
      simp only [discretise, segs, List.tail_cons, List.zip_cons_cons, 
        List.zip_nil_right, List.mapIdx_cons, List.mapIdx_nil, List.flatten_cons, List.flatten_nil,
        List.append_nil, List.length_cons, List.length_nil, Int.toNat_natCast, linspace]
      rw [if_neg (by norm_num), List.map_map]
      apply List.map_congr_left
      intro i hi
      have hi := List.mem_range.1 hi
      rw [hpoly i hi]
      have h1 : H ≠ 1 := by omega
      simp only [if_false, Function.comp, h1, Prod.mk.injEq, and_true]
      congr 1
      ring
    simp only [points, segs, List.tail_cons, List.zip_cons_cons, 
      List.zip_nil_right, List.map_cons, List.map_nil, List.sum_cons, List.sum_nil, add_zero, hl,
      pps_one H hl, hd, true_and, if_true, gt_iff_lt]
    rw [if_neg (by simp), if_neg (by simp)]
    simp
  · have e := segLen_eq_zero (not_lt.1 hl)
    subst e
    simp only [points, segs, List.tail_cons, List.zip_cons_cons, 
      List.zip_nil_right, List.map_cons, List.map_nil, List.sum_cons, List.sum_nil, add_zero, hl,
      false_and, if_false, gt_iff_lt, List.length_replicate, lt_self_iff_false, Nat.sub_self,
      List.replicate_zero, List.append_nil, Except.ok.injEq]
    apply List.ext_getElem (by simp)
    intro i h1 h2
    simp at h2
    simp [Spec.polyline]

/-- Three waypoints, for given counts. -/
theorem points_three_of (H : ℕ) (p m q : V2) (hl : 0 < segLen (p, m) + segLen (m, q)) {a b : ℕ}
    (hp : pointsPerSegment H [segLen (p, m), segLen (m, q)] = [(a : ℤ), (b : ℤ)])
    (ha : 1 ≤ a) (hb : 2 ≤ b) (hab : a + b = H) :
    points H [p, m, q] q = .ok ((List.range H).map fun i : ℕ =>
      (Spec.polyline [p, m, q] (if i < a then (i : ℝ) / a else 1 + ((i : ℝ) - a) / (b - 1)),
        if i < a then 0 else 1)) := by
  have hapos : (0 : ℝ) < a := by exact_mod_cast ha
  have hbpos : (0 : ℝ) < (b : ℝ) - 1 := by
    have : (2 : ℝ) ≤ b := by exact_mod_cast hb
    linarith
  have hd : discretise [p, m, q] [(a : ℤ), (b : ℤ)] = (List.range H).map fun i : ℕ =>
      (Spec.polyline [p, m, q] (if i < a then (i : ℝ) / a else 1 + ((i : ℝ) - a) / (b - 1)),
        if i < a then 0 else 1) := by
    have hr : List.range H = List.range a ++ (List.range b).map (a + ·) := by
      rw [← hab, List.range_add]
    rw [hr, List.map_append]
    simp only [discretise, segs, List.tail_cons, List.zip_cons_cons, 
      List.zip_nil_right, List.mapIdx_cons, List.mapIdx_nil, List.flatten_cons, List.flatten_nil,
      List.append_nil, List.length_cons, List.length_nil, Int.toNat_natCast, linspace,
      linspaceOpen]
    congr 1
    · simp only [zero_add, Nat.reduceAdd, Nat.reduceLT, if_true, List.map_map]
      apply List.map_congr_left
      intro i hi
      have hi := List.mem_range.1 hi
      have h1 : (i : ℝ) / a ≤ 1 := by
        rw [div_le_one hapos]; exact_mod_cast hi.le
      simp [hi, Spec.polyline, segPoint, h1]
    · simp only [zero_add, Nat.reduceAdd, lt_self_iff_false, if_false, List.map_map]
      apply List.map_congr_left
      intro i hi
      have hi := List.mem_range.1 hi
      have hb1 : b ≠ 1 := by omega
      have h0 : ¬ a + i < a := by omega
      have hle : (i : ℝ) / (b - 1) ≤ 1 := by
        rw [div_le_one hbpos]
        have : (i : ℝ) + 1 ≤ b := by exact_mod_cast hi
        linarith
      have hnn : 0 ≤ (i : ℝ) / (b - 1) := by positivity
      simp only [Function.comp, hb1, if_false, h0, Prod.mk.injEq, and_true, Nat.cast_add,
        add_sub_cancel_left]
      have e1 : (i : ℝ) * ((1 - 0) / (b - 1)) = i / (b - 1) := by ring
      rw [e1]
      by_cases hz : (i : ℝ) / (b - 1) = 0
      · rw [hz]; simp [Spec.polyline, segPoint]
      · have hgt : ¬ (1 + (i : ℝ) / (b - 1) ≤ 1) := by
          have := lt_of_le_of_ne hnn (Ne.symm hz)
          linarith
        simp [Spec.polyline, segPoint, hgt, hle]
  have hmap : (segs [p, m, q]).map segLen = [segLen (p, m), segLen (m, q)] := by simp [segs]
  simp only [points, hmap, List.sum_cons, List.sum_nil, add_zero, hp, hl, hd, gt_iff_lt,
    true_and, if_true]
  rw [if_neg (by simp), if_neg (by simp)]
  simp

/-- Three waypoints. -/
theorem points_three (H : ℕ) (hH : 4 ≤ H) (p m q : V2) (hl : 0 < segLen (p, m) + segLen (m, q)) :
    ∃ a b : ℕ, 1 ≤ a ∧ 2 ≤ b ∧ a + b = H ∧
    points H [p, m, q] q = .ok ((List.range H).map fun i : ℕ =>
      (Spec.polyline [p, m, q] (if i < a then (i : ℝ) / a else 1 + ((i : ℝ) - a) / (b - 1)),
        if i < a then 0 else 1)) := by
  obtain ⟨a, b, hp, ha, hb, hab⟩ := pps_two H hH hl
  exact ⟨a, b, ha, hb, hab, points_three_of H p m q hl hp ha hb hab⟩

/-! ## Rows -/

theorem angles_length (pref : ℤ) (a b : ℝ) (l : List (V2 × Bool)) :
    ∀ prev, (angles pref a b prev l).length = l.length := by
  induction l with
  | nil => intro _; rfl
  | cons r l ih =>
    intro prev
    cases l with
    | nil => rfl
    | cons r' l => simp only [angles, List.length_cons, ih]

theorem angles_pos (pref : ℤ) (a b : ℝ) (l : List (V2 × Bool)) :
    ∀ prev, (angles pref a b prev l).map (fun r => (((r.1.px, r.1.py) : V2), r.2)) = l := by
  induction l with
  | nil => intro _; rfl
  | cons r l ih =>
    intro prev
    cases l with
    | nil => rfl
    | cons r' l => simp only [angles, List.map_cons, ih]

theorem angles_last (pref : ℤ) (a b : ℝ) (l : List (V2 × Bool)) (r : V2 × Bool) :
    ∀ prev, (angles pref a b prev (l ++ [r])).getLast? = some (⟨r.1.1, r.1.2, a, b⟩, r.2) := by
  induction l with
  | nil => intro _; rfl
  | cons x l ih =>
    intro prev
    cases l with
    | nil => rfl
    | cons y l =>
      simp only [List.cons_append, angles] at ih ⊢
      rw [List.getLast?_cons, ih]
      rfl

theorem angles_dir (pref : ℤ) (a b : ℝ) (l : List (V2 × Bool)) :
    ∀ prev i (h : i + 1 < l.length),
      (|l[i + 1].1.1 - l[i].1.1| > 1e-6 ∨ |l[i + 1].1.2 - l[i].1.2| > 1e-6) →
      ∃ th, (angles pref a b prev l)[i]? = some (⟨l[i].1.1, l[i].1.2, th, th⟩, l[i].2) ∧
        th = if l[i].2 then (if pref = -1 ∨ pref = -2
          then atan2 (l[i + 1].1.2 - l[i].1.2) (l[i + 1].1.1 - l[i].1.1) + π
          else atan2 (l[i + 1].1.2 - l[i].1.2) (l[i + 1].1.1 - l[i].1.1)) else 0 := by
  induction l with
  | nil => intro _ i h; simp at h
  | cons r l ih =>
    intro prev i h hm
    cases l with
    | nil => simp at h
    | cons r' l =>
      cases i with
      | zero =>
        simp only [zero_add, List.getElem_cons_succ, List.getElem_cons_zero] at hm ⊢
        exact ⟨_, by simp only [angles, List.getElem?_cons_zero, if_pos hm], rfl⟩
      | succ i =>
        simp only [angles, List.getElem?_cons_succ, List.getElem_cons_succ] at hm ⊢
        exact ih _ i (by simpa using h) hm

theorem atan2_dir (dx dy : ℝ) :
    √(dx ^ 2 + dy ^ 2) * cos (atan2 dy dx) = dx ∧ √(dx ^ 2 + dy ^ 2) * sin (atan2 dy dx) = dy := by
  have h := Complex.norm_mul_cos_add_sin_mul_I (⟨dx, dy⟩ : ℂ)
  have hn : ‖(⟨dx, dy⟩ : ℂ)‖ = √(dx ^ 2 + dy ^ 2) := by
    rw [Complex.norm_eq_sqrt_sq_add_sq]
  rw [hn] at h
  have h1 := congrArg Complex.re h
  have h2 := congrArg Complex.im h
  rw [← Complex.ofReal_cos, ← Complex.ofReal_sin] at h1 h2
  simp at h1 h2
  exact ⟨h1, h2⟩

end Demo

namespace Demo

theorem follows_of (path : List V2) (H : ℕ) (hH : 2 ≤ H) (pref : ℤ) (xg : Q4) (σ : ℕ → ℝ)
    (seg : ℕ → ℕ) (h0 : σ 0 = 0) (h1 : σ (H - 1) = path.length - 1)
    (hmono : ∀ i j, i < j → j < H → σ i < σ j)
    (hseg : ∀ i < H, seg i = path.length - 2 ↔ (path.length : ℝ) - 2 ≤ σ i)
    (hstart : path.head? = some (Spec.polyline path 0))
    (hend : Spec.polyline path (path.length - 1) = (xg.px, xg.py)) :
    Spec.Follows path H xg (angles pref xg.th1 xg.th2 none
      (((List.range H).map fun i : ℕ => (Spec.polyline path (σ i), seg i)).map
        fun p => (p.1, decide (p.2 = path.length - 2)))) := by
  obtain ⟨n, rfl⟩ : ∃ n, H = n + 1 := ⟨H - 1, by omega⟩
  simp only [List.map_map, Nat.add_sub_cancel] at h1 ⊢
  set l := (List.range (n + 1)).map ((fun p : V2 × ℕ => (p.1, decide (p.2 = path.length - 2))) ∘
    fun i : ℕ => (Spec.polyline path (σ i), seg i)) with hl
  have hlen : l.length = n + 1 := by simp [hl]
  have hpos := angles_pos pref xg.th1 xg.th2 l none
  have hget : ∀ i (h : i < (angles pref xg.th1 xg.th2 none l).length),
      (((angles pref xg.th1 xg.th2 none l)[i].1.px, (angles pref xg.th1 xg.th2 none l)[i].1.py),
        (angles pref xg.th1 xg.th2 none l)[i].2) =
        (Spec.polyline path (σ i), decide (seg i = path.length - 2)) := by
    intro i h
    have hi : i < n + 1 := by rwa [angles_length, hlen] at h
    have := List.getElem_of_eq hpos (i := i) (by rwa [List.length_map])
    rw [List.getElem_map] at this
    rw [this]
    simp [hl]
  refine ⟨by rw [angles_length, hlen], ?_, ?_, σ, h0, h1, hmono, ?_⟩
  · have := congrArg List.head? hpos
    rw [List.head?_map] at this
    have h2 : l.head? = some (Spec.polyline path 0, decide (seg 0 = path.length - 2)) := by
      simp [hl, List.range_succ_eq_map, h0]
    rw [h2] at this
    rw [hstart]
    rcases hh : (angles pref xg.th1 xg.th2 none l).head? with _ | r
    · rw [hh] at this; simp at this
    · rw [hh] at this
      simp only [Option.map_some, Option.some.injEq, Prod.mk.injEq] at this ⊢
      exact this.1
  · have e : l = (List.range n).map ((fun p : V2 × ℕ => (p.1, decide (p.2 = path.length - 2))) ∘
        fun i : ℕ => (Spec.polyline path (σ i), seg i)) ++
        [((xg.px, xg.py), true)] := by
      rw [hl, List.range_succ, List.map_append]
      congr 1
      have : seg n = path.length - 2 := (hseg n (by omega)).2 (by rw [h1]; linarith)
      simp only [List.map_cons, List.map_nil, Function.comp, this, h1, hend, decide_true]
    rw [e, angles_last]
  · intro i h
    have hi : i < n + 1 := by rwa [angles_length, hlen] at h
    have := hget i h
    rw [Prod.mk.injEq] at this
    refine ⟨this.1, ?_⟩
    rw [this.2, decide_eq_true_iff]
    exact hseg i hi

theorem waypoints_chosen (P : Params) (hz : Bool) (a b : V2) :
    Spec.Chosen P hz a b (waypoints P hz a b) := by
  have hs : Spec.Clear P (Spec.straight a b) ↔ ¬ lineCollides P a b := by
    simp [Spec.Clear, Spec.straight, lineCollides_iff]
  have hh : Spec.Clear P (Spec.cornerH a b) ↔
      ¬ lineCollides P a (b.1, a.2) ∧ ¬ lineCollides P (b.1, a.2) b := by
    simp [Spec.Clear, Spec.cornerH, lineCollides_iff]
  have hv : Spec.Clear P (Spec.cornerV a b) ↔
      ¬ lineCollides P a (a.1, b.2) ∧ ¬ lineCollides P (a.1, b.2) b := by
    simp [Spec.Clear, Spec.cornerV, lineCollides_iff]
  constructor
  · intro h
    rw [hs] at h
    simp [waypoints, h, Spec.straight]
  · intro h1 h2
    rw [hs, not_not] at h1
    cases hz
    · simp only [Bool.false_eq_true, if_false] at h2 ⊢
      rw [hv] at h2
      simp [waypoints, h1, h2, Spec.cornerV]
    · simp only [if_true] at h2 ⊢
      rw [hh] at h2
      simp [waypoints, h1, h2, Spec.cornerH]
  · intro h1 h2 h3
    rw [hs, not_not] at h1
    cases hz
    · simp only [Bool.false_eq_true, if_false] at h2 h3 ⊢
      rw [hv] at h2
      rw [hh] at h3
      simp only [waypoints, Bool.false_eq_true, if_false, h1, not_true, h2, h3, not_false_iff,
        and_self, if_true]
      rfl
    · simp only [if_true] at h2 h3 ⊢
      rw [hh] at h2
      rw [hv] at h3
      simp only [waypoints, if_false, h1, not_true, h2, h3, not_false_iff,
        and_self, if_true]
      rfl
  · intro h1 h2 h3
    rw [hs, not_not] at h1
    rw [hh] at h2
    rw [hv] at h3
    cases hz
    · simp only [waypoints, Bool.false_eq_true, if_false, h1, not_true, h2, h3]
      rfl
    · simp only [waypoints, if_true, if_false, h1, not_true, h2, h3]
      rfl

theorem waypoints_cases (P : Params) (hz : Bool) (a b : V2) :
    waypoints P hz a b = [a, b] ∨
    ∃ m, (waypoints P hz a b = [a, m, b]) ∧ 0 < segLen (a, m) + segLen (m, b) := by
  have key : ∀ m, lineCollides P a b → ¬ lineCollides P a m → 0 < segLen (a, m) + segLen (m, b) := by
    intro m h1 h2
    by_contra h
    have n1 := segLen_nonneg (a, m)
    have n2 := segLen_nonneg (m, b)
    have e1 := segLen_eq_zero (p := a) (q := m) (by linarith)
    have e2 := segLen_eq_zero (p := m) (q := b) (by linarith)
    subst e1
    subst e2
    exact h2 h1
  unfold waypoints
  simp only
  generalize (if hz = true then ((b.1, a.2) : V2) else (a.1, b.2)) = f
  generalize (if hz = true then ((a.1, b.2) : V2) else (b.1, a.2)) = g
  by_cases h1 : lineCollides P a b
  · rw [if_neg (not_not.2 h1)]
    split
    · rename_i h2
      exact Or.inr ⟨_, rfl, key _ h1 h2.1⟩
    · split
      · rename_i h3
        exact Or.inr ⟨_, rfl, key _ h1 h3.1⟩
      · exact Or.inl rfl
  · rw [if_pos h1]
    exact Or.inl rfl

end Demo

/-! ## C48 -/

theorem follows_two (H : ℕ) (hH : 2 ≤ H) (pref : ℤ) (a : V2) (xg : Q4) (P : Params) (hz : Bool)
    (hP : P.H = H) (hw : Demo.waypoints P hz a (xg.px, xg.py) = [a, (xg.px, xg.py)]) :
    ∃ rows, Demo.generate P hz pref a xg = .ok rows ∧
      Spec.Follows (Spec.straight a (xg.px, xg.py)) H xg rows := by
  subst hP
  have hH' : (0 : ℝ) < (P.H : ℝ) - 1 := by
    have : (2 : ℝ) ≤ P.H := by exact_mod_cast hH
    linarith
  unfold Demo.generate
  simp only [hw, Demo.points_two P.H hH]
  rw [if_neg (by omega)]
  refine ⟨_, rfl, ?_⟩
  refine Demo.follows_of [a, (xg.px, xg.py)] P.H hH pref xg (fun i => (i : ℝ) / (P.H - 1))
    (fun _ => 0) (by simp) ?_ ?_ ?_ ?_ ?_
  · simp only [List.length_cons, List.length_nil]
    rw [Nat.cast_sub (by omega), Nat.cast_one, div_self hH'.ne']
    norm_num
  · intro i j hij hj
    have : (i : ℝ) < j := by exact_mod_cast hij
    exact div_lt_div_of_pos_right this hH'
  · intro i hi
    have : (0 : ℝ) ≤ (i : ℝ) / (P.H - 1) := by positivity
    simpa using this
  · simp [Spec.polyline]
  · norm_num [Spec.polyline]

/-- **C48.** With at least four time steps the generator succeeds in every obstacle configuration,
and its rows follow the chosen path from the start position to the goal pose. -/
theorem C48_wellformed (P : Params) (hz : Bool) (pref : ℤ) (x0 : V2) (xg : Q4) (hH : 4 ≤ P.H) :
    ∃ rows path, Demo.generate P hz pref x0 xg = .ok rows ∧
      Spec.Chosen P hz x0 (xg.px, xg.py) path ∧ Spec.Follows path P.H xg rows := by
  have hc := Demo.waypoints_chosen P hz x0 (xg.px, xg.py)
  rcases Demo.waypoints_cases P hz x0 (xg.px, xg.py) with hw | ⟨m, hw, hl⟩
  · obtain ⟨rows, h1, h2⟩ := follows_two P.H (by omega) pref x0 xg P hz rfl hw
    rw [hw] at hc
    exact ⟨rows, _, h1, hc, h2⟩
  · obtain ⟨a, b, ha, hb, hab, hp⟩ := Demo.points_three P.H hH x0 m (xg.px, xg.py) hl
    rw [hw] at hc
    have hapos : (0 : ℝ) < a := by exact_mod_cast ha
    have hbpos : (0 : ℝ) < (b : ℝ) - 1 := by
      have : (2 : ℝ) ≤ b := by exact_mod_cast hb
      linarith
    have habR : (a : ℝ) + b = P.H := by exact_mod_cast hab
    unfold Demo.generate
    simp only [hw, hp]
    rw [if_neg (by omega)]
    refine ⟨_, _, rfl, hc, ?_⟩
    refine Demo.follows_of [x0, m, (xg.px, xg.py)] P.H (by omega) pref xg
      (fun i => if i < a then (i : ℝ) / a else 1 + ((i : ℝ) - a) / (b - 1))
      (fun i => if i < a then 0 else 1) (by simp [show 0 < a by omega]) ?_ ?_ ?_ ?_ ?_
    · have h : ¬ (P.H - 1 < a) := by omega
      simp only [h, if_false, List.length_cons, List.length_nil]
      have e : (((P.H - 1 : ℕ) : ℝ) - a) / (b - 1) = 1 := by
        rw [Nat.cast_sub (by omega), Nat.cast_one, ← habR, div_eq_one_iff_eq hbpos.ne']
        ring
      rw [e]
      norm_num
    · intro i j hij hj
      have hijR : (i : ℝ) < j := by exact_mod_cast hij
      by_cases hja : j < a
      · have hia : i < a := by omega
        simp only [hja, hia, if_true]
        exact div_lt_div_of_pos_right hijR hapos
      · by_cases hia : i < a
        · simp only [hja, hia, if_true, if_false]
          have h1 : (i : ℝ) / a < 1 := by rw [div_lt_one hapos]; exact_mod_cast hia
          have h2 : (0 : ℝ) ≤ ((j : ℝ) - a) / (b - 1) := by
            apply div_nonneg _ hbpos.le
            have : (a : ℝ) ≤ j := by exact_mod_cast not_lt.1 hja
            linarith
          linarith
        · simp only [hja, hia, if_false]
          have := div_lt_div_of_pos_right (show (i : ℝ) - a < j - a by linarith) hbpos
          linarith
    · intro i hi
      simp only [List.length_cons, List.length_nil]
      by_cases hia : i < a
      · have h1 : (i : ℝ) / a < 1 := by rw [div_lt_one hapos]; exact_mod_cast hia
        simp only [hia, if_true]
        norm_num
        exact h1
      · have h2 : (0 : ℝ) ≤ ((i : ℝ) - a) / (b - 1) := by
          apply div_nonneg _ hbpos.le
          have : (a : ℝ) ≤ i := by exact_mod_cast not_lt.1 hia
          linarith
        simp only [hia, if_false]
        norm_num
        exact h2
    · simp [Spec.polyline]
    · norm_num [Spec.polyline]

/-- **C48, short horizons.** A straight demonstration (free, or the fallback) is correct already
from two time steps on. -/
theorem C48_straight (P : Params) (hz : Bool) (pref : ℤ) (x0 : V2) (xg : Q4) (hH : 2 ≤ P.H)
    (h : ¬ Spec.Blocked P x0 (xg.px, xg.py) ∨
      (¬ Spec.Clear P (Spec.cornerH x0 (xg.px, xg.py)) ∧
        ¬ Spec.Clear P (Spec.cornerV x0 (xg.px, xg.py)))) :
    ∃ rows, Demo.generate P hz pref x0 xg = .ok rows ∧
      Spec.Follows (Spec.straight x0 (xg.px, xg.py)) P.H xg rows := by
  have hc := Demo.waypoints_chosen P hz x0 (xg.px, xg.py)
  refine follows_two P.H hH pref x0 xg P hz rfl ?_
  by_cases hb : Spec.Clear P (Spec.straight x0 (xg.px, xg.py))
  · exact hc.direct hb
  · rcases h with h | h
    · exact absurd (by simpa [Spec.Clear, Spec.straight] using h) hb
    · exact hc.fallback hb h.1 h.2

/-- **C48, headings.** Rows off the last leg carry heading 0; a row of the last leg that is followed
by a different point carries the direction of travel for both bodies (the opposite direction for the
backward preferences). -/
theorem C48_heading (P : Params) (hz : Bool) (pref : ℤ) (x0 : V2) (xg : Q4)
    (rows : List (Q4 × Bool)) (h : Demo.generate P hz pref x0 xg = .ok rows) (i : ℕ)
    (hi : i + 1 < rows.length)
    (hm : |rows[i + 1].1.px - rows[i].1.px| > 1e-6 ∨ |rows[i + 1].1.py - rows[i].1.py| > 1e-6) :
    rows[i].1.th2 = rows[i].1.th1 ∧ (rows[i].2 = false → rows[i].1.th1 = 0) ∧
    (rows[i].2 = true →
      let d := Spec.dist (rows[i + 1].1.px, rows[i + 1].1.py) (rows[i].1.px, rows[i].1.py)
      let s : ℝ := if pref = -1 ∨ pref = -2 then -1 else 1
      d * cos rows[i].1.th1 = s * (rows[i + 1].1.px - rows[i].1.px) ∧
      d * sin rows[i].1.th1 = s * (rows[i + 1].1.py - rows[i].1.py)) := by
  unfold Demo.generate at h
  simp only at h
  split at h
  · simp at h
  · rename_i pts hp
    split_ifs at h with hH
    simp only [Except.ok.injEq] at h
    set l := pts.map fun p => (p.1, decide (p.2 = (Demo.waypoints P hz x0 (xg.px, xg.py)).length - 2))
      with hl
    have hlen : rows.length = l.length := by rw [← h, Demo.angles_length]
    have hpos := Demo.angles_pos pref xg.th1 xg.th2 l none
    rw [h] at hpos
    have hget : ∀ j (hj : j < rows.length), l[j]'(hlen ▸ hj) = ((rows[j].1.px, rows[j].1.py), rows[j].2) := by
      intro j hj
      have := congrArg (fun x : List (V2 × Bool) => x[j]?) hpos
      have hj' : j < l.length := hlen ▸ hj
      simpa [hj, hj'] using this.symm
    have hd := Demo.angles_dir pref xg.th1 xg.th2 l none i (hlen ▸ hi)
    have g0 := hget i (by omega)
    have g1 := hget (i + 1) hi
    simp only [g0, g1] at hd
    obtain ⟨th, e1, e2⟩ := hd hm
    rw [h, List.getElem?_eq_getElem (by omega)] at e1
    simp only [Option.some.injEq] at e1
    have t1 : rows[i].1.th1 = th := by rw [e1]
    have t2 : rows[i].1.th2 = th := by rw [e1]
    refine ⟨by rw [t1, t2], ?_, ?_⟩
    · intro hf; rw [t1, e2, hf]; simp
    · intro ht
      rw [t1, e2, ht]
      simp only [if_true, Spec.dist]
      have ha := Demo.atan2_dir (rows[i + 1].1.px - rows[i].1.px) (rows[i + 1].1.py - rows[i].1.py)
      by_cases hpf : pref = -1 ∨ pref = -2
      · simp only [hpf, if_true, cos_add_pi, sin_add_pi]
        constructor <;> linarith [ha.1, ha.2]
      · simp only [hpf, if_false]
        constructor <;> linarith [ha.1, ha.2]

/-- A pole on the straight line from `(0,0)` to `(1,9)`; the horizontal-first corner is free. -/
noncomputable def cornerCase (H : ℕ) : Params :=
  { Params.default [⟨24 / 49, 216 / 49, 0.1⟩] [] with H := H }

theorem cornerCase_waypoints (H : ℕ) :
    Demo.waypoints (cornerCase H) true (0, 0) (1, 9) = [(0, 0), (1, 0), (1, 9)] := by
  have h1 : ¬ Spec.Clear (cornerCase H) (Spec.straight (0, 0) (1, 9)) := by
    intro h
    refine h ((0, 0), (1, 9)) (by simp [Spec.straight]) ⟨24, by norm_num, Or.inl
      ⟨⟨24 / 49, 216 / 49, 0.1⟩, by simp [cornerCase, Params.default], ?_⟩⟩
    have : Spec.dist (Spec.lerp (0, 0) (1, 9) ((24 : ℕ) / 49)) (24 / 49, 216 / 49) = 0 := by
      norm_num [Spec.dist, Spec.lerp]
    show Spec.dist (Spec.lerp (0, 0) (1, 9) ((24 : ℕ) / 49)) (24 / 49, 216 / 49) ≤ 0.1
    rw [this]
    norm_num
  have far : ∀ p : V2, (p.2 = 0 ∨ p.1 = 1) → ¬ Spec.Hits (cornerCase H) p := by
    intro p hp h
    simp only [Spec.Hits, cornerCase, Params.default, List.mem_singleton, exists_eq_left,
      List.not_mem_nil, false_and, exists_false, or_false, Spec.dist] at h
    rw [sqrt_le_left (by norm_num)] at h
    rcases hp with hp | hp
    · rw [hp] at h; nlinarith [sq_nonneg (p.1 - 24 / 49)]
    · rw [hp] at h; nlinarith [sq_nonneg (p.2 - 216 / 49)]
  have h2 : Spec.Clear (cornerCase H) (Spec.cornerH (0, 0) (1, 9)) := by
    intro s hs
    simp only [Spec.cornerH, List.tail_cons, List.zip_cons_cons, List.zip_nil_right,
      List.mem_cons, List.not_mem_nil, or_false] at hs
    rcases hs with rfl | rfl
    · rintro ⟨k, _, hk⟩
      exact far _ (Or.inl (by simp [Spec.lerp])) hk
    · rintro ⟨k, _, hk⟩
      exact far _ (Or.inr (by simp [Spec.lerp])) hk
  have := (Demo.waypoints_chosen (cornerCase H) true (0, 0) (1, 9)).first h1 (by simpa using h2)
  simpa [Spec.cornerH] using this

theorem cornerCase_lens : (Demo.segs [((0, 0) : V2), (1, 0), (1, 9)]).map Demo.segLen = [1, 9] := by
  simp only [Demo.segs, List.tail_cons, List.zip_cons_cons, List.zip_nil_right, List.map_cons,
    List.map_nil, Demo.segLen, norm2, Prod.fst_sub, Prod.snd_sub]
  norm_num
  rw [show (81 : ℝ) = 9 ^ 2 by norm_num, sqrt_sq (by norm_num)]

theorem roundEven_of {x : ℝ} {n : ℤ} (h : |x - n| < 1 / 2) : Demo.roundEven x = n := by
  have h1 := abs_le.1 (Demo.roundEven_near x)
  rw [abs_lt] at h
  have a1 : (Demo.roundEven x : ℝ) < (n + 1 : ℤ) := by push_cast; linarith
  have a2 : ((n - 1 : ℤ) : ℝ) < Demo.roundEven x := by push_cast; linarith
  have b1 : Demo.roundEven x < n + 1 := by exact_mod_cast a1
  have b2 : n - 1 < Demo.roundEven x := by exact_mod_cast a2
  omega

theorem cornerCase_counts (H : ℕ) (r s : ℤ) (h1 : |(H : ℝ) * 1 / 10 - r| < 1 / 2)
    (h2 : |(H : ℝ) * 9 / 10 - s| < 1 / 2) :
    Demo.pointsPerSegment H [1, 9] =
      (let n := [max 2 r, max 2 s]
       if n.sum ≠ H then n.set (Demo.argmax n) (n.getD (Demo.argmax n) 0 + (H - n.sum)) else n) := by
  have e1 := roundEven_of h1
  have e2 := roundEven_of h2
  have hs : ([1, 9] : List ℝ).sum = 10 := by norm_num
  simp only [Demo.pointsPerSegment, hs, List.map_cons, List.map_nil, e1, e2]

/-- **C48 fails for two time steps**: with an accepted corner path the start position is missing;
the first row is the corner. -/
theorem C48_two_steps_refuted : ∃ rows,
    Demo.generate (cornerCase 2) true 0 (0, 0) ⟨1, 9, 0, 0⟩ = .ok rows ∧
    (rows.head?).map (fun r => (r.1.px, r.1.py)) = some (1, 0) := by
  have hn : Demo.pointsPerSegment 2 [1, 9] = [0, 2] := by
    rw [cornerCase_counts 2 0 2 (by norm_num [abs_lt]) (by norm_num [abs_lt])]
    norm_num [Demo.argmax]
  have hH : (cornerCase 2).H = 2 := rfl
  unfold Demo.generate
  simp only [cornerCase_waypoints, Demo.points, cornerCase_lens, hn, hH]
  have t2 : Int.toNat 2 = 2 := rfl
  norm_num [Demo.discretise, Demo.segs, linspace, Demo.linspaceOpen, List.range_succ, Demo.angles,
    Demo.segPoint, t2]

/-- **C48 fails for three time steps**: the last row need not be the goal position. -/
theorem C48_three_steps_refuted : ∃ rows,
    Demo.generate (cornerCase 3) true 0 (0, 0) ⟨1, 9, 0, 0⟩ = .ok rows ∧
    (rows.getLast?).map (fun r => (r.1.px, r.1.py)) = some (1, 0) := by
  have hn : Demo.pointsPerSegment 3 [1, 9] = [2, 1] := by
    rw [cornerCase_counts 3 0 3 (by norm_num [abs_lt]) (by norm_num [abs_lt])]
    norm_num [Demo.argmax]
  have hH : (cornerCase 3).H = 3 := rfl
  unfold Demo.generate
  simp only [cornerCase_waypoints, Demo.points, cornerCase_lens, hn, hH]
  have t2 : Int.toNat 2 = 2 := rfl
  norm_num [Demo.discretise, Demo.segs, linspace, Demo.linspaceOpen, List.range_succ, Demo.angles,
    Demo.segPoint, t2]

/-- **C48 fails for one time step**: with an accepted corner path the generator raises (a negative
number of points is requested). -/
theorem C48_one_step_refuted :
    Demo.generate (cornerCase 1) true 0 (0, 0) ⟨1, 9, 0, 0⟩ = .error .negativeCount := by
  have hn : Demo.pointsPerSegment 1 [1, 9] = [-1, 2] := by
    rw [cornerCase_counts 1 0 1 (by norm_num [abs_lt]) (by norm_num [abs_lt])]
    norm_num [Demo.argmax]
  have hH : (cornerCase 1).H = 1 := rfl
  unfold Demo.generate
  simp only [cornerCase_waypoints, Demo.points, cornerCase_lens, hn, hH]
  norm_num

/-- Non-vacuity of `C48_wellformed` and `C48_heading`: a corner path with 50 steps. -/
example : ∃ rows path, Demo.generate (cornerCase 50) true 0 (0, 0) ⟨1, 9, 0, 0⟩ = .ok rows ∧
    Spec.Chosen (cornerCase 50) true (0, 0) (1, 9) path ∧
    Spec.Follows path 50 ⟨1, 9, 0, 0⟩ rows :=
  C48_wellformed (cornerCase 50) true 0 (0, 0) ⟨1, 9, 0, 0⟩ (by norm_num [cornerCase])

/-- Non-vacuity of `C48_straight`: no obstacle, two steps. -/
example : ∃ rows, Demo.generate { Params.default [] [] with H := 2 } true 0 (0, 0) ⟨1, 9, 0, 0⟩ =
    .ok rows ∧ Spec.Follows (Spec.straight (0, 0) (1, 9)) 2 ⟨1, 9, 0, 0⟩ rows :=
  C48_straight { Params.default [] [] with H := 2 } true 0 (0, 0) ⟨1, 9, 0, 0⟩ le_rfl
    (Or.inl (by rintro ⟨k, _, h⟩; simp [Spec.Hits, Params.default] at h))

/-- `C48_heading` applies: the two rows of that demonstration move by more than `1e-6`. -/
example : ∃ rows, Demo.generate { Params.default [] [] with H := 2 } true 0 (0, 0) ⟨1, 9, 0, 0⟩ =
    .ok rows ∧ ∃ _ : 1 < rows.length, |rows[1].1.py - rows[0].1.py| > 1e-6 ∧
      rows[0].1.th2 = rows[0].1.th1 := by
  obtain ⟨rows, h, hf⟩ := C48_straight { Params.default [] [] with H := 2 } true 0 (0, 0) ⟨1, 9, 0, 0⟩
    le_rfl (Or.inl (by rintro ⟨k, _, h⟩; simp [Spec.Hits, Params.default] at h))
  have hl : rows.length = 2 := hf.length
  match rows, hl with
  | [a, b], _ =>
    have h1 := hf.start
    have h2 := hf.goal
    simp [Spec.straight] at h1 h2
    have hm : |b.1.py - a.1.py| > 1e-6 := by
      rw [h1.2, h2]; norm_num
    exact ⟨[a, b], h, by simp, hm, (C48_heading _ true 0 _ _ [a, b] h 0 (by simp) (Or.inr hm)).1⟩

/-! ## C49 -/

theorem dist_triangle (a b c : V2) : Spec.dist a c ≤ Spec.dist a b + Spec.dist b c := by
  have e : ∀ p q : V2, Spec.dist p q = ‖(⟨p.1 - q.1, p.2 - q.2⟩ : ℂ)‖ := by
    intro p q
    rw [Complex.norm_eq_sqrt_sq_add_sq]
    rfl
  rw [e, e, e]
  refine le_trans (le_of_eq ?_) (norm_add_le _ _)
  congr 1
  apply Complex.ext <;> simp

theorem nearest_sample {t : ℝ} (h0 : 0 ≤ t) (h1 : t ≤ 1) :
    ∃ k : ℕ, k ≤ 49 ∧ |(k : ℝ) / 49 - t| ≤ 1 / 98 := by
  have hr := abs_le.1 (Demo.roundEven_near (49 * t))
  have hnn : 0 ≤ Demo.roundEven (49 * t) := by
    have : ((-1 : ℤ) : ℝ) < Demo.roundEven (49 * t) := by push_cast; linarith
    have : (-1 : ℤ) < Demo.roundEven (49 * t) := by exact_mod_cast this
    omega
  have hle : Demo.roundEven (49 * t) ≤ 49 := by
    have : (Demo.roundEven (49 * t) : ℝ) < (50 : ℤ) := by push_cast; linarith
    have : Demo.roundEven (49 * t) < 50 := by exact_mod_cast this
    omega
  obtain ⟨k, hk⟩ := Int.eq_ofNat_of_zero_le hnn
  refine ⟨k, by omega, ?_⟩
  rw [hk] at hr
  simp only [Int.cast_natCast] at hr
  rw [abs_le]
  constructor <;> linarith [hr.1, hr.2]

theorem dist_lerp (p q : V2) (s t : ℝ) :
    Spec.dist (Spec.lerp p q s) (Spec.lerp p q t) = |s - t| * Spec.dist p q := by
  simp only [Spec.dist, Spec.lerp]
  rw [show (p.1 + s * (q.1 - p.1) - (p.1 + t * (q.1 - p.1))) ^ 2
      + (p.2 + s * (q.2 - p.2) - (p.2 + t * (q.2 - p.2))) ^ 2
      = (s - t) ^ 2 * ((p.1 - q.1) ^ 2 + (p.2 - q.2) ^ 2) by ring,
    sqrt_mul (sq_nonneg _), sqrt_sq_eq_abs]

theorem dot_unit_le (p q : V2) {c s : ℝ} (h : c ^ 2 + s ^ 2 = 1) :
    |(q.1 - p.1) * c + (q.2 - p.2) * s| ≤ Spec.dist p q := by
  apply abs_le_sqrt
  nlinarith [sq_nonneg ((q.1 - p.1) * s - (q.2 - p.2) * c)]

/-- A leg that passes the 50-point check keeps the stated distance from every obstacle. -/
theorem leg_margin (P : Params) (p q : V2) (h : ¬ Spec.Blocked P p q) (t : ℝ) (h0 : 0 ≤ t)
    (h1 : t ≤ 1) :
    (∀ c ∈ P.circles, c.r - Spec.dist p q / 98 < Spec.dist (Spec.lerp p q t) (c.x, c.y)) ∧
    ∀ o ∈ P.rects, Spec.lerp p q t ∉ Spec.solidRect (o.x, o.y) o.ang
      (o.w / 2 - Spec.dist p q / 98) (o.h / 2 - Spec.dist p q / 98) := by
  obtain ⟨k, hk, hkt⟩ := nearest_sample h0 h1
  have hd : 0 ≤ Spec.dist p q := sqrt_nonneg _
  constructor
  · intro c hc
    by_contra hlt
    refine h ⟨k, hk, Or.inl ⟨c, hc, ?_⟩⟩
    have := dist_triangle (Spec.lerp p q (k / 49)) (Spec.lerp p q t) (c.x, c.y)
    rw [dist_lerp] at this
    nlinarith
  · rintro o ho ⟨s, u, hs, hu, e⟩
    refine h ⟨k, hk, Or.inr ⟨o, ho, ?_⟩⟩
    set δ := (k : ℝ) / 49 - t with hδ
    have hcs := cos_sq_add_sin_sq o.ang
    have b1 := dot_unit_le p q (c := cos o.ang) (s := sin o.ang) hcs
    have b2 := dot_unit_le p q (c := -sin o.ang) (s := cos o.ang) (by rw [neg_sq]; linarith)
    have m1 : |δ * ((q.1 - p.1) * cos o.ang + (q.2 - p.2) * sin o.ang)| ≤ Spec.dist p q / 98 := by
      rw [abs_mul]
      calc _ ≤ 1 / 98 * Spec.dist p q := mul_le_mul hkt b1 (abs_nonneg _) (by norm_num)
        _ = _ := by ring
    have m2 : |δ * ((q.1 - p.1) * -sin o.ang + (q.2 - p.2) * cos o.ang)| ≤ Spec.dist p q / 98 := by
      rw [abs_mul]
      calc _ ≤ 1 / 98 * Spec.dist p q := mul_le_mul hkt b2 (abs_nonneg _) (by norm_num)
        _ = _ := by ring
    refine ⟨s + δ * ((q.1 - p.1) * cos o.ang + (q.2 - p.2) * sin o.ang),
      u + δ * ((q.1 - p.1) * -sin o.ang + (q.2 - p.2) * cos o.ang), ?_, ?_, ?_⟩
    · exact (abs_add_le _ _).trans (by linarith)
    · exact (abs_add_le _ _).trans (by linarith)
    · have e1 := congrArg Prod.fst e
      have e2 := congrArg Prod.snd e
      simp only [Spec.lerp, Spec.frame] at e1 e2
      apply Prod.ext
      · simp only [Spec.lerp, Spec.frame]
        have : (k : ℝ) / 49 = t + δ := by rw [hδ]; ring
        rw [this]
        linear_combination e1 - δ * (q.1 - p.1) * hcs
      · simp only [Spec.lerp, Spec.frame]
        have : (k : ℝ) / 49 = t + δ := by rw [hδ]; ring
        rw [this]
        linear_combination e2 - δ * (q.2 - p.2) * hcs

/-- **C49, partial.** If one of the candidate paths passes the check, the demonstration follows a
path each leg of which stays clear of the obstacles up to 1/98 of its length: circles shrunk by that
amount, rectangles shrunk by that amount on every side. Missing: the full obstacles (refuted
below), and the size of the vehicle, which the check ignores. -/
theorem C49_margin_partial (P : Params) (hz : Bool) (pref : ℤ) (x0 : V2) (xg : Q4) (hH : 4 ≤ P.H)
    (hc : Spec.Clear P (Spec.straight x0 (xg.px, xg.py)) ∨
      Spec.Clear P (Spec.cornerH x0 (xg.px, xg.py)) ∨
      Spec.Clear P (Spec.cornerV x0 (xg.px, xg.py))) :
    ∃ rows path, Demo.generate P hz pref x0 xg = .ok rows ∧ Spec.Follows path P.H xg rows ∧
      ∀ leg ∈ path.zip path.tail, ∀ t, 0 ≤ t → t ≤ 1 →
        (∀ c ∈ P.circles, c.r - Spec.dist leg.1 leg.2 / 98 <
          Spec.dist (Spec.lerp leg.1 leg.2 t) (c.x, c.y)) ∧
        ∀ o ∈ P.rects, Spec.lerp leg.1 leg.2 t ∉ Spec.solidRect (o.x, o.y) o.ang
          (o.w / 2 - Spec.dist leg.1 leg.2 / 98) (o.h / 2 - Spec.dist leg.1 leg.2 / 98) := by
  obtain ⟨rows, path, h1, h2, h3⟩ := C48_wellformed P hz pref x0 xg hH
  refine ⟨rows, path, h1, h3, ?_⟩
  have hclear : Spec.Clear P path := by
    by_cases a : Spec.Clear P (Spec.straight x0 (xg.px, xg.py))
    · rw [h2.direct a]; exact a
    · by_cases b : Spec.Clear P (if hz then Spec.cornerH x0 (xg.px, xg.py)
          else Spec.cornerV x0 (xg.px, xg.py))
      · rw [h2.first a b]; exact b
      · have c : Spec.Clear P (if hz then Spec.cornerV x0 (xg.px, xg.py)
            else Spec.cornerH x0 (xg.px, xg.py)) := by
          cases hz <;> simp_all
        rw [h2.second a b c]; exact c
  intro leg hleg t h0 h1
  exact leg_margin P leg.1 leg.2 (hclear leg hleg) t h0 h1

/-- A pole between two samples of the line from `(0,0)` to `(98,0)`. -/
noncomputable def gapCase : Params := Params.default [⟨1, 0, 0.5⟩] []

theorem gapCase_clear : Spec.Clear gapCase (Spec.straight (0, 0) (98, 0)) := by
  intro s hs
  simp only [Spec.straight, List.tail_cons, List.zip_cons_cons, List.zip_nil_right,
    List.mem_cons, List.not_mem_nil, or_false] at hs
  subst hs
  rintro ⟨k, _, hk⟩
  simp only [Spec.Hits, gapCase, Params.default, List.mem_singleton, exists_eq_left,
    List.not_mem_nil, false_and, exists_false, or_false, Spec.dist, Spec.lerp] at hk
  rw [sqrt_le_left (by norm_num)] at hk
  rcases Nat.eq_zero_or_pos k with rfl | hpos
  · norm_num at hk
  · have : (1 : ℝ) ≤ k := by exact_mod_cast hpos
    nlinarith

/-- **C49 is false**: the straight demonstration is accepted and runs through the middle of an
obstacle that lies between two sample points. -/
theorem C49_refuted : ∃ rows,
    Demo.generate gapCase true 0 (0, 0) ⟨98, 0, 0, 0⟩ = .ok rows ∧
    Spec.Clear gapCase (Spec.straight (0, 0) (98, 0)) ∧
    Spec.Follows (Spec.straight (0, 0) (98, 0)) 50 ⟨98, 0, 0, 0⟩ rows ∧
    ∃ t, 0 ≤ t ∧ t ≤ 1 ∧ ∃ c ∈ gapCase.circles,
      0 < c.r ∧ Spec.lerp (0, 0) (98, 0) t = (c.x, c.y) := by
  obtain ⟨rows, path, h1, h2, h3⟩ := C48_wellformed gapCase true 0 (0, 0) ⟨98, 0, 0, 0⟩
    (by norm_num [gapCase, Params.default])
  rw [h2.direct gapCase_clear] at h3
  refine ⟨rows, h1, gapCase_clear, h3, 1 / 98, by norm_num, by norm_num, ⟨1, 0, 0.5⟩,
    by simp [gapCase, Params.default], by norm_num, ?_⟩
  norm_num [Spec.lerp]

/-- Non-vacuity of `C49_margin_partial`. -/
example : ∃ rows path, Demo.generate gapCase true 0 (0, 0) ⟨98, 0, 0, 0⟩ = .ok rows ∧
    Spec.Follows path 50 ⟨98, 0, 0, 0⟩ rows := by
  obtain ⟨rows, path, h1, h2, _⟩ := C49_margin_partial gapCase true 0 (0, 0) ⟨98, 0, 0, 0⟩
    (by norm_num [gapCase, Params.default]) (Or.inl gapCase_clear)
  exact ⟨rows, path, h1, h2⟩

end Mbd
