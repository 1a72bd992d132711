import Verif.PropsDemo

/-!
# C48: how the demonstration is spaced
-/

namespace Spec

open Mbd

/-- `n` is the integer nearest to `x`; of two equally near ones the even one. -/
def NearestEven (x : ℝ) (n : ℤ) : Prop := |(n : ℝ) - x| ≤ 1 / 2 ∧ (|(n : ℝ) - x| = 1 / 2 → Even n)

/-- `n` of `H` rows belong to the first of two legs of lengths `l` and `d`: each leg gets its share of
the rows, rounded, and at least two; the leg with more rows (the first, if equal) gives or takes what is
missing to `H`. -/
def FirstLegRows (H : ℕ) (l d : ℝ) (n : ℤ) : Prop :=
  ∃ r s : ℤ, NearestEven (H * l / (l + d)) r ∧ NearestEven (H * d / (l + d)) s ∧
    n = if max 2 s ≤ max 2 r then (H : ℤ) - max 2 s else max 2 r

/-- Positions evenly spaced along the path: from `a` to `b` when the path is straight; on a path with a
corner `m`, `n` evenly spaced rows from `a` to before `m`, and the rest from `m` to `b`. -/
def EvenlySpaced (path : List Pt) (H : ℕ) (rows : List (Q4 × Bool)) : Prop :=
  (∀ a b, path = [a, b] → ∀ i (h : i < rows.length),
    (rows[i].1.px, rows[i].1.py) = lerp a b (i / (H - 1))) ∧
  ∀ a m b, path = [a, m, b] → ∃ n : ℤ, FirstLegRows H (dist a m) (dist m b) n ∧
    ∀ i (h : i < rows.length),
      ((i : ℤ) < n → (rows[i].1.px, rows[i].1.py) = lerp a m (i / n)) ∧
      (n ≤ (i : ℤ) → (rows[i].1.px, rows[i].1.py) = lerp m b ((i - n) / (H - n - 1)))

theorem NearestEven.unique {x : ℝ} {m n : ℤ} (hm : NearestEven x m) (hn : NearestEven x n) : m = n := by
  have a1 := abs_le.1 hm.1
  have a2 := abs_le.1 hn.1
  rcases lt_trichotomy m n with h | h | h
  · have h1 : (m : ℝ) + 1 ≤ n := by exact_mod_cast h
    have e1 := hm.2 (by rw [abs_of_nonpos (by linarith)]; linarith)
    have e2 := hn.2 (by rw [abs_of_nonneg (by linarith)]; linarith)
    have h2 : n ≤ m + 1 := by
      have : (n : ℝ) ≤ ((m + 1 : ℤ) : ℝ) := by push_cast; linarith
      exact_mod_cast this
    obtain ⟨u, hu⟩ := e1
    obtain ⟨v, hv⟩ := e2
    omega
  · exact h
  · have h1 : (n : ℝ) + 1 ≤ m := by exact_mod_cast h
    have e1 := hm.2 (by rw [abs_of_nonneg (by linarith)]; linarith)
    have e2 := hn.2 (by rw [abs_of_nonpos (by linarith)]; linarith)
    have h2 : m ≤ n + 1 := by
      have : (m : ℝ) ≤ ((n + 1 : ℤ) : ℝ) := by push_cast; linarith
      exact_mod_cast this
    obtain ⟨u, hu⟩ := e1
    obtain ⟨v, hv⟩ := e2
    omega

end Spec

namespace Mbd

open Real Classical

theorem roundEven_nearest (x : ℝ) : Spec.NearestEven x (Demo.roundEven x) := by
  refine ⟨Demo.roundEven_near x, ?_⟩
  have h1 := Int.floor_le x
  have h2 := Int.lt_floor_add_one x
  unfold Demo.roundEven
  split_ifs with c1 c2 c3
  · intro h
    rw [abs_of_nonpos (by linarith)] at h
    linarith
  · intro h
    push_cast at h
    rw [abs_of_nonneg (by linarith)] at h
    linarith
  · intro _; exact c3
  · intro _
    rw [Int.not_even_iff_odd] at c3
    exact c3.add_one

theorem pps_two_exact (H : ℕ) (hH : 4 ≤ H) {l m : ℝ} (hs : 0 < l + m) :
    ∃ a b : ℕ, Demo.pointsPerSegment H [l, m] = [(a : ℤ), (b : ℤ)] ∧ 1 ≤ a ∧ 2 ≤ b ∧ a + b = H ∧
      Spec.FirstLegRows H l m a := by
  obtain ⟨a, b, hp, ha, hb, hab⟩ := Demo.pps_two H hH hs
  refine ⟨a, b, hp, ha, hb, hab, _, _, roundEven_nearest _, roundEven_nearest _, ?_⟩
  simp only [Demo.pointsPerSegment, List.map_cons, List.map_nil, List.sum_cons, List.sum_nil,
    add_zero] at hp
  generalize Demo.roundEven (H * l / (l + m)) = r at *
  generalize Demo.roundEven (H * m / (l + m)) = s at *
  by_cases h : max 2 r + max 2 s = (H : ℤ)
  · rw [if_neg (by simpa using h)] at hp
    simp only [List.cons.injEq, and_true] at hp
    split_ifs <;> omega
  · rw [if_pos h] at hp
    by_cases hm : max 2 s ≤ max 2 r
    · have e0 : Demo.argmax [max 2 r, max 2 s] = 0 := by simp [Demo.argmax] at hm ⊢; omega
      rw [e0] at hp
      simp only [List.set_cons_zero, List.getD_cons_zero, List.cons.injEq, and_true] at hp
      rw [if_pos hm]; omega
    · have e0 : Demo.argmax [max 2 r, max 2 s] = 1 := by
        unfold Demo.argmax
        rw [if_neg (by simpa using hm)]
        simp [Demo.argmax]
      rw [e0] at hp
      simp only [List.set_cons_succ, List.set_cons_zero, List.getD_cons_succ, List.getD_cons_zero,
        List.cons.injEq, and_true] at hp
      rw [if_neg hm]; omega

theorem generate_pos {P : Params} {hz : Bool} {pref : ℤ} {x0 : V2} {xg : Q4}
    {rows : List (Q4 × Bool)} {pts : List (V2 × ℕ)}
    (hp : Demo.points P.H (Demo.waypoints P hz x0 (xg.px, xg.py)) (xg.px, xg.py) = .ok pts)
    (h : Demo.generate P hz pref x0 xg = .ok rows) (i : ℕ) (hi : i < rows.length) :
    ∃ hi' : i < pts.length, ((rows[i].1.px, rows[i].1.py) : V2) = pts[i].1 := by
  unfold Demo.generate at h
  simp only [hp] at h
  split_ifs at h
  simp only [Except.ok.injEq] at h
  have hpos := Demo.angles_pos pref xg.th1 xg.th2 (pts.map fun p => (p.1, decide
    (p.2 = (Demo.waypoints P hz x0 (xg.px, xg.py)).length - 2))) none
  rw [h] at hpos
  have hlen := congrArg List.length hpos
  simp only [List.length_map] at hlen
  have hi' : i < pts.length := hlen ▸ hi
  refine ⟨hi', ?_⟩
  have := congrArg (fun x : List (V2 × Bool) => x[i]?) hpos
  simp only [List.getElem?_map, List.getElem?_eq_getElem hi, List.getElem?_eq_getElem hi',
    Option.map_some, Option.some.injEq, Prod.mk.injEq] at this
  exact this.1

/-- **C48, spacing.** With at least four time steps the rows are evenly spaced along the chosen path; on
a path with a corner the two legs share the rows in proportion to their lengths, rounded to the nearest
integer (ties to even), at least two each. -/
theorem C48_spacing (P : Params) (hz : Bool) (pref : ℤ) (x0 : V2) (xg : Q4) (hH : 4 ≤ P.H) :
    ∃ rows path, Demo.generate P hz pref x0 xg = .ok rows ∧
      Spec.Chosen P hz x0 (xg.px, xg.py) path ∧ Spec.Follows path P.H xg rows ∧
      Spec.EvenlySpaced path P.H rows := by
  have hc := Demo.waypoints_chosen P hz x0 (xg.px, xg.py)
  obtain ⟨rows, path, hg, hch, hf⟩ := C48_wellformed P hz pref x0 xg hH
  have hpath : path = Demo.waypoints P hz x0 (xg.px, xg.py) := by
    by_cases c1 : Spec.Clear P (Spec.straight x0 (xg.px, xg.py))
    · rw [hch.direct c1, hc.direct c1]
    · by_cases c2 : Spec.Clear P (if hz then Spec.cornerH x0 (xg.px, xg.py)
          else Spec.cornerV x0 (xg.px, xg.py))
      · rw [hch.first c1 c2, hc.first c1 c2]
      · by_cases c3 : Spec.Clear P (if hz then Spec.cornerV x0 (xg.px, xg.py)
            else Spec.cornerH x0 (xg.px, xg.py))
        · rw [hch.second c1 c2 c3, hc.second c1 c2 c3]
        · have c4 : ¬ Spec.Clear P (Spec.cornerH x0 (xg.px, xg.py)) := by
            cases hz
            · simpa using c3
            · simpa using c2
          have c5 : ¬ Spec.Clear P (Spec.cornerV x0 (xg.px, xg.py)) := by
            cases hz
            · simpa using c2
            · simpa using c3
          rw [hch.fallback c1 c4 c5, hc.fallback c1 c4 c5]
  refine ⟨rows, path, hg, hch, hf, ?_, ?_⟩
  · intro a b hab i hi
    rw [hpath] at hab
    have ex : a = x0 ∧ b = (xg.px, xg.py) := by
      rcases Demo.waypoints_cases P hz x0 (xg.px, xg.py) with hw | ⟨m, hw, _⟩
      · rw [hw] at hab; simp only [List.cons.injEq, and_true] at hab; exact ⟨hab.1.symm, hab.2.symm⟩
      · rw [hw] at hab; simp at hab
    obtain ⟨rfl, rfl⟩ := ex
    have hp := Demo.points_two P.H (by omega) a (xg.px, xg.py)
    rw [← hab] at hp
    obtain ⟨hi', e⟩ := generate_pos hp hg i hi
    rw [e]
    have hiH : i < P.H := by simpa using hi'
    have hH' : (0 : ℝ) < (P.H : ℝ) - 1 := by
      have : (4 : ℝ) ≤ P.H := by exact_mod_cast hH
      linarith
    have : (i : ℝ) / (P.H - 1) ≤ 1 := by
      rw [div_le_one hH']
      have : (i : ℝ) + 1 ≤ P.H := by exact_mod_cast hiH
      linarith
    simp only [List.getElem_map, List.getElem_range, hab]
    simp [Spec.polyline, Spec.lerp, this]
  · intro a m b hab
    rw [hpath] at hab
    obtain ⟨hl, rfl, rfl⟩ : 0 < Demo.segLen (a, m) + Demo.segLen (m, b) ∧ a = x0 ∧
        b = (xg.px, xg.py) := by
      rcases Demo.waypoints_cases P hz x0 (xg.px, xg.py) with hw | ⟨m', hw, hl⟩
      · rw [hw] at hab; simp at hab
      · rw [hw] at hab
        simp only [List.cons.injEq, and_true] at hab
        obtain ⟨h1, h2, h3⟩ := hab
        subst h1 h2 h3
        exact ⟨hl, rfl, rfl⟩
    obtain ⟨n, k, hpp, hn, hk, hnk, hfl⟩ := pps_two_exact P.H hH hl
    have hp := Demo.points_three_of P.H a m (xg.px, xg.py) hl hpp hn hk hnk
    rw [← hab] at hp
    refine ⟨n, ?_, ?_⟩
    · have d1 : Demo.segLen (a, m) = Spec.dist a m := by
        simp only [Demo.segLen, norm2, Spec.dist, Prod.fst_sub, Prod.snd_sub]
        congr 1; ring
      have d2 : Demo.segLen (m, (xg.px, xg.py)) = Spec.dist m (xg.px, xg.py) := by
        simp only [Demo.segLen, norm2, Spec.dist, Prod.fst_sub, Prod.snd_sub]
        congr 1; ring
      rwa [d1, d2] at hfl
    · intro i hi
      obtain ⟨hi', e⟩ := generate_pos hp hg i hi
      have hiH : i < P.H := by simpa using hi'
      have hapos : (0 : ℝ) < n := by exact_mod_cast hn
      have hbpos : (0 : ℝ) < (k : ℝ) - 1 := by
        have : (2 : ℝ) ≤ k := by exact_mod_cast hk
        linarith
      have hR : (n : ℝ) + k = P.H := by exact_mod_cast hnk
      simp only [List.getElem_map, List.getElem_range, hab] at e
      constructor
      · intro h
        have h : i < n := by exact_mod_cast h
        rw [e]
        have h1 : (i : ℝ) / n ≤ 1 := by rw [div_le_one hapos]; exact_mod_cast h.le
        simp [h, Spec.polyline, Spec.lerp, h1]
      · intro h
        have h : n ≤ i := by exact_mod_cast h
        rw [e, if_neg (by omega)]
        have hnn : 0 ≤ ((i : ℝ) - n) / (k - 1) := by
          apply div_nonneg _ hbpos.le
          have : (n : ℝ) ≤ i := by exact_mod_cast h
          linarith
        have hle : ((i : ℝ) - n) / (k - 1) ≤ 1 := by
          rw [div_le_one hbpos]
          have : (i : ℝ) + 1 ≤ P.H := by exact_mod_cast hiH
          linarith
        have e2 : ((P.H : ℝ) - ((n : ℤ) : ℝ) - 1) = k - 1 := by
          push_cast; linarith
        rw [e2]
        push_cast
        generalize ((i : ℝ) - n) / (k - 1) = t at *
        by_cases hz0 : t = 0
        · subst hz0; simp [Spec.polyline, Spec.lerp]
        · have hgt : ¬ (1 + t ≤ 1) := by
            have := lt_of_le_of_ne hnn (Ne.symm hz0)
            linarith
          simp [Spec.polyline, Spec.lerp, hgt, hle]

/-- The number of rows on the first leg differs from its exact share by at most two. -/
theorem C48_share (H : ℕ) (l d : ℝ) (hl : 0 ≤ l) (hd : 0 ≤ d) (hs : 0 < l + d) (n : ℤ)
    (h : Spec.FirstLegRows H l d n) : |(n : ℝ) - H * l / (l + d)| ≤ 2 := by
  obtain ⟨r, s, hr, hs', rfl⟩ := h
  have e : (H : ℝ) * l / (l + d) + H * d / (l + d) = H := by field_simp
  have p1 : 0 ≤ (H : ℝ) * l / (l + d) := by positivity
  have p2 : 0 ≤ (H : ℝ) * d / (l + d) := by positivity
  have a1 := abs_le.1 hr.1
  have a2 := abs_le.1 hs'.1
  generalize (H : ℝ) * l / (l + d) = x at *
  generalize (H : ℝ) * d / (l + d) = y at *
  rw [abs_le]
  split_ifs with c
  · push_cast
    rcases le_total 2 s with h | h
    · have h' : (2 : ℝ) ≤ s := by exact_mod_cast h
      rw [max_eq_right h']; constructor <;> linarith
    · have h' : (s : ℝ) ≤ 2 := by exact_mod_cast h
      have : s = 2 ∨ (s : ℝ) ≤ 1 := by
        rcases eq_or_lt_of_le h with h | h
        · exact Or.inl h
        · right; have : s ≤ 1 := by omega
          exact_mod_cast this
      rw [max_eq_left h']
      rcases this with rfl | h3
      · push_cast at a2; constructor <;> linarith
      · constructor <;> linarith
  · push_cast
    rcases le_total 2 r with h | h
    · have h' : (2 : ℝ) ≤ r := by exact_mod_cast h
      rw [max_eq_right h']; constructor <;> linarith
    · have h' : (r : ℝ) ≤ 2 := by exact_mod_cast h
      have : r = 2 ∨ (r : ℝ) ≤ 1 := by
        rcases eq_or_lt_of_le h with h | h
        · exact Or.inl h
        · right; have : r ≤ 1 := by omega
          exact_mod_cast this
      rw [max_eq_left h']
      rcases this with rfl | h3
      · push_cast at a1; constructor <;> linarith
      · constructor <;> linarith

/-- Ties go to the even count: legs `3` and `5`, `20` steps, shares `7.5` and `12.5` give `8` rows on
the first leg. -/
example (n : ℤ) : Spec.FirstLegRows 20 3 5 n ↔ n = 8 := by
  have n1 : Spec.NearestEven (((20 : ℕ) : ℝ) * 3 / (3 + 5)) 8 := by
    refine ⟨by norm_num [abs_le], fun _ => ⟨4, by norm_num⟩⟩
  have n2 : Spec.NearestEven (((20 : ℕ) : ℝ) * 5 / (3 + 5)) 12 := by
    refine ⟨by norm_num [abs_le], fun _ => ⟨6, by norm_num⟩⟩
  constructor
  · rintro ⟨r, s, h1, h2, rfl⟩
    rw [h1.unique n1, h2.unique n2]; norm_num
  · rintro rfl
    exact ⟨8, 12, n1, n2, by norm_num⟩

/-- The corner path of `cornerCase` meets the hypotheses: legs of lengths `1` and `9`. -/
example : ∃ rows, Demo.generate (cornerCase 50) true 0 (0, 0) ⟨1, 9, 0, 0⟩ = .ok rows ∧
    ∃ n : ℤ, Spec.FirstLegRows 50 (Spec.dist (0, 0) (1, 0)) (Spec.dist (1, 0) (1, 9)) n ∧
    ∀ i (h : i < rows.length),
      ((i : ℤ) < n → (rows[i].1.px, rows[i].1.py) = Spec.lerp (0, 0) (1, 0) (i / n)) := by
  obtain ⟨rows, path, h1, h2, -, h3⟩ := C48_spacing (cornerCase 50) true 0 (0, 0) ⟨1, 9, 0, 0⟩
    (by norm_num [cornerCase])
  have hw := cornerCase_waypoints 50
  have hc := Demo.waypoints_chosen (cornerCase 50) true (0, 0) (1, 9)
  rw [hw] at hc
  have hns : ¬ Spec.Clear (cornerCase 50) (Spec.straight (0, 0) (1, 9)) := by
    intro h
    have := hc.direct h
    simp [Spec.straight] at this
  have hp : path = [(0, 0), (1, 0), (1, 9)] := by
    by_cases c : Spec.Clear (cornerCase 50) (Spec.cornerH (0, 0) (1, 9))
    · exact h2.first hns (by simpa using c)
    · by_cases c' : Spec.Clear (cornerCase 50) (Spec.cornerV (0, 0) (1, 9))
      · have := hc.second hns (by simpa using c) (by simpa using c')
        simp [Spec.cornerV] at this
      · have := hc.fallback hns c c'
        simp [Spec.straight] at this
  obtain ⟨n, hn, hr⟩ := h3.2 (0, 0) (1, 0) (1, 9) hp
  exact ⟨rows, h1, n, by simpa [cornerCase] using hn, fun i hi => (hr i hi).1⟩

end Mbd
