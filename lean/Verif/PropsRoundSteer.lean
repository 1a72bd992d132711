import Verif.PropsRoundReward
import Verif.PropsUpdate

/-!
# C86: the steering bonus in single precision
-/

namespace Mbd

open Real Classical _root_.Spec

namespace Rounded

variable {A : PlanArith}

/-- Two lists of equal length whose entries differ by at most `e`, those of the second at most `b`. -/
def CloseL (e b : ℝ) : List ℝ → List ℝ → Prop := List.Forall₂ fun x' x => |x' - x| ≤ e ∧ |x| ≤ b

theorem close_zip {e b e' b' e'' b'' : ℝ} {f g : ℝ → ℝ → ℝ}
    (h : ∀ x' x y' y, |x' - x| ≤ e → |x| ≤ b → |y' - y| ≤ e' → |y| ≤ b' → |f x' y' - g x y| ≤ e'' ∧ |g x y| ≤ b'') :
    ∀ {l' l m' m : List ℝ}, CloseL e b l' l → CloseL e' b' m' m → CloseL e'' b'' (List.zipWith f l' m') (List.zipWith g l m) := by
  intro l' l m' m hl
  induction hl generalizing m' m with
  | nil => intro _; exact List.Forall₂.nil
  | cons h1 hl ih =>
    intro hm
    cases hm with
    | nil => exact List.Forall₂.nil
    | cons h2 hm => exact List.Forall₂.cons (h _ _ _ _ h1.1 h1.2 h2.1 h2.2) (ih hm)

theorem close_map {α : Type} {e b : ℝ} {f g : α → ℝ} : ∀ {l : List α}, (∀ x ∈ l, |f x - g x| ≤ e ∧ |g x| ≤ b) → CloseL e b (l.map f) (l.map g)
  | [], _ => List.Forall₂.nil
  | x :: l, h => List.Forall₂.cons (h x (by simp)) (close_map fun y hy => h y (by simp [hy]))

theorem close_map' {e b e' b' : ℝ} {f g : ℝ → ℝ} (h : ∀ x' x, |x' - x| ≤ e → |x| ≤ b → |f x' - g x| ≤ e' ∧ |g x| ≤ b') :
    ∀ {l' l : List ℝ}, CloseL e b l' l → CloseL e' b' (l'.map f) (l.map g) := by
  intro l' l hl
  induction hl with
  | nil => exact List.Forall₂.nil
  | cons h1 _ ih => exact List.Forall₂.cons (h _ _ h1.1 h1.2) ih

theorem close_tail {e b : ℝ} {l' l : List ℝ} (h : CloseL e b l' l) : CloseL e b l'.tail l.tail := by
  cases h with
  | nil => exact List.Forall₂.nil
  | cons _ h => exact h

theorem close_sum {e b : ℝ} {l' l : List ℝ} (h : CloseL e b l' l) :
    |l'.sum - l.sum| ≤ e * l.length ∧ (l'.map abs).sum ≤ (b + e) * l.length ∧ |l.sum| ≤ b * l.length ∧ l'.length = l.length := by
  induction h with
  | nil => simp
  | @cons x' x l' l h1 _ ih =>
    obtain ⟨i1, i2, i3, i4⟩ := ih
    obtain ⟨h1, h2⟩ := h1
    have h3 := abs_le_of_err h1 h2
    simp only [List.sum_cons, List.map_cons, List.length_cons, Nat.cast_add, Nat.cast_one]
    refine ⟨?_, ?_, ?_, by simpa using i4⟩
    · have t := abs_add_le (x' - x) (l'.sum - l.sum)
      rw [show x' - x + (l'.sum - l.sum) = x' + l'.sum - (x + l.sum) by ring] at t
      linarith
    · linarith
    · have t := abs_add_le x l.sum
      linarith

theorem mean32 (acc : Spec.Float32 A.toArith) (hs : ∀ l : List ℝ, l.length ≤ 1000 → |A.sum l - l.sum| ≤ 1e-4 * (l.map abs).sum)
    {e : ℝ} (he : e ≤ 1e-4) {l' l : List ℝ} (h : CloseL e 1 l' l) (hl : l ≠ []) (hn : l.length ≤ 1000) :
    |mean A l' - Mbd.mean l| ≤ e + 1.1e-4 := by
  obtain ⟨c1, c2, c3, c4⟩ := close_sum h
  have e0 : 0 ≤ e := by
    cases h with
    | nil => exact absurd rfl hl
    | cons h _ => exact (abs_nonneg _).trans h.1
  have s := hs l' (by omega)
  have n1 : (1 : ℝ) ≤ l.length := by exact_mod_cast List.length_pos_iff.mpr hl
  unfold mean Mbd.mean
  rw [c4]
  have cn := acc.const (l.length : ℝ)
  rw [abs_of_nonneg (by linarith : (0 : ℝ) ≤ l.length)] at cn
  generalize A.sum l' = S at *
  generalize l'.sum = s' at *
  generalize l.sum = s0 at *
  generalize (l'.map abs).sum = a at *
  generalize (l.length : ℝ) = n at *
  have hx : |S - s0| ≤ (e + 1.02e-4) * n := by
    have t := abs_add_le (S - s') (s' - s0)
    rw [sub_add_sub_cancel] at t
    have := mul_le_mul_of_nonneg_right he (show 0 ≤ n by linarith)
    nlinarith
  have hc : |A.const n - n| ≤ 7e-8 * n := by linarith
  have r : |s0 / n| ≤ 1 := by
    rw [abs_div, abs_of_pos (by linarith : 0 < n), div_le_one (by linarith)]; linarith
  have hb : ((e + 1.02e-4) * n + 1 * (7e-8 * n)) / (0.99 * n) = (e + 1.0207e-4) / 0.99 := by
    have : n ≠ 0 := by linarith
    field_simp; ring
  have hb' : (e + 1.0207e-4) / 0.99 ≤ 1.0102 * e + 1.032e-4 := by
    rw [div_le_iff₀ (by norm_num)]; linarith
  have q := quotient32 acc hx hc (by linarith) r le_rfl (by linarith) (by rw [hb]; linarith)
  rw [hb] at q
  linarith

theorem diff_term32 (acc : Spec.Float32 A.toArith) {thr : ℝ} (t0 : 0.05 ≤ thr) (t1 : thr ≤ 0.2) {x x' : ℝ} (hx : |x' - x| ≤ 1.3e-6)
    (_ : |x| ≤ 3) :
    |A.sub 1 (clip (square A (A.div |x'| (A.const thr))) 0 1) - (1 - clip ((|x| / thr) ^ 2) 0 1)| ≤ 6.3e-5 ∧
    |1 - clip ((|x| / thr) ^ 2) 0 1| ≤ 1 := by
  have hx' : |(|x'| - |x|)| ≤ 1.3e-6 := (abs_abs_sub_abs_le _ _).trans hx
  have hc := acc.const thr
  rw [abs_of_pos (by linarith : 0 < thr)] at hc
  have hc' : |A.const thr - thr| ≤ 2e-8 := by linarith
  have y0 := abs_nonneg x
  have y0' := abs_nonneg x'
  generalize |x| = y at *
  generalize |x'| = y' at *
  have z0 : 0 ≤ clip ((y / thr) ^ 2) 0 1 := le_clip (by norm_num)
  have z1 : clip ((y / thr) ^ 2) 0 1 ≤ 1 := clip_le _ _ _
  have key : |clip (square A (A.div y' (A.const thr))) 0 1 - clip ((y / thr) ^ 2) 0 1| ≤ 6.2e-5 := by
    rcases le_total (y / thr) 1.1 with h | h
    · have r : |y / thr| ≤ 1.1 := by rw [abs_of_nonneg (by positivity)]; exact h
      have e := ratio32 acc hx' hc' (by linarith) r (by norm_num) (by linarith) 2.7e-5 (by
        have : (1.3e-6 + 1.1 * 2e-8) / (0.99 * thr) ≤ 2.68e-5 := by
          rw [div_le_iff₀ (by linarith)]; linarith
        linarith) (by norm_num)
      exact clip_lip.trans (e.trans (by norm_num))
    · have hy : 1.1 * thr ≤ y := by rwa [le_div_iff₀ (by linarith)] at h
      obtain ⟨u1, u2⟩ := abs_le.mp hx'
      obtain ⟨v1, v2⟩ := abs_le.mp hc'
      have cp : 0 < A.const thr := by linarith
      have q1 : 1.09 ≤ y' / A.const thr := by rw [le_div_iff₀ cp]; linarith
      have d := acc.div y' (A.const thr) cp.ne'
      rw [abs_of_pos (by linarith : 0 < y' / A.const thr)] at d
      obtain ⟨d1, -⟩ := abs_le.mp d
      have q2 : 1.08 ≤ A.div y' (A.const thr) := by linarith
      have m := acc.mul (A.div y' (A.const thr)) (A.div y' (A.const thr))
      rw [abs_of_nonneg (mul_self_nonneg (A.div y' (A.const thr)))] at m
      obtain ⟨m1, -⟩ := abs_le.mp m
      have q3 : 1.08 * 1.08 ≤ A.div y' (A.const thr) * A.div y' (A.const thr) := mul_le_mul q2 q2 (by norm_num) (by linarith)
      have q4 : 1 ≤ square A (A.div y' (A.const thr)) := by unfold square; linarith
      have q5 : 1 ≤ (y / thr) ^ 2 := by nlinarith
      have c1 : ∀ {t : ℝ}, 1 ≤ t → clip t 0 1 = 1 := fun {t} ht => by
        unfold clip; rw [max_eq_left (by linarith), min_eq_right ht]
      rw [c1 q4, c1 q5]; norm_num
  generalize clip (square A (A.div y' (A.const thr))) 0 1 = c at *
  generalize clip ((y / thr) ^ 2) 0 1 = z at *
  obtain ⟨k1, k2⟩ := abs_le.mp key
  have s := acc.sub 1 c
  have sb : |1 - c| ≤ 1.1 := abs_le.mpr ⟨by linarith, by linarith⟩
  have s' : |A.sub 1 c - (1 - c)| ≤ 1e-7 := by linarith
  obtain ⟨w1, w2⟩ := abs_le.mp s'
  exact ⟨abs_le.mpr ⟨by linarith, by linarith⟩, abs_le.mpr ⟨by linarith, by linarith⟩⟩

theorem size_term32 (acc : Spec.Float32 A.toArith) {d : ℝ} (hd : |d| ≤ 1) :
    |A.sub 1 (square A |d|) - (1 - |d| ^ 2)| ≤ 2e-7 ∧ |1 - |d| ^ 2| ≤ 1 := by
  have m := acc.mul |d| |d|
  have d0 := abs_nonneg d
  have p0 : 0 ≤ |d| * |d| := by positivity
  have p1 : |d| * |d| ≤ 1 := by nlinarith
  unfold square
  rw [sq]
  generalize |d| * |d| = p at *
  rw [abs_of_nonneg p0] at m
  generalize A.mul |d| |d| = p' at *
  have m' : |p' - p| ≤ 6.1e-8 := by linarith
  obtain ⟨u1, u2⟩ := abs_le.mp m'
  have s := acc.sub 1 p'
  have sb : |1 - p'| ≤ 1.1 := abs_le.mpr ⟨by linarith, by linarith⟩
  have s' : |A.sub 1 p' - (1 - p')| ≤ 7e-8 := by linarith
  obtain ⟨w1, w2⟩ := abs_le.mp s'
  exact ⟨abs_le.mpr ⟨by linarith, by linarith⟩, abs_le.mpr ⟨by linarith, by linarith⟩⟩

theorem half_sum32 (acc : Spec.Float32 A.toArith) {a a' b b' : ℝ} (ha : |a' - a| ≤ 2e-7) (ab : |a| ≤ 1) (hb : |b' - b| ≤ 6.3e-5)
    (bb : |b| ≤ 1) : |A.mul 0.5 (A.add a' b') - 0.5 * (a + b)| ≤ 3.2e-5 ∧ |0.5 * (a + b)| ≤ 1 := by
  obtain ⟨u1, u2⟩ := abs_le.mp ha
  obtain ⟨u3, u4⟩ := abs_le.mp hb
  obtain ⟨u5, u6⟩ := abs_le.mp ab
  obtain ⟨u7, u8⟩ := abs_le.mp bb
  have s := acc.add a' b'
  have sb : |a' + b'| ≤ 2.1 := abs_le.mpr ⟨by linarith, by linarith⟩
  have s' : |A.add a' b' - (a' + b')| ≤ 1.3e-7 := by linarith
  generalize A.add a' b' = y at *
  obtain ⟨v1, v2⟩ := abs_le.mp s'
  have m := acc.mul 0.5 y
  have mb : |0.5 * y| ≤ 1.1 := abs_le.mpr ⟨by linarith, by linarith⟩
  have m' : |A.mul 0.5 y - 0.5 * y| ≤ 7e-8 := by linarith
  obtain ⟨w1, w2⟩ := abs_le.mp m'
  exact ⟨abs_le.mpr ⟨by linarith, by linarith⟩, abs_le.mpr ⟨by linarith, by linarith⟩⟩

theorem scaled32 (acc : Spec.Float32 A.toArith) {dm d : ℝ} (h0 : 0.5 ≤ dm) (h1 : dm ≤ 1.5) (hd : |d| ≤ 1) :
    |A.mul d (A.const dm) - d * dm| ≤ 2e-7 ∧ |d * dm| ≤ 1.5 := by
  have hc := acc.const dm
  rw [abs_of_pos (by linarith : 0 < dm)] at hc
  have hc' : |A.const dm - dm| ≤ 9.1e-8 := by linarith
  have b : |d * dm| ≤ 1.5 := by
    rw [abs_mul, abs_of_pos (by linarith : 0 < dm)]
    have := mul_le_mul hd h1 (by linarith) (by norm_num)
    linarith
  refine ⟨?_, b⟩
  have e : |d * A.const dm - d * dm| ≤ 9.1e-8 := by
    rw [← mul_sub, abs_mul]
    have := mul_le_mul hd hc' (abs_nonneg _) (by norm_num)
    linarith
  have m := acc.mul d (A.const dm)
  have b' := abs_le_of_err e b
  have t := abs_add_le (A.mul d (A.const dm) - d * A.const dm) (d * A.const dm - d * dm)
  rw [sub_add_sub_cancel] at t
  linarith

theorem diff32 (acc : Spec.Float32 A.toArith) {x x' y y' : ℝ} (hx : |x' - x| ≤ 2e-7) (xb : |x| ≤ 1.5) (hy : |y' - y| ≤ 2e-7)
    (yb : |y| ≤ 1.5) : |A.sub y' x' - (y - x)| ≤ 1.3e-6 ∧ |y - x| ≤ 3 := by
  have b : |y - x| ≤ 3 := (abs_sub _ _).trans (by linarith)
  refine ⟨?_, b⟩
  have e : |y' - x' - (y - x)| ≤ 4e-7 := by
    rw [show y' - x' - (y - x) = (y' - y) - (x' - x) by ring]
    exact (abs_sub _ _).trans (by linarith)
  have s := acc.sub y' x'
  have b' := abs_le_of_err e b
  have t := abs_add_le (A.sub y' x' - (y' - x')) (y' - x' - (y - x))
  rw [sub_add_sub_cancel] at t
  linarith

end Rounded

/-- C86, steering bonus: for a plan of up to 1000 actions in the allowed range and a steering limit between 0.5 and 1.5 rad (the default is
55 degrees) the bonus computed in single precision differs by at most 1.5e-4 from the exact one. -/
theorem C86_steering {A : PlanArith} (acc : RewardFloat32 A)
    (hs : ∀ l : List ℝ, l.length ≤ 1000 → |A.sum l - l.sum| ≤ 1e-4 * (l.map abs).sum) {dm : ℝ} (h0 : 0.5 ≤ dm) (h1 : dm ≤ 1.5)
    {Y : List U} (hY : Y ≠ []) (hn : Y.length ≤ 1000) (hu : ∀ u ∈ Y, |u.2| ≤ 1) :
    |Rounded.steeringReward A dm Y - steeringReward dm Y| ≤ 1.5e-4 := by
  have f := acc.float
  have hd : ∀ d ∈ Y.map Prod.snd, |d| ≤ 1 := by
    intro d h
    obtain ⟨u, hu', rfl⟩ := List.mem_map.mp h
    exact hu u hu'
  have len : (Y.map Prod.snd).length = Y.length := List.length_map _
  unfold Rounded.steeringReward steeringReward
  simp only
  generalize Y.map Prod.snd = ds at *
  have ne : ds ≠ [] := by
    intro h; rw [h] at len; exact hY (List.length_eq_zero_iff.mp len.symm)
  have c1 := Rounded.close_map (l := ds) (f := fun d => A.mul d (A.const dm)) (g := fun d => d * dm) fun d h => Rounded.scaled32 f h0 h1 (hd d h)
  have c2 := Rounded.close_zip (f := fun a b => A.sub b a) (g := fun a b => b - a) (fun x' x y' y a b c d => Rounded.diff32 f a b c d) c1
    (Rounded.close_tail c1)
  have c3 := Rounded.close_map' (fun x' x a b => Rounded.diff_term32 f (thr := 0.1 * dm) (by linarith) (by linarith) a b) c2
  have c4 := Rounded.close_map (l := ds) (f := fun d => A.sub 1 (Rounded.square A |d|)) (g := fun d => 1 - |d| ^ 2) fun d h =>
    Rounded.size_term32 f (hd d h)
  have c5 : Rounded.CloseL 6.3e-5 1 (1 :: (List.zipWith (fun a b => A.sub b a) (ds.map fun d => A.mul d (A.const dm))
      (ds.map fun d => A.mul d (A.const dm)).tail).map fun x' => A.sub 1 (clip (Rounded.square A (A.div |x'| (A.const (0.1 * dm)))) 0 1))
      (1 :: (List.zipWith (fun a b => b - a) (ds.map fun d => d * dm) (ds.map fun d => d * dm).tail).map fun x =>
        1 - clip ((|x| / (0.1 * dm)) ^ 2) 0 1) :=
    List.Forall₂.cons ⟨by norm_num, by norm_num⟩ c3
  have c6 := Rounded.close_zip (f := fun a b => A.mul 0.5 (A.add a b)) (g := fun a b => 0.5 * (a + b))
    (fun x' x y' y a b c d => Rounded.half_sum32 f a b c d) c4 c5
  have dpos : 0 < ds.length := List.length_pos_iff.mpr ne
  refine (Rounded.mean32 f hs (by norm_num) c6 ?_ ?_).trans (by norm_num)
  · rw [← List.length_pos_iff]
    simp; omega
  · simp; omega

theorem abs_sum_le_sum_abs (l : List ℝ) : |l.sum| ≤ (l.map abs).sum := by
  induction l with
  | nil => simp
  | cons a l ih =>
    simp only [List.sum_cons, List.map_cons]
    exact (abs_add_le _ _).trans (by linarith)

/-- The default steering limit, two actions, 24-bit rounding. -/
example : |Rounded.steeringReward single32 (deg2rad 55) [(1, 0.5), (0, -0.5)] - steeringReward (deg2rad 55) [(1, 0.5), (0, -0.5)]| ≤ 1.5e-4 :=
  C86_steering single32_reward
    (fun l _ => by
      show |rnd l.sum - l.sum| ≤ _
      have h1 := rnd_err l.sum
      have h2 := abs_sum_le_sum_abs l
      have h3 := abs_nonneg l.sum
      linarith)
    (by unfold deg2rad; linarith [pi_gt_d2]) (by unfold deg2rad; linarith [pi_lt_d2]) (by simp) (by simp)
    (by intro u hu; simp only [List.mem_cons, List.not_mem_nil, or_false] at hu; rcases hu with rfl | rfl <;> norm_num [abs_of_pos])

end Mbd
