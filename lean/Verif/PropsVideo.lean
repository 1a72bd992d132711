import Verif.Video
import Mathlib.Data.List.Nodup
import Batteries.Data.List.Perm
import Mathlib.Tactic.Ring
import Mathlib.Tactic.Linarith

/-!
# C68: saved videos

A saved animation becomes a video that shows exactly its pictures in order, whatever an earlier run left
in the directory; only pictures are deleted; the videos of the trials of an evaluation are all kept and
joined in the order of their names.
-/

namespace Mbd

/-! ## Names -/

theorem ofDigitChars_replicate_zero (l : List Char) : ∀ n,
    Nat.ofDigitChars 10 (List.replicate n '0' ++ l) 0 = Nat.ofDigitChars 10 l 0
  | 0 => rfl
  | n + 1 => by
    rw [List.replicate_succ, List.cons_append, Nat.ofDigitChars_cons]
    exact ofDigitChars_replicate_zero l n

theorem padded_injective (w : ℕ) : Function.Injective (padded w) := by
  intro a b h
  have key : ∀ k, Nat.ofDigitChars 10 (padded w k) 0 = k := by
    intro k
    unfold padded List.leftpad
    rw [ofDigitChars_replicate_zero, Nat.ofDigitChars_ten_toDigits]
  rw [← key a, h, key b]

theorem frameName_injective : Function.Injective frameName := by
  intro a b h
  unfold frameName at h
  rw [List.append_cancel_right_eq, List.append_cancel_left_eq] at h
  exact padded_injective 4 h

theorem trialName_injective : Function.Injective trialName := by
  intro a b h
  unfold trialName at h
  rw [List.append_cancel_right_eq, List.append_cancel_left_eq] at h
  exact padded_injective 3 h

theorem isPng_frameName (k : ℕ) : isPng (frameName k) = true := by
  unfold isPng frameName
  rw [List.isSuffixOf_iff_suffix]
  exact List.suffix_append _ _

theorem isFrame_frameName (k : ℕ) : isFrame (frameName k) = true := by
  unfold isFrame
  rw [isPng_frameName, Bool.and_true, List.isPrefixOf_iff_prefix]
  unfold frameName
  rw [List.append_assoc]
  exact List.prefix_append _ _

theorem isProgress_trialName (k : ℕ) : isProgress (trialName k) = true := by
  unfold isProgress trialName
  rw [Bool.and_eq_true, List.isPrefixOf_iff_prefix, List.isSuffixOf_iff_suffix]
  refine ⟨?_, List.suffix_append _ _⟩
  rw [List.append_assoc]
  exact List.prefix_append _ _

/-- A name with one four-letter ending does not have another. -/
theorem isPng_of_mp4 {n : FileName} (h : ".mp4".toList <:+ n) : isPng n = false := by
  by_contra hc
  rw [Bool.not_eq_false] at hc
  unfold isPng at hc
  rw [List.isSuffixOf_iff_suffix] at hc
  have := List.suffix_of_suffix_length_le h hc (by decide)
  revert this
  decide

theorem isPng_trialName (k : ℕ) : isPng (trialName k) = false :=
  isPng_of_mp4 (List.suffix_append _ _)

/-! ## The directory -/

namespace Dir

variable {P : Type}

theorem file_write (d : Dir P) (n : FileName) (f : SavedFile P) (m : FileName) :
    (d.write n f).file m = if m = n then some f else d.file m := by
  unfold Dir.file Dir.write
  rw [List.find?_cons]
  by_cases h : m = n
  · subst h; simp
  · rw [if_neg h]
    have : (n == m) = false := beq_eq_false_iff_ne.2 (Ne.symm h)
    simp only [this]
    rw [List.find?_filter]
    congr 2
    funext g
    by_cases hg : g.1 = m
    · simp [hg, h]
    · simp [hg]

theorem file_filter (d : Dir P) (p : FileName → Bool) (m : FileName) :
    Dir.file (d.filter fun f => p f.1) m = if p m then d.file m else none := by
  unfold Dir.file
  rw [List.find?_filter]
  by_cases h : p m = true
  · rw [if_pos h]
    congr 2
    funext g
    by_cases hg : g.1 = m
    · simp [hg, h]
    · simp [hg]
  · rw [if_neg h]
    simp only [Option.map_eq_none_iff, List.find?_eq_none]
    intro g _
    by_cases hg : g.1 = m
    · simp [hg, h]
    · simp [hg]

theorem nodup_write (d : Dir P) (n : FileName) (f : SavedFile P) (h : (d.map Prod.fst).Nodup) :
    ((d.write n f).map Prod.fst).Nodup := by
  unfold Dir.write
  rw [List.map_cons, List.nodup_cons]
  refine ⟨?_, ?_⟩
  · simp only [List.mem_map, List.mem_filter]
    rintro ⟨g, ⟨-, hg⟩, rfl⟩
    simp at hg
  · exact h.sublist (List.filter_sublist.map _)

theorem nodup_filter (d : Dir P) (p : FileName × SavedFile P → Bool) (h : (d.map Prod.fst).Nodup) :
    ((d.filter p).map Prod.fst).Nodup := h.sublist (List.filter_sublist.map _)

theorem mem_names (d : Dir P) (m : FileName) : m ∈ d.map Prod.fst ↔ d.file m ≠ none := by
  unfold Dir.file
  simp only [ne_eq, Option.map_eq_none_iff, List.find?_eq_none, List.mem_map]
  push Not
  constructor
  · rintro ⟨g, hg, rfl⟩; exact ⟨g, hg, by simp⟩
  · rintro ⟨g, hg, e⟩; exact ⟨g, hg, by simpa using e⟩

end Dir

theorem saveFrames_spec {P : Type} : ∀ (ps : List P) (d : Dir P) (k : ℕ),
    ((d.map Prod.fst).Nodup → ((saveFrames d k ps).map Prod.fst).Nodup) ∧
    (∀ m, (∀ j < ps.length, m ≠ frameName (k + j)) → (saveFrames d k ps).file m = d.file m) ∧
    (∀ j (h : j < ps.length), (saveFrames d k ps).file (frameName (k + j)) = some (.picture ps[j])) := by
  intro ps
  induction ps with
  | nil => intro d k; simp [saveFrames]
  | cons p ps ih =>
    intro d k
    obtain ⟨i1, i2, i3⟩ := ih (d.write (frameName k) (.picture p)) (k + 1)
    refine ⟨fun h => i1 (Dir.nodup_write d _ _ h), fun m hm => ?_, fun j hj => ?_⟩
    · rw [saveFrames, i2 m, Dir.file_write, if_neg]
      · exact hm 0 (by simp)
      · intro j hj
        have := hm (j + 1) (by simpa using hj)
        rwa [show k + (j + 1) = k + 1 + j by omega] at this
    · cases j with
      | zero =>
        rw [saveFrames, i2, Dir.file_write, Nat.add_zero, if_pos rfl]
        · rfl
        · intro j _ e
          have := frameName_injective e
          omega
      | succ j =>
        rw [saveFrames, show k + (j + 1) = k + 1 + j by omega]
        exact i3 j (by simpa using hj)

theorem readFrames_spec {P : Type} (d : Dir P) : ∀ (ps : List P) (fuel k : ℕ), ps.length < fuel →
    (∀ j (h : j < ps.length), d.file (frameName (k + j)) = some (.picture ps[j])) →
    d.file (frameName (k + ps.length)) = none → readFrames d fuel k = ps := by
  intro ps
  induction ps with
  | nil =>
    intro fuel k hf _ hn
    obtain ⟨g, rfl⟩ : ∃ g, fuel = g + 1 := ⟨fuel - 1, by simp at hf; omega⟩
    have : d.file (frameName k) = none := by simpa using hn
    simp only [readFrames, this]
  | cons p ps ih =>
    intro fuel k hf hp hn
    obtain ⟨g, rfl⟩ : ∃ g, fuel = g + 1 := ⟨fuel - 1, by omega⟩
    have h0 : d.file (frameName k) = some (.picture p) := hp 0 (by simp)
    simp only [readFrames, h0]
    rw [ih g (k + 1) (by simp at hf; omega)]
    · intro j hj
      have := hp (j + 1) (by simpa using hj)
      rw [show k + 1 + j = k + (j + 1) by omega]
      simpa using this
    · rw [show k + 1 + ps.length = k + (p :: ps).length by simp; omega]
      exact hn

/-- A directory with the pictures `0 .. m-1` has at least `m` files. -/
theorem le_length_of_frames {P : Type} (d : Dir P) (m : ℕ)
    (h : ∀ j < m, d.file (frameName j) ≠ none) : m ≤ d.length := by
  have hn : ((List.range m).map frameName).Nodup := 
    List.Nodup.map frameName_injective List.nodup_range
  have hs : (List.range m).map frameName ⊆ d.map Prod.fst := by
    intro x hx
    obtain ⟨j, hj, rfl⟩ := List.mem_map.1 hx
    exact (d.mem_names _).2 (h j (List.mem_range.1 hj))
  simpa using (List.subperm_of_subset hn hs).length_le

theorem any_isFrame {P : Type} (d : Dir P) :
    (d.any fun f => isFrame f.1) = true ↔ ∃ n, isFrame n = true ∧ d.file n ≠ none := by
  rw [List.any_eq_true]
  constructor
  · rintro ⟨f, hf, h⟩
    exact ⟨f.1, h, (d.mem_names _).1 (List.mem_map.2 ⟨f, hf, rfl⟩)⟩
  · rintro ⟨n, h, hn⟩
    obtain ⟨f, hf, rfl⟩ := List.mem_map.1 ((d.mem_names n).2 hn)
    exact ⟨f, hf, h⟩

theorem setupSaving_file {P : Type} (d : Dir P) (m : FileName) :
    (setupSaving d).file m = if isPng m then none else d.file m := by
  unfold setupSaving
  rw [Dir.file_filter d (fun n => !isPng n) m]
  cases isPng m <;> simp

theorem isPng_of_isFrame {m : FileName} (h : isFrame m = true) : isPng m = true := by
  unfold isFrame at h
  rw [Bool.and_eq_true] at h
  exact h.2

/-- What is in the directory when the pictures of one animation have been saved. -/
theorem saved_file {P : Type} (d : Dir P) (ps : List P) (m : FileName)
    (h : ∀ j < ps.length, m ≠ frameName j) :
    (saveFrames (setupSaving d) 0 ps).file m = if isPng m then none else d.file m := by
  rw [(saveFrames_spec ps (setupSaving d) 0).2.1 m (by simpa using h), setupSaving_file]

theorem saved_picture {P : Type} (d : Dir P) (ps : List P) (j : ℕ) (h : j < ps.length) :
    (saveFrames (setupSaving d) 0 ps).file (frameName j) = some (.picture ps[j]) := by
  have := (saveFrames_spec ps (setupSaving d) 0).2.2 j h
  rwa [Nat.zero_add] at this

theorem not_frame_of_not_png {m : FileName} (h : isPng m = false) (j : ℕ) : m ≠ frameName j := by
  rintro rfl
  rw [isPng_frameName] at h
  cases h

/-- **C68.** Saving an animation: afterwards the video of the given name shows exactly its pictures, in
order, whatever was in the directory before; no picture file is left; every other file is as it was. -/
theorem C68_video {P : Type} (d : Dir P) (name : FileName) (hname : isPng name = false) (ps : List P)
    (hps : ps ≠ []) :
    (saveAnimation true d name ps).file name = some (.video ps) ∧
    (∀ m, isPng m = true → (saveAnimation true d name ps).file m = none) ∧
    (∀ m, isPng m = false → m ≠ name → (saveAnimation true d name ps).file m = d.file m) := by
  have hlen : 0 < ps.length := List.length_pos_iff.2 hps
  have hany : ((saveFrames (setupSaving d) 0 ps).any fun f => isFrame f.1) = true := by
    rw [any_isFrame]
    exact ⟨frameName 0, isFrame_frameName 0, by rw [saved_picture d ps 0 hlen]; simp⟩
  have hread : readFrames (saveFrames (setupSaving d) 0 ps)
      ((saveFrames (setupSaving d) 0 ps).length + 1) 0 = ps := by
    apply readFrames_spec
    · have := le_length_of_frames (saveFrames (setupSaving d) 0 ps) ps.length
        (fun j hj => by rw [saved_picture d ps j hj]; simp)
      omega
    · intro j hj
      rw [Nat.zero_add]
      exact saved_picture d ps j hj
    · rw [Nat.zero_add, saved_file, isPng_frameName]
      · rfl
      · intro j hj e
        have := frameName_injective e
        omega
  have hfile : ∀ m, (saveAnimation true d name ps).file m =
      if isPng m then none else if m = name then some (.video ps) else d.file m := by
    intro m
    unfold saveAnimation exportVideo
    rw [if_pos hany, if_pos rfl, hread, Dir.file_filter _ (fun n => !isPng n) m, Dir.file_write]
    cases hm : isPng m with
    | true => simp
    | false =>
      simp only [Bool.not_false, if_true, Bool.false_eq_true, if_false]
      by_cases e : m = name
      · rw [if_pos e, if_pos e]
      · rw [if_neg e, if_neg e, saved_file d ps m (fun j _ => not_frame_of_not_png hm j), hm]
        rfl
  refine ⟨?_, fun m hm => ?_, fun m hm e => ?_⟩
  · rw [hfile, hname]; simp
  · rw [hfile, hm]; rfl
  · rw [hfile, hm, if_neg e]; rfl

/-- **C68.** An animation without pictures makes no video and changes nothing but left-over pictures. -/
theorem C68_empty {P : Type} (ok : Bool) (d : Dir P) (name : FileName) (m : FileName) :
    (saveAnimation ok d name []).file m = if isPng m then none else d.file m := by
  have hany : ¬ ((setupSaving d).any fun f => isFrame f.1) = true := by
    rw [any_isFrame]
    rintro ⟨n, hn, h⟩
    rw [setupSaving_file, isPng_of_isFrame hn] at h
    exact h rfl
  unfold saveAnimation exportVideo saveFrames
  rw [if_neg hany, setupSaving_file]

/-- **C68.** When ffmpeg fails, the pictures of this animation (and no others) are in the directory for
another attempt, and no other file has changed; a video of the same name is still the old one. -/
theorem C68_failed {P : Type} (d : Dir P) (name : FileName) (ps : List P) :
    (∀ j (h : j < ps.length), (saveAnimation false d name ps).file (frameName j) = some (.picture ps[j])) ∧
    (∀ m, isPng m = true → (∀ j < ps.length, m ≠ frameName j) →
      (saveAnimation false d name ps).file m = none) ∧
    (∀ m, isPng m = false → (saveAnimation false d name ps).file m = d.file m) := by
  have h : saveAnimation false d name ps = saveFrames (setupSaving d) 0 ps := by
    unfold saveAnimation exportVideo
    simp
  rw [h]
  refine ⟨fun j hj => saved_picture d ps j hj, fun m hm hj => ?_, fun m hm => ?_⟩
  · rw [saved_file d ps m hj, hm]; rfl
  · rw [saved_file d ps m (fun j _ => not_frame_of_not_png hm j), hm]; rfl

/-- **C68.** The videos of the trials of an evaluation: each trial has its own video with its own
pictures, the later trials do not overwrite it, and every other file that is not a picture is as it was. -/
theorem C68_trials {P : Type} : ∀ (trials : List (List P)) (d : Dir P) (k : ℕ), (∀ t ∈ trials, t ≠ []) →
    (∀ i (h : i < trials.length),
      (progressVideos d k trials).file (trialName (k + i + 1)) = some (.video trials[i])) ∧
    (∀ m, isPng m = false → (∀ i < trials.length, m ≠ trialName (k + i + 1)) →
      (progressVideos d k trials).file m = d.file m) := by
  intro trials
  induction trials with
  | nil => intro d k _; simp [progressVideos]
  | cons t rest ih =>
    intro d k ht
    obtain ⟨v1, -, v3⟩ := C68_video d (trialName (k + 1)) (isPng_trialName _) t (ht t (by simp))
    obtain ⟨i1, i2⟩ := ih (saveAnimation true d (trialName (k + 1)) t) (k + 1)
      (fun t' h' => ht t' (List.mem_cons_of_mem _ h'))
    refine ⟨fun i hi => ?_, fun m hm hne => ?_⟩
    · cases i with
      | zero =>
        rw [progressVideos, i2 _ (isPng_trialName _), Nat.add_zero, v1]
        · rfl
        · intro i _ e
          have := trialName_injective e
          omega
      | succ i =>
        rw [progressVideos, show k + (i + 1) + 1 = k + 1 + i + 1 by omega]
        exact i1 i (by simpa using hi)
    · rw [progressVideos, i2 m hm, v3 m hm]
      · exact hne 0 (by simp)
      · intro i hi
        have := hne (i + 1) (by simpa using hi)
        rwa [show k + (i + 1) + 1 = k + 1 + i + 1 by omega] at this

/-! ## The joined video -/

theorem nodup_saveAnimation {P : Type} (ok : Bool) (d : Dir P) (name : FileName) (ps : List P)
    (h : (d.map Prod.fst).Nodup) : ((saveAnimation ok d name ps).map Prod.fst).Nodup := by
  have h1 := (saveFrames_spec ps (setupSaving d) 0).1 (Dir.nodup_filter d _ h)
  unfold saveAnimation exportVideo
  split_ifs
  · exact Dir.nodup_filter _ _ (Dir.nodup_write _ _ _ h1)
  · exact h1
  · exact h1

theorem nodup_progressVideos {P : Type} : ∀ (trials : List (List P)) (d : Dir P) (k : ℕ),
    (d.map Prod.fst).Nodup → ((progressVideos d k trials).map Prod.fst).Nodup
  | [], _, _, h => h
  | _ :: rest, _, k, h => nodup_progressVideos rest _ (k + 1) (nodup_saveAnimation true _ _ _ h)

theorem isPng_of_isProgress {m : FileName} (h : isProgress m = true) : isPng m = false := by
  unfold isProgress at h
  rw [Bool.and_eq_true, List.isSuffixOf_iff_suffix] at h
  exact isPng_of_mp4 h.2

/-- The names that are joined, when the earlier progress videos are among those of this evaluation. -/
theorem progress_names {P : Type} (d : Dir P) (hd : (d.map Prod.fst).Nodup) (trials : List (List P))
    (ht : ∀ t ∈ trials, t ≠ [])
    (hold : ∀ m, isProgress m = true → d.file m ≠ none → ∃ i < trials.length, m = trialName (i + 1)) :
    (((progressVideos d 0 trials).map Prod.fst).filter isProgress).Perm
      ((List.range trials.length).map fun i => trialName (i + 1)) := by
  obtain ⟨t1, t2⟩ := C68_trials trials d 0 ht
  rw [List.perm_ext_iff_of_nodup]
  · intro m
    rw [List.mem_filter, Dir.mem_names]
    simp only [List.mem_map, List.mem_range]
    constructor
    · rintro ⟨h1, h2⟩
      by_contra hc
      push Not at hc
      have hne : ∀ i < trials.length, m ≠ trialName (0 + i + 1) := by
        intro i hi e
        rw [Nat.zero_add] at e
        exact hc i hi e.symm
      rw [t2 m (isPng_of_isProgress h2) hne] at h1
      obtain ⟨i, hi, e⟩ := hold m h2 h1
      exact hc i hi e.symm
    · rintro ⟨i, hi, rfl⟩
      refine ⟨?_, isProgress_trialName _⟩
      have := t1 i hi
      rw [Nat.zero_add] at this
      rw [this]
      simp
  · exact (nodup_progressVideos trials d 0 hd).filter _
  · exact List.Nodup.map (fun a b e => by have := trialName_injective e; omega) List.nodup_range

theorem padded_three : ∀ a b c : Fin 10, padded 3 (100 * a.val + 10 * b.val + c.val) =
    [Nat.digitChar a.val, Nat.digitChar b.val, Nat.digitChar c.val] := by decide

theorem digitChar_lt : ∀ a b : Fin 10, a < b → Nat.digitChar a.val < Nat.digitChar b.val := by decide

/-- Up to 999 the names are in the order of the numbers. -/
theorem trialName_lt {a b : ℕ} (h : a < b) (hb : b ≤ 999) : trialName a < trialName b := by
  have key : ∀ k ≤ 999, ∃ x y z : Fin 10, k = 100 * x.val + 10 * y.val + z.val ∧
      trialName k = "progress_trial_".toList ++
        ([Nat.digitChar x.val, Nat.digitChar y.val, Nat.digitChar z.val] ++ ".mp4".toList) := by
    intro k hk
    refine ⟨⟨k / 100, by omega⟩, ⟨k / 10 % 10, by omega⟩, ⟨k % 10, by omega⟩, by simp only; omega, ?_⟩
    unfold trialName
    rw [← padded_three, List.append_assoc]
    congr 3
    simp only
    omega
  obtain ⟨x, y, z, ha', ea⟩ := key a (by omega)
  obtain ⟨x', y', z', hb', eb⟩ := key b hb
  rw [ea, eb]
  have app : ∀ (p : List Char) {s t : List Char}, s < t → p ++ s < p ++ t := by
    intro p
    induction p with
    | nil => intro s t h; exact h
    | cons c p ih =>
      intro s t h
      rw [List.cons_append, List.cons_append, List.cons_lt_cons_iff]
      exact Or.inr ⟨rfl, ih h⟩
  apply app
  simp only [List.cons_append, List.cons_lt_cons_iff]
  rcases Nat.lt_trichotomy x.val x'.val with hx | hx | hx
  · exact Or.inl (digitChar_lt x x' hx)
  · refine Or.inr ⟨by rw [hx], ?_⟩
    rcases Nat.lt_trichotomy y.val y'.val with hy | hy | hy
    · exact Or.inl (digitChar_lt y y' hy)
    · refine Or.inr ⟨by rw [hy], ?_⟩
      exact Or.inl (digitChar_lt z z' (by rw [Fin.lt_def]; omega))
    · omega
  · have := y.isLt; have := z.isLt; have := y'.isLt; have := z'.isLt
    omega

theorem merge_flat {P : Type} (d : Dir P) (vs : List (List P)) (hv : vs ≠ [])
    (hn : ((d.map Prod.fst).filter isProgress).mergeSort (fun a b => decide (a ≤ b)) =
      (List.range vs.length).map fun i => trialName (i + 1))
    (hf : ∀ i (h : i < vs.length), d.file (trialName (i + 1)) = some (.video vs[i])) :
    mergeProgress d = some vs.flatten := by
  unfold mergeProgress
  simp only [hn]
  have hne : (List.range vs.length).map (fun i => trialName (i + 1)) ≠ [] := by
    simpa using hv
  rw [if_neg hne]
  congr 1
  rw [List.flatMap_def, List.map_map]
  congr 1
  apply List.ext_getElem
  · simp
  · intro i h1 h2
    simp only [List.getElem_map, Function.comp_apply, List.getElem_range]
    rw [hf i h2]

theorem sorted_names_le (l : List FileName) :
    (l.mergeSort fun a b => decide (a ≤ b)).Pairwise (· ≤ ·) := by
  have := List.pairwise_mergeSort (le := fun a b : FileName => decide (a ≤ b))
    (fun a b c h1 h2 => by simp only [decide_eq_true_eq] at *; exact le_trans h1 h2)
    (fun a b => by simp only [Bool.or_eq_true, decide_eq_true_eq]; exact le_total a b) l
  simpa using this

/-- **C68 (up to 999 trials, no left-over progress videos).** The joined video of an evaluation shows
the trials one after the other in the order in which they were run.  `C68_merged_refuted` and
`C68_stale_refuted` show that both conditions are needed. -/
theorem C68_merged_partial {P : Type} (d : Dir P) (hd : (d.map Prod.fst).Nodup) (trials : List (List P))
    (h0 : trials ≠ []) (ht : ∀ t ∈ trials, t ≠ []) (hn : trials.length ≤ 999)
    (hold : ∀ m, isProgress m = true → d.file m ≠ none → ∃ i < trials.length, m = trialName (i + 1)) :
    evaluationVideo d trials = some trials.flatten := by
  unfold evaluationVideo
  apply merge_flat _ _ h0
  · apply List.Perm.eq_of_pairwise (le := (· ≤ ·))
    · intro a b _ _ h1 h2; exact le_antisymm h1 h2
    · exact sorted_names_le _
    · rw [List.pairwise_map]
      refine List.Pairwise.imp_of_mem ?_ List.pairwise_lt_range
      intro a b ha hb hab
      have hb' := List.mem_range.1 hb
      exact le_of_lt (trialName_lt (by omega) (by omega))
    · exact (List.mergeSort_perm _ _).trans (progress_names d hd trials ht hold)
  · intro i hi
    have := (C68_trials trials d 0 ht).1 i hi
    rwa [Nat.zero_add] at this

/-- **C68 (refuted).** For every evaluation of 1000 or more trials with distinct pictures the joined
video is not in the order of the trials: `progress_trial_1000.mp4` sorts before `progress_trial_101.mp4`.
(Trial number `i` has the single picture `i`; the directory is empty at the start.) -/
theorem C68_merged_refuted (n : ℕ) (hn : 1000 ≤ n) :
    evaluationVideo ([] : Dir ℕ) ((List.range n).map fun i => [i]) ≠ some (List.range n) := by
  intro hv
  set trials : List (List ℕ) := (List.range n).map fun i => [i] with htr
  have hlen : trials.length = n := by simp [htr]
  have ht : ∀ t ∈ trials, t ≠ [] := by
    intro t h
    obtain ⟨i, -, rfl⟩ := List.mem_map.1 h
    simp
  have hp := progress_names ([] : Dir ℕ) List.nodup_nil trials ht (fun m _ h => absurd rfl h)
  have hf := (C68_trials trials ([] : Dir ℕ) 0 ht).1
  set d := progressVideos ([] : Dir ℕ) 0 trials
  have hs := sorted_names_le ((d.map Prod.fst).filter isProgress)
  have hperm := (List.mergeSort_perm ((d.map Prod.fst).filter isProgress)
    (fun a b => decide (a ≤ b))).trans hp
  unfold evaluationVideo mergeProgress at hv
  simp only at hv
  change (if _ then none else some (List.flatMap _ (List.mergeSort (List.filter isProgress (d.map Prod.fst)) _)))
    = _ at hv
  generalize ((d.map Prod.fst).filter isProgress).mergeSort (fun a b => decide (a ≤ b)) = L at hv hs hperm
  split_ifs at hv with hL
  clear hL
  rw [Option.some.injEq] at hv
  -- the sorted names are those of the trials `σ`
  obtain ⟨σ, hσ, rfl⟩ : ∃ σ : List ℕ, (∀ i ∈ σ, i < n) ∧ L = σ.map fun i => trialName (i + 1) := by
    have hm : ∀ x ∈ L, ∃ i < n, x = trialName (i + 1) := by
      intro x hx
      obtain ⟨i, hi, e⟩ := List.mem_map.1 (hperm.subset hx)
      exact ⟨i, by rw [← hlen]; exact List.mem_range.1 hi, e.symm⟩
    clear hv hs hperm
    induction L with
    | nil => exact ⟨[], by simp, rfl⟩
    | cons x L ih =>
      obtain ⟨i, hi, rfl⟩ := hm x (by simp)
      obtain ⟨σ, h1, h2⟩ := ih (fun y hy => hm y (List.mem_cons_of_mem _ hy))
      refine ⟨i :: σ, ?_, by rw [h2]; rfl⟩
      intro j hj
      rcases List.mem_cons.1 hj with rfl | hj
      · exact hi
      · exact h1 j hj
  have hσ' : σ = List.range n := by
    rw [← hv, List.flatMap_map]
    clear hv hs hperm
    induction σ with
    | nil => rfl
    | cons i σ ih =>
      rw [List.flatMap_cons, ← ih (fun j hj => hσ j (List.mem_cons_of_mem _ hj))]
      have hi := hσ i (by simp)
      have := hf i (by rw [hlen]; exact hi)
      rw [Nat.zero_add] at this
      rw [this]
      simp [htr]
  rw [hσ', List.pairwise_map] at hs
  have h := List.pairwise_iff_getElem.1 hs 100 999 (by simp; omega) (by simp; omega) (by omega)
  simp only [List.getElem_range] at h
  revert h
  decide

/-- **C68.** No video is left out of the joined one. -/
theorem C68_complete {P : Type} (d : Dir P) (n : FileName) (hn : isProgress n = true) (ps : List P)
    (h : d.file n = some (.video ps)) : ∃ l, mergeProgress d = some l ∧ ps <:+: l := by
  have hm : n ∈ ((d.map Prod.fst).filter isProgress).mergeSort (fun a b => decide (a ≤ b)) := by
    rw [List.mem_mergeSort, List.mem_filter, Dir.mem_names, h]
    exact ⟨by simp, hn⟩
  unfold mergeProgress
  simp only
  rw [if_neg (List.ne_nil_of_mem hm)]
  refine ⟨_, rfl, ?_⟩
  obtain ⟨a, b, e⟩ := List.append_of_mem hm
  rw [e, List.flatMap_append, List.flatMap_cons, h]
  exact ⟨_, _, by rw [List.append_assoc]⟩

/-- **C68 (refuted).** The joined video of an evaluation may contain trials of an earlier one: only
pictures are deleted at the start, and a longer earlier evaluation leaves videos with higher numbers. -/
theorem C68_stale_refuted :
    ¬ ∀ (before trials : List (List ℕ)), trials ≠ [] → (∀ t ∈ trials, t ≠ []) → (∀ t ∈ before, t ≠ []) →
      evaluationVideo (progressVideos ([] : Dir ℕ) 0 before) trials = some trials.flatten := by
  intro h
  have hv := h [[1], [2]] [[3]] (by simp) (by simp) (by simp)
  have h1 := (C68_trials [[1], [2]] ([] : Dir ℕ) 0 (by simp)).1 1 (by simp)
  have h2 := (C68_trials [[3]] (progressVideos ([] : Dir ℕ) 0 [[1], [2]]) 0 (by simp)).2 (trialName 2)
    (isPng_trialName _) (by
      intro i hi e
      have := trialName_injective e
      simp at hi
      omega)
  obtain ⟨l, hl, hi⟩ := C68_complete (progressVideos (progressVideos ([] : Dir ℕ) 0 [[1], [2]]) 0 [[3]])
    (trialName 2) (isProgress_trialName _) [2] (h2.trans h1)
  have e : some l = some [[3]].flatten := hl.symm.trans hv
  rw [Option.some.injEq] at e
  subst e
  have := hi.subset (List.mem_singleton.2 rfl)
  simp at this

/-- The hypotheses can be met: two trials, in a directory with an unrelated file, a left-over picture and
an old video of the first trial; the joined video shows the new pictures in order. -/
example :
    evaluationVideo [(trialName 1, .video [7]), (frameName 9, .picture 8), ("a.txt".toList, .other)]
      [[1, 2], [3]] = some [1, 2, 3] := by
  apply C68_merged_partial _ _ _ (by simp) (by simp) (by simp)
  · intro m hm h
    by_cases e : m = trialName 1
    · exact ⟨0, by simp, e⟩
    · exfalso
      rw [← Dir.mem_names] at h
      simp only [List.map_cons, List.map_nil, List.mem_cons, List.not_mem_nil, or_false] at h
      rcases h with rfl | rfl | rfl
      · exact e rfl
      · revert hm; decide
      · revert hm; decide
  · decide

example : (saveAnimation true [(frameName 2, .picture 8), ("b.mp4".toList, .video [5])] "b.mp4".toList
    [1, 2]).file "b.mp4".toList = some (.video [1, 2]) :=
  (C68_video _ _ (by decide) _ (by simp)).1

end Mbd
