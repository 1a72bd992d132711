import Verif.Config
import Mathlib.Tactic.NormNum
import Mathlib.Tactic.Push
import Mathlib.Data.List.Nodup

/-!
# C45: configuration dictionaries are honoured
-/

namespace Spec

open Mbd

/-- The declared type of each attribute: a value of that type is what a user
writes for the key (`mbd_planner.py:53-117`, written out independently of the
conversion calls). -/
def declaredKind : Field → PyKind
  | .seed | .Nsample | .Hsample | .Ndiffuse | .motion_preference | .frame_skip
  | .num_trailers => .int
  | .env_name | .case => .str
  | .verbose | .enable_demo | .enable_shielded_rollout_collision
  | .enable_shielded_rollout_hitch | .enable_projection | .enable_guidance
  | .render | .save_animation | .show_animation | .save_denoising_animation => .bool
  | _ => .float

/-- A value that already has a given type. -/
def HasKind : Val → PyKind → Prop
  | .int _, .int => True
  | .float _, .float => True
  | .bool _, .bool => True
  | .str _, .str => True
  | _, _ => False

/-- The keys without which no configuration can be built. -/
def requiredFields : List Field :=
  [.seed, .render, .env_name, .case, .Nsample, .Hsample, .Ndiffuse, .temp_sample,
   .beta0, .betaT, .enable_demo, .save_animation, .show_animation,
   .save_denoising_animation, .dt]

/-- The attributes that a dictionary cannot set. -/
def droppedFields : List Field := [.verbose, .frame_skip, .num_trailers]

/-- The optional attributes whose default depends on whether the configuration
is built from a dictionary or directly. -/
def divergentFields : List Field :=
  [.reward_threshold, .ref_reward_threshold, .max_w_theta, .hitch_angle_weight,
   .steering_weight, .preference_penalty_weight, .terminal_reward_threshold,
   .terminal_reward_weight, .ref_pos_weight, .ref_theta1_weight,
   .ref_theta2_weight]

/-- The values a user may write for a key and have accepted: for a Boolean or
text attribute anything; for a numeric attribute a number, a Boolean or a
string that Python can read as a number. -/
def Accepted (T : PyText) (f : Field) : Val → Prop
  | .none => declaredKind f = .bool ∨ declaredKind f = .str
  | .str s => (declaredKind f = .int → (T.parseInt s).isSome) ∧
      (declaredKind f = .float → (T.parseFloat s).isSome)
  | _ => True

/-- The dictionary key of every attribute that a dictionary can set. -/
def keys : List (String × Field) :=
  [("seed", .seed), ("render", .render), ("env_name", .env_name), ("case", .case), ("Nsample", .Nsample),
   ("Hsample", .Hsample), ("Ndiffuse", .Ndiffuse), ("temp_sample", .temp_sample), ("beta0", .beta0),
   ("betaT", .betaT), ("enable_demo", .enable_demo), ("motion_preference", .motion_preference),
   ("collision_penalty", .collision_penalty), ("hitch_penalty", .hitch_penalty),
   ("enable_shielded_rollout_collision", .enable_shielded_rollout_collision),
   ("enable_shielded_rollout_hitch", .enable_shielded_rollout_hitch),
   ("enable_projection", .enable_projection), ("enable_guidance", .enable_guidance), ("l1", .l1), ("l2", .l2),
   ("lh", .lh), ("lf1", .lf1), ("lr", .lr), ("lf2", .lf2), ("lr2", .lr2), ("tractor_width", .tractor_width),
   ("trailer_width", .trailer_width), ("v_max", .v_max), ("delta_max_deg", .delta_max_deg), ("a_max", .a_max),
   ("omega_max", .omega_max), ("reward_threshold", .reward_threshold),
   ("ref_reward_threshold", .ref_reward_threshold), ("max_w_theta", .max_w_theta),
   ("hitch_angle_weight", .hitch_angle_weight), ("terminal_reward_threshold", .terminal_reward_threshold),
   ("terminal_reward_weight", .terminal_reward_weight), ("d_thr_factor", .d_thr_factor), ("k_switch", .k_switch),
   ("steering_weight", .steering_weight), ("preference_penalty_weight", .preference_penalty_weight),
   ("heading_reward_weight", .heading_reward_weight), ("ref_pos_weight", .ref_pos_weight),
   ("ref_theta1_weight", .ref_theta1_weight), ("ref_theta2_weight", .ref_theta2_weight),
   ("save_animation", .save_animation), ("show_animation", .show_animation),
   ("save_denoising_animation", .save_denoising_animation), ("dt", .dt)]

/-- What a value of another type becomes: truth values count as 1 and 0, whole numbers are numbers, a fractional
number written for a whole one loses its fraction, numbers other than 0 and texts other than the empty one are
true. -/
inductive Becomes : PyKind → Val → Val → Prop
  | floatOfInt (n : ℤ) : Becomes .float (.int n) (.float n)
  | floatOfTrue : Becomes .float (.bool true) (.float 1)
  | floatOfFalse : Becomes .float (.bool false) (.float 0)
  | intOfTrue : Becomes .int (.bool true) (.int 1)
  | intOfFalse : Becomes .int (.bool false) (.int 0)
  | intOfFloat (n : ℤ) (x : ℝ) : 0 ≤ n → (n : ℝ) ≤ x → x < n + 1 → Becomes .int (.float x) (.int n)
  | intOfNegative (n : ℤ) (x : ℝ) : n ≤ 0 → (n : ℝ) - 1 < x → x ≤ n → Becomes .int (.float x) (.int n)
  | boolOfInt (n : ℤ) : n ≠ 0 → Becomes .bool (.int n) (.bool true)
  | boolOfZero : Becomes .bool (.int 0) (.bool false)
  | boolOfFloat (x : ℝ) : x ≠ 0 → Becomes .bool (.float x) (.bool true)
  | boolOfZeroFloat : Becomes .bool (.float 0) (.bool false)
  | boolOfText (s : String) : s ≠ "" → Becomes .bool (.str s) (.bool true)
  | boolOfEmpty : Becomes .bool (.str "") (.bool false)
  | boolOfNone : Becomes .bool .none (.bool false)

end Spec

namespace Mbd

section lemmas

variable {T : PyText} {d : Dict}

private theorem convert_hasKind {k : PyKind} {v : Val} (h : Spec.HasKind v k) :
    convert T k v = .ok v := by
  cases v <;> cases k <;> first | rfl | exact h.elim

private theorem fold_ok_iff (args : List (Field × Lookup))
    (hnd : (args.map Prod.fst).Nodup) (c₀ c : Config) :
    args.foldlM (fun c a => (do
      let v ← evalArg T d a.1 a.2
      pure (Function.update c a.1 v) : Except CfgErr Config)) c₀ = .ok c ↔
    (∀ a ∈ args, evalArg T d a.1 a.2 = .ok (c a.1)) ∧
      ∀ f, f ∉ args.map Prod.fst → c f = c₀ f := by
  induction args generalizing c₀ with
  | nil =>
    simp only [List.foldlM_nil, List.map_nil, List.not_mem_nil, not_false_eq_true,
      forall_const, false_imp_iff, implies_true, true_and]
    constructor
    · intro h f
      have : c₀ = c := by simpa [pure, Except.pure] using h
      rw [this]
    · intro h
      have : c = c₀ := funext h
      rw [this]; rfl
  | cons a args ih =>
    have hnd' : a.1 ∉ args.map Prod.fst ∧ (args.map Prod.fst).Nodup := by
      simpa using hnd
    rw [List.foldlM_cons]
    cases hv : evalArg T d a.1 a.2 with
    | error e =>
      simp only [bind, Except.bind]
      constructor
      · intro h; cases h
      · intro h
        have := h.1 a (List.mem_cons_self ..)
        rw [hv] at this; cases this
    | ok v =>
      simp only [bind, Except.bind, pure, Except.pure]
      have ih' := ih hnd'.2 (Function.update c₀ a.1 v)
      simp only [bind, Except.bind, pure, Except.pure] at ih'
      rw [ih']
      constructor
      · rintro ⟨h1, h2⟩
        have hca : c a.1 = v := by
          rw [h2 a.1 hnd'.1, Function.update_self]
        refine ⟨fun b hb => ?_, fun f hf => ?_⟩
        · rcases List.mem_cons.1 hb with rfl | hb
          · rw [hv, hca]
          · exact h1 b hb
        · rw [List.map_cons, List.mem_cons, not_or] at hf
          rw [h2 f hf.2, Function.update_of_ne hf.1]
      · rintro ⟨h1, h2⟩
        have hca : c a.1 = v := by
          have := h1 a (List.mem_cons_self ..)
          rw [hv] at this
          injection this with this
          exact this.symm
        refine ⟨fun b hb => h1 b (List.mem_cons_of_mem _ hb), fun f hf => ?_⟩
        by_cases hfa : f = a.1
        · subst hfa; rw [hca, Function.update_self]
        · rw [Function.update_of_ne hfa]
          exact h2 f (by rw [List.map_cons, List.mem_cons]; exact fun h => h.elim hfa hf)

private theorem fold_error_of (args : List (Field × Lookup)) (c₀ : Config)
    {a : Field × Lookup} (ha : a ∈ args) (hbad : ∀ v, evalArg T d a.1 a.2 ≠ .ok v) :
    ∃ e, args.foldlM (fun c a => (do
      let v ← evalArg T d a.1 a.2
      pure (Function.update c a.1 v) : Except CfgErr Config)) c₀ = .error e := by
  induction args generalizing c₀ with
  | nil => exact absurd ha (List.not_mem_nil)
  | cons b args ih =>
    rw [List.foldlM_cons]
    cases hv : evalArg T d b.1 b.2 with
    | error e => exact ⟨e, rfl⟩
    | ok v =>
      rcases List.mem_cons.1 ha with rfl | ha
      · exact absurd hv (hbad v)
      · exact ih _ ha

private theorem callArgs_nodup : (callArgs.map Prod.fst).Nodup := by
  simp only [callArgs, List.map_cons, List.map_nil]; decide

private theorem dictToConfig_ok_iff {c : Config} :
    dictToConfig T d = .ok c ↔
      (∀ a ∈ callArgs, evalArg T d a.1 a.2 = .ok (c a.1)) ∧
      ∀ f, f ∉ callArgs.map Prod.fst → c f = dataclassDefault f :=
  fold_ok_iff _ callArgs_nodup _ _

private theorem callArgs_keys :
    callArgs.map Prod.fst = [.seed, .render, .env_name, .case, .Nsample, .Hsample,
      .Ndiffuse, .temp_sample, .beta0, .betaT, .enable_demo, .motion_preference,
      .collision_penalty, .enable_shielded_rollout_collision, .hitch_penalty,
      .enable_shielded_rollout_hitch, .enable_projection, .enable_guidance,
      .reward_threshold, .ref_reward_threshold, .max_w_theta, .hitch_angle_weight,
      .l1, .l2, .lh, .lf1, .lr, .lf2, .lr2, .tractor_width, .trailer_width, .v_max,
      .delta_max_deg, .a_max, .omega_max, .d_thr_factor, .k_switch, .steering_weight,
      .preference_penalty_weight, .heading_reward_weight, .terminal_reward_threshold,
      .terminal_reward_weight, .ref_pos_weight, .ref_theta1_weight,
      .ref_theta2_weight, .save_animation, .show_animation,
      .save_denoising_animation, .dt] := rfl

private theorem mem_keys_iff (f : Field) :
    f ∈ callArgs.map Prod.fst ↔ f ∉ Spec.droppedFields := by
  rw [callArgs_keys]
  cases f <;> decide

/-- The kind used in a lookup. -/
private def lkKind : Lookup → PyKind
  | .required k => k
  | .optional k _ => k

private theorem callArgs_kind : ∀ a ∈ callArgs, lkKind a.2 = Spec.declaredKind a.1 := by
  intro a ha
  simp only [callArgs, List.mem_cons, List.not_mem_nil, or_false] at ha
  rcases ha with h | h | h | h | h | h | h | h | h | h | h | h | h | h | h | h | h | h |
    h | h | h | h | h | h | h | h | h | h | h | h | h | h | h | h | h | h | h | h | h |
    h | h | h | h | h | h | h | h | h | h <;> subst h <;> rfl

private theorem callArgs_required : ∀ a ∈ callArgs,
    (∃ k, a.2 = .required k) ↔ a.1 ∈ Spec.requiredFields := by
  intro a ha
  simp only [callArgs, List.mem_cons, List.not_mem_nil, or_false] at ha
  rcases ha with h | h | h | h | h | h | h | h | h | h | h | h | h | h | h | h | h | h |
    h | h | h | h | h | h | h | h | h | h | h | h | h | h | h | h | h | h | h | h | h |
    h | h | h | h | h | h | h | h | h | h <;> subst h <;>
    simp [Spec.requiredFields]

private theorem callArgs_optional_kind : ∀ a ∈ callArgs, ∀ k v, a.2 = .optional k v →
    Spec.HasKind v k := by
  intro a ha
  simp only [callArgs, List.mem_cons, List.not_mem_nil, or_false] at ha
  rcases ha with h | h | h | h | h | h | h | h | h | h | h | h | h | h | h | h | h | h |
    h | h | h | h | h | h | h | h | h | h | h | h | h | h | h | h | h | h | h | h | h |
    h | h | h | h | h | h | h | h | h | h <;> subst h <;> intro k v hv <;>
    cases hv <;> exact trivial

private theorem callArgs_default : ∀ a ∈ callArgs, ∀ k v, a.2 = .optional k v →
    (v = dataclassDefault a.1 ↔ a.1 ∉ Spec.divergentFields) := by
  intro a ha
  simp only [callArgs, List.mem_cons, List.not_mem_nil, or_false] at ha
  rcases ha with h | h | h | h | h | h | h | h | h | h | h | h | h | h | h | h | h | h |
    h | h | h | h | h | h | h | h | h | h | h | h | h | h | h | h | h | h | h | h | h |
    h | h | h | h | h | h | h | h | h | h <;> subst h <;> intro k v hv <;>
    cases hv <;> simp only [dataclassDefault, Spec.divergentFields, Val.float.injEq,
      Val.int.injEq, Val.bool.injEq] <;> norm_num <;> decide

private theorem convert_ok_iff {f : Field} {v : Val} :
    (∃ w, convert T (Spec.declaredKind f) v = .ok w) ↔ Spec.Accepted T f v := by
  cases hk : Spec.declaredKind f <;> cases v <;>
    simp [convert, toInt, toFloat, Spec.Accepted, hk, Except.map]
  · rename_i s
    cases T.parseInt s <;> simp
  · rename_i s
    cases T.parseFloat s <;> simp

end lemmas

/-- **C45 (transfer).** When a configuration is built, every recognised key that
is present with a value of its declared type appears unchanged. -/
theorem C45_transfer (T : PyText) (d : Dict) (c : Config) (h : dictToConfig T d = .ok c)
    (f : Field) (hf : f ∉ Spec.droppedFields) (v : Val) (hv : d f.name = some v)
    (hk : Spec.HasKind v (Spec.declaredKind f)) : c f = v := by
  obtain ⟨h1, -⟩ := dictToConfig_ok_iff.1 h
  obtain ⟨a, ha, rfl⟩ := List.mem_map.1 ((mem_keys_iff f).2 hf)
  have e := h1 a ha
  have hk' := callArgs_kind a ha
  rcases hl : a.2 with k | ⟨k, w⟩ <;> rw [hl] at e hk' <;>
    simp only [evalArg, hv, Option.getD_some, lkKind] at e hk' <;>
    · rw [← hk'] at hk
      rw [convert_hasKind hk] at e
      injection e with e
      exact e.symm

/-- **C45 (success).** A configuration is built exactly when all fifteen required
keys are present and every recognised key that is present holds an acceptable
value; nothing else in the dictionary matters. -/
theorem C45_succeeds_iff (T : PyText) (d : Dict) :
    (∃ c, dictToConfig T d = .ok c) ↔
      (∀ f ∈ Spec.requiredFields, (d f.name).isSome) ∧
      ∀ f, f ∉ Spec.droppedFields → ∀ v, d f.name = some v → Spec.Accepted T f v := by
  constructor
  · rintro ⟨c, hc⟩
    obtain ⟨h1, -⟩ := dictToConfig_ok_iff.1 hc
    constructor
    · intro f hf
      have hd : f ∉ Spec.droppedFields := by
        revert hf; cases f <;> decide
      obtain ⟨a, ha, rfl⟩ := List.mem_map.1 ((mem_keys_iff f).2 hd)
      obtain ⟨k, hk⟩ := (callArgs_required a ha).2 hf
      have e := h1 a ha
      rw [hk] at e
      simp only [evalArg] at e
      cases hdv : d a.1.name with
      | none => rw [hdv] at e; cases e
      | some v => rfl
    · intro f hf v hv
      obtain ⟨a, ha, rfl⟩ := List.mem_map.1 ((mem_keys_iff f).2 hf)
      have e := h1 a ha
      have hk' := callArgs_kind a ha
      rw [← convert_ok_iff]
      refine ⟨c a.1, ?_⟩
      rcases hl : a.2 with k | ⟨k, w⟩ <;> rw [hl] at e hk' <;>
        simp only [evalArg, hv, Option.getD_some, lkKind] at e hk' <;>
        rw [← hk', e]
  · rintro ⟨hreq, hacc⟩
    have harg : ∀ a ∈ callArgs, ∃ w, evalArg T d a.1 a.2 = .ok w := by
      intro a ha
      have hk' := callArgs_kind a ha
      have hd : a.1 ∉ Spec.droppedFields :=
        (mem_keys_iff a.1).1 (List.mem_map_of_mem ha)
      cases hdv : d a.1.name with
      | some v =>
        obtain ⟨w, hw⟩ := convert_ok_iff.2 (hacc a.1 hd v hdv)
        refine ⟨w, ?_⟩
        rcases hl : a.2 with k | ⟨k, w'⟩ <;> rw [hl] at hk' <;>
          simp only [evalArg, hdv, Option.getD_some, lkKind] at hk' ⊢ <;> rw [hk', hw]
      | none =>
        rcases hl : a.2 with k | ⟨k, w'⟩
        · have := hreq a.1 ((callArgs_required a ha).1 ⟨k, hl⟩)
          rw [hdv] at this; cases this
        · refine ⟨w', ?_⟩
          simp only [evalArg, hdv, Option.getD_none]
          exact convert_hasKind (callArgs_optional_kind a ha k w' hl)
    classical
    have hex : ∀ f, ∃ w : Val, (∀ a ∈ callArgs, a.1 = f → evalArg T d a.1 a.2 = .ok w) ∧
        (f ∉ callArgs.map Prod.fst → w = dataclassDefault f) := by
      intro f
      by_cases hf : f ∈ callArgs.map Prod.fst
      · obtain ⟨a, ha, rfl⟩ := List.mem_map.1 hf
        obtain ⟨w, hw⟩ := harg a ha
        refine ⟨w, fun b hb hba => ?_, fun h => absurd hf h⟩
        have : b = a := (List.inj_on_of_nodup_map callArgs_nodup) hb ha hba
        rw [this, hw]
      · exact ⟨_, fun a ha hfa => absurd (hfa ▸ List.mem_map_of_mem ha) hf, fun _ => rfl⟩
    choose c hc using hex
    exact ⟨c, dictToConfig_ok_iff.2
      ⟨fun a ha => (hc a.1).1 a ha rfl, fun f hf => (hc f).2 hf⟩⟩

/-- **C45 (missing key).** Without one of the required keys the call raises. -/
theorem C45_missing_required (T : PyText) (d : Dict) (f : Field)
    (hf : f ∈ Spec.requiredFields) (hd : d f.name = none) :
    ∃ e, dictToConfig T d = .error e := by
  cases h : dictToConfig T d with
  | error e => exact ⟨e, rfl⟩
  | ok c =>
    have := ((C45_succeeds_iff T d).1 ⟨c, h⟩).1 f hf
    rw [hd] at this; cases this

/-- **C45 (defaults, partial).** An absent optional key gives the dataclass
default for every attribute outside the eleven divergent ones; missing from the
full property: those eleven, and the three attributes a dictionary cannot set. -/
theorem C45_defaults_partial (T : PyText) (d : Dict) (c : Config)
    (h : dictToConfig T d = .ok c) (f : Field) (hd : d f.name = none)
    (hf : f ∉ Spec.divergentFields) : c f = dataclassDefault f := by
  obtain ⟨h1, h2⟩ := dictToConfig_ok_iff.1 h
  by_cases hm : f ∈ callArgs.map Prod.fst
  · obtain ⟨a, ha, rfl⟩ := List.mem_map.1 hm
    have e := h1 a ha
    rcases hl : a.2 with k | ⟨k, w⟩ <;> rw [hl] at e <;>
      simp only [evalArg, hd, Option.getD_none] at e
    · cases e
    · rw [convert_hasKind (callArgs_optional_kind a ha k w hl)] at e
      injection e with e
      rw [← e]
      exact (callArgs_default a ha k w hl).2 hf
  · exact h2 f hm

/-- **C45 (defaults, refuted).** For each of the eleven divergent attributes,
leaving the key out of the dictionary *always* gives a value different from the
default of `MBDConfig()`. -/
theorem C45_defaults_refuted (T : PyText) (d : Dict) (c : Config)
    (h : dictToConfig T d = .ok c) (f : Field) (hd : d f.name = none)
    (hf : f ∈ Spec.divergentFields) : c f ≠ dataclassDefault f := by
  obtain ⟨h1, h2⟩ := dictToConfig_ok_iff.1 h
  have hm : f ∈ callArgs.map Prod.fst := by
    rw [mem_keys_iff]; revert hf; cases f <;> decide
  obtain ⟨a, ha, rfl⟩ := List.mem_map.1 hm
  have e := h1 a ha
  rcases hl : a.2 with k | ⟨k, w⟩ <;> rw [hl] at e <;>
    simp only [evalArg, hd, Option.getD_none] at e
  · cases e
  · rw [convert_hasKind (callArgs_optional_kind a ha k w hl)] at e
    injection e with e
    rw [← e]
    intro hw
    exact ((callArgs_default a ha k w hl).1 hw) hf

/-- The divergent defaults, spelled out: reward threshold 25 instead of 50, and
so on; the demonstration weights are 0.3/0.5/0.2 instead of 0.8/0.1/0.1. -/
theorem C45_dict_defaults (T : PyText) (d : Dict) (c : Config)
    (h : dictToConfig T d = .ok c) (hd : ∀ f ∈ Spec.divergentFields, d f.name = none) :
    c .reward_threshold = .float 25 ∧ c .ref_reward_threshold = .float 5 ∧
    c .max_w_theta = .float (3 / 4) ∧ c .hitch_angle_weight = .float (1 / 5) ∧
    c .steering_weight = .float (1 / 20) ∧
    c .preference_penalty_weight = .float (1 / 20) ∧
    c .terminal_reward_threshold = .float 10 ∧ c .terminal_reward_weight = .float 1 ∧
    c .ref_pos_weight = .float (3 / 10) ∧ c .ref_theta1_weight = .float (1 / 2) ∧
    c .ref_theta2_weight = .float (1 / 5) := by
  obtain ⟨h1, -⟩ := dictToConfig_ok_iff.1 h
  have key : ∀ f x, (f, Lookup.optional .float (.float x)) ∈ callArgs →
      f ∈ Spec.divergentFields → c f = .float x := by
    intro f x hm hf
    have e := h1 _ hm
    simp only [evalArg, hd f hf, Option.getD_none, convert, toFloat, Except.map] at e
    injection e with e
    exact e.symm
  refine ⟨?_, ?_, ?_, ?_, ?_, ?_, ?_, ?_, ?_, ?_, ?_⟩
  · rw [key .reward_threshold 25.0 (by simp [callArgs]) (by decide)]; norm_num
  · rw [key .ref_reward_threshold 5.0 (by simp [callArgs]) (by decide)]; norm_num
  · rw [key .max_w_theta 0.75 (by simp [callArgs]) (by decide)]; norm_num
  · rw [key .hitch_angle_weight 0.2 (by simp [callArgs]) (by decide)]; norm_num
  · rw [key .steering_weight 0.05 (by simp [callArgs]) (by decide)]; norm_num
  · rw [key .preference_penalty_weight 0.05 (by simp [callArgs]) (by decide)]; norm_num
  · rw [key .terminal_reward_threshold 10.0 (by simp [callArgs]) (by decide)]; norm_num
  · rw [key .terminal_reward_weight 1.0 (by simp [callArgs]) (by decide)]; norm_num
  · rw [key .ref_pos_weight 0.3 (by simp [callArgs]) (by decide)]; norm_num
  · rw [key .ref_theta1_weight 0.5 (by simp [callArgs]) (by decide)]; norm_num
  · rw [key .ref_theta2_weight 0.2 (by simp [callArgs]) (by decide)]; norm_num

/-- **C45 (dropped keys, refuted).** `verbose`, `frame_skip` and `num_trailers`
are attributes of the configuration, but whatever the dictionary says, the
result holds their defaults. -/
theorem C45_dropped_refuted (T : PyText) (d : Dict) (c : Config)
    (h : dictToConfig T d = .ok c) :
    c .verbose = .bool false ∧ c .frame_skip = .int 1 ∧ c .num_trailers = .int 1 := by
  obtain ⟨-, h2⟩ := dictToConfig_ok_iff.1 h
  refine ⟨h2 _ ?_, h2 _ ?_, h2 _ ?_⟩ <;>
    · rw [mem_keys_iff]; decide

/-- **C45 (other keys).** Two dictionaries that agree on the 49 transferred keys
give the same result, error or not. -/
theorem C45_other_keys_ignored (T : PyText) (d d' : Dict)
    (h : ∀ f, f ∉ Spec.droppedFields → d f.name = d' f.name) :
    dictToConfig T d = dictToConfig T d' := by
  have key : ∀ (args : List (Field × Lookup)) (c₀ : Config),
      (∀ a ∈ args, d a.1.name = d' a.1.name) →
      args.foldlM (fun c a => (do
        let v ← evalArg T d a.1 a.2
        pure (Function.update c a.1 v) : Except CfgErr Config)) c₀ =
      args.foldlM (fun c a => (do
        let v ← evalArg T d' a.1 a.2
        pure (Function.update c a.1 v) : Except CfgErr Config)) c₀ := by
    intro args
    induction args with
    | nil => intro c₀ _; rfl
    | cons a args ih =>
      intro c₀ hag
      rw [List.foldlM_cons, List.foldlM_cons]
      have ha : evalArg T d a.1 a.2 = evalArg T d' a.1 a.2 := by
        cases a.2 <;> simp only [evalArg, hag a (List.mem_cons_self ..)]
      rw [ha]
      cases evalArg T d' a.1 a.2 with
      | error e => rfl
      | ok v => exact ih _ (fun b hb => hag b (List.mem_cons_of_mem _ hb))
  exact key _ _ fun a ha => h a.1 ((mem_keys_iff a.1).1 (List.mem_map_of_mem ha))

example (T : PyText) (d : Dict) :=
  C45_other_keys_ignored T d (fun k => if k = "comment" then some (.int 1) else d k)
    (by intro f _; cases f <;> rfl)

/-- **C45 (types, refuted).** Values of another type are changed silently: the
text `"False"` (as read from a command line or a YAML string) turns a safety
switch *on*, and a fractional sample count is cut off. -/
theorem C45_coercion_refuted (T : PyText) (d : Dict) (c : Config)
    (h : dictToConfig T d = .ok c) :
    (d "enable_guidance" = some (.str "False") → c .enable_guidance = .bool true) ∧
    (d "Hsample" = some (.float 10.7) → c .Hsample = .int 10) := by
  obtain ⟨h1, -⟩ := dictToConfig_ok_iff.1 h
  constructor
  · intro hd
    have e := h1 (.enable_guidance, .optional .bool (.bool false)) (by simp [callArgs])
    simp only [evalArg, Field.name, hd, Option.getD_some, convert, toBool] at e
    injection e with e
    rw [← e]; simp
  · intro hd
    have e := h1 (.Hsample, .required .int) (by simp [callArgs])
    simp only [evalArg, Field.name, hd, convert, toInt, Except.map, truncZero] at e
    injection e with e
    rw [← e]
    have : ⌊(10.7 : ℝ)⌋ = 10 := by rw [Int.floor_eq_iff]; norm_num
    rw [if_pos (by norm_num), this]

private theorem convert_becomes {k : PyKind} {v w : Val} (h : Spec.Becomes k v w) : convert T k v = .ok w := by
  cases h with
  | intOfFloat n x h0 h1 h2 =>
    have hx : 0 ≤ x := le_trans (by exact_mod_cast h0) h1
    have : ⌊x⌋ = n := Int.floor_eq_iff.mpr ⟨h1, h2⟩
    simp only [convert, toInt, Except.map, truncZero, if_pos hx, this]
  | intOfNegative n x h0 h1 h2 =>
    have h0' : (n : ℝ) ≤ 0 := by exact_mod_cast h0
    have hc : ⌈x⌉ = n := Int.ceil_eq_iff.mpr ⟨h1, h2⟩
    by_cases hx : 0 ≤ x
    · have x0 : x = 0 := le_antisymm (h2.trans h0') hx
      have hn : n = 0 := by
        rw [x0] at hc
        simpa using hc.symm
      simp [convert, toInt, Except.map, truncZero, x0, hn]
    · simp only [convert, toInt, Except.map, truncZero, if_neg hx, hc]
  | _ => simp_all [convert, toInt, toFloat, toBool, Except.map]

/-- **C45 (keys).** Every key of the table sets the attribute of that name, and no other: a value of the declared
type appears unchanged, a value of another type as `Spec.Becomes` says. -/
theorem C45_keys (T : PyText) (d : Dict) (c : Config) (h : dictToConfig T d = .ok c) (k : String) (f : Field)
    (hk : (k, f) ∈ Spec.keys) (v : Val) (hv : d k = some v) :
    (Spec.HasKind v (Spec.declaredKind f) → c f = v) ∧
    ∀ w, Spec.Becomes (Spec.declaredKind f) v w → c f = w := by
  have hn : ∀ a ∈ Spec.keys, a.1 = a.2.name ∧ a.2 ∉ Spec.droppedFields := by
    unfold Spec.keys
    simp only [List.forall_mem_cons, List.not_mem_nil, false_imp_iff, implies_true, and_true]
    refine ⟨?_, ?_, ?_, ?_, ?_, ?_, ?_, ?_, ?_, ?_, ?_, ?_, ?_, ?_, ?_, ?_, ?_, ?_, ?_, ?_, ?_, ?_, ?_, ?_, ?_, ?_, ?_, ?_, ?_,
      ?_, ?_, ?_, ?_, ?_, ?_, ?_, ?_, ?_, ?_, ?_, ?_, ?_, ?_, ?_, ?_, ?_, ?_, ?_, ?_⟩ <;>
      exact ⟨rfl, by decide⟩
  obtain ⟨e1, hf⟩ := hn _ hk
  simp only at e1 hf
  rw [e1] at hv
  refine ⟨C45_transfer T d c h f hf v hv, fun w hw => ?_⟩
  obtain ⟨h1, -⟩ := dictToConfig_ok_iff.1 h
  obtain ⟨a, ha, rfl⟩ := List.mem_map.1 ((mem_keys_iff f).2 hf)
  have e := h1 a ha
  have hk' := callArgs_kind a ha
  rcases hl : a.2 with k | ⟨k, w'⟩ <;> rw [hl] at e hk' <;>
    simp only [evalArg, hv, Option.getD_some, lkKind] at e hk' <;>
    · rw [hk', convert_becomes hw] at e
      injection e with e
      exact e.symm

/-- A truth value written for a weight, a fraction written for a count. -/
example (T : PyText) (d : Dict) (c : Config) (h : dictToConfig T d = .ok c) (h1 : d "steering_weight" = some (.bool true))
    (h2 : d "Nsample" = some (.float 99.9)) : c .steering_weight = .float 1 ∧ c .Nsample = .int 99 :=
  ⟨(C45_keys T d c h _ _ (by simp [Spec.keys]) _ h1).2 _ .floatOfTrue,
   (C45_keys T d c h _ _ (by simp [Spec.keys]) _ h2).2 _ (.intOfFloat 99 99.9 (by norm_num) (by norm_num) (by norm_num))⟩

/-- **C45 (entry point).** `run_diffusion` uses a given configuration object as it
is, converts a dictionary, and refuses to run without a configuration. -/
theorem C45_run_args (T : PyText) :
    (∀ c, resolveArgs T (.config c) = .ok c) ∧
    (∀ d, resolveArgs T (.dict d) = dictToConfig T d) ∧
    resolveArgs T .none = .error .valueError := ⟨fun _ => rfl, fun _ => rfl, rfl⟩

/-- A dictionary holding all fifteen required keys. -/
noncomputable def demoDict : Dict := fun k =>
  if k = "env_name" then some (.str "tt2d") else if k = "case" then some (.str "navigation")
  else if k = "render" ∨ k = "enable_demo" ∨ k = "save_animation" ∨ k = "show_animation" ∨
    k = "save_denoising_animation" then some (.bool false)
  else if k = "temp_sample" ∨ k = "beta0" ∨ k = "betaT" ∨ k = "dt" then some (.float 0.25)
  else if k = "seed" ∨ k = "Nsample" ∨ k = "Hsample" ∨ k = "Ndiffuse" ∨ k = "num_trailers"
    then some (.int 3) else none

/-- The hypotheses are met: this dictionary asks for three trailers, a
configuration is built, and it says one trailer. -/
example (T : PyText) : ∃ c, dictToConfig T demoDict = .ok c ∧
    demoDict "num_trailers" = some (.int 3) ∧ c .num_trailers = .int 1 ∧
    c .Nsample = .int 3 ∧ c .v_max = .float 3.0 ∧ c .reward_threshold = .float 25 := by
  have hnone : ∀ f : Field, f ∈ Spec.divergentFields ∨ f = .v_max → demoDict f.name = none := by
    intro f hf
    cases f <;> first | (exact absurd hf (by decide)) | (simp [demoDict, Field.name])
  have hok : ∃ c, dictToConfig T demoDict = .ok c := by
    rw [C45_succeeds_iff]
    constructor
    · intro f hf
      cases f <;> first | (exact absurd hf (by decide)) | (simp [demoDict, Field.name])
    · intro f hf v hv
      cases f <;> simp [demoDict, Field.name] at hv <;> subst hv <;>
        simp [Spec.Accepted, Spec.declaredKind]
  obtain ⟨c, hc⟩ := hok
  refine ⟨c, hc, by simp [demoDict], (C45_dropped_refuted T _ c hc).2.2,
    C45_transfer T _ c hc .Nsample (by decide) _ (by simp [demoDict, Field.name]) trivial,
    C45_defaults_partial T _ c hc .v_max (hnone _ (Or.inr rfl)) (by decide),
    (C45_dict_defaults T _ c hc fun f hf => hnone f (Or.inl hf)).1⟩

/-- A missing seed, and nothing else wrong, raises. -/
example (T : PyText) :
    ∃ e, dictToConfig T (fun k => if k = "seed" then none else demoDict k) = .error e :=
  C45_missing_required T _ .seed (by decide) (by simp [Field.name])

end Mbd
