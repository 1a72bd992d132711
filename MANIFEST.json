{
 "claims": [
  {
   "property": "C01",
   "status": "proved",
   "theorems": [
    "Mbd.C01_tt2d",
    "Mbd.C01_bicycle",
    "Mbd.C01_ntrailer"
   ],
   "note": "Every state visited by a shielded kinematic rollout from a checked-safe state passes both checks; for all action lists, parameters, obstacle lists."
  },
  {
   "property": "C02",
   "status": "proved",
   "theorems": [
    "Mbd.C02_tt2d",
    "Mbd.C02_ntrailer",
    "Mbd.C02_bicycle"
   ],
   "note": "With the jackknife shield on, no state returned by step() is jackknifed when the start is not, whether or not the collision shield is on; single trailer, trains of any length, and (trivially, no trailer) the bicycle."
  },
  {
   "property": "C03",
   "status": "partial",
   "theorems": [
    "Mbd.C03_tt2d_partial",
    "Mbd.C03_bicycle_partial",
    "Mbd.C03_ntrailer_partial",
    "Mbd.C03_solid_tt2d_partial",
    "Mbd.C03_solid_bicycle_partial",
    "Mbd.C03_solid_ntrailer_partial",
    "Mbd.C03_solid_default_partial",
    "Mbd.C03_tunnel_refuted"
   ],
   "note": "Geometric (point-set) safety of shielded rollouts. Full solid safety needs obstacle radii large enough compared with the body (proved for the default vehicle with radii >= 1); without that the code's rectangle-circle test misses a disc strictly inside the body (refuted theorem: the default vehicle drives over a thin pole)."
  },
  {
   "property": "C04",
   "status": "proved",
   "theorems": [
    "Mbd.C04_rectRect_exact"
   ],
   "note": "Separating-axis test is exact: true iff the two closed rectangles share a point."
  },
  {
   "property": "C05",
   "status": "partial",
   "theorems": [
    "Mbd.C05_outline_exact_partial",
    "Mbd.C05_sound",
    "Mbd.C05_solid_exact_partial",
    "Mbd.C05_solid_refuted",
    "Mbd.C05_missed_only_if_contained"
   ],
   "note": "Rectangle-circle test is exact for the outline and sound; it is not exact for the solid rectangle (refuted: disc strictly inside); exact characterisation of what it misses."
  },
  {
   "property": "C06",
   "status": "proved",
   "theorems": [
    "Mbd.C06_tt2d",
    "Mbd.C06_acc",
    "Mbd.C06_bicycle",
    "Mbd.C06_ntrailer",
    "Mbd.C06_turns_tt2d",
    "Mbd.C06_turns_ntrailer"
   ],
   "note": "Exact for single trailer, acceleration model (same check) and every pair of bodies of a train of any length; invariance under full turns."
  },
  {
   "property": "C07",
   "status": "proved",
   "theorems": [
    "Mbd.C07_tractor",
    "Mbd.C07_trailer",
    "Mbd.C07_trailer_points",
    "Mbd.C07_ntrailer",
    "Mbd.C07_ntrailer_count",
    "Mbd.C07_tractor_corners"
   ],
   "note": "Every rectangle handed to the collision check encloses exactly the documented body (rear overhang to front overhang, full width), for every pose and every trailer of a train."
  },
  {
   "property": "C08",
   "status": "proved",
   "theorems": [
    "Mbd.C08_tt2d",
    "Mbd.C08_bicycle",
    "Mbd.C08_ntrailer",
    "Mbd.C08_acc",
    "Mbd.C08_projection"
   ],
   "note": "All modes except projection keep applied actions in [-1,1]^2; C08_projection records that projection mode applies the solver's output unchanged."
  },
  {
   "property": "C09",
   "status": "proved",
   "theorems": [
    "Mbd.C09_train",
    "Mbd.C09_tt2d",
    "Mbd.C09_bicycle",
    "Mbd.C09_ntrailer"
   ],
   "note": "Each recorded state is one explicit Euler step of the (independently written) vehicle equations under the recorded action. Acceleration model: see C13. C09_train states the Euler step of a train through the motion equations of each trailer."
  },
  {
   "property": "C10",
   "status": "proved",
   "theorems": [
    "Mbd.C10_tt2d",
    "Mbd.C10_bicycle",
    "Mbd.C10_ntrailer"
   ],
   "note": "Replaying the applied actions from the same start gives the same states and the same applied actions."
  },
  {
   "property": "C11",
   "status": "partial",
   "theorems": [
    "Mbd.C11_refuted",
    "Mbd.C11_step_partial",
    "Mbd.C11_partial",
    "Mbd.C11_unit_step_partial",
    "Mbd.C11_throttle_partial"
   ],
   "note": "Refuted for the default acceleration-model vehicle (1 s prediction step jumps over a pole). Partial: states accepted by the shield, and rollouts whose overrides never occur; at a simulation step equal to the prediction's 1 s, every rollout from a checked start at rest stays safe unless the shield intervenes in one of three named situations (C11_unit_step_partial), none of which can occur under requests of full throttle or none (C11_throttle_partial)."
  },
  {
   "property": "C12",
   "status": "partial",
   "theorems": [
    "Mbd.C12_partial",
    "Mbd.C12_stops_partial",
    "Mbd.C12_refuted",
    "Mbd.C12_stops_backward_partial",
    "Mbd.C12_count_partial"
   ],
   "note": "Refuted while reversing with a stop request; partial: braking behaviour of overrides otherwise, the speed after any number of consecutive overrides in either direction, and a bound on how many can occur before standstill (C12_count_partial)."
  },
  {
   "property": "C13",
   "status": "partial",
   "theorems": [
    "Mbd.C13_partial",
    "Mbd.C13_refuted"
   ],
   "note": "Refuted: recorded action can differ from the executed one; partial under the exact condition."
  },
  {
   "property": "C14",
   "status": "partial",
   "theorems": [
    "Mbd.C14_partial",
    "Mbd.C14_unit_step_partial",
    "Mbd.C14_refuted"
   ],
   "note": "Predictive rollout does not come to rest in general (refuted); exact iff condition proved as partial."
  },
  {
   "property": "C15",
   "status": "proved",
   "theorems": [
    "Mbd.C15_tt2d",
    "Mbd.C15_rollout_tt2d",
    "Mbd.C15_bicycle",
    "Mbd.C15_rollout_bicycle",
    "Mbd.C15_ntrailer",
    "Mbd.C15_acc",
    "Mbd.C15_rollout_acc",
    "Mbd.C15_rollout_ntrailer"
   ],
   "note": "Chord length bound from sin^2+cos^2=1; also for the acceleration model whose stored speed may exceed v_max."
  },
  {
   "property": "C16",
   "status": "partial",
   "theorems": [
    "Mbd.C16_refuted",
    "Mbd.C16_partial"
   ],
   "note": "Speed/steering state not clamped (refuted); the per-step rate bound is proved."
  },
  {
   "property": "C17",
   "status": "proved",
   "theorems": [
    "Mbd.C17_causal",
    "Mbd.C17_lengths",
    "Mbd.C17_append",
    "Mbd.C17_total",
    "Mbd.C17_append_ntrailer",
    "Mbd.C17_values"
   ],
   "note": "For the generic scan (any step function), the two rollout functions, and the N-trailer scan that may raise."
  },
  {
   "property": "C18",
   "status": "partial",
   "theorems": [
    "Mbd.C18_tt2d",
    "Mbd.C18_rollout_tt2d",
    "Mbd.C18_bicycle",
    "Mbd.C18_rollout_bicycle",
    "Mbd.C18_ntrailer",
    "Mbd.C18_acc_partial",
    "Mbd.C18_acc_refuted",
    "Mbd.C18_rollout_ntrailer"
   ],
   "note": "Proved for the kinematic robots; for the acceleration model only when starting from rest (refuted otherwise)."
  },
  {
   "property": "C19",
   "status": "proved",
   "theorems": [
    "Mbd.C19_values",
    "Mbd.C19_schedule",
    "Mbd.C19_range_needed",
    "Mbd.C19_conditional"
   ],
   "note": "C19_range_needed shows that the hypothesis on betaT cannot be dropped (the code does not validate it)."
  },
  {
   "property": "C20",
   "status": "proved",
   "theorems": [
    "Mbd.C20_history",
    "Mbd.C20_levels",
    "Mbd.C20_in_range"
   ],
   "note": "The loop visits Ndiffuse-1, ..., 1 once each; row k of the history is the plan after k+1 iterations; all schedule reads are in range."
  },
  {
   "property": "C21",
   "status": "proved",
   "theorems": [
    "Mbd.C21_rescale",
    "Mbd.C21_reverse_step"
   ],
   "note": "The score term cancels the incoming plan exactly; so the scaling of the noisy plan (mbd_planner.py:364) does not influence the result of a step."
  },
  {
   "property": "C22",
   "status": "proved",
   "theorems": [
    "Mbd.C22_tt2d",
    "Mbd.C22_bicycle",
    "Mbd.C22_ntrailer",
    "Mbd.C22_acc"
   ],
   "note": "By induction over the reverse iterations: plans are convex combinations of box-valued executed actions."
  },
  {
   "property": "C23",
   "status": "partial",
   "theorems": [
    "Mbd.C23_tt2d",
    "Mbd.C23_bicycle",
    "Mbd.C23_ntrailer",
    "Mbd.C23_acc_refuted",
    "Mbd.C23_acc_partial",
    "Mbd.C23_acc_sample_partial",
    "Mbd.C23_acc_backward_partial",
    "Mbd.C23_acc_backward_sample_partial"
   ],
   "note": "Kinematic robots: proved. Acceleration model: refuted (preference constrains acceleration), partial without shields and for single samples."
  },
  {
   "property": "C24",
   "status": "proved",
   "theorems": [
    "Mbd.C24_distribution",
    "Mbd.C24_monotone",
    "Mbd.C24_combined"
   ],
   "note": "Softmax weights are positive, sum to one, and order samples as their combined reward does."
  },
  {
   "property": "C25",
   "status": "proved",
   "theorems": [
    "Mbd.C25_offset",
    "Mbd.C25_scale",
    "Mbd.C25_offset_demo",
    "Mbd.C25_scale_guard_needed"
   ],
   "note": "C25_scale_guard_needed shows that the guard hypothesis cannot be dropped."
  },
  {
   "property": "C26",
   "status": "proved",
   "theorems": [
    "Mbd.C26_guard",
    "Mbd.C26_uniform",
    "Mbd.C26_plain_mean"
   ],
   "note": "Equal rewards give uniform weights and the plain mean plan; the divisor never drops below 1e-4."
  },
  {
   "property": "C27",
   "status": "proved",
   "theorems": [
    "Mbd.C27_raises",
    "Mbd.C27_best",
    "Mbd.C27_cap",
    "Mbd.C27_disabled"
   ],
   "note": "Demonstration log weights are maxima; the best match gets the normalised demonstration reward; disabled means no influence."
  },
  {
   "property": "C28",
   "status": "proved",
   "theorems": [
    "Mbd.C28_denoised",
    "Mbd.C28_run",
    "Mbd.C28_distinct",
    "Mbd.C28_warmup"
   ],
   "note": "Keys as paths in the split tree: keys consumed by a run are pairwise distinct and none is an ancestor of another consumed one."
  },
  {
   "property": "C29",
   "status": "partial",
   "theorems": [
    "Mbd.C29_cleared",
    "Mbd.C29_history_independent",
    "Mbd.C29_reset_frozen",
    "Mbd.C29_moved_start_refuted",
    "Mbd.C29_guidance_trace",
    "Mbd.C29_guidance_refuted"
   ],
   "note": "Proved for every history in which the robot's attributes are not reassigned after its first run; refuted when they are (jitted methods hold the object as static argument) and for a guided second robot."
  },
  {
   "property": "C30",
   "status": "partial",
   "theorems": [
    "Mbd.C30_same_robot_partial",
    "Mbd.C30_stale_schedule",
    "Mbd.C30_second_robot",
    "Mbd.C30_other_robot_refuted"
   ],
   "note": "Partial: same robot and schedule. Exact description of what a second robot or another schedule gets (C30_stale_schedule), concrete refutation."
  },
  {
   "property": "C31",
   "status": "proved",
   "theorems": [
    "Mbd.C31_result"
   ],
   "note": "Shapes, initial state, and existence of the simulator run, for any robot (abstract step function)."
  },
  {
   "property": "C32",
   "status": "proved",
   "theorems": [
    "Mbd.C32_tt2d",
    "Mbd.C32_bicycle",
    "Mbd.C32_ntrailer",
    "Mbd.C32_geometric_default"
   ],
   "note": "Tractor-trailer, bicycle and N-trailer with both shields; geometric form for the default vehicle."
  },
  {
   "property": "C33",
   "status": "proved",
   "theorems": [
    "Mbd.C33_tt2d",
    "Mbd.C33_bicycle",
    "Mbd.C33_ntrailer",
    "Mbd.C33_acc",
    "Mbd.C33_step_tt2d",
    "Mbd.C33_total_tt2d",
    "Mbd.C33_modes_tt2d",
    "Mbd.C33_modes_bicycle",
    "Mbd.C33_modes_acc",
    "Mbd.C33_modes_ntrailer",
    "Mbd.C33_total_all"
   ],
   "note": "Upper bound 1 and explicit lower bounds for all four robots; step rewards of all four robots in every mode (naive, shielded, guided, projected) and scores of whole rollouts."
  },
  {
   "property": "C34",
   "status": "partial",
   "theorems": [
    "Mbd.C34_ntrailer_maximal",
    "Mbd.C34_tt2d_partial",
    "Mbd.C34_tractor_refuted",
    "Mbd.C34_bicycle_refuted",
    "Mbd.C34_front_axle_partial",
    "Mbd.C34_ntrailer_partial"
   ],
   "note": "Proved for preference -2,-1,0 (trailer tracking); refuted for preferences 1/2 and the bicycle where the front axle is compared with the goal's reference point. Trains tracking the last trailer: the maximal states are characterised (C34_ntrailer_maximal)."
  },
  {
   "property": "C35",
   "status": "proved",
   "theorems": [
    "Mbd.C35_obstacle_tt2d",
    "Mbd.C35_hitch_tt2d",
    "Mbd.C35_reward_tt2d",
    "Mbd.C35_euler_tt2d",
    "Mbd.C35_step_tt2d",
    "Mbd.C35_bicycle",
    "Mbd.C35_acc",
    "Mbd.C35_obstacle_ntrailer",
    "Mbd.C35_dynamics_ntrailer",
    "Mbd.C35_rollout_ntrailer",
    "Mbd.C35_rollout_tt2d",
    "Mbd.C35_step_bicycle",
    "Mbd.C35_rollout_bicycle",
    "Mbd.C35_step_acc",
    "Mbd.C35_rollout_acc",
    "Mbd.C35_hitch_ntrailer",
    "Mbd.C35_step_ntrailer"
   ],
   "note": "Adding whole turns to headings changes no check, reward, step (all four robots; acceleration model including its predicted braking) or score of a rollout."
  },
  {
   "property": "C36",
   "status": "proved",
   "theorems": [
    "Mbd.C36_acc",
    "Mbd.C36_acc_shielded",
    "Mbd.C36_guided_tt2d",
    "Mbd.C36_guided_bicycle",
    "Mbd.C36_guided_acc",
    "Mbd.C36_projected_tt2d",
    "Mbd.C36_projected_bicycle",
    "Mbd.C36_train",
    "Mbd.C36_guided_train",
    "Mbd.C36_tt2d",
    "Mbd.C36_bicycle",
    "Mbd.C36_ntrailer",
    "Mbd.C36_pref",
    "Mbd.C36_le_tt2d"
   ],
   "note": "Reward decomposition against the independent penalty specification; N-trailer uses the requested speed (documented in the theorem). PropsPenalty extends it to the acceleration model (braking look-ahead included), to guided and projected steps, and to trains through the motion equations instead of the model's step."
  },
  {
   "property": "C37",
   "status": "proved",
   "theorems": [
    "Mbd.C37_range",
    "Mbd.C37_steering_only",
    "Mbd.C37_max_iff"
   ],
   "note": "Range and exact maximiser of the steering reward."
  },
  {
   "property": "C38",
   "status": "proved",
   "theorems": [
    "Mbd.C38_tt2d",
    "Mbd.C38_bicycle",
    "Mbd.C38_acc",
    "Mbd.C38_ntrailer",
    "Mbd.C38_recovers_tt2d",
    "Mbd.C38_recovers_bicycle",
    "Mbd.C38_recovers_ntrailer",
    "Mbd.C38_recovers_acc"
   ],
   "note": "Backup flag is off in all states reachable from reset; the next safe request is executed."
  },
  {
   "property": "C39",
   "status": "proved",
   "theorems": [
    "Mbd.C39_left_top",
    "Mbd.C39_rotated",
    "Mbd.C39_modes_agree",
    "Mbd.C39_clearance",
    "Mbd.C39_circles",
    "Mbd.C39_errors",
    "Mbd.C39_errors_circles",
    "Mbd.C39_success"
   ],
   "note": "Point-set semantics of registered rectangles and circles incl. padding, rotation, modes, and error paths leaving everything unchanged."
  },
  {
   "property": "C40",
   "status": "partial",
   "theorems": [
    "Mbd.C40_numbering",
    "Mbd.C40_center",
    "Mbd.C40_center_navigation",
    "Mbd.C40_disjoint",
    "Mbd.C40_inside_lot",
    "Mbd.C40_obstacles_in_cell",
    "Mbd.C40_vacant_free",
    "Mbd.C40_obstacles_of_space",
    "Mbd.C40_plot_limits_refuted"
   ],
   "note": "Proved for lots as constructed; refuted after set_plot_limits (space centres move, obstacles stay)."
  },
  {
   "property": "C41",
   "status": "partial",
   "theorems": [
    "Mbd.C41_partial",
    "Mbd.C41_refuted",
    "Mbd.C41_cleared"
   ],
   "note": "Refuted (placeholder disc of radius 0 at the origin); exact description of the effect; gone after registering an empty list."
  },
  {
   "property": "C42",
   "status": "partial",
   "theorems": [
    "Mbd.C42_dims",
    "Mbd.C42_goal",
    "Mbd.C42_train_uniform",
    "Mbd.C42_init_explicit",
    "Mbd.C42_acc_rates_refuted"
   ],
   "note": "Dimension invariant under all setter sequences; component semantics; refuted for the acceleration model's goal speed."
  },
  {
   "property": "C43",
   "status": "partial",
   "theorems": [
    "Mbd.C43_partial",
    "Mbd.C43_first",
    "Mbd.C43_refuted",
    "Mbd.C43_front_face_refuted"
   ],
   "note": "Exact placement proved; refuted as documented (lowest target, front axle instead of front face)."
  },
  {
   "property": "C44",
   "status": "partial",
   "theorems": [
    "Mbd.C44_dispatch",
    "Mbd.C44_unknown",
    "Mbd.C44_count",
    "Mbd.C44_count_refuted",
    "Mbd.C44_ignored"
   ],
   "note": "Dispatch table proved; the reported number of trailers differs from the requested one for several classes (refuted)."
  },
  {
   "property": "C45",
   "status": "partial",
   "theorems": [
    "Mbd.C45_transfer",
    "Mbd.C45_succeeds_iff",
    "Mbd.C45_missing_required",
    "Mbd.C45_defaults_partial",
    "Mbd.C45_defaults_refuted",
    "Mbd.C45_dict_defaults",
    "Mbd.C45_dropped_refuted",
    "Mbd.C45_other_keys_ignored",
    "Mbd.C45_coercion_refuted",
    "Mbd.C45_keys",
    "Mbd.C45_run_args"
   ],
   "note": "Transfer, success condition, missing keys, entry point proved; defaults of eleven keys differ, three keys are dropped, strings and floats are coerced (refuted)."
  },
  {
   "property": "C46",
   "status": "partial",
   "theorems": [
    "Mbd.C46_circle_value_exact",
    "Mbd.C46_rect_value_exact",
    "Mbd.C46_bicycle_partial",
    "Mbd.C46_bicycle_euler_refuted",
    "Mbd.C46_tt2d_predicted_partial",
    "Mbd.C46_failure_refuted",
    "Mbd.C46_undersized_refuted",
    "Mbd.C46_acc_refuted",
    "Mbd.C46_ntrailer_raises",
    "Mbd.C46_tt2d_partial"
   ],
   "note": "Refuted in four ways (solver failure, undersized rectangles, Euler/Runge-Kutta mismatch, acceleration model); partial theorems with explicit margins; constraint values are exact."
  },
  {
   "property": "C47",
   "status": "partial",
   "theorems": [
    "Mbd.C47_disabled",
    "Mbd.C47_box",
    "Mbd.C47_box_ntrailer",
    "Mbd.C47_box_bicycle",
    "Mbd.C47_acc_keeps",
    "Mbd.C47_cost_nonneg",
    "Mbd.C47_cost_zero_partial",
    "Mbd.C47_cost_zero_refuted",
    "Mbd.C47_gradient",
    "Mbd.C47_fixed",
    "Mbd.C47_fixed_refuted",
    "Mbd.C47_executed_tt2d",
    "Mbd.C47_executed_acc",
    "Mbd.C47_executed_bicycle",
    "Mbd.C47_executed_ntrailer",
    "Mbd.C47_rectangles_ignored",
    "Mbd.C47_later_trailers",
    "Mbd.C47_cost_bicycle",
    "Mbd.C47_gradient_bicycle",
    "Mbd.C47_fixed_bicycle",
    "Mbd.C47_fixed_acc",
    "Mbd.C47_fixed_ntrailer"
   ],
   "note": "Box, identity when disabled, exact gradient, executed state, acceleration model rates proved; zero cost and fixed points hold with the stated restriction (refuted without)."
  },
  {
   "property": "C48",
   "status": "partial",
   "theorems": [
    "Mbd.C48_wellformed",
    "Mbd.C48_straight",
    "Mbd.C48_heading",
    "Mbd.C48_two_steps_refuted",
    "Mbd.C48_three_steps_refuted",
    "Mbd.C48_one_step_refuted",
    "Mbd.C48_tt2d",
    "Mbd.C48_acc",
    "Mbd.C48_ntrailer",
    "Mbd.C48_bicycle",
    "Mbd.C48_reward_tt2d",
    "Mbd.C48_reward_acc",
    "Mbd.C48_reward_bicycle",
    "Mbd.C48_reward_ntrailer",
    "Mbd.C48_spacing",
    "Mbd.C48_share"
   ],
   "note": "Proved for H >= 4 in every obstacle configuration and all robots; refuted for corner paths with H = 1, 2, 3. C48_spacing gives every row's position exactly; C48_share: a leg's row count is within two of its exact share."
  },
  {
   "property": "C49",
   "status": "partial",
   "theorems": [
    "Mbd.C49_margin_partial",
    "Mbd.C49_refuted"
   ],
   "note": "Partial with an explicit gap bound (1/98 of a leg); refuted for small obstacles between sample points."
  },
  {
   "property": "C50",
   "status": "proved",
   "theorems": [
    "Mbd.C50_range",
    "Mbd.C50_range_ntrailer",
    "Mbd.C50_zero_iff",
    "Mbd.C50_mask",
    "Mbd.C50_zero_iff_ntrailer",
    "Mbd.C50_range_bicycle",
    "Mbd.C50_zero_iff_bicycle",
    "Mbd.C50_mask_bicycle",
    "Mbd.C50_mask_ntrailer",
    "Mbd.C50_self_score_forward",
    "Mbd.C50_self_score_trailer",
    "Mbd.C50_self_score_bicycle",
    "Mbd.C50_formula_tt2d",
    "Mbd.C50_formula_acc",
    "Mbd.C50_formula_bicycle",
    "Mbd.C50_formula_ntrailer"
   ],
   "note": "Range, zero set and mask for all robots; self-score of the demonstration; closed form of the score and of the rewards of the reference for all four robots, as the planner sees them (C50_formula_*)."
  },
  {
   "property": "C51",
   "status": "partial",
   "theorems": [
    "Mbd.C51_early_exit",
    "Mbd.C51_tt2d",
    "Mbd.C51_acc",
    "Mbd.C51_bicycle",
    "Mbd.C51_ntrailer_jackknife_partial",
    "Mbd.C51_ntrailer_inline_partial",
    "Mbd.C51_ntrailer_refuted"
   ],
   "note": "Exact verdict for three robots; train: partial for aligned trailers, refuted in general (states are cut to four entries)."
  },
  {
   "property": "C52",
   "status": "proved",
   "theorems": [
    "Mbd.C52_sampling",
    "Mbd.C52_shortage",
    "Mbd.C52_prefix",
    "Mbd.C52_ranges"
   ],
   "note": "For every random stream; any validity predicate that ignores the trial number."
  },
  {
   "property": "C53",
   "status": "partial",
   "theorems": [
    "Mbd.C53_consistent",
    "Mbd.C53_sampled",
    "Mbd.C53_zero_trials",
    "Mbd.C53_empty_refuted",
    "Mbd.C53_denominator_refuted"
   ],
   "note": "Consistency with at least one completed trial; refuted for no completed trial (nan) and for the denominator."
  },
  {
   "property": "C54",
   "status": "partial",
   "theorems": [
    "Mbd.C54_tractor",
    "Mbd.C54_tt2d",
    "Mbd.C54_rigid",
    "Mbd.C54_ntrailer_partial",
    "Mbd.C54_footprint_refuted",
    "Mbd.C54_bicycle",
    "Mbd.C54_acc"
   ],
   "note": "Exact for tractor, bicycle, acceleration model, single trailer and N-trailer axle chain of the dynamics; the collision footprint uses a different hitch (refuted)."
  },
  {
   "property": "C55",
   "status": "partial",
   "theorems": [
    "Mbd.C55_reward_chain",
    "Mbd.C55_reward_offset",
    "Mbd.C55_first_trailer",
    "Mbd.C55_prefix_dynamics",
    "Mbd.C55_prefix_euler",
    "Mbd.C55_reward_position_partial",
    "Mbd.C55_reward_position_refuted"
   ],
   "note": "First-trailer and prefix properties proved; the reward position is the end of an explicit chain (C55_reward_chain) and coincides with the axle of the collision check for one trailer only (refuted in general; for two trailers it is off by front offset + rear offset + lh in every state, C55_reward_offset)."
  },
  {
   "property": "C56",
   "status": "proved",
   "theorems": [
    "Mbd.C56_identities",
    "Mbd.C56_nonneg",
    "Mbd.C56_parts_le_total",
    "Mbd.C56_no_demo",
    "Mbd.C56_percentages",
    "Mbd.C56_wall_clock_refuted"
   ],
   "note": "Monotone clock: all claims; a wall clock that is set back gives negative durations (refuted)."
  },
  {
   "property": "C57",
   "status": "proved",
   "theorems": [
    "Mbd.C57_tt2d",
    "Mbd.C57_bicycle",
    "Mbd.C57_acc",
    "Mbd.C57_ntrailer"
   ],
   "note": "All four robots, obstacle and hitch verdicts under any rotation and translation."
  },
  {
   "property": "C58",
   "status": "proved",
   "theorems": [
    "Mbd.C58_mono_acc",
    "Mbd.C58_alarm_acc",
    "Mbd.C58_mono_tt2d",
    "Mbd.C58_mono_bicycle",
    "Mbd.C58_mono_ntrailer",
    "Mbd.C58_order",
    "Mbd.C58_order_acc",
    "Mbd.C58_order_ntrailer"
   ],
   "note": "Monotone in obstacles, radius and padding, for single poses of all four robots and for the look-ahead alarm of acceleration control; independent of order."
  },
  {
   "property": "C59",
   "status": "partial",
   "theorems": [
    "Mbd.C59_goal_partial",
    "Mbd.C59_start_refuted",
    "Mbd.C59_readme_target_refuted"
   ],
   "note": "Default goal proved collision free; default start refuted; README target pair refuted."
  },
  {
   "property": "C60",
   "status": "proved",
   "theorems": [
    "Mbd.C60_pushes_out",
    "Mbd.C60_three_steps"
   ],
   "note": "Exact displacement per guidance step for one circle (bicycle), 72.9 % after three default steps."
  },
  {
   "property": "C61",
   "status": "partial",
   "theorems": [
    "Mbd.C61_batch",
    "Mbd.C61_no_demo",
    "Mbd.C61_guided",
    "Mbd.C61_demo_refuted"
   ],
   "note": "Exact description of batches; independence without demonstrations or with guidance; refuted with demonstrations."
  },
  {
   "property": "C62",
   "status": "partial",
   "theorems": [
    "Mbd.C62_starts",
    "Mbd.C62_hitch",
    "Mbd.C62_far_start_valid",
    "Mbd.C62_full",
    "Mbd.C62_safe",
    "Mbd.C62_shape_refuted"
   ],
   "note": "End to end for the default shape; refuted for other shapes (start check uses the default vehicle)."
  },
  {
   "property": "C63",
   "status": "partial",
   "theorems": [
    "Mbd.C63_honoured_partial",
    "Mbd.C63_errors",
    "Mbd.C63_defaults",
    "Mbd.C63_two_defaults",
    "Mbd.C63_exact",
    "Mbd.C63_benchmark_refuted",
    "Mbd.C63_example_refuted",
    "Mbd.C63_fixture_refuted",
    "Mbd.C63_params",
    "Mbd.C63_single_trailer",
    "Mbd.C63_scenario",
    "Mbd.C63_planner"
   ],
   "note": "Main program and evaluation honour all settings; benchmark, example and fixtures drop the listed ones (refuted)."
  },
  {
   "property": "C64",
   "status": "partial",
   "theorems": [
    "Mbd.C64_config_partial",
    "Mbd.C64_missing",
    "Mbd.C64_trailers_refuted",
    "Mbd.C64_grid",
    "Mbd.C64_scores",
    "Mbd.C64_zero",
    "Mbd.C64_range",
    "Mbd.C64_safe"
   ],
   "note": "Configuration, missing values, search range, scores, safety. Scores equal isolated evaluations; refuted for the number of trailers."
  },
  {
   "property": "C65",
   "status": "partial",
   "theorems": [
    "Mbd.C65_summary",
    "Mbd.C65_rewards",
    "Mbd.C65_completes",
    "Mbd.C65_times",
    "Mbd.C65_parking_refuted",
    "Mbd.C65_parking_cleared",
    "Mbd.C65_robot"
   ],
   "note": "benchmark_diffusion proved; benchmark_parking_scenario refuted (second configuration raises)."
  },
  {
   "property": "C66",
   "status": "partial",
   "theorems": [
    "Mbd.C66_tt2d",
    "Mbd.C66_acc",
    "Mbd.C66_bicycle",
    "Mbd.C66_ntrailer",
    "Mbd.C66_ntrailer_short",
    "Mbd.C66_train_wheels",
    "Mbd.C66_train_wheels_refuted",
    "Mbd.C66_second_animation",
    "Mbd.C66_second_animation_refuted",
    "Mbd.C66_steering_partial",
    "Mbd.C66_steering_refuted",
    "Mbd.C66_obstacles",
    "Mbd.C66_same_obstacles",
    "Mbd.C66_env_obstacles_refuted",
    "Mbd.C66_mark_partial",
    "Mbd.C66_labels",
    "Mbd.C66_lines",
    "Mbd.C66_wheels"
   ],
   "note": "Bodies, wheels, obstacles, labels and lines proved for all robots; refuted: second animation with the same tractor-trailer robot raises, front wheel drawn at the unscaled action, train trailer wheels at the body centre, obstacles registered with the Env object only."
  },
  {
   "property": "C67",
   "status": "partial",
   "theorems": [
    "Mbd.C67_frames",
    "Mbd.C67_run",
    "Mbd.C67_progress",
    "Mbd.C67_marks",
    "Mbd.C67_shielded_tt2d",
    "Mbd.C67_shielded_bicycle",
    "Mbd.C67_shielded_ntrailer",
    "Mbd.C67_denoising",
    "Mbd.C67_denoising_zero",
    "Mbd.C67_denoising_run",
    "Mbd.C67_denoising_final_refuted",
    "Mbd.C67_denoising_final_partial",
    "Mbd.C67_render"
   ],
   "note": "Frames, marks, traces, overlays, denoising pictures and the static picture proved; refuted: with a frame skip that does not divide Ndiffuse-2 the final plan is never shown."
  },
  {
   "property": "C68",
   "status": "partial",
   "theorems": [
    "Mbd.C68_video",
    "Mbd.C68_empty",
    "Mbd.C68_failed",
    "Mbd.C68_trials",
    "Mbd.C68_merged_partial",
    "Mbd.C68_merged_refuted",
    "Mbd.C68_complete",
    "Mbd.C68_stale_refuted"
   ],
   "note": "Single videos and per-trial videos proved for every directory content; the joined video is in trial order up to 999 trials in a directory without progress videos of a longer evaluation; refuted beyond either condition."
  },
  {
   "property": "C69",
   "status": "partial",
   "theorems": [
    "Mbd.C69_report",
    "Mbd.C69_pass_refuted",
    "Mbd.C69_robot",
    "Mbd.C69_goal_partial",
    "Mbd.C69_goal_refuted",
    "Mbd.C69_start_free",
    "Mbd.C69_safe"
   ],
   "note": "The verdict of the integration tests on any trajectory, and the robot their fixtures build. Refuted: a passing test means a safe trajectory (violations are only logged); the goal follows a custom lot (it stays the default lot's space 3). With both shields the standard scenarios log no violation for any noise."
  },
  {
   "property": "C70",
   "status": "partial",
   "theorems": [
    "Mbd.C70_formula_tt2d",
    "Mbd.C70_formula_acc",
    "Mbd.C70_formula_bicycle",
    "Mbd.C70_formula_ntrailer",
    "Mbd.C70_aligned_tt2d",
    "Mbd.C70_reversed_tt2d",
    "Mbd.C70_preferred_tt2d",
    "Mbd.C70_approach_tt2d_partial",
    "Mbd.C70_approach_aligned",
    "Mbd.C70_approach_refuted",
    "Mbd.C70_terminal_tt2d",
    "Mbd.C70_terminal_heading_refuted",
    "Mbd.C70_acc",
    "Mbd.C70_aligned_bicycle",
    "Mbd.C70_approach_bicycle_partial",
    "Mbd.C70_ntrailer",
    "Mbd.C70_ntrailer_heading_refuted"
   ],
   "note": "Closed form of stage and terminal reward for all four robots (C70_formula_*). Order of states by reward: alignment (up to a reversal without preference), straightness, distance; whole-turn reversal about the trailer axle. Missing: approaching the goal always pays (refuted across the goal heading; proved while the heading part is not below the position part). Refuted: terminal heading reward (documented), any heading reward for trains."
  },
  {
   "property": "C71",
   "status": "partial",
   "theorems": [
    "Mbd.C71_shape",
    "Mbd.C71_replayed",
    "Mbd.C71_second_robot",
    "Mbd.C71_second_tt2d",
    "Mbd.C71_second_bicycle",
    "Mbd.C71_second_acc",
    "Mbd.C71_displayed",
    "Mbd.C71_tt2d",
    "Mbd.C71_bicycle",
    "Mbd.C71_acc",
    "Mbd.C71_shield_refuted",
    "Mbd.C71_unguided_refuted"
   ],
   "note": "Shape, start and motion of the displayed trajectory proved; refuted: in a fresh process (or after clearing caches) the comparison replays the traced guided step, so the shields are not in force; a second robot of the same class does use its unguided step."
  },
  {
   "property": "C72",
   "status": "partial",
   "theorems": [
    "Mbd.C72_reward_tt2d",
    "Mbd.C72_motion_tt2d",
    "Mbd.C72_tt2d",
    "Mbd.C72_bicycle",
    "Mbd.C72_acc",
    "Mbd.C72_ntrailer",
    "Mbd.C72_demo_tt2d",
    "Mbd.C72_demo_acc",
    "Mbd.C72_demo_bicycle",
    "Mbd.C72_demo_ntrailer",
    "Mbd.C72_demo_refuted",
    "Mbd.C72_guidance_refuted",
    "Mbd.C72_projection",
    "Mbd.C72_guidance",
    "Mbd.C72_guidance_acc",
    "Mbd.C72_guidance_bicycle"
   ],
   "note": "Whole planning runs proved equivariant for all four robots (guidance and projection as far as they commute with the motion; train without projection); with demonstrations for translations. Refuted: demonstrations under rotations (axis-parallel corners), guidance under large translations (positions clipped to a fixed square). C72_guidance: guidance commutes with the motion as long as nothing is clipped. C72_projection: the optimisation problem of the projection is the same in every frame (the solver itself is not modelled)."
  },
  {
   "property": "C73",
   "status": "proved",
   "theorems": [
    "Mbd.C73_projection",
    "Mbd.C73_tt2d",
    "Mbd.C73_bicycle",
    "Mbd.C73_acc",
    "Mbd.C73_ntrailer"
   ],
   "note": "Proved for all four robots with guidance as implemented and with demonstrations (headings up to full turns). Bodies have sides of at least 1e-4 m, the acceleration model a non-negative steering limit, the train no projection (it raises). Projection of the other robots enters as a function assumed to commute with the mirroring; C73_projection: the optimisation problem it solves is mirrored (the solver itself is not modelled)."
  },
  {
   "property": "C74",
   "status": "proved",
   "theorems": [
    "Mbd.C74_margin_tt2d",
    "Mbd.C74_margin_bicycle",
    "Mbd.C74_margin_ntrailer",
    "Mbd.C74_tt2d",
    "Mbd.C74_bicycle",
    "Mbd.C74_acc",
    "Mbd.C74_ntrailer",
    "Mbd.C74_unpadded_refuted"
   ],
   "note": "Margin for all four robots; in-between safety of whole shielded runs for tractor-trailer, bicycle and train (travel bounds from the parameters), for the acceleration model between any two safe recorded states. Default vehicle: 1.5 m of padding suffice (train 3 m). Refuted without padding (quarter turn in one step)."
  },
  {
   "property": "C75",
   "status": "proved",
   "theorems": [
    "Mbd.C75_bicycle",
    "Mbd.C75_tt2d",
    "Mbd.C75_safe_bicycle",
    "Mbd.C75_safe_tt2d",
    "Mbd.C75_exact_refuted",
    "Mbd.C75_exists_bicycle",
    "Mbd.C75_exists_tt2d",
    "Mbd.C75_acc",
    "Mbd.C75_exists_acc",
    "Mbd.C75_ntrailer",
    "Mbd.C75_safe_ntrailer",
    "Mbd.C75_exists_ntrailer"
   ],
   "note": "Bicycle, tractor-trailer and trains of any number of trailers, shields and guidance included (projection off: the applied controls must be within limits). The continuous motion exists for every recorded motion (Picard-Lindelof). C75_acc, C75_exists_acc: acceleration-controlled vehicle with any shield; speed and steering angle change linearly between the recorded ones, so heading, too, only agrees up to a bound that vanishes with the time step. Refuted: recorded positions are exact (default vehicle: up to 8 cm sideways per step when rocking with the wheel at the stop)."
  },
  {
   "property": "C76",
   "status": "proved",
   "theorems": [
    "Mbd.C76_silent_tt2d",
    "Mbd.C76_silent_bicycle",
    "Mbd.C76_hitch_silent",
    "Mbd.C76_moves_tt2d",
    "Mbd.C76_moves_bicycle",
    "Mbd.C76_silent_default",
    "Mbd.C76_free_default",
    "Mbd.C76_check_ntrailer",
    "Mbd.C76_run_ntrailer",
    "Mbd.C76_silent_ntrailer",
    "Mbd.C76_hitch_ntrailer",
    "Mbd.C76_exact_check_ntrailer",
    "Mbd.C76_exact_hitch_ntrailer",
    "Mbd.C76_exact_step_ntrailer",
    "Mbd.C76_run_train",
    "Mbd.C76_padded_ntrailer",
    "Mbd.C76_padded_bicycle",
    "Mbd.C76_padded_train",
    "Mbd.C76_check_tt2d",
    "Mbd.C76_check_bicycle",
    "Mbd.C76_run_tt2d",
    "Mbd.C76_run_bicycle",
    "Mbd.C76_padded_tt2d",
    "Mbd.C76_hitch",
    "Mbd.C76_run_default",
    "Mbd.C76_padded_default",
    "Mbd.C76_plan_default",
    "Mbd.C76_exact_check",
    "Mbd.C76_exact_hitch",
    "Mbd.C76_exact_step",
    "Mbd.C76_exact_check_bicycle",
    "Mbd.C76_exact_step_bicycle"
   ],
   "note": "Checks of tractor-trailer, bicycle and train and their shielded runs, parametric in the accuracy; the train's tolerances grow with each trailer (default train of up to three trailers: 1 mm for rectangles, 5 cm for discs of 1.3 m or more); with padded obstacles all bodies keep the padding minus the tolerance away; numbers for single precision and the default vehicle, also unconditional for plans of the default length. Converse (no false alarms) for checks, hitch check and shielded step. The accuracy of the arithmetic (Spec.Accurate) is a hypothesis, met by 24-bit rounding (single_float32). Exceptions inherited from the exact check: discs small enough to fit into a body."
  },
  {
   "property": "C77",
   "status": "proved",
   "theorems": [
    "Mbd.C77_order",
    "Mbd.C77_noise_order",
    "Mbd.C77_ratio",
    "Mbd.C77_cooler",
    "Mbd.C77_mean_score",
    "Mbd.C77_cold",
    "Mbd.C77_cold_limit",
    "Mbd.C77_hot_limit"
   ],
   "note": "All parts, with and without demonstration, for any planner environment (temperature positive; at zero the code divides by zero)."
  },
  {
   "property": "C78",
   "status": "proved",
   "theorems": [
    "Mbd.C78_accuracy",
    "Mbd.C78_step_accuracy",
    "Mbd.C78_accuracy_default",
    "Mbd.C78_exact",
    "Mbd.C78_order",
    "Mbd.C78_levels",
    "Mbd.C78_default",
    "Mbd.C78_weights",
    "Mbd.C78_divisors",
    "Mbd.C78_step",
    "Mbd.C78_plans",
    "Mbd.C78_direction"
   ],
   "note": "All rewards, rollouts and demonstrations; parametric in the accuracy, with numbers for the default configuration. Accuracy of the weights needs a spread of the rewards above the 1e-4 guard. The accuracy of the arithmetic (Spec.PlanAccurate) is a hypothesis; overflow and NaN are not modelled."
  },
  {
   "property": "C79",
   "status": "partial",
   "theorems": [
    "Mbd.C79_step",
    "Mbd.C79_straightens",
    "Mbd.C79_default",
    "Mbd.C79_ntrailer",
    "Mbd.C79_many_obstacles_refuted"
   ],
   "note": "Exact one-step factor with any obstacles at a distance; any number of steps when the trailer axle's distance to the circular obstacles has a reserve of half the excess angle times the lengths lh + l2 (turning the bodies moves that axle); trains by reduction to their front. Refuted for several hundred obstacles, where the weight exceeds what the step size allows."
  },
  {
   "property": "C80",
   "status": "proved",
   "theorems": [
    "Mbd.C80_step_bicycle",
    "Mbd.C80_bicycle",
    "Mbd.C80_many_obstacles_refuted",
    "Mbd.C80_step",
    "Mbd.C80_steps",
    "Mbd.C80_tt2d",
    "Mbd.C80_default",
    "Mbd.C80_acc",
    "Mbd.C80_ntrailer"
   ],
   "note": "One-step decrease and any number of steps, all four vehicles (train: tractor and first trailer). C80_many_obstacles_refuted shows that the bound on the number of obstacles cannot be dropped (22 poles, bicycle, default step size)."
  },
  {
   "property": "C81",
   "status": "proved",
   "theorems": [
    "Mbd.C81_acc",
    "Mbd.C81_safe_acc",
    "Mbd.C81_bicycle",
    "Mbd.C81_tt2d",
    "Mbd.C81_safe_bicycle",
    "Mbd.C81_safe_tt2d",
    "Mbd.C81_unpadded_refuted",
    "Mbd.C81_ntrailer",
    "Mbd.C81_safe_ntrailer"
   ],
   "note": "Bicycle, tractor-trailer and trains of any number of trailers (C81_ntrailer, C81_safe_ntrailer) and the acceleration-controlled vehicle (C81_acc, C81_safe_acc: errors in speed and steering angle around the linearly interpolated recorded ones; safety from the recorded states being clear of the padded obstacles, as its shield does not guarantee that, C11, C12), shields included (projection and, for safety, guidance off). Executions are all curves whose derivatives at every moment are those of the kinematic equations for some speed and steering angle within the budget (differential inclusion). C81_unpadded_refuted: without padding there is no tolerance."
  },
  {
   "property": "C82",
   "status": "proved",
   "theorems": [
    "Mbd.C82_checks",
    "Mbd.C82_checks_ntrailer",
    "Mbd.C82_step",
    "Mbd.C82_step_bicycle",
    "Mbd.C82_step_ntrailer",
    "Mbd.C82_step_acc",
    "Mbd.C82_rewards",
    "Mbd.C82_rewards_ntrailer",
    "Mbd.C82_steering",
    "Mbd.C82_score",
    "Mbd.C82_weights",
    "Mbd.C82_plans",
    "Mbd.C82_plan_step",
    "Mbd.C82_right_angle"
   ],
   "note": "All four robots (projection and guidance off), rewards, score, weights and plans, through the models with an arbitrary arithmetic (Rounded, RoundTrain, RoundAcc, RoundReward, RoundPlan). An undefined operation returns an arbitrary real number, not a NaN with its own propagation rules; the Python-side combinations of attributes are read as exact. C82_right_angle shows that the bound on the steering limit is needed."
  },
  {
   "property": "C83",
   "status": "proved",
   "theorems": [
    "Mbd.C83_step",
    "Mbd.C83_run"
   ],
   "note": "Complete: one step (C83_step) and the whole run (C83_run) equal a closed form written with finite sums only (Spec.update, Spec.planAt); the match with the demonstration is the robot's own function (closed form of it: C50)."
  },
  {
   "property": "C84",
   "status": "partial",
   "theorems": [
    "Mbd.C84_fresh",
    "Mbd.C84_calls",
    "Mbd.C84_start",
    "Mbd.C84_spaces",
    "Mbd.C84_kept_refuted"
   ],
   "note": "Bounds test, setters, default start and parking spaces: complete. That vehicles stay in the bounds is refuted (C84_kept_refuted): no step looks at them."
  },
  {
   "property": "C85",
   "status": "proved",
   "theorems": [
    "Mbd.C85_checked",
    "Mbd.C85_run",
    "Mbd.C85_brake",
    "Mbd.C85_motion",
    "Mbd.C85_run_default"
   ],
   "note": "Complete as stated; the accuracy of the arithmetic is a hypothesis (24-bit rounding meets it: single_float32, single_zero). Obstacles from 1 m size, positions up to 50 m, default vehicle where numbers are given; the general theorem C85_run is parametric."
  },
  {
   "property": "C86",
   "status": "proved",
   "theorems": [
    "Mbd.C86_stage_tt2d",
    "Mbd.C86_terminal_tt2d",
    "Mbd.C86_stage_bicycle",
    "Mbd.C86_terminal_bicycle",
    "Mbd.C86_train",
    "Mbd.C86_order",
    "Mbd.C86_steering"
   ],
   "note": "Complete as stated; the accuracy of the arithmetic is a hypothesis (single32_reward: 24-bit rounding of every operation meets it)."
  },
  {
   "property": "C87",
   "status": "proved",
   "theorems": [
    "Mbd.C87_step",
    "Mbd.C87_never_worse",
    "Mbd.C87_forward",
    "Mbd.C87_reverse",
    "Mbd.C87_reverse_halts",
    "Mbd.C87_circle",
    "Mbd.C87_circle_bicycle",
    "Mbd.C87_steady",
    "Mbd.C87_steady_exists",
    "Mbd.C87_lock",
    "Mbd.C87_lock_default",
    "Mbd.C87_step_ntrailer",
    "Mbd.C87_reverse_ntrailer",
    "Mbd.C87_lock_ntrailer",
    "Mbd.C87_circle_ntrailer",
    "Mbd.C87_steady_ntrailer",
    "Mbd.C87_steady_exists_ntrailer",
    "Mbd.C87_ahead_stuck_ntrailer"
   ],
   "note": "Complete as stated. For trains the open-ground claim in (a) is not made (it fails: C87_ahead_stuck_ntrailer)."
  },
  {
   "property": "C88",
   "status": "proved",
   "theorems": [
    "Mbd.C88_tt2d",
    "Mbd.C88_first_tt2d",
    "Mbd.C88_ignored_tt2d",
    "Mbd.C88_bicycle",
    "Mbd.C88_first_bicycle",
    "Mbd.C88_ignored_bicycle",
    "Mbd.C88_ntrailer",
    "Mbd.C88_first_ntrailer",
    "Mbd.C88_ignored_ntrailer",
    "Mbd.C88_acc",
    "Mbd.C88_first_acc",
    "Mbd.C88_ignored_acc"
   ],
   "note": "Complete as stated; the first difference of the acceleration model is stated for both shields on."
  },
  {
   "property": "C89",
   "status": "proved",
   "theorems": [
    "Mbd.C89_track_tt2d",
    "Mbd.C89_track_bicycle",
    "Mbd.C89_safe_tt2d",
    "Mbd.C89_safe_bicycle",
    "Mbd.C89_arrives_tt2d",
    "Mbd.C89_arrives_bicycle",
    "Mbd.C89_default_bicycle",
    "Mbd.C89_track_ntrailer",
    "Mbd.C89_safe_ntrailer",
    "Mbd.C89_arrives_ntrailer"
   ],
   "note": "Bicycle and tractor-trailer (projection and, for safety, guidance off): executions are all curves that satisfy the kinematic equations at every moment for some speed and steering angle within the budget. Trains: executions without error (C89_track_ntrailer, C89_safe_ntrailer, C89_arrives_ntrailer)."
  },
  {
   "property": "C90",
   "status": "partial",
   "theorems": [
    "Mbd.C90_tt2d",
    "Mbd.C90_bicycle",
    "Mbd.C90_ntrailer",
    "Mbd.C90_acc_partial",
    "Mbd.C90_acc_refuted"
   ],
   "note": "Tractor-trailer, bicycle and trains: complete for references given in the new units (generation of the reference, which uses absolute thresholds, is not included). Acceleration control: proved without shields (C90_acc_partial); refuted with shields, which compare speeds with an absolute 0.01 (C90_acc_refuted)."
  },
  {
   "property": "C91",
   "status": "proved",
   "theorems": [
    "Mbd.C91_tt2d",
    "Mbd.C91_bicycle",
    "Mbd.C91_ntrailer",
    "Mbd.C91_acc"
   ],
   "note": "All four robots, complete: any shields, penalties, noise and reference trajectory (the trajectory itself is taken as given). Rectangular obstacles and body sides must have positive size."
  },
  {
   "property": "C92",
   "status": "proved",
   "theorems": [
    "Mbd.C92_idle_acc",
    "Mbd.C92_idle_ntrailer",
    "Mbd.C92_tt2d",
    "Mbd.C92_bicycle",
    "Mbd.C92_acc",
    "Mbd.C92_ntrailer",
    "Mbd.C92_idle_tt2d",
    "Mbd.C92_idle_bicycle",
    "Mbd.C92_price_tt2d",
    "Mbd.C92_price_bicycle"
   ],
   "note": "Complete as claimed: execution and the idle shield for all four robots (for acceleration control without hitch shield only the penalty is varied: the shielded step judges jackknifing along the predicted stop, the unshielded one at the pose), the price of a violation for tractor-trailer and bicycle. Projection and guidance enter as the same functions on both sides."
  },
  {
   "property": "C93",
   "status": "proved",
   "theorems": [
    "Mbd.C93_tt2d",
    "Mbd.C93_bicycle",
    "Mbd.C93_acc",
    "Mbd.C93_ntrailer",
    "Mbd.C93_score_ntrailer"
   ],
   "note": "Complete, for all four robots. 'Covers': same vehicle, and every obstacle of the one map has one of the same centre and orientation and at least its size on the other. Projection enters as the same function on both sides; it does not look at obstacles."
  },
  {
   "property": "C94",
   "status": "proved",
   "theorems": [
    "Mbd.C94_local_tt2d",
    "Mbd.C94_best_tt2d",
    "Mbd.C94_local_bicycle",
    "Mbd.C94_best_bicycle",
    "Mbd.C94_local_ntrailer",
    "Mbd.C94_best_acc",
    "Mbd.C94_best_ntrailer",
    "Mbd.C94_local_acc"
   ],
   "note": "Complete as claimed: locality for all four robots (trains and acceleration control from any state not in backup mode, which includes the reset state), and so the ranking (acceleration control with the alarm condition; trains among the sequences that raise no exception)."
  }
 ]
}