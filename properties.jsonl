{"id": "C01", "title": "Kinematic collision shield is an invariant", "statement": "With enable_shielded_rollout_collision on (no projection, no guidance), if the initial state passes the robot's own obstacle check, every state returned by step() along the rollout passes it, for TractorTrailer2d, KinematicBicycle2d and NTrailer2d.", "quantifier": "all parameters, obstacle sets, safe initial states, action sequences of any length and values (also outside [-1,1])", "why_tests_cant": "It must hold after arbitrarily many steps of arbitrary real-valued actions for every geometry; a test samples finitely many.", "anchors": ["mbd/robots/tt2d.py:_step_internal,shielded_rollout", "mbd/robots/kinematic_bicycle2d.py:_step_internal", "mbd/robots/n_trailer2d.py:_step_internal,shielded_rollout"]}
{"id": "C02", "title": "Kinematic jackknife shield is an invariant", "statement": "With enable_shielded_rollout_hitch on (no projection, no guidance), if the initial state is not jackknifed, no state returned by step() is, independently of whether the collision shield is on.", "quantifier": "all parameters, non-jackknifed initial states, action sequences of any length", "why_tests_cant": "It must hold after arbitrarily many steps of arbitrary real-valued actions for every geometry; a test samples finitely many.", "anchors": ["mbd/robots/tt2d.py:shielded_rollout,check_hitch_violation", "mbd/robots/n_trailer2d.py:check_hitch_violation"]}
{"id": "C03", "title": "Shielded kinematic rollouts are geometrically safe", "statement": "With both shields on, at every step of every rollout from a safe state the tractor and trailer bodies (as solid point sets) contain no point of any rectangular or circular obstacle.", "quantifier": "all parameters, obstacle sets, safe initial states, action sequences", "why_tests_cant": "Relates the boolean checks to point-set disjointness over infinitely many points and states.", "anchors": ["mbd/robots/tt2d.py:check_obstacle_collision,shielded_rollout", "mbd/robots/n_trailer2d.py:check_obstacle_collision", "mbd/robots/kinematic_bicycle2d.py:check_obstacle_collision"]}
{"id": "C04", "title": "Rectangle-rectangle collision check is exact", "statement": "check_rectangle_rectangle_collision reports a collision exactly when the two closed solid rectangles share a point (rectangles with positive side lengths).", "quantifier": "all pairs of rectangles: centres, angles, positive sizes", "why_tests_cant": "Both directions (no miss, no false alarm) quantify over all rectangle pairs and all points.", "anchors": ["mbd/robots/tt2d.py:check_rectangle_rectangle_collision"]}
{"id": "C05", "title": "Rectangle-circle collision check is exact", "statement": "check_rectangle_circle_collision reports a collision exactly when the closed solid rectangle and the closed disc share a point.", "quantifier": "all rectangles and circles with radius >= 0", "why_tests_cant": "Ranges over a continuum of positions; the failing region (a circle strictly inside the body) is easy to miss by sampling.", "anchors": ["mbd/robots/tt2d.py:check_rectangle_circle_collision"]}
{"id": "C06", "title": "Jackknife check is exact modulo full turns", "statement": "check_hitch_violation is true exactly when the articulation angle, taken modulo 2*pi, exceeds phi_max in magnitude; adding full turns to any heading never changes the verdict; for N trailers it is true exactly when some consecutive pair violates.", "quantifier": "all headings (unbounded reals), all N", "why_tests_cant": "Headings are unbounded reals; wrap-around has a discontinuity at odd multiples of pi.", "anchors": ["mbd/robots/tt2d.py:check_hitch_violation", "mbd/robots/n_trailer2d.py:check_hitch_violation"]}
{"id": "C07", "title": "Collision footprint equals the documented vehicle geometry", "statement": "The rectangles used for collision checks are exactly the solid bodies given by the parameters: the tractor from lr behind its rear axle to l1+lf1 ahead, the trailer from lr2 behind its axle to lf2 ahead, with the given widths, its axle l2 behind the hitch that is lh behind the tractor axle; all four corners are corners of these bodies; for N trailers every body appears once.", "quantifier": "all states and geometry parameters, all N", "why_tests_cant": "Over all poses and parameters.", "anchors": ["mbd/robots/tt2d.py:get_tractor_trailer_rectangles,get_trailer_position", "mbd/robots/n_trailer2d.py:get_tractor_trailer_rectangles_all", "mbd/robots/kinematic_bicycle2d.py:get_tractor_rectangle"]}
{"id": "C08", "title": "Applied actions respect the normalised input box", "statement": "The applied_action recorded by step() lies in [-1,1]^2 for any requested action, in naive, shielded and guided mode, for all four robots.", "quantifier": "all states, arbitrary real actions, all parameters (a_max>0 for the acceleration model)", "why_tests_cant": "Requested actions are unbounded and the acceleration backup divides by dt and a_max.", "anchors": ["mbd/robots/tt2d.py:_step_internal", "mbd/robots/acc_tt2d.py:_step_internal", "mbd/robots/n_trailer2d.py:_step_internal", "mbd/robots/kinematic_bicycle2d.py:_step_internal"]}
{"id": "C09", "title": "Recorded actions explain the recorded states", "statement": "Each recorded state of a kinematic rollout is exactly one Euler step of the vehicle model from the previous state under the scaled applied_action recorded for that step.", "quantifier": "all states, action sequences, flags (naive, shielded, guided non-visualisation, projection)", "why_tests_cant": "Must hold at every step of every rollout, including steps overridden by the shield.", "anchors": ["mbd/robots/tt2d.py:_step_internal", "mbd/robots/n_trailer2d.py:_step_internal", "mbd/robots/kinematic_bicycle2d.py:_step_internal"]}
{"id": "C10", "title": "Replaying applied actions reproduces the plan", "statement": "Feeding the applied actions of a shielded/naive kinematic rollout back into step() from the same state yields the same states and the same applied actions (what run_diffusion relies on when it replaces Y0 by the applied controls and re-rolls it).", "quantifier": "all safe initial states and action sequences of any length", "why_tests_cant": "Induction over histories; the shield may fire again on replay.", "anchors": ["mbd/planners/mbd_planner.py:run_diffusion (lines 513-566)", "mbd/robots/tt2d.py:_step_internal"]}
{"id": "C11", "title": "Acceleration-model shield keeps the vehicle safe", "statement": "With both shields on, AccTractorTrailer2d started from a safe state at rest never enters a state that fails the obstacle or jackknife check.", "quantifier": "all parameters, obstacle sets, safe initial states at rest, action sequences", "why_tests_cant": "It must hold after arbitrarily many steps of arbitrary real-valued actions for every geometry; a test samples finitely many.", "anchors": ["mbd/robots/acc_tt2d.py:shielded_rollout,_step_internal,_check_safety_with_rollout"]}
{"id": "C12", "title": "Acceleration-model backup brakes towards standstill", "statement": "Whenever the shield of AccTractorTrailer2d overrides a step, the resulting speed is the previous speed reduced by at most a_max*dt, never reversed, and repeated overrides bring the vehicle to standstill.", "quantifier": "all velocities, parameters with dt>0 and a_max>0, proposed states", "why_tests_cant": "Ranges over all real velocities; the failing corner needs a specific sign combination of old and new velocity.", "anchors": ["mbd/robots/acc_tt2d.py:shielded_rollout"]}
{"id": "C13", "title": "Acceleration-model recorded action matches the executed backup", "statement": "The applied_action recorded when the acceleration shield fires is the control that produced the recorded next state.", "quantifier": "all states, actions, parameters", "why_tests_cant": "The two computations differ only in a corner of velocity space.", "anchors": ["mbd/robots/acc_tt2d.py:_step_internal,shielded_rollout"]}
{"id": "C14", "title": "Predictive safety rollout ends at standstill", "statement": "The acceleration model's predictive check rolls the vehicle forward until it has stopped (|v| <= threshold) within its fixed number of steps.", "quantifier": "all velocities within v_max, all parameters", "why_tests_cant": "Over all real velocities and parameters.", "anchors": ["mbd/robots/acc_tt2d.py:_check_safety_with_rollout,_rollout_step"]}
{"id": "C15", "title": "Physical speed limit", "statement": "In one step the reference point of any robot moves by at most v_max*dt, whatever action is requested; hence after n steps at most n*v_max*dt from the start.", "quantifier": "all states, real actions, numbers of steps", "why_tests_cant": "Unbounded actions and step counts.", "anchors": ["mbd/robots/tt2d.py:input_scaler,tractor_trailer_dynamics", "mbd/robots/acc_tt2d.py:tractor_trailer_dynamics", "mbd/robots/n_trailer2d.py:n_trailer_dynamics", "mbd/robots/kinematic_bicycle2d.py:bicycle_dynamics"]}
{"id": "C16", "title": "Reported velocity and steering stay within limits (acceleration model)", "statement": "The v and delta components of the acceleration model's state stay within [-v_max,v_max] and [-delta_max,delta_max].", "quantifier": "all action sequences from rest", "why_tests_cant": "Violated only after enough steps of sustained acceleration.", "anchors": ["mbd/robots/acc_tt2d.py:tractor_trailer_dynamics,_step_internal"]}
{"id": "C17", "title": "Rollouts are causal and compositional", "statement": "Outputs of a rollout up to time t depend only on the first t actions, output lengths equal the number of actions, and rolling out a concatenation equals rolling out the second part from the final state of the first.", "quantifier": "all step functions, states, action sequences", "why_tests_cant": "Quantifies over all sequences and split points.", "anchors": ["mbd/utils.py:rollout_us,rollout_us_with_terminal,eval_us"]}
{"id": "C18", "title": "The warm-up step does not move the vehicle", "statement": "The zero-action step that rollout_us and rollout_us_with_terminal execute before the sequence leaves the vehicle state unchanged, so samples are evaluated from x0.", "quantifier": "all states, parameters, robots (not projection)", "why_tests_cant": "All states and parameters; the acceleration model differs when it starts moving.", "anchors": ["mbd/utils.py:rollout_us,rollout_us_with_terminal"]}
{"id": "C19", "title": "Diffusion noise schedule is well formed", "statement": "For 0 < beta0 <= betaT < 1 every alpha lies in (0,1), the cumulative products are positive and strictly decreasing, sigmas are defined, in (0,1) and strictly increasing, and no division by zero or square root of a negative occurs in the reverse step or in the conditional variances.", "quantifier": "all Ndiffuse >= 1 and beta ranges", "why_tests_cant": "All schedule lengths and real betas.", "anchors": ["mbd/planners/mbd_planner.py:run_diffusion (lines 298-301, 465-469)"]}
{"id": "C20", "title": "Reverse process visits each noise level once and fills its outputs", "statement": "The reverse loop runs Ndiffuse-1 iterations with indices Ndiffuse-1 down to 1, every array access is in range, every row of the returned history is written exactly once, and its last row is the returned plan.", "quantifier": "all Ndiffuse, all reverse-step functions", "why_tests_cant": "All loop counts.", "anchors": ["mbd/planners/mbd_planner.py:reverse (lines 478-507)"]}
{"id": "C21", "title": "Reverse step returns the weighted mean of executed samples", "statement": "The score/rescaling algebra of one reverse step returns exactly the softmax-weighted average of the applied action sequences, independent of the noise level.", "quantifier": "all schedules, indices, samples, weights", "why_tests_cant": "Algebraic identity over reals.", "anchors": ["mbd/planners/mbd_planner.py:reverse_once (lines 411-421)"]}
{"id": "C22", "title": "Planned actions stay within limits", "statement": "Every action of the plan returned by run_diffusion, and of every intermediate plan, lies in [-1,1].", "quantifier": "all noise draws, rewards, robots (not projection), numbers of diffusion steps", "why_tests_cant": "Over all random draws and all iterations.", "anchors": ["mbd/planners/mbd_planner.py:reverse_once,run_diffusion"]}
{"id": "C23", "title": "Strict motion direction is enforced", "statement": "With motion_preference 2 (respectively -2) the planned vehicle never moves backward (forward).", "quantifier": "all noise draws, rewards, numbers of steps, robots", "why_tests_cant": "Over all random draws.", "anchors": ["mbd/planners/mbd_planner.py:reverse_once (lines 375-398)"]}
{"id": "C24", "title": "Importance weights form a reward-monotone distribution", "statement": "Sample weights are positive, sum to one, and (without demonstration) a sample with higher combined reward gets a strictly higher weight.", "quantifier": "all sample counts >= 1, real rewards, temperatures > 0", "why_tests_cant": "All real reward vectors.", "anchors": ["mbd/planners/mbd_planner.py:reverse_once (lines 400-419)"]}
{"id": "C25", "title": "Weights are invariant to reward offset and scale", "statement": "Adding a constant to all rewards leaves the weights unchanged; multiplying all rewards by a positive factor leaves them unchanged as long as the reward spread stays above the 1e-4 guard.", "quantifier": "all reward vectors, offsets, factors", "why_tests_cant": "All real vectors.", "anchors": ["mbd/planners/mbd_planner.py:reverse_once (lines 400-405)"]}
{"id": "C26", "title": "Degenerate reward spread is handled", "statement": "The normalising divisor is never smaller than 1e-4, and when all samples get the same reward the weights are uniform so the update is the plain mean.", "quantifier": "all reward vectors, sample counts", "why_tests_cant": "All vectors including the zero-variance ones.", "anchors": ["mbd/planners/mbd_planner.py:reverse_once (lines 401-405)"]}
{"id": "C27", "title": "Demonstration guidance only raises weights towards the reference", "statement": "Enabling the demonstration never lowers a sample's unnormalised log-weight, raises at least the best-matching sample to the demonstration's normalised reward, and has no effect when disabled.", "quantifier": "all samples, rewards, demonstration scores", "why_tests_cant": "All vectors.", "anchors": ["mbd/planners/mbd_planner.py:reverse_once (lines 407-417)"]}
{"id": "C28", "title": "Random keys are never reused", "statement": "The keys used for reset, warm-up sampling and each reverse step are pairwise distinct.", "quantifier": "all numbers of diffusion steps", "why_tests_cant": "Unbounded number of splits.", "anchors": ["mbd/planners/mbd_planner.py:run_diffusion (lines 212,249,363,509)"]}
{"id": "C29", "title": "Same seed, same result from a fresh cache", "statement": "With an empty JIT cache (or after clear_jit_cache) the result of run_diffusion is a function of its arguments and environment only; two such runs with equal inputs agree, whatever was run before.", "quantifier": "all histories of run_diffusion / clear_jit_cache calls", "why_tests_cant": "Quantifies over call histories.", "anchors": ["mbd/planners/mbd_planner.py:_jit_function_cache,clear_jit_cache,run_diffusion"]}
{"id": "C30", "title": "Cached functions never change the result of a run", "statement": "run_diffusion returns the same result whether or not functions cached by earlier runs are reused.", "quantifier": "all histories of runs with different environments and configurations", "why_tests_cant": "Call histories; the bug needs two differing runs of the same robot class.", "anchors": ["mbd/planners/mbd_planner.py:run_diffusion (lines 236-246, 339-343)"]}
{"id": "C31", "title": "Result shapes and initial state", "statement": "run_diffusion returns Hsample actions and Hsample+1 states, the first state is the reset state, and each further state is one step from the previous under the returned action.", "quantifier": "all horizons, noise draws", "why_tests_cant": "All horizons and draws.", "anchors": ["mbd/planners/mbd_planner.py:run_diffusion (lines 513-566,733-751)"]}
{"id": "C32", "title": "Returned trajectory of a shielded kinematic run is safe and consistent", "statement": "For the kinematic robots with both shields, the trajectory returned by run_diffusion starts at x0, passes both checks at every state, and equals the states of the rollout that scored the plan.", "quantifier": "all noise draws, horizons, parameters, safe x0", "why_tests_cant": "All random draws and horizons.", "anchors": ["mbd/planners/mbd_planner.py:run_diffusion"]}
{"id": "C33", "title": "Stage reward bounds", "statement": "For admissible weights, thresholds and penalties the stage reward never exceeds 1 and is bounded below by an explicit constant; position-only rewards (terminal, N-trailer) lie in [0,1].", "quantifier": "all states, goals, parameters in range", "why_tests_cant": "All real states.", "anchors": ["mbd/robots/tt2d.py:get_reward,get_terminal_reward", "mbd/robots/n_trailer2d.py:get_reward,get_terminal_reward", "mbd/robots/kinematic_bicycle2d.py:get_reward,get_terminal_reward"]}
{"id": "C34", "title": "Being at the goal pose maximises the reward", "statement": "The state equal to the goal attains the maximum of the stage reward among all states, for every motion preference.", "quantifier": "all goals with aligned headings, parameters, states", "why_tests_cant": "A global maximum over all real states.", "anchors": ["mbd/robots/tt2d.py:get_reward", "mbd/robots/kinematic_bicycle2d.py:get_reward", "mbd/robots/n_trailer2d.py:get_reward"]}
{"id": "C35", "title": "Reward and checks are invariant under full turns", "statement": "Adding 2*pi*k to any heading changes neither the rewards nor the checks nor the dynamics.", "quantifier": "all states and integers k", "why_tests_cant": "Unbounded headings.", "anchors": ["mbd/robots/tt2d.py:get_reward,check_obstacle_collision,tractor_trailer_dynamics"]}
{"id": "C36", "title": "Penalty accounting", "statement": "The reward of a step equals the state reward of the evaluated state minus collision_penalty if the proposed state collides, minus hitch_penalty if it jackknifes, minus the preference penalty; with non-negative weights, penalties never increase the reward, and the preference penalty is zero exactly when motion is in the preferred direction or no soft preference is set.", "quantifier": "all states, actions, parameters", "why_tests_cant": "All states and flag combinations.", "anchors": ["mbd/robots/tt2d.py:_step_internal,get_preference_penalty"]}
{"id": "C37", "title": "Steering regulariser range", "statement": "For plans within [-1,1] the steering reward lies in [0,1], equals 1 exactly for zero steering throughout, and depends only on the steering column.", "quantifier": "all horizons >= 1 and action sequences", "why_tests_cant": "All sequences.", "anchors": ["mbd/planners/mbd_planner.py:compute_steering_reward (lines 304-336)"]}
{"id": "C38", "title": "Backup mode never latches", "statement": "From reset, in_backup_mode is False in every state of every rollout, so a shield intervention affects only its own step.", "quantifier": "all robots, action sequences", "why_tests_cant": "All histories.", "anchors": ["mbd/robots/tt2d.py:_step_internal,reset", "mbd/robots/acc_tt2d.py:_step_internal", "mbd/robots/n_trailer2d.py:_step_internal", "mbd/robots/kinematic_bicycle2d.py:_step_internal"]}
{"id": "C39", "title": "Obstacle registration is faithful", "statement": "Rectangular obstacles given by upper-left corner denote the same region as the equivalent centre-based specification; padding grows every side outward by the padding (never shrinks for padding >= 0); malformed obstacles or modes raise an error and leave the stored obstacles unchanged; circles grow by the padding.", "quantifier": "all obstacle lists, paddings", "why_tests_cant": "All lists and reals; point-set equality.", "anchors": ["mbd/envs/env.py:set_rectangle_obs,set_circle_obs"]}
{"id": "C40", "title": "Parking layout is sound", "statement": "Distinct space numbers map to non-overlapping cells inside the lot, the obstacles of an occupied space lie inside its own cell (for radius small enough), so unoccupied target cells contain no obstacle; the layout is consistent between obstacle generation and get_parking_space_center.", "quantifier": "all grid sizes, dimensions, space numbers in range", "why_tests_cant": "All grid sizes and positions.", "anchors": ["mbd/envs/env.py:set_obs_circle_parking,get_parking_space_center"]}
{"id": "C41", "title": "An empty navigation map has no obstacles", "statement": "In navigation mode with no obstacles registered no state is reported as colliding.", "quantifier": "all states", "why_tests_cant": "The offending states form a thin set around the origin.", "anchors": ["mbd/envs/env.py:Env.__init__ (lines 40-42)", "mbd/robots/tt2d.py:check_obstacle_collision"]}
{"id": "C42", "title": "State dimensions and setter semantics", "statement": "After any sequence of set_init_pos/set_goal_pos calls the stored states have the dimension the robot reports as observation_size; set_goal_pos changes exactly the given components; explicit coordinates are stored as given.", "quantifier": "all call sequences, arguments, N", "why_tests_cant": "Call histories.", "anchors": ["mbd/robots/tt2d.py:set_init_pos,set_goal_pos", "mbd/robots/acc_tt2d.py:set_init_pos,set_goal_pos", "mbd/robots/n_trailer2d.py:set_init_pos,set_goal_pos", "mbd/robots/kinematic_bicycle2d.py:set_init_pos,set_goal_pos"]}
{"id": "C43", "title": "Parking-relative initial pose", "statement": "set_init_pos(dx,dy) puts the tractor's front axle dx from the tractor target's centre in x and the reference point dy above the entrance line of the higher target.", "quantifier": "all layouts, target lists, offsets, headings", "why_tests_cant": "All layouts; depends on sort order of targets.", "anchors": ["mbd/robots/tt2d.py:set_init_pos (lines 181-208)"]}
{"id": "C44", "title": "Factory dispatch", "statement": "get_env builds the robot class matching name and trailer count (0 bicycle, 1 tractor-trailer, >=2 N-trailer), rejects unknown names with ValueError, rejects n_trailer2d with fewer than two trailers, and passes num_trailers through.", "quantifier": "all names and trailer counts", "why_tests_cant": "All integers and strings.", "anchors": ["mbd/envs/__init__.py:get_env", "mbd/robots/n_trailer2d.py:__init__"]}
{"id": "C45", "title": "Configuration dictionaries are honoured", "statement": "dict_to_config_obj transfers every recognised key unchanged, fails on a missing required key, and uses the dataclass defaults for missing optional keys.", "quantifier": "all dictionaries", "why_tests_cant": "All key subsets.", "anchors": ["mbd/planners/mbd_planner.py:dict_to_config_obj,MBDConfig"]}
{"id": "C46", "title": "Projection mode yields safe controls", "statement": "With enable_projection, the state after each step passes the robot's obstacle and jackknife checks, as the code comments claim ('Guaranteed safe by projection').", "quantifier": "all states, actions, solver outcomes", "why_tests_cant": "Depends on an external solver's outcome.", "anchors": ["mbd/robots/tt2d.py:_step_internal,_numpy_projection_function", "mbd/robots/kinematic_bicycle2d.py:_numpy_projection_function"]}
{"id": "C47", "title": "Guidance is a bounded perturbation that never corrupts the executed state", "statement": "apply_guidance is the identity when disabled, its result is always inside the documented box, the cost it descends is non-negative and zero exactly when the margins are respected; outside visualisation mode the executed state is the plain Euler step; it never changes v and delta of the acceleration model; it leaves states that respect all margins unchanged.", "quantifier": "all states, gradients, step counts", "why_tests_cant": "All states and all gradient values, including non-finite ones.", "anchors": ["mbd/robots/tt2d.py:apply_guidance,_guidance_function", "mbd/robots/acc_tt2d.py:apply_guidance", "mbd/robots/n_trailer2d.py:apply_guidance"]}
{"id": "C48", "title": "Demonstration trajectory is well formed", "statement": "generate_demonstration_trajectory returns exactly H states, the first at the start position, the last at the goal pose, in every obstacle configuration; the fallback is the straight line; consecutive points lie on the chosen axis-aligned or direct path, evenly spaced, and on a path with a corner the two legs share the H rows in proportion to their lengths (rounded, ties to even, at least two rows each).", "quantifier": "all starts, goals, obstacle sets, H", "why_tests_cant": "All obstacle sets, rounding cases and H.", "anchors": ["mbd/robots/tt2d.py:generate_demonstration_trajectory"]}
{"id": "C49", "title": "Demonstration path is collision free when accepted", "statement": "When the direct or an L-shaped path is accepted, the straight segments do not intersect any obstacle.", "quantifier": "all starts, goals, obstacles", "why_tests_cant": "The check samples 50 points; the failing obstacles are smaller than the sampling gap.", "anchors": ["mbd/robots/tt2d.py:generate_demonstration_trajectory (check_line_collision)"]}
{"id": "C50", "title": "Demonstration score range", "statement": "eval_xref_logpd lies in [-(sum of weights),0], is 0 when the trajectory's tracked positions and final-segment headings match the reference, and ignores headings outside the final segment.", "quantifier": "all trajectories, references, weights >= 0", "why_tests_cant": "All trajectories.", "anchors": ["mbd/robots/tt2d.py:eval_xref_logpd", "mbd/robots/kinematic_bicycle2d.py:eval_xref_logpd"]}
{"id": "C51", "title": "Trial evaluation verdict is sound", "statement": "A trial is reported successful exactly when no visited state collides or jackknifes and the final position error is within threshold; the early loop exit does not change the flags.", "quantifier": "all trajectories, robots", "why_tests_cant": "All trajectories; the early exit and state slicing matter only in some.", "anchors": ["tests/stat_mbd.py:evaluate_trial_result"]}
{"id": "C52", "title": "Initial-condition sampling", "statement": "sample_initial_conditions terminates after at most 10*num_trials attempts, returns at most num_trials configurations, each valid, with trial ids 0,1,2,... in order.", "quantifier": "all random streams, validity predicates, num_trials", "why_tests_cant": "All random streams.", "anchors": ["tests/stat_mbd.py:sample_initial_conditions"]}
{"id": "C53", "title": "Aggregate statistics are consistent", "statement": "Reported rates lie in [0,1], success and failure counts partition the trials, and the success rate never exceeds 1 minus the collision rate.", "quantifier": "all result lists", "why_tests_cant": "All result lists incl. exceptions.", "anchors": ["tests/stat_mbd.py:run_statistical_evaluation"]}
{"id": "C54", "title": "Trailer axles roll without slipping", "statement": "In the continuous model the velocity of every trailer axle is along that trailer's heading (no lateral slip), with the axle speed the model propagates; rigid hitch lengths are preserved.", "quantifier": "all states, inputs, N", "why_tests_cant": "All reals and all N; needs differentiation.", "anchors": ["mbd/robots/tt2d.py:tractor_trailer_dynamics", "mbd/robots/n_trailer2d.py:n_trailer_dynamics"]}
{"id": "C55", "title": "N-trailer model extends the single-trailer model", "statement": "The first trailer of the N-trailer model behaves exactly as the single-trailer model; removing later trailers does not affect earlier ones; the position used for the reward of the last trailer is the position used for collision checks.", "quantifier": "all N, states, inputs", "why_tests_cant": "All N.", "anchors": ["mbd/robots/n_trailer2d.py:n_trailer_dynamics,get_last_trailer_position,get_tractor_trailer_rectangles_all"]}
{"id": "C56", "title": "Timing report identities", "statement": "overhead + pure diffusion time = total time; compilation time is the sum of its parts; with a monotone clock all entries are non-negative except where an interval subtracts another that contains it.", "quantifier": "all monotone clock readings", "why_tests_cant": "All clock readings.", "anchors": ["mbd/planners/mbd_planner.py:run_diffusion (lines 616-636)"]}
{"id": "C57", "title": "Rigid-motion invariance of collision verdicts", "statement": "Moving vehicle and obstacles by the same translation and rotation changes no collision verdict.", "quantifier": "all states, obstacles, rigid motions", "why_tests_cant": "All rigid motions.", "anchors": ["mbd/robots/tt2d.py:check_obstacle_collision"]}
{"id": "C58", "title": "More obstacles never make a state safer", "statement": "Adding obstacles or increasing padding or radius can only turn collision verdicts from false to true; the verdict does not depend on obstacle order.", "quantifier": "all states, obstacle sets", "why_tests_cant": "All obstacle sets.", "anchors": ["mbd/robots/tt2d.py:check_obstacle_collision", "mbd/envs/env.py:set_rectangle_obs"]}
{"id": "C59", "title": "Default and documented parking poses are collision-free", "statement": "The default start and goal poses of the parking scenario, and the start/goal produced by the documented configuration, are collision free and jackknife free for the default vehicle and lot.", "quantifier": "default lot, default vehicle, default and README poses; all admissible occupancy sets for the goal", "why_tests_cant": "Quantifies over all occupancy sets; the tests only call the getters.", "anchors": ["mbd/envs/env.py:get_default_goal_pos,get_default_init_pos"]}
{"id": "C60", "title": "Guidance pushes vehicles out of obstacles", "statement": "With a single circular obstacle, every guidance step moves a bicycle that is closer than the 2 m margin straight away from the obstacle's centre, by twice the step size times the missing distance, so that three default steps leave exactly 72.9 % of the violation.", "quantifier": "all obstacles and vehicle positions near the map centre, all step sizes", "why_tests_cant": "All positions.", "anchors": ["mbd/robots/kinematic_bicycle2d.py:apply_guidance,_guidance_function"]}
{"id": "C61", "title": "Trials of one evaluation are independent", "statement": "When a statistical evaluation plans for one robot after another in the same process, every trial gets the plan that robot would get alone in a new process: jit-compiled functions and cached schedules left behind by earlier trials do not change later results.", "quantifier": "all numbers of robots, all robots differing in their initial condition, all configurations, all noise", "why_tests_cant": "The first trial is always right; the difference appears only for later robots and depends on what the earlier trials left in the caches.", "anchors": ["tests/stat_mbd.py:run_statistical_evaluation", "mbd/planners/mbd_planner.py:run_diffusion"]}
{"id": "C62", "title": "Evaluation of a shielded vehicle reports no collisions", "statement": "Evaluating a shielded tractor-trailer end to end (sampling starts, planning every trial, judging the trajectories, aggregating): every accepted start is collision free for the vehicle evaluated, and the report shows collision and jackknife rates of zero; starts at least 5 m above the parking entrance are always accepted and the hitch check never rejects one.", "quantifier": "all random streams, all noise, all planner configurations, any number of trials, all vehicle shapes", "why_tests_cant": "Composes random sampling, caching between trials, planning and evaluation; any single run shows only one random stream.", "anchors": ["tests/stat_mbd.py:run_statistical_evaluation,is_valid_initial_condition,create_trial_environment"]}
{"id": "C63", "title": "The robot is built from the configuration", "statement": "Every program that builds a robot from a configuration (planner main program, statistical evaluation, benchmark, example program, test fixtures) hands every robot setting of that configuration to the robot: changing a setting in the configuration changes the robot accordingly, unset ones take the documented defaults, and unknown robots raise.", "quantifier": "all configurations, all robots, every entry point", "why_tests_cant": "Each of the ~30 settings is forwarded by hand in five places; a test sees one configuration.", "anchors": ["mbd/envs/__init__.py:get_env", "mbd/planners/mbd_planner.py:main program", "tests/stat_mbd.py:create_trial_environment", "mbd/scripts/benchmark_diffusion.py:benchmark_parking_scenario", "tests/test_mbd.py", "tests/test_planners/fixtures/test_environments.py"]}
{"id": "C64", "title": "Hyper-parameter tuning scores a configuration by itself", "statement": "The tuner changes exactly the tuned settings of the base configuration; suggested values lie on the configured grid; the score recorded for a trial is what that configuration would get alone in a new process, whatever trials came before; scores lie in the documented range, a failed evaluation scores 0.", "quantifier": "all studies, histories, suggested values, random streams", "why_tests_cant": "Depends on everything earlier trials left in caches.", "anchors": ["tests/tune_mbd.py:create_config_with_params,objective_function,define_hyperparameter_space,optimize"]}
{"id": "C65", "title": "Benchmark reports the planner's own reward and consistent times", "statement": "benchmark_diffusion returns a report exactly when at least one trial is requested and no run takes exactly no time; every reported reward is the reward of planning that robot alone in a new process (deviation 0); minimum, maximum, mean, deviation and median are those of the counted trials; with a clock that never goes back all times are non-negative, mean overhead + mean pure time = mean total, and warm-up runs are not counted. The parking benchmark completes for its three configurations.", "quantifier": "all robots, configurations, trial counts, process histories, clocks, noise", "why_tests_cant": "Every list of times, every history of the process; the failing case needs three configurations in one process.", "anchors": ["mbd/scripts/benchmark_diffusion.py:benchmark_diffusion,benchmark_parking_scenario"]}
{"id": "C66", "title": "What is drawn is what is checked", "statement": "In every picture and animation frame the tractor and trailer bodies are drawn exactly as the rectangles the collision check uses for the drawn state, wheels sit at the axles with the steering angle in force, obstacles drawn are the ones the robot checks, so that the drawing shows an overlap when the collision mark is shown; parking-space labels and lines are drawn at the reported spaces; drawing again with the same robot works.", "quantifier": "all robots, sizes, states, obstacle sets, sequences of frames, parking lots", "why_tests_cant": "All geometry parameters and frame histories; the artists are mutable and reused from frame to frame.", "anchors": ["mbd/robots/tt2d.py:setup_animation_patches,update_animation_patches,render", "mbd/robots/kinematic_bicycle2d.py:update_animation_patches", "mbd/robots/n_trailer2d.py:setup_animation_patches,update_animation_patches", "mbd/utils.py:create_animation"]}
{"id": "C67", "title": "Animations show the planned trajectory state by state", "statement": "The animation after a planning run has exactly one frame per returned state; frame k shows state k, the violation marks are the verdicts of the robot's own checks on that state, the trace is the path so far and the guided path is overlaid; a shielded run shows no marks. The denoising animation shows every frame_skip-th plan of the history under the number of the noise level that produced it, without gaps in the picture numbers, including the final plan. The static picture draws the returned path.", "quantifier": "all robots, planner configurations, noise, horizon lengths, frame skips, overlays", "why_tests_cant": "Depends on the lengths of all lists and on every state of every run.", "anchors": ["mbd/utils.py:create_animation,create_denoising_animation", "mbd/planners/mbd_planner.py:run_diffusion", "mbd/robots/tt2d.py:render", "tests/stat_mbd.py:run_statistical_evaluation"]}
{"id": "C68", "title": "Saved videos show exactly the saved animation", "statement": "Saving an animation produces a video of exactly its pictures in order, whatever earlier runs left in the directory; the single pictures are removed and no other file changes; if ffmpeg fails the pictures are kept and older videos are untouched. An evaluation with progress animation keeps one video per trial and joins them in the order in which the trials were run, and nothing else.", "quantifier": "all directory contents, all animations and picture counts, any number of trials, earlier evaluations", "why_tests_cant": "Depends on what every earlier run left in the directory and on how names of arbitrary numbers sort.", "anchors": ["mbd/utils.py:setup_animation_saving,export_video,merge_progress_videos,create_animation", "tests/stat_mbd.py:run_statistical_evaluation"]}
{"id": "C69", "title": "Integration tests judge the planned trajectory", "statement": "The robot built for a test scenario has the scenario's vehicle, obstacles (lot, walls, custom ones), start and goal; the report of a run says which constraints were violated at any visited state and passes exactly when the trajectory has the planned length and ends within the distance limits of the goal; with both shields on, a standard scenario never reports a violation.", "quantifier": "every vehicle setting, scenario (lot, custom obstacles, start, goal, limits), planned action sequence and trajectory, random noise", "why_tests_cant": "the integration tests run a handful of scenarios with one seed and judge themselves with this code", "anchors": ["tests/test_planners/fixtures/test_environments.py: setup_parking_environment, create_test_tt2d_environment", "tests/test_planners/test_base.py: check_trajectory_violations, check_position_success, compute_final_min_distance"]}
{"id": "C70", "title": "The rewards prefer states nearer the goal and better aligned with it", "statement": "Of two states equally far from the goal the one better aligned with the goal heading and less bent has the larger stage reward; without motion preference standing the wrong way round counts the same, with a preference it counts less; of two states with the same headings the one nearer the goal has the larger reward; the terminal reward grows as the distance shrinks and, as documented, with the alignment.", "quantifier": "all vehicles, weights, thresholds, preferences, goals and pairs of states", "why_tests_cant": "a statement about all pairs of states; the reward mixes three terms with a distance-dependent weight", "anchors": ["mbd/robots/tt2d.py: get_reward, get_terminal_reward", "mbd/robots/kinematic_bicycle2d.py: get_reward, get_terminal_reward", "mbd/robots/n_trailer2d.py: get_reward, get_terminal_reward", "mbd/robots/acc_tt2d.py: get_reward"]}
{"id": "C71", "title": "The comparison run of a guided plan shows the unguided vehicle", "statement": "After planning with guidance, the displayed vehicle trajectory starts at the start, has one state more than there are planned actions, follows the robot's own motion under the planned actions in order, and is what the same robot without guidance, with its shields in force, would do; without guidance the displayed trajectory is the planned one.", "quantifier": "all robots, shields, obstacles, planner configurations and noise, all earlier runs in the process", "why_tests_cant": "Depends on which compiled functions earlier runs left behind and on every action of every plan.", "anchors": ["mbd/planners/mbd_planner.py:run_diffusion", "mbd/robots/tt2d.py:_step_internal,step,step_visualization"]}
{"id": "C72", "title": "Planning does not depend on the coordinate frame", "statement": "Moving obstacles, start and goal together by any rotation and translation changes neither the planned actions nor the reward nor the denoising history, and moves the planned states along; with demonstrations this holds for translations, demonstrations included; the projection problem is the same in every frame.", "quantifier": "all robots, rotations, translations, obstacles, configurations and random noise", "why_tests_cant": "Relates two complete planning runs for every rigid motion; a test compares rounded numbers for a few.", "anchors": ["mbd/planners/mbd_planner.py:run_diffusion,reverse_once", "mbd/robots/tt2d.py:_step_internal,get_reward,check_obstacle_collision,generate_demonstration_trajectory", "mbd/robots/kinematic_bicycle2d.py", "mbd/robots/acc_tt2d.py", "mbd/robots/n_trailer2d.py"]}
{"id": "C73", "title": "Planning does not prefer a side", "statement": "Mirroring obstacles, start and goal in the x axis, with the steering part of the random noise negated, mirrors the plan: the reward is the same, every action of the plan and of the history steers to the other side and the planned states are mirrored; the demonstration of the mirrored task is the mirrored demonstration (or the same exception), and the built-in guidance commutes with the mirroring.", "quantifier": "all robots, obstacles, starts, goals, configurations (guidance and demonstrations included) and random noise", "why_tests_cant": "Relates two complete planning runs for every task; a sign error in one branch of one robot shows only in tasks that reach that branch.", "anchors": ["mbd/planners/mbd_planner.py:run_diffusion,reverse_once", "mbd/robots/tt2d.py:_step_internal,get_reward,check_obstacle_collision,generate_demonstration_trajectory,apply_guidance", "mbd/robots/kinematic_bicycle2d.py", "mbd/robots/acc_tt2d.py", "mbd/robots/n_trailer2d.py"]}
{"id": "C74", "title": "Obstacle padding keeps the vehicle clear, also between recorded states", "statement": "A state that is clear of obstacles registered with padding p is more than p away from the obstacles themselves. With a padding of at least half of what a point of the vehicle can travel in one step, a shielded run from a safe start is clear of the actual obstacles at every recorded state and at every moment between two consecutive ones (state interpolated linearly, which is the motion model run for a fraction of the step). Without padding this fails.", "quantifier": "all robots, obstacle sets, paddings, vehicle parameters, action sequences of any length, moments between steps", "why_tests_cant": "The unsafe moments are not recorded, so no test that looks at trajectories sees them; the claim is about every moment of every run.", "anchors": ["mbd/envs/env.py:set_rectangle_obs,set_circle_obs", "mbd/robots/tt2d.py:_step_internal,shielded_rollout,check_obstacle_collision", "mbd/robots/kinematic_bicycle2d.py", "mbd/robots/acc_tt2d.py", "mbd/robots/n_trailer2d.py"]}
{"id": "C75", "title": "Recorded states stand for a physical motion, up to a bounded drift", "statement": "A vehicle driven in continuous time with the recorded applied controls (speed and steering constant during each step, as the kinematic model prescribes) has at every moment exactly the interpolated recorded heading of the tractor; its position differs from the recorded one after n steps by at most n times half the product of one step's travel and heading change, the heading of a trailer by a stated bound that grows geometrically (for trains: a stated recursion over the units). For acceleration control, where a vehicle that follows the recorded speeds and steering angles changes them during a step, heading and position agree up to stated bounds that vanish with the time step. With a padding that covers half a step's travel and this drift, the physical motion of a shielded run is clear of the actual obstacles at every moment. The drift is real: rocking back and forth with the wheel at the stop, the physical vehicle returns to its start while the recorded position moves away by the same distance in every repetition.", "quantifier": "kinematic bicycle, tractor-trailer, trains of any number of trailers and (apart from the safety part) acceleration control: all vehicle parameters, action sequences of any length, shields, guidance, moments of time", "why_tests_cant": "The reference is the solution of a differential equation, which no test computes exactly, and the bound is over all controls and lengths.", "anchors": ["mbd/robots/tt2d.py:euler,tractor_trailer_dynamics,_step_internal,shielded_rollout", "mbd/robots/kinematic_bicycle2d.py:bicycle_dynamics", "mbd/robots/n_trailer2d.py:n_trailer_dynamics,step", "mbd/robots/acc_tt2d.py:tractor_trailer_dynamics,_step_internal", "mbd/envs/env.py:set_rectangle_obs,set_circle_obs"]}
{"id": "C76", "title": "The collision check and the shield survive rounding errors", "statement": "If the obstacle check, computed in floating point with any order of roundings, fused operations and matrix products of their own accuracy, reports no collision, then no point of a vehicle body lies deeper in an obstacle than a stated tolerance (apart from discs the body contains, see C05); the hitch check is off by at most a stated angle. In single precision, for the default vehicle, discs of radius 1 m or more and a site of 100 m by 100 m, every recorded state of every shielded run from a safe start has its bodies at most 2 mm inside a rectangle and 1 cm inside a disc; with obstacles padded by 1 cm or more the original obstacles are never touched. There are no false alarms either: a state whose bodies keep a stated distance from every obstacle (6 cm for the default vehicle, discs of 1 to 5 m radius and rectangles with sides of 1 to 10 m) passes the rounded check, a hitch angle a stated amount below the limit passes the rounded hitch check, and the rounded shield lets such a motion pass, within 0.2 mm and 0.2 mrad of the kinematic equations. The same guarantee, with tolerances that grow with each trailer, holds for the n-trailer train (default train of up to three trailers, discs of 1.3 m or more: 1 mm and 5 cm). With exact arithmetic the rounded simulator is the simulator of the other claims.", "quantifier": "all arithmetics with the stated accuracy, vehicle parameters, obstacles and states in the stated range, action sequences of any length", "why_tests_cant": "Rounding errors depend on the compiler's choice of operations and on every input; a test sees one machine and a few inputs.", "anchors": ["mbd/robots/tt2d.py:check_obstacle_collision,check_rectangle_circle_collision,check_rectangle_rectangle_collision,check_hitch_violation,get_tractor_trailer_rectangles,euler,tractor_trailer_dynamics,shielded_rollout", "mbd/robots/kinematic_bicycle2d.py:check_obstacle_collision", "mbd/robots/n_trailer2d.py:check_obstacle_collision,check_hitch_violation"]}
{"id": "C77", "title": "The temperature trades the best sample against the average; sample order is irrelevant", "statement": "In every denoising step each sample is judged by one score (its reward, or what the demonstration grants it if that is more) and two weights differ by the exponential of their score difference over reward spread times temperature. Lowering the temperature never takes weight from a best sample nor gives any to a worst one, never lowers the weighted mean score, which is always at least the plain mean; in the limit of zero temperature the averaged plan is the executed plan of the best sample (with a bound on the weight of the others), in the limit of infinite temperature the plain average. Handing the same noise to the samples in a different order changes nothing in the result of the run.", "quantifier": "all robots, configurations with positive temperature, demonstrations, sample batches of any size, permutations", "why_tests_cant": "Limits and monotonicity in a parameter, and all permutations of all batches; a test compares a few temperatures on one batch.", "anchors": ["mbd/planners/mbd_planner.py:reverse_once,run_diffusion"]}
{"id": "C78", "title": "The planner's weights and plans survive rounding errors", "statement": "With every operation, sum, contraction and running product of the planner rounded (any order, each with its own accuracy), for any rewards the rollouts deliver: no division by zero occurs in the weights, the weights are nonnegative and sum to 1 up to a stated error, a sample that is at least as good never gets a smaller weight (for operations that respect the order), every action of the new plan is the weighted mean of the actions applied in the rollouts up to a stated error, also with the exact weights, from which the computed ones differ by a stated relative error (6 % at the default temperature in single precision with sums by pairs, if no reward exceeds five times their spread), and every plan of the reverse process has the length of the horizon and stays in [-1, 1] up to a stated error, and with a forward-only or backward-only preference never drives the other way by more than a stated error. For the default configuration in single precision (contraction in TF32): 0.00025 for the weights and 1.0016 for the plans. With exact arithmetic the rounded planner is the planner of the other claims.", "quantifier": "all arithmetics with the stated accuracy, configurations, noise schedules, random noise, rewards and rollouts, any number of steps", "why_tests_cant": "Rounding errors depend on the device, the order of summation and the compiler; a test sees one machine and a few batches.", "anchors": ["mbd/planners/mbd_planner.py:reverse_once,run_diffusion"]}
{"id": "C79", "title": "Guidance straightens a vehicle that is bent too far", "statement": "When the hitch angle is beyond its limit (short of half a turn) and the axles keep the 2 m margin to every circular obstacle, a guidance step does not move the vehicle, turns tractor and trailer by the same amount towards each other and multiplies the excess over the limit by 1 - 4 * step_size * max(1, 0.05 * number of obstacles); the default three steps leave 51.2 % of it with up to twenty obstacles. For a train this concerns tractor and first trailer.", "quantifier": "all vehicle parameters, obstacle sets, step sizes, numbers of steps, states in the guidance box", "why_tests_cant": "The factor depends on the number of obstacles and turns negative for large ones, so that tests on a few lots see only the well-behaved range; the statement covers all states.", "anchors": ["mbd/robots/tt2d.py:_guidance_function,apply_guidance", "mbd/robots/n_trailer2d.py:apply_guidance"]}
{"id": "C80", "title": "Guidance does not make a vehicle less safe", "statement": "Call the sum of the squared shortfalls from the 2 m margins (tractor's and first trailer's axle, every circular obstacle) plus the weighted squared excess of the hitch angle the unsafety of a state. For a bicycle and at most 1 / step_size circular obstacles (twenty, for the default) no number of guidance steps increases it; for vehicles with a trailer the same holds if the step size suits the number of obstacles involved, the trailer's dimensions and the unsafety at the start (with default dimensions and step size: one obstacle, unsafety up to 4). Each step reduces it by at least a stated multiple of the squared change of the state; states at an obstacle's centre, ties between readings of the hitch angle and clipping to the box included.", "quantifier": "all obstacle sets, dimensions, step sizes and numbers of steps within the stated bounds, all states in the guidance box", "why_tests_cant": "A gradient step decreases a function only if the step size suits its curvature, which here depends on how many obstacles act at once and on lever arms; tests on a few lots see the good cases, and eleven poles on either side already make a step overshoot.", "anchors": ["mbd/robots/tt2d.py:_guidance_function,apply_guidance", "mbd/robots/kinematic_bicycle2d.py:_guidance_function,apply_guidance", "mbd/robots/n_trailer2d.py:apply_guidance", "mbd/robots/acc_tt2d.py:apply_guidance"]}
{"id": "C81", "title": "A plan tolerates execution errors up to what the padding covers", "statement": "Let a physical vehicle execute the recorded applied controls of a planned motion in continuous time, starting near the planned start and with actual speed and steering angle that fluctuate arbitrarily within a given budget around the commanded ones. At every moment its heading, position and trailer heading differ from the interpolated recorded ones by at most stated bounds that depend on the budget and the elapsed time (in addition to the drift of C75). If the padding covers half a step's travel, the drift and these bounds, every such execution of a shielded run from a safe start (acceleration control: of a run whose recorded states are clear of the padded obstacles) stays clear of the actual obstacles at every moment. Without padding no positive error of the starting position is tolerated.", "quantifier": "kinematic bicycle, tractor-trailer, trains of any number of trailers and acceleration control: all vehicle parameters, obstacle sets, action sequences of any length, error budgets, and all executions within the budget", "why_tests_cant": "The executions form an infinite-dimensional set (arbitrary fluctuations of the controls in continuous time), of which a test sees a few samples.", "anchors": ["mbd/robots/tt2d.py:tractor_trailer_dynamics,euler,_step_internal,shielded_rollout", "mbd/robots/kinematic_bicycle2d.py:bicycle_dynamics,_step_internal", "mbd/robots/n_trailer2d.py:n_trailer_dynamics,_step_internal", "mbd/robots/acc_tt2d.py:tractor_trailer_dynamics,_step_internal", "mbd/envs/env.py:set_rectangle_obs,set_circle_obs"]}
{"id": "C82", "title": "No result rests on an undefined operation", "statement": "Let every arithmetic operation be exact where it is defined, and let a division or remainder by zero, the root of a negative number and the tangent of a right angle return anything whatever. The results are then always the ones claimed elsewhere, so no undefined operation takes part in them: the collision and hitch checks for any vehicle, any obstacles (of zero size too) and any pose; a step of every robot (shield, backup and simulated stopping manoeuvre included), if no length is zero and the steering limit is below 90 degrees (acceleration control: time step and acceleration limit not zero); stage, terminal and steering rewards and the score against a demonstration, if the thresholds, the switching width and the steering limit are not zero; the noise schedule, the weights and every plan of the reverse process, if there is a sample, the temperature is not zero and the noise levels lie strictly between 0 and 1, as in the default configuration. With a steering limit of 90 degrees the next heading is whatever the undefined tangent returns.", "quantifier": "all meanings of the undefined operations, all vehicles, obstacles, states, actions, rewards, random noise and configurations within the stated conditions", "why_tests_cant": "Denominators vanish and roots turn negative only on special inputs (coinciding corners, equal rewards, obstacles of zero size), which random tests do not hit; the guards must cover all of them.", "anchors": ["mbd/robots/tt2d.py:check_rectangle_circle_collision,check_rectangle_rectangle_collision,tractor_trailer_dynamics,get_reward,eval_xref_logpd", "mbd/robots/acc_tt2d.py:_step_internal,shielded_rollout", "mbd/robots/n_trailer2d.py:n_trailer_dynamics,get_reward", "mbd/robots/kinematic_bicycle2d.py:bicycle_dynamics,get_reward", "mbd/planners/mbd_planner.py:reverse_once,run_diffusion"]}
{"id": "C83", "title": "A run computes exactly the stated denoising updates", "statement": "Each denoising step draws its candidates around the current plan (each control with its own noise, scaled by the noise level, moved into the allowed range), executes each from the start after one step with the zero action, scores it by average stage reward plus weighted terminal reward plus weighted steering bonus of the executed actions, standardises the scores, divides by the temperature (with a demonstration: at least the standardised match), and takes the average of the executed actions weighted by the exponentials of these numbers as the next plan. The run starts from the zero plan, performs one such step per noise level from the highest down to level 1 with fresh noise each, saves every plan, returns the actions executed by the last plan, their return, and the states visited from the start under them.", "quantifier": "all robots with any rewards and weights, configurations with noise levels in (0, 1), noise sources, plans, levels", "why_tests_cant": "It is an equality of whole runs for every noise source and every robot; a test compares numbers of one run with numbers the same code computed.", "anchors": ["mbd/planners/mbd_planner.py:reverse_once,reverse,run_diffusion,compute_steering_reward", "mbd/utils.py:rollout_us_with_terminal"]}
{"id": "C84", "title": "The bounds test describes the environment, and vehicles stay in it", "statement": "is_in_bounds of a new environment accepts exactly the points of the rectangle of the given width and height around the origin; setting poses or obstacles never changes this, setting plot limits makes it the given intervals; the default start lies in it if both sides are at least 2 m, and every parking space if the lot fits. Executing actions never takes a vehicle out of it.", "quantifier": "all sizes, cases, parking lots, histories of setter calls; all states and action sequences", "why_tests_cant": "Quantifies over all points, histories of calls and lots.", "anchors": ["mbd/envs/env.py:Env.__init__,is_in_bounds,set_plot_limits,get_default_init_pos,get_parking_space_center", "mbd/robots/tt2d.py:_step_internal"]}
{"id": "C85", "title": "The acceleration model's guarantees survive rounding errors", "statement": "With the vehicle computed in floating point, AccTractorTrailer2d with both shields on keeps what it guarantees in exact arithmetic. Whatever the accuracy, a motion the shield lets pass ends in a state that passes both computed checks, and a vehicle at rest that the shield overrides keeps its state bit for bit. Started clear of the obstacles in single precision, no recorded state on the site has a body more than 2 mm inside a rectangle or 1 cm inside a disc (or around it), or a hitch angle more than 1e-4 rad beyond the limit, unless the shield intervened before on a moving vehicle. An intervention at more than 1.1 cm/s forward (or backward, if the requested speed stays backward) brakes by the documented amount up to 2e-5 m/s; a motion the shield lets pass is within 0.2 mm and 0.2 mrad of the exact Euler step.", "quantifier": "all arithmetics with the stated accuracy, obstacle sets, states on the site, action sequences of any length", "why_tests_cant": "Rounding depends on compiler and device; a test sees the errors of one machine on a few inputs.", "anchors": ["mbd/robots/acc_tt2d.py:tractor_trailer_dynamics,_step_internal,shielded_rollout,_check_safety_with_rollout"]}
{"id": "C86", "title": "Rewards are accurate in single precision", "statement": "With the default constants (any motion preference), poses and goals within 50 m of the origin and headings up to 49 rad, the stage reward computed in single precision differs from the exact one by at most 1e-3 and the terminal reward by at most 5e-5 (tractor-trailer, bicycle); both rewards of a train of up to three default trailers by at most 1.5e-4, and the steering bonus of a plan of up to 1000 actions by at most 1.5e-4. This includes the choice between the two orientations at the goal, which rounding can flip near a tie. So two poses whose exact stage rewards differ by more than 2e-3 (terminal: 1e-4) are ranked correctly.", "quantifier": "all arithmetics with the stated accuracy, poses and goals on the site, motion preferences, plans", "why_tests_cant": "The errors depend on compiler and device and pass through two discontinuities (angle wrapping, choice of orientation); a test sees one machine on a few poses.", "anchors": ["mbd/robots/tt2d.py:get_reward,get_terminal_reward,get_trailer_position", "mbd/robots/kinematic_bicycle2d.py:get_reward,get_terminal_reward", "mbd/robots/n_trailer2d.py:get_reward,get_terminal_reward,get_last_trailer_position", "mbd/planners/mbd_planner.py:compute_steering_reward"]}
{"id": "C87", "title": "Holding one command gives the textbook manoeuvre", "statement": "For every map, pose and command held for any number of steps: (a) with the wheels straight, one step of the tractor-trailer changes the hitch angle phi to phi - k sin(phi), k being the signed distance driven in trailer lengths, and leaves the tractor's heading alone; so driving straight ahead never folds the trailer further, and on open ground from any pose within the hitch limit every command is executed, the tractor runs along its line at the commanded speed and the hitch angle dies out at least as fast as (1 - 0.9 k)^n. (b) Straight reversing from a non-zero hitch angle with the hitch shield on always ends in a permanent halt, at the latest when (1 + 0.9 k)^N times the initial angle exceeds the limit, and never beyond the limit. (c) With the wheels turned, the rear axle of the tractor (and of the bicycle) stays on one circle for ever, whether or not shields refuse steps; the radius is l1/|tan(delta)| up to a factor 1 + omega^2/12 (omega: heading change per step), the centre is on the side the wheels point to and every heading is a whole number of omegas away from the first. (d) If the hitch angle balances the steering the vehicle turns on open ground as a rigid body, tractor and trailer axles on concentric circles; such an angle exists exactly when (l2^2 - lh^2) tan^2(delta) <= l1^2. (e) If the steering is too sharp to be balanced within the hitch limit, holding it forward with the hitch shield on locks the vehicle up for good after an explicit number of steps; with the default vehicle, at full speed and 45 degrees or more, within fifteen steps from any pose on any map. (f) Trains of any number of trailers: the step in (a), and (b) and (e), hold for the first hitch, (c) for the tractor, (d) with one balance condition per hitch; such angles exist exactly when for every i the sum of l_j^2 - lh^2 over the first i trailers, times tan^2(delta), is at most l1^2. But a train whose first two hitches are both at the limit to the same side cannot even drive straight ahead: the hitch shield refuses every step for ever, on open ground too.", "quantifier": "tractor-trailer, bicycle (circles) and trains of any number of trailers, all maps, all starting poses (within the hitch limit where stated), all commands, all numbers of steps", "why_tests_cant": "statements about every horizon and every pose; a test observes finitely many steps of one run", "anchors": ["mbd/robots/tt2d.py: tractor_trailer_dynamics, step, shielded_rollout, check_hitch_violation", "mbd/robots/kinematic_bicycle2d.py: bicycle_dynamics, _step_internal", "mbd/robots/n_trailer2d.py: n_trailer_dynamics, _step_internal, check_hitch_violation"]}
{"id": "C88", "title": "The shields leave compliant runs alone", "statement": "A rollout of a robot with shields is, state by state, reward by reward and recorded action by recorded action, the rollout of the same robot built without shields, whenever every state the unshielded robot visits passes the checks of the shields that are on (tractor-trailer, bicycle, train; for the acceleration model: whenever the braking rollout predicted from each visited state is free of violations). Otherwise the two agree up to the first state that fails a check, and there the shielded robot stays where both were, recording the action zero (acceleration model moving forward: brakes as hard as it can with the steering held). With projection or guidance on, the shield switches have no effect at all.", "quantifier": "all robots, maps, shield settings, starting states and action sequences", "why_tests_cant": "a statement about every safe action sequence and every first violation; tests compare finitely many sequences", "anchors": ["mbd/robots/tt2d.py: _step_internal, _step_with_shielded_rollout, _step_without_shielded_rollout, shielded_rollout", "mbd/robots/kinematic_bicycle2d.py: _step_internal", "mbd/robots/n_trailer2d.py: _step_internal", "mbd/robots/acc_tt2d.py: _step_internal, shielded_rollout, _check_safety_with_rollout"]}
{"id": "C89", "title": "The planner's answer can be executed safely", "statement": "A vehicle that is handed the action sequence returned by run_diffusion and executes it in continuous time, one action per time step, from a start near the planned one and with speed and steering errors within a budget, is at the end of step k within a stated distance of the k-th returned state; if the collision shield was on, the start was free and the obstacles handed to the planner were padded by half a step's travel plus drift plus execution error, it touches no actual obstacle at any moment of the horizon; and it ends at most that error further from the goal than the returned motion does. For the default bicycle, plans of up to 50 steps and exact execution, 6.5 m of padding suffice. For trains the same holds for exact execution.", "quantifier": "all bicycles, tractor-trailers and trains with the collision shield, maps, paddings, noise draws, planner configurations, references, executions within the budget and moments in time", "why_tests_cant": "quantifies over every noise draw of the planner and over uncountably many physical executions", "anchors": ["mbd/planners/mbd_planner.py: run_diffusion, reverse_once, reverse", "mbd/utils.py: rollout_us_with_terminal", "mbd/robots/tt2d.py: step, shielded_rollout, input_scaler", "mbd/robots/kinematic_bicycle2d.py: _step_internal", "mbd/envs/env.py: set_circle_obs, set_rectangle_obs"]}
{"id": "C90", "title": "Results do not depend on the units of length and time", "statement": "Give the same task in other units: multiply every length, position, obstacle and distance threshold by a > 0, the time step by b > 0, speeds by a/b and the weight of the speed penalty by b/a, and give the reference trajectory in the new units. As long as no body side is shorter than 1e-4 in either unit, then for the tractor-trailer, bicycle and trains, whatever shields and reference are used (without projection or guidance), the same noise gives the same plan, history of plans and reward, and the same states in the new units. The same is claimed for the acceleration-controlled tractor-trailer (accelerations times a/b^2, steering rate times 1/b).", "quantifier": "all robots, maps, scale factors of length and time, planner configurations, references and noise draws", "why_tests_cant": "two whole planning runs have to be compared for every task and every pair of scale factors; an absolute constant hidden anywhere in the computation breaks it only for some of them", "anchors": ["mbd/robots/tt2d.py:tractor_trailer_dynamics,_step_internal,get_reward,get_terminal_reward,check_obstacle_collision,check_rectangle_circle_collision,eval_xref_logpd,get_preference_penalty", "mbd/robots/kinematic_bicycle2d.py:_step_internal,get_reward", "mbd/robots/n_trailer2d.py:n_trailer_dynamics,_step_internal,get_reward,check_obstacle_collision", "mbd/robots/acc_tt2d.py:_v_threshold,_rollout_dt,shielded_rollout,_step_internal", "mbd/planners/mbd_planner.py:run_diffusion"]}
{"id": "C91", "title": "Obstacles out of reach do not matter", "statement": "Without projection and guidance, a planning run on two maps that contain the same obstacles except for obstacles farther from the start than the vehicle can drive in Hsample + 1 time steps (v_max dt each) plus the sum of its dimensions (acceleration control with a shield: plus the distance of the predicted stop, floor(2 v_max / a_max) seconds at v_max) gives exactly the same result: plan, states, reward and history of plans, whatever the noise, shields, penalties and reference trajectory. In particular adding, removing or moving such obstacles, listing the obstacles in another order or listing one twice changes nothing.", "quantifier": "all robots, pairs of maps that agree within reach, planner configurations, reference trajectories, shields and noise draws", "why_tests_cant": "every candidate of every denoising step could be the one that comes near the obstacle, and the bound concerns all maps beyond it; a test compares two maps under one seed", "anchors": ["mbd/planners/mbd_planner.py:run_diffusion,reverse_once", "mbd/utils.py:rollout_us_with_terminal", "mbd/robots/tt2d.py:check_obstacle_collision,tractor_trailer_dynamics,_step_internal", "mbd/robots/kinematic_bicycle2d.py:check_obstacle_collision", "mbd/robots/n_trailer2d.py:check_obstacle_collision,get_tractor_trailer_rectangles_all", "mbd/robots/acc_tt2d.py:shielded_rollout,_check_safety_with_rollout"]}
{"id": "C92", "title": "Goals and reward settings decide which motion is chosen, never how a command is executed", "statement": "Two robots with the same dimensions, limits, obstacles and shields execute every action sequence alike from every state - poses, executed actions, backup mode, and for trains exceptions - whatever their goals, motion preferences, penalties, reward weights and thresholds, in planning and in visualisation mode, with and without projection or guidance. For the tractor-trailer and the bicycle, changing the penalties changes the reward of a rollout by exactly the change times the share of its steps that aim at a colliding (jackknifed) pose. If every obstacle is out of reach of the start (in the sense of the previous property), switching the collision shield or changing the collision penalty does not change the planning result at all, for any robot (acceleration control with the hitch shield off: changing the penalty only).", "quantifier": "all robots, pairs of goals and reward settings, states, action sequences; for the last clause all maps out of reach, planner configurations and noise draws", "why_tests_cant": "compares every rollout under every pair of settings; a test compares a few settings on a few rollouts", "anchors": ["mbd/robots/tt2d.py:_step_internal,shielded_rollout,get_reward,get_preference_penalty", "mbd/robots/kinematic_bicycle2d.py:_step_internal", "mbd/robots/n_trailer2d.py:_step_internal,n_trailer_dynamics", "mbd/robots/acc_tt2d.py:_step_internal,shielded_rollout", "mbd/utils.py:rollout_us,rollout_us_with_terminal"]}
{"id": "C93", "title": "Without the collision shield, extra obstacles only cost", "statement": "With the collision shield and guidance off and a collision penalty that is not negative, adding obstacles or enlarging existing ones leaves the states and applied actions of every rollout exactly as they were and raises neither the reward of any step nor the score of the rollout (mean reward plus terminal reward), with or without the hitch shield and projection; a train raises the same exceptions as before.", "quantifier": "all robots with bodies of positive size, pairs of maps of which one covers the other, states and action sequences", "why_tests_cant": "quantifies over every pair of maps and every rollout", "anchors": ["mbd/robots/tt2d.py:_step_internal,shielded_rollout,check_obstacle_collision", "mbd/robots/kinematic_bicycle2d.py:_step_internal,check_obstacle_collision", "mbd/robots/n_trailer2d.py:_step_internal,check_obstacle_collision", "mbd/robots/acc_tt2d.py:_step_internal,shielded_rollout,_check_safety_with_rollout", "mbd/utils.py:rollout_us,rollout_us_with_terminal"]}
{"id": "C94", "title": "A rollout sees only the obstacles its aims touch, and a best motion stays best", "statement": "Without projection and guidance, put the same vehicle on another map. If the start and every aim of a rollout (the pose each action would lead to) collide on the one map exactly if they collide on the other, the rollout is the same on both - rewards, states, applied actions and score - with any shields (acceleration control: if also the alarm, which looks along the predicted stop, agrees at every aim); for trains exceptions included. Consequently, without the collision shield and with a penalty that is not negative, an action sequence whose score is the highest of any set of sequences (trains: among those that raise no exception) keeps that rank when obstacles are added or enlarged, as long as none of its aims comes into collision with the change (acceleration control: and the alarm is raised at none of them that did not raise it before).", "quantifier": "all vehicles, pairs of maps, action sequences and sets of competing action sequences", "why_tests_cant": "quantifies over every competing action sequence and every map extension", "anchors": ["mbd/robots/tt2d.py:_step_internal,shielded_rollout,check_obstacle_collision", "mbd/robots/kinematic_bicycle2d.py:_step_internal,check_obstacle_collision", "mbd/robots/n_trailer2d.py:_step_internal,check_obstacle_collision", "mbd/robots/acc_tt2d.py:_step_internal,shielded_rollout,_check_safety_with_rollout", "mbd/utils.py:rollout_us,rollout_us_with_terminal"]}
