NOT_APPLICABLE={}
NOTES={
'C01':"Every state visited by a shielded kinematic rollout from a checked-safe state passes both checks; for all action lists, parameters, obstacle lists.",
'C02':"With the jackknife shield on, no state returned by step() is jackknifed when the start is not, whether or not the collision shield is on; single trailer, trains of any length, and (trivially, no trailer) the bicycle.",
'C03':"Geometric (point-set) safety of shielded rollouts. Full solid safety needs obstacle radii large enough compared with the body (proved for the default vehicle with radii >= 1); without that the code's rectangle-circle test misses a disc strictly inside the body (refuted theorem: the default vehicle drives over a thin pole).",
'C04':"Separating-axis test is exact: true iff the two closed rectangles share a point.",
'C05':"Rectangle-circle test is exact for the outline and sound; it is not exact for the solid rectangle (refuted: disc strictly inside); exact characterisation of what it misses.",
'C06':"Exact for single trailer, acceleration model (same check) and every pair of bodies of a train of any length; invariance under full turns.",
'C07':"Every rectangle handed to the collision check encloses exactly the documented body (rear overhang to front overhang, full width), for every pose and every trailer of a train.",
'C08':"All modes except projection keep applied actions in [-1,1]^2; C08_projection records that projection mode applies the solver's output unchanged.",
'C09':"Each recorded state is one explicit Euler step of the (independently written) vehicle equations under the recorded action. Acceleration model: see C13. C09_train states the Euler step of a train through the motion equations of each trailer.",
'C10':"Replaying the applied actions from the same start gives the same states and the same applied actions.",
'C11':"Refuted for the default acceleration-model vehicle (1 s prediction step jumps over a pole). Partial: states accepted by the shield, and rollouts whose overrides never occur; at a simulation step equal to the prediction's 1 s, every rollout from a checked start at rest stays safe unless the shield intervenes in one of three named situations (C11_unit_step_partial), none of which can occur under requests of full throttle or none (C11_throttle_partial).",
'C12':"Refuted while reversing with a stop request; partial: braking behaviour of overrides otherwise, the speed after any number of consecutive overrides in either direction, and a bound on how many can occur before standstill (C12_count_partial).",
'C13':"Refuted: recorded action can differ from the executed one; partial under the exact condition.",
'C14':"Predictive rollout does not come to rest in general (refuted); exact iff condition proved as partial.",
'C15':"Chord length bound from sin^2+cos^2=1; also for the acceleration model whose stored speed may exceed v_max.",
'C16':"Speed/steering state not clamped (refuted); the per-step rate bound is proved.",
'C17':"For the generic scan (any step function), the two rollout functions, and the N-trailer scan that may raise.",
'C18':"Proved for the kinematic robots; for the acceleration model only when starting from rest (refuted otherwise).",
'C19':"C19_range_needed shows that the hypothesis on betaT cannot be dropped (the code does not validate it).",
'C20':"The loop visits Ndiffuse-1, ..., 1 once each; row k of the history is the plan after k+1 iterations; all schedule reads are in range.",
'C21':"The score term cancels the incoming plan exactly; so the scaling of the noisy plan (mbd_planner.py:364) does not influence the result of a step.",
'C22':"By induction over the reverse iterations: plans are convex combinations of box-valued executed actions.",
'C23':"Kinematic robots: proved. Acceleration model: refuted (preference constrains acceleration), partial without shields and for single samples.",
'C24':"Softmax weights are positive, sum to one, and order samples as their combined reward does.",
'C25':"C25_scale_guard_needed shows that the guard hypothesis cannot be dropped.",
'C26':"Equal rewards give uniform weights and the plain mean plan; the divisor never drops below 1e-4.",
'C27':"Demonstration log weights are maxima; the best match gets the normalised demonstration reward; disabled means no influence.",
'C28':"Keys as paths in the split tree: keys consumed by a run are pairwise distinct and none is an ancestor of another consumed one.",
'C29':"Proved for every history in which the robot's attributes are not reassigned after its first run; refuted when they are (jitted methods hold the object as static argument) and for a guided second robot.",
'C30':"Partial: same robot and schedule. Exact description of what a second robot or another schedule gets (C30_stale_schedule), concrete refutation.",
'C31':"Shapes, initial state, and existence of the simulator run, for any robot (abstract step function).",
'C32':"Tractor-trailer, bicycle and N-trailer with both shields; geometric form for the default vehicle.",
'C33':"Upper bound 1 and explicit lower bounds for all four robots; step rewards of all four robots in every mode (naive, shielded, guided, projected) and scores of whole rollouts.",
'C34':"Proved for preference -2,-1,0 (trailer tracking); refuted for preferences 1/2 and the bicycle where the front axle is compared with the goal's reference point. Trains tracking the last trailer: the maximal states are characterised (C34_ntrailer_maximal).",
'C35':"Adding whole turns to headings changes no check, reward, step (all four robots; acceleration model including its predicted braking) or score of a rollout.",
'C36':"Reward decomposition against the independent penalty specification; N-trailer uses the requested speed (documented in the theorem). PropsPenalty extends it to the acceleration model (braking look-ahead included), to guided and projected steps, and to trains through the motion equations instead of the model's step.",
'C37':"Range and exact maximiser of the steering reward.",
'C38':"Backup flag is off in all states reachable from reset; the next safe request is executed.",
'C39':"Point-set semantics of registered rectangles and circles incl. padding, rotation, modes, and error paths leaving everything unchanged.",
'C40':"Proved for lots as constructed; refuted after set_plot_limits (space centres move, obstacles stay).",
'C41':"Refuted (placeholder disc of radius 0 at the origin); exact description of the effect; gone after registering an empty list.",
'C42':"Dimension invariant under all setter sequences; component semantics; refuted for the acceleration model's goal speed.",
'C43':"Exact placement proved; refuted as documented (lowest target, front axle instead of front face).",
'C44':"Dispatch table proved; the reported number of trailers differs from the requested one for several classes (refuted).",
'C45':"Transfer, success condition, missing keys, entry point proved; defaults of eleven keys differ, three keys are dropped, strings and floats are coerced (refuted).",
'C46':"Refuted in four ways (solver failure, undersized rectangles, Euler/Runge-Kutta mismatch, acceleration model); partial theorems with explicit margins; constraint values are exact.",
'C47':"Box, identity when disabled, exact gradient, executed state, acceleration model rates proved; zero cost and fixed points hold with the stated restriction (refuted without).",
'C48':"Proved for H >= 4 in every obstacle configuration and all robots; refuted for corner paths with H = 1, 2, 3. C48_spacing gives every row's position exactly; C48_share: a leg's row count is within two of its exact share.",
'C49':"Partial with an explicit gap bound (1/98 of a leg); refuted for small obstacles between sample points.",
'C50':"Range, zero set and mask for all robots; self-score of the demonstration; closed form of the score and of the rewards of the reference for all four robots, as the planner sees them (C50_formula_*).",
'C51':"Exact verdict for three robots; train: partial for aligned trailers, refuted in general (states are cut to four entries).",
'C52':"For every random stream; any validity predicate that ignores the trial number.",
'C53':"Consistency with at least one completed trial; refuted for no completed trial (nan) and for the denominator.",
'C54':"Exact for tractor, bicycle, acceleration model, single trailer and N-trailer axle chain of the dynamics; the collision footprint uses a different hitch (refuted).",
'C55':"First-trailer and prefix properties proved; the reward position is the end of an explicit chain (C55_reward_chain) and coincides with the axle of the collision check for one trailer only (refuted in general; for two trailers it is off by front offset + rear offset + lh in every state, C55_reward_offset).",
'C56':"Monotone clock: all claims; a wall clock that is set back gives negative durations (refuted).",
'C57':"All four robots, obstacle and hitch verdicts under any rotation and translation.",
'C58':"Monotone in obstacles, radius and padding, for single poses of all four robots and for the look-ahead alarm of acceleration control; independent of order.",
'C59':"Default goal proved collision free; default start refuted; README target pair refuted.",
'C60':"Exact displacement per guidance step for one circle (bicycle), 72.9 % after three default steps.",
'C61':"Exact description of batches; independence without demonstrations or with guidance; refuted with demonstrations.",
'C62':"End to end for the default shape; refuted for other shapes (start check uses the default vehicle).",
'C63':"Main program and evaluation honour all settings; benchmark, example and fixtures drop the listed ones (refuted).",
'C64':"Configuration, missing values, search range, scores, safety. Scores equal isolated evaluations; refuted for the number of trailers.",
'C65':"benchmark_diffusion proved; benchmark_parking_scenario refuted (second configuration raises).",
'C66':"Bodies, wheels, obstacles, labels and lines proved for all robots; refuted: second animation with the same tractor-trailer robot raises, front wheel drawn at the unscaled action, train trailer wheels at the body centre, obstacles registered with the Env object only.",
'C67':"Frames, marks, traces, overlays, denoising pictures and the static picture proved; refuted: with a frame skip that does not divide Ndiffuse-2 the final plan is never shown.",
'C68':"Single videos and per-trial videos proved for every directory content; the joined video is in trial order up to 999 trials in a directory without progress videos of a longer evaluation; refuted beyond either condition.",
'C69':"The verdict of the integration tests on any trajectory, and the robot their fixtures build. Refuted: a passing test means a safe trajectory (violations are only logged); the goal follows a custom lot (it stays the default lot's space 3). With both shields the standard scenarios log no violation for any noise.",
'C70':"Closed form of stage and terminal reward for all four robots (C70_formula_*). Order of states by reward: alignment (up to a reversal without preference), straightness, distance; whole-turn reversal about the trailer axle. Missing: approaching the goal always pays (refuted across the goal heading; proved while the heading part is not below the position part). Refuted: terminal heading reward (documented), any heading reward for trains.",
'C71':"Shape, start and motion of the displayed trajectory proved; refuted: in a fresh process (or after clearing caches) the comparison replays the traced guided step, so the shields are not in force; a second robot of the same class does use its unguided step.",
'C72':"Whole planning runs proved equivariant for all four robots (guidance and projection as far as they commute with the motion; train without projection); with demonstrations for translations. Refuted: demonstrations under rotations (axis-parallel corners), guidance under large translations (positions clipped to a fixed square). C72_guidance: guidance commutes with the motion as long as nothing is clipped. C72_projection: the optimisation problem of the projection is the same in every frame (the solver itself is not modelled).",
 "C73": "Proved for all four robots with guidance as implemented and with demonstrations (headings up to full turns). Bodies have sides of at least 1e-4 m, the acceleration model a non-negative steering limit, the train no projection (it raises). Projection of the other robots enters as a function assumed to commute with the mirroring; C73_projection: the optimisation problem it solves is mirrored (the solver itself is not modelled).",
 "C74": "Margin for all four robots; in-between safety of whole shielded runs for tractor-trailer, bicycle and train (travel bounds from the parameters), for the acceleration model between any two safe recorded states. Default vehicle: 1.5 m of padding suffice (train 3 m). Refuted without padding (quarter turn in one step).",
 "C75": "Bicycle, tractor-trailer and trains of any number of trailers, shields and guidance included (projection off: the applied controls must be within limits). The continuous motion exists for every recorded motion (Picard-Lindelof). C75_acc, C75_exists_acc: acceleration-controlled vehicle with any shield; speed and steering angle change linearly between the recorded ones, so heading, too, only agrees up to a bound that vanishes with the time step. Refuted: recorded positions are exact (default vehicle: up to 8 cm sideways per step when rocking with the wheel at the stop).",
 "C76": "Checks of tractor-trailer, bicycle and train and their shielded runs, parametric in the accuracy; the train's tolerances grow with each trailer (default train of up to three trailers: 1 mm for rectangles, 5 cm for discs of 1.3 m or more); with padded obstacles all bodies keep the padding minus the tolerance away; numbers for single precision and the default vehicle, also unconditional for plans of the default length. Converse (no false alarms) for checks, hitch check and shielded step. The accuracy of the arithmetic (Spec.Accurate) is a hypothesis, met by 24-bit rounding (single_float32). Exceptions inherited from the exact check: discs small enough to fit into a body.",
 "C77": "All parts, with and without demonstration, for any planner environment (temperature positive; at zero the code divides by zero).",
 "C78": "All rewards, rollouts and demonstrations; parametric in the accuracy, with numbers for the default configuration. Accuracy of the weights needs a spread of the rewards above the 1e-4 guard. The accuracy of the arithmetic (Spec.PlanAccurate) is a hypothesis; overflow and NaN are not modelled.",
 "C79": "Exact one-step factor with any obstacles at a distance; any number of steps when the trailer axle's distance to the circular obstacles has a reserve of half the excess angle times the lengths lh + l2 (turning the bodies moves that axle); trains by reduction to their front. Refuted for several hundred obstacles, where the weight exceeds what the step size allows.",
 "C80": "One-step decrease and any number of steps, all four vehicles (train: tractor and first trailer). C80_many_obstacles_refuted shows that the bound on the number of obstacles cannot be dropped (22 poles, bicycle, default step size).",
 "C81": "Bicycle, tractor-trailer and trains of any number of trailers (C81_ntrailer, C81_safe_ntrailer) and the acceleration-controlled vehicle (C81_acc, C81_safe_acc: errors in speed and steering angle around the linearly interpolated recorded ones; safety from the recorded states being clear of the padded obstacles, as its shield does not guarantee that, C11, C12), shields included (projection and, for safety, guidance off). Executions are all curves whose derivatives at every moment are those of the kinematic equations for some speed and steering angle within the budget (differential inclusion). C81_unpadded_refuted: without padding there is no tolerance.",
 "C82": "All four robots (projection and guidance off), rewards, score, weights and plans, through the models with an arbitrary arithmetic (Rounded, RoundTrain, RoundAcc, RoundReward, RoundPlan). An undefined operation returns an arbitrary real number, not a NaN with its own propagation rules; the Python-side combinations of attributes are read as exact. C82_right_angle shows that the bound on the steering limit is needed.",
 "C83": "Complete: one step (C83_step) and the whole run (C83_run) equal a closed form written with finite sums only (Spec.update, Spec.planAt); the match with the demonstration is the robot's own function (closed form of it: C50).",
 "C88": "Complete as stated; the first difference of the acceleration model is stated for both shields on.",
 "C89": "Bicycle and tractor-trailer (projection and, for safety, guidance off): executions are all curves that satisfy the kinematic equations at every moment for some speed and steering angle within the budget. Trains: executions without error (C89_track_ntrailer, C89_safe_ntrailer, C89_arrives_ntrailer).",
 "C87": "Complete as stated. For trains the open-ground claim in (a) is not made (it fails: C87_ahead_stuck_ntrailer).",
 "C86": "Complete as stated; the accuracy of the arithmetic is a hypothesis (single32_reward: 24-bit rounding of every operation meets it).",
 "C85": "Complete as stated; the accuracy of the arithmetic is a hypothesis (24-bit rounding meets it: single_float32, single_zero). Obstacles from 1 m size, positions up to 50 m, default vehicle where numbers are given; the general theorem C85_run is parametric.",
 "C90": "Tractor-trailer, bicycle and trains: complete for references given in the new units (generation of the reference, which uses absolute thresholds, is not included). Acceleration control: proved without shields (C90_acc_partial); refuted with shields, which compare speeds with an absolute 0.01 (C90_acc_refuted).",
 "C91": "All four robots, complete: any shields, penalties, noise and reference trajectory (the trajectory itself is taken as given). Rectangular obstacles and body sides must have positive size.",
 "C94": "Complete as claimed: locality for all four robots (trains and acceleration control from any state not in backup mode, which includes the reset state), and so the ranking (acceleration control with the alarm condition; trains among the sequences that raise no exception).",
 "C93": "Complete, for all four robots. 'Covers': same vehicle, and every obstacle of the one map has one of the same centre and orientation and at least its size on the other. Projection enters as the same function on both sides; it does not look at obstacles.",
 "C92": "Complete as claimed: execution and the idle shield for all four robots (for acceleration control without hitch shield only the penalty is varied: the shielded step judges jackknifing along the predicted stop, the unshielded one at the pose), the price of a violation for tractor-trailer and bicycle. Projection and guidance enter as the same functions on both sides.",
 "C84": "Bounds test, setters, default start and parking spaces: complete. That vehicles stay in the bounds is refuted (C84_kept_refuted): no step looks at them.",
}

# statements that include their own counterexample, or whose refuted theorem lies outside the claim
COMPLETE={"C56","C74","C75","C80","C81"}
