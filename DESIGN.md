# Formal model of cps-atlas/safe-mpd in Lean 4

## 1. Approach

The Python/JAX code is modelled function by function as Lean definitions over the
real numbers (`/verif/lean/Verif/*.lean`, one model file per source area). Each
definition cites the file and lines it models. Properties (`properties.jsonl`) are
theorems about these definitions, stated against a small separate specification
(`Verif/Spec*.lean`: solid rectangles and discs as point sets, angles modulo full
turns, ...) and collected in `Verif/Props*.lean`. `MANIFEST.json` maps property
ids to theorem names.

Where the unchanged code violates a property, the negation is proved on a concrete
witness (theorem names end in `_refuted`), and the part that does hold is proved
under the name `..._partial`. These disagreements are listed in section 5.

## 2. Modelling conventions

* `float32` -> `ℝ`. Rounding is modelled only in `Rounded` (checks, motion and
  shield of the kinematic tractor-trailer and bicycle, C76), `RoundTrain` (the same for the n-trailer train, C76), `RoundAcc` and `RoundReward` (acceleration-controlled robot and rewards, C82) and `RoundPlan` (weights and plans of the planner, C78); overflow and NaN are
  not modelled (exception: the "is finite" guards of the guidance step are
  modelled with an explicit non-finite value).
* `jnp.where` / `lax.cond` -> `if`; boolean checks -> `Prop` (classical `if`);
  python flags -> `Bool`.
* `lax.scan` / `fori_loop` -> structural recursion over lists.
* `a % b` on floats -> `a - b*⌊a/b⌋`.
* `jax.jit`/`vmap` are semantics preserving, except that a jitted function captures
  the environment it closes over; the planner's global function cache is
  therefore modelled as explicit state.
* `jax.random` -> keys are paths in a split tree; the normal draw is an arbitrary
  function of the key.
* `scipy.optimize.minimize` and `jax.grad` -> parameters (arbitrary functions).
* Exceptions -> `Except`/`Option` values.

## 3. Module map

Model modules (every definition cites the lines it models; `tools/check_citations.py` checks that
every definition has a citation and that the cited lines exist; `-v` prints which model module covers
each python function):

| module | models |
|---|---|
| `Prim` | clip, wrap_pi, mean, std, softmax, norm, linspace, clamped indexing |
| `Geom` | corner construction, rectangle-circle check, separating-axis check (tt2d.py) |
| `TT2d` | tt2d.py: parameters, dynamics, Euler step, checks, rewards, penalties, shielded step |
| `Bicycle` | kinematic_bicycle2d.py |
| `NTrailer` | n_trailer2d.py (any number of trailers, lists of lengths, clamped indexing) |
| `Acc` | acc_tt2d.py (acceleration model, backup control, predictive safety rollout) |
| `Rollout` | utils.py rollout functions, warm-up step |
| `Env` | envs/env.py, envs/__init__.py: obstacles, parking lots, factory, setters, start/goal poses |
| `Planner` | mbd_planner.py: schedule, reverse process, weights, keys, result |
| `Demo` | demonstration path generator and its score |
| `Cache` | global function cache and jit caches as a state machine over processes |
| `Guidance` | gradient guidance (exact gradient of the cost, box, finiteness guard) |
| `Projection` | projection mode (constraints, Runge-Kutta prediction, solver as parameter) |
| `Config` | MBDConfig, dict_to_config_obj with python text/number coercions |
| `Timing` | timing report |
| `Stat` | tests/stat_mbd.py: sampling of starts, trials, verdicts, aggregation |
| `Wiring` | the five places which build a robot from a configuration |
| `Tuner` | tests/tune_mbd.py (Optuna as an oracle) |
| `Bench` | scripts/benchmark_diffusion.py |
| `Render` | drawing: artists, transforms, frames of the animations, parking labels |
| `Video` | saving: picture files, directory contents, ffmpeg as a function of the files it reads, merged progress videos |
| `Harness` | tests/test_planners: fixtures of the integration tests and their verdict |
| `Comparison` | the guided/unguided comparison display |
| `Rounded` | checks, motion and shield of tractor-trailer and bicycle over an arbitrary (rounding) arithmetic |
| `RoundPlan` | weights, averaged plan, rescaling and noise schedule of the planner over an arbitrary (rounding) arithmetic |

Specification modules: `Spec`, `SpecVehicle`, and small `Spec.*` definitions at the head of some
`Props*` modules. They define the English terms (solid rectangle, disc, outline, hull, full turn, body of
a vehicle, space of a parking lot, penalties, one Euler step of the equations of motion, ...) and use no model
helper. `*Lemmas` modules hold proofs only. `Witness` holds concrete vehicles used by the examples
that show hypotheses to be satisfiable. `Props*` modules hold the theorems `Cnn_*`.

## 4. Plan per property

* C01, C02: step functions of the three kinematic robots; one-step lemma
  "next state is the old one or an unflagged proposal", induction over the action list.
* C03: C01 + C04 + C05; full disc disjointness is false for discs swallowed by a
  body (refuted); partial: outline disjointness, and full disjointness when no body point
  moves 2r or more in one step.
* C04: soundness by projection; completeness by Hahn-Banach and the four-sector argument.
* C05: exact characterisation by the outline; solid version refuted by a contained disc;
  partial for discs that cannot fit in the body or centres outside.
* C06: floor-mod lemmas, induction over trailers. C07: algebra over the corner formulas.
* C08: clip bounds. C09, C10: unfold + induction; acceleration model excluded (C13).
* C11: refuted by an explicit two-step run; partial: no shield intervention => safe.
* C12, C13, C14, C16: refuted by explicit states; partial theorems for the
  velocity ranges in which they hold.
* C15: trigonometric identity + clip. C17, C18: list induction; C18 refuted for a moving start.
* C19: products of numbers in (0,1). C20: loop as recursion over the index. C21: field algebra.
* C22, C23: convexity, induction over iterations. C23 refuted for the acceleration model.
* C24-C27: softmax algebra. C28: paths in the split tree.
* C29, C30: planner as a state machine over the cache; C30 refuted by two runs.
* C31, C32: composition of C01, C02, C10, C18 with the planner model.
* C33-C37: real inequalities. C34 refuted for preferences 1, 2 and for the bicycle.
* C38: invariant by induction. C39, C40: set equalities; floor/mod arithmetic.
* C41: refuted (dummy obstacle sits at the origin); partial: away from the origin.
* C42-C45: state machines / decision logic; C45 refuted (dropped keys, different defaults).
* C46: refuted (solver failure returns the original control); partial: solver success with
  constraints, geometry and integrator as used by the checks.
* C47: parameters for the gradient. C48-C50: list model of the generator, closed form of the score; C49 refuted.
* C51-C53: list folds. C54: derivatives along the vector field. C55: recursion over trailers.
* C56: arithmetic of readings. C57, C58: corollaries of C04/C05 geometry and list lemmas.

* C59: interval arithmetic on the concrete default poses. C60: explicit gradient.
* C61: the cache model composed over a list of robots; refuted by a two-robot witness with demonstrations.
* C62: composition of C52, C61, C32, C51, C53; C62 refuted for other vehicle shapes.
* C63: each entry point as a record-to-record function; equality of the resulting robot, or a setting which
  is dropped (refuted). C64: C61 + C51/C53 ranges; grid arithmetic. C65: list statistics + cache model.
* C66: artists as state (polygon + transform); invariant of the artists over all frames, then equality of point sets.
* C67: frames as functions of the run (lists), composed with C31/C32. C68: directory as a finite map, invariants over
  arbitrary earlier contents. C69: fixtures composed with C40/C43, verdicts as list folds, C31/C32 for the shielded scenarios.
* C70: closed form of the rewards, then the reward as a function of distance, unsigned angles and articulation; monotonicity of each term; refuted where the heading part is the smaller one.
* C71: the cache model of the step function composed with the rollout lemmas; refuted by the first run of a process.
* C72: a simulation relation between two planning tasks (SymLemmas: rollouts, batch evaluation, denoising step and loop commute with a state map), instantiated with rigid motions by the geometric lemmas of C57; demonstrations by translation of every stage of the generator; refuted for demonstrations under a quarter turn and for guidance under a translation by 300 m.
* C73: the same simulation relation with the reflection in the x axis and the steering negated; reflection lemmas for every geometric predicate, reward, Euler step, guidance gradient and stage of the demonstration generator (arctan2 reflected up to full turns).
* C74: both registrations of the same rows are compared entry by entry; a padded region contains the p-neighbourhood of the unpadded one (C39), every point of a body between two states is within half the one-step travel of a point of one of the two bodies, and the Euler equations bound that travel (unit by unit for the train).
* C75: the differential equation of the kinematic model is a specification (`Continuous3`, `Continuous4`); over one step the tractor heading is linear in time, the position differs from the Euler step by the second-order remainder (fencing theorem of Mathlib), the trailer heading by a Lipschitz estimate; induction over the steps; existence of the motion by gluing solutions of single steps (Picard-Lindelöf); safety by C74's margins. Trains (`PropsContinuousTrain`): the rates of the units are Lipschitz in the headings with constants computed along the train, the deviations obey a linear recursion over steps and units; existence trailer by trailer (Picard-Lindelöf for each, the unit in front given). Acceleration-controlled vehicle (`PropsContinuousAcc`): the motion with linearly changing speed and steering angle is a rough execution (C81) of the piecewise constant one, with one step's change as error.
* C76: the checks, motion and shield over an arbitrary arithmetic (`Arith`), operation by operation; forward error bounds for corners, edge distances, projections and wrapped angles; a separating axis found by the rounded test separates the exact bodies from the obstacles shrunk by the tolerance; the shield by induction over the steps, discs by C03's displacement argument with the rounded Euler step; no false alarms: for bodies kept at a distance one of the four exact normals has a gap, the rounded normal is close to it, so the rounded projections are still apart; foot points of the rounded edge distance are near the edge; exact arithmetic gives back the model (`C76_exact_*`); the train (`PropsRoundTrain`) by accumulating the errors of the hitch positions along the chain.
* C77: weights rewritten as normalised exponentials of the score (reward, or demonstration bonus) at inverse temperature 1/(spread*temp); permutation invariance of sums, means and maxima; monotonicity in the temperature by comparing reciprocals and a double-sum (Chebyshev) argument; limits by continuity of finite sums.
* C78: weights, averaged plan, rescaling and noise schedule over an arbitrary arithmetic (`PlanArith`), rollouts arbitrary; forward error bounds; the softmax divisor contains a term near 1; the score and the rescaling cancel up to a relative error; induction over the noise levels
* C79: `Guide.stepOnce`/`apply` (already modelled for C47); closed form of the hitch gradient below half a turn, induction over the number of steps; counterexample with 400 obstacles
* C80: same model; quadratic upper bound of the squared shortfall (`hinge_sq_le`, distance to the centre grows at least by the radial part of the movement), of the minimum over readings, and of the trailer axle's position in the angles (tangent error at most half the squared angle); clipped descent per coordinate (`comp_descent`). PropsDescent.lean.
* C81: the recorded motion of the model; executions as differential inclusions in continuous time (`Spec.Rough3`, `Spec.Rough4`). The ideal execution of C75 is compared with a rough one: derivative bounds glued over the steps, mean value inequality for heading and position, Gronwall for the trailer; bodies near the interpolated ones keep clear by C74's margins (`PropsRobust`). Trains: Gronwall unit by unit along the train, errors of speed, turning rate and heading defined by recursion over the units (`PropsRobustTrain`). Acceleration-controlled vehicle in `PropsContinuousAcc`.
* C82: the arithmetic of the rounded models (`Arith`, `PlanArith`) taken exact where defined and arbitrary elsewhere (`Spec.DefinedOnly`); every denominator, radicand and angle met is shown to be in the domain, so that checks, steps, rewards, weights and plans equal the ones of the exact model (`PropsDefined`; `RoundReward` and `RoundAcc` add the rewards and the acceleration-controlled robot).
* C83: closed form of the reverse step and of the run with finite sums (`Spec.update`, `Spec.planAt`), compared with the list program by induction over the horizon, the samples and the levels (`PropsUpdate`).
* C84: bounds as a point set (`Spec.solidRect`), invariance under setter histories by induction, parking spaces by integer division; staying inside refuted by a step across the border (`PropsBounds`).
* C85: shield invariant of the acceleration model for an arbitrary arithmetic (`RoundAcc`), induction over the actions; error bounds operation by operation for braking and motion; C76 turns passed computed checks into geometry (`PropsRoundAcc`).
* C86: error bounds operation by operation through distance, position reward, heading weight (the sigmoid is 1-Lipschitz), wrapped angles and the choice of orientation (a wrong choice costs at most the error of the two compared sums), against the closed forms of C70 (`RoundReward`, `PropsRoundReward`, `PropsRoundSteer`).
* C87: exact recursion of the hitch angle for straight wheels and a geometric bound; "progress or stall" lemma for the halts; a conserved centre of rotation for the circles (`PropsManoeuvre`). Trains (`PropsManoeuvreTrain`): tractor and first trailer obey the tractor-trailer equations; balanced hitch angles turn every unit by the same angle, by induction along the train.
* C88: one-step agreement of the shielded and the unshielded step on passing states, lifted over scans (`PropsTransparent`).
* C89: the returned actions are a fixed point of record-and-replay (C10, C18), so the error bounds of C81 apply to executing them; lengths from C31 (`PropsExecute`). Trains in `PropsExecuteTrain`.
* C90: every function of the model commutes with the change of units (distances are homogeneous; the segment guard of the circle check is harmless for sides of 1e-4), lifted to plans by the symmetry lemma `plan_sym` (`PropsUnits`). The acceleration model's absolute speed threshold gives the counterexample.
* C91: a planning run looks at `Hsample + 1` successive states of each rollout (indexed invariant, `plan_congr_n`), each at most `v_max dt` from the last (C15); bodies lie within the sum of their dimensions of the axle, and the exact collision tests (C04, C05) cannot see obstacles beyond (`PropsReach`).
* C92: pose, action and mode of a step are functions of the vehicle fields only (record equality, induction along the trailers), lifted to scans; the price formula by induction along the rollout; the idle shield from the far-obstacle lemmas of C91 (`PropsSettings`), for acceleration control and trains by passing through the empty map (`PropsIdle`).
* C93: one step compared on two maps: the motion does not read the obstacles when the collision shield is off, and the collision verdict is monotone (C58, for acceleration control along the predicted stop); lifted to rollouts (`PropsCrowd`).
* C94: a step depends on the map only through the verdict on its aim; induction along the rollout. The ranking follows from this equality for the best sequence and the inequality of C93 for its competitors (`PropsBest`, `PropsBestTrain`; acceleration control in `PropsLocalAcc` and `PropsBestAcc`).

None of the properties is considered inexpressible.

## 5. Findings (unchanged code against the property list)

Each item is a theorem ending in `_refuted` (or a `_partial` whose comment names the missing part).

* C03/C05: the rectangle-circle check only tests the outline; a disc strictly inside the body is not flagged. A shielded
  default vehicle can step over a 5 cm pole. Full solid safety is proved for the default vehicle with radii >= 1.
* C11-C14, C16, C18 (acceleration model): with both shields the default vehicle hits a pole 0.15 m ahead; while reversing
  with a stop request the override does not brake although the recorded action says so; the 1 s prediction overshoots and never stops;
  speed and steering states are not clamped; a moving start is shifted by the warm-up.
* C19: `betaT > 1` gives negative cumulative products (no validation).
* C23: a strict motion preference constrains the acceleration, not the speed, in the acceleration model.
* C29/C30/C61/C65: jitted methods keep stale attributes; a second robot of the same class is planned with the first robot's functions,
  reference and noise schedule unless the cache is cleared; statistical evaluation with demonstrations uses the first trial's reference for all later trials;
  the parking benchmark's second configuration raises; the guidance comparison run may record the unguided step for good.
* C34: preferences 1, 2 and the bicycle compare the front axle with the goal's reference point.
* C36: the N-trailer preference penalty uses the requested speed. C54/C55: three inconsistent N-trailer geometries.
* C40: set_plot_limits moves reported centres but not obstacles. C41: an empty navigation map has a zero-radius obstacle at the origin.
* C42: acc set_goal_pos resets speed and steering. C43: dx is measured from the lowest target and the front axle, not the front face.
* C44: the reported number of trailers differs from the requested one for several classes; negative counts build a single trailer.
* C45: dict_to_config_obj drops verbose, frame_skip, num_trailers; eleven optional keys get other defaults than MBDConfig(); "False" turns flags on.
* C46: solver failure executes the original action; projection steps make no checks; projection rectangles are undersized;
  prediction (Runge-Kutta) and execution (Euler) differ; the acceleration model feeds (a, omega) as (v, delta); N-trailer projection raises.
* C47: guidance only reads headings within one turn, clips states outside +-100 m, ignores rectangles, sees only the first trailer.
* C48-C50: corner paths are wrong for H <= 3; the 50-sample check misses small obstacles; the score compares the trailer axle with the tractor path.
* C51: train states are cut to four entries, so later hitches and bodies are judged as if in line.
* C53: the success rate divides by the requested trials, the other rates by the completed ones; C56: a clock set back gives negative durations.
* C59: the default parking start collides with the top wall; the README's target pair [4, 12] has a goal inside an obstacle.
* C62: starts are validated with the default vehicle shape. C63: benchmark, example and fixtures drop settings. C64: the tuner resets num_trailers.
* C66: a second animation with the same tractor-trailer robot raises; the front wheel is drawn at the unscaled action; train trailer wheels are drawn
  at the body centre; obstacles registered with the Env object only are drawn but not checked.
* C67: the denoising animation omits the final plan unless the frame skip divides Ndiffuse - 2. C68: merged videos are out of order
  from 1000 trials on, and include stale progress videos of an earlier, longer evaluation.
* C69: an integration test passes although every state collides (violations are logged only); with a custom lot the goal stays that of the default lot.
* C70: a robot standing across the goal heading is rewarded less at the goal than 7 m away; the terminal reward ignores the heading although documented as half of it; trains get no heading reward.
* C71: the comparison run after guided planning replays the guided step in a fresh process, so its shields are not in force.
* C72: the demonstration depends on the orientation of the coordinate axes, and guidance on the position of the origin (box of side 200 m).
* C55: in the rewards of a train the hitch behind a trailer lies `front offset` *ahead* of that trailer's axle, in the collision check `rear offset + lh` behind it.
* C90: the shields of the acceleration model brake or not depending on an absolute speed of 0.01, so the same vehicle described in other units behaves differently.
* C84: `is_in_bounds` is used by no step or reward: with both shields on a vehicle drives out of the environment.
* C74: the obstacle check looks at recorded states only; without padding a body can pass through an obstacle corner between two states that both pass.
* C75: explicit Euler lets the recorded vehicle slide sideways: full speed forward and back with the wheel at the stop moves the default vehicle by 16 cm per repetition at constant heading, while a vehicle obeying the same kinematics returns to its start.
* C76: the checks have no tolerance of their own: rounding can let a body up to 2 mm into a rectangle or up to 1 cm into a disc (bounds, default vehicle, single precision) without a report; a padding of 1 cm makes up for it.
* C36: the tractor-trailer never charges collision penalties in projection mode, the bicycle does.

## 6. Trusted base

* Lean 4.33.0 kernel. Every theorem depends on at most the axioms `propext`, `Classical.choice`, `Quot.sound`; no other
  axiom, no compiled evaluation.
* The correspondence between the python source and the model definitions (by reading; citations beside each definition).
* Assumptions built into the model, each stated in the module named:
  real numbers for floats (`Prim`); out-of-range indices of jnp arrays clamp (`Prim.clampGet`);
  a jitted function is traced once per static argument and shape and then replays the attribute values it saw (`Cache`);
  jax.grad is the mathematical gradient with JAX's conventions at kinks (`Guidance`);
  scipy's solver is an arbitrary function, only its success flag is trusted where a theorem says so (`Projection`);
  python text/number coercions as in `Config`; Optuna is an arbitrary oracle obeying its suggested ranges (`Tuner`);
  object identities are not reused (`Cache`); `Affine2D().rotate(..).translate(..)` and artist transforms of matplotlib as point maps (`Render`);
  jax.random keys as paths of a split tree and draws as an arbitrary function of the key (`Planner`).
* C76 takes the accuracy of the arithmetic as a hypothesis (`Spec.Accurate`: relative error of an operation, error of matrix
  products, of the trigonometric functions, absolute error near zero); that a given device meets it is not proved. 24-bit rounding of
  every operation meets it (`single_float32`). The repository leaves 64-bit mode off (mbd_planner.py:19-20).
* C78 likewise takes `Spec.PlanAccurate` as a hypothesis (an always-biased arithmetic meets it, `biased_accurate`); rollouts and rewards are
  arbitrary there, the result of `jnp.linspace` is any list in the stated range.
* Rounding of the train's checks and motion is covered by C76; of the acceleration model by C85; of the stage and terminal
  rewards and the steering bonus by C86 (score against a demonstration only as arbitrary arithmetic, C82, without error bounds). Not modelled: floating-point rounding of guidance and projection, logging and printing, W&B, pickle/JSON files, the encoding done by ffmpeg, heat maps, colours and figure layout,
  argument parsing, run_tests.py, git/system information.
