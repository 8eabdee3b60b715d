{
 "C01": {"status": "partial", "note": "Proved for every history in which the index of a time is never requested from an empty trajectory; C01_violated shows that such a request poisons the object. The index search itself is characterised outright."},
 "C02": {"status": "proved", "note": "All four regions, bounds for scalar data, exceptions on inconsistent data."},
 "C03": {"status": "proved", "note": "Refinement to a list of (stamp, sample) pairs for every defined history; calls whose precondition fails (pop_back on empty, erasing too much) are the undefined outcome."},
 "C04": {"status": "proved", "note": "Holds for arbitrary (also unsorted) contents."},
 "C05": {"status": "proved", "note": ""},
 "C06": {"status": "proved", "note": "Over an arbitrary field of characteristic zero (no rounding)."},
 "C07": {"status": "proved", "note": "Non-negative durations suffice. Querying the next switch event in the last phase is undefined behaviour (C07_switch_event_last_undefined)."},
 "C08": {"status": "proved", "note": "Continuous, discrete, linear, discrete linear (matrices, next state and copies) and closed-loop versions; mode indices must be within the vector of subsystems."},
 "C09": {"status": "partial", "note": "Proved for start ... stop sequences after any history and for untouched timers; C09_violated: stop without start reports the absolute time stamp (this is what MPC runs into, see C31)."},
 "C10": {"status": "partial", "note": "Single and linear windows in full; periodic windows for activations configured from a file. C10_violated: the value constructor leaves the end time uninitialised."},
 "C11": {"status": "partial", "note": "Accounting proved for every history without undefined behaviour; C11_violated: the table of remainders is never large enough for identifiers other than 0, nor after reset. Unbounded integers instead of int."},
 "C12": {"status": "proved", "note": "Real/rational arithmetic instead of floating point."},
 "C13": {"status": "proved", "note": ""},
 "C14": {"status": "proved", "note": "Over all histories of evaluations and updates; stages outside the discrete-time policy are undefined."},
 "C15": {"status": "partial", "note": "Grid, step count and composition in full; C15_violated: the built-in steppers record n states instead of n+1 (the initial state is never recorded)."},
 "C16": {"status": "proved", "note": "RK4: exact on quadratures up to degree 3 and equal to the degree-4 Taylor polynomial on linear systems, plus the defining formulas. Field arithmetic instead of floating point."},
 "C17": {"status": "proved", "note": "The handlers are driven by the observer of the fixed-step loop."},
 "C18": {"status": "proved", "note": "Semantics of boost::odeint symplectic_euler is part of the trusted base (the order of the two half updates)."},
 "C19": {"status": "partial", "note": "Forward and symplectic Euler in full for nonlinear time-varying systems; backward Euler for state-independent Jacobians; Tustin only up to a factor two of the step. Violations shown for backward Euler (Jacobian at the wrong end of the step) and Tustin (dt instead of dt/2)."},
 "C20": {"status": "partial", "note": "Time-invariant nonlinear systems with any number of sub-steps, time-varying ones with one sub-step, symplectic stepping of linear systems. C20_violated: all sub-steps use the time of the first; C20_symplectic_violated: the recorder stores states after, not before, each symplectic step."},
 "C21": {"status": "partial", "note": "Proved when the simulation step divides the control step; C21_violated: otherwise the residual step has the length of the fraction rather than fraction times simulation step."},
 "C22": {"status": "proved", "note": "Non-zero pivots are characterised by non-zero leading principal minors; positive definite matrices as corollary. Exact field arithmetic."},
 "C23": {"status": "proved", "note": "Exact arithmetic; convergence over the reals."},
 "C24": {"status": "partial", "note": "Equilibrium, documented law and dissipation proved; the spring-mass-damper constructor obeys its law exactly when d = 0 or k m = 1 (C24_spring_partial), witness in C24_spring_violated."},
 "C25": {"status": "partial", "note": "Controllability proved outright. C25_observability_violated: for every n >= 2 the observability computation writes outside the matrix; only n = 1 works (C25_observability_partial, C25_observability_test_partial)."},
 "C26": {"status": "partial", "note": "Proved while the distinct threads are at most the configured number and their ids hash to distinct values; C26_violated: one thread more always shares number 0 with the first."},
 "C27": {"status": "proved", "note": "For histories of prepare/finish/reset that do not start with finish, with a clock that never runs backwards and non-negative delay settings; the solver is represented by the horizon it reports."},
 "C28": {"status": "partial", "note": "Values, end report and monotonicity of all four modes proved; C28_remaining_violated: in fixed-final-time mode the time since the last solve is charged twice."},
 "C29": {"status": "partial", "note": "Samples and sizes in all cases, stamps when nothing is appended; C29_extension_violated: appended stages are all stamped dt (absolute instead of relative time)."},
 "C30": {"status": "proved", "note": ""},
 "C31": {"status": "partial", "note": "Proved for external timing after the first iteration; C31_first_violated and C31_first_internal_violated: the first policy is stamped 2*x_ts (external) or x_ts plus the clock reading (defaults)."},
 "C32": {"status": "proved", "note": ""},
 "C33": {"status": "partial", "note": "Evaluation, counts, bounds: all histories. C33_terminal_jacobian_violated: the terminal state Jacobians check the intermediate flag, so use before initialisation is not reported and up-to-date ones can be refused."},
 "C34": {"status": "partial", "note": "Containers, box and terminal terms proved; default terms only for one row or one column. C34_default_violated: for two or more rows and columns values are column-major, the pattern row-major."},
 "C35": {"status": "proved", "note": "The 0/1 and length assertions on the sparsity vector are preconditions."},
 "C36": {"status": "proved", "note": "Fr\u00e9chet derivatives, arbitrary weights; smooth abs needs a non-zero smoothing parameter."},
 "C37": {"status": "partial", "note": "Violated: the activation is applied twice to the value and once to the derivatives. Proved for activations with value 0 or 1; derivatives are those of the documented cost for every activation; terminal costs consistent."},
 "C38": {"status": "proved", "note": "Optimality and uniqueness over all control sequences, cost-to-go at every stage >= 1 (the code does not compute it at stage 0), a version with hypotheses on the problem data only, and what is minimised when the Hessians are regularised. LLT solve and eigendecomposition are trusted to be exact."},
 "C39": {"status": "partial", "note": "Equality of all arrays for every split point up to the number of stages, also when the data before the split change in between. Violated (undefined access) when there are more steps per shot than stages, which the settings check accepts."},
 "C40": {"status": "proved", "note": "Sign-function solver: every iterate commutes with the Hamiltonian, so an exact final solve gives a solution of the CARE. Schur solver: from an invariant subspace. Also the HJB identity for the returned gain. The LAPACK Schur reordering and the LU solve are assumed as stated in the hypotheses. Existence, stability and optimality for the direct solver are C173. Convergence of the iterative solver is C174."},
 "C41": {"status": "partial", "note": "The plain recursion is optimal. The robust recursion used by DARE and FHDTLQR is exactly the plain one for the weight R + eps I, so everything holds for that weight; proved not to hold for R itself (scalar witnesses). DARE returns its initial guess for tolerances above 1. Convergence of the iteration is C171."},
 "C42": {"status": "proved", "note": "Invariant over arbitrary call sequences; minimum-variance gain and its uniqueness via the dual Riccati step. Needs non-degenerate measurement noise, as the code inverts the innovation covariance."},
 "C43": {"status": "partial", "note": "Weights, transform and prediction are exact for affine maps once computeWeights was called. Proved violations: no constructor and no call computes the weights, so a constructed filter reads uninitialised members; the correction ignores the process noise (sigma points are not redrawn)."},
 "C44": {"status": "proved", "note": "Stacking of values, bounds, Jacobian values and pattern for all lists of constraints that return what they report; index helpers."},
 "C45": {"status": "proved", "note": "Index map, block reads/writes and array guesses for every shape; unallocated xInit is a parameter."},
 "C46": {"status": "partial", "note": "Endpoints proved. Interpolation in between is refuted: the blend factor is an integer division, so every node but the last gets x0 (C46_violated)."},
 "C47": {"status": "proved", "note": "Uniform grids over every sequence of shot-count/horizon changes; segment updates telescoped."},
 "C48": {"status": "proved", "note": "Values, node derivatives, time and duration derivatives of the linear spline and the hold."},
 "C49": {"status": "proved", "note": "Matrix denoted by the triplets, for both control parametrisations, plus the initial-state constraint."},
 "C50": {"status": "partial", "note": "Proved when no general constraint depends on the input; refuted otherwise: setGeneralConstraints counts only entries by state, so values and pattern overrun vectors of the reported size (C50_violated)."},
 "C51": {"status": "partial", "note": "Zero-order hold proved. Piecewise linear refuted: computing the weights reads behind the grid for every grid (C51_linear_violated)."},
 "C52": {"status": "partial", "note": "Construction with the horizon of the settings: constraint and shots right (within half a simulation step). Afterwards initial-state constraint and shots never change: C52_violated_initial, C52_violated_horizon hold for all call sequences."},
 "C53": {"status": "partial", "note": "Cached shots agree with a fresh problem for every sequence of updates through the solver interface and queries; three violations proved: before the first update, after writes that bypass the counter, after a counter reset."},
 "C54": {"status": "proved", "note": "Exact arithmetic over an additive group; all shot lengths, any order of shots, single shooting as one shot."},
 "C55": {"status": "partial", "note": "Violated: a rejected search clears the defects, the Armijo test accepts an unchanged merit, and constraint errors of the previous trajectory are used when the roll-out is aborted. Proved: first acceptable candidate is taken, accepted steps decrease the merit for the simple search, everything but the defects is kept on rejection."},
 "C56": {"status": "partial", "note": "For any number of workers and any interleaving (sequential consistency): if no worker is still busy with an earlier task when the phase starts, every index of the range is processed at most once, nothing outside it is, and when the main thread is released all indices are complete (C56_phase_partial, C56_single); the first phase after launch meets this (C56_first_ready). Violated otherwise: a stale worker from the previous phase lets two phases end without the LQ problem being computed (C56_violated); rolloutShots(K, K-1) wraps around (C56_violated_range)."},
 "C57": {"status": "partial", "note": "In every interleaving the parallel search reports a step iff the serial one does, the step was accepted, is not larger than the serial one, and the published data is that of this step (C57_choice_partial, C57_stable, C57_decided); equal to the serial choice with one worker (C57_single_worker) and whenever all earlier candidates are evaluated before the serial choice (C57_in_order_partial). Violated: a smaller step overwrites the accepted one (C57_violated); candidates of a finished search are published in the next one (C57_violated_stale)."},
 "C58": {"status": "partial", "note": "With at least one worker and no lost notification no state is stuck and the main thread is released after a bounded number of moves (C58_terminates_partial, C58_search_partial). Violated: lost notifications in both directions (C58_violated_wakeup, C58_violated_completion, C58_violated_search), ranges that wrap around (C58_violated_range), maxIterations = 0 (C58_violated_search_zero)."},
 "C59": {"status": "partial", "note": "Violated: solve always returns true; without line search a worse cost is reported as better. Proved: number of iterations run and the direction from improvement to true."},
 "C60": {"status": "proved", "note": "Any mix of accepted and rejected calls without reconfiguration (see C84 for configure). The reference and previous-state buffers may stay longer than the horizon; they are shown to be at least as long."},
 "C61": {"status": "proved", "note": "All parts, plus that no motion within the limits is faster. Scalars are reals."},
 "C62": {"status": "proved", "note": "Wrapping is stated for angles within the range in which the multiple of 2 pi fits an int (Near); C62_far_undefined shows that farther angles reach undefined behaviour of the conversion."},
 "C63": {"status": "proved", "note": "For floating bases lossless in the representation stored; between representations up to the conversion of kindr, which is a parameter (C63_mixed)."},
 "C64": {"status": "partial", "note": "Proved for active end effectors relative to the force law of the documentation (springs never pull, dampers dissipate). C64_inactive_violated: inactive end effectors receive uninitialised forces; C64_offset_violated: the contact test ignores the height of the contact plane."},
 "C65": {"status": "proved", "note": "Series-elastic and second-order actuators; equilibrium characterised for every command."},
 "C66": {"status": "proved", "note": "Selection of the nearest solution; trials, validation, guesses and frames of the numerical solver, with the Ipopt solve as parameter. An empty list of solutions reported as success would be undefined behaviour (third part of C66_closest)."},
 "C67": {"status": "partial", "note": "Derivatives for every configuration; shape for value-constructed barriers; C67_violated: loading a file into a default-constructed barrier leaves it switched off."},
 "C68": {"status": "partial", "note": "Proved for file-configured activations; C68_violated: wrong sign in the value constructor."},
 "C69": {"status": "proved", "note": "Empty state trajectory is undefined (C69_extract_empty_undefined)."},
 "C70": {"status": "partial", "note": "Proved for controllers that ignore time; C70_violated: the controller is always evaluated at time 0."},
 "C71": {"status": "proved", "note": ""},
 "C72": {"status": "proved", "note": "Eigen's matrix exponential and QR inverse are taken to be exact."},
 "C73": {"status": "partial", "note": "Proved for histories in which changing the integration type is followed by setting the system; violations: setIntegrationType alone has no effect (or is undefined), clone dereferences a null pointer."},
 "C74": {"status": "proved", "note": "With exact rank in place of the numerical rank of FullPivLU."},
 "C75": {"status": "proved", "note": ""},
 "C76": {"status": "partial", "note": "Violated: leaves the last perturbed state as current point and re-applies the time shift. Proved: entries are central difference quotients when no shift is set."},
 "C77": {"status": "partial", "note": "Violated for the terminal cost of the simple quadratic cost and for activations of barrier terms. Proved: intermediate costs agree and clone and original agree after the next point is set."},
 "C78": {"status": "partial", "note": "Violated for asymmetric weights and for reference changes before the next point is set. Proved for symmetric weights."},
 "C79": {"status": "partial", "note": "Violated: a freshly constructed term reads an empty array. Proved for copies."},
 "C80": {"status": "partial", "note": "Holds for time-invariant measurements and times that are multiples of the step; proved false otherwise (measurement function always called with time 0; linearisation time truncated to a multiple of dt)."},
 "C81": {"status": "partial", "note": "Proved when constraints list lower-triangular positions only; proved to read beyond the stored values otherwise (pattern is taken without, values with the triangular view)."},
 "C82": {"status": "partial", "note": "Proved for every control parametrisation that can be evaluated at all grid points (hold). Refuted for piecewise-linear controls, whose evaluation at the last grid point reads outside the grid (C82_linear_violated)."},
 "C83": {"status": "proved", "note": "Both spline types (consistent_weighted); cost part for at least one step and full cost evaluation, as the code requires."},
 "C84": {"status": "partial", "note": "Violated: changeTimeHorizon returns early when the number of stages is unchanged and keeps the old stamps; configure alone keeps the old number of stages. Proved after setInitialGuess."},
 "C85": {"status": "partial", "note": "Samples, grid and start are proved; the last sample is the target when the step divides the horizon; C85_violated: otherwise the grid ends short of the target."},
 "C86": {"status": "partial", "note": "Proved for all constructors but the one from an Eigen quaternion; C86_violated: that one ignores the requested storage."},
 "C87": {"status": "partial", "note": "Proved in full for given linearisations; C87_violated: given a linear system, a control trajectory that is too short is read outside its bounds before the lengths are checked."},
 "C88": {"status": "partial", "note": "Proved with an explicit unit gain; C88_violated: without a gain the amplification is the squared frequency."},
 "C89": {"status": "partial", "note": "Characterised exactly; C89_violated: the tolerance is relative to the norms, so far-away poses that differ arbitrarily are near and poses close to the origin never are."},
 "C90": {"status": "proved", "note": "Rigid body dynamics are parameters. A system with actuator dimension > 0 without actuators is undefined behaviour (second part of C90_actuated)."},
 "C91": {"status": "partial", "note": "Proved for robots without actuators and series-elastic actuators, and for all stages but the last of the interpolation. C91_steady_violated: zero command with second-order actuators; C91_last_violated: the last stage's actuator state belongs to the previous stage's torque."},
 "C92": {"status": "partial", "note": "Proved for end effectors on distinct links; C92_violated: the last end effector on a link overwrites the others."},
 "C93": {"status": "proved", "note": "Packing inverse to unpacking, and equality of the derivatives."},
 "C94": {"status": "partial", "note": "Proved for histories in which delays are measured throughout. C94_late_violated: delays of solves made while measuring was off (zero start time) enter the statistics once it is switched on."},
 "C95": {"status": "proved", "note": "The sensitivity of the continuous-time model is a parameter (see C19). Not modelled: cloning an input-disturbed system copies from the uninitialised object itself (InputDisturbedSystem-impl.h:21)."},
 "C96": {"status": "partial", "note": "Exact form of the correction proved; it is the Kalman correction multiplied by the system matrix, with the noise regularised. C96_violated: measurements are ignored for a memoryless system. The class template cannot be instantiated as it stands (see DESIGN.md); only update is modelled."},
 "C97": {"status": "partial", "note": "Proved for the strategy installed at construction. C97_violated: a strategy set later never reaches the time keeper."},
 "C98": {"status": "partial", "note": "Number of steps and integration proved for the policy the code uses. C98_warm_violated / C98_cold_violated: that policy is the already truncated warm start or the initial guess instead of the executed policy."},
 "C99": {"status": "partial", "note": "Proved for the warm-starting handler. C99_cold_violated: with the base handler the truncated time is never written."},
 "C100": {"status": "proved", "note": "Names are a parameter of the lookup. Identifiers outside the list are undefined behaviour (unchecked access)."},
 "C101": {"status": "partial", "note": "Proved for one stage, all stages, the last state and whole containers of box terms, when at most as many constraints as components are given and every component is in range. Missing because the code lacks it: the check looks at the last component only and does not limit the number of constraints (C101_unchecked_violated), and replacing constraints by an empty container keeps the old ones (C101_replacement_violated)."},
 "C102": {"status": "partial", "note": "Proved for every intermediate stage, and for the terminal stage relative to the point the container was given last; C102_after_summary shows that this is the last state once the summary of the same trajectory has been computed. In the first iteration after setting the constraints it is not (C102_first_iteration_violated): initializeCostToGo passes the last state to the cost function only. Single-threaded sweep; the multi-threaded one is not modelled for constraints."},
 "C103": {"status": "proved", "note": "Exact identity of the objectives and equivalence of the dynamics, for all terms of degree two (quadratic_linear, quadratic_mixed, quadratic_quadratic, quadratic_quadTracking); constraint flag in C103_unconstrained. Real arithmetic."},
 "C104": {"status": "partial", "note": "C104_first proves the claim for the first problem given to an interface, C104_iterations_partial for any number of further calls with the same problem object refilled in place, with no fewer stages and, where a stage keeps its number of box constraints, the same bounds absent. Outside of that the code does not do what the claim says: C104_second_problem_violated (another problem object keeps the first one's bounds), C104_appearing_bound_violated (a bound that becomes finite stays masked), C104_twice_violated (setting the same problem twice turns an absent general bound into an equality with zero), C104_fewer_stages_violated (input bounds stay at the last stage) and C104_moved_violated (reallocated arrays are read through dangling pointers). What HPIPM does with the program is not modelled."},
 "C105": {"status": "proved", "note": "Exact formula, non-negativity and equivalence with feasibility, for lists of containers that may be null. Bounds are assumed consistent (lower at most upper) and real arithmetic is exact."},
 "C106": {"status": "partial", "note": "All parts are proved for real arithmetic, the single-threaded sweep and roll-outs in the sense of C54. Reported cost (C106_cost_partial) only for activations that are 0 or 1, because fractional ones are squared (C37_violated). Box and general constraints are not part of C106_one_iteration."},
 "C107": {"status": "partial", "note": "Value and gradient are proved for both evaluations (simple: zero-order hold; full: both splines), where the final cost is evaluated at time zero as the code does; so the full statement holds for final costs that do not depend on time and as long as the horizon is that of construction. C107_final_time_violated and C107_stale_weights_violated show that both restrictions are needed. The simple evaluation with linear splines reads outside the grid (C51_linear_violated). The correctness of the sensitivities of the shots is a hypothesis of the full gradient (C83 treats them)."},
 "C108": {"status": "partial", "note": "Proved for all multiple-shooting algorithms except iLQR, where it is false (C108_ms_ilqr_violated): without the roll-out after the update the feed-forward control still refers to the old states. A two-stage scalar problem with a non-zero difference is computed beside the theorem."},
 "C109": {"status": "proved", "note": "The factor of the control Hessian and the cost-to-go matrix of stage one are what HPIPM returns; that they are what their names say is a hypothesis. Arithmetic is exact (real numbers)."},
 "C110": {"status": "proved", "note": "Real arithmetic; Eigen's LDLT is what Ldlt states (a congruence with a diagonal matrix, zero pivots inverted to zero)."},
 "C111": {"status": "partial", "note": "The code violates the claim (C111_derivative_violated); C111_derivative_partial gives the exact difference: the derivative of P is dPdt() plus its transpose, that of the inverse is dJdagerdt() plus a null-space term. Default weight only."},
 "C112": {"status": "partial", "note": "Proved for all query sequences without JdagerSVD(). With it the claim is violated (C112_mixed_violated): the two inverses share one cache. C112_svd_partial: they agree for independent rows with the default weight."},
 "C113": {"status": "proved", "note": "OperationalModel and OperationalModelBase; OperationalModelRBD (fixed sizes 18 and 12) only fills in the coefficients and is not modelled."},
 "C114": {"status": "proved", "note": "Mass matrix, Jacobians and bias forces are those of the generated robot code (parameters); arithmetic is exact."},
 "C115": {"status": "proved", "note": "Under the stated condition on the singular values; the thin SVD is what Eigen returns. The result is relative to a feasible acceleration, as the English statement."},
 "C116": {"status": "proved", "note": "The base Jacobian of the frame is the one of the generated robot code (a parameter that is assumed to be the derivative of the reported position in the base)."},
 "C117": {"status": "proved", "note": "The robot is an arbitrary chain of revolute and prismatic joints per end effector, whose columns are what the generated code provides; the numeric variant of the derivative is not modelled. Arithmetic is exact."},
 "C118": {"status": "partial", "note": "Holds for all stages; the terminal state is not checked (C118_terminal_violated)."},
 "C119": {"status": "partial", "note": "Proved for both interfaces; missing: switching the sensitivity method or time-varying flag by configure, and in-place changes of continuous-time nonlinear systems, where the code violates the property."},
 "C120": {"status": "partial", "note": "Exact for Euler and RK4 with the sensitivity integrator on time-invariant systems or with one sub-step, and for the forward Euler approximation of one Euler step; violated for several sub-steps on time-varying systems and for constant sensitivities on nonlinear systems."},
 "C121": {"status": "partial", "note": "Exact and unique for every end effector on a moving link; violated for end effectors on the base link, whose transform is not the identity, and by setEndEffector, which does nothing."},
 "C122": {"status": "partial", "note": "All kernels are exact except the single-axis bias force, whose second component reads the wrong product of inertia. Missing: that component."},
 "C123": {"status": "proved", "note": "Arithmetic is over the reals."},
 "C124": {"status": "proved", "note": "Real arithmetic; DoubleTrait."},
 "C125": {"status": "proved", "note": "HyQ and QuadrotorWithLoad (the latter without a positive definite inertia matrix: its pivots and composite inertias are shown to be invertible). Real arithmetic; DoubleTrait."},
 "C126": {"status": "proved", "note": "All five robots. Real arithmetic."},
 "C127": {"status": "partial", "note": "Holds for InvertedPendulum, DoubleInvertedPendulum, HyA and HyQ; false for QuadrotorWithLoad, whose link inertias are given about the centres of mass; its matrix is symmetric and invertible at every position."},
 "C128": {"status": "proved", "note": "All five robots. Real arithmetic."},
 "C129": {"status": "partial", "note": "Proved for the three fixed-base robots at every position. False for QuadrotorWithLoad and HyQ (proved negations): the generated statements number the joints without the six base rows, so L is never a factor and rows of the inverse are never written; applied to the block of the joints alone they are right (HyQ: if the entries of the inverse between the legs, which are never written, were zero). Real arithmetic with exact square roots."},
 "C130": {"status": "partial", "note": "Proved for the four robots with a .kindsl description; for the HyQ the transforms are proved consistent, and compared with the URDF description: hip and knee joints as described, the joints HFE 2 mm and the feet 2 cm off. The rounding of the HyA is also shown as a negation of exact agreement. Real arithmetic; the constant PI of the URDF is taken as the number pi."},
 "C131": {"status": "proved", "note": "Velocities are those of the delivered homogeneous transforms. Real arithmetic."},
 "C132": {"status": "partial", "note": "Proved for InvertedPendulum, DoubleInvertedPendulum and HyA. False for all three links of QuadrotorWithLoad (proved negation): the code has the moments of inertia about other axes than the description. False for all 13 links of HyQ (proved negation): other masses, and the moments given about the centre of mass are used about the origin of the link."},
 "C133": {"status": "partial", "note": "Proved for links from 1 on and for end effectors. False for link 0 of every robot (matrix with the identity in the wrong corner) and for the link declared for the end effector of QuadrotorWithLoad, both proved; the look-up of links of QuadrotorWithLoad refers to names that do not exist and is not modelled."},
 "C134": {"status": "proved", "note": "Over the real numbers; the pose query with Euler angles or quaternions is not modelled."},
 "C135": {"status": "proved", "note": "Over the real numbers, for all five robots."},
 "C136": {"status": "proved", "note": "Over the real numbers. Inverse and forward dynamics of all five robots."},
 "C137": {"status": "proved", "note": "Over the real numbers, assuming of Eigen that its Cholesky solution inverts symmetric positive definite matrices . Generic theorems for any robot whose inertia matrix maps acceleration changes to force changes, and proofs of this for four robots from C124-C127 and C135."},
 "C138": {"status": "proved", "note": "Over the real numbers. kindr's rotation of Euler angles and its map from angular velocity to rates are assumed to be as `Kindr.Ok` says. The lower half of the Jacobian is by finite differences (C23)."},
 "C139": {"status": "proved", "note": "Over the real numbers; kindr as in `Kindr.Ok`. The forces of end effectors enter as the code assigns them to links (two end effectors on one link overwrite each other, as in C92)."},
 "C140": {"status": "partial", "note": "Proved for FloatingBaseForwardDynamics and FloatingBaseID, for HyQ and for the quadrotor with load. FloatingBaseFullyActuatedID ignores the base acceleration it is given and passes an uninitialised vector: it is right only if that vector happens to hold the acceleration."},
 "C141": {"status": "partial", "note": "Proved for systems with a contact model; without one - as constructed - the copy constructor dereferences a null pointer."},
 "C142": {"status": "partial", "note": "Proved for a matrix with the reciprocals of the half axes on its diagonal and constraint values below the largest number, which is the upper bound. The documentation calls this matrix the one of half axes and gives the threshold 1; both readings are wrong (`C142_half_axes_violated`, `C142_threshold_violated`)."},
 "C143": {"status": "partial", "note": "Over the real numbers, assuming of Eigen's QR solution that it is a least squares solution. Planes through the origin cannot be represented by the estimate (`C143_ground_violated`)."},
 "C144": {"status": "partial", "note": "Over the real numbers, with Eigen's conversions as in `EigenRot.Ok` (shown to exist). Proved for equal weights on the axes of the orientation error; with different weights the gradient is wrong (`C144_weights_violated`)."},
 "C145": {"status": "partial", "note": "Over the real numbers. The copy constructor of the position term does not copy the time activation (`C145_clone_violated`)."},
 "C146": {"status": "partial", "note": "Gradient as in C144, so for equal weights on the axes of the orientation error. Hessian values for symmetric Hessians."},
 "C147": {"status": "partial", "note": "Over the real numbers. The derivatives of the linear system and the Riccati solution are hypotheses, discharged for the inverted pendulum except for the Riccati solution. If the design fails, the gain is overwritten with a value computed from an uninitialised matrix (`C147_failed_violated`)."},
 "C148": {"status": "partial", "note": "Over the real numbers, with Eigen's singular value decomposition as a parameter with a contract, and assuming that it treats exactly the vanishing singular values as zero. With more rows than columns the singular values are written to a vector of the wrong size and the manipulability is always zero (`C148_skinny_violated`)."},
 "C149": {"status": "partial", "note": "Over the real numbers, with kindr's conversions as in `Kindr.Ok` and `EulerOk` (shown to exist). Missing: convergence, and the motion of the orientation. The desired twist is compared in the wrong frame (`C149_frames_violated`); desired joint positions are ignored."},
 "C150": {"status": "partial", "note": "Compiled code is a parameter `AD` whose Jacobians and Hessians are those of the recorded function (`AD.Faithful`, shown to exist); compilation succeeds. A copy of a compiled object has lost its sparsity pattern (`C150_clone_violated`); a function without outputs is ignored (`C150_empty_violated`)."},
 "C151": {"status": "partial", "note": "Analytical terms fully switched on or off for the values. Code violations: time activations and time shifts are ignored (`C151_activation_violated`, `C151_shift_violated`), changes after initialisation have no effect (`C151_stale_violated`), configurations read twice count twice (`C151_reload_violated`)."},
 "C152": {"status": "partial", "note": "Histories in which no copy is copied. Code violations: constraints are always evaluated at time zero (`C152_time_violated`), kinds without constraints raise an error (`C152_empty_violated`), containers made with a point cannot receive constraints (`C152_point_constructor_violated`)."},
 "C153": {"status": "partial", "note": "Histories in which no copy is copied: the copy keeps a function object bound to the first container (`C153_second_copy_violated`)."},
 "C154": {"status": "partial", "note": "Code violations: `setNonlinearSystem` keeps the linearisation of the old system (`C154_linearisation_violated`), constructors leave constraint containers uninitialised (`C154_uninitialised_violated`), the check reads an indeterminate horizon after the default constructor (`C154_default_violated`), null pointers are dereferenced (`C154_null_violated`)."},
 "C155": {"status": "partial", "note": "Constraints changed through the backend, whole problems without constraints. Code violations: the solver's own functions for constraints throw, so a problem with constraints can only be given to the constructor and is half set otherwise (`C155_constraints_violated`), constraints of the problem before stay in use (`C155_reset_violated`), the constructor does not check the problem (`C155_unverified_violated`)."},
 "C156": {"status": "partial", "note": "Construction, horizon and initial state. Code violation: no other change after the construction has any effect on what is solved (`C156_fixed_violated`), although the accessors show it (`C156_accessor_violated`)."},
 "C157": {"status": "partial", "note": "States of norm below 1e20. Code violation: the dynamics returns zero for larger ones (`C157_large_violated`)."},
 "C158": {"status": "partial", "note": "States of norm below 1e20, see C157."},
 "C159": {"status": "partial", "note": "Terminal values at times scheduled for the last mode. Code violations: at other times they are those at an old point (`C159_terminal_violated`); intermediate bounds are empty between initialisation and the first point (`C159_bounds_violated`)."},
 "C160": {"status": "partial", "note": "Independence is proved. Code violations: directly after copying the copy answers with the container of the first mode while its bounds are those of the active one (`C160_copy_violated`); a container used for two modes is split by the copy, and terminal answers differ (`C160_alias_violated`)."},
 "C161": {"status": "proved", "note": "All entries, for all joint positions; `C161_aligned` is the one-parameter family of configurations at 90\u00b0 of the second joint."},
 "C162": {"status": "partial", "note": "For poses for which the solver reports no free joint; the solver itself (25000 generated lines) is a parameter assumed to be right about what it reports. Code violation: for poses reachable with the axes of the first and third joint aligned, the value of a free joint is read through a null pointer (`C162_aligned_violated`)."},
 "C163": {"status": "partial", "note": "Numeric and integer options of IPOPT and all options of SNOPT follow the last call (C163_ipopt_numbers, C163_snopt). Code violations: string options of IPOPT keep the value of the constructor (C163_ipopt_strings_violated), so that a solver switched away from exact Hessians keeps asking for them without being told their size (C163_hessian_violated); ten settings are never passed on (C163_ignored_violated); settings given to the constructor of the SNOPT solver have no effect (C163_snopt_constructor_violated)."},
 "C164": {"status": "partial", "note": "Callbacks, description, results and return value proved for all sequences of callbacks. Code violations: a warm start combines the old guess with the new multipliers (C164_warm_start_violated); before the first solve multipliers have no size (C164_lambda_violated); without a guess the starting point is uninitialised (C164_guess_violated); data prepared from the variables may belong to another point than the solution (C164_prepared_violated)."},
 "C165": {"status": "partial", "note": "Layout, callbacks, storing of results and the pool of solvers proved. Code violations: solve returns true after failures and leaves the last trial point in the problem (C165_failure_violated); what prepareWarmStart writes into the state arrays is overwritten (C165_warm_start_violated); problems that do not size their constraint multipliers, as the inverse kinematics problem, are read outside (C165_unsized_violated)."},
 "C166": {"status": "partial", "note": "Independence of joints proved for all histories (C166_joints_independent), limits for histories without setAllPIDGains (C166_limits_partial). Code violations: setAllPIDGains discards time step, bound of the integral part and limits of every joint (C166_gains_violated); clone throws, so that a system with such a controller cannot be copied (C166_copy_violated)."},
 "C167": {"status": "partial", "note": "Proved for continuous-time systems and all histories. Code violations: the copy of a discrete-time system shares the controller (C167_discrete_violated); getLastControlAction of a system constructed without controller reads an uninitialised vector before the first evaluation (C167_last_action_violated)."},
 "C168": {"status": "proved", "note": ""},
 "C169": {"status": "partial", "note": "Proved for all histories (C169_autodiff, C169_compiled_partial, C169_uncompiled, C169_copy_autodiff, C169_copy_compiled_partial), relative to CppAD returning derivatives of the recorded function (Lib.Faithful), at time 0. Code violations: the time asked for is ignored (C169_time_violated); the cache starts with zero matrices for a random point and cannot be turned off (C169_initial_violated); changed parameters are not seen by the original but by its copies (C169_parameters_violated); a copy refers to the system of the original (C169_dangling_violated)."},
 "C170": {"status": "partial", "note": "Proved for all histories of calls for generated linear systems and for Jacobian classes with the default pattern, relative to Lib.Faithful. Code violations: with a pattern given, entries are stored in the wrong places (C170_pattern_violated); copies of the generator have no recorded function (C170_copy_violated)."},
 "C171": {"status": "partial", "note": "Existence and uniqueness of the steady state, convergence, minimality, stability, termination and accuracy proved. Code violation: when no steady state exists the solver may nevertheless return a result, since it only looks at the last change (C171_no_steady_state_violated)."},
 "C172": {"status": "partial", "note": "Equation of motion, input derivative and all entries of the state derivative but one proved exactly. Code violation: the effect of the motor position on the acceleration is a literal with 15 digits, off by less than 1e-11 (C172_rounded_violated)."},
 "C173": {"status": "proved", "note": "Hypotheses: Eigen's RealSchur and LAPACK's dtrsen deliver what they document (SchurOk with subdiagonal entries zero or at least 1e-12, ReorderOk). Detectability is of (A, Q). Exact arithmetic. Without the conditions success is still reported: neither the number of stable eigenvalues nor the inverted block is checked (C173_unstabilisable_violated)."},
 "C174": {"status": "partial", "note": "Proved: for every desired accuracy there is a tolerance below which the claim holds, and no iterate is singular (any dimension; Eigen's FullPivLU and isApprox as documented, exact arithmetic). The code violates the claim for its fixed tolerance 1e-6: for x' = 1.0000009 x + u with weights 1 and 1e13 it stops after one step, reports success and returns a gain under which motions diverge (C174_tolerance_violated). For systems that cannot be stabilised success is reported as well (C174_unstabilisable_violated)."},
 "C175": {"status": "partial", "note": "Proved for arbitrary linear-quadratic solvers and any number of iterations: returns normally, never reads outside arrays, feasible solution from the initial state with matching costs and errors, policy reproduces the trajectory, merit never above that of the roll-out of the guess (strictly below with the simple line search unless the guess is kept). The code violates the rest: the first line search takes the constraint errors of the guess to be zero, rejects a step that lowers the merit, stops and reports success with the infeasible guess (C175_stale_violated; a second call to solve finds the better solution). Serial backend; exact arithmetic."},
 "C176": {"status": "partial", "note": "Proved in full for the simple line search: the step is zero exactly at stationary trajectories, a descent direction elsewhere (whatever the cross terms and indefinite state weights, as long as the corrected control Hessian is positive definite), and the line search with enough back-off steps takes a step that lowers the cost. The code violates it for the Armijo rule: its expected decrease is not that of the quadratic model, and a non-stationary trajectory exists at which it rejects every step although each of them lowers the cost (C176_armijo_violated, default parameter). Exact arithmetic; defects zero (single shooting); no constraints."},
 "C177": {"status": "partial", "note": "Proved for the simple line search: zero step exactly at feasible stationary trajectories; descent of the merit for all large enough weights, with an explicit sufficient weight for convex models; nothing accepted at a solution. The code violates the last sentence: the default weight is zero, and an infeasible guess that costs less than every feasible trajectory is kept and reported as converged, with its recorded defects set to zero (C177_default_weight_violated). Exact arithmetic; serial backend; no constraints; Armijo rule see C176."},
 "C178": {"status": "partial", "note": "Proved for all names, namespaces, dimensions and generated code that contain no placeholder, for the three kinds of classes, with the shipped templates as generated literals. The code violates the rest: a class name that contains its own placeholder makes the replacement run for ever (C178_endless_violated), a class name that contains another placeholder is rewritten inside the files but not in the file names, so that the source includes a header that was not written (C178_clash_violated)."},
 "C179": {"status": "partial", "note": "Proved for files with quadratic, mixed, quadratic-multiplicative and smooth-abs terms, always active or in a single time window, without a bound on the number of terms. The code violates the rest: the constant of a loaded linear term is uninitialised (C179_linear_violated), an unknown kind of time activation dereferences a null pointer (C179_activation_kind_violated), an incomplete window is ignored (C179_activation_ignored_violated), a barrier as time activation makes the term zero (C179_barrier_violated), names of some kinds are dropped (C179_name_violated) while those of quadratic and mixed terms are kept (C179_names_partial). Parsing of the text by boost is a parameter; exact arithmetic."},
 "C180": {"status": "partial", "note": "Proved for every tree and section: independent values (C180_values), the line search if its section is complete (C180_line_search), the names if all are given (C180_choices), success if all written names are known (C180_succeeds), unknown type of line search or integrator ends the program (C180_unknown). The code violates the rest: the names are one block that ends silently at the first missing one (C180_choices_violated), a line search section without a type is dropped (C180_line_search_violated), one without debugPrint is read in part (C180_step_limit_violated), the check accepts a negative number of threads that leads to an access behind an empty array (C180_check_violated). Parsing and conversion of texts by boost are parameters; scalars are real numbers."},
 "C181": {"status": "partial", "note": "Proved for matrices at every path (C181_matrix) and for the state observer and the extended Kalman filter with a section name ending in a dot (C181_observer). The code violates the rest: a plain section name reads keys of another name, all matrices are zero (C181_section_violated); no section name serves the steady-state filter, whose two entries are combined differently (C181_steady_state_violated); the parameters of the unscented filter are read as Booleans (C181_unscented_violated). Conversion of texts is a parameter."},
 "C182": {"status": "partial", "note": "Proved for every problem and guess with shots up to the horizon and the Riccati solver: the split step equals the whole step (C182_step), it is optimal for affine-quadratic problems with three of the four algorithms with several shots (C182_optimal_partial; the fourth is C108_ms_ilqr_violated), also after any history of calls (C182_loop_partial). The code violates the rest: setting the state erases the gaps of the prepared shots from the reported norm (C182_defects_violated), closed-loop roll-out of the first shot changes controls after the limits were made (C182_limits_violated), a horizon shorter than a shot leads outside the arrays (C182_short_horizon_violated)."},
 "C183": {"status": "partial", "note": "Proved for every phase that starts while no worker is busy with an earlier task: in every interleaving of single assignments the arrays stay defined and at the end of the phase equal the serial result (C183_rollout_partial, C183_lq_partial), ranges of one index are done by the main thread as in the serial backend (C183_single), and every state of the protocol is reached together with the work (C183_reached). Missing: a worker still busy with an earlier phase, which the code does not exclude (C56_violated). The restriction is needed: C183_violated, for every problem with two stages and any number of workers, shows an execution in which the approximation is never stored."},
 "C184": {"status": "partial", "note": "Proved: the values after a successful load (C184_values, C184_solver, C184_ipopt, C184_snopt, C184_cppad), exactly when loading succeeds (C184_succeeds), the options the NLP solver runs with (C184_effect_partial, C184_effect_snopt), and that settings passing the check work unless they ask for RK5 or an optimized grid (C184_accepted_partial). Violated by the code: an unknown NLP solver is only reported and solving then dereferences a null pointer, 256 is read as IPOPT, settings that pass the check make the constructor throw, an unknown integration type ends the program with exit code 0, configure never reaches the NLP solver, an unknown compiler is ignored, print_frequency_iter is never read, limits from 2^31 become negative."},
 "C185": {"status": "partial", "note": "Proved: what IPOPT is told (C185_description, C185_pattern, C185_feasible), the answers to all callbacks unless the evaluator is given to a second problem (C185_answers_partial), trials and results (C185_retries, C185_random), targets (C185_target_quaternion, C185_target_euler), the evaluator of a robot (C185_evaluator_partial). Violated by the code: an evaluator given to a second problem looks at the variables of that problem (C185_shared_violated); the status of IPOPT is ignored, so a solution may violate the joint limits (C185_limits_violated; C185_limits_partial if the accepted run succeeded); a failed call with random retries replaces the guess of the user (C185_guess_violated)."},
 "C186": {"status": "partial", "note": "Over the real numbers; kindr as in `Kindr.Ok`. Proved: motion (C186_euler, C186_quaternion), energy (C186_energy), response through the inertia matrix (C186_response), hover (C186_hover). Violated by the code: with horizontal rod more thrust accelerates the body against the thrust, as the link inertias are given about the centres of mass (C186_response_violated, see C127)."},
 "C187": {"status": "partial", "note": "Over the real numbers; the generated code is a parameter that returns derivatives where they exist (`AD.Faithful`). Proved: values, references and activation after all histories (C187_value), derivatives (C187_derivatives), rejection of files that lack a scalar (C187_rejected), with smooth poses proved for all five robots. Violated by the code: files without an orientation are accepted as the identity (C187_orientation_violated), a failed load leaves a mixture (C187_failed_load_violated), a matrix given to a constructor is read as Euler angles from its first column (C187_matrix_violated), an override of setStateFromVector has no effect until setup is called again (C187_override_violated, C187_override_pendulum_violated), a default-constructed term dereferences a null pointer (C187_default_violated)."},
 "C188": {"status": "partial", "note": "Proved: guesses and results shown (C188_floating, C188_steady, C188_interpolation, C188_results), rejection of short guesses (C188_floating_short, C188_steady_short). Violated by the code: getTimeArray of both front ends returns a reference into a destroyed temporary (C188_time_violated); the default arguments of initialize always throw (C188_default_violated); a rejected guess leaves uninitialised entries (C188_rejected_violated); with more points than stages the interpolated guess stops short of the final state (C188_interpolation_violated)."},
 "C189": {"status": "partial", "note": "Proved for Euler and RK4, initial state and both nodes, linear and held controls, for arbitrary earlier calls. Violated: the duration sensitivities are always empty; the third integration type ends the process with exit(0) for two of the three computations; computing without logs dereferences a null pointer (outside assert builds)."},
 "C190": {"status": "partial", "note": "Proved for all 13 links of HyQ, five of the six links of HyA, the second link of the double inverted pendulum and the body of the quadrotor, with explicit masses. Violated: the link of the inverted pendulum, the last link of HyA and both links of the quadrotor's load cannot exist, whatever distribution is tried; the first link of the double inverted pendulum misses it by a rounding error."},
 "C191": {"status": "proved", "note": "Proved for all five robots. The frames are arranged as in C130 (for HyQ as the generated transforms have them). The fixed base of the arm and the pendulums has no mass in the generated code. Masses are allowed to be negative, so that the links that cannot exist (C190) are covered."},
 "C192": {"status": "proved", "note": "Generated mass matrix, Coriolis and gravity terms are parameters; positions and Jacobians of the end effectors are those of arbitrary kinematic chains (C130, C117). Contacts that lose rank are excluded. Cloning the system always throws, so it cannot be handed to solvers that copy their system; not part of the claim."},
 "C193": {"status": "proved", "note": "Every statement of both generated functions is translated, with real numbers for doubles. The positions and velocities are those of the modelled kinematics: generated transforms and Jacobians of HyQ, the state read from the vector, and the rotation of the base as kindr computes it through quaternions."},
 "C194": {"status": "partial", "note": "The code violates the property: the generator of names is given the number of outputs where it needs the number of inputs (CGHelpers.h:220), so inputs and weights are mixed up. C194_hessian_violated gives, for any two different numbers of inputs and outputs, a function whose class is wrong; C194_HyA_violated shows that every call of the shipped class (translated statement by statement) reads outside of the weights. Proved: the property for as many outputs as inputs. How CppADCodeGen chooses names is an assumption, confirmed by the shipped class; sparsity patterns other than the default are not modelled."},
 "C195": {"status": "partial", "note": "Over the real numbers; systems are functions without side effects. Proved for all discrete-time systems and all systems of which the type is right (C195_linearise_partial, C195_affine), which includes SecondOrderSystem (C195_secondOrder) and fixed-base robots without actuators (C195_fixBase). Violated by the code: FixBaseFDSystemSymplectic calls itself second-order also with actuators, whose positions need not change with their velocities, so the linearisation is wrong (C195_type_violated, C195_actuator_violated); a null pointer is dereferenced before it is checked (C195_null_violated)."},
 "C196": {"status": "proved", "note": "Over the real numbers. The statements of the generated function that compute the first eighteen elements of its result are translated one by one; those that compute the accelerations are a parameter, so nothing is claimed about the values of the accelerations. The functions of kindr are assumed to be right (Kindr.Ok), as in C141."},
 "C197": {"status": "partial", "note": "Proved: the method is that of the type chosen last (C197_method_partial), and with versions of Eigen before 3.3 a step is accepted exactly if its error is within the tolerances (C197_error_partial). Violated by the code: tolerances are copied when a stepper is made, so that setting them later has no effect (C197_tolerances_violated); the sum of a number and a vector provided for Eigen 3.3 and newer is their product, so that a step is measured by the product of both tolerances, and no step is accepted with a finite error measure while a component rests at zero (C197_error_violated, C197_error_both_violated); the own steppers, one of which is the default, throw (C197_own_violated); changing to an unsupported type does nothing (C197_unsupported_violated). How boost odeint computes the error from these operators and decides on steps is taken from its documented error checker, not from the repository; quotients with divisor zero are not finite numbers."},
 "C198": {"status": "partial", "note": "Proved for integrators made by a constructor (C198_made_partial). Violated by the code for copies: the implicit copy constructor copies functions that refer to the original, so that a copy returns the right final state but records nothing while the original lives (C198_copy_violated), and its use is undefined after the original was destroyed (C198_dangling_violated). Modelled with the own steppers and without event handlers and assignment."},
 "C199": {"status": "partial", "note": "Proved for a model that is made of its system after all other models and after all controllers were set (C199_given_control_partial). Violated by the code otherwise: each model hands its own constant controller to the shared system, so that a model made earlier ignores its control and advances with that last given to the later model, zero at first (C199_two_models_violated, C199_two_models_example_violated); likewise when the caller sets a controller later (C199_controller_violated). The integration scheme is a parameter; derivatives are the subject of C95."},
 "C200": {"status": "partial", "note": "Proved for feedforward, increments and gains (C200_gains_partial), and completely for laws on the same times (C200_same_times_partial). Violated by the code otherwise: swap leaves out the times, so that laws on different times are never exchanged (C200_times_violated) and the lengths of times and gains may differ afterwards (C200_lengths_violated). setZero of these classes is not modelled: it calls a function that does not exist."},
 "C201": {"status": "partial", "note": "Proved: the columns have one row per iteration completed in the whole life of the solver (C201_rows_partial), row by row with the right contents and the number within its solve (C201_contents_partial), and completely for the first solve (C201_first_solve_partial). Violated by the code after a restart: reset leaves the summary as it is, so that it also holds the rows of all earlier solves (C201_restart_violated); under MPC it grows with every call and all rows have the number 0 (C201_mpc_violated)."}
}
