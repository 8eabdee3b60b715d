{"id": "C01", "title": "Trajectory evaluation does not depend on earlier queries", "statement": "Evaluating a discrete trajectory (or asking for the index of a time) whose time stamps are sorted returns a value that is a function of the stored stamps, the stored samples, the interpolation type and the queried time only; it is the same whatever queries, appends, removals or assignments were made on the same object before. The index returned is the largest one whose stamp is not after the query, or 0 when all stamps are after it. Assigning one trajectory to another copies stamps, samples and interpolation type.", "quantifier": "every sorted non-empty time array, every cached search position, every query time, every finite history of trajectory operations and queries", "why_tests_cant": "The search starts from a cached index left by previous calls, so a test would have to enumerate all histories of queries and mutations.", "anchors": ["ct_core/include/ct/core/common/Interpolation.h: Interpolation::findIndex, Interpolation::interpolate", "ct_core/include/ct/core/types/trajectories/DiscreteTrajectoryBase.h: DiscreteTrajectoryBase::eval, getIndexFromTime"]}
{"id": "C02", "title": "Interpolation reproduces samples, stays between neighbours and holds at the ends", "statement": "Evaluating a sorted trajectory at one of its stamps returns the stored sample; before the first stamp it returns the first sample and at or after the last one the last sample. In between, zero-order hold returns the sample at the latest stamp not after the query, and linear interpolation returns the affine blend of the two neighbouring samples, which for scalar data lies between them. Empty or inconsistent data is reported by an exception and never answered.", "quantifier": "every time array and data array, every query time, both interpolation types", "why_tests_cant": "Continuum of query times and unbounded trajectory length; boundary cases occur at every stamp.", "anchors": ["ct_core/include/ct/core/common/Interpolation.h: Interpolation::interpolate", "ct_core/include/ct/core/types/trajectories/DiscreteTrajectoryBase.h: eval"]}
{"id": "C03", "title": "Trajectory stamps and samples stay paired through every mutation", "statement": "Starting from a consistent trajectory, any sequence of push_back, pop_back, eraseFront, clear, swapData and shiftTime leaves exactly as many stamps as samples, keeps every surviving sample attached to the stamp it was stored with (up to the applied shifts), and keeps the stamps sorted when each pushed sample is stamped no earlier than the last one. An operation that throws leaves the contents unchanged.", "quantifier": "every consistent initial trajectory and every finite sequence of mutations with arbitrary arguments", "why_tests_cant": "Quantifies over all operation histories.", "anchors": ["ct_core/include/ct/core/types/trajectories/DiscreteTrajectoryBase.h: push_back, pop_back, eraseFront, clear, swapData, shiftTime, size", "ct_core/include/ct/core/types/arrays/DiscreteArray.h: eraseFront"]}
{"id": "C04", "title": "Shifting a trajectory in time shifts its values and nothing else", "statement": "After shiftTime(dt), evaluating at t gives what evaluating at t+dt gave before, for both interpolation types and all t, including the clamped regions; getDuration and the samples are unchanged, and shifting by a then b equals shifting by a+b.", "quantifier": "every trajectory, every shift, every query time", "why_tests_cant": "An algebraic law over a continuum of shifts and query times.", "anchors": ["ct_core/include/ct/core/types/trajectories/DiscreteTrajectoryBase.h: shiftTime, eval, duration", "ct_core/include/ct/core/types/arrays/DiscreteArray.h: addOffset"]}
{"id": "C05", "title": "Element-wise array arithmetic obeys vector-space laws and rejects size mismatch", "statement": "Adding, subtracting and scaling discrete arrays acts element by element: the result has the size of its operands, (a+b)-b = a, a*s/s = a for non-zero s, += agrees with +; operands of different size raise an error and change neither array. Erasing the first N elements leaves the others in order; shifting a time array by an offset adds it to every stamp.", "quantifier": "all arrays of any length and all scalars", "why_tests_cant": "Universally quantified algebraic law over arrays of unbounded length.", "anchors": ["ct_core/include/ct/core/types/arrays/DiscreteArray.h: operator+, operator-, operator+=, operator-=, operator*, operator/"]}
{"id": "C06", "title": "Uniform time arrays have the requested length, start, spacing and end", "statement": "A TimeArray built from (dt, N, t0) has exactly N entries, entry k is t0 + k*dt, it is strictly increasing for dt > 0, and N = 0 is rejected.", "quantifier": "all dt, t0 and all N", "why_tests_cant": "All lengths N; the construction accumulates a step, so correctness is an induction.", "anchors": ["ct_core/include/ct/core/types/arrays/TimeArray.h: TimeArray(dt, n, t0)", "ct_core/include/ct/core/common/linspace.h: linspace"]}
{"id": "C07", "title": "Phase sequences tile their time interval and look-ups return the active phase", "statement": "After any sequence of addPhase calls with positive durations the phases tile [start, start + sum of durations] without gaps or overlaps, getTotalDuration is that sum, and getPhaseFromTime(t) is the phase whose half-open interval contains t, the first phase for earlier t and the last phase from the end on.", "quantifier": "all start times, all finite sequences of phases with positive durations, all query times", "why_tests_cant": "All histories of insertions and a continuum of query times, with equality at every switch.", "anchors": ["ct_core/include/ct/core/switching/Switching.h: PhaseSequence::addPhase, getIdxFromTime, getPhaseFromTime, getTotalDuration, getStartTimeFromIdx, getEndTimeFromIdx, getPhaseFromIdx"]}
{"id": "C08", "title": "A switched system uses at every time exactly the subsystem scheduled for that time", "statement": "The dynamics (continuous or discrete) of a switched system at time t equal those of the subsystem whose mode is the phase active at t, also when wrapped around a controller.", "quantifier": "all mode sequences, all lists of subsystems, all times, states and controls", "why_tests_cant": "Quantifies over all schedules and times.", "anchors": ["ct_core/include/ct/core/systems/continuous_time/SwitchedControlledSystem.h: computeControlledDynamics", "ct_core/include/ct/core/systems/discrete_time/SwitchedDiscreteControlledSystem.h: propagateControlledDynamics", "ct_core/include/ct/core/switching/Switching.h", "ct_core/include/ct/core/systems/discrete_time/linear/SwitchedDiscreteLinearSystem.h: SwitchedDiscreteLinearSystem"]}
{"id": "C09", "title": "Externally driven timer reports elapsed external time", "statement": "After any sequence of start(t), stop(t) and reset() calls, getElapsedTime returns the time between the last start and the stop that followed it; a timer that was never started since construction or the last reset reports 0.", "quantifier": "all finite call histories with arbitrary time stamps", "why_tests_cant": "Quantifies over call histories.", "anchors": ["ct_core/include/ct/core/common/ExternallyDrivenTimer.h: start, stop, reset, getElapsedTime"]}
{"id": "C10", "title": "Time activations are windows: inside active, outside inactive", "statement": "A single activation is active exactly for t in [t_on, t_off); a linear activation is active in such a window and has value startVal at t_on, growing by slope per second; a periodic activation is active exactly when t lies in the on-window of some period after the period offset and before the end time, hence is periodic. This holds however the activation was configured (constructor or file).", "quantifier": "all parameters accepted by the constructors or loaders, all times", "why_tests_cant": "Continuum of times and parameters; equality at window edges.", "anchors": ["ct_core/include/ct/core/common/activations/SingleActivation.hpp", "ct_core/include/ct/core/common/activations/PeriodicActivation.hpp", "ct_core/include/ct/core/common/activations/LinearActivation.hpp"]}
{"id": "C11", "title": "Quantisation loses nothing in the long run", "statement": "Every quantised output (minus the bias) is an integer multiple of the interval, and for every identifier the accumulated outputs (minus biases) never differ from the accumulated inputs by one interval or more (by more than half an interval when rounding), over any sequence of calls with any identifiers; reset starts the accounting anew; no call reads outside the table of remainders.", "quantifier": "all intervals > 0, biases, methods, and all finite histories of noisify(value, id), noisify(vector) and reset calls", "why_tests_cant": "The remainder carried from call to call makes this a property of all histories; rounding boundaries form a continuum.", "anchors": ["ct_core/include/ct/core/common/QuantizationNoise.h: QuantizationNoise, quantize, noisify"]}
{"id": "C12", "title": "PID commands never leave the saturation interval and the integrator never leaves its anti-windup bound", "statement": "Whatever the sequence of states, times, set-points and resets, every command returned lies in [u_min, u_max] (for u_min <= u_max), and the integral contribution never exceeds the configured bound in magnitude.", "quantifier": "all gains, limits, initial conditions and all finite histories of computeControl, changeDesiredState and reset calls", "why_tests_cant": "Stateful accumulation over all histories.", "anchors": ["ct_core/include/ct/core/control/continuous_time/siso/PIDController-impl.h: computeControl, saturateControl, computeI, reset"]}
{"id": "C13", "title": "Resetting a PID controller restores the behaviour of a fresh one", "statement": "After reset, the commands produced by any later call sequence equal those of a newly constructed controller with the same parameters and set-points, regardless of what happened before. After any call sequence the set-points in force are the last ones set.", "quantifier": "all histories before the reset and all call sequences after it", "why_tests_cant": "Observational equivalence over all histories.", "anchors": ["ct_core/include/ct/core/control/continuous_time/siso/PIDController-impl.h: reset, computeControl, changeDesiredState"]}
{"id": "C14", "title": "State-feedback policies apply feed-forward plus gain times deviation and reject inconsistent updates", "statement": "A state-feedback controller returns u_ff(t) + K(t) (x - x_ref(t)) with the interpolation rules of its trajectories; on the reference it returns u_ff(t). An update with inconsistent lengths throws and leaves the previous policy in force.", "quantifier": "all trajectories, states, times and update arguments", "why_tests_cant": "All policies, states and times; exception atomicity over all inconsistent sizes.", "anchors": ["ct_core/include/ct/core/control/StateFeedbackController-impl.h: computeControl, update, extractControlTrajectory"]}
{"id": "C15", "title": "Fixed-step integration performs exactly the requested steps on the requested grid", "statement": "integrate_n_steps(x, t0, n, dt) applies the one-step method n times at times t0 + k dt and reports n+1 states, the first the initial one and the last the returned one; integrating n then m further steps equals integrating n+m steps.", "quantifier": "all right-hand sides, initial states, step sizes and step counts", "why_tests_cant": "All n; composition law by induction.", "anchors": ["ct_core/include/ct/core/integration/internal/SteppersCT.h: integrate_n_steps", "ct_core/include/ct/core/integration/Integrator-impl.h: integrate_n_steps", "ct_core/include/ct/core/integration/Observer-impl.h"]}
{"id": "C16", "title": "Euler and RK4 steppers are the textbook methods with their order", "statement": "One Euler step is x + dt f(x,t). One RK4 step integrates every time-polynomial right-hand side of degree at most three exactly, and on a linear system x' = A x multiplies the state by the fourth-order Taylor polynomial of exp(dt A).", "quantifier": "all states, step sizes, polynomials of degree at most three and all square matrices", "why_tests_cant": "An order condition is an identity over all right-hand sides.", "anchors": ["ct_core/include/ct/core/integration/internal/SteppersCT.h: StepperEulerCT::do_step, StepperRK4CT::do_step"]}
{"id": "C17", "title": "Step limits and kill switches stop an integration at the promised step", "statement": "A maximum-steps handler with limit N lets every integration call of at most N steps complete and aborts any longer call with an exception after exactly N+1 steps; a kill switch triggered while an integration call is running aborts it after the first step that follows the trigger; a trigger given before the call is discarded by the reset at the start of the call.", "quantifier": "all limits, step counts, trigger times and dynamics", "why_tests_cant": "Off-by-one behaviour must hold for every limit and every step count, and for a trigger at any point of the integration.", "anchors": ["ct_core/include/ct/core/integration/EventHandlers/MaxStepsEventHandler.h: callOnSubstep, handleEvent, reset", "ct_core/include/ct/core/integration/EventHandlers/KillIntegrationEventHandler.h: setEvent, reset", "ct_core/include/ct/core/integration/Integrator-impl.h: integrate_n_steps, reset"]}
{"id": "C18", "title": "Symplectic stepping updates velocity with the new position and preserves phase-space volume", "statement": "One symplectic Euler step uses position updated first with the old velocity and then the velocity updated with the new position (the order fixed by the implementation), and for linear separable systems the step map has determinant one for every step size and number of steps.", "quantifier": "all separable systems, states, step sizes and step counts", "why_tests_cant": "Identity over all systems and all iteration counts.", "anchors": ["ct_core/include/ct/core/integration/IntegratorSymplectic-impl.h", "ct_core/include/ct/core/systems/continuous_time/SymplecticSystem.h"]}
{"id": "C19", "title": "Discretised sensitivities are the derivative of the step they approximate", "statement": "The (A,B) pair returned by the sensitivity approximation equals, for forward Euler, the exact Jacobian of the Euler step; for backward Euler, the Jacobian of the implicit Euler step; for Tustin, the Jacobian of the trapezoidal step; for symplectic Euler, the Jacobian of the symplectic step.", "quantifier": "all continuous-time linearisations, dimensions and step sizes for which the implicit step is solvable", "why_tests_cant": "Matrix identities over all dimensions and values.", "anchors": ["ct_core/include/ct/core/integration/sensitivity/SensitivityApproximation.h: getAandB, forwardEuler, backwardEuler, symplecticEuler"]}
{"id": "C20", "title": "Integrated sensitivities equal the derivative of the discretised flow", "statement": "For held controls the sensitivity integrator, given the sub-states recorded while the plant was integrated, returns the exact derivative of the discretised flow (any number of Euler, RK4 or symplectic Euler sub-steps) with respect to initial state and control, for nonlinear and time-varying dynamics, without reading beyond the recorded data.", "quantifier": "all differentiable dynamics, dimensions, step sizes, stage indices and numbers of sub-steps", "why_tests_cant": "Identity by induction over sub-steps and all matrices.", "anchors": ["ct_core/include/ct/core/integration/sensitivity/SensitivityIntegrator.h: integrateSensitivity", "ct_core/include/ct/core/integration/sensitivity/SensitivityIntegrator.h: setLinearSystem"]}
{"id": "C21", "title": "Control simulation advances the plant by exactly one control period per control update", "statement": "Between two control updates the simulated plant is integrated over one control period: the sub-steps taken sum to control_dt for every pair (control_dt, sim_dt). A simulator can be constructed exactly for 0 < sim_dt <= control_dt.", "quantifier": "all positive control_dt and sim_dt", "why_tests_cant": "Continuum of ratios control_dt / sim_dt, in particular non-integer ones.", "anchors": ["ct_core/include/ct/core/simulation/ControlSimulator.h: simulateSystem"]}
{"id": "C22", "title": "LU and LDLT solvers return the solution of the linear system", "statement": "Whenever no zero pivot is met, LUsolve returns x with A x = b for every square A and b, and LDLTsolve does so for every symmetric A; the factors multiply back to A.", "quantifier": "all dimensions, all matrices with non-zero pivots, all right-hand sides", "why_tests_cant": "Unbounded dimension; correctness is an induction over the elimination.", "anchors": ["ct_core/include/ct/core/math/Inverses.h: lu, solveLU, LUsolve, ldlt, solveLDLT, LDLTsolve"]}
{"id": "C23", "title": "Numerical differentiation is exact on the functions its scheme is exact for", "statement": "The forward-difference derivative is exact for every affine map and the double-sided one for every (componentwise) quadratic map, for all points and admissible step sizes; for any differentiable function both converge to the Jacobian as the step goes to zero; differentiating with respect to the state leaves the stored control derivative alone and vice versa.", "quantifier": "all dimensions, affine/quadratic maps, points, and non-zero step sizes", "why_tests_cant": "Identity over all functions of the class.", "anchors": ["ct_core/include/ct/core/math/DerivativesNumDiff.h", "ct_core/include/ct/core/systems/linearizer/DynamicsLinearizerNumDiff.h"]}
{"id": "C24", "title": "Second-order system equilibrium and parameters", "statement": "The second-order system has the documented dynamics: with constant input u the position g_dc*u with zero velocity is the unique equilibrium, and the mass-spring-damper constructor (k, m, d) yields the dynamics m p'' = k g_dc u - d p' - k p.", "quantifier": "all admissible parameters, states and inputs", "why_tests_cant": "Identity over all parameters.", "anchors": ["ct_core/include/ct/core/systems/continuous_time/SecondOrderSystem.h"]}
{"id": "C25", "title": "Controllability and observability matrices stack the Kalman blocks", "statement": "computeControllabilityMatrix places A^i B in block column i for all i < n, and computeObservabilityMatrix places C A^i in block row i for all i < n, without writing outside the matrix.", "quantifier": "all state dimensions and all A, B, C", "why_tests_cant": "Unbounded dimension; index arithmetic.", "anchors": ["ct_core/include/ct/core/systems/continuous_time/linear/LTISystem.h: computeControllabilityMatrix, computeObservabilityMatrix", "ct_core/include/ct/core/systems/discrete_time/linear/DiscreteLTISystem.h"]}
{"id": "C26", "title": "Threads registered for parallel automatic differentiation get distinct numbers", "statement": "Any two distinct threads that ask for their CppAD thread number receive different numbers, the same thread always receives the same number, and numbers stay below the configured maximum.", "quantifier": "all interleavings of requests by any number of threads", "why_tests_cant": "Quantifies over schedules and thread counts.", "anchors": ["ct_core/include/ct/core/internal/autodiff/CppadParallel.h"]}
{"id": "C27", "title": "MPC forward-integration window is ordered and inside the current horizon", "statement": "With external timing and non-negative delays, the forward-integration window computed for an MPC iteration satisfies 0 <= start <= stop <= current horizon whenever external time does not run backwards, for every sequence of iterations; the run-time check that stop >= start can therefore never fire.", "quantifier": "all settings with non-negative delays, all non-decreasing sequences of external time stamps, all horizons", "why_tests_cant": "Quantifies over all MPC histories and delays.", "anchors": ["ct_optcon/include/ct/optcon/mpc/MpcTimeKeeper.h: computeNewTimings, computeDelayToApply, startDelayMeasurement, stopDelayMeasurement", "ct_optcon/include/ct/optcon/mpc/MPC-impl.h: prepareIteration"]}
{"id": "C28", "title": "MPC horizon strategies keep their documented promises", "statement": "The new horizon is never negative; constant mode always returns the initial horizon and never reports the final point; fixed-final-time mode returns the remaining time until the fixed final time and reports the end exactly when it is zero; the minimum-horizon mode never goes below the minimum and the receding mode never above it; with time running forward the horizon never grows in the shrinking modes.", "quantifier": "all modes, horizons, elapsed times and prediction times", "why_tests_cant": "Continuum of inputs and exact equality tests on the boundary.", "anchors": ["ct_optcon/include/ct/optcon/mpc/timehorizon/MpcTimeHorizon-impl.h: computeNewTimeHorizon", "ct_optcon/include/ct/optcon/mpc/MpcTimeKeeper.h: computeNewTimings"]}
{"id": "C29", "title": "A warm-started MPC policy has the requested number of stages on a uniform increasing grid", "statement": "The warm-starting policy built for delay and new horizon has max(1, round(T/dt)) control stages, starts with the stage that was active at the delay, keeps later stages in order, repeats the last stage if the old policy is too short, and its time stamps are those of a uniform grid starting at 0.", "quantifier": "all policies on a uniform grid, all delays and all new horizons", "why_tests_cant": "All lengths, delays and horizons.", "anchors": ["ct_optcon/include/ct/optcon/mpc/policyhandler/default/StateFeedbackPolicyHandler-impl.h: designWarmStartingPolicy"]}
{"id": "C30", "title": "Truncating a policy front preserves the remaining behaviour", "statement": "truncateSolutionFront(delay) removes whole stages only, never the last one, reports exactly the time it removed, which is at most the delay, and the truncated policy evaluated at t equals the original evaluated at t plus the reported time.", "quantifier": "all policies on a uniform grid, all non-negative delays and query times", "why_tests_cant": "All lengths, delays and query times.", "anchors": ["ct_optcon/include/ct/optcon/mpc/policyhandler/default/StateFeedbackPolicyHandler-impl.h: truncateSolutionFront", "ct_core/include/ct/core/types/trajectories/DiscreteTrajectoryBase.h: eraseFront"]}
{"id": "C31", "title": "The time stamp of a returned MPC policy is the state time stamp plus the predicted delay", "statement": "finishIteration stamps the returned policy with the time stamp of the measured state advanced by the forward-prediction time and by whatever was truncated from its front; in the first iteration with external timing the stamp equals the state's stamp.", "quantifier": "all settings and all external time stamps", "why_tests_cant": "All histories and time stamps.", "anchors": ["ct_optcon/include/ct/optcon/mpc/MPC-impl.h: finishIteration", "ct_optcon/include/ct/optcon/mpc/MpcTimeKeeper.h: stopDelayMeasurement, getMeasuredDelay"]}
{"id": "C32", "title": "Reported constraint violation is zero exactly on the feasible set", "statement": "The total constraint violation reported by a constraint container is zero in every component if and only if every constraint value lies within its bounds, is otherwise the signed distance to the violated bound, and moving each value by its violation makes it feasible.", "quantifier": "all values and all bounds with lower <= upper", "why_tests_cant": "Continuum of values with equality at both bounds.", "anchors": ["ct_optcon/include/ct/optcon/constraint/ConstraintContainerBase-impl.h: getTotalIntermediateConstraintViolation, getUpper..., getLower..."]}
{"id": "C33", "title": "Constraint containers evaluate all added terms, in order, at the current point", "statement": "After adding any list of terms the stacked evaluation is the concatenation of the terms' evaluations in order of insertion, the count is the sum of the terms' dimensions, and bounds have matching length and order; adding a term invalidates the container until it is initialised again and using it before that is reported.", "quantifier": "all sequences of add/initialise/evaluate calls, all terms", "why_tests_cant": "All histories and any number of terms of any dimension.", "anchors": ["ct_optcon/include/ct/optcon/constraint/ConstraintContainerAnalytical-impl.h: addIntermediateConstraint, addTerminalConstraint, evaluateIntermediate, evaluateTerminal, initializeIntermediate, initializeTerminal, checkIntermediateConstraints"]}
{"id": "C34", "title": "Sparse and dense constraint Jacobians agree", "statement": "Scattering the sparse state (or input) Jacobian values at the row/column pairs of the reported sparsity pattern gives the dense Jacobian, for a single term and for the stacked container.", "quantifier": "all term lists, dimensions and Jacobian values", "why_tests_cant": "Unbounded dimensions; index bookkeeping over all stackings.", "anchors": ["ct_optcon/include/ct/optcon/constraint/term/ConstraintBase-impl.h: jacobianStateSparse, sparsityPatternState, genBlockIndices", "ct_optcon/include/ct/optcon/constraint/ConstraintContainerAnalytical-impl.h: jacobianStateSparseIntermediate, sparsityPatternStateIntermediate"]}
{"id": "C35", "title": "Box constraints select the requested components and reject inconsistent bounds", "statement": "A box constraint built from bounds and a 0/1 sparsity vector is accepted exactly when sizes match and lower <= upper; its evaluation is the selected components in order and its sparse Jacobian scattered at its pattern is the selection matrix.", "quantifier": "all bounds, sparsity vectors and points", "why_tests_cant": "All dimensions and selections.", "anchors": ["ct_optcon/include/ct/optcon/constraint/term/BoxConstraintBase-impl.h", "ct_optcon/include/ct/optcon/constraint/term/StateConstraint-impl.h", "ct_optcon/include/ct/optcon/constraint/term/ControlInputConstraint-impl.h"]}
{"id": "C36", "title": "Reported cost gradients and Hessians are the derivatives of the reported cost", "statement": "For every analytical cost term (quadratic, mixed, quadratic-times-quadratic, linear, tracking) the returned state/control gradients and Hessians are the exact first and second derivatives of the returned cost at every point.", "quantifier": "all weights, references, states and controls of all dimensions", "why_tests_cant": "Identity over all parameters and points.", "anchors": ["ct_optcon/include/ct/optcon/costfunction/term/TermQuadratic-impl.hpp", "ct_optcon/include/ct/optcon/costfunction/term/TermMixed-impl.hpp", "ct_optcon/include/ct/optcon/costfunction/term/TermLinear-impl.hpp", "ct_optcon/include/ct/optcon/costfunction/term/TermQuadMult-impl.hpp", "ct_optcon/include/ct/optcon/costfunction/term/TermSmoothAbs-impl.hpp"]}
{"id": "C37", "title": "Cost functions sum their active terms and their derivatives consistently", "statement": "The intermediate cost is the sum over all added terms of activation(t) times term value, and the intermediate gradient is the sum of activation(t) times term gradient, i.e. the gradient reported is the gradient of the cost reported also when time activations are used.", "quantifier": "all term lists, activations, times and points", "why_tests_cant": "All term lists and activation values, including fractional ones.", "anchors": ["ct_optcon/include/ct/optcon/costfunction/CostFunctionQuadratic-impl.hpp: evaluateIntermediateBase, stateDerivativeIntermediateBase", "ct_optcon/include/ct/optcon/costfunction/term/TermBase-impl.hpp: eval, computeActivation"]}
{"id": "C38", "title": "The Riccati solver returns the optimal feedback of the linear-quadratic problem", "statement": "For every unconstrained linear-quadratic problem whose stage Hessians are positive definite (no regularisation needed) the states and controls computed by the Riccati solver minimise the problem's cost over all control sequences, and the cost equals the reported cost-to-go. When regularisation is needed, the controls minimise the cost plus the added curvature as a penalty on the controls: epsilon/2 times their squared norm for the fixed correction, and for eigenvalue clamping the smallest lifting that makes every eigenvalue at least epsilon.", "quantifier": "all horizons, dimensions and problem data with positive definite H at each stage, all competing control sequences", "why_tests_cant": "Optimality quantifies over all competitors and all horizons.", "anchors": ["ct_optcon/include/ct/optcon/solver/lqp/GNRiccatiSolver-impl.hpp: solve, designController, computeCostToGo, computeStatesAndControls"]}
{"id": "C39", "title": "Splitting the Riccati sweep for real-time iterations does not change the solution", "statement": "Solving the stages N-1..k first and k-1..0 later (the preparation/feedback split used in MPC) gives the same gains, feed-forward terms and value function as one full sweep.", "quantifier": "all problems, horizons and split points", "why_tests_cant": "All split points and horizons.", "anchors": ["ct_optcon/include/ct/optcon/solver/lqp/GNRiccatiSolver-impl.hpp: solve, solveSingleStage, initializeAndAllocate", "ct_optcon/include/ct/optcon/nloc/NLOCBackendBase-impl.hpp: prepareSolveLQProblem, finishSolveLQProblem, solveFullLQProblem"]}
{"id": "C40", "title": "Solutions returned by the continuous-time Riccati solvers satisfy the Riccati equation", "statement": "Whenever the sign-function iteration has converged to a matrix that commutes with the Hamiltonian and the final linear solve is exact, the returned P satisfies A'P + PA - P B R^-1 B' P + Q = 0; the same holds for the Schur-based solver when the reordered Schur vectors span an invariant subspace.", "quantifier": "all dimensions and system/weight matrices", "why_tests_cant": "Matrix identity over all dimensions.", "anchors": ["ct_optcon/include/ct/optcon/lqr/riccati/CARE-impl.hpp: solve, solveSchurIterative, solveSchurDirect", "ct_optcon/include/ct/optcon/lqr/LQR-impl.hpp"]}
{"id": "C41", "title": "Discrete Riccati iteration preserves symmetry and positive semi-definiteness and its fixed points give the optimal gain", "statement": "Every iterate of the discrete Riccati recursion started from a symmetric PSD terminal weight is symmetric PSD; a fixed point satisfies the DARE and the returned gain is the minimiser of the one-step Bellman objective; the N-step FHDTLQR cost-to-go equals the minimal N-step cost.", "quantifier": "all dimensions, horizons and matrices with Q >= 0, R > 0", "why_tests_cant": "Induction over all horizons and all matrices.", "anchors": ["ct_optcon/include/ct/optcon/lqr/riccati/DynamicRiccatiEquation.hpp: iterateNaive, iterateRobust", "ct_optcon/include/ct/optcon/lqr/riccati/DARE-impl.hpp", "ct_optcon/include/ct/optcon/lqr/FHDTLQR-impl.hpp"]}
{"id": "C42", "title": "The extended Kalman filter keeps its covariance symmetric positive semi-definite", "statement": "Starting from a symmetric PSD covariance, any sequence of predict and update calls leaves the covariance symmetric PSD, updates never increase it, and the gain is the minimum-variance gain.", "quantifier": "all sequences of predict/update with any models, noise covariances (Q >= 0, R > 0) and dimensions", "why_tests_cant": "All histories and all matrices.", "anchors": ["ct_optcon/include/ct/optcon/filter/ExtendedKalmanFilter-impl.h: predict, update"]}
{"id": "C43", "title": "Unscented transform is exact for affine maps", "statement": "The sigma-point mean weights sum to one, the weighted sigma points reproduce mean and covariance exactly, and for affine dynamics/measurement the predicted mean and covariance equal the Kalman formulas.", "quantifier": "all dimensions, parameters with alpha^2 (L + kappa) > 0, means and covariance square roots", "why_tests_cant": "Identity over all dimensions and parameters.", "anchors": ["ct_optcon/include/ct/optcon/filter/UnscentedKalmanFilter-impl.h: computeWeights, computeSigmaPoints, predict, update"]}
{"id": "C44", "title": "NLP constraint stacking keeps values, bounds, Jacobian and sparsity aligned", "statement": "For any list of discrete constraints the stacked values, bounds, sparse Jacobian values and pattern are aligned: scattering the stacked values at the stacked pattern equals vertically stacking each constraint's own dense Jacobian.", "quantifier": "all lists of constraints with any sizes", "why_tests_cant": "Any number of constraints of any size.", "anchors": ["ct_optcon/include/ct/optcon/nlp/DiscreteConstraintContainerBase.h: evalConstraints, evalSparseJacobian, getSparsityPattern, getConstraintsCount, getBounds"]}
{"id": "C45", "title": "Decision-vector layout of multiple shooting is a bijection", "statement": "States and controls of all shots occupy disjoint consecutive blocks that exactly cover the optimisation vector; writing a state or control and reading it back returns it and changes no other block; initial guesses given as arrays are reproduced exactly.", "quantifier": "all state/control dimensions, all numbers of shots, all indices", "why_tests_cant": "All dimensions and shot counts; index arithmetic.", "anchors": ["ct_optcon/include/ct/optcon/dms/dms_core/implementation/OptVectorDms-impl.h: OptVectorDms, getOptimizedState, getOptimizedControl, setInitGuess, getStateIndex, getControlIndex"]}
{"id": "C46", "title": "Linear initial guesses interpolate between the end points", "statement": "setInitGuess(x0, xf, u0) sets the guess of shot i to x0 + i/N (xf - x0), so that it starts at x0, ends at xf and is affine in between.", "quantifier": "all x0, xf, u0 and all shot counts", "why_tests_cant": "All shot counts.", "anchors": ["ct_optcon/include/ct/optcon/dms/dms_core/implementation/OptVectorDms-impl.h: setInitGuess"]}
{"id": "C47", "title": "Shooting time grids tile the horizon", "statement": "The uniform grid has N+1 stamps from 0 to T, every shot ends where the next one starts, and shot durations are positive and sum to T, also after changing the horizon or the shot count.", "quantifier": "all N >= 1, T > 0 and histories of changeTimeHorizon/changeShotCount", "why_tests_cant": "All histories and sizes.", "anchors": ["ct_optcon/include/ct/optcon/dms/dms_core/TimeGrid.h: TimeGrid, changeTimeHorizon, changeShotCount, getShotStartTime, getShotEndTime, getShotDuration"]}
{"id": "C48", "title": "Control splines hit their nodes, are continuous, and report their exact derivatives", "statement": "The piecewise-linear spline equals node i at the start of shot i and node i+1 at its end, stays between them, and its reported derivatives with respect to time and to both nodes are the true ones; the zero-order-hold spline equals node i on shot i.", "quantifier": "all node sequences, grids, shots and times in the shot", "why_tests_cant": "Continuum of times; any number of shots.", "anchors": ["ct_optcon/include/ct/optcon/dms/dms_core/spline/Linear/LinearSpliner.h: evalSpline, splineDerivative_t, splineDerivative_q_i, splineDerivative_q_iplus1", "ct_optcon/include/ct/optcon/dms/dms_core/spline/ZeroOrderHold/ZeroOrderHoldSpliner.h"]}
{"id": "C49", "title": "Continuity-constraint Jacobian triplets encode the shooting-gap derivative", "statement": "Scattering the sparse Jacobian of a continuity constraint at its pattern gives the row block [-dX/ds_i, -dX/dq_i, I (, -dX/dq_{i+1})] in the columns of the respective variables and zero elsewhere, with the reported number of non-zeros, for both control parametrisations.", "quantifier": "all dimensions, shot indices and sensitivities", "why_tests_cant": "All dimensions; index arithmetic.", "anchors": ["ct_optcon/include/ct/optcon/dms/constraints/ContinuityConstraint.h: evalSparseJacobian, genSparsityPattern, getNumNonZerosJacobian"]}
{"id": "C50", "title": "Discretised path constraints report as many Jacobian entries as they write", "statement": "For every combination of box and general constraints, depending on state, input or both, the number of Jacobian non-zeros reported by the discretised constraint equals the number of values written and the number of pattern entries generated.", "quantifier": "all constraint containers and numbers of grid points", "why_tests_cant": "All configurations and grid sizes.", "anchors": ["ct_optcon/include/ct/optcon/dms/constraints/ConstraintDiscretizer.h: setBoxConstraints, setGeneralConstraints, evalSparseJacobian, genSparsityPattern, getNumNonZerosJacobian"]}
{"id": "C51", "title": "Cost quadrature weights integrate the constant function exactly", "statement": "The weights of the simple multiple-shooting cost evaluation are non-negative and sum to the time horizon for both control parametrisations, without reading beyond the time grid.", "quantifier": "all grids and shot counts", "why_tests_cant": "All shot counts and horizons.", "anchors": ["ct_optcon/include/ct/optcon/dms/dms_core/cost_evaluator/CostEvaluatorSimple.h: updatePhi, eval"]}
{"id": "C52", "title": "Changing the initial state or horizon of a multiple-shooting problem takes effect", "statement": "After changeInitialState(x0) the NLP's initial-state constraint is s_0 = x0, and after changeTimeHorizon(T) the shots cover exactly [0, T].", "quantifier": "all histories of configuration calls followed by a solve", "why_tests_cant": "All call histories.", "anchors": ["ct_optcon/include/ct/optcon/dms/dms_core/DmsProblem.h: changeInitialState, changeTimeHorizon", "ct_optcon/include/ct/optcon/dms/constraints/implementation/ConstraintsContainerDms-impl.h: changeInitialConstraint", "ct_optcon/include/ct/optcon/dms/dms_core/ShotContainer.h"]}
{"id": "C53", "title": "Cached shot integrations are never stale", "statement": "Every value obtained from a shot (end state, cost, sensitivities) equals what a fresh integration from the current optimisation variables would give, for every interleaving of variable updates and queries.", "quantifier": "all interleavings of updates and queries", "why_tests_cant": "All histories of updates and queries.", "anchors": ["ct_optcon/include/ct/optcon/dms/dms_core/ShotContainer.h: integrateShot, integrateCost, integrateSensitivities, integrateCostSensitivities", "ct_optcon/include/ct/optcon/nlp/OptVector.h: updateCount"]}
{"id": "C54", "title": "Multiple-shooting roll-outs satisfy the dynamics up to the reported defects", "statement": "After a roll-out in Gauss-Newton multiple shooting, for every stage i the next trajectory state plus the recorded defect equals the propagated state f(x_i, u_i), for every shot length including non-divisors of the horizon and single shooting; the defect is zero inside shots.", "quantifier": "all horizons K, shot lengths, dynamics, feedback gains and initial guesses", "why_tests_cant": "All K and shot lengths with a remainder shot.", "anchors": ["ct_optcon/include/ct/optcon/nloc/NLOCBackendBase-impl.hpp: rolloutSingleShot, rolloutShotsSingleThreaded, computeSingleDefect, getNumStepsPerShot"]}
{"id": "C55", "title": "Accepted line-search steps decrease the merit and rejected searches change nothing", "statement": "With line search enabled the merit value after an accepted step is strictly smaller than before; if no step size is accepted, state, control, cost and defects are exactly as before the search; candidate step sizes are alpha_0 * n^i for i < maxIterations and the first acceptable one is taken.", "quantifier": "all merit functions, settings, and iterates", "why_tests_cant": "All settings and all merit landscapes, including NaN/aborted roll-outs.", "anchors": ["ct_optcon/include/ct/optcon/nloc/NLOCBackendBase-impl.hpp: lineSearch, executeLineSearch, acceptStep", "ct_optcon/include/ct/optcon/nloc/NLOCBackendST-impl.hpp: performLineSearch"]}
{"id": "C56", "title": "The parallel backend processes every stage exactly once per phase", "statement": "In a parallel phase (linear-quadratic approximation or shot roll-out) over an index range, for every interleaving of any number of workers each index is processed exactly once, no index outside the range is processed, and the phase ends only after all of them are complete.", "quantifier": "all index ranges, numbers of workers and interleavings", "why_tests_cant": "Quantifies over all schedules.", "anchors": ["ct_optcon/include/ct/optcon/nloc/NLOCBackendMP-impl.hpp: threadWork, computeLQApproximation, computeLQProblemWorker, rolloutShots, rolloutShotWorker"]}
{"id": "C57", "title": "Serial and parallel line searches choose the same step", "statement": "For the same iterate, the parallel line search returns the step size the serial one returns, for every interleaving of the workers.", "quantifier": "all numbers of workers, interleavings, merit landscapes and settings", "why_tests_cant": "Quantifies over all schedules.", "anchors": ["ct_optcon/include/ct/optcon/nloc/NLOCBackendMP-impl.hpp: performLineSearch, lineSearchWorker", "ct_optcon/include/ct/optcon/nloc/NLOCBackendST-impl.hpp: performLineSearch"]}
{"id": "C58", "title": "The main thread of the parallel backend always terminates its waits", "statement": "Once all work of a phase is complete the waiting main thread is eventually released, in every interleaving of notifications and waits.", "quantifier": "all interleavings of main and worker threads", "why_tests_cant": "Liveness over all schedules.", "anchors": ["ct_optcon/include/ct/optcon/nloc/NLOCBackendMP-impl.hpp: computeLQApproximation, computeLQProblemWorker, performLineSearch, lineSearchWorker"]}
{"id": "C59", "title": "The solver's return value tells whether an improving solution was found", "statement": "NLOptConSolver::solve returns true if and only if at least one iteration found a better solution.", "quantifier": "all sequences of iteration outcomes and iteration limits", "why_tests_cant": "All sequences of outcomes.", "anchors": ["ct_optcon/include/ct/optcon/solver/NLOptConSolver-impl.hpp: solve"]}
{"id": "C60", "title": "Horizon changes keep all solver buffers consistent", "statement": "After any sequence of changeTimeHorizon and setInitialGuess calls with accepted arguments, the number of stages is max(1, round(T/dt)), controls and gains have one entry per stage, states one more, and the guess is truncated to the horizon; guesses that are too short are rejected.", "quantifier": "all histories of horizon changes and guesses", "why_tests_cant": "All histories and sizes.", "anchors": ["ct_optcon/include/ct/optcon/nloc/NLOCBackendBase-impl.hpp: changeTimeHorizon, setInitialGuess", "ct_optcon/include/ct/optcon/solver/NLOptConSettings.hpp: computeK"]}
{"id": "C61", "title": "Point-to-point joint trajectories respect limits and reach their targets at rest", "statement": "A generated single-joint trajectory starts at x0 and ends at xT with zero velocity, is continuous in position and velocity, its velocity is the derivative of its position, its speed and acceleration never exceed the limits, and it never leaves the segment between x0 and xT.", "quantifier": "all start/target positions, positive limits and all times", "why_tests_cant": "Continuum of times and parameters; piecewise boundaries.", "anchors": ["ct_rbd/include/ct/rbd/common/SingleDOFTrajectoryGenerator.h: setup, queryTrajectory"]}
{"id": "C62", "title": "Joint angles are wrapped into their interval without changing the configuration", "statement": "toUniquePosition changes every joint angle by an integer multiple of 2 pi and puts it into the 2-pi interval starting at the lower limit (up to the tolerance); checkPositionLimits/checkVelocityLimits answer true exactly when all joints are within limits (up to the tolerance).", "quantifier": "all joint counts, angles, limits and tolerances", "why_tests_cant": "Continuum of angles with boundary equalities, any joint count.", "anchors": ["ct_rbd/include/ct/rbd/state/JointState.h: toUniquePosition, checkPositionLimits, checkVelocityLimits"]}
{"id": "C63", "title": "Robot state vector conversions are lossless", "statement": "Packing a joint/robot state into a state vector and unpacking it returns the same state, and vice versa, with positions, velocities and actuator states in disjoint blocks covering the vector.", "quantifier": "all joint and actuator dimensions and all vectors", "why_tests_cant": "All dimensions and values.", "anchors": ["ct_rbd/include/ct/rbd/state/FixBaseRobotState.h: toStateVector, fromStateVector", "ct_rbd/include/ct/rbd/state/RBDState.h: toStateVectorEulerXyz, fromStateVectorEulerXyz", "ct_rbd/include/ct/rbd/state/JointState.h"]}
{"id": "C64", "title": "Contact forces vanish without contact and never pull when only springs act", "statement": "An end effector that is inactive or not in contact receives zero force; without damping a penetrating end effector receives a force pushing it out of the surface along the normal; the force is a deterministic function of the state.", "quantifier": "all states, parameters, activation patterns", "why_tests_cant": "All configurations and activation histories.", "anchors": ["ct_rbd/include/ct/rbd/physics/EEContactModel.h: computeContactForces, eeInContact, computePenetration, computeNormalSpring, computeEEForce"]}
{"id": "C65", "title": "Series-elastic actuator state and output are inverse to each other", "statement": "computeStateFromOutput followed by computeControlOutput returns the requested output for every non-zero stiffness, and the returned actuator state is an equilibrium of the actuator under the matching command.", "quantifier": "all stiffnesses, joint positions and outputs", "why_tests_cant": "Identity over all parameters.", "anchors": ["ct_rbd/include/ct/rbd/robot/actuator/SEADynamicsFirstOrder-impl.h", "ct_rbd/include/ct/rbd/robot/actuator/SecondOrderActuatorDynamics-impl.h"]}
{"id": "C66", "title": "Nearest inverse-kinematics solution is returned", "statement": "computeInverseKinematicsCloseTo returns one of the solutions found whose distance to the query is minimal among them, the earliest such, and reports failure only if none was found. The numerical solver returns the first of its trials whose result is validated against the target, starts the first trial from the given guess and later ones from within the joint limits, returns nothing if no trial succeeds, and treats a target given in the world frame like the same target given in the base frame.", "quantifier": "all finite solution lists, queries, numbers of trials and random draws", "why_tests_cant": "Any number of solutions.", "anchors": ["ct_rbd/include/ct/rbd/robot/kinematics/InverseKinematicsBase.h: computeInverseKinematicsCloseTo"]}
{"id": "C67", "title": "Barrier activations are barriers with exact derivatives", "statement": "The first and second derivative reported by a barrier activation are the derivatives of its value; with both bounds configured (by constructor or by file) the value exceeds 1 outside the bounds and stays at most 2 inside, and the function is convex. With only one bound set, the barrier acts on that side only; a bound missing in a file is inactive.", "quantifier": "all bounds, sharpness parameters, ways of configuring and points", "why_tests_cant": "A statement about derivatives and a continuum of points; the configuration-order dependence only shows for particular call sequences.", "anchors": ["ct_core/include/ct/core/common/activations/BarrierActivation.hpp: computeActivation, firstOrderDerivative, secondOrderDerivative, loadConfigFile"]}
{"id": "C68", "title": "Gaussian activations are bumps", "statement": "A Gaussian activation is the normal density: positive, largest at mu, strictly decreasing with the distance from mu, however it was configured.", "quantifier": "all mu, sigma > 0, all pairs of points, both ways of configuring", "why_tests_cant": "Monotonicity and boundedness over all real points cannot be sampled.", "anchors": ["ct_core/include/ct/core/common/activations/RBFGaussActivation.h: RBFGaussActivation, computeActivation, loadConfigFile"]}
{"id": "C69", "title": "Extracting a control trajectory replays the policy along the states", "statement": "extractControlTrajectory along a state trajectory with N transitions returns exactly N samples; sample i is the command the discrete-time policy gives at stage i for the i-th state, stamped with the i-th state's stamp.", "quantifier": "all policies and state trajectories with at most as many transitions as the policy has stages", "why_tests_cant": "Lengths and contents are unbounded.", "anchors": ["ct_core/include/ct/core/control/StateFeedbackController-impl.h: extractControlTrajectory"]}
{"id": "C70", "title": "Symplectic integration evaluates the controller at the current time", "statement": "When a symplectic integrator steps a controlled symplectic system from t0, the velocity and position updates of step k use the control that the system's controller returns for the state and the time t0 + k dt of that step.", "quantifier": "all controllers (time-varying ones included), systems, start times, step sizes and step counts", "why_tests_cant": "The integrator tests use uncontrolled or constantly controlled systems; a wrong time argument only shows for time-varying controllers.", "anchors": ["ct_core/include/ct/core/systems/continuous_time/SymplecticSystem.h: computePdot, computeVdot", "ct_core/include/ct/core/integration/IntegratorSymplectic-impl.h: integrate_n_steps"]}
{"id": "C71", "title": "Recording symplectic integration reports the whole grid", "statement": "The recording form of integrate_n_steps of the symplectic integrators appends n+1 states to the trajectory it is given, the first being the initial state, stamped t0 + k dt, and the final state equals the one the non-recording form returns; integrating n and then m steps equals integrating n+m steps.", "quantifier": "all systems, states, start times, step sizes, step counts and previous contents of the containers", "why_tests_cant": "Must hold for every step count and every previous content.", "anchors": ["ct_core/include/ct/core/integration/IntegratorSymplectic-impl.h: integrate_n_steps"]}
{"id": "C72", "title": "Matrix-exponential discretisation is exact for linear time-invariant systems", "statement": "The (A,B) pair returned by the matrix-exponential approximation maps state and held control to the value, one step later, of the solution of the linear differential equation.", "quantifier": "all linear time-invariant systems with invertible state matrix, all dimensions, states, controls and step sizes", "why_tests_cant": "An identity between a transcendental matrix function and the solutions of all linear differential equations.", "anchors": ["ct_core/include/ct/core/integration/sensitivity/SensitivityApproximation.h: matrixExponential"]}
{"id": "C73", "title": "A discretised system propagates with its configured integrator", "statement": "After any sequence of calls on a system discretiser, propagating a state at stage n performs the configured number of sub-steps of the configured type on the configured system, from time n dt, over exactly one control step, and the reported sub-states are those of this propagation; a clone behaves like the original.", "quantifier": "all histories of setParameters, setIntegrationType, changeContinuousTimeSystem and propagateControlledDynamics, all systems, states, controls and stages", "why_tests_cant": "A statement over all call histories; tests construct once and propagate.", "anchors": ["ct_core/include/ct/core/systems/discrete_time/SystemDiscretizer-impl.h: propagateControlledDynamics, initialize, setIntegrationType, changeContinuousTimeSystem, clone"]}
{"id": "C74", "title": "The controllability test decides reachability", "statement": "For a discrete linear system with n states, isControllable returns true exactly when every state can be reached from the origin in n steps by some input sequence.", "quantifier": "all state and control dimensions, all A and B, all target states", "why_tests_cant": "Quantifies over all targets and input sequences.", "anchors": ["ct_core/include/ct/core/systems/discrete_time/linear/DiscreteLTISystem.h: isControllable, computeControllabilityMatrix, propagateControlledDynamics", "ct_core/include/ct/core/systems/continuous_time/linear/LTISystem.h: isControllable"]}
{"id": "C75", "title": "Gramians are partial sums of the Gramian series", "statement": "The controllability (observability) Gramian returned is the sum of A^k B B' A'^k (A'^k C' C A^k) up to and including the first term below the tolerance, or up to the iteration limit; it is symmetric positive semidefinite, and on convergence solves the discrete Lyapunov equation up to the tolerance.", "quantifier": "all dimensions, system matrices, tolerances and iteration limits", "why_tests_cant": "Unbounded iteration count and dimension.", "anchors": ["ct_core/include/ct/core/systems/discrete_time/linear/DiscreteLTISystem.h: computeControllabilityGramian, computeObservabilityGramian"]}
{"id": "C76", "title": "Differentiating a cost function numerically does not change it", "statement": "Calling the numerical state gradient of a cost function returns the central difference quotients of the reported intermediate cost at the current point and time, and leaves the current state, control and time as they were.", "quantifier": "all cost functions, points, time shifts and step sizes", "why_tests_cant": "All points and shifts; tests look only at the returned gradient at shift zero.", "anchors": ["ct_optcon/include/ct/optcon/costfunction/CostFunctionQuadratic-impl.hpp: stateDerivativeIntermediateNumDiff"]}
{"id": "C77", "title": "A clone of a cost function or term behaves like the original", "statement": "After cloning, the clone reports the same intermediate and terminal costs and derivatives as the original at the current point, and a cloned term keeps its time activation.", "quantifier": "all cost functions, points and activations", "why_tests_cant": "All states of the original at the time of cloning.", "anchors": ["ct_optcon/include/ct/optcon/costfunction/CostFunctionQuadraticSimple-impl.hpp: copy constructor", "ct_optcon/include/ct/optcon/costfunction/term/TermStateBarrier-impl.hpp: copy constructor"]}
{"id": "C78", "title": "The simple quadratic cost reports exact gradients and follows its reference", "statement": "At every point the gradients and Hessians of the simple quadratic cost function are the derivatives of its costs, and after a new reference state is given the costs refer to it.", "quantifier": "all weights, references, points", "why_tests_cant": "Identity over all weights and points; order of calls.", "anchors": ["ct_optcon/include/ct/optcon/costfunction/CostFunctionQuadraticSimple-impl.hpp"]}
{"id": "C79", "title": "State barrier terms can be evaluated once constructed", "statement": "A state barrier term built from its bounds and weights evaluates at every state to the sum of the per-component barrier values.", "quantifier": "all bounds, weights and states of all dimensions", "why_tests_cant": "Memory safety on all states and construction paths.", "anchors": ["ct_optcon/include/ct/optcon/costfunction/term/TermStateBarrier-impl.hpp: constructors, initialize, evaluate"]}
{"id": "C80", "title": "Filters evaluate time-varying models at the time they are given", "statement": "The correction of the extended Kalman filter for a measurement taken at time t uses the measurement predicted for time t, and a prediction over [t, t+dt] uses the dynamics and their linearisation at time t.", "quantifier": "all filter states, measurements, times, steps and (time-varying) models", "why_tests_cant": "The repository's filter tests use time-invariant models and times that are multiples of the step; the claim is about every time and every model.", "anchors": ["ct_optcon/include/ct/optcon/filter/ExtendedKalmanFilter-impl.h: update", "ct_optcon/include/ct/optcon/filter/CTSystemModel-impl.h: computeDerivativeState", "ct_optcon/include/ct/optcon/filter/MeasurementModelBase.h"]}
{"id": "C81", "title": "Exact Hessian values match the Hessian pattern given to the solver", "statement": "For any cost pattern and any list of constraints with their own Hessian patterns, the values returned by the Hessian evaluation are as many as the pattern has entries, and the lower triangle they stand for is the objective's contribution plus the sum of the constraints' contributions, each computed with its own share of the multipliers.", "quantifier": "all cost patterns, constraint lists, patterns, values and multipliers", "why_tests_cant": "All sparsity patterns and all numbers of constraints.", "anchors": ["ct_optcon/include/ct/optcon/nlp/Nlp.h: getNonZeroHessianCount, evaluateHessian", "ct_optcon/include/ct/optcon/nlp/DiscreteConstraintContainerBase.h: getSparsityPatternHessian, sparseHessianValues"]}
{"id": "C82", "title": "Discretised path constraints stand at the rows and columns of their grid point", "statement": "In the multiple-shooting problem, the values and bounds of path constraint k at grid point n stand at the rows following those of all earlier grid points and constraints, are the constraint's values at the state and control of grid point n and its time, and its Jacobian stands in those rows and in the columns of that grid point's state and control, with zeros elsewhere; terminal constraints follow, evaluated at the last grid point.", "quantifier": "all numbers of shots, all sequences of configured box and general constraints, all decision vectors, both control parametrisations", "why_tests_cant": "Index arithmetic over all combinations of container sizes, grid sizes and dimensions; tests see one problem.", "anchors": ["ct_optcon/include/ct/optcon/dms/constraints/ConstraintDiscretizer.h: eval, evalSparseJacobian, genSparsityPattern, getLowerBound, getUpperBound", "ct_optcon/include/ct/optcon/dms/dms_core/spline/Linear/LinearSpliner.h: evalSpline"]}
{"id": "C83", "title": "Shot sensitivities and cost gradients are exact derivatives", "statement": "For a multiple-shooting shot integrated with Euler or RK4 over any number of steps, the reported sensitivities are the exact derivatives of the reported end state by the shot's state and control nodes, and with full cost evaluation the reported cost gradients are the exact derivatives of the reported cost, also for nonlinear time-varying dynamics.", "quantifier": "all dynamics with correct Jacobians, all states, nodes, step counts and step sizes", "why_tests_cant": "Finite differences only compare up to tolerance on samples.", "anchors": ["ct_optcon/include/ct/optcon/dms/dms_core/SensitivityIntegratorCT.h: integrateSensitivityDX0, integrateSensitivityDU0, integrateSensitivityDUf, integrateCostSensitivityDX0, integrateCostSensitivityDU0, integrateCostSensitivityDUf", "ct_optcon/include/ct/optcon/dms/dms_core/ShotContainer.h"]}
{"id": "C84", "title": "Stage times follow the configured step", "statement": "After any sequence of configure, changeTimeHorizon and setInitialGuess calls, the time stamps of the solution are the multiples 0, dt, ..., K dt of the configured step, and K is the number of steps of that size in the horizon that was set.", "quantifier": "all histories of reconfigurations, horizon changes and guesses", "why_tests_cant": "All histories and all pairs of step and horizon, including pairs that leave the number of stages unchanged.", "anchors": ["ct_optcon/include/ct/optcon/nloc/NLOCBackendBase-impl.hpp: configure, changeTimeHorizon, changeNumberOfStages, setInitialGuess", "ct_optcon/include/ct/optcon/solver/NLOptConSettings.hpp: computeK"]}
{"id": "C85", "title": "Arm trajectories run from the start to the target posture at rest", "statement": "A trajectory generated for several joints is the sequence of samples, on the grid of multiples of the step up to the longest joint horizon, of the joints' individual point-to-point motions; it starts in the given posture at rest and its last sample is the target posture at rest.", "quantifier": "all numbers of joints, start and target postures, positive limits and sampling steps", "why_tests_cant": "Continuum of horizons; the last sample depends on how the horizon divides by the step.", "anchors": ["ct_rbd/include/ct/rbd/common/SimpleArmTrajectoryGenerator.h: generateTrajectory", "ct_rbd/include/ct/rbd/common/SingleDOFTrajectoryGenerator.h"]}
{"id": "C86", "title": "A rigid-body pose stores orientations as requested and returns what was set", "statement": "A pose constructed for Euler-angle or quaternion storage stores its orientation in that representation; orientations set and read in the representation stored are returned unchanged, setting an orientation does not touch the position, and no setter changes the storage.", "quantifier": "all poses, orientations, constructors and storage types", "why_tests_cant": "All representations and values; conversions hide the difference for most samples.", "anchors": ["ct_rbd/include/ct/rbd/state/RigidBodyPose.h: constructors, setFromEulerAnglesXyz, setFromRotationQuaternion, getEulerAnglesXyz, getRotationQuaternion"]}
{"id": "C87", "title": "Finite-horizon LQR design returns one gain per stage and rejects arrays that do not match", "statement": "Given a state trajectory with one entry more than the control trajectory and one linearisation per control, the design returns one gain per control, computed from the weights of the cost function at the states, controls and times of the trajectory; it throws for weights that fail the requested checks. Arrays of other lengths are rejected with an exception and never read outside their bounds. With a linear system in place of linearisations, it uses the forward Euler step.", "quantifier": "all horizons, dimensions, arrays, weights and settings", "why_tests_cant": "All combinations of array lengths; reads outside an array can go unnoticed in tests.", "anchors": ["ct_optcon/include/ct/optcon/lqr/FHDTLQR-impl.hpp: designController, linearizeModel, solve"]}
{"id": "C88", "title": "A second-order actuator built without a gain has unit amplification", "statement": "For an actuator constructed from natural frequency and damping only, a constant command that holds the actuator in equilibrium is reproduced unchanged at its output.", "quantifier": "all natural frequencies, dampings, commands and numbers of joints", "why_tests_cant": "Depends on the value of a real parameter; a test with frequency one passes.", "anchors": ["ct_rbd/include/ct/rbd/robot/actuator/SecondOrderActuatorDynamics.h", "ct_rbd/include/ct/rbd/robot/actuator/SecondOrderActuatorDynamics-impl.h"]}
{"id": "C89", "title": "Closeness of poses is an absolute tolerance", "statement": "Two poses are near each other exactly when their positions and orientations differ by no more than the given tolerances, wherever they are in space; a solution accepted by the inverse kinematics solver reaches its target within that tolerance.", "quantifier": "all poses and tolerances", "why_tests_cant": "Relative and absolute tolerances agree for poses at unit distance from the origin.", "anchors": ["ct_rbd/include/ct/rbd/state/RigidBodyPose.h: isNear", "ct_rbd/include/ct/rbd/robot/kinematics/ik_nlp/IKNLPSolverIpopt.h"]}
{"id": "C90", "title": "A fixed-base robot system moves as its rigid body dynamics prescribe", "statement": "The state derivative of the torque-controlled system consists of the joint velocities, the forward dynamics under the commanded torques (or, with actuators, under the actuators' output) and the actuator dynamics; the acceleration- and velocity-controlled systems integrate their commands. At rest with the inverse-dynamics torques, and a consistent actuator state where actuators are present, the derivative is zero.", "quantifier": "all numbers of joints, actuator dimensions, rigid body models, states and controls", "why_tests_cant": "All dimensions and robots; index arithmetic of the packing.", "anchors": ["ct_rbd/include/ct/rbd/systems/FixBaseFDSystem.h: computeControlledDynamics", "ct_rbd/include/ct/rbd/systems/FixBaseAccSystem.h", "ct_rbd/include/ct/rbd/systems/FixBaseVelSystem.h", "ct_rbd/include/ct/rbd/systems/FixBaseSystemBase.h: computeIDTorques"]}
{"id": "C91", "title": "Initial guesses for fixed-base problems are consistent", "statement": "The steady-pose guess holds the initial state in equilibrium at every stage; the interpolated guess runs along the straight line from the initial to the final joint state, with inverse-dynamics torques as controls and, with actuators, actuator states whose output is the inverse-dynamics torque of the same stage.", "quantifier": "all horizons, robots, actuators and end states", "why_tests_cant": "All horizons and actuators; errors at the last stage do not show in solver results.", "anchors": ["ct_rbd/include/ct/rbd/nloc/FixBaseNLOC-impl.h: initializeSteadyPose, initializeDirectInterpolation", "ct_rbd/include/ct/rbd/systems/FixBaseFDSystem.h: computeConsistentActuatorState"]}
{"id": "C92", "title": "End-effector forces given as controls act on the links", "statement": "When end-effector forces are part of the control input, the force on each link is the sum of the forces of the end effectors attached to it, mapped to the link frame; links without end effector receive none.", "quantifier": "all numbers of end effectors, attachments and forces", "why_tests_cant": "All attachments; robots with two end effectors on a link are rare in tests.", "anchors": ["ct_rbd/include/ct/rbd/systems/FixBaseFDSystem.h: computeControlledDynamics"]}
{"id": "C93", "title": "The symplectic form of a robot system describes the same motion", "statement": "Packing a robot state for the symplectic system and unpacking it returns the state, and the symplectic system's derivative is the plain system's derivative in the other packing.", "quantifier": "all numbers of joints, actuator dimensions, states and controls", "why_tests_cant": "Index arithmetic over all dimensions.", "anchors": ["ct_rbd/include/ct/rbd/systems/FixBaseFDSystemSymplectic.h", "ct_core/include/ct/core/systems/continuous_time/SymplecticSystem.h"]}
{"id": "C94", "title": "Delay statistics and settings of the MPC time keeper", "statement": "The minimum, maximum and sum of the measured delays are those of the solves since the last initialisation, the average is their sum over the number of calls, the delay charged to the next solve is the measured plus the additional one if delays are measured and the fixed one otherwise, and settings that both measure and fix the delay are rejected.", "quantifier": "all sequences of solves, clock readings and settings", "why_tests_cant": "Depends on clock readings and on settings changed between solves.", "anchors": ["ct_optcon/include/ct/optcon/mpc/MpcTimeKeeper.h: initialize, startDelayMeasurement, stopDelayMeasurement", "ct_optcon/include/ct/optcon/mpc/MPC-impl.h: checkSettings, updateSettings, printMpcSummary"]}
{"id": "C95", "title": "System and measurement models used by the filters are faithful", "statement": "A linear time-invariant measurement model measures C x with exact derivatives; a continuous-time system model advances the state by one integrator step from the given time; a system with disturbed inputs moves like the plant under control plus disturbance while the disturbance stays constant, both exactly and under any number of explicit integrator steps; its controller sees the plant state only.", "quantifier": "all dimensions, matrices, systems, control laws, disturbances, numbers of steps and step lengths", "why_tests_cant": "All systems and horizons.", "anchors": ["ct_optcon/include/ct/optcon/filter/LTIMeasurementModel.h", "ct_optcon/include/ct/optcon/filter/CTSystemModel-impl.h", "ct_optcon/include/ct/optcon/filter/InputDisturbedSystem-impl.h", "ct_optcon/include/ct/optcon/filter/DisturbedSystemController-impl.h"]}
{"id": "C96", "title": "The steady-state Kalman filter applies the steady-state Kalman correction", "statement": "After the Riccati solver has converged, an update corrects the estimate by the Kalman gain of the converged covariance times the measurement residual.", "quantifier": "all systems, noise covariances, estimates and measurements", "why_tests_cant": "All systems; for system matrices near the identity the difference is small.", "anchors": ["ct_optcon/include/ct/optcon/filter/SteadyStateKalmanFilter-impl.h: update", "ct_optcon/include/ct/optcon/lqr/riccati/DARE-impl.hpp"]}
{"id": "C97", "title": "A time horizon strategy set after construction takes effect", "statement": "After a time horizon strategy has been set, the horizons of later solves are those of that strategy, and resets and settings changes of the controller reach it.", "quantifier": "all strategies, settings and sequences of calls", "why_tests_cant": "Aliasing of shared objects over call histories.", "anchors": ["ct_optcon/include/ct/optcon/mpc/MPC-impl.h: setTimeHorizonStrategy", "ct_optcon/include/ct/optcon/mpc/MpcTimeKeeper.h: computeNewTimings, updateSettings, initialize"]}
{"id": "C98", "title": "State prediction over the delay follows the executed policy", "statement": "With state prediction enabled, the state from which the next solve starts is obtained by integrating the plant under the policy executed during the delay, for the whole number of steps nearest to the delay.", "quantifier": "all systems, policies, delays and step lengths", "why_tests_cant": "All systems and delays; differences show only when policies change between solves.", "anchors": ["ct_optcon/include/ct/optcon/mpc/MPC-impl.h: doForwardIntegration, integrateForward, prepareIteration"]}
{"id": "C99", "title": "Post-truncation keeps policy and time stamp in step", "statement": "With post-truncation, the reported time stamp is advanced by exactly the time cut from the front of the policy.", "quantifier": "all policies, delays and step lengths", "why_tests_cant": "Depends on delays that are not multiples of the step length.", "anchors": ["ct_optcon/include/ct/optcon/mpc/MPC-impl.h: finishIteration", "ct_optcon/include/ct/optcon/mpc/policyhandler/PolicyHandler-impl.h: truncateSolutionFront"]}
{"id": "C100", "title": "Cost terms are found again by identifier and name", "statement": "The identifier returned when a cost term is added yields that term after any further calls and differs from those of earlier terms; lookup by name yields the first term of that name and reports an error exactly if there is none.", "quantifier": "all sequences of calls, terms and names", "why_tests_cant": "All call histories.", "anchors": ["ct_optcon/include/ct/optcon/costfunction/CostFunctionQuadratic-impl.hpp: addIntermediateTerm, addFinalTerm, getIntermediateTermById, getFinalTermById, getIntermediateTermByName, getFinalTermByName"]}
{"id": "C101", "title": "Box constraints of the LQ subproblem are the user's box constraints in relative coordinates", "statement": "After box constraints on inputs or states have been passed to the linear-quadratic subproblem around a nominal trajectory, a deviation from the nominal value is admitted at a stage exactly if the displaced value satisfies the user's bounds on the selected components; configurations that do not fit the problem are rejected and other stages are not affected.", "quantifier": "all dimensions, horizons, nominal trajectories, bounds, selections of components and histories of the constraint container", "why_tests_cant": "Tests use one system with one or two bounds; the claim is an equivalence of feasible sets for every selection, bound and nominal value at every stage.", "anchors": ["ct_optcon/include/ct/optcon/problem/LQOCProblem-impl.hpp: setInputBoxConstraint, setInputBoxConstraints, setIntermediateStateBoxConstraint, setIntermediateStateBoxConstraints, setTerminalBoxConstraints", "ct_optcon/include/ct/optcon/nloc/NLOCBackendBase-impl.hpp: setInputBoxConstraintsForLQOCProblem, setStateBoxConstraintsForLQOCProblem"]}
{"id": "C102", "title": "Linearised general constraints agree with the nonlinear ones around the current trajectory", "statement": "In every LQ approximation the general constraints of a stage admit the zero deviation exactly if the current state and control of that stage satisfy the user's constraints; for constraints that are affine, a deviation is admitted exactly if the displaced state and control satisfy them. The same holds for terminal constraints at the last state.", "quantifier": "all dimensions, horizons, trajectories, constraint terms with consistent sizes and container histories", "why_tests_cant": "Which point a container was given last depends on the whole sequence of calls; a test looks at converged solutions of single problems, where a wrong first linearisation is masked by later iterations.", "anchors": ["ct_optcon/include/ct/optcon/nloc/NLOCBackendBase-impl.hpp: computeLinearizedConstraints, initializeCostToGo, changeGeneralConstraints, printSummary", "ct_optcon/include/ct/optcon/nloc/NLOCBackendST-impl.hpp: computeLQApproximation"]}
{"id": "C103", "title": "A linear-quadratic problem set up from a linear system and a cost function has that system and that cost", "statement": "After a time-invariant linear-quadratic problem has been set up from a discrete linear system, an offset and a cost function with quadratic terms, its objective is, up to a constant, the time step times the sum of the running costs plus the final cost of the cost function at time zero; its dynamics are those of the system with the offset; and a problem that was reset, or that reports to be unconstrained, admits every deviation at every stage.", "quantifier": "all dimensions, numbers of stages, matrices, offsets, time steps, lists of quadratic terms, state and control sequences and previous contents of the problem", "why_tests_cant": "An identity between two functions of whole trajectories for all weights and references; a test compares single entries for one system.", "anchors": ["ct_optcon/include/ct/optcon/problem/LQOCProblem-impl.hpp: setFromTimeInvariantLinearQuadraticProblem, setZero, isConstrained"]}
{"id": "C104", "title": "The quadratic program handed to HPIPM is the problem that was set", "statement": "After setProblem, the quadratic program inside the HPIPM interface has the stages, dynamics, cost and constraints of the linear-quadratic problem that was passed: a state and control sequence satisfies its (unmasked) constraints exactly when it satisfies the box and general constraints of the problem, a bound of absolute value above 1e9 counting as absent; this holds on every call, whatever was set before.", "quantifier": "all state and control dimensions, numbers of stages, constraint counts per stage, bounds present or absent, and all sequences of setProblem calls with refilled, resized, moved or exchanged problems", "why_tests_cant": "The interface keeps pointers into the problem, caches counts and masks and only refreshes them when a count changes; which sequences of problems are safe is a statement about all sequences, and a single-problem test never reaches the second call.", "anchors": ["ct_optcon/include/ct/optcon/solver/lqp/HPIPMInterface-impl.hpp: setProblemImpl, changeProblemSize, setupCostAndDynamics, configureInputBoxConstraints, configureStateBoxConstraints, configureGeneralConstraints, initializeAndAllocate"]}
{"id": "C105", "title": "The reported constraint error of a trajectory is zero exactly if all constraints hold", "statement": "The box (general) constraint error of a trajectory is the time step times the sum of the distances of all intermediate constraint values from their intervals plus the same sum for the terminal constraints; it is never negative and is zero exactly if every constraint holds at every stage and at the end. Absent constraints contribute nothing.", "quantifier": "all dimensions, horizons, positive time steps, trajectories, sets of terms with consistent bounds, present or absent containers", "why_tests_cant": "An equivalence over all trajectories and constraint sets; a test sees only particular violated or satisfied cases.", "anchors": ["ct_optcon/include/ct/optcon/nloc/NLOCBackendBase-impl.hpp: computeBoxConstraintErrorOfTrajectory, computeGeneralConstraintErrorOfTrajectory", "ct_optcon/include/ct/optcon/constraint/ConstraintContainerBase-impl.h: getTotalBoundsViolationIntermediate, getTotalBoundsViolationTerminal"]}
{"id": "C106", "title": "One full step of every algorithm solves affine-quadratic problems, and the approximation has the exact derivatives", "statement": "For an affine discrete-time system with quadratic costs that are convex, one iteration of each of the seven algorithms (GNMS, iLQR, multiple-shooting iLQR, open- and closed-loop single shooting and GNMS(M)) with a full step leads from any trajectory, with any defects, to the globally optimal trajectory without defects. In general the weights of the linear-quadratic approximation are the first and second derivatives of time step times running cost at each stage and of the final cost, the offsets are the defects, and the cost reported for a trajectory is time step times the sum of running costs plus final cost. An approximation computed in two phases equals one computed at once.", "quantifier": "all dimensions, horizons, shot lengths, time steps, affine systems, cost terms, current trajectories and previous contents of problem and cost function objects", "why_tests_cant": "Global optimality compares with all trajectories; tests compare algorithms with each other on one system.", "anchors": ["ct_optcon/include/ct/optcon/nloc/NLOCBackendBase-impl.hpp: executeLQApproximation, initializeCostToGo, computeCostsOfTrajectory, extractSolution, doFullStepUpdate", "ct_optcon/include/ct/optcon/nloc/NLOCBackendST-impl.hpp: computeLQApproximation", "ct_optcon/include/ct/optcon/nloc/algorithms/MultipleShooting-impl.hpp: prepareMPCIteration, finishMPCIteration", "ct_optcon/include/ct/optcon/solver/NLOptConSettings.hpp: closedLoopShooting, isSingleShooting"]}
{"id": "C107", "title": "Direct multiple shooting minimises the cost of the trajectory it represents, with the right gradient", "statement": "The cost a multiple-shooting problem reports for a decision vector is the sum over the shots of the running cost (with the simple evaluation: of each interval's length times the running cost at its start; with the full evaluation: of the integrated cost of the shot) plus the final cost at the end of the horizon, for the current time grid; and the gradient it hands to the solver has one entry per decision variable and is the gradient of that cost.", "quantifier": "all state and control dimensions, numbers of shots, time grids, decision vectors, differentiable cost functions, both spline types and every direction of the decision vector", "why_tests_cant": "The gradient claim quantifies over every direction of a vector of arbitrary length and over every cost; a finite-difference test checks one vector of one problem, and never one after the horizon was changed.", "anchors": ["ct_optcon/include/ct/optcon/dms/dms_core/cost_evaluator/CostEvaluatorSimple.h: eval, evalGradient, updatePhi", "ct_optcon/include/ct/optcon/dms/dms_core/cost_evaluator/CostEvaluatorFull.h: eval, evalGradient"]}
{"id": "C108", "title": "The policy after an MPC iteration applies the computed controls at the predicted states", "statement": "After an MPC iteration of a multiple-shooting algorithm the returned policy applies, at the predicted state of every stage, the control of the linear-quadratic solution; with closed-loop algorithms it is the linear-quadratic feedback law at every state.", "quantifier": "all dimensions, stages, solutions of the subproblem, current trajectories and states", "why_tests_cant": "The policy is evaluated away from the nominal trajectory only when the plant deviates; MPC tests run a converged loop in which the updates vanish.", "anchors": ["ct_optcon/include/ct/optcon/nloc/algorithms/MultipleShooting-impl.hpp: finishMPCIteration", "ct_optcon/include/ct/optcon/nloc/NLOCBackendBase-impl.hpp: extractSolution, doFullStepUpdate, getSolution"]}
{"id": "C109", "title": "The first-stage feedback of the HPIPM interface is the optimal one", "statement": "The gain the HPIPM interface computes itself for stage zero is optimal: together with the optimal control of the unperturbed first state it gives, for every perturbation of the first state, the one control that minimises the cost of the first stage plus the quadratic cost-to-go from stage one.", "quantifier": "all dimensions, dynamics, costs with cross terms, symmetric cost-to-go matrices, factors of the control Hessian and perturbations of the first state", "why_tests_cant": "Optimality of the gain is a statement about all perturbations and all alternative controls; a test compares with another solver on one problem.", "anchors": ["ct_optcon/include/ct/optcon/solver/lqp/HPIPMInterface-impl.hpp: computeFeedbackMatrices"]}
{"id": "C110", "title": "Null-space projector and right inverse of an operational Jacobian", "statement": "After updateState(x, W) with a positive definite weight W, P() is the projector onto the null space of the Jacobian at x along the range of W J^T: motions that do not move the operational point pass unchanged, forces acting through the Jacobian are removed and nothing else is; the inverse returned by JdagerLDLT() satisfies J X J = J and is a right inverse when the rows of J are independent.", "quantifier": "all Jacobians of any size and rank, all positive definite weights, any previous content of the object and any earlier queries other than JdagerSVD()", "why_tests_cant": "Tests check a few well-conditioned Jacobians; the claim covers rank-deficient ones, where the LDLT factorisation of a singular matrix is used as an inverse.", "anchors": ["ct_rbd/include/ct/rbd/robot/jacobian/OperationalJacobianBase.h: updateState, JdagerLDLT, P"]}
{"id": "C111", "title": "Time derivatives of the right inverse and of the null-space projector", "statement": "dJdagerdt() and dPdt() return the time derivatives of the right inverse and of the null-space projector along the motion whose Jacobian derivative is dJdt().", "quantifier": "all differentiable motions on which the rows of the Jacobian stay independent", "why_tests_cant": "The derivative is a limit along arbitrary motions; a numerical test at sample states needs a tolerance and a Jacobian that turns.", "anchors": ["ct_rbd/include/ct/rbd/robot/jacobian/OperationalJacobianBase.h: dJdagerdt, dPdt"]}
{"id": "C112", "title": "Cached quantities of an operational Jacobian never go stale", "statement": "After updateState(x, W) every query returns the quantity at x with weight W, whatever was cached for earlier states and in whatever order the queries are made.", "quantifier": "all states, weights, previous contents of the caches and all finite sequences of queries", "why_tests_cant": "The answer depends on the history of calls; there are infinitely many orders of queries.", "anchors": ["ct_rbd/include/ct/rbd/robot/jacobian/OperationalJacobianBase.h: updateState, resetUpdatedFlags, J, dJdt, JdagerLDLT, JdagerSVD, dJdagerdt, P, dPdt"]}
{"id": "C113", "title": "Operational-space dynamics describe the same motion", "statement": "If generalised accelerations, torques and contact forces satisfy the equation of motion of the robot, then the operational accelerations with the same torques and contact forces satisfy the equation of motion built from the operational-space model; its mass matrix is the inverse of J M^-1 J^T, and STransposeDager maps operational forces to torques that realise them without acting on the constraints to be kept.", "quantifier": "all mass matrices, Jacobians, velocities, accelerations, torques and contact forces of any dimensions", "why_tests_cant": "The identity must hold for all robots and motions, including the velocity-dependent term with the Jacobian derivative.", "anchors": ["ct_rbd/include/ct/rbd/operationalSpace/rigid_body/OperationalModel.h: update, getAccelerations", "ct_rbd/include/ct/rbd/operationalSpace/rigid_body/OperationalModelBase.h: STransposeDager"]}
{"id": "C114", "title": "Constrained forward dynamics keeps the contacts", "statement": "The accelerations and contact forces returned by the projected forward dynamics satisfy the equation of motion with the given torques, every end effector in contact does not accelerate, end effectors not in contact get zero force, and they are the only accelerations and forces with these properties.", "quantifier": "all numbers of joints and end effectors, all contact configurations, positive definite mass matrices and independent contact rows, whatever an earlier contact configuration left in the work matrices", "why_tests_cant": "The linear system is assembled from blocks that change size with the contacts and is solved by the library's own unpivoted LDLT factorisation of an indefinite matrix; no finite set of contact configurations shows that no zero pivot occurs.", "anchors": ["ct_rbd/include/ct/rbd/robot/ProjectedDynamics.h: ProjectedForwardDynamics, ProjectedForwardDynamicsCommon, getContactForcesInBase, setContactConfiguration", "ct_core/include/ct/core/math/Inverses.h: LDLTsolve"]}
{"id": "C115", "title": "Constrained inverse dynamics gives the smallest feasible torques", "statement": "If an acceleration can be produced by some torques and contact forces, the torques returned by the projected inverse dynamics produce it, no other torques producing it are smaller, and forward dynamics with those torques returns the acceleration.", "quantifier": "all robots, contact configurations and feasible accelerations, provided no non-zero singular value lies below the cut-off 1e-9", "why_tests_cant": "Minimality compares with all other torques, and the constraint Jacobian handed to the projector is always rank deficient when an end effector is in the air.", "anchors": ["ct_rbd/include/ct/rbd/robot/ProjectedDynamics.h: ProjectedInverseDynamics, ProjectedInverseDynamicsNoGravity, ProjectedForwardDynamics"]}
{"id": "C116", "title": "Frame Jacobian maps velocities to the motion of a point and its derivative gives the acceleration", "statement": "For a floating-base robot the translational frame Jacobian times the stacked base and joint velocity is the world velocity of the point that getEEPositionInWorld() reports, the rotational one is its angular velocity, getEEVelocityInWorld() agrees, and the derivative functions return the time derivative of these Jacobians along the motion.", "quantifier": "all differentiable motions of base and joints, all frames attached to the robot", "why_tests_cant": "The claim relates matrices at an instant to derivatives along arbitrary motions; tests compare with finite differences at random states.", "anchors": ["ct_rbd/include/ct/rbd/robot/jacobian/FrameJacobian.h: FromBaseJacToInertiaJacTranslation, FromBaseJacToInertiaJacOrientation, FromBaseJacobianDevToInertiaJacobianDevTranslation, FromBaseJacobianDevToInertiaJacobianDevOrientation", "ct_rbd/include/ct/rbd/robot/Kinematics.h: getEEPositionInWorld, getEEVelocityInBase, getEEVelocityInWorld, getEERotInWorld"]}
{"id": "C117", "title": "Contact Jacobian and its analytic derivative keep the feet in place", "statement": "The end-effector Jacobian stacked for the configured contacts is the velocity Jacobian of each foot, the analytically computed derivative is its time derivative along the joint motion, the rows of feet that are not in contact are zero, and an acceleration that satisfies the contact equations of the constrained dynamics gives every foot in contact zero acceleration in the world.", "quantifier": "all kinematic trees of revolute and prismatic joints, all contact configurations, all motions", "why_tests_cant": "The derivative is a limit along arbitrary motions and the number of joints is arbitrary; tests compare one robot with a numerical derivative.", "anchors": ["ct_rbd/include/ct/rbd/robot/jacobian/ConstraintJacobian.h: getJacobianOriginDerivative, getJacobianOrigin", "ct_rbd/include/ct/rbd/robot/ProjectedDynamics.h: ResetJacobianStructure, ProjectedForwardDynamics", "ct_rbd/include/ct/rbd/robot/jacobian/FrameJacobian.h: FromBaseJacToInertiaJacTranslation"]}
{"id": "C118", "title": "A roll-out reported as successful contains no NaN", "statement": "The roll-out used by the solver's line search and initialisation reports success exactly if every state and control of the trajectory it leaves behind is a number, so an unstable candidate can never be accepted because of a NaN.", "quantifier": "all dynamics, horizons, shot lengths, gains and guesses", "why_tests_cant": "The point where a trajectory diverges can be any stage, including the last; a test picks one.", "anchors": ["ct_optcon/include/ct/optcon/nloc/NLOCBackendBase-impl.hpp: rolloutSingleShot, rolloutShotsSingleThreaded"]}
{"id": "C119", "title": "A solver works on the systems, step and method last configured", "statement": "After any sequence of reconfigurations, changes of the nonlinear or linear system, in-place changes of the instances handed out and propagations, every thread of a nonlinear optimal control solver propagates with the nonlinear system, control step, number of sub-steps and integrator last requested, and computes A and B from the linear system last requested with the requested method and step. Refused requests change nothing.", "quantifier": "all systems, settings, thread numbers and call sequences", "why_tests_cant": "The state after a call depends on the whole history; tests configure a solver once.", "anchors": ["ct_optcon/include/ct/optcon/system_interface/OptconContinuousSystemInterface-impl.h: initialize, configure, changeNonlinearSystem, changeLinearSystem, propagateControlledDynamics, getAandB", "ct_optcon/include/ct/optcon/system_interface/OptconDiscreteSystemInterface-impl.h", "ct_optcon/include/ct/optcon/system_interface/OptconSystemInterface.h: getNonlinearSystemsInstances, getLinearSystemsInstances"]}
{"id": "C120", "title": "The linearisation a solver uses is the derivative of its own roll-out", "statement": "At every stage and on every thread, the matrices A and B a solver obtains from the sub-steps recorded during its roll-out are exactly the derivative, with respect to state and held control, of the map the roll-out applies at that stage, whatever calls have been made before.", "quantifier": "all nonlinear systems with matching linear systems, all settings, stages, threads and call sequences", "why_tests_cant": "An equality of derivatives for all states and controls; finite differences only approximate it at samples.", "anchors": ["ct_optcon/include/ct/optcon/system_interface/OptconContinuousSystemInterface-impl.h: getAandB, propagateControlledDynamics", "ct_core/include/ct/core/integration/sensitivity/SensitivityIntegrator.h: getAandB, integrateSensitivity", "ct_core/include/ct/core/integration/sensitivity/SensitivityApproximation.h: getAandB"]}
{"id": "C121", "title": "A force at an end effector is mapped to the equivalent force on its link", "statement": "Mapping a torque and a force at an end effector, given in world or end-effector coordinates, to the link the end effector is on yields the one torque and force in the link frame that does the same work in every motion of the link; link numbers that are not declared are refused, and a replaced end effector is used from then on.", "quantifier": "all robots, joint positions, end effectors, base orientations, torques and forces", "why_tests_cant": "Equal power in every motion quantifies over all velocities and all forces; tests compare single numbers.", "anchors": ["ct_rbd/include/ct/rbd/robot/Kinematics.h: mapForceFromWorldToLink, mapForceFromWorldToLink3d, mapForceFromEEToLink, setEndEffector", "ct_rbd/include/ct/rbd/robot/robcogen/robcogenHelpers.h: getForceTransformLinkBaseById, getHomogeneousTransformBaseLinkById, getHomogeneousTransformBaseEEById, eeIdToLinkId", "ct_rbd/include/ct/rbd/robot/RobCoGenContainer.h: getForceTransformLinkBaseById, getEEPositionInBase"]}
{"id": "C122", "title": "The optimised rigid-body kernels compute the spatial algebra they stand for", "statement": "For the inertia of any rigid body and any velocity, the bias force is the cross product of velocity and momentum, in the general and in the single-axis version; the cross product matrices apply the motion and force cross products; moving an inertia to another frame yields the inertia of the same body seen from that frame; propagating an articulated inertia across a free revolute or prismatic joint yields the inertia felt on the other side, and its change of frame is the congruence with the motion transform.", "quantifier": "all bodies (finite families of point masses), velocities, rotations, translations and symmetric articulated inertias", "why_tests_cant": "The kernels are hand-expanded polynomials in dozens of variables that are only valid on rotations; samples do not show an identity.", "anchors": ["ct_rbd/include/ct/iit/rbd/robcogen_commons.h: vxIv, motionCrossProductMx, forceCrossProductMx, fillInertia, transformInertia, ctransform_Ia_revolute, ctransform_Ia_prismatic, compute_Ia_revolute, compute_Ia_prismatic", "ct_rbd/include/ct/iit/rbd/internals.h: rot_symmetric_EAET, rot_EAET"]}
{"id": "C123", "title": "An inertia matrix stays the inertia of a rigid body", "statement": "Filling an inertia matrix from mass, centre of mass and rotational inertia of a body yields its spatial inertia, from which the getters return the same data. Changing the mass scales the density, changing the centre of mass shifts the body as a whole, changing the rotational inertia changes nothing else, adding describes both bodies together and assignment copies.", "quantifier": "all bodies (finite families of point masses with non-zero total mass), masses and positions", "why_tests_cant": "The meaning of a 6x6 matrix is its action on all velocities; tests compare entries of single matrices.", "anchors": ["ct_rbd/include/ct/iit/rbd/InertiaMatrix.h: InertiaMatrixDense", "ct_rbd/include/ct/iit/rbd/utils.h: buildInertiaTensor"]}
{"id": "C124", "title": "Forward and inverse dynamics of fixed-base robots are inverse to each other", "statement": "For each robot on a fixed base shipped with the library, the joint accelerations computed by the forward dynamics for given joint forces are exactly those for which the inverse dynamics computes these joint forces, at every position and velocity, under any external forces on the links, and whatever was called before on either object.", "quantifier": "robots InvertedPendulum, DoubleInvertedPendulum, HyA; all joint positions, velocities, accelerations, forces, external forces; all histories of calls and all initial memory contents", "why_tests_cant": "The two generated programs share no intermediate result; equality holds only through identities between thousands of trigonometric terms, and the objects keep scratch state between calls.", "anchors": ["ct_models/include/ct/models/HyA/generated/forward_dynamics.impl.h: fd", "ct_models/include/ct/models/HyA/generated/inverse_dynamics.impl.h: id, firstPass, secondPass", "ct_models/include/ct/models/InvertedPendulum/generated", "ct_models/include/ct/models/DoubleInvertedPendulum/generated", "ct_rbd/include/ct/rbd/robot/RobCoGenContainer.h"]}
{"id": "C125", "title": "Forward and inverse dynamics of floating-base robots are inverse to each other", "statement": "For the floating-base robot, the accelerations of base and joints computed by the forward dynamics for given joint forces are exactly those for which the fully actuated inverse dynamics computes these joint forces and no force on the base; the base acceleration and joint forces computed by the inverse dynamics for given joint accelerations are exactly those for which the fully actuated inverse dynamics agrees.", "quantifier": "robots HyQ and QuadrotorWithLoad; all positions, base velocities, gravity vectors, joint velocities, accelerations, forces, external forces; all histories of calls and all initial memory contents", "why_tests_cant": "Three generated programs with different recursions must agree at every state; solving a 6x6 system is only meaningful when its matrix is invertible, which must be shown for all positions.", "anchors": ["ct_models/include/ct/models/HyQ/generated/forward_dynamics.impl.h: fd", "ct_models/include/ct/models/HyQ/generated/inverse_dynamics.impl.h: id, id_fully_actuated", "ct_models/include/ct/models/QuadrotorWithLoad/generated/forward_dynamics.impl.h: fd", "ct_models/include/ct/models/QuadrotorWithLoad/generated/inverse_dynamics.impl.h: id, id_fully_actuated", "ct_rbd/include/ct/iit/rbd/traits/DoubleTrait.h: solve"]}
{"id": "C126", "title": "Inverse dynamics splits into inertia, Coriolis and gravity terms", "statement": "Without external forces, the inverse dynamics equals the product of the joint space inertia matrix with the accelerations plus the Coriolis and centrifugal terms plus the gravity terms that the library computes separately; for floating-base robots the same holds for base and joints together.", "quantifier": "all five robots; all positions, velocities, accelerations, gravity vectors; all histories of calls and all initial memory contents", "why_tests_cant": "Users combine the separately computed terms in controllers; the identity spans four generated programs and holds for all states only by algebra.", "anchors": ["ct_models/include/ct/models/*/generated/inverse_dynamics.impl.h: id, C_terms, G_terms, id_fully_actuated, C_terms_fully_actuated, G_terms_fully_actuated", "ct_models/include/ct/models/*/generated/jsim.impl.h: JSIM::update"]}
{"id": "C127", "title": "The joint space inertia matrix is symmetric and positive definite", "statement": "At every position, the joint space inertia matrix of each robot is symmetric, and its quadratic form is positive on every non-zero velocity.", "quantifier": "all five robots; all positions and velocities; all histories of calls and all initial memory contents", "why_tests_cant": "Positive definiteness at all positions cannot be sampled; solvers rely on it to invert the matrix.", "anchors": ["ct_models/include/ct/models/*/generated/jsim.impl.h: JSIM::update", "ct_models/include/ct/models/*/generated/inertia_properties.impl.h"]}
{"id": "C128", "title": "The joint space inertia matrix gives the kinetic energy", "statement": "The quadratic form of the joint space inertia matrix at any velocity is twice the sum of the kinetic energies of all links moving with that velocity.", "quantifier": "all five robots; all positions and velocities; all histories of calls and all initial memory contents", "why_tests_cant": "The matrix is assembled from composite inertias and never refers to link velocities; agreement is an identity over all positions and velocities.", "anchors": ["ct_models/include/ct/models/*/generated/jsim.impl.h: JSIM::update"]}
{"id": "C129", "title": "Factorisation and inverse of the joint space inertia matrix", "statement": "After updating the joint space inertia matrix H of a robot and calling computeL() and computeInverse(), getL() is a lower triangular matrix with positive diagonal whose product L^T L is H, and getInverse() is the inverse of H, whatever the members contained before.", "quantifier": "all five robots; all joint positions; all earlier calls and memory contents", "why_tests_cant": "The statements are specialised to the branching structure of each robot; a skipped or misnumbered entry shows up only for matrices in which this entry matters, and correctness is an identity over all positions.", "anchors": ["ct_models/include/ct/models/*/generated/jsim.h: JSIM::getL, JSIM::getInverse", "ct_models/include/ct/models/*/generated/jsim.impl.h: JSIM::computeL, JSIM::computeInverse, JSIM::computeLInverse"]}
{"id": "C130", "title": "Forward kinematics: all coordinate transforms belong to the described robot", "statement": "At every joint position, the homogeneous, motion and force transforms A_X_B of a robot are the matrices of the pose of frame B in frame A, where the frames are arranged as in the description of the robot: every frame sits at a constant pose on its link, every link is turned by its joint about the z axis. The constant poses are those in the description (centre-of-mass frames of the HyA: up to a twentieth of a millimetre). This holds after every update, whatever was in memory and whatever updates came before.", "quantifier": "all five robots; all 155 pairs of frames with three matrices each; all joint positions; all histories of calls and all initial memory contents", "why_tests_cant": "Each matrix is a separate list of expanded trigonometric expressions of up to six joint positions; agreement with a chain of rotations is an identity over all positions, and mutual consistency of three families cannot be sampled.", "anchors": ["ct_models/include/ct/models/*/generated/transforms.impl.h: HomogeneousTransforms, MotionTransforms, ForceTransforms", "ct_models/include/ct/models/*/model/*.kindsl", "ct_models/urdf/HyQ/hyqb.urdf.xacro, links/leg.urdf.xacro, links/inertia.urdf.xacro"]}
{"id": "C131", "title": "Jacobians map joint velocities to velocities of frames", "statement": "Along every differentiable motion of the joints, the Jacobian base_J_f times the joint velocities on the way to frame f gives, in base coordinates, the angular velocity with which the axes of f turn (rows 0 to 2) and the velocity of its origin (rows 3 to 5); the columns belong to the joints on the way in this order.", "quantifier": "all five robots; all 36 Jacobians; all differentiable joint motions; all histories of calls and all initial memory contents", "why_tests_cant": "A derivative along all motions is a limit statement; sampled differences cannot tell a wrong small term from a truncation error.", "anchors": ["ct_models/include/ct/models/*/generated/jacobians.impl.h: Jacobians::Type_*::update", "ct_models/include/ct/models/*/generated/jacobians.h"]}
{"id": "C132", "title": "Inertia parameters are those in the description of the robot", "statement": "The spatial inertia that the generated dynamics use for a link is that of the described link: any distribution of mass with the mass, centre of mass, moments and products of inertia in the description of the robot has this spatial inertia in the frame of the link, up to 2e-7, whatever the memory contained before construction.", "quantifier": "all links of the five robots; all distributions of mass as described; all initial memory contents", "why_tests_cant": "No test compares the generated numbers with the description, which gives them in other frames; the dynamics tests only compare generated code with itself.", "anchors": ["ct_models/include/ct/models/*/generated/inertia_properties.impl.h: InertiaProperties::InertiaProperties", "ct_models/include/ct/models/*/model/*.kindsl: inertia_params", "ct_models/urdf/HyQ/links/*.urdf.xacro: inertial", "ct_rbd/include/ct/iit/rbd/utils.h: buildInertiaTensor"]}
{"id": "C133", "title": "Links and end effectors are looked up by number", "statement": "For every robot, asking for the transforms of link number i (i at least 1) returns those of the link moved by joint i - 1: the homogeneous transform maps coordinates in the link to the base, the force transform maps spatial forces in the base to the link. Asking for an end effector returns its pose in the base, and the link declared for it is the link it is mounted on. Link 0 is the base and yields identities. A number without link or end effector leads to an exception. Earlier queries have no influence.", "quantifier": "all joint positions, link and end effector numbers, histories of calls and initial memory contents, for five robots", "why_tests_cant": "Tests query a few joint positions of one robot; the names and numbers are macros of each robot, and entries for rarely used links are never exercised.", "anchors": ["ct_rbd/include/ct/rbd/robot/robcogen/robcogenHelpers.h: getTransformBaseLinkById, getTransformLinkBaseById, getTransformBaseEEById, eeIdToLinkId", "ct_rbd/include/ct/rbd/robot/RobCoGenContainer.h: getHomogeneousTransformBaseLinkById, getForceTransformLinkBaseById, getEEPositionInBase, getEERotInBase", "ct_models/include/ct/models/*/*.h: CT_Ln, CT_EEn"]}
{"id": "C134", "title": "End effector Jacobians and velocities are derivatives of the end effector pose", "statement": "The Jacobian returned for an end effector, with one column for every joint of the robot, times the joint velocities is its angular velocity and velocity relative to the base; the velocity in the world is the time derivative of the position in the world returned for the moving base and joints.", "quantifier": "all end effectors of five robots, all differentiable motions of base and joints, all histories of calls", "why_tests_cant": "A finite set of states with finite differences cannot cover all motions; errors in columns of joints outside the chain or in the base contribution show only in particular motions.", "anchors": ["ct_rbd/include/ct/rbd/robot/Kinematics.h: getJacobianBaseEEbyId, getEEVelocityInBase, getEEVelocityInWorld, getEEPositionInWorld", "ct_rbd/include/ct/rbd/robot/robcogen/robcogenHelpers.h: getJacobianBaseEEbyId", "ct_models/include/ct/models/*/generated/jacobians.impl.h"]}
{"id": "C135", "title": "External forces enter inverse dynamics by virtual work", "statement": "For every state, acceleration and set of external forces on the links, the joint forces (and, with a floating base, the force on the base) computed without external forces have, for all rates of joints and base, the same power as those computed with external forces plus the power of the external forces on the links moving with these rates. So external forces act as forces on the links, in the frames of the links, with the right sign and lever.", "quantifier": "all five robots; all positions, velocities, accelerations, external forces and virtual rates; all histories of calls and all initial memory contents", "why_tests_cant": "The generated code passes forces from link to link through its own transforms; a sample of states cannot show that every external force reaches every joint with the right lever in all configurations.", "anchors": ["ct_models/include/ct/models/*/generated/inverse_dynamics.impl.h: InverseDynamics::id, id_fully_actuated"]}
{"id": "C136", "title": "Energy balance of the dynamics", "statement": "Along every motion of the robot (joints, and orientation, position and velocity of a floating base), the sum of kinetic energy, given by the joint space inertia matrix, and potential energy of the links in the gravity field changes at the rate of the power of the joint forces and external forces; with the accelerations returned by forward dynamics these are the given joint forces and no force acts on the base.", "quantifier": "all five robots; all differentiable motions at all times; all external forces; all histories of calls and all initial memory contents", "why_tests_cant": "The balance relates three generated functions (inertia matrix, inverse and forward dynamics) through time derivatives along arbitrary motions; numerical integration only shows it up to errors on single trajectories.", "anchors": ["ct_models/include/ct/models/*/generated/forward_dynamics.impl.h: ForwardDynamics::fd", "ct_models/include/ct/models/*/generated/inverse_dynamics.impl.h: InverseDynamics::id, id_fully_actuated", "ct_models/include/ct/models/*/generated/jsim.impl.h: JSIM::update"]}
{"id": "C137", "title": "Control Jacobian of rigid body systems", "statement": "The control Jacobian returned by the linearizer of a rigid body system is exact: changing the joint forces by any amount changes the state derivative of the system by the Jacobian times the change. This holds for every state and every contact model, whatever was computed before.", "quantifier": "inverted pendulum, double inverted pendulum, HyA (fixed base) and HyQ (floating base, Euler angles); all states, joint forces and changes, all histories of calls of the linearizer and of the generated algorithms", "why_tests_cant": "Tests compare with finite differences at a few states up to a tolerance; the relation between the factorised inertia matrix and the generated forward dynamics in all states, with stale entries of earlier calls, is outside their reach.", "anchors": ["ct_rbd/include/ct/rbd/systems/linear/RbdLinearizer.h: getDerivativeControl", "ct_rbd/include/ct/rbd/robot/control/SelectionMatrix.h: SelectionMatrix", "ct_rbd/include/ct/rbd/systems/FixBaseFDSystem.h: computeControlledDynamics", "ct_rbd/include/ct/rbd/systems/FloatingBaseFDSystem.h: computeVdot"]}
{"id": "C138", "title": "State Jacobian of rigid body systems, kinematic part", "statement": "The rows of the state Jacobian that belong to orientation, position and joint angles are exactly the partial derivatives of the system's dynamics with respect to every state entry, in every state in which the Euler angles are not singular, for every step size and scheme of the finite differences used elsewhere, whatever was computed before.", "quantifier": "all floating-base robots with any number of joints and Euler angles, all contact models; all fixed-base robots, second-order or general; all states, controls, times, histories of calls", "why_tests_cant": "The blocks are generated code of trigonometric functions; a test can compare them with finite differences at some states only and up to a tolerance.", "anchors": ["ct_rbd/include/ct/rbd/systems/linear/RbdLinearizer.h: getDerivativeState, JacobianOfRotationMultiplyVector, jacobianOfAngularVelocityMapping", "ct_core/include/ct/core/systems/continuous_time/linear/SystemLinearizer.h: getDerivativeState", "ct_rbd/include/ct/rbd/systems/FloatingBaseFDSystem.h: computePdot"]}
{"id": "C139", "title": "Floating-base systems describe the motion of the robot", "statement": "Along every trajectory whose state vector changes at the rate that the floating-base system computes, the orientation of the base turns with its angular velocity, the position moves with its linear velocity, the joints move with theirs, and base and joints accelerate as the forward dynamics demands under gravity pointing down in the world, the joint forces of the control vector, and the contact and end effector forces; for HyQ the energy changes by the power of these forces.", "quantifier": "all floating-base robots with any number of joints and end effectors, Euler angles (away from the singularity) or unit quaternions, all contact models, all trajectories", "why_tests_cant": "Wrong frames or conventions of rotations show only for combined rotations and velocities; tests with few states and no relation to physical motion cannot exclude them.", "anchors": ["ct_rbd/include/ct/rbd/systems/FloatingBaseFDSystem.h: computePdot, computeVdot, RBDStateFromVector, toStateDerivative, mapEndeffectorForcesToLinkForces", "ct_rbd/include/ct/rbd/state/RBDAcceleration.h: toStateUpdateVectorEulerXyz, toStateUpdateVectorQuaternion", "ct_rbd/include/ct/rbd/state/RigidBodyPose.h: rotateBaseToInertia, rotateInertiaToBase, computeGravityB6D", "ct_rbd/include/ct/rbd/robot/Dynamics.h: FloatingBaseForwardDynamics"]}
{"id": "C140", "title": "Forward and inverse dynamics of a floating-base robot undo each other", "statement": "The inverse dynamics applied to the joint accelerations that the forward dynamics returns gives back the joint forces and the same base acceleration, and vice versa; the inverse dynamics with an actuated base applied to the base and joint accelerations returned by forward dynamics gives back the joint forces and no force on the base.", "quantifier": "HyQ; all states, gravity directions, joint forces, link forces and previous contents of results", "why_tests_cant": "A finite sample of states cannot settle it, and an uninitialised variable passed instead of an argument may by chance hold the right value.", "anchors": ["ct_rbd/include/ct/rbd/robot/Dynamics.h: FloatingBaseForwardDynamics, FloatingBaseID, FloatingBaseFullyActuatedID"]}
{"id": "C141", "title": "Copies of floating-base systems", "statement": "A copy or clone of a floating-base system is well defined and has the same dynamics as the original.", "quantifier": "all systems, with and without contact model, all states and controls", "why_tests_cant": "A test that sets a contact model never clones a system without one, and equality of dynamics for all states cannot be sampled.", "anchors": ["ct_rbd/include/ct/rbd/systems/FloatingBaseFDSystem.h: FloatingBaseFDSystem, clone"]}
{"id": "C142", "title": "Ellipsoidal obstacles", "statement": "An ellipsoid tells by the sign of its function whether a point is inside it. The obstacle constraint built on it is met exactly when the point of the robot is not in the interior of the obstacle at the time of the call, also if the obstacle moved after construction and also for clones. The state and input Jacobians are the derivatives of the constraint.", "quantifier": "all ellipsoids, points, robots (any differentiable position with its Jacobian), states, inputs and motions", "why_tests_cant": "Whether a point of space is classified correctly for every ellipsoid and orientation cannot be sampled; there is no test of the obstacle constraint in the repository.", "anchors": ["ct_core/include/ct/core/geometry/Ellipsoid.h: insideEllipsoid", "ct_optcon/include/ct/optcon/constraint/term/ObstacleConstraint-impl.h: evaluate, jacobianState, jacobianInput"]}
{"id": "C143", "title": "Planes and plane estimation", "statement": "Solving a plane for one coordinate returns the only value that puts the point on the plane. The plane estimated from points has the least sum of squared residuals, and contains all points if they lie on one plane.", "quantifier": "all planes and coordinates; all lists of points of any length", "why_tests_cant": "Optimality is a statement about all other planes, and the condition on the points is about sets of any size.", "anchors": ["ct_core/include/ct/core/geometry/Plane.h: solveX, solveY, solveZ", "ct_core/include/ct/core/geometry/PlaneEstimator.h: estimate"]}
{"id": "C144", "title": "Gradient of the geometric task-space cost", "statement": "The gradient returned by the task-space cost term is the derivative of its value: along every motion of the robot, the value of the term changes at the rate given by the gradient and the velocity of the state.", "quantifier": "all goals (position, orientation, weights), all states away from an orientation error of a half turn, all differentiable motions; inverted pendulum, double inverted pendulum and HyA, and any robot with right kinematics; all histories of the kinematics object", "why_tests_cant": "The term uses the derivative of the angle of a rotation, which finite differences confirm only at samples; the case of differing weights and the limit at zero error need an argument for all orientations.", "anchors": ["ct_rbd/include/ct/rbd/robot/costfunction/TermTaskspaceGeometricJacobian.hpp: evaluate, stateDerivative"]}
{"id": "C145", "title": "Task-space costs vanish exactly at the goal", "statement": "The task-space terms are never negative, and are zero exactly if the end effector has the reference position and the reference orientation. The Hessian returned is symmetric and, as a form in the velocity of the state, the weighted squares of velocity and angular velocity of the end effector. A reference orientation given as any nonzero quaternion is a rotation and does not depend on its scale. Copies of a term evaluate as the original.", "quantifier": "all states, goals, positive definite weights, fixed and floating base; all robots with right look-ups", "why_tests_cant": "That no other pose has zero cost is a statement about all poses.", "anchors": ["ct_rbd/include/ct/rbd/robot/costfunction/TermTaskspaceGeometricJacobian.hpp: evaluate, stateSecondDerivative, setReferenceOrientation", "ct_rbd/include/ct/rbd/robot/costfunction/TermTaskspacePose.hpp: evalLocal", "ct_rbd/include/ct/rbd/robot/costfunction/TermTaskspacePosition.hpp: evalLocal, clone"]}
{"id": "C146", "title": "Cost of the inverse kinematics problem", "statement": "The gradient handed to the nonlinear program solver is the derivative of the cost of the inverse kinematics problem, with and without a joint reference. The values of the Hessian are listed in the order of the sparsity pattern and are those of the goal, the joint reference and the regularizer, times the objective factor. Without optimisation variables every evaluation throws.", "quantifier": "all joint positions, goals, joint references with a right gradient, regularizers and factors; any number of joints", "why_tests_cant": "The solver only sees lists of numbers; a wrong order or term shows up as slow convergence, not as a failing test.", "anchors": ["ct_rbd/include/ct/rbd/robot/kinematics/ik_nlp/IKCostEvaluator.h: eval, evalGradient, getSparsityPatternHessian, sparseHessianValues"]}
{"id": "C147", "title": "LQR around inverse dynamics torques", "statement": "After a successful design at a set point with zero velocity, the controller holds the robot there: the set point is an equilibrium of the closed loop. If the gain comes from a solution of the Riccati equation for the derivatives of the robot's dynamics, every motion that starts close enough converges to the set point exponentially. A design that reports failure leaves a usable controller behind.", "quantifier": "all robots with matching forward and inverse dynamics, set points, positive definite weights, and motions of the closed loop of any duration", "why_tests_cant": "Convergence concerns all starting points near the set point and all times; a simulation covers one motion over a finite time.", "anchors": ["ct_rbd/include/ct/rbd/robot/control/InfiniteHorizonLQRwithInverseDynamics.h: designInfiniteHorizonLQR, computeControl, computeIDTorques", "ct_optcon/include/ct/optcon/lqr/LQR-impl.hpp: compute"]}
{"id": "C148", "title": "Manipulability, condition number and joint velocities from a Jacobian", "statement": "The manipulability is never negative, and positive exactly if the end effector can move with every velocity; both methods of computing it agree. The condition number is the largest ratio by which the Jacobian treats directions differently. The joint velocities returned come closest to the desired velocity of the end effector, and are the smallest that do so; if every velocity can be reached they are the product with the pseudo inverse in the documentation.", "quantifier": "all Jacobians of all sizes and all velocities", "why_tests_cant": "Reachability, optimality and minimality are statements about all velocities and all other joint velocities; the repository has no test of this class.", "anchors": ["ct_rbd/include/ct/rbd/common/math/implementation/JacobiSingularity.h: calc_condition_number, calc_manipulability, calc_singular_values, calc_joint_vel"]}
{"id": "C149", "title": "Inverse dynamics controller for floating base robots", "statement": "The controller asks for no acceleration exactly at the desired pose, however orientations are stored, and for the acceleration of a spring and damper elsewhere: if the base follows it, the energy of the position error and velocity never increases, however the base turns. The torques returned produce the acceleration asked for whenever torques and contact forces can produce it. A base that moves with the desired velocity is not accelerated.", "quantifier": "all states, desired states, gains, contact configurations and motions of the base; any number of joints and end effectors", "why_tests_cant": "That no other pose is a rest point, and that the energy decreases for every motion, cannot be sampled; the repository has no test of this controller.", "anchors": ["ct_rbd/include/ct/rbd/robot/control/IDControllerFB.h: computeDesiredAcceleration, computeTorque", "ct_rbd/include/ct/rbd/robot/ProjectedDynamics.h: ProjectedInverseDynamics, ProjectedInverseDynamicsNoGravity"]}
{"id": "C150", "title": "Compiled derivatives of a function", "statement": "An object for compiled derivatives evaluates the function it was given last and returns its Jacobian and weighted Hessian, whatever was done before and whether it is copied or compiled again afterwards; the sparse Jacobian agrees with the Jacobian at the positions listed and all other entries are zero. Before a function is compiled, values and derivatives raise an error.", "quantifier": "all differentiable functions, all numbers of inputs and outputs, all settings, all histories of updates, compilations and copies", "why_tests_cant": "Functions and histories are infinitely many; tests compile one function once and do not use copies of the object.", "anchors": ["ct_core/include/ct/core/math/DerivativesCppadJIT-impl.h: update", "ct_core/include/ct/core/math/DerivativesCppadJIT-impl.h: compileJIT", "ct_core/include/ct/core/math/DerivativesCppadJIT-impl.h: forwardZero", "ct_core/include/ct/core/math/DerivativesCppadJIT-impl.h: jacobian", "ct_core/include/ct/core/math/DerivativesCppadJIT-impl.h: hessian", "ct_core/include/ct/core/math/DerivativesCppadJIT-impl.h: sparseJacobian", "ct_core/include/ct/core/math/DerivativesCppadJIT-impl.h: getSparsityPatternJacobian", "ct_core/include/ct/core/math/DerivativesCppadJIT-impl.h: getNumNonZerosJacobian"]}
{"id": "C151", "title": "Cost function with automatic differentiation", "statement": "After initialisation the cost is the sum of all intermediate (final) terms, analytical and automatically differentiated, at the state, control and time set last, and its first and second derivatives are those of this sum. Without initialisation every value and derivative raises an error.", "quantifier": "all smooth terms, states, controls, times and histories of additions, changes, initialisations and copies", "why_tests_cant": "All histories and all terms are quantified over; the tests compare two implementations at sampled points, with all terms active and added before initialisation.", "anchors": ["ct_optcon/include/ct/optcon/costfunction/CostFunctionAD-impl.hpp: CostFunctionAD", "ct_optcon/include/ct/optcon/costfunction/CostFunctionAD-impl.hpp: initialize", "ct_optcon/include/ct/optcon/costfunction/CostFunctionAD-impl.hpp: evaluateIntermediate", "ct_optcon/include/ct/optcon/costfunction/CostFunctionAD-impl.hpp: evaluateTerminal", "ct_optcon/include/ct/optcon/costfunction/CostFunctionAD-impl.hpp: stateDerivativeIntermediate", "ct_optcon/include/ct/optcon/costfunction/CostFunctionAD-impl.hpp: controlDerivativeIntermediate", "ct_optcon/include/ct/optcon/costfunction/CostFunctionAD-impl.hpp: stateSecondDerivativeIntermediate", "ct_optcon/include/ct/optcon/costfunction/CostFunctionAD-impl.hpp: controlSecondDerivativeIntermediate", "ct_optcon/include/ct/optcon/costfunction/CostFunctionAD-impl.hpp: stateControlDerivativeIntermediate", "ct_optcon/include/ct/optcon/costfunction/CostFunctionAD-impl.hpp: addIntermediateADTerm", "ct_optcon/include/ct/optcon/costfunction/CostFunctionAD-impl.hpp: addFinalADTerm", "ct_optcon/include/ct/optcon/costfunction/CostFunctionAD-impl.hpp: loadFromConfigFile"]}
{"id": "C152", "title": "Constraint container with automatic differentiation", "statement": "An initialised container returns the values of the constraints added to it, in the order in which they were added, at the state, control and time set last, together with their bounds in the same order; the Jacobians are the derivatives of these values, and the sparse Jacobians and their patterns agree with them. Constraints not initialised since the last addition raise an error.", "quantifier": "all constraints and numbers of constraints, all histories of calls on any number of containers", "why_tests_cant": "Bounds, values, rows and patterns must agree for every list of constraints and every history; tests use two constraints once.", "anchors": ["ct_optcon/include/ct/optcon/constraint/ConstraintContainerAD-impl.h: ConstraintContainerAD", "ct_optcon/include/ct/optcon/constraint/ConstraintContainerAD-impl.h: addIntermediateConstraint", "ct_optcon/include/ct/optcon/constraint/ConstraintContainerAD-impl.h: addTerminalConstraint", "ct_optcon/include/ct/optcon/constraint/ConstraintContainerAD-impl.h: evaluateIntermediate", "ct_optcon/include/ct/optcon/constraint/ConstraintContainerAD-impl.h: evaluateTerminal", "ct_optcon/include/ct/optcon/constraint/ConstraintContainerAD-impl.h: jacobianStateIntermediate", "ct_optcon/include/ct/optcon/constraint/ConstraintContainerAD-impl.h: jacobianInputIntermediate", "ct_optcon/include/ct/optcon/constraint/ConstraintContainerAD-impl.h: jacobianStateSparseIntermediate", "ct_optcon/include/ct/optcon/constraint/ConstraintContainerAD-impl.h: sparsityPatternStateIntermediate", "ct_optcon/include/ct/optcon/constraint/ConstraintContainerAD-impl.h: initializeIntermediate", "ct_optcon/include/ct/optcon/constraint/ConstraintContainerAD-impl.h: initializeTerminal", "ct_optcon/include/ct/optcon/constraint/ConstraintContainerAD-impl.h: evaluateIntermediateCodegen"]}
{"id": "C153", "title": "Copies of constraint containers are independent", "statement": "A copy of a constraint container returns what the original returns at the time of the copy, and neither is affected by what is done to the other afterwards, including its destruction.", "quantifier": "all constraints, all histories of calls on any number of containers", "why_tests_cant": "What a copy must not depend on is the set of all later calls on other objects; solvers copy containers for every thread.", "anchors": ["ct_optcon/include/ct/optcon/constraint/ConstraintContainerAD-impl.h: ConstraintContainerAD", "ct_optcon/include/ct/optcon/constraint/ConstraintContainerAD-impl.h: clone"]}
{"id": "C154", "title": "Optimal control problem holds what it was given", "statement": "Each part of an optimal control problem is the one given last; constraint containers given to it are ready for use; without a linearisation given by the user the problem linearises its own system; and the check of the problem accepts it exactly when system, linearisation, cost function and a horizon that is not negative are there, raising an error otherwise.", "quantifier": "all constructors, all histories of setters, all objects", "why_tests_cant": "All orders of setters and constructors, including those with missing objects, are quantified over; tests build complete problems.", "anchors": ["ct_optcon/include/ct/optcon/problem/OptConProblemBase-impl.h: OptConProblemBase", "ct_optcon/include/ct/optcon/problem/OptConProblemBase-impl.h: verify", "ct_optcon/include/ct/optcon/problem/OptConProblemBase-impl.h: setNonlinearSystem", "ct_optcon/include/ct/optcon/problem/OptConProblemBase-impl.h: setLinearSystem", "ct_optcon/include/ct/optcon/problem/OptConProblemBase-impl.h: setCostFunction", "ct_optcon/include/ct/optcon/problem/OptConProblemBase-impl.h: setInputBoxConstraints", "ct_optcon/include/ct/optcon/problem/OptConProblemBase-impl.h: setStateBoxConstraints", "ct_optcon/include/ct/optcon/problem/OptConProblemBase-impl.h: setGeneralConstraints", "ct_optcon/include/ct/optcon/problem/OptConProblemBase-impl.h: setInitialState", "ct_optcon/include/ct/optcon/problem/OptConProblemBase-impl.h: setTimeHorizon"]}
{"id": "C155", "title": "Shooting solver works with what it was handed last", "statement": "A solver for single and multiple shooting works, in all of its threads, with the horizon, initial state, systems, cost function and constraints it was handed over last, as they were at that time: later changes of the user's objects or of the problem do not reach it, and refused calls change nothing.", "quantifier": "all problems, all numbers of threads, all histories of changes of objects, problem and solver", "why_tests_cant": "Each thread has copies of its own, and a stale one shows only in some histories and schedules; tests set up a solver once.", "anchors": ["ct_optcon/include/ct/optcon/nloc/NLOCBackendBase-impl.hpp: NLOCBackendBase", "ct_optcon/include/ct/optcon/nloc/NLOCBackendBase-impl.hpp: changeTimeHorizon", "ct_optcon/include/ct/optcon/nloc/NLOCBackendBase-impl.hpp: changeInitialState", "ct_optcon/include/ct/optcon/nloc/NLOCBackendBase-impl.hpp: changeCostFunction", "ct_optcon/include/ct/optcon/nloc/NLOCBackendBase-impl.hpp: changeInputBoxConstraints", "ct_optcon/include/ct/optcon/nloc/NLOCBackendBase-impl.hpp: changeStateBoxConstraints", "ct_optcon/include/ct/optcon/nloc/NLOCBackendBase-impl.hpp: changeGeneralConstraints", "ct_optcon/include/ct/optcon/solver/OptConSolver.h: setProblem", "ct_optcon/include/ct/optcon/solver/OptConSolver.h: changeInputBoxConstraints", "ct_optcon/include/ct/optcon/solver/NLOptConSolver-impl.hpp: NLOptConSolver"]}
{"id": "C156", "title": "Direct multiple shooting solver works with what it was handed last", "statement": "A solver for direct multiple shooting works, in every shot, with copies of the systems, cost function and constraints of its problem, and after a change with the changed horizon, initial state, systems, cost function or constraints.", "quantifier": "all problems, all numbers of shots, all histories of changes of objects, problem and solver", "why_tests_cant": "All histories of changes are quantified over; tests set up a solver once.", "anchors": ["ct_optcon/include/ct/optcon/dms/dms_core/DmsSolver.h: DmsSolver", "ct_optcon/include/ct/optcon/dms/dms_core/DmsSolver.h: changeTimeHorizon", "ct_optcon/include/ct/optcon/dms/dms_core/DmsSolver.h: changeInitialState", "ct_optcon/include/ct/optcon/dms/dms_core/DmsSolver.h: changeCostFunction", "ct_optcon/include/ct/optcon/dms/dms_core/DmsSolver.h: changeNonlinearSystem", "ct_optcon/include/ct/optcon/dms/dms_core/DmsSolver.h: changeLinearSystem", "ct_optcon/include/ct/optcon/dms/dms_core/DmsSolver.h: changeInputBoxConstraints", "ct_optcon/include/ct/optcon/dms/dms_core/DmsSolver.h: changeStateBoxConstraints", "ct_optcon/include/ct/optcon/dms/dms_core/DmsSolver.h: changeGeneralConstraints"]}
{"id": "C157", "title": "Linear quadrotor is the linearisation of the quadrotor", "statement": "The state and control matrices returned by the linear quadrotor model are the derivatives of the dynamics of the quadrotor model with respect to state and control.", "quantifier": "all states without gimbal lock, all controls", "why_tests_cant": "The matrices are generated code with long formulas in all angles and rates; tests compare a few states, up to a tolerance, with finite differences.", "anchors": ["ct_models/src/Quadrotor/quadrotor_ode.cpp: quadrotor_ode", "ct_models/include/ct/models/Quadrotor/Quadrotor.hpp: computeControlledDynamics", "ct_models/src/Quadrotor/A_quadrotor.cpp: A_quadrotor", "ct_models/src/Quadrotor/B_quadrotor.cpp: B_quadrotor", "ct_models/include/ct/models/Quadrotor/QuadrotorLinear.hpp: getDerivativeState", "ct_models/include/ct/models/Quadrotor/QuadrotorLinear.hpp: getDerivativeControl"]}
{"id": "C158", "title": "Quadrotor obeys the equations of a rigid body", "statement": "Along every motion of the quadrotor model, the position changes with the velocity, mass times acceleration is the thrust along the body axis plus the weight, and the angular velocity of the orientation given by the angles obeys the equations of Euler for the given moments; it is in equilibrium exactly when it hovers at rest.", "quantifier": "all motions under all control histories, at all times without gimbal lock", "why_tests_cant": "The law concerns derivatives along all motions; tests integrate a few motions numerically and have no reference to compare with.", "anchors": ["ct_models/src/Quadrotor/quadrotor_ode.cpp: quadrotor_ode", "ct_models/include/ct/models/Quadrotor/Quadrotor.hpp: computeControlledDynamics"]}
{"id": "C159", "title": "Switched constraints are those of the scheduled mode", "statement": "After current state, control and time of a switched constraint container are set, its values, Jacobians and bounds for intermediate constraints are those of the container given for the mode scheduled at that time, at that state and control, and those for terminal constraints are those of the container given for the last mode; without a container for the mode the call throws; the container is initialised exactly when those of all modes are.", "quantifier": "all containers, all mode sequences with durations that are not negative, all histories of calls on all containers, all states, controls and times", "why_tests_cant": "Containers are shared and keep state between calls, so that a stale answer shows in some histories only; no test covers the class.", "anchors": ["ct_optcon/include/ct/optcon/constraint/SwitchedLinearConstraintContainer-impl.h: SwitchedLinearConstraintContainer", "ct_optcon/include/ct/optcon/constraint/SwitchedLinearConstraintContainer-impl.h: update", "ct_optcon/include/ct/optcon/constraint/SwitchedLinearConstraintContainer-impl.h: evaluateIntermediate", "ct_optcon/include/ct/optcon/constraint/SwitchedLinearConstraintContainer-impl.h: evaluateTerminal", "ct_optcon/include/ct/optcon/constraint/SwitchedLinearConstraintContainer-impl.h: initializeIntermediate", "ct_optcon/include/ct/optcon/constraint/SwitchedLinearConstraintContainer-impl.h: initializeTerminal"]}
{"id": "C160", "title": "Copies of switched constraint containers", "statement": "A copy of a switched constraint container answers like the original, and is independent of it: nothing done with one changes any answer of the other.", "quantifier": "all containers, all mode sequences, all histories before and after the copy", "why_tests_cant": "Sharing shows only when calls on both are interleaved, as in solvers with several threads.", "anchors": ["ct_optcon/include/ct/optcon/constraint/SwitchedLinearConstraintContainer-impl.h: SwitchedLinearConstraintContainer", "ct_optcon/include/ct/optcon/constraint/SwitchedLinearConstraintContainer-impl.h: clone"]}
{"id": "C161", "title": "The closed-form solver and the robot model of the HyA agree on the kinematics", "statement": "The forward kinematics that belongs to the closed-form inverse kinematics of the HyA and the generated kinematics of the robot give the same position and rotation of the end effector for the same joint positions.", "quantifier": "all joint positions, any earlier use of the kinematics", "why_tests_cant": "The two are generated by different programs from different descriptions; tests compare some random configurations up to a tolerance.", "anchors": ["ct_models/src/HyA/transform6d.cpp: ComputeFk", "ct_models/include/ct/models/HyA/generated/transforms.impl.h: HomogeneousTransforms::Type_fr_HyABase_X_fr_ee", "ct_rbd/include/ct/rbd/robot/Kinematics.h: getEEPositionInBase, getEERotInBase"]}
{"id": "C162", "title": "Inverse kinematics gives the reachable configurations within the joint limits", "statement": "Inverse kinematics of the HyA gives configurations within the joint limits in which the end effector has the pose asked for, in base and in world coordinates, and all of them; it returns whether there are any, and the closest one to a query when asked for that. That of the Irb4600 gives what its solver finds. Naming free joints throws.", "quantifier": "all poses, all base poses, all solvers that are right about what they report, all queries and distances", "why_tests_cant": "Tests use poses of random configurations, where aligned joint axes have probability zero, and angles that need no wrapping rarely show a wrong limit.", "anchors": ["ct_models/include/ct/models/HyA/HyAInverseKinematics.h: computeInverseKinematics", "ct_models/include/ct/models/Irb4600/Irb4600InverseKinematics.h: computeInverseKinematics", "ct_rbd/include/ct/rbd/robot/kinematics/ikfast/ikfast.h: IkSolution::GetSolution", "ct_rbd/include/ct/rbd/robot/kinematics/InverseKinematicsBase.h: computeInverseKinematicsCloseTo", "ct_models/include/ct/models/HyA/HyAJointLimits.h: jointLowerLimit, jointUpperLimit"]}
{"id": "C163", "title": "Settings of the solvers for nonlinear programs take effect", "statement": "After any sequence of construction, configure and prepareWarmStart, the options an IPOPT or SNOPT solver works with are those of the settings given last, with the iteration limit asked for last; every setting has an effect on the solver.", "quantifier": "all settings, all histories of configure and prepareWarmStart", "why_tests_cant": "Tests configure a solver once. Options set only if unset go wrong at the second configuration, and settings that are never passed on go unnoticed as long as the default suits the test problem.", "anchors": ["ct_optcon/include/ct/optcon/nlp/solver/implementation/IpoptSolver-impl.h: setSolverOptions, configureDerived, prepareWarmStart, get_nlp_info", "ct_optcon/src/nlp/solver/SnoptSolver.cpp: setSolverOptions, configureDerived, prepareWarmStart, solve", "ct_optcon/include/ct/optcon/nlp/solver/NlpSolverSettings.h: IpoptSettings, SnoptSettings", "ct_optcon/include/ct/optcon/nlp/solver/NlpSolver.h: configure"]}
{"id": "C164", "title": "IPOPT sees the problem as it is at the point it asks about, and its result is what the problem keeps", "statement": "Every callback of IPOPT is answered with cost, gradient, constraints, Jacobian and Hessian at the point it asks about; pattern and values of the Jacobian belong together; sizes and bounds are those of the problem. After a solve the problem holds the solution and the multipliers, everything computed from the variables belongs to them, a failure is reported, and the next solve starts where the last one ended.", "quantifier": "all problems with fixed structure, all sequences of callbacks in which IPOPT calls points old only if they are, all histories of guesses, bounds, resets and solves", "why_tests_cant": "Answers depend on a flag of the solver and on data prepared at an earlier call; which sequences of callbacks occur is up to the external solver, and mixed-up points only slow down convergence in tests.", "anchors": ["ct_optcon/include/ct/optcon/nlp/solver/implementation/IpoptSolver-impl.h: eval_f, eval_grad_f, eval_g, eval_jac_g, eval_h, get_nlp_info, get_bounds_info, get_starting_point, finalize_solution, solve", "ct_optcon/include/ct/optcon/nlp/Nlp.h: extractOptimizationVars, getInitialGuess, getLambdaVars, extractIpoptSolution", "ct_optcon/include/ct/optcon/nlp/OptVector.h: OptVector, setInitialGuess, setZero, setNewIpoptSolution"]}
{"id": "C165", "title": "SNOPT sees the problem as it is, its result is what the problem keeps, and solvers do not get into each other's way", "statement": "The arrays handed to SNOPT are guess, bounds, multipliers and states of the problem, with the objective in row 0 and the constraints behind; callbacks are answered at the point asked about, with values and derivatives in the rows and columns of the pattern. After a solve the problem holds the solution, failures are reported, and a warm start starts from the prepared states. With several solvers at the same time every callback reaches its own solver.", "quantifier": "all problems with fixed structure, all callbacks and results of SNOPT, all histories of creating and destroying solvers", "why_tests_cant": "SNOPT is not available in the continuous integration, so that this code is hardly run at all; slots of the shared pool are reused only if solvers are destroyed in between.", "anchors": ["ct_optcon/src/nlp/solver/SnoptSolver.cpp: SnoptMemory, ~SnoptMemory, init_memory, fill_memory, configureDerived, solve, prepareWarmStart, NLP_Function", "ct_optcon/include/ct/optcon/nlp/OptVector.h: resizeConstraintVars, getOptimizationMultState, getConstraintsMultState, setNewSnoptSolution"]}
{"id": "C166", "title": "Joint PID controllers do not mix joints", "statement": "Whatever setpoints, gains and resets were given before, the command of a JointPositionPIDController for a joint is that of a PID controller of its own that has seen the position and velocity of this joint only and the calls concerning this joint; it is within the limits given for the joint. WholeBodyController passes the positions and velocities of the joints to it in order. Controllers can be copied.", "quantifier": "all numbers of joints, all parameters, all histories of calls, all robot states", "why_tests_cant": "Tests use the same gains and setpoints for all joints of a symmetric robot; state kept between calls and limits lost by a later call only show up in histories tests do not go through.", "anchors": ["ct_rbd/include/ct/rbd/robot/control/JointPositionPIDController-impl.h: JointPositionPIDController, computeControl, setDesiredPosition, setAllPIDGains, reset, clone", "ct_rbd/include/ct/rbd/robot/control/WholeBodyController-impl.h: computeControl"]}
{"id": "C167", "title": "A controlled system uses the controller it was given, and copies have their own", "statement": "The derivative of a controlled system is its controlled dynamics at the control computed by the controller that was given to it last, as the controller is at that moment; without one the control is zero. getLastControlAction is the control of the last evaluation. A copy gives the same derivatives, and nothing done to the original, to its controller or to other systems afterwards changes the derivatives of the copy, nor the other way round.", "quantifier": "all dynamics, all classes of controllers with or without state, all numbers of systems and controllers, all histories of constructing, setting, evaluating, copying and modifying controllers", "why_tests_cant": "Sharing of one controller by two systems is invisible as long as the controller is not modified; a test would need to guess the interleaving in which it matters.", "anchors": ["ct_core/include/ct/core/systems/continuous_time/ControlledSystem.h: ControlledSystem, setController, getController, computeDynamics, getLastControlAction", "ct_core/include/ct/core/systems/discrete_time/DiscreteControlledSystem.h: DiscreteControlledSystem, setController, propagateDynamics"]}
{"id": "C168", "title": "Elementary controllers compute what they document", "statement": "A ConstantStateFeedbackController gives the feedforward plus the gain times the deviation from the reference of the last update; a StepInputController gives zero before its step time and the gain from this time on; getDerivativeU0 of a ConstantController is the derivative of its control with respect to the constant.", "quantifier": "all dimensions, all parameters, states and times", "why_tests_cant": "The value at the step time itself and updates without gain matrix are boundary cases of all states and times.", "anchors": ["ct_core/include/ct/core/control/continuous_time/ConstantStateFeedbackController.h: computeControl, updateControlLaw", "ct_core/include/ct/core/control/continuous_time/siso/StepInputController.h: computeControl", "ct_core/include/ct/core/control/continuous_time/ConstantController-impl.h: computeControl, setControl, getDerivativeU0"]}
{"id": "C169", "title": "Linear systems made by automatic differentiation return the Jacobians of their system", "statement": "At every point where the dynamics are differentiable, getDerivativeState, getDerivativeControl and getAandB of an AutoDiffLinearizer, ADCodegenLinearizer (once compiled), DiscreteSystemLinearizerAD or DiscreteSystemLinearizerADCG are the Jacobians of the (discrete) dynamics with respect to state and control at this state, control and time, whatever points were asked for before, and however many copies were made, compiled, evaluated and destroyed. An uncompiled one throws. Copies give the same Jacobians as the original.", "quantifier": "all dimensions, all differentiable dynamics, all points, all histories of constructing, compiling, evaluating, copying and destroying linear systems and of changing or releasing systems", "why_tests_cant": "Results depend on cached points, work areas and recorded functions left behind by earlier calls; tests compare at a few random points for time-invariant systems with fixed parameters, where stale or shared data cannot be seen.", "anchors": ["ct_core/include/ct/core/systems/continuous_time/linear/AutoDiffLinearizer.h: AutoDiffLinearizer, getDerivativeState, getDerivativeControl, clone", "ct_core/include/ct/core/systems/continuous_time/linear/ADCodegenLinearizer.h: ADCodegenLinearizer, compileJIT, getDerivativeState, getDerivativeControl, clone", "ct_core/include/ct/core/systems/discrete_time/linear/DiscreteSystemLinearizerAD.h: getDerivativeState, getDerivativeControl, getAandB", "ct_core/include/ct/core/systems/discrete_time/linear/DiscreteSystemLinearizerADCG.h: compileJIT, getAandB"]}
{"id": "C170", "title": "Generated classes evaluate the derivative they were generated from", "statement": "The linear system written by ADCodegenLinearizer::generateCode and the Jacobian class written by DerivativesCppadCG::generateJacobianSource return, after any history of calls, the Jacobian at the point of the last call, in the documented layout, also when assignments of zeros are left out and when a correct sparsity pattern is given. Copies of the generator generate the same code.", "quantifier": "all dimensions, all differentiable functions, all histories of calls, all correct patterns, both settings for zeros", "why_tests_cant": "Entries never assigned keep values of earlier calls or of the constructor; whether they are right depends on the pattern and the history, of which tests use the default and one call.", "anchors": ["ct_core/include/ct/core/systems/continuous_time/linear/ADCodegenLinearizer.h: generateCode", "ct_core/include/ct/core/math/DerivativesCppadCG.h: DerivativesCppadCG, clone, generateJacobianSource", "ct_core/include/ct/core/internal/autodiff/CGHelpers.h: generateJacobianSource", "ct_core/templates/LinearSystem.tpl.h: getDerivativeState, getDerivativeControl", "ct_core/templates/Jacobian.tpl.h: jacobian"]}
{"id": "C171", "title": "The discrete-time LQR solver converges to the optimal infinite-horizon feedback", "statement": "If every state can be controlled at finite total cost, DARE::computeSteadyStateRiccatiMatrix returns a result for every positive tolerance, given enough iterations; results come as close as desired to the least total cost and to the only feedback attaining it when the tolerance is made small; the limit is the smallest solution of the algebraic Riccati equation. If moreover the cost sees every motion (detectability) the limit feedback brings every state to rest and does not depend on the initial guess. If no steady state exists, the solver throws. Costs are those for the control weight the solver works with (see C41).", "quantifier": "all dimensions, all systems and weights with Q >= 0, R >= 0, all initial guesses >= 0, tolerances and iteration limits", "why_tests_cant": "Convergence, optimality over all control sequences of infinite length and stability are statements about limits; tests compare results with MATLAB for one system.", "anchors": ["ct_optcon/include/ct/optcon/lqr/riccati/DARE-impl.hpp: computeSteadyStateRiccatiMatrix", "ct_optcon/include/ct/optcon/lqr/riccati/DynamicRiccatiEquation.hpp: iterateRobust"]}
{"id": "C172", "title": "The generated linearisation of the actuated inverted pendulum is the derivative of its dynamics", "statement": "InvertedPendulumActDynLinearizedForward returns, whatever calls were made before, the derivatives with respect to state and input of the system it was generated from: FixBaseFDSystem of the inverted pendulum with a series elastic actuator of stiffness 180.9 and gear ratio 50. The pendulum itself obeys I q'' = tau + m l g sin q.", "quantifier": "all states, inputs, times and histories of calls on the generated class and the robot", "why_tests_cant": "No test uses the class; the code printed by the generator is a separate program that has to agree with the rigid body code at every state.", "anchors": ["ct_models/include/ct/models/InvertedPendulum/codegen/InvertedPendulumActDynLinearizedForward.cpp: getDerivativeState, getDerivativeControl", "ct_models/src/InvertedPendulum/codegen/InvertedPendulumWithActuatorCodeGen.cpp: main", "ct_rbd/include/ct/rbd/systems/FixBaseFDSystem.h: computeControlledDynamics"]}
{"id": "C173", "title": "The continuous-time LQR with the direct Riccati solver stabilises and is optimal", "statement": "LQR::compute with the default direct solver, for a stabilisable and detectable system with positive semi-definite Q and positive definite R, reports success. The Riccati solution is the only positive semi-definite one. With the returned feedback every motion tends to zero, its total cost is the least of all motions from that state, and no other continuous input attains it.", "quantifier": "all state and input dimensions, all weights and systems meeting the conditions, all initial states, all competing continuous inputs", "why_tests_cant": "Tests compare the gain with that of the iterative solver for one system; that the feedback stabilises and that no input does better is a statement about all systems and infinitely long motions.", "anchors": ["ct_optcon/include/ct/optcon/lqr/LQR-impl.hpp: compute", "ct_optcon/include/ct/optcon/lqr/riccati/CARE-impl.hpp: solve, solveSchurDirect, computeSteadyStateRiccatiMatrix"]}
{"id": "C174", "title": "The continuous-time LQR with the iterative Riccati solver ends with a stabilising, nearly optimal gain", "statement": "LQR::compute with the iterative solver, for a stabilisable and detectable system with positive semi-definite Q and positive definite R, inverts no singular matrix, ends after finitely many iterations, reports success, and returns a gain close to the optimal one under which every motion tends to zero.", "quantifier": "all state and input dimensions, all weights and systems meeting the conditions, all desired accuracies, all permitted numbers of iterations beyond a bound", "why_tests_cant": "Tests compare the gain with that of the direct solver for one system; termination and accuracy of an iteration for all systems cannot be sampled.", "anchors": ["ct_optcon/include/ct/optcon/lqr/LQR-impl.hpp: compute", "ct_optcon/include/ct/optcon/lqr/riccati/CARE-impl.hpp: solve, solveSchurIterative", "ct_optcon/include/ct/optcon/lqr/riccati/CARE.hpp: solveSchurIterative default arguments"]}
{"id": "C175", "title": "A complete solve returns a feasible trajectory that is no worse than the initial guess", "statement": "Setting an initial guess and calling NLOptConSolver::solve returns normally with a solution that starts in the initial state, satisfies the dynamics at every stage inside the shots (single shooting: at every stage), has the reported costs and constraint errors, is reproduced by running the returned policy, and whose merit (cost, weighted defects, weighted constraint errors) is below that of the roll-out of the guess whenever the linear-quadratic step at the guess lowers the merit, and never above it.", "quantifier": "all dynamics, costs, constraints, horizons, shot lengths, single and multiple shooting, open and closed loop, line-search types, initial guesses, numbers of iterations, and everything a linear-quadratic solver may propose in every iteration", "why_tests_cant": "Tests solve a few problems with one linear-quadratic solver and look at the cost of the result; feasibility and descent for every direction any iteration may produce cannot be sampled.", "anchors": ["ct_optcon/include/ct/optcon/solver/NLOptConSolver-impl.hpp: solve, runIteration, setInitialGuess, getSolution", "ct_optcon/include/ct/optcon/nloc/algorithms/SingleShooting-impl.hpp: prepareIteration, finishIteration", "ct_optcon/include/ct/optcon/nloc/algorithms/MultipleShooting-impl.hpp: prepareIteration, finishIteration", "ct_optcon/include/ct/optcon/nloc/NLOCBackendBase-impl.hpp: setInitialGuess, reset, nominalRollout, updateCosts, extractSolution, lineSearch, printSummary, checkProblem"]}
{"id": "C176", "title": "An iteration of iLQR or single shooting lowers the cost exactly when the trajectory is not stationary", "statement": "For a feasible trajectory of an unconstrained problem with exact derivatives, the linear-quadratic step computed by the Riccati solver is zero if and only if the gradient of the cost with respect to the controls (with the states given by the dynamics) is zero; otherwise it is a descent direction of that cost. A line search along the resulting nonlinear roll-outs that may back off often enough then accepts a step with strictly lower cost, so that the solver stops only at stationary trajectories; at a stationary trajectory it keeps the trajectory and reports that it found nothing better.", "quantifier": "all dynamics and costs differentiable along the trajectory, horizons, state and control dimensions, feasible trajectories, Hessian corrections that make the control Hessian positive definite, iLQR, open-loop and closed-loop single shooting, initial step sizes and back-off factors, numbers of line-search steps", "why_tests_cant": "Tests run a solver on an example and see it converge; that no non-stationary trajectory exists at which it gets stuck is a statement about the gradient at every trajectory of every problem.", "anchors": ["ct_optcon/include/ct/optcon/nloc/NLOCBackendBase-impl.hpp: executeLQApproximation, extractSolution, acceptStep, executeLineSearch", "ct_optcon/include/ct/optcon/solver/lqp/GNRiccatiSolver-impl.hpp: solve, designController, computeCostToGo", "ct_optcon/include/ct/optcon/nloc/NLOCBackendST-impl.hpp: performLineSearch"]}
{"id": "C177", "title": "Multiple shooting stops only at feasible stationary trajectories", "statement": "For a trajectory made of shots, the step of the linear-quadratic solver is zero if and only if the trajectory has no gaps and its controls are a stationary point of the cost. Otherwise, with a large enough weight of the gaps in the merit function (any weight above the multipliers of the linear-quadratic problem if its cost is convex), a line search that may back off often enough accepts a step that lowers cost plus weighted gaps. At a feasible stationary trajectory it keeps the trajectory and reports that nothing better was found. With the default settings of the merit function the solver therefore does not stop at a trajectory with gaps.", "quantifier": "all dynamics and costs differentiable along the trajectory, horizons, dimensions, shot lengths, gaps between shots, all seven algorithms (Gauss-Newton multiple shooting, multiple-shooting iLQR, and their single-shooting and closed-loop variants), Hessian corrections, weights, numbers of line-search steps", "why_tests_cant": "Tests run multiple shooting on a few problems from a few guesses; whether a guess exists at which the line search is stuck with gaps depends on the derivatives at every trajectory and on all step sizes.", "anchors": ["ct_optcon/include/ct/optcon/nloc/NLOCBackendBase-impl.hpp: lineSearch, executeLineSearch, acceptStep, extractSolution", "ct_optcon/include/ct/optcon/nloc/NLOCBackendBase.hpp: computeDefectsNorm, computeDiscreteArrayNorm", "ct_optcon/include/ct/optcon/solver/NLOptConSettings.hpp: meritFunctionRho", "ct_optcon/include/ct/optcon/nloc/NLOCBackendST-impl.hpp: performLineSearch"]}
{"id": "C178", "title": "Generated source files are the shipped templates with the placeholders filled in", "statement": "Writing the code of a derivative, a linear system or a discrete linear system produces a header and its source files that are the shipped templates in which exactly the whole placeholders are replaced: the class name, the two namespaces, the dimensions, the scalar type and the generated code at its place; everything else is unchanged, and no placeholder is left. For every class name and namespaces the call ends, and the written source files include the written header.", "quantifier": "all class names, namespaces, dimensions, numbers of temporaries and generated code texts that contain no placeholder", "why_tests_cant": "Tests generate one or two models with fixed names; whether a name, a number or a piece of generated code collides with a placeholder depends on all texts.", "anchors": ["ct_core/include/ct/core/internal/autodiff/CGHelpers.h: replaceAll, replaceOnce", "ct_core/include/ct/core/math/DerivativesCppadCG.h: generateJacobianSource, generateForwardZeroSource, generateHessianSource, writeCodeFile, replaceSizesAndNames", "ct_core/include/ct/core/systems/continuous_time/linear/ADCodegenLinearizer.h: generateCode, writeCodeFile", "ct_core/include/ct/core/systems/discrete_time/linear/DiscreteSystemLinearizerADCG.h: generateCode, writeCodeFile", "ct_core/templates"]}
{"id": "C179", "title": "A cost function loaded from a file is the one written in the file", "statement": "Loading a cost function from a configuration file that describes terms term0, term1, ... gives, whatever the cost function held before, the sum of the costs of exactly these terms: each with the weights, references and scaling of the file (entries not written are zero, a scaling not written is one), as an intermediate or a final term as the file says, and switched on only in the time window of the file. Terms can be retrieved under the names of the file, and mistakes in the file are reported.", "quantifier": "all configuration files, dimensions, states, inputs and times", "why_tests_cant": "Tests load two files and compare a handful of values; which of the entries are read, defaulted or dropped depends on every file.", "anchors": ["ct_optcon/include/ct/optcon/costfunction/CostFunctionAnalytical-impl.hpp: loadFromConfigFile", "ct_optcon/include/ct/optcon/costfunction/utility/utilities.hpp: loadMatrixCF, loadScalarCF, addTerm", "ct_optcon/include/ct/optcon/costfunction/term/TermBase-impl.hpp: loadTimeActivation", "ct_optcon/include/ct/optcon/costfunction/term/TermLoadMacros.hpp", "ct_optcon/include/ct/optcon/costfunction/term/TermLinear-impl.hpp: loadConfigFile"]}
{"id": "C180", "title": "Solver settings loaded from a file are those written in the file", "statement": "Loading the settings of the nonlinear optimal control solver from a section of a configuration file sets every value that is written there, under its documented key and regardless of which other keys are written, and leaves every value that is not written as it was; the same holds for the section of the line search. Names of the algorithm, the integrator, the discretization, the linear-quadratic solver and the line search select exactly the named option, and an unknown name ends the program instead of being ignored. Settings that pass the check of the settings do not lead to undefined behaviour.", "quantifier": "all configuration files, sections (at any depth) and previous settings", "why_tests_cant": "Tests load one complete file; which of the keys are read depends on the presence of others, over all files.", "anchors": ["ct_optcon/include/ct/optcon/solver/NLOptConSettings.hpp: LineSearchSettings::load, LQOCSolverSettings::load, NLOptConSettings::load, NLOptConSettings::parametersOk, NLOptConSettings::fromConfigFile", "ct_optcon/include/ct/optcon/nloc/NLOCBackendBase-impl.hpp: constructor (settings.nThreads + 1 instances)"]}
{"id": "C181", "title": "Matrices and estimator settings loaded from a file are those written in the file", "statement": "Loading a matrix from a path of a configuration file gives the entries written there, zero where nothing is written, multiplied by the scaling written there or one. Loading the settings of an estimator from a section of a file gives the matrices, the initial state and covariance, the iteration limit and the parameters written in this section.", "quantifier": "all configuration files, sections and dimensions", "why_tests_cant": "Tests of the filters do not load settings from a file; whether an entry is found depends on how the section name is combined with the key.", "anchors": ["ct_core/include/ct/core/common/InfoFileParser.h: loadScalar, loadMatrix", "ct_optcon/include/ct/optcon/filter/FilterSettings.h: StateObserverSettings::load, SteadyStateKalmanFilterSettings::load, ExtendedKalmanFilterSettings::load, UnscentedKalmanFilterSettings::load"]}
{"id": "C182", "title": "A real-time iteration prepared before the state is known gives the solution for the measured state", "statement": "In model predictive control with multiple shooting, setting a guess, preparing an iteration, setting the measured state and finishing the iteration returns what one whole step from the measured state would: the guess rolled out from the measured state, one linear-quadratic approximation of all stages around it and its full step. For affine dynamics and quadratic cost the result is the optimal trajectory from the measured state, in every call of a control loop and whatever the guesses. The size of the gaps that is reported is that of the trajectory, the box constraints handed to the solver limit the resulting controls, and all this holds for every horizon.", "quantifier": "all problems, horizons, shot lengths, guesses, gains, measured states and histories of calls", "why_tests_cant": "Whether work done in the preparation is still valid after the state is replaced depends on every array both phases touch; a test compares closed-loop behaviour of one system.", "anchors": ["ct_optcon/include/ct/optcon/nloc/algorithms/MultipleShooting-impl.hpp: prepareMPCIteration, finishMPCIteration", "ct_optcon/include/ct/optcon/nloc/NLOCBackendBase-impl.hpp: setInitialGuess, changeInitialState, reset, resetDefects, prepareSolveLQProblem, finishSolveLQProblem, extractSolution, doFullStepUpdate, setInputBoxConstraintsForLQOCProblem", "ct_optcon/include/ct/optcon/nloc/NLOCBackendST-impl.hpp: rolloutShots, computeLQApproximation", "ct_optcon/include/ct/optcon/mpc/MPC-impl.h: prepareIteration, finishIteration"]}
{"id": "C183", "title": "The multi-threaded solver computes what the single-threaded one computes", "statement": "For any number of worker threads and any scheduling of their single reads and writes of the shared arrays, the multi-threaded roll-out of shots and the multi-threaded linear-quadratic approximation over a range of stages end with exactly the states, controls, gaps and problem data that the single-threaded solver computes from the same arrays; in between no thread throws or leaves an array.", "quantifier": "all numbers of workers, all interleavings of the single accesses, all ranges, shot lengths, systems, costs and array contents, roll-outs that run into NaN included", "why_tests_cant": "A test runs a few schedules the machine happens to produce; whether workers touch each other's entries depends on every pair of accesses.", "anchors": ["ct_optcon/include/ct/optcon/nloc/NLOCBackendMP-impl.hpp: computeLQApproximation, computeLQProblemWorker, rolloutShots, rolloutShotWorker", "ct_optcon/include/ct/optcon/nloc/NLOCBackendBase-impl.hpp: rolloutSingleShot, computeSingleDefect, executeLQApproximation, initializeCostToGo", "ct_optcon/include/ct/optcon/nloc/NLOCBackendST-impl.hpp: rolloutShots, computeLQApproximation"]}
{"id": "C184", "title": "The direct multiple shooting solver runs with the settings written in the file", "statement": "After loading the settings of the multiple shooting solver from a section of a file, every setting has the value written there, optional ones keep their value if they are absent, and loading succeeds exactly if the required entries can be read. A solver created with settings that pass the check runs the chosen NLP solver with the loaded tolerances and limits; settings that make no sense are refused, and configuring again takes effect.", "quantifier": "all files, all sections, all previous settings, all conversions of texts, all problem sizes and horizons", "why_tests_cant": "A test reads one file of its own; keys that are misspelled in the code, values that are converted to another number and settings that never reach the NLP solver remain invisible as long as the defaults suit the test.", "anchors": ["ct_optcon/include/ct/optcon/dms/dms_core/DmsSettings.h: load, parametersOk", "ct_optcon/include/ct/optcon/nlp/solver/NlpSolverSettings.h: NlpSolverSettings::load, IpoptSettings::load, SnoptSettings::load, setParameterIfExists", "ct_core/include/ct/core/math/DerivativesCppadSettings.h: load", "ct_optcon/include/ct/optcon/dms/dms_core/DmsSolver.h: DmsSolver, configure, solve", "ct_optcon/include/ct/optcon/dms/dms_core/DmsProblem.h: DmsProblem", "ct_optcon/include/ct/optcon/dms/dms_core/ShotContainer.h: ShotContainer"]}
{"id": "C185", "title": "The inverse kinematics solver minimises the pose cost subject to the joint limits and returns only joint positions that satisfy both", "statement": "The problem handed to IPOPT has one variable and one constraint per joint, no bounds on the variables, the joint limits as bounds of the constraints, and the guess set last as starting point; every callback is answered with the cost, gradient, constraint values, Jacobian and lower triangle of the Hessian at the point asked about. A call makes at most the configured number of trials, starting from the guess of the user or, after the first trial if so configured, from random points within the limits. If it reports success it returns exactly one solution, which has the required pose and is within the joint limits; otherwise it returns none. The guess of the user stays as it is. A target given by a quaternion or by Euler angles is the rotation these stand for.", "quantifier": "all numbers of joints, limits, evaluators, targets, guesses, histories of calls, sequences of callbacks and results of IPOPT, random numbers and numbers of trials", "why_tests_cant": "Tests run one robot from a guess from which IPOPT converges inside the limits; evaluators used for two problems, solver runs that stop early, and guesses after a failed call do not occur in them.", "anchors": ["ct_rbd/include/ct/rbd/robot/kinematics/ik_nlp/IKNLP.h: IKNLP, setInitialGuess, getSolution", "ct_rbd/include/ct/rbd/robot/kinematics/ik_nlp/IKConstraintContainer.h: IKConstraintsContainer", "ct_rbd/include/ct/rbd/robot/kinematics/ik_nlp/JointLimitConstraints.h: JointLimitConstraints", "ct_rbd/include/ct/rbd/robot/kinematics/ik_nlp/IKCostEvaluator.h: setTargetPose, eval, evalGradient, sparseHessianValues", "ct_rbd/include/ct/rbd/robot/kinematics/ik_nlp/IKNLPSolverIpopt.h: setInitialGuess, computeInverseKinematics"]}
{"id": "C186", "title": "The quadrotor with load moves as thrust, torques, gravity and joint damping demand", "statement": "The state derivative of the controlled system, with Euler angles and with quaternions, describes the motion of the body with its two links under a thrust along the z axis of the body, torques about its axes, gravity and a damping of the two joints. The sum of kinetic and potential energy changes by the power of thrust and torques less what the damping takes. A change of thrust and torques changes the accelerations as the inertia matrix demands; more thrust accelerates the body along the thrust. Level, with hanging rod and a thrust of the weight of all bodies the robot hovers.", "quantifier": "all states away from the singularity of the Euler angles or with unit quaternions, all controls, all motions; all histories of calls and all initial memory contents", "why_tests_cant": "The existing test only constructs the system; energy balance and response hold along all motions, and the wrong response occurs only with the rod near the horizontal.", "anchors": ["ct_models/include/ct/models/QuadrotorWithLoad/QuadrotorWithLoadFDSystem.h: computeControlledDynamics, mapControlInputsToLinkForces, RBDStateFromVector, toStateDerivative", "ct_models/include/ct/models/QuadrotorWithLoad/generated/forward_dynamics.impl.h: fd"]}
{"id": "C187", "title": "The code-generated task-space pose term evaluates and differentiates the cost of the pose for the references given last", "statement": "However the term was constructed (quaternion, Euler angles, no target, file) and whatever was called since (references set, evaluations of any kind, copies, set up again, files loaded), its value is the cost of the plain task-space pose term for the same weights and the references given last, times the activation for eval; the getters return those references. Its derivatives with respect to the state are gradient and Hessian of that value, its derivatives with respect to the control are zero with either value of the flag. Files without an end effector, weight of the orientation, flag or orientation are rejected, a failed load leaves the term as it was, a rotation matrix given to a constructor is the reference, a class that overrides setStateFromVector gets its own state, and a default-constructed term can be copied.", "quantifier": "all robots whose end effectors can be looked up and move smoothly (shown for the five robots of the repository), fixed and floating base; all weights, references, states, controls, times; all histories of calls; all contents of memory before construction; all files", "why_tests_cant": "The unit test compares derivatives with finite differences at random points for one robot and one constructor and checks that the cost changes with the reference; it has no histories of calls, no copies, no files without an orientation and no derived classes.", "anchors": ["ct_rbd/include/ct/rbd/robot/costfunction/TermTaskspacePoseCG.hpp: TermTaskspacePoseCG, setup, evaluate, stateDerivative, controlDerivative, stateSecondDerivative, controlSecondDerivative, stateControlDerivative, loadConfigFile, setReferencePosition, setReferenceOrientation, getReferencePosition, getReferenceOrientation, setStateFromVector", "ct_core/include/ct/core/math/DerivativesCppadJIT-impl.h: recordCg, compileJIT, forwardZero, jacobian, hessian", "ct_optcon/include/ct/optcon/costfunction/utility/utilities.hpp: loadMatrixCF, loadScalarCF"]}
{"id": "C188", "title": "The robot front ends pass initial guesses to the solver and hand out its results", "statement": "Whatever was called before, initialising a robot problem with a horizon and a guess that is long enough succeeds, and the front end then shows states, controls and gains of that guess for every stage, starting at the given robot state; a steady pose shows the given state throughout, an interpolated guess runs from the initial to the final state. A guess that is too short is reported and leaves no undefined data behind; the default arguments work. States, controls, gains and times handed out are those of the solver.", "quantifier": "all states of the solver, horizons, robots, robot states, guesses of all lengths, gains and numbers of points", "why_tests_cant": "The example program uses matching sizes and never reads the time array; which memory a dangling reference names changes from run to run.", "anchors": ["ct_rbd/include/ct/rbd/nloc/FixBaseNLOC-impl.h: initializeSteadyPose, initializeDirectInterpolation, getSolution, getTimeArray, getFeedbackArray, getControlVectorArray, getStateVectorArray", "ct_rbd/include/ct/rbd/nloc/FloatingBaseNLOCContactModel-impl.h: initialize, getTimeArray, getStateVectorArray, getControlVectorArray, getFeedbackArray", "ct_optcon/include/ct/optcon/nloc/NLOCBackendBase-impl.hpp: setInitialGuess, changeTimeHorizon, changeInitialState, getSolution, getStateTrajectory"]}
{"id": "C189", "title": "Sensitivities of a shot computed from the logs are the derivatives of the integrated states", "statement": "Given the logged times and Jacobians of an Euler or fourth-order Runge-Kutta integration, the histories returned for the initial state and for the control nodes at both ends of the shot are, at every step, the exact derivatives of the state computed by that scheme, for piecewise linear and for held controls; the sensitivities to the durations are provided as well, and every integration type of the settings is served or refused with an exception.", "quantifier": "all differentiable dynamics, dimensions, time grids (also non-uniform), numbers of steps, initial states, nodes and previous calls", "why_tests_cant": "The class is compiled into no test; a comparison with finite differences on one system does not fix the weights and evaluation times for non-uniform grids and time-varying dynamics.", "anchors": ["ct_optcon/include/ct/optcon/dms/dms_core/RKnDerivatives.h: RKnDerivatives, setLogs, compute_dXdSi, compute_dXdQi, compute_dXdQip1, getdXdSiTraj, getdXdQiTraj, getdXdQip1Traj, getdXdHiTraj"]}
{"id": "C190", "title": "Every link of the shipped robots is a body that can exist", "statement": "The mass, centre of mass, moments and products of inertia that the dynamics use for a link are those of some distribution of masses none of which is negative; in particular no moment of inertia about the centre of mass exceeds the sum of the other two and the moments cover the contribution of the mass at the centre of mass.", "quantifier": "all links of the five robots and all distributions of masses; all initial memory contents", "why_tests_cant": "A test can only compare the constants with themselves; whether any distribution of mass has them ranges over all distributions.", "anchors": ["ct_models/include/ct/models/InvertedPendulum/generated/inertia_properties.impl.h: InertiaProperties", "ct_models/include/ct/models/DoubleInvertedPendulum/generated/inertia_properties.impl.h: InertiaProperties", "ct_models/include/ct/models/HyA/generated/inertia_properties.impl.h: InertiaProperties", "ct_models/include/ct/models/QuadrotorWithLoad/generated/inertia_properties.impl.h: InertiaProperties", "ct_models/include/ct/models/HyQ/generated/inertia_properties.impl.h: InertiaProperties"]}
{"id": "C191", "title": "The centre of mass of the whole robot is that of the links the dynamics use", "statement": "For the five shipped robots getWholeBodyCOM, given joint positions, returns the centre of mass of all moving links (and, for a floating base, the base) in base coordinates at these positions: the total mass times the result is the sum of the moments of the masses any links with the spatial inertias of the dynamics consist of. It does not matter with which positions the transforms were called before, and calling it without positions afterwards returns the same.", "quantifier": "all joint positions, all distributions of masses having the links' spatial inertias, all earlier calls of the transforms, all initial memory contents", "why_tests_cant": "The repository has no test of it; a test compares single positions with numbers from the same generator, while a wrong link order or stale transform shows only for other positions or histories.", "anchors": ["ct_models/include/ct/models/InvertedPendulum/generated/miscellaneous.cpp: getWholeBodyCOM", "ct_models/include/ct/models/DoubleInvertedPendulum/generated/miscellaneous.cpp: getWholeBodyCOM", "ct_models/include/ct/models/HyA/generated/miscellaneous.cpp: getWholeBodyCOM", "ct_models/include/ct/models/QuadrotorWithLoad/generated/miscellaneous.cpp: getWholeBodyCOM", "ct_models/include/ct/models/HyQ/generated/miscellaneous.cpp: getWholeBodyCOM", "ct_models/include/ct/models/HyQ/generated/inertia_properties.h: getTotalMass", "ct_rbd/include/ct/iit/rbd/utils.h: Utils::transform"]}
{"id": "C192", "title": "Contact points of a robot in contact stay where they are", "statement": "Along every solution of the system of a floating-base robot in contact (ProjectedFDSystem), every end effector configured to be in contact moves in the world with constant velocity: the one it has initially. In particular, an end effector that is at rest at the beginning stays where it is, whatever the joint torques are over time and whatever earlier calls left in the dynamics object. With quaternions it suffices that the initial orientation is a unit quaternion.", "quantifier": "all solutions of the system for all torques over time, all numbers of joints and end effectors, all contact configurations, all kinematic chains, both representations of the orientation, all earlier contents of the work memory; regular mass matrix and contacts along the motion; Euler angles away from their singularity", "why_tests_cant": "The test in the repository integrates ten random states of one robot for 50 ms without torques and compares foot velocities up to 1e-6; drift below that, other robots, torques, histories and longer times are not settled by it.", "anchors": ["ct_rbd/include/ct/rbd/systems/ProjectedFDSystem.h: ProjectedFDSystem::computeControlledDynamics, RBDStateFromVector, toStateDerivative", "ct_rbd/include/ct/rbd/robot/Dynamics.h: Dynamics::ProjectedForwardDynamics", "ct_rbd/include/ct/rbd/robot/ProjectedDynamics.h: ProjectedDynamics::ProjectedForwardDynamics, ProjectedForwardDynamicsCommon, setContactConfiguration", "ct_rbd/include/ct/rbd/robot/Kinematics.h: Kinematics::getEEPositionInWorld"]}
{"id": "C193", "title": "The generated Jacobians of the feet of HyQ are the derivatives of the kinematics", "statement": "The two generated classes for the Jacobian of the foot positions and velocities of HyQ, one derived in forward and one in reverse mode, return at every state the partial derivatives of what the kinematics of HyQ return for the positions and velocities of its four feet in the world, with respect to each of the 36 coordinates of the state; hence they agree with each other in every entry.", "quantifier": "all states (also singular Euler angles), all feet, all rows and columns, all earlier uses of the objects for transforms and Jacobians", "why_tests_cant": "The comparison in the repository prints differences of 10000 random states with all coordinates between -1 and 1, relative to the norm of the whole matrix and up to 1e-5 against numerical derivatives; it is a program to be run by hand, and a small wrong entry, or one wrong only for larger angles, is not seen.", "anchors": ["ct_models/include/ct/models/HyQ/codegen/HyQForwardKinJacForward.cpp: HyQForwardKinJacForward::jacobian", "ct_models/include/ct/models/HyQ/codegen/HyQForwardKinJacReverse.cpp: HyQForwardKinJacReverse::jacobian", "ct_models/src/HyQ/codegen/helperFunctions.h: hyqForwardKinematics", "ct_rbd/include/ct/rbd/robot/Kinematics.h: Kinematics::getEEPositionInWorld, getEEVelocityInWorld"]}
{"id": "C194", "title": "Generated Hessian classes return the weighted Hessian", "statement": "The class written by DerivativesCppadCG::generateHessianSource returns from hessian(x, w), after any earlier calls, the matrix of second derivatives at x of the outputs weighted by w, for every number of inputs and outputs; in particular, the shipped class for the Hessian of the inverse dynamics of HyA can be called with its 12 states and 6 weights.", "quantifier": "all numbers of inputs and outputs, all functions of which the library records the Hessian, all points and weights, all histories of calls, both settings for zeros", "why_tests_cant": "The repository generates the source of a Hessian in a test but does not compile or call it, and no test calls the shipped class; a test with as many outputs as inputs would pass.", "anchors": ["ct_core/include/ct/core/internal/autodiff/CGHelpers.h: CGHelpers::generateHessianSource", "ct_core/include/ct/core/math/DerivativesCppadCG.h: DerivativesCppadCG::generateHessianSource", "ct_core/templates/Hessian.tpl.cpp: hessian", "ct_models/include/ct/models/HyA/codegen/HyAInverseDynHessian.cpp: HyAInverseDynHessian::hessian"]}
{"id": "C195", "title": "A numerically linearised system returns the difference quotients of its system in all rows", "statement": "Whatever was called before, a SystemLinearizer or DiscreteSystemLinearizer returns, for state and control, the difference quotients of the dynamics of the system it was given, as that system is now; a copy uses a system of its own, equal to that of the original when it was copied. This holds in every row, also for systems that call themselves second-order, of which the first half of the state is not differentiated. For dynamics affine in state and control the results are their matrices. A null pointer is rejected with an exception.", "quantifier": "all systems of any dimensions, continuous or discrete time, both schemes, all points and times; all histories of systems made and changed, linearizers made, copied and called", "why_tests_cant": "The tests compare the results with automatic differentiation for one oscillator at random points; they have no system with actuators that calls itself second-order, do not change systems after linearizers were copied and hand over no null pointer.", "anchors": ["ct_core/include/ct/core/systems/continuous_time/linear/SystemLinearizer.h: SystemLinearizer, getDerivativeState, getDerivativeControl", "ct_core/include/ct/core/systems/discrete_time/linear/DiscreteSystemLinearizer.h: DiscreteSystemLinearizer, getDerivativeState, getDerivativeControl, getAandB", "ct_rbd/include/ct/rbd/systems/FixBaseFDSystemSymplectic.h: FixBaseFDSystemSymplectic", "ct_core/include/ct/core/systems/continuous_time/SecondOrderSystem.h: SecondOrderSystem"]}
{"id": "C196", "title": "The system made of the generated dynamics of HyQ moves its base and joints as its velocities say", "statement": "For every state of HyQ without singular Euler angles, the generated forward dynamics return as derivatives of the positions those with which the orientation of the base turns at its angular velocity, its position moves with its linear velocity turned into the world, and the joints move with their velocities. The symplectic system made of them, which takes the derivative of the positions from other code, therefore has the derivative that the generated function returns for state and control, also in the steps of symplectic integrators, where positions and velocities are taken from different states.", "quantifier": "all states with Euler angles that are not singular, all controls, all replaced halves; all accelerations computed by the rest of the generated function", "why_tests_cant": "No test runs the generated forward dynamics; a program to be run by hand compares them with the handwritten system at random states, with a tolerance, and does not use the symplectic system.", "anchors": ["ct_models/include/ct/models/HyQ/codegen/HyQForwardZero.cpp: HyQForwardZero::forwardZero", "ct_models/include/ct/models/HyQ/codegen/HyQContactModelForwardZeroSystem.h: HyQContactModelForwardZeroSystem, computePdot, computeVdot", "ct_core/include/ct/core/systems/continuous_time/SymplecticSystem.h: SymplecticSystem::computeControlledDynamics"]}
{"id": "C197", "title": "Adaptive integration keeps to the tolerances that were set and to the type that was chosen", "statement": "Whatever was called before, integrate_adaptive runs the method of the integration type chosen last; types with variable step size adjust it to the error tolerances set last, so that a step is accepted exactly if the estimated error of every component is at most the absolute tolerance plus the relative tolerance times the size of the component; the other types run with a fixed step size. Types for which there is no method are refused.", "quantifier": "all integration types, all histories of changing the type and setting tolerances, all tolerances; all states, derivatives and estimated errors of any dimension", "why_tests_cant": "The tests integrate an oscillator that never rests with the tolerances of new integrators and compare with the analytic solution; steps that are much smaller than necessary pass. They set no tolerances, change no types and do not use integrate_adaptive with the own steppers.", "anchors": ["ct_core/include/ct/core/integration/Integrator.h: IntegrationType, initializeAdaptiveSteppers, initializeODEIntSteppers, integrate_adaptive", "ct_core/include/ct/core/integration/Integrator-impl.h: Integrator, changeIntegrationType, setApadativeErrorTolerances, initializeCTSteppers, integrate_adaptive", "ct_core/include/ct/core/integration/internal/StepperBase.h: StepperBase, setAdaptiveErrorTolerances", "ct_core/include/ct/core/integration/internal/SteppersODEInt.h: StepperODEInt, StepperODEIntDenseOutput, StepperODEIntControlled", "ct_core/include/ct/core/integration/eigenIntegration.h: operator+, operator/, abs, vector_space_norm_inf"]}
{"id": "C198", "title": "Integrators and their copies record the trajectories of their systems", "statement": "Whatever a program did before with integrators, integrating with recording returns the point after each step of the system which the integrator was made for, and the final state. A copy does so for the same system as the original, whether the original still lives or not.", "quantifier": "all programs that make, copy, destroy and use integrators in any order; all systems, schemes, states, times and numbers of steps", "why_tests_cant": "The tests copy no integrators. The functions stored in an integrator refer to the object they were made in; what a copy does depends on which objects live and on what was called before, and running a dangling reference can give the expected numbers by chance.", "anchors": ["ct_core/include/ct/core/integration/Integrator.h: Integrator", "ct_core/include/ct/core/integration/Integrator-impl.h: Integrator, setupSystem, integrate_n_steps, retrieveTrajectoriesFromObserver", "ct_core/include/ct/core/integration/Observer.h: Observer", "ct_core/include/ct/core/integration/Observer-impl.h: Observer, log, reset", "ct_core/include/ct/core/integration/internal/SteppersCT.h: integrate_n_steps"]}
{"id": "C199", "title": "System models of filters advance with the control they are given", "statement": "Asked to advance a state with a control, the continuous-time system model of a filter returns one step of the integration of its system under that constant control, also when the system is used by other system models or has been given a controller.", "quantifier": "all programs that make systems and system models, set controllers and advance states in any order; all systems, schemes, states, controls and times", "why_tests_cant": "The effect depends on the order in which objects that share a system were made. A filter with the wrong control still runs and is corrected by measurements; tests with one model per system cannot see it.", "anchors": ["ct_optcon/include/ct/optcon/filter/CTSystemModel-impl.h: CTSystemModel, computeDynamics", "ct_core/include/ct/core/systems/continuous_time/ControlledSystem.h: setController, computeDynamics", "ct_core/include/ct/core/control/continuous_time/ConstantController-impl.h: ConstantController, setControl"]}
{"id": "C200", "title": "Swapping linear control laws exchanges them", "statement": "Calling swap for two linear control laws exchanges them: afterwards each has the times, the feedforward, its increments and the gains which the other one had. After any sequence of calls the laws are permuted accordingly.", "quantifier": "all sets of control laws of all lengths, all sequences of calls, including those of an object with itself", "why_tests_cant": "The repository has no test or caller of these classes. Laws on the same times, the usual choice in a test, are exchanged correctly.", "anchors": ["ct_core/include/ct/core/control/continuous_time/mimo/LinearFunctions.h: LinearFunctionMIMO::swap, GeneralLinearFunction::swap", "ct_core/include/ct/core/types/arrays/DiscreteArray.h: swap"]}
{"id": "C201", "title": "The summary of a solver describes the iterations of the current solve", "statement": "NLOCBackendBase::getSummary returns one row for every iteration completed since the solver was last restarted by a new initial guess, a new initial state or new settings. The rows are numbered 0, 1, 2, ... All columns have the same length, and each row holds the norms, errors, costs, step size and eigenvalue of its iteration, the total cost and the merit with the weights then in force.", "quantifier": "all sequences of completed and failed iterations, initial guesses, initial states and settings, all values found by the iterations, all weights", "why_tests_cant": "The tests of the repository read the first and last rows of new solvers after two iterations. The first solve of every solver is reported correctly, later ones are not.", "anchors": ["ct_optcon/include/ct/optcon/nloc/NLOCBackendBase-impl.hpp: printSummary, reset, getSummary, setInitialGuess, changeInitialState, configure", "ct_optcon/include/ct/optcon/nloc/NLOCResults.hpp: SummaryAllIterations", "ct_optcon/include/ct/optcon/mpc/MPC-impl.h: prepareIteration, finishIteration"]}
