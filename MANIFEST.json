{
 "claims": [
  {
   "property": "C01",
   "status": "partial",
   "theorems": [
    "CT.Interp.C01_findIndex_active",
    "CT.Interp.C01_findIndex_cache_irrelevant",
    "CT.Interp.C01_history_independent_partial",
    "CT.Interp.C01_assignment_partial",
    "CT.Interp.C01_violated"
   ],
   "note": "Proved for every history in which the index of a time is never requested from an empty trajectory; C01_violated shows that such a request poisons the object. The index search itself is characterised outright."
  },
  {
   "property": "C02",
   "status": "proved",
   "theorems": [
    "CT.Interp.C02_at_stamp",
    "CT.Interp.C02_before_first",
    "CT.Interp.C02_after_last",
    "CT.Interp.C02_between",
    "CT.Interp.C02_bounded",
    "CT.Interp.C02_inconsistent_throws"
   ],
   "note": "All four regions, bounds for scalar data, exceptions on inconsistent data."
  },
  {
   "property": "C03",
   "status": "proved",
   "theorems": [
    "CT.Interp.C03_step",
    "CT.Interp.C03_history",
    "CT.Interp.C03_exception_unchanged",
    "CT.Interp.C03_sorted"
   ],
   "note": "Refinement to a list of (stamp, sample) pairs for every defined history; calls whose precondition fails (pop_back on empty, erasing too much) are the undefined outcome."
  },
  {
   "property": "C04",
   "status": "proved",
   "theorems": [
    "CT.Interp.C04_shift_eval",
    "CT.Interp.C04_shift_duration",
    "CT.Interp.C04_shift_add"
   ],
   "note": "Holds for arbitrary (also unsorted) contents."
  },
  {
   "property": "C05",
   "status": "proved",
   "theorems": [
    "CT.Arrays.C05_add_elementwise",
    "CT.Arrays.C05_sub_elementwise",
    "CT.Arrays.C05_add_sub_cancel",
    "CT.Arrays.C05_assign_agrees",
    "CT.Arrays.C05_erase_offset",
    "CT.Arrays.C05_scale_divide",
    "CT.Arrays.C05_scale_elementwise"
   ],
   "note": ""
  },
  {
   "property": "C06",
   "status": "proved",
   "theorems": [
    "CT.Arrays.C06_entries",
    "CT.Arrays.C06_increasing",
    "CT.Arrays.C06_linspace"
   ],
   "note": "Over an arbitrary field of characteristic zero (no rounding)."
  },
  {
   "property": "C07",
   "status": "proved",
   "theorems": [
    "CT.Switching.C07_tiling",
    "CT.Switching.C07_unique_phase",
    "CT.Switching.C07_lookup",
    "CT.Switching.C07_switch_event",
    "CT.Switching.C07_switch_event_last_undefined"
   ],
   "note": "Non-negative durations suffice. Querying the next switch event in the last phase is undefined behaviour (C07_switch_event_last_undefined)."
  },
  {
   "property": "C08",
   "status": "proved",
   "theorems": [
    "CT.Switching.C08_switched_dynamics",
    "CT.Switching.C08_switched_closed_loop",
    "CT.Switching.C08_switched_linear",
    "CT.Switching.C08_switched_discrete_linear"
   ],
   "note": "Continuous, discrete, linear, discrete linear (matrices, next state and copies) and closed-loop versions; mode indices must be within the vector of subsystems."
  },
  {
   "property": "C09",
   "status": "partial",
   "theorems": [
    "CT.Timer.C09_elapsed_partial",
    "CT.Timer.C09_violated"
   ],
   "note": "Proved for start ... stop sequences after any history and for untouched timers; C09_violated: stop without start reports the absolute time stamp (this is what MPC runs into, see C31)."
  },
  {
   "property": "C10",
   "status": "partial",
   "theorems": [
    "CT.Activation.C10_single_window",
    "CT.Activation.C10_linear_ramp",
    "CT.Activation.C10_periodic_window_partial",
    "CT.Activation.C10_periodic_repeats_partial",
    "CT.Activation.C10_violated"
   ],
   "note": "Single and linear windows in full; periodic windows for activations configured from a file. C10_violated: the value constructor leaves the end time uninitialised."
  },
  {
   "property": "C11",
   "status": "partial",
   "theorems": [
    "CT.Quantization.C11_quantisation_accounting_partial",
    "CT.Quantization.C11_identifier_zero_defined_partial",
    "CT.Quantization.C11_violated"
   ],
   "note": "Accounting proved for every history without undefined behaviour; C11_violated: the table of remainders is never large enough for identifiers other than 0, nor after reset. Unbounded integers instead of int."
  },
  {
   "property": "C12",
   "status": "proved",
   "theorems": [
    "CT.PID.C12_command_within_limits",
    "CT.PID.C12_integral_within_bound",
    "CT.PID.C12_unsaturated_law"
   ],
   "note": "Real/rational arithmetic instead of floating point."
  },
  {
   "property": "C13",
   "status": "proved",
   "theorems": [
    "CT.PID.C13_reset_is_fresh",
    "CT.PID.C13_in_force"
   ],
   "note": ""
  },
  {
   "property": "C14",
   "status": "proved",
   "theorems": [
    "CT.StateFeedback.C14_update_rejects_inconsistent",
    "CT.StateFeedback.C14_policy",
    "CT.StateFeedback.C14_discrete_policy"
   ],
   "note": "Over all histories of evaluations and updates; stages outside the discrete-time policy are undefined."
  },
  {
   "property": "C15",
   "status": "partial",
   "theorems": [
    "CT.Integration.C15_n_steps_on_grid",
    "CT.Integration.C15_n_steps_compose",
    "CT.Integration.C15_recorded_trajectory_partial",
    "CT.Integration.C15_violated"
   ],
   "note": "Grid, step count and composition in full; C15_violated: the built-in steppers record n states instead of n+1 (the initial state is never recorded)."
  },
  {
   "property": "C16",
   "status": "proved",
   "theorems": [
    "CT.Integration.C16_euler",
    "CT.Integration.C16_rk4_polynomial",
    "CT.Integration.C16_rk4_linear"
   ],
   "note": "RK4: exact on quadratures up to degree 3 and equal to the degree-4 Taylor polynomial on linear systems, plus the defining formulas. Field arithmetic instead of floating point."
  },
  {
   "property": "C17",
   "status": "proved",
   "theorems": [
    "CT.Integration.C17_max_steps",
    "CT.Integration.C17_kill",
    "CT.Integration.C17_completes_iff"
   ],
   "note": "The handlers are driven by the observer of the fixed-step loop."
  },
  {
   "property": "C18",
   "status": "proved",
   "theorems": [
    "CT.Symplectic.C18_update_order",
    "CT.Symplectic.C18_step_bijective",
    "CT.Symplectic.C18_linear_volume",
    "CT.Symplectic.C18_volume_preserving"
   ],
   "note": "Semantics of boost::odeint symplectic_euler is part of the trusted base (the order of the two half updates)."
  },
  {
   "property": "C19",
   "status": "partial",
   "theorems": [
    "CT.Sens.C19_forward_euler",
    "CT.Sens.C19_backward_euler_partial",
    "CT.Sens.C19_backward_euler_violated",
    "CT.Sens.C19_tustin_partial",
    "CT.Sens.C19_tustin_violated",
    "CT.Sens.C19_symplectic_euler"
   ],
   "note": "Forward and symplectic Euler in full for nonlinear time-varying systems; backward Euler for state-independent Jacobians; Tustin only up to a factor two of the step. Violations shown for backward Euler (Jacobian at the wrong end of the step) and Tustin (dt instead of dt/2)."
  },
  {
   "property": "C20",
   "status": "partial",
   "theorems": [
    "CT.Sens.C20_time_invariant_partial",
    "CT.Sens.C20_single_step_partial",
    "CT.Sens.C20_violated",
    "CT.Sens.C20_symplectic_partial",
    "CT.Sens.C20_symplectic_violated"
   ],
   "note": "Time-invariant nonlinear systems with any number of sub-steps, time-varying ones with one sub-step, symplectic stepping of linear systems. C20_violated: all sub-steps use the time of the first; C20_symplectic_violated: the recorder stores states after, not before, each symplectic step."
  },
  {
   "property": "C21",
   "status": "partial",
   "theorems": [
    "CT.Simulation.C21_period_partial",
    "CT.Simulation.C21_violated",
    "CT.Simulation.C21_construction"
   ],
   "note": "Proved when the simulation step divides the control step; C21_violated: otherwise the residual step has the length of the fraction rather than fraction times simulation step."
  },
  {
   "property": "C22",
   "status": "proved",
   "theorems": [
    "CT.Inverses.C22_lu_factors",
    "CT.Inverses.C22_lu_pivots",
    "CT.Inverses.C22_lu_solve",
    "CT.Inverses.C22_ldlt_factors",
    "CT.Inverses.C22_ldlt_pivots",
    "CT.Inverses.C22_ldlt_solve",
    "CT.Inverses.C22_posdef_solve"
   ],
   "note": "Non-zero pivots are characterised by non-zero leading principal minors; positive definite matrices as corollary. Exact field arithmetic."
  },
  {
   "property": "C23",
   "status": "proved",
   "theorems": [
    "CT.NumDiff.C23_double_sided",
    "CT.NumDiff.C23_forward",
    "CT.NumDiff.C23_forward_error",
    "CT.NumDiff.C23_linearizer",
    "CT.NumDiff.C23_consistent"
   ],
   "note": "Exact arithmetic; convergence over the reals."
  },
  {
   "property": "C24",
   "status": "partial",
   "theorems": [
    "CT.SecondOrder.C24_equilibrium",
    "CT.SecondOrder.C24_law",
    "CT.SecondOrder.C24_dissipates",
    "CT.SecondOrder.C24_parameters",
    "CT.SecondOrder.C24_spring_partial",
    "CT.SecondOrder.C24_spring_violated"
   ],
   "note": "Equilibrium, documented law and dissipation proved; the spring-mass-damper constructor obeys its law exactly when d = 0 or k m = 1 (C24_spring_partial), witness in C24_spring_violated."
  },
  {
   "property": "C25",
   "status": "partial",
   "theorems": [
    "CT.LTI.C25_controllability",
    "CT.LTI.C25_observability_violated",
    "CT.LTI.C25_observability_partial",
    "CT.LTI.C25_observability_test_partial"
   ],
   "note": "Controllability proved outright. C25_observability_violated: for every n >= 2 the observability computation writes outside the matrix; only n = 1 works (C25_observability_partial, C25_observability_test_partial)."
  },
  {
   "property": "C26",
   "status": "partial",
   "theorems": [
    "CT.Cppad.C26_distinct_partial",
    "CT.Cppad.C26_sections_partial",
    "CT.Cppad.C26_violated"
   ],
   "note": "Proved while the distinct threads are at most the configured number and their ids hash to distinct values; C26_violated: one thread more always shares number 0 with the first."
  },
  {
   "property": "C27",
   "status": "proved",
   "theorems": [
    "CT.Mpc.C27_window",
    "CT.Mpc.C27_delay"
   ],
   "note": "For histories of prepare/finish/reset that do not start with finish, with a clock that never runs backwards and non-negative delay settings; the solver is represented by the horizon it reports."
  },
  {
   "property": "C28",
   "status": "partial",
   "theorems": [
    "CT.Mpc.C28_nonneg",
    "CT.Mpc.C28_modes",
    "CT.Mpc.C28_antitone",
    "CT.Mpc.C28_remaining_partial",
    "CT.Mpc.C28_remaining_violated"
   ],
   "note": "Values, end report and monotonicity of all four modes proved; C28_remaining_violated: in fixed-final-time mode the time since the last solve is charged twice."
  },
  {
   "property": "C29",
   "status": "partial",
   "theorems": [
    "CT.PolicyHandler.C29_lround",
    "CT.PolicyHandler.C29_warm_start_partial",
    "CT.PolicyHandler.C29_extension_violated"
   ],
   "note": "Samples and sizes in all cases, stamps when nothing is appended; C29_extension_violated: appended stages are all stamped dt (absolute instead of relative time)."
  },
  {
   "property": "C30",
   "status": "proved",
   "theorems": [
    "CT.PolicyHandler.C30_truncate"
   ],
   "note": ""
  },
  {
   "property": "C31",
   "status": "partial",
   "theorems": [
    "CT.Mpc.C31_stamp_partial",
    "CT.Mpc.C31_first_violated",
    "CT.Mpc.C31_first_internal_violated"
   ],
   "note": "Proved for external timing after the first iteration; C31_first_violated and C31_first_internal_violated: the first policy is stamped 2*x_ts (external) or x_ts plus the clock reading (defaults)."
  },
  {
   "property": "C32",
   "status": "proved",
   "theorems": [
    "CT.Constraints.C32_component",
    "CT.Constraints.C32_vector",
    "CT.Constraints.C32_container"
   ],
   "note": ""
  },
  {
   "property": "C33",
   "status": "partial",
   "theorems": [
    "CT.Constraints.C33_history",
    "CT.Constraints.C33_jacobians_partial",
    "CT.Constraints.C33_terminal_jacobian_violated"
   ],
   "note": "Evaluation, counts, bounds: all histories. C33_terminal_jacobian_violated: the terminal state Jacobians check the intermediate flag, so use before initialisation is not reported and up-to-date ones can be refused."
  },
  {
   "property": "C34",
   "status": "partial",
   "theorems": [
    "CT.Constraints.C34_container",
    "CT.Constraints.C34_default_partial",
    "CT.Constraints.C34_default_violated",
    "CT.Constraints.C34_box",
    "CT.Constraints.C34_terminal"
   ],
   "note": "Containers, box and terminal terms proved; default terms only for one row or one column. C34_default_violated: for two or more rows and columns values are column-major, the pattern row-major."
  },
  {
   "property": "C35",
   "status": "proved",
   "theorems": [
    "CT.Constraints.C35_sparse",
    "CT.Constraints.C35_dense",
    "CT.Constraints.C35_terms",
    "CT.Constraints.C35_terminal_state"
   ],
   "note": "The 0/1 and length assertions on the sparsity vector are preconditions."
  },
  {
   "property": "C36",
   "status": "proved",
   "theorems": [
    "CT.Cost.C36_terms",
    "CT.Cost.C36_smooth_abs"
   ],
   "note": "Fréchet derivatives, arbitrary weights; smooth abs needs a non-zero smoothing parameter."
  },
  {
   "property": "C37",
   "status": "partial",
   "theorems": [
    "CT.Cost.C37_derivatives",
    "CT.Cost.C37_point",
    "CT.Cost.C37_value_partial",
    "CT.Cost.C37_violated",
    "CT.Cost.C37_terminal"
   ],
   "note": "Violated: the activation is applied twice to the value and once to the derivatives. Proved for activations with value 0 or 1; derivatives are those of the documented cost for every activation; terminal costs consistent."
  },
  {
   "property": "C38",
   "status": "proved",
   "theorems": [
    "CT.Riccati.C38_optimal",
    "CT.Riccati.C38_cost_to_go",
    "CT.Riccati.C38_convex",
    "CT.Riccati.C38_clamped",
    "CT.Riccati.C38_fixed_correction"
   ],
   "note": "Optimality and uniqueness over all control sequences, cost-to-go at every stage >= 1 (the code does not compute it at stage 0), a version with hypotheses on the problem data only, and what is minimised when the Hessians are regularised. LLT solve and eigendecomposition are trusted to be exact."
  },
  {
   "property": "C39",
   "status": "partial",
   "theorems": [
    "CT.Riccati.C39_split",
    "CT.Riccati.C39_long_shot_violated"
   ],
   "note": "Equality of all arrays for every split point up to the number of stages, also when the data before the split change in between. Violated (undefined access) when there are more steps per shot than stages, which the settings check accepts."
  },
  {
   "property": "C40",
   "status": "proved",
   "theorems": [
    "CT.Lqr.C40_iterative",
    "CT.Lqr.C40_schur",
    "CT.Lqr.C40_gain"
   ],
   "note": "Sign-function solver: every iterate commutes with the Hamiltonian, so an exact final solve gives a solution of the CARE. Schur solver: from an invariant subspace. Also the HJB identity for the returned gain. The LAPACK Schur reordering and the LU solve are assumed as stated in the hypotheses. Existence, stability and optimality for the direct solver are C173. Convergence of the iterative solver is C174."
  },
  {
   "property": "C41",
   "status": "partial",
   "theorems": [
    "CT.Lqr.C41_naive_step",
    "CT.Lqr.C41_robust_is_regularised",
    "CT.Lqr.C41_finite_horizon_partial",
    "CT.Lqr.C41_weights_violated",
    "CT.Lqr.C41_fixed_point_partial",
    "CT.Lqr.C41_fixed_point_violated",
    "CT.Lqr.C41_dare_partial",
    "CT.Lqr.C41_large_tolerance_violated"
   ],
   "note": "The plain recursion is optimal. The robust recursion used by DARE and FHDTLQR is exactly the plain one for the weight R + eps I, so everything holds for that weight; proved not to hold for R itself (scalar witnesses). DARE returns its initial guess for tolerances above 1. Convergence of the iteration is C171."
  },
  {
   "property": "C42",
   "status": "proved",
   "theorems": [
    "CT.Filter.C42_psd",
    "CT.Filter.C42_minimum_variance"
   ],
   "note": "Invariant over arbitrary call sequences; minimum-variance gain and its uniqueness via the dual Riccati step. Needs non-degenerate measurement noise, as the code inverts the innovation covariance."
  },
  {
   "property": "C43",
   "status": "partial",
   "theorems": [
    "CT.Filter.C43_weights",
    "CT.Filter.C43_transform",
    "CT.Filter.C43_predict_partial",
    "CT.Filter.C43_update_partial",
    "CT.Filter.C43_uninitialised_violated",
    "CT.Filter.C43_update_violated"
   ],
   "note": "Weights, transform and prediction are exact for affine maps once computeWeights was called. Proved violations: no constructor and no call computes the weights, so a constructed filter reads uninitialised members; the correction ignores the process noise (sigma points are not redrawn)."
  },
  {
   "property": "C44",
   "status": "proved",
   "theorems": [
    "CT.Nlp.C44_values",
    "CT.Nlp.C44_jacobian",
    "CT.Nlp.C44_diagonal",
    "CT.Nlp.C44_block"
   ],
   "note": "Stacking of values, bounds, Jacobian values and pattern for all lists of constraints that return what they report; index helpers."
  },
  {
   "property": "C45",
   "status": "proved",
   "theorems": [
    "CT.Dms.C45_blocks",
    "CT.Dms.C45_write",
    "CT.Dms.C45_guess"
   ],
   "note": "Index map, block reads/writes and array guesses for every shape; unallocated xInit is a parameter."
  },
  {
   "property": "C46",
   "status": "partial",
   "theorems": [
    "CT.Dms.C46_ends_partial",
    "CT.Dms.C46_violated"
   ],
   "note": "Endpoints proved. Interpolation in between is refuted: the blend factor is an integer division, so every node but the last gets x0 (C46_violated)."
  },
  {
   "property": "C47",
   "status": "proved",
   "theorems": [
    "CT.Dms.C47_grid",
    "CT.Dms.C47_segments"
   ],
   "note": "Uniform grids over every sequence of shot-count/horizon changes; segment updates telescoped."
  },
  {
   "property": "C48",
   "status": "proved",
   "theorems": [
    "CT.Dms.C48_values",
    "CT.Dms.C48_nodes",
    "CT.Dms.C48_time",
    "CT.Dms.C48_duration",
    "CT.Dms.C48_hold"
   ],
   "note": "Values, node derivatives, time and duration derivatives of the linear spline and the hold."
  },
  {
   "property": "C49",
   "status": "proved",
   "theorems": [
    "CT.Dms.C49_triplets",
    "CT.Dms.C49_init"
   ],
   "note": "Matrix denoted by the triplets, for both control parametrisations, plus the initial-state constraint."
  },
  {
   "property": "C50",
   "status": "partial",
   "theorems": [
    "CT.Dms.C50_counts_partial",
    "CT.Dms.C50_violated"
   ],
   "note": "Proved when no general constraint depends on the input; refuted otherwise: setGeneralConstraints counts only entries by state, so values and pattern overrun vectors of the reported size (C50_violated)."
  },
  {
   "property": "C51",
   "status": "partial",
   "theorems": [
    "CT.Dms.C51_hold_partial",
    "CT.Dms.C51_linear_violated"
   ],
   "note": "Zero-order hold proved. Piecewise linear refuted: computing the weights reads behind the grid for every grid (C51_linear_violated)."
  },
  {
   "property": "C52",
   "status": "partial",
   "theorems": [
    "CT.Dms.C52_construction_partial",
    "CT.Dms.C52_requests_partial",
    "CT.Dms.C52_violated_initial",
    "CT.Dms.C52_violated_horizon"
   ],
   "note": "Construction with the horizon of the settings: constraint and shots right (within half a simulation step). Afterwards initial-state constraint and shots never change: C52_violated_initial, C52_violated_horizon hold for all call sequences."
  },
  {
   "property": "C53",
   "status": "partial",
   "theorems": [
    "CT.Shot.C53_fresh_partial",
    "CT.Shot.C53_order_irrelevant",
    "CT.Shot.C53_violated_before_update",
    "CT.Shot.C53_violated_after_write",
    "CT.Shot.C53_violated_after_reset"
   ],
   "note": "Cached shots agree with a fresh problem for every sequence of updates through the solver interface and queries; three violations proved: before the first update, after writes that bypass the counter, after a counter reset."
  },
  {
   "property": "C54",
   "status": "proved",
   "theorems": [
    "CT.Nloc.C54_rollout",
    "CT.Nloc.C54_short_arrays",
    "CT.Nloc.C54_any_order",
    "CT.Nloc.C54_all_shots",
    "CT.Nloc.C54_prepare_finish",
    "CT.Nloc.C54_change_start",
    "CT.Nloc.C54_unique"
   ],
   "note": "Exact arithmetic over an additive group; all shot lengths, any order of shots, single shooting as one shot."
  },
  {
   "property": "C55",
   "status": "partial",
   "theorems": [
    "CT.Nloc.C55_accepted_partial",
    "CT.Nloc.C55_armijo_partial",
    "CT.Nloc.C55_first",
    "CT.Nloc.C55_acceptable_simple",
    "CT.Nloc.C55_returns",
    "CT.Nloc.C55_rejected_partial",
    "CT.Nloc.C55_violated_rejected",
    "CT.Nloc.C55_full_step",
    "CT.Nloc.C55_violated_armijo",
    "CT.Nloc.C55_violated_stale_constraints"
   ],
   "note": "Violated: a rejected search clears the defects, the Armijo test accepts an unchanged merit, and constraint errors of the previous trajectory are used when the roll-out is aborted. Proved: first acceptable candidate is taken, accepted steps decrease the merit for the simple search, everything but the defects is kept on rejection."
  },
  {
   "property": "C56",
   "status": "partial",
   "theorems": [
    "CT.Par.C56_phase_partial",
    "CT.Par.C56_single",
    "CT.Par.C56_first_ready",
    "CT.Par.C56_violated",
    "CT.Par.C56_violated_range",
    "CT.Par.C56_process_ids"
   ],
   "note": "For any number of workers and any interleaving (sequential consistency): if no worker is still busy with an earlier task when the phase starts, every index of the range is processed at most once, nothing outside it is, and when the main thread is released all indices are complete (C56_phase_partial, C56_single); the first phase after launch meets this (C56_first_ready). Violated otherwise: a stale worker from the previous phase lets two phases end without the LQ problem being computed (C56_violated); rolloutShots(K, K-1) wraps around (C56_violated_range)."
  },
  {
   "property": "C57",
   "status": "partial",
   "theorems": [
    "CT.ParSearch.C57_choice_partial",
    "CT.ParSearch.C57_stable",
    "CT.ParSearch.C57_in_order_partial",
    "CT.ParSearch.C57_single_worker",
    "CT.ParSearch.C57_decided",
    "CT.ParSearch.C57_violated",
    "CT.ParSearch.C57_violated_stale"
   ],
   "note": "In every interleaving the parallel search reports a step iff the serial one does, the step was accepted, is not larger than the serial one, and the published data is that of this step (C57_choice_partial, C57_stable, C57_decided); equal to the serial choice with one worker (C57_single_worker) and whenever all earlier candidates are evaluated before the serial choice (C57_in_order_partial). Violated: a smaller step overwrites the accepted one (C57_violated); candidates of a finished search are published in the next one (C57_violated_stale)."
  },
  {
   "property": "C58",
   "status": "partial",
   "theorems": [
    "CT.Par.C58_violated_wakeup",
    "CT.Par.C58_violated_completion",
    "CT.Par.C58_violated_range",
    "CT.Par.C58_terminates_partial",
    "CT.ParSearch.C58_violated_search",
    "CT.ParSearch.C58_violated_search_zero",
    "CT.ParSearch.C58_search_partial"
   ],
   "note": "With at least one worker and no lost notification no state is stuck and the main thread is released after a bounded number of moves (C58_terminates_partial, C58_search_partial). Violated: lost notifications in both directions (C58_violated_wakeup, C58_violated_completion, C58_violated_search), ranges that wrap around (C58_violated_range), maxIterations = 0 (C58_violated_search_zero)."
  },
  {
   "property": "C59",
   "status": "partial",
   "theorems": [
    "CT.Nloc.C59_violated",
    "CT.Nloc.C59_violated_when",
    "CT.Nloc.C59_iterations_partial",
    "CT.Nloc.C59_converged",
    "CT.Nloc.C59_violated_worse_reported"
   ],
   "note": "Violated: solve always returns true; without line search a worse cost is reported as better. Proved: number of iterations run and the direction from improvement to true."
  },
  {
   "property": "C60",
   "status": "proved",
   "theorems": [
    "CT.Nloc.C60_history",
    "CT.Nloc.C60_guess"
   ],
   "note": "Any mix of accepted and rejected calls without reconfiguration (see C84 for configure). The reference and previous-state buffers may stay longer than the horizon; they are shown to be at least as long."
  },
  {
   "property": "C61",
   "status": "proved",
   "theorems": [
    "CT.PtP.C61_trajectory",
    "CT.PtP.C61_fastest"
   ],
   "note": "All parts, plus that no motion within the limits is faster. Scalars are reals."
  },
  {
   "property": "C62",
   "status": "proved",
   "theorems": [
    "CT.Joint.C62_unique_one",
    "CT.Joint.C62_unique",
    "CT.Joint.C62_position_limits",
    "CT.Joint.C62_velocity_limits",
    "CT.Joint.C62_far_undefined"
   ],
   "note": "Wrapping is stated for angles within the range in which the multiple of 2 pi fits an int (Near); C62_far_undefined shows that farther angles reach undefined behaviour of the conversion."
  },
  {
   "property": "C63",
   "status": "proved",
   "theorems": [
    "CT.Robot.C63_fixed_base",
    "CT.Robot.C63_euler",
    "CT.Robot.C63_quaternion",
    "CT.Robot.C63_mixed",
    "CT.Robot.C63_floating"
   ],
   "note": "For floating bases lossless in the representation stored; between representations up to the conversion of kindr, which is a parameter (C63_mixed)."
  },
  {
   "property": "C64",
   "status": "partial",
   "theorems": [
    "CT.Contact.C64_force_partial",
    "CT.Contact.C64_set_active_partial",
    "CT.Contact.C64_undefined_smoothing",
    "CT.Contact.C64_spring",
    "CT.Contact.C64_no_pull",
    "CT.Contact.C64_share",
    "CT.Contact.C64_dissipates",
    "CT.Contact.C64_inactive_violated",
    "CT.Contact.C64_offset_violated"
   ],
   "note": "Proved for active end effectors relative to the force law of the documentation (springs never pull, dampers dissipate). C64_inactive_violated: inactive end effectors receive uninitialised forces; C64_offset_violated: the contact test ignores the height of the contact plane."
  },
  {
   "property": "C65",
   "status": "proved",
   "theorems": [
    "CT.Actuator.C65_sea_inverse",
    "CT.Actuator.C65_sea_equilibrium",
    "CT.Actuator.C65_second_order"
   ],
   "note": "Series-elastic and second-order actuators; equilibrium characterised for every command."
  },
  {
   "property": "C66",
   "status": "proved",
   "theorems": [
    "CT.IK.C66_closest",
    "CT.IK.C66_retries",
    "CT.IK.C66_guesses",
    "CT.IK.C66_frames"
   ],
   "note": "Selection of the nearest solution; trials, validation, guesses and frames of the numerical solver, with the Ipopt solve as parameter. An empty list of solutions reported as success would be undefined behaviour (third part of C66_closest)."
  },
  {
   "property": "C67",
   "status": "partial",
   "theorems": [
    "CT.Activation.C67_barrier_derivatives",
    "CT.Activation.C67_barrier_shape",
    "CT.Activation.C67_barrier_load_partial",
    "CT.Activation.C67_barrier_one_sided",
    "CT.Activation.C67_barrier_load_missing",
    "CT.Activation.C67_violated"
   ],
   "note": "Derivatives for every configuration; shape for value-constructed barriers; C67_violated: loading a file into a default-constructed barrier leaves it switched off."
  },
  {
   "property": "C68",
   "status": "partial",
   "theorems": [
    "CT.Activation.C68_gauss_bump_partial",
    "CT.Activation.C68_violated"
   ],
   "note": "Proved for file-configured activations; C68_violated: wrong sign in the value constructor."
  },
  {
   "property": "C69",
   "status": "proved",
   "theorems": [
    "CT.StateFeedback.C69_extract_controls",
    "CT.StateFeedback.C69_extract_empty_undefined"
   ],
   "note": "Empty state trajectory is undefined (C69_extract_empty_undefined)."
  },
  {
   "property": "C70",
   "status": "partial",
   "theorems": [
    "CT.Symplectic.C70_closed_loop_step_partial",
    "CT.Symplectic.C70_violated"
   ],
   "note": "Proved for controllers that ignore time; C70_violated: the controller is always evaluated at time 0."
  },
  {
   "property": "C71",
   "status": "proved",
   "theorems": [
    "CT.Symplectic.C71_recording",
    "CT.Symplectic.C71_n_steps_compose"
   ],
   "note": ""
  },
  {
   "property": "C72",
   "status": "proved",
   "theorems": [
    "CT.Sens.C72_exact",
    "CT.Sens.C72_solution_exists"
   ],
   "note": "Eigen's matrix exponential and QR inverse are taken to be exact."
  },
  {
   "property": "C73",
   "status": "partial",
   "theorems": [
    "CT.Discretizer.C73_propagate_partial",
    "CT.Discretizer.C73_set_type_violated",
    "CT.Discretizer.C73_clone_violated"
   ],
   "note": "Proved for histories in which changing the integration type is followed by setting the system; violations: setIntegrationType alone has no effect (or is undefined), clone dereferences a null pointer."
  },
  {
   "property": "C74",
   "status": "proved",
   "theorems": [
    "CT.LTI.C74_reachable"
   ],
   "note": "With exact rank in place of the numerical rank of FullPivLU."
  },
  {
   "property": "C75",
   "status": "proved",
   "theorems": [
    "CT.LTI.C75_controllability_gramian",
    "CT.LTI.C75_observability_gramian",
    "CT.LTI.C75_lyapunov",
    "CT.LTI.C75_posSemidef"
   ],
   "note": ""
  },
  {
   "property": "C76",
   "status": "partial",
   "theorems": [
    "CT.Cost.C76_quotients_partial",
    "CT.Cost.C76_state_violated",
    "CT.Cost.C76_shift_violated"
   ],
   "note": "Violated: leaves the last perturbed state as current point and re-applies the time shift. Proved: entries are central difference quotients when no shift is set."
  },
  {
   "property": "C77",
   "status": "partial",
   "theorems": [
    "CT.Cost.C77_simple_partial",
    "CT.Cost.C77_simple_terminal_violated",
    "CT.Cost.C77_barrier_violated"
   ],
   "note": "Violated for the terminal cost of the simple quadratic cost and for activations of barrier terms. Proved: intermediate costs agree and clone and original agree after the next point is set."
  },
  {
   "property": "C78",
   "status": "partial",
   "theorems": [
    "CT.Cost.C78_gradients_partial",
    "CT.Cost.C78_asymmetric_violated",
    "CT.Cost.C78_reference_violated"
   ],
   "note": "Violated for asymmetric weights and for reference changes before the next point is set. Proved for symmetric weights."
  },
  {
   "property": "C79",
   "status": "partial",
   "theorems": [
    "CT.Cost.C79_copy_partial",
    "CT.Cost.C79_new_violated"
   ],
   "note": "Violated: a freshly constructed term reads an empty array. Proved for copies."
  },
  {
   "property": "C80",
   "status": "partial",
   "theorems": [
    "CT.Filter.C80_update_partial",
    "CT.Filter.C80_measurement_time_violated",
    "CT.Filter.C80_linearisation_time_partial",
    "CT.Filter.C80_linearisation_time_violated"
   ],
   "note": "Holds for time-invariant measurements and times that are multiples of the step; proved false otherwise (measurement function always called with time 0; linearisation time truncated to a multiple of dt)."
  },
  {
   "property": "C81",
   "status": "partial",
   "theorems": [
    "CT.Nlp.C81_aligned_partial",
    "CT.Nlp.C81_upper_violated"
   ],
   "note": "Proved when constraints list lower-triangular positions only; proved to read beyond the stored values otherwise (pattern is taken without, values with the triangular view)."
  },
  {
   "property": "C82",
   "status": "partial",
   "theorems": [
    "CT.Dms.C82_rows_partial",
    "CT.Dms.C82_linear_violated"
   ],
   "note": "Proved for every control parametrisation that can be evaluated at all grid points (hold). Refuted for piecewise-linear controls, whose evaluation at the last grid point reads outside the grid (C82_linear_violated)."
  },
  {
   "property": "C83",
   "status": "proved",
   "theorems": [
    "CT.Shot.C83_end_state",
    "CT.Shot.C83_cost"
   ],
   "note": "Both spline types (consistent_weighted); cost part for at least one step and full cost evaluation, as the code requires."
  },
  {
   "property": "C84",
   "status": "partial",
   "theorems": [
    "CT.Nloc.C84_stamps_partial",
    "CT.Nloc.C84_violated_stale_stamps",
    "CT.Nloc.C84_violated_stages"
   ],
   "note": "Violated: changeTimeHorizon returns early when the number of stages is unchanged and keeps the old stamps; configure alone keeps the old number of stages. Proved after setInitialGuess."
  },
  {
   "property": "C85",
   "status": "partial",
   "theorems": [
    "CT.PtP.C85_arm_partial",
    "CT.PtP.C85_violated"
   ],
   "note": "Samples, grid and start are proved; the last sample is the target when the step divides the horizon; C85_violated: otherwise the grid ends short of the target."
  },
  {
   "property": "C86",
   "status": "partial",
   "theorems": [
    "CT.Robot.C86_storage_partial",
    "CT.Robot.C86_violated"
   ],
   "note": "Proved for all constructors but the one from an Eigen quaternion; C86_violated: that one ignores the requested storage."
  },
  {
   "property": "C87",
   "status": "partial",
   "theorems": [
    "CT.Lqr.C87_gains",
    "CT.Lqr.C87_rejects",
    "CT.Lqr.C87_linear_partial",
    "CT.Lqr.C87_violated"
   ],
   "note": "Proved in full for given linearisations; C87_violated: given a linear system, a control trajectory that is too short is read outside its bounds before the lengths are checked."
  },
  {
   "property": "C88",
   "status": "partial",
   "theorems": [
    "CT.Actuator.C88_per_joint",
    "CT.Actuator.C88_per_joint_gain",
    "CT.Actuator.C88_gain_partial",
    "CT.Actuator.C88_violated"
   ],
   "note": "Proved with an explicit unit gain; C88_violated: without a gain the amplification is the squared frequency."
  },
  {
   "property": "C89",
   "status": "partial",
   "theorems": [
    "CT.IK.C89_near_partial",
    "CT.IK.C89_violated"
   ],
   "note": "Characterised exactly; C89_violated: the tolerance is relative to the norms, so far-away poses that differ arbitrarily are near and poses close to the origin never are."
  },
  {
   "property": "C90",
   "status": "proved",
   "theorems": [
    "CT.Actuator.C90_torques",
    "CT.Actuator.C90_actuated",
    "CT.Actuator.C90_steady",
    "CT.Actuator.C90_kinematic"
   ],
   "note": "Rigid body dynamics are parameters. A system with actuator dimension > 0 without actuators is undefined behaviour (second part of C90_actuated)."
  },
  {
   "property": "C91",
   "status": "partial",
   "theorems": [
    "CT.Actuator.C91_steady",
    "CT.Actuator.C91_steady_violated",
    "CT.Actuator.C91_interpolation",
    "CT.Actuator.C91_actuator_partial",
    "CT.Actuator.C91_last_violated"
   ],
   "note": "Proved for robots without actuators and series-elastic actuators, and for all stages but the last of the interpolation. C91_steady_violated: zero command with second-order actuators; C91_last_violated: the last stage's actuator state belongs to the previous stage's torque."
  },
  {
   "property": "C92",
   "status": "partial",
   "theorems": [
    "CT.Actuator.C92_forces_partial",
    "CT.Actuator.C92_violated"
   ],
   "note": "Proved for end effectors on distinct links; C92_violated: the last end effector on a link overwrites the others."
  },
  {
   "property": "C93",
   "status": "proved",
   "theorems": [
    "CT.Actuator.C93_same_motion"
   ],
   "note": "Packing inverse to unpacking, and equality of the derivatives."
  },
  {
   "property": "C94",
   "status": "partial",
   "theorems": [
    "CT.MpcForward.C94_statistics",
    "CT.MpcForward.C94_delay",
    "CT.MpcForward.C94_settings",
    "CT.MpcForward.C94_average",
    "CT.MpcForward.C94_late_violated"
   ],
   "note": "Proved for histories in which delays are measured throughout. C94_late_violated: delays of solves made while measuring was off (zero start time) enter the statistics once it is switched on."
  },
  {
   "property": "C95",
   "status": "proved",
   "theorems": [
    "CT.Filter.C95_measurement",
    "CT.Filter.C95_system",
    "CT.Filter.C95_disturbed_motion",
    "CT.Filter.C95_disturbed_steps",
    "CT.Filter.C95_controller"
   ],
   "note": "The sensitivity of the continuous-time model is a parameter (see C19). Not modelled: cloning an input-disturbed system copies from the uninitialised object itself (InputDisturbedSystem-impl.h:21)."
  },
  {
   "property": "C96",
   "status": "partial",
   "theorems": [
    "CT.Filter.C96_update_partial",
    "CT.Filter.C96_violated"
   ],
   "note": "Exact form of the correction proved; it is the Kalman correction multiplied by the system matrix, with the noise regularised. C96_violated: measurements are ignored for a memoryless system. The class template cannot be instantiated as it stands (see DESIGN.md); only update is modelled."
  },
  {
   "property": "C97",
   "status": "partial",
   "theorems": [
    "CT.MpcForward.C97_strategy_partial",
    "CT.MpcForward.C97_violated"
   ],
   "note": "Proved for the strategy installed at construction. C97_violated: a strategy set later never reaches the time keeper."
  },
  {
   "property": "C98",
   "status": "partial",
   "theorems": [
    "CT.MpcForward.C98_window",
    "CT.MpcForward.C98_executed_partial",
    "CT.MpcForward.C98_warm_violated",
    "CT.MpcForward.C98_cold_violated",
    "CT.MpcForward.C98_initial_guess"
   ],
   "note": "Number of steps and integration proved for the policy the code uses. C98_warm_violated / C98_cold_violated: that policy is the already truncated warm start or the initial guess instead of the executed policy."
  },
  {
   "property": "C99",
   "status": "partial",
   "theorems": [
    "CT.MpcForward.C99_truncation_partial",
    "CT.MpcForward.C99_cold_violated"
   ],
   "note": "Proved for the warm-starting handler. C99_cold_violated: with the base handler the truncated time is never written."
  },
  {
   "property": "C100",
   "status": "proved",
   "theorems": [
    "CT.Cost.C100_identifier",
    "CT.Cost.C100_name"
   ],
   "note": "Names are a parameter of the lookup. Identifiers outside the list are undefined behaviour (unchecked access)."
  },
  {
   "property": "C101",
   "status": "partial",
   "theorems": [
    "CT.Lqoc.C101_stage",
    "CT.Lqoc.C101_all",
    "CT.Lqoc.C101_terminal",
    "CT.Lqoc.C101_rejected",
    "CT.Lqoc.C101_unchecked_violated",
    "CT.Lqoc.C101_input_container",
    "CT.Lqoc.C101_state_container",
    "CT.Lqoc.C101_boxes",
    "CT.Lqoc.C101_replacement_violated"
   ],
   "note": "Proved for one stage, all stages, the last state and whole containers of box terms, when at most as many constraints as components are given and every component is in range. Missing because the code lacks it: the check looks at the last component only and does not limit the number of constraints (C101_unchecked_violated), and replacing constraints by an empty container keeps the old ones (C101_replacement_violated)."
  },
  {
   "property": "C102",
   "status": "partial",
   "theorems": [
    "CT.Lqoc.C102_sweep_partial",
    "CT.Lqoc.C102_after_summary",
    "CT.Lqoc.C102_changeNumStages",
    "CT.Lqoc.C102_first_iteration_violated"
   ],
   "note": "Proved for every intermediate stage, and for the terminal stage relative to the point the container was given last; C102_after_summary shows that this is the last state once the summary of the same trajectory has been computed. In the first iteration after setting the constraints it is not (C102_first_iteration_violated): initializeCostToGo passes the last state to the cost function only. Single-threaded sweep; the multi-threaded one is not modelled for constraints."
  },
  {
   "property": "C103",
   "status": "proved",
   "theorems": [
    "CT.LqApprox.C103_time_invariant",
    "CT.Lqoc.C103_unconstrained"
   ],
   "note": "Exact identity of the objectives and equivalence of the dynamics, for all terms of degree two (quadratic_linear, quadratic_mixed, quadratic_quadratic, quadratic_quadTracking); constraint flag in C103_unconstrained. Real arithmetic."
  },
  {
   "property": "C104",
   "status": "partial",
   "theorems": [
    "CT.Hpipm.C104_first",
    "CT.Hpipm.C104_iterations_partial",
    "CT.Hpipm.C104_second_problem_violated",
    "CT.Hpipm.C104_appearing_bound_violated",
    "CT.Hpipm.C104_twice_violated",
    "CT.Hpipm.C104_fewer_stages_violated",
    "CT.Hpipm.C104_moved_violated"
   ],
   "note": "C104_first proves the claim for the first problem given to an interface, C104_iterations_partial for any number of further calls with the same problem object refilled in place, with no fewer stages and, where a stage keeps its number of box constraints, the same bounds absent. Outside of that the code does not do what the claim says: C104_second_problem_violated (another problem object keeps the first one's bounds), C104_appearing_bound_violated (a bound that becomes finite stays masked), C104_twice_violated (setting the same problem twice turns an absent general bound into an equality with zero), C104_fewer_stages_violated (input bounds stay at the last stage) and C104_moved_violated (reallocated arrays are read through dangling pointers). What HPIPM does with the program is not modelled."
  },
  {
   "property": "C105",
   "status": "proved",
   "theorems": [
    "CT.Lqoc.C105_error"
   ],
   "note": "Exact formula, non-negativity and equivalence with feasibility, for lists of containers that may be null. Bounds are assumed consistent (lower at most upper) and real arithmetic is exact."
  },
  {
   "property": "C106",
   "status": "partial",
   "theorems": [
    "CT.LqApprox.C106_cost_partial",
    "CT.LqApprox.C106_contents",
    "CT.LqApprox.C106_objective",
    "CT.LqApprox.C106_dynamics",
    "CT.LqApprox.C106_two_phase",
    "CT.LqApprox.C106_step",
    "CT.LqApprox.C106_iteration",
    "CT.LqApprox.C106_one_iteration",
    "CT.LqApprox.C106_derivatives"
   ],
   "note": "All parts are proved for real arithmetic, the single-threaded sweep and roll-outs in the sense of C54. Reported cost (C106_cost_partial) only for activations that are 0 or 1, because fractional ones are squared (C37_violated). Box and general constraints are not part of C106_one_iteration."
  },
  {
   "property": "C107",
   "status": "partial",
   "theorems": [
    "CT.Dms.C107_simple_value_partial",
    "CT.Dms.C107_simple_gradient",
    "CT.Dms.C107_full_value_partial",
    "CT.Dms.C107_full_gradient",
    "CT.Dms.C107_final_time_violated",
    "CT.Dms.C107_stale_weights_violated"
   ],
   "note": "Value and gradient are proved for both evaluations (simple: zero-order hold; full: both splines), where the final cost is evaluated at time zero as the code does; so the full statement holds for final costs that do not depend on time and as long as the horizon is that of construction. C107_final_time_violated and C107_stale_weights_violated show that both restrictions are needed. The simple evaluation with linear splines reads outside the grid (C51_linear_violated). The correctness of the sensitivities of the shots is a hypothesis of the full gradient (C83 treats them)."
  },
  {
   "property": "C108",
   "status": "partial",
   "theorems": [
    "CT.LqApprox.C108_policy_partial",
    "CT.LqApprox.C108_ms_ilqr_violated"
   ],
   "note": "Proved for all multiple-shooting algorithms except iLQR, where it is false (C108_ms_ilqr_violated): without the roll-out after the update the feed-forward control still refers to the old states. A two-stage scalar problem with a non-zero difference is computed beside the theorem."
  },
  {
   "property": "C109",
   "status": "proved",
   "theorems": [
    "CT.Hpipm.C109_first_feedback"
   ],
   "note": "The factor of the control Hessian and the cost-to-go matrix of stage one are what HPIPM returns; that they are what their names say is a hypothesis. Arithmetic is exact (real numbers)."
  },
  {
   "property": "C110",
   "status": "proved",
   "theorems": [
    "CT.OpJac.C110_projector",
    "CT.OpJac.C110_right_inverse"
   ],
   "note": "Real arithmetic; Eigen's LDLT is what Ldlt states (a congruence with a diagonal matrix, zero pivots inverted to zero)."
  },
  {
   "property": "C111",
   "status": "partial",
   "theorems": [
    "CT.OpJac.C111_derivative_partial",
    "CT.OpJac.C111_derivative_violated"
   ],
   "note": "The code violates the claim (C111_derivative_violated); C111_derivative_partial gives the exact difference: the derivative of P is dPdt() plus its transpose, that of the inverse is dJdagerdt() plus a null-space term. Default weight only."
  },
  {
   "property": "C112",
   "status": "partial",
   "theorems": [
    "CT.OpJac.C112_answers_partial",
    "CT.OpJac.C112_svd_partial",
    "CT.OpJac.C112_mixed_violated"
   ],
   "note": "Proved for all query sequences without JdagerSVD(). With it the claim is violated (C112_mixed_violated): the two inverses share one cache. C112_svd_partial: they agree for independent rows with the default weight."
  },
  {
   "property": "C113",
   "status": "proved",
   "theorems": [
    "CT.OpModel.C113_motion",
    "CT.OpModel.C113_rates",
    "CT.OpModel.C113_inertia",
    "CT.OpModel.C113_selection"
   ],
   "note": "OperationalModel and OperationalModelBase; OperationalModelRBD (fixed sizes 18 and 12) only fills in the coefficients and is not modelled."
  },
  {
   "property": "C114",
   "status": "proved",
   "theorems": [
    "CT.ConDyn.C114_forward"
   ],
   "note": "Mass matrix, Jacobians and bias forces are those of the generated robot code (parameters); arithmetic is exact."
  },
  {
   "property": "C115",
   "status": "proved",
   "theorems": [
    "CT.ConDyn.C115_inverse",
    "CT.ConDyn.C115_roundtrip"
   ],
   "note": "Under the stated condition on the singular values; the thin SVD is what Eigen returns. The result is relative to a feasible acceleration, as the English statement."
  },
  {
   "property": "C116",
   "status": "proved",
   "theorems": [
    "CT.FrameJac.C116_velocity",
    "CT.FrameJac.C116_angular_velocity",
    "CT.FrameJac.C116_derivative",
    "CT.FrameJac.C116_acceleration"
   ],
   "note": "The base Jacobian of the frame is the one of the generated robot code (a parameter that is assumed to be the derivative of the reported position in the base)."
  },
  {
   "property": "C117",
   "status": "proved",
   "theorems": [
    "CT.FrameJac.C117_dJdt",
    "CT.FrameJac.C117_jacobian",
    "CT.FrameJac.C117_rows",
    "CT.FrameJac.C117_contact"
   ],
   "note": "The robot is an arbitrary chain of revolute and prismatic joints per end effector, whose columns are what the generated code provides; the numeric variant of the derivative is not modelled. Arithmetic is exact."
  },
  {
   "property": "C118",
   "status": "partial",
   "theorems": [
    "CT.Nloc.C118_nan_partial",
    "CT.Nloc.C118_terminal_violated"
   ],
   "note": "Holds for all stages; the terminal state is not checked (C118_terminal_violated)."
  },
  {
   "property": "C119",
   "status": "partial",
   "theorems": [
    "CT.SysIf.C119_partial",
    "CT.SysIf.C119_switch_violated",
    "CT.SysIf.C119_time_varying_violated",
    "CT.SysIf.C119_instances_violated",
    "CT.SysIf.C119_before_initialize",
    "CT.SysIf.C119_discrete"
   ],
   "note": "Proved for both interfaces; missing: switching the sensitivity method or time-varying flag by configure, and in-place changes of continuous-time nonlinear systems, where the code violates the property."
  },
  {
   "property": "C120",
   "status": "partial",
   "theorems": [
    "CT.SysIf.C120_integrator_partial",
    "CT.SysIf.C120_forward_euler_partial",
    "CT.SysIf.C120_time_violated",
    "CT.SysIf.C120_const_violated"
   ],
   "note": "Exact for Euler and RK4 with the sensitivity integrator on time-invariant systems or with one sub-step, and for the forward Euler approximation of one Euler step; violated for several sub-steps on time-varying systems and for constant sensitivities on nonlinear systems."
  },
  {
   "property": "C121",
   "status": "partial",
   "theorems": [
    "CT.ForceMap.C121_world_partial",
    "CT.ForceMap.C121_force_only_partial",
    "CT.ForceMap.C121_ee_partial",
    "CT.ForceMap.C121_position",
    "CT.ForceMap.C121_lookup",
    "CT.ForceMap.C121_unknown",
    "CT.ForceMap.C121_base_link_violated",
    "CT.ForceMap.C121_set_end_effector_violated"
   ],
   "note": "Exact and unique for every end effector on a moving link; violated for end effectors on the base link, whose transform is not the identity, and by setEndEffector, which does nothing."
  },
  {
   "property": "C122",
   "status": "partial",
   "theorems": [
    "CT.Spatial.C122_bias",
    "CT.Spatial.C122_bias_z_partial",
    "CT.Spatial.C122_bias_z_violated",
    "CT.Spatial.C122_cross",
    "CT.Spatial.C122_transform_inertia",
    "CT.Spatial.C122_compute_Ia_revolute",
    "CT.Spatial.C122_compute_Ia_prismatic",
    "CT.Spatial.C122_ctransform_revolute",
    "CT.Spatial.C122_ctransform_prismatic"
   ],
   "note": "All kernels are exact except the single-axis bias force, whose second component reads the wrong product of inertia. Missing: that component."
  },
  {
   "property": "C123",
   "status": "proved",
   "theorems": [
    "CT.Spatial.C123_fill",
    "CT.Spatial.C123_getters",
    "CT.Spatial.C123_change_mass",
    "CT.Spatial.C123_change_com",
    "CT.Spatial.C123_change_tensor",
    "CT.Spatial.C123_add",
    "CT.Spatial.C123_assign"
   ],
   "note": "Arithmetic is over the reals."
  },
  {
   "property": "C124",
   "status": "proved",
   "theorems": [
    "CT.Robots.DoubleInvertedPendulum.C124_DoubleInvertedPendulum",
    "CT.Robots.HyA.C124_HyA",
    "CT.Robots.InvertedPendulum.C124_InvertedPendulum"
   ],
   "note": "Real arithmetic; DoubleTrait."
  },
  {
   "property": "C125",
   "status": "proved",
   "theorems": [
    "CT.Robots.HyQ.C125_HyQ_fd",
    "CT.Robots.HyQ.C125_HyQ_id",
    "CT.Robots.QuadrotorWithLoad.C125_QuadrotorWithLoad_fd",
    "CT.Robots.QuadrotorWithLoad.C125_QuadrotorWithLoad_id"
   ],
   "note": "HyQ and QuadrotorWithLoad (the latter without a positive definite inertia matrix: its pivots and composite inertias are shown to be invertible). Real arithmetic; DoubleTrait."
  },
  {
   "property": "C126",
   "status": "proved",
   "theorems": [
    "CT.Robots.DoubleInvertedPendulum.C126_DoubleInvertedPendulum",
    "CT.Robots.HyA.C126_HyA",
    "CT.Robots.HyQ.C126_HyQ",
    "CT.Robots.InvertedPendulum.C126_InvertedPendulum",
    "CT.Robots.QuadrotorWithLoad.C126_QuadrotorWithLoad"
   ],
   "note": "All five robots. Real arithmetic."
  },
  {
   "property": "C127",
   "status": "partial",
   "theorems": [
    "CT.Robots.DoubleInvertedPendulum.C127_DoubleInvertedPendulum",
    "CT.Robots.HyA.C127_HyA",
    "CT.Robots.HyQ.C127_HyQ",
    "CT.Robots.InvertedPendulum.C127_InvertedPendulum",
    "CT.Robots.QuadrotorWithLoad.C127_QuadrotorWithLoad_partial",
    "CT.Robots.QuadrotorWithLoad.C127_QuadrotorWithLoad_violated",
    "CT.Robots.QuadrotorWithLoad.C127_QuadrotorWithLoad_invertible_partial"
   ],
   "note": "Holds for InvertedPendulum, DoubleInvertedPendulum, HyA and HyQ; false for QuadrotorWithLoad, whose link inertias are given about the centres of mass; its matrix is symmetric and invertible at every position."
  },
  {
   "property": "C128",
   "status": "proved",
   "theorems": [
    "CT.Robots.DoubleInvertedPendulum.C128_DoubleInvertedPendulum",
    "CT.Robots.HyA.C128_HyA",
    "CT.Robots.HyQ.C128_HyQ",
    "CT.Robots.InvertedPendulum.C128_InvertedPendulum",
    "CT.Robots.QuadrotorWithLoad.C128_QuadrotorWithLoad"
   ],
   "note": "All five robots. Real arithmetic."
  },
  {
   "property": "C129",
   "status": "partial",
   "theorems": [
    "CT.Robots.InvertedPendulum.C129_InvertedPendulum",
    "CT.Robots.DoubleInvertedPendulum.C129_DoubleInvertedPendulum",
    "CT.Robots.HyA.C129_HyA",
    "CT.Robots.QuadrotorWithLoad.C129_QuadrotorWithLoad_violated",
    "CT.Robots.QuadrotorWithLoad.C129_QuadrotorWithLoad_joints_partial",
    "CT.Robots.HyQ.C129_HyQ_violated",
    "CT.Robots.HyQ.C129_HyQ_joints_partial"
   ],
   "note": "Proved for the three fixed-base robots at every position. False for QuadrotorWithLoad and HyQ (proved negations): the generated statements number the joints without the six base rows, so L is never a factor and rows of the inverse are never written; applied to the block of the joints alone they are right (HyQ: if the entries of the inverse between the legs, which are never written, were zero). Real arithmetic with exact square roots."
  },
  {
   "property": "C130",
   "status": "partial",
   "theorems": [
    "CT.GenKin.C130_HyA_rounding_violated",
    "CT.Robots.DoubleInvertedPendulum.Kin.C130_DoubleInvertedPendulum_transforms",
    "CT.Robots.HyA.Kin.C130_HyA_transforms",
    "CT.Robots.HyQ.Kin.C130_HyQ_transforms",
    "CT.Robots.HyQ.Kin.C130_HyQ_described_partial",
    "CT.Robots.InvertedPendulum.Kin.C130_InvertedPendulum_transforms",
    "CT.Robots.QuadrotorWithLoad.Kin.C130_QuadrotorWithLoad_transforms"
   ],
   "note": "Proved for the four robots with a .kindsl description; for the HyQ the transforms are proved consistent, and compared with the URDF description: hip and knee joints as described, the joints HFE 2 mm and the feet 2 cm off. The rounding of the HyA is also shown as a negation of exact agreement. Real arithmetic; the constant PI of the URDF is taken as the number pi."
  },
  {
   "property": "C131",
   "status": "proved",
   "theorems": [
    "CT.Robots.DoubleInvertedPendulum.Kin.C131_DoubleInvertedPendulum_jacobians",
    "CT.Robots.HyA.Kin.C131_HyA_jacobians",
    "CT.Robots.HyQ.Kin.C131_HyQ_jacobians",
    "CT.Robots.InvertedPendulum.Kin.C131_InvertedPendulum_jacobians",
    "CT.Robots.QuadrotorWithLoad.Kin.C131_QuadrotorWithLoad_jacobians"
   ],
   "note": "Velocities are those of the delivered homogeneous transforms. Real arithmetic."
  },
  {
   "property": "C132",
   "status": "partial",
   "theorems": [
    "CT.Robots.HyQ.C132_HyQ_inertia_violated",
    "CT.Robots.HyQ.C132_HyQ_moments_partial",
    "CT.Robots.C132_InvertedPendulum_inertia",
    "CT.Robots.C132_DoubleInvertedPendulum_inertia",
    "CT.Robots.C132_HyA_inertia",
    "CT.Robots.C132_QuadrotorWithLoad_inertia_violated"
   ],
   "note": "Proved for InvertedPendulum, DoubleInvertedPendulum and HyA. False for all three links of QuadrotorWithLoad (proved negation): the code has the moments of inertia about other axes than the description. False for all 13 links of HyQ (proved negation): other masses, and the moments given about the centre of mass are used about the origin of the link."
  },
  {
   "property": "C133",
   "status": "partial",
   "theorems": [
    "CT.Lookup.InvertedPendulum.C133_InvertedPendulum_lookup",
    "CT.Lookup.InvertedPendulum.C133_InvertedPendulum_ee_link",
    "CT.Lookup.DoubleInvertedPendulum.C133_DoubleInvertedPendulum_lookup",
    "CT.Lookup.DoubleInvertedPendulum.C133_DoubleInvertedPendulum_ee_link",
    "CT.Lookup.HyA.C133_HyA_lookup",
    "CT.Lookup.HyA.C133_HyA_ee_link",
    "CT.Lookup.QuadrotorWithLoad.C133_QuadrotorWithLoad_lookup",
    "CT.Lookup.QuadrotorWithLoad.C133_QuadrotorWithLoad_ee_link_violated",
    "CT.Lookup.HyQ.C133_HyQ_lookup",
    "CT.Lookup.HyQ.C133_HyQ_ee_link",
    "CT.Lookup.C133_base_link_violated"
   ],
   "note": "Proved for links from 1 on and for end effectors. False for link 0 of every robot (matrix with the identity in the wrong corner) and for the link declared for the end effector of QuadrotorWithLoad, both proved; the look-up of links of QuadrotorWithLoad refers to names that do not exist and is not modelled."
  },
  {
   "property": "C134",
   "status": "proved",
   "theorems": [
    "CT.Lookup.InvertedPendulum.C134_InvertedPendulum_velocity",
    "CT.Lookup.DoubleInvertedPendulum.C134_DoubleInvertedPendulum_velocity",
    "CT.Lookup.HyA.C134_HyA_velocity",
    "CT.Lookup.QuadrotorWithLoad.C134_QuadrotorWithLoad_velocity",
    "CT.Lookup.HyQ.C134_HyQ_velocity"
   ],
   "note": "Over the real numbers; the pose query with Euler angles or quaternions is not modelled."
  },
  {
   "property": "C135",
   "status": "proved",
   "theorems": [
    "CT.Robots.DoubleInvertedPendulum.C135_DoubleInvertedPendulum",
    "CT.Robots.HyA.C135_HyA",
    "CT.Robots.HyQ.C135_HyQ",
    "CT.Robots.InvertedPendulum.C135_InvertedPendulum",
    "CT.Robots.QuadrotorWithLoad.C135_QuadrotorWithLoad"
   ],
   "note": "Over the real numbers, for all five robots."
  },
  {
   "property": "C136",
   "status": "proved",
   "theorems": [
    "CT.Robots.DoubleInvertedPendulum.C136_DoubleInvertedPendulum_id",
    "CT.Robots.DoubleInvertedPendulum.C136_DoubleInvertedPendulum_fd",
    "CT.Robots.HyA.C136_HyA_id",
    "CT.Robots.HyA.C136_HyA_fd",
    "CT.Robots.HyQ.C136_HyQ_id",
    "CT.Robots.HyQ.C136_HyQ_fd",
    "CT.Robots.InvertedPendulum.C136_InvertedPendulum_id",
    "CT.Robots.InvertedPendulum.C136_InvertedPendulum_fd",
    "CT.Robots.QuadrotorWithLoad.C136_QuadrotorWithLoad_fd",
    "CT.Robots.QuadrotorWithLoad.C136_QuadrotorWithLoad_id"
   ],
   "note": "Over the real numbers. Inverse and forward dynamics of all five robots."
  },
  {
   "property": "C137",
   "status": "proved",
   "theorems": [
    "CT.RbdLin.C137_selection",
    "CT.RbdLin.C137_fixed",
    "CT.RbdLin.C137_floating",
    "CT.Robots.C137_InvertedPendulum",
    "CT.Robots.C137_DoubleInvertedPendulum",
    "CT.Robots.C137_HyA",
    "CT.Robots.C137_HyQ"
   ],
   "note": "Over the real numbers, assuming of Eigen that its Cholesky solution inverts symmetric positive definite matrices . Generic theorems for any robot whose inertia matrix maps acceleration changes to force changes, and proofs of this for four robots from C124-C127 and C135."
  },
  {
   "property": "C138",
   "status": "proved",
   "theorems": [
    "CT.RbdLin.C138_floating",
    "CT.RbdLin.C138_fixed"
   ],
   "note": "Over the real numbers. kindr's rotation of Euler angles and its map from angular velocity to rates are assumed to be as `Kindr.Ok` says. The lower half of the Jacobian is by finite differences (C23)."
  },
  {
   "property": "C139",
   "status": "proved",
   "theorems": [
    "CT.FloatSys.C139_euler",
    "CT.FloatSys.C139_quaternion",
    "CT.FloatSys.C139_rotations",
    "CT.FloatSys.C139_halves",
    "CT.FloatSys.C139_forces_partial",
    "CT.FloatSys.C139_shared_violated",
    "CT.Robots.C139_HyQ"
   ],
   "note": "Over the real numbers; kindr as in `Kindr.Ok`. The forces of end effectors enter as the code assigns them to links (two end effectors on one link overwrite each other, as in C92)."
  },
  {
   "property": "C140",
   "status": "partial",
   "theorems": [
    "CT.Robots.QuadrotorWithLoad.C140_QuadrotorWithLoad",
    "CT.Robots.C140_HyQ",
    "CT.Robots.C140_actuated_violated",
    "CT.Robots.C140_ignored_violated"
   ],
   "note": "Proved for FloatingBaseForwardDynamics and FloatingBaseID, for HyQ and for the quadrotor with load. FloatingBaseFullyActuatedID ignores the base acceleration it is given and passes an uninitialised vector: it is right only if that vector happens to hold the acceleration."
  },
  {
   "property": "C141",
   "status": "partial",
   "theorems": [
    "CT.FloatSys.C141_copy_partial",
    "CT.FloatSys.C141_copy_violated"
   ],
   "note": "Proved for systems with a contact model; without one - as constructed - the copy constructor dereferences a null pointer."
  },
  {
   "property": "C142",
   "status": "partial",
   "theorems": [
    "CT.Geometry.C142_obstacle_partial",
    "CT.Geometry.C142_jacobian",
    "CT.Geometry.C142_half_axes_violated",
    "CT.Geometry.C142_threshold_violated"
   ],
   "note": "Proved for a matrix with the reciprocals of the half axes on its diagonal and constraint values below the largest number, which is the upper bound. The documentation calls this matrix the one of half axes and gives the threshold 1; both readings are wrong (`C142_half_axes_violated`, `C142_threshold_violated`)."
  },
  {
   "property": "C143",
   "status": "partial",
   "theorems": [
    "CT.Geometry.C143_solve",
    "CT.Geometry.C143_estimate_partial",
    "CT.Geometry.C143_ground_violated"
   ],
   "note": "Over the real numbers, assuming of Eigen's QR solution that it is a least squares solution. Planes through the origin cannot be represented by the estimate (`C143_ground_violated`)."
  },
  {
   "property": "C144",
   "status": "partial",
   "theorems": [
    "CT.Taskspace.C144_gradient_partial",
    "CT.Taskspace.C144_robots_partial",
    "CT.Taskspace.C144_weights_violated"
   ],
   "note": "Over the real numbers, with Eigen's conversions as in `EigenRot.Ok` (shown to exist). Proved for equal weights on the axes of the orientation error; with different weights the gradient is wrong (`C144_weights_violated`)."
  },
  {
   "property": "C145",
   "status": "partial",
   "theorems": [
    "CT.Taskspace.C145_geometric",
    "CT.Taskspace.C145_pose",
    "CT.Taskspace.C145_pose_angle",
    "CT.Taskspace.C145_reference",
    "CT.Taskspace.C145_set_reference",
    "CT.Taskspace.C145_position",
    "CT.Taskspace.C145_clone_violated",
    "CT.Taskspace.C145_hessian"
   ],
   "note": "Over the real numbers. The copy constructor of the position term does not copy the time activation (`C145_clone_violated`)."
  },
  {
   "property": "C146",
   "status": "partial",
   "theorems": [
    "CT.Taskspace.C146_unset",
    "CT.Taskspace.C146_gradient_partial",
    "CT.Taskspace.C146_hessian"
   ],
   "note": "Gradient as in C144, so for equal weights on the axes of the orientation error. Hessian values for symmetric Hessians."
  },
  {
   "property": "C147",
   "status": "partial",
   "theorems": [
    "CT.LqrId.C147_setpoint",
    "CT.LqrId.C147_stable",
    "CT.LqrId.C147_failed_violated",
    "CT.LqrId.C147_robots",
    "CT.LqrId.C147_pendulum"
   ],
   "note": "Over the real numbers. The derivatives of the linear system and the Riccati solution are hypotheses, discharged for the inverted pendulum except for the Riccati solution. If the design fails, the gain is overwritten with a value computed from an uninitialised matrix (`C147_failed_violated`)."
  },
  {
   "property": "C148",
   "status": "partial",
   "theorems": [
    "CT.Jacobi.C148_joint_vel",
    "CT.Jacobi.C148_reachable",
    "CT.Jacobi.C148_pseudo_inverse",
    "CT.Jacobi.C148_methods_partial",
    "CT.Jacobi.C148_skinny_violated",
    "CT.Jacobi.C148_condition"
   ],
   "note": "Over the real numbers, with Eigen's singular value decomposition as a parameter with a contract, and assuming that it treats exactly the vanishing singular values as zero. With more rows than columns the singular values are written to a vector of the wrong size and the manipulability is always zero (`C148_skinny_violated`)."
  },
  {
   "property": "C149",
   "status": "partial",
   "theorems": [
    "CT.IdFb.C149_acceleration",
    "CT.IdFb.C149_rest",
    "CT.IdFb.C149_only",
    "CT.IdFb.C149_energy",
    "CT.IdFb.C149_bounded",
    "CT.IdFb.C149_torque",
    "CT.IdFb.C149_frames_violated"
   ],
   "note": "Over the real numbers, with kindr's conversions as in `Kindr.Ok` and `EulerOk` (shown to exist). Missing: convergence, and the motion of the orientation. The desired twist is compared in the wrong frame (`C149_frames_violated`); desired joint positions are ignored."
  },
  {
   "property": "C150",
   "status": "partial",
   "theorems": [
    "CT.CodeGen.C150_latest",
    "CT.CodeGen.C150_uncompiled",
    "CT.CodeGen.C150_sparse_partial",
    "CT.CodeGen.C150_clone_violated",
    "CT.CodeGen.C150_empty_violated"
   ],
   "note": "Compiled code is a parameter `AD` whose Jacobians and Hessians are those of the recorded function (`AD.Faithful`, shown to exist); compilation succeeds. A copy of a compiled object has lost its sparsity pattern (`C150_clone_violated`); a function without outputs is ignored (`C150_empty_violated`)."
  },
  {
   "property": "C151",
   "status": "partial",
   "theorems": [
    "CT.CodeGen.C151_value",
    "CT.CodeGen.C151_derivatives",
    "CT.CodeGen.C151_uninitialised",
    "CT.CodeGen.C151_activation_violated",
    "CT.CodeGen.C151_shift_violated",
    "CT.CodeGen.C151_stale_violated",
    "CT.CodeGen.C151_reload_violated"
   ],
   "note": "Analytical terms fully switched on or off for the values. Code violations: time activations and time shifts are ignored (`C151_activation_violated`, `C151_shift_violated`), changes after initialisation have no effect (`C151_stale_violated`), configurations read twice count twice (`C151_reload_violated`)."
  },
  {
   "property": "C152",
   "status": "partial",
   "theorems": [
    "CT.CodeGen.C152_runs_partial",
    "CT.CodeGen.C152_values_partial",
    "CT.CodeGen.C152_jacobians_partial",
    "CT.CodeGen.C152_sparse_partial",
    "CT.CodeGen.C152_uninitialised",
    "CT.CodeGen.C152_time_violated",
    "CT.CodeGen.C152_empty_violated",
    "CT.CodeGen.C152_point_constructor_violated"
   ],
   "note": "Histories in which no copy is copied. Code violations: constraints are always evaluated at time zero (`C152_time_violated`), kinds without constraints raise an error (`C152_empty_violated`), containers made with a point cannot receive constraints (`C152_point_constructor_violated`)."
  },
  {
   "property": "C153",
   "status": "partial",
   "theorems": [
    "CT.CodeGen.C153_independent_partial",
    "CT.CodeGen.C153_copy_partial",
    "CT.CodeGen.C153_second_copy_violated"
   ],
   "note": "Histories in which no copy is copied: the copy keeps a function object bound to the first container (`C153_second_copy_violated`)."
  },
  {
   "property": "C154",
   "status": "partial",
   "theorems": [
    "CT.OptCon.C154_parts",
    "CT.OptCon.C154_verify",
    "CT.OptCon.C154_initialised",
    "CT.OptCon.C154_linearisation_partial",
    "CT.OptCon.C154_linearisation_violated",
    "CT.OptCon.C154_uninitialised_violated",
    "CT.OptCon.C154_default_violated",
    "CT.OptCon.C154_null_violated"
   ],
   "note": "Code violations: `setNonlinearSystem` keeps the linearisation of the old system (`C154_linearisation_violated`), constructors leave constraint containers uninitialised (`C154_uninitialised_violated`), the check reads an indeterminate horizon after the default constructor (`C154_default_violated`), null pointers are dereferenced (`C154_null_violated`)."
  },
  {
   "property": "C155",
   "status": "partial",
   "theorems": [
    "CT.OptCon.C155_construct",
    "CT.OptCon.C155_handed_partial",
    "CT.OptCon.C155_constraints_violated",
    "CT.OptCon.C155_reset_violated",
    "CT.OptCon.C155_unverified_violated"
   ],
   "note": "Constraints changed through the backend, whole problems without constraints. Code violations: the solver's own functions for constraints throw, so a problem with constraints can only be given to the constructor and is half set otherwise (`C155_constraints_violated`), constraints of the problem before stay in use (`C155_reset_violated`), the constructor does not check the problem (`C155_unverified_violated`)."
  },
  {
   "property": "C156",
   "status": "partial",
   "theorems": [
    "CT.OptCon.C156_construct",
    "CT.OptCon.C156_fixed_violated",
    "CT.OptCon.C156_accessor_violated",
    "CT.OptCon.C156_start_partial"
   ],
   "note": "Construction, horizon and initial state. Code violation: no other change after the construction has any effect on what is solved (`C156_fixed_violated`), although the accessors show it (`C156_accessor_violated`)."
  },
  {
   "property": "C157",
   "status": "partial",
   "theorems": [
    "CT.Quadrotor.C157_linearisation_partial",
    "CT.Quadrotor.C157_large_violated"
   ],
   "note": "States of norm below 1e20. Code violation: the dynamics returns zero for larger ones (`C157_large_violated`)."
  },
  {
   "property": "C158",
   "status": "partial",
   "theorems": [
    "CT.Quadrotor.C158_translation_partial",
    "CT.Quadrotor.C158_rotation_partial",
    "CT.Quadrotor.C158_equilibria"
   ],
   "note": "States of norm below 1e20, see C157."
  },
  {
   "property": "C159",
   "status": "partial",
   "theorems": [
    "CT.SwitchedCon.C159_intermediate",
    "CT.SwitchedCon.C159_terminal_partial",
    "CT.SwitchedCon.C159_initialize",
    "CT.SwitchedCon.C159_terminal_violated",
    "CT.SwitchedCon.C159_bounds_violated"
   ],
   "note": "Terminal values at times scheduled for the last mode. Code violations: at other times they are those at an old point (`C159_terminal_violated`); intermediate bounds are empty between initialisation and the first point (`C159_bounds_violated`)."
  },
  {
   "property": "C160",
   "status": "partial",
   "theorems": [
    "CT.SwitchedCon.C160_copy_partial",
    "CT.SwitchedCon.C160_copy_violated",
    "CT.SwitchedCon.C160_alias_violated",
    "CT.SwitchedCon.C160_independent"
   ],
   "note": "Independence is proved. Code violations: directly after copying the copy answers with the container of the first mode while its bounds are those of the active one (`C160_copy_violated`); a container used for two modes is split by the copy, and terminal answers differ (`C160_alias_violated`)."
  },
  {
   "property": "C161",
   "status": "proved",
   "theorems": [
    "CT.IkFast.C161_forward_kinematics",
    "CT.IkFast.C161_aligned"
   ],
   "note": "All entries, for all joint positions; `C161_aligned` is the one-parameter family of configurations at 90° of the second joint."
  },
  {
   "property": "C162",
   "status": "partial",
   "theorems": [
    "CT.IkFast.C162_hya_partial",
    "CT.IkFast.C162_hya_world_partial",
    "CT.IkFast.C162_hya_closest_partial",
    "CT.IkFast.C162_free_joints",
    "CT.IkFast.C162_irb_partial",
    "CT.IkFast.C162_aligned_violated"
   ],
   "note": "For poses for which the solver reports no free joint; the solver itself (25000 generated lines) is a parameter assumed to be right about what it reports. Code violation: for poses reachable with the axes of the first and third joint aligned, the value of a free joint is read through a null pointer (`C162_aligned_violated`)."
  },
  {
   "property": "C163",
   "status": "partial",
   "theorems": [
    "CT.NlpSolver.C163_ipopt_numbers",
    "CT.NlpSolver.C163_ipopt_strings_partial",
    "CT.NlpSolver.C163_ipopt_strings_violated",
    "CT.NlpSolver.C163_hessian_violated",
    "CT.NlpSolver.C163_ignored_violated",
    "CT.NlpSolver.C163_snopt",
    "CT.NlpSolver.C163_snopt_constructor_violated"
   ],
   "note": "Numeric and integer options of IPOPT and all options of SNOPT follow the last call (C163_ipopt_numbers, C163_snopt). Code violations: string options of IPOPT keep the value of the constructor (C163_ipopt_strings_violated), so that a solver switched away from exact Hessians keeps asking for them without being told their size (C163_hessian_violated); ten settings are never passed on (C163_ignored_violated); settings given to the constructor of the SNOPT solver have no effect (C163_snopt_constructor_violated)."
  },
  {
   "property": "C164",
   "status": "partial",
   "theorems": [
    "CT.NlpSolver.C164_answers",
    "CT.NlpSolver.C164_jacobian",
    "CT.NlpSolver.C164_description",
    "CT.NlpSolver.C164_solve",
    "CT.NlpSolver.C164_start_partial",
    "CT.NlpSolver.C164_warm_start_violated",
    "CT.NlpSolver.C164_lambda_violated",
    "CT.NlpSolver.C164_guess_violated",
    "CT.NlpSolver.C164_prepared_partial",
    "CT.NlpSolver.C164_prepared_violated"
   ],
   "note": "Callbacks, description, results and return value proved for all sequences of callbacks. Code violations: a warm start combines the old guess with the new multipliers (C164_warm_start_violated); before the first solve multipliers have no size (C164_lambda_violated); without a guess the starting point is uninitialised (C164_guess_violated); data prepared from the variables may belong to another point than the solution (C164_prepared_violated)."
  },
  {
   "property": "C165",
   "status": "partial",
   "theorems": [
    "CT.NlpSolver.C165_callback",
    "CT.NlpSolver.C165_callback_stable",
    "CT.NlpSolver.C165_pool_size",
    "CT.NlpSolver.C165_layout",
    "CT.NlpSolver.C165_not_needed",
    "CT.NlpSolver.C165_stored_partial",
    "CT.NlpSolver.C165_failure_violated",
    "CT.NlpSolver.C165_warm_start_violated",
    "CT.NlpSolver.C165_unsized_violated"
   ],
   "note": "Layout, callbacks, storing of results and the pool of solvers proved. Code violations: solve returns true after failures and leaves the last trial point in the problem (C165_failure_violated); what prepareWarmStart writes into the state arrays is overwritten (C165_warm_start_violated); problems that do not size their constraint multipliers, as the inverse kinematics problem, are read outside (C165_unsized_violated)."
  },
  {
   "property": "C166",
   "status": "partial",
   "theorems": [
    "CT.Ctl.C166_joints_independent",
    "CT.Ctl.C166_same_parameters",
    "CT.Ctl.C166_limits_partial",
    "CT.Ctl.C166_gains_violated",
    "CT.Ctl.C166_copy_violated",
    "CT.Ctl.C166_whole_body",
    "CT.Ctl.C166_whole_body_default"
   ],
   "note": "Independence of joints proved for all histories (C166_joints_independent), limits for histories without setAllPIDGains (C166_limits_partial). Code violations: setAllPIDGains discards time step, bound of the integral part and limits of every joint (C166_gains_violated); clone throws, so that a system with such a controller cannot be copied (C166_copy_violated)."
  },
  {
   "property": "C167",
   "status": "partial",
   "theorems": [
    "CT.Ctl.C167_in_force",
    "CT.Ctl.C167_no_controller",
    "CT.Ctl.C167_last_action",
    "CT.Ctl.C167_copy_same",
    "CT.Ctl.C167_copy_independent",
    "CT.Ctl.C167_original_independent",
    "CT.Ctl.C167_discrete_violated",
    "CT.Ctl.C167_last_action_violated"
   ],
   "note": "Proved for continuous-time systems and all histories. Code violations: the copy of a discrete-time system shares the controller (C167_discrete_violated); getLastControlAction of a system constructed without controller reads an uninitialised vector before the first evaluation (C167_last_action_violated)."
  },
  {
   "property": "C168",
   "status": "proved",
   "theorems": [
    "CT.Ctl.C168_feedback",
    "CT.Ctl.C168_step",
    "CT.Ctl.C168_constant"
   ],
   "note": ""
  },
  {
   "property": "C169",
   "status": "partial",
   "theorems": [
    "CT.ADLin.C169_autodiff",
    "CT.ADLin.C169_compiled_partial",
    "CT.ADLin.C169_uncompiled",
    "CT.ADLin.C169_copy_autodiff",
    "CT.ADLin.C169_copy_compiled_partial",
    "CT.ADLin.C169_time_violated",
    "CT.ADLin.C169_initial_violated",
    "CT.ADLin.C169_parameters_violated",
    "CT.ADLin.C169_dangling_violated"
   ],
   "note": "Proved for all histories (C169_autodiff, C169_compiled_partial, C169_uncompiled, C169_copy_autodiff, C169_copy_compiled_partial), relative to CppAD returning derivatives of the recorded function (Lib.Faithful), at time 0. Code violations: the time asked for is ignored (C169_time_violated); the cache starts with zero matrices for a random point and cannot be turned off (C169_initial_violated); changed parameters are not seen by the original but by its copies (C169_parameters_violated); a copy refers to the system of the original (C169_dangling_violated)."
  },
  {
   "property": "C170",
   "status": "partial",
   "theorems": [
    "CT.ADLin.C170_linear_system",
    "CT.ADLin.C170_jacobian_partial",
    "CT.ADLin.C170_pattern_violated",
    "CT.ADLin.C170_copy_violated"
   ],
   "note": "Proved for all histories of calls for generated linear systems and for Jacobian classes with the default pattern, relative to Lib.Faithful. Code violations: with a pattern given, entries are stored in the wrong places (C170_pattern_violated); copies of the generator have no recorded function (C170_copy_violated)."
  },
  {
   "property": "C171",
   "status": "partial",
   "theorems": [
    "CT.Lqr.C171_exists_unique",
    "CT.Lqr.C171_converges",
    "CT.Lqr.C171_stabilises",
    "CT.Lqr.C171_returns",
    "CT.Lqr.C171_accuracy",
    "CT.Lqr.C171_no_steady_state_violated"
   ],
   "note": "Existence and uniqueness of the steady state, convergence, minimality, stability, termination and accuracy proved. Code violation: when no steady state exists the solver may nevertheless return a result, since it only looks at the last change (C171_no_steady_state_violated)."
  },
  {
   "property": "C172",
   "status": "partial",
   "theorems": [
    "CT.Robots.InvertedPendulum.C172_equation_of_motion",
    "CT.Robots.InvertedPendulum.C172_state_partial",
    "CT.Robots.InvertedPendulum.C172_control",
    "CT.Robots.InvertedPendulum.C172_rounded_violated"
   ],
   "note": "Equation of motion, input derivative and all entries of the state derivative but one proved exactly. Code violation: the effect of the motor position on the acceleration is a literal with 15 digits, off by less than 1e-11 (C172_rounded_violated)."
  },
  {
   "property": "C173",
   "status": "proved",
   "theorems": [
    "CT.Care.C173_riccati",
    "CT.Care.C173_feedback",
    "CT.Care.C173_unstabilisable_violated"
   ],
   "note": "Hypotheses: Eigen's RealSchur and LAPACK's dtrsen deliver what they document (SchurOk with subdiagonal entries zero or at least 1e-12, ReorderOk). Detectability is of (A, Q). Exact arithmetic. Without the conditions success is still reported: neither the number of stable eigenvalues nor the inverted block is checked (C173_unstabilisable_violated)."
  },
  {
   "property": "C174",
   "status": "partial",
   "theorems": [
    "CT.Care.C174_riccati_partial",
    "CT.Care.C174_feedback_partial",
    "CT.Care.C174_invertible",
    "CT.Care.C174_unstabilisable_violated",
    "CT.Care.C174_tolerance_violated"
   ],
   "note": "Proved: for every desired accuracy there is a tolerance below which the claim holds, and no iterate is singular (any dimension; Eigen's FullPivLU and isApprox as documented, exact arithmetic). The code violates the claim for its fixed tolerance 1e-6: for x' = 1.0000009 x + u with weights 1 and 1e13 it stops after one step, reports success and returns a gain under which motions diverge (C174_tolerance_violated). For systems that cannot be stabilised success is reported as well (C174_unstabilisable_violated)."
  },
  {
   "property": "C175",
   "status": "partial",
   "theorems": [
    "CT.Nloc.C175_returns",
    "CT.Nloc.C175_no_ub",
    "CT.Nloc.C175_solution",
    "CT.Nloc.C175_policy",
    "CT.Nloc.C175_improves_partial",
    "CT.Nloc.C175_stale_violated"
   ],
   "note": "Proved for arbitrary linear-quadratic solvers and any number of iterations: returns normally, never reads outside arrays, feasible solution from the initial state with matching costs and errors, policy reproduces the trajectory, merit never above that of the roll-out of the guess (strictly below with the simple line search unless the guess is kept). The code violates the rest: the first line search takes the constraint errors of the guess to be zero, rejects a step that lowers the merit, stops and reports success with the infeasible guess (C175_stale_violated; a second call to solve finds the better solution). Serial backend; exact arithmetic."
  },
  {
   "property": "C176",
   "status": "partial",
   "theorems": [
    "CT.LqApprox.C176_stationary",
    "CT.LqApprox.C176_descent",
    "CT.LqApprox.C176_line_search",
    "CT.LqApprox.C176_armijo_violated"
   ],
   "note": "Proved in full for the simple line search: the step is zero exactly at stationary trajectories, a descent direction elsewhere (whatever the cross terms and indefinite state weights, as long as the corrected control Hessian is positive definite), and the line search with enough back-off steps takes a step that lowers the cost. The code violates it for the Armijo rule: its expected decrease is not that of the quadratic model, and a non-stationary trajectory exists at which it rejects every step although each of them lowers the cost (C176_armijo_violated, default parameter). Exact arithmetic; defects zero (single shooting); no constraints."
  },
  {
   "property": "C177",
   "status": "partial",
   "theorems": [
    "CT.LqApprox.C177_stationary",
    "CT.LqApprox.C177_line_search",
    "CT.LqApprox.C177_weight",
    "CT.LqApprox.C177_default_weight_violated"
   ],
   "note": "Proved for the simple line search: zero step exactly at feasible stationary trajectories; descent of the merit for all large enough weights, with an explicit sufficient weight for convex models; nothing accepted at a solution. The code violates the last sentence: the default weight is zero, and an infeasible guess that costs less than every feasible trajectory is kept and reported as converged, with its recorded defects set to zero (C177_default_weight_violated). Exact arithmetic; serial backend; no constraints; Armijo rule see C176."
  },
  {
   "property": "C178",
   "status": "partial",
   "theorems": [
    "CT.CodeText.C178_template",
    "CT.CodeText.C178_derivative",
    "CT.CodeText.C178_linear_system",
    "CT.CodeText.C178_discrete_linear_system",
    "CT.CodeText.C178_endless_violated",
    "CT.CodeText.C178_clash_violated"
   ],
   "note": "Proved for all names, namespaces, dimensions and generated code that contain no placeholder, for the three kinds of classes, with the shipped templates as generated literals. The code violates the rest: a class name that contains its own placeholder makes the replacement run for ever (C178_endless_violated), a class name that contains another placeholder is rewritten inside the files but not in the file names, so that the source includes a header that was not written (C178_clash_violated)."
  },
  {
   "property": "C179",
   "status": "partial",
   "theorems": [
    "CT.CostLoad.C179_load",
    "CT.CostLoad.C179_linear_violated",
    "CT.CostLoad.C179_activation_kind_violated",
    "CT.CostLoad.C179_activation_ignored_violated",
    "CT.CostLoad.C179_barrier_violated",
    "CT.CostLoad.C179_names_partial",
    "CT.CostLoad.C179_name_violated"
   ],
   "note": "Proved for files with quadratic, mixed, quadratic-multiplicative and smooth-abs terms, always active or in a single time window, without a bound on the number of terms. The code violates the rest: the constant of a loaded linear term is uninitialised (C179_linear_violated), an unknown kind of time activation dereferences a null pointer (C179_activation_kind_violated), an incomplete window is ignored (C179_activation_ignored_violated), a barrier as time activation makes the term zero (C179_barrier_violated), names of some kinds are dropped (C179_name_violated) while those of quadratic and mixed terms are kept (C179_names_partial). Parsing of the text by boost is a parameter; exact arithmetic."
  },
  {
   "property": "C180",
   "status": "partial",
   "theorems": [
    "CT.Settings.C180_values",
    "CT.Settings.C180_line_search",
    "CT.Settings.C180_choices",
    "CT.Settings.C180_succeeds",
    "CT.Settings.C180_unknown",
    "CT.Settings.C180_choices_violated",
    "CT.Settings.C180_line_search_violated",
    "CT.Settings.C180_step_limit_violated",
    "CT.Settings.C180_check_violated"
   ],
   "note": "Proved for every tree and section: independent values (C180_values), the line search if its section is complete (C180_line_search), the names if all are given (C180_choices), success if all written names are known (C180_succeeds), unknown type of line search or integrator ends the program (C180_unknown). The code violates the rest: the names are one block that ends silently at the first missing one (C180_choices_violated), a line search section without a type is dropped (C180_line_search_violated), one without debugPrint is read in part (C180_step_limit_violated), the check accepts a negative number of threads that leads to an access behind an empty array (C180_check_violated). Parsing and conversion of texts by boost are parameters; scalars are real numbers."
  },
  {
   "property": "C181",
   "status": "partial",
   "theorems": [
    "CT.Settings.C181_matrix",
    "CT.Settings.C181_observer",
    "CT.Settings.C181_section_violated",
    "CT.Settings.C181_steady_state_violated",
    "CT.Settings.C181_unscented_violated"
   ],
   "note": "Proved for matrices at every path (C181_matrix) and for the state observer and the extended Kalman filter with a section name ending in a dot (C181_observer). The code violates the rest: a plain section name reads keys of another name, all matrices are zero (C181_section_violated); no section name serves the steady-state filter, whose two entries are combined differently (C181_steady_state_violated); the parameters of the unscented filter are read as Booleans (C181_unscented_violated). Conversion of texts is a parameter."
  },
  {
   "property": "C182",
   "status": "partial",
   "theorems": [
    "CT.Rti.C182_step",
    "CT.Rti.C182_optimal_partial",
    "CT.Rti.C182_loop_partial",
    "CT.Rti.C182_defects_violated",
    "CT.Rti.C182_short_horizon_violated",
    "CT.Rti.C182_limits_violated"
   ],
   "note": "Proved for every problem and guess with shots up to the horizon and the Riccati solver: the split step equals the whole step (C182_step), it is optimal for affine-quadratic problems with three of the four algorithms with several shots (C182_optimal_partial; the fourth is C108_ms_ilqr_violated), also after any history of calls (C182_loop_partial). The code violates the rest: setting the state erases the gaps of the prepared shots from the reported norm (C182_defects_violated), closed-loop roll-out of the first shot changes controls after the limits were made (C182_limits_violated), a horizon shorter than a shot leads outside the arrays (C182_short_horizon_violated)."
  },
  {
   "property": "C183",
   "status": "partial",
   "theorems": [
    "CT.Par.C183_rollout_partial",
    "CT.Par.C183_lq_partial",
    "CT.Par.C183_single",
    "CT.Par.C183_reached",
    "CT.Par.C183_violated"
   ],
   "note": "Proved for every phase that starts while no worker is busy with an earlier task: in every interleaving of single assignments the arrays stay defined and at the end of the phase equal the serial result (C183_rollout_partial, C183_lq_partial), ranges of one index are done by the main thread as in the serial backend (C183_single), and every state of the protocol is reached together with the work (C183_reached). Missing: a worker still busy with an earlier phase, which the code does not exclude (C56_violated). The restriction is needed: C183_violated, for every problem with two stages and any number of workers, shows an execution in which the approximation is never stored."
  },
  {
   "property": "C184",
   "status": "partial",
   "theorems": [
    "CT.DmsLoad.C184_values",
    "CT.DmsLoad.C184_solver",
    "CT.DmsLoad.C184_ipopt",
    "CT.DmsLoad.C184_snopt",
    "CT.DmsLoad.C184_cppad",
    "CT.DmsLoad.C184_succeeds",
    "CT.DmsLoad.C184_effect_partial",
    "CT.DmsLoad.C184_effect_snopt",
    "CT.DmsLoad.C184_accepted_partial",
    "CT.DmsLoad.C184_unknown_solver_violated",
    "CT.DmsLoad.C184_wrapped_solver_violated",
    "CT.DmsLoad.C184_accepted_violated",
    "CT.DmsLoad.C184_exit_violated",
    "CT.DmsLoad.C184_configure_violated",
    "CT.DmsLoad.C184_compiler_violated",
    "CT.DmsLoad.C184_frequency_violated",
    "CT.DmsLoad.C184_limit_violated"
   ],
   "note": "Proved: the values after a successful load (C184_values, C184_solver, C184_ipopt, C184_snopt, C184_cppad), exactly when loading succeeds (C184_succeeds), the options the NLP solver runs with (C184_effect_partial, C184_effect_snopt), and that settings passing the check work unless they ask for RK5 or an optimized grid (C184_accepted_partial). Violated by the code: an unknown NLP solver is only reported and solving then dereferences a null pointer, 256 is read as IPOPT, settings that pass the check make the constructor throw, an unknown integration type ends the program with exit code 0, configure never reaches the NLP solver, an unknown compiler is ignored, print_frequency_iter is never read, limits from 2^31 become negative."
  },
  {
   "property": "C185",
   "status": "partial",
   "theorems": [
    "CT.IkProb.C185_pattern",
    "CT.IkProb.C185_description",
    "CT.IkProb.C185_answers_partial",
    "CT.IkProb.C185_feasible",
    "CT.IkProb.C185_shared_violated",
    "CT.IkProb.C185_retries",
    "CT.IkProb.C185_random",
    "CT.IkProb.C185_limits_partial",
    "CT.IkProb.C185_limits_violated",
    "CT.IkProb.C185_guess_violated",
    "CT.IkProb.C185_evaluator_partial",
    "CT.IkProb.C185_target_quaternion",
    "CT.IkProb.C185_target_euler"
   ],
   "note": "Proved: what IPOPT is told (C185_description, C185_pattern, C185_feasible), the answers to all callbacks unless the evaluator is given to a second problem (C185_answers_partial), trials and results (C185_retries, C185_random), targets (C185_target_quaternion, C185_target_euler), the evaluator of a robot (C185_evaluator_partial). Violated by the code: an evaluator given to a second problem looks at the variables of that problem (C185_shared_violated); the status of IPOPT is ignored, so a solution may violate the joint limits (C185_limits_violated; C185_limits_partial if the accepted run succeeded); a failed call with random retries replaces the guess of the user (C185_guess_violated)."
  },
  {
   "property": "C186",
   "status": "partial",
   "theorems": [
    "CT.Robots.QuadrotorWithLoad.C186_euler",
    "CT.Robots.QuadrotorWithLoad.C186_quaternion",
    "CT.Robots.QuadrotorWithLoad.C186_energy",
    "CT.Robots.QuadrotorWithLoad.C186_response",
    "CT.Robots.QuadrotorWithLoad.C186_hover",
    "CT.Robots.QuadrotorWithLoad.C186_response_violated"
   ],
   "note": "Over the real numbers; kindr as in `Kindr.Ok`. Proved: motion (C186_euler, C186_quaternion), energy (C186_energy), response through the inertia matrix (C186_response), hover (C186_hover). Violated by the code: with horizontal rod more thrust accelerates the body against the thrust, as the link inertias are given about the centres of mass (C186_response_violated, see C127)."
  },
  {
   "property": "C187",
   "status": "partial",
   "theorems": [
    "CT.TaskCG.C187_value",
    "CT.TaskCG.C187_derivatives",
    "CT.TaskCG.C187_default_violated",
    "CT.TaskCG.C187_orientation_violated",
    "CT.TaskCG.C187_rejected",
    "CT.TaskCG.C187_failed_load_violated",
    "CT.TaskCG.C187_matrix_violated",
    "CT.TaskCG.C187_override_violated",
    "CT.TaskCG.C187_override_pendulum_violated"
   ],
   "note": "Over the real numbers; the generated code is a parameter that returns derivatives where they exist (`AD.Faithful`). Proved: values, references and activation after all histories (C187_value), derivatives (C187_derivatives), rejection of files that lack a scalar (C187_rejected), with smooth poses proved for all five robots. Violated by the code: files without an orientation are accepted as the identity (C187_orientation_violated), a failed load leaves a mixture (C187_failed_load_violated), a matrix given to a constructor is read as Euler angles from its first column (C187_matrix_violated), an override of setStateFromVector has no effect until setup is called again (C187_override_violated, C187_override_pendulum_violated), a default-constructed term dereferences a null pointer (C187_default_violated)."
  },
  {
   "property": "C188",
   "status": "partial",
   "theorems": [
    "CT.RobotNloc.C188_floating",
    "CT.RobotNloc.C188_floating_short",
    "CT.RobotNloc.C188_default_violated",
    "CT.RobotNloc.C188_steady",
    "CT.RobotNloc.C188_steady_short",
    "CT.RobotNloc.C188_rejected_violated",
    "CT.RobotNloc.C188_interpolation",
    "CT.RobotNloc.C188_interpolation_violated",
    "CT.RobotNloc.C188_results",
    "CT.RobotNloc.C188_time_violated"
   ],
   "note": "Proved: guesses and results shown (C188_floating, C188_steady, C188_interpolation, C188_results), rejection of short guesses (C188_floating_short, C188_steady_short). Violated by the code: getTimeArray of both front ends returns a reference into a destroyed temporary (C188_time_violated); the default arguments of initialize always throw (C188_default_violated); a rejected guess leaves uninitialised entries (C188_rejected_violated); with more points than stages the interpolated guess stops short of the final state (C188_interpolation_violated)."
  },
  {
   "property": "C189",
   "status": "partial",
   "theorems": [
    "CT.Rkn.C189_state_euler",
    "CT.Rkn.C189_state_rk4",
    "CT.Rkn.C189_nodes_linear",
    "CT.Rkn.C189_nodes_hold",
    "CT.Rkn.C189_durations_violated",
    "CT.Rkn.C189_rk5_violated",
    "CT.Rkn.C189_no_logs_violated"
   ],
   "note": "Proved for Euler and RK4, initial state and both nodes, linear and held controls, for arbitrary earlier calls. Violated: the duration sensitivities are always empty; the third integration type ends the process with exit(0) for two of the three computations; computing without logs dereferences a null pointer (outside assert builds)."
  },
  {
   "property": "C190",
   "status": "partial",
   "theorems": [
    "CT.Robots.C190_HyQ",
    "CT.Robots.C190_HyA_partial",
    "CT.Robots.C190_others_partial",
    "CT.Robots.C190_violated",
    "CT.Robots.C190_rounding_violated"
   ],
   "note": "Proved for all 13 links of HyQ, five of the six links of HyA, the second link of the double inverted pendulum and the body of the quadrotor, with explicit masses. Violated: the link of the inverted pendulum, the last link of HyA and both links of the quadrotor's load cannot exist, whatever distribution is tried; the first link of the double inverted pendulum misses it by a rounding error."
  },
  {
   "property": "C191",
   "status": "proved",
   "theorems": [
    "CT.Robots.InvertedPendulum.C191_InvertedPendulum",
    "CT.Robots.DoubleInvertedPendulum.C191_DoubleInvertedPendulum",
    "CT.Robots.HyA.C191_HyA",
    "CT.Robots.QuadrotorWithLoad.C191_QuadrotorWithLoad",
    "CT.Robots.HyQ.C191_HyQ"
   ],
   "note": "Proved for all five robots. The frames are arranged as in C130 (for HyQ as the generated transforms have them). The fixed base of the arm and the pendulums has no mass in the generated code. Masses are allowed to be negative, so that the links that cannot exist (C190) are covered."
  },
  {
   "property": "C192",
   "status": "proved",
   "theorems": [
    "CT.ProjSys.C192_feet_stay"
   ],
   "note": "Generated mass matrix, Coriolis and gravity terms are parameters; positions and Jacobians of the end effectors are those of arbitrary kinematic chains (C130, C117). Contacts that lose rank are excluded. Cloning the system always throws, so it cannot be handed to solvers that copy their system; not part of the claim."
  },
  {
   "property": "C193",
   "status": "proved",
   "theorems": [
    "CT.Robots.HyQ.C193_derivative",
    "CT.Robots.HyQ.C193_agree"
   ],
   "note": "Every statement of both generated functions is translated, with real numbers for doubles. The positions and velocities are those of the modelled kinematics: generated transforms and Jacobians of HyQ, the state read from the vector, and the rotation of the base as kindr computes it through quaternions."
  },
  {
   "property": "C194",
   "status": "partial",
   "theorems": [
    "CT.HesCg.C194_hessian_partial",
    "CT.HesCg.C194_hessian_violated",
    "CT.HesCg.C194_HyA_violated"
   ],
   "note": "The code violates the property: the generator of names is given the number of outputs where it needs the number of inputs (CGHelpers.h:220), so inputs and weights are mixed up. C194_hessian_violated gives, for any two different numbers of inputs and outputs, a function whose class is wrong; C194_HyA_violated shows that every call of the shipped class (translated statement by statement) reads outside of the weights. Proved: the property for as many outputs as inputs. How CppADCodeGen chooses names is an assumption, confirmed by the shipped class; sparsity patterns other than the default are not modelled."
  },
  {
   "property": "C195",
   "status": "partial",
   "theorems": [
    "CT.SysLin.C195_linearise_partial",
    "CT.SysLin.C195_affine",
    "CT.SysLin.C195_fixBase",
    "CT.SysLin.C195_secondOrder",
    "CT.SysLin.C195_type_violated",
    "CT.SysLin.C195_actuator_violated",
    "CT.SysLin.C195_null_violated"
   ],
   "note": "Over the real numbers; systems are functions without side effects. Proved for all discrete-time systems and all systems of which the type is right (C195_linearise_partial, C195_affine), which includes SecondOrderSystem (C195_secondOrder) and fixed-base robots without actuators (C195_fixBase). Violated by the code: FixBaseFDSystemSymplectic calls itself second-order also with actuators, whose positions need not change with their velocities, so the linearisation is wrong (C195_type_violated, C195_actuator_violated); a null pointer is dereferenced before it is checked (C195_null_violated)."
  },
  {
   "property": "C196",
   "status": "proved",
   "theorems": [
    "CT.Robots.HyQ.Zero.C196_kinematics",
    "CT.Robots.HyQ.Zero.C196_system",
    "CT.Robots.HyQ.Zero.C196_halves"
   ],
   "note": "Over the real numbers. The statements of the generated function that compute the first eighteen elements of its result are translated one by one; those that compute the accelerations are a parameter, so nothing is claimed about the values of the accelerations. The functions of kindr are assumed to be right (Kindr.Ok), as in C141."
  },
  {
   "property": "C197",
   "status": "partial",
   "theorems": [
    "CT.Adaptive.C197_method_partial",
    "CT.Adaptive.C197_tolerances_violated",
    "CT.Adaptive.C197_own_violated",
    "CT.Adaptive.C197_unsupported_violated",
    "CT.Adaptive.C197_error_partial",
    "CT.Adaptive.C197_error_violated",
    "CT.Adaptive.C197_error_both_violated"
   ],
   "note": "Proved: the method is that of the type chosen last (C197_method_partial), and with versions of Eigen before 3.3 a step is accepted exactly if its error is within the tolerances (C197_error_partial). Violated by the code: tolerances are copied when a stepper is made, so that setting them later has no effect (C197_tolerances_violated); the sum of a number and a vector provided for Eigen 3.3 and newer is their product, so that a step is measured by the product of both tolerances, and no step is accepted with a finite error measure while a component rests at zero (C197_error_violated, C197_error_both_violated); the own steppers, one of which is the default, throw (C197_own_violated); changing to an unsupported type does nothing (C197_unsupported_violated). How boost odeint computes the error from these operators and decides on steps is taken from its documented error checker, not from the repository; quotients with divisor zero are not finite numbers."
  },
  {
   "property": "C198",
   "status": "partial",
   "theorems": [
    "CT.IntCopy.C198_made_partial",
    "CT.IntCopy.C198_copy_violated",
    "CT.IntCopy.C198_dangling_violated"
   ],
   "note": "Proved for integrators made by a constructor (C198_made_partial). Violated by the code for copies: the implicit copy constructor copies functions that refer to the original, so that a copy returns the right final state but records nothing while the original lives (C198_copy_violated), and its use is undefined after the original was destroyed (C198_dangling_violated). Modelled with the own steppers and without event handlers and assignment."
  },
  {
   "property": "C199",
   "status": "partial",
   "theorems": [
    "CT.FilterShare.C199_given_control_partial",
    "CT.FilterShare.C199_two_models_violated",
    "CT.FilterShare.C199_two_models_example_violated",
    "CT.FilterShare.C199_controller_violated"
   ],
   "note": "Proved for a model that is made of its system after all other models and after all controllers were set (C199_given_control_partial). Violated by the code otherwise: each model hands its own constant controller to the shared system, so that a model made earlier ignores its control and advances with that last given to the later model, zero at first (C199_two_models_violated, C199_two_models_example_violated); likewise when the caller sets a controller later (C199_controller_violated). The integration scheme is a parameter; derivatives are the subject of C95."
  },
  {
   "property": "C200",
   "status": "partial",
   "theorems": [
    "CT.LinSwap.C200_gains_partial",
    "CT.LinSwap.C200_same_times_partial",
    "CT.LinSwap.C200_times_violated",
    "CT.LinSwap.C200_lengths_violated"
   ],
   "note": "Proved for feedforward, increments and gains (C200_gains_partial), and completely for laws on the same times (C200_same_times_partial). Violated by the code otherwise: swap leaves out the times, so that laws on different times are never exchanged (C200_times_violated) and the lengths of times and gains may differ afterwards (C200_lengths_violated). setZero of these classes is not modelled: it calls a function that does not exist."
  },
  {
   "property": "C201",
   "status": "partial",
   "theorems": [
    "CT.NlocSummary.C201_rows_partial",
    "CT.NlocSummary.C201_contents_partial",
    "CT.NlocSummary.C201_first_solve_partial",
    "CT.NlocSummary.C201_restart_violated",
    "CT.NlocSummary.C201_mpc_violated"
   ],
   "note": "Proved: the columns have one row per iteration completed in the whole life of the solver (C201_rows_partial), row by row with the right contents and the number within its solve (C201_contents_partial), and completely for the first solve (C201_first_solve_partial). Violated by the code after a restart: reset leaves the summary as it is, so that it also holds the rows of all earlier solves (C201_restart_violated); under MPC it grows with every call and all rows have the number 0 (C201_mpc_violated)."
  }
 ]
}