# Axioms the theorems of the manifest depend on

Written by `tools/gen_axioms.py` from `#print axioms`.

## none

* `CT.NlpSolver.C163_ignored_violated`
* `CT.NlpSolver.C164_guess_violated`
* `CT.OptCon.C154_null_violated`

## propext

* `CT.Activation.C10_single_window`
* `CT.Ctl.C167_discrete_violated`
* `CT.Ctl.C167_last_action_violated`
* `CT.Ctl.C167_no_controller`
* `CT.FilterShare.C199_two_models_example_violated`
* `CT.Hpipm.C104_moved_violated`
* `CT.LinSwap.C200_lengths_violated`
* `CT.Lookup.DoubleInvertedPendulum.C133_DoubleInvertedPendulum_ee_link`
* `CT.Lookup.HyA.C133_HyA_ee_link`
* `CT.Lookup.HyQ.C133_HyQ_ee_link`
* `CT.Lookup.InvertedPendulum.C133_InvertedPendulum_ee_link`
* `CT.Nloc.C118_terminal_violated`
* `CT.NlpSolver.C163_snopt_constructor_violated`
* `CT.OptCon.C154_default_violated`
* `CT.OptCon.C154_linearisation_violated`
* `CT.OptCon.C154_parts`
* `CT.OptCon.C154_uninitialised_violated`
* `CT.OptCon.C155_unverified_violated`
* `CT.OptCon.C156_fixed_violated`
* `CT.Par.C56_first_ready`
* `CT.Par.C56_single`
* `CT.Robot.C86_storage_partial`
* `CT.Robot.C86_violated`
* `CT.SwitchedCon.C159_bounds_violated`
* `CT.Timer.C09_violated`

## propext, Classical.choice, Quot.sound

* `CT.ADLin.C169_autodiff`
* `CT.ADLin.C169_compiled_partial`
* `CT.ADLin.C169_copy_autodiff`
* `CT.ADLin.C169_copy_compiled_partial`
* `CT.ADLin.C169_dangling_violated`
* `CT.ADLin.C169_initial_violated`
* `CT.ADLin.C169_parameters_violated`
* `CT.ADLin.C169_time_violated`
* `CT.ADLin.C169_uncompiled`
* `CT.ADLin.C170_copy_violated`
* `CT.ADLin.C170_jacobian_partial`
* `CT.ADLin.C170_linear_system`
* `CT.ADLin.C170_pattern_violated`
* `CT.Activation.C10_periodic_repeats_partial`
* `CT.Activation.C10_periodic_window_partial`
* `CT.Activation.C67_barrier_derivatives`
* `CT.Activation.C67_barrier_load_missing`
* `CT.Activation.C67_barrier_load_partial`
* `CT.Activation.C67_barrier_one_sided`
* `CT.Activation.C67_barrier_shape`
* `CT.Activation.C67_violated`
* `CT.Activation.C68_gauss_bump_partial`
* `CT.Activation.C68_violated`
* `CT.Actuator.C65_sea_equilibrium`
* `CT.Actuator.C65_sea_inverse`
* `CT.Actuator.C65_second_order`
* `CT.Actuator.C88_gain_partial`
* `CT.Actuator.C88_per_joint`
* `CT.Actuator.C88_per_joint_gain`
* `CT.Actuator.C88_violated`
* `CT.Actuator.C90_actuated`
* `CT.Actuator.C90_kinematic`
* `CT.Actuator.C90_steady`
* `CT.Actuator.C90_torques`
* `CT.Actuator.C91_actuator_partial`
* `CT.Actuator.C91_interpolation`
* `CT.Actuator.C91_last_violated`
* `CT.Actuator.C91_steady`
* `CT.Actuator.C91_steady_violated`
* `CT.Actuator.C92_forces_partial`
* `CT.Actuator.C92_violated`
* `CT.Actuator.C93_same_motion`
* `CT.Adaptive.C197_error_both_violated`
* `CT.Adaptive.C197_error_partial`
* `CT.Adaptive.C197_error_violated`
* `CT.Adaptive.C197_method_partial`
* `CT.Adaptive.C197_own_violated`
* `CT.Adaptive.C197_tolerances_violated`
* `CT.Adaptive.C197_unsupported_violated`
* `CT.Arrays.C05_scale_divide`
* `CT.Arrays.C06_increasing`
* `CT.Arrays.C06_linspace`
* `CT.Care.C173_feedback`
* `CT.Care.C173_riccati`
* `CT.Care.C173_unstabilisable_violated`
* `CT.Care.C174_feedback_partial`
* `CT.Care.C174_invertible`
* `CT.Care.C174_riccati_partial`
* `CT.Care.C174_tolerance_violated`
* `CT.Care.C174_unstabilisable_violated`
* `CT.CodeGen.C150_clone_violated`
* `CT.CodeGen.C150_empty_violated`
* `CT.CodeGen.C150_latest`
* `CT.CodeGen.C150_sparse_partial`
* `CT.CodeGen.C150_uncompiled`
* `CT.CodeGen.C151_activation_violated`
* `CT.CodeGen.C151_derivatives`
* `CT.CodeGen.C151_reload_violated`
* `CT.CodeGen.C151_shift_violated`
* `CT.CodeGen.C151_stale_violated`
* `CT.CodeGen.C151_uninitialised`
* `CT.CodeGen.C151_value`
* `CT.CodeGen.C152_empty_violated`
* `CT.CodeGen.C152_jacobians_partial`
* `CT.CodeGen.C152_point_constructor_violated`
* `CT.CodeGen.C152_runs_partial`
* `CT.CodeGen.C152_sparse_partial`
* `CT.CodeGen.C152_time_violated`
* `CT.CodeGen.C152_uninitialised`
* `CT.CodeGen.C152_values_partial`
* `CT.CodeGen.C153_copy_partial`
* `CT.CodeGen.C153_independent_partial`
* `CT.CodeGen.C153_second_copy_violated`
* `CT.CodeText.C178_clash_violated`
* `CT.CodeText.C178_derivative`
* `CT.CodeText.C178_discrete_linear_system`
* `CT.CodeText.C178_endless_violated`
* `CT.CodeText.C178_linear_system`
* `CT.CodeText.C178_template`
* `CT.ConDyn.C114_forward`
* `CT.ConDyn.C115_inverse`
* `CT.ConDyn.C115_roundtrip`
* `CT.Constraints.C32_component`
* `CT.Constraints.C32_container`
* `CT.Constraints.C32_vector`
* `CT.Constraints.C33_history`
* `CT.Constraints.C33_jacobians_partial`
* `CT.Constraints.C33_terminal_jacobian_violated`
* `CT.Constraints.C34_box`
* `CT.Constraints.C34_container`
* `CT.Constraints.C34_default_partial`
* `CT.Constraints.C34_default_violated`
* `CT.Constraints.C34_terminal`
* `CT.Constraints.C35_dense`
* `CT.Constraints.C35_sparse`
* `CT.Constraints.C35_terms`
* `CT.Contact.C64_dissipates`
* `CT.Contact.C64_force_partial`
* `CT.Contact.C64_inactive_violated`
* `CT.Contact.C64_no_pull`
* `CT.Contact.C64_offset_violated`
* `CT.Contact.C64_set_active_partial`
* `CT.Contact.C64_share`
* `CT.Contact.C64_spring`
* `CT.Contact.C64_undefined_smoothing`
* `CT.Cost.C100_identifier`
* `CT.Cost.C100_name`
* `CT.Cost.C36_smooth_abs`
* `CT.Cost.C36_terms`
* `CT.Cost.C37_derivatives`
* `CT.Cost.C37_point`
* `CT.Cost.C37_terminal`
* `CT.Cost.C37_value_partial`
* `CT.Cost.C37_violated`
* `CT.Cost.C76_quotients_partial`
* `CT.Cost.C76_shift_violated`
* `CT.Cost.C76_state_violated`
* `CT.Cost.C77_barrier_violated`
* `CT.Cost.C77_simple_partial`
* `CT.Cost.C77_simple_terminal_violated`
* `CT.Cost.C78_asymmetric_violated`
* `CT.Cost.C78_gradients_partial`
* `CT.Cost.C78_reference_violated`
* `CT.Cost.C79_copy_partial`
* `CT.Cost.C79_new_violated`
* `CT.CostLoad.C179_activation_ignored_violated`
* `CT.CostLoad.C179_activation_kind_violated`
* `CT.CostLoad.C179_barrier_violated`
* `CT.CostLoad.C179_linear_violated`
* `CT.CostLoad.C179_load`
* `CT.CostLoad.C179_name_violated`
* `CT.CostLoad.C179_names_partial`
* `CT.Cppad.C26_distinct_partial`
* `CT.Cppad.C26_sections_partial`
* `CT.Cppad.C26_violated`
* `CT.Ctl.C166_gains_violated`
* `CT.Ctl.C166_joints_independent`
* `CT.Ctl.C166_limits_partial`
* `CT.Ctl.C166_whole_body`
* `CT.Ctl.C166_whole_body_default`
* `CT.Ctl.C167_copy_independent`
* `CT.Ctl.C167_copy_same`
* `CT.Ctl.C167_in_force`
* `CT.Ctl.C167_original_independent`
* `CT.Ctl.C168_constant`
* `CT.Ctl.C168_feedback`
* `CT.Ctl.C168_step`
* `CT.Dms.C107_final_time_violated`
* `CT.Dms.C107_full_gradient`
* `CT.Dms.C107_full_value_partial`
* `CT.Dms.C107_simple_gradient`
* `CT.Dms.C107_simple_value_partial`
* `CT.Dms.C107_stale_weights_violated`
* `CT.Dms.C45_blocks`
* `CT.Dms.C45_guess`
* `CT.Dms.C45_write`
* `CT.Dms.C46_ends_partial`
* `CT.Dms.C46_violated`
* `CT.Dms.C47_grid`
* `CT.Dms.C47_segments`
* `CT.Dms.C48_duration`
* `CT.Dms.C48_hold`
* `CT.Dms.C48_nodes`
* `CT.Dms.C48_time`
* `CT.Dms.C48_values`
* `CT.Dms.C49_init`
* `CT.Dms.C49_triplets`
* `CT.Dms.C50_counts_partial`
* `CT.Dms.C50_violated`
* `CT.Dms.C51_hold_partial`
* `CT.Dms.C51_linear_violated`
* `CT.Dms.C52_construction_partial`
* `CT.Dms.C52_requests_partial`
* `CT.Dms.C52_violated_horizon`
* `CT.Dms.C52_violated_initial`
* `CT.Dms.C82_rows_partial`
* `CT.DmsLoad.C184_accepted_partial`
* `CT.DmsLoad.C184_accepted_violated`
* `CT.DmsLoad.C184_compiler_violated`
* `CT.DmsLoad.C184_configure_violated`
* `CT.DmsLoad.C184_cppad`
* `CT.DmsLoad.C184_effect_partial`
* `CT.DmsLoad.C184_effect_snopt`
* `CT.DmsLoad.C184_exit_violated`
* `CT.DmsLoad.C184_frequency_violated`
* `CT.DmsLoad.C184_ipopt`
* `CT.DmsLoad.C184_limit_violated`
* `CT.DmsLoad.C184_snopt`
* `CT.DmsLoad.C184_solver`
* `CT.DmsLoad.C184_succeeds`
* `CT.DmsLoad.C184_unknown_solver_violated`
* `CT.DmsLoad.C184_values`
* `CT.DmsLoad.C184_wrapped_solver_violated`
* `CT.Filter.C42_minimum_variance`
* `CT.Filter.C42_psd`
* `CT.Filter.C43_predict_partial`
* `CT.Filter.C43_transform`
* `CT.Filter.C43_uninitialised_violated`
* `CT.Filter.C43_update_partial`
* `CT.Filter.C43_update_violated`
* `CT.Filter.C43_weights`
* `CT.Filter.C80_linearisation_time_partial`
* `CT.Filter.C80_linearisation_time_violated`
* `CT.Filter.C80_measurement_time_violated`
* `CT.Filter.C80_update_partial`
* `CT.Filter.C95_controller`
* `CT.Filter.C95_disturbed_motion`
* `CT.Filter.C95_disturbed_steps`
* `CT.Filter.C95_measurement`
* `CT.Filter.C95_system`
* `CT.Filter.C96_update_partial`
* `CT.Filter.C96_violated`
* `CT.FilterShare.C199_controller_violated`
* `CT.FilterShare.C199_given_control_partial`
* `CT.FilterShare.C199_two_models_violated`
* `CT.FloatSys.C139_euler`
* `CT.FloatSys.C139_forces_partial`
* `CT.FloatSys.C139_halves`
* `CT.FloatSys.C139_quaternion`
* `CT.FloatSys.C139_rotations`
* `CT.FloatSys.C139_shared_violated`
* `CT.FloatSys.C141_copy_partial`
* `CT.FloatSys.C141_copy_violated`
* `CT.ForceMap.C121_base_link_violated`
* `CT.ForceMap.C121_ee_partial`
* `CT.ForceMap.C121_force_only_partial`
* `CT.ForceMap.C121_lookup`
* `CT.ForceMap.C121_position`
* `CT.ForceMap.C121_set_end_effector_violated`
* `CT.ForceMap.C121_unknown`
* `CT.ForceMap.C121_world_partial`
* `CT.FrameJac.C116_acceleration`
* `CT.FrameJac.C116_angular_velocity`
* `CT.FrameJac.C116_derivative`
* `CT.FrameJac.C116_velocity`
* `CT.FrameJac.C117_contact`
* `CT.FrameJac.C117_dJdt`
* `CT.FrameJac.C117_jacobian`
* `CT.FrameJac.C117_rows`
* `CT.GenKin.C130_HyA_rounding_violated`
* `CT.Geometry.C142_half_axes_violated`
* `CT.Geometry.C142_jacobian`
* `CT.Geometry.C142_obstacle_partial`
* `CT.Geometry.C142_threshold_violated`
* `CT.Geometry.C143_estimate_partial`
* `CT.Geometry.C143_ground_violated`
* `CT.Geometry.C143_solve`
* `CT.HesCg.C194_HyA_violated`
* `CT.HesCg.C194_hessian_partial`
* `CT.HesCg.C194_hessian_violated`
* `CT.Hpipm.C104_first`
* `CT.Hpipm.C104_iterations_partial`
* `CT.Hpipm.C104_twice_violated`
* `CT.Hpipm.C109_first_feedback`
* `CT.IK.C66_closest`
* `CT.IK.C66_frames`
* `CT.IK.C66_guesses`
* `CT.IK.C66_retries`
* `CT.IK.C89_near_partial`
* `CT.IK.C89_violated`
* `CT.IdFb.C149_acceleration`
* `CT.IdFb.C149_bounded`
* `CT.IdFb.C149_energy`
* `CT.IdFb.C149_frames_violated`
* `CT.IdFb.C149_only`
* `CT.IdFb.C149_rest`
* `CT.IdFb.C149_torque`
* `CT.IkFast.C161_aligned`
* `CT.IkFast.C161_forward_kinematics`
* `CT.IkFast.C162_aligned_violated`
* `CT.IkFast.C162_free_joints`
* `CT.IkFast.C162_hya_closest_partial`
* `CT.IkFast.C162_hya_partial`
* `CT.IkFast.C162_hya_world_partial`
* `CT.IkFast.C162_irb_partial`
* `CT.IkProb.C185_answers_partial`
* `CT.IkProb.C185_description`
* `CT.IkProb.C185_evaluator_partial`
* `CT.IkProb.C185_feasible`
* `CT.IkProb.C185_guess_violated`
* `CT.IkProb.C185_limits_partial`
* `CT.IkProb.C185_limits_violated`
* `CT.IkProb.C185_pattern`
* `CT.IkProb.C185_random`
* `CT.IkProb.C185_retries`
* `CT.IkProb.C185_shared_violated`
* `CT.IkProb.C185_target_euler`
* `CT.IkProb.C185_target_quaternion`
* `CT.IntCopy.C198_copy_violated`
* `CT.IntCopy.C198_dangling_violated`
* `CT.IntCopy.C198_made_partial`
* `CT.Integration.C15_recorded_trajectory_partial`
* `CT.Integration.C15_violated`
* `CT.Integration.C16_euler`
* `CT.Integration.C16_rk4_linear`
* `CT.Integration.C16_rk4_polynomial`
* `CT.Integration.C17_completes_iff`
* `CT.Integration.C17_kill`
* `CT.Integration.C17_max_steps`
* `CT.Interp.C01_assignment_partial`
* `CT.Interp.C01_findIndex_active`
* `CT.Interp.C01_findIndex_cache_irrelevant`
* `CT.Interp.C01_history_independent_partial`
* `CT.Interp.C01_violated`
* `CT.Interp.C02_after_last`
* `CT.Interp.C02_at_stamp`
* `CT.Interp.C02_before_first`
* `CT.Interp.C02_between`
* `CT.Interp.C02_bounded`
* `CT.Interp.C03_history`
* `CT.Interp.C03_sorted`
* `CT.Interp.C03_step`
* `CT.Interp.C04_shift_eval`
* `CT.Inverses.C22_ldlt_factors`
* `CT.Inverses.C22_ldlt_pivots`
* `CT.Inverses.C22_ldlt_solve`
* `CT.Inverses.C22_lu_factors`
* `CT.Inverses.C22_lu_pivots`
* `CT.Inverses.C22_lu_solve`
* `CT.Inverses.C22_posdef_solve`
* `CT.Jacobi.C148_condition`
* `CT.Jacobi.C148_joint_vel`
* `CT.Jacobi.C148_methods_partial`
* `CT.Jacobi.C148_pseudo_inverse`
* `CT.Jacobi.C148_reachable`
* `CT.Jacobi.C148_skinny_violated`
* `CT.Joint.C62_far_undefined`
* `CT.Joint.C62_position_limits`
* `CT.Joint.C62_unique`
* `CT.Joint.C62_unique_one`
* `CT.LTI.C25_controllability`
* `CT.LTI.C25_observability_partial`
* `CT.LTI.C25_observability_test_partial`
* `CT.LTI.C25_observability_violated`
* `CT.LTI.C74_reachable`
* `CT.LTI.C75_controllability_gramian`
* `CT.LTI.C75_lyapunov`
* `CT.LTI.C75_observability_gramian`
* `CT.LTI.C75_posSemidef`
* `CT.LinSwap.C200_gains_partial`
* `CT.LinSwap.C200_same_times_partial`
* `CT.LinSwap.C200_times_violated`
* `CT.Lookup.C133_base_link_violated`
* `CT.Lookup.DoubleInvertedPendulum.C133_DoubleInvertedPendulum_lookup`
* `CT.Lookup.DoubleInvertedPendulum.C134_DoubleInvertedPendulum_velocity`
* `CT.Lookup.HyA.C133_HyA_lookup`
* `CT.Lookup.HyA.C134_HyA_velocity`
* `CT.Lookup.HyQ.C133_HyQ_lookup`
* `CT.Lookup.HyQ.C134_HyQ_velocity`
* `CT.Lookup.InvertedPendulum.C133_InvertedPendulum_lookup`
* `CT.Lookup.InvertedPendulum.C134_InvertedPendulum_velocity`
* `CT.Lookup.QuadrotorWithLoad.C133_QuadrotorWithLoad_lookup`
* `CT.Lookup.QuadrotorWithLoad.C134_QuadrotorWithLoad_velocity`
* `CT.LqApprox.C103_time_invariant`
* `CT.LqApprox.C106_contents`
* `CT.LqApprox.C106_cost_partial`
* `CT.LqApprox.C106_derivatives`
* `CT.LqApprox.C106_dynamics`
* `CT.LqApprox.C106_iteration`
* `CT.LqApprox.C106_objective`
* `CT.LqApprox.C106_one_iteration`
* `CT.LqApprox.C106_step`
* `CT.LqApprox.C106_two_phase`
* `CT.LqApprox.C108_ms_ilqr_violated`
* `CT.LqApprox.C108_policy_partial`
* `CT.LqApprox.C176_armijo_violated`
* `CT.LqApprox.C176_descent`
* `CT.LqApprox.C176_line_search`
* `CT.LqApprox.C176_stationary`
* `CT.LqApprox.C177_default_weight_violated`
* `CT.LqApprox.C177_line_search`
* `CT.LqApprox.C177_stationary`
* `CT.LqApprox.C177_weight`
* `CT.Lqoc.C101_all`
* `CT.Lqoc.C101_boxes`
* `CT.Lqoc.C101_input_container`
* `CT.Lqoc.C101_replacement_violated`
* `CT.Lqoc.C101_stage`
* `CT.Lqoc.C101_state_container`
* `CT.Lqoc.C101_terminal`
* `CT.Lqoc.C101_unchecked_violated`
* `CT.Lqoc.C102_after_summary`
* `CT.Lqoc.C102_changeNumStages`
* `CT.Lqoc.C102_first_iteration_violated`
* `CT.Lqoc.C102_sweep_partial`
* `CT.Lqoc.C103_unconstrained`
* `CT.Lqoc.C105_error`
* `CT.Lqr.C171_accuracy`
* `CT.Lqr.C171_converges`
* `CT.Lqr.C171_exists_unique`
* `CT.Lqr.C171_no_steady_state_violated`
* `CT.Lqr.C171_returns`
* `CT.Lqr.C171_stabilises`
* `CT.Lqr.C40_gain`
* `CT.Lqr.C40_iterative`
* `CT.Lqr.C40_schur`
* `CT.Lqr.C41_dare_partial`
* `CT.Lqr.C41_finite_horizon_partial`
* `CT.Lqr.C41_fixed_point_partial`
* `CT.Lqr.C41_fixed_point_violated`
* `CT.Lqr.C41_large_tolerance_violated`
* `CT.Lqr.C41_naive_step`
* `CT.Lqr.C41_robust_is_regularised`
* `CT.Lqr.C41_weights_violated`
* `CT.Lqr.C87_gains`
* `CT.Lqr.C87_linear_partial`
* `CT.Lqr.C87_rejects`
* `CT.Lqr.C87_violated`
* `CT.LqrId.C147_failed_violated`
* `CT.LqrId.C147_pendulum`
* `CT.LqrId.C147_robots`
* `CT.LqrId.C147_setpoint`
* `CT.LqrId.C147_stable`
* `CT.Mpc.C27_delay`
* `CT.Mpc.C27_window`
* `CT.Mpc.C28_antitone`
* `CT.Mpc.C28_modes`
* `CT.Mpc.C28_remaining_partial`
* `CT.Mpc.C28_remaining_violated`
* `CT.Mpc.C31_stamp_partial`
* `CT.MpcForward.C94_late_violated`
* `CT.MpcForward.C98_cold_violated`
* `CT.MpcForward.C98_executed_partial`
* `CT.MpcForward.C98_warm_violated`
* `CT.MpcForward.C98_window`
* `CT.MpcForward.C99_truncation_partial`
* `CT.Nloc.C118_nan_partial`
* `CT.Nloc.C175_improves_partial`
* `CT.Nloc.C175_no_ub`
* `CT.Nloc.C175_policy`
* `CT.Nloc.C175_returns`
* `CT.Nloc.C175_solution`
* `CT.Nloc.C175_stale_violated`
* `CT.Nloc.C54_all_shots`
* `CT.Nloc.C54_any_order`
* `CT.Nloc.C54_change_start`
* `CT.Nloc.C54_prepare_finish`
* `CT.Nloc.C54_rollout`
* `CT.Nloc.C54_short_arrays`
* `CT.Nloc.C55_acceptable_simple`
* `CT.Nloc.C55_accepted_partial`
* `CT.Nloc.C55_armijo_partial`
* `CT.Nloc.C55_first`
* `CT.Nloc.C55_full_step`
* `CT.Nloc.C55_rejected_partial`
* `CT.Nloc.C55_returns`
* `CT.Nloc.C55_violated_armijo`
* `CT.Nloc.C55_violated_rejected`
* `CT.Nloc.C55_violated_stale_constraints`
* `CT.Nloc.C59_converged`
* `CT.Nloc.C59_iterations_partial`
* `CT.Nloc.C59_violated_worse_reported`
* `CT.Nloc.C60_guess`
* `CT.Nloc.C60_history`
* `CT.Nloc.C84_stamps_partial`
* `CT.Nloc.C84_violated_stages`
* `CT.Nloc.C84_violated_stale_stamps`
* `CT.NlocSummary.C201_first_solve_partial`
* `CT.Nlp.C44_block`
* `CT.Nlp.C44_diagonal`
* `CT.Nlp.C44_jacobian`
* `CT.Nlp.C44_values`
* `CT.Nlp.C81_aligned_partial`
* `CT.Nlp.C81_upper_violated`
* `CT.NlpSolver.C163_hessian_violated`
* `CT.NlpSolver.C163_ipopt_numbers`
* `CT.NlpSolver.C163_ipopt_strings_partial`
* `CT.NlpSolver.C163_ipopt_strings_violated`
* `CT.NlpSolver.C163_snopt`
* `CT.NlpSolver.C164_answers`
* `CT.NlpSolver.C164_description`
* `CT.NlpSolver.C164_jacobian`
* `CT.NlpSolver.C164_lambda_violated`
* `CT.NlpSolver.C164_prepared_partial`
* `CT.NlpSolver.C164_solve`
* `CT.NlpSolver.C164_start_partial`
* `CT.NlpSolver.C164_warm_start_violated`
* `CT.NlpSolver.C165_callback`
* `CT.NlpSolver.C165_callback_stable`
* `CT.NlpSolver.C165_layout`
* `CT.NlpSolver.C165_pool_size`
* `CT.NlpSolver.C165_unsized_violated`
* `CT.NumDiff.C23_consistent`
* `CT.NumDiff.C23_double_sided`
* `CT.NumDiff.C23_forward`
* `CT.NumDiff.C23_forward_error`
* `CT.NumDiff.C23_linearizer`
* `CT.OpJac.C110_projector`
* `CT.OpJac.C110_right_inverse`
* `CT.OpJac.C111_derivative_partial`
* `CT.OpJac.C111_derivative_violated`
* `CT.OpJac.C112_answers_partial`
* `CT.OpJac.C112_mixed_violated`
* `CT.OpJac.C112_svd_partial`
* `CT.OpModel.C113_inertia`
* `CT.OpModel.C113_motion`
* `CT.OpModel.C113_rates`
* `CT.OpModel.C113_selection`
* `CT.PID.C12_integral_within_bound`
* `CT.PID.C12_unsaturated_law`
* `CT.Par.C183_lq_partial`
* `CT.Par.C183_reached`
* `CT.Par.C183_rollout_partial`
* `CT.Par.C183_single`
* `CT.Par.C183_violated`
* `CT.Par.C56_phase_partial`
* `CT.Par.C56_process_ids`
* `CT.Par.C58_terminates_partial`
* `CT.Par.C58_violated_range`
* `CT.ParSearch.C57_choice_partial`
* `CT.ParSearch.C57_decided`
* `CT.ParSearch.C57_in_order_partial`
* `CT.ParSearch.C57_single_worker`
* `CT.ParSearch.C58_search_partial`
* `CT.PolicyHandler.C29_extension_violated`
* `CT.PolicyHandler.C29_lround`
* `CT.PolicyHandler.C29_warm_start_partial`
* `CT.PolicyHandler.C30_truncate`
* `CT.ProjSys.C192_feet_stay`
* `CT.PtP.C61_fastest`
* `CT.PtP.C61_trajectory`
* `CT.PtP.C85_arm_partial`
* `CT.PtP.C85_violated`
* `CT.Quadrotor.C157_large_violated`
* `CT.Quadrotor.C157_linearisation_partial`
* `CT.Quadrotor.C158_equilibria`
* `CT.Quadrotor.C158_rotation_partial`
* `CT.Quadrotor.C158_translation_partial`
* `CT.Quantization.C11_quantisation_accounting_partial`
* `CT.RbdLin.C137_fixed`
* `CT.RbdLin.C137_floating`
* `CT.RbdLin.C137_selection`
* `CT.RbdLin.C138_fixed`
* `CT.RbdLin.C138_floating`
* `CT.Riccati.C38_clamped`
* `CT.Riccati.C38_convex`
* `CT.Riccati.C38_cost_to_go`
* `CT.Riccati.C38_fixed_correction`
* `CT.Riccati.C38_optimal`
* `CT.Riccati.C39_long_shot_violated`
* `CT.Riccati.C39_split`
* `CT.Rkn.C189_durations_violated`
* `CT.Rkn.C189_no_logs_violated`
* `CT.Rkn.C189_nodes_hold`
* `CT.Rkn.C189_nodes_linear`
* `CT.Rkn.C189_rk5_violated`
* `CT.Rkn.C189_state_euler`
* `CT.Rkn.C189_state_rk4`
* `CT.RobotNloc.C188_default_violated`
* `CT.RobotNloc.C188_floating`
* `CT.RobotNloc.C188_floating_short`
* `CT.RobotNloc.C188_interpolation`
* `CT.RobotNloc.C188_interpolation_violated`
* `CT.RobotNloc.C188_rejected_violated`
* `CT.RobotNloc.C188_results`
* `CT.RobotNloc.C188_steady`
* `CT.RobotNloc.C188_steady_short`
* `CT.Robots.C132_DoubleInvertedPendulum_inertia`
* `CT.Robots.C132_HyA_inertia`
* `CT.Robots.C132_InvertedPendulum_inertia`
* `CT.Robots.C132_QuadrotorWithLoad_inertia_violated`
* `CT.Robots.C137_DoubleInvertedPendulum`
* `CT.Robots.C137_HyA`
* `CT.Robots.C137_HyQ`
* `CT.Robots.C137_InvertedPendulum`
* `CT.Robots.C139_HyQ`
* `CT.Robots.C140_HyQ`
* `CT.Robots.C140_actuated_violated`
* `CT.Robots.C140_ignored_violated`
* `CT.Robots.C190_HyA_partial`
* `CT.Robots.C190_HyQ`
* `CT.Robots.C190_others_partial`
* `CT.Robots.C190_rounding_violated`
* `CT.Robots.C190_violated`
* `CT.Robots.DoubleInvertedPendulum.C124_DoubleInvertedPendulum`
* `CT.Robots.DoubleInvertedPendulum.C126_DoubleInvertedPendulum`
* `CT.Robots.DoubleInvertedPendulum.C127_DoubleInvertedPendulum`
* `CT.Robots.DoubleInvertedPendulum.C128_DoubleInvertedPendulum`
* `CT.Robots.DoubleInvertedPendulum.C129_DoubleInvertedPendulum`
* `CT.Robots.DoubleInvertedPendulum.C135_DoubleInvertedPendulum`
* `CT.Robots.DoubleInvertedPendulum.C136_DoubleInvertedPendulum_fd`
* `CT.Robots.DoubleInvertedPendulum.C136_DoubleInvertedPendulum_id`
* `CT.Robots.DoubleInvertedPendulum.C191_DoubleInvertedPendulum`
* `CT.Robots.DoubleInvertedPendulum.Kin.C130_DoubleInvertedPendulum_transforms`
* `CT.Robots.DoubleInvertedPendulum.Kin.C131_DoubleInvertedPendulum_jacobians`
* `CT.Robots.HyA.C124_HyA`
* `CT.Robots.HyA.C126_HyA`
* `CT.Robots.HyA.C127_HyA`
* `CT.Robots.HyA.C128_HyA`
* `CT.Robots.HyA.C129_HyA`
* `CT.Robots.HyA.C135_HyA`
* `CT.Robots.HyA.C136_HyA_fd`
* `CT.Robots.HyA.C136_HyA_id`
* `CT.Robots.HyA.C191_HyA`
* `CT.Robots.HyA.Kin.C130_HyA_transforms`
* `CT.Robots.HyA.Kin.C131_HyA_jacobians`
* `CT.Robots.HyQ.C125_HyQ_fd`
* `CT.Robots.HyQ.C125_HyQ_id`
* `CT.Robots.HyQ.C126_HyQ`
* `CT.Robots.HyQ.C127_HyQ`
* `CT.Robots.HyQ.C128_HyQ`
* `CT.Robots.HyQ.C129_HyQ_joints_partial`
* `CT.Robots.HyQ.C129_HyQ_violated`
* `CT.Robots.HyQ.C132_HyQ_inertia_violated`
* `CT.Robots.HyQ.C132_HyQ_moments_partial`
* `CT.Robots.HyQ.C135_HyQ`
* `CT.Robots.HyQ.C136_HyQ_fd`
* `CT.Robots.HyQ.C136_HyQ_id`
* `CT.Robots.HyQ.C191_HyQ`
* `CT.Robots.HyQ.C193_agree`
* `CT.Robots.HyQ.C193_derivative`
* `CT.Robots.HyQ.Kin.C130_HyQ_described_partial`
* `CT.Robots.HyQ.Kin.C130_HyQ_transforms`
* `CT.Robots.HyQ.Kin.C131_HyQ_jacobians`
* `CT.Robots.HyQ.Zero.C196_halves`
* `CT.Robots.HyQ.Zero.C196_kinematics`
* `CT.Robots.HyQ.Zero.C196_system`
* `CT.Robots.InvertedPendulum.C124_InvertedPendulum`
* `CT.Robots.InvertedPendulum.C126_InvertedPendulum`
* `CT.Robots.InvertedPendulum.C127_InvertedPendulum`
* `CT.Robots.InvertedPendulum.C128_InvertedPendulum`
* `CT.Robots.InvertedPendulum.C129_InvertedPendulum`
* `CT.Robots.InvertedPendulum.C135_InvertedPendulum`
* `CT.Robots.InvertedPendulum.C136_InvertedPendulum_fd`
* `CT.Robots.InvertedPendulum.C136_InvertedPendulum_id`
* `CT.Robots.InvertedPendulum.C172_control`
* `CT.Robots.InvertedPendulum.C172_equation_of_motion`
* `CT.Robots.InvertedPendulum.C172_rounded_violated`
* `CT.Robots.InvertedPendulum.C172_state_partial`
* `CT.Robots.InvertedPendulum.C191_InvertedPendulum`
* `CT.Robots.InvertedPendulum.Kin.C130_InvertedPendulum_transforms`
* `CT.Robots.InvertedPendulum.Kin.C131_InvertedPendulum_jacobians`
* `CT.Robots.QuadrotorWithLoad.C125_QuadrotorWithLoad_fd`
* `CT.Robots.QuadrotorWithLoad.C125_QuadrotorWithLoad_id`
* `CT.Robots.QuadrotorWithLoad.C126_QuadrotorWithLoad`
* `CT.Robots.QuadrotorWithLoad.C127_QuadrotorWithLoad_invertible_partial`
* `CT.Robots.QuadrotorWithLoad.C127_QuadrotorWithLoad_partial`
* `CT.Robots.QuadrotorWithLoad.C127_QuadrotorWithLoad_violated`
* `CT.Robots.QuadrotorWithLoad.C128_QuadrotorWithLoad`
* `CT.Robots.QuadrotorWithLoad.C129_QuadrotorWithLoad_joints_partial`
* `CT.Robots.QuadrotorWithLoad.C129_QuadrotorWithLoad_violated`
* `CT.Robots.QuadrotorWithLoad.C135_QuadrotorWithLoad`
* `CT.Robots.QuadrotorWithLoad.C136_QuadrotorWithLoad_fd`
* `CT.Robots.QuadrotorWithLoad.C136_QuadrotorWithLoad_id`
* `CT.Robots.QuadrotorWithLoad.C140_QuadrotorWithLoad`
* `CT.Robots.QuadrotorWithLoad.C186_energy`
* `CT.Robots.QuadrotorWithLoad.C186_euler`
* `CT.Robots.QuadrotorWithLoad.C186_hover`
* `CT.Robots.QuadrotorWithLoad.C186_quaternion`
* `CT.Robots.QuadrotorWithLoad.C186_response`
* `CT.Robots.QuadrotorWithLoad.C186_response_violated`
* `CT.Robots.QuadrotorWithLoad.C191_QuadrotorWithLoad`
* `CT.Robots.QuadrotorWithLoad.Kin.C130_QuadrotorWithLoad_transforms`
* `CT.Robots.QuadrotorWithLoad.Kin.C131_QuadrotorWithLoad_jacobians`
* `CT.Rti.C182_defects_violated`
* `CT.Rti.C182_limits_violated`
* `CT.Rti.C182_loop_partial`
* `CT.Rti.C182_optimal_partial`
* `CT.Rti.C182_short_horizon_violated`
* `CT.Rti.C182_step`
* `CT.SecondOrder.C24_dissipates`
* `CT.SecondOrder.C24_equilibrium`
* `CT.SecondOrder.C24_law`
* `CT.SecondOrder.C24_parameters`
* `CT.SecondOrder.C24_spring_partial`
* `CT.SecondOrder.C24_spring_violated`
* `CT.Sens.C19_backward_euler_partial`
* `CT.Sens.C19_backward_euler_violated`
* `CT.Sens.C19_forward_euler`
* `CT.Sens.C19_symplectic_euler`
* `CT.Sens.C19_tustin_partial`
* `CT.Sens.C19_tustin_violated`
* `CT.Sens.C20_single_step_partial`
* `CT.Sens.C20_symplectic_partial`
* `CT.Sens.C20_symplectic_violated`
* `CT.Sens.C20_time_invariant_partial`
* `CT.Sens.C20_violated`
* `CT.Sens.C72_exact`
* `CT.Sens.C72_solution_exists`
* `CT.Settings.C180_check_violated`
* `CT.Settings.C180_choices`
* `CT.Settings.C180_choices_violated`
* `CT.Settings.C180_line_search`
* `CT.Settings.C180_line_search_violated`
* `CT.Settings.C180_step_limit_violated`
* `CT.Settings.C180_succeeds`
* `CT.Settings.C180_unknown`
* `CT.Settings.C180_values`
* `CT.Settings.C181_matrix`
* `CT.Settings.C181_observer`
* `CT.Settings.C181_section_violated`
* `CT.Settings.C181_steady_state_violated`
* `CT.Settings.C181_unscented_violated`
* `CT.Shot.C53_fresh_partial`
* `CT.Shot.C53_order_irrelevant`
* `CT.Shot.C53_violated_after_reset`
* `CT.Shot.C53_violated_after_write`
* `CT.Shot.C53_violated_before_update`
* `CT.Shot.C83_cost`
* `CT.Shot.C83_end_state`
* `CT.Simulation.C21_period_partial`
* `CT.Simulation.C21_violated`
* `CT.Spatial.C122_bias`
* `CT.Spatial.C122_bias_z_partial`
* `CT.Spatial.C122_bias_z_violated`
* `CT.Spatial.C122_compute_Ia_prismatic`
* `CT.Spatial.C122_compute_Ia_revolute`
* `CT.Spatial.C122_cross`
* `CT.Spatial.C122_ctransform_prismatic`
* `CT.Spatial.C122_ctransform_revolute`
* `CT.Spatial.C122_transform_inertia`
* `CT.Spatial.C123_add`
* `CT.Spatial.C123_assign`
* `CT.Spatial.C123_change_com`
* `CT.Spatial.C123_change_mass`
* `CT.Spatial.C123_change_tensor`
* `CT.Spatial.C123_fill`
* `CT.Spatial.C123_getters`
* `CT.StateFeedback.C14_discrete_policy`
* `CT.StateFeedback.C14_policy`
* `CT.StateFeedback.C14_update_rejects_inconsistent`
* `CT.StateFeedback.C69_extract_controls`
* `CT.StateFeedback.C69_extract_empty_undefined`
* `CT.SwitchedCon.C159_initialize`
* `CT.SwitchedCon.C159_intermediate`
* `CT.SwitchedCon.C159_terminal_partial`
* `CT.SwitchedCon.C159_terminal_violated`
* `CT.SwitchedCon.C160_alias_violated`
* `CT.SwitchedCon.C160_copy_partial`
* `CT.SwitchedCon.C160_copy_violated`
* `CT.SwitchedCon.C160_independent`
* `CT.Switching.C07_lookup`
* `CT.Switching.C07_switch_event`
* `CT.Switching.C07_switch_event_last_undefined`
* `CT.Switching.C07_tiling`
* `CT.Switching.C07_unique_phase`
* `CT.Switching.C08_switched_closed_loop`
* `CT.Switching.C08_switched_discrete_linear`
* `CT.Switching.C08_switched_dynamics`
* `CT.Switching.C08_switched_linear`
* `CT.Symplectic.C18_linear_volume`
* `CT.Symplectic.C18_step_bijective`
* `CT.Symplectic.C18_volume_preserving`
* `CT.Symplectic.C70_violated`
* `CT.SysIf.C119_before_initialize`
* `CT.SysIf.C119_partial`
* `CT.SysIf.C120_const_violated`
* `CT.SysIf.C120_forward_euler_partial`
* `CT.SysIf.C120_integrator_partial`
* `CT.SysIf.C120_time_violated`
* `CT.SysLin.C195_actuator_violated`
* `CT.SysLin.C195_affine`
* `CT.SysLin.C195_fixBase`
* `CT.SysLin.C195_linearise_partial`
* `CT.SysLin.C195_null_violated`
* `CT.SysLin.C195_secondOrder`
* `CT.SysLin.C195_type_violated`
* `CT.TaskCG.C187_default_violated`
* `CT.TaskCG.C187_derivatives`
* `CT.TaskCG.C187_failed_load_violated`
* `CT.TaskCG.C187_matrix_violated`
* `CT.TaskCG.C187_orientation_violated`
* `CT.TaskCG.C187_override_pendulum_violated`
* `CT.TaskCG.C187_override_violated`
* `CT.TaskCG.C187_rejected`
* `CT.TaskCG.C187_value`
* `CT.Taskspace.C144_gradient_partial`
* `CT.Taskspace.C144_robots_partial`
* `CT.Taskspace.C144_weights_violated`
* `CT.Taskspace.C145_clone_violated`
* `CT.Taskspace.C145_geometric`
* `CT.Taskspace.C145_hessian`
* `CT.Taskspace.C145_pose`
* `CT.Taskspace.C145_pose_angle`
* `CT.Taskspace.C145_position`
* `CT.Taskspace.C145_reference`
* `CT.Taskspace.C145_set_reference`
* `CT.Taskspace.C146_gradient_partial`
* `CT.Taskspace.C146_hessian`
* `CT.Taskspace.C146_unset`

## propext, Quot.sound

* `CT.Activation.C10_linear_ramp`
* `CT.Activation.C10_violated`
* `CT.Arrays.C05_add_elementwise`
* `CT.Arrays.C05_add_sub_cancel`
* `CT.Arrays.C05_assign_agrees`
* `CT.Arrays.C05_erase_offset`
* `CT.Arrays.C05_scale_elementwise`
* `CT.Arrays.C05_sub_elementwise`
* `CT.Arrays.C06_entries`
* `CT.Constraints.C35_terminal_state`
* `CT.Ctl.C166_copy_violated`
* `CT.Ctl.C166_same_parameters`
* `CT.Ctl.C167_last_action`
* `CT.Discretizer.C73_clone_violated`
* `CT.Discretizer.C73_propagate_partial`
* `CT.Discretizer.C73_set_type_violated`
* `CT.Dms.C82_linear_violated`
* `CT.Hpipm.C104_appearing_bound_violated`
* `CT.Hpipm.C104_fewer_stages_violated`
* `CT.Hpipm.C104_second_problem_violated`
* `CT.Integration.C15_n_steps_compose`
* `CT.Integration.C15_n_steps_on_grid`
* `CT.Interp.C02_inconsistent_throws`
* `CT.Interp.C03_exception_unchanged`
* `CT.Interp.C04_shift_add`
* `CT.Interp.C04_shift_duration`
* `CT.Joint.C62_velocity_limits`
* `CT.Lookup.QuadrotorWithLoad.C133_QuadrotorWithLoad_ee_link_violated`
* `CT.Lqoc.C101_rejected`
* `CT.Mpc.C28_nonneg`
* `CT.Mpc.C31_first_internal_violated`
* `CT.Mpc.C31_first_violated`
* `CT.MpcForward.C94_average`
* `CT.MpcForward.C94_delay`
* `CT.MpcForward.C94_settings`
* `CT.MpcForward.C94_statistics`
* `CT.MpcForward.C97_strategy_partial`
* `CT.MpcForward.C97_violated`
* `CT.MpcForward.C98_initial_guess`
* `CT.MpcForward.C99_cold_violated`
* `CT.Nloc.C54_unique`
* `CT.Nloc.C59_violated`
* `CT.Nloc.C59_violated_when`
* `CT.NlocSummary.C201_contents_partial`
* `CT.NlocSummary.C201_mpc_violated`
* `CT.NlocSummary.C201_restart_violated`
* `CT.NlocSummary.C201_rows_partial`
* `CT.NlpSolver.C164_prepared_violated`
* `CT.NlpSolver.C165_failure_violated`
* `CT.NlpSolver.C165_not_needed`
* `CT.NlpSolver.C165_stored_partial`
* `CT.NlpSolver.C165_warm_start_violated`
* `CT.OptCon.C154_initialised`
* `CT.OptCon.C154_linearisation_partial`
* `CT.OptCon.C154_verify`
* `CT.OptCon.C155_constraints_violated`
* `CT.OptCon.C155_construct`
* `CT.OptCon.C155_handed_partial`
* `CT.OptCon.C155_reset_violated`
* `CT.OptCon.C156_accessor_violated`
* `CT.OptCon.C156_construct`
* `CT.OptCon.C156_start_partial`
* `CT.PID.C12_command_within_limits`
* `CT.PID.C13_in_force`
* `CT.PID.C13_reset_is_fresh`
* `CT.Par.C56_violated`
* `CT.Par.C56_violated_range`
* `CT.Par.C58_violated_completion`
* `CT.Par.C58_violated_wakeup`
* `CT.ParSearch.C57_stable`
* `CT.ParSearch.C57_violated`
* `CT.ParSearch.C57_violated_stale`
* `CT.ParSearch.C58_violated_search`
* `CT.ParSearch.C58_violated_search_zero`
* `CT.Quantization.C11_identifier_zero_defined_partial`
* `CT.Quantization.C11_violated`
* `CT.Robot.C63_euler`
* `CT.Robot.C63_fixed_base`
* `CT.Robot.C63_floating`
* `CT.Robot.C63_mixed`
* `CT.Robot.C63_quaternion`
* `CT.RobotNloc.C188_time_violated`
* `CT.Simulation.C21_construction`
* `CT.Symplectic.C18_update_order`
* `CT.Symplectic.C70_closed_loop_step_partial`
* `CT.Symplectic.C71_n_steps_compose`
* `CT.Symplectic.C71_recording`
* `CT.SysIf.C119_discrete`
* `CT.SysIf.C119_instances_violated`
* `CT.SysIf.C119_switch_violated`
* `CT.SysIf.C119_time_varying_violated`
* `CT.Timer.C09_elapsed_partial`
