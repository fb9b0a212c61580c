{"claims": [
{"property": "C01", "status": "proved", "theorems": ["Verif.C01_layout_partition", "Verif.C01_layout_no_history"], "note": "For all robots, contacts and previous states; preconditions: mimic leaders exist, every bilateral point has a cone (otherwise the model is UB, example shown)."},
{"property": "C02", "status": "proved", "theorems": ["Verif.C02_accessors", "Verif.C02_accessors_out_of_range", "Verif.C02_contactLambdaPosition"], "note": "Accessors for every layout and result of size nrVars; out-of-range indices are UB."},
{"property": "C03", "status": "proved", "theorems": ["Verif.C03_registry_ordered_set", "Verif.C03_registry_noop", "Verif.C03_solver_tasks"], "note": "Every history of add/remove/reset."},
{"property": "C04", "status": "partial", "theorems": ["Verif.C04_in_step_partial", "Verif.C04_exact_counts", "Verif.C04_counterexample", "Verif.C04_remove_absent_ub", "Verif.C04_solver_constraints_partial"], "note": "False as stated: code disagrees (counterexample proved). Holds for alternating histories; exact behaviour proved for all histories."},
{"property": "C05", "status": "proved", "theorems": ["Verif.C05_qld_in_range", "Verif.C05_lssol_in_range", "Verif.C05_stale_size_ub", "Verif.C05_updateConstrSize_fits"], "note": "Both backends, any history of control steps, with or without mimic dependencies; stale sizes shown to be UB."},
{"property": "C06", "status": "proved", "theorems": ["Verif.C06_qld_lines"], "note": "Exact equivalence with the active lines and exact line counts."},
{"property": "C07", "status": "proved", "theorems": ["Verif.C07_lssol_lines", "Verif.C07_same_problem"], "note": "Same feasible set and objective for both backends, also with mimic dependencies."},
{"property": "C08", "status": "partial", "theorems": ["Verif.C08_bounds_enforced_partial", "Verif.C08_last_wins", "Verif.C08_counterexample"], "note": "False for overlapping bound constraints (counterexample proved); proved for disjoint ones; exact last-wins behaviour proved in general."},
{"property": "C09", "status": "proved", "theorems": ["Verif.C09_objective"], "note": "Every list of tasks."},
{"property": "C10", "status": "proved", "theorems": ["Verif.C10_hessian_convex", "Verif.C10_not_positive_definite", "Verif.C10_reduced", "Verif.C10_reduced_zero_diagonal"], "note": "Symmetric, PSD, diagonal >= 1e-4; shown not to be positive definite in general."},
{"property": "C100", "status": "partial", "theorems": ["Verif.C100_gaze_partial", "Verif.C100_pbvs_partial", "Verif.C100_image_partial", "Verif.C100_independent", "Verif.C100_copy", "Verif.C100_gaze_members", "Verif.C100_pbvs_members", "Verif.C100_image_members", "Verif.C100_moved_counterexample", "Verif.C100_moved_restored", "Verif.C100_constructors"], "note": "Partial because the code violates the last sentence: copy assignment to a moved-from object dereferences a null pointer (C100_moved_counterexample); move assignment restores it (C100_moved_restored)."},
{"property": "C101", "status": "partial", "theorems": ["Verif.C101_solve", "Verif.C101_call", "Verif.C101_no_write", "Verif.C101_destroyed_partial", "Verif.C101_counterexample"], "note": "Partial because the code violates the full statement: a constraint added twice and removed once is no longer in the list of constraints but its rows stay registered, so that the solver still dereferences the destroyed object (C101_counterexample). C101_destroyed_partial covers every program that adds an object only while it is not registered."},
{"property": "C102", "status": "proved", "theorems": ["Verif.C102_part_optimal", "Verif.C102_alone", "Verif.C102_stopped", "Verif.C102_together", "Verif.C102_robot", "Verif.C102_setpoint"], "note": "Separation is stated on the matrices the tasks and constraints hold in the step (`Spec.PartOf`, `Spec.Splits`); `C102_setpoint` derives it from the layout for the set-point family. Numerical solvers are the trusted base of C55."},
{"property": "C103", "status": "proved", "theorems": ["Verif.C103_joint_limits", "Verif.C103_damper_limits", "Verif.C103_torque_limits", "Verif.C103_springs", "Verif.C103_poly", "Verif.C103_torque_task", "Verif.C103_bounded_speed", "Verif.C103_com_plane", "Verif.C103_image", "Verif.C103_collision", "Verif.C103_contact", "Verif.C103_gripper", "Verif.C103_multi_task", "Verif.C103_posture", "Verif.C103_contact_task", "Verif.C103_gripper_task"], "note": "Set-point family: C102_setpoint. Torque limits are compared when no contact is between two bodies of the robot itself (see C25, C26)."},
{"property": "C104", "status": "proved", "theorems": ["Verif.C104_dimension", "Verif.C104_own_robot", "Verif.C104_memoryless", "Verif.C104_defined", "Verif.C104_setpoint", "Verif.C104_tracking", "Verif.C104_trajectory", "Verif.C104_pid", "Verif.C104_multi", "Verif.C104_multi_own", "Verif.C104_reports"], "note": "Definedness of the updates of the centre of mass, momentum, relative distance and orientation tracking tasks is not part of the statement."},
{"property": "C105", "status": "proved", "theorems": ["Verif.C105_history", "Verif.C105_from_construction", "Verif.C105_from_nrVars", "Verif.C105_nrVars", "Verif.C105_again", "Verif.C105_unsized", "Verif.NotifyEx.C105_without_robots_counterexample"], "note": "What it means for an object to know a layout is a parameter, subject to: its own updateNrVars establishes it and no other call on an object destroys it."},
{"property": "C106", "status": "partial", "theorems": ["Verif.C106_calls_agree", "Verif.C106_only_objects", "Verif.C106_setSolver", "Verif.C106_solve", "Verif.C106_result", "Verif.C106_solve_again", "Verif.C106_nrVars", "Verif.C106_nrVars_again", "Verif.C106_addTask", "Verif.C106_addConstr_partial", "Verif.C106_addConstr_remove_ub", "Verif.ThrowEx.C106_nrVars_counterexample", "Verif.C106_updateNrVars"], "note": "Missing: undoing a failed addToSolver, which the code does not allow (C106_addConstr_remove_ub). Between the failed nrVars and the next one the solver cannot be used (C106_nrVars_counterexample)."},
{"property": "C107", "status": "partial", "theorems": ["Verif.Binding.C107_cone_and_id", "Verif.Binding.C107_unilateral", "Verif.Binding.C107_unilateral_force_partial", "Verif.Binding.C107_unilateral_wrench_counterexample", "Verif.Binding.C107_bilateral_partial", "Verif.Binding.C107_bilateral_others_partial", "Verif.Binding.C107_bilateral_frame_counterexample", "Verif.Binding.C107_bilateral_force", "Verif.Binding.C107_orientation", "Verif.Binding.C107_gaze_partial", "Verif.Binding.C107_gaze_reference_counterexample", "Verif.Binding.C107_image_add_partial", "Verif.Binding.C107_image_default_counterexample", "Verif.Binding.C107_solver_and_points", "Verif.Binding.C107_add_to_solver_partial", "Verif.Binding.C107_add_to_solver_counterexample", "Verif.Binding.C107_held_tasks", "Verif.Binding.C107_multi_com_partial", "Verif.Binding.C107_multi_com_weights_counterexample", "Verif.Binding.C107_none_ub", "Verif.Binding.C107_none_tested", "Verif.Binding.C107_none_bilateral_counterexample"], "note": "Proved as stated for every method but five. Missing because the binding does otherwise: the wrench overload of UnilateralContact.force, BilateralContact with ambiguity and frame (an empty contact is made) and with wrong arguments (no exception), GazeTask with str names or a reference for a 3D point, addPoint of the robot itself with a str name or the default frame, addToSolver with extra arguments, MultiCoMTask with dimension weights. With None the calls can be undefined behaviour (C107_none_ub)."},
{"property": "C108", "status": "partial", "theorems": ["Verif.C108_set_is_build", "Verif.C108_sets_are_build", "Verif.C108_history", "Verif.C108_position_bodyPoint", "Verif.C108_vector_ignored", "Verif.TargetEx.C108_position_bodyPoint_counterexample", "Verif.TargetEx.C108_vector_counterexample"], "note": "Missing: PositionTask::bodyPoint, which moves the Jacobian and not the error (C108_position_bodyPoint and its counterexample), and RelativeDistTask::vector when it would change between distances and projections (C108_vector_ignored, C108_vector_counterexample): the code does not do it. The history is for the tasks without a memory of their own; RelativeDistTask and OrientationTrackingTask have the statement for setters after the construction."},
{"property": "C109", "status": "proved", "theorems": ["Verif.PyLife.C109_alive", "Verif.PyLife.C109_solve", "Verif.PyLife.C109_call", "Verif.PyLife.C109_no_double_delete", "Verif.PyLife.C109_keeps", "Verif.PyLife.PyLifeEx.C109_temporary_ub", "Verif.PyLife.PyLifeEx.C109_highLevel_ub", "Verif.PyLife.PyLifeEx.C109_rebound_ub", "Verif.PyLife.PyLifeEx.C109_shape_ub", "Verif.PyLife.PyLifeEx.C109_leak", "Verif.PyLife.C109_shapes"], "note": "Variables stand for all references; addresses are not used again. The examples are ordinary programs that are undefined (temporaries passed to addTask, a reassigned variable, a dropped shape) and the leak of ImageConstr. C101 says what a dangling pointer does to the C++ solver."},
{"property": "C11", "status": "proved", "theorems": ["Verif.C11_dependency_maps", "Verif.C11_no_variables_ub", "Verif.C11_mimic_chain_ub", "Verif.C11_mimic_chain_stale"], "note": "Any order, any previous state. The assertion of the code rejects a problem without variables (proved). Mimic chains are outside the hypotheses; the code misbehaves on them (UB or wrong relation, both proved)."},
{"property": "C110", "status": "proved", "theorems": ["Verif.C110_getters", "Verif.C110_set_back", "Verif.C110_multi"], "note": "GazeTask, PositionBasedVisServoTask and RelativeDistTask have setters and no getters."},
{"property": "C111", "status": "partial", "theorems": ["Verif.PyBound.C111_bounds_partial", "Verif.PyBound.C111_poly", "Verif.PyBound.C111_poly_ub", "Verif.PyBound.BoundEx.C111_poly_counterexample"], "note": "Missing: PolyTorqueBound, whose upper attribute reads and writes the lower bound (C111_poly), so that bounds given through the attributes make the constructor of the constraint undefined (C111_poly_ub): the code does not do it."},
{"property": "C112", "status": "partial", "theorems": ["Verif.PyExc.C112_cross", "Verif.PyExc.C112_unilateral", "Verif.PyExc.C112_bilateral", "Verif.PyExc.C112_comTask", "Verif.PyExc.C112_solver_partial", "Verif.PyExc.C112_solver_terminated"], "note": "Missing: unknown solver names, which end the process (C112_solver_terminated): solver is declared without except +, so the code does not do it. C112_cross says the same of every other function declared that way."},
{"property": "C113", "status": "partial", "theorems": ["Verif.PyCtor.C113_one_overload_partial", "Verif.PyCtor.C113_skip_alloc", "Verif.PyCtor.C113_joint_values_partial", "Verif.PyCtor.C113_plain_orientation_partial", "Verif.PyCtor.C113_motion", "Verif.PyCtor.C113_spring_partial", "Verif.PyCtor.C113_spring_order_counterexample", "Verif.PyCtor.C113_plain_gaze_partial", "Verif.PyCtor.C113_plain_gaze_counterexample", "Verif.PyCtor.C113_empty_ub", "Verif.PyCtor.C113_str_body_counterexample", "Verif.PyCtor.C113_str_joint_counterexample", "Verif.PyCtor.C113_unreachable_counterexample", "Verif.PyCtor.C113_own_class"], "note": "Missing, because the code does not do it: names given as str in tasks.pyx, ImageConstr, JointGains and SpringJoint raise; the second constructor of MotionSpringConstr takes its arguments in another order; overloads with a moving plane or a range of speeds raise; GazeTask without a solver, JointsSelector() and the parameter skip_alloc leave objects without a C++ object. Not modelled: PostureTask, CoMTask, MultiCoMTask and OrientationTrackingTask, which take lists of numbers or of names."},
{"property": "C114", "status": "partial", "theorems": ["Verif.PyValue.C114_copy", "Verif.PyValue.C114_contact", "Verif.PyValue.C114_contact_transform", "Verif.PyValue.C114_assign", "Verif.PyValue.C114_make", "Verif.PyValue.C114_view_partial", "Verif.PyValue.C114_solver", "Verif.PyValue.C114_solver_data", "Verif.PyValue.C114_data", "Verif.PyValue.C114_element", "Verif.PyValue.PyValueEx.C114_view_counterexample", "Verif.PyValue.PyValueEx.C114_view_ub", "Verif.PyValue.PyValueEx.C114_compute_lost", "Verif.PyValue.C114_names"], "note": "Proved as stated for contactId, the points, the cones, nrVars and data(). Missing because the binding does otherwise: X_b1_b2 and X_b1_cf are read without a copy, so the object read follows the contact, writes to it, and is undefined when the contact is gone (C114_view_partial says exactly when)."},
{"property": "C115", "status": "partial", "theorems": ["Verif.PyAcc.C115_get", "Verif.PyAcc.C115_missing", "Verif.PyAcc.C115_set", "Verif.PyAcc.C115_raises", "Verif.PyAcc.C115_error_partial", "Verif.PyAcc.C115_history", "Verif.PyAcc.C115_set_point", "Verif.PyAcc.C115_pid", "Verif.PyAcc.C115_target", "Verif.PyAcc.C115_other_class", "Verif.PyAcc.C115_data", "Verif.PyAcc.C115_torque_counterexample", "Verif.PyAcc.C115_data_counterexample", "Verif.PyAcc.C115_error_ub", "Verif.PyAcc.C115_torque_none", "Verif.PyAcc.C115_data_ub"], "note": "Proved as stated for the accessors of the high-level tasks and of the three weighted tasks. Missing because the binding does otherwise: torque() of the motion constraints returns None, one of the two forms of alphaDBegin and of lambdaBegin always raises, and None given to error of the two visual tasks is undefined (C115_error_partial covers the other arguments)."},
{"property": "C116", "status": "partial", "theorems": ["Verif.PyId.C116_compare", "Verif.PyId.C116_order", "Verif.PyId.C116_raises", "Verif.PyId.C116_make", "Verif.PyId.C116_set", "Verif.PyId.C116_search", "Verif.PyId.C116_min", "Verif.PyId.C116_sorted", "Verif.PyId.C116_sorted_unique", "Verif.PyId.C116_lookup", "Verif.PyId.C116_none_ub", "Verif.PyId.C116_name_counterexample", "Verif.PyId.C116_max_counterexample"], "note": "Proved as stated for comparisons between identifiers and with objects of other classes. Missing because the binding does otherwise: a comparison with None is undefined behaviour (C116_none_ub), the operators <=, > and >=, hence max, raise NotImplementedError, and a name given as str is neither readable as str nor assignable as str."},
{"property": "C117", "status": "partial", "theorems": ["Verif.PyPosture.C117_asks", "Verif.PyPosture.C117_reads", "Verif.PyPosture.C117_weight", "Verif.PyPosture.C117_raises", "Verif.PyPosture.C117_history", "Verif.PyPosture.C117_readings", "Verif.PyPosture.C117_objective_partial", "Verif.PyPosture.C117_names", "Verif.PyPosture.C117_names_list", "Verif.PyPosture.C117_names_again", "Verif.PyPosture.C117_none_ub", "Verif.PyPosture.C117_names_counterexample", "Verif.PyPosture.C117_names_tuple_counterexample", "Verif.PyPosture.C117_ctor_counterexample"], "note": "Proved as stated for programs that give no None where an object of C++ is read, and, for the objective, under the hypotheses of C47. Missing because the binding does otherwise: None for the robots or among the gains is undefined behaviour (C117_none_ub), JointsSelector.ActiveJoints and UnactiveJoints replace the str of the caller's list by bytes, fail on a tuple that has a str, and the constructor fails on any str."},
{"property": "C118", "status": "proved", "theorems": ["Verif.C118_update", "Verif.C118_report", "Verif.C118_motion", "Verif.C118_setPoint", "Verif.C118_trajectory", "Verif.C118_tracking", "Verif.C118_pid", "Verif.C118_sva", "Verif.C118_multi", "Verif.C118_axis_counterexample"], "note": "For orientation tracking the theorems have a hypothesis on its error that the function of the library does not satisfy. The weights must not prefer an axis of the world (C118_axis_counterexample)."},
{"property": "C119", "status": "partial", "theorems": ["Verif.C119_formula", "Verif.C119_size", "Verif.C119_zero", "Verif.C119_right_partial", "Verif.C119_closing", "Verif.C119_reported", "Verif.C119_away_counterexample", "Verif.C119_frame_counterexample", "Verif.C119_opposite"], "note": "Proved: length, zeros, and an exact formula. Missing because the code does otherwise: the direction of the error is the turn with the transposed orientation of the body applied to it. It is right if and only if the orientation leaves the axis of the turn where it is (C119_right_partial); a body rolled half a turn about its axis is turned away from the point (C119_away_counterexample), and the error depends on the world frame (C119_frame_counterexample)."},
{"property": "C12", "status": "partial", "theorems": ["Verif.C12_reduction_partial", "Verif.C12_reduction_lssol_partial", "Verif.C12_optimal_partial", "Verif.C12_optimal_lssol_partial", "Verif.C12_counterexample"], "note": "False for multiplier 0 with replica bounds excluding 0 (counterexample proved); proved otherwise."},
{"property": "C120", "status": "proved", "theorems": ["Verif.C120_collision", "Verif.C120_collision_rows", "Verif.C120_collision_run", "Verif.C120_collision_desc", "Verif.C120_plane", "Verif.C120_plane_rows", "Verif.C120_plane_run", "Verif.C120_plane_desc", "Verif.C120_contact", "Verif.C120_kinematics", "Verif.C120_com_kinematics", "Verif.C120_contact_kinematics"], "note": "The kinematics are parameters; C120_kinematics, C120_com_kinematics and C120_contact_kinematics show that the formulas of RBDyn satisfy the hypotheses. That sch-core's closest points move along with the hulls is a hypothesis."},
{"property": "C121", "status": "proved", "theorems": ["Verif.C121_registered", "Verif.C121_step", "Verif.C121_sizes", "Verif.C121_separate", "Verif.C121_problem", "Verif.C121_result", "Verif.C121_end_to_end", "Verif.C121_bounds_counterexample"], "note": "Objects of the user are arbitrary; that their updates do not interfere is a hypothesis, shown for objects with their own memory (C121_separate). C121_bounds_counterexample is the exception for bounds on the same variable."},
{"property": "C122", "status": "proved", "theorems": ["Verif.C122_more", "Verif.C122_untouched", "Verif.C122_touched", "Verif.C122_bounds_counterexample", "Verif.ExtraEx.C122_single"], "note": "C122_bounds_counterexample: the exception for bounds on the same variable. ExtraEx.C122_single: a single task may gain."},
{"property": "C123", "status": "proved", "theorems": ["Verif.C123_result", "Verif.C123_task", "Verif.C123_row", "Verif.C123_setpoint"], "note": "Numerical solver exact, as in C55. C123_setpoint is the case of SetPointTask; C43 gives the same form for the tracking, trajectory and PID tasks."},
{"property": "C124", "status": "partial", "theorems": ["Verif.C124_ratio_partial", "Verif.C124_scale", "Verif.C124_larger", "Verif.RatioEx.C124_counterexample"], "note": "Missing: the case where the solver penalises a variable itself because its diagonal entry is below 1e-4; false there (RatioEx.C124_counterexample). C124_scale bounds the difference in all cases, C124_larger gives its direction when the same variables are penalised."},
{"property": "C125", "status": "proved", "theorems": ["Verif.C125_zero", "Verif.C125_zero_result", "Verif.C125_small", "Verif.C125_fades", "Verif.SilentEx.C125_jump"], "note": "SilentEx.C125_jump shows that the limit at zero does not extend to continuity: the result of a single task jumps from below 1/2 to 1 when its weight reaches 1e-4 (DESIGN.md section 5)."},
{"property": "C126", "status": "proved", "theorems": ["Verif.C126_corrected", "Verif.C126_agree", "Verif.C126_exact", "Verif.C126_row", "Verif.C126_same", "Verif.AgreeEx.C126_sharp", "Verif.AgreeEx.C126_rows_counterexample"], "note": "C126_sharp: the bound is reached. C126_rows_counterexample: a tolerance on the rows alone, however small, allows results that differ by 1, so the cost of the correction cannot be left out."},
{"property": "C127", "status": "partial", "theorems": ["Verif.C127_wider_partial", "Verif.C127_exchange", "Verif.C127_positions", "Verif.C127_torques", "Verif.WiderEx.C127_damper_counterexample", "Verif.C127_moves", "Verif.C127_inexact"], "note": "Holds for joint limits (C127_positions) and torque limits (C127_torques). False of the code for damped joint limits (C127_damper_counterexample): the interaction distance is a fraction of the range, so raising the upper limit of a joint also widens the zone in which its lower limit is damped; a joint that was free to move down is stopped. Not shown for a free base or with limits on the torque rate."},
{"property": "C13", "status": "partial", "theorems": ["Verif.C13_mimic_respected_partial", "Verif.C13_setSolver_counterexample"], "note": "Proved for every history ending in nrVars and later calls, except changes of backend after nrVars with mimic joints, for which it is false (counterexample proved)."},
{"property": "C14", "status": "proved", "theorems": ["Verif.C14_solve", "Verif.C14_update_order", "Verif.C14_solve_returns", "Verif.C14_too_many_configurations"], "note": "Every call that returns, any objects and any numerical solver; conditions under which it returns; more configurations than declared robots never return success (UB)."},
{"property": "C15", "status": "proved", "theorems": ["Verif.C15_backend_selection", "Verif.C15_default_backend"], "note": "Every string; state after a throw is unchanged."},
{"property": "C16", "status": "partial", "theorems": ["Verif.C16_line_attribution_partial", "Verif.C16_message_partial", "Verif.C16_bounds_never_reported", "Verif.C16_unsized_hessian", "Verif.C16_reports_satisfied_line", "Verif.C16_undefined_with_mimic", "Verif.C16_counterexample"], "note": "Attribution of a given line and the exact content of the message proved; which lines/bounds are looked at is wrong in the code (negations proved)."},
{"property": "C17", "status": "partial", "theorems": ["Verif.C17_with_base_partial", "Verif.C17_no_base_partial", "Verif.C17_first_dof_wrong", "Verif.C17_with_base_range", "Verif.C17_no_base_line_zero", "Verif.C17_no_base_fixed_wrong", "Verif.C17_counterexample", "Verif.C17_torque_name_partial", "Verif.C17_torque_name_wrong", "Verif.C17_limits_name_partial", "Verif.C17_limits_name_wrong"], "note": "False as stated: proved right for dofs that are not the first of their joint, proved wrong for the first dof of every joint but the first, and for every line without base on fixed-base robots; -1 past the end and for line 0 without base (UB in callers)."},
{"property": "C18", "status": "proved", "theorems": ["Verif.C18_contactId_order", "Verif.C18_default"], "note": "All ids."},
{"property": "C19", "status": "proved", "theorems": ["Verif.C19_generators"], "note": "Real trigonometry, every orthonormal frame, mu, nrGen and both directions."},
{"property": "C20", "status": "proved", "theorems": ["Verif.C20_uni_force_in_cone", "Verif.C20_bi_force_in_cone"], "note": "Per point and total (unilateral), per point (bilateral: one frame per point), both bodies."},
{"property": "C21", "status": "proved", "theorems": ["Verif.C21_uni_action_reaction", "Verif.C21_bi_action_reaction", "Verif.C21_bi_missing_frame"], "note": "Points, forces and wrenches; too few frames is UB."},
{"property": "C22", "status": "proved", "theorems": ["Verif.C22_bilateral_view"], "note": "Equality of outcomes, including undefined behaviour, for lambda of any size."},
{"property": "C23", "status": "partial", "theorems": ["Verif.C23_uni_checked_partial", "Verif.C23_bi_checked_partial", "Verif.C23_larger_cone_ub"], "note": "Every error path proved; no out-of-range read when the lists passed are not larger than the body 1 ones; otherwise UB (proved for every larger cone)."},
{"property": "C24", "status": "proved", "theorems": ["Verif.C24_weights_nonneg", "Verif.C24_fresh"], "note": "Every layout and x; the printed contact is the owner of the weight, nothing is printed outside."},
{"property": "C25", "status": "proved", "theorems": ["Verif.C25_torque_limits", "Verif.C25_setup", "Verif.C25_too_many_limits"], "note": "Every execution; no contact linking two bodies of the robot (see C28); root joint not written by torque(mbs, mbcs), as in the statement."},
{"property": "C26", "status": "proved", "theorems": ["Verif.C26_rate_lines", "Verif.C26_rate_execution"], "note": "One step and executions of any length, contacts changing in between; dt > 0."},
{"property": "C27", "status": "proved", "theorems": ["Verif.C27_springs", "Verif.C27_poly", "Verif.C27_poly_setup"], "note": "Exact equivalences for every execution."},
{"property": "C28", "status": "partial", "theorems": ["Verif.C28_last_side_partial", "Verif.C28_counterexample"], "note": "False as stated (counterexample proved): the first body of a self contact is lost. Exact computed torque proved for all contacts."},
{"property": "C29", "status": "proved", "theorems": ["Verif.C29_limits", "Verif.C29_floating_base_ub"], "note": "Exact equivalence after every execution; the floating base case is proved to be undefined behaviour."},
{"property": "C30", "status": "proved", "theorems": ["Verif.C30_row", "Verif.C30_bounds", "Verif.C30_update_ok", "Verif.C30_half_infinite_ub"], "note": "Exact equivalence after every execution, success conditions, and undefinedness for half-infinite ranges."},
{"property": "C31", "status": "proved", "theorems": ["Verif.C31_invariant", "Verif.C31_overlap_counterexample"], "note": "By induction over control cycles. Extra hypotheses (zones do not overlap, velocity limits do not let the joint jump over the zone) are in the statement; the first is shown necessary."},
{"property": "C32", "status": "proved", "theorems": ["Verif.C32_update", "Verif.C32_constant", "Verif.C32_entry"], "note": "One update, stays of any length, and the value at entry."},
{"property": "C33", "status": "proved", "theorems": ["Verif.C33_update", "Verif.C33_row", "Verif.C33_geometry", "Verif.C33_add", "Verif.C33_two_bodies", "Verif.C33_one_body", "Verif.C33_point", "Verif.C33_hull_pose", "Verif.C33_normal", "Verif.C33_desc", "Verif.CollEx.C33_fixed_first_counterexample"], "note": "Exact equivalence in every reachable state (C33_update), rate identified for two movable bodies and for one; the case excluded in the statement (immobile first robot) is proved wrong by a counterexample. Descriptions of rows proved when hulls are used consistently."},
{"property": "C34", "status": "proved", "theorems": ["Verif.C34_registry", "Verif.C34_rm", "Verif.C34_get", "Verif.C34_counts", "Verif.C34_alloc", "Verif.CollEx.C34_stale_ub"], "note": "Every history of operations; the accesses outside the rows without reallocation are shown to be UB."},
{"property": "C35", "status": "proved", "theorems": ["Verif.C35_collision", "Verif.C35_plane"], "note": "By induction over executions of any length; Euler evolution and bounded inactive steps are hypotheses as in the statement."},
{"property": "C36", "status": "partial", "theorems": ["Verif.C36_update", "Verif.C36_registry", "Verif.C36_rm", "Verif.C36_desc_partial", "Verif.PlaneEx.C36_desc_counterexample"], "note": "Rows, counts, order and registry proved for every reachable state. The clause on descInEq is false for planes exactly at distance di (counterexample proved), proved otherwise."},
{"property": "C37", "status": "partial", "theorems": ["Verif.C37_rows", "Verif.C37_torque", "Verif.C37_registration", "Verif.C37_desc_partial", "Verif.GripEx.C37_desc_counterexample", "Verif.GripEx.C37_extra_cone_ub"], "note": "Rows and the torque bound proved for every set of grippers and contacts. The clause on descriptions is false after a gripper whose contact is absent (counterexample proved), proved otherwise."},
{"property": "C38", "status": "proved", "theorems": ["Verif.C38_rows", "Verif.C38_stacking", "Verif.C38_registration", "Verif.C38_sizes_ub", "Verif.SpeedEx.C38_stale_ub"], "note": "Exact equivalence in every reachable state; inconsistent sizes and missing reallocation are UB."},
{"property": "C39", "status": "partial", "theorems": ["Verif.C39_fov_partial", "Verif.C39_fov_safe", "Verif.C39_occlusion_partial", "Verif.C39_points", "Verif.C39_robot_points_ignored", "Verif.C39_desc_partial", "Verif.ImgEx.C39_past_limit_counterexample", "Verif.ImgEx.C39_occlusion_counterexample", "Verif.ImgEx.C39_desc_counterexample", "Verif.C39_update_point3"], "note": "Exact rows proved for both directions in every reachable state. False past the security limit (no row) and for occlusion constraints (retreat is demanded instead of damping); both counterexamples proved."},
{"property": "C40", "status": "proved", "theorems": ["Verif.C40_rows", "Verif.C40_stacking", "Verif.C40_frames_locked", "Verif.C40_default_locks", "Verif.C40_stale_free_directions"], "note": "Exact equivalence for the three constraints at every point of every execution; frames of fully constrained contacts are the ones of the problem. Free directions are stale after updateDofContacts (proved); ContactPosConstr enforces v + dt a = error, not error/dt as its header says."},
{"property": "C41", "status": "partial", "theorems": ["Verif.C41_registry_partial", "Verif.C41_query_counterexample", "Verif.C41_query_is_add"], "note": "Refinement to a set and a map for every history that asks only for matrices that exist; dofContact on an unknown id changes the registry (counterexample proved)."},
{"property": "C42", "status": "partial", "theorems": ["Verif.C42_dedupe", "Verif.C42_nrVars_ok", "Verif.C42_sizes", "Verif.C42_too_many_rows", "Verif.C42_desc_partial", "Verif.C42_desc_counterexample", "Verif.C42_immobile_ub"], "note": "Dedupe and sizes proved. descEq is wrong after a contact with fewer than six rows, and contacts between two immobile robots are kept and make update undefined (both proved)."},
{"property": "C43", "status": "proved", "theorems": ["Verif.C43_setpoint", "Verif.C43_setpoint_defined", "Verif.C43_tracking", "Verif.C43_trajectory", "Verif.C43_pid", "Verif.C43_minimiser", "Verif.C43_minimiser_unique", "Verif.C43_setpoint_runs", "Verif.C43_tracking_runs", "Verif.C43_trajectory_runs", "Verif.C43_pid_runs", "Verif.C43_trajectory_rejects"], "note": "Objective identity for every x and every history of setter/update calls; the PID target uses the error given before the update."},
{"property": "C44", "status": "partial", "theorems": ["Verif.C44_setpoint", "Verif.C44_tracking", "Verif.C44_trajectory", "Verif.C44_pid_partial", "Verif.C44_pid_drift", "Verif.C44_pid_counterexample"], "note": "Idempotent update proved for SetPoint/Tracking/Trajectory and for PID when the errors are given again before each update; a second PID update without that changes the objective (counterexample proved)."},
{"property": "C45", "status": "proved", "theorems": ["Verif.C45_profile", "Verif.C45_objective", "Verif.C45_consistent", "Verif.C45_end", "Verif.C45_iterations", "Verif.C45_defined"], "note": "Over the reals. C45_end: at the last iteration, which the statement leaves out, the update divides by zero."},
{"property": "C46", "status": "partial", "theorems": ["Verif.C46_active", "Verif.C46_unactive_partial", "Verif.C46_objective", "Verif.C46_unactive_counterexample", "Verif.C46_last_dof_assert", "Verif.C46_empty_dofs_ub", "Verif.C46_defined", "Verif.C46_set_point", "Verif.C46_unactive_dofs"], "note": "ActiveJoints proved; UnactiveJoints ignores the dof-level selection (counterexample proved), the range assertion is off by one and an empty dof list is undefined behaviour."},
{"property": "C47", "status": "partial", "theorems": ["Verif.C47_error_partial", "Verif.C47_objective_partial", "Verif.C47_objective", "Verif.C47_two_dof_counterexample", "Verif.C47_planar_ub", "Verif.C47_single_joint_ub", "Verif.C47_root_gain_counterexample", "Verif.C47_mobile_base_counterexample"], "note": "Proved for every robot whose joints after the first have 0, 1 or 3 dofs and after every history of setter calls; two-dof joints, planar joints, single-joint robots, gains on the root joint and mobile non-free bases violate the claim (witnesses proved)."},
{"property": "C48", "status": "proved", "theorems": ["Verif.C48_torque_objective", "Verif.C48_reported_torque", "Verif.C48_wrong_size_ub"], "note": "Objective identity for every x and every history; with contacts between two bodies of the robot the torques are those MotionConstr reports (see C28). A selection vector of the wrong size is undefined behaviour."},
{"property": "C49", "status": "partial", "theorems": ["Verif.C49_decoupled_partial", "Verif.C49_one_mobile_partial", "Verif.C49_overshoot", "Verif.C49_counterexample", "Verif.C49_no_robot_ub", "Verif.C49_weights", "Verif.C49_error"], "note": "The code drops the cross terms: the objective is the sum of one least-squares term per robot (proved for every history), equal to the claimed one only if at most one robot moves; the overshoot of the minimiser is proved, with a concrete two-robot witness. Weights and weighted errors of MultiCoMTask proved."},
{"property": "C50", "status": "partial", "theorems": ["Verif.C50_contact_task", "Verif.C50_contact_task_not_ready", "Verif.C50_gripper_task", "Verif.C50_gripper_torque_partial", "Verif.C50_gripper_counterexample", "Verif.C50_extra_cone_ub"], "note": "ContactTask proved for every history; GripperTorqueTask sums |torque| per generator: the exact objective is proved, an upper bound of the torque in general and equal to it when the generators turn the gripper one way (witness for the difference proved)."},
{"property": "C51", "status": "proved", "theorems": ["Verif.C51_lin_velocity", "Verif.C51_surface_transform", "Verif.C51_vector_orientation", "Verif.C51_multi_robot", "Verif.C51_position", "Verif.C51_orientation", "Verif.C51_surface_orientation", "Verif.C51_transform", "Verif.C51_visual"], "note": "For every joint path, motion subspaces, poses and velocities consistent with forward kinematics (RBDyn formulas in the trusted base); also proved for the position, orientation, transform, gaze and visual servoing tasks."},
{"property": "C52", "status": "partial", "theorems": ["Verif.C52_body_point_partial", "Verif.C52_counterexample", "Verif.C52_lin_velocity"], "note": "Speed, normal acceleration, Jacobian and getter follow the new point; eval keeps the point of the constructor (proved: equal only if the points are equal; concrete witness). LinVelocityTask has no such defect."},
{"property": "C53", "status": "proved", "theorems": ["Verif.C53_tracking_columns", "Verif.C53_unknown_joint_ub"], "note": "Per joint and dof of the robot, after every history of updates; joint names distinct; an unknown name is undefined behaviour."},
{"property": "C54", "status": "partial", "theorems": ["Verif.C54_normal_recursion_partial", "Verif.C54_no_history_partial", "Verif.C54_fixed_zero_partial", "Verif.C54_fixed_counterexample"], "note": "Recursion and independence of the past proved for movable robots. The clause on fixed robots is false when the index was movable before (stale values, counterexample proved); proved otherwise."},
{"property": "C55", "status": "proved", "theorems": ["Verif.C55_end_to_end"], "note": "Every history; non-zero multipliers, disjoint bounds and up-to-date sizes as in the statement."},
{"property": "C56", "status": "partial", "theorems": ["Verif.C56_one_dof_partial", "Verif.C56_never_relaxed", "Verif.C56_history_counterexample"], "note": "False for dofs of joints with several dofs (counterexample proved): their bounds only ever tighten. Holds for one-dof joints."},
{"property": "C57", "status": "partial", "theorems": ["Verif.C57_collision", "Verif.C57_plane_partial", "Verif.PlaneEx.C57_plane_counterexample"], "note": "Proved for collisions. For planes the current rate is admitted, standing still only if the CoM is not moving away (counterexample proved)."},
{"property": "C58", "status": "proved", "theorems": ["Verif.C58_position", "Verif.C58_lin_velocity", "Verif.C58_orientation", "Verif.C58_surface_orientation", "Verif.C58_vector_orientation", "Verif.C58_transform", "Verif.C58_surface_transform", "Verif.C58_multi_robot", "Verif.C58_visual"], "note": "Over the reals, for every evolution of the joints with configuration-independent motion subspaces. The angular rows of the surface and multi-robot transform tasks hold when the angular error decreases at the reported speed (rotationVelocity is a parameter); visual tasks when the derivative they use for the interaction matrix is its derivative."},
{"property": "C59", "status": "proved", "theorems": ["Verif.C59_position", "Verif.C59_vector_orientation", "Verif.C59_transform", "Verif.C59_surface_transform", "Verif.C59_multi_robot", "Verif.DriftEx.C59_body_point_counterexample"], "note": "The rotation parts, which go through sva's rotation errors, are C77. DriftEx.C59_body_point_counterexample is the exception the statement names."},
{"property": "C60", "status": "proved", "theorems": ["Verif.C60_speed_is_jac", "Verif.C60_contact_ub", "Verif.C60_setters", "Verif.C60_mode", "Verif.C60_vector_ignored", "Verif.C60_error_rate", "Verif.C60_error_rate_fixed", "Verif.C60_drift", "Verif.RelEx.C60_fixed_side_counterexample", "Verif.RelEx.C60_first_update_counterexample"], "note": "Outside the statement: with fixed vectors the rate has the wrong sign on the negative side (counterexample); the directions' rates are finite differences, and on the first update the previous direction is taken as zero (counterexample); a zero distance divides by zero (ub); vectors given later to a task built without them are ignored (C60_vector_ignored)."},
{"property": "C61", "status": "proved", "theorems": ["Verif.C61_speed_is_jac", "Verif.C61_drift", "Verif.C61_error_rate", "Verif.C61_multi", "Verif.C61_uniform_weight", "Verif.C61_inertia", "Verif.C61_rejected", "Verif.ComEx.C61_weights_counterexample", "Verif.C61_unweighted"], "note": "RBDyn formulas for computeCoM and CoMJacobian are part of the trusted base. Outside the statement: with body weights the error is not weighted while Jacobian and speed are (ComEx.C61_weights_counterexample)."},
{"property": "C62", "status": "proved", "theorems": ["Verif.C62_setpoint", "Verif.C62_converges", "Verif.C62_no_overshoot", "Verif.C62_trajectory", "Verif.C62_position", "Verif.C62_com"], "note": "Continuous time: the accelerations are those of the motion at every instant t >= 0. The link with the motion is C58/C59/C61; the step to the accelerations is C43."},
{"property": "C63", "status": "proved", "theorems": ["Verif.C63_instant", "Verif.C63_velocity", "Verif.C63_no_slip"], "note": "Continuous time. C63_instant is for the frames the constraint uses at that instant (with dof selections the code moves the frame of body 2 along the free directions). C63_velocity says nothing for ContactPosConstr (its case is trivial); C63_instant covers it."},
{"property": "C64", "status": "proved", "theorems": ["Verif.C64_jacobian", "Verif.C64_no_mass", "Verif.C64_momentum", "Verif.C64_drift", "Verif.C64_closed_loop", "Verif.C64_converges", "Verif.C64_lin_velocity"], "note": "The formulas of rbd::computeCentroidalMomentum, computeCoMVelocity and CentroidalMomentumMatrix belong to the trusted base. Continuous time for the closed loop."},
{"property": "C65", "status": "partial", "theorems": ["Verif.C65_gaze", "Verif.C65_gaze_drift_partial", "Verif.C65_gaze_estimate", "Verif.C65_gaze_no_depth", "Verif.VisEx.C65_gaze_counterexample", "Verif.C65_pbvs", "Verif.C65_pbvs_drift_partial", "Verif.VisEx.C65_pbvs_counterexample", "Verif.C65_pbvs_rotation", "Verif.C65_pbvs_rotation_convention", "Verif.C65_gaze_make"], "note": "Error rate and Jacobian proved. The normal acceleration of GazeTask is exact up to an explicit term that vanishes when the depth rate RBDyn returns is right; it is computed from image speed and depth only, and the counterexample shows that no such function is right for every point. The normal acceleration of PositionBasedVisServoTask is off by twice the Coriolis term (wrong sign), for every pose Jacobian with the right translation rows. The rotation part of the error is the rotation vector of the transposed rotation and its square decreases at the reported speed, for every pose Jacobian with rotation rows of the usual form; with the other sign convention of getAngleAxis it would increase (proved), so the convention is an explicit hypothesis. imagePointJacobian, imagePointJacobianDot, getAngleAxis and poseJacobian are in the trusted base."},
{"property": "C66", "status": "partial", "theorems": ["Verif.C66_update", "Verif.C66_update_dot", "Verif.C66_drift_partial", "Verif.C66_counterexample"], "note": "Definedness, speed and Jacobian proved for every history. The normal acceleration is the drift only if the user calls updateDot at the current state; nothing in the library does, and the matrix starts uninitialised: C66_counterexample shows that any vector can be reported."},
{"property": "C67", "status": "proved", "theorems": ["Verif.C67_position", "Verif.C67_velocity", "Verif.C67_orientation", "Verif.C67_surface_orientation", "Verif.C67_transform", "Verif.C67_vector", "Verif.C67_com", "Verif.C67_momentum", "Verif.C67_multi_com", "Verif.C67_objective"], "note": "For every state, including those on which the update is undefined (both updates then fail alike)."},
{"property": "C68", "status": "partial", "theorems": ["Verif.C68_matrix", "Verif.C68_contact_matrix_partial", "Verif.C68_contact_matrix_wide", "Verif.ContactMatrixEx.C68_counterexample"], "note": "matrix() proved for any number of robots. contactMatrix() is the contact part only when no other robot has degrees of freedom; otherwise it always has too many columns, and the counterexample shows the inertia of the joint in the first of them."},
{"property": "C69", "status": "partial", "theorems": ["Verif.C69_arrives_partial", "Verif.C69_law", "Verif.TargetLoopEx.C69_counterexample"], "note": "Exact arrival proved for every duration of three periods or more; false for one and two periods (counterexample)."},
{"property": "C70", "status": "partial", "theorems": ["Verif.C70_law", "Verif.C70_one_robot_partial", "Verif.C70_converges_partial", "Verif.C70_com", "Verif.MultiLoopEx.C70_counterexample"], "note": "False for two robots (counterexample): the exact law has n times the acceleration, less n-1 times the normal acceleration. Critically damped for one robot; for n robots without normal acceleration the error still tends to zero."},
{"property": "C71", "status": "partial", "theorems": ["Verif.C71_raise_weight_partial", "Verif.C71_scale_weights_partial", "Verif.WeightEx.C71_counterexample"], "note": "Proved when the solver adds its own diagonal penalty to the same variables in both steps (to none, for scaling); false otherwise (counterexample: weights of the order of 1e-5)."},
{"property": "C72", "status": "partial", "theorems": ["Verif.C72_compatible_partial", "Verif.WeightEx.C72_counterexample"], "note": "Proved when the common minimiser vanishes on the variables penalised by the solver itself; false otherwise (counterexample: a single task of weight 5e-5 asking for 1 gets 1/3)."},
{"property": "C73", "status": "partial", "theorems": ["Verif.C73_unique_partial", "Verif.WeightEx.C73_counterexample"], "note": "Equal objective values always; equal results when the Hessian handed to the backend is positive definite; false for semidefinite Hessians (counterexample)."},
{"property": "C74", "status": "partial", "theorems": ["Verif.C74_together_partial"], "note": "Proved when the common minimiser vanishes on the variables penalised by the solver itself; false otherwise (see the counterexample of C72)."},
{"property": "C75", "status": "proved", "theorems": ["Verif.C75_limits_hold", "Verif.SafetyEx.C75_fast_counterexample"], "note": "The speed condition of the statement is needed: a joint whose velocity limit is 90% of the zone per step ends beyond its limit (counterexample)."},
{"property": "C76", "status": "proved", "theorems": ["Verif.C76_forces", "Verif.C76_torques"], "note": "Composes C20, C24, C25, C26, C55 and the layout."},
{"property": "C77", "status": "proved", "theorems": ["Verif.C77_formula", "Verif.C77_unique", "Verif.C77_orientation", "Verif.C77_surface_orientation", "Verif.C77_transform", "Verif.C77_surface_transform", "Verif.C77_multi_robot"], "note": "Half a turn itself is excluded: the rotation vector is not unique there. sva::rotationVelocity is any function meeting Spec.RotVelOK; its formula, written over the reals, does (C77_formula)."},
{"property": "C78", "status": "proved", "theorems": ["Verif.C78_orientation", "Verif.C78_surface_orientation", "Verif.C78_transform"], "note": "Continuous time, as C62; Lyapunov function with a cross term. Any start at rest less than half a turn away meets the bound."},
{"property": "C79", "status": "partial", "theorems": ["Verif.C79_position", "Verif.C79_orientation", "Verif.C79_lin_velocity", "Verif.C79_com", "Verif.C79_momentum", "Verif.C79_surface_orientation", "Verif.C79_surface_orientation_partial", "Verif.JacDotEx.C79_surface_orientation_counterexample"], "note": "What RBDyn returns as derivative of its Jacobians is assumed to be that (hypothesis MatDeriv). SurfaceOrientationTask differentiates the Jacobian in the frame of the body: exact relation proved, right for surfaces oriented as their body, counterexample otherwise."},
{"property": "C80", "status": "proved", "theorems": ["Verif.C80_com_plane", "Verif.C80_rates", "Verif.C80_bounded_speed", "Verif.BarrierEx.C80_damping_counterexample"], "note": "Continuous time. The plane is fixed, the selector is the default one; the kinematic quantities are those of Model/CoM and Model/Kine. The condition on the damping is needed (counterexample)."},
{"property": "C81", "status": "proved", "theorems": ["Verif.C81_contact_position", "Verif.C81_fixed_body", "Verif.PosEx.C81_slow"], "note": "Continuous time. Lyapunov function with a cross term for the orientation, linear damped system for the position. PosEx.C81_slow is both the example that meets the hypotheses and the exact rate."},
{"property": "C82", "status": "proved", "theorems": ["Verif.C82_limits_hold", "Verif.C82_schemes", "Verif.C82_semi_implicit", "Verif.SafetyEx.C82_half_zone_counterexample", "Verif.C82_position_limits", "Verif.FeasEx.C82_position_limits_counterexample"], "note": "Conditions stated as the theorem needs them; counterexamples show that neither the step condition nor the integration can be dropped."},
{"property": "C83", "status": "proved", "theorems": ["Verif.C83_stays_feasible", "Verif.FeasEx.C83_weak_brakes_counterexample", "Verif.FeasEx.C83_position_limits_counterexample"], "note": "Feasibility of the bounds of one joint; other constraints may of course contradict them."},
{"property": "C84", "status": "proved", "theorems": ["Verif.C84_end_to_end", "Verif.C84_bounds", "Verif.C84_exact"], "note": "The tolerances are those of the problem handed to the numerical solver (contract EngineNear)."},
{"property": "C85", "status": "proved", "theorems": ["Verif.C85_limits_hold", "Verif.InexactEx.C85_no_offset_counterexample"], "note": "The counterexample shows that the positive offset cannot be dropped."},
{"property": "C86", "status": "partial", "theorems": ["Verif.C86_step", "Verif.C86_fixed", "Verif.C86_sliding_partial", "Verif.C86_pivoting_partial", "Verif.C86_spin", "Verif.FreeEx.C86_spin_counterexample"], "note": "C86_step gives the exact motion of the frame in every case. It follows body 1 when the frames only slide or only pivot about a free axis; when a contact may slide and pivot, the translation is computed about the origin of body 2 and the frame jumps away (C86_spin)."},
{"property": "C87", "status": "proved", "theorems": ["Verif.C87_solver", "Verif.C87_rows", "Verif.C87_instant", "Verif.C87_velocity", "Verif.C87_drift", "Verif.NearEx.C87_acc_drift_counterexample", "Verif.NearEx.C87_speed_sharp"], "note": "Continuous time, as in C63. C87_acc_drift_counterexample shows that the drift of acceleration constraints is not bounded in time; C87_speed_sharp that the bound for speed constraints is reached."},
{"property": "C88", "status": "proved", "theorems": ["Verif.C88_weights", "Verif.C88_torques", "Verif.C88_cone", "Verif.C88_forces", "Verif.PhysEx.C88_sharp"], "note": "C88_sharp exhibits a solve within the tolerance in which the ground pulls the body with a force of length eps: the bound on the force is attained."},
{"property": "C89", "status": "proved", "theorems": ["Verif.C89_miss", "Verif.C89_compatible", "Verif.C89_priority", "Verif.C89_row"], "note": "Removes the condition on the penalised variables of C72 at the price of a bound, and covers opposed tasks and inexact numerical solvers. An example with two opposed tasks is given."},
{"property": "C90", "status": "proved", "theorems": ["Verif.C90_ultimate", "Verif.PriorityEx.C90_steady"], "note": "C90_steady: a closed loop meeting every hypothesis whose error stays at 1 for ever (allowed: 2)."},
{"property": "C91", "status": "partial", "theorems": ["Verif.C91_distance_partial", "Verif.C91_no_turn", "Verif.CollLoopEx.C91_spin_counterexample"], "note": "The full statement (the distance stays above the security distance) fails: C91_spin_counterexample. The amount in the partial theorem is reached in the limit by the counterexample."},
{"property": "C92", "status": "proved", "theorems": ["Verif.C92_com_plane", "Verif.C92_bounded_speed", "Verif.BarrierEx.C92_sharp"], "note": "C92_sharp: the amount for planes is reached in the limit; the example beside it does the same for speeds."},
{"property": "C93", "status": "proved", "theorems": ["Verif.C93_qld", "Verif.C93_lssol", "Verif.C93_bounds"], "note": "Stated for the fill functions of both formats over an arbitrary type of numbers; the example instantiates it with Float. Tasks (weighted sums) and mimic joints (products with the reduction matrix) do compute and are excluded."},
{"property": "C94", "status": "proved", "theorems": ["Verif.C94_lines", "Verif.C94_bounds", "Verif.C94_transfer", "Verif.C94_limits_hold", "Verif.C94_com_plane"], "note": "Errors of what is handed to the solver in each step; the state a constraint keeps between steps (damping coefficients, previous distances) is the exact one."},
{"property": "C95", "status": "proved", "theorems": ["Verif.C95_forward_defined", "Verif.C95_path", "Verif.C95_body_velocity", "Verif.C95_evolves", "Verif.C95_normal_acceleration", "Verif.C95_bodies", "Verif.C95_position", "Verif.C95_position_converges", "Verif.C95_parameters"], "note": "The formulas of the joints, of forward kinematics and velocity and of the path of a Jacobian are those of RBDyn (Model/Forward), part of the trusted base; planar joints are left out."},
{"property": "C96", "status": "proved", "theorems": ["Verif.C96_position", "Verif.C96_lin_velocity", "Verif.C96_orientation", "Verif.C96_surface_orientation", "Verif.C96_com", "Verif.C96_multi_com", "Verif.C96_momentum", "Verif.NoAccEx.C96_fixed_counterexample"], "note": "Restricted to robots with degrees of freedom: NoAccEx.C96_fixed_counterexample shows that a robot that became fixed keeps stale normal accelerations in the solver (see C54), so that the overloads differ there."},
{"property": "C97", "status": "proved", "theorems": ["Verif.C97_newton_euler", "Verif.C97_flight"], "note": "`Spec.Dynamics` states the formulas of computeH and computeC (RBDyn, trusted base); bodies are made of finitely many particles."},
{"property": "C98", "status": "proved", "theorems": ["Verif.C98_friction", "Verif.C98_zmp"], "note": "Same trusted base as C97."},
{"property": "C99", "status": "proved", "theorems": ["Verif.C99_energy", "Verif.C99_conserved"], "note": "Same trusted base as C97; the base needs not float."}
]}
