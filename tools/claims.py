claim("C01", "proved", "C01_schedule_perm")
claim("C02", "proved", "C02_schedule_honours_requests")
claim("C03", "proved", "C03_schedule_iff_satisfiable")
claim("C04", "proved", "C04_schedule_lex_least C04_schedule_order_independent")
claim("C05", "proved", "C05_schedule_in_bounds C05_round_removes_one")
claim("C06", "proved", "C06_update_between_starting_and_stopping C06_no_start_stop_before_init C06_update_request_honoured_iff")
claim("C07", "proved", "C07_init_succeeds_at_most_once C07_start_stop_accepted_iff_initialised C07_second_init_refused")
claim("C08", "proved", "C08_dependency_recorded_iff C08_init_records_only_loaded")
claim("C09", "proved", "C09_names_distinct C09_objects_distinct", "over every interleaving of service calls and realtime steps")
claim("C10", "proved", "C10_failed_load_changes_nothing")
claim("C11", "proved", "C11_load_succeeds_iff C11_successful_load_adds_one manager_history")
claim("C12", "partial", "C12_unload_partial C12_unload_without_reenabling C12_unload_always C12_unload_race_counterexample", "false in one situation, which is proved: unload racing with the restart after motors are re-enabled removes a running controller")
claim("C13", "proved", "C13_dependencies_loaded C13_order_valid")
claim("C14", "proved", "C14_strict_all_or_nothing C14_refused_only_if")
claim("C15", "proved", "C15_switch_effect C17_log_is_cycles")
claim("C16", "proved", "C16_no_undefined_behaviour C16_realtime_list_stable C16_startup_race_counterexample C16_shutdown_counterexample", "the two provisos of the property are shown necessary")
claim("C17", "proved", "C17_log_is_cycles C17_log_prefix")
claim("C18", "proved", "C18_cycle_order C17_log_is_cycles")
claim("C19", "proved", "C17_log_is_cycles C17_log_prefix")
claim("C20", "partial", "C20_list_partial C20_list_without_reenabling C20_list_always C20_listing_complete C20_list_race_counterexample", "false while the realtime loop restarts controllers: a running one may be reported stopped (proved)")
claim("C21", "proved", "C21_published_aligned C16_no_undefined_behaviour")
claim("C23", "partial", "C15_switch_effect C23_shutdown_counterexample", "proved while ROS is up; during shutdown it is false (proved)")
claim("C24", "proved", "C24_calls_finish C24_cycles_end C24_first_wait_free C24_second_wait_one_cycle C24_shutdown_lock_counterexample", "fairness: both threads keep being scheduled and the publisher lock is not missed for ever; the proviso that ROS is up is shown necessary")
claim("C22", "partial", "C22_reload_without_force C22_reload_force_partial C22_reload_force_never_succeeds", "the force_kill part is false: proved that with assertions enabled it never succeeds when a controller is loaded (aborts, or fails leaving all stopped); proved what does happen")
claim("C60", "proved", "C60_spawn C60_spawner_restores C60_takes_down C60_takes_all_down C60_left_running", "C60_left_running delimits the claim (finding 32).")
claim("C61", "proved", "C61_unspawner_restarts C61_unspawner_restores C61_round_stops")
claim("C62", "proved", "C62_kill_one C62_spawn_one C62_kill C62_kill_all C62_kill_exact C62_spawn C62_spawn_all")
claim("C29", "proved", "C29_limited_for_any_arithmetic C29_nan_passes", "the proviso (not NaN) is shown necessary")
claim("C30", "proved", "C30_bounds_ordered C30_limited_in_bounds")
claim("C31", "proved", "C31_soft_upper C31_soft_lower C31_velocity C31_full_braking")
claim("C32", "proved", "C32_transparent C32_only_command C32_idempotent C32_monotone")
claim("C33", "proved", "C33_not_position_limited C33_unprotected")
claim("C34", "proved", "C34_odometer C34_odometer_monotone")
claim("C35", "proved", "C35_report C35_first_report C35_range_counterexample C35_inverted_counterexample", "the counterexamples show that the stronger reading (range of the interval alone) is false")
claim("C36", "proved", "C36_violation C35_first_report")
claim("C37", "proved", "C37_actuator_roundtrip C37_joint_roundtrip C37_effort_roundtrip C37_effort_roundtrip' C37_screw_effort", "exact arithmetic; with a simulated screw joint the effort goes to the screw instead")
claim("C38", "proved", "C38_actuator_roundtrip C38_joint_roundtrip C38_effort_roundtrip C38_effort_roundtrip'", "exact arithmetic")
claim("C39", "proved", "C39_simple_power C39_wrist_power", "exact arithmetic")
claim("C44", "proved", "C44_estimator C44_damping C44_simulation", "stated as independence of the value of division by zero")
claim("C45", "proved", "C45_converges", "exact arithmetic")
claim("C46", "proved", "C46_damping_step C46_no_oscillation C46_plain C46_bounded")
claim("C47", "proved", "C47_rigid")
claim("C53", "proved", "C53_limited_rising C53_limited_falling C53_continuous")
claim("C54", "proved", "C54_edges C54_only_calibration C54_new_motor C54_located_rising C54_located_falling C54_accuracy", "C54_located_* and C54_accuracy are over exact arithmetic and for joints that are not continuous")
claim("C40", "proved", "C40_forward C40_inverse C40_actuator_roundtrip C40_joint_roundtrip linkage_of_mr", "exact arithmetic; working range = law of cosines with the finger pointing forwards")
claim("C41", "proved", "C41_derivative C41_reciprocal", "exact arithmetic")
claim("C42", "proved", "C42_power C42_command_measured", "exact arithmetic")
claim("C43", "proved", "C43_forward C43_backward C43_backward_motion C43_forward_zero C43_backward_zero C43_division_by_zero", "stated as independence of the values outside the domains; that the commanded effort is not always a division by a non-zero number is shown by an example")
claim("C63", "proved", "C63_simulated_belt C63_estimator_undoes_simulation", "exact arithmetic")
claim("C64", "proved", "C64_time_stamps C64_never_backwards C64_simple_stamp C64_wrist_stamp C64_gripper_stamp C64_belt_stamp C64_uninitialised_counterexample", "the proviso is not established by the code: no constructor initialises the flag")
claim("C48", "proved", "C48_initially_enabled C48_effort_only_commands C48_effort_enables C48_always_enabled C48_belt_counterexample", "the counterexample shows that the stronger claim (propagating re-enables a disabled actuator) is false of the belt transmission")
claim("C49", "proved", "C49_never_fails C49_keeps_exactly C49_rejects C49_lookup")
claim("C50", "proved", "C50_joint_states C50_lookup C50_lookup_null C50_wiring C50_partition")
claim("C51", "proved", "C51_halted")
claim("C52", "proved", "C52_chain_init C52_chain_init_fails C52_chain_distinct C52_tree_init C52_tree_init_counterexample C52_reads C52_calibrated C52_setEfforts C52_addEfforts C52_writes_never_abort C52_chains_compose", "a tree whose KDL tree cannot be built initialises with no joints and returns true (counterexample)")
claim("C65", "proved", "C65_robot_never_crashes C65_complete_never_crashes C65_crash_counterexample C65_wrist_crash_counterexample")
claim("C66", "proved", "C66_position_local C66_effort_local")
claim("C67", "proved", "C67_constructs C67_ready C67_position_never_aborts C67_effort_never_aborts C67_gripper_without_simulated_joint C67_gripper_contradiction")
claim("C25", "proved", "C25_publishing C25_catch_up C25_after_publishing C25_zero_period_hangs C25_period_positive catchUp_adequate C25_in_range C25_until_2106 C25_catch_up_time C25_jump_stalls C25_end_of_time", "the period computation is in exact arithmetic; C25_jump_stalls and C25_end_of_time delimit the claim (finding 31)")
claim("C26", "proved", "C26_overruns C26_fresh", "the counter is the 32 bit counter of the code")
claim("C27", "proved", "C27_no_leak C27_same_commands C27_untouched")
claim("C28", "proved", "C28_limited C28_always_limited C28_simple_motor C28_wrist_motors", "for arbitrary results of + - * /; the motor bounds in exact arithmetic")
claim("C68", "proved", "C68_statistics C68_joint_states C68_quiet")
claim("C69", "proved", "C69_never_fails C69_init C69_refuses")
claim("C55", "proved", "C55_level C55_not_finite C55_subnormal_counterexample", "the statement notes the defect: subnormal values are reported as NaN")
claim("C56", "proved", "C56_extremes C56_uncalibrated C56_min_counterexample", "exact comparison; what the minimum is is part of C56_extremes, the counterexample shows that it is not the minimum over the batch")
claim("C57", "proved", "C57_level C58_published", "C58_published says that the published status is the one of C57_level")
claim("C58", "proved", "C58_published C58_stale_controllers_vanish")
claim("C59", "proved", "C59_lookup C59_add_succeeds_iff_new C59_never_replaced C59_add_effect")
claim("C70", "proved", "C70_same_transmission C70_wrist_offset_counterexample C70_wrist_offset_online C70_new_style_counterexample C70_belt_counterexample", "the counterexamples are the defects named in the statement")
claim("C71", "proved", "C71_restore", "not vacuous from any state: clients_total and the example after it")
claim("C72", "proved", "C72_start_controllers C72_stop_controller C72_stop_controllers_counterexample clients_total", "the counterexample is the defect named in the statement")
claim("C73", "proved", "C73_switches_exactly_once C73_switches_in_progress C17_log_is_cycles C17_log_prefix", "normal operation: as for C16, a first cycle has begun and ROS is up")
claim("C74", "proved", "C74_update_between_starting_and_stopping C74_running_iff_started_last")
claim("C75", "proved", "C75_unloaded_never_called")
claim("C76", "proved", "C76_sequential C76_contract C76_survives C76_exclusive", "services only; with direct callers list_controllers is not safe, see C78")
claim("C77", "proved", "C77_sequential C77_exclusive C77_finishes C77_answers C77_cycles", "fairness assumptions: FairSys in Spec/Threads.lean; busyRun_fair shows a fair execution with four concurrent requests")
claim("C78", "proved", "C78_list_counterexample", "the counterexample is the defect named in the statement")
claim("C79", "proved", "Tso.C79_tso_lists Tso.C79_tso_exclusive Tso.C79_tso_no_late_stores Tso.C79_needs_store_order", "x86-TSO; assumes the compiler keeps program order and ros::ok() stays true; C79_needs_store_order is the counterexample for weaker machines")
claim("C80", "proved", "Tso.C80_tso_requests Tso.C80_tso_switch_done Tso.C80_tso_switch_once Tso.C80_needs_store_order", "as C79")
claim("C81", "proved", "C81_controller_times C18_cycle_order", "exact arithmetic; the Boost recurrences are part of the model; that every loaded controller is in the cycle's order is C18_cycle_order")
claim("C82", "proved", "C82_only_own C82_cleans_up C82_leaves_at_most_one C82_leak_counterexample C82_signalled C82_signalled_counterexample spawnS_den spawnerShutdownS_den", "the counterexamples are the exceptions named in the statement; that Python goes on after SIGTERM (rospy runs the hook inside its handler and returns) is an assumption on rospy, made only in C82_signalled*")
claim("C83", "proved", "C83_only_own C83_restarts C83_left_stopped_counterexample unspawnerS_den", "the counterexample is the exception named in the statement")
claim("C84", "proved", "C84_faithful C84_only_running C84_every_cycle C84_survives C84_limited", "the interleaving model of C16 and the cycle of C68 in one transition system; plugins are assumed to touch the robot state only when the realtime loop calls them; C84_survives and C84_limited for plugins that keep the structure of the robot")
claim("C85", "proved", "C85_statistics C85_published", "in the model of C84; durations are exact, all above the accumulator's initial maximum `low` (the lowest double)")
claim("C86", "proved", "C86_estimator C86_damping C86_simulated_effort C86_simulated_motion", "over the reals; rounding is not modelled here")
claim("C87", "proved", "C87_init C87_uncommanded C87_always C87_rejected_counterexample", "C87_uncommanded and C87_always for plugins that leave the motors' commands alone, as the controller interface intends; the counterexample shows why enabling is bounded by the description, not by the loaded transmissions")
claim("C88", "proved", "Tso.C88_tso_calls_finish Tso.C88_tso_realtime_wait_free Tso.C88_tso_no_deadlock", "x86-TSO, liveness; the realtime thread ends its cycle by its own next (at most five) instructions from any state, and every reachable state begins a fair execution; as C79 it assumes that the compiler keeps program order and that ros::ok() stays true; exRun_fair is a concrete fair execution")
claim("C89", "proved", "C89_statistics C89_joint_states C89_only_then C89_readings", "the clocks and locks are inputs; demo_publishes meets all hypotheses")
claim("C90", "proved", "C90_history C90_report", "C90_report in exact arithmetic; the position range may be larger than the cycles' (C35, finding)")
claim("C91", "proved", "C91_simple_motion C91_wrist_motion C91_gripper_motion C91_simple_effort C91_wrist_effort C91_gripper_effort C91_never_aborts", "over the reals; belts are C47, C63 and C86; the gripper in its working range")
claim("C92", "proved", "C92_simple_roundtrip C92_simple_effort C92_simple_motor C92_wrist_motors C92_motors C92_inexact_counterexample", "for any IeeeArith; instance Dbl (finite binary64) proved; grippers and belts not covered (they use sqrt and trigonometry)")
claim("C93", "proved", "C93_stays_inside C93_speed C93_robot C93_heavy_counterexample C93_slow_counterexample C93_weak_counterexample", "closed loop of the limiter and an ideal inertia (no gravity, friction or other external effort; the mechanics is a hypothesis, not part of the code); exact arithmetic; each of the three conditions on gains, cycle time and effort limit is shown necessary by a counterexample")
claim("C94", "proved", "C94_transmission C94_robot", "an equivalence: accepted exactly if described, and with exactly these constants; numbers are read by uninterpreted parsers (atof, lexical_cast, convertDouble)")
claim("C95", "proved", "C95_described C95_simple_reading C95_simple_command C95_wrist_reading C95_wrist_command C95_gripper_reading C95_gripper_rates C95_gripper_command", "simple and wrist transmissions in any arithmetic, grippers over the reals; belts are filters (C44-C46, C86)")
claim("C96", "proved", "C96_sensor C96_first C96_edges C96_simple_motor C96_wrist_motor C96_succeeds", "Over the reals for the sensors; any arithmetic for the motors' units.  Assumes that no motor belongs to two transmissions and that the sensor simulators are as their constructor leaves them.")
claim("C97", "proved", "C97_comes_back C97_slows_down C97_robot C97_gain_counterexample", "Exact arithmetic in any Archimedean ordered field; the mechanics (an inertia driven by the sent effort) is a hypothesis, as in C93.  The number of cycles is uniform: it does not depend on commands, calls or the run.")
claim("C98", "proved", "C98_simple_cycle C98_wrist_cycle C98_simple_inside C98_simple_returns C98_flex_inside C98_flex_returns C98_roll_inside C98_roll_returns", "The two cycle theorems hold for any arithmetic; the others in exact arithmetic over any (Archimedean) ordered field.  Plugins may change commands, calibration flags and reference positions, not measured positions and velocities.  Mechanics (each motor an inertia driven by the effort it is sent) and, for wrists, equal reflected inertias of the two motors are hypotheses.  Grippers and belts are not covered.")
claim("C99", "proved", "C99_only_full_names C99_shipped_ignored C99_full_names_abort C99_complete C99_simple_reading C99_simple_command C99_wrist C99_gripper_reading C99_gripper_command C99_survives C99_inside", "pluginlib is modelled with exactly the classes of transmission_plugins.xml (no other package declares any).  `pr2Urdf` is generated from /repo/pr2_mechanism_model/pr2.urdf by tools/mkurdf.py (links, gazebo and material elements by tag and name only).  The URDF library's reading of joint elements is a contract (`ReadsUrdf`), decimal number parsing too (`ReadsDecimals`).  C99_inside: exact arithmetic, mechanics as hypothesis, as C98.")
claim("C100", "proved", "C100_wait_free C100_switch_soon C100_switch_returns C100_load_soon C100_bound_attained", "Steps are those of the model's realtime thread: one per controller called, per shared variable read or written, per message entry (what a plugin does inside a call, and the loops over the robot's own joints and motors, are not counted).")
claim("C101", "proved", "C101_init C101_path C101_reverse C101_driven C101_sizes C101_failed_reinit C101_pr2 C101_pr2_shipped", "Chain::init against the kinematic tree of the robot description itself (XML), instead of against an abstract KDL chain as in C52. kdl_parser and KDL::Tree::getChain are external; their documented algorithm (walk both links up to the root, strip the common part) is modelled and proved to find exactly the unique simple path. C101_failed_reinit is finding 26.")
claim("C102", "proved", "C102_level C102_extremes C102_controller", "Composition of the running system (C84, C85, C89, C90) with the diagnostics node (C55-C58) through an unreliable topic. C102_extremes is for exact arithmetic, C102_level for any IEEE-like arithmetic. The controllers' durations are rounded when the message is filled; only names, run flags, overrun counts and times are compared. \"Limits Hit\" reflects only the last message (finding 28), \"Min Position\" is wrong (C56, counterexample there).")
claim("C103", "proved", "C103_ordered C103_pushes_back C103_running C103_motor", "For every arithmetic that is correctly rounded in the sense of Spec/Round (monotone rounding, 0 exact, overflow to infinities, NaN); double precision (`Full`) and exact rationals are proved to be instances. The joint's parameters, position and velocity are finite; the command is anything. A NaN command passes (C29). C103_motor is for simple transmissions.")
claim("C104", "proved", "C104_init C104_sizes C104_chain C104_distinct C104_driven C104_unparsed C104_pr2 C104_pr2_shipped", "kdl_parser and KDL's numbering of joints are modelled by their documented algorithm (children in the order of their joints' names, movable joints numbered in the order in which they are added). C104_unparsed shows that a description the parser refuses is not reported (finding 14).")
claim("C105", "proved", "C105_provider_loaded C105_providers_loaded C105_provider_alive C105_order_before C105_order_after C105_provider_may_be_stopped C105_unscheduled_dangles", "C105_provider_may_be_stopped and C105_unscheduled_dangles delimit the claim. A plugin's use of the pointer in its destructor is not covered (destructors are not modelled), nor is getController called outside init.")
claim("C106", "proved", "C106_safe_stopped C106_safe_silent C106_true_means_done C106_returns C106_order_matters C106_false_may_be_done", "C106_order_matters and C106_false_may_be_done delimit the claim (finding 2, 30). Destructors of the manager itself are not modelled.")
claim("C107", "proved", "C107_reset_safe C107_silent C107_busy_counterexample C107_uninitialised_counterexample", "The simulated clock stands still during a simulation step (the motors' stamps and the publication read the same time) and is otherwise arbitrary. ros::Time(double) is external: it throws outside 32 bits of seconds. The last two theorems are the exceptions named in the statement. That each transmission stamps its motors with this clock is C64.")
claim("C108", "proved", "C108_report C108_odometer_monotone C108_odometer_nan C108_odometer_error C108_odometer_double C108_glitch C108_running", "For any IEEE-like arithmetic with correctly rounded sums (`IeeeSum`; instance `B64`, double precision with infinities and NaN), the error bound for any `IeeeArith` (instance `Dbl`). Positions inside the first cycle are as in C35. C90 relates the histories to the running system.")
claim("C109", "proved", "C109_memoryless C109_memoryless_effort C109_undamped C109_belt_never_recovers C109_belt_motor", "For any `IeeeArith` (a result is finite only if the operands are); examples over rationals with NaN, which can be evaluated. C98 gives the joint of a simple or wrist transmission in every cycle as a function of that cycle's readings. Hypotheses as in C98: a loaded description, plugins that leave readings and wiring alone, hardware that reports anything.")
claim("C110", "proved", "C110_damping C110_effort", "Over any ordered field with exact constants (`ExactLit`). Hypotheses as in C98 (loaded description, plugins that leave readings and wiring alone, hardware that reports anything), the robot state newly built, non-negative damping constant and bandwidth. Strengthens C46_bounded (constant sampling time, one transmission) to the running system and any sampling times.")
claim("C111", "proved", "C111_simple C111_wrist C111_gripper_cycle C111_gripper C111_pr2_gripper C111_gripper_unbounded C111_pr2_motors C111_pr2_double", "C111_simple and C111_wrist for any IeeeArith (rounding, NaN); a NaN command is not excluded, the bound is about finite efforts. Grippers in real numbers, in regular positions of the linkage; `C111_gripper_unbounded` shows that the restriction is needed. Hypotheses as in C98. Belts: C110. C111_pr2_motors: the 30 motors of the shipped description other than the grippers', each with a number (the table is checked against the file by the kernel), in any arithmetic precise to one part in a million; C111_pr2_double: in binary64.")
claim("C112", "proved", "C112_sequential C112_realtime C112_included", "x86-TSO with one buffer for the realtime thread and one for the (serialised) service threads, as C79; program order kept by the compiler, ros::ok() true. `Fires` names the instructions of C79's machine (`Fires.step`, `Step.fires`). Which objects a list refers to is arbitrary; ownership of controller objects (`Act.Owned`) is the assumption about allocation and shared pointers. The realtime thread loads objects too; loads of controller objects by service threads (the isRunning test of unload and list) are not among the instructions: they race with the realtime thread even without buffers (C12, C20).")
claim("C113", "proved", "C113_stays_inside C113_hard C113_speed C113_attained C113_robot C113_simple C113_pr2 carried_of_motion", "The mechanics is a hypothesis: the joint (or the motor) is an inertia that moves under the effort sent and a load of bounded size; `carried_of_motion` shows over the reals that every differentiable motion with such a load satisfies it. The load may be any function of time, so gravity, friction, contact, coupling to other joints and rounding of the efforts can all be counted in. Conditions on inertia, gains and cycle as in C93/C99 (`Withstands`). Joints of simple transmissions; plugins write no hardware readings (`PlantIn.Mannered`).")
claim("C114", "proved", "C114_comes_back C114_slows_down C114_robot C114_simple", "Mechanics, load and reading errors are hypotheses as in C113 (`Carried`, `Withstands`; `carried_of_motion`). Archimedean ordered fields. In addition to C113 the velocity limit must leave some room above velocity error + load / velocity gain. The number of cycles is uniform: it depends on the description, the bounds, where the joint begins and the margin only.")
claim("C115", "proved", "C115_stays_inside C115_speed C115_robot C115_double", "Mechanics, load and reading errors are hypotheses as in C113. The arithmetic is any with correctly rounded results (`IeeeRound`) whose rounding errors are bounded (`RoundsTo`); C115_double proves this of double precision with gradual underflow, overflow, infinities and NaN. A command that is NaN passes the limiter (C29_nan_passes) and is excluded. Rounding in the transmissions counts as reading error and load. That the described gains and limits are real numbers is a hypothesis (`Describes`); they are the doubles that have been read.")
claim("C116", "proved", "C116_simple C116_double", "As C115; here the rounding of the transmission's two divisions and one addition is computed, not assumed (`Conveys`). C115_double and C116_double prove the assumptions about the arithmetic for double precision. Simple transmissions only. The described reduction, gains and limits are the finite numbers that the parser has read. NaN commands are excluded (C29_nan_passes).")
claim("C117", "proved", "C117_flex C117_roll", "Mechanics, load and reading errors are hypotheses as in C113, at both motors; the motors are balanced as in C98 (the same inertia as seen from the joints). Exact arithmetic over any ordered field.")
claim("C118", "proved", "C118_flex C118_roll", "Mechanics, loads and reading errors are hypotheses as in C113 and C117. Exact arithmetic over any archimedean ordered field.")
claim("C119", "proved", "C119_accuracy C119_comes_back C119_robot", "Rounding as in C115: any monotone rounding with relative error u and absolute error η up to B (RoundsTo; C115_double: double precision with gradual underflow is one). `Accurate` is a condition on the description's parameters and the precision only, not on where the joint is. Mechanics, load and reading errors are hypotheses as in C113; commands are not NaN.")
claim("C120", "proved", "C120_gripper C120_robot C120_machine C120_nan_command C120_nan_reading", "Comparisons and negation are IEEE 754's (IeeeLike), zero and the literals 1 and 1e-5 have their values or a positive one; +, -, *, /, sin and cos are arbitrary functions. Two libraries (SameInDomain) may differ on acos/asin outside [-1,1] and on sqrt of NaN, of zero and of negative numbers. The constructor of the belt's description (`sqrt(trans_compl * trans_mass)`) is outside: it takes the root of whatever the description says. Second half (NanFlows, IeeeArith): finding 39.")
claim("C121", "proved", "C121_fresh C121_cycle_ends C121_switch_soon C121_calls_return", "C100 for the whole machine (sweeps, limits, publishing, plugins), not only its concurrency skeleton. As in C84, the robot is well-described (RtData.Good), the hardware reports its actuators and plugins only change values (Tame). N bounds the controllers in either list, R those named in a pending switch.")
claim("C122", "proved", "C122_contained C122_joints", "Two executions of the Plant model side by side (TwinRun), same services, clocks and publisher locks; readings differ in the motors A except for the halt flag, plugins may do different things to the joints J and motors A (and to the transmissions between them), the same elsewhere. Robot well-described, every transmission has all or none of its motors in A and joints in J. Twins' condition on plugins is met by controllers that find their joints by name and read none of J (C126_controller; example in Props/Isolation.lean). The halt flag is excepted because one halted motor restarts all controllers (example haltIn).")
claim("C123", "proved", "C123_order C123_joints C123_controller C123_made C123_description", "Two executions of the Plant model side by side (TwinRun), same services, readings, clocks and locks; robots Reordered: the same transmissions with the same motors and joint states, in any order, joint states numbered accordingly. C123_made: the constructor makes such states from permuted lists of transmissions (uninitialised memory of a joint's statistics is assumed to depend on the joint only). C123_description: Robot::initXml on permuted transmission elements enables the same motors and gives permuted transmissions, whatever else is in the description and whichever elements are dropped. Plugins must not depend on the numbering; C123_controller: those that use getJointState by name do not. No motor or joint may have two transmissions: with two on one motor the later one wins (last example).")
claim("C124", "proved", "C124_loop C124_publishing C124_controller", "controlLoop is a separate specification of the plain control loop without services, locks, publishers: it is compared with every execution of the Plant model, with all services and publishing. ctlOf: readings and plugin calls of the execution, in order (plugin calls are read off the manager's history). Plugins must not look at joint statistics (Blind): one that does notices when a statistics message resets them (last example). C124_controller: a controller that finds its joints by name is Blind if its law does not look at statistics. Alive machine: C84_survives.")
claim("C125", "proved", "C125_loop C125_machine C125_controller C125_apart C125_several", "Independent: neither plugin writes a joint that the other reads or writes (each may read all actuators). Shuffled: the same readings and plugin calls but for adjacent swaps of independent calls, any number of them. C125_controller, C125_apart: controllers that find their joints by name are independent if neither writes a joint the other reads or writes. No plugin may renumber the joints (KeepsMap). Two executions of the whole machine (C124), with different schedules, names, services, publishing. Plugins must not look at joint statistics (Blind). For controllers of one joint the order does matter (last example: the last one wins).")
claim("C126", "proved", "C126_loop C126_isolated C126_controller C126_outsider C126_several", "Alongside: the events (readings, plugin calls, sends) of two executions of the whole machine match, except that readings of motors A may differ and that calls which do nothing but to joints J and motors A (OnlyTouches; they may read anything) may be added on either side anywhere; matched calls must do the same to what is outside A and J (AgreeOff, C122); C126_controller: so does a controller that finds its joints by name and reads none of J; C126_outsider: one that writes a joint of J, found by name, only touches J, whatever it reads. No transmission reaches from A and J to other motors or joints. Different services, schedules and publishing on both sides. Plugins must not look at joint statistics (Blind). C122 compares executions with the same services and call order; here they may differ.")
