{"claims": [
 {"property": "C01", "status": "proved", "theorems": ["Pr2.C01_schedule_perm"], "note": ""},
 {"property": "C02", "status": "proved", "theorems": ["Pr2.C02_schedule_honours_requests"], "note": ""},
 {"property": "C03", "status": "proved", "theorems": ["Pr2.C03_schedule_iff_satisfiable"], "note": ""},
 {"property": "C04", "status": "proved", "theorems": ["Pr2.C04_schedule_lex_least", "Pr2.C04_schedule_order_independent"], "note": ""},
 {"property": "C05", "status": "proved", "theorems": ["Pr2.C05_schedule_in_bounds", "Pr2.C05_round_removes_one"], "note": ""},
 {"property": "C06", "status": "proved", "theorems": ["Pr2.C06_update_between_starting_and_stopping", "Pr2.C06_no_start_stop_before_init", "Pr2.C06_update_request_honoured_iff"], "note": ""},
 {"property": "C07", "status": "proved", "theorems": ["Pr2.C07_init_succeeds_at_most_once", "Pr2.C07_start_stop_accepted_iff_initialised", "Pr2.C07_second_init_refused"], "note": ""},
 {"property": "C08", "status": "proved", "theorems": ["Pr2.C08_dependency_recorded_iff", "Pr2.C08_init_records_only_loaded"], "note": ""},
 {"property": "C09", "status": "proved", "theorems": ["Pr2.C09_names_distinct", "Pr2.C09_objects_distinct"], "note": "over every interleaving of service calls and realtime steps"},
 {"property": "C10", "status": "proved", "theorems": ["Pr2.C10_failed_load_changes_nothing"], "note": ""},
 {"property": "C100", "status": "proved", "theorems": ["Pr2.C100_wait_free", "Pr2.C100_switch_soon", "Pr2.C100_switch_returns", "Pr2.C100_load_soon", "Pr2.C100_bound_attained"], "note": "Steps are those of the model's realtime thread: one per controller called, per shared variable read or written, per message entry (what a plugin does inside a call, and the loops over the robot's own joints and motors, are not counted)."},
 {"property": "C101", "status": "proved", "theorems": ["Pr2.C101_init", "Pr2.C101_path", "Pr2.C101_reverse", "Pr2.C101_driven", "Pr2.C101_sizes", "Pr2.C101_failed_reinit", "Pr2.C101_pr2", "Pr2.C101_pr2_shipped"], "note": "Chain::init against the kinematic tree of the robot description itself (XML), instead of against an abstract KDL chain as in C52. kdl_parser and KDL::Tree::getChain are external; their documented algorithm (walk both links up to the root, strip the common part) is modelled and proved to find exactly the unique simple path. C101_failed_reinit is finding 26."},
 {"property": "C102", "status": "proved", "theorems": ["Pr2.C102_level", "Pr2.C102_extremes", "Pr2.C102_controller"], "note": "Composition of the running system (C84, C85, C89, C90) with the diagnostics node (C55-C58) through an unreliable topic. C102_extremes is for exact arithmetic, C102_level for any IEEE-like arithmetic. The controllers' durations are rounded when the message is filled; only names, run flags, overrun counts and times are compared. \"Limits Hit\" reflects only the last message (finding 28), \"Min Position\" is wrong (C56, counterexample there)."},
 {"property": "C103", "status": "proved", "theorems": ["Pr2.C103_ordered", "Pr2.C103_pushes_back", "Pr2.C103_running", "Pr2.C103_motor"], "note": "For every arithmetic that is correctly rounded in the sense of Spec/Round (monotone rounding, 0 exact, overflow to infinities, NaN); double precision (`Full`) and exact rationals are proved to be instances. The joint's parameters, position and velocity are finite; the command is anything. A NaN command passes (C29). C103_motor is for simple transmissions."},
 {"property": "C104", "status": "proved", "theorems": ["Pr2.C104_init", "Pr2.C104_sizes", "Pr2.C104_chain", "Pr2.C104_distinct", "Pr2.C104_driven", "Pr2.C104_unparsed", "Pr2.C104_pr2", "Pr2.C104_pr2_shipped"], "note": "kdl_parser and KDL's numbering of joints are modelled by their documented algorithm (children in the order of their joints' names, movable joints numbered in the order in which they are added). C104_unparsed shows that a description the parser refuses is not reported (finding 14)."},
 {"property": "C105", "status": "proved", "theorems": ["Pr2.C105_provider_loaded", "Pr2.C105_providers_loaded", "Pr2.C105_provider_alive", "Pr2.C105_order_before", "Pr2.C105_order_after", "Pr2.C105_provider_may_be_stopped", "Pr2.C105_unscheduled_dangles"], "note": "C105_provider_may_be_stopped and C105_unscheduled_dangles delimit the claim. A plugin's use of the pointer in its destructor is not covered (destructors are not modelled), nor is getController called outside init."},
 {"property": "C106", "status": "proved", "theorems": ["Pr2.C106_safe_stopped", "Pr2.C106_safe_silent", "Pr2.C106_true_means_done", "Pr2.C106_returns", "Pr2.C106_order_matters", "Pr2.C106_false_may_be_done"], "note": "C106_order_matters and C106_false_may_be_done delimit the claim (finding 2, 30). Destructors of the manager itself are not modelled."},
 {"property": "C107", "status": "proved", "theorems": ["Pr2.C107_reset_safe", "Pr2.C107_silent", "Pr2.C107_busy_counterexample", "Pr2.C107_uninitialised_counterexample"], "note": "The simulated clock stands still during a simulation step (the motors' stamps and the publication read the same time) and is otherwise arbitrary. ros::Time(double) is external: it throws outside 32 bits of seconds. The last two theorems are the exceptions named in the statement. That each transmission stamps its motors with this clock is C64."},
 {"property": "C108", "status": "proved", "theorems": ["Pr2.C108_report", "Pr2.C108_odometer_monotone", "Pr2.C108_odometer_nan", "Pr2.C108_odometer_error", "Pr2.C108_odometer_double", "Pr2.C108_glitch", "Pr2.C108_running"], "note": "For any IEEE-like arithmetic with correctly rounded sums (`IeeeSum`; instance `B64`, double precision with infinities and NaN), the error bound for any `IeeeArith` (instance `Dbl`). Positions inside the first cycle are as in C35. C90 relates the histories to the running system."},
 {"property": "C109", "status": "proved", "theorems": ["Pr2.C109_memoryless", "Pr2.C109_memoryless_effort", "Pr2.C109_undamped", "Pr2.C109_belt_never_recovers", "Pr2.C109_belt_motor"], "note": "For any `IeeeArith` (a result is finite only if the operands are); examples over rationals with NaN, which can be evaluated. C98 gives the joint of a simple or wrist transmission in every cycle as a function of that cycle's readings. Hypotheses as in C98: a loaded description, plugins that leave readings and wiring alone, hardware that reports anything."},
 {"property": "C11", "status": "proved", "theorems": ["Pr2.C11_load_succeeds_iff", "Pr2.C11_successful_load_adds_one", "Pr2.manager_history"], "note": ""},
 {"property": "C110", "status": "proved", "theorems": ["Pr2.C110_damping", "Pr2.C110_effort"], "note": "Over any ordered field with exact constants (`ExactLit`). Hypotheses as in C98 (loaded description, plugins that leave readings and wiring alone, hardware that reports anything), the robot state newly built, non-negative damping constant and bandwidth. Strengthens C46_bounded (constant sampling time, one transmission) to the running system and any sampling times."},
 {"property": "C111", "status": "proved", "theorems": ["Pr2.C111_simple", "Pr2.C111_wrist", "Pr2.C111_gripper_cycle", "Pr2.C111_gripper", "Pr2.C111_pr2_gripper", "Pr2.C111_gripper_unbounded", "Pr2.C111_pr2_motors", "Pr2.C111_pr2_double"], "note": "C111_simple and C111_wrist for any IeeeArith (rounding, NaN); a NaN command is not excluded, the bound is about finite efforts. Grippers in real numbers, in regular positions of the linkage; `C111_gripper_unbounded` shows that the restriction is needed. Hypotheses as in C98. Belts: C110. C111_pr2_motors: the 30 motors of the shipped description other than the grippers', each with a number (the table is checked against the file by the kernel), in any arithmetic precise to one part in a million; C111_pr2_double: in binary64."},
 {"property": "C112", "status": "proved", "theorems": ["Pr2.C112_sequential", "Pr2.C112_realtime", "Pr2.C112_included"], "note": "x86-TSO with one buffer for the realtime thread and one for the (serialised) service threads, as C79; program order kept by the compiler, ros::ok() true. `Fires` names the instructions of C79's machine (`Fires.step`, `Step.fires`). Which objects a list refers to is arbitrary; ownership of controller objects (`Act.Owned`) is the assumption about allocation and shared pointers. The realtime thread loads objects too; loads of controller objects by service threads (the isRunning test of unload and list) are not among the instructions: they race with the realtime thread even without buffers (C12, C20)."},
 {"property": "C113", "status": "proved", "theorems": ["Pr2.C113_stays_inside", "Pr2.C113_hard", "Pr2.C113_speed", "Pr2.C113_attained", "Pr2.C113_robot", "Pr2.C113_simple", "Pr2.C113_pr2", "Pr2.carried_of_motion"], "note": "The mechanics is a hypothesis: the joint (or the motor) is an inertia that moves under the effort sent and a load of bounded size; `carried_of_motion` shows over the reals that every differentiable motion with such a load satisfies it. The load may be any function of time, so gravity, friction, contact, coupling to other joints and rounding of the efforts can all be counted in. Conditions on inertia, gains and cycle as in C93/C99 (`Withstands`). Joints of simple transmissions; plugins write no hardware readings (`PlantIn.Mannered`)."},
 {"property": "C114", "status": "proved", "theorems": ["Pr2.C114_comes_back", "Pr2.C114_slows_down", "Pr2.C114_robot", "Pr2.C114_simple"], "note": "Mechanics, load and reading errors are hypotheses as in C113 (`Carried`, `Withstands`; `carried_of_motion`). Archimedean ordered fields. In addition to C113 the velocity limit must leave some room above velocity error + load / velocity gain. The number of cycles is uniform: it depends on the description, the bounds, where the joint begins and the margin only."},
 {"property": "C115", "status": "proved", "theorems": ["Pr2.C115_stays_inside", "Pr2.C115_speed", "Pr2.C115_robot", "Pr2.C115_double"], "note": "Mechanics, load and reading errors are hypotheses as in C113. The arithmetic is any with correctly rounded results (`IeeeRound`) whose rounding errors are bounded (`RoundsTo`); C115_double proves this of double precision with gradual underflow, overflow, infinities and NaN. A command that is NaN passes the limiter (C29_nan_passes) and is excluded. Rounding in the transmissions counts as reading error and load. That the described gains and limits are real numbers is a hypothesis (`Describes`); they are the doubles that have been read."},
 {"property": "C116", "status": "proved", "theorems": ["Pr2.C116_simple", "Pr2.C116_double"], "note": "As C115; here the rounding of the transmission's two divisions and one addition is computed, not assumed (`Conveys`). C115_double and C116_double prove the assumptions about the arithmetic for double precision. Simple transmissions only. The described reduction, gains and limits are the finite numbers that the parser has read. NaN commands are excluded (C29_nan_passes)."},
 {"property": "C117", "status": "proved", "theorems": ["Pr2.C117_flex", "Pr2.C117_roll"], "note": "Mechanics, load and reading errors are hypotheses as in C113, at both motors; the motors are balanced as in C98 (the same inertia as seen from the joints). Exact arithmetic over any ordered field."},
 {"property": "C118", "status": "proved", "theorems": ["Pr2.C118_flex", "Pr2.C118_roll"], "note": "Mechanics, loads and reading errors are hypotheses as in C113 and C117. Exact arithmetic over any archimedean ordered field."},
 {"property": "C119", "status": "proved", "theorems": ["Pr2.C119_accuracy", "Pr2.C119_comes_back", "Pr2.C119_robot"], "note": "Rounding as in C115: any monotone rounding with relative error u and absolute error \u03b7 up to B (RoundsTo; C115_double: double precision with gradual underflow is one). `Accurate` is a condition on the description's parameters and the precision only, not on where the joint is. Mechanics, load and reading errors are hypotheses as in C113; commands are not NaN."},
 {"property": "C12", "status": "partial", "theorems": ["Pr2.C12_unload_partial", "Pr2.C12_unload_without_reenabling", "Pr2.C12_unload_always", "Pr2.C12_unload_race_counterexample"], "note": "false in one situation, which is proved: unload racing with the restart after motors are re-enabled removes a running controller"},
 {"property": "C120", "status": "proved", "theorems": ["Pr2.C120_gripper", "Pr2.C120_robot", "Pr2.C120_machine", "Pr2.C120_nan_command", "Pr2.C120_nan_reading"], "note": "Comparisons and negation are IEEE 754's (IeeeLike), zero and the literals 1 and 1e-5 have their values or a positive one; +, -, *, /, sin and cos are arbitrary functions. Two libraries (SameInDomain) may differ on acos/asin outside [-1,1] and on sqrt of NaN, of zero and of negative numbers. The constructor of the belt's description (`sqrt(trans_compl * trans_mass)`) is outside: it takes the root of whatever the description says. Second half (NanFlows, IeeeArith): finding 39."},
 {"property": "C121", "status": "proved", "theorems": ["Pr2.C121_fresh", "Pr2.C121_cycle_ends", "Pr2.C121_switch_soon", "Pr2.C121_calls_return"], "note": "C100 for the whole machine (sweeps, limits, publishing, plugins), not only its concurrency skeleton. As in C84, the robot is well-described (RtData.Good), the hardware reports its actuators and plugins only change values (Tame). N bounds the controllers in either list, R those named in a pending switch."},
 {"property": "C122", "status": "proved", "theorems": ["Pr2.C122_contained", "Pr2.C122_joints"], "note": "Two executions of the Plant model side by side (TwinRun), same services, clocks and publisher locks; readings differ in the motors A except for the halt flag, plugins may do different things to the joints J and motors A (and to the transmissions between them), the same elsewhere. Robot well-described, every transmission has all or none of its motors in A and joints in J. Twins' condition on plugins is met by controllers that find their joints by name and read none of J (C126_controller; example in Props/Isolation.lean). The halt flag is excepted because one halted motor restarts all controllers (example haltIn)."},
 {"property": "C123", "status": "proved", "theorems": ["Pr2.C123_order", "Pr2.C123_joints", "Pr2.C123_controller", "Pr2.C123_made", "Pr2.C123_description"], "note": "Two executions of the Plant model side by side (TwinRun), same services, readings, clocks and locks; robots Reordered: the same transmissions with the same motors and joint states, in any order, joint states numbered accordingly. C123_made: the constructor makes such states from permuted lists of transmissions (uninitialised memory of a joint's statistics is assumed to depend on the joint only). C123_description: Robot::initXml on permuted transmission elements enables the same motors and gives permuted transmissions, whatever else is in the description and whichever elements are dropped. Plugins must not depend on the numbering; C123_controller: those that use getJointState by name do not. No motor or joint may have two transmissions: with two on one motor the later one wins (last example)."},
 {"property": "C124", "status": "proved", "theorems": ["Pr2.C124_loop", "Pr2.C124_publishing", "Pr2.C124_controller"], "note": "controlLoop is a separate specification of the plain control loop without services, locks, publishers: it is compared with every execution of the Plant model, with all services and publishing. ctlOf: readings and plugin calls of the execution, in order (plugin calls are read off the manager's history). Plugins must not look at joint statistics (Blind): one that does notices when a statistics message resets them (last example). C124_controller: a controller that finds its joints by name is Blind if its law does not look at statistics. Alive machine: C84_survives."},
 {"property": "C125", "status": "proved", "theorems": ["Pr2.C125_loop", "Pr2.C125_machine", "Pr2.C125_controller", "Pr2.C125_apart", "Pr2.C125_several"], "note": "Independent: neither plugin writes a joint that the other reads or writes (each may read all actuators). Shuffled: the same readings and plugin calls but for adjacent swaps of independent calls, any number of them. C125_controller, C125_apart: controllers that find their joints by name are independent if neither writes a joint the other reads or writes. No plugin may renumber the joints (KeepsMap). Two executions of the whole machine (C124), with different schedules, names, services, publishing. Plugins must not look at joint statistics (Blind). For controllers of one joint the order does matter (last example: the last one wins)."},
 {"property": "C126", "status": "proved", "theorems": ["Pr2.C126_loop", "Pr2.C126_isolated", "Pr2.C126_controller", "Pr2.C126_outsider", "Pr2.C126_several"], "note": "Alongside: the events (readings, plugin calls, sends) of two executions of the whole machine match, except that readings of motors A may differ and that calls which do nothing but to joints J and motors A (OnlyTouches; they may read anything) may be added on either side anywhere; matched calls must do the same to what is outside A and J (AgreeOff, C122); C126_controller: so does a controller that finds its joints by name and reads none of J; C126_outsider: one that writes a joint of J, found by name, only touches J, whatever it reads. No transmission reaches from A and J to other motors or joints. Different services, schedules and publishing on both sides. Plugins must not look at joint statistics (Blind). C122 compares executions with the same services and call order; here they may differ."},
 {"property": "C13", "status": "proved", "theorems": ["Pr2.C13_dependencies_loaded", "Pr2.C13_order_valid"], "note": ""},
 {"property": "C14", "status": "proved", "theorems": ["Pr2.C14_strict_all_or_nothing", "Pr2.C14_refused_only_if"], "note": ""},
 {"property": "C15", "status": "proved", "theorems": ["Pr2.C15_switch_effect", "Pr2.C17_log_is_cycles"], "note": ""},
 {"property": "C16", "status": "proved", "theorems": ["Pr2.C16_no_undefined_behaviour", "Pr2.C16_realtime_list_stable", "Pr2.C16_startup_race_counterexample", "Pr2.C16_shutdown_counterexample"], "note": "the two provisos of the property are shown necessary"},
 {"property": "C17", "status": "proved", "theorems": ["Pr2.C17_log_is_cycles", "Pr2.C17_log_prefix"], "note": ""},
 {"property": "C18", "status": "proved", "theorems": ["Pr2.C18_cycle_order", "Pr2.C17_log_is_cycles"], "note": ""},
 {"property": "C19", "status": "proved", "theorems": ["Pr2.C17_log_is_cycles", "Pr2.C17_log_prefix"], "note": ""},
 {"property": "C20", "status": "partial", "theorems": ["Pr2.C20_list_partial", "Pr2.C20_list_without_reenabling", "Pr2.C20_list_always", "Pr2.C20_listing_complete", "Pr2.C20_list_race_counterexample"], "note": "false while the realtime loop restarts controllers: a running one may be reported stopped (proved)"},
 {"property": "C21", "status": "proved", "theorems": ["Pr2.C21_published_aligned", "Pr2.C16_no_undefined_behaviour"], "note": ""},
 {"property": "C22", "status": "partial", "theorems": ["Pr2.C22_reload_without_force", "Pr2.C22_reload_force_partial", "Pr2.C22_reload_force_never_succeeds"], "note": "the force_kill part is false: proved that with assertions enabled it never succeeds when a controller is loaded (aborts, or fails leaving all stopped); proved what does happen"},
 {"property": "C23", "status": "partial", "theorems": ["Pr2.C15_switch_effect", "Pr2.C23_shutdown_counterexample"], "note": "proved while ROS is up; during shutdown it is false (proved)"},
 {"property": "C24", "status": "proved", "theorems": ["Pr2.C24_calls_finish", "Pr2.C24_cycles_end", "Pr2.C24_first_wait_free", "Pr2.C24_second_wait_one_cycle", "Pr2.C24_shutdown_lock_counterexample"], "note": "fairness: both threads keep being scheduled and the publisher lock is not missed for ever; the proviso that ROS is up is shown necessary"},
 {"property": "C25", "status": "proved", "theorems": ["Pr2.C25_publishing", "Pr2.C25_catch_up", "Pr2.C25_after_publishing", "Pr2.C25_zero_period_hangs", "Pr2.C25_period_positive", "Pr2.catchUp_adequate", "Pr2.C25_in_range", "Pr2.C25_until_2106", "Pr2.C25_catch_up_time", "Pr2.C25_jump_stalls", "Pr2.C25_end_of_time"], "note": "the period computation is in exact arithmetic; C25_jump_stalls and C25_end_of_time delimit the claim (finding 31)"},
 {"property": "C26", "status": "proved", "theorems": ["Pr2.C26_overruns", "Pr2.C26_fresh"], "note": "the counter is the 32 bit counter of the code"},
 {"property": "C27", "status": "proved", "theorems": ["Pr2.C27_no_leak", "Pr2.C27_same_commands", "Pr2.C27_untouched"], "note": ""},
 {"property": "C28", "status": "proved", "theorems": ["Pr2.C28_limited", "Pr2.C28_always_limited", "Pr2.C28_simple_motor", "Pr2.C28_wrist_motors"], "note": "for arbitrary results of + - * /; the motor bounds in exact arithmetic"},
 {"property": "C29", "status": "proved", "theorems": ["Pr2.C29_limited_for_any_arithmetic", "Pr2.C29_nan_passes"], "note": "the proviso (not NaN) is shown necessary"},
 {"property": "C30", "status": "proved", "theorems": ["Pr2.C30_bounds_ordered", "Pr2.C30_limited_in_bounds"], "note": ""},
 {"property": "C31", "status": "proved", "theorems": ["Pr2.C31_soft_upper", "Pr2.C31_soft_lower", "Pr2.C31_velocity", "Pr2.C31_full_braking"], "note": ""},
 {"property": "C32", "status": "proved", "theorems": ["Pr2.C32_transparent", "Pr2.C32_only_command", "Pr2.C32_idempotent", "Pr2.C32_monotone"], "note": ""},
 {"property": "C33", "status": "proved", "theorems": ["Pr2.C33_not_position_limited", "Pr2.C33_unprotected"], "note": ""},
 {"property": "C34", "status": "proved", "theorems": ["Pr2.C34_odometer", "Pr2.C34_odometer_monotone"], "note": ""},
 {"property": "C35", "status": "proved", "theorems": ["Pr2.C35_report", "Pr2.C35_first_report", "Pr2.C35_range_counterexample", "Pr2.C35_inverted_counterexample"], "note": "the counterexamples show that the stronger reading (range of the interval alone) is false"},
 {"property": "C36", "status": "proved", "theorems": ["Pr2.C36_violation", "Pr2.C35_first_report"], "note": ""},
 {"property": "C37", "status": "proved", "theorems": ["Pr2.C37_actuator_roundtrip", "Pr2.C37_joint_roundtrip", "Pr2.C37_effort_roundtrip", "Pr2.C37_effort_roundtrip'", "Pr2.C37_screw_effort"], "note": "exact arithmetic; with a simulated screw joint the effort goes to the screw instead"},
 {"property": "C38", "status": "proved", "theorems": ["Pr2.C38_actuator_roundtrip", "Pr2.C38_joint_roundtrip", "Pr2.C38_effort_roundtrip", "Pr2.C38_effort_roundtrip'"], "note": "exact arithmetic"},
 {"property": "C39", "status": "proved", "theorems": ["Pr2.C39_simple_power", "Pr2.C39_wrist_power"], "note": "exact arithmetic"},
 {"property": "C40", "status": "proved", "theorems": ["Pr2.C40_forward", "Pr2.C40_inverse", "Pr2.C40_actuator_roundtrip", "Pr2.C40_joint_roundtrip", "Pr2.linkage_of_mr"], "note": "exact arithmetic; working range = law of cosines with the finger pointing forwards"},
 {"property": "C41", "status": "proved", "theorems": ["Pr2.C41_derivative", "Pr2.C41_reciprocal"], "note": "exact arithmetic"},
 {"property": "C42", "status": "proved", "theorems": ["Pr2.C42_power", "Pr2.C42_command_measured"], "note": "exact arithmetic"},
 {"property": "C43", "status": "proved", "theorems": ["Pr2.C43_forward", "Pr2.C43_backward", "Pr2.C43_backward_motion", "Pr2.C43_forward_zero", "Pr2.C43_backward_zero", "Pr2.C43_division_by_zero"], "note": "stated as independence of the values outside the domains; that the commanded effort is not always a division by a non-zero number is shown by an example"},
 {"property": "C44", "status": "proved", "theorems": ["Pr2.C44_estimator", "Pr2.C44_damping", "Pr2.C44_simulation"], "note": "stated as independence of the value of division by zero"},
 {"property": "C45", "status": "proved", "theorems": ["Pr2.C45_converges"], "note": "exact arithmetic"},
 {"property": "C46", "status": "proved", "theorems": ["Pr2.C46_damping_step", "Pr2.C46_no_oscillation", "Pr2.C46_plain", "Pr2.C46_bounded"], "note": ""},
 {"property": "C47", "status": "proved", "theorems": ["Pr2.C47_rigid"], "note": ""},
 {"property": "C48", "status": "proved", "theorems": ["Pr2.C48_initially_enabled", "Pr2.C48_effort_only_commands", "Pr2.C48_effort_enables", "Pr2.C48_always_enabled", "Pr2.C48_belt_counterexample"], "note": "the counterexample shows that the stronger claim (propagating re-enables a disabled actuator) is false of the belt transmission"},
 {"property": "C49", "status": "proved", "theorems": ["Pr2.C49_never_fails", "Pr2.C49_keeps_exactly", "Pr2.C49_rejects", "Pr2.C49_lookup"], "note": ""},
 {"property": "C50", "status": "proved", "theorems": ["Pr2.C50_joint_states", "Pr2.C50_lookup", "Pr2.C50_lookup_null", "Pr2.C50_wiring", "Pr2.C50_partition"], "note": ""},
 {"property": "C51", "status": "proved", "theorems": ["Pr2.C51_halted"], "note": ""},
 {"property": "C52", "status": "proved", "theorems": ["Pr2.C52_chain_init", "Pr2.C52_chain_init_fails", "Pr2.C52_chain_distinct", "Pr2.C52_tree_init", "Pr2.C52_tree_init_counterexample", "Pr2.C52_reads", "Pr2.C52_calibrated", "Pr2.C52_setEfforts", "Pr2.C52_addEfforts", "Pr2.C52_writes_never_abort", "Pr2.C52_chains_compose"], "note": "a tree whose KDL tree cannot be built initialises with no joints and returns true (counterexample)"},
 {"property": "C53", "status": "proved", "theorems": ["Pr2.C53_limited_rising", "Pr2.C53_limited_falling", "Pr2.C53_continuous"], "note": ""},
 {"property": "C54", "status": "proved", "theorems": ["Pr2.C54_edges", "Pr2.C54_only_calibration", "Pr2.C54_new_motor", "Pr2.C54_located_rising", "Pr2.C54_located_falling", "Pr2.C54_accuracy"], "note": "C54_located_* and C54_accuracy are over exact arithmetic and for joints that are not continuous"},
 {"property": "C55", "status": "proved", "theorems": ["Pr2.C55_level", "Pr2.C55_not_finite", "Pr2.C55_subnormal_counterexample"], "note": "the statement notes the defect: subnormal values are reported as NaN"},
 {"property": "C56", "status": "proved", "theorems": ["Pr2.C56_extremes", "Pr2.C56_uncalibrated", "Pr2.C56_min_counterexample"], "note": "exact comparison; what the minimum is is part of C56_extremes, the counterexample shows that it is not the minimum over the batch"},
 {"property": "C57", "status": "proved", "theorems": ["Pr2.C57_level", "Pr2.C58_published"], "note": "C58_published says that the published status is the one of C57_level"},
 {"property": "C58", "status": "proved", "theorems": ["Pr2.C58_published", "Pr2.C58_stale_controllers_vanish"], "note": ""},
 {"property": "C59", "status": "proved", "theorems": ["Pr2.C59_lookup", "Pr2.C59_add_succeeds_iff_new", "Pr2.C59_never_replaced", "Pr2.C59_add_effect"], "note": ""},
 {"property": "C60", "status": "proved", "theorems": ["Pr2.C60_spawn", "Pr2.C60_spawner_restores", "Pr2.C60_takes_down", "Pr2.C60_takes_all_down", "Pr2.C60_left_running"], "note": "C60_left_running delimits the claim (finding 32)."},
 {"property": "C61", "status": "proved", "theorems": ["Pr2.C61_unspawner_restarts", "Pr2.C61_unspawner_restores", "Pr2.C61_round_stops"], "note": ""},
 {"property": "C62", "status": "proved", "theorems": ["Pr2.C62_kill_one", "Pr2.C62_spawn_one", "Pr2.C62_kill", "Pr2.C62_kill_all", "Pr2.C62_kill_exact", "Pr2.C62_spawn", "Pr2.C62_spawn_all"], "note": ""},
 {"property": "C63", "status": "proved", "theorems": ["Pr2.C63_simulated_belt", "Pr2.C63_estimator_undoes_simulation"], "note": "exact arithmetic"},
 {"property": "C64", "status": "proved", "theorems": ["Pr2.C64_time_stamps", "Pr2.C64_never_backwards", "Pr2.C64_simple_stamp", "Pr2.C64_wrist_stamp", "Pr2.C64_gripper_stamp", "Pr2.C64_belt_stamp", "Pr2.C64_uninitialised_counterexample"], "note": "the proviso is not established by the code: no constructor initialises the flag"},
 {"property": "C65", "status": "proved", "theorems": ["Pr2.C65_robot_never_crashes", "Pr2.C65_complete_never_crashes", "Pr2.C65_crash_counterexample", "Pr2.C65_wrist_crash_counterexample"], "note": ""},
 {"property": "C66", "status": "proved", "theorems": ["Pr2.C66_position_local", "Pr2.C66_effort_local"], "note": ""},
 {"property": "C67", "status": "proved", "theorems": ["Pr2.C67_constructs", "Pr2.C67_ready", "Pr2.C67_position_never_aborts", "Pr2.C67_effort_never_aborts", "Pr2.C67_gripper_without_simulated_joint", "Pr2.C67_gripper_contradiction"], "note": ""},
 {"property": "C68", "status": "proved", "theorems": ["Pr2.C68_statistics", "Pr2.C68_joint_states", "Pr2.C68_quiet"], "note": ""},
 {"property": "C69", "status": "proved", "theorems": ["Pr2.C69_never_fails", "Pr2.C69_init", "Pr2.C69_refuses"], "note": ""},
 {"property": "C70", "status": "proved", "theorems": ["Pr2.C70_same_transmission", "Pr2.C70_wrist_offset_counterexample", "Pr2.C70_wrist_offset_online", "Pr2.C70_new_style_counterexample", "Pr2.C70_belt_counterexample"], "note": "the counterexamples are the defects named in the statement"},
 {"property": "C71", "status": "proved", "theorems": ["Pr2.C71_restore"], "note": "not vacuous from any state: clients_total and the example after it"},
 {"property": "C72", "status": "proved", "theorems": ["Pr2.C72_start_controllers", "Pr2.C72_stop_controller", "Pr2.C72_stop_controllers_counterexample", "Pr2.clients_total"], "note": "the counterexample is the defect named in the statement"},
 {"property": "C73", "status": "proved", "theorems": ["Pr2.C73_switches_exactly_once", "Pr2.C73_switches_in_progress", "Pr2.C17_log_is_cycles", "Pr2.C17_log_prefix"], "note": "normal operation: as for C16, a first cycle has begun and ROS is up"},
 {"property": "C74", "status": "proved", "theorems": ["Pr2.C74_update_between_starting_and_stopping", "Pr2.C74_running_iff_started_last"], "note": ""},
 {"property": "C75", "status": "proved", "theorems": ["Pr2.C75_unloaded_never_called"], "note": ""},
 {"property": "C76", "status": "proved", "theorems": ["Pr2.C76_sequential", "Pr2.C76_contract", "Pr2.C76_survives", "Pr2.C76_exclusive"], "note": "services only; with direct callers list_controllers is not safe, see C78"},
 {"property": "C77", "status": "proved", "theorems": ["Pr2.C77_sequential", "Pr2.C77_exclusive", "Pr2.C77_finishes", "Pr2.C77_answers", "Pr2.C77_cycles"], "note": "fairness assumptions: FairSys in Spec/Threads.lean; busyRun_fair shows a fair execution with four concurrent requests"},
 {"property": "C78", "status": "proved", "theorems": ["Pr2.C78_list_counterexample"], "note": "the counterexample is the defect named in the statement"},
 {"property": "C79", "status": "proved", "theorems": ["Pr2.Tso.C79_tso_lists", "Pr2.Tso.C79_tso_exclusive", "Pr2.Tso.C79_tso_no_late_stores", "Pr2.Tso.C79_needs_store_order"], "note": "x86-TSO; assumes the compiler keeps program order and ros::ok() stays true; C79_needs_store_order is the counterexample for weaker machines"},
 {"property": "C80", "status": "proved", "theorems": ["Pr2.Tso.C80_tso_requests", "Pr2.Tso.C80_tso_switch_done", "Pr2.Tso.C80_tso_switch_once", "Pr2.Tso.C80_needs_store_order"], "note": "as C79"},
 {"property": "C81", "status": "proved", "theorems": ["Pr2.C81_controller_times", "Pr2.C18_cycle_order"], "note": "exact arithmetic; the Boost recurrences are part of the model; that every loaded controller is in the cycle's order is C18_cycle_order"},
 {"property": "C82", "status": "proved", "theorems": ["Pr2.C82_only_own", "Pr2.C82_cleans_up", "Pr2.C82_leaves_at_most_one", "Pr2.C82_leak_counterexample", "Pr2.C82_signalled", "Pr2.C82_signalled_counterexample", "Pr2.spawnS_den", "Pr2.spawnerShutdownS_den"], "note": "the counterexamples are the exceptions named in the statement; that Python goes on after SIGTERM (rospy runs the hook inside its handler and returns) is an assumption on rospy, made only in C82_signalled*"},
 {"property": "C83", "status": "proved", "theorems": ["Pr2.C83_only_own", "Pr2.C83_restarts", "Pr2.C83_left_stopped_counterexample", "Pr2.unspawnerS_den"], "note": "the counterexample is the exception named in the statement"},
 {"property": "C84", "status": "proved", "theorems": ["Pr2.C84_faithful", "Pr2.C84_only_running", "Pr2.C84_every_cycle", "Pr2.C84_survives", "Pr2.C84_limited"], "note": "the interleaving model of C16 and the cycle of C68 in one transition system; plugins are assumed to touch the robot state only when the realtime loop calls them; C84_survives and C84_limited for plugins that keep the structure of the robot"},
 {"property": "C85", "status": "proved", "theorems": ["Pr2.C85_statistics", "Pr2.C85_published"], "note": "in the model of C84; durations are exact, all above the accumulator's initial maximum `low` (the lowest double)"},
 {"property": "C86", "status": "proved", "theorems": ["Pr2.C86_estimator", "Pr2.C86_damping", "Pr2.C86_simulated_effort", "Pr2.C86_simulated_motion"], "note": "over the reals; rounding is not modelled here"},
 {"property": "C87", "status": "proved", "theorems": ["Pr2.C87_init", "Pr2.C87_uncommanded", "Pr2.C87_always", "Pr2.C87_rejected_counterexample"], "note": "C87_uncommanded and C87_always for plugins that leave the motors' commands alone, as the controller interface intends; the counterexample shows why enabling is bounded by the description, not by the loaded transmissions"},
 {"property": "C88", "status": "proved", "theorems": ["Pr2.Tso.C88_tso_calls_finish", "Pr2.Tso.C88_tso_realtime_wait_free", "Pr2.Tso.C88_tso_no_deadlock"], "note": "x86-TSO, liveness; the realtime thread ends its cycle by its own next (at most five) instructions from any state, and every reachable state begins a fair execution; as C79 it assumes that the compiler keeps program order and that ros::ok() stays true; exRun_fair is a concrete fair execution"},
 {"property": "C89", "status": "proved", "theorems": ["Pr2.C89_statistics", "Pr2.C89_joint_states", "Pr2.C89_only_then", "Pr2.C89_readings"], "note": "the clocks and locks are inputs; demo_publishes meets all hypotheses"},
 {"property": "C90", "status": "proved", "theorems": ["Pr2.C90_history", "Pr2.C90_report"], "note": "C90_report in exact arithmetic; the position range may be larger than the cycles' (C35, finding)"},
 {"property": "C91", "status": "proved", "theorems": ["Pr2.C91_simple_motion", "Pr2.C91_wrist_motion", "Pr2.C91_gripper_motion", "Pr2.C91_simple_effort", "Pr2.C91_wrist_effort", "Pr2.C91_gripper_effort", "Pr2.C91_never_aborts"], "note": "over the reals; belts are C47, C63 and C86; the gripper in its working range"},
 {"property": "C92", "status": "proved", "theorems": ["Pr2.C92_simple_roundtrip", "Pr2.C92_simple_effort", "Pr2.C92_simple_motor", "Pr2.C92_wrist_motors", "Pr2.C92_motors", "Pr2.C92_inexact_counterexample"], "note": "for any IeeeArith; instance Dbl (finite binary64) proved; grippers and belts not covered (they use sqrt and trigonometry)"},
 {"property": "C93", "status": "proved", "theorems": ["Pr2.C93_stays_inside", "Pr2.C93_speed", "Pr2.C93_robot", "Pr2.C93_heavy_counterexample", "Pr2.C93_slow_counterexample", "Pr2.C93_weak_counterexample"], "note": "closed loop of the limiter and an ideal inertia (no gravity, friction or other external effort; the mechanics is a hypothesis, not part of the code); exact arithmetic; each of the three conditions on gains, cycle time and effort limit is shown necessary by a counterexample"},
 {"property": "C94", "status": "proved", "theorems": ["Pr2.C94_transmission", "Pr2.C94_robot"], "note": "an equivalence: accepted exactly if described, and with exactly these constants; numbers are read by uninterpreted parsers (atof, lexical_cast, convertDouble)"},
 {"property": "C95", "status": "proved", "theorems": ["Pr2.C95_described", "Pr2.C95_simple_reading", "Pr2.C95_simple_command", "Pr2.C95_wrist_reading", "Pr2.C95_wrist_command", "Pr2.C95_gripper_reading", "Pr2.C95_gripper_rates", "Pr2.C95_gripper_command"], "note": "simple and wrist transmissions in any arithmetic, grippers over the reals; belts are filters (C44-C46, C86)"},
 {"property": "C96", "status": "proved", "theorems": ["Pr2.C96_sensor", "Pr2.C96_first", "Pr2.C96_edges", "Pr2.C96_simple_motor", "Pr2.C96_wrist_motor", "Pr2.C96_succeeds"], "note": "Over the reals for the sensors; any arithmetic for the motors' units.  Assumes that no motor belongs to two transmissions and that the sensor simulators are as their constructor leaves them."},
 {"property": "C97", "status": "proved", "theorems": ["Pr2.C97_comes_back", "Pr2.C97_slows_down", "Pr2.C97_robot", "Pr2.C97_gain_counterexample"], "note": "Exact arithmetic in any Archimedean ordered field; the mechanics (an inertia driven by the sent effort) is a hypothesis, as in C93.  The number of cycles is uniform: it does not depend on commands, calls or the run."},
 {"property": "C98", "status": "proved", "theorems": ["Pr2.C98_simple_cycle", "Pr2.C98_wrist_cycle", "Pr2.C98_simple_inside", "Pr2.C98_simple_returns", "Pr2.C98_flex_inside", "Pr2.C98_flex_returns", "Pr2.C98_roll_inside", "Pr2.C98_roll_returns"], "note": "The two cycle theorems hold for any arithmetic; the others in exact arithmetic over any (Archimedean) ordered field.  Plugins may change commands, calibration flags and reference positions, not measured positions and velocities.  Mechanics (each motor an inertia driven by the effort it is sent) and, for wrists, equal reflected inertias of the two motors are hypotheses.  Grippers and belts are not covered."},
 {"property": "C99", "status": "proved", "theorems": ["Pr2.C99_only_full_names", "Pr2.C99_shipped_ignored", "Pr2.C99_full_names_abort", "Pr2.C99_complete", "Pr2.C99_simple_reading", "Pr2.C99_simple_command", "Pr2.C99_wrist", "Pr2.C99_gripper_reading", "Pr2.C99_gripper_command", "Pr2.C99_survives", "Pr2.C99_inside"], "note": "pluginlib is modelled with exactly the classes of transmission_plugins.xml (no other package declares any).  `pr2Urdf` is generated from /repo/pr2_mechanism_model/pr2.urdf by tools/mkurdf.py (links, gazebo and material elements by tag and name only).  The URDF library's reading of joint elements is a contract (`ReadsUrdf`), decimal number parsing too (`ReadsDecimals`).  C99_inside: exact arithmetic, mechanics as hypothesis, as C98."}
]}
