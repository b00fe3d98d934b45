# Formal model of PR2/pr2_mechanism in Lean 4 — design

Read together with `properties.jsonl` (the English properties) and `MANIFEST.json`
(which theorem proves which property).

## Layout

* `lean/Verif/Model/*.lean` — the model, function by function; every definition cites `/repo` file:lines.
* `lean/Verif/Spec/*.lean` — small, independent specifications (what the English property says).
* `lean/Verif/Lemmas/*.lean` — helper lemmas and invariants.
* `lean/Verif/Props/*.lean` — one file per topic holding the property theorems, named `Cxx_…`, with
  `example`s showing that a concrete non-trivial case meets the hypotheses.
* `seeded/LOG.jsonl` — wrong programs tried against the theorems.

## Trusted base

* Lean 4.33.0 kernel; Mathlib definitions used in statements (ℝ, filters for limits, `List.Perm`, trigonometric functions …).
* Axioms: at most `propext`, `Classical.choice`, `Quot.sound`. None of our own.
* The reading of the C++ (no extraction; the code is never run). What is modelled / not modelled is listed at the end.

## Numerics

C++ `double` code is modelled as Lean functions generic in the number type `F` with plain operator
classes plus a class `FCmp` for the IEEE `<` (a `Bool`). They are instantiated at

* any type satisfying NaN-aware order laws with *arbitrary* `+ - * /` results ("any rounding"): C28, C29;
* a linear ordered field / ℝ (exact arithmetic): all algebraic properties.

Exact-arithmetic theorems say nothing about rounding errors.

## Concurrency

The realtime thread (`update()`) and one non-realtime service thread at a time (services are serialised by
`services_lock_`, calls by `controllers_lock_`) are modelled as a small-step interleaving transition system
with sequentially consistent atomic reads/writes of the shared integers. The C++ uses plain `int`/`bool`
(volatile-free). `Model/Tso.lean` repeats the hand-over protocol (the lists, the request vectors, the four shared variables) on a machine with
x86-TSO store buffers, where the same guarantees hold (C79, C80); compiler reordering and weaker machines are outside the model, and
`C79_needs_store_order`, `C80_needs_store_order` show that the protocol relies on the store order.

## Plan per property

| id | modelled | proof |
|----|----------|-------|
| C01–C05 | `scheduler.cpp` with `std::map` as a key-sorted association list, explicit stale vector | loop invariant; lexicographic minimality by exchange argument |
| C06–C08 | `controller.h` state machine with an event log, `controller_provider.h` | induction over request lists |
| C09–C15, C20, C22 | sequential semantics of every service of `controller_manager.cpp` incl. failure paths | invariant over histories, refinement to an abstract set of controllers |
| C16, C17, C21, C23, C24 | small-step interleaving model of `update` / `loadController` / `unloadController` / `switchController` | inductive invariant over all interleavings; counterexample traces for start-up and shutdown |
| C18, C19, C26–C28 | `ControllerManager::update` as a function of the state, with arbitrary controller behaviour as a parameter | direct + induction over cycles |
| C25 | `publishJointState`/`publishMechanismStatistics` clock logic over integer nanoseconds | induction over calls |
| C29–C36 | `joint.cpp`, generic numbers | order reasoning |
| C37–C39 | simple, wrist transmissions | field algebra |
| C40–C43 | gripper over ℝ with Mathlib's `arccos`, `sqrt`, … | trigonometry, derivatives |
| C44–C47 | belt transmission | recurrences, limits |
| C48–C52 | `robot.cpp`, `chain.cpp`, `tree.cpp`, transmissions' `initXml` | direct / induction over lists |
| C53, C54 | `joint_calibration_simulator.cpp` | direct / induction over calls |
| C55–C58 | `pr2_mechanism_diagnostics` | direct / induction over messages |
| C59 | `hardware_interface.h` maps | induction over additions |
| C60–C62 | `scripts/spawner`, `unspawner`, `pr2_controller_manager` command line as relational programs: every service call may return anything that the *sequential contract* of the service (`CallOk`, itself proved of the concurrent model in C10–C15) allows, and other clients may do arbitrary things in between where the statement says so | induction over the script's loops |
| C63 | belt transmission forwards and backwards through the simulated belt | recurrence, limits |
| C64 | the four simulated-time-stamp code paths (`simulated_actuator_timestamp_initialized_`) | induction over propagation calls |
| C65 | `Robot::initXml` + the four `initXml(elt, robot)` over an abstract XML tree with NULL dereference as an outcome | case analysis along the parser |
| C66, C67 | transmissions as a sum type inside `RobotState`; gather/scatter of actuators and joints | frame lemmas, induction over the list |
| C68, C69 | one whole realtime cycle (read hardware → propagate → controllers → limit → propagate back → publish) | direct + invariant over histories |
| C70 | the four `initXml(elt)` overloads without a robot, compared with the overloads of C65 | case analysis along both parsers |
| C71, C72 | `reload_libraries(…, restore=True)` and the start/stop helpers of the Python module, as relational programs like C60–C62; `clients_total` shows every client program has a run from every state | the unload loop leaves a suffix of the load order; reloading it gives back the same dependencies and order |
| C73–C75 | the interleaving model of C16; the ghost logs of realtime calls and of service calls are related to each other | three more invariants over all interleavings (executed = accepted switches; run flag = last start/stop; removed objects are in no list) |
| C76–C78 | any number of client threads (`Model/Threads.lean`) on top of the interleaving model of C16: service handlers as programs between taking and releasing `services_lock_`, methods under `controllers_lock_`; `SysReach` with or without direct callers | invariants: lock ownership, and "what the handler can still answer is what it could have answered alone from the state it started in"; liveness by mapping a fair execution to a fair execution of the C24 model and induction on handler programs |
| C79, C80 | the accesses of the realtime thread and of the (serialised) service calls to the shared variables, lists, request vectors and controllers on x86-TSO: a FIFO store buffer per thread, drains at any time, arbitrary data | two inductive invariants over all interleavings of instructions and drains; counterexample runs when stores may reach memory out of order |
| C81 | the Boost accumulators of `Statistics` as recurrences over ℝ, the controller rows of `publishMechanismStatistics` | induction over samples; variance recurrence by shifting the mean |
| C82, C83 | spawner and unspawner as processes (`Model/Scripts.lean`): arbitrary replies, killed between any two statements or during a call, then the clean-up with the record as it is; `spawnS_den`, `spawnerShutdownS_den`, `unspawnerS_den` show that the same scripts mean the client programs of C60, C61 | induction over the scripts' traces |
| C84 | manager (interleaving model of C16), robot state, statistics and publishers in one transition system (`Model/Plant.lean`); plugin effects, hardware readings and clocks are inputs of each step | invariant relating the ghost record of each cycle to the manager's log; structure of the robot preserved by every step |
| C85 | as C84, with the accumulators of C81 | invariant: statistics = fold over the ghost timings; every listed controller is timed in the cycle whose message is filled |
| C86 | the belt model of C26, over ℝ | the dynamics stated as equations between old and new values (trapezoidal rule); the implicit steps solved algebraically |
| C87 | the XML model of C48, then the plant of C84 | a compositional bound on what an initialisation enables; invariant of the plant: commands of unconnected motors are those of the start |
| C88 | the store-buffer model of C79/C80, with infinite fair executions (FairExec) | the position inside a call only goes down a rank; a position that settles is contradicted by draining the buffers and one more complete cycle; no dead ends: from any reachable state an explicit run to a resting state is built, then cycles for ever |
| C89 | the plant of C84, with what C68 says of rows | the robot between sending and publishing is the last cycle's; case analysis of the publishing step; invariant for the readings |
| C90 | the plant of C84, with traces (states and actions); history of a joint as events | induction on the trace: the statistics are the fold of the history; then C34-C36 |
| C91 | two robot states on the same transmissions and actuators (`withJoints`); the sweeps of `Model/Robot.lean` | `sweep_local` for both sweeps (transmissions do not interfere), then the round trip of one transmission between two sets of joints |
| C92 | class `IeeeArith` (`Spec/Float.lean`): what round to nearest guarantees for finite results; the model's functions over any such type | error propagation lemmas (`round_step`, `div_bound`), `C28_limited` for the cycle; `Dbl` proves that binary64 with round to nearest is an instance |
| C93 | the joint limiter (Joint), the Plant model of C84, and as a hypothesis the mechanics: an inertia under the commanded effort, constant over a cycle | one-step invariant (distance to the soft limit against velocity) in ordered-field arithmetic, valid for any part of a cycle; induction over cycles; at Plant level the sent efforts are shown to be limiter outputs for the measured state |
| C94 | the loaders of C49 and C65 (Xml, Robot) | a separate relational meaning of an element (first child, attribute, entry per child) for each kind; the loader programs are shown equivalent to it, loops by a fold lemma over the list of entries; the robot by composition with C49 |
| C95 | loader, wiring, sweeps and transmission formulas of C94, C50, C66, C37-C42 | relation of later states; the constants of every transmission are invariant; motors and joints are addressed by name; composition of C94, C50, C66 and the formulas |
| C96 | calibration simulators inside the transmissions (Calib, Transmissions), loaded and wired as in C94, C50, C66 | invariant over all later states that each transmission's sensor simulator belongs to its joint; specification `SensorOf`, `Shows`, `Actuator.edges` (Props/SimCalib) |
| C97 | as C93 | while the joint is unsafe, its velocity falls by a fixed amount per cycle until it moves back at a fixed speed; then the position falls by a fixed amount per cycle; Archimedean bound; afterwards the invariant of C93 for soft limits widened by the margin |
| C98 | as C84, C95, C97 | the run keeps the robot of the description (invariant `Later`), so C95 applies to the first and last sweep of each cycle; the motors' inertia seen from the joint is algebra; then C93 and C97 for the joint |
| C99 | the plugin loader with the declared classes; the file as an XML tree | the file's transmissions are a table of thirty rows (by evaluation); each row describes its transmission (C94), so exactly these load (C49); then C67, C84, C95, C98 |
| C100 | as C24 | a count of the remaining steps falls with every realtime step and is not changed by any other thread's step; the entry into the last position of the cycle leaves no switch pending |
| C101 | description's joint elements as a tree, the algorithm of KDL::Tree::getChain as contract, Chain objects with both members and their history (`Model/Kinematics.lean`) | walks without repeated joints go up and then down; ancestors are unique; both directions of the iff; tree facts of the shipped file by kernel computation |
| C102 | `Plant` executions and `DiagNode` histories joined by receipts: a received message and the step that filled it | prefix of the execution up to each receipt, C90 there, then C56 over the batch; C55 and C57 for the last entry; uniqueness of names |
| C103 | `JState.getLimits`, `enforceLimits` over an abstract arithmetic `IeeeRound`; double precision with infinities as an instance | monotonicity of rounding, sign of rounded products, order of clamped values; monotonicity of round-to-nearest proved for doubles |
| C104 | `Tree::init` from the description: KDL tree, its depth-first numbering, `SegmentMap`, map by number, lookup of the joint states | induction on the tree: the depth-first order is a permutation of the links that contains every path from the root; uniqueness of numbers; lookup lemmas of C50 |
| C105 | The interleaving model of C01–C19 with ghost object identities | invariant: a table that fixes for every object its requests and the objects behind them, respected by both lists, all snapshots and all begun cycles; then C17's structure of the log |
| C106 | The interleaving model with the `shutdown` action, which `Reachable` excludes | an invariant of the states with the realtime loop stopped that every service step and the shutdown keep; a step count for the return; independence of the realtime steps from ros::ok() |
| C107 | `SimRun32`: the transmissions' clocks of C64 and the publishing clock of C25 in the range of `ros::Time`, step by step, with the conversion at line 638 as a partial function | invariant: the start time is at most one period after the last publication; determinism of the run; two computed counterexamples |
| C108 | The statistics code over any arithmetic with `FCmp`; specification of the arithmetic in Spec/Sum and Spec/Float, with double precision as proved instance | induction over the history; an error recurrence for the sum |
| C109 | The transmissions and the Plant model (C84, C98) over any arithmetic with `IeeeArith`; `Fin'`: a real value | non-finite operands propagate through every filter step; an invariant along the list of cycles (`Plant.Chained`: each cycle begins with the transmissions the previous one left) |
| C110 | The Plant model (C84, C98) with the belt's filter; `Plant.MotorSpeed`: readings and their speed | the damping plus kd times the speed is a convex combination of earlier values, for every step width the code allows; induction over the cycles with `Plant.Chained` (C109) |
| C111 | Plant model (C84, C98), described transmissions (C95), rounding (C92), linkage (C40-C43), the shipped file (C99) | C98's cycle theorems and C84_limited with the rounding lemmas of C92; virtual work (C95) for grippers, derivative of the PR2's gap bounded by its constants; a table of bounds for the other 30 motors of the PR2, checked against the file by evaluation in the kernel, with the rounding of decimals |
| C112 | The machine of C79 with named instructions; sequential consistency as 'every store reaches memory before anything else happens' | forward simulation: realtime stores take effect when issued, service stores when they reach memory, delayed instructions of the service thread are executed then; the invariants of C79 and C80 and an ownership invariant show that outstanding stores of the two threads never concern the same word and that the wait loops cannot end too early |
| C113 | The joint limiter and the whole control cycle as in C93, C98 and C99; motion, load and reading errors as hypotheses (`Carried`, `Withstands`) | reduction to C93's one-cycle inequality with speed limit and soft limits moved by overspeed and overshoot; induction over cycles; table of loads checked against the file by evaluation |
| C114 | As C113 | as C97 with inequalities instead of equations: the effort with the load is at most max(-(E - G), k_v (W - v)) for a wanted velocity W that is at most the speed limit + overspeed and, beyond the moved soft limit, negative; the velocity falls until it is negative, stays so, and the position falls until it is safe; then C113's invariant |
| C115 | C113's joint, the limiter in any `IeeeRound` arithmetic | each of the four products of a gain and a difference is within `slack` of the exact one; clamping does not increase distances; so the bounds of the limiter, and the effort sent, are within E of the exact ones; an effort off by E is a load of E; then C113's step with G + E |
| C116 | C98's cycle in any `IeeeRound` arithmetic with bounded rounding of sums | C115's induction with readings that are near only while the joint is safe; the position is within the soft limits, so the motor's position in units of the joint is bounded, so its rounding errors are; the rounding of the effort is a load at the motor |
| C117 | As C113 and C98's wrist | the errors and loads of the motors are combined through the transmission's formulas (`shared`, `sharedLoad`): balanced motors decouple the joints, so the other joint's command drops out and the loads add up; then C113_robot |
| C118 | As C114 and C117 | C117's reduction of the two motors to one loaded joint (`flex_jointCarried`, `roll_jointCarried`), then C114_robot |
| C119 | The limiter of the model over IeeeRound numbers (as C103, C115) | near the limits by error propagation (`gain_near`), far away by monotonicity of rounding: both the computed and the exact value saturate (`gain_high`, `gain_low`); the effort is then within E of one between the exact bounds, which counts as a load (Carried.off), and C114's induction applies to a joint that computes exactly (`ghost`) |
| C120 | Gripper, robot and Plant model over arbitrary operations with two instances of FTrig | the clamps put NaN or [-1,1] into acos/asin (`clampU_inUnit`, `clampS_inUnit`), the floor `tol` and the branch put positive numbers into sqrt (`floor_pos`, `pos_of_lt`); all else is equal by congruence. NaN: followed through both functions; the Jacobian is then zero or NaN and the quotient no finite number |
| C121 | Plant model (C84), wait-freedom (C100) | the machine's steps project to the manager's (`project`), whose measure is that of C100; from the end of a cycle a phase invariant (`Since`): about to begin, begun with today's history before it, or sent |
| C122 | Plant model (C84) | relational invariant of two executions: equal managers, robots that agree outside the sets; sweeps, limits, statistics and publishing preserve it |
| C123 | Plant model (C84), RobotState constructor (C50) | enabling by marks + loop of initXml (Props/OrderXml.lean); states without numbering (`parts`): a sweep maps each part by itself; relational invariant of two executions shared with C122 (Props/Twin.lean) |
| C124 | Plant model (C84) | simulation of each execution by the plain control loop, up to joint statistics, by induction on executions |
| C125 | plain control loop of C124 | independent calls commute exactly; induction on swaps; C124 for the machine |
| C126 | plain control loop of C124, AgreeOff of C122 | a stuttering simulation between two control loops; C124 for the machine |

None of the listed properties is inexpressible.

## Liveness

C24 is a statement about infinite schedules: a schedule is a function `ℕ → event`, fairness says that the realtime
thread and the caller are each scheduled infinitely often (no bound), controllers' callbacks return. The theorem gives
termination of each call; the counterexample shows the shutdown path where the call keeps its mutex for ever.

## Findings (all are theorems unless marked otherwise)

1. Start-up race: a service call that completes before the realtime loop's first cycle modifies a list the first cycle
   then uses (`C16_startup_race_counterexample`).
2. Shutdown fall-through: when `ros::ok()` turns false in the wait loop of load/unload/switch the code goes on as if the
   realtime thread had switched (`C16_shutdown_counterexample`, `C23_shutdown_counterexample`), and `switchController`
   leaves with the lock protocol broken (`C24_shutdown_lock_counterexample`).
3. `reload_controller_libraries` with `force_kill` never succeeds when assertions are enabled (`C22_reload_force_never_succeeds`).
4. A NaN command passes `enforceLimits` unchanged (`C29_nan_passes`).
5. `JointStatistics::reset` swaps minimum and maximum after a reset (`C35_range_counterexample`, `C35_inverted_counterexample`).
6. `JointStats::update` of the diagnostics keeps the wrong minimum (`C56_min_counterexample`).
7. Subnormal numbers are reported as "not finite" (`C55_subnormal_counterexample`).
8. The belt transmission's `propagateEffort` does not re-enable the motor (`C48_belt_counterexample`).
9. The gripper aborts without a simulated joint, and one of its assertions contradicts the parser (`C67_gripper_*`).
10. A missing `mechanicalReduction` in a simple transmission dereferences NULL (`C65_crash_counterexample`).
11. A publish period of 0 hangs the realtime loop (`C25_zero_period_hangs`).
12. `JointCalibrationSimulator`, simulated time-stamp flag: used uninitialised (`C64_uninitialised_counterexample`).
13. Gripper effort computation divides by zero at a reachable position (`C43_division_by_zero`); gripper power is scaled (`C42_power`).
14. `Tree::init` succeeds for a tree without joints, contrary to its comment (`C52_tree_init_counterexample`).
15. The overrun counter is a 32-bit int and wraps in the diagnostics (`C57_level` has the bound in its hypotheses).
16. Unload and list race with the restart after motors are re-enabled (`C12_unload_race_counterexample`, `C20_list_race_counterexample`).
17. Offline parsing (`initXml(elt)`): the wrist's roll joint gets the flex joint's offset (`C70_wrist_offset_counterexample`); new-style
    simple transmissions and belts without actuator name are undefined behaviour (`C70_new_style_counterexample`, `C70_belt_counterexample`).
18. Python `stop_controllers(names)` raises `NameError` (`C72_stop_controllers_counterexample`).
19. `listControllersSrv` calls `getControllerByName` without `controllers_lock_`; a direct `unloadController` of another thread in between makes the
   assertion at controller_manager.cpp:777 fail (`C78_list_counterexample`).
20. The hand-over works on x86-TSO only thanks to the order of stores: where stores may reach memory (or be emitted by the compiler) out of order the realtime
   loop can use an unwritten list or unwritten requests (`C79_needs_store_order`, `C80_needs_store_order`).
21. A spawner killed between the reply to a load call and its bookkeeping (or during the call) leaves that controller loaded (`C82_leak_counterexample`); an unspawner
   killed between a stop call and its bookkeeping leaves the controllers stopped (`C83_left_stopped_counterexample`).
22. A transmission that is rejected after it has enabled its motors (e.g. a wrist whose second actuator lacks `mechanicalReduction`, a belt without `compensator`)
   leaves them enabled although nothing controls them (`C87_rejected_counterexample`).
23. In simulation a gripper reports the *commanded* gap effort as its measured effort, not the effort the simulated joint measures
   (`C91_gripper_motion`, `pr2_gripper_transmission.cpp:638`).
24. (C93) The limiter keeps a joint inside its soft limits only if the safety parameters suit the inertia, the cycle time and the effort limit; nothing checks this. Three proved counterexamples: too heavy (`C93_heavy_counterexample`), cycle too long (`C93_slow_counterexample`: the limiter itself drives the joint out), effort limit too small (`C93_weak_counterexample`).
25. (C99) `Robot::initXml` skips elements whose type does not begin with "pr2" (robot.cpp:83) before it looks for "non-namespaced" (deprecated) names (86-101): none of the declared classes has a short name beginning with "pr2" (`PR2GripperTransmission` is upper case), so that code is dead (`C99_only_full_names`). The shipped `pr2_mechanism_model/pr2.urdf` uses short names: it loads without error and with no transmissions, so no joint can be found (`C99_shipped_ignored`). Given full names it aborts in the first cycle (finding 9; `C99_full_names_abort`). `transmission_plugins.xml` also declares a class `pr2_mechanism_model::GripperTransmission` that does not exist.
26. `Chain::init` on an object already in use is not all-or-nothing (chain.cpp:54-63): when `getChain` fails, `kdl_chain_` has been cleared but `joints_` still holds the old joints, so `toKDL` and `getPositions(JntArray)` disagree about the number of joints and an array sized by the former aborts in the latter (`C101_failed_reinit`).
27. A spawner ended by SIGTERM while it is loading cleans up in the signal handler and then goes on loading (it looks at `rospy.is_shutdown()` only after the loop, spawner:146): what it loads afterwards stays loaded (`C82_signalled_counterexample`).
28. A limit hit is not shown by the diagnostics if another statistics message arrives before the next diagnostics publication: `violated_limits` is overwritten by each message (joint_diagnostics.cpp:160) although the maxima are accumulated; the flag in the statistics is itself reset by each message (`C102_extremes`: Limits Hit is about the last message only).
29. `getController` sets the caller's pointer before it looks at `sched`: with a value other than BEFORE_ME/AFTER_ME it returns false, records no dependency, and leaves a usable pointer to an object nothing keeps alive (`C105_unscheduled_dangles`). And nothing stops a controller from being stopped while its users run on (`C105_provider_may_be_stopped`).
30. After the shutdown the answer of a load may be wrong: if `ros::ok()` turns false between the two tests of the second wait loop (lines 353-354), the load returns false though the new list, with the controller, is already current (`C106_false_may_be_done`); one test earlier or later it returns true.
31. The publishing clocks catch up one period at a time inside the realtime loop: when the clock jumps forward by D (simulated time starting after the manager was constructed, a clock correction, or a publisher lock held for D), one control cycle makes D/period iterations (`C25_catch_up_time`, `C25_jump_stalls`; from 0 to today at 100 Hz: 1.7e11).
32. The spawner stops what it loaded with one STRICT switch: if somebody else has unloaded one of its controllers, the switch is refused as a whole, the following unloads are refused because the controllers run, and they are left running after the spawner has exited (`C60_left_running`).
33. `publishMechanismStatistics` converts an actuator time stamp with `ros::Time(double)` (line 638), which throws on negative values. In a simulation the stamp is negative after the clock was set back below its value in the first step; only because publication is suppressed until the old time has passed does this stay harmless (`C107_reset_safe`), and not if the first message was delayed (`C107_busy_counterexample`) or the uninitialised start flag of finding 12 is set by chance (`C107_uninitialised_counterexample`). The suppression itself (`C107_silent`) means that a simulation reset at time T publishes neither joint states nor statistics for the next T seconds.
34. One NaN position poisons a joint's odometer for ever: `odometer_ += fabs(old_position_ - position_)` (joint.cpp:49) turns NaN, `reset` does not touch it, and no later reading repairs it (`C108_odometer_nan`, `C108_glitch`); minimum, maximum and the effort and velocity maxima recover because `fmin`/`fmax` ignore NaN.
35. One NaN or infinite encoder reading disables a belt joint until the node is restarted: the IIR filters (pr2_belt_transmission.cpp:290-363) keep the value, so the joint's position and velocity are not finite ever after, and the damping filter (:400-412) sends NaN to the motor in every later cycle - after `enforceLimits`, so the effort limit does not help (`C109_belt_never_recovers`, `C109_belt_motor`). There is no reset of the filters in the API.
36. A belt motor can be sent far more than its effort limit, most of all in the first cycle: the filters start at motor position 0 at time 0 (pr2_belt_transmission.cpp:137-144), the time stamps of the hardware start near 0, so a motor standing at x in the first cycle (at 1 ms) counts as having moved at x per millisecond, and the damping `-kd * x / dt` is added after the limits have been enforced. In the example of `C110` the joint's limit is 30 and the motor (reduction 2) is sent -1228.
37. The effort limit of a gripper's gap joint does not bound what its motor is sent: the effort is divided by the Jacobian of the linkage (pr2_gripper_transmission.cpp:707), which inverseGapStates1 does not keep away from zero although computeGapStates does so for its own (lines 451-452 cap the argument of the square root at TOL; the factor sin(theta + phi0 - theta0) of lines 508-509 is not capped). With sensible constants and a gap effort of 1 the motor effort exceeds every bound near the stretched-out position (`C111_gripper_unbounded`). The PR2's own linkage stays away from it (`C111_pr2_gripper`).
38. Soft limits are not held against a load: a joint at rest beyond its soft limit by load / (k_position * k_velocity) is held there by the load although the limiter is working (`C113_attained`). For the PR2's upper arm roll (k_velocity 2, k_position 100) that is half a hundredth of a radian per newton metre; a hard limit closer to the soft limit than that can be run into.
39. A motor position that is not a number makes the gripper's motor command infinite or NaN in the same cycle, whatever effort is commanded and whatever the limits say, with the motor enabled: the branch for a non-positive `arg` sets the Jacobian to zero and the effort is divided by it (`C120_nan_reading`).
40. An unspawner that is ended while it still waits for the services runs its `finally` block with `inhibited` unassigned (scripts/unspawner:46-75: the name is set only after the waits; line 46 sets another, unused one) and ends with an UnboundLocalError. Nothing has been stopped by then, so the controllers are not affected. (Read off the code; not a theorem.)

## What is modelled

* `pr2_controller_manager`: `scheduler.{h,cpp}`, `controller_spec.h`, `controller_manager.{h,cpp}` (all services, the realtime
  `update`, publication, destructor-free), the three client scripts.
* `pr2_controller_interface`: `controller.h`, `controller_provider.h`.
* `pr2_hardware_interface`: the `HardwareInterface` maps (`addActuator`, `getActuator`, … for all component kinds).
* `pr2_mechanism_model`: `joint.{h,cpp}`, `joint_calibration_simulator`, `simple_`, `wrist_`, `pr2_belt_`, `pr2_gripper_transmission`
  (parsing, the four propagate functions), `robot.{h,cpp}`, `chain`, `tree`.
* `pr2_mechanism_diagnostics`: all of it.

## Validation of the model

`Props/RepoTests.lean` replays the project's own unit tests on the model: `test_wrist_transmission.cpp`, `test_joint_calibration_simulator.cpp` (with `robot.xml`), the
controller manager's `test.cpp` (spawning, loading, unloading, strict and best-effort switching, with the launch file's configurations) and `mech_diag_test.py` with its
four launch files. The model gives what the tests expect. The timing tests (`*_hz`) and random bombardments are covered by C25 and by the theorems over all executions
instead; `test_chain.cpp` only loads `pr2.urdf` without motors (see C99).

## What is not modelled, and simplifications

* ROS (publishers, parameter server, `ros::Time::now`) is an environment that returns arbitrary values; `pluginlib` is an arbitrary
  partial function from type names to controllers; only the four transmission plugins of this repository exist.
* URDF parsing: the URDF model is given as a list of joints with their limits; XML is an abstract element tree.
  KDL's `getChain` is a parameter with its documented contract.
* Memory model: interleaving, sequentially consistent, except C79/C80/C88 (x86-TSO, compiler keeps program order, start after the first cycle, `ros::ok()` stays
  true). The C++ has data races on plain ints.
* Client threads (C76–C78): a handler's accesses outside `controllers_lock_` (`getControllerByName`, `isRunning`) are one step each; what a direct call of
  one of the getters returns is not modelled (they change nothing); `switchController`'s unlocked `empty()` check only logs.
* Real arithmetic: exact (see Numerics), except C28, C29, C55 (any IEEE-like comparison) and C92 (rounded operations). `pow(x,2)` is `x*x`. `angles::normalize_angle` is its mathematical contract.
  Time is an unbounded integer count of nanoseconds; `int`→`double` conversions exact.
* Vectors of pointers are modelled by value: the values pointed to are read, the function runs, the results are written back in order.
* `isHalted()` is read twice per cycle in the C++; the model uses one value per cycle.
* Assertions are live (no `NDEBUG`): failing ones are an outcome of the model. A null `joint_` pointer is modelled as failed construction.
* Uninitialised members are arbitrary initial values (`Body.Constructed` states what constructors guarantee).
* Controllers are arbitrary functions of the robot state that keep the robot's structure (`SameRobot`, `Tame`).
* Messages' parallel arrays are one array of records where the C++ resizes all of them together.
* Diagnostics: `std::map` as a key-sorted list; formatting of numbers is not modelled; clock readings are parameters (`PubClock`).
* Logging, `printf`/`ROS_ERROR` text, tests and launch files are not modelled.
