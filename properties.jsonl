{"id": "C01", "title": "Execution order contains every controller exactly once", "statement": "Whenever scheduling a set of distinctly named controllers succeeds, the returned execution order is a permutation of the controllers: each one is executed exactly once per cycle.", "quantifier": "every list of controllers with distinct names, with arbitrary before/after requests", "why_tests_cant": "The number of dependency graphs is infinite; a test samples a few small graphs.", "anchors": ["pr2_controller_manager/src/scheduler.cpp:scheduleControllers", "pr2_controller_manager/src/scheduler.cpp:getNextController"]}
{"id": "C02", "title": "Execution order honours every before/after request", "statement": "In every execution order produced, a controller requested to run BEFORE_ME comes earlier and one requested AFTER_ME comes later than the requester.", "quantifier": "every list of controllers and every before/after request in it for which scheduling succeeds", "why_tests_cant": "Needs to hold for every dependency graph, not only those of the shipped test controllers.", "anchors": ["pr2_controller_manager/src/scheduler.cpp:scheduleControllers", "pr2_controller_interface/include/pr2_controller_interface/controller.h:getController"]}
{"id": "C03", "title": "Scheduling fails exactly when no admissible order exists", "statement": "Scheduling succeeds if and only if some order of the controllers honours all requests and every AFTER_ME name was already present in the list when its requester was added; in particular it never rejects a satisfiable set and never accepts a cyclic one.", "quantifier": "every list of distinctly named controllers and all requests", "why_tests_cant": "Completeness of a search procedure: a universally quantified 'no order exists' is not observable by running it.", "anchors": ["pr2_controller_manager/src/scheduler.cpp:scheduleControllers"]}
{"id": "C04", "title": "Execution order is canonical", "statement": "Among all admissible orders, the one produced is the lexicographically smallest by controller name, so it depends only on the set of controllers and requests and not on the order in which they were loaded.", "quantifier": "every schedulable list and every permutation of it that is schedulable", "why_tests_cant": "Compares against all admissible orders and all load orders.", "anchors": ["pr2_controller_manager/src/scheduler.cpp:getNextController", "pr2_controller_manager/src/scheduler.cpp:scheduleControllers"]}
{"id": "C05", "title": "Scheduling terminates, stays in bounds and overwrites stale contents", "statement": "For distinctly named controllers the scheduler terminates after at most one round per controller, writes only inside the schedule vector, and on success the result does not depend on what the vector contained before.", "quantifier": "every list of controllers and every prior content of the schedule vector", "why_tests_cant": "Out-of-bounds and termination must hold for all inputs.", "anchors": ["pr2_controller_manager/src/scheduler.cpp:scheduleControllers"]}
{"id": "C06", "title": "update() only between starting() and stopping()", "statement": "For every sequence of requests to a controller, its update() is only called when starting() has been called after the last stopping() (and after a successful init()); starting() and stopping() are never called before a successful init().", "quantifier": "every finite sequence of init/start/stop/update requests, and every outcome of the user-supplied init()", "why_tests_cant": "All histories.", "anchors": ["pr2_controller_interface/include/pr2_controller_interface/controller.h:updateRequest", "pr2_controller_interface/include/pr2_controller_interface/controller.h:startRequest", "pr2_controller_interface/include/pr2_controller_interface/controller.h:stopRequest", "pr2_controller_interface/include/pr2_controller_interface/controller.h:initRequest"]}
{"id": "C07", "title": "A controller is initialised at most once and requests before that are refused without effect", "statement": "init() can succeed at most once per controller; start and stop requests succeed exactly when init() has succeeded, are accepted repeatedly, and refused requests change nothing and call nothing.", "quantifier": "every finite sequence of requests", "why_tests_cant": "All histories.", "anchors": ["pr2_controller_interface/include/pr2_controller_interface/controller.h:initRequest", "pr2_controller_interface/include/pr2_controller_interface/controller.h:startRequest", "pr2_controller_interface/include/pr2_controller_interface/controller.h:stopRequest"]}
{"id": "C08", "title": "A dependency is recorded only for a controller that is loaded", "statement": "A controller obtains another controller through getController() and the scheduling constraint is recorded only if that name is currently loaded, has the requested type and a valid BEFORE_ME/AFTER_ME flag was given; an invalid flag leaves the lists unchanged.", "quantifier": "every provider content, name, flag and type", "why_tests_cant": "Universal over provider contents.", "anchors": ["pr2_controller_interface/include/pr2_controller_interface/controller.h:getController", "pr2_controller_interface/include/pr2_controller_interface/controller_provider.h:getControllerByName"]}
{"id": "C09", "title": "Loaded controllers have distinct names", "statement": "After any history of load, unload, switch, reload and control cycles no two loaded controllers have the same name.", "quantifier": "every finite history of API calls with arbitrary plugin behaviour", "why_tests_cant": "Invariant over unbounded histories.", "anchors": ["pr2_controller_manager/src/controller_manager.cpp:loadController"]}
{"id": "C10", "title": "A failed load changes nothing", "statement": "If loadController returns false, for any reason (duplicate name, missing type, unknown plugin, init failure or exception, unschedulable), the loaded controllers, their order, execution order and run states are as before.", "quantifier": "every reachable state, name and plugin outcome", "why_tests_cant": "Every failure point in every state.", "anchors": ["pr2_controller_manager/src/controller_manager.cpp:loadController"]}
{"id": "C11", "title": "A successful load adds exactly one stopped controller", "statement": "If loadController returns true, the loaded set is the old one plus the new controller, which is initialised but not running; all other controllers keep their run state.", "quantifier": "every reachable state, name and plugin outcome", "why_tests_cant": "All states.", "anchors": ["pr2_controller_manager/src/controller_manager.cpp:loadController"]}
{"id": "C12", "title": "Unload refuses running, unknown or needed controllers, and otherwise removes exactly that one", "statement": "unloadController returns true exactly when the name is loaded, not running and not mentioned in any loaded controller's dependency lists; then exactly that controller disappears; otherwise nothing changes.", "quantifier": "every reachable state and name", "why_tests_cant": "All states.", "anchors": ["pr2_controller_manager/src/controller_manager.cpp:unloadController"]}
{"id": "C13", "title": "Dependencies of loaded controllers are always loaded", "statement": "In every reachable state, every controller named in a dependency list of a loaded controller is itself loaded.", "quantifier": "every finite history of API calls", "why_tests_cant": "Invariant over unbounded histories.", "anchors": ["pr2_controller_manager/src/controller_manager.cpp:unloadController", "pr2_controller_manager/src/controller_manager.cpp:loadController", "pr2_controller_interface/include/pr2_controller_interface/controller.h:getController"]}
{"id": "C14", "title": "STRICT switch is all or nothing", "statement": "switchController with STRICT returns false and starts/stops nothing if any listed name is unknown.", "quantifier": "every state and all start/stop name lists", "why_tests_cant": "All lists and states.", "anchors": ["pr2_controller_manager/src/controller_manager.cpp:switchController"]}
{"id": "C15", "title": "Effect of a completed switch", "statement": "When a switch completes, precisely the known controllers in the start list are running (those also in the stop list were stopped first), the known ones only in the stop list are stopped, and all others keep their state; under BEST_EFFORT (and strictness 0) unknown names are skipped.", "quantifier": "every state, all start/stop lists, every strictness value", "why_tests_cant": "All lists and states.", "anchors": ["pr2_controller_manager/src/controller_manager.cpp:switchController", "pr2_controller_manager/src/controller_manager.cpp:update"]}
{"id": "C16", "title": "Realtime thread never uses a controller list that is being modified", "statement": "Under every interleaving of the realtime loop with load/unload/switch calls, the list the realtime loop iterates is never written, and no controller it calls has been destroyed - provided a first control cycle has begun and ROS is not shutting down.", "quantifier": "every interleaving of the realtime thread's and the service thread's steps, every number of calls", "why_tests_cant": "Schedules are infinite in number and the bad ones are rare.", "anchors": ["pr2_controller_manager/src/controller_manager.cpp:update", "pr2_controller_manager/src/controller_manager.cpp:loadController", "pr2_controller_manager/src/controller_manager.cpp:unloadController"]}
{"id": "C17", "title": "Switch is atomic with respect to control cycles", "statement": "All stops and starts of a switch happen between two update sweeps: no sweep over the controllers observes part of a switch.", "quantifier": "every interleaving, all lists", "why_tests_cant": "Schedules.", "anchors": ["pr2_controller_manager/src/controller_manager.cpp:update", "pr2_controller_manager/src/controller_manager.cpp:switchController"]}
{"id": "C18", "title": "Every cycle updates every loaded running controller once, in execution order", "statement": "A control cycle calls update() on exactly the running controllers of the list in effect, once each, in execution order.", "quantifier": "every reachable state", "why_tests_cant": "All states and orders.", "anchors": ["pr2_controller_manager/src/controller_manager.cpp:update"]}
{"id": "C19", "title": "Motors re-enabled restarts running controllers", "statement": "In a cycle where motors are not halted but were in the previous cycle, every running controller gets stopping() then starting() before its update(); in any other cycle the sweep causes no starting()/stopping().", "quantifier": "every state and sequence of halted flags", "why_tests_cant": "All histories of the halted signal.", "anchors": ["pr2_controller_manager/src/controller_manager.cpp:update", "pr2_mechanism_model/src/robot.cpp:isHalted"]}
{"id": "C20", "title": "list_controllers reports exactly the loaded controllers", "statement": "The service returns every loaded controller once, in execution order, paired with 'running' exactly if it is running.", "quantifier": "every reachable state", "why_tests_cant": "All states.", "anchors": ["pr2_controller_manager/src/controller_manager.cpp:listControllersSrv", "pr2_controller_manager/src/controller_manager.cpp:getControllerNames", "pr2_controller_manager/src/controller_manager.cpp:getControllerSchedule"]}
{"id": "C21", "title": "Published controller statistics are aligned and in bounds", "statement": "Whenever mechanism statistics are published, entry i of the controller statistics carries the name and run flag of the i-th controller of the list used by the realtime loop, and no entry outside the message vector is written.", "quantifier": "every interleaving of the realtime loop and service calls", "why_tests_cant": "Schedules.", "anchors": ["pr2_controller_manager/src/controller_manager.cpp:publishMechanismStatistics", "pr2_controller_manager/src/controller_manager.cpp:loadController", "pr2_controller_manager/src/controller_manager.cpp:unloadController"]}
{"id": "C22", "title": "reload_controller_libraries is refused while controllers are loaded", "statement": "Without force_kill, the service replies ok=false and changes nothing if any controller is loaded, and replies ok=true with nothing changed otherwise; with force_kill it stops and unloads all controllers before reloading.", "quantifier": "every reachable state", "why_tests_cant": "All states.", "anchors": ["pr2_controller_manager/src/controller_manager.cpp:reloadControllerLibrariesSrv"]}
{"id": "C23", "title": "A switch reported successful has been executed", "statement": "If switchController returns true, all requested starts and stops have been executed by the realtime loop.", "quantifier": "every interleaving, including shutdown", "why_tests_cant": "Schedules and shutdown points.", "anchors": ["pr2_controller_manager/src/controller_manager.cpp:switchController"]}
{"id": "C24", "title": "Service calls finish while the realtime loop runs", "statement": "As long as ROS is up, the realtime loop and the service thread keep being scheduled and the statistics publisher's lock is not missed for ever, every load, unload, switch and list call finishes and every control cycle ends. The first wait of load/unload never blocks; the second ends with the beginning of the next control cycle.", "quantifier": "every fair infinite execution in normal operation, any requests, any inputs", "why_tests_cant": "Liveness under all schedules.", "anchors": ["pr2_controller_manager/src/controller_manager.cpp:loadController", "pr2_controller_manager/src/controller_manager.cpp:unloadController", "pr2_controller_manager/src/controller_manager.cpp:switchController"]}
{"id": "C25", "title": "Publishing rate is bounded and drift-free", "statement": "With a positive period, publishing stays on the grid start + k*period, two publications are always separated by a grid point, a call that finds the lock free publishes unless the interval of the last publication is not over, and the clock never falls behind: after publishing at time now it is less than one period behind now. The period is positive exactly if the configured rate is at most 2e9 Hz; otherwise the realtime loop hangs. With the 32-bit range of ros::Time all this holds, without an exception, until one period before its end (for every rate at least until a million seconds before, January 2106). A publication takes one loop iteration per period passed since the last one; there is no other bound, so a jump of the clock stalls the realtime loop.", "quantifier": "every sequence of control-cycle times and lock outcomes", "why_tests_cant": "All timing sequences.", "anchors": ["pr2_controller_manager/src/controller_manager.cpp:publishJointState", "pr2_controller_manager/src/controller_manager.cpp:publishMechanismStatistics", "pr2_controller_manager/src/controller_manager.cpp:initXml"]}
{"id": "C26", "title": "Overrun accounting", "statement": "num_control_loop_overruns of a controller equals the number of cycles in which its update took more than 1 ms and time_last_control_loop_overrun is the end time of the latest of those.", "quantifier": "every sequence of update durations", "why_tests_cant": "All histories.", "anchors": ["pr2_controller_manager/src/controller_manager.cpp:update"]}
{"id": "C27", "title": "Commands do not leak between cycles", "statement": "The efforts sent in a cycle depend only on what controllers commanded in that cycle: joint commands left over from before the cycle (previous updates, starting/stopping during a switch) change nothing but the violated-limits statistic, and if no controller writes a joint's command in a cycle, the command sent is what the safety limits make of zero.", "quantifier": "every robot state, every set of controllers (arbitrary functions)", "why_tests_cant": "All controllers and states.", "anchors": ["pr2_controller_manager/src/controller_manager.cpp:update", "pr2_mechanism_model/src/robot.cpp:zeroCommands"]}
{"id": "C28", "title": "Actuators receive only limited efforts", "statement": "Whatever the controllers command and whatever the arithmetic yields, at the end of every cycle the command of each joint with limits and safety description is within its effort limit (or NaN), and the actuators' commands are what the transmissions compute from those limited commands.", "quantifier": "every robot, state and arbitrary controller behaviour", "why_tests_cant": "Controllers are arbitrary code.", "anchors": ["pr2_controller_manager/src/controller_manager.cpp:update", "pr2_mechanism_model/src/robot.cpp:enforceSafety", "pr2_mechanism_model/src/robot.cpp:propagateJointEffortToActuatorEffort", "pr2_mechanism_model/src/joint.cpp:enforceLimits"]}
{"id": "C29", "title": "Effort limit holds for any floating-point inputs", "statement": "After enforceLimits, a commanded effort that was not NaN lies in [-limit, limit] for every position, velocity, gains (even NaN or infinite) and any rounding of the arithmetic.", "quantifier": "every joint description and joint state, any rounding", "why_tests_cant": "All floating-point inputs including special values.", "anchors": ["pr2_mechanism_model/src/joint.cpp:enforceLimits", "pr2_mechanism_model/src/joint.cpp:getLimits"]}
{"id": "C30", "title": "Effort bounds are ordered", "statement": "For non-negative gains and limits and soft_lower <= soft_upper, the lower effort bound never exceeds the upper one and both are within the effort limit, so the limited effort is within both bounds.", "quantifier": "every joint description and state (exact arithmetic)", "why_tests_cant": "All real inputs.", "anchors": ["pr2_mechanism_model/src/joint.cpp:getLimits"]}
{"id": "C31", "title": "Soft limits push back", "statement": "For a calibrated revolute or prismatic joint at or beyond the soft upper limit and not moving inwards, no positive effort is passed (symmetrically for the lower limit); for any safety-limited joint moving faster than the velocity limit no effort that accelerates it further is passed.", "quantifier": "every joint description and state (exact arithmetic)", "why_tests_cant": "All real inputs.", "anchors": ["pr2_mechanism_model/src/joint.cpp:getLimits", "pr2_mechanism_model/src/joint.cpp:enforceLimits"]}
{"id": "C32", "title": "Limiting is transparent, idempotent and monotone", "statement": "A command already within the bounds is unchanged, limiting twice equals limiting once, larger commands never yield smaller limited efforts, and nothing but the commanded effort changes.", "quantifier": "every joint description and state", "why_tests_cant": "All inputs.", "anchors": ["pr2_mechanism_model/src/joint.cpp:enforceLimits"]}
{"id": "C33", "title": "Uncalibrated and continuous joints are not position limited; unprotected joints are not limited", "statement": "For an uncalibrated or continuous joint the effort bounds do not depend on the position; for a joint without limits or safety description the command is unchanged (up to the largest double).", "quantifier": "every joint description and state", "why_tests_cant": "All inputs.", "anchors": ["pr2_mechanism_model/src/joint.cpp:getLimits"]}
{"id": "C34", "title": "Odometer is the total distance travelled", "statement": "The odometer equals the sum of absolute position differences between consecutive cycles since start, across any number of statistic resets; it never decreases.", "quantifier": "every sequence of joint states and resets", "why_tests_cant": "All histories.", "anchors": ["pr2_mechanism_model/src/joint.cpp:JointStatistics::update", "pr2_mechanism_model/src/joint.cpp:JointStatistics::reset"]}
{"id": "C35", "title": "Reported position range and maxima cover the reporting interval", "statement": "Statistics reported after a reset contain every position seen since that reset, and never exceed the hull of those and the previously reported range; max_abs_velocity and max_abs_effort are exactly the maxima since the reset (not counting the very first cycle).", "quantifier": "every sequence of joint states and resets", "why_tests_cant": "All histories.", "anchors": ["pr2_mechanism_model/src/joint.cpp:JointStatistics::update", "pr2_mechanism_model/src/joint.cpp:JointStatistics::reset"]}
{"id": "C36", "title": "Limit violation flag", "statement": "violated_limits is reported exactly if since the last reset some cycle (after the first) saw a commanded effort larger in magnitude than the measured effort on a joint with limits and safety.", "quantifier": "every sequence of joint states and resets", "why_tests_cant": "All histories.", "anchors": ["pr2_mechanism_model/src/joint.cpp:JointStatistics::update"]}
{"id": "C37", "title": "Simple transmission round-trips", "statement": "With a non-zero reduction, propagating actuator state to the joint and back restores position, velocity and measured effort, and vice versa; effort commands likewise.", "quantifier": "every reduction <> 0, reference position and state (exact arithmetic)", "why_tests_cant": "All real inputs.", "anchors": ["pr2_mechanism_model/src/simple_transmission.cpp:propagatePosition", "pr2_mechanism_model/src/simple_transmission.cpp:propagatePositionBackwards", "pr2_mechanism_model/src/simple_transmission.cpp:propagateEffort", "pr2_mechanism_model/src/simple_transmission.cpp:propagateEffortBackwards"]}
{"id": "C38", "title": "Wrist transmission round-trips", "statement": "With non-zero reductions, propagating the two motor states to flex/roll joints and back restores them, and vice versa, for positions (with offsets and reference positions), velocities, measured efforts and effort commands.", "quantifier": "all reductions <> 0, offsets and states", "why_tests_cant": "All real inputs.", "anchors": ["pr2_mechanism_model/src/wrist_transmission.cpp:propagatePosition", "pr2_mechanism_model/src/wrist_transmission.cpp:propagatePositionBackwards", "pr2_mechanism_model/src/wrist_transmission.cpp:propagateEffort", "pr2_mechanism_model/src/wrist_transmission.cpp:propagateEffortBackwards"]}
{"id": "C39", "title": "Transmissions conserve power", "statement": "For simple and wrist transmissions the mechanical power sum(effort*velocity) at the joints equals that at the actuators, for both commanded and measured efforts.", "quantifier": "all non-zero reductions and states", "why_tests_cant": "All real inputs.", "anchors": ["pr2_mechanism_model/src/simple_transmission.cpp:propagateEffort", "pr2_mechanism_model/src/wrist_transmission.cpp:propagateEffort"]}
{"id": "C40", "title": "Gripper forward and inverse kinematics agree", "statement": "For motor positions inside the linkage's working range, converting motor revolutions to gap size and back yields the same motor revolutions, and conversely.", "quantifier": "all linkage parameters satisfying the stated geometric conditions, all motor positions in range", "why_tests_cant": "All real inputs.", "anchors": ["pr2_mechanism_model/src/pr2_gripper_transmission.cpp:computeGapStates", "pr2_mechanism_model/src/pr2_gripper_transmission.cpp:inverseGapStates", "pr2_mechanism_model/src/pr2_gripper_transmission.cpp:inverseGapStates1"]}
{"id": "C41", "title": "Gripper gap velocity is the derivative of gap size", "statement": "Inside the working range the Jacobian used for velocities and efforts is the true derivative of gap size with respect to motor revolutions, and the inverse Jacobian used for commands is its reciprocal.", "quantifier": "all linkage parameters and motor positions in range", "why_tests_cant": "Calculus over all reals.", "anchors": ["pr2_mechanism_model/src/pr2_gripper_transmission.cpp:computeGapStates", "pr2_mechanism_model/src/pr2_gripper_transmission.cpp:inverseGapStates1"]}
{"id": "C42", "title": "Gripper conserves power and effort commands invert measurements", "statement": "Inside the working range, gap force times gap speed equals motor torque times motor speed divided by the square of the gap's mechanical reduction (so power is conserved if that is 1 or -1), measured and commanded; commanding the gap effort that is measured yields the measured motor torque.", "quantifier": "all parameters and states in range", "why_tests_cant": "All real inputs.", "anchors": ["pr2_mechanism_model/src/pr2_gripper_transmission.cpp:propagatePosition", "pr2_mechanism_model/src/pr2_gripper_transmission.cpp:propagateEffort"]}
{"id": "C43", "title": "Gripper computations never leave the domain of acos/asin/sqrt", "statement": "For any inputs with sane (non-zero) parameters, acos and asin are applied inside [-1,1], sqrt to positive numbers, and no denominator in positions and velocities is zero; efforts are divided by a Jacobian, which is zero exactly in the singular positions: finger at a right angle or screw side of length zero (measured efforts), linkage stretched out (commanded efforts).", "quantifier": "all parameters and states", "why_tests_cant": "All real inputs including out of range ones.", "anchors": ["pr2_mechanism_model/src/pr2_gripper_transmission.cpp:computeGapStates", "pr2_mechanism_model/src/pr2_gripper_transmission.cpp:inverseGapStates", "pr2_mechanism_model/src/pr2_gripper_transmission.cpp:inverseGapStates1"]}
{"id": "C44", "title": "Belt transmission filter is well defined", "statement": "For non-negative time steps and bandwidths no division by zero occurs in the belt transmission's estimator and damping filter.", "quantifier": "all parameters, states and time steps >= 0", "why_tests_cant": "All real inputs.", "anchors": ["pr2_mechanism_model/src/pr2_belt_transmission.cpp:propagatePosition", "pr2_mechanism_model/src/pr2_belt_transmission.cpp:propagateEffort"]}
{"id": "C45", "title": "Belt joint estimate converges to the true joint position", "statement": "With constant motor position and force and constant positive sampling time, the estimated joint position converges to motor position minus belt stretch (force/stiffness) and the estimated velocity to zero, from any initial filter state.", "quantifier": "all parameters, initial states and inputs", "why_tests_cant": "Limit of an infinite execution.", "anchors": ["pr2_mechanism_model/src/pr2_belt_transmission.cpp:propagatePosition"]}
{"id": "C46", "title": "Belt motor damping does not oscillate or grow", "statement": "The motor damping filter's coefficient stays in [0,1), so without new motor velocity changes the damping force decays monotonically without changing sign; with zero bandwidth the damping is proportional to motor velocity.", "quantifier": "all parameters and states", "why_tests_cant": "All real inputs, infinite executions.", "anchors": ["pr2_mechanism_model/src/pr2_belt_transmission.cpp:propagateEffort"]}
{"id": "C47", "title": "Rigid belt simulation is a simple transmission", "statement": "With zero compliance or zero motor mass, the simulated (backward) belt transmission maps joint state to actuator state and actuator effort to joint effort exactly like a simple transmission.", "quantifier": "all states and reductions", "why_tests_cant": "All real inputs.", "anchors": ["pr2_mechanism_model/src/pr2_belt_transmission.cpp:propagateEffortBackwards", "pr2_mechanism_model/src/pr2_belt_transmission.cpp:propagatePositionBackwards"]}
{"id": "C48", "title": "Propagating efforts keeps actuators enabled", "statement": "After initialisation and any number of effort propagations every actuator connected to a successfully initialised transmission is enabled.", "quantifier": "every robot and every number of cycles", "why_tests_cant": "All histories.", "anchors": ["pr2_mechanism_model/src/simple_transmission.cpp:propagateEffort", "pr2_mechanism_model/src/wrist_transmission.cpp:propagateEffort", "pr2_mechanism_model/src/pr2_gripper_transmission.cpp:propagateEffort", "pr2_mechanism_model/src/pr2_belt_transmission.cpp:propagateEffort", "pr2_mechanism_model/src/pr2_belt_transmission.cpp:initXml"]}
{"id": "C49", "title": "Robot keeps exactly the transmissions that initialise", "statement": "Robot::initXml keeps, in document order, exactly those transmission elements whose type starts with 'pr2', whose plugin exists and whose own initialisation succeeds; a broken transmission never makes the robot fail. Looking a transmission up by name then finds the first kept one of that name.", "quantifier": "every robot description", "why_tests_cant": "All documents.", "anchors": ["pr2_mechanism_model/src/robot.cpp:Robot::initXml", "pr2_mechanism_model/src/robot.cpp:Robot::getTransmission,getTransmissionIndex"]}
{"id": "C50", "title": "Robot state wiring", "statement": "Robot state has one joint state per (transmission, joint name) in order, transmissions are connected to their own joints and actuators, and looking up a joint name returns the joint state of the last transmission that names it; unknown names give NULL.", "quantifier": "every list of transmissions", "why_tests_cant": "All robots.", "anchors": ["pr2_mechanism_model/src/robot.cpp:RobotState::RobotState", "pr2_mechanism_model/src/robot.cpp:getJointState"]}
{"id": "C51", "title": "Robot is halted iff one of its motors is", "statement": "isHalted is true exactly if at least one actuator connected to a transmission is halted.", "quantifier": "every robot and actuator state", "why_tests_cant": "All robots.", "anchors": ["pr2_mechanism_model/src/robot.cpp:isHalted"]}
{"id": "C52", "title": "Chains and trees address exactly their joints, in kinematic order", "statement": "A chain/tree initialises exactly if every non-fixed joint on it has a joint state; reads return those joints' values in kinematic order; setEfforts/addEfforts change exactly those joints' commands.", "quantifier": "every chain, joint state vector and effort vector", "why_tests_cant": "All kinematic structures.", "anchors": ["pr2_mechanism_model/src/chain.cpp:init", "pr2_mechanism_model/src/chain.cpp:setEfforts", "pr2_mechanism_model/src/chain.cpp:addEfforts", "pr2_mechanism_model/src/tree.cpp:init", "pr2_mechanism_model/include/pr2_mechanism_model/tree.h:setEfforts"]}
{"id": "C53", "title": "Simulated calibration sensor reading", "statement": "The simulated optical flag reads high exactly above the rising edge (or below the falling edge) for limited joints, and for continuous joints exactly on the arc between rising and falling edge modulo full turns.", "quantifier": "every joint description and position", "why_tests_cant": "All positions.", "anchors": ["pr2_mechanism_model/src/joint_calibration_simulator.cpp:GetJointCalibrationInfo", "pr2_mechanism_model/src/joint_calibration_simulator.cpp:simulateJointCalibration"]}
{"id": "C54", "title": "Calibration edges are recorded exactly when the sensor trips", "statement": "An edge is recorded only when the reading changes between consecutive calls (never on the first), the recorded position is the actuator position of the previous call, rising vs falling is determined by direction and reading, and valid flags are never cleared. For a joint that is not continuous this means: the edge the description gives is valid exactly if the joint has crossed it, the other edge never is, and the recorded motor position is off by at most one step's motion.", "quantifier": "every sequence of positions", "why_tests_cant": "All histories.", "anchors": ["pr2_mechanism_model/src/joint_calibration_simulator.cpp:simulateJointCalibration"]}
{"id": "C55", "title": "Joint diagnostics level", "statement": "A joint is reported ERROR exactly if one of its last position, velocity and efforts is not a finite number that is zero or normal, or its last statistics entry is more than 3 s old; else WARN if that entry is uncalibrated, else OK. (A finite subnormal value is reported as NaN: a defect shown by a theorem.)", "quantifier": "every history of statistics messages and publications, joint and time", "why_tests_cant": "All values.", "anchors": ["pr2_mechanism_diagnostics/src/joint_diagnostics.cpp:toDiagStat"]}
{"id": "C56", "title": "Joint diagnostics report extremes since last report", "statement": "Max position, velocity and effort reported are the maxima over the calibrated entries since the previous report; the minimum position reported is the last entry's minimum (at most the maximum) - not the minimum over those entries, which is a defect shown by a counterexample. While the last entry is uncalibrated no extremes are shown.", "quantifier": "every sequence of updates and reports", "why_tests_cant": "All histories.", "anchors": ["pr2_mechanism_diagnostics/src/joint_diagnostics.cpp:JointStats::update"]}
{"id": "C57", "title": "Controller diagnostics level", "statement": "A controller is reported WARN exactly if it has overrun (up to 2^31-1 times: the counter becomes an int), warnings are not disabled by parameter or simulated time, and the last overrun is less than 30 s ago; otherwise OK.", "quantifier": "every history of messages, controller and time", "why_tests_cant": "All values.", "anchors": ["pr2_mechanism_diagnostics/src/controller_diagnostics.cpp:toDiagStat"]}
{"id": "C58", "title": "Diagnostics publish one status per joint and live controller", "statement": "Each published array contains one status for each joint ever seen, one for each controller not discarded earlier, and at least one controller-related status; controllers not updated for more than 3 s appear for the last time.", "quantifier": "every sequence of messages and publish times", "why_tests_cant": "All histories.", "anchors": ["pr2_mechanism_diagnostics/src/pr2_mechanism_diagnostics.cpp:mechCallback", "pr2_mechanism_diagnostics/src/pr2_mechanism_diagnostics.cpp:publishDiag"]}
{"id": "C59", "title": "Hardware components have unique names and are found by them", "statement": "add* succeeds exactly if the name is new, never replaces an existing component, and get* returns the component first added under that name or NULL.", "quantifier": "every sequence of additions", "why_tests_cant": "All histories.", "anchors": ["pr2_hardware_interface/include/pr2_hardware_interface/hardware_interface.h:addActuator", "pr2_hardware_interface/include/pr2_hardware_interface/hardware_interface.h:getActuator"]}
{"id": "C60", "title": "Spawner brings up and takes down what it loaded", "statement": "If nobody else uses the manager, the spawner's shutdown stops and unloads every controller it loaded, restoring the previous set of controllers. Whatever others did meanwhile: if all controllers it loaded are still loaded, the shutdown stops all of them and unloads those which no controller still loaded needs, leaving everything else as it is; it unloads them all if they are still in the order of loading and no foreign controller needs one. (If somebody else has unloaded one of them, its strict stop is refused as a whole and all the others stay loaded and running.)", "quantifier": "every manager state, list of names and plugin behaviour; every use of the manager by others in between", "why_tests_cant": "All states.", "anchors": ["pr2_controller_manager/scripts/spawner:main", "pr2_controller_manager/scripts/spawner:shutdown"]}
{"id": "C61", "title": "Unspawner undoes what it did", "statement": "When the unspawner ends, every controller it stopped that is still loaded is running again, whatever others did meanwhile; if nobody else used the manager everything is as before; and after each of its rounds none of the given controllers runs.", "quantifier": "every manager state, argument list, number of rounds, and behaviour of other clients", "why_tests_cant": "All states and interference.", "anchors": ["pr2_controller_manager/scripts/unspawner:main"]}
{"id": "C62", "title": "Command line spawn and kill", "statement": "'kill n' stops and unloads exactly controller n if it is loaded and nobody needs it; 'spawn n' leaves exactly n additionally loaded and running if it can be loaded. With several names: 'kill' stops all of them and unloads only named ones; one stays exactly if a controller needs it that is not named before it or stays itself; if users are named before what they use, exactly the named ones are gone. 'spawn' only adds named controllers behind the others, those loaded afterwards all run, and one that is not loaded could not be loaded when its turn came; controllers that need no others are all loaded. Nothing else changes.", "quantifier": "every manager state and every list of names", "why_tests_cant": "All states.", "anchors": ["pr2_controller_manager/scripts/pr2_controller_manager"]}
{"id": "C63", "title": "Belt simulation and belt compensation agree", "statement": "With a constant motor command and the simulated joint held still, the effort felt by the joint converges to the commanded one (in joint units), the simulated motor converges to the joint position plus the stretch of the belt, and the compensator fed with that motor state converges to the true joint position and zero velocity.", "quantifier": "all belts with positive time constant and compliance, all initial filter states, sampling times, commands and positions", "why_tests_cant": "a limit over an infinite run, from every initial filter state", "anchors": ["pr2_mechanism_model/src/pr2_belt_transmission.cpp: propagateEffortBackwards, propagatePositionBackwards, propagatePosition"]}
{"id": "C64", "title": "Simulated time stamps start at zero and never run backwards", "statement": "The sample time stamp a simulated transmission writes is zero until and including its first call while ROS is up and the time since that call afterwards, so it never decreases - provided its initialisation flag starts out false.", "quantifier": "all sequences of calls and all clock readings", "why_tests_cant": "every history of clock readings and ROS start-up orders", "anchors": ["pr2_mechanism_model/src/simple_transmission.cpp: propagatePositionBackwards", "pr2_mechanism_model/src/wrist_transmission.cpp: propagatePositionBackwards", "pr2_mechanism_model/src/pr2_gripper_transmission.cpp: propagatePositionBackwards", "pr2_mechanism_model/src/pr2_belt_transmission.cpp: propagatePositionBackwards"]}
{"id": "C65", "title": "Complete robot descriptions never crash the loader", "statement": "Robot::initXml never dereferences a missing XML part if every transmission element has the parts its type requires; the proviso is necessary: a simple transmission without mechanicalReduction crashes the process instead of being rejected.", "quantifier": "every robot description, plugin set and set of actuators", "why_tests_cant": "all XML documents; the failure is undefined behaviour", "anchors": ["pr2_mechanism_model/src/robot.cpp:Robot::initXml", "pr2_mechanism_model/src/simple_transmission.cpp:initXml", "pr2_mechanism_model/src/wrist_transmission.cpp:initXml", "pr2_mechanism_model/src/pr2_gripper_transmission.cpp:initXml", "pr2_mechanism_model/src/pr2_belt_transmission.cpp:initXml"]}
{"id": "C66", "title": "Transmissions do not interfere", "statement": "Each joint state after propagating positions is what its own transmission computes from its own actuators alone, and the command of each actuator after propagating efforts is what its own transmission computes from its own joints alone, whatever the order and number of the other transmissions (transmissions not sharing actuators).", "quantifier": "every robot state with any number of transmissions", "why_tests_cant": "all robots and all orders of transmissions", "anchors": ["pr2_mechanism_model/src/robot.cpp:RobotState::propagateActuatorPositionToJointPosition", "pr2_mechanism_model/src/robot.cpp:RobotState::propagateJointEffortToActuatorEffort"]}
{"id": "C67", "title": "Assertions of the mechanism model never fail for well-described robots", "statement": "The robot state can be constructed for every robot that Robot::initXml accepted; for robots whose transmission elements are well described (gripper: one gap joint and one simulated joint; simple: at most one simulated joint), no assertion fails in any number of propagations of positions or efforts. The proviso is necessary: a gripper without simulated joint initialises but every propagation aborts, and the assertions of its forward and backward directions contradict each other.", "quantifier": "every robot description and every number of cycles", "why_tests_cant": "all robots, all histories", "anchors": ["pr2_mechanism_model/src/robot.cpp:RobotState::RobotState", "pr2_mechanism_model/src/pr2_gripper_transmission.cpp", "pr2_mechanism_model/src/simple_transmission.cpp"]}
{"id": "C68", "title": "Published messages show the state of this cycle", "statement": "A published joint state message has the name, position, velocity and measured effort of every joint, in order, as of this cycle; a statistics message has one row per joint and per actuator, in order, with the values sent to the hardware in this cycle; publishing statistics restarts the joints' statistics and nothing else changes them.", "quantifier": "every robot, every controller behaviour, all clock readings and lock outcomes", "why_tests_cant": "all robots and schedules", "anchors": ["pr2_controller_manager/src/controller_manager.cpp:publishJointState", "pr2_controller_manager/src/controller_manager.cpp:publishMechanismStatistics"]}
{"id": "C69", "title": "The realtime loop never aborts or hangs", "statement": "The manager refuses exactly the robots with a joint that is neither revolute, continuous nor prismatic; after initialisation of a well-described robot with publish rates up to 2e9 Hz no sequence of control cycles fails an assertion, hangs or accesses a message out of range, whatever the controllers compute.", "quantifier": "every robot, every sequence of cycles and controller behaviours that keep the structure of the robot", "why_tests_cant": "all histories", "anchors": ["pr2_controller_manager/src/controller_manager.cpp:initXml", "pr2_controller_manager/src/controller_manager.cpp:update"]}
{"id": "C70", "title": "Transmissions are read the same way with and without a robot", "statement": "Initialising a transmission against a robot succeeds with some result exactly when initialising it without a robot gives that result and the robot has all actuators and joints the result names, provided the description has no reduction inside the actuator and no simulated joint unknown to the robot (simple transmission) and gives both wrist joints the same offset; without these provisos it fails: a wrist's roll joint gets the flex joint's offset, new-style simple transmissions and belts without actuator name are undefined behaviour.", "quantifier": "every transmission kind, every XML description, every robot and every outcome of parsing numbers", "why_tests_cant": "all descriptions and robots", "anchors": ["pr2_mechanism_model/src/simple_transmission.cpp:initXml", "pr2_mechanism_model/src/wrist_transmission.cpp:initXml", "pr2_mechanism_model/src/pr2_belt_transmission.cpp:initXml", "pr2_mechanism_model/src/pr2_gripper_transmission.cpp:initXml"]}
{"id": "C71", "title": "Reloading the libraries with restore gives the controllers back", "statement": "The command-line reload with --restore, unless the manager process aborts, leaves the same controllers loaded, with the same recorded dependencies and run states and the same answer to list_controllers, as before it was called, whether the reload succeeded, was refused or failed half way; provided each controller without dependencies can be loaded again and nobody else uses the manager meanwhile.", "quantifier": "every history of the manager, every set of loaded controllers and dependencies between them, with and without force_kill, with and without assertions, every outcome of each service call", "why_tests_cant": "all histories, dependency graphs and partial failures of the unload loop", "anchors": ["pr2_controller_manager/src/pr2_controller_manager/pr2_controller_manager_interface.py:reload_libraries", "pr2_controller_manager/src/controller_manager.cpp:reloadControllerLibrariesSrv"]}
{"id": "C72", "title": "The Python start and stop helpers", "statement": "start_controllers(names) and stop_controller(name) return true exactly if all given controllers are loaded, and then exactly these controllers have been started (stopped) and nothing else has changed; otherwise they return false and nothing has changed. stop_controllers(names) always raises and stops nothing. Every client program of the repository has a run from every state of the manager.", "quantifier": "every state the manager can be in and every list of names", "why_tests_cant": "all states and name lists", "anchors": ["pr2_controller_manager/src/pr2_controller_manager/pr2_controller_manager_interface.py:start_stop_controllers", "pr2_controller_manager/src/pr2_controller_manager/pr2_controller_manager_interface.py:stop_controllers"]}
{"id": "C73", "title": "Every accepted switch is executed exactly once, in order", "statement": "Whenever no service call is in progress, the switches executed by the realtime loop are exactly the switch requests that returned true, each once and in the order of the requests, calling stopping() and then starting() on exactly the known controllers that were named, in the order in which they were named; while a call is in progress at most its own switch has been begun in addition.", "quantifier": "every interleaving of the realtime loop and service calls in normal operation, all request lists", "why_tests_cant": "all interleavings and histories", "anchors": ["pr2_controller_manager/src/controller_manager.cpp:update", "pr2_controller_manager/src/controller_manager.cpp:switchController"]}
{"id": "C74", "title": "In the running system update() is called only between starting() and stopping()", "statement": "In every interleaving, whenever update() of a controller is called its starting() has been called before and its stopping() not since; and a loaded controller is reported running exactly if starting() was called after the last stopping().", "quantifier": "every interleaving of the realtime loop and service calls, every controller object, every call of update()", "why_tests_cant": "all interleavings and histories", "anchors": ["pr2_controller_manager/src/controller_manager.cpp:update", "pr2_controller_manager/src/controller_manager.cpp:switchController", "pr2_controller_manager/src/controller_manager.cpp:unloadController", "pr2_controller_interface/include/pr2_controller_interface/controller.h"]}
{"id": "C75", "title": "An unloaded controller is never called again", "statement": "Once an unload call has returned true, the controller object it removed is never called and never loaded again, whatever happens afterwards; a controller loaded later under the same name is a different object.", "quantifier": "every interleaving and every continuation of it", "why_tests_cant": "all interleavings and all futures", "anchors": ["pr2_controller_manager/src/controller_manager.cpp:unloadController", "pr2_controller_manager/src/controller_manager.cpp:update"]}
{"id": "C76", "title": "Concurrent service requests behave as if served one after the other", "statement": "With any number of client threads calling the six services at the same time, the answered requests form a sequential history starting from the empty manager: each request meets the contract of its kind (load, unload, switch, list, list types, reload) between the state its predecessor left and the state it leaves, and while no handler is active the manager is in the state left by the last one. At most one handler is active at a time. No mixture of requests kills the process, except a forced reload with controllers loaded in a build with assertions.", "quantifier": "every number of client threads, every mixture of requests, every interleaving with each other and the realtime loop", "why_tests_cant": "all interleavings of unboundedly many threads", "anchors": ["pr2_controller_manager/src/controller_manager.cpp:listControllersSrv", "pr2_controller_manager/src/controller_manager.cpp:reloadControllerLibrariesSrv", "pr2_controller_manager/src/controller_manager.cpp:loadControllerSrv", "pr2_controller_manager/src/controller_manager.cpp:unloadControllerSrv", "pr2_controller_manager/src/controller_manager.cpp:switchControllerSrv", "pr2_controller_manager/src/controller_manager.cpp:listControllerTypesSrv"]}
{"id": "C77", "title": "Direct callers are serialised with the services, without deadlock or starvation", "statement": "If other threads of the process also call loadController, unloadController and switchController directly, the completed calls still form a sequential history in which each meets its contract, at most one thread is inside one of them, and no destroyed controller and no list being rebuilt is touched by the realtime loop. While the realtime loop runs and threads are scheduled fairly, every request and every direct call finishes, and every control cycle ends: the two mutexes and the waits for the realtime loop never block each other.", "quantifier": "every number of client threads, every mixture of requests and direct calls, every interleaving, every fair infinite execution", "why_tests_cant": "all interleavings of unboundedly many threads; liveness over infinite executions", "anchors": ["pr2_controller_manager/src/controller_manager.cpp:loadController", "pr2_controller_manager/src/controller_manager.cpp:unloadController", "pr2_controller_manager/src/controller_manager.cpp:switchController", "pr2_controller_manager/src/controller_manager.cpp:getControllerNames", "pr2_controller_manager/src/controller_manager.cpp:getControllerSchedule", "pr2_controller_manager/include/pr2_controller_manager/controller_manager.h:controllers_lock_", "pr2_controller_manager/include/pr2_controller_manager/controller_manager.h:services_lock_"]}
{"id": "C78", "title": "list_controllers is not protected against direct unloads (a defect)", "statement": "listControllersSrv looks controllers up by name without holding controllers_lock_ after having taken their names under it: if another thread unloads a controller directly in between, the lookup gives NULL and the process dies. There is such an execution in normal operation.", "quantifier": "there is an execution", "why_tests_cant": "a race between two threads that tests hardly ever hit", "anchors": ["pr2_controller_manager/src/controller_manager.cpp:listControllersSrv", "pr2_controller_manager/src/controller_manager.cpp:getControllerByName"]}
{"id": "C79", "title": "Controller lists are handed over safely in spite of store buffers", "statement": "On a machine whose processors buffer their stores (x86-TSO), and after the first control cycle: everything the realtime loop reads from the controller list and schedule it uses is what the load or unload call had written when it published the list; while the realtime loop uses a list no service call writes to it or has writes to it outstanding; and when a service call clears the former list and destroys controllers, no write of the realtime loop from a cycle on that list is outstanding. This depends on stores reaching memory in program order.", "quantifier": "every interleaving of instructions and of buffered stores reaching memory, every number and content of reads and writes", "why_tests_cant": "delays of store buffers cannot be controlled by tests; races on plain variables", "anchors": ["pr2_controller_manager/src/controller_manager.cpp:update", "pr2_controller_manager/src/controller_manager.cpp:loadController", "pr2_controller_manager/src/controller_manager.cpp:unloadController", "pr2_controller_manager/include/pr2_controller_manager/controller_manager.h:used_by_realtime_", "pr2_controller_manager/include/pr2_controller_manager/controller_manager.h:current_controllers_list_"]}
{"id": "C80", "title": "Switch requests are handed over safely in spite of store buffers", "statement": "On a machine whose processors buffer their stores (x86-TSO): the realtime loop executes a switch only while switch_controller waits for it, once per call, with exactly the requests the call has written; when the call returns, all writes the realtime loop made in executing it (controller states, cleared request vectors) have reached memory. This depends on stores reaching memory in program order.", "quantifier": "every interleaving of instructions and of buffered stores reaching memory, every history of calls, every content of the requests", "why_tests_cant": "delays of store buffers cannot be controlled by tests; races on plain variables", "anchors": ["pr2_controller_manager/src/controller_manager.cpp:update", "pr2_controller_manager/src/controller_manager.cpp:switchController", "pr2_controller_manager/include/pr2_controller_manager/controller_manager.h:please_switch_"]}
{"id": "C81", "title": "Reported controller times are maximum, mean and standard deviation", "statement": "The statistics entry of a loaded controller reports, over all its updates since it was loaded, the maximum, the mean and the (population) standard deviation of their durations, together with its name, run flag and overruns. As every loaded controller is updated before statistics are published in a cycle there is always at least one sample, so none of these is undefined.", "quantifier": "every history of update durations of any number of controllers, every list of controllers", "why_tests_cant": "all histories; incremental recurrences", "anchors": ["pr2_controller_manager/include/pr2_controller_manager/controller_spec.h:Statistics", "pr2_controller_manager/src/controller_manager.cpp:publishMechanismStatistics", "pr2_controller_manager/src/controller_manager.cpp:update"]}
{"id": "C82", "title": "The spawner touches only what it loaded, whenever it is killed", "statement": "Whatever the manager answers and wherever the spawner is killed, it starts, stops and unloads only controllers named in its arguments that it has itself loaded successfully, and neither stops nor unloads anything before its clean-up. If its clean-up completes it has asked to stop and unload, last loaded first, everything it loaded, except possibly the controller whose load call it was interrupted in or right after (which can indeed be left loaded). If it is ended by a signal after which Python goes on (SIGTERM), it stops nothing and unloads nothing after its clean-up, asks to start only what it has just unloaded, and leaves everything it loads after the signal loaded.", "quantifier": "every argument list, every sequence of replies, every point at which it is killed", "why_tests_cant": "all crash points and all replies", "anchors": ["pr2_controller_manager/scripts/spawner:main", "pr2_controller_manager/scripts/spawner:shutdown"]}
{"id": "C83", "title": "The unspawner touches only what it was told to, whenever it is killed", "statement": "Whatever the manager answers and wherever the unspawner is killed, it never loads or unloads, asks to stop only controllers given on its command line that the listing immediately before reported as running, and asks to start only controllers it has asked to stop. Its final block asks to start everything it has asked to stop except possibly the controllers of a stop call it was interrupted in or right after (which can indeed stay stopped).", "quantifier": "every argument list, number of rounds, sequence of replies, and point at which it is killed", "why_tests_cant": "all crash points and all replies", "anchors": ["pr2_controller_manager/scripts/unspawner:main"]}
{"id": "C84", "title": "What the motors get is determined by the controllers running in that cycle", "statement": "While services load, unload and switch controllers, in every cycle of the realtime loop: joint states are computed from the actuator readings of that cycle, all joint commands are reset to zero, then plugins act on the robot one after the other and nobody else does - if the motors have just been re-enabled, stopping() and starting() of each running controller, then update() of each controller that was running when the cycle began, in execution order - then commands are limited and the actuators get exactly the efforts computed from the result. Every listed controller is timed exactly once per cycle. No cycle is skipped, and on a well-described robot with plugins that only change values the loop never aborts, whatever is called when.", "quantifier": "every interleaving of realtime cycles with service calls, every sequence of service calls, every effect of every plugin call, all hardware readings and clock readings, any arithmetic", "why_tests_cant": "all interleavings, all plugins", "anchors": ["pr2_controller_manager/src/controller_manager.cpp:ControllerManager::update", "pr2_mechanism_model/src/robot.cpp:RobotState::propagateActuatorPositionToJointPosition,zeroCommands,enforceSafety,propagateJointEffortToActuatorEffort", "pr2_controller_interface/include/pr2_controller_interface/controller.h:Controller::updateRequest"]}
{"id": "C85", "title": "Controller statistics count every update of that controller object, whatever is loaded and switched meanwhile", "statement": "While services load, unload and switch controllers: the statistics kept for a controller are those of all its timed updates since it was loaded - overruns longer than a millisecond, the end of the last one, all durations - and of no other controller's, not even an earlier one of the same name. When a statistics message is filled, the row of each listed controller has its name, its run flag and the maximum, mean and standard deviation of those durations, and the mean is defined (each listed controller has been timed in that very cycle).", "quantifier": "every interleaving of realtime cycles with service calls, all clock readings", "why_tests_cant": "all interleavings and histories", "anchors": ["pr2_controller_manager/src/controller_manager.cpp:ControllerManager::update,publishMechanismStatistics,loadController,unloadController", "pr2_controller_manager/include/pr2_controller_manager/controller_spec.h:Statistics,ControllerSpec"]}
{"id": "C86", "title": "The belt transmission's filters and its simulated motor solve their documented equations", "statement": "For every time step with the motor's time stamp moved forward: the joint position and velocity shown by the belt transmission are the solution, by the trapezoidal rule, of the documented equations - a critically damped filter of the motor position, the stretch of the belt under the measured force, and their combination; the effort sent to the motor is the commanded effort divided by the reduction, plus the documented damping; in simulation the motor moves as a mass on a critically damped spring, driven by the commanded effort, and the effort on the simulated joint is the spring force.", "quantifier": "every history, parameter set, time step and input", "why_tests_cant": "a numerical test compares a few trajectories; the equations hold at every step for every parameter", "anchors": ["pr2_mechanism_model/src/pr2_belt_transmission.cpp:PR2BeltTransmission::propagatePosition,propagateEffort,propagatePositionBackwards,propagateEffortBackwards"]}
{"id": "C87", "title": "Motors the robot description does not name are never enabled; motors without a transmission are never commanded", "statement": "Loading a robot description, however it ends, changes nothing about the motors except that it enables some, and only ones named by a transmission element of the description. From then on, in every cycle and whatever controllers are loaded, unloaded and switched, a motor that no loaded transmission names keeps its commands: no effort is ever commanded to it, and if the description does not name it, it is never enabled. (Exception to more: a transmission that is rejected after it has enabled its motors leaves them enabled, though no effort is ever commanded to them.)", "quantifier": "every robot description, set of motors, loader, interleaving of services and cycles, controller behaviour on joints", "why_tests_cant": "all descriptions, including every way of failing half-way, and all histories", "anchors": ["pr2_mechanism_model/src/robot.cpp:Robot::initXml", "pr2_mechanism_model/src/simple_transmission.cpp:initXml,propagateEffort", "pr2_mechanism_model/src/wrist_transmission.cpp:initXml,propagateEffort", "pr2_mechanism_model/src/pr2_gripper_transmission.cpp:initXml", "pr2_mechanism_model/src/pr2_belt_transmission.cpp:initXml", "pr2_hardware_interface/include/pr2_hardware_interface/hardware_interface.h:Actuator"]}
{"id": "C88", "title": "Service calls finish although stores are buffered (x86-TSO)", "statement": "On a machine whose processors buffer their stores (x86-TSO), with the realtime thread running without locks, every load, unload and switch call finishes: whenever a service thread is inside a call it is later outside it, provided only that the realtime loop keeps beginning and ending cycles, that no store stays in a store buffer for ever and that the scheduler lets a service thread that can go on go on. The wait loops (for the free list, for the new list to be seen, for the switch to be done) end. No position of the two threads and the buffers is a dead end: from any reachable one everybody can get on, and the realtime thread ends its cycle by its own next instructions, whatever the service threads do or hold.", "quantifier": "every infinite fair execution, with stores reaching memory at arbitrary times", "why_tests_cant": "liveness over all infinite schedules of threads and store buffers", "anchors": ["pr2_controller_manager/src/controller_manager.cpp:ControllerManager::update,loadController,unloadController,switchController"]}
{"id": "C89", "title": "In the running system, published messages show what was sent in that cycle, and only publishing changes them", "statement": "Whatever is loaded, unloaded and switched meanwhile: at the end of a cycle in which the period of the mechanism statistics is over, the publisher is free and no service holds the message, a message is published with one row per joint and per motor, in order, showing the state sent to the hardware in this cycle; the clock moves on by whole periods to just before now; the joints' statistics restart and nothing else about the robot changes. If not, message, clock and robot are left alone. Likewise the joint state message with name, position, velocity and measured effort of every joint. No other part of the cycle, no controller and no service touches these parts of the messages. If plugins do not write what the motors report, the motors' rows are what the hardware reported at the beginning of the cycle.", "quantifier": "every interleaving of services and cycles, controller behaviour, hardware readings, clock readings", "why_tests_cant": "all histories of services, locks and clocks", "anchors": ["pr2_controller_manager/src/controller_manager.cpp:ControllerManager::update,publishMechanismStatistics,publishJointState,loadController,unloadController"]}
{"id": "C90", "title": "In the running system, joint statistics cover exactly the cycles since the last message", "statement": "Whatever is loaded, unloaded and switched meanwhile: the statistics of a joint are those of its history - sampled once in every cycle, restarted exactly when a statistics message is published - and nothing else touches them (provided plugins do not). So a published row has the distance travelled since the start, the largest speed and measured effort of the cycles since the last message (except for the very first cycle ever), the violation flag exactly if the commanded effort exceeded the measured one in one of them, and a position range covering all of them.", "quantifier": "every interleaving of services and cycles, controller behaviour, hardware readings, clock readings; exact arithmetic for the report", "why_tests_cant": "all histories; a sample lost or counted twice under some schedule would be missed", "anchors": ["pr2_controller_manager/src/controller_manager.cpp:ControllerManager::update,publishMechanismStatistics", "pr2_mechanism_model/src/robot.cpp:RobotState::propagateActuatorPositionToJointPosition", "pr2_mechanism_model/src/joint.cpp:JointStatistics::update,reset"]}
{"id": "C91", "title": "A simulated robot as a whole: the controllers see the simulated motion and the simulated joints get the commanded efforts", "statement": "For a whole robot on which a simulator keeps a RobotState of its own besides that of the controllers (same Robot: same actuators and transmissions, each joint set of its own), with no actuator in two transmissions: propagating the simulated joints to the actuators and then the actuators to the controllers' joints gives every joint of a simple or wrist transmission the simulated position (relative to the reference position), velocity and measured effort, and the gripper the simulated gap (and away from singular positions its speed), whatever the other transmissions are; propagating the controllers' commanded efforts to the actuators and then to the simulated joints gives the same commands (for a simulated screw divided by its reduction, for a gripper in a regular position twice the gap effort divided by the screw's reduction) and leaves the other commands alone. No assertion fails in such a cycle, for any joint values the simulator or the controllers write, if grippers have a simulated screw with positive reduction, and so on for ever.", "quantifier": "all robots with any number and order of transmissions, all joint and actuator states, all numbers of cycles; exact real arithmetic for the values", "why_tests_cant": "all robots and all states; interference between transmissions would show only in some wirings", "anchors": ["pr2_mechanism_model/src/robot.cpp:RobotState::propagateJointPositionToActuatorPosition,propagateActuatorPositionToJointPosition,propagateJointEffortToActuatorEffort,propagateActuatorEffortToJointEffort", "pr2_mechanism_model/src/simple_transmission.cpp", "pr2_mechanism_model/src/wrist_transmission.cpp", "pr2_mechanism_model/src/pr2_gripper_transmission.cpp"]}
{"id": "C92", "title": "Rounding errors of transmissions stay within explicit bounds", "statement": "With floating point arithmetic that rounds to nearest (double or any other with relative error u and underflow error eta per operation) and finite results: (a) position, velocity and measured effort of a joint that are sent to the actuator of a simple transmission and read back, and a commanded effort that is sent and read back by a simulator, change by no more than the stated few units of rounding; (b) at the end of every control cycle, whatever the controllers command, the effort sent to the motor of a protected joint exceeds the joint's effort limit divided by the reduction by at most one rounding (simple transmission) or three roundings of the exact bound (wrist). The rounding terms cannot be dropped.", "quantifier": "all robots, transmissions, controllers and joint/actuator values for which the results are finite; all floating point formats with round to nearest", "why_tests_cant": "the bound must hold for all pairs of doubles, far more than can be enumerated", "anchors": ["pr2_mechanism_model/src/simple_transmission.cpp:propagatePosition,propagatePositionBackwards,propagateEffort,propagateEffortBackwards", "pr2_mechanism_model/src/wrist_transmission.cpp:propagateEffort", "pr2_controller_manager/src/controller_manager.cpp:update", "pr2_mechanism_model/src/robot.cpp:enforceSafety"]}
{"id": "C93", "title": "The safety limiter keeps a joint inside its soft limits", "statement": "Take a calibrated revolute or prismatic joint with limits and safety parameters, moving like an inertia under the effort the robot is sent, where the velocity gain is at least four times inertia times position gain, velocity gain times cycle time is at most the inertia, and the effort limit is at least velocity gain times speed limit. If the joint begins inside its soft limits (and not racing towards one), then whatever efforts controllers command, whatever is loaded, unloaded or switched, it stays inside its soft limits in every cycle and at every moment between cycles; any joint with safety parameters that begins below its speed limit stays below it. Each of the conditions on the parameters is needed: the code does not check them, and without one of them the limiter lets the joint run, or even drives it, through a soft limit.", "quantifier": "every sequence of commanded efforts, every interleaving of service calls and cycles, every number of cycles, inertias and cycle times that may vary from cycle to cycle, every moment within a cycle", "why_tests_cant": "a closed-loop invariant over unbounded command sequences and continuous time", "anchors": ["pr2_mechanism_model/src/joint.cpp:JointState::getLimits,JointState::enforceLimits", "pr2_mechanism_model/src/robot.cpp:RobotState::enforceSafety", "pr2_controller_manager/src/controller_manager.cpp:ControllerManager::update"]}
{"id": "C94", "title": "A transmission is what its description says", "statement": "Initialising a transmission from an XML element succeeds exactly if the element describes a transmission of that kind for a robot with these joints and motors, and the transmission then connects exactly the motors and joints named there, with exactly the constants given there: first child of each tag, first attribute of each name, the reduction of the motor element before that of the transmission, missing wrist offsets zero, missing gripper coefficients the documented defaults, the last gap joint and the last simulated joint counting, belt filters starting at zero. A loaded robot has, in document order, the transmissions its elements describe.", "quantifier": "every XML element, every kind of transmission, every set of joints and motors, every transmission object (also uninitialised members)", "why_tests_cant": "ranges over all XML trees; a test shows one document", "anchors": ["pr2_mechanism_model/src/simple_transmission.cpp:SimpleTransmission::initXml", "pr2_mechanism_model/src/wrist_transmission.cpp:WristTransmission::initXml", "pr2_mechanism_model/src/pr2_gripper_transmission.cpp:PR2GripperTransmission::initXml", "pr2_mechanism_model/src/pr2_belt_transmission.cpp:PR2BeltCompensatorTransmission::initXml", "pr2_mechanism_model/src/robot.cpp:Robot::initXml"]}
{"id": "C95", "title": "From the description to the joint: readings and commands in described units", "statement": "In a robot loaded from a description, whatever has happened since loading: after positions are propagated, the joint a simple transmission's element names reads the position of the motor it names divided by the reduction given there plus the joint's reference position (velocity and effort accordingly); a wrist's flex and roll joints read half the difference and minus half the sum of the two named motors' positions in their described reductions, divided by the joints' reductions, plus reference and described offset; a gripper's gap joint reads twice the gap its described linkage has at the motor's revolutions. After efforts are propagated, the named motors are enabled and sent the joints' commands divided by the described reductions. A gripper's gap joint has the motor's velocity times the rate D at which the described linkage opens the gap, the motor is sent the commanded gap effort times D, and the joint reads the motor's effort divided by D (virtual work), the last two up to the square of the described reduction.", "quantifier": "every robot description, every set of motors, every history of sweeps (also the simulator's) and changes of values, every reading", "why_tests_cant": "composes XML parsing, wiring by name and arithmetic for all robots and histories; a test fixes one robot", "anchors": ["pr2_mechanism_model/src/robot.cpp:Robot::initXml,RobotState::RobotState,RobotState::propagateActuatorPositionToJointPosition,RobotState::propagateJointEffortToActuatorEffort", "pr2_mechanism_model/src/simple_transmission.cpp", "pr2_mechanism_model/src/wrist_transmission.cpp", "pr2_mechanism_model/src/pr2_gripper_transmission.cpp"]}
{"id": "C96", "title": "The simulated calibration sensors and motors of a robot show its simulated joints", "statement": "In a robot loaded from a description, whenever a simulator propagates joint positions to the motors: the calibration flag of the motor the description assigns (for a wrist the left motor carries the flex joint's flag and the right motor the roll joint's) shows whether that joint, relative to its reference position, is beyond the described edge; an edge is recorded exactly if the flag has changed since the previous propagation, as rising or falling according to the side on which the flag is high, at the motor position of the previous propagation, and never at the first; and the simulated motors are where the joints are, in the described reductions and offsets.", "quantifier": "all robot descriptions, all histories of sweeps and writes of the robot state, all joint positions", "why_tests_cant": "the sensor's state lives in the transmission objects and depends on the whole history; a test sees one history of one robot", "anchors": ["pr2_mechanism_model/src/joint_calibration_simulator.cpp: simulateJointCalibration", "pr2_mechanism_model/src/simple_transmission.cpp: propagatePositionBackwards", "pr2_mechanism_model/src/wrist_transmission.cpp: propagatePositionBackwards", "pr2_mechanism_model/src/pr2_gripper_transmission.cpp: propagatePositionBackwards", "pr2_mechanism_model/src/pr2_belt_transmission.cpp: propagatePositionBackwards", "pr2_mechanism_model/src/robot.cpp: propagateJointPositionToActuatorPosition"]}
{"id": "C97", "title": "The safety limiter brings a joint back to its limits", "statement": "Take a joint as in C93, with non-zero gains and speed limit, but anywhere and with any velocity (pushed by hand, or found by calibration to be outside its soft limits). Whatever efforts controllers command and whatever is loaded, unloaded or switched, after a number of cycles that depends only on where the joint begins (and on its description, a least cycle time, a greatest inertia and the margin) it is within its soft limits up to any given margin, and stays there; likewise any joint that is too fast slows down to its speed limit up to any margin. Without a position gain, the description format's default, the joint may rest outside its soft limits for ever.", "quantifier": "every position and velocity at the beginning, every sequence of commanded efforts, every interleaving of service calls and cycles, inertias and cycle times that vary from cycle to cycle, every margin, every moment after the bound", "why_tests_cant": "a liveness property of a closed loop with arbitrary commands; the bound must be independent of infinitely many command sequences", "anchors": ["pr2_mechanism_model/src/joint.cpp:JointState::getLimits,JointState::enforceLimits", "pr2_mechanism_model/src/robot.cpp:RobotState::enforceSafety", "pr2_controller_manager/src/controller_manager.cpp:ControllerManager::update"]}
{"id": "C98", "title": "From the description to the motors: the whole stack keeps described joints inside their described limits", "statement": "Load a robot from its XML description and run the control loop with any service calls, controllers and hardware readings. In every cycle each simple transmission's joint is seen where its motor's reading divided by the described reduction puts it, and the motor is enabled and sent the limited command divided by that reduction; likewise both joints and both motors of a wrist. Consequently, if the motors move like inertias under the efforts they are sent, a calibrated joint that is safe once stays inside the soft limits of the description at every later moment, and one that is anywhere comes back to within any margin of its limits after a number of cycles that is independent of the calls, commands and plugins; the joint's place is told by the motors, through the described reductions.", "quantifier": "every description of the form, every interleaving of service calls and cycles, every plugin behaviour that leaves measured values alone, every hardware reading, all inertias and cycle times that suit the limits, every moment", "why_tests_cant": "an end-to-end statement across XML loader, transmissions, limiter, controller manager and hardware for infinitely many runs", "anchors": ["pr2_mechanism_model/src/simple_transmission.cpp:SimpleTransmission::initXml,propagatePosition,propagateEffort", "pr2_mechanism_model/src/wrist_transmission.cpp:WristTransmission::initXml,propagatePosition,propagateEffort", "pr2_mechanism_model/src/robot.cpp:Robot::initXml,RobotState::propagateActuatorPositionToJointPosition,RobotState::enforceSafety,RobotState::propagateJointEffortToActuatorEffort", "pr2_controller_manager/src/controller_manager.cpp:ControllerManager::update"]}
{"id": "C99", "title": "The declared plugins and the shipped robot description", "statement": "With the transmission classes that this package declares: whatever the robot description, a transmission is loaded only if its element gives the full class name (the code for deprecated, non-namespaced names never finds anything). Hence the shipped pr2.urdf, which uses short names, is accepted with no transmission at all, on every hardware. With full names all its thirty transmissions load, but the first propagation fails an assertion (its grippers have no simulated joint). With full names and these joints it loads on every hardware that has its motors: each joint reads, and each motor is sent, exactly what the reductions written in the file say; the manager never aborts, whatever services, controllers and hardware do; and the head's and laser's tilt, the shoulders, upper arms and elbows stay inside the soft limits written in the file for every inertia in the window that the file's gains determine. Over 400 motor turns (more than the whole stroke) the grippers' gap joints read the gap of fingers with the file's lengths at the motor's position, and velocities, efforts and commands are converted by the gap's derivative, which is positive.", "quantifier": "every robot description (first part); the shipped file, every hardware, every initial content of new objects, all later states, all runs of the manager, all commands, all inertias in the window, all moments", "why_tests_cant": "the shipped description is one document, but hardware contents, uninitialised members, runs and commands are unbounded", "anchors": ["pr2_mechanism_model/transmission_plugins.xml", "pr2_mechanism_model/pr2.urdf", "pr2_mechanism_model/src/robot.cpp:Robot::initXml", "pr2_mechanism_model/src/pr2_gripper_transmission.cpp:PR2GripperTransmission::initXml,propagatePosition"]}
{"id": "C100", "title": "The realtime loop is wait-free, with an explicit bound; requests are served within two cycles", "statement": "While at most N controllers are loaded and at most R controllers are named by a switch request, every control cycle ends within 4N + R + 13 steps of the realtime loop, whatever the service threads do meanwhile: also if they stop for ever at any point, holding any lock. The bound is attained. A requested switch has been executed after at most 2(4N + R + 13) such steps, and then the waiting call returns true with its next step; the wait of load and unload for the realtime loop to leave the old list is over after at most 4N + R + 15.", "quantifier": "every reachable state, every schedule of the threads, every request and input, all N and R", "why_tests_cant": "Bounds hold for all schedules, including those where other threads are suspended at an arbitrary point; tests sample a few.", "anchors": ["pr2_controller_manager/src/controller_manager.cpp:ControllerManager::update,publishMechanismStatistics,loadController,unloadController,switchController"]}
{"id": "C101", "title": "A chain consists of exactly the joints on the path between its two links", "statement": "For a robot description that is a kinematic tree, Chain::init(root, tip), on a new or a used object, returns true if and only if both are links and every movable joint on the unique path between them has a joint state (on a loaded robot: belongs to a transmission that was kept). The chain's joints are then those joints in the order of the path from root to tip, its KDL chain has the joints of the path, exchanging root and tip reverses both, and arrays sized by the KDL chain never fail the size assertions. On the shipped description (completed) any two links make a chain; as shipped, only links with no moving joint between them. A failed init on a used object empties its KDL chain but keeps its joints.", "quantifier": "all descriptions that are trees, all pairs of links, all robot states, all histories of the chain object", "why_tests_cant": "The claim is about every tree and every pair of links; tests try one or two chains of one robot (and the only such test in the repository is commented out).", "anchors": ["pr2_mechanism_model/src/chain.cpp: Chain::init, getPositions, toKDL", "pr2_mechanism_model/include/pr2_mechanism_model/chain.h", "pr2_mechanism_model/pr2.urdf", "pr2_mechanism_model/test/test_chain.cpp"]}
{"id": "C102", "title": "What the diagnostics show is what the robot did", "statement": "Whatever is loaded, switched and published, and however the statistics messages are lost, repeated or reordered on the way: the status the diagnostics node publishes for a joint shows the position, velocity and efforts of the cycle before the last message it got was filled, and is an error exactly if one of them is neither zero nor a normal number or the message is older than 3 s; the largest speed and effort it shows are exactly the largest over all cycles the received messages are about (with the joint calibrated), the positions are below the maximum shown, the odometer is the distance travelled up to the last message, and Limits Hit tells whether a limit was hit in the cycles of the last message. A controller's status is a warning exactly if warnings are enabled and its latest update longer than a millisecond ended less than 30 s ago.", "quantifier": "all executions of the running system with any plugins (that leave statistics alone), all ways of delivering the messages, all histories of the node", "why_tests_cant": "It relates every cycle of an arbitrarily long run, any pattern of message loss and any time of publication.", "anchors": ["pr2_mechanism_diagnostics/src/joint_diagnostics.cpp: JointStats::update, toDiagStat", "pr2_mechanism_diagnostics/src/controller_diagnostics.cpp", "pr2_mechanism_diagnostics/src/pr2_mechanism_diagnostics.cpp: mechCallback, publishDiag", "pr2_controller_manager/src/controller_manager.cpp: ControllerManager::update, publishMechanismStatistics", "pr2_mechanism_model/src/joint.cpp: JointStatistics::update"]}
{"id": "C103", "title": "Soft limits push back in floating point arithmetic", "statement": "For a joint with limits and safety parameters, in floating point arithmetic with any monotone rounding, overflow and NaN: the effort bounds are finite numbers, ordered and within the effort limit, and every command that is not NaN ends up between them. With positive gains, in every cycle of the running system, whatever the controllers command: a calibrated joint at or beyond its upper soft limit that is not moving down is never pushed up, one at or below its lower soft limit that is not moving up is never pushed down, a joint at its velocity limit is never accelerated; and a motor behind a simple transmission is commanded in the same direction.", "quantifier": "all correctly rounded arithmetics, all finite parameters, positions and velocities, all commands, all executions of the running system", "why_tests_cant": "It ranges over all floating point values, including overflowing intermediate results, and over all executions.", "anchors": ["pr2_mechanism_model/src/joint.cpp: JointState::getLimits, enforceLimits", "pr2_mechanism_model/src/robot.cpp: RobotState::enforceSafety", "pr2_mechanism_model/src/simple_transmission.cpp: propagateEffort"]}
{"id": "C104", "title": "A tree addresses every movable joint of the description once, in kinematic order", "statement": "For every description that is a kinematic tree with distinct joint names there is one order of its movable joints, each occurring exactly once and every joint after those between it and the root, such that Tree::init, on a new object or one in use and on any robot state, returns true exactly if all of them have joint states, and then its joints are their states in that order, as many as its KDL tree has. They are distinct. After a failure the object has fewer joints than its KDL tree. Whenever the tree can be initialised, so can a chain between any two links, its joints are among the tree's and, from the root, in the tree's order. On a loaded robot, at any time, this succeeds exactly if every movable joint belongs to a kept transmission: on the robot of the completed shipped description always, as shipped never.", "quantifier": "all descriptions, all robot states, all previous uses of the object, all links, all executions of the loaded robot", "why_tests_cant": "It ranges over all kinematic trees and all robots.", "anchors": ["pr2_mechanism_model/src/tree.cpp: Tree::init", "pr2_mechanism_model/include/pr2_mechanism_model/tree.h: Tree::getPositions", "pr2_mechanism_model/src/chain.cpp: Chain::init"]}
{"id": "C105", "title": "A controller obtained with getController outlives the controller that uses it, and the requested order holds in every cycle", "statement": "If in a successful load the plugin's getController(name, sched, c) returned true, then for as long as the loaded controller stays loaded, the very object c points to stays loaded, likewise the objects that one was given, and so on; whenever the realtime loop calls starting(), update() or stopping() of the controller, that object exists, whatever the services do meanwhile. If it was requested BEFORE_ME, the controller is never updated before it in the same cycle; if AFTER_ME, never after it. (Not promised: that it runs; and if sched is neither value, the pointer is set although getController returns false, and the object can be unloaded and destroyed while the controller runs.)", "quantifier": "every history of service calls, every interleaving with the realtime loop, every plugin, every pair of controllers", "why_tests_cant": "A dangling pointer needs a particular history and interleaving; absence must hold for all of them.", "anchors": ["pr2_controller_interface/include/pr2_controller_interface/controller.h: getController", "pr2_controller_interface/include/pr2_controller_interface/controller_provider.h: getControllerByName", "pr2_controller_manager/src/controller_manager.cpp: loadController, unloadController, update", "pr2_controller_manager/src/scheduler.cpp: scheduleControllers"]}
{"id": "C106", "title": "Shutting down in the right order is safe and never hangs", "statement": "If the realtime loop is stopped between two cycles, then from any state, whatever service calls are in progress or are made later and whenever ros::ok() turns false, the services never access a destroyed controller or a list in use; a load that returns true has loaded its controller and an unload that returns true has unloaded it; and once ROS shuts down the call in progress returns after a bounded number of its own steps (at most 10 plus the number of controllers), without any further cycle. Likewise the realtime loop may go on after the shutdown if no call is in progress and none is made. (Not promised: the other order, see finding 2; nor that a load answering false after the shutdown has not loaded the controller.)", "quantifier": "every reachable state with the realtime loop between two cycles, every call in progress, every later sequence of service steps, calls and the shutdown", "why_tests_cant": "The outcome depends on the point inside a call at which ros::ok() turns false and on the state of the realtime loop; tests hit one such point.", "anchors": ["pr2_controller_manager/src/controller_manager.cpp: loadController, unloadController, switchController, listControllersSrv, update"]}
{"id": "C107", "title": "Resetting the clock of a simulation does not end the process", "statement": "In a simulated robot, whatever the simulated clock does between steps (set back to zero, stopped, jumping), no exception leaves update(): every published actuator time stamp is the non-negative time since the first step, the same for all motors. This needs two things: the transmissions' start-time flags are clear at the beginning, and the statistics message was not in use in the very first step (or not due). If either fails the process can end with an exception on a negative time stamp. After the clock is set back nothing is published until it has passed the time of the last publication again.", "quantifier": "every sequence of simulation steps (time, ROS started or not, message in use or not), every number of motors, every publishing period", "why_tests_cant": "A negative stamp needs a particular combination of start, publication and reset times; tests reset the clock at one moment, if at all.", "anchors": ["pr2_controller_manager/src/controller_manager.cpp: publishMechanismStatistics (591-597, 638)", "pr2_mechanism_model/src/simple_transmission.cpp: propagatePositionBackwards (231-250)", "pr2_mechanism_model/src/wrist_transmission.cpp, pr2_gripper_transmission.cpp, pr2_belt_transmission.cpp: propagatePositionBackwards"]}
{"id": "C108", "title": "Joint statistics are right for whatever the sensors deliver", "statement": "For any sequence of readings, infinite and NaN ones included: the maximal velocity and effort reported for an interval are numbers, exactly the largest magnitudes of the readings that are numbers; the reported position range contains every position that is a number; the violation flag is set exactly if a commanded effort exceeded the measured one. With finite positions the odometer never decreases and is never NaN, and after n cycles differs from the exact distance by at most the relative error (1+u)^(2n)-1 - in double precision one part in four million after 10^9 cycles. One NaN position, however, makes the odometer NaN for ever (finding).", "quantifier": "every sequence of readings and reports, every correctly rounded arithmetic", "why_tests_cant": "Rounding errors accumulate over 10^9 cycles and NaN readings can come at any of them; no test runs that long or covers all inputs.", "anchors": ["pr2_mechanism_model/src/joint.cpp: JointStatistics::update, reset"]}
{"id": "C109", "title": "What one bad reading does", "statement": "One infinite or NaN encoder reading of a motor behind a simple, wrist or gripper transmission affects that cycle only: what the transmission makes of readings and commands does not depend on earlier ones. Behind a belt transmission it is for ever: in that cycle and every later one, whatever is read and commanded, the joint's position and velocity are not finite, and if the motor damping is filtered (lambda_motor is not zero) and the bad reading has a later time stamp than the one before, so is the effort the motor is sent - after the limits have been enforced (finding). With lambda_motor zero the effort depends on the last two readings only.", "quantifier": "every robot description loaded, every execution of the system, every cycle with a bad reading and every later cycle", "why_tests_cant": "The claim is about all later cycles, under all later readings, commands and calls.", "anchors": ["pr2_mechanism_model/src/pr2_belt_transmission.cpp: propagatePosition, propagateEffort", "pr2_mechanism_model/src/simple_transmission.cpp: propagatePosition, propagateEffort", "pr2_mechanism_model/src/wrist_transmission.cpp: propagatePosition, propagateEffort", "pr2_mechanism_model/src/pr2_gripper_transmission.cpp: propagatePosition, propagateEffort", "pr2_controller_manager/src/controller_manager.cpp: update"]}
{"id": "C110", "title": "How far a belt's motor can be driven beyond the effort limit", "statement": "In every cycle of every execution, whatever is loaded, switched, commanded and read: the effort sent to the motor of a belt transmission, times the reduction, is the joint's limited effort plus a damping of at most 2 kd V, where V is the largest average speed of the motor between two readings, in joint units, provided time stamps do not decrease - for any sampling times, equal stamps included. So it exceeds the joint's effort limit by at most 2 kd V. The reading before the first one counts as position 0 at time 0, so a motor that is not at zero when the time stamps begin gets a kick in the first cycle (finding).", "quantifier": "every robot description loaded, every execution of the system, every cycle, every sequence of readings with non-decreasing time stamps", "why_tests_cant": "The bound is about all histories of a recursive filter; a test sees one history.", "anchors": ["pr2_mechanism_model/src/pr2_belt_transmission.cpp: propagatePosition, propagateEffort, initXml", "pr2_controller_manager/src/controller_manager.cpp: update"]}
{"id": "C111", "title": "What the description says bounds what every motor is sent", "statement": "Load a robot from its description and run the control loop with any service calls, controllers and readings. In every cycle the motor of a simple transmission whose joint has a described effort limit and safety controller is enabled and sent, if the number is finite, at most the described limit divided by the described reduction, up to one rounding; each motor of a wrist at most (limit of flex / its reduction + limit of roll / its reduction) / (2 * motor reduction), up to three roundings. A gripper's gap joint is where the described linkage puts it, and its motor is sent the limited gap effort times the rate of the gap: at most the described limit times that rate; for the PR2's grippers this is at most 0.2 anywhere between 0 and 400 motor turns. In double precision no motor of the PR2's wheels and casters is ever sent a finite effort beyond 1.2621, of the torso 0.1918, head pan 0.4409, head tilt 2.5001, laser 0.1075, upper arm roll 0.9188, shoulder pan 0.4751 and lift 0.4848, forearm roll 0.3315, elbow 0.8295, wrists 0.3324. There is no such bound for a linkage near its stretched-out position.", "quantifier": "every description of the form, every interleaving of service calls and cycles, every plugin behaviour that leaves measured values alone, every hardware reading, all floating point formats with round to nearest", "why_tests_cant": "The bound must hold in every cycle of every execution, for every command and reading, with rounding.", "anchors": ["pr2_mechanism_model/src/joint.cpp: enforceLimits", "pr2_mechanism_model/src/simple_transmission.cpp: propagateEffort", "pr2_mechanism_model/src/wrist_transmission.cpp: propagateEffort", "pr2_mechanism_model/src/pr2_gripper_transmission.cpp: propagateEffort, inverseGapStates", "pr2_controller_manager/src/controller_manager.cpp: update"]}
{"id": "C112", "title": "On a machine with store buffers the two threads behave as if memory were sequentially consistent", "statement": "For every execution of load, unload and switch calls and control cycles on a machine whose processors buffer their stores (x86-TSO) there is an execution on a machine without buffers in which the realtime thread executes the same instructions with the same values loaded and stored, the service threads do as well (except for the last ones whose stores have not reached memory), and what the realtime thread does, the beginnings of calls and the ends of the wait loops come in the same order. When all stores have arrived, memory is the same. So whatever is proved of the realtime thread assuming sequentially consistent memory (C16, C17, C73 to C77) is not invalidated by store buffers; and the machine with buffers can do everything the one without can.", "quantifier": "every execution, every interleaving of both threads and of the stores reaching memory, every content of the lists, request vectors and objects", "why_tests_cant": "Store buffers reorder accesses rarely and depending on timing; a test on one machine does not show that no order makes a difference.", "anchors": ["pr2_controller_manager/src/controller_manager.cpp: update, loadController, unloadController, switchController", "pr2_controller_manager/include/pr2_controller_manager/controller_manager.h: used_by_realtime_, current_controllers_list_, please_switch_"]}
{"id": "C113", "title": "The safety limits hold under load and with reading errors, up to a distance that can be computed", "statement": "A calibrated revolute or prismatic joint whose inertia suits its safety gains, that carries a load of at most G and whose position and velocity are read with errors of at most D and N, never leaves its soft limits by more than D + (N + G / k_velocity) / k_position, at any moment of any cycle, whatever controllers command; nor does any joint exceed its speed limit by more than N + G / k_velocity. Holds for the joint of a simple transmission of a robot loaded from its description, in terms of the motor's motion, load and encoder errors and of the calibration error. The joints of the shipped PR2 description that C99 lists do not reach the hard limits in the file, for loads that the table states. The distance is attained: a joint at rest at soft limit + G / (k_position k_velocity) stays there under the load, so soft limits are not held against a load.", "quantifier": "every sequence of commands, every load and reading error of bounded size varying in any way, every time within every cycle, every history of loads, unloads and switches", "why_tests_cant": "A test runs one trajectory under one load; that no load within a bound, in combination with any commands and sensor errors, drives the joint further needs an invariant.", "anchors": ["pr2_mechanism_model/src/joint.cpp: enforceLimits, getLimits", "pr2_mechanism_model/src/simple_transmission.cpp: propagatePosition, propagateEffort", "pr2_controller_manager/src/controller_manager.cpp: update", "pr2_mechanism_model/pr2.urdf"]}
{"id": "C114", "title": "The safety limiter brings a joint back to its limits under load and with reading errors", "statement": "A calibrated revolute or prismatic joint, anywhere and with any velocity at the beginning, under a load of at most G and read with errors of at most D and N: whatever controllers command and whatever is loaded, unloaded or switched, after a number of cycles that depends only on where it begins, on the description, on the bounds and on the margin, it is at every moment within its soft limits up to the margin plus the distance of C113, and below its speed limit up to the margin plus N + G / k_velocity. Holds for the joint of a simple transmission of every robot loaded from its description, in terms of the motor's motion, load, encoder errors and calibration error.", "quantifier": "every position and velocity at the beginning, every sequence of commands, every load and error of bounded size varying in any way, every history of service calls, every moment after the bound", "why_tests_cant": "Recovery from an arbitrary state under an arbitrary varying load is a statement about infinitely many infinite trajectories; a test shows one.", "anchors": ["pr2_mechanism_model/src/joint.cpp: enforceLimits, getLimits", "pr2_mechanism_model/src/simple_transmission.cpp: propagatePosition, propagateEffort", "pr2_controller_manager/src/controller_manager.cpp: update"]}
{"id": "C115", "title": "The safety limits hold in floating point arithmetic", "statement": "The limiter computes in floating point, with rounding at every operation. Its rounding errors act on a joint like a load E, which the description and the precision determine (some 1e-12 newton metres for the PR2's joints in double precision): a calibrated revolute or prismatic joint that begins safe stays, at every moment and whatever controllers command (infinities included, NaN excepted), within its soft limits up to the distance of C113 for a load of G + E and reading errors D and N, and within twice the speed limit up to the like. Any joint with limits and safety parameters, continuous or not calibrated ones included, stays below its speed limit up to N + (G + E) / k_velocity. The position bound holds for every joint of the running system, whatever is loaded, unloaded or switched.", "quantifier": "every sequence of commands other than NaN, every load and error of bounded size, every arithmetic with bounded rounding errors, every history of service calls, every moment", "why_tests_cant": "Rounding errors differ for each of the 2^128 pairs of position and velocity, and accumulate over unboundedly many cycles; a test tries a few.", "anchors": ["pr2_mechanism_model/src/joint.cpp: enforceLimits, getLimits", "pr2_controller_manager/src/controller_manager.cpp: update"]}
{"id": "C116", "title": "The safety limits hold in floating point arithmetic, from the description to the motors", "statement": "For the joint of a simple transmission of every robot loaded from its description, with all of the code between encoder and motor in floating point: the motor is read with errors of at most D and N, is loaded by at most G, the calibration is off by at most R, controllers command anything but NaN. The effort sent to the motor is finite, and if the joint begins safe it stays inside its soft limits up to load, errors and the rounding errors of the transmission and the limiter, at every moment, whatever is loaded, unloaded or switched.", "quantifier": "every description with a simple transmission, every sequence of commands other than NaN, every load, encoder and calibration error of bounded size, every arithmetic with bounded rounding errors, every history of service calls, every moment", "why_tests_cant": "As C115; in addition the relation of the transmission's rounding to the joint's safety depends on the position, which is safe only by the statement itself: an induction over unboundedly many cycles.", "anchors": ["pr2_mechanism_model/src/simple_transmission.cpp: propagatePosition, propagateEffort", "pr2_mechanism_model/src/joint.cpp: enforceLimits, getLimits", "pr2_controller_manager/src/controller_manager.cpp: update"]}
{"id": "C117", "title": "The safety limits of a wrist under load and with reading errors", "statement": "The flex and the roll joint of a wrist share two motors. In every robot loaded from its description: the motors are read with errors, each is loaded, the calibration is off by at most R, and the controllers command anything to the two joints. Then each joint stays inside its soft limits, up to the distance of C113 for the errors (D_r/|k_r| + D_l/|k_l|)/(2|k|) + R and a load of |k|(G_r|k_r| + G_l|k_l|), at every moment, whatever is loaded, unloaded or switched.", "quantifier": "every description with a wrist transmission, every sequence of commands to both joints, every load and error of bounded size at both motors, every history of service calls, every moment", "why_tests_cant": "As C113; in addition the joints are coupled through the motors, so a test would have to try the commands, loads and errors of both joints at once.", "anchors": ["pr2_mechanism_model/src/wrist_transmission.cpp: propagatePosition, propagateEffort", "pr2_mechanism_model/src/joint.cpp: enforceLimits, getLimits", "pr2_controller_manager/src/controller_manager.cpp: update"]}
{"id": "C118", "title": "The safety limits bring a loaded wrist back", "statement": "As C117, but the joint is at the beginning at any position and has any velocity (as found after somebody moved the arm by hand, or after the motors were halted). For every margin there is a number of cycles, which depends neither on what the two joints of the wrist are commanded, nor on loads, errors, or on what is loaded, unloaded and switched, after which the joint is at every moment within its soft limits, and its velocity within its limit, up to the margin and the distances of C117.", "quantifier": "every description with a wrist transmission, every initial position and velocity, every margin, every sequence of commands to both joints, every bounded load and error at both motors, every history of service calls", "why_tests_cant": "A limit behaviour over unboundedly many cycles; the number of cycles must not depend on what the other joint is commanded.", "anchors": ["pr2_mechanism_model/src/wrist_transmission.cpp: propagatePosition, propagateEffort", "pr2_mechanism_model/src/joint.cpp: enforceLimits, getLimits", "pr2_controller_manager/src/controller_manager.cpp: update"]}
{"id": "C119", "title": "In floating point arithmetic the limiter is accurate wherever the joint is, and brings the joint back", "statement": "With the rounding of the code: for a calibrated revolute or prismatic joint and for all finite readings, however great, the least and the greatest effort that the limiter allows are finite and differ from the exactly computed ones by at most an E that depends only on the description and the precision. Therefore a joint that is anywhere, with any velocity, comes back: for every margin there is a number of cycles, independent of commands, loads and errors and of what is loaded, unloaded and switched, after which the joint is at every moment inside its soft limits and no faster than its speed limit, up to load, errors, E and the margin.", "quantifier": "every finite reading of any size, every initial position and velocity, every sequence of commands, every bounded load and reading error, every margin, every monotone rounding, every history of service calls", "why_tests_cant": "Rounding errors at every magnitude of the readings, including overflow of intermediate results, and a limit behaviour over unboundedly many cycles.", "anchors": ["pr2_mechanism_model/src/joint.cpp: enforceLimits, getLimits", "pr2_mechanism_model/src/robot.cpp: enforceSafety", "pr2_controller_manager/src/controller_manager.cpp: update"]}
{"id": "C120", "title": "In floating point and for every input, the gripper never leaves the domain of acos, asin and sqrt; but one NaN reading makes its command non-finite at once", "statement": "Whatever the arithmetic yields (rounding, overflow, NaN) and whatever the parameters, positions, velocities and efforts are, no function of the gripper transmission, hence no cycle of any robot and no state that the machine can reach, depends on what the mathematics library returns for arguments outside its domain: acos and asin are only called with NaN or a number in [-1, 1], and sqrt only with positive numbers. A motor position that is not a number, however, makes the gap not a number and, in the same cycle and whatever effort is commanded (also zero), the effort sent to the motor infinite or NaN, with the motor enabled.", "quantifier": "every gripper description, every joint and motor state including NaN and infinities, every arithmetic with IEEE comparisons, every pair of libraries agreeing in the domain, every reachable state of the machine", "why_tests_cant": "Domain errors show only for inputs nobody thinks of (NaN, overflow, rounding just beyond 1); a test sees one library.", "anchors": ["pr2_mechanism_model/src/pr2_gripper_transmission.cpp: computeGapStates, inverseGapStates, propagatePosition, propagateEffort, propagatePositionBackwards, propagateEffortBackwards", "pr2_mechanism_model/src/robot.cpp", "pr2_controller_manager/src/controller_manager.cpp: update"]}
{"id": "C121", "title": "The motors get fresh efforts within a bounded number of steps, whatever the services do", "statement": "On a well-described robot, while at most N controllers are loaded and at most R are to be switched: from any moment on, within 2(4N + R + 13) steps of the realtime loop a whole control cycle is made that began after that moment, from readings taken then, and the actuators have been sent the efforts it computed. No sequence of service calls, no service thread that stops for ever and no reading or plugin value can delay it. Every cycle, in all its parts, ends within 4N + R + 13 steps, and a requested switch has been executed within twice as many; in every fair execution every service call returns.", "quantifier": "every reachable state of the whole machine, every continuation of it by realtime steps, service steps and new calls in any interleaving, every reading and plugin effect, every N and R", "why_tests_cant": "A bound over all interleavings and for all numbers of controllers; a test sees some schedules.", "anchors": ["pr2_controller_manager/src/controller_manager.cpp: update, publishMechanismStatistics, switchController, loadController, unloadController", "pr2_mechanism_model/src/robot.cpp"]}
{"id": "C122", "title": "A fault stays where it is: other motors are sent the same, whatever a faulty motor reports", "statement": "Let some motors report anything (positions, velocities, efforts, edges, timestamps), where every transmission with one of them drives only joints of a set J and has no other motors; and let the controllers do something else to these joints and motors in consequence, but not to others. Then the controllers are called in the same order in the same cycles, every service call returns the same answer in the same step, every other joint has the same state at any time, and in every cycle all other motors are sent the same commands, as if the fault were not there. Only the halt flag of a motor reaches everybody.", "quantifier": "every well-described robot, every set of motors and joints closed under transmissions, every pair of executions with the same interleaving of services, all differing readings and plugin effects", "why_tests_cant": "A statement about pairs of unbounded executions (non-interference); tests compare a few runs.", "anchors": ["pr2_controller_manager/src/controller_manager.cpp: update, publishMechanismStatistics", "pr2_mechanism_model/src/robot.cpp: RobotState::propagateActuatorPositionToJointPosition, propagateJointEffortToActuatorEffort, enforceSafety, zeroCommands, isHalted"]}
{"id": "C123", "title": "The order of the transmissions in the description does not matter", "statement": "If the transmissions are listed in another order (no motor or joint having two), the joint states are numbered differently, and nothing else changes: the same motors are enabled, a robot state is made for one order exactly when for the other, every joint name finds the same joint state at any time, controllers are called in the same order in the same cycles, every service call has the same answer, and in every cycle every motor is sent the same command. The published joint states are the same up to their order.", "quantifier": "every description or list of transmissions and permutation of it, every pair of executions with the same readings, service calls and interleaving, every controller that finds joints by name", "why_tests_cant": "All permutations and all executions; a test tries a description or two.", "anchors": ["pr2_mechanism_model/src/robot.cpp: Robot::initXml, RobotState::RobotState, getJointState, propagateActuatorPositionToJointPosition, propagateJointEffortToActuatorEffort, isHalted", "pr2_controller_manager/src/controller_manager.cpp: update"]}
{"id": "C124", "title": "Publishing and services do not disturb control", "statement": "Whatever is published when and at whatever rate, and whatever services run in between, the machine sends in every cycle what a plain control loop sends that does nothing but read, call the same plugins, limit and send. Hence two executions with the same readings and plugin calls send every motor the same and have the same joint positions, velocities, efforts and commands in every cycle, even if they publish at different rates and times, with different messages and statistics. Only a plugin that reads the joint statistics can notice publishing.", "quantifier": "every interleaving of the realtime loop with any services, every publishing rate and publisher timing, every robot, every reading and plugin that does not read joint statistics", "why_tests_cant": "All interleavings and publisher timings; a test compares a few runs.", "anchors": ["pr2_controller_manager/src/controller_manager.cpp: update, publishJointState, publishMechanismStatistics", "pr2_mechanism_model/include/pr2_mechanism_model/joint.h: JointStatistics::reset"]}
{"id": "C125", "title": "The order of controllers that do not touch each other's joints does not matter", "statement": "If two runs make the same plugin calls on the same readings, except that calls of controllers of which neither writes a joint that the other reads or writes come in another order, then every motor is sent the same in every cycle and all joints have the same commands, positions, velocities and efforts. So controllers that share no joint need no before/after requests, whatever order the manager chooses.", "quantifier": "every pair of executions whose plugin calls differ by any number of swaps of independent calls, every robot, every reading, every schedule and publishing", "why_tests_cant": "All orders and all executions; a test tries a pair.", "anchors": ["pr2_controller_manager/src/controller_manager.cpp: update", "pr2_controller_manager/src/scheduler.cpp: scheduleControllers"]}
{"id": "C126", "title": "Controllers of other joints do not matter", "statement": "If two runs differ only in which controllers of some joints are loaded and running - none, one or many, started and stopped at any time - and in what the motors of these joints report, then every other motor is sent the same in every cycle, and every other joint has the same command, position, velocity and effort: a controller can only affect what it commands, provided the others do not read these joints.", "quantifier": "every pair of executions, any extra plugin calls that command only a set of joints closed under the transmissions, every robot, reading, schedule, service call and publishing", "why_tests_cant": "All executions and all controllers on other joints; a test tries a controller or two.", "anchors": ["pr2_controller_manager/src/controller_manager.cpp: update, switchController", "pr2_mechanism_model/src/robot.cpp: propagateActuatorPositionToJointPosition, propagateJointEffortToActuatorEffort, enforceSafety"]}
