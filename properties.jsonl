{"id": "C01", "title": "Request length field is exact", "statement": "Every TCP request a Robot or Gripper writes carries, in the size field of its header, exactly the number of bytes that are written for that request.", "quantifier": "every request kind of the robot and the gripper service, every command id and every argument value", "why_tests_cant": "a test fixes a few requests and arguments; the claim is about every request type with every argument", "anchors": ["src/robot/service_types.rs: *RequestWithHeader", "src/gripper/types.rs: *RequestWithHeader", "src/network.rs: create_header_for_robot, create_header_for_gripper, tcp_send_request"]}
{"id": "C02", "title": "Requests are decodable without loss", "statement": "From the bytes written for a request a peer using the same schema recovers the command kind, the command id and every argument bit for bit (including NaN payloads), and two different requests never produce the same bytes.", "quantifier": "every request kind, id and argument value; any bytes following on the stream", "why_tests_cant": "round trip over the whole (infinite precision-free, 64 bit) argument space cannot be enumerated", "anchors": ["src/robot/service_types.rs", "src/gripper/types.rs", "src/network.rs: serialize, deserialize"]}
{"id": "C03", "title": "Robot state datagrams decode faithfully", "statement": "A state datagram is 2373 bytes long and decoding one yields exactly the state that was encoded; bytes that do not encode a state (bad enum tag, bad bool, too short) are never turned into a state.", "quantifier": "every internal robot state and every byte string", "why_tests_cant": "the domain is all byte strings of length 2373", "anchors": ["src/robot/types.rs: RobotStateIntern, RoboErrorHelperStruct", "src/network.rs: deserialize"]}
{"id": "C04", "title": "Command datagrams have the size the controller expects", "statement": "Every real-time command datagram is exactly 370 bytes long, decodes to the message id, motion values, flags and torques it was built from, and the 'UDP object could not be send' size error is never raised for it.", "quantifier": "every command value", "why_tests_cant": "needs all command values", "anchors": ["src/robot/types.rs: RobotCommand, MotionGeneratorCommandPacked, ControllerCommandPacked", "src/network.rs: udp_send"]}
{"id": "C05", "title": "Responses are never misread", "statement": "When a response is decoded, the status (and payload) handed to the API is the one encoded by the server; a response with an unknown status byte or too few bytes is never treated as a success.", "quantifier": "every response kind, every byte string", "why_tests_cant": "domain is all byte strings", "anchors": ["src/robot/service_types.rs: *Response, *Status", "src/gripper/types.rs: *Response, Status", "src/network.rs: tcp_blocking_receive_response"]}
{"id": "C06", "title": "Command ids are never reused", "statement": "All requests sent over one connection carry pairwise different command ids (0,1,2,... in the order of sending), as long as fewer than 2^32 requests are sent; and the id is never reused silently in a build with overflow checks.", "quantifier": "every sequence of API calls on one connection and every network schedule", "why_tests_cant": "needs every call history, including 2^32 long ones", "anchors": ["src/network.rs: Network.command_id, create_header_for_robot, create_header_for_gripper"]}
{"id": "C07", "title": "TCP segmentation does not matter", "statement": "The responses delivered to the callers depend only on the byte stream sent by the server, not on how TCP cuts it into segments or when segments arrive.", "quantifier": "every stream of well-formed responses, every segmentation, every arrival schedule", "why_tests_cant": "the number of segmentations is exponential and schedules are unbounded", "anchors": ["src/network.rs: tcp_read_from_buffer"]}
{"id": "C08", "title": "Responses go to the request that caused them", "statement": "A blocking request returns only a response whose header carries the id of that request; responses for other ids that arrive meanwhile are neither consumed nor altered and stay available for their own requests.", "quantifier": "every set of outstanding responses, every arrival order and segmentation", "why_tests_cant": "arrival orders and histories are unbounded", "anchors": ["src/network.rs: wait_for_response_to_arrive, tcp_receive_response, received_responses"]}
{"id": "C09", "title": "No response is lost", "statement": "Every complete response that arrived on the TCP stream is eventually handed to a caller that waits for its id, even if several responses arrive in one burst.", "quantifier": "every arrival schedule", "why_tests_cant": "depends on burst timing and edge triggered readiness", "anchors": ["src/network.rs: tcp_read_from_buffer, wait_for_response_to_arrive"]}
{"id": "C10", "title": "A dead connection is reported", "statement": "If the server closes the TCP connection or never answers, a blocking API call returns an error to the caller instead of hanging or aborting the process.", "quantifier": "every schedule in which no further bytes arrive", "why_tests_cant": "termination over unbounded schedules", "anchors": ["src/network.rs: wait_for_response_to_arrive, tcp_read_from_buffer"]}
{"id": "C11", "title": "Robot states are strictly newer", "statement": "The states a Robot hands out (read, read_once, control callbacks) have strictly increasing time stamps over the whole life of the connection: a duplicated, delayed or reordered datagram is never delivered as a new state.", "quantifier": "every order, duplication and loss of datagrams, every sequence of API calls", "why_tests_cant": "all datagram histories", "anchors": ["src/robot/robot_impl.rs: receive_robot_state, read_once, update_state_with", "src/robot.rs: read, read_once"]}
{"id": "C12", "title": "The newest received state is used", "statement": "A state returned by an update is the newest one among all state datagrams that have been received so far.", "quantifier": "every order of datagrams", "why_tests_cant": "all datagram histories", "anchors": ["src/network.rs: udp_blocking_receive, udp_receive", "src/robot/robot_impl.rs: receive_robot_state"]}
{"id": "C13", "title": "A state is one datagram", "statement": "Every state handed out is the content of one single datagram that was received with the exact length of a robot state; truncated, oversized or mixed contents are rejected.", "quantifier": "every queue content at every receive", "why_tests_cant": "all interleavings of datagrams with the drain loop", "anchors": ["src/network.rs: udp_blocking_receive"]}
{"id": "C14", "title": "No state datagram gets stuck", "statement": "Whenever a datagram waits in the socket, a blocking receive sees it and does not report a timeout; a timeout is reported exactly when nothing arrived.", "quantifier": "every schedule of arrivals relative to polls, peeks and reads", "why_tests_cant": "edge triggered readiness, all interleavings", "anchors": ["src/network.rs: udp_blocking_receive, udp_receive"]}
{"id": "C15", "title": "Commands are sent to the robot that sends the states", "statement": "Every real-time command is sent to the source address of the state datagram received most recently before it; none is sent before a state has been received.", "quantifier": "every schedule", "why_tests_cant": "all schedules and addresses", "anchors": ["src/network.rs: udp_server_address, udp_send, udp_blocking_receive"]}
{"id": "C16", "title": "Losing the state stream is reported", "statement": "If no state datagram arrives within the timeout, read/read_once/control return a NetworkException; Robot::new returns an error too.", "quantifier": "every API call and every schedule without further datagrams", "why_tests_cant": "all program points at which the stream may stop", "anchors": ["src/network.rs: udp_blocking_receive", "src/robot/robot_impl.rs: new, receive_robot_state, cancel_motion", "src/robot/control_loop.rs: run"]}
{"id": "C17", "title": "Version handshake", "statement": "A Robot (Gripper) object is only constructed after the server accepted version 5 (3) and our UDP port; if the server reports an incompatible version the constructor returns IncompatibleLibraryVersionError with the server's and the library's version, and no other request is sent before the handshake.", "quantifier": "every server behaviour", "why_tests_cant": "all schedules and responses", "anchors": ["src/robot/robot_impl.rs: connect_robot, new", "src/gripper.rs: new, connect_gripper"]}
{"id": "C18", "title": "Setters send what they were given and report what the robot answered", "statement": "Every setter/getter sends exactly one request, with the arguments of the call unchanged and in the documented order, and returns Ok exactly if the robot answered Success; CommandNotPossible and InvalidArgument answers give a CommandException.", "quantifier": "every setter, all argument values, every answer and every schedule", "why_tests_cant": "all arguments, answers and schedules", "anchors": ["src/robot.rs: set_collision_behavior, set_joint_impedance, set_cartesian_impedance, set_guiding_mode, set_K, set_EE, set_load, set_filters, get_virtual_wall, handle_getter_setter_status"]}
{"id": "C19", "title": "set_default_behavior is ordered and stops at the first error", "statement": "set_default_behavior sends collision behavior, joint impedance, Cartesian impedance in that order with the documented constants, sends the next one only after the previous was accepted, and returns the first error.", "quantifier": "every answer sequence and schedule", "why_tests_cant": "all schedules", "anchors": ["src/robot.rs: set_default_behavior"]}
{"id": "C20", "title": "stop and automatic_error_recovery report the outcome", "statement": "stop (automatic_error_recovery) sends one request and returns Ok iff the robot answers Success; each other answer yields a CommandException whose message identifies the reason.", "quantifier": "every answer and schedule", "why_tests_cant": "all schedules", "anchors": ["src/robot.rs: stop, automatic_error_recovery"]}
{"id": "C21", "title": "Gripper commands report the outcome", "statement": "move_gripper, homing, grasp and stop send one request with the given arguments and return Ok(true) iff the gripper reports Success, Ok(false) iff Unsuccessful, and a CommandException on Fail or Aborted.", "quantifier": "every command, arguments, answer and schedule", "why_tests_cant": "all schedules", "anchors": ["src/gripper.rs: move_gripper, homing, grasp, stop, handle_response_status"]}
{"id": "C22", "title": "Gripper states are strictly newer", "statement": "Successive gripper states have strictly increasing time stamps, as documented for GripperState::time.", "quantifier": "every order of datagrams", "why_tests_cant": "all datagram histories", "anchors": ["src/gripper.rs: read_once", "src/gripper/gripper_state.rs"]}
{"id": "C23", "title": "At most one motion at a time", "statement": "A control call never sends a Move request while the last known robot state shows a running motion or external controller.", "quantifier": "every call history and robot behaviour", "why_tests_cant": "all histories", "anchors": ["src/robot/robot_impl.rs: start_motion"]}
{"id": "C24", "title": "One control call, one Move request", "statement": "A control_* call sends at most one Move request, it is the first message of the call, and carries the controller mode and motion generator mode of the API used, and the default deviations.", "quantifier": "every control method, callback, schedule", "why_tests_cant": "all schedules and callbacks", "anchors": ["src/robot/control_loop.rs: new, from_control_mode", "src/robot/robot_impl.rs: start_motion, execute_move_command", "src/robot.rs: control_*"]}
{"id": "C25", "title": "Real-time commands are only sent inside a control call", "statement": "No real-time command datagram is sent by construction, read, read_once, setters, stop, recovery, or before the robot accepted the Move request.", "quantifier": "every call history and schedule", "why_tests_cant": "all histories", "anchors": ["src/robot/robot_impl.rs: send_robot_command, update, start_motion", "src/robot.rs"]}
{"id": "C26", "title": "Commands answer the latest state", "statement": "Every real-time command carries the message id of the state received most recently by the control loop (the state the callback saw).", "quantifier": "every schedule and callback", "why_tests_cant": "all schedules", "anchors": ["src/robot/robot_impl.rs: send_robot_command, update"]}
{"id": "C27", "title": "Callback timing", "statement": "The duration passed to the callback is zero on the first call of a motion and on every later call equals the difference of the time stamps of this and the previous state and is at least 1 ms; computing it never underflows.", "quantifier": "every schedule and callback", "why_tests_cant": "all schedules, including lost and reordered datagrams", "anchors": ["src/robot/control_loop.rs: do_loop"]}
{"id": "C28", "title": "One callback, one command", "statement": "In a control call each callback invocation produces exactly one command built from its return value, sent before the next state is read; there is no command without a callback except the repetition of the final command while finishing.", "quantifier": "every schedule, every callback behaviour", "why_tests_cant": "all schedules and callbacks", "anchors": ["src/robot/control_loop.rs: do_loop, spin_motion, spin_control", "src/robot/robot_impl.rs: update, finish_motion"]}
{"id": "C29", "title": "Motion finish protocol", "statement": "After a callback returned motion_finished no callback is called again; all later commands repeat the final values with the finished flag set, no earlier command has the flag set, and control returns Ok only after the robot reported idle and acknowledged the Move command with success.", "quantifier": "every schedule and callback", "why_tests_cant": "all schedules", "anchors": ["src/robot/robot_impl.rs: finish_motion", "src/robot/control_loop.rs: do_loop"]}
{"id": "C30", "title": "Errors during a motion stop the robot exactly once", "statement": "If an error occurs while a motion runs, exactly one StopMove request is sent, nothing else is commanded afterwards, and the error returned by the control call is the one that occurred.", "quantifier": "every error, program point and schedule", "why_tests_cant": "all crash points", "anchors": ["src/robot/control_loop.rs: run", "src/robot/robot_impl.rs: cancel_motion"]}
{"id": "C31", "title": "Callbacks never run on a broken motion", "statement": "A callback is only invoked with states in which the robot is in Move mode and runs the motion generator and controller that were requested.", "quantifier": "every robot behaviour and schedule", "why_tests_cant": "all robot behaviours", "anchors": ["src/robot/robot_impl.rs: throw_on_motion_error", "src/robot/control_loop.rs: do_loop"]}
{"id": "C32", "title": "Motion errors are reported, not fatal", "statement": "If the robot aborts a motion, the control call returns a ControlException carrying the reported reason; the process is not aborted.", "quantifier": "every abort status, robot state and log content", "why_tests_cant": "all histories", "anchors": ["src/robot/robot_impl.rs: throw_on_motion_error, create_control_exception, finish_motion, cancel_motion"]}
{"id": "C33", "title": "The robot is left idle", "statement": "After a control call returned (Ok or error after the motion started) the last known robot state has no running motion generator and no external controller, so the next control call can be started.", "quantifier": "every outcome and schedule", "why_tests_cant": "all schedules", "anchors": ["src/robot/robot_impl.rs: finish_motion, cancel_motion"]}
{"id": "C34", "title": "Only finite commands reach the robot", "statement": "No joint position, velocity, Cartesian, elbow or torque command with a NaN or infinite component is ever sent.", "quantifier": "every callback return value, filter and limiter setting, robot state; every behaviour of the floating point arithmetic", "why_tests_cant": "all float values", "anchors": ["src/robot/control_types.rs: convert_motion", "src/robot/control_loop.rs: spin_control"]}
{"id": "C35", "title": "Commands only contain the commanded quantity", "statement": "A command sent by a joint position (joint velocity, Cartesian pose, Cartesian velocity) motion has zeros in all other motion fields and no valid elbow unless one was given; without a torque callback the torque field is zero.", "quantifier": "every callback and schedule", "why_tests_cant": "all callbacks", "anchors": ["src/robot/control_types.rs: convert_motion", "src/robot/control_loop.rs: do_loop", "src/robot/robot_impl.rs: send_robot_command"]}
{"id": "C36", "title": "Elbow configurations are validated", "statement": "A Cartesian command with an elbow is sent only if the elbow sign is +1 or -1; otherwise the call panics before sending.", "quantifier": "every pose/velocity command", "why_tests_cant": "all floats", "anchors": ["src/robot/control_types.rs: check_elbow, is_valid_elbow, convert_motion"]}
{"id": "C37", "title": "Cartesian poses are validated", "statement": "A Cartesian pose is sent only if it is a homogeneous transformation (bottom row 0,0,0,1 and a rotation matrix, up to 1e-5); every proper rigid transformation is accepted.", "quantifier": "every 4x4 matrix", "why_tests_cant": "all matrices", "anchors": ["src/robot/control_tools.rs: is_homogeneous_transformation", "src/robot/control_types.rs: check_matrix"]}
{"id": "C38", "title": "Real-time enforcement", "statement": "With RealtimeConfig::Enforce a control call on a system without real-time kernel (or where the scheduler priority cannot be raised) returns RealTimeException and sends nothing to the robot; with Ignore the check never prevents a motion.", "quantifier": "every system configuration, control method, schedule", "why_tests_cant": "all schedules", "anchors": ["src/robot/control_loop.rs: new_intern", "src/robot/control_tools.rs"]}
{"id": "C39", "title": "The control log holds the last samples in order", "statement": "The log of a ControlException holds the most recent (at most log_size) state/command pairs of the failed motion, in chronological order.", "quantifier": "every number of samples, log sizes and earlier motions", "why_tests_cant": "all histories", "anchors": ["src/robot/logger.rs: Logger::log, flush", "src/robot/robot_impl.rs: start_motion, update"]}
{"id": "C40", "title": "Logging is bounded and total", "statement": "Logging a control step never panics and the memory held by the logger never exceeds log_size entries.", "quantifier": "every log_size (including 0) and number of steps and motions", "why_tests_cant": "all histories", "anchors": ["src/robot/logger.rs"]}
{"id": "C41", "title": "Torque rate limit", "statement": "With rate limiting, each joint torque sent differs from the last desired torque by at most max_derivative times 1 ms, moves towards the commanded value, and is the commanded value itself if that is within the limit.", "quantifier": "every command and last torque", "why_tests_cant": "all reals", "anchors": ["src/robot/rate_limiting.rs: limit_rate_torques", "src/robot/control_loop.rs: spin_control"]}
{"id": "C42", "title": "Joint velocity limiter keeps velocity, acceleration and jerk limits along every run", "statement": "Starting from rest, for every sequence of requested joint velocities the velocities produced by the limiter respect the velocity, acceleration and jerk limits at every step.", "quantifier": "every sequence of commands of any length, every joint", "why_tests_cant": "unbounded histories over the reals", "anchors": ["src/robot/rate_limiting.rs: limit_rate_velocity, limit_rate_joint_velocities"]}
{"id": "C43", "title": "Joint position limiter keeps velocity, acceleration and jerk limits along every run", "statement": "Starting from rest, for every sequence of requested joint positions the positions produced by the limiter respect the velocity, acceleration and jerk limits (as difference quotients with the control period) at every step.", "quantifier": "every sequence of commands of any length, every joint", "why_tests_cant": "unbounded histories over the reals", "anchors": ["src/robot/rate_limiting.rs: limit_rate_position, limit_rate_joint_positions"]}
{"id": "C44", "title": "Rate limiting is transparent inside the limits", "statement": "A command which respects the velocity, acceleration and jerk limits (and the safe acceleration margin near the velocity limit) is passed through unchanged.", "quantifier": "every command and state", "why_tests_cant": "all reals", "anchors": ["src/robot/rate_limiting.rs"]}
{"id": "C45", "title": "Cartesian velocity limiter", "statement": "The translational and the rotational velocity produced by the Cartesian velocity limiter respect the acceleration limit at every step, and the velocity limit whenever the last commanded velocity did, for every sequence of commands.", "quantifier": "every sequence of 6-vectors", "why_tests_cant": "unbounded histories over the reals", "anchors": ["src/robot/rate_limiting.rs: limit_rate_single_cartesian_velocity, limit_rate_cartesian_velocity"]}
{"id": "C46", "title": "Cartesian pose limiter", "statement": "The pose produced by the pose limiter has a translation that differs from the last commanded one by at most max velocity times 1 ms, bottom row (0,0,0,1), and its rotation part differs from the last one by a proper rotation of at most max rotational velocity times 1 ms.", "quantifier": "every pose command and state", "why_tests_cant": "all reals", "anchors": ["src/robot/rate_limiting.rs: limit_rate_cartesian_pose"]}
{"id": "C47", "title": "Low-pass filter", "statement": "The filter output lies between the last value and the new value, equals the value when both agree, is monotone in the new value, and repeated filtering of a constant converges to it, for every positive cutoff frequency.", "quantifier": "every input and cutoff frequency, unbounded repetition", "why_tests_cant": "all reals, limits", "anchors": ["src/robot/low_pass_filter.rs: low_pass_filter"]}
{"id": "C48", "title": "Filter argument validation", "statement": "low_pass_filter panics if the sample time or the cutoff frequency is zero, negative, infinite or NaN, or if an input is not finite, as documented; otherwise it returns.", "quantifier": "every float argument", "why_tests_cant": "all floats", "anchors": ["src/robot/low_pass_filter.rs: low_pass_filter"]}
{"id": "C49", "title": "Total mass, centre of mass and inertia", "statement": "m_total, F_x_Ctotal and I_total in a RobotState are the mass, centre of mass and inertia tensor (about the common centre of mass) of the rigid union of end effector and load: mass adds, the first moment adds, the tensor obeys the parallel axis theorem, is symmetric if both are, and does not depend on the order of the two bodies.", "quantifier": "every mass, position and tensor", "why_tests_cant": "all reals", "anchors": ["src/robot/robot_state.rs: combine_center_of_mass, combine_inertia_tensor, From<RobotStateIntern>"]}
{"id": "C50", "title": "Error flags are reported completely and exactly", "statement": "The list of errors in a RobotState contains an error kind iff the corresponding flag of the datagram is set, without duplicates and in flag order; no flag pattern panics.", "quantifier": "all 2^41 flag patterns", "why_tests_cant": "2^41 patterns, twice", "anchors": ["src/robot/errors.rs: FrankaErrors::new, contains", "src/robot/error.rs", "src/robot/types.rs: combine_errors, combine_reflex_reasons"]}
{"id": "C51", "title": "State conversion keeps every field", "statement": "A RobotState handed to the user carries every field of the received datagram unchanged and under its documented name, with time = message id in milliseconds.", "quantifier": "every datagram", "why_tests_cant": "all datagrams", "anchors": ["src/robot/robot_state.rs: From<RobotStateIntern>"]}
{"id": "C52", "title": "Joint motion reaches its goal", "statement": "The MotionGenerator, called with period 0 first and then with any positive periods, starts at the current desired joint position, ends (motion_finished) exactly when the planned time is over, and its final value is the goal up to the 1e-6 dead band; all joints finish at the same time.", "quantifier": "every start, goal, speed factor in (0,1], every sequence of periods", "why_tests_cant": "unbounded period sequences over the reals", "anchors": ["src/utils.rs: MotionGenerator"]}
{"id": "C53", "title": "Joint motion profile is continuous, does not overshoot and respects the velocity limit", "statement": "The planned joint trajectory is continuous, moves monotonically from start to goal without overshoot, and never exceeds the joint's maximum velocity times the speed factor.", "quantifier": "every start, goal, speed factor and time", "why_tests_cant": "all reals", "anchors": ["src/utils.rs: MotionGenerator::calculate_desired_values, calculate_synchronized_values"]}
{"id": "C54", "title": "Joint motion with an irregular first period", "statement": "A MotionGenerator commands a trajectory that starts at the current joint position whatever period the first call has.", "quantifier": "every first period", "why_tests_cant": "all histories of periods", "anchors": ["src/utils.rs: MotionGenerator::generate_motion"]}
{"id": "C55", "title": "Model functions use the documented frame", "statement": "Model::pose, body_jacobian and zero_jacobian evaluate the library function of the requested frame, with the end effector transformation for EndEffector and F_T_EE*EE_T_K for Stiffness; the *_from_state variants use the fields of the state.", "quantifier": "every frame, state and transformation", "why_tests_cant": "all inputs", "anchors": ["src/model.rs: pose, body_jacobian, zero_jacobian, *_from_state"]}
{"id": "C56", "title": "Dynamics from state use the total load", "statement": "mass_from_state, coriolis_from_state and gravity_from_state evaluate the model with the total inertia, total mass and total centre of mass of the state.", "quantifier": "every state", "why_tests_cant": "all states", "anchors": ["src/model.rs: mass_from_state, coriolis_from_state, gravity_from_state"]}
{"id": "C57", "title": "load_model(persistent) keeps or removes the model file as documented", "statement": "After load_model(true) the model file exists; after load_model(false) it does not; the file contains exactly the bytes sent by the robot. A model that is returned can be loaded; a file that can not be loaded is reported as a ModelException and left alone.", "quantifier": "every initial file system state, every download", "why_tests_cant": "all file system histories and short writes", "anchors": ["src/robot/robot_impl.rs: load_model", "src/model/library_downloader.rs: download", "src/model.rs: Model::new"]}
{"id": "C58", "title": "Joint motion starts and ends at rest and respects the acceleration limit", "statement": "The velocity of the joint trajectory the MotionGenerator plans is zero when the motion starts and when motion_finished is first reported, is continuous, and never changes faster than 5 rad/s² times the speed factor.", "quantifier": "every start, goal, speed factor, every sequence of positive periods and every time", "why_tests_cant": "all reals, unbounded period sequences", "anchors": ["src/utils.rs: MotionGenerator::calculate_desired_values, calculate_synchronized_values"]}
{"id": "C59", "title": "Records of a control exception are real", "statement": "Every record in the log of a ControlException shows a robot state that this Robot object received in a control loop together with the values of the command it sent just before; no record is made up, mixes the state of one cycle with the command of another, or comes from another object.", "quantifier": "every history of calls, every log size, every motion and number of cycles", "why_tests_cant": "all histories", "anchors": ["src/robot/logger.rs: Logger::log, flush", "src/robot/robot_impl.rs: update", "src/robot/control_loop.rs"]}
{"id": "C60", "title": "Allowed Cartesian velocities pass unchanged", "statement": "With rate limiting on, a Cartesian velocity command that respects the jerk and acceleration limits for translation and rotation, leaves the margin the limiter keeps to the velocity limit and is filtered by no low pass is sent exactly as the user's callback returned it.", "quantifier": "every command, last velocity within the limits and last acceleration", "why_tests_cant": "all reals", "anchors": ["src/robot/rate_limiting.rs: limit_rate_single_cartesian_velocity, limit_rate_cartesian_velocity", "src/robot/control_types.rs: CartesianVelocities::convert_motion"]}
{"id": "C61", "title": "Allowed Cartesian poses pass unchanged", "statement": "With rate limiting on, a proper rigid pose whose step from the last commanded pose (translation and rotation) respects the velocity, acceleration and jerk limits with the margin the limiter keeps is sent exactly as the user's callback returned it.", "quantifier": "every pose command, last pose, last velocity within the limits and last acceleration, away from half turns", "why_tests_cant": "all reals and all rotations", "anchors": ["src/robot/rate_limiting.rs: limit_rate_cartesian_pose", "src/robot/control_types.rs: CartesianPose::convert_motion"]}
{"id": "C62", "title": "The limits hold in spite of rounding", "statement": "The documented limits hold for the doubles that are sent, although all constants, the filter and the limiter are computed with rounding and may overflow: with rate limiting on, torques change by at most 1 Nm per millisecond, and joint velocity and joint position motions that start from rest keep the documented velocity, acceleration and jerk of every joint (and of the elbow) in every step, also if the robot reports the last velocity and acceleration with small errors. The limiters for torques and joint velocities return a finite value for every finite command.", "quantifier": "every rounding with the error bound of IEEE binary64, every sequence of commands, every cutoff frequency, every number of steps", "why_tests_cant": "all doubles and unboundedly many steps, rounding errors could add up", "anchors": ["src/robot/rate_limiting.rs: limit_rate_torques, limit_rate_velocity, limit_rate_position, limit_rate_joint_velocities, limit_rate_joint_positions, MAX_JOINT_VELOCITY, MAX_ELBOW_VELOCITY", "src/robot/control_types.rs: JointVelocities::convert_motion, JointPositions::convert_motion"]}
{"id": "C63", "title": "A motion that is already answered is not waited for", "statement": "A control call waits until the robot reports the requested modes, but not longer than until the robot answers the Move request a second time: after that second answer at most one more state is received before a callback is called, the motion is stopped or the call ends.", "quantifier": "every control method, callback, history and order of answers and states", "why_tests_cant": "every order in which answers and states can arrive", "anchors": ["src/robot/robot_impl.rs: start_motion", "src/robot/control_loop.rs: ControlLoop::run"]}
{"id": "C64", "title": "A control call does not return before the robot has answered", "statement": "A control call returns Ok only when a final positive answer to its Move request was the last thing that happened, after a callback ended the motion. After a callback was called or a command was sent it returns an error only if the robot confirmed a StopMove request of this call. If the robot falls silent after the first callback, the call never returns.", "quantifier": "every control method, callback, history, behaviour of robot and network", "why_tests_cant": "every order of events, and the claim that a call never returns", "anchors": ["src/robot/control_loop.rs: ControlLoop::run, do_loop", "src/robot/robot_impl.rs: finish_motion, cancel_motion, execute_stop_command"]}
{"id": "C65", "title": "A motion the robot supports returns Ok", "statement": "If the robot accepts the Move request, reports the requested modes, sends a newer state for every step, stands still after the callback ended the motion and confirms the end, then the control call returns Ok: it neither hangs nor panics nor reports an error, and it calls the callbacks, sends the commands and takes the states exactly as the motion demands.", "quantifier": "every control method, callback, number of cycles, earlier history of the connection, and schedule of system calls in which the robot does its part, with late or queued states and with the confirmation before or after the last state", "why_tests_cant": "motions of every length and every timing of states and answers", "anchors": ["src/robot.rs: control_*", "src/robot/control_loop.rs: ControlLoop::run, do_loop", "src/robot/robot_impl.rs: start_motion, finish_motion, update_state", "src/network.rs: udp_blocking_receive, wait_for_response_to_arrive"]}
{"id": "C66", "title": "A gripper state is what the gripper sent", "statement": "What Gripper::read_once returns is, field by field, the content of one datagram that arrived after the method was called: width, maximal width, whether an object is grasped, temperature and time are those of that datagram, and states that were waiting before the call are passed over. For datagrams of the size of a state and system calls that do not fail.", "quantifier": "every history of a gripper, every schedule of datagrams", "why_tests_cant": "all histories and arrival times", "anchors": ["src/gripper.rs: read_once", "src/gripper/gripper_state.rs: From<GripperStateIntern>", "src/gripper/types.rs: GripperStateIntern", "src/network.rs: udp_receive, udp_blocking_receive"]}
{"id": "C67", "title": "server_version is the version the server reported at connection", "statement": "After any sequence of calls, whatever they returned, Robot::server_version and Gripper::server_version return the version number that stood in the server's answer to the handshake, never panic, and do not touch the connection.", "quantifier": "every history of calls, callback, behaviour of server and network, of robot and gripper", "why_tests_cant": "all histories and all version numbers", "anchors": ["src/robot.rs: server_version", "src/gripper.rs: server_version", "src/robot/robot_impl.rs: connect_robot, server_version"]}
{"id": "C68", "title": "A panic has one of a listed set of causes", "statement": "Suppose that no system call fails, that what arrives on the TCP connection are whole messages of the protocol and that what arrives by UDP are states of the device. Then a call of Robot or Gripper panics only if all 2^32 - 1 request numbers are used up with overflow checks on, or if the message that comes back under the number of a request of this call is no answer to this request. Robot::new panics also if no state arrives after the connection was accepted. A control call panics also if the robot moves already, if the value a callback has just returned cannot be converted to a command, if the log was made with size 0 and a command was sent, if the robot left the motion and answers the Move request with success, if an error is to be reported and the robot refuses to stop, or if a reflex is to be reported while the number of control cycles exceeds the log size and is one more than a multiple of it.", "quantifier": "every history of calls on an orderly connection, every call, callback and schedule", "why_tests_cant": "absence of any other panic over all histories and all interleavings of messages and states", "anchors": ["src/network.rs: tcp_send_request, tcp_blocking_receive_response, tcp_receive_response, tcp_read_from_buffer, udp_receive, udp_blocking_receive", "src/robot/robot_impl.rs: start_motion, finish_motion, cancel_motion, throw_on_motion_error, create_control_exception, send_robot_command", "src/robot/control_loop.rs: do_loop, spin_motion, spin_control", "src/robot/logger.rs: log", "src/robot.rs: public methods of Robot", "src/gripper.rs: public methods of Gripper"]}
{"id": "C69", "title": "The commands of a whole control call respect the limits", "statement": "In a control call with rate limiting in which the robot follows (every state handed to the motion callback reports the values of the last command as the desired ones, with their rates of change), the sequence of all commands on the wire respects the documented limits: joint velocities and positions and the elbow in velocity, acceleration and jerk, Cartesian velocities and poses in velocity and acceleration, torques in their change per millisecond. The torque bound does not cover a call whose motion callback ends the motion in the very first cycle, where zero torques are sent.", "quantifier": "every reachable Robot object, control function, callback behaviour, filter setting and schedule; any number of cycles", "why_tests_cant": "all callbacks, schedules and motions of any length, over all reals", "anchors": ["src/robot/control_loop.rs: do_loop, spin_motion, spin_control", "src/robot/control_types.rs: convert_motion", "src/robot/rate_limiting.rs", "src/robot/robot_impl.rs: update, finish_motion"]}
{"id": "C70", "title": "Values within the limits are sent unchanged", "statement": "With rate limiting on and the low-pass filter off (cutoff frequency of at least 1000 Hz), rate limiting does not touch admissible values: every command a control call sends, the final ones included, carries exactly the values the motion callback (and the torque callback) returned last whenever those values are within the limits with respect to the state the callback was called with.", "quantifier": "every reachable Robot object, control function, callback behaviour and schedule; all real values", "why_tests_cant": "all callbacks, schedules and real values", "anchors": ["src/robot/control_types.rs: convert_motion", "src/robot/control_loop.rs: convert_motion, convert_control, spin_motion, spin_control", "src/robot/rate_limiting.rs", "src/robot/robot_impl.rs: finish_motion"]}
{"id": "C71", "title": "Reading a state never hangs", "statement": "Reading a state of a robot or a gripper, or all states through a callback, makes at most eight system calls for each datagram that is taken from the socket, and a few more, so it always returns, even when the robot is silent, when system calls fail or when the callback never asks to stop. In an orderly connection reading one state of a robot returns a state or a NetworkException and nothing else, and a new state that arrives while the call waits is the one that is returned.", "quantifier": "every state of the library, schedule, callback and content of the socket", "why_tests_cant": "all schedules; absence of an endless wait cannot be observed in finite time", "anchors": ["src/robot.rs: Robot::read_once, Robot::read", "src/gripper.rs: Gripper::read_once", "src/network.rs: udp_receive, udp_blocking_receive, can_receive, udp_blocking_receive_unsafe", "src/robot/robot_impl.rs: read_once, receive_robot_state"]}
{"id": "C72", "title": "Connecting to a server that answers", "statement": "If the TCP connection is made, the server answers the Connect request with success and (for a robot) a state arrives, the constructor of Robot or Gripper returns an object; exactly the Connect request was sent, server_version returns the version in the answer, the state of the robot is the newest datagram that arrived, and the connection is ready for a control call. If the server answers with another status, the constructor returns IncompatibleLibraryVersionError with the version of the server.", "quantifier": "every schedule of this form, any answer of the server, any states and any number of earlier datagrams, every configuration", "why_tests_cant": "all schedules and contents of the answer and the datagrams", "anchors": ["src/robot.rs: Robot::new, server_version", "src/robot/robot_impl.rs: RobotImpl::new, connect_robot", "src/gripper.rs: Gripper::new, connect_gripper", "src/network.rs: Network::new, tcp_blocking_receive_response, udp_blocking_receive"]}
{"id": "C73", "title": "A motion the robot aborts is reported", "statement": "If the robot accepts a Move request, sends states, then a state that shows it does not execute the motion any more, reports why, and answers the StopMove request and stands still, a control call does not hang: it tells the robot to stop and returns a ControlException with the reason the robot reported (after a reflex with the errors of that state, and the success rate and the number of missing states that its log shows), after exactly these events. The exception is a reflex when the number of cycles exceeds the size of the log and is one more than a multiple of it: then the call panics. Every motion of this kind happens with some schedule.", "quantifier": "every control method, callback, number of cycles and states, every reason, every schedule of this form (the report may arrive during the motion or while the call waits for it), every history before", "why_tests_cant": "all callbacks, lengths of the motion, histories and schedules", "anchors": ["src/robot/control_loop.rs: run, do_loop, loop_motion, loop_torques", "src/robot/robot_impl.rs: throw_on_motion_error, cancel_motion, create_control_exception", "src/network.rs: tcp_blocking_receive_response"]}
{"id": "C74", "title": "A whole session goes as the robot says", "statement": "If the robot accepts the connection and does its part for every call of a session - answers each request (positively or not), sends the states that are awaited, executes motions, aborts them, or refuses to start them - then no call of the session hangs or panics, each returns what the robot's answers to it say, also after calls that failed, and the requests, states, callbacks and commands of the session are exactly those of its calls, in order.", "quantifier": "every number and order of setters, recoveries, stops, readings of walls and states, default settings and control calls, every callback and answer, every schedule of this form, every fresh start", "why_tests_cant": "all histories of calls and answers, and all schedules", "anchors": ["src/robot.rs: Robot", "src/robot/robot_impl.rs: execute_command_with_fd, start_motion, update", "src/network.rs: tcp_blocking_receive_response"]}
{"id": "C75", "title": "A joint motion is carried out as planned", "statement": "When joint_motion is called with a speed factor in (0,1] and the robot starts at rest and follows its commands, then the joint positions sent are exactly those of a smooth path for each joint from its start to its goal within the scaled speed and acceleration limits, one every millisecond; the rate limiting that is on in this call never alters a command, and exactly the first command at or after the planned duration ends the motion. Such a motion happens for every start and goal.", "quantifier": "every start, goal and speed factor (slow, or with a joint that moves at least 0.0002 rad), every reachable program state and schedule in which the robot follows; real arithmetic", "why_tests_cant": "all starts, goals and speeds, and all cycles of motions of unbounded length", "anchors": ["src/robot.rs: joint_motion", "src/utils.rs: MotionGenerator", "src/robot/control_loop.rs: ControlLoop", "src/robot/control_types.rs: JointPositions", "src/robot/rate_limiting.rs: limit_rate_joint_positions"]}
{"id": "C76", "title": "Poses made from rigid transformations", "statement": "A CartesianPose made from an Isometry3 has exactly the position and rotation of the transformation, is never refused by the pose check, and gives the same transformation when it is read back with array_to_isometry; reading a reported pose and turning it into a command gives the reported pose. Marking a value with motion_finished() only marks it: the command that is sent for it is the same. set_motion_finished(b) sets the mark to b and changes nothing else. Values made from vectors and arrays have these values, are not marked and have no elbow; has_elbow tells whether an elbow was given.", "quantifier": "every rigid transformation (half turns aside where a matrix is read), every reported pose, every kind of motion, state, cutoff frequency and limiting option; real arithmetic for poses", "why_tests_cant": "all rigid transformations", "anchors": ["src/robot/control_types.rs: From<Isometry3<f64>> for CartesianPose, MotionFinished, set_motion_finished", "src/utils.rs: array_to_isometry"]}
{"id": "C77", "title": "A whole gripper session goes as the gripper says", "statement": "If a gripper accepts the connection, answers every command (positively or not) and sends a state whenever one is awaited, then no call of the session hangs or panics. Each command returns true, false or the error that belongs to the status in the answer to it; read_once returns, field by field, the state that was sent while it waited, not one that was there before; server_version returns the version from the handshake. Exactly one request is sent for each command, with its arguments, numbered from 1 in order after the handshake.", "quantifier": "every number and order of calls with all arguments, every answer, every state, every schedule of this form, every fresh start", "why_tests_cant": "all histories of calls and answers, and all schedules", "anchors": ["src/gripper.rs: Gripper", "src/gripper/gripper_state.rs: GripperState", "src/network.rs: tcp_blocking_receive_response, udp_receive, udp_blocking_receive"]}
{"id": "C78", "title": "The commands of a whole control call respect the limits in spite of rounding", "statement": "C69 holds for the doubles that are sent, although all constants, the filter and the limiter are computed with rounding and may overflow: in a control call with rate limiting in which the robot follows, the joint velocities, joint positions and elbow positions on the wire respect the documented limits in velocity, acceleration and jerk, and torques change by at most 1 Nm from command to command. The robot may report velocities and accelerations with small errors. As in C69 the torque bound does not cover a call whose motion callback ends the motion in the very first cycle.", "quantifier": "every rounding with the error bound of IEEE binary64, every reachable Robot object, control function, callback behaviour, filter setting and schedule; any number of cycles", "why_tests_cant": "all callbacks, schedules and motions of any length, over all doubles; rounding errors could add up", "anchors": ["src/robot/control_loop.rs: do_loop, spin_motion, spin_control", "src/robot/control_types.rs: convert_motion", "src/robot/rate_limiting.rs", "src/robot/robot_impl.rs: update, finish_motion"]}
{"id": "C79", "title": "Small errors in the reported Cartesian velocity do not matter", "statement": "If rate limiting is on and the robot reports the last commanded Cartesian velocity with small errors, like those of rounding, then the velocities that are sent still respect the documented velocity limits of translation and rotation, for motions of any length. (For a single step from a velocity below the documented limit this holds, and so does the acceleration limit. For whole motions it does not hold: an error of 2^-52 in one step is enough for the velocity to grow without regard to the limit, because the limiter takes the square root of a negative number.)", "quantifier": "every callback behaviour, filter setting, and sequence of robot states with reported velocities near the commanded ones; motions of any length", "why_tests_cant": "all motions in three dimensions and all errors; the escape needs a velocity within a rounding error of the limit and an acceleration at a right angle to it", "anchors": ["src/robot/rate_limiting.rs: limit_rate_single_cartesian_velocity, limit_rate_cartesian_velocity", "src/robot/control_types.rs: convert_motion for CartesianVelocities"]}
{"id": "C80", "title": "For callbacks within the limits, filtering is all that happens to a command", "statement": "If rate limiting is on, the cutoff frequency f is between 0 and 1000 Hz, the robot follows the commands, and the joint positions (or joint velocities, or torques) that the callback returns respect the documented limits with the margin of the limiter, then the commands that are sent are the values of the callback after a low pass of first order with the cutoff frequency f (y + y'/(2 pi f) = u, with the difference quotient over a millisecond), unchanged by the rate limiting; and a command lags behind the callback by at most the greatest velocity (acceleration, torque rate) divided by 2 pi f. For every sequence of positions, velocities or torques within the limits there is a robot that follows from rest and with which the call returns Ok.", "quantifier": "every callback behaviour within the limits, every cutoff frequency between 0 and 1000 Hz, motions of any length", "why_tests_cant": "signals of any length and shape; that the filtered signal is itself within the limits at every step is an induction over the motion", "anchors": ["src/robot/control_types.rs: convert_motion, filter_joint_positions", "src/robot/control_loop.rs: convert_control", "src/robot/low_pass_filter.rs: low_pass_filter", "src/robot/rate_limiting.rs: limit_rate_joint_positions, limit_rate_joint_velocities, limit_rate_torques"]}
{"id": "C81", "title": "The joint position example swings the robot as it says", "statement": "With a robot that rests in any position and follows the commands, the control call of the example generate_joint_position_motion moves the joints 4, 5 and 7 along start + pi/8 (1 - cos(2 pi t / 5)) and keeps the others where they are. Every command is within 0.0008 rad of that, it is exactly that motion after the default low pass (the rate limiting never interferes), the 5001st command and no other one ends the motion, and if the call returns Ok then 5001 commands were sent. For every start position there is a robot with which it returns Ok.", "quantifier": "every start position and every robot that follows the commands; also calls that end early with an error", "why_tests_cant": "all start positions; the sampled motion has to stay within the velocity, acceleration and jerk limits in all 5001 cycles", "anchors": ["examples/generate_joint_position_motion.rs: main, callback", "src/robot.rs: control_joint_positions"]}
{"id": "C82", "title": "The joint velocity examples turn the joints forth and back", "statement": "With a robot that rests and follows the commands, the control calls of the examples generate_joint_velocity_motion (omega = 1, T = 1) and generate_consecutive_motions (omega = 0.2, T = 4) turn the joints 4 to 7 with the velocity omega/2 (1 - cos(2 pi t / T)) for the time T and with its negative for the time T; the other joints stay. Every command is within 0.005 omega / T of that, it is exactly that motion after the default low pass, the command at 2 T and no other one ends the motion. If the call returns Ok, then 2 T commands (and one more) were sent, and every joint is back at its start but for 0.00001 rad. There is a robot with which it returns Ok.", "quantifier": "every robot that follows the commands; every omega between 0 and 1 and every T of at least a second and whole milliseconds; also calls that end early with an error", "why_tests_cant": "the sampled motion has to stay within the velocity, acceleration and jerk limits in every cycle, also where the sign changes, for all parameters", "anchors": ["examples/generate_joint_velocity_motion.rs: main, callback", "examples/generate_consecutive_motions.rs: callback", "src/robot.rs: control_joint_velocities"]}
{"id": "C83", "title": "The communication test counts every lost state", "statement": "In the control call of the example communication_test, however it ends, the number of samples is the number of calls of the callback after the first one, the time is the one between the first and the last state, and the number of lost states is exactly that of the milliseconds in between in which the callback was not called; computing it never overflows. If the call returns Ok, then the last state is the first one that comes at least ten seconds after the first. If the states show success rates between 0 and 1, then the average, the greatest and the least rate that are printed are those of the samples. Every command asks for no torques. For every sequence of rates there is a robot with which the call returns Ok.", "quantifier": "every reachable robot and every behaviour of the network and the robot: lost states, late states, errors in every place; every sequence of success rates", "why_tests_cant": "the counts have to agree with the states for every pattern of losses", "anchors": ["examples/communication_test.rs: main, callback", "src/robot.rs: control_torques", "src/robot/control_loop.rs: do_loop, spin_control"]}
{"id": "C84", "title": "read shows every received state until the callback ends it", "statement": "Robot::read sends nothing: all it does is to receive states, each with a higher message id than the one before, and to show each of them to the callback right after it was received. It returns Ok if and only if the callback answered false, which is then its last answer; an error is a network error, after a row of answers that all were true. The example echo_robot_state returns Ok if and only if it could connect and 101 states were shown; it never shows more. For every sequence of newer and newer states there is a robot with which read shows exactly these states.", "quantifier": "every callback with every captured value, every state of the connection and every behaviour of the network; every list of states for the existence part", "why_tests_cant": "the callback is an arbitrary function and the network may lose, delay or reorder states at every point", "anchors": ["src/robot.rs: read", "src/robot/robot_impl.rs: update", "examples/echo_robot_state.rs: main"]}
{"id": "C85", "title": "A program with a gripper sends what it says, and the grasping example ends as the states say", "statement": "A session with a Gripper sends the request to connect and then the request of each command, with its arguments, in the order of the calls, and nothing else; if a call hangs or panics, only the first of them. The example grasp_object sends at most: connect, homing (if asked for), one grasp of the given width with 0.1 m/s and 60 N, stop. If it ends with the message that the object is too large, then no grasp was sent, and the last state received shows a smaller maximal width. If it ends with the message that the object is lost, then the last state before the grasp allowed it, the last state after the grasp shows no grasped object, and no stop is sent. If it ends with Ok, then the last state after the grasp and before the stop shows a grasped object. With a gripper that answers and sends its states, it does end, in the way the states say.", "quantifier": "every list of calls, every behaviour of the gripper and the network; for the example every width and with or without homing. For the states: all datagrams have the size of a gripper state and no system call fails", "why_tests_cant": "the order of answers and states, and what waits in the sockets, is not under the control of a test", "anchors": ["src/gripper.rs: Gripper::new, homing, grasp, stop, move_gripper, read_once, server_version", "examples/grasp_object.rs: main"]}
{"id": "C86", "title": "A joint motion reaches its goal in spite of rounding", "statement": "A MotionGenerator whose every operation is rounded like binary64, for a speed factor between 1 % and 100 %, and start and goal within 4 rad: the first call fixes a smooth path for each joint from its start to its goal, within the velocity and acceleration limits scaled by the speed factor up to 0.1 %. All joints that move take the same time up to 0.1 %, which is the time the slowest of them needs. Every call answers finite positions on these paths up to a few nanoradians. Within 1000 s the motion is reported as finished exactly when the times of all paths are over, up to a few nanoseconds; then each joint that had to move is within 1e-8 rad of its goal and every other one within 1.1e-6 rad. At the latest the motion is finished 5.01 s divided by the speed factor after the start.", "quantifier": "every rounding with the error bound of binary64 that keeps zero, every speed factor in [0.01, 1], every start and goal in [-4, 4] rad, every list of positive periods whose sum is at most 1000 s, whatever the states of later calls show", "why_tests_cant": "the planner computes with square roots of differences and quotients of small numbers, where cancellation is the worst; whether the result is bad for some of the 2^900 pairs of start and goal is not found by trying", "anchors": ["src/utils.rs: MotionGenerator", "src/robot/control_types.rs: JointPositions"]}
{"id": "C87", "title": "The low-pass filter for poses moves and turns by the same share", "statement": "A pose command with a cutoff frequency below 1000 Hz and without rate limiting goes from the last command towards the pose the callback asks for: the position moves on the straight segment by the share 2πf/(1000+2πf) of the way, the rotation turns on the shortest arc by the same share of the angle, and the result is a valid pose. If the callback asks for the last command, the command stays. If it keeps asking for a pose, the commands converge to it geometrically, in position and in rotation.", "quantifier": "every pair of poses that are less than 180 degrees apart, every cutoff frequency below 1000 Hz, every state, any number of cycles", "why_tests_cant": "the existing test filters a pose with itself; whether the arguments of the interpolation are in the right order, or the shares of position and rotation agree, does not show there", "anchors": ["src/robot/low_pass_filter.rs: cartesian_low_pass_filter", "src/robot/control_types.rs: CartesianPose::convert_motion"]}
{"id": "C88", "title": "Slow Cartesian velocities pass through the low pass and the rate limiter", "statement": "If a callback returns Cartesian velocities that, one after the other, respect the velocity, acceleration and jerk limits with a small margin, and the robot follows, then with rate limiting and a low-pass filter with a cutoff frequency f every command is the callback's velocity after the low pass alone, but for 10⁻¹³ m/s and rad/s: the rate limiter does not take part. The command lags behind the callback's velocity by at most the largest acceleration divided by 2πf.", "quantifier": "every callback, every number of cycles, every cutoff frequency from 0.001 Hz up to 1000 Hz, every direction of the motion in space; also calls that end early", "why_tests_cant": "whether the limiter stays away depends on the whole history of velocities and on the filter's state; the limiter for vectors rescales even admissible values by a tiny amount, so that errors could add up over the cycles", "anchors": ["src/robot/control_types.rs: CartesianVelocities::convert_motion", "src/robot/rate_limiting.rs: limit_rate_cartesian_velocity", "src/robot/low_pass_filter.rs: low_pass_filter"]}
{"id": "C89", "title": "The Cartesian velocity example moves the end effector forth and back", "statement": "With a robot that rests and follows the commands, the control call of the example generate_cartesian_velocity_motion moves the end effector forward and down (x and z in equal parts) with the speed 0.05(1 - cos(2 pi t / 4)) m/s for four seconds and with its negative for four seconds. Every command is within 0.00013 m/s of that and is that motion after the default low pass, but for 10⁻¹³ m/s; no command turns the end effector or says something about the elbow. The command at eight seconds and no other one ends the motion. If the call returns Ok, then 8001 commands were sent, and the end effector is back at its start but for 0.001 mm. There is a robot with which it returns Ok.", "quantifier": "every robot that follows the commands; every cycle of the motion; also calls that end early with an error", "why_tests_cant": "the sampled motion has to stay within the velocity, acceleration and jerk limits in every cycle, also where the sign changes, and the rescalings by the limiter must not add up", "anchors": ["examples/generate_cartesian_velocity_motion.rs: main", "src/robot.rs: control_cartesian_velocities"]}
{"id": "C90", "title": "Slow poses and elbow positions pass through the low pass and the rate limiter", "statement": "If a callback returns poses that do not turn the end effector and whose positions, one after the other, respect the velocity, acceleration and jerk limits with a small margin, and the robot follows, then with rate limiting and a low-pass filter with a cutoff frequency f every command keeps the rotation exactly and its position is the callback's position after the low pass alone, but for 10⁻¹⁶ m; it lags behind by at most the velocity limit divided by 2πf. For callbacks that return an elbow, with poses or with Cartesian velocities, the same holds for the elbow position exactly; the sign is that of the callback, and the command says that the elbow is valid.", "quantifier": "every callback, every number of cycles, every cutoff frequency from 0.001 Hz (elbow: above zero) up to 1000 Hz, every rotation that nalgebra reads right; also calls that end early", "why_tests_cant": "pose, filter and limiter interact over the whole history; a rescaling error or a turn in a single cycle would be carried to all later ones", "anchors": ["src/robot/control_types.rs: CartesianPose::convert_motion", "src/robot/rate_limiting.rs: limit_rate_cartesian_pose, limit_rate_position", "src/robot/low_pass_filter.rs: cartesian_low_pass_filter, low_pass_filter"]}
{"id": "C91", "title": "The Cartesian pose example moves the end effector on an arc and back", "statement": "With a robot whose end effector rests at some pose and follows the commands, the control call of the example generate_cartesian_pose_motion moves the end effector on a circle with a radius of 0.3 m, forward and down, and back. Every command is within 0.25 mm of the intended position on the arc and is that motion after the default low pass, but for 10⁻¹⁶ m; every command has the rotation of the start and says nothing about the elbow. The command at ten seconds and no other one ends the motion. If the call returns Ok, then 10001 commands were sent, and the last one is the start but for 0.001 mm. From every pose there is a robot with which it returns Ok.", "quantifier": "every start position, every rotation that nalgebra reads right, every robot that follows the commands; every cycle of the motion; also calls that end early with an error", "why_tests_cant": "the sampled arc has to stay within the velocity, acceleration and jerk limits in every cycle from every start pose, and the rotation must not drift in any of the 10001 cycles", "anchors": ["examples/generate_cartesian_pose_motion.rs: main", "src/robot.rs: control_cartesian_pose"]}
{"id": "C92", "title": "The elbow example moves the elbow and nothing else", "statement": "With a robot whose end effector and elbow rest and which follows the commands, the control call of the example generate_elbow_motion moves the elbow by up to 36 degrees and back. Every command has exactly the pose of the start, is marked as having a valid elbow, has the sign of the start, and its elbow position is the intended one after the default low pass, within 0.00032 rad. The command at ten seconds and no other one ends the motion. If the call returns Ok, then 10001 commands were sent, and the last elbow position is that of the start but for 10⁻⁶ rad. From every pose and elbow position there is a robot with which it returns Ok.", "quantifier": "every start pose with a rotation that nalgebra reads right, every elbow position and sign, every robot that follows the commands; every cycle; also calls that end early with an error", "why_tests_cant": "the pose must not move by rounding in filter and limiter in any cycle, and the elbow must stay within its limits in every cycle from every start", "anchors": ["examples/generate_elbow_motion.rs: main", "src/robot.rs: control_cartesian_pose"]}
{"id": "C93", "title": "The impedance example is a damped spring", "statement": "The torques of the example cartesian_impedance_control are those of a spring and a damper between the pose of the end effector and the pose at the start, and the Coriolis torques: at rest in that pose the torques are the Coriolis torques. The spring has an energy that is zero just in that pose and positive elsewhere, and whatever the arm does, the torques (without the Coriolis torques) only move energy between the spring and the arm or take it out: the rate at which the energy of the spring changes and the power of the torques add up to minus what the damper takes. The controller never ends by itself: the program returns Ok just after its control call has failed.", "quantifier": "every pose at the start, every pose of the end effector that is not turned by half a turn against it, every Jacobian, all joint velocities, all Coriolis torques, all differentiable paths of the end effector that go with them; both quaternions of a rotation; every world for the program", "why_tests_cant": "passivity is a statement about all motions; which of the two quaternions nalgebra picks is open, and the sign is to be corrected for every pair", "anchors": ["examples/cartesian_impedance_control.rs: main", "src/robot.rs: control_torques, read_once, load_model", "src/model.rs: zero_jacobian_from_state, coriolis_from_state"]}
{"id": "C94", "title": "The mirror example mirrors poses, and draws home without disturbing the end effector", "statement": "In the example mirror_robot the robot that the user guides gets no torques and sends its pose. The other robot is drawn by a spring and a damper to the image of the last pose that has arrived in a mirror at y = 0: the place where the mirror shows each point of the end effector. Further torques draw its joints towards the home position: they never push away from it, they vanish there, and they do not act on the end effector where the Jacobian has no small singular values.", "quantifier": "every pose of both robots that are not half a turn apart, every Jacobian, all joint positions and velocities; whether or not a new pose has arrived in time", "why_tests_cant": "the claim about the null space holds for every Jacobian and every joint position; the mirrored quaternion must stand for the mirrored rotation for all rotations", "anchors": ["examples/mirror_robot.rs: main", "src/robot.rs: control_torques", "src/utils.rs: array_to_isometry"]}
{"id": "C95", "title": "The example programs ask the robot for what they say, in this order, and stop at the first error", "statement": "The examples that move the robot connect, set the default behaviour, set their collision thresholds (and the joint impedance, where they do so), move to the start position with half the speed and then start their motion. If the program returns Ok, the robot has been asked for exactly this, in this order; if a call does not return Ok, the program ends with its result and the robot has been asked for the first part of it only, and possibly to stop the last motion. The example generate_consecutive_motions makes five motions; if one ends with a ControlException it asks the robot to recover and goes on with the next one, and any other error ends it.", "quantifier": "all histories of the connection: every order and timing of answers, states and errors, every computer the program runs on", "why_tests_cant": "every call may fail in many ways at any time, and the order of requests must be right in each case", "anchors": ["examples/generate_joint_position_motion.rs: main", "examples/generate_joint_velocity_motion.rs: main", "examples/generate_cartesian_pose_motion.rs: main", "examples/generate_cartesian_velocity_motion.rs: main", "examples/generate_elbow_motion.rs: main", "examples/generate_consecutive_motions.rs: main", "examples/communication_test.rs: main", "src/robot.rs: Robot"]}
{"id": "C96", "title": "The example programs go to their start position and then make their motion from there", "statement": "Let an example program with the usual beginning (joint positions, joint velocities, Cartesian pose, elbow, communication test), or the Cartesian velocity program, return Ok. Then it made exactly two motions, and only the last command of each says that it is finished. If the robot follows, the first one leads from wherever the joints were to the start position of the examples, with at most half the speed of joint_motion, and ends there. If the robot also follows in the second one and rests in between, then the joint position program swings the joints around the start position and ends after 5001 commands, each within a millirad of the intended position, and the joint velocity program turns the joints 4 to 7 forth and back, ends after 2001 commands and brings the arm back to the start position within a hundredth of a millirad. The Cartesian pose program moves the end effector from the pose that it has after the first motion on the arc and back (10001 commands, within 0.25 mm, without turning, the last one within 0.001 mm of that pose); the elbow program keeps the pose and moves the elbow forth and back (10001 commands); the Cartesian velocity program moves the end effector forth and back (8001 commands) and leaves it within 0.001 mm of where it was. For every start there are robots that follow, and then the programs return Ok.", "quantifier": "all starting positions of the joints (except those less than a fifth of a millirad from the goal in all joints), all histories of the connection, all states that a robot that follows can send", "why_tests_cant": "the starting position is any point of a continuum, the time the first motion takes depends on it, and what the second motion does depends on where the first one ended", "anchors": ["examples/generate_joint_position_motion.rs: main", "examples/generate_joint_velocity_motion.rs: main", "src/robot.rs: Robot::joint_motion", "src/utils.rs: MotionGenerator", "src/robot/control_types.rs: JointPositions, JointVelocities", "src/robot/rate_limiting.rs: limit_rate_joint_positions", "examples/generate_cartesian_pose_motion.rs", "examples/generate_elbow_motion.rs", "examples/generate_cartesian_velocity_motion.rs"]}
{"id": "C97", "title": "The example programs that use the model make their calls in order, ask for nothing else, and never move the robot when they report an error", "statement": "download_model connects, loads the model persistently and copies the file: the first step that fails is the result; on success the copy equals the file that was already there, or the bytes the robot sent in answer to the one request for the model, and the original stays. print_joint_poses connects, loads the model without keeping it, reads one state and prints for Joint 1 to Joint 7, the flange and the end effector the pose the model gives for that state; on success it has removed a model file that was there before, and left one that it has downloaded itself. Neither asks the robot for anything but the connection and, if there was no file, the model. cartesian_impedance_control connects, loads the model, makes three settings, reads a state and controls the robot: the first error before the control call is the result, and then the robot was not asked to move; however the control call ends, with Ok or with an error, the program returns Ok.", "quantifier": "for all schedules and bytes of the robot and of the operating system, all contents of the model file, all libraries, starting from a fresh program", "why_tests_cant": "the order of calls and the requests must hold for every point at which a call can fail; a test sees one failure, and the examples have no tests.", "anchors": ["examples/download_model.rs: main", "examples/print_joint_poses.rs: main", "examples/cartesian_impedance_control.rs: main", "src/model.rs: Frame, Model::pose_from_state", "src/robot.rs: Robot::load_model, Robot::read_once"]}
{"id": "C98", "title": "The mirror follows the poses of the user's robot in order, and a lag never shrinks", "statement": "In mirror_robot one thread controls the robot that the user guides and sends its pose in every call of its callback, and another thread controls the mirror and takes at most one pose in every call. For every order in which the two callbacks are called: the user's robot gets no torques; the mirror takes the poses in the order in which they were sent and leaves none out; the pose that it follows is the one that the user's robot had n of its calls ago, where n is the largest number by which the user's robot was called more often than the mirror in some period up to now. So a mirror that has fallen behind stays behind for as long as both are called equally often, and it follows the newest pose if it was never called less often.", "quantifier": "all interleavings of the calls of the two callbacks, of any length, and all states of both robots", "why_tests_cant": "the order of the calls is chosen by the scheduler of the operating system and by two robots, and the lag depends on the whole history", "anchors": ["examples/mirror_robot.rs: main"]}
{"id": "C99", "title": "The text of a list of errors tells which errors there are", "statement": "Printing the errors of a robot state (as in the text of a ControlException) shows the name of each error in quotes, in the order of the flags, separated by commas and in brackets; so different lists of errors have different texts. (If there are no errors, the text is an opening bracket without the closing one.)", "quantifier": "all lists of errors, of any length", "why_tests_cant": "there are 2^41 patterns of error flags; a test sees a few texts", "anchors": ["src/robot/errors.rs: Display for FrankaErrors", "src/robot/error.rs: FrankaError"]}
{"id": "C100", "title": "The low-pass filter does its job in spite of rounding, however long the motion is", "statement": "Numbers are rounded after every operation and may overflow. For a cutoff frequency from 0.01 Hz to 1000 Hz and bounded values, the filter never panics and never returns anything but a finite number; filtering again and again, for as long as one likes, stays within 5e-15 B / share of what a filter without rounding would return, where B is the bound of the values and share is the part of the way that the filter goes in a step; towards a constant value the difference shrinks geometrically down to that error. So it is for the commands of a control call without rate limiting: joint positions, joint velocities and torques that are commanded are the values of the callbacks after a first order low pass with the cutoff frequency of the call, up to this error (cutoff frequency at most 999 Hz).", "quantifier": "all roundings with a relative error of at most 2^-53 and gradual underflow, all cutoff frequencies, all values and starts within the bound, all lengths; all control calls in all worlds, for the commands of all milliseconds", "why_tests_cant": "rounding errors of a feedback depend on every bit of all values before and could add up or overflow after a long time", "anchors": ["src/robot/low_pass_filter.rs: low_pass_filter", "src/robot/control_types.rs: ConvertMotion", "src/robot/control_loop.rs: convert_torques"]}
{"id": "C101", "title": "Cartesian velocities respect the limits step by step in spite of rounding", "statement": "Numbers are rounded after every operation and may overflow. If the robot reports a last commanded Cartesian velocity of at most 1.999 m/s and 2.499 rad/s, then with rate limiting every finite velocity the callback asks for, however large, with any filter, is turned into a finite velocity, and the step from the reported velocity to the one that is sent respects the documented limits of translation and rotation for velocity (2 m/s, 2.5 rad/s) and acceleration (13 m/s2, 25 rad/s2). So it is in every cycle of a control call with Cartesian velocities. Without filter and elbow such a command never panics.", "quantifier": "all roundings with a relative error of at most 2^-53 and gradual underflow, all commanded velocities, all reported velocities below the bounds and accelerations up to a million; all control calls in all worlds, in all cycles", "why_tests_cant": "the limiter divides by lengths, takes roots of differences that may be negative because of rounding, and squares numbers that may overflow; whether one of these becomes NaN or a wrong direction depends on every bit", "anchors": ["src/robot/rate_limiting.rs: limit_rate_cartesian_velocity, limit_rate_single_cartesian_velocity", "src/robot/control_types.rs: CartesianVelocities"]}
{"id": "C102", "title": "The mirror example moves neither robot before both are ready, and never returns Ok", "statement": "The program mirror_robot asks each of its two robots for the connection, the settings (the mirror, before them, for the model if there is no file yet), one motion to the start position and one with torques, in this order and for nothing else; what has been asked for when it ends, at whatever point, is the first few of that, and behind a last motion there may be a request to stop it. Neither robot is asked to move before both have accepted all settings and Enter is pressed, and neither is asked for the motion with torques before both have reached the start position. If a connection or a call of the preparation fails then that is the result and nothing more is asked for. After that the result is the mirror's: if it does not reach the start position that is the result; if the user's robot does not, the program panics or waits forever; otherwise it is the result of controlling the mirror, which starts from the pose that the user's robot had at the beginning. What becomes of the control of the user's robot has no influence. The program never returns Ok.", "quantifier": "all worlds of both robots, everything that the mirror may find in the channel, every point at which the thread of the user's robot is cut off by the end of the process, and whether Enter is pressed", "why_tests_cant": "there are two robots and two threads; each call may fail in many ways, and how far the other thread has come when the process ends depends on the schedule", "anchors": ["examples/mirror_robot.rs: main", "src/robot.rs: Robot::joint_motion, Robot::control_torques"]}
{"id": "C103", "title": "The consecutive motions example makes every motion from its beginning, also after errors", "statement": "If the program generate_consecutive_motions returns Ok, then it has sent six Move requests. The first motion leads the joints, wherever they are, to the start position of the examples with at most half the speed of joint_motion. Each of the other five turns the joints 4 to 7 forth and back with at most 0.2 rad/s from its own beginning, whatever became of the motions before it: its command in millisecond n is within 0.00025 rad/s of the intended velocity at this time, and it has at most 8001 commands. A motion after which the robot was not asked to recover was made to its end: it has 8001 commands, only the last one says that the motion is finished, and the arm is back where it was, but for 0.00001 rad. For every start there is a robot with which this happens.", "quantifier": "all starting positions of the joints (except those less than a fifth of a millirad from the goal in all joints), all histories of the connection, any of the motions interrupted at any time by the robot, all states that a robot that follows can send", "why_tests_cant": "each motion can be interrupted in any cycle and for any reason, and what the next motion does must not depend on it", "anchors": ["examples/generate_consecutive_motions.rs: main", "src/robot.rs: Robot::joint_motion, Robot::control_joint_velocities, Robot::automatic_error_recovery", "src/robot/control_loop.rs: ControlLoop", "src/utils.rs: MotionGenerator"]}
{"id": "C104", "title": "Motions and torques within the limits are followed in spite of rounding", "statement": "With rate limiting, but without the low-pass filter, a robot that the callback leads within 99.9 % of the limits receives what the callback returns, although the code computes with rounded doubles: every command differs by at most 3e-12 rad/s (joint velocities), 1e-13 rad (joint positions up to 9 rad), 1e-11 Nm (torques) from the value returned in the same cycle, also after any number of cycles. With a cutoff frequency from 0.1 to 999 Hz the commands differ by at most 1e-8 rad/s, 1e-10 rad, 1e-8 Nm from the exactly computed low pass of the returned values, if this low pass is within 99.9 % of the limits. A single limiter computed with rounding differs from the exactly computed one by at most 2e-12 rad/s, 1e-14 rad and 2e-12 Nm and does not panic, also for values that exceed the limits (velocities up to 100 rad/s, positions up to 0.05 rad from the last one, torques up to 1000 Nm).", "quantifier": "all roundings with relative error up to 2^-53, all motions within 99.9 % of the limits, all numbers of cycles, all robots whose reports of the last commanded velocity and acceleration are accurate to 1e-10 rad/s and 1e-7 rad/s²", "why_tests_cant": "rounding errors of all cycles pass through the robot back into the limiter, so they could add up; a bound for all motions and all lengths cannot be tested", "anchors": ["src/robot/rate_limiting.rs: limit_rate_joint_velocities, limit_rate_joint_positions, limit_rate_torques", "src/robot/low_pass_filter.rs: low_pass_filter", "src/robot/control_types.rs: JointVelocities, JointPositions, ConvertMotion", "src/robot/control_loop.rs: ControlLoop"]}
{"id": "C105", "title": "Cartesian velocities within the limits are followed in spite of rounding", "statement": "With rate limiting, but without the low-pass filter, a Cartesian velocity motion that the callback leads within 99.9 % of the limits for translation and rotation is sent as the callback returns it, although lengths, directions and square roots are computed with rounded doubles: every component of every command differs by at most 2e-14 m/s or rad/s from the value returned in the same cycle, also after any number of cycles. With a cutoff frequency from 0.1 to 999 Hz the commands differ by at most 1e-10 m/s or rad/s from the exactly computed low pass of the returned velocities. This holds for every elbow. A single limiter call that respects 99.9 % of the limits does not panic and changes its command by at most 1e-15. For every such sequence of velocities (of at most 1 m/s and rad/s in each component) there is a robot that follows it with the filter on and with which the call returns Ok.", "quantifier": "all roundings with relative error up to 2^-53, all Cartesian velocity motions within 99.9 % of the limits, all numbers of cycles, all elbows, all robots whose reports of the last commanded acceleration are accurate to 1e-7", "why_tests_cant": "the limiter has branches for tiny vectors and normalizes vectors of every length; that no motion, direction or rounding makes it deviate, and that the deviations of all cycles do not add up, cannot be tested", "anchors": ["src/robot/rate_limiting.rs: limit_rate_cartesian_velocity, limit_rate_single_cartesian_velocity", "src/robot/low_pass_filter.rs: low_pass_filter", "src/robot/control_types.rs: CartesianVelocities, ConvertMotion", "src/robot/control_loop.rs: ControlLoop"]}
{"id": "C106", "title": "A joint motion is carried out as planned in spite of rounding", "statement": "When joint_motion is called with a speed factor from 1 % to 98 %, from a start to a goal within 4 rad, and the robot starts at rest and follows its commands, then the commands are those of a smooth path for each joint from its start to its goal, with the joint's speed and acceleration limits scaled by the speed factor up to 0.1 %, although the planning, the adding up of the time, the evaluation of the path and the rate limiting are computed with rounded doubles: the n-th command is within 5e-9 rad of the path after n ms. All joints that move take the same time up to 0.1 %, which is what the slowest of them needs. The command that ends the motion is the last one, it comes when the paths end, up to 0.2 microseconds, and then each joint that had to move is within 1e-8 rad of its goal. A call that returns Ok has sent it. Such a motion happens for every start and goal.", "quantifier": "all roundings with relative error up to 2^-53 that keep zero, all starts, goals and speed factors in the given ranges (slow, or with a joint that moves at least 0.0002 rad), every reachable program state and schedule in which the robot follows with reports of velocity and acceleration that are accurate to 1e-10 and 1e-7", "why_tests_cant": "a run has up to half a million cycles in each of which time, path and rate limiter are rounded; that the errors do not add up or trip the rate limiter for any of the start and goal positions cannot be tested", "anchors": ["src/utils.rs: MotionGenerator", "src/robot.rs: Robot::joint_motion", "src/robot/rate_limiting.rs: limit_rate_joint_positions, limit_rate_position", "src/robot/control_loop.rs: ControlLoop"]}
{"id": "C107", "title": "The text of a log record tells everything that is in it", "statement": "Two records of a log for which Record::log gives the same text are the same record: the same robot state in all of its numbers, errors, mode and time, and the same command in all of its five parts. So a program which saves the records as text has saved the whole log. Each array of the state is shown under its own name, and each array of the command under the name of its kind, with whether the motion has finished.", "quantifier": "all records, with arbitrary numbers, lists of errors of any length, modes and times; all logs", "why_tests_cant": "that no two different records share a text is a claim about all pairs of records; lists of errors, optional elbows and times with fractions are of variable length and are written without escapes", "anchors": ["src/robot/logger.rs: Record::log, Record, RobotCommandLog", "src/robot/robot_state.rs: RobotState", "src/robot/errors.rs: FrankaErrors", "src/robot/control_types.rs: JointPositions, JointVelocities, CartesianPose, CartesianVelocities, Torques"]}
{"id": "C108", "title": "The joint position example swings the robot as it says in spite of rounding", "statement": "With a robot that rests in any position within 8 rad and follows the commands, the control call of the example generate_joint_position_motion moves the joints 4, 5 and 7 along start + pi/8 (1 - cos(2 pi t / 5)) and keeps the others where they are, although the adding up of the time, the cosine, the low pass and the rate limiting are computed with rounded doubles. Every command is within 1e-8 rad of that motion after the default low pass, and within 0.00081 rad of the motion itself. The motion ends with the 5001st or the 5002nd command (which of them depends on the rounding of the summed time), no command follows, and a call that returns Ok has sent it. From every such position there is a robot with which the call returns Ok.", "quantifier": "all roundings with relative error up to 2^-53 that keep zero, all start positions within 8 rad, every reachable program state and schedule in which the robot follows with reports of velocity and acceleration that are accurate to 1e-10 and 1e-7; also calls that end early with an error", "why_tests_cant": "all start positions and roundings; the rounding errors of 5001 cycles add up in the time, and those of the commands come back through the reports of the robot", "anchors": ["examples/generate_joint_position_motion.rs: main, callback", "src/robot.rs: control_joint_positions", "src/robot/low_pass_filter.rs: low_pass_filter", "src/robot/rate_limiting.rs: limit_rate_joint_positions"]}
{"id": "C109", "title": "The joint velocity examples turn the joints forth and back in spite of rounding", "statement": "With a robot that rests and follows the commands, the control calls of the examples generate_joint_velocity_motion (1 rad/s, 1 s) and generate_consecutive_motions (0.2 rad/s, 4 s) turn the joints 4 to 7 forth for the time T and back for the time T with the velocity omega/2 (1 - cos(2 pi t / T)), although the adding up of the time, the power that gives the direction, the cosine, the low pass and the rate limiting are computed with rounded doubles. The direction may change a cycle too early or too late, but only where the velocity vanishes. Every command is within 1e-8 rad/s of that motion after the default low pass and within 0.005 omega/T + 1e-8 rad/s of the motion itself. The motion ends with the command at the time 2T or with the next one, which is almost zero; no command follows; a call that returns Ok has sent it, and then the robot is back where it started, but for 0.00002 rad. There is a robot with which the call returns Ok.", "quantifier": "all roundings with relative error up to 2^-53 that keep the integers of up to 53 bits, all velocities omega from 0 to 1 rad/s and times T of 1 to 4 s, every reachable program state and schedule in which the robot follows with reports of the acceleration that are accurate to 1e-7; also calls that end early with an error", "why_tests_cant": "all roundings, velocities and times; the rounding errors of up to 8002 cycles add up in the time, from which floor and fmod take the direction, and those of the commands come back through the reports of the robot", "anchors": ["examples/generate_joint_velocity_motion.rs: main, callback", "examples/generate_consecutive_motions.rs: main, callback", "src/robot.rs: control_joint_velocities", "src/robot/low_pass_filter.rs: low_pass_filter", "src/robot/rate_limiting.rs: limit_rate_joint_velocities"]}
{"id": "C110", "title": "The Cartesian velocity example moves the end effector forth and back in spite of rounding", "statement": "With a robot that rests and follows the commands, the control call of the example generate_cartesian_velocity_motion moves the end effector forward and down (x and z in equal parts) for four seconds and back for four seconds with the velocity 0.05 (1 - cos(2 pi t / 4)) m/s, although the adding up of the time, the power that gives the direction, the sine and cosines, the low pass, the lengths of vectors and the rate limiting are computed with rounded doubles. Every command is within 1e-8 m/s per component of that motion after the default low pass and within 0.00013 m/s of the motion itself, turns the end effector by at most 1e-8 rad/s and says nothing about the elbow. The motion ends with the command at eight seconds or with the next one, which is almost zero; no command follows; a call that returns Ok has sent it, and then the end effector is back where it started, but for a thousandth of a millimetre. There is a robot with which the call returns Ok.", "quantifier": "all roundings with relative error up to 2^-53 that keep the integers of up to 53 bits, every reachable program state and schedule in which the robot follows with reports of the acceleration that are accurate to 1e-7; also calls that end early with an error", "why_tests_cant": "all roundings; the rounding errors of up to 8002 cycles add up in the time, from which floor and fmod take the direction, and those of the commands come back through the reports of the robot", "anchors": ["examples/generate_cartesian_velocity_motion.rs: main, callback", "src/robot.rs: control_cartesian_velocities", "src/robot/low_pass_filter.rs: low_pass_filter", "src/robot/rate_limiting.rs: limit_rate_cartesian_velocity"]}
{"id": "C111", "title": "The example programs go to their start position and then make their motion from there in spite of rounding", "statement": "Let the joint position, the joint velocity or the Cartesian velocity program return Ok, where all numbers are rounded doubles. Then it made exactly two motions, and only the last command of each says that it is finished. If the robot follows, the first one leads on smooth paths (up to 5e-9 rad) from wherever the joints were to the start position of the examples, with half the speed of joint_motion (up to 0.1 %), and its last command is within 1.2e-6 rad of it (2e-8 rad for a joint that had to move). If the robot rests in between and follows in the second one, the joint position program swings the joints around the start position, each command within 0.82 millirad of the intended position, and ends after 5001 or 5002 commands; the joint velocity program turns the joints 4 to 7 forth and back, ends after 2001 or 2002 commands and brings the arm back to the start position within 0.000022 rad; the Cartesian velocity program moves the end effector forth and back, ends after 8001 or 8002 commands and leaves it within 0.001 mm in each direction of where it was. For every start there are robots that follow, and then all three programs return Ok.", "quantifier": "all roundings with relative error up to 2^-53 that keep zero (the velocity programs: the integers of up to 53 bits), all starting positions within 4 rad with a joint at least 0.00021 rad from its goal, all histories of the connection, all states that a robot that follows can send", "why_tests_cant": "all starts and roundings; the second motion starts from where the rounding errors of the first one have led", "anchors": ["examples/generate_joint_position_motion.rs: main", "examples/generate_joint_velocity_motion.rs: main", "examples/generate_cartesian_velocity_motion.rs: main", "src/robot.rs: joint_motion", "src/utils.rs: MotionGenerator"]}
