# Formal model of libfranka-rs: design

The model is written in Lean 4.33.0 (with Mathlib) in `lean/Verif/`.
`Model/*` transcribes the Rust code, `Spec/*` holds the small independent
specifications, `Lemmas/*` holds helper lemmas, `Props/*` holds the property theorems
(each followed by an `example` that shows its hypotheses are met by a non-trivial case).

## How code becomes Lean

* **Effects.** A Rust function which touches sockets becomes
  `Prog α = World → Res α × World` (`Model/World.lean`).
  `Res` is `ok | err (FrankaException) | panic | blocked`. A Rust `unwrap`, `assert!`, slice
  out of range, `Duration` underflow, ... is an explicit `panic`.
* **Environment and schedules.** The world holds the kernel receive buffers and a *script*:
  a finite list of `Tick`s. Every system call (poll, peek, read, recv_from, send) consumes one tick;
  a tick says which TCP bytes and UDP datagrams arrive just before that call, whether the peer closes the
  stream, and whether the call fails. A theorem that quantifies over the script quantifies over
  every arrival order, segmentation, timing, loss and duplication. When the script runs out the program is
  `blocked` (it still waits in a system call), so loops are total without a bound on their length: a result for
  every script is a result for every finite prefix of every execution.
  `mio`/`epoll` edge triggering is modelled: a readiness flag is set by an arrival and cleared by a poll.
* **Observations.** The world records a trace: TCP requests written, UDP commands sent, callbacks invoked
  (with their arguments), states accepted.
* **Floating point.** The code is transcribed once, generically over a type `F` with the operations of class
  `Fl F` (no laws). Theorems about protocol, validation and finiteness hold for *every* `Fl F`, hence for
  IEEE doubles with any rounding. Numeric theorems use the instance `XR`: real numbers plus `nan`, `+inf`,
  `-inf` with IEEE rules for special values and exact (unrounded) arithmetic on finite values.
  Rounding and overflow of finite values are not modelled there (stated again at each theorem);
  signed zero is not distinguished. The limits of torques, joints and
  the elbow are proved again (C62) over `Rd` (`Spec/Rounding.lean`): doubles with overflow and any rounding that has the error bound of binary64.
* **Wire format.** bincode 1.3 (`bincode::serialize`/`deserialize`): fixed width little endian integers, `bool` as one byte 0/1,
  arrays without length prefix, `serde_repr` enums as their integer, trailing bytes ignored.
* **nalgebra.** Vector/matrix arithmetic is written out. Conversions matrix -> rotation/quaternion, `slerp`,
  `renormalize`, `scaled_axis` are uninterpreted operations of class `Geo F`. Most theorems hold for all of them. The theorems about the
  pose limiter (C46, C61) assume the specification `RotationLibrary` of `Spec/Nalgebra.lean`: in exact arithmetic, reading the matrix of a
  rotation which is no half turn gives that rotation, reading any matrix gives some rotation, and the scaled axis is axis times angle.
  `matrixGeo_lawful` shows that this specification can be met. Half turns are left out because the iterative `from_matrix` of nalgebra starts at the
  identity, where the gradient vanishes for a half turn.
  The torque examples (C93, C94) also use the coordinates of a quaternion and the pseudo-inverse (class `GeoExtra F`); what is assumed of them is
  `QuaternionLibrary` and `PseudoInverseLibrary` of `Spec/Impedance.lean`, which `Props/ImpedanceExample.lean` shows can be met.

## Trusted base

* Lean's kernel. The theorems depend on the axioms `propext`, `Classical.choice` and `Quot.sound` only; the last section of this file lists
  them for each theorem. No axiom is added, and nothing is trusted to compiled code. The tactic `kernel_rfl` (`Lemmas/ToyRun.lean`) closes a
  goal `a = b` with the term `Eq.refl a` without asking the elaborator; the kernel checks that term like any other.
* That the model transcribes the code. Each definition of `Model/*` cites file and lines.
* The semantics given above to bincode, serde, mio/epoll, the kernel sockets, `std::time::Duration`, `HashMap`, `VecDeque`, and to
  nalgebra where a theorem uses `RotationLibrary`, `QuaternionLibrary` or `PseudoInverseLibrary`.
* The bits of a double: class `Wire F` (and `LawfulWire F` for round trips). The theorems about control calls need `Wire F` without laws, so they hold for every
  representation.

## What is modelled

| source | model | left out |
|--------|-------|----------|
| `src/network.rs` | `Model/Network.lean`, `Model/World.lean`, `Model/Codec.lean` | name resolution, keep-alive options; `get_udp_port` is a field of the configuration |
| `src/robot/service_types.rs`, `src/robot/types.rs` | `Model/ServiceTypes.lean`, `Model/Types.lean` | the unused `DefaultStatus` |
| `src/robot/robot_impl.rs`, `src/robot/robot_control.rs` | `Model/RobotImpl.lean` | |
| `src/robot.rs` | `Model/Robot.lean` | the eight public control functions are the two generic ones at a kind of motion |
| `src/robot/control_loop.rs`, `src/robot/control_tools.rs` | `Model/ControlLoop.lean`, `Model/Filters.lean` | what the scheduler does with the priority |
| `src/robot/control_types.rs` | `Model/ControlTypes.lean`, `Model/Conversions.lean` | |
| `src/robot/rate_limiting.rs`, `src/robot/low_pass_filter.rs` | `Model/Filters.lean`, `Model/Geometry.lean` | |
| `src/robot/robot_state.rs`, `src/robot/errors.rs`, `src/robot/error.rs` | `Model/RobotState.lean`, `Model/Errors.lean`, `Model/LogText.lean` | |
| `src/robot/logger.rs`, `src/exception.rs` | `Model/Logger.lean`, `Model/LogText.lean`, `Model/World.lean` | the text of a number in a record; the `Debug` texts of exceptions |
| `src/robot/virtual_wall_cuboid.rs` | `Model/ServiceTypes.lean` | |
| `src/gripper.rs`, `src/gripper/*.rs` | `Model/Gripper.lean`, `Model/GripperTypes.lean` | |
| `src/model.rs`, `src/model/*.rs` | `Model/ModelLib.lean`, `Model/Robot.lean` (download) | `dlopen`, symbol lookup and the code of the downloaded library (uninterpreted functions) |
| `src/utils.rs` | `Model/MotionGen.lean`, `Model/Geometry.lean` | |
| `examples/*` | `Model/Examples.lean`: `generate_joint_position_motion`, `generate_joint_velocity_motion`, `generate_consecutive_motions`, `communication_test`, `echo_robot_state`, `grasp_object`, `generate_cartesian_velocity_motion`, `generate_cartesian_pose_motion`, `generate_elbow_motion`; `Model/Impedance.lean`: `cartesian_impedance_control`, both closures of `mirror_robot`; `Model/ModelPrograms.lean`: `download_model`, `print_joint_poses` ; `Model/Mirror.lean`: the channel between the threads of `mirror_robot`; `Model/MirrorProgram.lean`: its `main` | printing and the command line |

Also not modelled: thread scheduling and memory locking beyond their success or failure, text formatting of floats in messages, the duration of computations.

## How to read `seeded/LOG.jsonl`

One line per edit of the model in a scratch copy, followed by a build. `failed_proofs` are the proofs that Lean rejected in that build. A module that imports a
rejected one is not built then, so `theorems_failed` is derived: it names the theorems whose proofs use a rejected proof, according to the
dependencies of the proofs in the unedited project (at most 12 that do not belong to the property of the claim). A rejected lemma shows that this proof
of the theorem breaks, not that no other proof exists. For fifteen early edits a second build was made in the scratch copy with the
rejected proofs left open, to see which later proofs are rejected too; these are listed as well. Lines with a `note` are those where this says less: the edit survived, the edited model did not
compile, or no theorem of the property itself uses a rejected proof.

## Where the code does not do what a user would expect

The negation is proved with a witness, and the property is kept with the part that holds.

* A response that arrives in two TCP segments, cut inside its body, makes the call panic (C07).
* If two responses arrive in one burst, the second one is not seen until more bytes arrive (C09).
* A call on a connection that was closed, or to a robot that never answers, never returns (C10, C64). A control call with a robot that falls silent never returns (C16).
* `Robot::new` panics if no state arrives in time (C16).
* A burst of reordered states shows an old one (C12). Datagrams of a wrong size are accepted and mix with older contents (C13). After a burst from two
  senders the command goes to the first one (C15).
* An aborted `stop` is reported with the text of another error (C20).
* The time stamps of gripper states are not compared (C22).
* An error while the motion starts returns without stopping the motion (C30).
* The report of an aborted motion panics for some sizes of the log; so do a positive answer after an abort and a rejected StopMove (C32, C68).
* The check of poses accepts reflections and matrices that are not orthogonal (C37).
* The log of a control exception begins in the middle if it wrapped around, and shows records of earlier motions; its memory grows with each motion; log size zero
  panics (C39, C40).
* The Cartesian limiters do not keep the acceleration limit if the robot reports a velocity beyond the limit (C45, C46).
* A cutoff frequency of zero is accepted (C48).
* A `MotionGenerator` whose first period is not zero answers finished at the zero position (C54).
* `coriolis_from_state` passes the inertia of the load only (C56).
* `load_model(false)` keeps a downloaded file; a short or failed write leaves a broken file that is used later (C57).
* Huge finite joint positions overflow inside the limiter and panic (C62).
* If the motion callback ends the motion in the first cycle of a torque control call, zero torques are sent (C69).
* An empty list of errors is printed as an opening bracket without the closing one (C99).

## Plan per property

| id | modelled | how it is proved | theorems in |
|----|----------|-------|----|
| C01 | codecs of every robot and gripper request (`Model/ServiceTypes.lean`, `Model/GripperTypes.lean`), `sendRequest` | every request of every session is the encoding of a header and a body whose size field is its length: case analysis over the bodies, fixed lengths of codecs, invariant over the trace | `Props/Network.lean`, `Props/Wire.lean` |
| C02 | the same codecs | composition of lawful codecs: decoding an encoding followed by arbitrary bytes gives back the value; lifted to all requests of a session | `Props/Network.lean`, `Props/Wire.lean` |
| C03 | codecs of robot and gripper states | round trip, soundness of decoding and the byte offset of every field | `Props/Wire.lean` |
| C04 | codec of `RobotCommand`, `udp_send` | fixed length of the codec, round trip; the only error of sending is that of the operating system | `Props/CommandSize.lean`, `Props/Wire.lean` |
| C05 | codecs of all answers | an answer that decodes has its status byte among the known ones and the decoded status is that byte; every other byte string is refused | `Props/Wire.lean` |
| C06 | the counter `command_id` along every history of API calls | invariant: numbers of requests in the trace are strictly increasing until the counter would overflow, where the code panics | `Props/Network.lean` |
| C07 | `tcp_read_from_buffer` over kernel buffer and schedule | refinement: consumed bytes = messages delivered + pending; the claim as stated is false (panic when a header arrives with less than its body): negation by witness and `_partial` | `Props/Network.lean` |
| C08 | response table | invariant: table entry for id has header id | `Props/Network.lean` |
| C09 | edge triggered poll and `tcp_receive_response` | delivery: symbolic execution of the waiting loop for any number of polls; conservation of bytes; false for bursts: witness for every pair of answers | `Props/Network.lean` |
| C10 | end of file and silence on the TCP socket | no tick without bytes ends the waiting loop (induction over the script), so the call is blocked for every such schedule; only received bytes are returned | `Props/Network.lean` |
| C11 | `receive_robot_state`, `read_once`, `update` | invariant: the accepted states of a history have strictly increasing numbers | `Props/Stream.lean` |
| C12 | `receive_available`, `receive_newer` | the state returned is the newest of the datagrams read if they arrive in order; false for reordered datagrams: witness | `Props/Stream.lean` |
| C13 | drain loop of `udp_blocking_receive` | false (torn buffer): witness; `_partial` when all queued datagrams have the right size | `Props/Stream.lean` |
| C14 | `udp_receive`, `udp_blocking_receive`, the readiness flag of the UDP socket | invariant: a waiting datagram implies that the readiness flag is set or the library will look again | `Props/Stream.lean` |
| C15 | `udp_server_address`, `sendCommand` | invariant: the address is the source of a received datagram; false for two senders in one burst: witness | `Props/Stream.lean` |
| C16 | timeouts | decision logic; false for `Robot::new` (panic) and during control (cancel_motion waits for ever) | `Props/Stream.lean` |
| C17 | `Robot::new`, `Gripper::new`, the handshake | decision logic over every script; the first event of every session is the handshake | `Props/Api.lean` |
| C18 | setters and getters of `Robot` | one lemma for calls of the form request, wait, interpret answer (`rpc_spec`), for every script; `rpc_delivers` for the other direction | `Props/Api.lean` |
| C19 | `set_default_behavior` | sequence of three setters, each by C18 | `Props/Api.lean` |
| C20 | `stop`, `automatic_error_recovery` | as C18; false for an aborted stop | `Props/Api.lean` |
| C21 | gripper commands | as C18 | `Props/Api.lean` |
| C22 | gripper read_once | false: witness; `_partial` | `Props/Stream.lean` |
| C23 | `start_motion`, `control_*` | trace automaton (`Spec/Control.lean`) accepted by every control call: invariant through all loops | `Props/Control.lean` |
| C24 | `start_motion` | same automaton | `Props/Control.lean` |
| C25 | `update`, `send_robot_command`, all API calls | same automaton, plus the calls that are no control calls | `Props/Control.lean` |
| C26 | `control_loop`, `update` | same automaton: a command carries the number of the last accepted state | `Props/Control.lean` |
| C27 | `control_loop`: time since the last call | same automaton: the period handed to a callback is the difference of the numbers of the states | `Props/Control.lean` |
| C28 | `control_loop`, `convert_motion`, `convert_control` | same automaton; conversions without limit and filter are the identity | `Props/Control.lean` |
| C29 | `finish_motion` | same automaton | `Props/Control.lean` |
| C30 | `cancel_motion`, `throw_on_motion_error` | same automaton; false for errors of the start phase: witness | `Props/Control.lean` |
| C31 | `throw_on_motion_error`, `spin_motion`, `spin_control` | same automaton | `Props/Control.lean` |
| C32 | `throw_on_motion_error`, `create_control_exception` | same automaton; the panics have witnesses | `Props/Control.lean` |
| C33 | `cancel_motion`, `finish_motion` | invariant of the object between calls: no motion runs, and the next control call can start | `Props/Control.lean` |
| C34 | `assert!` of finiteness in the conversions, `limit_rate_*` | decision logic for every `Fl F`, lifted to every command of a control call | `Props/Control.lean` |
| C35 | `send_robot_command`, `convert_motion` | same automaton: the fields of other kinds of motion are zero | `Props/Control.lean` |
| C36 | `check_elbow` | decision logic for every `Fl F` | `Props/Control.lean`, `Props/Homogeneous.lean` |
| C37 | homogeneous check | completeness proved; soundness false: witness | `Props/Control.lean`, `Props/Homogeneous.lean` |
| C38 | real-time configuration | decision logic over every script | `Props/Control.lean` |
| C39 | `Logger`, `create_control_exception` | simulation of the ring with the list of the last samples; what the log holds in every case; witnesses for the disagreements | `Props/Log.lean` |
| C40 | `Logger` | invariant `Logger.Ok` of sizes; panics and growth have witnesses for all sizes | `Props/Log.lean` |
| C41 | `limit_rate_torques` over `XR` | real arithmetic, for each joint | `Props/Limits.lean` |
| C42 | `limit_rate_joint_velocities` over `XR` | inductive invariant on (velocity, acceleration) that survives every command: an acceleration that can be braked before the velocity limit | `Props/Limits.lean` |
| C43 | `limit_rate_joint_positions`, `limit_rate_position` over `XR` | positions as integrated velocities, reduction to C42 | `Props/Limits.lean` |
| C44 | all joint limiters over `XR` | inside the margins each clamp is the identity | `Props/Limits.lean` |
| C45 | `limit_rate_cartesian_velocity` over `XR` | vector inequalities; invariant along runs; witness outside | `Props/Cartesian.lean` |
| C46 | `limit_rate_cartesian_pose` over `XR` and the specification of nalgebra | C45 for the twist between two poses; rotation vectors; witness outside | `Props/Pose.lean` |
| C47 | `low_pass_filter` over `XR` | algebra of a convex combination, limit of a geometric sequence | `Props/Filter.lean` |
| C48 | assertions of `low_pass_filter` | decision logic over `XR`; false for zero | `Props/Filter.lean` |
| C49 | `combine_center_of_mass`, `combine_inertia_tensor` over `XR` | the totals are the moments of the union of two bodies given as lists of point masses (`Spec/Body.lean`), by algebra over sums | `Props/Body.lean` |
| C50 | `FrankaErrors`, 37 error flags | list lemmas over the whole table of flags | `Props/State.lean` |
| C51 | `RobotState::from` | field by field; lifted to the states shown to callbacks | `Props/State.lean` |
| C52 | `MotionGenerator` over `XR` | real analysis of the profile: piecewise polynomial, monotone | `Props/JointMotion.lean` |
| C53 | `MotionGenerator` over `XR` | derivatives, mean value theorem | `Props/JointMotion.lean` |
| C54 | `MotionGenerator` | false: witness for all first periods; `_partial` for zero | `Props/JointMotion.lean` |
| C55 | `Model::pose`, Jacobians | symbolic: which function of the library is called with which arguments | `Props/Kinematics.lean` |
| C56 | `Model::*_from_state` | symbolic; false for coriolis: witness | `Props/Kinematics.lean` |
| C57 | `load_model`, `LibraryDownloader`, a file as an effect | symbolic execution; false: witnesses | `Props/ModelFile.lean` |
| C58 | `MotionGenerator` over `XR` | second derivative of the profile | `Props/JointMotion.lean` |
| C59 | cycles of the visible trace vs records of the exception | invariant `LogOk`: the logger holds a sublist of the cycles of the object | `Props/Log.lean` |
| C60 | `limit_rate_cartesian_velocity` over `XR` | identity inside the margins | `Props/Cartesian.lean` |
| C61 | `limit_rate_cartesian_pose` over `XR` and the specification of nalgebra | identity inside the margins | `Props/Pose.lean` |
| C62 | the same limiters over rounded doubles | error propagation, and the invariant of C42 with a margin that absorbs the errors | `Props/Rounding.lean` |
| C63 | the waiting loop of `start_motion`, the table of answers | which answer ends which loop: invariants of the waiting loops and of the table of answers | `Props/Start.lean` |
| C64 | end and cancellation of motions, the table of answers | the order of answers among the visible events | `Props/Start.lean` |
| C65 | the whole control call, the loops that read datagrams and answers | total correctness: induction over the events of a motion, with the schedule of system calls as a second witness (Spec/Coop.lean); every loop of the library ends because the schedule supplies what it waits for | `Props/Complete.lean` |
| C66 | `Gripper::read_once`, `From<GripperStateIntern>` | invariant that the socket is drained between calls, conservation of datagrams, byte layout | `Props/GripperState.lean` |
| C67 | `server_version` of robot and gripper, `connect_robot`, `connect_gripper` | the stored version is an invariant of every call, and the constructor takes it from the answer to the handshake | `Props/Version.lean` |
| C68 | every function that can panic, on connections where system calls work and whole messages and states arrive (`Spec/Panic.lean`) | invariant `Inside`/`Live` of the connection and the log through every call (`Lemmas/Safe*.lean`); each panic of the model is reached only with one of the listed causes; each cause is shown to occur by an example | `Props/Panic.lean` |
| C69 | `exchanges` of the events of a control call: the states handed to the motion callback with the commands that answered them; doubles as reals | invariant over `Run`: every command is a conversion of its state (`run_exchanged`); then the bounded runs of C41-C46; a two cycle motion over the reals meets the hypotheses (`Props/ExchangeExample.lean`) | `Props/Exchange.lean` |
| C70 | what admissible values are (`Spec/Transparent.lean`); doubles as reals | `convert_motion` is the identity on admissible values (C44, C61, C39 pieces); invariant over `Run`: the command held is the conversion of the last callback output (`run_held`) | `Props/Transparent.lean` |
| C71 | system calls counted by the ticks of the schedule that were used | a potential argument: every system call is paid by a received datagram or by the end of the loop it is in | `Props/Bounded.lean` |
| C72 | schedules of a server that answers (Spec/Connect.lean) | symbolic execution of the constructor with the delivery lemmas of the exchange and datagram layers | `Props/Connect.lean` |
| C73 | schedules of a robot that aborts a motion (Spec/Abort.lean) and the events of a motion (Run) | symbolic execution of the loops with the delivery lemmas, induction over the events; order of the log from the increasing numbers of the states | `Props/Abort.lean` |
| C74 | schedules of whole sessions (Spec/CoopSession.lean): one constructor for each kind of call | induction over the session; between two calls an invariant on the numbers of the answers, the socket buffers and the last state | `Props/CoopSession.lean` |
| C75 | the robot that follows as a relation on the exchanges (Spec/Follow.lean); the path as a Move (Spec/JointMotion.lean) | invariant over the run of the motion; jerk bound of the sampled profile by the mean value theorem piece by piece; existence with a robot that reports the samples | `Props/Follow.lean`, `Props/FollowHappens.lean` |
| C76 | the conversions of control_types.rs (Model/Conversions.lean), isometries of nalgebra by their matrices | the loop over the matrix as a fold; then the laws of the rotation library | `Props/Conversions.lean` |
| C77 | schedules of whole gripper sessions (Spec/GripperSession.lean), calls with their values | induction over the session, as C74 | `Props/GripperSession.lean` |
| C78 | control calls over doubles with rounding (Spec/Rounding.lean, Spec/Exchange.lean) | the step lemmas of C62 for every exchange of a call (as C69), induction with bounded errors over the exchanges | `Props/RoundedCall.lean` |
| C79 | the Cartesian velocity limiter over the reals with infinities and NaN, all cases of the square root | case analysis for one step; an explicit motion (exponential approach to the limit, then a spiral) for the counterexample | `Props/CartesianErrors.lean` |
| C80 | the filter, the limiter and the control call; the values of the callbacks and the commands are read off the events | the admissible region of the limiter is convex and the low pass is a convex combination, so that the filtered signal is admissible by induction; the limiter leaves admissible values alone; the following robots are constructed | `Props/Smooth.lean`, `Props/SmoothJointsHappen.lean`, `Props/SmoothTorques.lean` |
| C81 | the closure of the example with its captured variables, run through the model of the control call | the callback's outputs in closed form; bounds for first and second differences of a sampled cosine; then as C80, along the automaton of the control call | `Props/ExamplePosition.lean` |
| C82 | the closure of the examples with its captured time, run through the model of the control call | the sign of the wave by its half period, bounds for its differences within a half and at the change of sign; telescoping sum of the low pass for the distance | `Props/ExampleVelocity.lean` |
| C83 | the closure of the example with its captured counters, run through the model of the control call | the captured value after a call is a fold of the closure over the calls (Lemmas/Threads.lean); the calls have strictly growing time stamps (C27), induction over them; counting the missing stamps by the complement of the image | `Props/ExampleCommunication.lean` |
| C84 | the model of read and of the whole example echo_robot_state | loop invariant over the states shown so far; the existence part builds the robot from the list (Lemmas/CoopSession.lean) | `Props/Reading.lean` |
| C85 | the model of the gripper API and of the whole example | one exchange per command (C21), the constructor (C17), reading shows nothing and sends nothing, states as sent (C66); the existence part from C77 | `Props/Grasping.lean` |
| C86 | the model over `Rd A`: numbers that are rounded after each operation, with the standard bound of binary64 for the error | relative errors of every intermediate value of the planner (`Rel`), absolute errors for the difference under the square root, then the path from the exact profile for the rounded speed; induction over the calls for the time | `Props/RoundedMotion.lean` |
| C87 | `cartesian_low_pass_filter` and `CartesianPose::convert_motion` over exact reals with an abstract rotation library that has the specification `RotationLibrary`, `Interpolates` | composition of turns about one axis; induction over the cycles for the convergence | `Props/PoseFilter.lean` |
| C88 | the conversion of Cartesian velocities over the reals, along the exchanges of a control call | invariant: the sent velocity is within the margin and near the low passed one; a contraction keeps the rescaling errors of all cycles together below 10⁻¹³ (`Lemmas/NearCartesian.lean`); the following robots are constructed | `Props/SmoothCartesian.lean`, `Props/SmoothTwistsHappen.lean` |
| C89 | the closure of the example with its captured time, run through the model of the control call | the limited motion is a recursively defined sequence (`Lemmas/PlannedCartesian.lean`); as C88 it stays near the low passed one, whose lag and sum are bounded as in C82 | `Props/ExampleCartesianVelocity.lean` |
| C90 | the conversion of poses and of the elbow over the reals, along the exchanges of a control call | one step: slerp and the limiter of the rotation leave a rotation that does not change alone (`Lemmas/NearPose.lean`); whole motions: as C88 for the velocities of the positions, and as C80 for the elbow | `Props/SmoothPose.lean` |
| C91 | the closure of the example with its captured pose and time, run through the model of the control call | the limited positions are a recursively defined sequence (`Lemmas/PlannedPose.lean`) near the low passed one; chords and second differences of the circle bound velocity and acceleration (`Lemmas/SlowPose.lean`); the rates of a low passed signal are low passed, which gives the end | `Props/ExamplePose.lean` |
| C92 | the closure of the example with what it captures, run through the model of the control call | a pose that stays is kept exactly by filter and limiter; the elbow is exactly low passed as in C90, with the sampled wave as in C81 | `Props/ExampleElbow.lean` |
| C93 | the closure of the example with its quaternion arithmetic, and the program step by step | quaternion algebra: the product with the inverse is that of the turn between the two, up to the sign that the code corrects; the derivative of the energy through the trace of the rotation; the program by the thread of the control call | `Props/Impedance.lean` |
| C94 | both closures of the example, with the content of the channel as an argument | the mirrored quaternion stands for the conjugate by the mirror; the projection is symmetric and idempotent by the laws of a pseudo-inverse | `Props/Impedance.lean` |
| C95 | the main functions of seven examples as programs over the modelled library | each call asks for its requests by C17, C18, C19, C20 and the runs of control calls; induction over the calls, and over the five motions | `Props/Programs.lean` |
| C96 | whole programs (C95), the exchanges of states and commands in them, robots that follow | the exchanges of a program are those of its control calls one after the other; C75 for the first motion, C81, C82, C89, C91 and C92 for the second one; a robot for every start: the two plans in one session of a robot that does its part | `Props/CartesianPrograms.lean`, `Props/CartesianVelocityProgram.lean`, `Props/ProgramMotions.lean`, `Props/ProgramMotionsHappen.lean` |
| C97 | the two programs in `Model/ModelPrograms`, the impedance program in `Model/Impedance`; a copy of a file is one system call | which call decides (`First`) by unfolding; the requests are composed along the calls (at most these, all of them if Ok) from C17, C18, C57 and the shape of control calls; printed poses from C55 | `Props/ModelPrograms.lean` |
| C98 | the channel and the two closures; a history is the list of their calls | invariant: content of the channel and captured pose in terms of the number of calls; that number by induction on the history over all its final parts | `Props/Mirror.lean` |
| C99 | `FrankaErrors.fmt`, `FrankaError.fmt` | the names in the order of the flags are a table in the specification; induction over the list; names have no quotation marks, so the text can be read back | `Props/ErrorText.lean` |
| C100 | `low_pass_filter`, `convert_motion`, `convert_torques` over doubles with rounding | error of one step from relative errors; the error of a run by induction, as the filter is a contraction; one cycle of the call from the turn of the control loop (C65 machinery) | `Props/RoundedFilter.lean` |
| C101 | `limit_rate_cartesian_velocity`, `CartesianVelocities::convert_motion`, `control_loop` over doubles with rounding | error bounds for length, direction, product and root of rounded vectors; NaN and infinity by cases; a step of the exact limiter with some slack | `Props/RoundedCartesian.lean` |
| C102 | `main` of `mirror_robot` from the connections to the end: both connections, the join, the two threads, and what the end of the process cuts off | calls in turn over a pair of worlds; what each call asks for; prefixes for the thread that is cut off; the callback of the mirror never finishes | `Props/MirrorProgram.lean` |
| C103 | the program of C95, its events divided at the Move requests (`Spec/ConsecutiveMotions.lean`) | the parts are the control calls, each with the request to recover behind it if it failed (C95_consecutive, induction over the motions); C75 for the first motion, C82 for the others; a robot for every start: six plans in one session | `Props/ConsecutiveProgram.lean`, `Props/ConsecutiveProgramHappens.lean` |
| C104 | the program of C11 with the roundings of C62; a small distance to the limits (`Spec/NearLimits.lean`) | the rounded limiter against the exact one, bound by bound; the exact one changes nothing inside the limits; the difference to the intended motion is an invariant over the cycles, since each command is computed from the intended one anew (and the filter forgets a share of the error per cycle); the following robots are constructed | `Props/RoundedPositionAll.lean`, `Props/RoundedTorqueAll.lean`, `Props/RoundedTransparent.lean`, `Props/RoundedVelocityAll.lean` |
| C105 | the program of C11 with the roundings of C62; a small distance to the limits (`Spec/NearLimits.lean`) | the rounded limiter computes a direction times a length that is nearly the vector itself, except for vectors so short that dropping them changes nothing; the distance to the velocity limit is longer than what the command needs; the difference to the intended motion is an invariant over the cycles; the following robot is constructed from the rounded low pass and limiter | `Props/RoundedCartesianFollow.lean`, `Props/RoundedTwistAll.lean` |
| C106 | the program of C11 with the roundings of C62; a robot that takes the positions over (`Spec/RoundedFollow.lean`) | the rounded generator is on an exact path up to a small error (C86), also at the rounded time; third differences of the sampled path, with the errors, stay within 99.9 % of the limits; then the rounded limiter follows (C104); the robot in the existence theorem is built by recursion | `Props/RoundedFollows.lean`, `Props/RoundedFollowsHappen.lean` |
| C107 | the derived `Debug` of all types in a record, with an abstract text of numbers | each part of the text can be read back whatever follows it (`Tells`), shown for atoms, lists, options and structs, and composed along the types; the digits of times by cases | `Props/LogText.lean` |
| C108 | the program of C81 with the roundings of C62; a robot that takes the positions over (`Spec/RoundedFollow.lean`) | error bounds for the summed time and the cosine give each returned position up to 10⁻⁹ rad; the third differences of the swing, with the errors, stay inside the limits, so the rounded low pass and limiter follow (C104); a mean with the rounded cutoff frequency stays close to the exact one; the robot in the existence theorem is built by recursion | `Props/RoundedExample.lean`, `Props/RoundedExampleHappens.lean` |
| C109 | the calls of C82 with the roundings of C62, which keep integers (`Spec/RoundedVelocity.lean`); a robot that takes the velocities over | the exponent of the direction is a whole number without rounding errors; it is the right one but where the velocity vanishes; so each returned velocity is right up to 6·10⁻⁹ rad/s and inside the limits, and the rounded low pass and limiter follow (C104); the sum of the commands telescopes as in C82; the robot in the existence theorem is built by recursion; the rounding of `f64` keeps integers | `Props/RoundedVelocity.lean`, `Props/RoundedVelocityHappens.lean` |
| C110 | the call of C89 with the roundings of C62, which keep integers (`Spec/RoundedTwist.lean`); a robot that takes the velocities over | the callback computes its speed as that of C109; so each returned velocity is right up to 6·10⁻⁹ m/s and inside the limits, and the rounded low pass and limiters follow (C105); the sum of the commands telescopes as in C89; the robot in the existence theorem is built by recursion, and its next velocity exists because the ones before are near the exact low pass | `Props/RoundedTwist.lean`, `Props/RoundedTwistHappens.lean` |
| C111 | the programs of C95 with the roundings of C62 (`Spec/RoundedProgram.lean`); robots that follow as in C106, C108, C109, C110 | the calls of the programs (C95) are taken apart as in C96; C106 for the first motion with the rounded speed factor and start position, C108, C109 and C110 for the second one; the robots in the existence theorems put the plans of C106 and C108, C109 or C110 one after the other, and the second one starts where the first one ends | `Props/RoundedProgram.lean`, `Props/RoundedProgramHappens.lean` |

## Axioms of each theorem

From `#print axioms` for every theorem of `MANIFEST.json`:

* `propext`: `C20_stop_aborted_misreported`, `C50_every_flag_has_a_kind`, `C50_contains`, `C76_values`, `C97_download_calls`
* `propext, Quot.sound`: `C16_lost_stream_is_reported_partial`, `C40_first_motion`, `C50_errors_are_the_flags`, `C50_number_of_errors`, `C51_every_field_is_kept`, `C57_model_can_be_loaded`, `C57_unusable_file`, `C97_print_calls`, `C98_stays_behind`, `C99_name`
* `propext, Classical.choice, Quot.sound`: `C01_robot_size_field`, `C01_gripper_size_field`, `C01_robot_request_size`, `C01_gripper_request_size`, `C02_robot_session_requests`, `C02_gripper_session_requests`, `C02_robot_request_roundtrip`, `C02_gripper_request_roundtrip`, `C02_robot_request_injective`, `C02_gripper_request_injective`, `C03_state_roundtrip`, `C03_state_sound`, `C03_state_layout`, `C03_gripper_state`, `C04_sending`, `C04_sending_fails`, `C04_command_datagram`, `C05_responses_never_misread`, `C05_move_status_byte`, `C05_setter_status_byte`, `C05_stop_status_byte`, `C05_recovery_status_byte`, `C05_gripper_status`, `C06_robot_ids`, `C06_gripper_ids`, `C07_robot_segmentation_partial`, `C07_gripper_segmentation_partial`, `C07_robot_messages_partial`, `C07_gripper_messages_partial`, `C07_cut_message_panics`, `C07_gripper_cut_message_panics`, `C08_robot_answer_matches`, `C08_gripper_answer_matches`, `C09_robot_delivery_partial`, `C09_robot_bytes_partial`, `C09_burst_blocks`, `C09_gripper_burst_blocks`, `C10_no_phantom_answer_partial`, `C10_dead_connection_never_returns`, `C10_gripper_dead_connection_never_returns`, `C11_states_are_newer`, `C11_read_once_is_newer`, `C12_newest_state_is_used_partial`, `C12_reordered_burst`, `C13_state_is_one_datagram_partial`, `C13_torn_state`, `C13_oversized_accepted`, `C14_waiting_datagram_is_seen`, `C14_error_means_nothing_waits`, `C15_commands_go_to_a_sender`, `C15_commands_go_to_the_robot_partial`, `C15_burst_of_two_senders`, `C16_control_waits`, `C16_new_panics`, `C17_robot_new`, `C17_gripper_new`, `C17_robot_handshake_first`, `C17_gripper_handshake_first`, `C18_setter`, `C18_setter_returns`, `C18_get_virtual_wall`, `C19_set_default_behavior`, `C20_automatic_error_recovery`, `C20_automatic_error_recovery_returns`, `C20_recovery_identifies`, `C20_stop_partial`, `C20_stop_returns`, `C21_gripper_command`, `C21_gripper_command_returns`, `C22_gripper_states_are_newer_partial`, `C22_older_state`, `C23_one_motion_at_a_time`, `C24_one_move_request`, `C25_only_after_acceptance`, `C25_no_command_elsewhere`, `C25_every_history`, `C26_commands_answer_latest_state`, `C27_callback_timing`, `C28_callback_gives_command`, `C28_command_comes_from_callback`, `C28_values_unchanged`, `C29_after_the_end`, `C29_flag_only_after_the_end`, `C29_ok_means_finished`, `C30_nothing_after_stop`, `C30_errors_stop_the_robot_partial`, `C30_start_error_without_stop`, `C31_callbacks_see_a_running_motion`, `C32_abort_is_reported_partial`, `C32_reflex_report_panics`, `C32_positive_answer_panics`, `C32_rejected_stop_panics`, `C33_left_idle`, `C33_next_motion_can_start`, `C34_commands_are_finite`, `C35_only_the_commanded_quantity`, `C36_elbow_is_valid`, `C36_refused_values_panic`, `C36_wrong_sign_panics`, `C36_signs`, `C37_pose_is_checked`, `C37_accepted_iff`, `C37_rigid_accepted`, `C37_reflection_accepted`, `C37_skewed_accepted`, `C38_enforced`, `C38_ignored`, `C38_whole_history`, `C39_log`, `C39_length`, `C39_first_motion_partial`, `C39_rotated`, `C39_stale`, `C40_total_partial`, `C40_motion`, `C40_size_zero`, `C40_unbounded`, `C40_size_zero_reached`, `C40_unbounded_reached`, `C41_torque_rate`, `C41_torques_of_a_callback`, `C41_torques_without_filter`, `C42_joint_velocities_respect_the_limits`, `C42_runs_exist`, `C43_joint_positions_respect_the_limits`, `C43_elbow_respects_the_limits`, `C43_runs_exist`, `C44_allowed_velocity`, `C44_allowed_position`, `C44_allowed_joint_velocities`, `C44_allowed_joint_positions`, `C44_convert_joint_velocities`, `C44_convert_joint_positions`, `C44_limits_of_the_code`, `C45_step_partial`, `C45_runs`, `C45_beyond_the_limit`, `C45_runs_exist`, `C46_step_partial`, `C46_runs`, `C46_beyond_the_limit`, `C46_runs_exist`, `C47_between`, `C47_constant`, `C47_monotone`, `C47_converges`, `C47_stays_in_range`, `C48_arguments_are_checked_partial`, `C48_zero_is_accepted`, `C49_totals_describe_the_union`, `C49_symmetric`, `C49_order`, `C51_shown_states_are_datagrams`, `C51_read_once_returns_a_datagram`, `C52_joint_motion`, `C52_shown`, `C53_move`, `C53_answers`, `C54_first_period_not_zero`, `C54_start_partial`, `C55_pose`, `C55_body_jacobian`, `C55_zero_jacobian`, `C55_from_state`, `C56_mass_and_gravity_partial`, `C56_coriolis_partial`, `C56_coriolis_without_end_effector`, `C56_coriolis_uses_the_load_tensor`, `C57_persistent_keeps_the_file`, `C57_existing_file`, `C57_download_partial`, `C57_not_removed`, `C57_short_write`, `C57_failed_write`, `C58_acceleration`, `C59_records_are_real`, `C60_allowed_cartesian_velocity`, `C60_convert_motion`, `C61_allowed_pose`, `C62_torque_limiter`, `C62_torques_of_a_callback`, `C62_joint_velocities`, `C62_runs_exist`, `C62_joint_positions`, `C62_elbow`, `C62_overflow`, `C63_second_answer_ends_the_wait`, `C63_early_answer_example`, `C64_ok_after_the_last_answer`, `C64_error_after_the_stop`, `C64_silent_robot_never_returns`, `C65_a_supported_motion_succeeds`, `C65_every_such_motion_happens`, `C66_gripper_state_as_sent`, `C67_robot_server_version`, `C67_gripper_server_version`, `C68_call_panics`, `C68_gripper_call_panics`, `C68_new_panics`, `C68_gripper_new_panics`, `C68_control_panics`, `C69_joint_velocities`, `C69_joint_positions`, `C69_cartesian_velocities`, `C69_poses`, `C69_elbow`, `C69_torques`, `C70_converted`, `C70_admissible_motion_is_sent`, `C70_admissible_torques_are_sent`, `C71_system_calls`, `C71_always_returns`, `C71_read_once_outcome`, `C71_new_state_is_returned`, `C72_robot_connects`, `C72_robot_refuses`, `C72_gripper_connects`, `C72_gripper_refuses`, `C73_an_aborted_motion_is_reported`, `C73_else_it_panics`, `C73_every_such_abort_happens`, `C74_a_session_goes_as_the_robot_says`, `C75_joint_motion_goes_as_planned`, `C75_every_such_motion_happens`, `C76_pose_of_an_isometry`, `C76_isometries_are_accepted`, `C76_read_back`, `C76_reported_pose`, `C76_finished_is_only_a_mark`, `C76_set_motion_finished`, `C77_a_gripper_session_goes_as_the_gripper_says`, `C78_joint_velocities`, `C78_joint_positions`, `C78_elbow`, `C78_torques`, `C79_step_partial`, `C79_error_breaks_the_limit`, `C80_joint_positions`, `C80_joint_velocities`, `C80_torques`, `C80_torques_happen`, `C80_joint_positions_happen`, `C80_joint_velocities_happen`, `C81_position_example`, `C81_position_example_happens`, `C82_velocity_example`, `C82_velocity_example_happens`, `C83_counters`, `C83_duration`, `C83_success_rates`, `C83_no_torques`, `C83_happens`, `C84_read`, `C84_echo`, `C84_happens`, `C85_gripper_requests`, `C85_grasp_object`, `C85_grasp_object_ends`, `C86_joint_motion_rounded`, `C86_finishes`, `C87_pose_filter`, `C87_constant`, `C87_converges`, `C87_runs_exist`, `C88_cartesian_velocities`, `C88_cartesian_velocities_happen`, `C89_cartesian_velocity_example`, `C89_cartesian_velocity_example_happens`, `C90_poses`, `C90_elbow`, `C91_pose_example`, `C91_pose_example_happens`, `C92_elbow_example`, `C92_elbow_example_happens`, `C93_torques`, `C93_rest`, `C93_energy_positive`, `C93_energy`, `C93_never_finishes`, `C93_program`, `C94_mirror`, `C94_user`, `C94_torques`, `C95_calls`, `C95_requests`, `C95_consecutive`, `C95_consecutive_requests`, `C96_position_program_happens`, `C96_velocity_program_happens`, `C96_cartesian_velocity_program`, `C96_cartesian_velocity_program_happens`, `C96_two_motions`, `C96_position_program`, `C96_velocity_program`, `C96_pose_program`, `C96_elbow_program`, `C96_pose_program_happens`, `C96_elbow_program_happens`, `C97_download_requests`, `C97_download_file`, `C97_prints_the_arm`, `C97_print_requests`, `C97_print_file`, `C97_impedance_calls`, `C97_impedance_requests`, `C98_follows`, `C98_user`, `C98_up_to_date`, `C99_text`, `C99_text_tells_the_errors`, `C100_step`, `C100_follows_the_exact_filter`, `C100_runs_exist`, `C100_converges`, `C100_joint_positions`, `C100_joint_velocities`, `C100_torques`, `C101_limiter`, `C101_step`, `C101_accepts`, `C101_commands`, `C102_requests`, `C102_order`, `C102_preparation`, `C102_result`, `C102_control`, `C102_never_ok`, `C103_consecutive_motions_happens`, `C103_consecutive_motions`, `C104_filtered_joint_velocities_happen`, `C104_velocity_limiter`, `C104_position_limiter`, `C104_torque_limiter`, `C104_joint_velocities`, `C104_joint_positions`, `C104_torques`, `C104_filtered_joint_velocities`, `C104_filtered_joint_positions`, `C104_filtered_torques`, `C104_filtered_torques_happen`, `C104_filtered_joint_positions_happen`, `C105_filtered_velocities_happen`, `C105_limiter`, `C105_velocities`, `C105_filtered_velocities`, `C106_joint_motion`, `C106_every_such_motion_happens`, `C107_text_tells_record`, `C107_texts_tell_log`, `C107_state_shown`, `C107_command_shown`, `C108_position_example_happens`, `C108_position_example`, `C109_velocity_example_happens`, `C109_velocity_example`, `C110_cartesian_velocity_example`, `C110_cartesian_velocity_example_happens`, `C111_position_program`, `C111_velocity_program`, `C111_cartesian_velocity_program`, `C111_position_program_happens`, `C111_velocity_program_happens`, `C111_cartesian_velocity_program_happens`
