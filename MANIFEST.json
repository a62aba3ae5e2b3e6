{
 "claims": [
  {
   "property": "C01",
   "status": "proved",
   "theorems": [
    "Verif.C01_robot_size_field",
    "Verif.C01_gripper_size_field",
    "Verif.C01_robot_request_size",
    "Verif.C01_gripper_request_size"
   ],
   "note": "encoding of every request, and every request in every history of robot and gripper calls"
  },
  {
   "property": "C02",
   "status": "proved",
   "theorems": [
    "Verif.C02_robot_session_requests",
    "Verif.C02_gripper_session_requests",
    "Verif.C02_robot_request_roundtrip",
    "Verif.C02_gripper_request_roundtrip",
    "Verif.C02_robot_request_injective",
    "Verif.C02_gripper_request_injective"
   ],
   "note": "round trip with arbitrary rest and injectivity for every request of robot and gripper, and for every history"
  },
  {
   "property": "C03",
   "status": "proved",
   "theorems": [
    "Verif.C03_state_roundtrip",
    "Verif.C03_state_sound",
    "Verif.C03_state_layout",
    "Verif.C03_gripper_state"
   ],
   "note": "round trip, soundness, offsets of every field"
  },
  {
   "property": "C04",
   "status": "proved",
   "theorems": [
    "Verif.C04_sending",
    "Verif.C04_sending_fails",
    "Verif.C04_command_datagram"
   ],
   "note": ""
  },
  {
   "property": "C05",
   "status": "proved",
   "theorems": [
    "Verif.C05_responses_never_misread",
    "Verif.C05_move_status_byte",
    "Verif.C05_setter_status_byte",
    "Verif.C05_stop_status_byte",
    "Verif.C05_recovery_status_byte",
    "Verif.C05_gripper_status"
   ],
   "note": ""
  },
  {
   "property": "C06",
   "status": "proved",
   "theorems": [
    "Verif.C06_robot_ids",
    "Verif.C06_gripper_ids"
   ],
   "note": ""
  },
  {
   "property": "C07",
   "status": "partial",
   "theorems": [
    "Verif.C07_robot_segmentation_partial",
    "Verif.C07_gripper_segmentation_partial",
    "Verif.C07_robot_messages_partial",
    "Verif.C07_gripper_messages_partial",
    "Verif.C07_cut_message_panics",
    "Verif.C07_gripper_cut_message_panics"
   ],
   "note": "false of the code in full: a message cut inside its body panics (C07_cut_message_panics). Proved: whatever was taken apart does not depend on the segmentation"
  },
  {
   "property": "C08",
   "status": "proved",
   "theorems": [
    "Verif.C08_robot_answer_matches",
    "Verif.C08_gripper_answer_matches"
   ],
   "note": ""
  },
  {
   "property": "C09",
   "status": "partial",
   "theorems": [
    "Verif.C09_robot_delivery_partial",
    "Verif.C09_robot_bytes_partial",
    "Verif.C09_burst_blocks",
    "Verif.C09_gripper_burst_blocks"
   ],
   "note": "false of the code in full: two answers in one burst leave the second one stuck (C09_burst_blocks). Proved: no byte is lost, and an answer whose bytes arrive whole and alone is delivered"
  },
  {
   "property": "C10",
   "status": "partial",
   "theorems": [
    "Verif.C10_no_phantom_answer_partial",
    "Verif.C10_dead_connection_never_returns",
    "Verif.C10_gripper_dead_connection_never_returns"
   ],
   "note": "false of the code: a call on a dead connection never returns (C10_dead_connection_never_returns). Proved: no answer is made up"
  },
  {
   "property": "C11",
   "status": "proved",
   "theorems": [
    "Verif.C11_states_are_newer",
    "Verif.C11_read_once_is_newer"
   ],
   "note": "states shown to callbacks and accepted states over every history; read_once returns a newer state than all before"
  },
  {
   "property": "C12",
   "status": "partial",
   "theorems": [
    "Verif.C12_newest_state_is_used_partial",
    "Verif.C12_reordered_burst"
   ],
   "note": "false of the code in full: a state that arrives in a burst after a newer one replaces it (C12_reordered_burst). Proved for complete datagrams in order"
  },
  {
   "property": "C13",
   "status": "partial",
   "theorems": [
    "Verif.C13_state_is_one_datagram_partial",
    "Verif.C13_torn_state",
    "Verif.C13_oversized_accepted"
   ],
   "note": "false of the code in full: torn and oversized datagrams are accepted (C13_torn_state, C13_oversized_accepted). Proved for datagrams of the right size"
  },
  {
   "property": "C14",
   "status": "proved",
   "theorems": [
    "Verif.C14_waiting_datagram_is_seen",
    "Verif.C14_error_means_nothing_waits"
   ],
   "note": "a waiting datagram is seen by the next blocking receive; when read or read_once return an error nothing waits"
  },
  {
   "property": "C15",
   "status": "partial",
   "theorems": [
    "Verif.C15_commands_go_to_a_sender",
    "Verif.C15_commands_go_to_the_robot_partial",
    "Verif.C15_burst_of_two_senders"
   ],
   "note": "false of the code in full: after a burst of two senders the command goes to the first of them (C15_burst_of_two_senders). Proved: only to senders of datagrams, and to the last one if there is one sender"
  },
  {
   "property": "C16",
   "status": "partial",
   "theorems": [
    "Verif.C16_lost_stream_is_reported_partial",
    "Verif.C16_control_waits",
    "Verif.C16_new_panics"
   ],
   "note": "false of the code in full: Robot::new panics (C16_new_panics), a control call never returns (C16_control_waits). Proved for read and read_once"
  },
  {
   "property": "C17",
   "status": "proved",
   "theorems": [
    "Verif.C17_robot_new",
    "Verif.C17_gripper_new",
    "Verif.C17_robot_handshake_first",
    "Verif.C17_gripper_handshake_first"
   ],
   "note": "every history starts with the handshake, and the constructor returns what the answer says"
  },
  {
   "property": "C18",
   "status": "proved",
   "theorems": [
    "Verif.C18_setter",
    "Verif.C18_setter_returns",
    "Verif.C18_get_virtual_wall"
   ],
   "note": ""
  },
  {
   "property": "C19",
   "status": "proved",
   "theorems": [
    "Verif.C19_set_default_behavior"
   ],
   "note": ""
  },
  {
   "property": "C20",
   "status": "partial",
   "theorems": [
    "Verif.C20_automatic_error_recovery",
    "Verif.C20_automatic_error_recovery_returns",
    "Verif.C20_recovery_identifies",
    "Verif.C20_stop_partial",
    "Verif.C20_stop_returns",
    "Verif.C20_stop_aborted_misreported"
   ],
   "note": "false of the code in one point: an aborted stop is reported with the text of another error (C20_stop_aborted_misreported)"
  },
  {
   "property": "C21",
   "status": "proved",
   "theorems": [
    "Verif.C21_gripper_command",
    "Verif.C21_gripper_command_returns"
   ],
   "note": ""
  },
  {
   "property": "C22",
   "status": "partial",
   "theorems": [
    "Verif.C22_gripper_states_are_newer_partial",
    "Verif.C22_older_state"
   ],
   "note": "false of the code in full: no time stamps are compared (C22_older_state). Proved for datagrams that arrive in order and once"
  },
  {
   "property": "C23",
   "status": "proved",
   "theorems": [
    "Verif.C23_one_motion_at_a_time"
   ],
   "note": "every history of calls"
  },
  {
   "property": "C24",
   "status": "proved",
   "theorems": [
    "Verif.C24_one_move_request"
   ],
   "note": ""
  },
  {
   "property": "C25",
   "status": "proved",
   "theorems": [
    "Verif.C25_only_after_acceptance",
    "Verif.C25_no_command_elsewhere",
    "Verif.C25_every_history"
   ],
   "note": "every history of calls"
  },
  {
   "property": "C26",
   "status": "proved",
   "theorems": [
    "Verif.C26_commands_answer_latest_state"
   ],
   "note": ""
  },
  {
   "property": "C27",
   "status": "proved",
   "theorems": [
    "Verif.C27_callback_timing"
   ],
   "note": ""
  },
  {
   "property": "C28",
   "status": "proved",
   "theorems": [
    "Verif.C28_callback_gives_command",
    "Verif.C28_command_comes_from_callback",
    "Verif.C28_values_unchanged"
   ],
   "note": ""
  },
  {
   "property": "C29",
   "status": "proved",
   "theorems": [
    "Verif.C29_after_the_end",
    "Verif.C29_flag_only_after_the_end",
    "Verif.C29_ok_means_finished"
   ],
   "note": ""
  },
  {
   "property": "C30",
   "status": "partial",
   "theorems": [
    "Verif.C30_nothing_after_stop",
    "Verif.C30_errors_stop_the_robot_partial",
    "Verif.C30_start_error_without_stop"
   ],
   "note": "false of the code in full: an error in the start phase returns without a StopMove (C30_start_error_without_stop). Proved: after the motion started every error sends exactly one StopMove and nothing is commanded after it"
  },
  {
   "property": "C31",
   "status": "proved",
   "theorems": [
    "Verif.C31_callbacks_see_a_running_motion"
   ],
   "note": ""
  },
  {
   "property": "C32",
   "status": "partial",
   "theorems": [
    "Verif.C32_abort_is_reported_partial",
    "Verif.C32_reflex_report_panics",
    "Verif.C32_positive_answer_panics",
    "Verif.C32_rejected_stop_panics"
   ],
   "note": "false of the code in full: building the report, an unexpected answer and a rejected StopMove panic (C32_reflex_report_panics, C32_positive_answer_panics, C32_rejected_stop_panics). Proved: no callback, no command and no Ok after an abort, and an error that is returned carries the reason"
  },
  {
   "property": "C33",
   "status": "proved",
   "theorems": [
    "Verif.C33_left_idle",
    "Verif.C33_next_motion_can_start"
   ],
   "note": ""
  },
  {
   "property": "C34",
   "status": "proved",
   "theorems": [
    "Verif.C34_commands_are_finite"
   ],
   "note": ""
  },
  {
   "property": "C35",
   "status": "proved",
   "theorems": [
    "Verif.C35_only_the_commanded_quantity"
   ],
   "note": ""
  },
  {
   "property": "C36",
   "status": "proved",
   "theorems": [
    "Verif.C36_elbow_is_valid",
    "Verif.C36_refused_values_panic",
    "Verif.C36_wrong_sign_panics",
    "Verif.C36_signs"
   ],
   "note": "generic in the arithmetic; C36_signs says what the test means over real numbers"
  },
  {
   "property": "C37",
   "status": "partial",
   "theorems": [
    "Verif.C37_pose_is_checked",
    "Verif.C37_accepted_iff",
    "Verif.C37_rigid_accepted",
    "Verif.C37_reflection_accepted",
    "Verif.C37_skewed_accepted"
   ],
   "note": "false of the code in full: the check accepts reflections (C37_reflection_accepted) and matrices whose columns are not orthogonal (C37_skewed_accepted). Proved: every pose sent passed the check, what the check accepts exactly (C37_accepted_iff), and every proper rigid transformation is accepted"
  },
  {
   "property": "C38",
   "status": "proved",
   "theorems": [
    "Verif.C38_enforced",
    "Verif.C38_ignored",
    "Verif.C38_whole_history"
   ],
   "note": "every history of calls"
  },
  {
   "property": "C39",
   "status": "partial",
   "theorems": [
    "Verif.C39_log",
    "Verif.C39_length",
    "Verif.C39_first_motion_partial",
    "Verif.C39_rotated",
    "Verif.C39_stale"
   ],
   "note": "false of the code: with more pairs than the log size the log begins in the middle (C39_rotated), and later motions show pairs of earlier ones (C39_stale). C39_log states what the log holds in every case; proved in full for the first motion if the number of pairs is at most the log size or a multiple of it"
  },
  {
   "property": "C40",
   "status": "partial",
   "theorems": [
    "Verif.C40_total_partial",
    "Verif.C40_first_motion",
    "Verif.C40_motion",
    "Verif.C40_size_zero",
    "Verif.C40_unbounded",
    "Verif.C40_size_zero_reached",
    "Verif.C40_unbounded_reached"
   ],
   "note": "false of the code: log size 0 panics (C40_size_zero, C40_size_zero_reached) and the memory grows with every motion (C40_unbounded). Proved: for positive log sizes logging and flushing never panic, the memory is bounded in the first motion and grows by at most the log size in every later one"
  },
  {
   "property": "C41",
   "status": "proved",
   "theorems": [
    "Verif.C41_torque_rate",
    "Verif.C41_torques_of_a_callback",
    "Verif.C41_torques_without_filter"
   ],
   "note": "for the numbers idealised as reals with NaN and infinities, see DESIGN.md"
  },
  {
   "property": "C42",
   "status": "proved",
   "theorems": [
    "Verif.C42_joint_velocities_respect_the_limits",
    "Verif.C42_runs_exist"
   ],
   "note": "for the numbers idealised as reals with NaN and infinities, see DESIGN.md"
  },
  {
   "property": "C43",
   "status": "proved",
   "theorems": [
    "Verif.C43_joint_positions_respect_the_limits",
    "Verif.C43_elbow_respects_the_limits",
    "Verif.C43_runs_exist"
   ],
   "note": "for the numbers idealised as reals with NaN and infinities, see DESIGN.md"
  },
  {
   "property": "C44",
   "status": "proved",
   "theorems": [
    "Verif.C44_allowed_velocity",
    "Verif.C44_allowed_position",
    "Verif.C44_allowed_joint_velocities",
    "Verif.C44_allowed_joint_positions",
    "Verif.C44_convert_joint_velocities",
    "Verif.C44_convert_joint_positions",
    "Verif.C44_limits_of_the_code"
   ],
   "note": "for the numbers idealised as reals with NaN and infinities, see DESIGN.md"
  },
  {
   "property": "C45",
   "status": "partial",
   "theorems": [
    "Verif.C45_step_partial",
    "Verif.C45_runs",
    "Verif.C45_beyond_the_limit",
    "Verif.C45_runs_exist"
   ],
   "note": "over real numbers. False of the code in full: if the robot reports a last velocity beyond the limit the limiter brakes in one step (C45_beyond_the_limit). Proved for every last velocity within the limits and for whole runs that start within them, through the conversion of a callback result into a command"
  },
  {
   "property": "C46",
   "status": "partial",
   "theorems": [
    "Verif.C46_step_partial",
    "Verif.C46_runs",
    "Verif.C46_beyond_the_limit",
    "Verif.C46_runs_exist"
   ],
   "note": "over real numbers, for every library that computes with rotations as Spec/Nalgebra.lean says (matrixGeo_lawful shows that it can be met). False of the code in full: if the robot reports a velocity beyond the limit a pose that keeps it is not limited (C46_beyond_the_limit). Proved for all last velocities within the limits and for whole runs; half turns, which nalgebra does not read from a matrix, are left out"
  },
  {
   "property": "C47",
   "status": "proved",
   "theorems": [
    "Verif.C47_between",
    "Verif.C47_constant",
    "Verif.C47_monotone",
    "Verif.C47_converges",
    "Verif.C47_stays_in_range"
   ],
   "note": "for the numbers idealised as reals with NaN and infinities, see DESIGN.md"
  },
  {
   "property": "C48",
   "status": "partial",
   "theorems": [
    "Verif.C48_arguments_are_checked_partial",
    "Verif.C48_zero_is_accepted"
   ],
   "note": "false of the code in one point: a cutoff frequency of zero is accepted by the assertion (C48_zero_is_accepted)"
  },
  {
   "property": "C49",
   "status": "proved",
   "theorems": [
    "Verif.C49_totals_describe_the_union",
    "Verif.C49_symmetric",
    "Verif.C49_order"
   ],
   "note": "for the numbers idealised as reals, see DESIGN.md"
  },
  {
   "property": "C50",
   "status": "proved",
   "theorems": [
    "Verif.C50_errors_are_the_flags",
    "Verif.C50_every_flag_has_a_kind",
    "Verif.C50_number_of_errors",
    "Verif.C50_contains"
   ],
   "note": "every flag pattern"
  },
  {
   "property": "C51",
   "status": "proved",
   "theorems": [
    "Verif.C51_every_field_is_kept",
    "Verif.C51_shown_states_are_datagrams",
    "Verif.C51_read_once_returns_a_datagram"
   ],
   "note": "every datagram and every history; read_once too"
  },
  {
   "property": "C52",
   "status": "proved",
   "theorems": [
    "Verif.C52_joint_motion",
    "Verif.C52_shown"
   ],
   "note": "over real numbers. C52_joint_motion gives the whole trajectory: paths and final time fixed at the first call, every later answer is the path at its time"
  },
  {
   "property": "C53",
   "status": "proved",
   "theorems": [
    "Verif.C53_move",
    "Verif.C53_answers"
   ],
   "note": "over real numbers, for the paths of C52_joint_motion"
  },
  {
   "property": "C54",
   "status": "partial",
   "theorems": [
    "Verif.C54_first_period_not_zero",
    "Verif.C54_start_partial"
   ],
   "note": "false of the code: if the first period is not 0 the generator answers finished at the zero position for ever (C54_first_period_not_zero). Proved for a first period of 0"
  },
  {
   "property": "C55",
   "status": "proved",
   "theorems": [
    "Verif.C55_pose",
    "Verif.C55_body_jacobian",
    "Verif.C55_zero_jacobian",
    "Verif.C55_from_state"
   ],
   "note": "for every library that computes the kinematics of some arm"
  },
  {
   "property": "C56",
   "status": "partial",
   "theorems": [
    "Verif.C56_mass_and_gravity_partial",
    "Verif.C56_coriolis_partial",
    "Verif.C56_coriolis_without_end_effector",
    "Verif.C56_coriolis_uses_the_load_tensor"
   ],
   "note": "false of the code in one point: coriolis_from_state passes the inertia of the load only (C56_coriolis_uses_the_load_tensor). Proved for mass and gravity, and for coriolis without an end effector"
  },
  {
   "property": "C57",
   "status": "partial",
   "theorems": [
    "Verif.C57_persistent_keeps_the_file",
    "Verif.C57_existing_file",
    "Verif.C57_download_partial",
    "Verif.C57_not_removed",
    "Verif.C57_model_can_be_loaded",
    "Verif.C57_unusable_file",
    "Verif.C57_short_write",
    "Verif.C57_failed_write"
   ],
   "note": "false of the code in full: a downloaded file is not removed (C57_not_removed), a short write truncates it (C57_short_write), a failed write leaves an empty file that is used later (C57_failed_write). Proved: which file is used, what it holds and when a request is sent"
  },
  {
   "property": "C58",
   "status": "proved",
   "theorems": [
    "Verif.C58_acceleration"
   ],
   "note": "over real numbers, for the paths of C52_joint_motion"
  },
  {
   "property": "C59",
   "status": "proved",
   "theorems": [
    "Verif.C59_records_are_real"
   ],
   "note": "every history of calls and every log size"
  },
  {
   "property": "C60",
   "status": "proved",
   "theorems": [
    "Verif.C60_allowed_cartesian_velocity",
    "Verif.C60_convert_motion"
   ],
   "note": "over real numbers"
  },
  {
   "property": "C61",
   "status": "proved",
   "theorems": [
    "Verif.C61_allowed_pose"
   ],
   "note": "over real numbers, for every library that computes with rotations as Spec/Nalgebra.lean says; half turns are left out"
  },
  {
   "property": "C62",
   "status": "proved",
   "theorems": [
    "Verif.C62_torque_limiter",
    "Verif.C62_torques_of_a_callback",
    "Verif.C62_joint_velocities",
    "Verif.C62_runs_exist",
    "Verif.C62_joint_positions",
    "Verif.C62_elbow",
    "Verif.C62_overflow"
   ],
   "note": "for every rounding with the error bound of binary64 and overflow to infinity; last torques up to 1e6 Nm, joint angles up to 10 rad. C62_overflow: finite position commands near the largest double make the position limiter panic"
  },
  {
   "property": "C63",
   "status": "proved",
   "theorems": [
    "Verif.C63_second_answer_ends_the_wait",
    "Verif.C63_early_answer_example"
   ],
   "note": "C63_early_answer_example: a final answer that comes before the motion has started is taken for the start, and the call then waits forever for another one"
  },
  {
   "property": "C64",
   "status": "proved",
   "theorems": [
    "Verif.C64_ok_after_the_last_answer",
    "Verif.C64_error_after_the_stop",
    "Verif.C64_silent_robot_never_returns"
   ],
   "note": "every history; the call ends with an error, a panic or not at all in all other cases"
  },
  {
   "property": "C65",
   "status": "proved",
   "theorems": [
    "Verif.C65_a_supported_motion_succeeds",
    "Verif.C65_every_such_motion_happens"
   ],
   "note": "total correctness: no hypothesis about the result of the call; a log size of 0 is excluded because it panics (C39)"
  },
  {
   "property": "C66",
   "status": "proved",
   "theorems": [
    "Verif.C66_gripper_state_as_sent"
   ],
   "note": "for datagrams of the size of a gripper state and system calls that do not fail; the order of time stamps is C22"
  },
  {
   "property": "C67",
   "status": "proved",
   "theorems": [
    "Verif.C67_robot_server_version",
    "Verif.C67_gripper_server_version"
   ],
   "note": "every history that is still in use; the handshake itself is C17"
  },
  {
   "property": "C68",
   "status": "proved",
   "theorems": [
    "Verif.C68_call_panics",
    "Verif.C68_gripper_call_panics",
    "Verif.C68_new_panics",
    "Verif.C68_gripper_new_panics",
    "Verif.C68_control_panics"
   ],
   "note": "for connections on which no system call fails and only whole messages and states arrive; the causes listed are shown to occur by examples"
  },
  {
   "property": "C69",
   "status": "proved",
   "theorems": [
    "Verif.C69_joint_velocities",
    "Verif.C69_joint_positions",
    "Verif.C69_cartesian_velocities",
    "Verif.C69_poses",
    "Verif.C69_elbow",
    "Verif.C69_torques"
   ],
   "note": "over real numbers with any bit patterns; the per command step theorems (C41-C46) are lifted to the commands a control call sends; the hypothesis that the robot follows is stated on the states that were handed to the callback"
  },
  {
   "property": "C70",
   "status": "proved",
   "theorems": [
    "Verif.C70_converted",
    "Verif.C70_admissible_motion_is_sent",
    "Verif.C70_admissible_torques_are_sent"
   ],
   "note": "over real numbers with any bit patterns; admissible means below the limits by the margins the code itself subtracts (see Spec/Transparent.lean)"
  },
  {
   "property": "C71",
   "status": "proved",
   "theorems": [
    "Verif.C71_system_calls",
    "Verif.C71_always_returns",
    "Verif.C71_read_once_outcome",
    "Verif.C71_new_state_is_returned"
   ],
   "note": "a system call is one tick of the schedule; the time one receive call may take is the receive timeout of the socket (C16)"
  },
  {
   "property": "C72",
   "status": "proved",
   "theorems": [
    "Verif.C72_robot_connects",
    "Verif.C72_robot_refuses",
    "Verif.C72_gripper_connects",
    "Verif.C72_gripper_refuses"
   ],
   "note": "the counterpart of C17: what is enough for success; the answer must be complete when the library has begun to read it (otherwise C07)"
  },
  {
   "property": "C73",
   "status": "proved",
   "theorems": [
    "Verif.C73_an_aborted_motion_is_reported",
    "Verif.C73_else_it_panics",
    "Verif.C73_every_such_abort_happens"
   ],
   "note": "the counterpart of C32: what is enough for the report; the log wrap is characterised exactly (C73_else_it_panics)"
  },
  {
   "property": "C74",
   "status": "proved",
   "theorems": [
    "Verif.C74_a_session_goes_as_the_robot_says"
   ],
   "note": "composes C65, C72, C73 and the exchanges over a whole session; a motion the robot refuses, and one without real time scheduling, leave the connection usable"
  },
  {
   "property": "C75",
   "status": "proved",
   "theorems": [
    "Verif.C75_joint_motion_goes_as_planned",
    "Verif.C75_every_such_motion_happens"
   ],
   "note": "composes the path planning (C62), the control loop (C06), and the transparency of the rate limiter (C44); third differences of the sampled path are bounded by the derivatives of its pieces"
  },
  {
   "property": "C76",
   "status": "proved",
   "theorems": [
    "Verif.C76_pose_of_an_isometry",
    "Verif.C76_isometries_are_accepted",
    "Verif.C76_read_back",
    "Verif.C76_reported_pose",
    "Verif.C76_finished_is_only_a_mark",
    "Verif.C76_set_motion_finished",
    "Verif.C76_values"
   ],
   "note": "under the specification of the rotations of nalgebra (Spec/Nalgebra.lean); the constructors from vectors and arrays are modelled too (Model/Conversions.lean)"
  },
  {
   "property": "C77",
   "status": "proved",
   "theorems": [
    "Verif.C77_a_gripper_session_goes_as_the_gripper_says"
   ],
   "note": "the values are those returned to the user; states are described by the bytes of their datagrams"
  },
  {
   "property": "C78",
   "status": "proved",
   "theorems": [
    "Verif.C78_joint_velocities",
    "Verif.C78_joint_positions",
    "Verif.C78_elbow",
    "Verif.C78_torques"
   ],
   "note": "positions within 10 rad, torques within a million Nm; reported velocities within 1e-10 and accelerations within 1e-7 of the difference quotients"
  },
  {
   "property": "C79",
   "status": "partial",
   "theorems": [
    "Verif.C79_step_partial",
    "Verif.C79_error_breaks_the_limit"
   ],
   "note": "false of the code: C79_error_breaks_the_limit constructs a motion from rest with a single reporting error of at most 2^-52 that exceeds 10 m/s; the step from a reported velocity below 1.999 m/s and 2.499 rad/s is proved to respect the limits"
  },
  {
   "property": "C80",
   "status": "proved",
   "theorems": [
    "Verif.C80_joint_positions",
    "Verif.C80_joint_velocities",
    "Verif.C80_torques",
    "Verif.C80_torques_happen",
    "Verif.C80_joint_positions_happen",
    "Verif.C80_joint_velocities_happen"
   ],
   "note": "doubles are real numbers; joint positions, joint velocities and torques"
  },
  {
   "property": "C81",
   "status": "proved",
   "theorems": [
    "Verif.C81_position_example",
    "Verif.C81_position_example_happens"
   ],
   "note": "doubles are real numbers; the robot is FollowsJoints in Spec/Follow.lean"
  },
  {
   "property": "C82",
   "status": "proved",
   "theorems": [
    "Verif.C82_velocity_example",
    "Verif.C82_velocity_example_happens"
   ],
   "note": "doubles are real numbers, with floor, fmod and powf as in Spec/Examples.lean; the robot is FollowsVelocities in Spec/Follow.lean"
  },
  {
   "property": "C83",
   "status": "proved",
   "theorems": [
    "Verif.C83_counters",
    "Verif.C83_duration",
    "Verif.C83_success_rates",
    "Verif.C83_no_torques",
    "Verif.C83_happens"
   ],
   "note": "the counters are unbounded numbers (u64 in the code; they stay below the time stamp of a state plus one). The success rates are real numbers; printing is not modelled"
  },
  {
   "property": "C84",
   "status": "proved",
   "theorems": [
    "Verif.C84_read",
    "Verif.C84_echo",
    "Verif.C84_happens"
   ],
   "note": "printing the states is not modelled; that a state may be received but not be the newest one of its burst is C12"
  },
  {
   "property": "C85",
   "status": "proved",
   "theorems": [
    "Verif.C85_gripper_requests",
    "Verif.C85_grasp_object",
    "Verif.C85_grasp_object_ends"
   ],
   "note": "an unsuccessful homing or grasp (Ok(false)) does not end the example; the statement covers it. The wait of three seconds and the printing are not modelled"
  },
  {
   "property": "C86",
   "status": "proved",
   "theorems": [
    "Verif.C86_joint_motion_rounded",
    "Verif.C86_finishes"
   ],
   "note": "with exact numbers: C52, C53. The constants 0.1 %, 1e-8 are not the best possible. The errors come from the square root near its zero, where half of the digits are lost"
  },
  {
   "property": "C87",
   "status": "proved",
   "theorems": [
    "Verif.C87_pose_filter",
    "Verif.C87_constant",
    "Verif.C87_converges",
    "Verif.C87_runs_exist"
   ],
   "note": "nalgebra's slerp is specified (Spec/Nalgebra.lean: Interpolates), not modelled; turns of less than 4·2⁻⁵² rad are left open; a library that meets the specification is given (arcGeo_lawful). Exact arithmetic. Poses that are half turns are left out as in C46"
  },
  {
   "property": "C88",
   "status": "proved",
   "theorems": [
    "Verif.C88_cartesian_velocities",
    "Verif.C88_cartesian_velocities_happen"
   ],
   "note": "exact real arithmetic; the margin is that of C60 applied twice (below in Spec). The Cartesian limiter is not exactly transparent (it rescales by len/(len+2⁻⁵²)), hence the 10⁻¹³"
  },
  {
   "property": "C89",
   "status": "proved",
   "theorems": [
    "Verif.C89_cartesian_velocity_example",
    "Verif.C89_cartesian_velocity_example_happens"
   ],
   "note": "doubles are real numbers, with floor, fmod and powf as in Spec/Examples.lean; the robot is FollowsTwists in Spec/CartesianExamples.lean"
  },
  {
   "property": "C90",
   "status": "proved",
   "theorems": [
    "Verif.C90_poses",
    "Verif.C90_elbow"
   ],
   "note": "exact real arithmetic; nalgebra's rotations as in Spec/Nalgebra.lean; the margin is that of C60 applied twice for positions and once for the elbow"
  },
  {
   "property": "C91",
   "status": "proved",
   "theorems": [
    "Verif.C91_pose_example",
    "Verif.C91_pose_example_happens"
   ],
   "note": "doubles are real numbers; the robot is FollowsPoses in Spec/CartesianExamples.lean; nalgebra's rotations as in Spec/Nalgebra.lean"
  },
  {
   "property": "C92",
   "status": "proved",
   "theorems": [
    "Verif.C92_elbow_example",
    "Verif.C92_elbow_example_happens"
   ],
   "note": "doubles are real numbers; the robot is FollowsPoses and FollowsElbow in Spec/CartesianExamples.lean; nalgebra's rotations as in Spec/Nalgebra.lean"
  },
  {
   "property": "C93",
   "status": "proved",
   "theorems": [
    "Verif.C93_torques",
    "Verif.C93_rest",
    "Verif.C93_energy_positive",
    "Verif.C93_energy",
    "Verif.C93_never_finishes",
    "Verif.C93_program"
   ],
   "note": "doubles are real numbers for the torques; nalgebra's rotations as in Spec/Nalgebra.lean and Spec/Impedance.lean; the statement about the program holds for any kind of numbers"
  },
  {
   "property": "C94",
   "status": "proved",
   "theorems": [
    "Verif.C94_mirror",
    "Verif.C94_user",
    "Verif.C94_torques"
   ],
   "note": "doubles are real numbers; nalgebra's rotations and pseudo-inverse as in Spec/Impedance.lean; the two threads are not run together: what has arrived from the channel is an argument of the closure"
  },
  {
   "property": "C95",
   "status": "proved",
   "theorems": [
    "Verif.C95_calls",
    "Verif.C95_requests",
    "Verif.C95_consecutive",
    "Verif.C95_consecutive_requests"
   ],
   "note": "parsing the command line, printing and waiting for the user are not modelled"
  },
  {
   "property": "C96",
   "status": "proved",
   "theorems": [
    "Verif.C96_position_program_happens",
    "Verif.C96_velocity_program_happens",
    "Verif.C96_cartesian_velocity_program",
    "Verif.C96_cartesian_velocity_program_happens",
    "Verif.C96_two_motions",
    "Verif.C96_position_program",
    "Verif.C96_velocity_program",
    "Verif.C96_pose_program",
    "Verif.C96_elbow_program",
    "Verif.C96_pose_program_happens",
    "Verif.C96_elbow_program_happens"
   ],
   "note": "with exact real arithmetic; 'follows' is as in C75, C82, C89, C91 and C92: the robot takes over every command as its desired value and sends a state every millisecond; nalgebra's rotations as in Spec/Nalgebra.lean for the pose and elbow programs"
  },
  {
   "property": "C97",
   "status": "proved",
   "theorems": [
    "Verif.C97_download_calls",
    "Verif.C97_download_requests",
    "Verif.C97_download_file",
    "Verif.C97_print_calls",
    "Verif.C97_prints_the_arm",
    "Verif.C97_print_requests",
    "Verif.C97_print_file",
    "Verif.C97_impedance_calls",
    "Verif.C97_impedance_requests"
   ],
   "note": "download_model, print_joint_poses and cartesian_impedance_control as whole programs: calls in order, requests, results, files. What print_joint_poses prints is the list of names and matrices; digits are not modelled."
  },
  {
   "property": "C98",
   "status": "proved",
   "theorems": [
    "Verif.C98_follows",
    "Verif.C98_user",
    "Verif.C98_stays_behind",
    "Verif.C98_up_to_date"
   ],
   "note": "calls of the two closures are atomic with respect to the channel; what the torques towards the desired pose do is C94"
  },
  {
   "property": "C99",
   "status": "proved",
   "theorems": [
    "Verif.C99_name",
    "Verif.C99_text",
    "Verif.C99_text_tells_the_errors"
   ],
   "note": "the missing bracket of the empty list is what the code does"
  },
  {
   "property": "C100",
   "status": "proved",
   "theorems": [
    "Verif.C100_step",
    "Verif.C100_follows_the_exact_filter",
    "Verif.C100_runs_exist",
    "Verif.C100_converges",
    "Verif.C100_joint_positions",
    "Verif.C100_joint_velocities",
    "Verif.C100_torques"
   ],
   "note": "Cartesian signals and the combination with the rate limiter are not covered here (C80 without rounding, C78 without the filter)"
  },
  {
   "property": "C101",
   "status": "proved",
   "theorems": [
    "Verif.C101_limiter",
    "Verif.C101_step",
    "Verif.C101_accepts",
    "Verif.C101_commands"
   ],
   "note": "step by step only: that the reported velocity stays below the bound for whole motions is false in general (C79). Jerk and poses are not covered here"
  },
  {
   "property": "C102",
   "status": "proved",
   "theorems": [
    "Verif.C102_requests",
    "Verif.C102_order",
    "Verif.C102_preparation",
    "Verif.C102_result",
    "Verif.C102_control",
    "Verif.C102_never_ok"
   ],
   "note": "what the n-th call of the mirror's callback finds in the channel is arbitrary here; C98 says what is possible. The message of the panic is not claimed"
  },
  {
   "property": "C103",
   "status": "proved",
   "theorems": [
    "Verif.C103_consecutive_motions_happens",
    "Verif.C103_consecutive_motions"
   ],
   "note": "with exact real arithmetic; 'follows' is as in C75 and C82"
  },
  {
   "property": "C104",
   "status": "proved",
   "theorems": [
    "Verif.C104_filtered_joint_velocities_happen",
    "Verif.C104_velocity_limiter",
    "Verif.C104_position_limiter",
    "Verif.C104_torque_limiter",
    "Verif.C104_joint_velocities",
    "Verif.C104_joint_positions",
    "Verif.C104_torques",
    "Verif.C104_filtered_joint_velocities",
    "Verif.C104_filtered_joint_positions",
    "Verif.C104_filtered_torques",
    "Verif.C104_filtered_torques_happen",
    "Verif.C104_filtered_joint_positions_happen"
   ],
   "note": "for joint velocities, joint positions and torques; a rounding is any function with the stated relative error, see Spec/Rounding.lean; Cartesian commands are not part of the statement"
  },
  {
   "property": "C105",
   "status": "proved",
   "theorems": [
    "Verif.C105_filtered_velocities_happen",
    "Verif.C105_limiter",
    "Verif.C105_velocities",
    "Verif.C105_filtered_velocities"
   ],
   "note": "a rounding is any function with the stated relative error, see Spec/Rounding.lean; Cartesian poses are not part of the statement"
  },
  {
   "property": "C106",
   "status": "proved",
   "theorems": [
    "Verif.C106_joint_motion",
    "Verif.C106_every_such_motion_happens"
   ],
   "note": "composes C86 (the rounded planning), C29 and C35 (the commands of a control call) and C104 (the rounded rate limiter); a rounding is any function with the stated relative error, see Spec/Rounding.lean"
  },
  {
   "property": "C107",
   "status": "proved",
   "theorems": [
    "Verif.C107_text_tells_record",
    "Verif.C107_texts_tell_log",
    "Verif.C107_state_shown",
    "Verif.C107_command_shown"
   ],
   "note": "the text of a number is a parameter, assumed to be non-empty, without separators and different for different numbers (NaNs count as one number); the format of the derived Debug implementations and of Duration is modelled"
  },
  {
   "property": "C108",
   "status": "proved",
   "theorems": [
    "Verif.C108_position_example_happens",
    "Verif.C108_position_example"
   ],
   "note": "C81 with the roundings of C62; the rounded cosine is assumed to have the same relative error as the arithmetic, see Spec/Rounding.lean"
  },
  {
   "property": "C109",
   "status": "proved",
   "theorems": [
    "Verif.C109_velocity_example_happens",
    "Verif.C109_velocity_example"
   ],
   "note": "C82 with the roundings of C62; the rounded cosine and power are assumed to have the same relative error as the arithmetic, floor and fmod are exact as in IEEE 754, see Spec/Rounding.lean and Spec/RoundedVelocity.lean"
  },
  {
   "property": "C110",
   "status": "proved",
   "theorems": [
    "Verif.C110_cartesian_velocity_example",
    "Verif.C110_cartesian_velocity_example_happens"
   ],
   "note": "C89 with the roundings of C62; the rounded sine, cosine and power are assumed to have the same relative error as the arithmetic, floor and fmod are exact as in IEEE 754, see Spec/Rounding.lean and Spec/RoundedVelocity.lean"
  },
  {
   "property": "C111",
   "status": "proved",
   "theorems": [
    "Verif.C111_position_program",
    "Verif.C111_velocity_program",
    "Verif.C111_cartesian_velocity_program",
    "Verif.C111_position_program_happens",
    "Verif.C111_velocity_program_happens",
    "Verif.C111_cartesian_velocity_program_happens"
   ],
   "note": "C96 with the roundings of C62; composes C95 (the calls of the programs), C106, C108, C109 and C110; the Cartesian pose and elbow programs are not covered here"
  }
 ]
}