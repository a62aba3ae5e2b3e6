import Verif.Lemmas.Steps
import Verif.Spec.Session
/-! Relations kept by the API calls and by whole histories. -/
namespace Verif
open Prog Spec
variable {F : Type}

/-- `T` holds for every elementary effect of the methods of a `Robot`, with requests accepted by `B`. -/
class TRobot (T : World F → World F → Prop) (B : outParam (RobotBody F → Prop)) : Prop
    extends TTcp T, TAcc T, TRob T, TCmd T, TCb T, TReq T B where
  readCb : ∀ (w : World F) s b, T w { w with trace := w.trace ++ [.readCb s b] }
  file : ∀ (w : World F) f, T w { w with model_file := f }

section
variable {T : World F → World F → Prop} {B : RobotBody F → Prop}

theorem pres_handle_getter_setter_status [Pre T] (s : GetterSetterStatus) :
    Pres T (handle_getter_setter_status s : Prog F Unit) := by
  unfold handle_getter_setter_status; pres

theorem pres_robot_read [TAcc T] [TRob T] [Fl F] [Wire F] {σ : Type} (cb : σ → RobotState F → σ × Bool) (c : σ)
    (hr : ∀ (w : World F) s b, T w { w with trace := w.trace ++ [.readCb s b] }) : Pres T (Robot.read cb c) := by
  unfold Robot.read
  pres [pres_update_none, (show Pres T (emit _) from fun w => hr w _ _)]

theorem pres_new_intern [Pre T] [Fl F] {σ : Type} {k : MotionKind} (cb : σ → RobotState F → Nat → σ × Motion F k)
    (tcb : Option (σ → RobotState F → Nat → σ × Torques F)) (l : Bool) (f : F) :
    Pres T (ControlLoop.new_intern cb tcb l f) := by
  unfold ControlLoop.new_intern set_current_thread_to_highest_scheduler_priority
  pres

theorem pres_download [TTcp T] [TReq T B] (hf : ∀ (w : World F) f, T w { w with model_file := f })
    (hB : B (.LoadModelLibrary { architecture := .X64, system := .Linux })) : Pres T (download : Prog F Unit) := by
  unfold download
  pres [pres_create_header_for_robot _ _, pres_tcp_send_request _ hB, pres_tcp_blocking_receive_load_library_response _,
    (pres_sys : Pres T _), (show Pres T (Prog.modify _) from fun w => hf w _)]

theorem pres_model_new [Pre T] : Pres T (model_new : Prog F Bytes) := by
  unfold model_new
  pres

theorem pres_load_model [TTcp T] [TReq T B] (hf : ∀ (w : World F) f, T w { w with model_file := f })
    (hB : B (.LoadModelLibrary { architecture := .X64, system := .Linux })) (p : Bool) :
    Pres T (Robot.load_model p : Prog F Bytes) := by
  unfold Robot.load_model
  pres [pres_download hf hB, pres_model_new, (pres_sys : Pres T _), (show Pres T (Prog.modify _) from fun w => hf w _)]

theorem pres_server_version [Pre T] : Pres T (Verif.server_version : Prog F UInt16) := by
  unfold Verif.server_version
  pres [pres_unwrapOpt _]

section setters
variable [TTcp T] [TReq T B]

theorem pres_set_collision_behavior (a b c d : Arr F 7) (e f g h : Arr F 6)
    (hB : B (.SetCollisionBehavior ⟨a, b, c, d, e, f, g, h⟩)) :
    Pres T (Robot.set_collision_behavior a b c d e f g h) := by
  unfold Robot.set_collision_behavior
  exact pres_rpc _ _ _ hB _ _ fun _ => pres_handle_getter_setter_status _

theorem pres_set_joint_impedance (a : Arr F 7) (hB : B (.SetJointImpedance ⟨a⟩)) : Pres T (Robot.set_joint_impedance a) := by
  unfold Robot.set_joint_impedance
  exact pres_rpc _ _ _ hB _ _ fun _ => pres_handle_getter_setter_status _

theorem pres_set_cartesian_impedance (a : Arr F 6) (hB : B (.SetCartesianImpedance ⟨a⟩)) :
    Pres T (Robot.set_cartesian_impedance a) := by
  unfold Robot.set_cartesian_impedance
  exact pres_rpc _ _ _ hB _ _ fun _ => pres_handle_getter_setter_status _

theorem pres_set_guiding_mode (a : Arr Bool 6) (b : Bool) (hB : B (.SetGuidingMode ⟨a, b⟩)) :
    Pres T (Robot.set_guiding_mode a b) := by
  unfold Robot.set_guiding_mode
  exact pres_rpc _ _ _ hB _ _ fun _ => pres_handle_getter_setter_status _

theorem pres_set_K (a : Arr F 16) (hB : B (.SetEeToK ⟨a⟩)) : Pres T (Robot.set_K a) := by
  unfold Robot.set_K
  exact pres_rpc _ _ _ hB _ _ fun _ => pres_handle_getter_setter_status _

theorem pres_set_EE (a : Arr F 16) (hB : B (.SetNeToEe ⟨a⟩)) : Pres T (Robot.set_EE a) := by
  unfold Robot.set_EE
  exact pres_rpc _ _ _ hB _ _ fun _ => pres_handle_getter_setter_status _

theorem pres_set_load (a : F) (b : Arr F 3) (c : Arr F 9) (hB : B (.SetLoad ⟨a, b, c⟩)) : Pres T (Robot.set_load a b c) := by
  unfold Robot.set_load
  exact pres_rpc _ _ _ hB _ _ fun _ => pres_handle_getter_setter_status _

theorem pres_set_filters (a b c d e : F) (hB : B (.SetFilters ⟨a, b, c, d, e⟩)) : Pres T (Robot.set_filters a b c d e) := by
  unfold Robot.set_filters
  exact pres_rpc _ _ _ hB _ _ fun _ => pres_handle_getter_setter_status _

theorem pres_automatic_error_recovery (hB : B .AutomaticErrorRecovery) : Pres T (Robot.automatic_error_recovery : Prog F Unit) := by
  unfold Robot.automatic_error_recovery
  refine pres_rpc _ _ _ hB _ _ fun _ => ?_
  pres

theorem pres_stop (hB : B .StopMove) : Pres T (Robot.stop : Prog F Unit) := by
  unfold Robot.stop
  refine pres_rpc _ _ _ hB _ _ fun _ => ?_
  pres

theorem pres_get_virtual_wall [Wire F] (id : Int32) (hB : B (.GetCartesianLimit ⟨id⟩)) :
    Pres T (Robot.get_virtual_wall id : Prog F _) := by
  unfold Robot.get_virtual_wall
  refine pres_rpc _ _ _ hB _ _ fun _ => ?_
  pres
end setters

section control
variable [TTcp T] [TReq T B] [TAcc T] [TRob T] [TCmd T] [TCb T] [Fl F] [Wire F] [Geo F] {σ : Type} {k : MotionKind}

theorem pres_control_torques_intern (cb : σ → RobotState F → Nat → σ × Motion F k)
    (tcb : σ → RobotState F → Nat → σ × Torques F) (l : Option Bool) (f : Option F) (c : σ)
    (hM : ∀ r, B (.Move r)) (hS : B .StopMove) : Pres T (Robot.control_torques_intern cb tcb l f c) := by
  unfold Robot.control_torques_intern ControlLoop.new
  pres [pres_new_intern _ _ _ _, pres_start_motion _ _ _ _ (hM _), pres_run _ hS _]

theorem pres_control_motion_intern (cb : σ → RobotState F → Nat → σ × Motion F k)
    (m : Option ControllerModeArg) (l : Option Bool) (f : Option F) (c : σ)
    (hM : ∀ r, B (.Move r)) (hS : B .StopMove) : Pres T (Robot.control_motion_intern cb m l f c) := by
  unfold Robot.control_motion_intern ControlLoop.from_control_mode
  pres [pres_new_intern _ _ _ _, pres_start_motion _ _ _ _ (hM _), pres_run _ hS _]
end control

theorem pres_call [Fl F] [Wire F] [Geo F] [TRobot T B] (hB : ∀ b, B b) (c : RobotCall F) : Pres T c.run := by
  cases c <;> unfold RobotCall.run <;> simp only
  case read => exact pres_robot_read _ _ TRobot.readCb
  case read_once => unfold Robot.read_once; pres [pres_robotImpl_read_once]
  case set_collision_behavior => exact pres_set_collision_behavior _ _ _ _ _ _ _ _ (hB _)
  case set_joint_impedance => exact pres_set_joint_impedance _ (hB _)
  case set_cartesian_impedance => exact pres_set_cartesian_impedance _ (hB _)
  case set_guiding_mode => exact pres_set_guiding_mode _ _ (hB _)
  case set_K => exact pres_set_K _ (hB _)
  case set_EE => exact pres_set_EE _ (hB _)
  case set_load => exact pres_set_load _ _ _ (hB _)
  case set_filters => exact pres_set_filters _ _ _ _ _ (hB _)
  case automatic_error_recovery => exact pres_automatic_error_recovery (hB _)
  case stop => exact pres_stop (hB _)
  case get_virtual_wall => pres [pres_get_virtual_wall _ (hB _)]
  case control_motion =>
    unfold Robot.control_motion
    exact pres_control_motion_intern _ _ _ _ _ (fun _ => hB _) (hB _)
  case control_torques_and_motion =>
    unfold Robot.control_torques_and_motion
    exact pres_control_torques_intern _ _ _ _ _ (fun _ => hB _) (hB _)
  case control_torques =>
    unfold Robot.control_torques
    exact pres_control_torques_intern _ _ _ _ _ (fun _ => hB _) (hB _)
  case set_default_behavior =>
    unfold Robot.set_default_behavior
    pres [pres_set_collision_behavior _ _ _ _ _ _ _ _ (hB _), pres_set_joint_impedance _ (hB _),
      pres_set_cartesian_impedance _ (hB _)]
  case joint_motion =>
    unfold Robot.joint_motion Robot.control_motion
    exact pres_control_motion_intern _ _ _ _ _ (fun _ => hB _) (hB _)
  case load_model => pres [pres_load_model TRobot.file (hB _) _]
  case server_version =>
    unfold Robot.server_version
    pres [pres_server_version]

theorem pres_robotCalls [Fl F] [Wire F] [Geo F] [TRobot T B] (hB : ∀ b, B b) (cs : List (RobotCall F)) :
    Pres T (robotCalls cs) := by
  induction cs with
  | nil => exact Pres.pure _
  | cons c cs ih =>
    unfold robotCalls
    pres [pres_call hB c]

theorem pres_connect_robot [TTcp T] [TReq T B] [TRob T] (hB : ∀ b, B b) : Pres T (connect_robot : Prog F Unit) := by
  unfold connect_robot
  pres [pres_create_header_for_robot _ _, pres_tcp_send_request _ (hB _), pres_tcp_blocking_receive_response _ _,
    pres_set_version _]

/-- `RobotImpl::new` without the first assignment. -/
theorem pres_robotImpl_new [Fl F] [Wire F] [TTcp T] [TReq T B] [TAcc T] [TRob T] (hB : ∀ b, B b)
    (hinit : ∀ (w : World F) l r, T w { w with rob := RobotImpl.init l r }) (l : Nat) (r : RealtimeConfig) :
    Pres T (RobotImpl.new l r : Prog F Unit) := by
  unfold RobotImpl.new
  pres [pres_connect_robot hB, pres_udp_blocking_receive _ _, pres_update_state_with _,
    (show Pres T (Prog.modify _) from fun w => hinit w _ _)]

end

/-- `T` holds for every elementary effect of the methods of a `Gripper`. -/
class TGripper (T : World F → World F → Prop) : Prop extends TTcp T, TUdp T, TGReq T

section
variable {T : World F → World F → Prop}

theorem pres_handle_response_status [Pre T] (s : Gripper.Status) :
    Pres T (Gripper.handle_response_status s : Prog F Bool) := by
  unfold Gripper.handle_response_status; pres

theorem pres_gripper_call [Fl F] [Wire F] [TGripper T] (c : GripperCall F) : Pres T c.run := by
  cases c <;> unfold GripperCall.run <;> simp only
  case move_gripper =>
    unfold Gripper.move_gripper
    pres [pres_create_header_for_gripper _ _, pres_tcp_send_request_gripper _, pres_tcp_blocking_receive_response _ _,
      pres_handle_response_status _]
  case homing =>
    unfold Gripper.homing
    pres [pres_create_header_for_gripper _ _, pres_tcp_send_request_gripper _, pres_tcp_blocking_receive_response _ _,
      pres_handle_response_status _]
  case stop =>
    unfold Gripper.stop
    pres [pres_create_header_for_gripper _ _, pres_tcp_send_request_gripper _, pres_tcp_blocking_receive_response _ _,
      pres_handle_response_status _]
  case grasp =>
    unfold Gripper.grasp
    pres [pres_create_header_for_gripper _ _, pres_tcp_send_request_gripper _, pres_tcp_blocking_receive_response _ _,
      pres_handle_response_status _]
  case read_once =>
    unfold Gripper.read_once Gripper.discard_available
    pres [pres_udp_receive _ _, pres_udp_blocking_receive _ _]
  case server_version =>
    unfold Gripper.server_version
    pres [pres_server_version]

theorem pres_gripperCalls [Fl F] [Wire F] [TGripper T] (cs : List (GripperCall F)) : Pres T (gripperCalls cs) := by
  induction cs with
  | nil => exact Pres.pure _
  | cons c cs ih =>
    unfold gripperCalls
    pres [pres_gripper_call c]

theorem pres_connect_gripper [Fl F] [Wire F] [TGripper T] [TRob T] (v : UInt16) : Pres T (Gripper.connect_gripper v : Prog F Unit) := by
  unfold Gripper.connect_gripper
  pres [pres_create_header_for_gripper _ _, pres_tcp_send_request_gripper _, pres_tcp_blocking_receive_response _ _,
    pres_set_version _]

end
end Verif
