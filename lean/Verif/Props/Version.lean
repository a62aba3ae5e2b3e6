import Verif.Lemmas.Version
import Verif.Spec.Version
import Verif.Props.Api
/-!
# The version of the server: C67
-/
set_option linter.unusedSectionVars false
namespace Verif
open Prog Spec
variable {F : Type} [Fl F] [Wire F]

theorem robot_new_version (rc : Option RealtimeConfig) (ls : Option Nat) (w : World F) (hw : Fresh w) :
    Post (Robot.new rc ls : Prog F Unit) w fun r w' => match r with
      | .ok _ => ∃ v, w'.rob.ri_version = some v ∧ RobotReported w w'.trace v
      | _ => True := by
  unfold Robot.new Robot.network_new
  simp only [post_bind, post_sys]
  refine ⟨fun _ => trivial, ?_⟩
  intro t ts hs
  simp only [after_ok, post_ite, post_pure, post_bind, post_modify, Bool.false_eq_true, if_false, if_true, post_err]
  refine ⟨fun _ => trivial, ?_⟩
  intro _
  unfold RobotImpl.new
  simp only [post_bind, post_modify, after_ok]
  generalize hw1 : ({ w with script := ts, ker := w.ker.arrive t, cfg := { w.cfg with network_type := .Robot }, net := {}, rob := _ } : World F) = w1
  have e1 : w1.trace = [] := by rw [← hw1]; exact hw.1
  have e2 : w1.cfg.udp_port = w.cfg.udp_port := by rw [← hw1]
  have e3 : TcpOk .Robot w1 := tcpOk_init _ w1 e1 (by rw [← hw1]) (by rw [← hw1])
  have e4 : robotHello w1 = robotHello w := by unfold robotHello; rw [e2]
  refine Post.congr_at (connect_robot_eq w1) ?_
  rw [e4]
  simp only [post_bind]
  refine (ask_spec (robotHello w) ConnectResponse.codec w1 e3).mono ?_
  rintro r w2 ⟨h, hk, hid, hr⟩
  cases r with
  | ok a =>
    obtain ⟨g1, -, -, -, g2, m, rest, g3, g4, g5⟩ := hr
    rw [e1, visible_nil, List.nil_append] at g2
    have h0 := ConnectResponse.codec_lawful.sound _ _ _ g5
    have ha : At m 0 (ConnectResponse.codec.enc a) := ⟨[], rest, h0, rfl⟩
    obtain ⟨hh, hr⟩ := At.seq ha (m := 12) (RobotCommandHeader.codec_lawful.len _)
    obtain ⟨hs', hv'⟩ := At.seq hr (m := 1) (ConnectStatus.codec_lawful.len _)
    have hst := At.nat1 hs'
    have hvs := At.nat2 hv'
    simp only [after_ok]
    unfold afterConnect
    cases hst' : a.status with
    | Success =>
      have hst0 : natAt m 12 1 = 0 := by
        simp only [Nat.zero_add] at hst
        rw [hst, hst']
        rfl
      simp only [post_modify, after_ok, post_bind, post_attempt]
      generalize hw3 : ({ w2 with rob := { w2.rob with ri_version := some a.version } } : World F) = w2'
      have hu : Pres UdpStep (udp_blocking_receive (RobotStateIntern.codec F) size_of_RobotStateIntern : Prog F _) :=
        pres_udp_blocking_receive _ _
      have hsv : Pres SameVersion (udp_blocking_receive (RobotStateIntern.codec F) size_of_RobotStateIntern : Prog F _) :=
        pres_udp_blocking_receive _ _
      refine ((hu.post _).and (hsv.post _)).mono ?_
      rintro r w3 ⟨hu, hsv⟩
      have hvis : visible w3.trace = [.robotReq ⟨h, robotHello w⟩] := hu.visible.trans (by rw [← hw3]; exact g2)
      have hresp : (h.command_id, m) ∈ responses w3.trace := by
        obtain ⟨ds, ht⟩ := hu.trace
        rw [ht, responses_append, ← hw3]
        exact List.mem_append_left _ g3
      have hver : w3.rob.ri_version = some a.version := hsv.1.trans (by rw [← hw3])
      cases r with
      | ok s =>
        simp only [tried_ok, after_ok]
        unfold update_state_with
        simp only [post_bind, post_modify, after_ok, post_emit]
        refine ⟨a.version, hver, h, s, m, ?_, ?_, g4, hst0, hvs⟩
        · rw [visible_append, hvis]; rfl
        · rw [responses_append]; exact List.mem_append_left _ hresp
      | err e => trivial
      | panic msg => trivial
      | blocked => trivial
    | _ => trivial
  | err e => exact hr.elim
  | panic msg => trivial
  | blocked => trivial

theorem gripper_new_version (w : World F) (hw : Fresh w) :
    Post (Gripper.new : Prog F Unit) w fun r w' => match r with
      | .ok _ => ∃ v, w'.rob.ri_version = some v ∧ GripperReported w w'.trace v
      | _ => True := by
  unfold Gripper.new Robot.network_new
  simp only [post_bind, post_sys]
  refine ⟨fun _ => trivial, ?_⟩
  intro t ts hs
  simp only [after_ok, post_ite, post_pure, post_bind, post_modify, Bool.false_eq_true, if_false, if_true, post_err]
  refine ⟨fun _ => trivial, ?_⟩
  intro _
  generalize hw1 : ({ w with script := ts, ker := w.ker.arrive t, cfg := { w.cfg with network_type := .Gripper }, net := {}, rob := _ } : World F) = w1
  have e1 : w1.trace = [] := by rw [← hw1]; exact hw.1
  have e2 : w1.cfg.udp_port = w.cfg.udp_port := by rw [← hw1]
  have e3 : TcpOk .Gripper w1 := tcpOk_init _ w1 e1 (by rw [← hw1]) (by rw [← hw1])
  have e4 : gripperHello w1 = gripperHello w := by unfold gripperHello; rw [e2]
  refine Post.congr_at (connect_gripper_eq w1) ?_
  rw [e4]
  simp only [post_bind]
  refine (askGripper_spec (gripperHello w) Gripper.ConnectResponse.codec w1 e3).mono ?_
  rintro r w2 ⟨h, hk, hid, hr⟩
  cases r with
  | ok a =>
    obtain ⟨g1, -, -, -, g2, m, rest, g3, g4, g5⟩ := hr
    rw [e1, visible_nil, List.nil_append] at g2
    have h0 := Gripper.ConnectResponse.codec_lawful.sound _ _ _ g5
    have ha : At m 0 (Gripper.ConnectResponse.codec.enc a) := ⟨[], rest, h0, rfl⟩
    obtain ⟨hh, hr⟩ := At.seq ha (m := 10) (Gripper.CommandHeader.codec_lawful.len _)
    obtain ⟨hs', hv'⟩ := At.seq hr (m := 2) (Gripper.Status.codec_lawful.len _)
    have hst := At.nat2 hs'
    have hvs := At.nat2 hv'
    simp only [after_ok]
    unfold afterGripperConnect
    cases hst' : a.status with
    | Success =>
      have hst0 : natAt m 10 2 = 0 := by
        simp only [Nat.zero_add] at hst
        rw [hst, hst']
        rfl
      exact ⟨a.version, rfl, h, m, g2, g3, g4, hst0, hvs⟩
    | _ => trivial
  | err e => exact hr.elim
  | panic msg => trivial
  | blocked => trivial

theorem server_version_eq (w : World F) (v : UInt16) (h : w.rob.ri_version = some v) : (server_version : Prog F UInt16) w = (.ok v, w) := by
  unfold server_version
  show Prog.bind _ _ w = _
  unfold Prog.bind Prog.gets
  simp only [h]
  rfl

/-- What a history that went well began with. -/
theorem bind_ok_inv {α β : Type} {p : Prog F α} {f : α → Prog F β} {w w' : World F} {b : β} (h : (p >>= f) w = (.ok b, w')) :
    ∃ a w1, p w = (.ok a, w1) ∧ f a w1 = (.ok b, w') := by
  change Prog.bind p f w = _ at h
  unfold Prog.bind at h
  cases hp : p w with
  | mk r w1 =>
    rw [hp] at h
    cases r with
    | ok a => exact ⟨a, w1, rfl, h⟩
    | err e => simp at h
    | panic m => simp at h
    | blocked => simp at h

/-- C67: after any calls with any results, `server_version` returns the version with which the server answered the handshake, without
touching the connection. -/
theorem C67_robot_server_version [Geo F] (rc : Option RealtimeConfig) (ls : Option Nat) (cs : List (RobotCall F)) (w0 w : World F)
    (hw : Fresh w0) (h : robotSession rc ls cs w0 = (.ok (), w)) :
    ∃ w1 v, Robot.new rc ls w0 = (.ok (), w1) ∧ RobotReported w0 w1.trace v ∧ Robot.server_version w = (.ok v, w) := by
  obtain ⟨⟨⟩, w1, h1, h2⟩ := bind_ok_inv (p := Robot.new rc ls) (f := fun _ => robotCalls cs) h
  obtain ⟨v, hv, hr⟩ := (robot_new_version rc ls w0 hw).reach h1
  refine ⟨w1, v, h1, hr, server_version_eq w v ?_⟩
  have hI : Closed (F := F) fun w => w.rob.ri_version = some v := fun _ _ h h' => h.1.trans h'
  have := hI.robot
  exact (keeps_robotCalls (I := fun w : World F => w.rob.ri_version = some v) (J := fun _ => True) cs w1 hv).reach h2

/-- C67: the same for a gripper. -/
theorem C67_gripper_server_version (cs : List (GripperCall F)) (w0 w : World F)
    (hw : Fresh w0) (h : gripperSession cs w0 = (.ok (), w)) :
    ∃ w1 v, Gripper.new w0 = (.ok (), w1) ∧ GripperReported w0 w1.trace v ∧ Gripper.server_version w = (.ok v, w) := by
  obtain ⟨⟨⟩, w1, h1, h2⟩ := bind_ok_inv (p := Gripper.new) (f := fun _ => gripperCalls cs) h
  obtain ⟨v, hv, hr⟩ := (gripper_new_version w0 hw).reach h1
  refine ⟨w1, v, h1, hr, server_version_eq w v ?_⟩
  have hI : Closed (F := F) fun w => w.rob.ri_version = some v := fun _ _ h h' => h.1.trans h'
  have := hI.gripper
  exact (keeps_gripperCalls (I := fun w : World F => w.rob.ri_version = some v) (J := fun _ => True) cs w1 hv).reach h2

/-! ## Examples -/

section examples
open Toy

namespace Toy
/-- A robot that reports version 7, and a setter it refuses. -/
def seven : List Tick := [quiet, quiet, tcp [0, 0, 0, 0, 0, 0, 0, 0, 15, 0, 0, 0, 0, 7, 0]] ++ List.replicate 3 quiet ++ [udp (state 1)] ++
  List.replicate 2 quiet ++ [quiet, quiet, tcp (response 7 1 1), quiet, quiet, quiet]
theorem seven_ok : (robotSession none none [.set_joint_impedance fun _ => 3000] (world seven)).1 = .ok () := by kernel_rfl
theorem seven_version : (Robot.server_version (robotSession none none [.set_joint_impedance fun _ => 3000] (world seven)).2).1 = .ok 7 := by
  kernel_rfl
end Toy

example : Fresh (world seven) ∧ robotSession none none [.set_joint_impedance fun _ => 3000] (world seven) =
    (.ok (), (robotSession none none [.set_joint_impedance fun _ => 3000] (world seven)).2) ∧
    (Robot.server_version (robotSession none none [.set_joint_impedance fun _ => 3000] (world seven)).2).1 = .ok 7 :=
  ⟨fresh _ _ _, eq_pair seven_ok, seven_version⟩

example : GripperReachable (gripper []) ∧ (Gripper.server_version (gripper [])).1 = .ok 3 := ⟨gripper_reachable _, by kernel_rfl⟩

end examples
end Verif
