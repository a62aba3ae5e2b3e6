import Verif.Lemmas.Layout
import Verif.Lemmas.Toy
/-!
# Wire format: C01 - C05 (the parts about encoding; the parts about API calls are in `Props/Api.lean`)
-/
namespace Verif
open Codec

variable {F : Type} [Wire F] [LawfulWire F]

/-- C01, encoding part: the number used as size of a robot request is the number of bytes written for it. -/
theorem C01_robot_request_size (r : RobotReq F) :
    r.enc.length = (Spec.kind r.request).size_of_request := by
  obtain ⟨h, b⟩ := r
  simp only [RobotReq.enc, List.length_append, RobotCommandHeader.codec_lawful.len]
  cases b <;>
    simp only [RobotBody.enc, Spec.kind, RobotCommandEnum.size_of_request, ConnectRequest.codec_lawful.len,
      MoveRequest.codec_lawful.len, GetCartesianLimitRequest.codec_lawful.len,
      SetCollisionBehaviorRequest.codec_lawful.len, SetJointImpedanceRequest.codec_lawful.len,
      SetCartesianImpedanceRequest.codec_lawful.len, SetGuidingModeRequest.codec_lawful.len,
      SetEeToKRequest.codec_lawful.len, SetNeToEeRequest.codec_lawful.len, SetLoadRequest.codec_lawful.len,
      SetFiltersRequest.codec_lawful.len, LoadModelLibraryRequest.codec_lawful.len, List.length_nil]

/-- C01, encoding part, gripper. -/
theorem C01_gripper_request_size (r : Gripper.Req F) :
    r.enc.length = (Spec.gripperKind r.request).size_of_request := by
  obtain ⟨h, b⟩ := r
  simp only [Gripper.Req.enc, List.length_append, Gripper.CommandHeader.codec_lawful.len]
  cases b <;>
    simp only [Gripper.Body.enc, Spec.gripperKind, Gripper.Command.size_of_request,
      Gripper.ConnectRequest.codec_lawful.len, Gripper.MoveRequest.codec_lawful.len,
      Gripper.GraspRequest.codec_lawful.len, List.length_nil]

/-- The largest request, for a concrete command. -/
example : (RobotReq.mk ⟨.SetCollisionBehavior, 7, 428⟩ (.SetCollisionBehavior
    (F := UInt64) ⟨fun _ => 1, fun _ => 2, fun _ => 3, fun _ => 4, fun _ => 5, fun _ => 6, fun _ => 7, fun _ => 8⟩)).enc.length
    = 428 := C01_robot_request_size _

/-- C02: a peer recovers the command kind, id and all arguments of a robot request, whatever follows on the stream. -/
theorem C02_robot_request_roundtrip (r : RobotReq F) (rest : Bytes) (hk : r.header.command = Spec.kind r.request) :
    Spec.robotPeer (r.enc ++ rest) = some (r, rest) := by
  obtain ⟨h, b⟩ := r
  simp only [RobotReq.enc, List.append_assoc, Spec.robotPeer, RobotCommandHeader.codec_lawful.rt]
  simp only at hk
  rw [hk]
  cases b <;>
    simp [RobotBody.enc, Spec.kind, ConnectRequest.codec_lawful.rt,
      MoveRequest.codec_lawful.rt, GetCartesianLimitRequest.codec_lawful.rt,
      SetCollisionBehaviorRequest.codec_lawful.rt, SetJointImpedanceRequest.codec_lawful.rt,
      SetCartesianImpedanceRequest.codec_lawful.rt, SetGuidingModeRequest.codec_lawful.rt,
      SetEeToKRequest.codec_lawful.rt, SetNeToEeRequest.codec_lawful.rt, SetLoadRequest.codec_lawful.rt,
      SetFiltersRequest.codec_lawful.rt, LoadModelLibraryRequest.codec_lawful.rt, Codec.unit]

/-- C02: a peer recovers the command kind, id and all arguments of a gripper request, whatever follows on the stream. -/
theorem C02_gripper_request_roundtrip (r : Gripper.Req F) (rest : Bytes)
    (hk : r.header.command = Spec.gripperKind r.request) :
    Spec.gripperPeer (r.enc ++ rest) = some (r, rest) := by
  obtain ⟨h, b⟩ := r
  simp only [Gripper.Req.enc, List.append_assoc, Spec.gripperPeer, Gripper.CommandHeader.codec_lawful.rt]
  simp only at hk
  rw [hk]
  cases b <;>
    simp [Gripper.Body.enc, Spec.gripperKind, Gripper.ConnectRequest.codec_lawful.rt,
      Gripper.MoveRequest.codec_lawful.rt, Gripper.GraspRequest.codec_lawful.rt, Codec.unit]

/-- C02: two different requests never produce the same bytes, even as prefixes of longer streams. -/
theorem C02_robot_request_injective (r r' : RobotReq F) (rest rest' : Bytes)
    (hk : r.header.command = Spec.kind r.request) (hk' : r'.header.command = Spec.kind r'.request)
    (h : r.enc ++ rest = r'.enc ++ rest') : r = r' ∧ rest = rest' := by
  have h1 := C02_robot_request_roundtrip r rest hk
  rw [h, C02_robot_request_roundtrip r' rest' hk'] at h1
  simpa [eq_comm] using h1

/-- C02: the same for the gripper. -/
theorem C02_gripper_request_injective (r r' : Gripper.Req F) (rest rest' : Bytes)
    (hk : r.header.command = Spec.gripperKind r.request) (hk' : r'.header.command = Spec.gripperKind r'.request)
    (h : r.enc ++ rest = r'.enc ++ rest') : r = r' ∧ rest = rest' := by
  have h1 := C02_gripper_request_roundtrip r rest hk
  rw [h, C02_gripper_request_roundtrip r' rest' hk'] at h1
  simpa [eq_comm] using h1

/-- A request with arguments that meets the hypothesis. -/
example : Spec.robotPeer ((RobotReq.mk ⟨.SetLoad, 3, 116⟩
      (.SetLoad (F := UInt64) ⟨0x7ff8000000000001, fun i => UInt64.ofNat i.val, fun _ => 2⟩)).enc ++ [1, 2])
    = some (⟨⟨.SetLoad, 3, 116⟩, .SetLoad ⟨0x7ff8000000000001, fun i => UInt64.ofNat i.val, fun _ => 2⟩⟩, [1, 2]) :=
  C02_robot_request_roundtrip _ _ rfl

/-- C03: an encoded state has 2373 bytes (the size the receiver compares with) and decodes to itself. -/
theorem C03_state_roundtrip (s : RobotStateIntern F) (rest : Bytes) :
    ((RobotStateIntern.codec F).enc s).length = 2373 ∧ size_of_RobotStateIntern = 2373 ∧
    (RobotStateIntern.codec F).dec ((RobotStateIntern.codec F).enc s ++ rest) = some (s, rest) :=
  ⟨RobotStateIntern.codec_lawful.len s, rfl, RobotStateIntern.codec_lawful.rt s rest⟩

/-- C03: bytes decode to a state only if they begin with the encoding of exactly that state: short input, a bad Boolean
or a bad enum tag is never turned into a state. -/
theorem C03_state_sound (bs rest : Bytes) (s : RobotStateIntern F)
    (h : (RobotStateIntern.codec F).dec bs = some (s, rest)) :
    bs = (RobotStateIntern.codec F).enc s ++ rest ∧ 2373 ≤ bs.length := by
  have h1 := RobotStateIntern.codec_lawful.sound _ _ _ h
  refine ⟨h1, ?_⟩
  rw [h1, List.length_append, RobotStateIntern.codec_lawful.len]
  omega

/-- C03: every field of a decoded state is the value stored at the documented offset of the datagram. -/
theorem C03_state_layout (bs rest : Bytes) (s : RobotStateIntern F)
    (h : (RobotStateIntern.codec F).dec bs = some (s, rest)) : Spec.StateLayout bs s :=
  stateLayout_of_at ⟨[], rest, RobotStateIntern.codec_lawful.sound _ _ _ h, rfl⟩

/-- C03: the same for gripper states, 23 bytes. -/
theorem C03_gripper_state (bs rest : Bytes) (s : Gripper.GripperStateIntern F) :
    ((Gripper.GripperStateIntern.codec F).enc s).length = 23 ∧ Gripper.size_of_GripperStateIntern = 23 ∧
    (Gripper.GripperStateIntern.codec F).dec ((Gripper.GripperStateIntern.codec F).enc s ++ rest) = some (s, rest) ∧
    ((Gripper.GripperStateIntern.codec F).dec bs = some (s, rest) →
      bs = (Gripper.GripperStateIntern.codec F).enc s ++ rest ∧ Spec.GripperStateLayout bs s) :=
  ⟨Gripper.GripperStateIntern.codec_lawful.len s, rfl, Gripper.GripperStateIntern.codec_lawful.rt s rest, fun h =>
    ⟨Gripper.GripperStateIntern.codec_lawful.sound _ _ _ h,
      gripperStateLayout_of_at ⟨[], rest, Gripper.GripperStateIntern.codec_lawful.sound _ _ _ h, rfl⟩⟩⟩

/-- A state that is not the default one decodes, and a byte 7 in place of the robot mode is rejected. -/
example : ((Gripper.GripperStateIntern.codec UInt64).dec
    ([5, 1, 0, 0] ++ List.replicate 16 9 ++ [1] ++ [44, 1])).map (fun p => (p.1.message_id, p.1.is_grasped, p.1.temperature))
    = some (261, true, 300) := by rfl
example : ((Gripper.GripperStateIntern.codec UInt64).dec
    ([5, 1, 0, 0] ++ List.replicate 16 9 ++ [2] ++ [44, 1])).isNone = true := by rfl

/-- C04: a command datagram has 370 bytes, which is also `size_of::<RobotCommand>()`, so the comparison of the number of bytes sent with that
size succeeds for every command; a controller reads back what was sent, every field at its documented offset. -/
theorem C04_command_datagram (c : RobotCommand F) (rest : Bytes) :
    ((RobotCommand.codec F).enc c).length = 370 ∧
    ((RobotCommand.codec F).enc c).length = size_of_RobotCommand ∧
    (RobotCommand.codec F).dec ((RobotCommand.codec F).enc c ++ rest) = some (c, rest) ∧
    Spec.CommandLayout ((RobotCommand.codec F).enc c) c :=
  ⟨RobotCommand.codec_lawful.len c, RobotCommand.codec_lawful.len c, RobotCommand.codec_lawful.rt c rest,
    commandLayout_of_at ⟨[], [], by simp, rfl⟩⟩

/-- C05: what a decoder of any message of this protocol must satisfy: it returns what was encoded, and accepts nothing else. -/
structure Spec.NeverMisread {α : Type} (c : Codec α) : Prop where
  accepts : ∀ a rest, c.dec (c.enc a ++ rest) = some (a, rest)
  rejects : ∀ bs, (∀ a rest, bs ≠ c.enc a ++ rest) → c.dec bs = none

theorem neverMisread_of_lawful {α : Type} {c : Codec α} {n : Nat} (h : Codec.Lawful c n) : Spec.NeverMisread c where
  accepts := h.rt
  rejects bs hb := by
    match hd : c.dec bs with
    | none => rfl
    | some (a, rest) => exact absurd (h.sound _ _ _ hd) (hb a rest)

/-- C05: every response of robot and gripper. -/
theorem C05_responses_never_misread :
    Spec.NeverMisread ConnectResponse.codec ∧ Spec.NeverMisread MoveResponse.codec ∧
    Spec.NeverMisread StopMoveResponse.codec ∧ Spec.NeverMisread (GetCartesianLimitResponse.codec F) ∧
    Spec.NeverMisread SetterResponse.codec ∧ Spec.NeverMisread AutomaticErrorRecoveryResponse.codec ∧
    Spec.NeverMisread LoadModelLibraryResponse.codec ∧ Spec.NeverMisread Gripper.ConnectResponse.codec ∧
    Spec.NeverMisread Gripper.MoveResponse.codec :=
  ⟨neverMisread_of_lawful ConnectResponse.codec_lawful, neverMisread_of_lawful MoveResponse.codec_lawful,
    neverMisread_of_lawful StopMoveResponse.codec_lawful, neverMisread_of_lawful GetCartesianLimitResponse.codec_lawful,
    neverMisread_of_lawful SetterResponse.codec_lawful, neverMisread_of_lawful AutomaticErrorRecoveryResponse.codec_lawful,
    neverMisread_of_lawful LoadModelLibraryResponse.codec_lawful,
    neverMisread_of_lawful Gripper.ConnectResponse.codec_lawful, neverMisread_of_lawful Gripper.MoveResponse.codec_lawful⟩

/-- C05: the status byte is at offset 12 of a robot response and decides the status by the documented numbering;
a response shorter than 13 bytes or with another byte there is rejected. -/
theorem C05_move_status_byte (bs rest : Bytes) (r : MoveResponse) (h : MoveResponse.codec.dec bs = some (r, rest)) :
    13 ≤ bs.length ∧ Spec.natAt bs 4 4 = r.header.command_id.toNat ∧
    (r.status = .Success ↔ Spec.natAt bs 12 1 = 0) ∧ (r.status = .MotionStarted ↔ Spec.natAt bs 12 1 = 1) ∧
    Spec.natAt bs 12 1 < 10 := by
  have h0 := MoveResponse.codec_lawful.sound _ _ _ h
  have hl : 13 ≤ bs.length := by
    rw [h0, List.length_append, MoveResponse.codec_lawful.len]; omega
  have ha : At bs 0 (MoveResponse.codec.enc r) := ⟨[], rest, h0, rfl⟩
  obtain ⟨hh, hs⟩ := At.seq ha (m := 12) (RobotCommandHeader.codec_lawful.len _)
  obtain ⟨h1, h2⟩ := At.seq hh (m := 4) (RobotCommandEnum.codec_lawful.len _)
  obtain ⟨h3, _⟩ := At.seq h2 (m := 4) (u32_lawful.len _)
  have hst := At.nat1 hs
  refine ⟨hl, At.nat4 h3, ?_⟩
  simp only [Nat.zero_add] at hst
  rw [hst]
  cases r with
  | mk hd st => cases st <;> simp [MoveStatus.toTag]

/-- C05: the status byte of a setter, stop or recovery response, likewise at offset 12. -/
theorem C05_setter_status_byte (bs rest : Bytes) (r : SetterResponse) (h : SetterResponse.codec.dec bs = some (r, rest)) :
    13 ≤ bs.length ∧ Spec.natAt bs 4 4 = r.header.command_id.toNat ∧
    (r.status = .Success ↔ Spec.natAt bs 12 1 = 0) ∧ Spec.natAt bs 12 1 < 3 := by
  have h0 := SetterResponse.codec_lawful.sound _ _ _ h
  have hl : 13 ≤ bs.length := by
    rw [h0, List.length_append, SetterResponse.codec_lawful.len]; omega
  have ha : At bs 0 (SetterResponse.codec.enc r) := ⟨[], rest, h0, rfl⟩
  obtain ⟨hh, hs⟩ := At.seq ha (m := 12) (RobotCommandHeader.codec_lawful.len _)
  obtain ⟨h1, h2⟩ := At.seq hh (m := 4) (RobotCommandEnum.codec_lawful.len _)
  obtain ⟨h3, _⟩ := At.seq h2 (m := 4) (u32_lawful.len _)
  have hst := At.nat1 hs
  refine ⟨hl, At.nat4 h3, ?_⟩
  simp only [Nat.zero_add] at hst
  rw [hst]
  cases r with
  | mk hd st => cases st <;> simp [GetterSetterStatus.toTag]

/-- C05: likewise for stop. -/
theorem C05_stop_status_byte (bs rest : Bytes) (r : StopMoveResponse) (h : StopMoveResponse.codec.dec bs = some (r, rest)) :
    13 ≤ bs.length ∧ Spec.natAt bs 4 4 = r.header.command_id.toNat ∧
    (r.status = .Success ↔ Spec.natAt bs 12 1 = 0) ∧ Spec.natAt bs 12 1 < 5 := by
  have h0 := StopMoveResponse.codec_lawful.sound _ _ _ h
  have hl : 13 ≤ bs.length := by
    rw [h0, List.length_append, StopMoveResponse.codec_lawful.len]; omega
  have ha : At bs 0 (StopMoveResponse.codec.enc r) := ⟨[], rest, h0, rfl⟩
  obtain ⟨hh, hs⟩ := At.seq ha (m := 12) (RobotCommandHeader.codec_lawful.len _)
  obtain ⟨h1, h2⟩ := At.seq hh (m := 4) (RobotCommandEnum.codec_lawful.len _)
  obtain ⟨h3, _⟩ := At.seq h2 (m := 4) (u32_lawful.len _)
  have hst := At.nat1 hs
  refine ⟨hl, At.nat4 h3, ?_⟩
  simp only [Nat.zero_add] at hst
  rw [hst]
  cases r with
  | mk hd st => cases st <;> simp [StopMoveStatus.toTag]

/-- C05: likewise for the recovery. -/
theorem C05_recovery_status_byte (bs rest : Bytes) (r : AutomaticErrorRecoveryResponse)
    (h : AutomaticErrorRecoveryResponse.codec.dec bs = some (r, rest)) :
    13 ≤ bs.length ∧ Spec.natAt bs 4 4 = r.header.command_id.toNat ∧
    (r.status = .Success ↔ Spec.natAt bs 12 1 = 0) ∧ Spec.natAt bs 12 1 < 6 := by
  have h0 := AutomaticErrorRecoveryResponse.codec_lawful.sound _ _ _ h
  have hl : 13 ≤ bs.length := by
    rw [h0, List.length_append, AutomaticErrorRecoveryResponse.codec_lawful.len]; omega
  have ha : At bs 0 (AutomaticErrorRecoveryResponse.codec.enc r) := ⟨[], rest, h0, rfl⟩
  obtain ⟨hh, hs⟩ := At.seq ha (m := 12) (RobotCommandHeader.codec_lawful.len _)
  obtain ⟨h1, h2⟩ := At.seq hh (m := 4) (RobotCommandEnum.codec_lawful.len _)
  obtain ⟨h3, _⟩ := At.seq h2 (m := 4) (u32_lawful.len _)
  have hst := At.nat1 hs
  refine ⟨hl, At.nat4 h3, ?_⟩
  simp only [Nat.zero_add] at hst
  rw [hst]
  cases r with
  | mk hd st => cases st <;> simp [AutomaticErrorRecoveryStatus.toTag]

/-- C05: gripper responses, status at offset 10 with two bytes. -/
theorem C05_gripper_status (bs rest : Bytes) (r : Gripper.MoveResponse)
    (h : Gripper.MoveResponse.codec.dec bs = some (r, rest)) :
    12 ≤ bs.length ∧ Spec.natAt bs 2 4 = r.header.command_id.toNat ∧
    (r.status = .Success ↔ Spec.natAt bs 10 2 = 0) ∧ Spec.natAt bs 10 2 < 4 := by
  have h0 := Gripper.MoveResponse.codec_lawful.sound _ _ _ h
  have hl : 12 ≤ bs.length := by
    rw [h0, List.length_append, Gripper.MoveResponse.codec_lawful.len]; omega
  have ha : At bs 0 (Gripper.MoveResponse.codec.enc r) := ⟨[], rest, h0, rfl⟩
  obtain ⟨hh, hs⟩ := At.seq ha (m := 10) (Gripper.CommandHeader.codec_lawful.len _)
  obtain ⟨h1, h2⟩ := At.seq hh (m := 2) (Gripper.Command.codec_lawful.len _)
  obtain ⟨h3, _⟩ := At.seq h2 (m := 4) (u32_lawful.len _)
  have hst := At.nat2 hs
  refine ⟨hl, At.nat4 h3, ?_⟩
  simp only [Nat.zero_add] at hst
  rw [hst]
  cases r with
  | mk hd st => cases st <;> simp [Gripper.Status.toTag]

/-- A complete response decodes; the same response with status byte 10 or without its last byte does not. -/
example : (MoveResponse.codec.dec [1, 0, 0, 0, 7, 0, 0, 0, 13, 0, 0, 0, 6, 99]).map (fun p => (p.1.header.command_id, p.1.status, p.2))
    = some (7, .ReflexAborted, [99]) := by rfl
example : (MoveResponse.codec.dec [1, 0, 0, 0, 7, 0, 0, 0, 13, 0, 0, 0, 10]).isNone = true := by rfl
example : (MoveResponse.codec.dec [1, 0, 0, 0, 7, 0, 0, 0, 13, 0, 0, 0]).isNone = true := by rfl

end Verif
