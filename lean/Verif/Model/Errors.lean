import Verif.Model.Types
/-! Error lists, `/repo/src/robot/error.rs` and `/repo/src/robot/errors.rs`. -/
namespace Verif

/-- `FrankaError` (`/repo/src/robot/error.rs:13-99`). -/
inductive FrankaError where
  | JointPositionLimitsViolation
  | CartesianPositionLimitsViolation
  | SelfCollisionAvoidanceViolation
  | JointVelocityViolation
  | CartesianVelocityViolation
  | ForceControlSafetyViolation
  | JointReflex
  | CartesianReflex
  | MaxGoalPoseDeviationViolation
  | MaxPathPoseDeviationViolation
  | CartesianVelocityProfileSafetyViolation
  | JointPositionMotionGeneratorStartPoseInvalid
  | JointMotionGeneratorPositionLimitsViolation
  | JointMotionGeneratorVelocityLimitsViolation
  | JointMotionGeneratorVelocityDiscontinuity
  | JointMotionGeneratorAccelerationDiscontinuity
  | CartesianPositionMotionGeneratorStartPoseInvalid
  | CartesianMotionGeneratorElbowLimitViolation
  | CartesianMotionGeneratorVelocityLimitsViolation
  | CartesianMotionGeneratorVelocityDiscontinuity
  | CartesianMotionGeneratorAccelerationDiscontinuity
  | CartesianMotionGeneratorElbowSignInconsistent
  | CartesianMotionGeneratorStartElbowInvalid
  | ForceControllerDesiredForceToleranceViolation
  | StartElbowSignInconsistent
  | CommunicationConstraintsViolation
  | PowerLimitViolation
  | CartesianMotionGeneratorJointPositionLimitsViolation
  | CartesianMotionGeneratorJointVelocityLimitsViolation
  | CartesianMotionGeneratorJointVelocityDiscontinuity
  | CartesianMotionGeneratorJointAccelerationDiscontinuity
  | CartesianPositionMotionGeneratorInvalidFrame
  | ControllerTorqueDiscontinuity
  | JointP2PInsufficientTorqueForPlanning
  | TauJRangeViolation
  | InstabilityDetection
  | JointMoveInWrongDirection
  | CartesianSplineViolation
  | JointViaPlanLimitViolation
  | BaseAccelerationInitializationTimeout
  | BaseAccelerationInvalidReading
  deriving DecidableEq, Repr

/-- Discriminants (`/repo/src/robot/error.rs:13-99`, `ToPrimitive`). -/
def FrankaError.toNat : FrankaError → Nat
  | .JointPositionLimitsViolation => 0
  | .CartesianPositionLimitsViolation => 1
  | .SelfCollisionAvoidanceViolation => 2
  | .JointVelocityViolation => 3
  | .CartesianVelocityViolation => 4
  | .ForceControlSafetyViolation => 5
  | .JointReflex => 6
  | .CartesianReflex => 7
  | .MaxGoalPoseDeviationViolation => 8
  | .MaxPathPoseDeviationViolation => 9
  | .CartesianVelocityProfileSafetyViolation => 10
  | .JointPositionMotionGeneratorStartPoseInvalid => 11
  | .JointMotionGeneratorPositionLimitsViolation => 12
  | .JointMotionGeneratorVelocityLimitsViolation => 13
  | .JointMotionGeneratorVelocityDiscontinuity => 14
  | .JointMotionGeneratorAccelerationDiscontinuity => 15
  | .CartesianPositionMotionGeneratorStartPoseInvalid => 16
  | .CartesianMotionGeneratorElbowLimitViolation => 17
  | .CartesianMotionGeneratorVelocityLimitsViolation => 18
  | .CartesianMotionGeneratorVelocityDiscontinuity => 19
  | .CartesianMotionGeneratorAccelerationDiscontinuity => 20
  | .CartesianMotionGeneratorElbowSignInconsistent => 21
  | .CartesianMotionGeneratorStartElbowInvalid => 22
  | .ForceControllerDesiredForceToleranceViolation => 23
  | .StartElbowSignInconsistent => 24
  | .CommunicationConstraintsViolation => 25
  | .PowerLimitViolation => 26
  | .CartesianMotionGeneratorJointPositionLimitsViolation => 27
  | .CartesianMotionGeneratorJointVelocityLimitsViolation => 28
  | .CartesianMotionGeneratorJointVelocityDiscontinuity => 29
  | .CartesianMotionGeneratorJointAccelerationDiscontinuity => 30
  | .CartesianPositionMotionGeneratorInvalidFrame => 31
  | .ControllerTorqueDiscontinuity => 32
  | .JointP2PInsufficientTorqueForPlanning => 33
  | .TauJRangeViolation => 34
  | .InstabilityDetection => 35
  | .JointMoveInWrongDirection => 36
  | .CartesianSplineViolation => 37
  | .JointViaPlanLimitViolation => 38
  | .BaseAccelerationInitializationTimeout => 39
  | .BaseAccelerationInvalidReading => 40

/-- `FrankaError::from_i32` (`/repo/src/robot/error.rs:12`, derived `FromPrimitive`). -/
def FrankaError.from_i32 : Nat → Option FrankaError
  | 0 => some .JointPositionLimitsViolation
  | 1 => some .CartesianPositionLimitsViolation
  | 2 => some .SelfCollisionAvoidanceViolation
  | 3 => some .JointVelocityViolation
  | 4 => some .CartesianVelocityViolation
  | 5 => some .ForceControlSafetyViolation
  | 6 => some .JointReflex
  | 7 => some .CartesianReflex
  | 8 => some .MaxGoalPoseDeviationViolation
  | 9 => some .MaxPathPoseDeviationViolation
  | 10 => some .CartesianVelocityProfileSafetyViolation
  | 11 => some .JointPositionMotionGeneratorStartPoseInvalid
  | 12 => some .JointMotionGeneratorPositionLimitsViolation
  | 13 => some .JointMotionGeneratorVelocityLimitsViolation
  | 14 => some .JointMotionGeneratorVelocityDiscontinuity
  | 15 => some .JointMotionGeneratorAccelerationDiscontinuity
  | 16 => some .CartesianPositionMotionGeneratorStartPoseInvalid
  | 17 => some .CartesianMotionGeneratorElbowLimitViolation
  | 18 => some .CartesianMotionGeneratorVelocityLimitsViolation
  | 19 => some .CartesianMotionGeneratorVelocityDiscontinuity
  | 20 => some .CartesianMotionGeneratorAccelerationDiscontinuity
  | 21 => some .CartesianMotionGeneratorElbowSignInconsistent
  | 22 => some .CartesianMotionGeneratorStartElbowInvalid
  | 23 => some .ForceControllerDesiredForceToleranceViolation
  | 24 => some .StartElbowSignInconsistent
  | 25 => some .CommunicationConstraintsViolation
  | 26 => some .PowerLimitViolation
  | 27 => some .CartesianMotionGeneratorJointPositionLimitsViolation
  | 28 => some .CartesianMotionGeneratorJointVelocityLimitsViolation
  | 29 => some .CartesianMotionGeneratorJointVelocityDiscontinuity
  | 30 => some .CartesianMotionGeneratorJointAccelerationDiscontinuity
  | 31 => some .CartesianPositionMotionGeneratorInvalidFrame
  | 32 => some .ControllerTorqueDiscontinuity
  | 33 => some .JointP2PInsufficientTorqueForPlanning
  | 34 => some .TauJRangeViolation
  | 35 => some .InstabilityDetection
  | 36 => some .JointMoveInWrongDirection
  | 37 => some .CartesianSplineViolation
  | 38 => some .JointViaPlanLimitViolation
  | 39 => some .BaseAccelerationInitializationTimeout
  | 40 => some .BaseAccelerationInvalidReading
  | _ => none

/-- `Display` prints the name (`/repo/src/robot/error.rs:101-105`). -/
def FrankaError.fmt : FrankaError → String
  | .JointPositionLimitsViolation => "JointPositionLimitsViolation"
  | .CartesianPositionLimitsViolation => "CartesianPositionLimitsViolation"
  | .SelfCollisionAvoidanceViolation => "SelfCollisionAvoidanceViolation"
  | .JointVelocityViolation => "JointVelocityViolation"
  | .CartesianVelocityViolation => "CartesianVelocityViolation"
  | .ForceControlSafetyViolation => "ForceControlSafetyViolation"
  | .JointReflex => "JointReflex"
  | .CartesianReflex => "CartesianReflex"
  | .MaxGoalPoseDeviationViolation => "MaxGoalPoseDeviationViolation"
  | .MaxPathPoseDeviationViolation => "MaxPathPoseDeviationViolation"
  | .CartesianVelocityProfileSafetyViolation => "CartesianVelocityProfileSafetyViolation"
  | .JointPositionMotionGeneratorStartPoseInvalid => "JointPositionMotionGeneratorStartPoseInvalid"
  | .JointMotionGeneratorPositionLimitsViolation => "JointMotionGeneratorPositionLimitsViolation"
  | .JointMotionGeneratorVelocityLimitsViolation => "JointMotionGeneratorVelocityLimitsViolation"
  | .JointMotionGeneratorVelocityDiscontinuity => "JointMotionGeneratorVelocityDiscontinuity"
  | .JointMotionGeneratorAccelerationDiscontinuity => "JointMotionGeneratorAccelerationDiscontinuity"
  | .CartesianPositionMotionGeneratorStartPoseInvalid => "CartesianPositionMotionGeneratorStartPoseInvalid"
  | .CartesianMotionGeneratorElbowLimitViolation => "CartesianMotionGeneratorElbowLimitViolation"
  | .CartesianMotionGeneratorVelocityLimitsViolation => "CartesianMotionGeneratorVelocityLimitsViolation"
  | .CartesianMotionGeneratorVelocityDiscontinuity => "CartesianMotionGeneratorVelocityDiscontinuity"
  | .CartesianMotionGeneratorAccelerationDiscontinuity => "CartesianMotionGeneratorAccelerationDiscontinuity"
  | .CartesianMotionGeneratorElbowSignInconsistent => "CartesianMotionGeneratorElbowSignInconsistent"
  | .CartesianMotionGeneratorStartElbowInvalid => "CartesianMotionGeneratorStartElbowInvalid"
  | .ForceControllerDesiredForceToleranceViolation => "ForceControllerDesiredForceToleranceViolation"
  | .StartElbowSignInconsistent => "StartElbowSignInconsistent"
  | .CommunicationConstraintsViolation => "CommunicationConstraintsViolation"
  | .PowerLimitViolation => "PowerLimitViolation"
  | .CartesianMotionGeneratorJointPositionLimitsViolation => "CartesianMotionGeneratorJointPositionLimitsViolation"
  | .CartesianMotionGeneratorJointVelocityLimitsViolation => "CartesianMotionGeneratorJointVelocityLimitsViolation"
  | .CartesianMotionGeneratorJointVelocityDiscontinuity => "CartesianMotionGeneratorJointVelocityDiscontinuity"
  | .CartesianMotionGeneratorJointAccelerationDiscontinuity => "CartesianMotionGeneratorJointAccelerationDiscontinuity"
  | .CartesianPositionMotionGeneratorInvalidFrame => "CartesianPositionMotionGeneratorInvalidFrame"
  | .ControllerTorqueDiscontinuity => "ControllerTorqueDiscontinuity"
  | .JointP2PInsufficientTorqueForPlanning => "JointP2PInsufficientTorqueForPlanning"
  | .TauJRangeViolation => "TauJRangeViolation"
  | .InstabilityDetection => "InstabilityDetection"
  | .JointMoveInWrongDirection => "JointMoveInWrongDirection"
  | .CartesianSplineViolation => "CartesianSplineViolation"
  | .JointViaPlanLimitViolation => "JointViaPlanLimitViolation"
  | .BaseAccelerationInitializationTimeout => "BaseAccelerationInitializationTimeout"
  | .BaseAccelerationInvalidReading => "BaseAccelerationInvalidReading"

/-- `FrankaErrors` (`/repo/src/robot/errors.rs:13-16`). -/
structure FrankaErrors where
  franka_errors : List FrankaError

/-- `FrankaErrorKind` (`/repo/src/robot/errors.rs:18-21`). -/
inductive FrankaErrorKind where
  | Error
  | ReflexReason

/-- `FrankaErrors::new` (`/repo/src/robot/errors.rs:29-42`). The `unwrap` of `from_i32` cannot fail for an array of
41 flags; a failing index would be dropped here instead of panicking (`Props/State.lean` shows there is none). -/
def FrankaErrors.new (errors : RoboErrorHelperStruct) (kind : FrankaErrorKind) : FrankaErrors :=
  let error_array : Arr Bool 41 := match kind with
    | .Error => errors.combine_errors
    | .ReflexReason => errors.combine_reflex_reasons
  ⟨((List.finRange 41).filter fun i => error_array i).filterMap fun i => FrankaError.from_i32 i.val⟩

/-- `FrankaErrors::contains` (`/repo/src/robot/errors.rs:44-46`). -/
def FrankaErrors.contains (e : FrankaErrors) (error : FrankaError) : Bool :=
  decide (error ∈ e.franka_errors)

/-- The loop of `Display` for `FrankaErrors` (`/repo/src/robot/errors.rs:53-63`). -/
def FrankaErrors.fmtLoop : List FrankaError → String
  | [] => ""
  | [e] => "\"" ++ e.fmt ++ "\"]"
  | e :: es => "\"" ++ e.fmt ++ "\", " ++ fmtLoop es

/-- `Display` for `FrankaErrors` (`/repo/src/robot/errors.rs:49-65`). -/
def FrankaErrors.fmt (e : FrankaErrors) : String := "[" ++ fmtLoop e.franka_errors

end Verif
