import Verif.Spec.State
import Verif.Model.Errors
/-!
# How errors are printed

A specification for C99: the text of a list of errors. It does not use the functions of the code.
-/
namespace Verif.Spec

/-- The names of the errors of the robot, in the order of their flags (`flagOrder`), as the documentation of the library calls them
(`/repo/src/robot/error.rs:12-99`). -/
def errorNames : List String := [
  "JointPositionLimitsViolation",
  "CartesianPositionLimitsViolation",
  "SelfCollisionAvoidanceViolation",
  "JointVelocityViolation",
  "CartesianVelocityViolation",
  "ForceControlSafetyViolation",
  "JointReflex",
  "CartesianReflex",
  "MaxGoalPoseDeviationViolation",
  "MaxPathPoseDeviationViolation",
  "CartesianVelocityProfileSafetyViolation",
  "JointPositionMotionGeneratorStartPoseInvalid",
  "JointMotionGeneratorPositionLimitsViolation",
  "JointMotionGeneratorVelocityLimitsViolation",
  "JointMotionGeneratorVelocityDiscontinuity",
  "JointMotionGeneratorAccelerationDiscontinuity",
  "CartesianPositionMotionGeneratorStartPoseInvalid",
  "CartesianMotionGeneratorElbowLimitViolation",
  "CartesianMotionGeneratorVelocityLimitsViolation",
  "CartesianMotionGeneratorVelocityDiscontinuity",
  "CartesianMotionGeneratorAccelerationDiscontinuity",
  "CartesianMotionGeneratorElbowSignInconsistent",
  "CartesianMotionGeneratorStartElbowInvalid",
  "ForceControllerDesiredForceToleranceViolation",
  "StartElbowSignInconsistent",
  "CommunicationConstraintsViolation",
  "PowerLimitViolation",
  "CartesianMotionGeneratorJointPositionLimitsViolation",
  "CartesianMotionGeneratorJointVelocityLimitsViolation",
  "CartesianMotionGeneratorJointVelocityDiscontinuity",
  "CartesianMotionGeneratorJointAccelerationDiscontinuity",
  "CartesianPositionMotionGeneratorInvalidFrame",
  "ControllerTorqueDiscontinuity",
  "JointP2PInsufficientTorqueForPlanning",
  "TauJRangeViolation",
  "InstabilityDetection",
  "JointMoveInWrongDirection",
  "CartesianSplineViolation",
  "JointViaPlanLimitViolation",
  "BaseAccelerationInitializationTimeout",
  "BaseAccelerationInvalidReading"]

/-- `name` is the name of the error `e`. -/
def IsErrorName (e : FrankaError) (name : String) : Prop := ∃ i : Nat, flagOrder[i]? = some e ∧ errorNames[i]? = some name

/-- How a list of errors with these names is shown to the user: each name in quotes, separated by commas, in brackets. -/
def shownErrors (names : List String) : String := "[" ++ ", ".intercalate (names.map fun n => "\"" ++ n ++ "\"") ++ "]"

end Verif.Spec
