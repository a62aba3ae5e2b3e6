import Verif.Model.ModelPrograms
import Verif.Spec.Programs
import Verif.Spec.Impedance
import Verif.Spec.Kinematics
/-!
# Example programs that use the model
-/
namespace Verif.Spec
open Fl
variable {F : Type}

/-- First `p` is done. If it returns Ok then it goes on as `then_` says, and otherwise the result of `p` is the result `r` of all, which ends in `w'`. -/
def First {α β : Type} (p : Prog F α) (w : World F) (r : Res F β) (w' : World F) (then_ : α → World F → Prop) : Prop :=
  match p w with
  | (.ok a, w1) => then_ a w1
  | (.err e, w1) => r = .err e ∧ w' = w1
  | (.panic m, w1) => r = .panic m ∧ w' = w1
  | (.blocked, w1) => r = .blocked ∧ w' = w1

/-- The request for the model. -/
def libraryBody : RobotBody F := .LoadModelLibrary { architecture := .X64, system := .Linux }

/-- What the robot is asked for to get the model: nothing if there is a file already. -/
def modelBodies (w : World F) : List (RobotBody F) :=
  match w.model_file with
  | some _ => []
  | none => [libraryBody]

variable [Fl F]

/-- The settings of the impedance example. -/
def impedanceBodies : List (RobotBody F) := [thresholdsBody (fun _ => lit 100) (fun _ => lit 100),
  .SetJointImpedance { K_theta := ![lit 3000, lit 3000, lit 3000, lit 2500, lit 2500, lit 2000, lit 2000] },
  .SetCartesianImpedance { K_x := ![lit 3000, lit 3000, lit 3000, lit 300, lit 300, lit 300] }]

/-- The frames that are printed, with their names. -/
def printedFrames : List (String × Frame) := [("Joint 1", .Joint1), ("Joint 2", .Joint2), ("Joint 3", .Joint3), ("Joint 4", .Joint4), ("Joint 5", .Joint5),
  ("Joint 6", .Joint6), ("Joint 7", .Joint7), ("Flange", .Flange), ("End-Effector", .EndEffector)]

end Verif.Spec
