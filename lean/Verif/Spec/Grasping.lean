import Verif.Spec.GripperSession
import Verif.Model.Examples
/-!
# What a program with a gripper sends
-/
namespace Verif.Spec
open Examples Fl
variable {F : Type} [Fl F]

/-- The event is the sending of this request. -/
def GripperSent (b : Gripper.Body F) (e : Ev F) : Prop := ∃ h : Gripper.CommandHeader, h.command = gripperKind b ∧ e = .gripperReq ⟨h, b⟩

/-- The grasp of the example grasp_object: with 0.1 m/s and 60 N, and the default tolerance of 5 mm on both sides. -/
def theGrasp (width : F) : Gripper.Body F :=
  .Grasp { width := width, speed := lit (1 / 10), force := lit 60, epsilon := { inner := lit (5 / 1000), outer := lit (5 / 1000) } }

/-- The requests of the example, when it ends like this. -/
def graspRequests (w0 : World F) (homing : Bool) (width : F) : GraspResult → List (Gripper.Body F)
  | .tooLarge => gripperHello w0 :: (if homing then [.Homing] else [])
  | .lost => gripperHello w0 :: (if homing then [.Homing] else []) ++ [theGrasp width]
  | .grasped => gripperHello w0 :: (if homing then [.Homing] else []) ++ [theGrasp width, .Stop]

/-- The last datagram in this part of a trace. -/
def LastDatagram (tr : List (Ev F)) (d : Datagram) : Prop := ∃ ds, datagrams tr = ds ++ [d]

/-- What the end of the example has to rest on: the maximal width in the last state before the grasp, and whether something was grasped in the last state after it. -/
def RightlyEnds [Wire F] (width : F) (tr : List (Ev F)) : GraspResult → Prop
  | .tooLarge => ∃ d m, LastDatagram tr d ∧ floatAt d.data 12 m ∧ flt m width = true
  | .lost => ∃ a e b d m d', tr = a ++ e :: b ∧ GripperSent (theGrasp width) e ∧ LastDatagram a d ∧ floatAt d.data 12 m ∧ flt m width = false ∧
      LastDatagram b d' ∧ boolAt d'.data 20 false
  | .grasped => ∃ a e b f c d m d', tr = a ++ e :: b ++ f :: c ∧ GripperSent (theGrasp width) e ∧ GripperSent .Stop f ∧ LastDatagram a d ∧ floatAt d.data 12 m ∧
      flt m width = false ∧ LastDatagram b d' ∧ boolAt d'.data 20 true

/-- What a gripper has to do for the example to end like this. `s1` and `s2` are the states that it sends; homing and grasping may be unsuccessful. -/
def graspStory (homing : Bool) (width : F) (h g p : Bool) (s1 s2 : Gripper.GripperState F) : GraspResult → List (GripperCall F × Outcome F (GripperReply F))
  | .tooLarge => (if homing then [(.homing, .ok (.flag h))] else []) ++ [(.read_once, .ok (.state s1))]
  | .lost => (if homing then [(.homing, .ok (.flag h))] else []) ++ [(.read_once, .ok (.state s1)),
      (.grasp width (lit (1 / 10)) (lit 60) none none, .ok (.flag g)), (.read_once, .ok (.state s2))]
  | .grasped => (if homing then [(.homing, .ok (.flag h))] else []) ++ [(.read_once, .ok (.state s1)),
      (.grasp width (lit (1 / 10)) (lit 60) none none, .ok (.flag g)), (.read_once, .ok (.state s2)), (.stop, .ok (.flag p))]

/-- How it has to end with these states. -/
def graspEnd (width : F) (s1 s2 : Gripper.GripperState F) : GraspResult :=
  if flt s1.max_width width then .tooLarge else if s2.is_grasped then .grasped else .lost

end Verif.Spec
