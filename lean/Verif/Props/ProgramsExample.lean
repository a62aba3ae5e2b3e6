import Verif.Props.Programs
import Verif.Props.CoopSession
import Verif.Lemmas.ToyMotion
/-!
Runs of whole example programs, for C95. There is only one number here, so that every motion ends with its first command.
-/
namespace Verif
open Spec

instance : Wire Unit := ⟨fun _ => 0, fun _ => ()⟩

instance : Fl Unit where
  add _ _ := ()
  sub _ _ := ()
  mul _ _ := ()
  div _ _ := ()
  neg _ := ()
  lit _ := ()
  fabs := id
  fsqrt := id
  fsin := id
  fcos := id
  signum := id
  fmin _ _ := ()
  fmax _ _ := ()
  flt _ _ := true
  fle _ _ := true
  feq _ _ := true
  isFinite _ := true
  isSignPositive _ := true
  powi _ _ := ()
  powf2 _ := ()
  pi := ()
  secs _ := ()
  ofNat _ := ()
  fmt _ := "0"

instance : Geo Unit where
  Q := Unit
  fromMatrix _ := ()
  quatFromMatrix _ := ()
  toMatrix _ := fun _ => ()
  slerp _ _ _ := some ()
  renormalizedScaledAxis _ := fun _ => ()

instance : FlExtra Unit where
  ffloor := id
  fmod _ _ := ()
  powf _ _ := ()

namespace Toy

/-- The world before the program starts. -/
def unitWorld (s : List Tick) : World Unit where
  cfg := cfg
  script := s
  ker := {}
  net := {}
  rob := RobotImpl.init 50 .Enforce
  model_file := none
  trace := []

/-- The first four setters are answered. -/
def prepared : List Tick := handshake ++ (asking (response 4 1 0)).script ++ (asking (response 5 2 0)).script ++ (asking (response 6 3 0)).script ++
  (asking (response 4 4 0)).script

/-- A motion of kind `k`, the `r`-th request, goes well; the states have numbers from `i` on. -/
def oneMotion (k c i r : UInt8) : List Tick := [quiet] ++ ans 1 r 1 ++ [quiet] ++ st i k c 2 ++ st (i + 1) k c 2 ++ [quiet] ++ st (i + 2) 0 3 1 ++ ans 1 r 0

/-- A motion of kind `k` is stopped by a reflex, and the robot recovers. -/
def reflexMotion (k i r : UInt8) : List Tick := [quiet] ++ ans 1 r 1 ++ [quiet] ++ st i k 0 2 ++ st (i + 1) 0 3 4 ++ ans 1 r 6 ++ [quiet] ++ ans 2 (r + 1) 0 ++ st (i + 2) 0 3 1 ++ [quiet] ++
  (asking (response 12 (r + 2) 0)).script

/-- Which request it is. -/
def bodyKind : RobotBody Unit → Nat
  | .Move m => 100 + m.motion_generator_mode.toTag.toNat
  | .StopMove => 2
  | .AutomaticErrorRecovery => 3
  | _ => 9

/-- How a program ends and what it asks for. -/
def programShown (p : Prog Unit Unit) (w : World Unit) : Bool × List Nat := ((match (p w).1 with | .ok _ => true | _ => false), (Spec.asked (p w).2.trace).map bodyKind)

theorem unit_fresh (s : List Tick) : Fresh (unitWorld s) := ⟨rfl, rfl⟩

/-- The second motion goes well as well. -/
def positionScript : List Tick := prepared ++ oneMotion 1 0 2 5 ++ oneMotion 1 0 10 6

/-- The second of the five motions is stopped by a reflex. -/
def consecutiveScript : List Tick := prepared ++ oneMotion 1 0 2 5 ++ oneMotion 2 0 10 6 ++ reflexMotion 2 20 7 ++ oneMotion 2 0 30 10 ++ oneMotion 2 0 40 11 ++ oneMotion 2 0 50 12

/-- The robot refuses the first motion. -/
def refusedScript : List Tick := prepared ++ (asking (response 1 5 3)).script

end Toy
open Toy

/-- C95: the program returns Ok after seven requests: the connection, four settings and two motions. -/
example : Fresh (unitWorld positionScript) ∧ programShown Examples.generate_joint_position_motion (unitWorld positionScript) = (true, [9, 9, 9, 9, 9, 100, 100]) :=
  ⟨unit_fresh _, by kernel_rfl⟩

/-- C95: the robot refuses the first motion, and the program ends. -/
example : Fresh (unitWorld refusedScript) ∧ programShown Examples.generate_cartesian_pose_motion (unitWorld refusedScript) = (false, [9, 9, 9, 9, 9, 100]) :=
  ⟨unit_fresh _, by kernel_rfl⟩

/-- C95: five motions, and the second of them is stopped (2), whereupon the robot recovers (3) and the program goes on. -/
example : Fresh (unitWorld consecutiveScript) ∧
    programShown Examples.generate_consecutive_motions (unitWorld consecutiveScript) = (true, [9, 9, 9, 9, 9, 100, 101, 101, 2, 3, 101, 101, 101]) :=
  ⟨unit_fresh _, by kernel_rfl⟩

end Verif
