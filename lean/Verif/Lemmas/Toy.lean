import Verif.Spec.Session
/-!
A concrete type of "doubles" and concrete schedules for the examples: a double is its bit pattern, the operations are those of
unsigned integers. The all ones pattern plays the role of NaN.
-/
namespace Verif
open Spec

instance : Wire UInt64 := ⟨id, id⟩
instance : LawfulWire UInt64 := ⟨fun _ => rfl, fun _ => rfl⟩

instance : Fl UInt64 where
  lit q := UInt64.ofNat q.num.toNat
  fabs := id
  fsqrt := id
  fsin := id
  fcos := id
  signum _ := 1
  fmin a b := if a ≤ b then a else b
  fmax a b := if a ≤ b then b else a
  flt a b := decide (a < b)
  fle a b := decide (a ≤ b)
  feq a b := decide (a = b)
  isFinite a := decide (a ≠ 0xffffffffffffffff)
  isSignPositive _ := true
  powi a n := a ^ n
  powf2 a := a * a
  pi := 3
  secs n := UInt64.ofNat n
  ofNat n := UInt64.ofNat n
  fmt a := toString a.toNat

instance : Geo UInt64 where
  Q := Unit
  fromMatrix _ := ()
  quatFromMatrix _ := ()
  toMatrix _ := fun _ => 0
  slerp _ _ _ := some ()
  renormalizedScaledAxis _ := fun _ => 0

namespace Toy

/-- A machine with a real-time kernel. -/
def cfg : Cfg where
  network_type := .Robot
  overflow_checks := true
  udp_port := 1337
  realtime_kernel := true
  priority_max_ok := true
  setsched_ok := true
  mlock_ok := true
  x86_64_linux := true
  model_error _ := none

/-- A world before the connection is made. -/
def world (s : List Tick) (cfg : Cfg := cfg) (model_file : Option Bytes := none) : World UInt64 where
  cfg := cfg
  script := s
  ker := {}
  net := {}
  rob := RobotImpl.init 50 .Enforce
  model_file := model_file
  trace := []

theorem fresh (s : List Tick) (c : Cfg) (f : Option Bytes) : Fresh (world s c f) := ⟨rfl, rfl⟩

/-- A tick in which nothing happens. -/
def quiet : Tick := {}
/-- A tick in which bytes arrive on the TCP stream. -/
def tcp (bs : Bytes) : Tick := { tcpIn := bs }
/-- A tick in which a datagram arrives. -/
def udp (bs : Bytes) (src : Addr := 7) : Tick := { udpIn := [⟨src, bs⟩] }

/-- A state datagram with this message id and these modes, and a byte pattern elsewhere. -/
def state (id : UInt8) (motion : UInt8 := 0) (controller : UInt8 := 3) (mode : UInt8 := 1) : Bytes :=
  [id, 0, 0, 0, 0, 0, 0, 0] ++ List.replicate 2272 0 ++ [motion, controller] ++ List.replicate 82 0 ++ [mode] ++ List.replicate 8 0

/-- A robot response with a one byte status. -/
def response (command id status : UInt8) : Bytes := [command, 0, 0, 0, id, 0, 0, 0, 13, 0, 0, 0, status]

/-- The answer to a connection request. -/
def connected : Bytes := [0, 0, 0, 0, 0, 0, 0, 0, 15, 0, 0, 0, 0, 5, 0]

end Toy
end Verif
