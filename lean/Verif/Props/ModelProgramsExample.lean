import Verif.Props.ModelPrograms
import Verif.Props.ImpedanceExample
/-!
Runs of the example programs that use the model, for C97.
-/
namespace Verif
open Prog Spec

namespace Toy

/-- What a result is, if it is Ok. -/
def okOf {F α : Type} (r : Res F α) : Option α := match r with
  | .ok a => some a
  | _ => none

theorem okOf_some {F α : Type} {r : Res F α} {a : α} (h : okOf r = some a) : r = .ok a := by
  cases r with
  | ok b => cases h; rfl
  | _ => cases h

/-- Which request it is. -/
def requestKind {F : Type} : RobotBody F → Nat
  | .Connect _ => 0
  | .Move _ => 1
  | .StopMove => 2
  | .LoadModelLibrary _ => 13
  | _ => 9

/-- The library is downloaded and copied. -/
def downloadScript (copy : Tick) : List Tick := handshake ++ loading { accept := 10 } ++ [copy]

end Toy
open Toy

/-- C97: the library of five bytes arrives and is copied; the file stays. -/
example : Fresh (world (downloadScript quiet)) ∧ okOf ((Examples.download_model (F := UInt64)) (world (downloadScript quiet))).1 = some [1, 2, 3, 4, 5] ∧
    ((Examples.download_model (F := UInt64)) (world (downloadScript quiet))).2.model_file = some [1, 2, 3, 4, 5] ∧
    (Spec.asked ((Examples.download_model (F := UInt64)) (world (downloadScript quiet))).2.trace).map requestKind = [0, 13] :=
  ⟨fresh _ _ _, by kernel_rfl, by kernel_rfl, by kernel_rfl⟩

/-- C97: a file that is there is copied; the robot is not asked for it. -/
example : Fresh (world (handshake ++ [quiet]) cfg (some [7, 8])) ∧ okOf ((Examples.download_model (F := UInt64)) (world (handshake ++ [quiet]) cfg (some [7, 8]))).1 = some [7, 8] ∧
    (Spec.asked ((Examples.download_model (F := UInt64)) (world (handshake ++ [quiet]) cfg (some [7, 8]))).2.trace).map requestKind = [0] :=
  ⟨fresh _ _ _, by kernel_rfl, by kernel_rfl⟩

/-- C97: a copy that fails is reported. -/
example : (match ((Examples.download_model (F := UInt64)) (world (downloadScript { fail := true }))).1 with
    | .err (.ModelException m) => m
    | _ => "") = "Could copy model to download location" := by kernel_rfl

/-! ## print_joint_poses -/

namespace Toy

/-- All numbers that the robot sends are one. -/
@[instance_reducible] noncomputable def onesWire : Wire XR := ⟨fun _ => 0, fun _ => .fin 1⟩

/-- The world before the program starts; the model file is there. -/
def onesWorld (s : List Tick) : World XR where
  cfg := cfg
  script := s
  ker := {}
  net := {}
  rob := RobotImpl.init 50 .Enforce
  model_file := some [7]
  trace := []

/-- A state arrives after the model is loaded. -/
def printScript : List Tick := handshake ++ [quiet, quiet] ++ st 8 0 3 1

section
attribute [local instance] onesWire

/-- The state that is read. -/
noncomputable def onesRead : Option (RobotState XR) := okOf (Robot.read_once (Robot.load_model false (Robot.new (some .Ignore) none (onesWorld printScript)).2).2).1

theorem onesRead_q (i : Fin 7) : onesRead.map (fun st => st.q i) = some (.fin 1) := by
  fin_cases i <;> kernel_rfl

theorem onesRead_F (i : Fin 16) : onesRead.map (fun st => st.F_T_EE i) = some (.fin 1) := by
  fin_cases i <;> kernel_rfl

theorem onesRead_K (i : Fin 16) : onesRead.map (fun st => st.EE_T_K i) = some (.fin 1) := by
  fin_cases i <;> kernel_rfl

theorem onesRead_of {w w1 w2 w3 : World XR} {model : Bytes} {st : RobotState XR} (hw : w = onesWorld printScript) (h1 : Robot.new (some .Ignore) none w = (.ok (), w1))
    (h2 : Robot.load_model false w1 = (.ok model, w2)) (h3 : Robot.read_once w2 = (.ok st, w3)) : onesRead = some st := by
  unfold onesRead
  rw [← hw, h1]
  dsimp only
  rw [h2]
  dsimp only
  rw [h3]
  rfl

theorem onesRead_facts {st : RobotState XR} (h : onesRead = some st) : st.q = Arr.fin (fun _ => 1) ∧ st.F_T_EE = colMajor (Matrix.of fun _ _ => 1) ∧
    st.EE_T_K = colMajor (Matrix.of fun _ _ => 1) := by
  refine ⟨funext fun i => ?_, funext fun i => ?_, funext fun i => ?_⟩
  · have := onesRead_q i
    rw [h] at this
    exact Option.some.inj this
  · have := onesRead_F i
    rw [h] at this
    exact Option.some.inj this
  · have := onesRead_K i
    rw [h] at this
    exact Option.some.inj this

theorem onesRun : (okOf (Examples.print_joint_poses (fun _ => library) (onesWorld printScript)).1).isSome = true := by kernel_rfl

theorem ones_from [Geo XR] {w w' : World XR} {out : List (String × (Fin 4 → Fin 4 → XR))} (hw : w = onesWorld printScript)
    (he : Examples.print_joint_poses (fun _ => library) w = (.ok out, w')) :
    w'.model_file = none ∧ ∃ q : String × (Fin 4 → Fin 4 → XR), out[1]? = some q ∧ q.1 = "Joint 2" ∧ q.2 2 3 = .fin 2 := by
  obtain ⟨model, st, w1, w2, w3, h1, h2, h3, h⟩ := C97_prints_the_arm he
  obtain ⟨hq, hF, hK⟩ := onesRead_facts (onesRead_of hw h1 h2 h3)
  have ho := h arm _ _ _ library_ok hq hF hK
  have hf : Fresh w := by subst hw; exact ⟨rfl, rfl⟩
  have hfile := C97_print_file hf he
  have h0 : w.model_file = some [7] := by subst hw; rfl
  rw [h0] at hfile
  refine ⟨by simpa using hfile, ("Joint 2", fun i j => .fin (arm.joint 1 (fun _ => 1) i j)), by rw [ho]; rfl, rfl, ?_⟩
  have : arm.joint 1 (fun _ => 1) 2 3 = 2 := by
    simp [arm]
    norm_num
  rw [← this]

end

end Toy

/-- C97: a robot whose joints are all at one radian. The program removes the file and prints that the second joint is at a height of two. -/
example [Geo XR] : let _ := onesWire; ∃ w out w', Fresh w ∧ w.model_file = some [7] ∧ Examples.print_joint_poses (fun _ => library) w = (.ok out, w') ∧
    w'.model_file = none ∧ ∃ q : String × (Fin 4 → Fin 4 → XR), out[1]? = some q ∧ q.1 = "Joint 2" ∧ q.2 2 3 = .fin 2 := by
  obtain ⟨out, h⟩ := Option.isSome_iff_exists.1 onesRun
  exact ⟨onesWorld printScript, out, _, ⟨rfl, rfl⟩, rfl, eq_pair (okOf_some h), ones_from rfl (eq_pair (okOf_some h))⟩

/-! ## cartesian_impedance_control -/

/-- C97: the robot refuses the motion, and the program returns Ok. -/
example [GeoExtra UInt64] (model : ModelLibrary UInt64) : Fresh (world impedanceScript) ∧
    (isOk (Examples.cartesian_impedance_control model (world impedanceScript)).1,
      (Spec.asked (Examples.cartesian_impedance_control model (world impedanceScript)).2.trace).map requestKind) = (true, [0, 13, 9, 9, 9, 1]) := ⟨fresh _ _ _, by kernel_rfl⟩

/-- C97: the robot refuses a setting, and the program reports it. -/
example [GeoExtra UInt64] (model : ModelLibrary UInt64) : let w := world (handshake ++ loading { accept := 10 } ++ (asking (response 2 2 0)).script ++ (asking (response 3 3 1)).script)
    Fresh w ∧ (isOk (Examples.cartesian_impedance_control model w).1, (Spec.asked (Examples.cartesian_impedance_control model w).2.trace).map requestKind) = (false, [0, 13, 9, 9]) :=
  ⟨fresh _ _ _, by kernel_rfl⟩

end Verif
