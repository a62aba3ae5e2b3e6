import Verif.Model.ControlTypes
/-! The example joint motion generator, `/repo/src/utils.rs:28-191`. -/
namespace Verif
open Fl
variable {F : Type} [Fl F]

/-- `MotionGenerator` (`/repo/src/utils.rs:32-46`). -/
structure MotionGenerator (F : Type) where
  q_goal : Arr F 7
  q_start : Arr F 7
  delta_q : Arr F 7
  dq_max_sync : Arr F 7
  t_1_sync : Arr F 7
  t_2_sync : Arr F 7
  t_f_sync : Arr F 7
  q_1 : Arr F 7
  time : F
  dq_max : Arr F 7
  ddq_max_start : Arr F 7
  ddq_max_goal : Arr F 7

/-- `DELTA_Q_MOTION_FINISHED` (`/repo/src/utils.rs:49`). -/
def DELTA_Q_MOTION_FINISHED : F := lit (1 / 1000000)

/-- `MotionGenerator::new` (`/repo/src/utils.rs:55-83`). -/
def MotionGenerator.new (speed_factor : F) (q_goal : Arr F 7) : MotionGenerator F where
  q_goal := q_goal
  q_start := fun _ => lit 0
  delta_q := fun _ => lit 0
  dq_max_sync := fun _ => lit 0
  t_1_sync := fun _ => lit 0
  t_2_sync := fun _ => lit 0
  t_f_sync := fun _ => lit 0
  q_1 := fun _ => lit 0
  time := lit 0
  dq_max := Arr.rmul ![lit 2, lit 2, lit 2, lit 2, lit (25 / 10), lit (25 / 10), lit (25 / 10)] speed_factor
  ddq_max_start := Arr.rmul (fun _ => lit 5) speed_factor
  ddq_max_goal := Arr.rmul (fun _ => lit 5) speed_factor

namespace MotionGenerator

/-- The body of the loop of `calculate_desired_values` for joint `i`: the offset and whether the joint is finished
(`/repo/src/utils.rs:89-115`). -/
def desired_joint (g : MotionGenerator F) (t : F) (i : Fin 7) : F × Bool :=
  let sign_delta_q := signum (g.delta_q i)
  let t_d := g.t_2_sync i - g.t_1_sync i
  let delta_t_2_sync := g.t_f_sync i - g.t_2_sync i
  if flt (fabs (g.delta_q i)) DELTA_Q_MOTION_FINISHED then (lit 0, true)
  else if flt t (g.t_1_sync i) then
    (lit (-1) / powi (g.t_1_sync i) 3 * g.dq_max_sync i * sign_delta_q * (lit (5 / 10) * t - g.t_1_sync i) * powi t 3, false)
  else if fle (g.t_1_sync i) t && flt t (g.t_2_sync i) then
    (g.q_1 i + (t - g.t_1_sync i) * g.dq_max_sync i * sign_delta_q, false)
  else if fle (g.t_2_sync i) t && flt t (g.t_f_sync i) then
    (g.delta_q i + lit (5 / 10) *
      (lit 1 / powi delta_t_2_sync 3 * (t - g.t_1_sync i - lit 2 * delta_t_2_sync - t_d) * powi (t - g.t_1_sync i - t_d) 3
        + (lit 2 * t - lit 2 * g.t_1_sync i - delta_t_2_sync - lit 2 * t_d))
      * g.dq_max_sync i * sign_delta_q, false)
  else (g.delta_q i, true)

/-- `calculate_desired_values` (`/repo/src/utils.rs:84-117`). -/
def calculate_desired_values (g : MotionGenerator F) (t : F) : Arr F 7 × Bool :=
  (fun i => (g.desired_joint t i).1, Arr.all (n := 7) id fun i => (g.desired_joint t i).2)

/-- The first loop of `calculate_synchronized_values` for joint `i`: `t_f[i]` (`/repo/src/utils.rs:126-145`). -/
def unsync_t_f (g : MotionGenerator F) (i : Fin 7) : F :=
  if flt DELTA_Q_MOTION_FINISHED (fabs (g.delta_q i)) then
    let dq_max_reach :=
      if flt (fabs (g.delta_q i)) (lit 3 / lit 4 * (powi (g.dq_max i) 2 / g.ddq_max_start i)
          + lit 3 / lit 4 * (powi (g.dq_max i) 2 / g.ddq_max_goal i)) then
        fsqrt (lit 4 / lit 3 * g.delta_q i * signum (g.delta_q i) * (g.ddq_max_start i * g.ddq_max_goal i)
          / (g.ddq_max_start i + g.ddq_max_goal i))
      else g.dq_max i
    let t_1 := lit (15 / 10) * dq_max_reach / g.ddq_max_start i
    let delta_t_2 := lit (15 / 10) * dq_max_reach / g.ddq_max_goal i
    t_1 / lit 2 + delta_t_2 / lit 2 + fabs (g.delta_q i) / dq_max_reach
  else lit 0

/-- `t_f.max()` (nalgebra; `/repo/src/utils.rs:146`). -/
def vecMax (v : Arr F 7) : F :=
  [v 1, v 2, v 3, v 4, v 5, v 6].foldl (fun a b => if fle b a then a else b) (v 0)

/-- The values the second loop of `calculate_synchronized_values` computes for one joint (`/repo/src/utils.rs:147-162`). -/
structure Sync (F : Type) where
  dq_max_sync : F
  t_1_sync : F
  t_f_sync : F
  t_2_sync : F
  q_1 : F

/-- The body of the second loop of `calculate_synchronized_values` (`/repo/src/utils.rs:149-160`). -/
def sync_joint (g : MotionGenerator F) (max_t_f : F) (i : Fin 7) : Sync F :=
  let a := lit (15 / 10) / lit 2 * (g.ddq_max_goal i + g.ddq_max_start i)
  let b := lit (-1) * max_t_f * g.ddq_max_goal i * g.ddq_max_start i
  let c := fabs (g.delta_q i) * g.ddq_max_goal i * g.ddq_max_start i
  let delta := fmax (b * b - lit 4 * a * c) (lit 0)
  let dq_max_sync := (lit (-1) * b - fsqrt delta) / (lit 2 * a)
  let t_1_sync := lit (15 / 10) * dq_max_sync / g.ddq_max_start i
  let delta_t_2_sync := lit (15 / 10) * dq_max_sync / g.ddq_max_goal i
  let t_f_sync := t_1_sync / lit 2 + delta_t_2_sync / lit 2 + fabs (g.delta_q i / dq_max_sync)
  { dq_max_sync, t_1_sync, t_f_sync, t_2_sync := t_f_sync - delta_t_2_sync,
    q_1 := dq_max_sync * signum (g.delta_q i) * (lit (5 / 10) * t_1_sync) }

/-- `calculate_synchronized_values` (`/repo/src/utils.rs:118-163`); joints which do not move keep their old values. -/
def calculate_synchronized_values (g : MotionGenerator F) : MotionGenerator F :=
  let max_t_f := vecMax (fun i => g.unsync_t_f i)
  let moves := fun i : Fin 7 => flt DELTA_Q_MOTION_FINISHED (fabs (g.delta_q i))
  let s := fun i : Fin 7 => g.sync_joint max_t_f i
  { g with
    dq_max_sync := fun i => if moves i then (s i).dq_max_sync else g.dq_max_sync i
    t_1_sync := fun i => if moves i then (s i).t_1_sync else g.t_1_sync i
    t_f_sync := fun i => if moves i then (s i).t_f_sync else g.t_f_sync i
    t_2_sync := fun i => if moves i then (s i).t_2_sync else g.t_2_sync i
    q_1 := fun i => if moves i then (s i).q_1 else g.q_1 i }

/-- `generate_motion` (`/repo/src/utils.rs:172-190`); `period` in milliseconds. Returns the changed generator and the output. -/
def generate_motion (g : MotionGenerator F) (robot_state : RobotState F) (period : Nat) :
    MotionGenerator F × JointPositions F :=
  let g := { g with time := g.time + secs period }
  let g := if feq g.time (lit 0) then
      calculate_synchronized_values
        { g with q_start := robot_state.q_d, delta_q := Arr.sub g.q_goal robot_state.q_d }
    else g
  let (delta_q_d, motion_finished) := g.calculate_desired_values g.time
  (g, ⟨motion_finished, Arr.add g.q_start delta_q_d⟩)

end MotionGenerator
end Verif
