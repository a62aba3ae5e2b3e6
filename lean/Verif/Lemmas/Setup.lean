import Verif.Lemmas.History
/-!
The real-time configuration of a robot object, and the machine it runs on, never change.
-/
set_option linter.unusedSectionVars false
namespace Verif
open Prog Spec
variable {F : Type}

/-- The machine allows real-time scheduling. -/
def Spec.RealTimeCapable (c : Cfg) : Prop := c.realtime_kernel = true ∧ c.priority_max_ok = true ∧ c.setsched_ok = true ∧ c.mlock_ok = true

/-- The configuration and the machine stay the same. -/
structure SameSetup (w w' : World F) : Prop where
  rob : w'.rob.realtime_config = w.rob.realtime_config
  cfg : w'.cfg = w.cfg

instance : Pre (SameSetup (F := F)) where
  refl _ := ⟨rfl, rfl⟩
  trans h1 h2 := ⟨h2.1.trans h1.1, h2.2.trans h1.2⟩

instance : TRobot (SameSetup (F := F)) (fun _ => True) where
  tick _ _ _ _ := ⟨rfl, rfl⟩
  poll _ := ⟨rfl, rfl⟩
  read _ _ := ⟨rfl, rfl⟩
  pend _ _ _ := ⟨rfl, rfl⟩
  head _ _ _ := ⟨rfl, rfl⟩
  store _ := ⟨rfl, rfl⟩
  remove _ _ := ⟨rfl, rfl⟩
  upoll _ := ⟨rfl, rfl⟩
  recv _ _ _ _ := ⟨rfl, rfl⟩
  addr _ _ := ⟨rfl, rfl⟩
  next _ := ⟨rfl, rfl⟩
  req _ _ _ := ⟨rfl, rfl⟩
  acc _ _ := ⟨rfl, rfl⟩
  rob _ _ _ _ _ := ⟨rfl, rfl⟩
  send _ _ := ⟨rfl, rfl⟩
  motion _ _ _ _ _ := ⟨rfl, rfl⟩
  control _ _ _ _ := ⟨rfl, rfl⟩
  readCb _ _ _ := ⟨rfl, rfl⟩
  file _ _ := ⟨rfl, rfl⟩

variable [Fl F] [Wire F] [Geo F]

theorem session_setup (rc : Option RealtimeConfig) (ls : Option Nat) (cs : List (RobotCall F)) (w : World F) :
    Post (robotSession rc ls cs) w fun r w' => match r with
      | .ok _ => w'.rob.realtime_config = rc.getD .Enforce ∧ w'.cfg = { w.cfg with network_type := .Robot }
      | _ => True := by
  have hcalls : Pres SameSetup (robotCalls cs) := pres_robotCalls (fun _ => trivial) cs
  have hrest : ∀ w0 : World F, Post (connect_robot >>= fun _ => attempt (udp_blocking_receive (RobotStateIntern.codec F) size_of_RobotStateIntern) >>= fun r =>
      match r with
      | .error _ => Prog.panic "called `Result::unwrap()` on an `Err` value: NetworkException"
      | .ok state => update_state_with state) w0 fun _ w' => SameSetup w0 w' := by
    intro w0
    have : Pres SameSetup (connect_robot >>= fun _ => attempt (udp_blocking_receive (F := F) (RobotStateIntern.codec F) size_of_RobotStateIntern) >>= fun r =>
      match r with
      | .error _ => Prog.panic "called `Result::unwrap()` on an `Err` value: NetworkException"
      | .ok state => update_state_with state) := by
      pres [pres_connect_robot (fun _ => trivial), pres_udp_blocking_receive _ _, pres_update_state_with _]
    exact this.post w0
  unfold robotSession Robot.new Robot.network_new
  simp only [post_bind, post_sys]
  refine ⟨fun _ => trivial, ?_⟩
  intro t ts hs
  simp only [after_ok, post_ite, post_pure, post_bind, post_modify, Bool.false_eq_true, if_false, if_true, post_err]
  refine ⟨fun _ => trivial, fun _ => ?_⟩
  unfold RobotImpl.new
  simp only [post_bind, post_modify, after_ok]
  rw [← post_bind, ← post_bind]
  refine ((hrest _).bind fun r w1 h1 => ?_)
  cases r with
  | ok _ =>
    rw [after_ok]
    refine (hcalls.post w1).mono ?_
    rintro r w2 h2
    cases r with
    | ok _ => exact ⟨h2.rob.trans h1.rob, h2.cfg.trans h1.cfg⟩
    | err e => trivial
    | panic m => trivial
    | blocked => trivial
  | err e => trivial
  | panic m => trivial
  | blocked => trivial

end Verif
