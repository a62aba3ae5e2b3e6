import Verif.Lemmas.Control
/-!
# The version reported by the server is not touched after the constructor
-/
set_option linter.unusedSectionVars false
namespace Verif
open Prog Spec
variable {F : Type} [Fl F] [Wire F]

/-- The version is the same, and the trace only grows. -/
def SameVersion (w w' : World F) : Prop := w'.rob.ri_version = w.rob.ri_version ∧ Grows w w'

theorem SameVersion.none {w w' : World F} (h : w'.rob.ri_version = w.rob.ri_version) (ht : w'.trace = w.trace) : SameVersion w w' :=
  ⟨h, [], by rw [ht, List.append_nil]⟩

theorem SameVersion.one {w w' : World F} (h : w'.rob.ri_version = w.rob.ri_version) {es : List (Ev F)} (ht : w'.trace = w.trace ++ es) :
    SameVersion w w' := ⟨h, es, ht⟩

instance : Pre (SameVersion (F := F)) where
  refl _ := .none rfl rfl
  trans h h' := ⟨h'.1.trans h.1, Pre.trans h.2 h'.2⟩

instance : TTcp (SameVersion (F := F)) where
  tick _ _ _ _ := .none rfl rfl
  poll _ := .none rfl rfl
  read _ _ := .one rfl rfl
  pend _ _ _ := .none rfl rfl
  head _ _ _ := .none rfl rfl
  store _ := .one rfl rfl
  remove _ _ := .none rfl rfl

instance : TAcc (SameVersion (F := F)) where
  upoll _ := .none rfl rfl
  recv _ _ _ _ := .one rfl rfl
  addr _ _ := .none rfl rfl
  acc _ _ := .one rfl rfl

instance : TReq (SameVersion (F := F)) (fun _ => True) where
  next _ := .none rfl rfl
  req _ _ _ := .one rfl rfl

instance : TGReq (SameVersion (F := F)) where
  gnext _ := .none rfl rfl
  greq _ _ := .one rfl rfl

instance : TCmd (SameVersion (F := F)) where
  send _ _ := .one rfl rfl

/-- An invariant closed under `SameVersion`. -/
def Closed (I : World F → Prop) : Prop := ∀ w w', SameVersion w w' → I w → I w'

theorem Closed.tcp {I : World F → Prop} (hI : Closed I) : KeepTcp I (fun _ => True) where
  weak _ _ := trivial
  tick w t ts h hw := hI _ _ (TSys.tick w t ts h) hw
  tcp := Keeps.of_pres (fun _ _ => trivial) fun w => hI _ _ (pres_tcp_read_from_buffer w)
  remove id := Keeps.of_pres (fun _ _ => trivial) fun w => hI _ _ (pres_remove_response id w)

theorem Closed.robot {I : World F → Prop} (hI : Closed I) : KeepRobot I (fun _ => True) := by
  have ht := hI.tcp
  have hlog : ∀ (w : World F) l, I w → I { w with rob := { w.rob with logger := l } } := fun w l => hI _ _ (.none rfl rfl)
  have hrec : Keeps I (fun _ => True) (receive_robot_state : Prog F (RobotStateIntern F)) :=
    Keeps.of_rel hI pres_receive_robot_state
  have hreq : ∀ b, Keeps I (fun _ => True) (sendRequest (F := F) b) := fun b => Keeps.of_rel hI (pres_sendRequest b)
  exact {
    request := fun b _ => hreq b
    start := fun cm mm a b => keeps_start_motion cm mm a b (fun m => hreq _) (keeps_update_none hrec hlog) (keeps_flush_logger' hlog)
      (fun w m c => hI _ _ (.none rfl rfl))
    receive := hrec
    discard := Keeps.of_rel hI pres_discard_available
    update := fun m c => keeps_update_some m c (Keeps.of_rel hI (pres_send_robot_command m c)) hrec hlog
    flush := keeps_flush_logger' hlog
    forget := Keeps.of_pres (fun _ _ => trivial) fun w => hI _ _ (.none rfl rfl)
    cb := fun w e _ => hI _ _ (.one rfl rfl)
    file := fun w f => hI _ _ (.none rfl rfl) }

theorem Closed.gripper {I : World F → Prop} (hI : Closed I) : KeepGripper I (fun _ => True) :=
  haveI := hI.tcp
  KeepGripper.of _ hI fun b => Keeps.of_rel hI (pres_sendGripperRequest b)

end Verif
