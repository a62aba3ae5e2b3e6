import Verif.Model.Mirror
import Mathlib.Order.Bounds.Basic
/-!
# How far the mirror is behind
-/
namespace Verif.Spec
open Examples
variable {F : Type}

/-- The poses that the user's robot has had in its calls, in order. -/
def userPoses (ts : List (MirrorTurn F)) : List (Arr F 16) := ts.filterMap fun
  | .user st _ => some st.O_T_EE
  | .mirror _ _ => none

/-- How many calls for the mirror there are. -/
def mirrorCalls (ts : List (MirrorTurn F)) : ℕ := ts.countP fun
  | .user _ _ => false
  | .mirror _ _ => true

/-- In some period up to now there were `n` more calls for the user's robot than for the mirror, and in no such period were there more. The period may be empty. -/
def Behind (ts : List (MirrorTurn F)) (n : ℕ) : Prop := IsGreatest {d : ℤ | ∃ period, period <:+ ts ∧ d = (userPoses period).length - mirrorCalls period} n

end Verif.Spec
