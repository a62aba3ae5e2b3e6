import Verif.Spec.Rotation
import Verif.Spec.Real
import Verif.Model.Float
/-!
# What is assumed about the rotations of nalgebra

`Geo XR` leaves the operations of nalgebra on rotations open. This is the specification the theorems about poses assume, in exact arithmetic.
Rotations by 180 degrees are left out: the iterative algorithm of `from_matrix` starts at the identity and cannot tell their direction.
-/
namespace Verif.Spec

/-- A matrix in column major order, as nalgebra stores it. -/
def arr9 (M : M3) : Arr XR 9 := Arr.fin ![M 0 0, M 1 0, M 2 0, M 0 1, M 1 1, M 2 1, M 0 2, M 1 2, M 2 2]

/-- The rotation about the direction of `w` by the length of `w`. -/
noncomputable def turn (w : Fin 3 → ℝ) : M3 := rotate (fun i => w i / len w) (len w)

/-- The library computes with rotations as expected. -/
structure RotationLibrary [Geo XR] : Prop where
  /-- Reading the matrix of a rotation gives that rotation. -/
  from_matrix : ∀ R, IsRotation R → ¬ IsHalfTurn R → Geo.toMatrix (Geo.fromMatrix (arr9 R)) = arr9 R
  quat_from_matrix : ∀ R, IsRotation R → ¬ IsHalfTurn R → Geo.toMatrix (Geo.quatFromMatrix (arr9 R)) = arr9 R
  /-- Reading any matrix gives some rotation. -/
  from_any_matrix : ∀ M, ∃ R, IsRotation R ∧ Geo.toMatrix (Geo.fromMatrix (arr9 M)) = arr9 R
  quat_from_any_matrix : ∀ M, ∃ R, IsRotation R ∧ Geo.toMatrix (Geo.quatFromMatrix (arr9 M)) = arr9 R
  /-- The scaled axis of a rotation is finite, and is its axis times its angle. -/
  scaled_axis : ∀ R, IsRotation R → ∃ w, Geo.renormalizedScaledAxis (arr9 R) = Arr.fin w ∧ len w ≤ Real.pi ∧ (¬ IsHalfTurn R → R = turn w)

/-- The library reads the matrix of this rotation right. -/
def ReadsRight [Geo XR] (R : M3) : Prop := Geo.toMatrix (Geo.fromMatrix (arr9 R)) = arr9 R

/-- Interpolation goes the share `t` of the way from one rotation to another, on the shortest arc. Way of less than 4 · 2⁻⁵² rad is lost in rounding: there
nalgebra returns some rotation on the arc. A way of 180 degrees or more is left out, it has no shortest arc. -/
def Interpolates [Geo XR] : Prop := ∀ (a b : Geo.Q XR) (R : M3) (w : Fin 3 → ℝ) (t : ℝ), IsRotation R → len w < Real.pi → 0 ≤ t → t ≤ 1 →
  Geo.toMatrix a = arr9 R → Geo.toMatrix b = arr9 (turn w * R) →
  ∃ q s, Geo.slerp a b (.fin t) = some q ∧ Geo.toMatrix q = arr9 (turn (fun i => s * w i) * R) ∧ 0 ≤ s ∧ s ≤ 1 ∧ (4 / 2 ^ 52 ≤ len w → s = t)

/-- The share of the way to a new value that the filter with the cutoff frequency `f` (in Hz) goes in a millisecond. -/
noncomputable def share (f : ℝ) : ℝ := 2 * Real.pi * f / (1000 + 2 * Real.pi * f)

end Verif.Spec
