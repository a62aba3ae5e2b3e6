import Verif.Spec.Cartesian
import Mathlib.LinearAlgebra.Matrix.Determinant.Basic
import Mathlib.LinearAlgebra.Matrix.Notation
import Mathlib.LinearAlgebra.Matrix.Trace
import Mathlib.Analysis.SpecialFunctions.Trigonometric.Basic
/-!
# Rotations and poses

Rotations are 3x3 matrices, poses are 4x4 matrices in column major order.
-/
namespace Verif.Spec

/-- A real 3x3 matrix. -/
abbrev M3 := Matrix (Fin 3) (Fin 3) ℝ

/-- A proper rotation. -/
structure IsRotation (R : M3) : Prop where
  orthogonal : R * R.transpose = 1
  det : R.det = 1

/-- The matrix of the cross product with `n`. -/
def skew (n : Fin 3 → ℝ) : M3 := !![0, -n 2, n 1; n 2, 0, -n 0; -n 1, n 0, 0]

/-- The rotation about the unit vector `n` by the angle `θ` (the formula of Rodrigues). -/
noncomputable def rotate (n : Fin 3 → ℝ) (θ : ℝ) : M3 := 1 + Real.sin θ • skew n + (1 - Real.cos θ) • (skew n * skew n)

/-- A rotation by 180 degrees. -/
def IsHalfTurn (R : M3) : Prop := Matrix.trace R = -1

/-- The rotation in a pose. -/
def rotationPart (p : Fin 16 → ℝ) : M3 := !![p 0, p 4, p 8; p 1, p 5, p 9; p 2, p 6, p 10]
/-- The position in a pose. -/
def position (p : Fin 16 → ℝ) : Fin 3 → ℝ := ![p 12, p 13, p 14]
/-- The last row of a pose is 0, 0, 0, 1. -/
def BottomRow (p : Fin 16 → ℝ) : Prop := p 3 = 0 ∧ p 7 = 0 ∧ p 11 = 0 ∧ p 15 = 1

/-- The pose with a position and a rotation, in column major order. -/
def pose (x : Fin 3 → ℝ) (R : M3) : Fin 16 → ℝ :=
  ![R 0 0, R 1 0, R 2 0, 0, R 0 1, R 1 1, R 2 1, 0, R 0 2, R 1 2, R 2 2, 0, x 0, x 1, x 2, 1]

end Verif.Spec
