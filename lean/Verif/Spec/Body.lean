import Verif.Spec.Real
/-!
# Rigid bodies

A body is a finite collection of point masses. Its mass, first moment and inertia tensor are the sums of classical mechanics.
-/
namespace Verif.Spec
open Matrix

/-- A point mass. -/
structure PointMass where
  mass : ℝ
  pos : Fin 3 → ℝ

/-- A rigid body. -/
abbrev Body := List PointMass

/-- `Σ m`. -/
noncomputable def Body.mass (b : Body) : ℝ := (b.map fun p => p.mass).sum

/-- `Σ m x`. -/
noncomputable def Body.moment (b : Body) (i : Fin 3) : ℝ := (b.map fun p => p.mass * p.pos i).sum

/-- The inertia tensor about the point `c`: `Σ m (|x - c|² δ - (x - c)(x - c)ᵀ)`. -/
noncomputable def Body.inertia (b : Body) (c : Fin 3 → ℝ) (i j : Fin 3) : ℝ :=
  (b.map fun p => p.mass * ((if i = j then (p.pos 0 - c 0) ^ 2 + (p.pos 1 - c 1) ^ 2 + (p.pos 2 - c 2) ^ 2 else 0) - (p.pos i - c i) * (p.pos j - c j))).sum

/-- No mass is negative. -/
def Body.Nonneg (b : Body) : Prop := ∀ p ∈ b, 0 ≤ p.mass

/-- Entry of a column major 3x3 matrix. -/
def entry3 (a : Fin 9 → ℝ) (i j : Fin 3) : ℝ := a ⟨i.val + 3 * j.val, by omega⟩

/-- The numbers `m`, `c` and `I` are the mass, the centre of mass and the inertia tensor about the centre of mass of the body. If the body has no
mass, its centre is any point. -/
structure Body.Described (b : Body) (m : ℝ) (c : Fin 3 → ℝ) (I : Fin 9 → ℝ) : Prop where
  mass : m = b.mass
  centre : ∀ i, m * c i = b.moment i
  inertia : ∀ i j, entry3 I i j = b.inertia c i j

end Verif.Spec
