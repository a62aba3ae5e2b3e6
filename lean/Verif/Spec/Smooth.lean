import Verif.Spec.Transparent
import Verif.Spec.Turns
/-!
# Filtered signals

A signal has a value every millisecond.
-/
namespace Verif.Spec

/-- The signal that has the value `a` first and then those of `u`. -/
def starting (a : ℝ) (u : ℕ → ℝ) : ℕ → ℝ
  | 0 => a
  | n + 1 => u n

/-- In the first `N` steps the signal `y` is the signal `u` after a low pass of first order with the cutoff frequency `f` in Hz. Such a low pass follows
`y + y' / (2 π f) = u`; the derivative is the difference quotient over the last millisecond. -/
def LowPassedFor (N : ℕ) (f : ℝ) (u y : ℕ → ℝ) : Prop := ∀ n < N, y (n + 1) + (y (n + 1) - y n) / 0.001 / (2 * Real.pi * f) = u n

/-- The sampled velocity stays a little below the limits in the first `N` steps, see `Allowed` in Spec/Limits.lean. -/
def VelocityAllowedFor (N : ℕ) (L : Limits) (v : ℕ → ℝ) : Prop := ∀ n < N, Allowed (below L) (v (n + 1)) (v n) (rate v n)

/-- The same for a sampled position. -/
def PositionAllowedFor (N : ℕ) (L : Limits) (x : ℕ → ℝ) : Prop := VelocityAllowedFor N L (rate x)

end Verif.Spec
