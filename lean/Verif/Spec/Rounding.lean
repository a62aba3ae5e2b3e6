import Verif.Spec.Real
import Verif.Spec.Limits
/-!
# Doubles with rounding and overflow

The second model of doubles: every operation rounds its exact result and overflows to an infinity. The only assumption about the rounding is the
standard bound of the rounding error, which holds for IEEE 754 binary64 with rounding to nearest; no assumption is made about ties or about which
numbers are doubles. The remaining idealisations: there is one zero, and sine, cosine and powers are rounded like the basic operations.
-/
namespace Verif

/-- A rounding of real numbers to doubles (with an unbounded exponent) and the largest finite double. -/
structure Rounding where
  rnd : ℝ → ℝ
  max : ℝ
  big : 2 ^ 1000 ≤ max
  /-- The rounding error: 53 bits of precision, or half of the smallest double. -/
  error : ∀ x, |rnd x - x| ≤ 2⁻¹ ^ 53 * |x| + 2⁻¹ ^ 1075

/-- Doubles with a rounding. -/
def Rd (_ : Rounding) : Type := XR

namespace Rd
open Classical

noncomputable section
variable (A : Rounding)

/-- The double of a real number. -/
def fin {A : Rounding} (x : ℝ) : Rd A := XR.fin x

/-- Rounding of an exact result. -/
def round : XR → Rd A
  | .nan => XR.nan
  | .inf a => XR.inf a
  | .fin x => if |A.rnd x| ≤ A.max then XR.fin (A.rnd x) else XR.inf (decide (x < 0))

instance : Fl (Rd A) where
  add a b := round A (XR.add a b)
  sub a b := round A (XR.add a (XR.neg b))
  mul a b := round A (XR.mul a b)
  div a b := round A (XR.div a b)
  neg := XR.neg
  lit q := round A (.fin q)
  fabs := XR.abs
  fsqrt a := round A (XR.sqrt a)
  fsin a := round A (XR.onFin Real.sin a)
  fcos a := round A (XR.onFin Real.cos a)
  signum := XR.sign
  fmin := XR.min
  fmax := XR.max
  flt a b := decide (XR.lt a b)
  fle a b := decide (XR.le a b)
  feq a b := decide (XR.eqv a b)
  isFinite a := match a with
    | XR.fin _ => true
    | _ => false
  isSignPositive a := match a with
    | XR.nan => true
    | XR.inf a => !a
    | XR.fin x => decide (0 ≤ x)
  powi a n := round A (XR.pow a n)
  powf2 a := round A (XR.mul a a)
  pi := round A (.fin Real.pi)
  secs n := round A (.fin (n / 1000))
  ofNat n := round A (.fin n)
  fmt _ := ""

end
end Rd

/-- An array of real numbers as an array of doubles. -/
def Arr.rd {A : Rounding} {n : Nat} (v : Fin n → ℝ) : Arr (Rd A) n := fun i => Rd.fin (v i)

end Verif
