import Verif.Model.Codec
/-!
# Floating point, wire representation and geometry interfaces

The code is transcribed once over an arbitrary type `F` of "doubles". No law is assumed of the operations,
so a theorem about every `F` holds for IEEE 754 doubles.
-/
namespace Verif

/-- The `f64` operations used by the code. `lit q` is the double nearest to the decimal literal `q`.
Models `f64` in all of `/repo/src`. Simplification: `powf(x, 2.)` (only used with exponent 2) is `powf2`. -/
class Fl (F : Type) extends Add F, Sub F, Mul F, Div F, Neg F where
  lit : Rat → F
  fabs : F → F
  fsqrt : F → F
  fsin : F → F
  fcos : F → F
  signum : F → F
  /-- `f64::min`: ignores a NaN operand -/
  fmin : F → F → F
  /-- `f64::max`: ignores a NaN operand -/
  fmax : F → F → F
  flt : F → F → Bool
  fle : F → F → Bool
  feq : F → F → Bool
  isFinite : F → Bool
  isSignPositive : F → Bool
  powi : F → Nat → F
  powf2 : F → F
  pi : F
  /-- `Duration::as_secs_f64` of a duration of that many milliseconds -/
  secs : Nat → F
  /-- `n as f64` -/
  ofNat : Nat → F
  /-- the text `{}` prints for a double -/
  fmt : F → String

/-- Conversion between doubles and their 64 bit pattern (`f64::to_bits`/`from_bits`; bincode writes doubles as the
little endian bytes of the pattern, `/repo/src/network.rs:392-398`). -/
class Wire (F : Type) where
  toBits : F → UInt64
  ofBits : UInt64 → F

/-- The doubles are exactly the 64 bit patterns. -/
class LawfulWire (F : Type) [Wire F] : Prop where
  of_to : ∀ x : F, Wire.ofBits (Wire.toBits x) = x
  to_of : ∀ b : UInt64, Wire.toBits (Wire.ofBits b : F) = b

/-- nalgebra operations on rotations, left uninterpreted. `Q` is `UnitQuaternion<f64>`; 3x3 matrices are column major.
Models the nalgebra 0.23 calls in `/repo/src/utils.rs:11-21`, `/repo/src/robot/low_pass_filter.rs:64-74`,
`/repo/src/robot/rate_limiting.rs:303-366`. -/
class Geo (F : Type) where
  Q : Type
  /-- `Rotation3::from_matrix(m)` converted into a `UnitQuaternion` -/
  fromMatrix : Arr F 9 → Q
  /-- `UnitQuaternion::from_matrix(m)` -/
  quatFromMatrix : Arr F 9 → Q
  /-- `q.to_rotation_matrix()` -/
  toMatrix : Q → Arr F 9
  /-- `a.slerp(&b, t)`; `none` is the panic of nalgebra when it finds the way ambiguous -/
  slerp : Q → Q → F → Option Q
  /-- `r.renormalize()` followed by `r.scaled_axis()` -/
  renormalizedScaledAxis : Arr F 9 → Arr F 3

namespace Codec
/-- `f64` (bincode, `/repo/src/network.rs:392-398`). -/
def f64 (F : Type) [Wire F] : Codec F := iso u64 Wire.toBits Wire.ofBits
end Codec

/-- `[x; n]`. -/
def Arr.rep {α : Type} {n : Nat} (x : α) : Arr α n := fun _ => x

end Verif
