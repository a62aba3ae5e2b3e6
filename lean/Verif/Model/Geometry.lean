import Verif.Model.Float
import Mathlib.Data.Fin.VecNotation
/-!
# Vectors, 3x3 matrices and isometries

The nalgebra 0.23 operations used by the code, written out. Matrices are column major.
Simplification: the order in which nalgebra adds the products of a matrix product is fixed to left to right.
-/
namespace Verif
open Fl
variable {F : Type} [Fl F]

/-- A computation which may panic (`Except.error` is a panic with its message; `assert!` and `unwrap` all over `/repo/src`). -/
abbrev P (α : Type) := Except String α

/-- `assert!(b)` (e.g. `/repo/src/robot/low_pass_filter.rs:30-32`). -/
def assertP (b : Bool) (msg : String) : P Unit := if b then .ok () else .error msg

/-- All elements of an array satisfy a test (the `iter().for_each(|x| assert!(..))` pattern, e.g. `/repo/src/robot/control_types.rs:183`). -/
def Arr.all {α : Type} {n : Nat} (p : α → Bool) (v : Arr α n) : Bool := decide (∀ i, p (v i) = true)

/-- `for i in 0..n { out[i] = f(i) }` where `f` may panic (e.g. `/repo/src/robot/control_types.rs:163-170`). -/
def Arr.tabulateP {α : Type} : {n : Nat} → (Fin n → P α) → P (Arr α n)
  | 0, _ => .ok (fun i => i.elim0)
  | n + 1, f => do
    let x ← f 0
    let xs ← Arr.tabulateP (n := n) (fun i => f i.succ)
    return Arr.cons x xs

/-- `v[i] = x` (e.g. `/repo/src/robot/control_types.rs:378`). -/
def Arr.set {α : Type} {n : Nat} (v : Arr α n) (i : Fin n) (x : α) : Arr α n := fun j => if j = i then x else v j

/-- `iter().for_each(|x| assert!(x.is_finite()))` (`/repo/src/robot/control_types.rs:183`, `/repo/src/robot/rate_limiting.rs:104-106`). -/
def assertFinite {n : Nat} (v : Arr F n) : P Unit := assertP (v.all isFinite) "assertion failed: x.is_finite()"

/-- Vector/matrix sum (nalgebra; `/repo/src/robot/robot_state.rs:406`). -/
def Arr.add {n : Nat} (a b : Arr F n) : Arr F n := fun i => a i + b i
/-- Vector/matrix difference (nalgebra; `/repo/src/robot/robot_state.rs:398`). -/
def Arr.sub {n : Nat} (a b : Arr F n) : Arr F n := fun i => a i - b i
/-- `s * v` (nalgebra; `/repo/src/robot/robot_state.rs:399`). -/
def Arr.lmul {n : Nat} (s : F) (v : Arr F n) : Arr F n := fun i => s * v i
/-- `v * s` (nalgebra; `/repo/src/robot/rate_limiting.rs:338`). -/
def Arr.rmul {n : Nat} (v : Arr F n) (s : F) : Arr F n := fun i => v i * s
/-- `v / s` (nalgebra; `/repo/src/robot/rate_limiting.rs:308`). -/
def Arr.divs {n : Nat} (v : Arr F n) (s : F) : Arr F n := fun i => v i / s

/-- `a.dot(&b)` for `Vector3` (nalgebra; `/repo/src/robot/rate_limiting.rs:447`). -/
def Vec3.dot (a b : Arr F 3) : F := a 0 * b 0 + a 1 * b 1 + a 2 * b 2
/-- `v.norm_squared()` (nalgebra; `/repo/src/robot/rate_limiting.rs:450`). -/
def Vec3.norm_squared (v : Arr F 3) : F := lit 0 + Vec3.dot v v
/-- `v.norm()` (nalgebra; `/repo/src/robot/rate_limiting.rs:441`). -/
def Vec3.norm (v : Arr F 3) : F := fsqrt (Vec3.norm_squared v)
/-- `v.normalize()`: divides by the norm also when it is zero (nalgebra; `/repo/src/robot/rate_limiting.rs:446`). -/
def Vec3.normalize (v : Arr F 3) : Arr F 3 := v.divs (Vec3.norm v)

/-- Element in row `r` and column `c` of a column major 3x3 matrix (`Matrix3::from_column_slice`, `/repo/src/robot/robot_state.rs:389`). -/
def Mat3.get (m : Arr F 9) (r c : Fin 3) : F := m ⟨r.val + 3 * c.val, by omega⟩
/-- The column major 3x3 matrix with given entries (`as_slice`, `/repo/src/robot/robot_state.rs:413`). -/
def Mat3.of (f : Fin 3 → Fin 3 → F) : Arr F 9 := fun i => f ⟨i.val % 3, by omega⟩ ⟨i.val / 3, by omega⟩
/-- Matrix product (nalgebra; `/repo/src/robot/robot_state.rs:400`). -/
def Mat3.mul (a b : Arr F 9) : Arr F 9 := Mat3.of fun r c =>
  Mat3.get a r 0 * Mat3.get b 0 c + Mat3.get a r 1 * Mat3.get b 1 c + Mat3.get a r 2 * Mat3.get b 2 c
/-- `transpose()` (nalgebra; `/repo/src/robot/rate_limiting.rs:314`). -/
def Mat3.transpose (a : Arr F 9) : Arr F 9 := Mat3.of fun r c => Mat3.get a c r
/-- `Matrix3::identity()` (nalgebra; `/repo/src/robot/rate_limiting.rs:356`). -/
def Mat3.identity : Arr F 9 := Mat3.of fun r c => if r = c then lit 1 else lit 0

/-- `Isometry3<f64>` (nalgebra; `/repo/src/utils.rs:11-21`). -/
structure Isometry (F : Type) [Geo F] where
  translation : Arr F 3
  rotation : Geo.Q F

/-- `array_to_isometry` (`/repo/src/utils.rs:11-21`). -/
def array_to_isometry [Geo F] (a : Arr F 16) : Isometry F where
  translation := ![a 12, a 13, a 14]
  rotation := Geo.fromMatrix ![a 0, a 1, a 2, a 4, a 5, a 6, a 8, a 9, a 10]

/-- `to_homogeneous()` read in column major order (nalgebra; `/repo/src/robot/low_pass_filter.rs:71-75`). -/
def Isometry.to_homogeneous [Geo F] (t : Isometry F) : Arr F 16 :=
  let m : Arr F 9 := Geo.toMatrix t.rotation
  ![m 0, m 1, m 2, lit 0, m 3, m 4, m 5, lit 0, m 6, m 7, m 8, lit 0,
    t.translation 0, t.translation 1, t.translation 2, lit 1]

end Verif
