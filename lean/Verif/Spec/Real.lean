import Verif.Model.Geometry
import Mathlib.Analysis.SpecialFunctions.Trigonometric.Basic
/-!
# Doubles as real numbers

The numeric properties are stated over real numbers with infinities and NaN. The special values behave as in IEEE 754. The idealisations: finite
results are exact (no rounding, no overflow) and there is one zero, which counts as positive.
-/
namespace Verif

/-- A double without rounding. `inf true` is minus infinity. -/
inductive XR where
  | nan
  | inf (neg : Bool)
  | fin (x : ℝ)

namespace XR
open Classical

noncomputable section

/-- Sum; infinities of opposite sign give NaN. -/
def add : XR → XR → XR
  | nan, _ => nan
  | _, nan => nan
  | inf a, inf b => if a = b then inf a else nan
  | inf a, fin _ => inf a
  | fin _, inf b => inf b
  | fin x, fin y => fin (x + y)

/-- Negation. -/
def neg : XR → XR
  | nan => nan
  | inf a => inf (!a)
  | fin x => fin (-x)

/-- Product; infinity times zero is NaN. -/
def mul : XR → XR → XR
  | nan, _ => nan
  | _, nan => nan
  | inf a, inf b => inf (a ^^ b)
  | inf a, fin y => if y = 0 then nan else inf (a ^^ decide (y < 0))
  | fin x, inf b => if x = 0 then nan else inf (decide (x < 0) ^^ b)
  | fin x, fin y => fin (x * y)

/-- Quotient; `0/0` and `inf/inf` are NaN, `x/0` is an infinity. -/
def div : XR → XR → XR
  | nan, _ => nan
  | _, nan => nan
  | inf _, inf _ => nan
  | inf a, fin y => inf (a ^^ decide (y < 0))
  | fin _, inf _ => fin 0
  | fin x, fin y => if y = 0 then (if x = 0 then nan else inf (decide (x < 0))) else fin (x / y)

/-- `a < b`; false if one is NaN. -/
def lt : XR → XR → Prop
  | nan, _ => False
  | _, nan => False
  | inf a, inf b => a = true ∧ b = false
  | inf a, fin _ => a = true
  | fin _, inf b => b = false
  | fin x, fin y => x < y

/-- `a ≤ b`; false if one is NaN. -/
def le : XR → XR → Prop
  | nan, _ => False
  | _, nan => False
  | inf a, inf b => a = true ∨ b = false
  | inf a, fin _ => a = true
  | fin _, inf b => b = false
  | fin x, fin y => x ≤ y

/-- `a == b`; false if one is NaN. -/
def eqv : XR → XR → Prop
  | nan, _ => False
  | _, nan => False
  | a, b => a = b

/-- The absolute value. -/
def abs : XR → XR
  | nan => nan
  | inf _ => inf false
  | fin x => fin |x|

/-- The square root; NaN for negative numbers. -/
def sqrt : XR → XR
  | nan => nan
  | inf a => if a then nan else inf false
  | fin x => if x < 0 then nan else fin (Real.sqrt x)

/-- A function that is NaN at infinity. -/
def onFin (f : ℝ → ℝ) : XR → XR
  | fin x => fin (f x)
  | _ => nan

/-- The sign: 1 for zero. -/
def sign : XR → XR
  | nan => nan
  | inf a => if a then fin (-1) else fin 1
  | fin x => if x < 0 then fin (-1) else fin 1

/-- The smaller one; a NaN is ignored. -/
def min : XR → XR → XR
  | nan, b => b
  | a, nan => a
  | a, b => if le a b then a else b

/-- The greater one; a NaN is ignored. -/
def max : XR → XR → XR
  | nan, b => b
  | a, nan => a
  | a, b => if le a b then b else a

/-- A power with a natural exponent. -/
def pow (a : XR) : Nat → XR
  | 0 => fin 1
  | n + 1 => mul (pow a n) a

instance : Fl XR where
  add := add
  sub a b := add a (neg b)
  mul := mul
  div := div
  neg := neg
  lit q := fin q
  fabs := abs
  fsqrt := sqrt
  fsin := onFin Real.sin
  fcos := onFin Real.cos
  signum := sign
  fmin := min
  fmax := max
  flt a b := decide (lt a b)
  fle a b := decide (le a b)
  feq a b := decide (eqv a b)
  isFinite a := match a with
    | fin _ => true
    | _ => false
  isSignPositive a := match a with
    | nan => true
    | inf a => !a
    | fin x => decide (0 ≤ x)
  powi := pow
  powf2 a := mul a a
  pi := fin Real.pi
  secs n := fin (n / 1000)
  ofNat n := fin n
  fmt _ := ""

variable (x y : ℝ) (n : ℕ) (q : ℚ)

@[simp] theorem fin_add : (fin x + fin y : XR) = fin (x + y) := rfl
@[simp] theorem fin_sub : (fin x - fin y : XR) = fin (x - y) := by
  show fin (x + -y) = _
  rw [sub_eq_add_neg]
@[simp] theorem fin_mul : (fin x * fin y : XR) = fin (x * y) := rfl
@[simp] theorem fin_neg : (-fin x : XR) = fin (-x) := rfl
theorem fin_div (h : y ≠ 0) : (fin x / fin y : XR) = fin (x / y) := by
  show (if y = 0 then _ else _) = _
  rw [if_neg h]
theorem lit_fin : (Fl.lit q : XR) = fin q := rfl
@[simp] theorem fabs_fin : Fl.fabs (fin x) = fin |x| := rfl
theorem fsqrt_fin (h : 0 ≤ x) : Fl.fsqrt (fin x) = fin (Real.sqrt x) := by
  show (if x < 0 then _ else _) = _
  rw [if_neg (not_lt.2 h)]
theorem fsqrt_neg (h : x < 0) : Fl.fsqrt (fin x) = nan := by
  show (if x < 0 then _ else _) = _
  rw [if_pos h]
@[simp] theorem fsin_fin : Fl.fsin (fin x) = fin (Real.sin x) := rfl
@[simp] theorem fcos_fin : Fl.fcos (fin x) = fin (Real.cos x) := rfl
@[simp] theorem signum_fin : Fl.signum (fin x) = fin (if x < 0 then -1 else 1) := by
  show (if x < 0 then _ else _) = _
  split <;> rfl
@[simp] theorem fmin_fin : Fl.fmin (fin x) (fin y) = fin (Min.min x y) := by
  show (if x ≤ y then _ else _) = _
  split
  · rw [min_eq_left ‹_›]
  · rw [min_eq_right (le_of_not_ge ‹_›)]
@[simp] theorem fmax_fin : Fl.fmax (fin x) (fin y) = fin (Max.max x y) := by
  show (if x ≤ y then _ else _) = _
  split
  · rw [max_eq_right ‹_›]
  · rw [max_eq_left (le_of_not_ge ‹_›)]
@[simp] theorem flt_fin : Fl.flt (fin x) (fin y) = decide (x < y) := rfl
@[simp] theorem fle_fin : Fl.fle (fin x) (fin y) = decide (x ≤ y) := rfl
@[simp] theorem feq_fin : Fl.feq (fin x) (fin y) = decide (x = y) := by
  show decide (fin x = fin y) = _
  simp
@[simp] theorem isFinite_fin : Fl.isFinite (fin x) = true := rfl
@[simp] theorem isFinite_nan : Fl.isFinite (nan : XR) = false := rfl
@[simp] theorem isFinite_inf (a : Bool) : Fl.isFinite (inf a) = false := rfl
@[simp] theorem isSignPositive_fin : Fl.isSignPositive (fin x) = decide (0 ≤ x) := rfl
@[simp] theorem powi_fin : Fl.powi (fin x) n = fin (x ^ n) := by
  show pow (fin x) n = _
  induction n with
  | zero => rw [pow_zero]; rfl
  | succ n ih => rw [pow, ih]; show fin _ = _; rw [pow_succ]
@[simp] theorem powf2_fin : Fl.powf2 (fin x) = fin (x ^ 2) := by
  show fin (x * x) = _
  rw [sq]
theorem pi_fin : (Fl.pi : XR) = fin Real.pi := rfl
theorem secs_fin : (Fl.secs n : XR) = fin (n / 1000) := rfl
@[simp] theorem fin_inj : fin x = fin y ↔ x = y := ⟨fun h => by injection h, fun h => h ▸ rfl⟩

theorem isFinite_iff {a : XR} : Fl.isFinite a = true ↔ ∃ x, a = fin x := by
  cases a <;> simp

end
end XR

/-- An array of real numbers as an array of doubles. -/
def Arr.fin {n : Nat} (v : Fin n → ℝ) : Arr XR n := fun i => .fin (v i)

@[simp] theorem Arr.fin_apply {n : Nat} (v : Fin n → ℝ) (i : Fin n) : Arr.fin v i = .fin (v i) := rfl

theorem Arr.fin_of_isFinite {n : Nat} {v : Arr XR n} (h : ∀ i, Fl.isFinite (v i) = true) : ∃ u, v = Arr.fin u := by
  choose u hu using fun i => XR.isFinite_iff.1 (h i)
  exact ⟨u, funext hu⟩

end Verif
