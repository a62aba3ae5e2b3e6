import Verif.Spec.Impedance
import Verif.Lemmas.Rotation
import Mathlib.Tactic.FinCases
import Mathlib.Tactic.LinearCombination
/-!
Unit quaternions and the rotations they stand for.
-/
namespace Verif
open Spec Matrix

/-- The product of quaternions. -/
def qMul (a b : Fin 4 → ℝ) : Fin 4 → ℝ :=
  ![a 3 * b 0 + a 0 * b 3 + a 1 * b 2 - a 2 * b 1,
    a 3 * b 1 - a 0 * b 2 + a 1 * b 3 + a 2 * b 0,
    a 3 * b 2 + a 0 * b 1 - a 1 * b 0 + a 2 * b 3,
    a 3 * b 3 - a 0 * b 0 - a 1 * b 1 - a 2 * b 2]

def qConj (a : Fin 4 → ℝ) : Fin 4 → ℝ := ![-a 0, -a 1, -a 2, a 3]

theorem sum_four (c : Fin 4 → ℝ) : ∑ i, c i ^ 2 = c 0 ^ 2 + c 1 ^ 2 + c 2 ^ 2 + c 3 ^ 2 := Fin.sum_univ_four _

theorem qMul_unit {a b : Fin 4 → ℝ} (ha : ∑ i, a i ^ 2 = 1) (hb : ∑ i, b i ^ 2 = 1) : ∑ i, qMul a b i ^ 2 = 1 := by
  rw [sum_four] at *
  simp only [qMul, cons_val_zero, cons_val_one, cons_val]
  linear_combination (a 0 ^ 2 + a 1 ^ 2 + a 2 ^ 2 + a 3 ^ 2) * hb + ha

theorem qConj_unit {a : Fin 4 → ℝ} (ha : ∑ i, a i ^ 2 = 1) : ∑ i, qConj a i ^ 2 = 1 := by
  rw [sum_four] at *
  simp only [qConj, cons_val_zero, cons_val_one, cons_val]
  linear_combination ha

/-- The same matrix, as a homogeneous polynomial. -/
def qMatrix (c : Fin 4 → ℝ) : M3 :=
  !![c 3 ^ 2 + c 0 ^ 2 - c 1 ^ 2 - c 2 ^ 2, 2 * (c 0 * c 1 - c 2 * c 3), 2 * (c 0 * c 2 + c 1 * c 3);
     2 * (c 0 * c 1 + c 2 * c 3), c 3 ^ 2 - c 0 ^ 2 + c 1 ^ 2 - c 2 ^ 2, 2 * (c 1 * c 2 - c 0 * c 3);
     2 * (c 0 * c 2 - c 1 * c 3), 2 * (c 1 * c 2 + c 0 * c 3), c 3 ^ 2 - c 0 ^ 2 - c 1 ^ 2 + c 2 ^ 2]

theorem ofQuaternion_eq {c : Fin 4 → ℝ} (h : ∑ i, c i ^ 2 = 1) : ofQuaternion c = qMatrix c := by
  rw [sum_four] at h
  ext i j
  fin_cases i <;> fin_cases j <;> simp [ofQuaternion, qMatrix] <;> linear_combination -h

theorem qMatrix_mul (a b : Fin 4 → ℝ) : qMatrix (qMul a b) = qMatrix a * qMatrix b := by
  ext i j
  fin_cases i <;> fin_cases j <;> simp [qMatrix, qMul, Matrix.mul_apply, Fin.sum_univ_three] <;> ring

theorem ofQuaternion_mul {a b : Fin 4 → ℝ} (ha : ∑ i, a i ^ 2 = 1) (hb : ∑ i, b i ^ 2 = 1) : ofQuaternion (qMul a b) = ofQuaternion a * ofQuaternion b := by
  rw [ofQuaternion_eq ha, ofQuaternion_eq hb, ofQuaternion_eq (qMul_unit ha hb), qMatrix_mul]

theorem ofQuaternion_conj (a : Fin 4 → ℝ) : ofQuaternion (qConj a) = (ofQuaternion a)ᵀ := by
  ext i j
  fin_cases i <;> fin_cases j <;> simp [ofQuaternion, qConj] <;> ring

theorem qMul_conj {a : Fin 4 → ℝ} (ha : ∑ i, a i ^ 2 = 1) : qMul a (qConj a) = ![0, 0, 0, 1] := by
  rw [sum_four] at ha
  funext i
  fin_cases i
  · simp [qMul, qConj]; ring
  · simp [qMul, qConj]; ring
  · simp [qMul, qConj]; ring
  · simp [qMul, qConj]; linear_combination ha

theorem ofQuaternion_isRotation {a : Fin 4 → ℝ} (ha : ∑ i, a i ^ 2 = 1) : IsRotation (ofQuaternion a) := by
  constructor
  · rw [← ofQuaternion_conj, ← ofQuaternion_mul ha (qConj_unit ha), qMul_conj ha]
    ext i j
    fin_cases i <;> fin_cases j <;> simp [ofQuaternion]
  · have h := ha
    rw [sum_four] at h
    rw [ofQuaternion_eq ha, det_fin_three]
    have : (a 0 ^ 2 + a 1 ^ 2 + a 2 ^ 2 + a 3 ^ 2) ^ 3 = 1 := by rw [h]; norm_num
    rw [← this]
    simp [qMatrix]
    ring

/-- A unit quaternion of the identity. -/
theorem quaternion_one {a : Fin 4 → ℝ} (ha : ∑ i, a i ^ 2 = 1) (h : ofQuaternion a = 1) : a = ![0, 0, 0, 1] ∨ a = ![0, 0, 0, -1] := by
  rw [sum_four] at ha
  have h0 := congrFun (congrFun h 0) 0
  have h1 := congrFun (congrFun h 1) 1
  simp [ofQuaternion] at h0 h1
  have g0 : a 0 = 0 := pow_eq_zero_iff (n := 2) (by norm_num) |>.1 (by nlinarith [sq_nonneg (a 0), sq_nonneg (a 1), sq_nonneg (a 2)])
  have g1 : a 1 = 0 := pow_eq_zero_iff (n := 2) (by norm_num) |>.1 (by nlinarith [sq_nonneg (a 0), sq_nonneg (a 1), sq_nonneg (a 2)])
  have g2 : a 2 = 0 := pow_eq_zero_iff (n := 2) (by norm_num) |>.1 (by nlinarith [sq_nonneg (a 0), sq_nonneg (a 1), sq_nonneg (a 2)])
  have g3 : a 3 ^ 2 = 1 := by rw [g0, g1, g2] at ha; linarith
  rcases sq_eq_one_iff.1 g3 with h | h
  · left
    funext i
    fin_cases i <;> simp [g0, g1, g2, h]
  · right
    funext i
    fin_cases i <;> simp [g0, g1, g2, h]

/-- Two unit quaternions of the same rotation. -/
theorem quaternion_unique {a b : Fin 4 → ℝ} (ha : ∑ i, a i ^ 2 = 1) (hb : ∑ i, b i ^ 2 = 1) (h : ofQuaternion a = ofQuaternion b) : a = b ∨ a = fun i => -b i := by
  have h1 : ofQuaternion (qMul a (qConj b)) = 1 := by
    rw [ofQuaternion_mul ha (qConj_unit hb), ofQuaternion_conj, h]
    exact (ofQuaternion_isRotation hb).orthogonal
  have e : a = qMul (qMul a (qConj b)) b := by
    rw [sum_four] at hb
    funext i
    fin_cases i
    · simp [qMul, qConj]; linear_combination (-a 0) * hb
    · simp [qMul, qConj]; linear_combination (-a 1) * hb
    · simp [qMul, qConj]; linear_combination (-a 2) * hb
    · simp [qMul, qConj]; linear_combination (-a 3) * hb
  rcases quaternion_one (qMul_unit ha (qConj_unit hb)) h1 with g | g
  · left
    rw [e, g]
    funext i
    fin_cases i <;> simp [qMul]
  · right
    rw [e, g]
    funext i
    fin_cases i <;> simp [qMul]

/-- The quaternion of the rotation `turn w`. -/
noncomputable def halfTurn (w : Fin 3 → ℝ) : Fin 4 → ℝ :=
  ![Real.sin (len w / 2) * (w 0 / len w), Real.sin (len w / 2) * (w 1 / len w), Real.sin (len w / 2) * (w 2 / len w), Real.cos (len w / 2)]

theorem halfTurn_unit (w : Fin 3 → ℝ) : ∑ i, halfTurn w i ^ 2 = 1 := by
  rw [sum_four]
  simp only [halfTurn, cons_val_zero, cons_val_one, cons_val]
  have h1 := Real.sin_sq_add_cos_sq (len w / 2)
  rcases eq_or_ne (len w) 0 with h | h
  · rw [h]; simp
  · have h2 : (w 0 / len w) ^ 2 + (w 1 / len w) ^ 2 + (w 2 / len w) ^ 2 = 1 := by
      rw [div_pow, div_pow, div_pow, ← add_div, ← add_div, ← len_sq, div_self (pow_ne_zero 2 h)]
    linear_combination Real.sin (len w / 2) ^ 2 * h2 + h1

theorem turn_quaternion (w : Fin 3 → ℝ) : turn w = ofQuaternion (halfTurn w) := by
  have h1 : Real.sin (len w) = 2 * Real.sin (len w / 2) * Real.cos (len w / 2) := by rw [← Real.sin_two_mul]; congr 1; ring
  have h2 : Real.cos (len w) = 1 - 2 * Real.sin (len w / 2) ^ 2 := by
    have := Real.cos_two_mul (len w / 2)
    rw [show 2 * (len w / 2) = len w by ring] at this
    linear_combination this + 2 * Real.sin_sq_add_cos_sq (len w / 2)
  unfold turn rotate
  rw [h1, h2]
  ext i j
  fin_cases i <;> fin_cases j <;> simp [ofQuaternion, halfTurn, skew] <;> ring

/-- Turning the vector part of `a⁻¹ b` by `a` gives the vector part of `b a⁻¹`. -/
theorem ofQuaternion_vec {a : Fin 4 → ℝ} (ha : ∑ i, a i ^ 2 = 1) (b : Fin 4 → ℝ) :
    ofQuaternion a *ᵥ ![qMul (qConj a) b 0, qMul (qConj a) b 1, qMul (qConj a) b 2] = ![qMul b (qConj a) 0, qMul b (qConj a) 1, qMul b (qConj a) 2] := by
  rw [ofQuaternion_eq ha]
  rw [sum_four] at ha
  funext i
  fin_cases i
  · simp [qMatrix, qMul, qConj]; linear_combination (b 0 * a 3 - b 3 * a 0 - b 1 * a 2 + b 2 * a 1) * ha
  · simp [qMatrix, qMul, qConj]; linear_combination (b 1 * a 3 - b 3 * a 1 + b 0 * a 2 - b 2 * a 0) * ha
  · simp [qMatrix, qMul, qConj]; linear_combination (b 2 * a 3 - b 3 * a 2 - b 0 * a 1 + b 1 * a 0) * ha

theorem qMul_conj_mul {b : Fin 4 → ℝ} (hb : ∑ i, b i ^ 2 = 1) (h : Fin 4 → ℝ) : qMul b (qConj (qMul h b)) = qConj h := by
  rw [sum_four] at hb
  funext i
  fin_cases i
  · simp [qMul, qConj]; linear_combination (-h 0) * hb
  · simp [qMul, qConj]; linear_combination (-h 1) * hb
  · simp [qMul, qConj]; linear_combination (-h 2) * hb
  · simp [qMul, qConj]; linear_combination h 3 * hb

end Verif
