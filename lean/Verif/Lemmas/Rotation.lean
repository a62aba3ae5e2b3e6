import Verif.Spec.Rotation
import Verif.Lemmas.Cartesian
import Mathlib.LinearAlgebra.Matrix.Adjugate
import Mathlib.LinearAlgebra.Matrix.NonsingularInverse
import Mathlib.Analysis.SpecialFunctions.Trigonometric.Inverse
import Mathlib.Tactic.LinearCombination
import Mathlib.Analysis.SpecialFunctions.Trigonometric.Bounds
/-! # Rotations -/
namespace Verif
open Spec Matrix

theorem skew_cube' (n : Fin 3 → ℝ) : skew n * skew n * skew n = -(n 0 ^ 2 + n 1 ^ 2 + n 2 ^ 2) • skew n := by
  ext i j
  fin_cases i <;> fin_cases j <;> simp [skew, Matrix.mul_apply, Fin.sum_univ_three] <;> ring

theorem skew_cube {n : Fin 3 → ℝ} (h : len n = 1) : skew n * skew n * skew n = - skew n := by
  rw [skew_cube', ← len_sq, h]
  simp

theorem skew_four {n : Fin 3 → ℝ} (h : len n = 1) : skew n * skew n * (skew n * skew n) = - (skew n * skew n) := by
  rw [← mul_assoc, skew_cube h]
  simp

theorem skew_transpose (n : Fin 3 → ℝ) : (skew n)ᵀ = - skew n := by
  ext i j
  fin_cases i <;> fin_cases j <;> simp [skew]

/-- Product of two polynomials in a matrix with `N³ = -N`. -/
theorem cube_mul {N : M3} (h3 : N * N * N = -N) (s k s' k' : ℝ) :
    (1 + s • N + k • (N * N)) * (1 + s' • N + k' • (N * N)) = 1 + (s + s' - s * k' - k * s') • N + (k + k' + s * s' - k * k') • (N * N) := by
  have h3' : N * (N * N) = -N := by rw [← mul_assoc, h3]
  have h4 : N * N * (N * N) = -(N * N) := by rw [← mul_assoc, h3, neg_mul]
  simp only [add_mul, mul_add, one_mul, mul_one, smul_mul_assoc, mul_smul_comm, h3, h3', h4, smul_neg]
  module

theorem rotate_mul {n : Fin 3 → ℝ} (h : len n = 1) (α β : ℝ) : rotate n α * rotate n β = rotate n (α + β) := by
  unfold rotate
  rw [cube_mul (skew_cube h), Real.sin_add, Real.cos_add]
  congr 2
  · congr 1; ring_nf
  · ring_nf

theorem rotate_transpose (n : Fin 3 → ℝ) (θ : ℝ) : (rotate n θ)ᵀ = rotate n (-θ) := by
  unfold rotate
  rw [transpose_add, transpose_add, transpose_smul, transpose_smul, transpose_mul, skew_transpose, transpose_one, Real.sin_neg, Real.cos_neg]
  simp

theorem rotate_zero (n : Fin 3 → ℝ) : rotate n 0 = 1 := by simp [rotate]

theorem Spec.IsRotation.of_orthogonal_square {R S : M3} (h : S * Sᵀ = 1) (hR : R = S * S) : IsRotation R := by
  subst hR
  have hd : S.det * S.det = 1 := by
    have := congrArg Matrix.det h
    rwa [det_mul, det_transpose, det_one] at this
  refine ⟨?_, by rw [det_mul, hd]⟩
  rw [transpose_mul, mul_assoc, ← mul_assoc S Sᵀ, h, one_mul, h]

theorem rotate_isRotation {n : Fin 3 → ℝ} (h : len n = 1) (θ : ℝ) : IsRotation (rotate n θ) := by
  refine IsRotation.of_orthogonal_square (S := rotate n (θ / 2)) ?_ ?_
  · rw [rotate_transpose, rotate_mul h, add_neg_cancel, rotate_zero]
  · rw [rotate_mul h, add_halves]

theorem rotate_trace {n : Fin 3 → ℝ} (h : len n = 1) (θ : ℝ) : (rotate n θ).trace = 1 + 2 * Real.cos θ := by
  have h : n 0 ^ 2 + n 1 ^ 2 + n 2 ^ 2 = 1 := by rw [← len_sq, h]; norm_num
  simp [rotate, skew, Matrix.trace, Fin.sum_univ_three]
  linear_combination (-2 * (1 - Real.cos θ)) * h

theorem isRotation_one : IsRotation (1 : M3) := ⟨by simp, by simp⟩

theorem Spec.IsRotation.mul {R S : M3} (h : IsRotation R) (g : IsRotation S) : IsRotation (R * S) := by
  refine ⟨?_, by rw [det_mul, h.det, g.det, one_mul]⟩
  rw [transpose_mul, mul_assoc, ← mul_assoc S, g.orthogonal, one_mul, h.orthogonal]

theorem Spec.IsRotation.tr_mul {R : M3} (h : IsRotation R) : Rᵀ * R = 1 := by
  exact mul_eq_one_comm.1 h.orthogonal

theorem Spec.IsRotation.tr {R : M3} (h : IsRotation R) : IsRotation Rᵀ :=
  ⟨by rw [transpose_transpose]; exact h.tr_mul, by rw [det_transpose, h.det]⟩

/-! ## Every rotation but a half turn has an axis and an angle -/

theorem Spec.IsRotation.adj {R : M3} (h : IsRotation R) : R.adjugate = Rᵀ := by
  have h1 : R.adjugate * R = 1 := by rw [adjugate_mul, h.det, one_smul]
  calc R.adjugate = R.adjugate * (R * Rᵀ) := by rw [h.orthogonal, mul_one]
    _ = Rᵀ := by rw [← mul_assoc, h1, one_mul]

theorem adjugate_poly (R : M3) : R.adjugate = R * R - R.trace • R + R.adjugate.trace • 1 := by
  rw [adjugate_fin_three]
  ext i j
  fin_cases i <;> fin_cases j <;> simp [Matrix.trace, Matrix.mul_apply, Fin.sum_univ_three] <;> ring

theorem Spec.IsRotation.square {R : M3} (h : IsRotation R) : R * R = R.trace • R - R.trace • 1 + Rᵀ := by
  have := adjugate_poly R
  rw [h.adj, trace_transpose] at this
  rw [this]
  abel

/-- Twice the axis times the sine of the angle. -/
def vee (R : M3) : Fin 3 → ℝ := ![R 2 1 - R 1 2, R 0 2 - R 2 0, R 1 0 - R 0 1]

theorem skew_vee (R : M3) : skew (vee R) = R - Rᵀ := by
  ext i j
  fin_cases i <;> fin_cases j <;> simp [skew, vee]

theorem Spec.IsRotation.skew_square {R : M3} (h : IsRotation R) :
    skew (vee R) * skew (vee R) = (R.trace + 1) • (R + Rᵀ) - (2 * (R.trace + 1)) • 1 := by
  have h' := h.tr.square
  rw [trace_transpose, transpose_transpose] at h'
  rw [skew_vee, sub_mul, mul_sub, mul_sub, h.square, h', h.orthogonal, h.tr_mul]
  module

theorem Spec.IsRotation.vee_len {R : M3} (h : IsRotation R) : len (vee R) ^ 2 = (R.trace + 1) * (3 - R.trace) := by
  have h1 : (skew (vee R) * skew (vee R)).trace = -2 * (vee R 0 ^ 2 + vee R 1 ^ 2 + vee R 2 ^ 2) := by
    simp [skew, Matrix.trace, Fin.sum_univ_three]; ring
  have h2 := congrArg Matrix.trace h.skew_square
  rw [h1, trace_sub, trace_smul, trace_smul, trace_add, trace_transpose, trace_one] at h2
  rw [len_sq]
  simp only [smul_eq_mul, Fintype.card_fin] at h2
  push_cast at h2
  linarith

theorem Spec.IsRotation.formula {R : M3} (h : IsRotation R) (ht : R.trace ≠ -1) :
    R = 1 + (1 / 2 : ℝ) • skew (vee R) + (1 / (2 * (R.trace + 1))) • (skew (vee R) * skew (vee R)) := by
  have h0 : R.trace + 1 ≠ 0 := fun h => ht (by linarith)
  rw [h.skew_square, skew_vee, smul_sub, smul_sub, smul_smul, smul_smul,
    show 1 / (2 * (R.trace + 1)) * (R.trace + 1) = 1 / 2 by field_simp, show 1 / (2 * (R.trace + 1)) * (2 * (R.trace + 1)) = 1 by field_simp]
  module

theorem skew_smul (c : ℝ) (n : Fin 3 → ℝ) : skew (fun i => c * n i) = c • skew n := by
  ext i j
  fin_cases i <;> fin_cases j <;> simp [skew]

theorem Spec.IsRotation.trace_range {R : M3} (h : IsRotation R) : -1 ≤ R.trace ∧ R.trace ≤ 3 := by
  have := h.vee_len
  have h0 := sq_nonneg (len (vee R))
  constructor <;> nlinarith

theorem Spec.IsRotation.axis_angle {R : M3} (h : IsRotation R) (ht : ¬ IsHalfTurn R) : ∃ n θ, len n = 1 ∧ 0 ≤ θ ∧ θ < Real.pi ∧ R = rotate n θ := by
  have ht : R.trace ≠ -1 := ht
  obtain ⟨l1, l2⟩ := h.trace_range
  have l1 : -1 < R.trace := lt_of_le_of_ne l1 (Ne.symm ht)
  have hf := h.formula ht
  have hv := h.vee_len
  by_cases h3 : R.trace = 3
  · refine ⟨![1, 0, 0], 0, by simp [len], le_rfl, Real.pi_pos, ?_⟩
    rw [rotate_zero]
    have : len (vee R) = 0 := by rw [h3] at hv; simpa using hv
    have : vee R = 0 := by
      funext i
      exact len_eq_zero this i
    rw [this] at hf
    have z : skew 0 = 0 := by
      ext i j
      fin_cases i <;> fin_cases j <;> simp [skew]
    rw [z] at hf
    simpa using hf
  · have l2 : R.trace < 3 := lt_of_le_of_ne l2 h3
    set c := (R.trace - 1) / 2 with hc
    have c1 : -1 < c := by rw [hc]; linarith
    have c2 : c < 1 := by rw [hc]; linarith
    have hcos : Real.cos (Real.arccos c) = c := Real.cos_arccos c1.le c2.le
    have hs : 0 < Real.sin (Real.arccos c) := by
      rw [Real.sin_arccos]
      exact Real.sqrt_pos.2 (by nlinarith)
    have hs2 : Real.sin (Real.arccos c) ^ 2 = 1 - c ^ 2 := by
      rw [Real.sin_sq, hcos]
    have hl : len (vee R) = 2 * Real.sin (Real.arccos c) := by
      have : len (vee R) ^ 2 = (2 * Real.sin (Real.arccos c)) ^ 2 := by
        rw [hv, mul_pow, hs2, hc]; ring
      exact (pow_left_inj₀ (len_nonneg _) (by positivity) (by norm_num)).1 this
    set s := Real.sin (Real.arccos c) with hsd
    refine ⟨fun i => 1 / (2 * s) * vee R i, Real.arccos c, ?_, Real.arccos_nonneg c, ?_, ?_⟩
    · rw [len_smul, hl, abs_of_pos (by positivity)]
      field_simp
    · exact lt_of_le_of_ne (Real.arccos_le_pi c) (fun e => by rw [Real.arccos_eq_pi] at e; linarith)
    · conv_lhs => rw [hf]
      unfold rotate
      rw [skew_smul, smul_smul, ← hsd, hcos, smul_mul_smul_comm, smul_smul]
      congr 2
      · congr 1
        field_simp
      · have e : R.trace + 1 = 2 * (1 + c) := by rw [hc]; ring
        rw [e]
        have : (1 - c) * (1 / (2 * s) * (1 / (2 * s))) = (1 - c) / (4 * s ^ 2) := by field_simp; ring
        rw [this, hs2]
        have a1 : 1 - c ≠ 0 := by linarith
        have a2 : 1 + c ≠ 0 := by linarith
        have : (1 : ℝ) - c ^ 2 = (1 - c) * (1 + c) := by ring
        rw [this]
        field_simp
        norm_num

/-! ## Axis and angle are unique -/

theorem vee_rotate (n : Fin 3 → ℝ) (θ : ℝ) : vee (rotate n θ) = fun i => 2 * Real.sin θ * n i := by
  funext i
  fin_cases i <;> simp [vee, rotate, skew] <;> ring

/-- Matrix entries of a rotation matrix are small enough for this bound on the change of the trace. -/
theorem trace_rotate_mul {n : Fin 3 → ℝ} (h : len n = 1) (θ : ℝ) {R : M3} (hR : IsRotation R) :
    ((rotate n θ * R).trace - R.trace) ^ 2 ≤ 6 * θ ^ 2 := by
  have hA : ∀ A B : M3, (A * B).trace ^ 2 ≤ (A * Aᵀ).trace * (B * Bᵀ).trace := by
    intro A B
    have key : ∀ x y : Fin 9 → ℝ, (∑ i, x i * y i) ^ 2 ≤ (∑ i, x i ^ 2) * ∑ i, y i ^ 2 := fun x y => Finset.sum_mul_sq_le_sq_mul_sq _ x y
    have := key ![A 0 0, A 0 1, A 0 2, A 1 0, A 1 1, A 1 2, A 2 0, A 2 1, A 2 2] ![B 0 0, B 1 0, B 2 0, B 0 1, B 1 1, B 2 1, B 0 2, B 1 2, B 2 2]
    simp [Fin.sum_univ_succ] at this
    simp only [Matrix.trace, Matrix.mul_apply, Fin.sum_univ_three, diag_apply, transpose_apply]
    calc _ = _ := by ring
      _ ≤ _ := this
      _ = _ := by ring
  have h1 := hA (rotate n θ - 1) R
  rw [sub_mul, one_mul, trace_sub, hR.orthogonal, trace_one] at h1
  have h2 : ((rotate n θ - 1) * (rotate n θ - 1)ᵀ).trace = 4 * (1 - Real.cos θ) := by
    rw [transpose_sub, transpose_one, sub_mul, mul_sub, one_mul, mul_one, (rotate_isRotation h θ).orthogonal, trace_sub, trace_sub, trace_sub, trace_transpose, rotate_trace h, trace_one]
    simp
    ring
  rw [h2] at h1
  have h3 : 1 - Real.cos θ ≤ θ ^ 2 / 2 := by
    have := Real.one_sub_sq_div_two_le_cos (x := θ)
    linarith
  refine h1.trans ?_
  simp
  nlinarith

end Verif
