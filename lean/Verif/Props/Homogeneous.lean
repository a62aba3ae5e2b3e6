import Verif.Lemmas.Rotation
import Verif.Model.ControlTypes
/-!
# The checks of elbows and poses over real numbers: C36, C37

What the checks of the code (`C36_elbow_is_valid`, `C37_pose_is_checked`) mean for doubles that are real numbers.
-/
namespace Verif
open Spec Matrix

/-- **C36**: the test of the elbow accepts the signs +1 and -1 only. -/
theorem C36_signs (elbow : Fin 2 → ℝ) : is_valid_elbow (Arr.fin elbow) = true ↔ elbow 1 = 1 ∨ elbow 1 = -1 := by
  have : is_valid_elbow (Arr.fin elbow) = decide (|elbow 1| = 1) := by
    unfold is_valid_elbow
    rw [Arr.fin_apply, XR.fabs_fin, XR.lit_fin, XR.feq_fin]
    norm_num
  rw [this, decide_eq_true_iff]
  exact abs_eq (by norm_num)

/-- The test of the code accepts the length of a row or column. -/
def NearlyUnit (x : Fin 3 → ℝ) : Prop := |len x - 1| ≤ 0.00001

theorem offUnit_fin (x : Fin 3 → ℝ) : offUnit (XR.fin (x 0)) (XR.fin (x 1)) (XR.fin (x 2)) = false ↔ NearlyUnit x := by
  have : offUnit (XR.fin (x 0)) (XR.fin (x 1)) (XR.fin (x 2)) = decide ((0.00001 : ℝ) < |len x - 1|) := by
    unfold offUnit
    rw [XR.powf2_fin, XR.powf2_fin, XR.powf2_fin, XR.fin_add, XR.fin_add, XR.fsqrt_fin _ (by positivity), XR.lit_fin, XR.lit_fin, XR.fin_sub, XR.fabs_fin, XR.flt_fin]
    unfold len
    norm_num
  rw [this, decide_eq_false_iff_not, not_lt]
  rfl

/-- **C37**: what the code accepts as a homogeneous transformation, exactly: the bottom row is 0, 0, 0, 1, and every row and every column of the rotation
has a length of 1 up to 1e-5. -/
theorem C37_accepted_iff (p : Fin 16 → ℝ) : is_homogeneous_transformation (Arr.fin p) = true ↔
    BottomRow p ∧ (∀ j, NearlyUnit fun i => rotationPart p i j) ∧ ∀ i, NearlyUnit fun j => rotationPart p i j := by
  have hb : (!(Fl.feq (Arr.fin p 3) (Fl.lit 0)) || !(Fl.feq (Arr.fin p 7) (Fl.lit 0)) || !(Fl.feq (Arr.fin p 11) (Fl.lit 0)) || !(Fl.feq (Arr.fin p 15) (Fl.lit 1))) = false ↔
      BottomRow p := by
    simp only [Arr.fin_apply, XR.lit_fin, XR.feq_fin, BottomRow, Bool.or_eq_false_iff, Bool.not_eq_false', decide_eq_true_iff]
    norm_num
    tauto
  have hc : ∀ j : Fin 3, offUnit (Arr.fin p ⟨j * 4, by omega⟩) (Arr.fin p ⟨j * 4 + 1, by omega⟩) (Arr.fin p ⟨j * 4 + 2, by omega⟩) = false ↔
      NearlyUnit fun i => rotationPart p i j := by
    intro j
    rw [← offUnit_fin]
    fin_cases j <;> exact Iff.rfl
  have hr : ∀ i : Fin 3, offUnit (Arr.fin p ⟨i, by omega⟩) (Arr.fin p ⟨4 + i, by omega⟩) (Arr.fin p ⟨2 * 4 + i, by omega⟩) = false ↔
      NearlyUnit fun j => rotationPart p i j := by
    intro i
    rw [← offUnit_fin]
    fin_cases i <;> exact Iff.rfl
  unfold is_homogeneous_transformation
  by_cases h1 : BottomRow p
  · rw [hb.2 h1, if_neg (by simp)]
    by_cases h2 : ∀ j, NearlyUnit fun i => rotationPart p i j
    · rw [if_neg (by rintro ⟨j, hj⟩; rw [(hc j).2 (h2 j)] at hj; cases hj)]
      by_cases h3 : ∀ i, NearlyUnit fun j => rotationPart p i j
      · rw [if_neg (by rintro ⟨j, hj⟩; rw [(hr j).2 (h3 j)] at hj; cases hj)]
        exact ⟨fun _ => ⟨h1, h2, h3⟩, fun _ => rfl⟩
      · obtain ⟨i, hi⟩ := not_forall.1 h3
        rw [if_pos ⟨i, by rw [← Bool.not_eq_false]; exact fun e => hi ((hr i).1 e)⟩]
        exact ⟨fun h => (by cases h), fun h => absurd h.2.2 h3⟩
    · obtain ⟨i, hi⟩ := not_forall.1 h2
      rw [if_pos ⟨i, by rw [← Bool.not_eq_false]; exact fun e => hi ((hc i).1 e)⟩]
      exact ⟨fun h => (by cases h), fun h => absurd h.2.1 h2⟩
  · rw [if_pos (by rw [← Bool.not_eq_false]; exact fun e => h1 (hb.1 e))]
    exact ⟨fun h => (by cases h), fun h => absurd h.1 h1⟩

theorem nearlyUnit_of_sq {x : Fin 3 → ℝ} (h : x 0 ^ 2 + x 1 ^ 2 + x 2 ^ 2 = 1) : NearlyUnit x := by
  unfold NearlyUnit len
  rw [h, Real.sqrt_one, sub_self, abs_zero]
  norm_num

theorem IsRotation_rows {R : M3} (h : IsRotation R) (i : Fin 3) : NearlyUnit fun j => R i j := by
  have := congrFun (congrFun h.orthogonal i) i
  rw [Matrix.mul_apply, Fin.sum_univ_three, Matrix.one_apply_eq] at this
  exact nearlyUnit_of_sq (by rw [← this]; simp only [transpose_apply]; ring)

/-- **C37**: every proper rigid transformation is accepted. -/
theorem C37_rigid_accepted {p : Fin 16 → ℝ} (hb : BottomRow p) (hR : IsRotation (rotationPart p)) :
    is_homogeneous_transformation (Arr.fin p) = true ∧ check_matrix (Arr.fin p) = .ok () := by
  have h : is_homogeneous_transformation (Arr.fin p) = true :=
    (C37_accepted_iff p).2 ⟨hb, fun j => IsRotation_rows hR.tr j, fun i => IsRotation_rows hR i⟩
  refine ⟨h, ?_⟩
  unfold check_matrix
  rw [assertFinite_fin, P_bind_ok_eq, h]
  rfl

/-- The finding about **C37**, first case: a reflection is accepted. -/
theorem C37_reflection_accepted : ∃ p : Fin 16 → ℝ, is_homogeneous_transformation (Arr.fin p) = true ∧ (rotationPart p).det = -1 := by
  refine ⟨![1, 0, 0, 0, 0, 1, 0, 0, 0, 0, -1, 0, 0, 0, 0, 1], (C37_accepted_iff _).2 ⟨⟨rfl, rfl, rfl, rfl⟩, fun j => ?_, fun i => ?_⟩, ?_⟩
  · fin_cases j <;> exact nearlyUnit_of_sq (by simp [rotationPart])
  · fin_cases i <;> exact nearlyUnit_of_sq (by simp [rotationPart])
  · rw [Matrix.det_fin_three]
    simp [rotationPart]

/-- The finding about **C37**, second case: a matrix whose columns are far from orthogonal is accepted. -/
theorem C37_skewed_accepted : ∃ p : Fin 16 → ℝ, is_homogeneous_transformation (Arr.fin p) = true ∧
    rotationPart p 0 0 * rotationPart p 0 1 + rotationPart p 1 0 * rotationPart p 1 1 + rotationPart p 2 0 * rotationPart p 2 1 = 8 / 9 := by
  refine ⟨![2 / 3, 2 / 3, 1 / 3, 0, 2 / 3, 1 / 3, 2 / 3, 0, 1 / 3, 2 / 3, 2 / 3, 0, 0, 0, 0, 1], (C37_accepted_iff _).2 ⟨⟨rfl, rfl, rfl, rfl⟩, fun j => ?_, fun i => ?_⟩, ?_⟩
  · fin_cases j <;> exact nearlyUnit_of_sq (by simp [rotationPart]; norm_num)
  · fin_cases i <;> exact nearlyUnit_of_sq (by simp [rotationPart]; norm_num)
  · simp [rotationPart]; norm_num

/-- A pose that meets the hypotheses of `C37_rigid_accepted`: turned by 90 degrees about the vertical axis. -/
example : IsRotation (rotationPart ![0, 1, 0, 0, -1, 0, 0, 0, 0, 0, 1, 0, 0.3, 0.1, 0.5, 1]) := by
  constructor
  · ext i j
    fin_cases i <;> fin_cases j <;> simp [rotationPart, Matrix.mul_apply, Fin.sum_univ_three]
  · rw [Matrix.det_fin_three]
    simp [rotationPart]

end Verif
