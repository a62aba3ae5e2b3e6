import Verif.Lemmas.Quaternion
import Verif.Lemmas.Cartesian
import Mathlib.Algebra.BigOperators.Fin
/-!
The torques of the two torque examples in exact arithmetic.
-/
namespace Verif
open Spec Matrix Fl Examples

theorem sumUp_fin : ∀ {n : ℕ} (f : Fin (n + 1) → ℝ), sumUp (fun i => XR.fin (f i)) = .fin (∑ i, f i)
  | 0, f => by rw [Fin.sum_univ_one]; rfl
  | n + 1, f => by
    show sumUp (fun i => XR.fin (f (Fin.castSucc i))) + XR.fin (f (Fin.last _)) = _
    rw [sumUp_fin, XR.fin_add, ← Fin.sum_univ_castSucc]

theorem mulVec_fin {r c : ℕ} (M : Matrix (Fin r) (Fin (c + 1)) ℝ) (v : Fin (c + 1) → ℝ) : Mat.mulVec (fun i j => XR.fin (M i j)) (Arr.fin v) = Arr.fin (M *ᵥ v) := by
  funext i
  exact sumUp_fin (fun j => M i j * v j)

theorem mul_fin {r n c : ℕ} (A : Matrix (Fin r) (Fin (n + 1)) ℝ) (B : Matrix (Fin (n + 1)) (Fin c) ℝ) :
    Mat.mul (fun i j => XR.fin (A i j)) (fun i j => XR.fin (B i j)) = fun i j => XR.fin ((A * B) i j) := by
  funext i j
  exact (sumUp_fin (fun l => A i l * B l j)).trans (by rw [Matrix.mul_apply])

theorem from_jacobianArray (J : Matrix (Fin 6) (Fin 7) ℝ) : Mat.from_column_slice (jacobianArray J) = fun i j => XR.fin (J i j) := by
  funext i j
  have h1 : (i.val + 6 * j.val) % 6 = i.val := by omega
  have h2 : (i.val + 6 * j.val) / 6 = j.val := by omega
  show XR.fin (J ⟨(i.val + 6 * j.val) % 6, _⟩ ⟨(i.val + 6 * j.val) / 6, _⟩) = _
  congr 2
  · exact Fin.ext h1
  · exact Fin.ext h2

theorem blocks_fin (t r : ℝ) : blocks (XR.fin t) (XR.fin r) = fun i j => XR.fin (diagonal (wrench (fun _ => t) (fun _ => r)) i j) := by
  funext i j
  fin_cases i <;> fin_cases j <;> simp [blocks, Mat.identity, XR.lit_fin, wrench]

theorem tau_task_fin {t r : ℝ} (ht : 0 ≤ t) (hr : 0 ≤ r) (J : Matrix (Fin 6) (Fin 7) ℝ) (e : Fin 6 → ℝ) (d : Fin 7 → ℝ) :
    tau_task (XR.fin t) (XR.fin r) (fun i j => XR.fin (J i j)) (Arr.fin e) (Arr.fin d) =
      Arr.fin (Jᵀ *ᵥ fun i => -(wrench (fun _ => t) (fun _ => r) i) * e i - wrench (fun _ => 2 * √t) (fun _ => 2 * √r) i * (J *ᵥ d) i) := by
  unfold tau_task
  have h2 : (lit 2 : XR) = .fin 2 := by rw [XR.lit_fin]; norm_num
  rw [XR.fsqrt_fin _ ht, XR.fsqrt_fin _ hr, h2, XR.fin_mul, XR.fin_mul, blocks_fin, blocks_fin, mulVec_fin, mulVec_fin]
  have h3 : Mat.neg (fun i j => XR.fin (diagonal (wrench (fun _ => t) (fun _ => r)) i j)) = fun i j => XR.fin ((-diagonal (wrench (fun _ => t) (fun _ => r))) i j) := rfl
  rw [h3, mulVec_fin]
  have h4 : Mat.transpose (fun i j => XR.fin (J i j)) = fun i j => XR.fin (Jᵀ i j) := rfl
  rw [h4]
  have h5 : ∀ a b : Fin 6 → ℝ, Arr.sub (Arr.fin a) (Arr.fin b) = Arr.fin fun i => a i - b i := fun a b => by
    funext i
    exact XR.fin_sub _ _
  rw [h5, mulVec_fin]
  congr 2
  funext i
  rw [neg_mulVec, Pi.neg_apply, mulVec_diagonal, mulVec_diagonal, neg_mul]

theorem qdot_fin (a b : Fin 4 → ℝ) : Quat.dot (Arr.fin a) (Arr.fin b) = .fin (a 0 * b 0 + a 1 * b 1 + a 2 * b 2 + a 3 * b 3) := by
  simp [Quat.dot, Arr.fin]

theorem qmul_fin (a b : Fin 4 → ℝ) : Quat.mul (Arr.fin a) (Arr.fin b) = Arr.fin (qMul a b) := by
  funext i
  fin_cases i <;> simp [Quat.mul, qMul, Arr.fin]

theorem qinverse_fin (a : Fin 4 → ℝ) : Quat.inverse (Arr.fin a) = Arr.fin (qConj a) := by
  funext i
  fin_cases i <;> simp [Quat.inverse, qConj, Arr.fin]

theorem qnormalize_fin {a : Fin 4 → ℝ} (h : ∑ i, a i ^ 2 = 1) : Quat.normalize (Arr.fin a) = Arr.fin a := by
  have h0 : (lit 0 : XR) = .fin 0 := by rw [XR.lit_fin]; norm_num
  have h1 : 0 + (a 0 * a 0 + a 1 * a 1 + a 2 * a 2 + a 3 * a 3) = 1 := by
    rw [← h, sum_four]; ring
  unfold Quat.normalize
  rw [qdot_fin, h0, XR.fin_add, h1, XR.fsqrt_fin _ zero_le_one, Real.sqrt_one]
  funext i
  show XR.fin (a i) / XR.fin 1 = _
  rw [XR.fin_div _ _ one_ne_zero, div_one]
  rfl

section
variable [Geo XR] [GeoExtra XR]

/-- The difference to the desired pose: the displacement, and half the sine of the angle along the axis. -/
theorem pose_error_fin (hq : QuaternionLibrary) {x x0 w : Fin 3 → ℝ} {R : M3} {c0 : Fin 4 → ℝ} {q : Geo.Q XR} (h0 : ∑ i, c0 i ^ 2 = 1) (hR : ofQuaternion c0 = R)
    (h : Geo.toMatrix q = arr9 (turn w * R)) (hw : len w < Real.pi) : pose_error ⟨Arr.fin x, q⟩ (Arr.fin x0) (Arr.fin c0) =
      Arr.fin (wrench (fun i => x i - x0 i) (fun i => Real.sin (len w / 2) * (w i / len w))) := by
  have hrot : IsRotation (turn w * R) := by
    rw [turn_quaternion, ← hR]
    exact (ofQuaternion_isRotation (halfTurn_unit w)).mul (ofQuaternion_isRotation h0)
  obtain ⟨c, hc, hc1, hc2⟩ := hq q _ hrot h
  have hp := qMul_unit (halfTurn_unit w) h0
  have hcos : 0 < Real.cos (len w / 2) := Real.cos_pos_of_mem_Ioo ⟨by have := len_nonneg w; linarith [Real.pi_pos], by linarith⟩
  have hdot : c0 0 * qMul (halfTurn w) c0 0 + c0 1 * qMul (halfTurn w) c0 1 + c0 2 * qMul (halfTurn w) c0 2 + c0 3 * qMul (halfTurn w) c0 3 = Real.cos (len w / 2) := by
    have := h0
    rw [sum_four] at this
    rw [show Real.cos (len w / 2) = halfTurn w 3 from rfl]
    simp only [qMul, cons_val_zero, cons_val_one, cons_val]
    linear_combination halfTurn w 3 * this
  have hs : (if flt (Quat.dot (Arr.fin c0) (Arr.fin c)) (lit 0) then Quat.neg (Arr.fin c) else Arr.fin c) = Arr.fin (qMul (halfTurn w) c0) := by
    have hz : (lit 0 : XR) = .fin 0 := by rw [XR.lit_fin]; norm_num
    rw [qdot_fin, hz, XR.flt_fin]
    have : ofQuaternion c = ofQuaternion (qMul (halfTurn w) c0) := by
      rw [hc2, ofQuaternion_mul (halfTurn_unit w) h0, ← turn_quaternion, hR]
    rcases quaternion_unique hc1 hp this with e | e
    · rw [e, hdot, decide_eq_false (not_lt.2 hcos.le)]
      rfl
    · have e2 : c0 0 * c 0 + c0 1 * c 1 + c0 2 * c 2 + c0 3 * c 3 = -Real.cos (len w / 2) := by
        rw [e]
        linear_combination -hdot
      rw [e2, decide_eq_true (by linarith), if_pos rfl, e]
      funext i
      show -XR.fin _ = _
      rw [XR.fin_neg, neg_neg]
      rfl
  unfold pose_error
  dsimp only
  rw [hc, hs, qnormalize_fin hp, qinverse_fin, qmul_fin, h]
  have hm : (fun r c => Mat3.get (arr9 (turn w * R)) r c) = fun r c => XR.fin ((turn w * R) r c) := by
    funext r c
    fin_cases r <;> fin_cases c <;> rfl
  have hv : (![Arr.fin (qMul (qConj (qMul (halfTurn w) c0)) c0) 0, Arr.fin (qMul (qConj (qMul (halfTurn w) c0)) c0) 1,
      Arr.fin (qMul (qConj (qMul (halfTurn w) c0)) c0) 2] : Arr XR 3) = Arr.fin ![qMul (qConj (qMul (halfTurn w) c0)) c0 0,
        qMul (qConj (qMul (halfTurn w) c0)) c0 1, qMul (qConj (qMul (halfTurn w) c0)) c0 2] := by
    funext i
    fin_cases i <;> rfl
  rw [hm, hv, mulVec_fin]
  have hr : turn w * R = ofQuaternion (qMul (halfTurn w) c0) := by rw [ofQuaternion_mul (halfTurn_unit w) h0, ← turn_quaternion, hR]
  rw [hr, ofQuaternion_vec hp, qMul_conj_mul h0]
  funext i
  fin_cases i <;> simp [wrench, Arr.fin, Arr.sub, qConj, halfTurn]

end
end Verif
