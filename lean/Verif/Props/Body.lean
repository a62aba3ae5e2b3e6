import Verif.Spec.Body
import Verif.Lemmas.Real
import Verif.Model.RobotState
/-!
# Total mass, centre of mass and inertia: C49

Doubles are real numbers here (`Spec/Real.lean`); bodies are in `Spec/Body.lean`.
-/
namespace Verif
open Spec

/-! ## The moments of a body -/

/-- The second moments of a body. -/
noncomputable def Spec.Body.second (b : Body) (i j : Fin 3) : ℝ := (b.map fun p => p.mass * (p.pos i * p.pos j)).sum

theorem inertia_eq (b : Body) (c : Fin 3 → ℝ) (i j : Fin 3) : b.inertia c i j =
    (if i = j then b.second 0 0 + b.second 1 1 + b.second 2 2 - 2 * (c 0 * b.moment 0 + c 1 * b.moment 1 + c 2 * b.moment 2) +
      b.mass * (c 0 ^ 2 + c 1 ^ 2 + c 2 ^ 2) else 0) - (b.second i j - c i * b.moment j - c j * b.moment i + b.mass * (c i * c j)) := by
  induction b with
  | nil => simp [Body.inertia, Body.second, Body.moment, Body.mass]
  | cons p b ih =>
    simp only [Body.inertia, Body.second, Body.moment, Body.mass, List.map_cons, List.sum_cons] at ih ⊢
    rw [ih]
    split <;> ring

/-- About the centre of mass. -/
theorem inertia_centre {b : Body} {m : ℝ} {c : Fin 3 → ℝ} (hm : m = b.mass) (hc : ∀ i, m * c i = b.moment i) (i j : Fin 3) :
    b.inertia c i j = (if i = j then b.second 0 0 + b.second 1 1 + b.second 2 2 - m * (c 0 ^ 2 + c 1 ^ 2 + c 2 ^ 2) else 0) -
      (b.second i j - m * (c i * c j)) := by
  rw [inertia_eq, ← hc 0, ← hc 1, ← hc 2, ← hc i, ← hc j, ← hm]
  split <;> ring

theorem nonneg_mass {b : Body} (h : b.Nonneg) : 0 ≤ b.mass := by
  induction b with
  | nil => exact le_refl 0
  | cons p b ih =>
    have h1 := h p (by simp)
    have h2 := ih fun q hq => h q (by simp [hq])
    simp only [Body.mass, List.map_cons, List.sum_cons] at h2 ⊢
    linarith

theorem no_mass {b : Body} (h : b.Nonneg) (h0 : b.mass = 0) : ∀ p ∈ b, p.mass = 0 := by
  induction b with
  | nil => simp
  | cons p b ih =>
    have h1 := h p (by simp)
    have h2 : Body.Nonneg b := fun q hq => h q (by simp [hq])
    have h3 := nonneg_mass h2
    simp only [Body.mass, List.map_cons, List.sum_cons] at h0 h3
    intro q hq
    rcases List.mem_cons.1 hq with rfl | hq
    · linarith
    · exact ih h2 (by simp only [Body.mass]; linarith) q hq

theorem no_mass_sum {b : Body} (h : ∀ p ∈ b, p.mass = 0) (f : PointMass → ℝ) : (b.map fun p => p.mass * f p).sum = 0 := by
  induction b with
  | nil => rfl
  | cons p b ih =>
    rw [List.map_cons, List.sum_cons, ih fun q hq => h q (by simp [hq]), h p (by simp)]
    ring

theorem append_mass (a b : Body) : Body.mass (a ++ b) = a.mass + b.mass := by simp [Body.mass]
theorem append_moment (a b : Body) (i : Fin 3) : Body.moment (a ++ b) i = a.moment i + b.moment i := by simp [Body.moment]
theorem append_second (a b : Body) (i j : Fin 3) : Body.second (a ++ b) i j = a.second i j + b.second i j := by simp [Body.second]

/-! ## The code over the reals -/

/-- `combine_center_of_mass` on real numbers. -/
theorem combine_center_of_mass_fin (m1 : ℝ) (c1 : Fin 3 → ℝ) (m2 : ℝ) (c2 : Fin 3 → ℝ) :
    combine_center_of_mass (F := XR) (.fin m1) (Arr.fin c1) (.fin m2) (Arr.fin c2) =
      Arr.fin fun i => if 0 < m1 + m2 then (m1 * c1 i + m2 * c2 i) / (m1 + m2) else 0 := by
  unfold combine_center_of_mass
  simp only [XR.fin_add, XR.lit_fin, XR.flt_fin, Arr.fin_apply, XR.fin_mul, Rat.cast_zero, decide_eq_true_eq]
  split
  · rename_i h
    funext i
    rw [XR.fin_div _ _ h.ne']
    rfl
  · rfl

/-- The square of the cross product matrix. -/
def crossSquare (v : Fin 3 → ℝ) : Fin 9 → ℝ := fun k =>
  v ⟨k.val % 3, by omega⟩ * v ⟨k.val / 3, by omega⟩ - (if k.val % 3 = k.val / 3 then v 0 ^ 2 + v 1 ^ 2 + v 2 ^ 2 else 0)

theorem skew_square_fin (v : Fin 3 → ℝ) :
    Mat3.mul (skew_symmetric_matrix_from_vector (Arr.fin v)) (skew_symmetric_matrix_from_vector (Arr.fin v)) = Arr.fin (crossSquare v) := by
  have hs : skew_symmetric_matrix_from_vector (Arr.fin v) = Arr.fin ![0, v 2, -v 1, -v 2, 0, v 0, v 1, -v 0, 0] := by
    funext k
    fin_cases k <;> simp [skew_symmetric_matrix_from_vector, XR.lit_fin, XR.fin_neg]
  rw [hs]
  funext k
  fin_cases k <;> simp [Mat3.mul, Mat3.of, Mat3.get, crossSquare, XR.fin_mul, XR.fin_add] <;> ring

/-- `combine_inertia_tensor` on real numbers. -/
theorem combine_inertia_tensor_fin (m1 : ℝ) (c1 : Fin 3 → ℝ) (I1 : Fin 9 → ℝ) (m2 : ℝ) (c2 : Fin 3 → ℝ) (I2 : Fin 9 → ℝ) (m : ℝ) (c : Fin 3 → ℝ) :
    combine_inertia_tensor (F := XR) (.fin m1) (Arr.fin c1) (Arr.fin I1) (.fin m2) (Arr.fin c2) (Arr.fin I2) (.fin m) (Arr.fin c) =
      Arr.fin fun k => ((if m1 = 0 then 0 else I1 k) - m1 * crossSquare c1 k) + ((if m2 = 0 then 0 else I2 k) - m2 * crossSquare c2 k) + m * crossSquare c k := by
  unfold combine_inertia_tensor
  simp only [skew_square_fin, XR.lit_fin, XR.feq_fin, Rat.cast_zero, decide_eq_true_eq]
  funext k
  simp only [Arr.add, Arr.sub, Arr.lmul, Arr.fin_apply]
  split <;> split <;> simp only [Arr.fin_apply, XR.fin_mul, XR.fin_sub, XR.fin_add]

/-! ## C49 -/

/-- The masses, centres and tensors of a state are finite numbers. -/
structure FiniteLoads (s : RobotStateIntern XR) (m1 : ℝ) (c1 : Fin 3 → ℝ) (I1 : Fin 9 → ℝ) (m2 : ℝ) (c2 : Fin 3 → ℝ) (I2 : Fin 9 → ℝ) : Prop where
  m_ee : s.m_ee = .fin m1
  F_x_Cee : s.F_x_Cee = Arr.fin c1
  I_ee : s.I_ee = Arr.fin I1
  m_load : s.m_load = .fin m2
  F_x_Cload : s.F_x_Cload = Arr.fin c2
  I_load : s.I_load = Arr.fin I2

theorem total_centre_fin {s : RobotStateIntern XR} {m1 m2 : ℝ} {c1 c2 : Fin 3 → ℝ} {I1 I2 : Fin 9 → ℝ} (h : FiniteLoads s m1 c1 I1 m2 c2 I2) :
    (RobotState.ofIntern s).F_x_Ctotal = Arr.fin fun i => if 0 < m1 + m2 then (m1 * c1 i + m2 * c2 i) / (m1 + m2) else 0 := by
  rw [← combine_center_of_mass_fin, ← h.m_ee, ← h.m_load, ← h.F_x_Cee, ← h.F_x_Cload]
  rfl

theorem total_inertia_fin {s : RobotStateIntern XR} {m1 m2 : ℝ} {c1 c2 : Fin 3 → ℝ} {I1 I2 : Fin 9 → ℝ} (h : FiniteLoads s m1 c1 I1 m2 c2 I2) :
    (RobotState.ofIntern s).I_total = Arr.fin fun k => ((if m1 = 0 then 0 else I1 k) - m1 * crossSquare c1 k) +
      ((if m2 = 0 then 0 else I2 k) - m2 * crossSquare c2 k) +
      (m1 + m2) * crossSquare (fun i => if 0 < m1 + m2 then (m1 * c1 i + m2 * c2 i) / (m1 + m2) else 0) k := by
  rw [← combine_inertia_tensor_fin, ← total_centre_fin h, ← XR.fin_add, ← h.m_ee, ← h.m_load, ← h.F_x_Cee, ← h.F_x_Cload, ← h.I_ee, ← h.I_load]
  rfl

/-- C49: if the state describes the end effector and the load by their masses, centres of mass and inertia tensors, then the totals describe the
rigid union of the two bodies. -/
theorem C49_totals_describe_the_union {s : RobotStateIntern XR} {m1 m2 : ℝ} {c1 c2 : Fin 3 → ℝ} {I1 I2 : Fin 9 → ℝ} (h : FiniteLoads s m1 c1 I1 m2 c2 I2)
    {ee load : Body} (hn1 : ee.Nonneg) (hn2 : load.Nonneg) (h1 : ee.Described m1 c1 I1) (h2 : load.Described m2 c2 I2) :
    ∃ m c I, (RobotState.ofIntern s).m_total = .fin m ∧ (RobotState.ofIntern s).F_x_Ctotal = Arr.fin c ∧ (RobotState.ofIntern s).I_total = Arr.fin I ∧
      Body.Described (ee ++ load) m c I := by
  refine ⟨m1 + m2, _, _, ?_, total_centre_fin h, total_inertia_fin h, ?_⟩
  · exact (congrArg₂ _ h.m_ee h.m_load).trans (XR.fin_add _ _)
  · have p1 : 0 ≤ m1 := h1.mass ▸ nonneg_mass hn1
    have p2 : 0 ≤ m2 := h2.mass ▸ nonneg_mass hn2
    have hm : m1 + m2 = Body.mass (ee ++ load) := by rw [append_mass, h1.mass, h2.mass]
    have hc : ∀ i, (m1 + m2) * (if 0 < m1 + m2 then (m1 * c1 i + m2 * c2 i) / (m1 + m2) else 0) = Body.moment (ee ++ load) i := by
      intro i
      rw [append_moment, ← h1.centre, ← h2.centre]
      split
      · rename_i hp
        field_simp
      · have e1 : m1 = 0 := by linarith
        have e2 : m2 = 0 := by linarith
        rw [e1, e2]; ring
    refine ⟨hm, hc, fun i j => ?_⟩
    rw [inertia_centre hm hc]
    -- the tensors of the parts, also for parts without mass
    have part : ∀ {b : Body} {m : ℝ} {c : Fin 3 → ℝ} {I : Fin 9 → ℝ}, b.Nonneg → b.Described m c I →
        (if m = 0 then 0 else entry3 I i j) = (if i = j then b.second 0 0 + b.second 1 1 + b.second 2 2 - m * (c 0 ^ 2 + c 1 ^ 2 + c 2 ^ 2) else 0) -
          (b.second i j - m * (c i * c j)) := by
      intro b m c I hb hd
      split
      · rename_i h0
        have hz := no_mass hb (hd.mass.symm.trans h0)
        have e : ∀ i j, b.second i j = 0 := fun i j => no_mass_sum hz _
        rw [e, e, e, e, h0]
        split <;> ring
      · rw [hd.inertia, inertia_centre hd.mass hd.centre]
    have q1 := part hn1 h1
    have q2 := part hn2 h2
    simp only [entry3] at q1 q2 ⊢
    rw [q1, q2, append_second, append_second, append_second, append_second]
    have hk : (i.val + 3 * j.val) % 3 = i.val := by omega
    have hk2 : (i.val + 3 * j.val) / 3 = j.val := by omega
    simp only [crossSquare, hk, hk2, Fin.val_inj]
    split <;> ring

/-- C49: the total tensor is symmetric if the tensors of the parts are, for all finite values. -/
theorem C49_symmetric {s : RobotStateIntern XR} {m1 m2 : ℝ} {c1 c2 : Fin 3 → ℝ} {I1 I2 : Fin 9 → ℝ} (h : FiniteLoads s m1 c1 I1 m2 c2 I2)
    (h1 : ∀ i j, entry3 I1 i j = entry3 I1 j i) (h2 : ∀ i j, entry3 I2 i j = entry3 I2 j i) :
    ∃ I, (RobotState.ofIntern s).I_total = Arr.fin I ∧ ∀ i j, entry3 I i j = entry3 I j i := by
  refine ⟨_, total_inertia_fin h, fun i j => ?_⟩
  · have hk : ∀ i j : Fin 3, (i.val + 3 * j.val) % 3 = i.val := fun i j => by omega
    have hk2 : ∀ i j : Fin 3, (i.val + 3 * j.val) / 3 = j.val := fun i j => by omega
    have e1 := h1 i j
    have e2 := h2 i j
    simp only [entry3] at e1 e2 ⊢
    rw [e1, e2]
    simp only [crossSquare, hk, hk2, Fin.val_inj]
    rcases eq_or_ne i j with rfl | hij
    · rfl
    · simp only [hij, hij.symm, if_false]
      ring

/-- C49: the totals do not depend on which of the bodies is the end effector and which is the load, for all finite values. -/
theorem C49_order {s s' : RobotStateIntern XR} {m1 m2 : ℝ} {c1 c2 : Fin 3 → ℝ} {I1 I2 : Fin 9 → ℝ} (h : FiniteLoads s m1 c1 I1 m2 c2 I2)
    (h' : FiniteLoads s' m2 c2 I2 m1 c1 I1) : (RobotState.ofIntern s).m_total = (RobotState.ofIntern s').m_total ∧
      (RobotState.ofIntern s).F_x_Ctotal = (RobotState.ofIntern s').F_x_Ctotal ∧ (RobotState.ofIntern s).I_total = (RobotState.ofIntern s').I_total := by
  refine ⟨?_, ?_, ?_⟩
  · show s.m_ee + s.m_load = s'.m_ee + s'.m_load
    rw [h.m_ee, h.m_load, h'.m_ee, h'.m_load, XR.fin_add, XR.fin_add, add_comm]
  · rw [total_centre_fin h, total_centre_fin h', add_comm m2 m1]
    simp only [add_comm]
  · rw [total_inertia_fin h, total_inertia_fin h', add_comm m2 m1]
    funext k
    simp only [Arr.fin_apply, XR.fin_inj]
    rw [show (fun i => if 0 < m1 + m2 then (m2 * c2 i + m1 * c1 i) / (m1 + m2) else 0) =
      fun i => if 0 < m1 + m2 then (m1 * c1 i + m2 * c2 i) / (m1 + m2) else 0 from funext fun i => by rw [add_comm (m2 * c2 i)]]
    ring

/-- Example: an end effector of two points of 1 kg and a load of one point of 2 kg. -/
example : Body.Described [⟨1, ![1, 0, 0]⟩, ⟨1, ![-1, 0, 0]⟩] 2 ![0, 0, 0] ![0, 0, 0, 0, 2, 0, 0, 0, 2] ∧
    Body.Described [⟨2, ![0, 0, 3]⟩] 2 ![0, 0, 3] ![0, 0, 0, 0, 0, 0, 0, 0, 0] ∧
    Body.Described ([⟨1, ![1, 0, 0]⟩, ⟨1, ![-1, 0, 0]⟩] ++ [⟨2, ![0, 0, 3]⟩]) 4 ![0, 0, 1.5] ![9, 0, 0, 0, 11, 0, 0, 0, 2] := by
  refine ⟨⟨?_, fun i => ?_, fun i j => ?_⟩, ⟨?_, fun i => ?_, fun i j => ?_⟩, ⟨?_, fun i => ?_, fun i j => ?_⟩⟩
  all_goals first
    | (fin_cases i <;> fin_cases j <;> simp [entry3, Body.inertia] <;> norm_num)
    | (fin_cases i <;> simp [Body.moment] <;> norm_num)
    | (simp [Body.mass]; try norm_num)

end Verif
