import Verif.Model.Conversions
import Verif.Props.Pose
import Verif.Lemmas.Convert
/-!
# C76: values made from vectors and rigid transformations
-/
namespace Verif
open Spec Fl

/-- The isometry of the library with the position `x` and the rotation `R`. -/
structure IsIsometry [Geo XR] (t : Isometry XR) (x : Fin 3 → ℝ) (R : M3) : Prop where
  position : t.translation = Arr.fin x
  rotation : Geo.toMatrix t.rotation = arr9 R
  proper : IsRotation R

/-- Writing the elements of an array one after the other. -/
theorem foldl_set {α : Type} {n : ℕ} (f : Fin n → α) (l : List (Fin n)) (a : Arr α n) (j : Fin n) :
    l.foldl (fun out i => out.set i (f i)) a j = if j ∈ l then f j else a j := by
  induction l generalizing a with
  | nil => simp
  | cons i l ih =>
    rw [List.foldl_cons, ih]
    unfold Arr.set
    by_cases h : j = i
    · subst h; simp
    · simp [h]

theorem fromIsometry_eq {F : Type} [Fl F] [Geo F] (t : Isometry F) : CartesianPose.fromIsometry t = ⟨false, t.to_homogeneous, none⟩ := by
  unfold CartesianPose.fromIsometry CartesianPose.new
  dsimp only
  congr 1
  funext j
  rw [foldl_set, if_pos (List.mem_finRange j)]

theorem to_homogeneous_pose [Geo XR] {t : Isometry XR} {x : Fin 3 → ℝ} {R : M3} (h : IsIsometry t x R) : t.to_homogeneous = Arr.fin (pose x R) := by
  unfold Isometry.to_homogeneous
  rw [h.position, h.rotation]
  funext i
  fin_cases i <;> first | rfl | exact XR.lit_fin _ |>.trans (by norm_num [pose, Arr.fin])

variable [Geo XR] {t : Isometry XR} {x : Fin 3 → ℝ} {R : M3}

/-- **C76**: the pose made from a rigid transformation has its position and its rotation, does not end the motion and has no elbow. -/
theorem C76_pose_of_an_isometry (h : IsIsometry t x R) : ∃ p : Fin 16 → ℝ, CartesianPose.fromIsometry t = ⟨false, Arr.fin p, none⟩ ∧
    position p = x ∧ rotationPart p = R ∧ BottomRow p :=
  ⟨pose x R, by rw [fromIsometry_eq, to_homogeneous_pose h], position_pose x R, rotationPart_pose x R, bottomRow_pose x R⟩

/-- **C76**: such a pose is never refused: without rate limiting and filtering it is sent as it is. -/
theorem C76_isometries_are_accepted (h : IsIsometry t x R) {cutoff : ℝ} (hc : 1000 ≤ cutoff) (finished : Bool) (state : RobotState XR)
    (m : MotionGeneratorCommand XR) : ∃ (p : Fin 16 → ℝ) (m' : MotionGeneratorCommand XR),
      Motion.convert_motion (k := .CartesianPose) (Motion.set_motion_finished (k := .CartesianPose) (CartesianPose.fromIsometry t) finished) state m (.fin cutoff) false = .ok m' ∧
      m'.O_T_EE_c = Arr.fin p ∧ position p = x ∧ rotationPart p = R ∧ BottomRow p ∧ m'.valid_elbow = false := by
  refine ⟨pose x R, { m with O_T_EE_c := Arr.fin (pose x R), valid_elbow := false, elbow_c := fun _ => lit 0 }, ?_, rfl, position_pose x R, rotationPart_pose x R, bottomRow_pose x R, rfl⟩
  · rw [fromIsometry_eq, to_homogeneous_pose h]
    show CartesianPose.convert_motion ⟨finished, Arr.fin (pose x R), none⟩ state m (.fin cutoff) false = _
    unfold CartesianPose.convert_motion
    have hf : flt (.fin cutoff) (MAX_CUTOFF_FREQUENCY : XR) = false := by
      unfold MAX_CUTOFF_FREQUENCY
      rw [XR.lit_fin, XR.flt_fin, decide_eq_false_iff_not]
      norm_num
      exact hc
    simp only [hf, Bool.false_eq_true, if_false]
    show (check_matrix (Arr.fin (pose x R)) >>= fun _ => _) = _
    rw [(C37_rigid_accepted (bottomRow_pose x R) (by rw [rotationPart_pose]; exact h.proper)).2]
    rfl

/-- **C76**: reading the pose back with `array_to_isometry` gives the same position and rotation (half turns aside). -/
theorem C76_read_back (lib : RotationLibrary) (h : IsIsometry t x R) (hn : ¬ IsHalfTurn R) :
    IsIsometry (array_to_isometry (CartesianPose.fromIsometry t).O_T_EE) x R := by
  rw [fromIsometry_eq, to_homogeneous_pose h]
  refine ⟨?_, ?_, h.proper⟩
  · funext i; fin_cases i <;> rfl
  · have : array_to_isometry (Arr.fin (pose x R)) = ⟨![.fin (x 0), .fin (x 1), .fin (x 2)], Geo.fromMatrix (arr9 R)⟩ := by
      unfold array_to_isometry
      congr 2
      · funext i; fin_cases i <;> rfl
    rw [this]
    exact lib.from_matrix R h.proper hn

/-- **C76**: what the robot reports as a pose, read with `array_to_isometry` and turned into a pose again, is the same pose. So a callback that returns the
current pose in this way commands no motion. -/
theorem C76_reported_pose (lib : RotationLibrary) {p : Fin 16 → ℝ} (hb : BottomRow p) (hr : IsRotation (rotationPart p)) (hn : ¬ IsHalfTurn (rotationPart p)) :
    CartesianPose.fromIsometry (array_to_isometry (Arr.fin p)) = ⟨false, Arr.fin p, none⟩ := by
  have h : IsIsometry (array_to_isometry (Arr.fin p)) (position p) (rotationPart p) := by
    refine ⟨?_, ?_, hr⟩
    · funext i; fin_cases i <;> rfl
    · have : array_to_isometry (Arr.fin p) = ⟨![.fin (p 12), .fin (p 13), .fin (p 14)], Geo.fromMatrix (arr9 (rotationPart p))⟩ := by
        unfold array_to_isometry
        congr 2
        · funext i; fin_cases i <;> rfl
      rw [this]
      exact lib.from_matrix _ hr hn
  rw [fromIsometry_eq, to_homogeneous_pose h, pose_eq hb]

omit [Geo XR] in
/-- **C76**: `motion_finished` marks a value as the last one, and changes nothing else: what is sent is the same. -/
theorem C76_finished_is_only_a_mark {F : Type} [Fl F] [Geo F] {k : MotionKind} (out : Motion F k) (tau : Torques F) :
    out.motion_finished.is_finished = true ∧ (∀ state m cutoff limit, out.motion_finished.convert_motion state m cutoff limit = out.convert_motion state m cutoff limit) ∧
    tau.with_motion_finished.is_finished = true ∧ tau.with_motion_finished.tau_J = tau.tau_J := by
  cases k <;> exact ⟨rfl, fun _ _ _ _ => rfl, rfl, rfl⟩

omit [Geo XR] in
/-- **C76**: `set_motion_finished` sets that mark to its argument and changes nothing else, whatever the value was marked with before. -/
theorem C76_set_motion_finished {F : Type} [Fl F] [Geo F] {k : MotionKind} (out : Motion F k) (tau : Torques F) (b c : Bool) :
    (out.set_motion_finished b).is_finished = b ∧ (∀ state m cutoff limit, (out.set_motion_finished b).convert_motion state m cutoff limit = out.convert_motion state m cutoff limit) ∧
    (out.set_motion_finished c).set_motion_finished b = out.set_motion_finished b ∧ out.set_motion_finished out.is_finished = out ∧
    (tau.set_motion_finished b).is_finished = b ∧ (tau.set_motion_finished b).tau_J = tau.tau_J := by
  cases k <;> exact ⟨rfl, fun _ _ _ _ => rfl, rfl, rfl, rfl, rfl⟩

omit [Geo XR] in
/-- **C76**: values made from vectors and arrays have these values, do not end the motion, and have no elbow; a value has an elbow if one is given. -/
theorem C76_values {F : Type} (v : Arr F 7) (u : Arr F 6) (p : Arr F 16) (e : Arr F 2) :
    (Torques.fromVector v).tau_J = v ∧ (Torques.fromVector v).is_finished = false ∧ (JointPositions.fromVector v).q = v ∧ (JointPositions.fromVector v).motion_finished = false ∧
    (JointVelocities.fromVector v).dq = v ∧ (JointVelocities.fromVector v).motion_finished = false ∧
    (CartesianVelocities.fromVector u).O_dP_EE = u ∧ (CartesianVelocities.fromVector u).motion_finished = false ∧ (CartesianVelocities.fromVector u).has_elbow = false ∧
    (CartesianPose.fromArray p).O_T_EE = p ∧ (CartesianPose.fromArray p).motion_finished = false ∧ (CartesianPose.fromArray p).has_elbow = false ∧
    (CartesianPose.new p (some e)).has_elbow = true ∧ (CartesianVelocities.new u (some e)).has_elbow = true := by
  simp [Torques.fromVector, Torques.new, Torques.is_finished, JointPositions.fromVector, JointPositions.new, JointVelocities.fromVector, JointVelocities.new,
    CartesianVelocities.fromVector, CartesianVelocities.new, CartesianVelocities.has_elbow, CartesianPose.fromArray, CartesianPose.new, CartesianPose.has_elbow]

omit [Geo XR] in
/-- There are such isometries: with the library `matrixGeo`, one that turns about the z axis. -/
example : ∃ t : @Isometry XR matrixGeo, @IsIsometry matrixGeo t ![0.3, 0, 0.5] (turn ![0, 0, 1]) ∧ @RotationLibrary matrixGeo := by
  let _ := matrixGeo
  exact ⟨⟨Arr.fin ![0.3, 0, 0.5], turn ![0, 0, 1]⟩, ⟨rfl, rfl, turn_isRotation _⟩, matrixGeo_lawful⟩

omit [Geo XR] in
/-- The names of the frames differ. -/
theorem Frame.fmt_injective : Function.Injective Frame.fmt := by
  intro a b h
  cases a <;> cases b <;> first | rfl | (exact absurd h (by decide))

end Verif
