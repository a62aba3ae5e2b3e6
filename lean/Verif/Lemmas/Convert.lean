import Verif.Lemmas.Commands
/-!
What the conversion of a callback's output keeps: without filter and rate limiting all of it, and always the sign of the elbow.
-/
namespace Verif
open Prog Spec
variable {F : Type} [Fl F] {st : RobotState F} {m m' : MotionGeneratorCommand F} {f : F} {l : Bool}

theorem convert_elbow_same {elbow : Option (Arr F 2)} {e : Arr F 2} (hf : Fl.flt f (MAX_CUTOFF_FREQUENCY : F) = false)
    (h : convert_elbow elbow st m f false = .ok m') : (elbow = some e → m'.elbow_c = e) ∧ ∃ b e, m' = { m with valid_elbow := b, elbow_c := e } := by
  unfold convert_elbow at h
  cases elbow with
  | none => cases h; exact ⟨by simp, _, _, rfl⟩
  | some e0 =>
    simp only [hf, Bool.false_eq_true, if_false] at h
    obtain ⟨e1, h1, h⟩ := P.bind_ok h
    obtain ⟨e2, h2, h⟩ := P.bind_ok h
    obtain ⟨u, -, h⟩ := P.bind_ok h
    cases h1; cases h2; cases h
    exact ⟨by rintro ⟨⟩; rfl, _, _, rfl⟩

theorem carries_of [Geo F] {k : MotionKind} {out : Motion F k} (h : out.convert_motion st m f false = .ok m')
    (hf : Fl.flt f (MAX_CUTOFF_FREQUENCY : F) = false) : Carries out m' := by
  cases k with
  | JointPositions =>
    change JointPositions.convert_motion out st m f false = .ok m' at h
    unfold JointPositions.convert_motion at h
    simp only [hf, Bool.false_eq_true, if_false] at h
    obtain ⟨e1, h1, h⟩ := P.bind_ok h
    obtain ⟨e2, h2, h⟩ := P.bind_ok h
    obtain ⟨u, -, h⟩ := P.bind_ok h
    cases h1; cases h2; cases h; rfl
  | JointVelocities =>
    change JointVelocities.convert_motion out st m f false = .ok m' at h
    unfold JointVelocities.convert_motion at h
    simp only [hf, Bool.false_eq_true, if_false] at h
    obtain ⟨e1, h1, h⟩ := P.bind_ok h
    obtain ⟨e2, h2, h⟩ := P.bind_ok h
    obtain ⟨u, -, h⟩ := P.bind_ok h
    cases h1; cases h2; cases h; rfl
  | CartesianPose =>
    change CartesianPose.convert_motion out st m f false = .ok m' at h
    unfold CartesianPose.convert_motion at h
    simp only [hf, Bool.false_eq_true, if_false] at h
    obtain ⟨e1, h1, h⟩ := P.bind_ok h
    obtain ⟨e2, h2, h⟩ := P.bind_ok h
    obtain ⟨u, -, h⟩ := P.bind_ok h
    cases h1; cases h2
    obtain ⟨-, b, e, hm⟩ := convert_elbow_same (e := fun _ => Fl.lit 0) hf h
    exact ⟨by rw [hm], fun e he => (convert_elbow_same hf h).1 he⟩
  | CartesianVelocities =>
    change CartesianVelocities.convert_motion out st m f false = .ok m' at h
    unfold CartesianVelocities.convert_motion at h
    simp only [hf, Bool.false_eq_true, if_false] at h
    obtain ⟨e1, h1, h⟩ := P.bind_ok h
    obtain ⟨e2, h2, h⟩ := P.bind_ok h
    obtain ⟨u, -, h⟩ := P.bind_ok h
    cases h1; cases h2
    obtain ⟨-, b, e, hm⟩ := convert_elbow_same (e := fun _ => Fl.lit 0) hf h
    exact ⟨by rw [hm], fun e he => (convert_elbow_same hf h).1 he⟩

theorem torques_same {t τ : Arr F 7} (h : ControlLoop.convert_torques false f st t = .ok τ) (hf : Fl.flt f (MAX_CUTOFF_FREQUENCY : F) = false) : τ = t := by
  unfold ControlLoop.convert_torques at h
  simp only [hf, Bool.false_eq_true, if_false] at h
  obtain ⟨e1, h1, h⟩ := P.bind_ok h
  obtain ⟨e2, h2, h⟩ := P.bind_ok h
  obtain ⟨u, -, h⟩ := P.bind_ok h
  cases h1; cases h2; cases h; rfl

/-- Filter and rate limiting do not touch the sign of the elbow, and only +1 and -1 pass. -/
theorem convert_elbow_sign {e : Arr F 2} (h : convert_elbow (some e) st m f l = .ok m') :
    m'.elbow_c 1 = e 1 ∧ Fl.feq (Fl.fabs (e 1)) (Fl.lit 1) = true := by
  unfold convert_elbow at h
  have set1 : ∀ (e : Arr F 2) x, (e.set 0 x) 1 = e 1 := fun e x => by unfold Arr.set; simp
  have last : ∀ e2 : Arr F 2, e2 1 = e 1 → (check_elbow e2 >>= fun _ => pure { m with valid_elbow := true, elbow_c := e2 } : P _) = .ok m' →
      m'.elbow_c 1 = e 1 ∧ Fl.feq (Fl.fabs (e 1)) (Fl.lit 1) = true := by
    intro e2 he h
    obtain ⟨u, h1, h⟩ := P.bind_ok h
    cases h
    unfold check_elbow at h1
    obtain ⟨u1, h2, h3⟩ := P.bind_ok h1
    have h4 := assertP_ok h3
    unfold is_valid_elbow at h4
    exact ⟨he, by rw [← he]; exact h4⟩
  dsimp only at h
  split at h
  · obtain ⟨x, -, h⟩ := P.bind_ok h
    obtain ⟨e1, h1, h⟩ := P.bind_ok h
    cases h1
    split at h
    · obtain ⟨y, -, h⟩ := P.bind_ok h
      obtain ⟨e2, h2, h⟩ := P.bind_ok h
      cases h2
      exact last _ ((set1 _ _).trans (set1 _ _)) h
    · obtain ⟨e2, h2, h⟩ := P.bind_ok h
      cases h2
      exact last _ (set1 _ _) h
  · obtain ⟨e1, h1, h⟩ := P.bind_ok h
    cases h1
    split at h
    · obtain ⟨y, -, h⟩ := P.bind_ok h
      obtain ⟨e2, h2, h⟩ := P.bind_ok h
      cases h2
      exact last _ (set1 _ _) h
    · obtain ⟨e2, h2, h⟩ := P.bind_ok h
      cases h2
      exact last _ rfl h

theorem convert_motion_sign [Geo F] {k : MotionKind} {out : Motion F k} {e : Arr F 2} (h : out.convert_motion st m f l = .ok m')
    (he : elbowOf out = some e) : m'.elbow_c 1 = e 1 ∧ Fl.feq (Fl.fabs (e 1)) (Fl.lit 1) = true := by
  cases k with
  | JointPositions => cases he
  | JointVelocities => cases he
  | CartesianPose =>
    have h : ∃ a, convert_elbow (CartesianPose.elbow out) st { m with O_T_EE_c := a } f l = .ok m' := by
      change CartesianPose.convert_motion out st m f l = .ok m' at h
      unfold CartesianPose.convert_motion at h
      dsimp only at h
      split at h <;>
      · obtain ⟨a1, -, h⟩ := P.bind_ok h
        split at h <;>
        · obtain ⟨a, -, h⟩ := P.bind_ok h
          obtain ⟨u, -, h⟩ := P.bind_ok h
          exact ⟨a, h⟩
    obtain ⟨a, h⟩ := h
    have he : CartesianPose.elbow out = some e := he
    rw [he] at h
    exact convert_elbow_sign h
  | CartesianVelocities =>
    have h : ∃ a, convert_elbow (CartesianVelocities.elbow out) st { m with O_dP_EE_c := a } f l = .ok m' := by
      change CartesianVelocities.convert_motion out st m f l = .ok m' at h
      unfold CartesianVelocities.convert_motion at h
      dsimp only at h
      split at h <;>
      · obtain ⟨a1, -, h⟩ := P.bind_ok h
        split at h <;>
        · obtain ⟨a, -, h⟩ := P.bind_ok h
          obtain ⟨u, -, h⟩ := P.bind_ok h
          exact ⟨a, h⟩
    obtain ⟨a, h⟩ := h
    have he : CartesianVelocities.elbow out = some e := he
    rw [he] at h
    exact convert_elbow_sign h

end Verif
