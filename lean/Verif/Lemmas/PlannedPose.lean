import Verif.Lemmas.PlannedCartesian
import Verif.Props.SmoothPose
import Verif.Spec.CartesianExamples
/-!
Lemmas: planned motions with poses that do not turn (see Lemmas/Planned.lean) that pass the low pass filter and the rate limiting, over real numbers.
-/
set_option linter.unusedSectionVars false
namespace Verif
open Prog Spec Fl

/-! ## Positions that pass the filter and the limiter -/

/-- The position, the velocity and the acceleration of a motion from rest at `x0`, if `u` are the positions which the callback returns. -/
noncomputable def limitedWay (L : Limits) (f : ℝ) (x0 : Fin 3 → ℝ) (u : Fin 3 → ℕ → ℝ) : ℕ → (Fin 3 → ℝ) × (Fin 3 → ℝ) × (Fin 3 → ℝ)
  | 0 => (x0, fun _ => 0, fun _ => 0)
  | n + 1 =>
    let x := (limitedWay L f x0 u n).1
    let v := (limitedWay L f x0 u n).2.1
    let r := cOut L (fun i => (gain (1 / 1000) f * u i n + (1 - gain (1 / 1000) f) * x i - x i) / 0.001) v (limitedWay L f x0 u n).2.2
    (fun i => x i + r i * 0.001, r, fun i => (r i - v i) / 0.001)

/-- The position. -/
noncomputable def limitedPosition (L : Limits) (f : ℝ) (x0 : Fin 3 → ℝ) (u : Fin 3 → ℕ → ℝ) (i : Fin 3) (n : ℕ) : ℝ := (limitedWay L f x0 u n).1 i

theorem limitedWay_rate (L : Limits) (f : ℝ) (x0 : Fin 3 → ℝ) (u : Fin 3 → ℕ → ℝ) (n : ℕ) : (limitedWay L f x0 u n).2.1 = fun i => rate (limitedPosition L f x0 u i) n := by
  cases n with
  | zero => rfl
  | succ n =>
    funext i
    simp only [rate, limitedPosition, limitedWay]
    rw [add_sub_cancel_left, mul_div_cancel_right₀ _ (by norm_num)]

theorem limitedWay_rate2 (L : Limits) (f : ℝ) (x0 : Fin 3 → ℝ) (u : Fin 3 → ℕ → ℝ) (n : ℕ) : (limitedWay L f x0 u n).2.2 = fun i => rate (rate (limitedPosition L f x0 u i)) n := by
  cases n with
  | zero => rfl
  | succ n =>
    funext i
    show ((limitedWay L f x0 u (n + 1)).2.1 i - (limitedWay L f x0 u n).2.1 i) / 0.001 = (rate (limitedPosition L f x0 u i) (n + 1) - rate (limitedPosition L f x0 u i) n) / 0.001
    rw [limitedWay_rate, limitedWay_rate]

theorem limitedPosition_succ (L : Limits) (f : ℝ) (x0 : Fin 3 → ℝ) (u : Fin 3 → ℕ → ℝ) (n : ℕ) : sample (limitedPosition L f x0 u) (n + 1) =
    fun i => limitedPosition L f x0 u i n + cOut L (fun i => (gain (1 / 1000) f * u i n + (1 - gain (1 / 1000) f) * limitedPosition L f x0 u i n - limitedPosition L f x0 u i n) / 0.001)
      (fun i => rate (limitedPosition L f x0 u i) n) (fun i => rate (rate (limitedPosition L f x0 u i)) n) i * 0.001 := by
  rw [← limitedWay_rate, ← limitedWay_rate2]
  rfl

section
variable {L' L : Limits} (hL : Under L' L) {f : ℝ} (hf : 0.001 ≤ f) {x0 : Fin 3 → ℝ} {u : Fin 3 → ℕ → ℝ} (hv : 0 ≤ L'.velocity)
  (ha : ∀ n, CartesianAllowed L' (fun i => rate (starting (x0 i) (u i)) (n + 1)) (fun i => rate (starting (x0 i) (u i)) n) (fun i => rate (rate (starting (x0 i) (u i))) n))
include hL hf hv ha

theorem limitedPosition_near (n : ℕ) :
    len (fun i => limitedPosition L f x0 u i (n + 1) - (gain (1 / 1000) f * u i n + (1 - gain (1 / 1000) f) * limitedPosition L f x0 u i n)) ≤ slip / 1000 ∧
    len (fun i => rate (limitedPosition L f x0 u i) n) ≤ L'.velocity + 1 / 10 ^ 12 := by
  induction n using Nat.strong_induction_on with
  | _ n ih =>
    obtain ⟨h1, h2, -⟩ := noisy_next_position hL (by linarith) (N := n + 1) (n := n) (by omega) (u := u) (y := limitedPosition L f x0 u) hv (fun m _ => ha m) fun j hj => (ih j hj).1
    refine ⟨?_, h2⟩
    have hV := hL.velocity
    have := cOut_near hL.ok (h2.trans (by linarith)) h1
    have hy := limitedPosition_succ L f x0 u n
    have e : (fun i => limitedPosition L f x0 u i (n + 1) - (gain (1 / 1000) f * u i n + (1 - gain (1 / 1000) f) * limitedPosition L f x0 u i n)) = fun i => 0.001 * (cOut L
        (fun i => (gain (1 / 1000) f * u i n + (1 - gain (1 / 1000) f) * limitedPosition L f x0 u i n - limitedPosition L f x0 u i n) / 0.001)
        (fun i => rate (limitedPosition L f x0 u i) n) (fun i => rate (rate (limitedPosition L f x0 u i)) n) i -
          (gain (1 / 1000) f * u i n + (1 - gain (1 / 1000) f) * limitedPosition L f x0 u i n - limitedPosition L f x0 u i n) / 0.001) := by
      funext i
      have := congrFun hy i
      simp only [sample] at this
      rw [this]
      ring
    rw [e, len_scale (by norm_num)]
    unfold slip
    linarith

theorem limitedPosition_low (N : ℕ) : NearlyLowPassedFor N (1 / 10 ^ 16) f u (limitedPosition L f x0 u) := fun n _ => near_low_position hf (limitedPosition_near hL hf hv ha n).1

end

/-- Nothing moves if nothing is to move. -/
theorem limitedWay_still {L : Limits} (hL : CartesianOk L) (hv : 0 ≤ L.velocity) (f : ℝ) (x0 : Fin 3 → ℝ) (n : ℕ) :
    limitedWay L f x0 (fun i _ => x0 i) n = (x0, fun _ => 0, fun _ => 0) := by
  induction n with
  | zero => rfl
  | succ n ih =>
    have hs := cOut_still hL hv
    have e : (fun i : Fin 3 => (gain (1 / 1000) f * x0 i + (1 - gain (1 / 1000) f) * x0 i - x0 i) / 0.001) = fun _ => 0 := by funext i; ring
    rw [limitedWay, ih]
    dsimp only
    rw [e, hs]
    simp

/-! ## Plans -/

section
variable {σ : Type} {c0 : σ} {f : ℝ} {x0 : Fin 3 → ℝ} {R : M3} {u : Fin 3 → ℕ → ℝ} {ends : ℕ → Bool} {cs : ℕ → σ} {el : ℕ → Option (Arr XR 2)}

/-- What the robot reports in the `n`-th state. -/
def PosesReported (y : Fin 3 → ℕ → ℝ) (R : M3) (n : ℕ) (st : RobotState XR) : Prop :=
  st.O_T_EE_c = Arr.fin (pose (sample y n) R) ∧ st.O_dP_EE_c = Arr.fin (straight fun i => rate (y i) n) ∧ st.O_ddP_EE_c = Arr.fin (straight fun i => rate (rate (y i)) n)

/-- What it reports about the elbow. -/
def ElbowReported (y : ℕ → ℝ) (s : ℝ) (n : ℕ) (st : RobotState XR) : Prop :=
  st.elbow_c = Arr.fin ![y n, s] ∧ st.delbow_c 0 = .fin (rate y n) ∧ st.ddelbow_c 0 = .fin (rate (rate y) n)

noncomputable def poseOut (u : Fin 3 → ℕ → ℝ) (R : M3) (el : ℕ → Option (Arr XR 2)) (ends : ℕ → Bool) (n : ℕ) : Motion XR .CartesianPose :=
  (⟨ends n, Arr.fin (pose (sample u n) R), el n⟩ : CartesianPose XR)
noncomputable def poseCmd (y : Fin 3 → ℕ → ℝ) (R : M3) (n : ℕ) : MotionGeneratorCommand XR := { noMotion with O_T_EE_c := Arr.fin (pose (sample y (n + 1)) R) }
noncomputable def elbowCmd (y : Fin 3 → ℕ → ℝ) (R : M3) (e : ℕ → ℝ) (s : ℝ) (n : ℕ) : MotionGeneratorCommand XR :=
  { noMotion with O_T_EE_c := Arr.fin (pose (sample y (n + 1)) R), valid_elbow := true, elbow_c := Arr.fin ![e (n + 1), s] }

variable [Geo XR] (lib : RotationLibrary) (slerp : Interpolates) {call : ControlCall XR σ .CartesianPose} (ht : call.torque = none) (hl : call.limit_rate = true)
    (hf : call.cutoff = .fin f) (h0 : 0.001 ≤ f) (h1 : f < 1000) (hs : cs 0 = c0) (hR : IsRotation R) (reads : ReadsRight R)
    (allowed : ∀ n, CartesianAllowed (below (below translationLimits)) (fun i => rate (starting (x0 i) (u i)) (n + 1)) (fun i => rate (starting (x0 i) (u i)) n)
      (fun i => rate (rate (starting (x0 i) (u i))) n))
include lib slerp ht hl hf h0 h1 hs hR reads allowed

theorem planned_poses
    (called : ∀ n st, (n = 0 → st.O_T_EE_c = Arr.fin (pose x0 R)) → call.motion (cs n) st (periodOf n) = (cs (n + 1), poseOut u R (fun _ => none) ends n)) :
    IsPlanOf call c0 cs (poseOut u R (fun _ => none) ends) (poseCmd (limitedPosition codeTranslation f x0 u) R) (PosesReported (limitedPosition codeTranslation f x0 u) R) := by
  refine ⟨ht, hs, fun n st hR => called n st ?_, fun n st hre => ?_⟩
  · rintro rfl
    exact hR.1
  obtain ⟨r1, r2, r3⟩ := hre
  have hV : (below (below translationLimits)).velocity + 1 / 10 ^ 12 ≤ codeTranslation.velocity := by norm_num [below, translationLimits, codeTranslation]
  have hv := (limitedPosition_near under_translation h0 (by norm_num [below, translationLimits]) allowed n).2.trans hV
  rw [hf, hl]
  show CartesianPose.convert_motion ⟨ends n, Arr.fin (pose (sample u n) R), none⟩ st _ (.fin f) true = _
  rw [pose_step lib slerp (by linarith) h1 hR reads r1 r2 r3 hv]
  have hc := limitedPosition_succ codeTranslation f x0 u n
  simp only [sample] at hc ⊢
  rw [← hc]
  cases n <;> rfl

theorem planned_elbow {e0 s : ℝ} {e : ℕ → ℝ} (hsign : |s| = 1)
    (called : ∀ n st, (n = 0 → st.O_T_EE_c = Arr.fin (pose x0 R) ∧ st.elbow_c = Arr.fin ![e0, s]) →
      call.motion (cs n) st (periodOf n) = (cs (n + 1), poseOut u R (fun n => some (Arr.fin ![e n, s])) ends n))
    (allowedE : ∀ N, PositionAllowedFor N elbowLimits (starting e0 e)) :
    IsPlanOf call c0 cs (poseOut u R (fun n => some (Arr.fin ![e n, s])) ends) (elbowCmd (limitedPosition codeTranslation f x0 u) R (lowPass f e0 e) s)
      fun n st => PosesReported (limitedPosition codeTranslation f x0 u) R n st ∧ ElbowReported (lowPass f e0 e) s n st := by
  have hf0 : 0 < f := by linarith
  obtain ⟨g0, g1⟩ := gain_range hf0
  refine ⟨ht, hs, fun n st hR => called n st ?_, fun n st hre => ?_⟩
  · rintro rfl
    exact ⟨hR.1.1, hR.2.1⟩
  obtain ⟨⟨r1, r2, r3⟩, q1, q2, q3⟩ := hre
  have hV : (below (below translationLimits)).velocity + 1 / 10 ^ 12 ≤ codeTranslation.velocity := by norm_num [below, translationLimits, codeTranslation]
  have hv := (limitedPosition_near under_translation h0 (by norm_num [below, translationLimits]) allowed n).2.trans hV
  rw [hf, hl]
  show CartesianPose.convert_motion ⟨ends n, Arr.fin (pose (sample u n) R), some (Arr.fin ![e n, s])⟩ st _ (.fin f) true = _
  have hall := allowedE (n + 1)
  unfold PositionAllowedFor VelocityAllowedFor at hall
  simp only [below_elbow] at hall
  rw [pose_step lib slerp hf0 h1 hR reads r1 r2 r3 hv, elbow_step hf0 h1 hsign (by rw [q1]; rfl) q2 q3
    (lowpass_next_position (y := lowPass f e0 e) codeElbow_ok g0 g1 hall n (Nat.lt_succ_self n) fun _ _ => rfl)]
  have hc := limitedPosition_succ codeTranslation f x0 u n
  simp only [sample] at hc ⊢
  rw [← hc]
  cases n <;> rfl

end

/-! ## Robots that follow -/

theorem pose_rotation (x x' : Fin 3 → ℝ) (R : M3) (i : Fin 16) (h : i < 12) : pose x R i = pose x' R i := by
  fin_cases i
  · exact (show pose x R 0 = R 0 0 from rfl).trans (show pose x' R 0 = R 0 0 from rfl).symm
  · exact (show pose x R 1 = R 1 0 from rfl).trans (show pose x' R 1 = R 1 0 from rfl).symm
  · exact (show pose x R 2 = R 2 0 from rfl).trans (show pose x' R 2 = R 2 0 from rfl).symm
  · exact (show pose x R 3 = 0 from rfl).trans (show pose x' R 3 = 0 from rfl).symm
  · exact (show pose x R 4 = R 0 1 from rfl).trans (show pose x' R 4 = R 0 1 from rfl).symm
  · exact (show pose x R 5 = R 1 1 from rfl).trans (show pose x' R 5 = R 1 1 from rfl).symm
  · exact (show pose x R 6 = R 2 1 from rfl).trans (show pose x' R 6 = R 2 1 from rfl).symm
  · exact (show pose x R 7 = 0 from rfl).trans (show pose x' R 7 = 0 from rfl).symm
  · exact (show pose x R 8 = R 0 2 from rfl).trans (show pose x' R 8 = R 0 2 from rfl).symm
  · exact (show pose x R 9 = R 1 2 from rfl).trans (show pose x' R 9 = R 1 2 from rfl).symm
  · exact (show pose x R 10 = R 2 2 from rfl).trans (show pose x' R 10 = R 2 2 from rfl).symm
  · exact (show pose x R 11 = 0 from rfl).trans (show pose x' R 11 = 0 from rfl).symm
  iterate 4 exact absurd h (by decide)

theorem FollowsPoses.reported {x0 : Fin 3 → ℝ} {R : M3} {l : List (RobotState XR × RobotCommand XR)} (h : FollowsPoses x0 R l) {y : Fin 3 → ℕ → ℝ} (hy : ∀ i, y i 0 = x0 i) :
    (∀ p, l[0]? = some p → PosesReported y R 0 p.1) ∧
      ∀ n p p', l[n]? = some p → l[n + 1]? = some p' → p.2.motion.O_T_EE_c = Arr.fin (pose (sample y (n + 1)) R) → PosesReported y R n p.1 →
        PosesReported y R (n + 1) p'.1 ∧ p'.1.time = p.1.time + 1 := by
  refine ⟨fun p hp => ?_, fun n p p' hp hp' hc hre => ?_⟩
  · obtain ⟨e1, e2, e3⟩ := h.first p (by rw [List.head?_eq_getElem?]; exact hp)
    have hz : (straight fun _ => 0) = fun _ => 0 := by funext i; fin_cases i <;> rfl
    refine ⟨?_, ?_, ?_⟩
    · rw [e1, show sample y 0 = x0 from funext hy]
    · rw [e2]; exact congrArg Arr.fin hz.symm
    · rw [e3]; exact congrArg Arr.fin hz.symm
  · obtain ⟨hl', e'⟩ := List.getElem?_eq_some_iff.1 hp'
    obtain ⟨hl, e⟩ := List.getElem?_eq_some_iff.1 hp
    have := (List.isChain_iff_getElem.1 h.next) n hl'
    rw [e, e'] at this
    obtain ⟨t1, t2, t3, t4, t5⟩ := this
    obtain ⟨r1, r2, r3⟩ := hre
    rw [hc] at t2
    rw [t2, r1] at t3 t4
    have t4 := t4 fun i hi => congrArg XR.fin (pose_rotation _ _ R i hi)
    have q2 : p'.1.O_dP_EE_c = Arr.fin (straight fun i => rate (y i) (n + 1)) := by
      have d : ∀ a b : ℝ, (XR.fin a - XR.fin b) / XR.fin 0.001 = .fin ((a - b) / 0.001) := fun a b => by rw [XR.fin_sub, XR.fin_div _ _ (by norm_num)]
      funext i
      fin_cases i
      · exact (t3 0).trans (d _ _)
      · exact (t3 1).trans (d _ _)
      · exact (t3 2).trans (d _ _)
      · exact t4 0
      · exact t4 1
      · exact t4 2
    refine ⟨⟨t2, q2, ?_⟩, t1⟩
    funext i
    rw [t5 i, q2, r2]
    show (XR.fin _ - XR.fin _) / _ = _
    rw [XR.fin_sub, XR.fin_div _ _ (by norm_num)]
    have z : ((0 : ℝ) - 0) / 0.001 = 0 := by norm_num
    fin_cases i
    · rfl
    · rfl
    · rfl
    · exact congrArg XR.fin z
    · exact congrArg XR.fin z
    · exact congrArg XR.fin z

theorem FollowsElbow.reported {e0 s : ℝ} {l : List (RobotState XR × RobotCommand XR)} (h : FollowsElbow e0 s l) {y : ℕ → ℝ} (hy : y 0 = e0) :
    (∀ p, l[0]? = some p → ElbowReported y s 0 p.1) ∧
      ∀ n p p', l[n]? = some p → l[n + 1]? = some p' → p.2.motion.elbow_c = Arr.fin ![y (n + 1), s] → ElbowReported y s n p.1 → ElbowReported y s (n + 1) p'.1 := by
  refine ⟨fun p hp => ?_, fun n p p' hp hp' hc hre => ?_⟩
  · obtain ⟨e1, e2, e3⟩ := h.first p (by rw [List.head?_eq_getElem?]; exact hp)
    refine ⟨?_, e2, e3⟩
    rw [e1, hy]
  · obtain ⟨hl', e'⟩ := List.getElem?_eq_some_iff.1 hp'
    obtain ⟨hl, e⟩ := List.getElem?_eq_some_iff.1 hp
    have := (List.isChain_iff_getElem.1 h.next) n hl'
    rw [e, e'] at this
    obtain ⟨t2, t3, t4⟩ := this
    obtain ⟨r1, r2, r3⟩ := hre
    rw [hc] at t2
    have d : ∀ a b : ℝ, (XR.fin a - XR.fin b) / XR.fin 0.001 = .fin ((a - b) / 0.001) := fun a b => by rw [XR.fin_sub, XR.fin_div _ _ (by norm_num)]
    have q3 : p'.1.delbow_c 0 = .fin (rate y (n + 1)) := by
      rw [t3, t2, r1]
      exact d _ _
    refine ⟨t2, q3, ?_⟩
    rw [t4, q3, r2]
    exact d _ _

end Verif
