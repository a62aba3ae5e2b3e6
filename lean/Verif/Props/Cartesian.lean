import Verif.Lemmas.Cartesian
import Verif.Lemmas.Filter
import Verif.Model.ControlTypes
/-!
# Rate limiting of Cartesian velocities: C45, C60

Doubles are real numbers here (`Spec/Real.lean`).
-/
set_option linter.unusedSectionVars false
namespace Verif
open Spec

theorem head3_fin (x : Fin 6 → ℝ) : Arr.head3 (Arr.fin x) = Arr.fin (linear x) := by
  funext i; fin_cases i <;> rfl
theorem tail3_fin (x : Fin 6 → ℝ) : Arr.tail3 (Arr.fin x) = Arr.fin (angular x) := by
  funext i; fin_cases i <;> rfl

/-- Two vectors one after the other. -/
def join (x y : Fin 3 → ℝ) : Fin 6 → ℝ := ![x 0, x 1, x 2, y 0, y 1, y 2]
theorem linear_join (x y : Fin 3 → ℝ) : linear (join x y) = x := by funext i; fin_cases i <;> rfl
theorem angular_join (x y : Fin 3 → ℝ) : angular (join x y) = y := by funext i; fin_cases i <;> rfl
theorem join_split (x : Fin 6 → ℝ) : join (linear x) (angular x) = x := by funext i; fin_cases i <;> rfl

/-- The limiter is used with limits for which it works. -/
structure CartesianOk (L : Limits) : Prop where
  jerk : 0 < L.jerk
  acceleration : 0 < L.acceleration
  ratio : L.jerk ≤ 1000 * L.acceleration

theorem CartesianOk.roots {L : Limits} (h : CartesianOk L) {u v a : Fin 3 → ℝ} (hv : len v ≤ L.velocity) : Roots L u v a :=
  Verif.roots h.jerk h.acceleration hv u a

theorem cartesian_fin' {T R : Limits} (hT : CartesianOk T) (hR : CartesianOk R) {u v a : Fin 6 → ℝ}
    (h1 : Roots T (linear u) (linear v) (linear a)) (h2 : Roots R (angular u) (angular v) (angular a)) :
    limit_rate_cartesian_velocity (.fin T.velocity) (.fin T.acceleration) (.fin T.jerk) (.fin R.velocity) (.fin R.acceleration) (.fin R.jerk)
      (Arr.fin u) (Arr.fin v) (Arr.fin a) = .ok (Arr.fin (join (cOut T (linear u) (linear v) (linear a)) (cOut R (angular u) (angular v) (angular a)))) := by
  unfold limit_rate_cartesian_velocity
  rw [assertFinite_fin, P_bind_ok_eq, head3_fin, head3_fin, head3_fin, tail3_fin, tail3_fin, tail3_fin,
    single_fin hT.jerk hT.acceleration _ _ _ h1,
    single_fin hR.jerk hR.acceleration _ _ _ h2]
  show Except.ok _ = Except.ok _
  congr 1
  funext i
  fin_cases i <;> rfl

theorem cartesian_fin {T R : Limits} (hT : CartesianOk T) (hR : CartesianOk R) {u v a : Fin 6 → ℝ} (h1 : len (linear v) ≤ T.velocity) (h2 : len (angular v) ≤ R.velocity) :
    limit_rate_cartesian_velocity (.fin T.velocity) (.fin T.acceleration) (.fin T.jerk) (.fin R.velocity) (.fin R.acceleration) (.fin R.jerk)
      (Arr.fin u) (Arr.fin v) (Arr.fin a) = .ok (Arr.fin (join (cOut T (linear u) (linear v) (linear a)) (cOut R (angular u) (angular v) (angular a)))) :=
  cartesian_fin' hT hR (hT.roots h1) (hR.roots h2)

/-- **C45**, one step: for all limits whose jerk is at most 1000 times the acceleration, all finite commands and last accelerations and all last
velocities within the limits, the limiter returns a velocity within the limits whose difference to the last one respects the acceleration limit.
Missing: last velocities beyond the limit, for which the acceleration limit does not hold (`C45_beyond_the_limit`). -/
theorem C45_step_partial {T R : Limits} (hT : CartesianOk T) (hR : CartesianOk R) (u v a : Fin 6 → ℝ) (h1 : len (linear v) ≤ T.velocity) (h2 : len (angular v) ≤ R.velocity) :
    ∃ r, limit_rate_cartesian_velocity (.fin T.velocity) (.fin T.acceleration) (.fin T.jerk) (.fin R.velocity) (.fin R.acceleration) (.fin R.jerk)
      (Arr.fin u) (Arr.fin v) (Arr.fin a) = .ok (Arr.fin r) ∧ StepRespects T (linear v) (linear r) ∧ StepRespects R (angular v) (angular r) := by
  refine ⟨_, cartesian_fin hT hR h1 h2, ?_, ?_⟩
  · rw [linear_join]; exact cOut_respects hT.jerk hT.acceleration hT.ratio h1
  · rw [angular_join]; exact cOut_respects hR.jerk hR.acceleration hR.ratio h2

/-- The limits in the code for translations, which are a bit stricter than the documented ones. -/
noncomputable def codeTranslation : Limits := ⟨2 - 1 / 1000 - 1 / 1000 * (1 / 1000) * (13 - 1 / 1000), 13 - 1 / 1000, 6500 - 1 / 1000⟩
/-- The limits in the code for rotations. -/
noncomputable def codeRotation : Limits := ⟨25 / 10 - 1 / 1000 - 1 / 1000 * (1 / 1000) * (25 - 1 / 1000), 25 - 1 / 1000, 12500 - 1 / 1000⟩

theorem codeTranslation_ok : CartesianOk codeTranslation := by constructor <;> norm_num [codeTranslation]
theorem codeRotation_ok : CartesianOk codeRotation := by constructor <;> norm_num [codeRotation]

theorem MAX_TRANSLATIONAL_fin : (MAX_TRANSLATIONAL_VELOCITY : XR) = .fin codeTranslation.velocity ∧
    (MAX_TRANSLATIONAL_ACCELERATION : XR) = .fin codeTranslation.acceleration ∧ (MAX_TRANSLATIONAL_JERK : XR) = .fin codeTranslation.jerk := by
  refine ⟨?_, ?_, ?_⟩ <;>
    simp [MAX_TRANSLATIONAL_VELOCITY, MAX_TRANSLATIONAL_ACCELERATION, MAX_TRANSLATIONAL_JERK, LIMIT_EPS_fin, TOL_fin, DELTA_T_fin, XR.lit_fin, codeTranslation]

theorem MAX_ROTATIONAL_fin : (MAX_ROTATIONAL_VELOCITY : XR) = .fin codeRotation.velocity ∧
    (MAX_ROTATIONAL_ACCELERATION : XR) = .fin codeRotation.acceleration ∧ (MAX_ROTATIONAL_JERK : XR) = .fin codeRotation.jerk := by
  refine ⟨?_, ?_, ?_⟩ <;>
    simp [MAX_ROTATIONAL_VELOCITY, MAX_ROTATIONAL_ACCELERATION, MAX_ROTATIONAL_JERK, LIMIT_EPS_fin, TOL_fin, DELTA_T_fin, XR.lit_fin, codeRotation]

theorem weaken {L L' : Limits} {v v' : Fin 3 → ℝ} (h : StepRespects L v v') (h1 : L.velocity ≤ L'.velocity) (h2 : L.acceleration ≤ L'.acceleration) :
    StepRespects L' v v' := ⟨h.velocity.trans h1, h.acceleration.trans h2⟩

theorem convert_elbow_keeps {e : Option (Arr XR 2)} {state : RobotState XR} {m m' : MotionGeneratorCommand XR} {cutoff : XR} {b : Bool}
    (h : convert_elbow e state m cutoff b = .ok m') : m'.O_dP_EE_c = m.O_dP_EE_c ∧ m'.O_T_EE_c = m.O_T_EE_c := by
  cases e with
  | none => cases h; exact ⟨rfl, rfl⟩
  | some x =>
    obtain ⟨y, hy⟩ : ∃ y : Arr XR 2, m' = { m with valid_elbow := true, elbow_c := y } := by
      unfold convert_elbow at h
      dsimp only at h
      split at h <;> split at h
      all_goals
        repeat (obtain ⟨_, -, h⟩ := P_bind_inv h)
        exact ⟨_, by injection h with h; exact h.symm⟩
    subst hy
    exact ⟨rfl, rfl⟩

/-- The limited part of a conversion. -/
theorem convert_cartesian_velocities {out : CartesianVelocities XR} {state : RobotState XR} {m m' : MotionGeneratorCommand XR} {cutoff : XR} {v a : Fin 6 → ℝ}
    (hv : state.O_dP_EE_c = Arr.fin v) (ha : state.O_ddP_EE_c = Arr.fin a) (h : out.convert_motion state m cutoff true = .ok m')
    (h1 : len (linear v) ≤ codeTranslation.velocity) (h2 : len (angular v) ≤ codeRotation.velocity) :
    ∃ u : Fin 6 → ℝ, m'.O_dP_EE_c = Arr.fin (join (cOut codeTranslation (linear u) (linear v) (linear a)) (cOut codeRotation (angular u) (angular v) (angular a))) := by
  have h : ((if Fl.flt cutoff MAX_CUTOFF_FREQUENCY then Arr.tabulateP fun i => low_pass_filter DELTA_T (out.O_dP_EE i) (state.O_dP_EE_c i) cutoff else pure out.O_dP_EE) >>= fun x =>
      limit_rate_cartesian_velocity MAX_TRANSLATIONAL_VELOCITY MAX_TRANSLATIONAL_ACCELERATION MAX_TRANSLATIONAL_JERK
        MAX_ROTATIONAL_VELOCITY MAX_ROTATIONAL_ACCELERATION MAX_ROTATIONAL_JERK x state.O_dP_EE_c state.O_ddP_EE_c >>= fun y =>
      assertFinite y >>= fun _ => convert_elbow out.elbow state { m with O_dP_EE_c := y } cutoff true) = .ok m' := by
    rw [← h]
    unfold CartesianVelocities.convert_motion
    split <;> rfl
  obtain ⟨x, -, h⟩ := P_bind_inv h
  obtain ⟨y, h3, h5⟩ := P_bind_inv h
  obtain ⟨_, -, h6⟩ := P_bind_inv h5
  have hx : ∃ u, x = Arr.fin u := by
    unfold limit_rate_cartesian_velocity at h3
    obtain ⟨_, h4, -⟩ := P_bind_inv h3
    exact assertFinite_inv h4
  obtain ⟨u, rfl⟩ := hx
  obtain ⟨t1, t2, t3⟩ := MAX_TRANSLATIONAL_fin
  obtain ⟨r1, r2, r3⟩ := MAX_ROTATIONAL_fin
  rw [t1, t2, t3, r1, r2, r3, hv, ha, cartesian_fin codeTranslation_ok codeRotation_ok h1 h2] at h3
  refine ⟨u, ?_⟩
  rw [(convert_elbow_keeps h6).1]
  injection h3 with h3
  exact h3.symm

/-- The first steps of a motion with Cartesian velocities. -/
theorem cartesian_run_respects {state : ℕ → RobotState XR} {cutoff : XR} {N : ℕ}
    {x a : ℕ → Fin 6 → ℝ} (start : len (linear (x 0)) ≤ 1.99 ∧ len (angular (x 0)) ≤ 2.49)
    (hv : ∀ n < N, (state n).O_dP_EE_c = Arr.fin (x n)) (ha : ∀ n < N, (state n).O_ddP_EE_c = Arr.fin (a n))
    (hs : ∀ n < N, ∃ (out : CartesianVelocities XR) (m m' : MotionGeneratorCommand XR), out.convert_motion (state n) m cutoff true = .ok m' ∧
      m'.O_dP_EE_c = Arr.fin (x (n + 1))) :
    ∀ n < N, StepRespects translationLimits (linear (x n)) (linear (x (n + 1))) ∧ StepRespects rotationLimits (angular (x n)) (angular (x (n + 1))) := by
  have step : ∀ n < N, len (linear (x n)) ≤ codeTranslation.velocity → len (angular (x n)) ≤ codeRotation.velocity →
      StepRespects codeTranslation (linear (x n)) (linear (x (n + 1))) ∧ StepRespects codeRotation (angular (x n)) (angular (x (n + 1))) := by
    intro n hN h1 h2
    obtain ⟨out, m, m', hs, hn⟩ := hs n hN
    obtain ⟨u, hu⟩ := convert_cartesian_velocities (hv n hN) (ha n hN) hs h1 h2
    rw [hn] at hu
    have e : x (n + 1) = join (cOut codeTranslation (linear u) (linear (x n)) (linear (a n))) (cOut codeRotation (angular u) (angular (x n)) (angular (a n))) := by
      funext i
      exact (XR.fin_inj _ _).1 (congrFun hu i)
    rw [e, linear_join, angular_join]
    exact ⟨cOut_respects codeTranslation_ok.jerk codeTranslation_ok.acceleration codeTranslation_ok.ratio h1,
      cOut_respects codeRotation_ok.jerk codeRotation_ok.acceleration codeRotation_ok.ratio h2⟩
  have inv : ∀ n ≤ N, len (linear (x n)) ≤ codeTranslation.velocity ∧ len (angular (x n)) ≤ codeRotation.velocity := by
    intro n
    induction n with
    | zero => exact fun _ => ⟨start.1.trans (by norm_num [codeTranslation]), start.2.trans (by norm_num [codeRotation])⟩
    | succ n ih =>
      intro hN
      obtain ⟨h1, h2⟩ := ih (by omega)
      exact ⟨(step n hN h1 h2).1.velocity, (step n hN h1 h2).2.velocity⟩
  intro n hN
  obtain ⟨h1, h2⟩ := step n hN (inv n hN.le).1 (inv n hN.le).2
  exact ⟨weaken h1 (by norm_num [codeTranslation, translationLimits]) (by norm_num [codeTranslation, translationLimits]),
    weaken h2 (by norm_num [codeRotation, rotationLimits]) (by norm_num [codeRotation, rotationLimits])⟩

/-- **C45**, runs: if a motion starts with at most 1.99 m/s and 2.49 rad/s, and the robot reports the velocities it was commanded as the last ones
and any finite accelerations, then whatever the user's callback returns, every step from one velocity that is sent to the next respects the limits of
translation and rotation. -/
theorem C45_runs (out : ℕ → CartesianVelocities XR) (state : ℕ → RobotState XR) (m m' : ℕ → MotionGeneratorCommand XR) (cutoff : XR)
    (x a : ℕ → Fin 6 → ℝ) (start : len (linear (x 0)) ≤ 1.99 ∧ len (angular (x 0)) ≤ 2.49)
    (hv : ∀ n, (state n).O_dP_EE_c = Arr.fin (x n)) (ha : ∀ n, (state n).O_ddP_EE_c = Arr.fin (a n))
    (hs : ∀ n, (out n).convert_motion (state n) (m n) cutoff true = .ok (m' n)) (hn : ∀ n, (m' n).O_dP_EE_c = Arr.fin (x (n + 1))) :
    ∀ n, StepRespects translationLimits (linear (x n)) (linear (x (n + 1))) ∧ StepRespects rotationLimits (angular (x n)) (angular (x (n + 1))) :=
  fun n => cartesian_run_respects (N := n + 1) start (fun n _ => hv n) (fun n _ => ha n) (fun n _ => ⟨out n, m n, m' n, hs n, hn n⟩) n n.lt_succ_self

theorem cOut_same {L : Limits} (hL : CartesianOk L) {u v a : Fin 3 → ℝ} (h1 : len v ≤ L.velocity) (g : CartesianAllowed L u v a) (k : NoTinySteps u v a) :
    cOut L u v a = u := by
  have e1 : (fun i => ((u i - v i) / 0.001 - a i) / 0.001) = cJerk u v a := by
    funext i; simp only [cJerk]; ring
  have e2 : (fun i => (u i - v i) / 0.001) = fun i => 1000 * (u i - v i) := by
    funext i; ring
  have et : tiny = 2⁻¹ ^ 52 := by norm_num [tiny]
  obtain ⟨k1, k2⟩ := k
  unfold NotTiny at k1 k2
  rw [e1, ← et] at k1
  rw [e2, ← et] at k2
  refine cOut_transparent hL.jerk hL.acceleration h1 g k1 ?_
  rcases k2 with k2 | k2
  · left
    intro i
    have := k2 i
    linarith
  · exact .inr k2

/-- **C60**: a command that respects the limits with the margin of `CartesianAllowed` and asks for no jerk or acceleration that is tiny but not zero
is not changed. -/
theorem C60_allowed_cartesian_velocity {T R : Limits} (hT : CartesianOk T) (hR : CartesianOk R) {u v a : Fin 6 → ℝ}
    (h1 : len (linear v) ≤ T.velocity) (h2 : len (angular v) ≤ R.velocity)
    (g1 : CartesianAllowed T (linear u) (linear v) (linear a)) (g2 : CartesianAllowed R (angular u) (angular v) (angular a))
    (k1 : NoTinySteps (linear u) (linear v) (linear a)) (k2 : NoTinySteps (angular u) (angular v) (angular a)) :
    limit_rate_cartesian_velocity (.fin T.velocity) (.fin T.acceleration) (.fin T.jerk) (.fin R.velocity) (.fin R.acceleration) (.fin R.jerk)
      (Arr.fin u) (Arr.fin v) (Arr.fin a) = .ok (Arr.fin u) := by
  rw [cartesian_fin hT hR h1 h2, cOut_same hT h1 g1 k1, cOut_same hR h2 g2 k2, join_split]

/-- **C60** for a whole conversion without filter and elbow: the command that is sent holds the velocities of the user. -/
theorem C60_convert_motion {u v a : Fin 6 → ℝ} {fin : Bool} {state : RobotState XR} {m : MotionGeneratorCommand XR} {cutoff : ℝ} (hc : 1000 ≤ cutoff)
    (hv : state.O_dP_EE_c = Arr.fin v) (ha : state.O_ddP_EE_c = Arr.fin a)
    (h1 : len (linear v) ≤ 1.99) (h2 : len (angular v) ≤ 2.49)
    (g1 : CartesianAllowed codeTranslation (linear u) (linear v) (linear a)) (g2 : CartesianAllowed codeRotation (angular u) (angular v) (angular a))
    (k1 : NoTinySteps (linear u) (linear v) (linear a)) (k2 : NoTinySteps (angular u) (angular v) (angular a)) :
    ∃ m', CartesianVelocities.convert_motion ⟨fin, Arr.fin u, none⟩ state m (.fin cutoff) true = .ok m' ∧ m'.O_dP_EE_c = Arr.fin u := by
  refine ⟨{ m with O_dP_EE_c := Arr.fin u, valid_elbow := false, elbow_c := fun _ => Fl.lit 0 }, ?_, rfl⟩
  obtain ⟨t1, t2, t3⟩ := MAX_TRANSLATIONAL_fin
  obtain ⟨r1, r2, r3⟩ := MAX_ROTATIONAL_fin
  unfold CartesianVelocities.convert_motion
  have hc : Fl.flt (XR.fin cutoff) MAX_CUTOFF_FREQUENCY = false := by
    rw [MAX_CUTOFF_FREQUENCY, XR.lit_fin, XR.flt_fin]
    exact decide_eq_false (by push_cast; linarith)
  rw [hc]
  dsimp only
  rw [if_neg (by simp), pure_bind, if_pos rfl, t1, t2, t3, r1, r2, r3, hv, ha,
    C60_allowed_cartesian_velocity codeTranslation_ok codeRotation_ok (h1.trans (by norm_num [codeTranslation])) (h2.trans (by norm_num [codeRotation])) g1 g2 k1 k2,
    P_bind_ok_eq, assertFinite_fin, P_bind_ok_eq]
  rfl

/-! ## Beyond the velocity limit -/

/-- The finding about **C45**: if the robot reports a last velocity beyond the limit, the limiter brakes in one step, whatever the acceleration limit is.
Here it goes from 10 m/s to less than 7 m/s within a millisecond, although the command asked for an acceleration of 1 m/s². -/
theorem C45_beyond_the_limit : ∃ u v a r : Fin 6 → ℝ,
    limit_rate_cartesian_velocity (MAX_TRANSLATIONAL_VELOCITY : XR) MAX_TRANSLATIONAL_ACCELERATION MAX_TRANSLATIONAL_JERK
        MAX_ROTATIONAL_VELOCITY MAX_ROTATIONAL_ACCELERATION MAX_ROTATIONAL_JERK (Arr.fin u) (Arr.fin v) (Arr.fin a) = .ok (Arr.fin r) ∧
      len (fun i => (linear u i - linear v i) / 0.001) ≤ translationLimits.acceleration ∧
      100 * translationLimits.acceleration < len (fun i => (linear r i - linear v i) / 0.001) := by
  have l1 : len ![1, 0, 0] = 1 := by simp [len]
  have hj : cJerk ![10.001, 0, 0] ![10, 0, 0] ![1, 0, 0] = 0 := by
    funext i; fin_cases i <;> norm_num [cJerk]
  have hj0 : cJerk ![0, 0, 0] ![0, 0, 0] ![0, 0, 0] = 0 := by
    funext i; fin_cases i <;> norm_num [cJerk]
  have l0 : len 0 = 0 := by simp [len]
  have t1 : tiny < 1 := by norm_num [tiny]
  have c1 : cAcc codeTranslation.jerk ![10.001, 0, 0] ![10, 0, 0] ![1, 0, 0] = ![1, 0, 0] := by
    unfold cAcc
    rw [hj, l0, if_neg (not_lt.2 tiny_pos.le)]
  have c0 : cAcc codeRotation.jerk ![0, 0, 0] ![0, 0, 0] ![0, 0, 0] = ![0, 0, 0] := by
    unfold cAcc
    rw [hj0, l0, if_neg (not_lt.2 tiny_pos.le)]
  have z : (![0, 0, 0] : Fin 3 → ℝ) = 0 := by funext i; fin_cases i <;> rfl
  have l10 : len ![10, 0, 0] = 10 := by simp [len]
  have d10 : dot3 ![1, 0, 0] ![10, 0, 0] = 10 := by simp [dot3]
  have hc : cLen codeTranslation ![10, 0, 0] ![1, 0, 0] ≤ -2000 := by
    have e : √(codeTranslation.velocity ^ 2) = codeTranslation.velocity := Real.sqrt_sq (by norm_num [codeTranslation])
    unfold cLen
    rw [l1, d10, l10, show ((10 : ℝ) / 1) ^ 2 - 10 ^ 2 + codeTranslation.velocity ^ 2 = codeTranslation.velocity ^ 2 by ring, e]
    refine (min_le_right _ _).trans ((min_le_left _ _).trans ?_)
    norm_num [codeTranslation]
  refine ⟨join ![10.001, 0, 0] ![0, 0, 0], join ![10, 0, 0] ![0, 0, 0], join ![1, 0, 0] ![0, 0, 0],
    join (cOut codeTranslation ![10.001, 0, 0] ![10, 0, 0] ![1, 0, 0]) (cOut codeRotation ![0, 0, 0] ![0, 0, 0] ![0, 0, 0]), ?_, ?_, ?_⟩
  · obtain ⟨t1, t2, t3⟩ := MAX_TRANSLATIONAL_fin
    obtain ⟨r1, r2, r3⟩ := MAX_ROTATIONAL_fin
    unfold limit_rate_cartesian_velocity
    rw [assertFinite_fin, P_bind_ok_eq, head3_fin, head3_fin, head3_fin, tail3_fin, tail3_fin, tail3_fin, t1, t2, t3, r1, r2, r3]
    simp only [linear_join, angular_join]
    rw [single_fin codeTranslation_ok.jerk codeTranslation_ok.acceleration, single_fin codeRotation_ok.jerk codeRotation_ok.acceleration]
    · show Except.ok _ = Except.ok _
      congr 1
      funext i
      fin_cases i <;> rfl
    · exact codeRotation_ok.roots (by rw [z, l0]; norm_num [codeRotation])
    · intro _
      rw [c1, l1, d10, l10]
      nlinarith [sq_nonneg codeTranslation.velocity]
  · rw [linear_join, linear_join, show (fun i => (![10.001, 0, 0] i - ![10, 0, 0] i) / 0.001 : Fin 3 → ℝ) = ![1, 0, 0] by
      funext i; fin_cases i <;> norm_num, l1]
    norm_num [translationLimits]
  · rw [linear_join, linear_join]
    have e : (fun i => (cOut codeTranslation ![10.001, 0, 0] ![10, 0, 0] ![1, 0, 0] i - ![10, 0, 0] i) / 0.001 : Fin 3 → ℝ) =
        ![cLen codeTranslation ![10, 0, 0] ![1, 0, 0], 0, 0] := by
      unfold cOut
      rw [c1, l1, if_pos t1]
      funext i
      fin_cases i
      · show (10 + 1 / 1 * cLen codeTranslation ![10, 0, 0] ![1, 0, 0] / 1000 - 10) / 0.001 = cLen codeTranslation ![10, 0, 0] ![1, 0, 0]
        ring
      · show ((0 : ℝ) + 0 / 1 * cLen codeTranslation ![10, 0, 0] ![1, 0, 0] / 1000 - 0) / 0.001 = 0
        simp
      · show ((0 : ℝ) + 0 / 1 * cLen codeTranslation ![10, 0, 0] ![1, 0, 0] / 1000 - 0) / 0.001 = 0
        simp
    rw [e]
    have : len ![cLen codeTranslation ![10, 0, 0] ![1, 0, 0], 0, 0] = |cLen codeTranslation ![10, 0, 0] ![1, 0, 0]| := by
      simp [len, Real.sqrt_sq_eq_abs]
    rw [this, abs_of_nonpos (by linarith)]
    norm_num [translationLimits]
    linarith

/-! ## The hypotheses can be met -/

/-- Runs exist: for all finite velocities that the user asks for, and a motion generator command `m`, there is a sequence of velocities as in `C45_runs`. -/
theorem C45_runs_exist (u : ℕ → Fin 6 → ℝ) (a : ℕ → Fin 6 → ℝ) (x0 : Fin 6 → ℝ) (start : len (linear x0) ≤ 1.99 ∧ len (angular x0) ≤ 2.49)
    (m : MotionGeneratorCommand XR) (s : RobotState XR) : ∃ (x : ℕ → Fin 6 → ℝ) (state : ℕ → RobotState XR) (m' : ℕ → MotionGeneratorCommand XR), x 0 = x0 ∧
      (∀ n, (state n).O_dP_EE_c = Arr.fin (x n)) ∧ (∀ n, (state n).O_ddP_EE_c = Arr.fin (a n)) ∧
      (∀ n, CartesianVelocities.convert_motion ⟨false, Arr.fin (u n), none⟩ (state n) m MAX_CUTOFF_FREQUENCY true = .ok (m' n)) ∧
      ∀ n, (m' n).O_dP_EE_c = Arr.fin (x (n + 1)) := by
  let next : ℕ → (Fin 6 → ℝ) → Fin 6 → ℝ := fun n v =>
    join (cOut codeTranslation (linear (u n)) (linear v) (linear (a n))) (cOut codeRotation (angular (u n)) (angular v) (angular (a n)))
  let x : ℕ → Fin 6 → ℝ := fun n => Nat.rec x0 (fun n v => next n v) n
  have inv : ∀ n, len (linear (x n)) ≤ codeTranslation.velocity ∧ len (angular (x n)) ≤ codeRotation.velocity := by
    intro n
    induction n with
    | zero => exact ⟨start.1.trans (by norm_num [codeTranslation]), start.2.trans (by norm_num [codeRotation])⟩
    | succ n ih =>
      show len (linear (next n (x n))) ≤ _ ∧ len (angular (next n (x n))) ≤ _
      rw [linear_join, angular_join]
      exact ⟨(cOut_respects codeTranslation_ok.jerk codeTranslation_ok.acceleration codeTranslation_ok.ratio ih.1).velocity,
        (cOut_respects codeRotation_ok.jerk codeRotation_ok.acceleration codeRotation_ok.ratio ih.2).velocity⟩
  refine ⟨x, fun n => { s with O_dP_EE_c := Arr.fin (x n), O_ddP_EE_c := Arr.fin (a n) }, fun n => { m with O_dP_EE_c := Arr.fin (x (n + 1)), valid_elbow := false, elbow_c := fun _ => Fl.lit 0 },
    rfl, fun _ => rfl, fun _ => rfl, ?_, fun _ => rfl⟩
  intro n
  obtain ⟨t1, t2, t3⟩ := MAX_TRANSLATIONAL_fin
  obtain ⟨r1, r2, r3⟩ := MAX_ROTATIONAL_fin
  unfold CartesianVelocities.convert_motion
  have hc : Fl.flt (MAX_CUTOFF_FREQUENCY : XR) MAX_CUTOFF_FREQUENCY = false := by
    rw [MAX_CUTOFF_FREQUENCY, XR.lit_fin, XR.flt_fin]; simp
  rw [hc]
  dsimp only
  rw [if_neg (by simp), pure_bind, if_pos rfl, t1, t2, t3, r1, r2, r3, cartesian_fin codeTranslation_ok codeRotation_ok (inv n).1 (inv n).2, P_bind_ok_eq, assertFinite_fin, P_bind_ok_eq]
  rfl

/-- A motion in two directions at once, faster and faster: it is allowed. -/
example : CartesianAllowed codeTranslation ![0.301, 0.402, 0] ![0.3, 0.4, 0] ![1, 2, 0] := by
  have e : (fun i => ((![0.301, 0.402, 0] : Fin 3 → ℝ) i - ![0.3, 0.4, 0] i) / 0.001) = ![1, 2, 0] := by
    funext i; fin_cases i <;> norm_num
  have e' : (fun i => (((![0.301, 0.402, 0] : Fin 3 → ℝ) i - ![0.3, 0.4, 0] i) / 0.001 - ![1, 2, 0] i) / 0.001) = ![0, 0, 0] := by
    funext i; fin_cases i <;> norm_num
  refine ⟨?_, ?_, ?_⟩
  · rw [e']; simp [len, codeTranslation]; norm_num
  · rw [e]
    refine Real.sqrt_le_iff.2 ⟨by norm_num [codeTranslation], ?_⟩
    simp [codeTranslation]; norm_num
  · refine Real.sqrt_le_iff.2 ⟨by norm_num [codeTranslation], ?_⟩
    simp [codeTranslation]; norm_num

example : NoTinySteps ![0.301, 0.402, 0] ![0.3, 0.4, 0] ![1, 2, 0] := by
  have e : (fun i => ((![0.301, 0.402, 0] : Fin 3 → ℝ) i - ![0.3, 0.4, 0] i) / 0.001) = ![1, 2, 0] := by
    funext i; fin_cases i <;> norm_num
  refine ⟨.inl fun i => ?_, .inr ?_⟩
  · fin_cases i <;> norm_num
  · rw [e]
    refine lt_of_lt_of_le (b := 1) (by norm_num) (Real.one_le_sqrt.2 ?_)
    simp

end Verif
