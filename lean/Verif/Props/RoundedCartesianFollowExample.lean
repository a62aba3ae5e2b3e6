import Verif.Props.RoundedCartesianFollow
/-!
# A Cartesian velocity motion within the limits, with rounding

For C105: with every rounding, the hypotheses of `C105_velocities` are met by a motion whose callback accelerates in all directions by 1 m/s² and 1 rad/s².
-/
set_option linter.unusedSectionVars false
namespace Verif
open Prog Spec

namespace Glide
variable (A : Rounding)

/-- What the callback asks for: 0.001, 0.002, … m/s and rad/s. -/
noncomputable def wish (n : ℕ) : Fin 6 → ℝ := fun _ => (n + 1) / 1000

theorem first_exists : ∃ x, limit_rate_cartesian_velocity MAX_TRANSLATIONAL_VELOCITY MAX_TRANSLATIONAL_ACCELERATION MAX_TRANSLATIONAL_JERK MAX_ROTATIONAL_VELOCITY
      MAX_ROTATIONAL_ACCELERATION MAX_ROTATIONAL_JERK (Arr.rd (wish 0)) (Arr.rd 0) (Arr.rd 0) = (.ok (Arr.rd x) : P (Arr (Rd A) 6)) ∧
    StepRespects translationLimits (linear 0) (linear x) ∧ StepRespects rotationLimits (angular 0) (angular x) :=
  C101_limiter (wish 0) Dash.calm.1 Dash.calm.2 (by simp)

/-- The first velocity that is sent. -/
noncomputable def x1 : Fin 6 → ℝ := (first_exists A).choose

theorem x1_slow : len (linear (x1 A)) ≤ 0.013 ∧ len (angular (x1 A)) ≤ 0.025 := by
  obtain ⟨-, h1, h2⟩ := (first_exists A).choose_spec
  have e1 : ∀ i, linear 0 i = 0 := fun i => by fin_cases i <;> rfl
  have e2 : ∀ i, angular 0 i = 0 := fun i => by fin_cases i <;> rfl
  have h3 := h1.acceleration
  have h4 := h2.acceleration
  simp only [e1] at h3
  simp only [e2] at h4
  have h3 := Dash.slow h3
  have h4 := Dash.slow h4
  exact ⟨h3.trans (by norm_num [translationLimits]), h4.trans (by norm_num [rotationLimits])⟩

/-- Its rate of change. -/
noncomputable def r1 : Fin 6 → ℝ := fun i => (x1 A i - 0) / 0.001

theorem r1_small (i : Fin 6) : |r1 A i| ≤ 10 ^ 6 := by
  have h : |x1 A i| ≤ 0.025 := by
    have h1 := fun i => (len_comp (linear (x1 A)) i).trans ((x1_slow A).1.trans (by norm_num : (0.013 : ℝ) ≤ 0.025))
    have h2 := fun i => (len_comp (angular (x1 A)) i).trans (x1_slow A).2
    fin_cases i
    · exact h1 0
    · exact h1 1
    · exact h1 2
    · exact h2 0
    · exact h2 1
    · exact h2 2
  unfold r1
  rw [sub_zero, abs_div, abs_of_pos (by norm_num : (0 : ℝ) < 0.001), div_le_iff₀ (by norm_num)]
  exact h.trans (by norm_num)

theorem second_exists : ∃ x, limit_rate_cartesian_velocity MAX_TRANSLATIONAL_VELOCITY MAX_TRANSLATIONAL_ACCELERATION MAX_TRANSLATIONAL_JERK MAX_ROTATIONAL_VELOCITY
      MAX_ROTATIONAL_ACCELERATION MAX_ROTATIONAL_JERK (Arr.rd (wish 1)) (Arr.rd (x1 A)) (Arr.rd (r1 A)) = (.ok (Arr.rd x) : P (Arr (Rd A) 6)) ∧
    StepRespects translationLimits (linear (x1 A)) (linear x) ∧ StepRespects rotationLimits (angular (x1 A)) (angular x) :=
  C101_limiter (wish 1) ((x1_slow A).1.trans (by norm_num)) ((x1_slow A).2.trans (by norm_num)) (r1_small A)

/-- The second velocity that is sent. -/
noncomputable def x2 : Fin 6 → ℝ := (second_exists A).choose

/-- The velocities of the robot. -/
noncomputable def vel (i : Fin 6) : ℕ → ℝ
  | 0 => 0
  | 1 => x1 A i
  | _ => x2 A i

/-- The doubles of the first 13 bit patterns: zero, the velocity after a millisecond, and its rate of change. -/
noncomputable def table : List (Rd A) :=
  [.fin 0, .fin (x1 A 0), .fin (x1 A 1), .fin (x1 A 2), .fin (x1 A 3), .fin (x1 A 4), .fin (x1 A 5), .fin (r1 A 0), .fin (r1 A 1), .fin (r1 A 2), .fin (r1 A 3), .fin (r1 A 4),
    .fin (r1 A 5)]

/-- All other bit patterns are zero. -/
@[instance_reducible] noncomputable def wire : Wire (Rd A) where
  toBits _ := 0
  ofBits b := (table A)[b.toNat]?.getD (.fin 0)

/-- Rotations play no role. -/
@[instance_reducible] noncomputable def geo : Geo (Rd A) := matrixGeo

attribute [local instance] wire geo

/-- A state datagram with this number, these last commanded velocities and accelerations, and these modes. -/
def datagram (id : UInt8) (v a : List UInt8) (motion controller mode : UInt8) : Bytes :=
  [id, 0, 0, 0, 0, 0, 0, 0] ++ List.replicate 2064 0 ++ v.flatMap (fun b => [b, 0, 0, 0, 0, 0, 0, 0]) ++ a.flatMap (fun b => [b, 0, 0, 0, 0, 0, 0, 0]) ++
    List.replicate 112 0 ++ [motion, controller] ++ List.replicate 82 0 ++ [mode] ++ List.replicate 8 0

/-- Nothing moves. -/
def rest : List UInt8 := List.replicate 6 0

/-- The state in a datagram. -/
noncomputable def stateOf (bs : Bytes) (h : ((RobotStateIntern.codec (Rd A)).dec bs).isSome = true) : RobotStateIntern (Rd A) := (Option.get _ h).1

/-- The states of the motion. -/
@[irreducible] noncomputable def s2 : RobotStateIntern (Rd A) := stateOf A (datagram 2 rest rest 4 0 2) (by kernel_rfl)
@[irreducible] noncomputable def s3 : RobotStateIntern (Rd A) := stateOf A (datagram 3 rest rest 4 0 2) (by kernel_rfl)
@[irreducible] noncomputable def s4 : RobotStateIntern (Rd A) := stateOf A (datagram 4 [1, 2, 3, 4, 5, 6] [7, 8, 9, 10, 11, 12] 4 0 2) (by kernel_rfl)
@[irreducible] noncomputable def s5 : RobotStateIntern (Rd A) := stateOf A (datagram 5 rest rest 0 3 1) (by kernel_rfl)

theorem h2 : HoldsState (s2 A) (datagram 2 rest rest 4 0 2) := ⟨by kernel_rfl, by kernel_rfl⟩
theorem h3 : HoldsState (s3 A) (datagram 3 rest rest 4 0 2) := ⟨by kernel_rfl, by kernel_rfl⟩
theorem h4 : HoldsState (s4 A) (datagram 4 [1, 2, 3, 4, 5, 6] [7, 8, 9, 10, 11, 12] 4 0 2) := ⟨by kernel_rfl, by kernel_rfl⟩
theorem h5 : HoldsState (s5 A) (datagram 5 rest rest 0 3 1) := ⟨by kernel_rfl, by kernel_rfl⟩

theorem m2 : ((s2 A).message_id, (s2 A).motion_generator_mode, (s2 A).controller_mode) = (2, .CartesianVelocity, .JointImpedance) := by kernel_rfl
theorem m3 : ((s3 A).message_id, (s3 A).motion_generator_mode, (s3 A).controller_mode, (s3 A).robot_mode) = (3, .CartesianVelocity, .JointImpedance, .Move) := by kernel_rfl
theorem m4 : ((s4 A).message_id, (s4 A).motion_generator_mode, (s4 A).controller_mode, (s4 A).robot_mode) = (4, .CartesianVelocity, .JointImpedance, .Move) := by kernel_rfl
theorem m5 : ((s5 A).message_id, (s5 A).motion_generator_mode, (s5 A).controller_mode) = (5, .Idle, .Other) := by kernel_rfl

theorem v3 : ((List.finRange 6).map (s3 A).O_dP_EE_c, (List.finRange 6).map (s3 A).O_ddP_EE_c) =
    ((List.finRange 6).map fun _ => .fin 0, (List.finRange 6).map fun _ => .fin 0) := by kernel_rfl
theorem v4 : ((List.finRange 6).map (s4 A).O_dP_EE_c, (List.finRange 6).map (s4 A).O_ddP_EE_c) =
    ((List.finRange 6).map fun i => .fin (x1 A i), (List.finRange 6).map fun i => .fin (r1 A i)) := by kernel_rfl

theorem all_of {f g : Arr (Rd A) 6} (h : (List.finRange 6).map f = (List.finRange 6).map g) : f = g :=
  funext fun i => List.map_inj_left.1 h i (List.mem_finRange i)

theorem d3 : (RobotState.ofIntern (s3 A)).O_dP_EE_c = Arr.rd (sample (vel A) 0) ∧ (RobotState.ofIntern (s3 A)).O_ddP_EE_c = Arr.rd (fun i => rate (vel A i) 0) := by
  obtain ⟨h, h'⟩ := Prod.mk.inj (v3 A)
  exact ⟨all_of A h, all_of A h'⟩

theorem d4 : (RobotState.ofIntern (s4 A)).O_dP_EE_c = Arr.rd (sample (vel A) 1) ∧ (RobotState.ofIntern (s4 A)).O_ddP_EE_c = Arr.rd (fun i => rate (vel A i) 1) := by
  obtain ⟨h, h'⟩ := Prod.mk.inj (v4 A)
  exact ⟨all_of A h, all_of A h'⟩

/-- What the callback returns: 0.001 and then 0.002 m/s and rad/s, and the second call ends the motion. -/
noncomputable def out (n : ℕ) : Motion (Rd A) .CartesianVelocities := (⟨decide (1 ≤ n), Arr.rd (wish n), none⟩ : CartesianVelocities (Rd A))

/-- The callback counts its calls. -/
noncomputable def cb : ℕ → RobotState (Rd A) → ℕ → ℕ × Motion (Rd A) .CartesianVelocities := fun n _ _ => (n + 1, out A n)

/-- `control_cartesian_velocities` with rate limiting and without filtering. -/
noncomputable def call : RobotCall (Rd A) := .control_motion ℕ .CartesianVelocities (cb A) none (some true) (some MAX_CUTOFF_FREQUENCY) 0

/-- What this call asks for. -/
noncomputable def asked : ControlCall (Rd A) ℕ .CartesianVelocities :=
  { motion := cb A, torque := none, controller := .JointImpedance, limit_rate := true, cutoff := MAX_CUTOFF_FREQUENCY }

theorem control : IsControl (call A) (asked A) 0 := .motion ℕ .CartesianVelocities (cb A) none (some true) (some MAX_CUTOFF_FREQUENCY) 0

/-- The Move request. -/
noncomputable def request : RobotReq (Rd A) := ⟨⟨.Move, 1, 0⟩, moveBody .CartesianVelocities .JointImpedance⟩

/-- The command in the `n`-th cycle. -/
noncomputable def cmd (n : ℕ) : MotionGeneratorCommand (Rd A) := { noMotion with O_dP_EE_c := Arr.rd (sample (vel A) (n + 1)) }

theorem c3 : (out A 0).convert_motion (RobotState.ofIntern (s3 A)) noMotion MAX_CUTOFF_FREQUENCY true = .ok (cmd A 0) := by
  exact rd_converts noMotion (d3 A).1 (d3 A).2 (first_exists A).choose_spec.1

theorem c4 : (out A 1).convert_motion (RobotState.ofIntern (s4 A)) (cmd A 0) MAX_CUTOFF_FREQUENCY true = .ok (cmd A 1) :=
  rd_converts (cmd A 0) (d4 A).1 (d4 A).2 (second_exists A).choose_spec.1

theorem time_of {s : RobotStateIntern (Rd A)} {n : ℕ} (h : s.message_id.toNat = n) : (RobotState.ofIntern s).time = n := h

/-- The events after the start of the motion. -/
noncomputable def events : List (Ev (Rd A)) :=
  [.motionCb .CartesianVelocities (RobotState.ofIntern (s3 A)) 0 (out A 0), .udpSend 0 ⟨(s3 A).message_id, cmd A 0, noTorques⟩, .accepted (s4 A),
    .motionCb .CartesianVelocities (RobotState.ofIntern (s4 A)) 1 (out A 1),
    .udpSend 0 ⟨(s4 A).message_id, { cmd A 1 with motion_generation_finished := true }, noTorques⟩, .accepted (s5 A)]

theorem run : Run (asked A) 0 (.before (Realize.s1 (Rd A))) (.robotReq (request A) :: ([s2 A].map .accepted ++ .accepted (s3 A) :: events A))
    (.finishing (s5 A) (cmd A 1) noTorques) := by
  have e2 := m2 A
  have e3 := m3 A
  have e4 := m4 A
  have e5 := m5 A
  simp only [Prod.mk.injEq] at e2 e3 e4 e5
  obtain ⟨i2, g2, c2⟩ := e2
  obtain ⟨i3, g3, c3', r3⟩ := e3
  obtain ⟨i4, g4, c4', r4⟩ := e4
  obtain ⟨i5, g5, c5⟩ := e5
  have t3 : (RobotState.ofIntern (s3 A)).time = 3 := time_of A (by rw [i3]; rfl)
  have t4 : (RobotState.ofIntern (s4 A)).time = 4 := time_of A (by rw [i4]; rfl)
  have p1 := Run.snoc (.nil (.before (Realize.s1 (Rd A)))) (Step.move (call := asked A) (c0 := 0) _ ⟨.Move, 1, 0⟩ Realize.s1_idle rfl)
  have p2 := p1.snoc (.wait _ (s2 A) (fun h => Realize.s1_idle (.inl (by rw [h.1]; nofun))) (by rw [Realize.s1_id, i2]; decide))
  have p3 := p2.snoc (.first _ (s3 A) (by rw [i2, i3]; decide) ⟨r3, g3, c3'⟩)
  have p4 := p3.snoc (.motion _ _ _ _ _ 0 1 (out A 0) (cmd A 0) rfl le_rfl (Nat.sub_self _).symm rfl (c3 A) rfl)
  have p5 := p4.snoc (.send _ _ _ _ 0)
  have p6 := p5.snoc (.next _ _ _ _ (s4 A) (by rw [i3, i4]; decide) ⟨r4, g4, c4'⟩)
  have p7 := p6.snoc (.motionEnd _ _ _ _ _ 1 2 (out A 1) (cmd A 1) (by rw [t3, t4]; decide) (by rw [t3, t4]) rfl
    (c4 A) rfl)
  have p8 := p7.snoc (.finish _ _ _ 0 (.inl (by rw [g4]; nofun)))
  have p9 := p8.snoc (.finishNext _ _ _ (s5 A) (by rw [i4, i5]; decide))
  exact p9

theorem still : ¬ Running (s5 A) := by
  have e5 := m5 A
  simp only [Prod.mk.injEq] at e5
  rintro (h | h)
  · exact h e5.2.1
  · rw [e5.2.2] at h; cases h

theorem happens : ∃ w, RobotReachable w ∧ ((call A).run w).1 = .ok () ∧
    List.Forall₂ Alike (.robotReq (request A) :: ([s2 A].map .accepted ++ .accepted (s3 A) :: events A)) (newEvents w ((call A).run w).2) := by
  refine C65_every_such_motion_happens (control A) (run A) (still A) ?_ ⟨s2 A, rfl, ?_⟩ ?_
  · intro r
    simp [events]
  · have e2 := m2 A
    simp only [Prod.mk.injEq] at e2
    exact ⟨e2.2.1, e2.2.2⟩
  · intro s hs
    simp [events] at hs
    rcases hs with rfl | rfl | rfl | rfl
    · exact ⟨_, h2 A⟩
    · exact ⟨_, h3 A⟩
    · exact ⟨_, h4 A⟩
    · exact ⟨_, h5 A⟩

theorem exchanges_eq : exchanges (.robotReq (request A) :: ([s2 A].map .accepted ++ .accepted (s3 A) :: events A)) =
    [(RobotState.ofIntern (s3 A), ⟨(s3 A).message_id, cmd A 0, noTorques⟩),
      (RobotState.ofIntern (s4 A), ⟨(s4 A).message_id, { cmd A 1 with motion_generation_finished := true }, noTorques⟩)] := rfl

theorem outputs_alike {tr tr' : List (Ev (Rd A))} (h : List.Forall₂ Alike tr tr') : motionOutputs .CartesianVelocities tr = motionOutputs .CartesianVelocities tr' := by
  induction h with
  | nil => rfl
  | @cons e e' _ _ h _ ih =>
    unfold motionOutputs at ih ⊢
    rw [List.filterMap_cons, List.filterMap_cons, ih]
    cases e <;> simp only [Alike] at h
    case robotReq => obtain ⟨h, rfl, -⟩ := h; rfl
    case udpSend => obtain ⟨a, rfl⟩ := h; rfl
    all_goals subst h; rfl

theorem outputs_eq : motionOutputs .CartesianVelocities (.robotReq (request A) :: ([s2 A].map .accepted ++ .accepted (s3 A) :: events A)) = [out A 0, out A 1] := rfl

end Glide

theorem glide_inside {L : Limits} (ha : 2 ≤ (mostOf L).acceleration) (hj : 2000 ≤ (mostOf L).jerk)
    (hm : (mostOf L).acceleration / (mostOf L).jerk ≤ 0.01) (hv' : 0.1 ≤ (mostOf L).velocity) : CartesianInside 2 L fun _ => starting 0 fun n => (n + 1) / 1000 := by
  have hc : ∀ {x y : ℝ}, 0 ≤ y → |x| ≤ y → len (fun _ => x) ≤ 1.8 * y := by
    intro x y hy hx
    refine Real.sqrt_le_iff.2 ⟨by positivity, ?_⟩
    have := sq_le_sq' (abs_le.1 hx).1 (abs_le.1 hx).2
    nlinarith
  have hm0 : 0 ≤ (mostOf L).acceleration / (mostOf L).jerk := by positivity
  have e : starting 0 (fun n => ((n : ℝ) + 1) / 1000) = fun n : ℕ => (n : ℝ) / 1000 := by
    funext n
    cases n with
    | zero => simp [starting]
    | succ n => simp [starting]
  rw [e]
  have hm1 : ∀ x : ℝ, 0 ≤ x → x ≤ 0.001 → |x + (mostOf L).acceleration / (mostOf L).jerk * 1| ≤ 0.02 := by
    intro x h1 h2
    rw [abs_of_nonneg (by linarith)]
    norm_num at *
    linarith
  refine ⟨(hc (x := ((0 : ℕ) : ℝ) / 1000) (y := 0) le_rfl (by norm_num)).trans (by linarith), fun n hn => ?_⟩
  match n, hn with
  | 0, _ =>
    refine ⟨(hc (y := 1000) (by norm_num) (by norm_num [sample, rate])).trans (by linarith), (hc (y := 1) (by norm_num) (by norm_num [sample])).trans (by linarith), ?_⟩
    refine (hc (y := 0.02) (by norm_num) ?_).trans (by linarith)
    have := hm1 0 le_rfl (by norm_num)
    norm_num [sample] at this ⊢
    exact this
  | 1, _ =>
    refine ⟨(hc (y := 1000) (by norm_num) (by norm_num [sample, rate])).trans (by linarith), (hc (y := 1) (by norm_num) (by norm_num [sample])).trans (by linarith), ?_⟩
    refine (hc (y := 0.02) (by norm_num) ?_).trans (by linarith)
    have := hm1 0.001 (by norm_num) le_rfl
    norm_num [sample] at this ⊢
    exact this

attribute [local instance] Glide.wire Glide.geo in
open Glide in
/-- There is a world in which the call returns Ok, two states are answered, and the hypotheses of `C105_velocities` are met. -/
example (A : Rounding) : ∃ w, RobotReachable w ∧ IsControl (call A) (asked A) 0 ∧ (asked A).limit_rate = true ∧ Fl.flt (asked A).cutoff (Fl.lit 1000) = false ∧
    ((call A).run w).1 = .ok () ∧ answered w (call A) = 2 ∧
    (∀ (n : ℕ) out, (motionOutputs .CartesianVelocities (newEvents w ((call A).run w).2))[n]? = some out → CartesianVelocities.O_dP_EE out = Arr.rd (sample (fun i n => wish n i) n)) ∧
    (∀ n st x, Exchange w (call A) n st x → st.O_dP_EE_c = Arr.rd (sample (vel A) n) ∧ st.O_ddP_EE_c = Arr.rd (sample (fun i => rate (vel A i)) n)) ∧
    (∀ n st x, Exchange w (call A) n st x → x.motion.O_dP_EE_c = Arr.rd (sample (vel A) (n + 1))) ∧
    CartesianInside (answered w (call A)) translationLimits (translation fun i => starting (vel A i 0) fun n => wish n i) ∧
    CartesianInside (answered w (call A)) rotationLimits (rotation fun i => starting (vel A i 0) fun n => wish n i) := by
  obtain ⟨w, h1, h2, h3⟩ := happens A
  have e : exchanges (newEvents w ((call A).run w).2) = _ := (exchanges_alike h3).symm.trans (exchanges_eq A)
  have e' : motionOutputs .CartesianVelocities (newEvents w ((call A).run w).2) = _ := (outputs_alike A h3).symm.trans (outputs_eq A)
  have e2 : answered w (call A) = 2 := by unfold answered; rw [e]; rfl
  refine ⟨w, h1, control A, rfl, rd_no_filter, h2, e2, ?_, ?_, ?_, ?_, ?_⟩
  · intro n o ho
    rw [e'] at ho
    match n, ho with
    | 0, ho => cases ho; rfl
    | 1, ho => cases ho; rfl
  · intro n st x hx
    unfold Exchange at hx
    rw [e] at hx
    match n, hx with
    | 0, hx => cases hx; exact d3 A
    | 1, hx => cases hx; exact d4 A
  · intro n st x hx
    unfold Exchange at hx
    rw [e] at hx
    match n, hx with
    | 0, hx => cases hx; rfl
    | 1, hx => cases hx; rfl
  · rw [e2, show (translation fun i => starting (vel A i 0) fun n => wish n i) = fun _ => starting 0 fun n => (n + 1) / 1000 by funext i n; cases n <;> fin_cases i <;> rfl]
    exact glide_inside (by norm_num [mostOf, translationLimits]) (by norm_num [mostOf, translationLimits])
      (by norm_num [mostOf, translationLimits]) (by norm_num [mostOf, translationLimits])
  · rw [e2, show (rotation fun i => starting (vel A i 0) fun n => wish n i) = fun _ => starting 0 fun n => (n + 1) / 1000 by funext i n; cases n <;> fin_cases i <;> rfl]
    exact glide_inside (by norm_num [mostOf, rotationLimits]) (by norm_num [mostOf, rotationLimits])
      (by norm_num [mostOf, rotationLimits]) (by norm_num [mostOf, rotationLimits])

end Verif
