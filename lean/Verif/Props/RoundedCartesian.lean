import Verif.Lemmas.RoundedCartesian
import Verif.Props.RoundedCall
import Verif.Props.Complete
/-!
# Cartesian velocities with rounding: C101

Doubles are rounded here and may overflow (`Spec/Rounding.lean`), bit patterns are any. The lengths, directions and roots that the limiter computes are compared with the
documented limits in exact arithmetic. The last velocity must be at most 1.999 m/s and 2.499 rad/s, which is more than the limits in the code: without such a bound the
limiter may ignore the limit (C79).
-/
set_option linter.unusedSectionVars false
namespace Verif
open Prog Spec Fl
variable {A : Rounding}

theorem near_translation : Near (MAX_TRANSLATIONAL_VELOCITY : Rd A) codeTranslation.velocity (1 / 10 ^ 14) ∧
    Near (MAX_TRANSLATIONAL_ACCELERATION : Rd A) codeTranslation.acceleration (1 / 10 ^ 14) ∧ Near (MAX_TRANSLATIONAL_JERK : Rd A) codeTranslation.jerk (1 / 10 ^ 11) := by
  have ha : Near (MAX_TRANSLATIONAL_ACCELERATION : Rd A) codeTranslation.acceleration (1 / 10 ^ 14) :=
    (near_limit (q := 13) (B := 14) (by norm_num) (by norm_num)).weaken (by norm_num [codeTranslation])
  refine ⟨?_, ha, (near_limit (q := 6500) (B := 6501) (by norm_num) (by norm_num)).weaken (by norm_num [codeTranslation])⟩
  exact (near_velocity_limit (q := 2) (by norm_num [abs_le]) ha (by norm_num [codeTranslation, abs_le])).weaken (by norm_num [codeTranslation])

theorem near_rotation : Near (MAX_ROTATIONAL_VELOCITY : Rd A) codeRotation.velocity (1 / 10 ^ 14) ∧
    Near (MAX_ROTATIONAL_ACCELERATION : Rd A) codeRotation.acceleration (1 / 10 ^ 14) ∧ Near (MAX_ROTATIONAL_JERK : Rd A) codeRotation.jerk (1 / 10 ^ 11) := by
  have ha : Near (MAX_ROTATIONAL_ACCELERATION : Rd A) codeRotation.acceleration (1 / 10 ^ 14) :=
    (near_limit (q := 25) (B := 26) (by norm_num) (by norm_num)).weaken (by norm_num [codeRotation])
  refine ⟨?_, ha, (near_limit (q := 12500) (B := 12501) (by norm_num) (by norm_num)).weaken (by norm_num [codeRotation])⟩
  exact (near_velocity_limit (q := 25 / 10) (by norm_num [abs_le]) ha (by norm_num [codeRotation, abs_le])).weaken (by norm_num [codeRotation])

theorem head3_rd (x : Fin 6 → ℝ) : (Arr.rd x : Arr (Rd A) 6).head3 = Arr.rd (linear x) := by
  funext i
  fin_cases i <;> rfl

theorem tail3_rd (x : Fin 6 → ℝ) : (Arr.rd x : Arr (Rd A) 6).tail3 = Arr.rd (angular x) := by
  funext i
  fin_cases i <;> rfl

/-- **C101**, the limiter: for every finite command, the limiter of Cartesian velocities returns a finite velocity, and the step to it from the last velocity respects
the documented limits for velocity and acceleration, although everything is rounded and intermediate results may overflow. -/
theorem C101_limiter (u : Fin 6 → ℝ) {v a : Fin 6 → ℝ} (h1 : len (linear v) ≤ 1.999) (h2 : len (angular v) ≤ 2.499) (ha : ∀ i, |a i| ≤ 10 ^ 6) :
    ∃ x, limit_rate_cartesian_velocity MAX_TRANSLATIONAL_VELOCITY MAX_TRANSLATIONAL_ACCELERATION MAX_TRANSLATIONAL_JERK MAX_ROTATIONAL_VELOCITY MAX_ROTATIONAL_ACCELERATION
        MAX_ROTATIONAL_JERK (Arr.rd u) (Arr.rd v) (Arr.rd a) = (.ok (Arr.rd x) : P (Arr (Rd A) 6)) ∧
      StepRespects translationLimits (linear v) (linear x) ∧ StepRespects rotationLimits (angular v) (angular x) := by
  obtain ⟨t1, t2, t3⟩ := near_translation (A := A)
  obtain ⟨r1, r2, r3⟩ := near_rotation (A := A)
  obtain ⟨p, hp, hp'⟩ := rd_single t1 t2 t3 roomy_translation (a := linear a) (fun i => by fin_cases i <;> exact ha _) h1 (Arr.rd (linear u))
  obtain ⟨q, hq, hq'⟩ := rd_single r1 r2 r3 roomy_rotation (a := angular a) (fun i => by fin_cases i <;> exact ha _) h2 (Arr.rd (angular u))
  refine ⟨join p q, ?_, by rwa [linear_join], by rwa [angular_join]⟩
  unfold limit_rate_cartesian_velocity
  rw [rd_assertFinite, P_bind_ok_eq, head3_rd, head3_rd, head3_rd, tail3_rd, tail3_rd, tail3_rd, hp, hq]
  refine congrArg Except.ok ?_
  funext i
  fin_cases i <;> rfl

theorem rd_elbow_keeps {e : Option (Arr (Rd A) 2)} {state : RobotState (Rd A)} {m m' : MotionGeneratorCommand (Rd A)} {cutoff : Rd A} {b : Bool}
    (h : convert_elbow e state m cutoff b = .ok m') : m'.O_dP_EE_c = m.O_dP_EE_c := by
  cases e with
  | none => cases h; rfl
  | some x =>
    obtain ⟨y, hy⟩ : ∃ y : Arr (Rd A) 2, m' = { m with valid_elbow := true, elbow_c := y } := by
      unfold convert_elbow at h
      dsimp only at h
      split at h <;> split at h
      all_goals
        repeat (obtain ⟨_, -, h⟩ := P_bind_inv h)
        exact ⟨_, by injection h with h; exact h.symm⟩
    subst hy
    rfl

/-- **C101**, one cycle: with any filter and any elbow, for whatever the callback returns, a conversion that does not panic respects the limits. -/
theorem C101_step {out : CartesianVelocities (Rd A)} {state : RobotState (Rd A)} {m m' : MotionGeneratorCommand (Rd A)} {cutoff : Rd A} {v a : Fin 6 → ℝ}
    (hv : state.O_dP_EE_c = Arr.rd v) (ha : state.O_ddP_EE_c = Arr.rd a) (h : out.convert_motion state m cutoff true = .ok m') (h1 : len (linear v) ≤ 1.999)
    (h2 : len (angular v) ≤ 2.499) (hb : ∀ i, |a i| ≤ 10 ^ 6) :
    ∃ x, m'.O_dP_EE_c = Arr.rd x ∧ StepRespects translationLimits (linear v) (linear x) ∧ StepRespects rotationLimits (angular v) (angular x) := by
  have h : ((if Fl.flt cutoff MAX_CUTOFF_FREQUENCY then Arr.tabulateP fun i => low_pass_filter DELTA_T (out.O_dP_EE i) (state.O_dP_EE_c i) cutoff else pure out.O_dP_EE) >>= fun x =>
      limit_rate_cartesian_velocity MAX_TRANSLATIONAL_VELOCITY MAX_TRANSLATIONAL_ACCELERATION MAX_TRANSLATIONAL_JERK
        MAX_ROTATIONAL_VELOCITY MAX_ROTATIONAL_ACCELERATION MAX_ROTATIONAL_JERK x state.O_dP_EE_c state.O_ddP_EE_c >>= fun y =>
      assertFinite y >>= fun _ => convert_elbow out.elbow state { m with O_dP_EE_c := y } cutoff true) = .ok m' := by
    rw [← h]
    unfold CartesianVelocities.convert_motion
    split <;> rfl
  obtain ⟨x, -, h⟩ := P_bind_inv h
  obtain ⟨y, h3, h5⟩ := P_bind_inv h
  obtain ⟨_, -, h6⟩ := P_bind_inv h5
  have hx : ∃ u, x = Arr.rd u := by
    unfold limit_rate_cartesian_velocity at h3
    obtain ⟨_, h4, -⟩ := P_bind_inv h3
    exact rd_assertFinite_inv h4
  obtain ⟨u, rfl⟩ := hx
  obtain ⟨z, hz, e1, e2⟩ := C101_limiter (A := A) u h1 h2 hb
  refine ⟨z, ?_, e1, e2⟩
  rw [rd_elbow_keeps h6]
  rw [hv, ha, hz] at h3
  injection h3 with h3
  exact h3.symm

theorem rd_no_filter : flt (MAX_CUTOFF_FREQUENCY : Rd A) MAX_CUTOFF_FREQUENCY = false := by
  obtain ⟨c, hc, -⟩ : Near (MAX_CUTOFF_FREQUENCY : Rd A) ((1000 : ℚ) : ℝ) (13 / 10 ^ 17 * 1001) := near_lit (by norm_num) (by norm_num) (by norm_num)
  rw [hc, Rd.flt_fin, decide_eq_false (lt_irrefl c)]

theorem rd_converts {b : Bool} {u v a x : Fin 6 → ℝ} {state : RobotState (Rd A)} (m : MotionGeneratorCommand (Rd A)) (hv : state.O_dP_EE_c = Arr.rd v)
    (ha : state.O_ddP_EE_c = Arr.rd a)
    (h : limit_rate_cartesian_velocity MAX_TRANSLATIONAL_VELOCITY MAX_TRANSLATIONAL_ACCELERATION MAX_TRANSLATIONAL_JERK MAX_ROTATIONAL_VELOCITY MAX_ROTATIONAL_ACCELERATION
      MAX_ROTATIONAL_JERK (Arr.rd u) (Arr.rd v) (Arr.rd a) = (.ok (Arr.rd x) : P (Arr (Rd A) 6))) :
    CartesianVelocities.convert_motion ⟨b, Arr.rd u, none⟩ state m MAX_CUTOFF_FREQUENCY true =
      .ok { m with O_dP_EE_c := Arr.rd x, valid_elbow := false, elbow_c := fun _ => lit 0 } := by
  unfold CartesianVelocities.convert_motion
  rw [rd_no_filter, hv, ha]
  show (limit_rate_cartesian_velocity MAX_TRANSLATIONAL_VELOCITY MAX_TRANSLATIONAL_ACCELERATION MAX_TRANSLATIONAL_JERK MAX_ROTATIONAL_VELOCITY MAX_ROTATIONAL_ACCELERATION
      MAX_ROTATIONAL_JERK (Arr.rd u) (Arr.rd v) (Arr.rd a) >>= fun y => assertFinite y >>= fun _ =>
    (pure { m with O_dP_EE_c := y, valid_elbow := false, elbow_c := fun _ => lit 0 } : P (MotionGeneratorCommand (Rd A)))) = _
  rw [h, P_bind_ok_eq, rd_assertFinite]
  rfl

/-- **C101**, no panic: without a filter and an elbow every finite command is accepted, and what is sent respects the limits. -/
theorem C101_accepts (b : Bool) (u : Fin 6 → ℝ) {state : RobotState (Rd A)} (m : MotionGeneratorCommand (Rd A)) {v a : Fin 6 → ℝ} (hv : state.O_dP_EE_c = Arr.rd v)
    (ha : state.O_ddP_EE_c = Arr.rd a) (h1 : len (linear v) ≤ 1.999) (h2 : len (angular v) ≤ 2.499) (hb : ∀ i, |a i| ≤ 10 ^ 6) :
    ∃ x, CartesianVelocities.convert_motion ⟨b, Arr.rd u, none⟩ state m MAX_CUTOFF_FREQUENCY true =
        .ok { m with O_dP_EE_c := Arr.rd x, valid_elbow := false, elbow_c := fun _ => lit 0 } ∧
      StepRespects translationLimits (linear v) (linear x) ∧ StepRespects rotationLimits (angular v) (angular x) := by
  obtain ⟨x, hx, e1, e2⟩ := C101_limiter (A := A) u h1 h2 hb
  exact ⟨x, rd_converts m hv ha hx, e1, e2⟩

section
variable [Wire (Rd A)] [Geo (Rd A)] {w : World (Rd A)} (hw : RobotReachable w) {c : RobotCall (Rd A)} {σ : Type} {c0 : σ}
include hw

/-- **C101**, whole calls: in every cycle of a control call with Cartesian velocities and rate limiting in which the reported velocity is at most 1.999 m/s and 2.499 rad/s, the
command for this state has finite velocities, and the step to them respects the documented limits. -/
theorem C101_commands {call : ControlCall (Rd A) σ .CartesianVelocities} (hc : IsControl c call c0) (hl : call.limit_rate = true) {n : ℕ} {st : RobotState (Rd A)}
    {x : RobotCommand (Rd A)} (hx : Exchange w c n st x) {v a : Fin 6 → ℝ} (hv : st.O_dP_EE_c = Arr.rd v) (ha : st.O_ddP_EE_c = Arr.rd a) (h1 : len (linear v) ≤ 1.999)
    (h2 : len (angular v) ≤ 2.499) (hb : ∀ i, |a i| ≤ 10 ^ 6) :
    ∃ y, x.motion.O_dP_EE_c = Arr.rd y ∧ StepRespects translationLimits (linear v) (linear y) ∧ StepRespects rotationLimits (angular v) (angular y) := by
  obtain ⟨out, m0, m', g3, g4⟩ := call_exchange hw hc hx
  rw [hl] at g3
  have g5 : x.motion.O_dP_EE_c = m'.O_dP_EE_c := by rcases g4 with g | g <;> rw [show x.motion = _ from g]
  rw [g5]
  exact C101_step hv ha g3 h1 h2 hb

end

/-! ## Such calls happen -/

namespace Dash
variable (A : Rounding)

/-- A callback that asks for 10 m/s and 10 rad/s in all directions at once. -/
def wish : Fin 6 → ℝ := fun _ => 10

theorem calm : len (linear 0) ≤ 1.999 ∧ len (angular 0) ≤ 2.499 := by
  constructor <;> simp [len, linear, angular] <;> norm_num

theorem first_exists : ∃ x, limit_rate_cartesian_velocity MAX_TRANSLATIONAL_VELOCITY MAX_TRANSLATIONAL_ACCELERATION MAX_TRANSLATIONAL_JERK MAX_ROTATIONAL_VELOCITY
      MAX_ROTATIONAL_ACCELERATION MAX_ROTATIONAL_JERK (Arr.rd wish) (Arr.rd 0) (Arr.rd 0) = (.ok (Arr.rd x) : P (Arr (Rd A) 6)) ∧
    StepRespects translationLimits (linear 0) (linear x) ∧ StepRespects rotationLimits (angular 0) (angular x) :=
  C101_limiter wish calm.1 calm.2 (by simp)

/-- The first velocity that is sent. -/
noncomputable def x1 : Fin 6 → ℝ := (first_exists A).choose

theorem slow {L : Limits} {x : Fin 3 → ℝ} (h : len (fun i => (x i - 0) / 0.001) ≤ L.acceleration) : len x ≤ L.acceleration / 1000 := by
  have e : (fun i => (x i - 0) / 0.001) = fun i => 1000 * x i := by
    funext i
    norm_num
    ring
  rw [e, len_smul, abs_of_pos (by norm_num)] at h
  linarith

theorem x1_slow : len (linear (x1 A)) ≤ 0.013 ∧ len (angular (x1 A)) ≤ 0.025 := by
  obtain ⟨-, h1, h2⟩ := (first_exists A).choose_spec
  have e1 : ∀ i, linear 0 i = 0 := fun i => by fin_cases i <;> rfl
  have e2 : ∀ i, angular 0 i = 0 := fun i => by fin_cases i <;> rfl
  have h3 := h1.acceleration
  have h4 := h2.acceleration
  simp only [e1] at h3
  simp only [e2] at h4
  have h3 := slow h3
  have h4 := slow h4
  exact ⟨h3.trans (by norm_num [translationLimits]), h4.trans (by norm_num [rotationLimits])⟩

theorem second_exists : ∃ x, limit_rate_cartesian_velocity MAX_TRANSLATIONAL_VELOCITY MAX_TRANSLATIONAL_ACCELERATION MAX_TRANSLATIONAL_JERK MAX_ROTATIONAL_VELOCITY
      MAX_ROTATIONAL_ACCELERATION MAX_ROTATIONAL_JERK (Arr.rd wish) (Arr.rd (x1 A)) (Arr.rd 0) = (.ok (Arr.rd x) : P (Arr (Rd A) 6)) ∧
    StepRespects translationLimits (linear (x1 A)) (linear x) ∧ StepRespects rotationLimits (angular (x1 A)) (angular x) :=
  C101_limiter wish ((x1_slow A).1.trans (by norm_num)) ((x1_slow A).2.trans (by norm_num)) (by simp)

/-- The second velocity that is sent. -/
noncomputable def x2 : Fin 6 → ℝ := (second_exists A).choose

/-- The doubles of the first bit patterns: zero, and the components of the first velocity. -/
noncomputable def table : List (Rd A) := [.fin 0, .fin (x1 A 0), .fin (x1 A 1), .fin (x1 A 2), .fin (x1 A 3), .fin (x1 A 4), .fin (x1 A 5)]

/-- All other bit patterns are zero. -/
@[instance_reducible] noncomputable def wire : Wire (Rd A) where
  toBits _ := 0
  ofBits b := (table A)[b.toNat]?.getD (.fin 0)

/-- Rotations play no role. -/
@[instance_reducible] noncomputable def geo : Geo (Rd A) := matrixGeo

attribute [local instance] wire geo

/-- A state datagram with this number, these last commanded velocities and accelerations, and these modes. -/
def datagram (id : UInt8) (v a : List UInt8) (motion controller mode : UInt8) : Bytes :=
  [id, 0, 0, 0, 0, 0, 0, 0] ++ List.replicate 2064 0 ++ v.flatMap (fun b => [b, 0, 0, 0, 0, 0, 0, 0]) ++ a.flatMap (fun b => [b, 0, 0, 0, 0, 0, 0, 0]) ++
    List.replicate 112 0 ++ [motion, controller] ++ List.replicate 82 0 ++ [mode] ++ List.replicate 8 0

/-- Nothing moves. -/
def rest : List UInt8 := List.replicate 6 0

/-- The state in a datagram. -/
noncomputable def stateOf (bs : Bytes) (h : ((RobotStateIntern.codec (Rd A)).dec bs).isSome = true) : RobotStateIntern (Rd A) := (Option.get _ h).1

/-- The states of the motion. -/
@[irreducible] noncomputable def s2 : RobotStateIntern (Rd A) := stateOf A (datagram 2 rest rest 4 0 2) (by kernel_rfl)
@[irreducible] noncomputable def s3 : RobotStateIntern (Rd A) := stateOf A (datagram 3 rest rest 4 0 2) (by kernel_rfl)
@[irreducible] noncomputable def s4 : RobotStateIntern (Rd A) := stateOf A (datagram 4 [1, 2, 3, 4, 5, 6] rest 4 0 2) (by kernel_rfl)
@[irreducible] noncomputable def s5 : RobotStateIntern (Rd A) := stateOf A (datagram 5 rest rest 0 3 1) (by kernel_rfl)

theorem h2 : HoldsState (s2 A) (datagram 2 rest rest 4 0 2) := ⟨by kernel_rfl, by kernel_rfl⟩
theorem h3 : HoldsState (s3 A) (datagram 3 rest rest 4 0 2) := ⟨by kernel_rfl, by kernel_rfl⟩
theorem h4 : HoldsState (s4 A) (datagram 4 [1, 2, 3, 4, 5, 6] rest 4 0 2) := ⟨by kernel_rfl, by kernel_rfl⟩
theorem h5 : HoldsState (s5 A) (datagram 5 rest rest 0 3 1) := ⟨by kernel_rfl, by kernel_rfl⟩

theorem m2 : ((s2 A).message_id, (s2 A).motion_generator_mode, (s2 A).controller_mode) = (2, .CartesianVelocity, .JointImpedance) := by kernel_rfl
theorem m3 : ((s3 A).message_id, (s3 A).motion_generator_mode, (s3 A).controller_mode, (s3 A).robot_mode) = (3, .CartesianVelocity, .JointImpedance, .Move) := by kernel_rfl
theorem m4 : ((s4 A).message_id, (s4 A).motion_generator_mode, (s4 A).controller_mode, (s4 A).robot_mode) = (4, .CartesianVelocity, .JointImpedance, .Move) := by kernel_rfl
theorem m5 : ((s5 A).message_id, (s5 A).motion_generator_mode, (s5 A).controller_mode) = (5, .Idle, .Other) := by kernel_rfl

theorem v3 : (List.finRange 6).map (s3 A).O_dP_EE_c = (List.finRange 6).map fun _ => .fin 0 := by kernel_rfl
theorem v4 : (List.finRange 6).map (s4 A).O_dP_EE_c = (List.finRange 6).map fun i => .fin (x1 A i) := by kernel_rfl
theorem a3 : (List.finRange 6).map (s3 A).O_ddP_EE_c = (List.finRange 6).map fun _ => .fin 0 := by kernel_rfl
theorem a4 : (List.finRange 6).map (s4 A).O_ddP_EE_c = (List.finRange 6).map fun _ => .fin 0 := by kernel_rfl

theorem all_of {f g : Arr (Rd A) 6} (h : (List.finRange 6).map f = (List.finRange 6).map g) : f = g :=
  funext fun i => List.map_inj_left.1 h i (List.mem_finRange i)

theorem d3 : (RobotState.ofIntern (s3 A)).O_dP_EE_c = Arr.rd 0 := all_of A (v3 A)
theorem d4 : (RobotState.ofIntern (s4 A)).O_dP_EE_c = Arr.rd (x1 A) := all_of A (v4 A)
theorem b3 : (RobotState.ofIntern (s3 A)).O_ddP_EE_c = Arr.rd 0 := all_of A (a3 A)
theorem b4 : (RobotState.ofIntern (s4 A)).O_ddP_EE_c = Arr.rd 0 := all_of A (a4 A)

/-- What the callback returns: always the same velocity, and the second call ends the motion. -/
noncomputable def out (n : ℕ) : Motion (Rd A) .CartesianVelocities := (⟨decide (1 ≤ n), Arr.rd wish, none⟩ : CartesianVelocities (Rd A))

/-- The callback counts its calls. -/
noncomputable def cb : ℕ → RobotState (Rd A) → ℕ → ℕ × Motion (Rd A) .CartesianVelocities := fun n _ _ => (n + 1, out A n)

/-- `control_cartesian_velocities` with rate limiting and without a filter. -/
noncomputable def call : RobotCall (Rd A) := .control_motion ℕ .CartesianVelocities (cb A) none (some true) (some MAX_CUTOFF_FREQUENCY) 0

/-- What this call asks for. -/
noncomputable def asked : ControlCall (Rd A) ℕ .CartesianVelocities :=
  { motion := cb A, torque := none, controller := .JointImpedance, limit_rate := true, cutoff := MAX_CUTOFF_FREQUENCY }

theorem control : IsControl (call A) (asked A) 0 := .motion ℕ .CartesianVelocities (cb A) none (some true) (some MAX_CUTOFF_FREQUENCY) 0

/-- The Move request. -/
noncomputable def request : RobotReq (Rd A) := ⟨⟨.Move, 1, 0⟩, moveBody .CartesianVelocities .JointImpedance⟩

/-- A command. -/
noncomputable def cmd (x : Fin 6 → ℝ) : MotionGeneratorCommand (Rd A) := { noMotion with O_dP_EE_c := Arr.rd x }

theorem c3 : (out A 0).convert_motion (RobotState.ofIntern (s3 A)) noMotion MAX_CUTOFF_FREQUENCY true = .ok (cmd A (x1 A)) :=
  rd_converts noMotion (d3 A) (b3 A) (first_exists A).choose_spec.1

theorem c4 : (out A 1).convert_motion (RobotState.ofIntern (s4 A)) (cmd A (x1 A)) MAX_CUTOFF_FREQUENCY true = .ok (cmd A (x2 A)) :=
  rd_converts (cmd A (x1 A)) (d4 A) (b4 A) (second_exists A).choose_spec.1

theorem time_of {s : RobotStateIntern (Rd A)} {n : ℕ} (h : s.message_id.toNat = n) : (RobotState.ofIntern s).time = n := h

/-- The events after the start of the motion. -/
noncomputable def events : List (Ev (Rd A)) :=
  [.motionCb .CartesianVelocities (RobotState.ofIntern (s3 A)) 0 (out A 0), .udpSend 0 ⟨(s3 A).message_id, cmd A (x1 A), noTorques⟩, .accepted (s4 A),
    .motionCb .CartesianVelocities (RobotState.ofIntern (s4 A)) 1 (out A 1),
    .udpSend 0 ⟨(s4 A).message_id, { cmd A (x2 A) with motion_generation_finished := true }, noTorques⟩, .accepted (s5 A)]

theorem run : Run (asked A) 0 (.before (Realize.s1 (Rd A))) (.robotReq (request A) :: ([s2 A].map .accepted ++ .accepted (s3 A) :: events A))
    (.finishing (s5 A) (cmd A (x2 A)) noTorques) := by
  have e2 := m2 A
  have e3 := m3 A
  have e4 := m4 A
  have e5 := m5 A
  simp only [Prod.mk.injEq] at e2 e3 e4 e5
  obtain ⟨i2, g2, c2⟩ := e2
  obtain ⟨i3, g3, c3', r3⟩ := e3
  obtain ⟨i4, g4, c4', r4⟩ := e4
  obtain ⟨i5, g5, c5⟩ := e5
  have t3 : (RobotState.ofIntern (s3 A)).time = 3 := time_of A (by rw [i3]; rfl)
  have t4 : (RobotState.ofIntern (s4 A)).time = 4 := time_of A (by rw [i4]; rfl)
  have p1 := Run.snoc (.nil (.before (Realize.s1 (Rd A)))) (Step.move (call := asked A) (c0 := 0) _ ⟨.Move, 1, 0⟩ Realize.s1_idle rfl)
  have p2 := p1.snoc (.wait _ (s2 A) (fun h => Realize.s1_idle (.inl (by rw [h.1]; nofun))) (by rw [Realize.s1_id, i2]; decide))
  have p3 := p2.snoc (.first _ (s3 A) (by rw [i2, i3]; decide) ⟨r3, g3, c3'⟩)
  have p4 := p3.snoc (.motion _ _ _ _ _ 0 1 (out A 0) (cmd A (x1 A)) rfl le_rfl (Nat.sub_self _).symm rfl (c3 A) rfl)
  have p5 := p4.snoc (.send _ _ _ _ 0)
  have p6 := p5.snoc (.next _ _ _ _ (s4 A) (by rw [i3, i4]; decide) ⟨r4, g4, c4'⟩)
  have p7 := p6.snoc (.motionEnd _ _ _ _ _ 1 2 (out A 1) (cmd A (x2 A)) (by rw [t3, t4]; decide) (by rw [t3, t4]) rfl
    (c4 A) rfl)
  have p8 := p7.snoc (.finish _ _ _ 0 (.inl (by rw [g4]; nofun)))
  have p9 := p8.snoc (.finishNext _ _ _ (s5 A) (by rw [i4, i5]; decide))
  exact p9

theorem still : ¬ Running (s5 A) := by
  have e5 := m5 A
  simp only [Prod.mk.injEq] at e5
  rintro (h | h)
  · exact h e5.2.1
  · rw [e5.2.2] at h; cases h

theorem happens : ∃ w, RobotReachable w ∧ ((call A).run w).1 = .ok () ∧
    List.Forall₂ Alike (.robotReq (request A) :: ([s2 A].map .accepted ++ .accepted (s3 A) :: events A)) (newEvents w ((call A).run w).2) := by
  refine C65_every_such_motion_happens (control A) (run A) (still A) ?_ ⟨s2 A, rfl, ?_⟩ ?_
  · intro r
    simp [events]
  · have e2 := m2 A
    simp only [Prod.mk.injEq] at e2
    exact ⟨e2.2.1, e2.2.2⟩
  · intro s hs
    simp [events] at hs
    rcases hs with rfl | rfl | rfl | rfl
    · exact ⟨_, h2 A⟩
    · exact ⟨_, h3 A⟩
    · exact ⟨_, h4 A⟩
    · exact ⟨_, h5 A⟩

theorem exchanges_eq : exchanges (.robotReq (request A) :: ([s2 A].map .accepted ++ .accepted (s3 A) :: events A)) =
    [(RobotState.ofIntern (s3 A), ⟨(s3 A).message_id, cmd A (x1 A), noTorques⟩),
      (RobotState.ofIntern (s4 A), ⟨(s4 A).message_id, { cmd A (x2 A) with motion_generation_finished := true }, noTorques⟩)] := rfl

end Dash

attribute [local instance] Dash.wire Dash.geo in
open Dash in
/-- With every rounding there is a world in which the call of a callback that asks for much too much returns Ok, and the hypotheses of `C101_commands` are met in both cycles. -/
example (A : Rounding) : ∃ w, RobotReachable w ∧ IsControl (call A) (asked A) 0 ∧ (asked A).limit_rate = true ∧ ((call A).run w).1 = .ok () ∧ answered w (call A) = 2 ∧
    ∀ n st x, Exchange w (call A) n st x → ∃ v a, st.O_dP_EE_c = Arr.rd v ∧ st.O_ddP_EE_c = Arr.rd a ∧ len (linear v) ≤ 1.999 ∧ len (angular v) ≤ 2.499 ∧ ∀ i, |a i| ≤ 10 ^ 6 := by
  obtain ⟨w, h1, h2, h3⟩ := happens A
  have e : exchanges (newEvents w ((call A).run w).2) = _ := (exchanges_alike h3).symm.trans (exchanges_eq A)
  refine ⟨w, h1, control A, rfl, h2, by unfold answered; rw [e]; rfl, ?_⟩
  intro n st x hx
  unfold Exchange at hx
  rw [e] at hx
  match n, hx with
  | 0, hx => cases hx; exact ⟨0, 0, d3 A, b3 A, calm.1, calm.2, by simp⟩
  | 1, hx => cases hx; exact ⟨x1 A, 0, d4 A, b4 A, (x1_slow A).1.trans (by norm_num), (x1_slow A).2.trans (by norm_num), by simp⟩

/-- The bounds of the theorems hold for a fast motion in several directions, and the command may be anything finite. -/
example : len (linear ![1.1, 1.6, 0.4, 1, 2, 1]) ≤ 1.999 ∧ len (angular ![1.1, 1.6, 0.4, 1, 2, 1]) ≤ 2.499 ∧ ∀ i : Fin 6, |(fun _ => (500 : ℝ)) i| ≤ 10 ^ 6 := by
  refine ⟨?_, ?_, fun _ => by norm_num [abs_le]⟩ <;> refine Real.sqrt_le_iff.2 ⟨by norm_num, ?_⟩ <;> simp [linear, angular] <;> norm_num

end Verif
