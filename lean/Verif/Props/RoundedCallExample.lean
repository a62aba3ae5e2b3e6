import Verif.Props.RoundedCall
import Verif.Props.Complete
/-!
# A joint velocity motion with rounding

For C78: with every rounding, the hypotheses of `C78_joint_velocities` are met by a motion whose callback asks for 100 rad/s at once. It is also a case of
`C65_every_such_motion_happens`.
-/
set_option linter.unusedSectionVars false
namespace Verif
open Prog Spec

namespace Rush
variable (A : Rounding)

/-- The velocities that the limiter makes of 100 rad/s in every millisecond. -/
noncomputable def vel : Fin 7 → ℕ → ℝ := (C62_runs_exist (A := A) fun _ _ => 100).choose

theorem vel_rest (i : Fin 7) : vel A i 0 = 0 := (C62_runs_exist (A := A) fun _ _ => 100).choose_spec.1 i

theorem vel_step (n : ℕ) : limit_rate_joint_velocities MAX_JOINT_VELOCITY MAX_JOINT_ACCELERATION MAX_JOINT_JERK (Arr.rd fun _ => 100) (Arr.rd fun i => vel A i n)
    (Arr.rd fun i => rate (vel A i) n) = (.ok (Arr.rd fun i => vel A i (n + 1)) : P (Arr (Rd A) 7)) := (C62_runs_exist (A := A) fun _ _ => 100).choose_spec.2.1 n

/-- The doubles of the first 15 bit patterns: zero, the velocities after a millisecond, and their rates of change. -/
noncomputable def table : List (Rd A) :=
  [.fin 0, .fin (vel A 0 1), .fin (vel A 1 1), .fin (vel A 2 1), .fin (vel A 3 1), .fin (vel A 4 1), .fin (vel A 5 1), .fin (vel A 6 1),
    .fin (rate (vel A 0) 1), .fin (rate (vel A 1) 1), .fin (rate (vel A 2) 1), .fin (rate (vel A 3) 1), .fin (rate (vel A 4) 1), .fin (rate (vel A 5) 1),
    .fin (rate (vel A 6) 1)]

/-- All other bit patterns are zero. -/
@[instance_reducible] noncomputable def wire : Wire (Rd A) where
  toBits _ := 0
  ofBits b := (table A)[b.toNat]?.getD (.fin 0)

/-- Rotations play no role. -/
@[instance_reducible] noncomputable def geo : Geo (Rd A) := matrixGeo

attribute [local instance] wire geo

/-- A state datagram with this number, these desired velocities and accelerations, and these modes. -/
def datagram (id : UInt8) (v a : List UInt8) (motion controller mode : UInt8) : Bytes :=
  [id, 0, 0, 0, 0, 0, 0, 0] ++ List.replicate 1344 0 ++ v.flatMap (fun b => [b, 0, 0, 0, 0, 0, 0, 0]) ++ a.flatMap (fun b => [b, 0, 0, 0, 0, 0, 0, 0]) ++
    List.replicate 816 0 ++ [motion, controller] ++ List.replicate 82 0 ++ [mode] ++ List.replicate 8 0

/-- Nothing moves. -/
def rest : List UInt8 := List.replicate 7 0

/-- The state in a datagram. -/
noncomputable def stateOf (bs : Bytes) (h : ((RobotStateIntern.codec (Rd A)).dec bs).isSome = true) : RobotStateIntern (Rd A) := (Option.get _ h).1

/-- The states of the motion. -/
@[irreducible] noncomputable def s2 : RobotStateIntern (Rd A) := stateOf A (datagram 2 rest rest 2 0 2) (by kernel_rfl)
@[irreducible] noncomputable def s3 : RobotStateIntern (Rd A) := stateOf A (datagram 3 rest rest 2 0 2) (by kernel_rfl)
@[irreducible] noncomputable def s4 : RobotStateIntern (Rd A) := stateOf A (datagram 4 [1, 2, 3, 4, 5, 6, 7] [8, 9, 10, 11, 12, 13, 14] 2 0 2) (by kernel_rfl)
@[irreducible] noncomputable def s5 : RobotStateIntern (Rd A) := stateOf A (datagram 5 rest rest 0 3 1) (by kernel_rfl)

theorem h2 : HoldsState (s2 A) (datagram 2 rest rest 2 0 2) := ⟨by kernel_rfl, by kernel_rfl⟩
theorem h3 : HoldsState (s3 A) (datagram 3 rest rest 2 0 2) := ⟨by kernel_rfl, by kernel_rfl⟩
theorem h4 : HoldsState (s4 A) (datagram 4 [1, 2, 3, 4, 5, 6, 7] [8, 9, 10, 11, 12, 13, 14] 2 0 2) := ⟨by kernel_rfl, by kernel_rfl⟩
theorem h5 : HoldsState (s5 A) (datagram 5 rest rest 0 3 1) := ⟨by kernel_rfl, by kernel_rfl⟩

theorem m2 : ((s2 A).message_id, (s2 A).motion_generator_mode, (s2 A).controller_mode) = (2, .JointVelocity, .JointImpedance) := by kernel_rfl
theorem m3 : ((s3 A).message_id, (s3 A).motion_generator_mode, (s3 A).controller_mode, (s3 A).robot_mode) = (3, .JointVelocity, .JointImpedance, .Move) := by kernel_rfl
theorem m4 : ((s4 A).message_id, (s4 A).motion_generator_mode, (s4 A).controller_mode, (s4 A).robot_mode) = (4, .JointVelocity, .JointImpedance, .Move) := by kernel_rfl
theorem m5 : ((s5 A).message_id, (s5 A).motion_generator_mode, (s5 A).controller_mode) = (5, .Idle, .Other) := by kernel_rfl

theorem v3 : ((List.finRange 7).map (s3 A).dq_d, (List.finRange 7).map (s3 A).ddq_d) =
    ((List.finRange 7).map fun _ => .fin 0, (List.finRange 7).map fun _ => .fin 0) := by kernel_rfl
theorem v4 : ((List.finRange 7).map (s4 A).dq_d, (List.finRange 7).map (s4 A).ddq_d) =
    ((List.finRange 7).map fun i => .fin (vel A i 1), (List.finRange 7).map fun i => .fin (rate (vel A i) 1)) := by kernel_rfl

theorem all_of {f g : Arr (Rd A) 7} (h : (List.finRange 7).map f = (List.finRange 7).map g) : f = g :=
  funext fun i => List.map_inj_left.1 h i (List.mem_finRange i)

theorem d3 : (RobotState.ofIntern (s3 A)).dq_d = Arr.rd (fun i => vel A i 0) ∧ (RobotState.ofIntern (s3 A)).ddq_d = Arr.rd fun i => rate (vel A i) 0 := by
  obtain ⟨h, h'⟩ := Prod.mk.inj (v3 A)
  refine ⟨(all_of A h).trans ?_, all_of A h'⟩
  funext i
  show _ = Rd.fin (vel A i 0)
  rw [vel_rest]

theorem d4 : (RobotState.ofIntern (s4 A)).dq_d = Arr.rd (fun i => vel A i 1) ∧ (RobotState.ofIntern (s4 A)).ddq_d = Arr.rd fun i => rate (vel A i) 1 := by
  obtain ⟨h, h'⟩ := Prod.mk.inj (v4 A)
  exact ⟨all_of A h, all_of A h'⟩

/-- What the callback returns: 100 rad/s for all joints, and the second call ends the motion. -/
noncomputable def out (n : ℕ) : Motion (Rd A) .JointVelocities := (⟨decide (1 ≤ n), Arr.rd fun _ => 100⟩ : JointVelocities (Rd A))

/-- The callback counts its calls. -/
noncomputable def cb : ℕ → RobotState (Rd A) → ℕ → ℕ × Motion (Rd A) .JointVelocities := fun n _ _ => (n + 1, out A n)

/-- `control_joint_velocities` with rate limiting and without filtering. -/
noncomputable def call : RobotCall (Rd A) := .control_motion ℕ .JointVelocities (cb A) none (some true) (some MAX_CUTOFF_FREQUENCY) 0

/-- What this call asks for. -/
noncomputable def asked : ControlCall (Rd A) ℕ .JointVelocities :=
  { motion := cb A, torque := none, controller := .JointImpedance, limit_rate := true, cutoff := MAX_CUTOFF_FREQUENCY }

theorem control : IsControl (call A) (asked A) 0 := .motion ℕ .JointVelocities (cb A) none (some true) (some MAX_CUTOFF_FREQUENCY) 0

/-- The Move request. -/
noncomputable def request : RobotReq (Rd A) := ⟨⟨.Move, 1, 0⟩, moveBody .JointVelocities .JointImpedance⟩

/-- The command in the `n`-th cycle. -/
noncomputable def cmd (n : ℕ) : MotionGeneratorCommand (Rd A) := { noMotion with dq_c := Arr.rd fun i => vel A i (n + 1) }

theorem no_filter : Fl.flt (MAX_CUTOFF_FREQUENCY : Rd A) MAX_CUTOFF_FREQUENCY = false := by
  refine @decide_eq_false _ (Classical.propDecidable _) ?_
  show ¬ XR.lt (Rd.round A (.fin ((1000 : ℚ) : ℝ))) (Rd.round A (.fin ((1000 : ℚ) : ℝ)))
  generalize Rd.round A (.fin ((1000 : ℚ) : ℝ)) = x
  cases x with
  | fin x => exact lt_irrefl x
  | nan => exact id
  | inf a => cases a <;> simp [XR.lt]

theorem converts {n : ℕ} {st : RobotState (Rd A)} {m : MotionGeneratorCommand (Rd A)} (h1 : st.dq_d = Arr.rd fun i => vel A i n)
    (h2 : st.ddq_d = Arr.rd fun i => rate (vel A i) n) (j : ℕ) :
    (out A j).convert_motion st m MAX_CUTOFF_FREQUENCY true = .ok { m with dq_c := Arr.rd fun i => vel A i (n + 1) } := by
  show JointVelocities.convert_motion (⟨_, Arr.rd fun _ => 100⟩ : JointVelocities (Rd A)) st m MAX_CUTOFF_FREQUENCY true = _
  unfold JointVelocities.convert_motion
  rw [no_filter, h1, h2]
  simp only [Bool.false_eq_true, ↓reduceIte]
  show (limit_rate_joint_velocities MAX_JOINT_VELOCITY MAX_JOINT_ACCELERATION MAX_JOINT_JERK (Arr.rd fun _ => 100) (Arr.rd fun i => vel A i n)
    (Arr.rd fun i => rate (vel A i) n) >>= fun y => assertFinite y >>= fun _ => (pure { m with dq_c := y } : P (MotionGeneratorCommand (Rd A)))) = _
  rw [vel_step, P_bind_ok_eq, rd_assertFinite]
  rfl

theorem time_of {s : RobotStateIntern (Rd A)} {n : ℕ} (h : s.message_id.toNat = n) : (RobotState.ofIntern s).time = n := h

/-- The events after the start of the motion. -/
noncomputable def events : List (Ev (Rd A)) :=
  [.motionCb .JointVelocities (RobotState.ofIntern (s3 A)) 0 (out A 0), .udpSend 0 ⟨(s3 A).message_id, cmd A 0, noTorques⟩, .accepted (s4 A),
    .motionCb .JointVelocities (RobotState.ofIntern (s4 A)) 1 (out A 1),
    .udpSend 0 ⟨(s4 A).message_id, { cmd A 1 with motion_generation_finished := true }, noTorques⟩, .accepted (s5 A)]

theorem run : Run (asked A) 0 (.before (Realize.s1 (Rd A))) (.robotReq (request A) :: ([s2 A].map .accepted ++ .accepted (s3 A) :: events A))
    (.finishing (s5 A) (cmd A 1) noTorques) := by
  have e2 := m2 A
  have e3 := m3 A
  have e4 := m4 A
  have e5 := m5 A
  simp only [Prod.mk.injEq] at e2 e3 e4 e5
  obtain ⟨i2, g2, c2⟩ := e2
  obtain ⟨i3, g3, c3, r3⟩ := e3
  obtain ⟨i4, g4, c4, r4⟩ := e4
  obtain ⟨i5, g5, c5⟩ := e5
  have t3 : (RobotState.ofIntern (s3 A)).time = 3 := time_of A (by rw [i3]; rfl)
  have t4 : (RobotState.ofIntern (s4 A)).time = 4 := time_of A (by rw [i4]; rfl)
  have p1 := Run.snoc (.nil (.before (Realize.s1 (Rd A)))) (Step.move (call := asked A) (c0 := 0) _ ⟨.Move, 1, 0⟩ Realize.s1_idle rfl)
  have p2 := p1.snoc (.wait _ (s2 A) (fun h => Realize.s1_idle (.inl (by rw [h.1]; nofun))) (by rw [Realize.s1_id, i2]; decide))
  have p3 := p2.snoc (.first _ (s3 A) (by rw [i2, i3]; decide) ⟨r3, g3, c3⟩)
  have p4 := p3.snoc (.motion _ _ _ _ _ 0 1 (out A 0) (cmd A 0) rfl le_rfl (Nat.sub_self _).symm rfl (converts A (d3 A).1 (d3 A).2 0) rfl)
  have p5 := p4.snoc (.send _ _ _ _ 0)
  have p6 := p5.snoc (.next _ _ _ _ (s4 A) (by rw [i3, i4]; decide) ⟨r4, g4, c4⟩)
  have p7 := p6.snoc (.motionEnd _ _ _ _ _ 1 2 (out A 1) (cmd A 1) (by rw [t3, t4]; decide) (by rw [t3, t4]) rfl
    (converts A (d4 A).1 (d4 A).2 1) rfl)
  have p8 := p7.snoc (.finish _ _ _ 0 (.inl (by rw [g4]; nofun)))
  have p9 := p8.snoc (.finishNext _ _ _ (s5 A) (by rw [i4, i5]; decide))
  exact p9

theorem still : ¬ Running (s5 A) := by
  have e5 := m5 A
  simp only [Prod.mk.injEq] at e5
  rintro (h | h)
  · exact h e5.2.1
  · rw [e5.2.2] at h; cases h

theorem happens : ∃ w, RobotReachable w ∧ ((call A).run w).1 = .ok () ∧
    List.Forall₂ Alike (.robotReq (request A) :: ([s2 A].map .accepted ++ .accepted (s3 A) :: events A)) (newEvents w ((call A).run w).2) := by
  refine C65_every_such_motion_happens (control A) (run A) (still A) ?_ ⟨s2 A, rfl, ?_⟩ ?_
  · intro r
    simp [events]
  · have e2 := m2 A
    simp only [Prod.mk.injEq] at e2
    exact ⟨e2.2.1, e2.2.2⟩
  · intro s hs
    simp [events] at hs
    rcases hs with rfl | rfl | rfl | rfl
    · exact ⟨_, h2 A⟩
    · exact ⟨_, h3 A⟩
    · exact ⟨_, h4 A⟩
    · exact ⟨_, h5 A⟩

theorem exchanges_eq : exchanges (.robotReq (request A) :: ([s2 A].map .accepted ++ .accepted (s3 A) :: events A)) =
    [(RobotState.ofIntern (s3 A), ⟨(s3 A).message_id, cmd A 0, noTorques⟩),
      (RobotState.ofIntern (s4 A), ⟨(s4 A).message_id, { cmd A 1 with motion_generation_finished := true }, noTorques⟩)] := rfl

end Rush

attribute [local instance] Rush.wire Rush.geo in
open Rush in
/-- C78, and C65 with rounding: there is a world in which the call returns Ok, two states are answered, and the hypotheses of `C78_joint_velocities` are met. -/
example (A : Rounding) : ∃ w, RobotReachable w ∧ IsControl (call A) (asked A) 0 ∧ (asked A).limit_rate = true ∧ ((call A).run w).1 = .ok () ∧ answered w (call A) = 2 ∧
    (∀ i, vel A i 0 = 0) ∧
    (∀ n st x, Exchange w (call A) n st x → st.dq_d = Arr.rd (fun i => vel A i n) ∧ st.ddq_d = Arr.rd fun i => rate (vel A i) n) ∧
    (∀ i n, n < answered w (call A) → |rate (vel A i) n - rate (vel A i) n| ≤ 1 / 10 ^ 7) ∧
    (∀ n st x, Exchange w (call A) n st x → x.motion.dq_c = Arr.rd fun i => vel A i (n + 1)) := by
  obtain ⟨w, h1, h2, h3⟩ := happens A
  have e : exchanges (newEvents w ((call A).run w).2) = _ := (exchanges_alike h3).symm.trans (exchanges_eq A)
  refine ⟨w, h1, control A, rfl, h2, by unfold answered; rw [e]; rfl, vel_rest A, ?_, fun i n _ => by simp, ?_⟩
  · intro n st x hx
    unfold Exchange at hx
    rw [e] at hx
    match n, hx with
    | 0, hx => cases hx; exact d3 A
    | 1, hx => cases hx; exact d4 A
  · intro n st x hx
    unfold Exchange at hx
    rw [e] at hx
    match n, hx with
    | 0, hx => cases hx; rfl
    | 1, hx => cases hx; rfl

end Verif
