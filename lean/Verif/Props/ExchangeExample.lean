import Verif.Props.Exchange
import Verif.Props.Complete
/-!
# A joint velocity motion over real numbers

For C69: the hypotheses of `C69_joint_velocities` are met by a motion that accelerates all joints with 3 rad/s² for two milliseconds. It is also a case of
`C65_every_such_motion_happens`.
-/
set_option linter.unusedSectionVars false
namespace Verif
open Prog Spec

namespace Accelerate

/-- Two bit patterns stand for 0.003 and 3, all others for zero. -/
@[instance_reducible] noncomputable def wire : Wire XR where
  toBits _ := 0
  ofBits b := if b = 1 then .fin 0.003 else if b = 2 then .fin 3 else .fin 0

attribute [local instance] wire matrixGeo

/-- Seven doubles with this pattern. -/
def seven (b : UInt8) : Bytes := (List.replicate 7 [b, 0, 0, 0, 0, 0, 0, 0]).flatten

/-- A state datagram with this number, these desired velocities and accelerations, and these modes. -/
def datagram (id v a motion controller mode : UInt8) : Bytes :=
  [id, 0, 0, 0, 0, 0, 0, 0] ++ List.replicate 1344 0 ++ seven v ++ seven a ++ List.replicate 816 0 ++ [motion, controller] ++ List.replicate 82 0 ++ [mode] ++
    List.replicate 8 0

/-- The state in a datagram. -/
noncomputable def stateOf (bs : Bytes) (h : ((RobotStateIntern.codec XR).dec bs).isSome = true) : RobotStateIntern XR := (Option.get _ h).1

/-- The states of the motion. -/
@[irreducible] noncomputable def s2 : RobotStateIntern XR := stateOf (datagram 2 0 0 2 0 2) (by kernel_rfl)
@[irreducible] noncomputable def s3 : RobotStateIntern XR := stateOf (datagram 3 0 0 2 0 2) (by kernel_rfl)
@[irreducible] noncomputable def s4 : RobotStateIntern XR := stateOf (datagram 4 1 2 2 0 2) (by kernel_rfl)
@[irreducible] noncomputable def s5 : RobotStateIntern XR := stateOf (datagram 5 0 0 0 3 1) (by kernel_rfl)

theorem h2 : HoldsState s2 (datagram 2 0 0 2 0 2) := ⟨by kernel_rfl, by kernel_rfl⟩
theorem h3 : HoldsState s3 (datagram 3 0 0 2 0 2) := ⟨by kernel_rfl, by kernel_rfl⟩
theorem h4 : HoldsState s4 (datagram 4 1 2 2 0 2) := ⟨by kernel_rfl, by kernel_rfl⟩
theorem h5 : HoldsState s5 (datagram 5 0 0 0 3 1) := ⟨by kernel_rfl, by kernel_rfl⟩

theorem m2 : (s2.message_id, s2.motion_generator_mode, s2.controller_mode) = (2, .JointVelocity, .JointImpedance) := by kernel_rfl
theorem m3 : (s3.message_id, s3.motion_generator_mode, s3.controller_mode, s3.robot_mode) = (3, .JointVelocity, .JointImpedance, .Move) := by kernel_rfl
theorem m4 : (s4.message_id, s4.motion_generator_mode, s4.controller_mode, s4.robot_mode) = (4, .JointVelocity, .JointImpedance, .Move) := by kernel_rfl
theorem m5 : (s5.message_id, s5.motion_generator_mode, s5.controller_mode) = (5, .Idle, .Other) := by kernel_rfl

theorem v3 : ((List.finRange 7).map s3.dq_d, (List.finRange 7).map s3.ddq_d) = (List.replicate 7 (.fin 0), List.replicate 7 (.fin 0)) := by kernel_rfl
theorem v4 : ((List.finRange 7).map s4.dq_d, (List.finRange 7).map s4.ddq_d) = (List.replicate 7 (.fin 0.003), List.replicate 7 (.fin 3)) := by kernel_rfl

theorem all_of {f : Arr XR 7} {a : ℝ} (h : (List.finRange 7).map f = List.replicate 7 (.fin a)) : f = Arr.fin fun _ => a := by
  funext i
  have : f i ∈ (List.finRange 7).map f := List.mem_map_of_mem (List.mem_finRange i)
  rw [h] at this
  exact List.eq_of_mem_replicate this

theorem d3 : (RobotState.ofIntern s3).dq_d = Arr.fin (fun _ => 0) ∧ (RobotState.ofIntern s3).ddq_d = Arr.fin fun _ => 0 := by
  obtain ⟨h, h'⟩ := Prod.mk.inj v3
  exact ⟨all_of h, all_of h'⟩

theorem d4 : (RobotState.ofIntern s4).dq_d = Arr.fin (fun _ => 0.003) ∧ (RobotState.ofIntern s4).ddq_d = Arr.fin fun _ => 3 := by
  obtain ⟨h, h'⟩ := Prod.mk.inj v4
  exact ⟨all_of h, all_of h'⟩

/-- The velocity after `n` milliseconds. -/
noncomputable def speed (n : ℕ) : ℝ := 0.003 * n

/-- What the callback returns: the velocity grows by 0.003 rad/s in every call, and the second call ends the motion. -/
noncomputable def out (n : ℕ) : Motion XR .JointVelocities := (⟨decide (1 ≤ n), Arr.fin fun _ => speed (n + 1)⟩ : JointVelocities XR)

/-- The callback counts its calls. -/
noncomputable def cb : ℕ → RobotState XR → ℕ → ℕ × Motion XR .JointVelocities := fun n _ _ => (n + 1, out n)

/-- `control_joint_velocities` with rate limiting and without filtering. -/
noncomputable def call : RobotCall XR := .control_motion ℕ .JointVelocities cb none (some true) (some (.fin 1000)) 0

/-- What this call asks for. -/
noncomputable def asked : ControlCall XR ℕ .JointVelocities :=
  { motion := cb, torque := none, controller := .JointImpedance, limit_rate := true, cutoff := .fin 1000 }

theorem control : IsControl call asked 0 := .motion ℕ .JointVelocities cb none (some true) (some (.fin 1000)) 0

/-- The Move request. -/
noncomputable def request : RobotReq XR := ⟨⟨.Move, 1, 0⟩, moveBody .JointVelocities .JointImpedance⟩

/-- The command in the `n`-th cycle. -/
noncomputable def cmd (n : ℕ) : MotionGeneratorCommand XR := { noMotion with dq_c := Arr.fin fun _ => speed (n + 1) }

theorem allowed0 (i : Fin 7) : Allowed (codeLimits i) (speed 1) 0 0 := by
  unfold speed
  constructor <;> fin_cases i <;> simp [codeLimits, jointLimits] <;> norm_num [abs_le]

theorem allowed1 (i : Fin 7) : Allowed (codeLimits i) (speed 2) 0.003 3 := by
  unfold speed
  constructor <;> fin_cases i <;> simp [codeLimits, jointLimits] <;> norm_num [abs_le]

theorem time_of {s : RobotStateIntern XR} {n : ℕ} (h : s.message_id.toNat = n) : (RobotState.ofIntern s).time = n := h

/-- The events after the start of the motion. -/
noncomputable def events : List (Ev XR) :=
  [.motionCb .JointVelocities (RobotState.ofIntern s3) 0 (out 0), .udpSend 0 ⟨s3.message_id, cmd 0, noTorques⟩, .accepted s4,
    .motionCb .JointVelocities (RobotState.ofIntern s4) 1 (out 1), .udpSend 0 ⟨s4.message_id, { cmd 1 with motion_generation_finished := true }, noTorques⟩, .accepted s5]

theorem run : Run asked 0 (.before (Realize.s1 XR)) (.robotReq request :: ([s2].map .accepted ++ .accepted s3 :: events)) (.finishing s5 (cmd 1) noTorques) := by
  have e2 := m2
  have e3 := m3
  have e4 := m4
  have e5 := m5
  simp only [Prod.mk.injEq] at e2 e3 e4 e5
  obtain ⟨i2, g2, c2⟩ := e2
  obtain ⟨i3, g3, c3, r3⟩ := e3
  obtain ⟨i4, g4, c4, r4⟩ := e4
  obtain ⟨i5, g5, c5⟩ := e5
  have t3 : (RobotState.ofIntern s3).time = 3 := time_of (by rw [i3]; rfl)
  have t4 : (RobotState.ofIntern s4).time = 4 := time_of (by rw [i4]; rfl)
  have p1 := Run.snoc (.nil (.before (Realize.s1 XR))) (Step.move (call := asked) (c0 := 0) _ ⟨.Move, 1, 0⟩ Realize.s1_idle rfl)
  have p2 := p1.snoc (.wait _ s2 (fun h => Realize.s1_idle (.inl (by rw [h.1]; nofun))) (by rw [Realize.s1_id, i2]; decide))
  have p3 := p2.snoc (.first _ s3 (by rw [i2, i3]; decide) ⟨r3, g3, c3⟩)
  have p4 := p3.snoc (.motion _ _ _ _ _ 0 1 (out 0) (cmd 0) rfl le_rfl (Nat.sub_self _).symm rfl (C44_convert_joint_velocities le_rfl d3.1 d3.2 allowed0) rfl)
  have p5 := p4.snoc (.send _ _ _ _ 0)
  have p6 := p5.snoc (.next _ _ _ _ s4 (by rw [i3, i4]; decide) ⟨r4, g4, c4⟩)
  have p7 := p6.snoc (.motionEnd _ _ _ _ _ 1 2 (out 1) (cmd 1) (by rw [t3, t4]; decide) (by rw [t3, t4]) rfl
    (C44_convert_joint_velocities le_rfl d4.1 d4.2 allowed1) rfl)
  have p8 := p7.snoc (.finish _ _ _ 0 (.inl (by rw [g4]; nofun)))
  have p9 := p8.snoc (.finishNext _ _ _ s5 (by rw [i4, i5]; decide))
  exact p9

theorem still : ¬ Running s5 := by
  have e5 := m5
  simp only [Prod.mk.injEq] at e5
  rintro (h | h)
  · exact h e5.2.1
  · rw [e5.2.2] at h; cases h

theorem happens : ∃ w, RobotReachable w ∧ (call.run w).1 = .ok () ∧
    List.Forall₂ Alike (.robotReq request :: ([s2].map .accepted ++ .accepted s3 :: events)) (newEvents w (call.run w).2) := by
  refine C65_every_such_motion_happens control run still ?_ ⟨s2, rfl, ?_⟩ ?_
  · intro r
    simp [events]
  · have e2 := m2
    simp only [Prod.mk.injEq] at e2
    exact ⟨e2.2.1, e2.2.2⟩
  · intro s hs
    simp [events] at hs
    rcases hs with rfl | rfl | rfl | rfl
    · exact ⟨_, h2⟩
    · exact ⟨_, h3⟩
    · exact ⟨_, h4⟩
    · exact ⟨_, h5⟩

theorem exchanges_eq : exchanges (.robotReq request :: ([s2].map .accepted ++ .accepted s3 :: events)) =
    [(RobotState.ofIntern s3, ⟨s3.message_id, cmd 0, noTorques⟩),
      (RobotState.ofIntern s4, ⟨s4.message_id, { cmd 1 with motion_generation_finished := true }, noTorques⟩)] := rfl

end Accelerate
attribute [local instance] Accelerate.wire matrixGeo in
open Accelerate in
/-- C69, and C65 over real numbers: there is a world in which the call returns Ok, two states are answered, the hypotheses of `C69_joint_velocities` are met, and
the last command asks for 0.006 rad/s. -/
example : ∃ w, RobotReachable w ∧ IsControl call asked 0 ∧ asked.limit_rate = true ∧ (call.run w).1 = .ok () ∧ answered w call = 2 ∧ speed 0 = 0 ∧ speed 2 = 0.006 ∧
    (∀ n st x, Exchange w call n st x → st.dq_d = Arr.fin (fun _ => speed n) ∧ st.ddq_d = Arr.fin fun _ => rate speed n) ∧
    (∀ n st x, Exchange w call n st x → x.motion.dq_c = Arr.fin fun _ => speed (n + 1)) := by
  obtain ⟨w, h1, h2, h3⟩ := happens
  have e : exchanges (newEvents w (call.run w).2) = _ := (exchanges_alike h3).symm.trans exchanges_eq
  refine ⟨w, h1, control, rfl, h2, by unfold answered; rw [e]; rfl, by norm_num [speed], by norm_num [speed], ?_, ?_⟩
  · intro n st x hx
    unfold Exchange at hx
    rw [e] at hx
    match n, hx with
    | 0, hx =>
      cases hx
      refine ⟨d3.1.trans ?_, d3.2⟩
      congr; norm_num [speed]
    | 1, hx =>
      cases hx
      refine ⟨d4.1.trans ?_, d4.2.trans ?_⟩
      · congr; norm_num [speed]
      · congr; norm_num [speed, rate]
  · intro n st x hx
    unfold Exchange at hx
    rw [e] at hx
    match n, hx with
    | 0, hx => cases hx; rfl
    | 1, hx => cases hx; rfl

end Verif
