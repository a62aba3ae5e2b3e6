import Verif.Props.RoundedFilter
import Verif.Props.Complete
/-!
# A filtered joint velocity motion with rounding

For C100: with every rounding, the hypotheses of `C100_joint_velocities` are met by a motion whose callback asks for 1 rad/s, with the default cutoff frequency.
-/
set_option linter.unusedSectionVars false
namespace Verif
open Prog Spec

namespace Soft
variable (A : Rounding)

theorem soft_runs : ∃ z : ℕ → ℝ, z 0 = 0 ∧ ∀ n, low_pass_filter DELTA_T (Rd.fin 1) (Rd.fin (z n)) (Rd.fin 100) = (.ok (Rd.fin (z (n + 1))) : P (Rd A)) :=
  C100_runs_exist (B := 1) (by norm_num) (by norm_num) (by norm_num) (by norm_num) (u := fun _ => 1) (fun _ => by simp) (by simp)

/-- The velocities that the filter makes of 1 rad/s in every millisecond. -/
noncomputable def vel : ℕ → ℝ := (soft_runs A).choose

theorem vel_rest : vel A 0 = 0 := (soft_runs A).choose_spec.1

theorem vel_step (n : ℕ) : low_pass_filter DELTA_T (Rd.fin 1) (Rd.fin (vel A n)) (Rd.fin 100) = (.ok (Rd.fin (vel A (n + 1))) : P (Rd A)) := (soft_runs A).choose_spec.2 n

/-- The doubles of the first two bit patterns: zero, and the velocity after a millisecond. -/
noncomputable def table : List (Rd A) := [.fin 0, .fin (vel A 1)]

/-- All other bit patterns are zero. -/
@[instance_reducible] noncomputable def wire : Wire (Rd A) where
  toBits _ := 0
  ofBits b := (table A)[b.toNat]?.getD (.fin 0)

/-- Rotations play no role. -/
@[instance_reducible] noncomputable def geo : Geo (Rd A) := matrixGeo

attribute [local instance] wire geo

/-- A state datagram with this number, these desired velocities and accelerations, and these modes. -/
def datagram (id : UInt8) (v a : List UInt8) (motion controller mode : UInt8) : Bytes :=
  [id, 0, 0, 0, 0, 0, 0, 0] ++ List.replicate 1344 0 ++ v.flatMap (fun b => [b, 0, 0, 0, 0, 0, 0, 0]) ++ a.flatMap (fun b => [b, 0, 0, 0, 0, 0, 0, 0]) ++
    List.replicate 816 0 ++ [motion, controller] ++ List.replicate 82 0 ++ [mode] ++ List.replicate 8 0

/-- Nothing moves. -/
def rest : List UInt8 := List.replicate 7 0

/-- The state in a datagram. -/
noncomputable def stateOf (bs : Bytes) (h : ((RobotStateIntern.codec (Rd A)).dec bs).isSome = true) : RobotStateIntern (Rd A) := (Option.get _ h).1

/-- The states of the motion. -/
@[irreducible] noncomputable def s2 : RobotStateIntern (Rd A) := stateOf A (datagram 2 rest rest 2 0 2) (by kernel_rfl)
@[irreducible] noncomputable def s3 : RobotStateIntern (Rd A) := stateOf A (datagram 3 rest rest 2 0 2) (by kernel_rfl)
@[irreducible] noncomputable def s4 : RobotStateIntern (Rd A) := stateOf A (datagram 4 [1, 1, 1, 1, 1, 1, 1] rest 2 0 2) (by kernel_rfl)
@[irreducible] noncomputable def s5 : RobotStateIntern (Rd A) := stateOf A (datagram 5 rest rest 0 3 1) (by kernel_rfl)

theorem h2 : HoldsState (s2 A) (datagram 2 rest rest 2 0 2) := ⟨by kernel_rfl, by kernel_rfl⟩
theorem h3 : HoldsState (s3 A) (datagram 3 rest rest 2 0 2) := ⟨by kernel_rfl, by kernel_rfl⟩
theorem h4 : HoldsState (s4 A) (datagram 4 [1, 1, 1, 1, 1, 1, 1] rest 2 0 2) := ⟨by kernel_rfl, by kernel_rfl⟩
theorem h5 : HoldsState (s5 A) (datagram 5 rest rest 0 3 1) := ⟨by kernel_rfl, by kernel_rfl⟩

theorem m2 : ((s2 A).message_id, (s2 A).motion_generator_mode, (s2 A).controller_mode) = (2, .JointVelocity, .JointImpedance) := by kernel_rfl
theorem m3 : ((s3 A).message_id, (s3 A).motion_generator_mode, (s3 A).controller_mode, (s3 A).robot_mode) = (3, .JointVelocity, .JointImpedance, .Move) := by kernel_rfl
theorem m4 : ((s4 A).message_id, (s4 A).motion_generator_mode, (s4 A).controller_mode, (s4 A).robot_mode) = (4, .JointVelocity, .JointImpedance, .Move) := by kernel_rfl
theorem m5 : ((s5 A).message_id, (s5 A).motion_generator_mode, (s5 A).controller_mode) = (5, .Idle, .Other) := by kernel_rfl

theorem v3 : (List.finRange 7).map (s3 A).dq_d = (List.finRange 7).map fun _ => .fin 0 := by kernel_rfl
theorem v4 : (List.finRange 7).map (s4 A).dq_d = (List.finRange 7).map fun _ => .fin (vel A 1) := by kernel_rfl

theorem all_of {f g : Arr (Rd A) 7} (h : (List.finRange 7).map f = (List.finRange 7).map g) : f = g :=
  funext fun i => List.map_inj_left.1 h i (List.mem_finRange i)

theorem d3 : (RobotState.ofIntern (s3 A)).dq_d = Arr.rd fun _ => vel A 0 := (all_of A (v3 A)).trans (by rw [vel_rest]; rfl)

theorem d4 : (RobotState.ofIntern (s4 A)).dq_d = Arr.rd fun _ => vel A 1 := all_of A (v4 A)

/-- What the callback returns: 1 rad/s for all joints, and the second call ends the motion. -/
noncomputable def out (n : ℕ) : Motion (Rd A) .JointVelocities := (⟨decide (1 ≤ n), Arr.rd fun _ => 1⟩ : JointVelocities (Rd A))

/-- The callback counts its calls. -/
noncomputable def cb : ℕ → RobotState (Rd A) → ℕ → ℕ × Motion (Rd A) .JointVelocities := fun n _ _ => (n + 1, out A n)

/-- `control_joint_velocities` without rate limiting and with the default filter. -/
noncomputable def call : RobotCall (Rd A) := .control_motion ℕ .JointVelocities (cb A) none (some false) (some (Rd.fin 100)) 0

/-- What this call asks for. -/
noncomputable def asked : ControlCall (Rd A) ℕ .JointVelocities :=
  { motion := cb A, torque := none, controller := .JointImpedance, limit_rate := false, cutoff := Rd.fin 100 }

theorem control : IsControl (call A) (asked A) 0 := .motion ℕ .JointVelocities (cb A) none (some false) (some (Rd.fin 100)) 0

/-- The Move request. -/
noncomputable def request : RobotReq (Rd A) := ⟨⟨.Move, 1, 0⟩, moveBody .JointVelocities .JointImpedance⟩

/-- The command in the `n`-th cycle. -/
noncomputable def cmd (n : ℕ) : MotionGeneratorCommand (Rd A) := { noMotion with dq_c := Arr.rd fun _ => vel A (n + 1) }

theorem all_soft (n : ℕ) : (Arr.tabulateP fun i => low_pass_filter DELTA_T ((Arr.rd fun _ => 1 : Arr (Rd A) 7) i) ((Arr.rd fun _ => vel A n : Arr (Rd A) 7) i) (Rd.fin 100)) =
    .ok (Arr.rd fun _ => vel A (n + 1)) := Arr.tabulateP_ok fun _ => vel_step A n

theorem converts {n : ℕ} {st : RobotState (Rd A)} {m : MotionGeneratorCommand (Rd A)} (h1 : st.dq_d = Arr.rd fun _ => vel A n) (j : ℕ) :
    (out A j).convert_motion st m (Rd.fin 100) false = .ok { m with dq_c := Arr.rd fun _ => vel A (n + 1) } := by
  show JointVelocities.convert_motion (⟨_, Arr.rd fun _ => 1⟩ : JointVelocities (Rd A)) st m (Rd.fin 100) false = _
  unfold JointVelocities.convert_motion
  rw [rd_with_filter (by norm_num), h1]
  show ((Arr.tabulateP fun i => low_pass_filter DELTA_T ((Arr.rd fun _ => 1 : Arr (Rd A) 7) i) ((Arr.rd fun _ => vel A n : Arr (Rd A) 7) i) (Rd.fin 100)) >>= fun y =>
    assertFinite y >>= fun _ => (pure { m with dq_c := y } : P (MotionGeneratorCommand (Rd A)))) = _
  rw [all_soft, P_bind_ok_eq, rd_assertFinite]
  rfl

theorem time_of {s : RobotStateIntern (Rd A)} {n : ℕ} (h : s.message_id.toNat = n) : (RobotState.ofIntern s).time = n := h

/-- The events after the start of the motion. -/
noncomputable def events : List (Ev (Rd A)) :=
  [.motionCb .JointVelocities (RobotState.ofIntern (s3 A)) 0 (out A 0), .udpSend 0 ⟨(s3 A).message_id, cmd A 0, noTorques⟩, .accepted (s4 A),
    .motionCb .JointVelocities (RobotState.ofIntern (s4 A)) 1 (out A 1),
    .udpSend 0 ⟨(s4 A).message_id, { cmd A 1 with motion_generation_finished := true }, noTorques⟩, .accepted (s5 A)]

theorem run : Run (asked A) 0 (.before (Realize.s1 (Rd A))) (.robotReq (request A) :: ([s2 A].map .accepted ++ .accepted (s3 A) :: events A))
    (.finishing (s5 A) (cmd A 1) noTorques) := by
  have e2 := m2 A
  have e3 := m3 A
  have e4 := m4 A
  have e5 := m5 A
  simp only [Prod.mk.injEq] at e2 e3 e4 e5
  obtain ⟨i2, g2, c2⟩ := e2
  obtain ⟨i3, g3, c3, r3⟩ := e3
  obtain ⟨i4, g4, c4, r4⟩ := e4
  obtain ⟨i5, g5, c5⟩ := e5
  have t3 : (RobotState.ofIntern (s3 A)).time = 3 := time_of A (by rw [i3]; rfl)
  have t4 : (RobotState.ofIntern (s4 A)).time = 4 := time_of A (by rw [i4]; rfl)
  have p1 := Run.snoc (.nil (.before (Realize.s1 (Rd A)))) (Step.move (call := asked A) (c0 := 0) _ ⟨.Move, 1, 0⟩ Realize.s1_idle rfl)
  have p2 := p1.snoc (.wait _ (s2 A) (fun h => Realize.s1_idle (.inl (by rw [h.1]; nofun))) (by rw [Realize.s1_id, i2]; decide))
  have p3 := p2.snoc (.first _ (s3 A) (by rw [i2, i3]; decide) ⟨r3, g3, c3⟩)
  have p4 := p3.snoc (.motion _ _ _ _ _ 0 1 (out A 0) (cmd A 0) rfl le_rfl (Nat.sub_self _).symm rfl (converts A (d3 A) 0) rfl)
  have p5 := p4.snoc (.send _ _ _ _ 0)
  have p6 := p5.snoc (.next _ _ _ _ (s4 A) (by rw [i3, i4]; decide) ⟨r4, g4, c4⟩)
  have p7 := p6.snoc (.motionEnd _ _ _ _ _ 1 2 (out A 1) (cmd A 1) (by rw [t3, t4]; decide) (by rw [t3, t4]) rfl
    (converts A (d4 A) 1) rfl)
  have p8 := p7.snoc (.finish _ _ _ 0 (.inl (by rw [g4]; nofun)))
  have p9 := p8.snoc (.finishNext _ _ _ (s5 A) (by rw [i4, i5]; decide))
  exact p9

theorem still : ¬ Running (s5 A) := by
  have e5 := m5 A
  simp only [Prod.mk.injEq] at e5
  rintro (h | h)
  · exact h e5.2.1
  · rw [e5.2.2] at h; cases h

theorem happens : ∃ w, RobotReachable w ∧ ((call A).run w).1 = .ok () ∧
    List.Forall₂ Alike (.robotReq (request A) :: ([s2 A].map .accepted ++ .accepted (s3 A) :: events A)) (newEvents w ((call A).run w).2) := by
  refine C65_every_such_motion_happens (control A) (run A) (still A) ?_ ⟨s2 A, rfl, ?_⟩ ?_
  · intro r
    simp [events]
  · have e2 := m2 A
    simp only [Prod.mk.injEq] at e2
    exact ⟨e2.2.1, e2.2.2⟩
  · intro s hs
    simp [events] at hs
    rcases hs with rfl | rfl | rfl | rfl
    · exact ⟨_, h2 A⟩
    · exact ⟨_, h3 A⟩
    · exact ⟨_, h4 A⟩
    · exact ⟨_, h5 A⟩

theorem exchanges_eq : exchanges (.robotReq (request A) :: ([s2 A].map .accepted ++ .accepted (s3 A) :: events A)) =
    [(RobotState.ofIntern (s3 A), ⟨(s3 A).message_id, cmd A 0, noTorques⟩),
      (RobotState.ofIntern (s4 A), ⟨(s4 A).message_id, { cmd A 1 with motion_generation_finished := true }, noTorques⟩)] := rfl

theorem outputs_alike {tr tr' : List (Ev (Rd A))} (h : List.Forall₂ Alike tr tr') : motionOutputs .JointVelocities tr = motionOutputs .JointVelocities tr' := by
  induction h with
  | nil => rfl
  | @cons e e' _ _ h _ ih =>
    unfold motionOutputs at ih ⊢
    rw [List.filterMap_cons, List.filterMap_cons, ih]
    cases e <;> simp only [Alike] at h
    case robotReq => obtain ⟨h, rfl, -⟩ := h; rfl
    case udpSend => obtain ⟨a, rfl⟩ := h; rfl
    all_goals subst h; rfl

theorem outputs_eq : motionOutputs .JointVelocities (.robotReq (request A) :: ([s2 A].map .accepted ++ .accepted (s3 A) :: events A)) = [out A 0, out A 1] := rfl

end Soft

attribute [local instance] Soft.wire Soft.geo in
open Soft in
/-- There is a world in which the call returns Ok, two states are answered, and the hypotheses of `C100_joint_velocities` are met with `B = 1`. -/
example (A : Rounding) : ∃ w, RobotReachable w ∧ IsControl (call A) (asked A) 0 ∧ (asked A).limit_rate = false ∧ (asked A).cutoff = Rd.fin 100 ∧ ((call A).run w).1 = .ok () ∧
    answered w (call A) = 2 ∧ (∀ _ : Fin 7, |vel A 0| ≤ 1 ∧ ∀ n < answered w (call A), |(1 : ℝ)| ≤ 1) ∧
    (∀ (n : ℕ) (out : Motion (Rd A) .JointVelocities), (motionOutputs .JointVelocities (newEvents w ((call A).run w).2))[n]? = some out → JointVelocities.dq out = Arr.rd fun _ => 1) ∧
    (∀ n st x, Exchange w (call A) n st x → st.dq_d = Arr.rd (fun _ => vel A n)) ∧
    (∀ n st x, Exchange w (call A) n st x → x.motion.dq_c = Arr.rd fun _ => vel A (n + 1)) ∧
    ∃ x : ℕ → ℝ, x 0 = vel A 0 ∧ LowPassedFor (answered w (call A)) 100 (fun _ => 1) x := by
  obtain ⟨w, h1, h2, h3⟩ := happens A
  have e : exchanges (newEvents w ((call A).run w).2) = _ := (exchanges_alike h3).symm.trans (exchanges_eq A)
  have e' : motionOutputs .JointVelocities (newEvents w ((call A).run w).2) = _ := (outputs_alike A h3).symm.trans (outputs_eq A)
  refine ⟨w, h1, control A, rfl, rfl, h2, by unfold answered; rw [e]; rfl, fun _ => ⟨by rw [vel_rest]; simp, fun _ _ => by simp⟩, ?_, ?_, ?_,
    exactFilter 100 (vel A 0) fun _ => 1, rfl, exactFilter_low (by norm_num) _ _ _⟩
  · intro n o ho
    rw [e'] at ho
    match n, ho with
    | 0, ho => cases ho; rfl
    | 1, ho => cases ho; rfl
  · intro n st x hx
    unfold Exchange at hx
    rw [e] at hx
    match n, hx with
    | 0, hx => cases hx; exact d3 A
    | 1, hx => cases hx; exact d4 A
  · intro n st x hx
    unfold Exchange at hx
    rw [e] at hx
    match n, hx with
    | 0, hx => cases hx; rfl
    | 1, hx => cases hx; rfl

end Verif
