import Verif.Props.ProgramMotions
/-!
# The programs of C96 happen

For every start that is not too far away there is a robot that follows in both motions, and then the program returns Ok. This shows that the hypotheses of C96 are met.
-/
set_option linter.unusedSectionVars false
namespace Verif
open Prog Fl Spec

namespace TwoMotions

/-- The motion to the start position as a plan. -/
theorem jointPlan [Geo XR] {sf : ℝ} {goal start : Fin 7 → ℝ} {g0 : MotionGenerator XR} {T : ℝ} {path : Fin 7 → ℝ → ℝ} (hp : IsPlan sf goal start g0 T path)
    (hal : ∀ i n, Allowed (codeLimits i) ((samples (start i) (path i) (n + 1) - samples (start i) (path i) n) / 0.001) (rate (samples (start i) (path i)) n)
      (rate (rate (samples (start i) (path i))) n)) :
    IsPlanOf jointCall (MotionGenerator.new (.fin sf) (Arr.fin goal)) (genAt sf goal g0) (outAt T path) (Following.cmd path)
      (PositionsReported fun i => samples (start i) (path i)) where
  torque := rfl
  start := rfl
  called n st hR := hp.call (fun h => by subst h; exact ⟨rfl, hR.1⟩) (fun h => by cases n with
    | zero => exact absurd rfl h
    | succ n => rfl)
  converted n st hR := by
    obtain ⟨r1, r2, r3⟩ := hR
    rw [jointCall_cutoff]
    have := C44_convert_joint_positions (fin := decide (T ≤ (n : ℝ) / 1000)) (u := fun i => samples (start i) (path i) (n + 1)) (state := st)
      (m := msBefore (Following.cmd path) n) (le_refl (1000 : ℝ)) r1 r2 r3 fun i => hal i n
    have e : { msBefore (Following.cmd path) n with q_c := Arr.fin fun i => samples (start i) (path i) (n + 1) } = Following.cmd path n := by cases n <;> rfl
    rw [e] at this
    exact this

/-- The states of a robot that reports these desired values. -/
noncomputable def reports (M : ℕ) (k : MotionKind) (g : ControllerMode) (q dq ddq : ℕ → Arr XR 7) (n : ℕ) : RobotStateIntern XR :=
  plainState (UInt64.ofNat (M + 2 + n)) (q n) (dq n) (ddq n) (generatorOf k) g .Move

noncomputable def starts (M : ℕ) (k : MotionKind) (g : ControllerMode) : RobotStateIntern XR :=
  plainState (UInt64.ofNat (M + 1)) Following.zeros Following.zeros Following.zeros (generatorOf k) g .Move

noncomputable def rests (M : ℕ) : RobotStateIntern XR := plainState (UInt64.ofNat M) Following.zeros Following.zeros Following.zeros .Idle .Other .Idle

theorem rests_id {M : ℕ} (h : M ≤ 2 ^ 41) : (rests M).message_id.toNat = M := by
  show (UInt64.ofNat M).toNat = M
  rw [UInt64.toNat_ofNat', Nat.mod_eq_of_lt (by omega)]

theorem rests_still (M : ℕ) : ¬ Running (rests M) := by rintro (h | h) <;> first | exact h rfl | cases h

theorem robot_from [Wire XR] {σ : Type} {k : MotionKind} {call : ControlCall XR σ k} {R : ℕ → RobotState XR → Prop} {N M : ℕ} {s0 : RobotStateIntern XR} (hs0 : ¬ Running s0)
    (hM : s0.message_id.toNat = M) (hN : M + N ≤ 2 ^ 40) (q dq ddq : ℕ → Arr XR 7)
    (k0 : Wire.ofBits (Wire.toBits (lit 0 : XR)) = (lit 0 : XR)) (kp : ∀ n ≤ N, Kept (q n) ∧ Kept (dq n) ∧ Kept (ddq n))
    (hR : ∀ n st, n ≤ N → st.q_d = q n → st.dq_d = dq n → st.ddq_d = ddq n → R n st) :
    RobotFrom call R s0 N (starts M k (controllerOf call.controller)) (reports M k (controllerOf call.controller) q dq ddq) (rests (M + N + 3)) where
  idle := hs0
  id2 := by
    show (UInt64.ofNat (M + 1)).toNat = _
    rw [UInt64.toNat_ofNat', Nat.mod_eq_of_lt (by omega), hM]
  modes2 := ⟨rfl, rfl⟩
  ids n hn := by
    show (UInt64.ofNat (M + 2 + n)).toNat = _
    rw [UInt64.toNat_ofNat', Nat.mod_eq_of_lt (by omega), hM]
  healthy _ _ := ⟨rfl, rfl, rfl⟩
  planned n hn := hR n _ hn rfl rfl rfl
  idE := by rw [rests_id (by omega), hM]
  still := rests_still _
  data2 := plainState_holds k0 (fun _ => k0) (fun _ => k0) (fun _ => k0)
  data n hn := plainState_holds k0 (kp n hn).1 (kp n hn).2.1 (kp n hn).2.2
  dataE := plainState_holds k0 (fun _ => k0) (fun _ => k0) (fun _ => k0)

/-- Such a robot follows. -/
theorem follows {k : MotionKind} {g : ControllerMode} {o : ℕ → Motion XR k} {ms : ℕ → MotionGeneratorCommand XR} {start : Fin 7 → ℝ} {y : Fin 7 → ℕ → ℝ} {M N : ℕ}
    (hN : M + N ≤ 2 ^ 40) (h0 : ∀ i, y i 0 = start i) (hq : ∀ n, (sentCmd o ms n).q_c = Arr.fin fun i => y i (n + 1)) :
    FollowsJoints start (RobotFrom.pairs o ms (reports M k g (fun n => Arr.fin fun i => y i n) (fun n => Arr.fin fun i => rate (y i) n)
      (fun n => Arr.fin fun i => rate (rate (y i)) n)) N) := by
  refine ⟨?_, ?_⟩
  · intro p hp
    unfold RobotFrom.pairs at hp
    rw [List.range_succ_eq_map] at hp
    cases hp
    refine ⟨?_, rfl, rfl⟩
    show (Arr.fin fun i => y i 0) = _
    exact congrArg Arr.fin (funext h0)
  · unfold RobotFrom.pairs
    rw [List.isChain_iff_getElem]
    intro j hj
    simp only [List.length_map, List.length_range] at hj
    simp only [List.getElem_map, List.getElem_range]
    refine ⟨?_, ?_, ?_, ?_⟩
    · show (UInt64.ofNat (M + 2 + (j + 1))).toNat = (UInt64.ofNat (M + 2 + j)).toNat + 1
      rw [UInt64.toNat_ofNat', UInt64.toNat_ofNat', Nat.mod_eq_of_lt (by omega), Nat.mod_eq_of_lt (by omega)]
      rfl
    · exact (hq j).symm
    · intro i
      show XR.fin (rate (y i) (j + 1)) = (XR.fin _ - XR.fin _) / _
      rw [XR.fin_sub, XR.fin_div _ _ (by norm_num)]
      rfl
    · intro i
      show XR.fin (rate (rate (y i)) (j + 1)) = (XR.fin _ - XR.fin _) / _
      rw [XR.fin_sub, XR.fin_div _ _ (by norm_num)]
      rfl

/-- Such a robot follows velocities. -/
theorem follows_velocities {k : MotionKind} {g : ControllerMode} {o : ℕ → Motion XR k} {ms : ℕ → MotionGeneratorCommand XR} {y : Fin 7 → ℕ → ℝ} {q : ℕ → Arr XR 7} {M N : ℕ}
    (hN : M + N ≤ 2 ^ 40) (h0 : ∀ i, y i 0 = 0) (hq : ∀ n, (sentCmd o ms n).dq_c = Arr.fin fun i => y i (n + 1)) :
    FollowsVelocities (RobotFrom.pairs o ms (reports M k g q (fun n => Arr.fin fun i => y i n) (fun n => Arr.fin fun i => rate (y i) n)) N) := by
  refine ⟨?_, ?_⟩
  · intro p hp
    unfold RobotFrom.pairs at hp
    rw [List.range_succ_eq_map] at hp
    cases hp
    refine ⟨?_, rfl⟩
    show (Arr.fin fun i => y i 0) = _
    exact congrArg Arr.fin (funext h0)
  · unfold RobotFrom.pairs
    rw [List.isChain_iff_getElem]
    intro j hj
    simp only [List.length_map, List.length_range] at hj
    simp only [List.getElem_map, List.getElem_range]
    refine ⟨?_, ?_, ?_⟩
    · show (UInt64.ofNat (M + 2 + (j + 1))).toNat = (UInt64.ofNat (M + 2 + j)).toNat + 1
      rw [UInt64.toNat_ofNat', UInt64.toNat_ofNat', Nat.mod_eq_of_lt (by omega), Nat.mod_eq_of_lt (by omega)]
      rfl
    · exact (hq j).symm
    · intro i
      show XR.fin (rate (y i) (j + 1)) = (XR.fin _ - XR.fin _) / _
      rw [XR.fin_sub, XR.fin_div _ _ (by norm_num)]
      rfl

/-- The first motion, for every start. -/
theorem first [Geo XR] {start : Fin 7 → ℝ} (hg : Gentle (1 / 2) start home) (hnear : ∀ i, |home i - start i| ≤ 400000) :
    ∃ (g0 : MotionGenerator XR) (T : ℝ) (path : Fin 7 → ℝ → ℝ) (N : ℕ), N ≤ 500000000 ∧
      IsPlanOf jointCall (MotionGenerator.new (.fin (1 / 2)) (Arr.fin home)) (genAt (1 / 2) home g0) (outAt T path) (Following.cmd path)
        (PositionsReported fun i => samples (start i) (path i)) ∧
      (∀ n < N, (outAt T path n).motion_finished = false) ∧ (outAt T path N).motion_finished = true := by
  obtain ⟨T, path, h1, h2, h3, hT, g0, hp⟩ := plan_exists (sf := 1 / 2) (by norm_num) home start
  have hg' : (1 / 2 : ℝ) ≤ 0.37 ∨ 0.0137 ≤ T := by
    rcases hg with hg | ⟨i, hi⟩
    · exact .inl hg
    · exact .inr (planned_time (by norm_num) (by norm_num) (h3 i) hi)
  have hal : ∀ i n, Allowed (codeLimits i) ((samples (start i) (path i) (n + 1) - samples (start i) (path i) n) / 0.001) (rate (samples (start i) (path i)) n)
      (rate (rate (samples (start i) (path i))) n) := fun i n => by
    obtain ⟨a, b, -, -, hab, hm⟩ := h2 i
    exact planned_allowed (by norm_num) (by norm_num) hg' (h3 i) hm (fun h => (hab h).1) n
  have hT' : T ≤ 500000 := by
    rcases hT with rfl | ⟨j, hj, rfl⟩
    · norm_num
    · have hV := jointSpeed_pos j
      have hV2 : 2 ≤ jointSpeed j ∧ jointSpeed j ≤ 2.5 := by unfold jointSpeed; fin_cases j <;> norm_num
      have hA : jointAcceleration = 5 := rfl
      refine (leastTime_le (mul_pos (by norm_num) hV) (by rw [hA]; norm_num) (lt_trans (by norm_num) hj)).trans ?_
      rw [hA]
      have e1 : 3 * (1 / 2 * jointSpeed j) / (1 / 2 * 5) = 3 / 5 * jointSpeed j := by ring
      have e2 : |home j - start j| / (1 / 2 * jointSpeed j) ≤ 400000 := by
        rw [div_le_iff₀ (by positivity)]
        have := hnear j
        nlinarith
      rw [e1]
      linarith [hV2.2]
  obtain ⟨N, hN⟩ : ∃ N, N = ⌈1000 * T⌉₊ := ⟨_, rfl⟩
  refine ⟨g0, T, path, N, ?_, jointPlan hp hal, fun n hn => ?_, ?_⟩
  · rw [hN, Nat.ceil_le]
    push_cast
    linarith
  · rw [hN, Nat.lt_ceil] at hn
    exact decide_eq_false (by linarith)
  · refine decide_eq_true ?_
    rw [le_div_iff₀ (by norm_num), hN, mul_comm]
    exact Nat.le_ceil _

/-- One sequence after the other. -/
def concat (N : ℕ) (f g : ℕ → Arr XR 7) (n : ℕ) : Arr XR 7 := if n ≤ N then f n else g (n - (N + 1))

theorem concat_left {N : ℕ} {f g : ℕ → Arr XR 7} {n : ℕ} (h : n ≤ N) : concat N f g n = f n := if_pos h

theorem concat_right {N : ℕ} {f g : ℕ → Arr XR 7} (n : ℕ) : concat N f g (N + 1 + n) = g n := by
  unfold concat
  rw [if_neg (by omega), Nat.add_sub_cancel_left]

theorem kept_both {N N' : ℕ} (f g h f' g' h' : ℕ → Arr XR 7) (hN : N + N' + 1 ≤ 1000000000) : ∃ _ : Wire XR, Wire.ofBits (Wire.toBits (lit 0 : XR)) = (lit 0 : XR) ∧
    (∀ n ≤ N, Kept (f n) ∧ Kept (g n) ∧ Kept (h n)) ∧ ∀ n ≤ N', Kept (f' n) ∧ Kept (g' n) ∧ Kept (h' n) := by
  obtain ⟨wire, k0, kp⟩ := Following.wire_for (N := N + N' + 1) (concat N f f') (concat N g g') (concat N h h') hN
  refine ⟨wire, k0, fun n hn => ?_, fun n hn => ?_⟩
  · have := kp n (by omega)
    rwa [concat_left hn, concat_left hn, concat_left hn] at this
  · have := kp (N + 1 + n) (by omega)
    rwa [concat_right, concat_right, concat_right] at this

end TwoMotions
open TwoMotions

theorem fin_injective {n : ℕ} {f g : Fin n → ℝ} (h : Arr.fin f = Arr.fin g) : f = g := by
  funext i
  have := congrFun h i
  simpa [Arr.fin] using this

/-- The first motion as a call. -/
theorem TwoMotions.isControl : IsControl (.joint_motion (lit (1 / 2)) startPosition) jointCall (MotionGenerator.new (.fin (1 / 2)) (Arr.fin home)) := by
  rw [half_eq, startPosition_eq]
  exact .jointMotion _ _

theorem TwoMotions.idle_id [Wire XR] [Geo XR] : (Realize.s1 XR).message_id.toNat = 1 := by
  have := Realize.s1_id (F := XR)
  exact congrArg UInt64.toNat this

/-- Where the first motion ends. -/
theorem TwoMotions.ends_at {start rest : Fin 7 → ℝ} {T : ℝ} {path : Fin 7 → ℝ → ℝ} {s : ℕ → RobotStateIntern XR} {N : ℕ}
    (h : LeadsHome start (RobotFrom.pairs (k := .JointPositions) (outAt T path) (Following.cmd path) s N) rest) : rest = fun i => path i ((N : ℝ) / 1000) := by
  have hl : (RobotFrom.pairs (k := .JointPositions) (outAt T path) (Following.cmd path) s N).getLast? =
      some (RobotState.ofIntern (s N), ⟨(s N).message_id, sentCmd (k := .JointPositions) (outAt T path) (Following.cmd path) N, noTorques⟩) := by
    unfold RobotFrom.pairs
    rw [List.range_succ, List.map_append, List.map_singleton, List.getLast?_concat]
  have := h.arrives _ hl
  have e : (sentCmd (k := .JointPositions) (outAt T path) (Following.cmd path) N).q_c = Arr.fin fun i => path i ((N : ℝ) / 1000) := by
    unfold sentCmd
    split <;> rfl
  exact (fin_injective (e.symm.trans this)).symm

/-- **C96**, without hypotheses on the robot: for every start (that is not less than a fifth of a millirad and not more than some hundred thousand rad away) there is a robot with
which the joint position program returns Ok, that follows in both motions and that rests in between. -/
theorem C96_position_program_happens [Geo XR] {start : Fin 7 → ℝ} (hg : Gentle (1 / 2) start home) (hnear : ∀ i, |home i - start i| ≤ 400000) :
    ∃ (_ : Wire XR) (w : World XR) (a b : List (RobotState XR × RobotCommand XR)) (rest : Fin 7 → ℝ), Fresh w ∧ (Examples.generate_joint_position_motion w).1 = .ok () ∧
      exchanges (visible (Examples.generate_joint_position_motion w).2.trace) = a ++ b ∧ OneMotion a ∧ OneMotion b ∧
      FollowsJoints start a ∧ LeadsHome start a rest ∧ FollowsJoints rest b := by
  obtain ⟨g0, T, path, N, hN, hp, hfin, hend⟩ := first hg hnear
  obtain ⟨rest, hrest⟩ : ∃ rest : Fin 7 → ℝ, rest = fun i => path i ((N : ℝ) / 1000) := ⟨_, rfl⟩
  have hp' := PositionExample.plan rest
  obtain ⟨x, hx⟩ : ∃ x, x = fun i => samples (start i) (path i) := ⟨_, rfl⟩
  obtain ⟨y, hy⟩ : ∃ y, y = fun i => lowPass 100 (rest i) (PositionExample.target rest i) := ⟨_, rfl⟩
  rw [← hx] at hp
  rw [← hy] at hp'
  obtain ⟨wire, k0, k1, k2⟩ := kept_both (N := N) (N' := 5000) (fun n => Arr.fin fun i => x i n) (fun n => Arr.fin fun i => rate (x i) n) (fun n => Arr.fin fun i => rate (rate (x i)) n)
    (fun n => Arr.fin fun i => y i n) (fun n => Arr.fin fun i => rate (y i) n) (fun n => Arr.fin fun i => rate (rate (y i)) n) (by omega)
  have r1 := robot_from (call := jointCall) (R := PositionsReported x) (N := N) (M := 1) Realize.s1_idle idle_id (by omega) _ _ _ k0 k1 fun n st _ e1 e2 e3 => ⟨e1, e2, e3⟩
  have r2 := robot_from (call := PositionExample.call) (R := PositionsReported y) (N := 5000) (M := 1 + N + 3) (rests_still _) (rests_id (by omega)) (by omega) _ _ _ k0 k2
    fun n st _ e1 e2 e3 => ⟨e1, e2, e3⟩
  obtain ⟨w, w1, w2, h1, h2, h3, h4, h5, h6⟩ := usual_happens Example.jointPosition hp r1 hfin hend TwoMotions.isControl hp' r2
    (fun n hn => decide_eq_false (by omega : ¬ 5000 ≤ n)) (by show decide (5000 ≤ 5000) = true; rfl) PositionExample.isControl
  obtain ⟨w1', w2', g1, g2, g3, g4, -, g6⟩ := two_motions Example.jointPosition h1 h2
  obtain ⟨rfl, rfl⟩ := h3.unique g1
  have f1 : FollowsJoints start (exchanges (newEvents w1 w2)) := by
    rw [h5]
    refine follows (by omega) (fun i => by rw [hx]; rfl) fun n => ?_
    unfold sentCmd
    split <;> (subst hx; rfl)
  obtain ⟨rest', hr⟩ := g6 start hg f1
  have e := hr
  rw [h5] at e
  have e := ends_at e
  rw [← hrest] at e
  subst e
  refine ⟨wire, w, _, _, rest', h1, h2, g2, g3, g4, f1, hr, ?_⟩
  rw [h6]
  refine follows (by omega) (fun i => by rw [hy]; rfl) fun n => ?_
  unfold sentCmd
  split <;> rfl

/-- **C96**, without hypotheses on the robot, for the joint velocity program. -/
theorem C96_velocity_program_happens [Geo XR] {start : Fin 7 → ℝ} (hg : Gentle (1 / 2) start home) (hnear : ∀ i, |home i - start i| ≤ 400000) :
    ∃ (_ : Wire XR) (w : World XR) (a b : List (RobotState XR × RobotCommand XR)) (rest : Fin 7 → ℝ), Fresh w ∧ (Examples.generate_joint_velocity_motion w).1 = .ok () ∧
      exchanges (visible (Examples.generate_joint_velocity_motion w).2.trace) = a ++ b ∧ OneMotion a ∧ OneMotion b ∧
      FollowsJoints start a ∧ LeadsHome start a rest ∧ FollowsVelocities b := by
  obtain ⟨g0, T, path, N, hN, hp, hfin, hend⟩ := first hg hnear
  have hp' := VelocityExample.plan (ω := 1) (T := 1) (K := 1000) (by norm_num) (by norm_num) (by norm_num) (by norm_num)
  obtain ⟨x, hx⟩ : ∃ x, x = fun i => samples (start i) (path i) := ⟨_, rfl⟩
  obtain ⟨y, hy⟩ : ∃ y, y = fun i => lowPass 100 0 (VelocityExample.target 1 1000 i) := ⟨_, rfl⟩
  rw [← hx] at hp
  rw [← hy] at hp'
  obtain ⟨wire, k0, k1, k2⟩ := kept_both (N := N) (N' := 2 * 1000) (fun n => Arr.fin fun i => x i n) (fun n => Arr.fin fun i => rate (x i) n) (fun n => Arr.fin fun i => rate (rate (x i)) n)
    (fun n => Arr.fin fun i => y i n) (fun n => Arr.fin fun i => y i n) (fun n => Arr.fin fun i => rate (y i) n) (by omega)
  have r1 := robot_from (call := jointCall) (R := PositionsReported x) (N := N) (M := 1) Realize.s1_idle idle_id (by omega) _ _ _ k0 k1 fun n st _ e1 e2 e3 => ⟨e1, e2, e3⟩
  have r2 := robot_from (call := VelocityExample.call 1 1) (R := VelocitiesReported y) (N := 2 * 1000) (M := 1 + N + 3) (rests_still _) (rests_id (by omega)) (by omega) _ _ _ k0 k2
    fun n st _ e1 e2 e3 => ⟨e2, e3⟩
  obtain ⟨w, w1, w2, h1, h2, h3, h4, h5, h6⟩ := usual_happens Example.jointVelocity hp r1 hfin hend TwoMotions.isControl hp' r2
    (fun n hn => decide_eq_false (by omega : ¬ 2 * 1000 ≤ n)) (by show decide (2 * 1000 ≤ 2 * 1000) = true; rfl) (VelocityExample.isControl 1 1)
  obtain ⟨w1', w2', g1, g2, g3, g4, -, g6⟩ := two_motions Example.jointVelocity h1 h2
  obtain ⟨rfl, rfl⟩ := h3.unique g1
  have f1 : FollowsJoints start (exchanges (newEvents w1 w2)) := by
    rw [h5]
    refine follows (by omega) (fun i => by rw [hx]; rfl) fun n => ?_
    unfold sentCmd
    split <;> (subst hx; rfl)
  obtain ⟨rest', hr⟩ := g6 start hg f1
  refine ⟨wire, w, _, _, rest', h1, h2, g2, g3, g4, f1, hr, ?_⟩
  rw [h6]
  refine follows_velocities (by omega) (fun i => by rw [hy]; rfl) fun n => ?_
  unfold sentCmd
  split <;> rfl

/-- There is only one way to take two motions apart, so `a` and `b` here are those of `C96_position_program` and `C96_velocity_program`. -/
theorem Spec.OneMotion.unique {F : Type} {a b a' b' : List (RobotState F × RobotCommand F)} (ha : OneMotion a) (ha' : OneMotion a') (h : a ++ b = a' ++ b') : a = a' ∧ b = b' := by
  obtain ⟨pre, p, rfl, h1, h2⟩ := ha
  obtain ⟨pre', p', rfl, h1', h2'⟩ := ha'
  rw [List.append_assoc, List.append_assoc] at h
  have key : pre.length = pre'.length := by
    rcases lt_trichotomy pre.length pre'.length with hl | hl | hl
    · have e := congrArg (·[pre.length]?) h
      rw [List.getElem?_append_right le_rfl, Nat.sub_self, List.getElem?_append_left hl, List.getElem?_eq_getElem hl] at e
      have := h2' _ (List.getElem_mem hl)
      rw [← Option.some.inj e] at this
      rw [h1] at this
      cases this
    · exact hl
    · have e := congrArg (·[pre'.length]?) h
      rw [List.getElem?_append_right (le_refl pre'.length), Nat.sub_self, List.getElem?_append_left hl, List.getElem?_eq_getElem hl] at e
      have := h2 _ (List.getElem_mem hl)
      rw [Option.some.inj e] at this
      rw [h1'] at this
      cases this
  obtain ⟨e1, e2⟩ := List.append_inj h key
  rw [List.singleton_append, List.singleton_append] at e2
  injection e2 with e2 e3
  exact ⟨by rw [e1, e2], e3⟩

/-- For example: all joints are stretched out at first. Then the program swings the joints as intended. -/
example [Geo XR] : ∃ (_ : Wire XR) (w : World XR) (a b : List (RobotState XR × RobotCommand XR)), Fresh w ∧ (Examples.generate_joint_position_motion w).1 = .ok () ∧
    exchanges (visible (Examples.generate_joint_position_motion w).2.trace) = a ++ b ∧ b.length = 5001 ∧
    ∀ (n : ℕ) p, b[n]? = some p → ∃ q, p.2.motion.q_c = Arr.fin q ∧ ∀ i, |q i - (home i + swing i ((n : ℝ) / 1000))| ≤ 0.001 := by
  have hg : Gentle (1 / 2) (fun _ => 0) home := .inr ⟨5, by
    show _ ≤ |Real.pi / 2 - 0|
    rw [sub_zero, abs_of_pos (by positivity)]
    linarith [Real.pi_gt_three]⟩
  obtain ⟨wire, w, a, b, rest, h1, h2, h3, h4, h5, h6, h7, h8⟩ := C96_position_program_happens hg fun i => by
    have := Real.pi_lt_four
    have := Real.pi_pos
    rw [sub_zero, abs_le]
    unfold home
    fin_cases i <;> simp <;> constructor <;> linarith
  obtain ⟨a', b', g1, g2, g3, g4⟩ := C96_position_program h1 h2
  obtain ⟨rfl, rfl⟩ := h4.unique g2 (h3.symm.trans g1)
  obtain ⟨rest', k1, k2⟩ := g4 _ hg h6
  have : rest = rest' := by
    obtain ⟨pre, p, rfl, -⟩ := h4
    have e1 := h7.arrives p (by simp)
    have e2 := k1.arrives p (by simp)
    exact fin_injective (e1.symm.trans e2)
  subst this
  obtain ⟨k3, k4⟩ := k2 h8
  exact ⟨wire, w, a, b, h1, h2, h3, k3, k4⟩

end Verif
