import Verif.Props.ProgramMotionsHappen
import Verif.Props.ExamplePose
import Verif.Props.ExampleElbow
/-!
# How the robot moves in the whole Cartesian pose and elbow programs: C96
-/
set_option linter.unusedSectionVars false
namespace Verif
open Prog Spec Fl TwoMotions

section
variable [Wire XR] [Geo XR] (lib : RotationLibrary) (slerp : Interpolates)
include lib slerp

/-- **C96** for the Cartesian pose example: wherever the joints are at first, if the robot follows in both motions, then the first one leads to the start position, and the
second one moves the end effector from where it then is on the arc and back, within 0.25 mm, without turning it, and brings it back to within a thousandth of a millimetre. -/
theorem C96_pose_program {w : World XR} (hw : Fresh w) (hok : (Examples.generate_cartesian_pose_motion w).1 = .ok ()) :
    ∃ a b, exchanges (visible (Examples.generate_cartesian_pose_motion w).2.trace) = a ++ b ∧ OneMotion a ∧ OneMotion b ∧
      (∀ start, Gentle (1 / 2) start home → FollowsJoints start a → ∃ rest, LeadsHome start a rest) ∧
      ∀ x0 R, IsRotation R → ReadsRight R → FollowsPoses x0 R b → b.length = 10001 ∧ ∃ y : ℕ → Fin 3 → ℝ,
        (∀ (n : ℕ) p, b[n]? = some p → p.2.motion.O_T_EE_c = Arr.fin (pose (y n) R) ∧ p.2.motion.valid_elbow = false ∧
          len (fun i => y n i - (x0 i + arc i ((n : ℝ) / 1000))) ≤ 0.00025) ∧
        len (fun i => y 10000 i - x0 i) ≤ 0.000001 := by
  obtain ⟨a, b, w', h1, h2, h3, ⟨h4, h5, h6⟩, h7⟩ := C96_two_motions Example.pose hw hok
  refine ⟨a, b, h1, h2, h3, h7, fun x0 R hR reads hf => ?_⟩
  have h5' : poseExample.run w' = (.ok (), (Examples.generate_cartesian_pose_motion w).2) := h5
  have hE : b = exchanges (newEvents w' (poseExample.run w').2) := by rw [h5', h6]
  rw [hE] at hf
  obtain ⟨y, -, -, k2, k3⟩ := C91_pose_example lib slerp h4 hR reads hf
  obtain ⟨k4, k5⟩ := k3 (by rw [h5'])
  have hlen : b.length = answered w' poseExample := by rw [hE]; rfl
  refine ⟨by rw [hlen, k4], fun n => sample y (n + 1), fun n p hp => ?_, ?_⟩
  · obtain ⟨m1, m2, m3, -⟩ := k2 n p.1 p.2 (by unfold Exchange; rw [← hE]; exact hp)
    exact ⟨m1, m3, m2⟩
  · rw [k4] at k5
    exact k5

/-- **C96** for the elbow example: the second motion keeps the pose that the end effector then has and moves the elbow forth and back. -/
theorem C96_elbow_program {w : World XR} (hw : Fresh w) (hok : (Examples.generate_elbow_motion w).1 = .ok ()) :
    ∃ a b, exchanges (visible (Examples.generate_elbow_motion w).2.trace) = a ++ b ∧ OneMotion a ∧ OneMotion b ∧
      (∀ start, Gentle (1 / 2) start home → FollowsJoints start a → ∃ rest, LeadsHome start a rest) ∧
      ∀ x0 R e0 s, IsRotation R → ReadsRight R → |s| = 1 → FollowsPoses x0 R b → FollowsElbow e0 s b → b.length = 10001 ∧ ∃ y : ℕ → ℝ,
        (∀ (n : ℕ) p, b[n]? = some p → p.2.motion.O_T_EE_c = Arr.fin (pose x0 R) ∧ p.2.motion.valid_elbow = true ∧ p.2.motion.elbow_c = Arr.fin ![y n, s] ∧
          |y n - (e0 + elbowWay ((n : ℝ) / 1000))| ≤ 0.00032) ∧
        |y 10000 - e0| ≤ 0.000001 := by
  obtain ⟨a, b, w', h1, h2, h3, ⟨h4, h5, h6⟩, h7⟩ := C96_two_motions Example.elbow hw hok
  refine ⟨a, b, h1, h2, h3, h7, fun x0 R e0 s hR reads hs hf hfe => ?_⟩
  have h5' : elbowExample.run w' = (.ok (), (Examples.generate_elbow_motion w).2) := h5
  have hE : b = exchanges (newEvents w' (elbowExample.run w').2) := by rw [h5', h6]
  rw [hE] at hf hfe
  obtain ⟨y, -, -, k2, k3⟩ := C92_elbow_example lib slerp h4 hR reads hs hf hfe
  obtain ⟨k4, k5⟩ := k3 (by rw [h5'])
  have hlen : b.length = answered w' elbowExample := by rw [hE]; rfl
  refine ⟨by rw [hlen, k4], fun n => y (n + 1), fun n p hp => ?_, ?_⟩
  · obtain ⟨m1, m2, m3, m4, -⟩ := k2 n p.1 p.2 (by unfold Exchange; rw [← hE]; exact hp)
    exact ⟨m1, m2, m3, m4⟩
  · rw [k4] at k5
    exact k5

end

/-! ## These programs happen -/

namespace TwoMotions

/-- The states of a robot that reports these desired values of its end effector and its elbow. -/
noncomputable def cartesianReports (M : ℕ) (k : MotionKind) (g : ControllerMode) (T : ℕ → Arr XR 16) (v a : ℕ → Arr XR 6) (e de dde : ℕ → Arr XR 2) (n : ℕ) : RobotStateIntern XR :=
  cartesianState (UInt64.ofNat (M + 2 + n)) (T n) (v n) (a n) (e n) (de n) (dde n) (generatorOf k) g .Move

theorem cartesian_robot_from [Wire XR] {σ : Type} {k : MotionKind} {call : ControlCall XR σ k} {R : ℕ → RobotState XR → Prop} {N M : ℕ} {s0 : RobotStateIntern XR} (hs0 : ¬ Running s0)
    (hM : s0.message_id.toNat = M) (hN : M + N ≤ 2 ^ 40) (T : ℕ → Arr XR 16) (v a : ℕ → Arr XR 6) (e de dde : ℕ → Arr XR 2)
    (k0 : Wire.ofBits (Wire.toBits (lit 0 : XR)) = (lit 0 : XR)) (kp : ∀ n ≤ N, Kept (T n) ∧ Kept (v n) ∧ Kept (a n) ∧ Kept (e n) ∧ Kept (de n) ∧ Kept (dde n))
    (hR : ∀ n st, n ≤ N → st.O_T_EE_c = T n → st.O_dP_EE_c = v n → st.O_ddP_EE_c = a n → st.elbow_c = e n → st.delbow_c = de n → st.ddelbow_c = dde n → R n st) :
    RobotFrom call R s0 N (starts M k (controllerOf call.controller)) (cartesianReports M k (controllerOf call.controller) T v a e de dde) (rests (M + N + 3)) where
  idle := hs0
  id2 := by
    show (UInt64.ofNat (M + 1)).toNat = _
    rw [UInt64.toNat_ofNat', Nat.mod_eq_of_lt (by omega), hM]
  modes2 := ⟨rfl, rfl⟩
  ids n hn := by
    show (UInt64.ofNat (M + 2 + n)).toNat = _
    rw [UInt64.toNat_ofNat', Nat.mod_eq_of_lt (by omega), hM]
  healthy _ _ := ⟨rfl, rfl, rfl⟩
  planned n hn := hR n _ hn rfl rfl rfl rfl rfl rfl
  idE := by rw [rests_id (by omega), hM]
  still := rests_still _
  data2 := plainState_holds k0 (fun _ => k0) (fun _ => k0) (fun _ => k0)
  data n hn := by
    obtain ⟨h1, h2, h3, h4, h5, h6⟩ := kp n hn
    exact cartesianState_holds k0 h1 h2 h3 h4 h5 h6
  dataE := plainState_holds k0 (fun _ => k0) (fun _ => k0) (fun _ => k0)

open Following in
theorem kept_mixed {N N' : ℕ} (f g h : ℕ → Arr XR 7) (T : ℕ → Arr XR 16) (v a : ℕ → Arr XR 6) (e de dde : ℕ → Arr XR 2) (hN : N ≤ 1000000000) (hN' : N' ≤ 1000000) :
    ∃ _ : Wire XR, Wire.ofBits (Wire.toBits (lit 0 : XR)) = (lit 0 : XR) ∧ (∀ n ≤ N, Kept (f n) ∧ Kept (g n) ∧ Kept (h n)) ∧
      ∀ n ≤ N', Kept (T n) ∧ Kept (v n) ∧ Kept (a n) ∧ Kept (e n) ∧ Kept (de n) ∧ Kept (dde n) := by
  classical
  obtain ⟨A, hA⟩ : ∃ A, A = valuesOf f N ∪ (valuesOf g N ∪ valuesOf h N) := ⟨_, rfl⟩
  obtain ⟨B, hB⟩ : ∃ B, B = valuesOf T N' ∪ (valuesOf v N' ∪ (valuesOf a N' ∪ (valuesOf e N' ∪ (valuesOf de N' ∪ valuesOf dde N')))) := ⟨_, rfl⟩
  have cA : A.card ≤ 21 * (N + 1) := by
    have h2 := Finset.card_union_le (valuesOf f N) (valuesOf g N ∪ valuesOf h N)
    have h3 := Finset.card_union_le (valuesOf g N) (valuesOf h N)
    have c1 := valuesOf_card f N
    have c2 := valuesOf_card g N
    have c3 := valuesOf_card h N
    rw [hA]
    omega
  have cB : B.card ≤ 34 * (N' + 1) := by
    have h2 := Finset.card_union_le (valuesOf T N') (valuesOf v N' ∪ (valuesOf a N' ∪ (valuesOf e N' ∪ (valuesOf de N' ∪ valuesOf dde N'))))
    have h3 := Finset.card_union_le (valuesOf v N') (valuesOf a N' ∪ (valuesOf e N' ∪ (valuesOf de N' ∪ valuesOf dde N')))
    have h4 := Finset.card_union_le (valuesOf a N') (valuesOf e N' ∪ (valuesOf de N' ∪ valuesOf dde N'))
    have h5 := Finset.card_union_le (valuesOf e N') (valuesOf de N' ∪ valuesOf dde N')
    have h6 := Finset.card_union_le (valuesOf de N') (valuesOf dde N')
    have c1 := valuesOf_card T N'
    have c2 := valuesOf_card v N'
    have c3 := valuesOf_card a N'
    have c4 := valuesOf_card e N'
    have c5 := valuesOf_card de N'
    have c6 := valuesOf_card dde N'
    rw [hB]
    omega
  obtain ⟨wire, hw⟩ := wire_exists (insert (lit 0) (A ∪ B)) (by
    have h1 := Finset.card_insert_le (lit 0 : XR) (A ∪ B)
    have h2 := Finset.card_union_le A B
    omega)
  have hA' : ∀ x ∈ A, Wire.ofBits (Wire.toBits x) = x := fun x hx => hw x (Finset.mem_insert_of_mem (Finset.mem_union_left _ hx))
  have hB' : ∀ x ∈ B, Wire.ofBits (Wire.toBits x) = x := fun x hx => hw x (Finset.mem_insert_of_mem (Finset.mem_union_right _ hx))
  refine ⟨wire, hw _ (Finset.mem_insert_self _ _), fun n hn => ⟨fun i => hA' _ ?_, fun i => hA' _ ?_, fun i => hA' _ ?_⟩,
    fun n hn => ⟨fun i => hB' _ ?_, fun i => hB' _ ?_, fun i => hB' _ ?_, fun i => hB' _ ?_, fun i => hB' _ ?_, fun i => hB' _ ?_⟩⟩
  all_goals simp only [hA, hB, Finset.mem_union, mem_valuesOf hn, true_or, or_true]

/-- Such a robot follows poses. -/
theorem follows_poses {k : MotionKind} {g : ControllerMode} {o : ℕ → Motion XR k} {ms : ℕ → MotionGeneratorCommand XR} {x0 : Fin 3 → ℝ} {y : Fin 3 → ℕ → ℝ} {R : M3}
    {e de dde : ℕ → Arr XR 2} {M N : ℕ} (hN : M + N ≤ 2 ^ 40) (h0 : ∀ i, y i 0 = x0 i) (hq : ∀ n, (sentCmd o ms n).O_T_EE_c = Arr.fin (pose (sample y (n + 1)) R)) :
    FollowsPoses x0 R (RobotFrom.pairs o ms (cartesianReports M k g (fun n => Arr.fin (pose (sample y n) R)) (fun n => Arr.fin (straight fun i => rate (y i) n))
      (fun n => Arr.fin (straight fun i => rate (rate (y i)) n)) e de dde) N) := by
  refine ⟨?_, ?_⟩
  · intro p hp
    unfold RobotFrom.pairs at hp
    rw [List.range_succ_eq_map] at hp
    cases hp
    have hz : (straight fun _ => 0) = fun _ => 0 := by funext i; fin_cases i <;> rfl
    have hs : sample y 0 = x0 := funext h0
    refine ⟨?_, congrArg Arr.fin hz, congrArg Arr.fin hz⟩
    show Arr.fin (pose (sample y 0) R) = _
    rw [hs]
  · unfold RobotFrom.pairs
    rw [List.isChain_iff_getElem]
    intro j hj
    simp only [List.length_map, List.length_range] at hj
    simp only [List.getElem_map, List.getElem_range]
    refine takes_pose ?_ (hq j) ⟨rfl, rfl, rfl⟩ ⟨rfl, rfl, rfl⟩
    show (UInt64.ofNat (M + 2 + (j + 1))).toNat = (UInt64.ofNat (M + 2 + j)).toNat + 1
    rw [UInt64.toNat_ofNat', UInt64.toNat_ofNat', Nat.mod_eq_of_lt (by omega), Nat.mod_eq_of_lt (by omega)]
    rfl

/-- Such a robot follows elbow positions. -/
theorem follows_elbow {k : MotionKind} {g : ControllerMode} {o : ℕ → Motion XR k} {ms : ℕ → MotionGeneratorCommand XR} {e0 s : ℝ} {e : ℕ → ℝ}
    {T : ℕ → Arr XR 16} {v a : ℕ → Arr XR 6} {M N : ℕ} (h0 : e 0 = e0) (hq : ∀ n, (sentCmd o ms n).elbow_c = Arr.fin ![e (n + 1), s]) :
    FollowsElbow e0 s (RobotFrom.pairs o ms (cartesianReports M k g T v a (fun n => Arr.fin ![e n, s]) (fun n => Arr.fin ![rate e n, 0])
      (fun n => Arr.fin ![rate (rate e) n, 0])) N) := by
  refine ⟨?_, ?_⟩
  · intro p hp
    unfold RobotFrom.pairs at hp
    rw [List.range_succ_eq_map] at hp
    cases hp
    subst h0
    exact ⟨rfl, rfl, rfl⟩
  · unfold RobotFrom.pairs
    rw [List.isChain_iff_getElem]
    intro j hj
    simp only [List.length_map, List.length_range] at hj
    simp only [List.getElem_map, List.getElem_range]
    have d : ∀ a b : ℝ, XR.fin ((a - b) / 0.001) = (XR.fin a - XR.fin b) / XR.fin 0.001 := fun a b => by rw [XR.fin_sub, XR.fin_div _ _ (by norm_num)]
    exact ⟨(hq j).symm, d _ _, d _ _⟩

end TwoMotions

/-- **C96**, without hypotheses on the robot, for the Cartesian pose program: for every start of the joints, and wherever the end effector is when the joints are at the start
position, there is a robot with which the program returns Ok, that follows in both motions and that rests in between. -/
theorem C96_pose_program_happens [Geo XR] (lib : RotationLibrary) (slerp : Interpolates) {start : Fin 7 → ℝ} (hg : Gentle (1 / 2) start home) (hnear : ∀ i, |home i - start i| ≤ 400000)
    (x0 : Fin 3 → ℝ) {R : M3} (hR : IsRotation R) (reads : ReadsRight R) :
    ∃ (_ : Wire XR) (w : World XR) (a b : List (RobotState XR × RobotCommand XR)), Fresh w ∧ (Examples.generate_cartesian_pose_motion w).1 = .ok () ∧
      exchanges (visible (Examples.generate_cartesian_pose_motion w).2.trace) = a ++ b ∧ OneMotion a ∧ OneMotion b ∧
      FollowsJoints start a ∧ FollowsPoses x0 R b := by
  obtain ⟨g0, T, path, N, hN, hp, hfin, hend⟩ := first hg hnear
  have hp' := PoseExample.plan x0 lib slerp hR reads
  obtain ⟨x, hx⟩ : ∃ x, x = fun i => samples (start i) (path i) := ⟨_, rfl⟩
  obtain ⟨y, hy⟩ : ∃ y, y = PoseExample.reached x0 := ⟨_, rfl⟩
  rw [← hx] at hp
  rw [← hy] at hp'
  obtain ⟨wire, k0, k1, k2⟩ := kept_mixed (N := N) (N' := 10000) (fun n => Arr.fin fun i => x i n) (fun n => Arr.fin fun i => rate (x i) n) (fun n => Arr.fin fun i => rate (rate (x i)) n)
    (fun n => Arr.fin (pose (sample y n) R)) (fun n => Arr.fin (straight fun i => rate (y i) n)) (fun n => Arr.fin (straight fun i => rate (rate (y i)) n))
    (fun _ _ => lit 0) (fun _ _ => lit 0) (fun _ _ => lit 0) (by omega) (by omega)
  have r1 := robot_from (call := jointCall) (R := PositionsReported x) (N := N) (M := 1) Realize.s1_idle idle_id (by omega) _ _ _ k0 k1 fun n st _ e1 e2 e3 => ⟨e1, e2, e3⟩
  have r2 := cartesian_robot_from (call := PoseExample.call) (R := PosesReported y R) (N := 10000) (M := 1 + N + 3) (rests_still _) (rests_id (by omega)) (by omega) _ _ _ _ _ _ k0 k2
    fun n st _ e1 e2 e3 _ _ _ => ⟨e1, e2, e3⟩
  obtain ⟨w, w1, w2, h1, h2, h3, h4, h5, h6⟩ := usual_happens Example.pose hp r1 hfin hend TwoMotions.isControl hp' r2
    (fun n hn => decide_eq_false (by omega : ¬ 10000 ≤ n)) (by show decide (10000 ≤ 10000) = true; simp) PoseExample.isControl
  obtain ⟨w1', w2', g1, g2, g3, g4, -, -⟩ := two_motions Example.pose h1 h2
  obtain ⟨rfl, rfl⟩ := h3.unique g1
  have f1 : FollowsJoints start (exchanges (newEvents w1 w2)) := by
    rw [h5]
    refine follows (by omega) (fun i => by rw [hx]; rfl) fun n => ?_
    unfold sentCmd
    split <;> (subst hx; rfl)
  refine ⟨wire, w, _, _, h1, h2, g2, g3, g4, f1, ?_⟩
  rw [h6]
  refine follows_poses (by omega) (fun i => by rw [hy]; rfl) fun n => ?_
  unfold sentCmd
  split <;> rfl

/-- **C96**, without hypotheses on the robot, for the elbow program. -/
theorem C96_elbow_program_happens [Geo XR] (lib : RotationLibrary) (slerp : Interpolates) {start : Fin 7 → ℝ} (hg : Gentle (1 / 2) start home) (hnear : ∀ i, |home i - start i| ≤ 400000)
    (x0 : Fin 3 → ℝ) {R : M3} (hR : IsRotation R) (reads : ReadsRight R) (e0 : ℝ) {s : ℝ} (hs : |s| = 1) :
    ∃ (_ : Wire XR) (w : World XR) (a b : List (RobotState XR × RobotCommand XR)), Fresh w ∧ (Examples.generate_elbow_motion w).1 = .ok () ∧
      exchanges (visible (Examples.generate_elbow_motion w).2.trace) = a ++ b ∧ OneMotion a ∧ OneMotion b ∧
      FollowsJoints start a ∧ FollowsPoses x0 R b ∧ FollowsElbow e0 s b := by
  obtain ⟨g0, T, path, N, hN, hp, hfin, hend⟩ := first hg hnear
  have hp' := ElbowExample.plan e0 lib slerp x0 hR reads hs
  obtain ⟨x, hx⟩ : ∃ x, x = fun i => samples (start i) (path i) := ⟨_, rfl⟩
  obtain ⟨e, he⟩ : ∃ e, e = lowPass 100 e0 (ElbowExample.target e0) := ⟨_, rfl⟩
  obtain ⟨y, hy⟩ : ∃ y, y = ElbowExample.still x0 := ⟨_, rfl⟩
  rw [← hx] at hp
  rw [← hy, ← he] at hp'
  obtain ⟨wire, k0, k1, k2⟩ := kept_mixed (N := N) (N' := 10000) (fun n => Arr.fin fun i => x i n) (fun n => Arr.fin fun i => rate (x i) n) (fun n => Arr.fin fun i => rate (rate (x i)) n)
    (fun n => Arr.fin (pose (sample y n) R)) (fun n => Arr.fin (straight fun i => rate (y i) n)) (fun n => Arr.fin (straight fun i => rate (rate (y i)) n))
    (fun n => Arr.fin ![e n, s]) (fun n => Arr.fin ![rate e n, 0]) (fun n => Arr.fin ![rate (rate e) n, 0]) (by omega) (by omega)
  have r1 := robot_from (call := jointCall) (R := PositionsReported x) (N := N) (M := 1) Realize.s1_idle idle_id (by omega) _ _ _ k0 k1 fun n st _ e1 e2 e3 => ⟨e1, e2, e3⟩
  have r2 := cartesian_robot_from (call := ElbowExample.call) (N := 10000) (M := 1 + N + 3) (rests_still _) (rests_id (by omega)) (by omega) _ _ _ _ _ _ k0 k2
    fun n st _ e1 e2 e3 e4 e5 e6 => (⟨⟨e1, e2, e3⟩, e4, by rw [e5]; rfl, by rw [e6]; rfl⟩ : PosesReported y R n st ∧ st.elbow_c = Arr.fin ![e n, s] ∧ st.delbow_c 0 = .fin (rate e n) ∧ st.ddelbow_c 0 = .fin (rate (rate e) n))
  obtain ⟨w, w1, w2, h1, h2, h3, h4, h5, h6⟩ := usual_happens Example.elbow hp r1 hfin hend TwoMotions.isControl hp' r2
    (fun n hn => decide_eq_false (by omega : ¬ 10000 ≤ n)) (by show decide (10000 ≤ 10000) = true; simp) ElbowExample.isControl
  obtain ⟨w1', w2', g1, g2, g3, g4, -, -⟩ := two_motions Example.elbow h1 h2
  obtain ⟨rfl, rfl⟩ := h3.unique g1
  have f1 : FollowsJoints start (exchanges (newEvents w1 w2)) := by
    rw [h5]
    refine follows (by omega) (fun i => by rw [hx]; rfl) fun n => ?_
    unfold sentCmd
    split <;> (subst hx; rfl)
  refine ⟨wire, w, _, _, h1, h2, g2, g3, g4, f1, ?_, ?_⟩
  · rw [h6]
    refine follows_poses (by omega) (fun i => by rw [hy]; rfl) fun n => ?_
    unfold sentCmd
    split <;> rfl
  · rw [h6]
    refine follows_elbow (by rw [he]; rfl) fun n => ?_
    unfold sentCmd
    split <;> rfl

end Verif
