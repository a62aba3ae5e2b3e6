import Verif.Lemmas.Hold
import Verif.Props.Follow
/-!
# The motions of C75 happen

For every start and goal there is a robot that follows, and then `joint_motion` returns Ok. This shows that the hypotheses of `C75_joint_motion_goes_as_planned` are met.
-/
set_option linter.unusedSectionVars false
namespace Verif
open Prog Fl Spec

namespace Following
variable {sf : ℝ} {goal start : Fin 7 → ℝ} {g0 : MotionGenerator XR} {T : ℝ} {path : Fin 7 → ℝ → ℝ} {N : ℕ}

/-- What the robot reports as desired values in its `n`-th state. -/
noncomputable def pos (start : Fin 7 → ℝ) (path : Fin 7 → ℝ → ℝ) (n : ℕ) : Arr XR 7 := Arr.fin fun i => samples (start i) (path i) n
noncomputable def vel (start : Fin 7 → ℝ) (path : Fin 7 → ℝ → ℝ) (n : ℕ) : Arr XR 7 := Arr.fin fun i => rate (samples (start i) (path i)) n
noncomputable def acc (start : Fin 7 → ℝ) (path : Fin 7 → ℝ → ℝ) (n : ℕ) : Arr XR 7 := Arr.fin fun i => rate (rate (samples (start i) (path i))) n

noncomputable def zeros : Arr XR 7 := fun _ => lit 0

/-- The states: while the motion is started, during the motion, and after it. -/
noncomputable def starting : RobotStateIntern XR := plainState 2 zeros zeros zeros .JointPosition .JointImpedance .Move
noncomputable def moving (start : Fin 7 → ℝ) (path : Fin 7 → ℝ → ℝ) (n : ℕ) : RobotStateIntern XR :=
  plainState (UInt64.ofNat (n + 3)) (pos start path n) (vel start path n) (acc start path n) .JointPosition .JointImpedance .Move
noncomputable def stopped (N : ℕ) : RobotStateIntern XR := plainState (UInt64.ofNat (N + 4)) zeros zeros zeros .Idle .Other .Idle

/-- The command in the `n`-th cycle. -/
noncomputable def cmd (path : Fin 7 → ℝ → ℝ) (n : ℕ) : MotionGeneratorCommand XR := { noMotion with q_c := Arr.fin fun i => path i ((n : ℝ) / 1000) }

/-- The command before. -/
noncomputable def cmdBefore (path : Fin 7 → ℝ → ℝ) : ℕ → MotionGeneratorCommand XR
  | 0 => noMotion
  | n + 1 => cmd path n

/-- The time before, and the period. -/
def timeBefore : ℕ → ℕ
  | 0 => 3
  | n + 1 => n + 3
def period : ℕ → ℕ
  | 0 => 0
  | _ + 1 => 1

/-- The events of the first `n` cycles after the first state. -/
noncomputable def events (start : Fin 7 → ℝ) (T : ℝ) (path : Fin 7 → ℝ → ℝ) : ℕ → List (Ev XR)
  | 0 => []
  | n + 1 => events start T path n ++ [.motionCb .JointPositions (RobotState.ofIntern (moving start path n)) (period n) (outAt T path n),
      .udpSend 0 ⟨(moving start path n).message_id, cmd path n, noTorques⟩, .accepted (moving start path (n + 1))]

/-- The last cycle. -/
noncomputable def ending (start : Fin 7 → ℝ) (T : ℝ) (path : Fin 7 → ℝ → ℝ) (N : ℕ) : List (Ev XR) :=
  [.motionCb .JointPositions (RobotState.ofIntern (moving start path N)) (period N) (outAt T path N),
    .udpSend 0 ⟨(moving start path N).message_id, { cmd path N with motion_generation_finished := true }, noTorques⟩, .accepted (stopped N)]

/-- The Move request. -/
noncomputable def request : RobotReq XR := ⟨⟨.Move, 1, 0⟩, moveBody .JointPositions .JointImpedance⟩

theorem id_moving {n : ℕ} (h : n ≤ 2 ^ 40) : (moving start path n).message_id.toNat = n + 3 := by
  show (UInt64.ofNat (n + 3)).toNat = _
  rw [UInt64.toNat_ofNat']
  exact Nat.mod_eq_of_lt (by omega)

theorem id_stopped (h : N ≤ 2 ^ 40) : (stopped N).message_id.toNat = N + 4 := by
  show (UInt64.ofNat (N + 4)).toNat = _
  rw [UInt64.toNat_ofNat']
  exact Nat.mod_eq_of_lt (by omega)

theorem time_moving {n : ℕ} (h : n ≤ 2 ^ 40) : (RobotState.ofIntern (moving start path n)).time = n + 3 := id_moving (start := start) (path := path) h

theorem healthy (n : ℕ) : Healthy .JointPositions .JointImpedance (moving start path n) := ⟨rfl, rfl, rfl⟩

/-- The callback in the `n`-th cycle. -/
theorem called (hp : IsPlan sf goal start g0 T path) (n : ℕ) : jointCall.motion (genAt sf goal g0 n) (RobotState.ofIntern (moving start path n)) (period n) =
    (genAt sf goal g0 (n + 1), outAt T path n) :=
  hp.call (fun h => by subst h; exact ⟨rfl, rfl⟩) (fun h => by cases n with
    | zero => exact absurd rfl h
    | succ n => rfl)

theorem converted [Geo XR]
    (hal : ∀ i n, Allowed (codeLimits i) ((samples (start i) (path i) (n + 1) - samples (start i) (path i) n) / 0.001) (rate (samples (start i) (path i)) n)
      (rate (rate (samples (start i) (path i))) n)) (n : ℕ) :
    Motion.convert_motion (k := .JointPositions) (outAt T path n) (RobotState.ofIntern (moving start path n)) (cmdBefore path n) jointCall.cutoff jointCall.limit_rate =
      .ok (cmd path n) := by
  rw [jointCall_cutoff]
  have := C44_convert_joint_positions (fin := decide (T ≤ (n : ℝ) / 1000)) (u := fun i => samples (start i) (path i) (n + 1)) (state := RobotState.ofIntern (moving start path n))
    (m := cmdBefore path n) (le_refl (1000 : ℝ)) rfl rfl rfl fun i => hal i n
  have e : { cmdBefore path n with q_c := Arr.fin fun i => samples (start i) (path i) (n + 1) } = cmd path n := by cases n <;> rfl
  rw [e] at this
  exact this

theorem period_eq {n : ℕ} (h : n ≤ 2 ^ 40) : period n = (RobotState.ofIntern (moving start path n)).time - timeBefore n ∧
    timeBefore n ≤ (RobotState.ofIntern (moving start path n)).time := by
  rw [time_moving h]
  cases n <;> simp [period, timeBefore]

/-- The set of the values of some arrays. -/
noncomputable def values [DecidableEq XR] (f : ℕ → Arr XR 7) (N : ℕ) : Finset XR := (Finset.range (N + 1) ×ˢ (Finset.univ : Finset (Fin 7))).image fun p => f p.1 p.2

theorem values_card [DecidableEq XR] (f : ℕ → Arr XR 7) (N : ℕ) : (values f N).card ≤ (N + 1) * 7 := by
  unfold values
  exact Finset.card_image_le.trans (by simp)

theorem mem_values [DecidableEq XR] {f : ℕ → Arr XR 7} {n : ℕ} (h : n ≤ N) (i : Fin 7) : f n i ∈ values f N :=
  Finset.mem_image.2 ⟨(n, i), Finset.mem_product.2 ⟨Finset.mem_range.2 (Nat.lt_succ_of_le h), Finset.mem_univ _⟩, rfl⟩

theorem wire_for (f g h : ℕ → Arr XR 7) (hN : N ≤ 1000000000) : ∃ _ : Wire XR, Wire.ofBits (Wire.toBits (lit 0 : XR)) = (lit 0 : XR) ∧
    ∀ n ≤ N, Kept (f n) ∧ Kept (g n) ∧ Kept (h n) := by
  classical
  obtain ⟨wire, hw⟩ := wire_exists (insert (lit 0) (values f N ∪ (values g N ∪ values h N))) (by
    have h1 := Finset.card_insert_le (lit 0 : XR) (values f N ∪ (values g N ∪ values h N))
    have h2 := Finset.card_union_le (values f N) (values g N ∪ values h N)
    have h3 := Finset.card_union_le (values g N) (values h N)
    have h4 := values_card f N
    have h5 := values_card g N
    have h6 := values_card h N
    omega)
  refine ⟨wire, hw _ (Finset.mem_insert_self _ _), fun n hn => ⟨fun i => hw _ ?_, fun i => hw _ ?_, fun i => hw _ ?_⟩⟩
  · exact Finset.mem_insert_of_mem (Finset.mem_union_left _ (mem_values hn i))
  · exact Finset.mem_insert_of_mem (Finset.mem_union_right _ (Finset.mem_union_left _ (mem_values hn i)))
  · exact Finset.mem_insert_of_mem (Finset.mem_union_right _ (Finset.mem_union_right _ (mem_values hn i)))

variable [Wire XR] [Geo XR]

/-- The motion up to the `n`-th state. -/
theorem run_ready (hp : IsPlan sf goal start g0 T path)
    (hal : ∀ i n, Allowed (codeLimits i) ((samples (start i) (path i) (n + 1) - samples (start i) (path i) n) / 0.001) (rate (samples (start i) (path i)) n)
      (rate (rate (samples (start i) (path i))) n)) : ∀ n : ℕ, n ≤ 2 ^ 40 → (∀ k : ℕ, k < n → (k : ℝ) / 1000 < T) →
    Run jointCall (MotionGenerator.new (.fin sf) (Arr.fin goal)) (.before (Realize.s1 XR))
      (.robotReq request :: .accepted starting :: .accepted (moving start path 0) :: events start T path n)
      (.ready (genAt sf goal g0 n) (moving start path n) (timeBefore n) (cmdBefore path n) noTorques) := by
  intro n
  induction n with
  | zero =>
    intro _ _
    have p1 := Run.snoc (.nil (.before (Realize.s1 XR))) (Step.move (call := jointCall) (c0 := MotionGenerator.new (.fin sf) (Arr.fin goal)) _ ⟨.Move, 1, 0⟩ Realize.s1_idle rfl)
    have p2 := p1.snoc (.wait _ starting (fun h => Realize.s1_idle (.inl (by rw [h.1]; nofun))) (by rw [Realize.s1_id]; decide))
    have p3 := p2.snoc (.first _ (moving start path 0) (show (2 : UInt64) < UInt64.ofNat 3 by decide) (healthy 0))
    rw [time_moving (by norm_num)] at p3
    exact p3
  | succ n ih =>
    intro hn hT
    have h1 := ih (by omega) fun k hk => hT k (by omega)
    have hpe := period_eq (start := start) (path := path) (n := n) (by omega)
    have h2 := h1.snoc (Step.motion (call := jointCall) (c0 := MotionGenerator.new (.fin sf) (Arr.fin goal)) _ _ _ _ _ (period n) _ (outAt T path n) (cmd path n) rfl hpe.2 hpe.1 (called hp n) (converted hal n)
      (decide_eq_false (not_le.2 (hT n (by omega)))))
    have h3 := h2.snoc (.send _ _ _ _ 0)
    have h4 := h3.snoc (.next _ _ _ _ (moving start path (n + 1)) (by
      rw [UInt64.lt_iff_toNat_lt, id_moving (by omega), id_moving hn]; omega) (healthy (n + 1)))
    rw [time_moving (by omega)] at h4
    have e : Ev.robotReq request :: .accepted starting :: .accepted (moving start path 0) :: events start T path (n + 1) =
        (((.robotReq request :: .accepted starting :: .accepted (moving start path 0) :: events start T path n) ++
          [.motionCb .JointPositions (RobotState.ofIntern (moving start path n)) (period n) (outAt T path n)]) ++
          [.udpSend 0 ⟨(moving start path n).message_id, cmd path n, noTorques⟩]) ++ [.accepted (moving start path (n + 1))] := by
      simp [events]
    rw [e]
    exact h4

theorem run_all (hp : IsPlan sf goal start g0 T path)
    (hal : ∀ i n, Allowed (codeLimits i) ((samples (start i) (path i) (n + 1) - samples (start i) (path i) n) / 0.001) (rate (samples (start i) (path i)) n)
      (rate (rate (samples (start i) (path i))) n)) (hN : N ≤ 2 ^ 40) (h : ∀ k : ℕ, k < N → (k : ℝ) / 1000 < T) (hT : T ≤ (N : ℝ) / 1000) :
    Run jointCall (MotionGenerator.new (.fin sf) (Arr.fin goal)) (.before (Realize.s1 XR))
      (.robotReq request :: ([starting].map .accepted ++ .accepted (moving start path 0) :: (events start T path N ++ ending start T path N)))
      (.finishing (stopped N) (cmd path N) noTorques) := by
  have h1 := run_ready hp hal N hN h
  have hpe := period_eq (start := start) (path := path) (n := N) hN
  have h2 := h1.snoc (Step.motionEnd (call := jointCall) (c0 := MotionGenerator.new (.fin sf) (Arr.fin goal)) _ _ _ _ _ (period N) _ (outAt T path N) (cmd path N) hpe.2 hpe.1 (called hp N) (converted hal N) (decide_eq_true hT))
  have h3 := h2.snoc (.finish _ _ _ 0 (.inl (by show MotionGeneratorMode.JointPosition ≠ .Idle; nofun)))
  have h4 := h3.snoc (.finishNext _ _ _ (stopped N) (by rw [UInt64.lt_iff_toNat_lt, id_moving hN, id_stopped hN]; omega))
  have e : Ev.robotReq request :: ([starting].map .accepted ++ .accepted (moving start path 0) :: (events start T path N ++ ending start T path N)) =
      (((.robotReq request :: .accepted starting :: .accepted (moving start path 0) :: events start T path N) ++
        [.motionCb .JointPositions (RobotState.ofIntern (moving start path N)) (period N) (outAt T path N)]) ++
        [.udpSend 0 ⟨(moving start path N).message_id, { cmd path N with motion_generation_finished := true }, noTorques⟩]) ++ [.accepted (stopped N)] := by
    simp [ending]
  rw [e]
  exact h4

theorem events_mem {n : ℕ} {e : Ev XR} (h : e ∈ events start T path n) : (∃ k dt out, e = .motionCb .JointPositions (RobotState.ofIntern (moving start path k)) dt out) ∨
    (∃ a x, e = .udpSend a x) ∨ ∃ k ≤ n, e = .accepted (moving start path k) := by
  induction n with
  | zero => cases h
  | succ n ih =>
    unfold events at h
    simp only [List.mem_append, List.mem_cons, List.not_mem_nil, or_false] at h
    rcases h with h | rfl | rfl | rfl
    · rcases ih h with h | h | ⟨k, hk, h⟩
      · exact .inl h
      · exact .inr (.inl h)
      · exact .inr (.inr ⟨k, by omega, h⟩)
    · exact .inl ⟨_, _, _, rfl⟩
    · exact .inr (.inl ⟨_, _, rfl⟩)
    · exact .inr (.inr ⟨n + 1, le_rfl, rfl⟩)

/-- The states and their answers. -/
noncomputable def pairs (start : Fin 7 → ℝ) (path : Fin 7 → ℝ → ℝ) (n : ℕ) : List (RobotState XR × RobotCommand XR) :=
  (List.range n).map fun k => (RobotState.ofIntern (moving start path k), ⟨(moving start path k).message_id, cmd path k, noTorques⟩)

theorem events_exchanges (n : ℕ) : (events start T path n).foldl exchangeStep (none, []) = (none, pairs start path n) := by
  induction n with
  | zero => rfl
  | succ n ih =>
    unfold events
    rw [List.foldl_append, ih]
    unfold pairs
    rw [List.range_succ, List.map_append]
    rfl

theorem exchanges_eq : exchanges (Ev.robotReq request :: ([starting].map .accepted ++ .accepted (moving start path 0) :: (events start T path N ++ ending start T path N))) =
    pairs start path N ++ [(RobotState.ofIntern (moving start path N), ⟨(moving start path N).message_id, { cmd path N with motion_generation_finished := true }, noTorques⟩)] := by
  show ((events start T path N ++ ending start T path N).foldl exchangeStep (none, [])).2 = _
  rw [List.foldl_append, events_exchanges]
  rfl

theorem takes_over {n : ℕ} (hn : n + 1 ≤ 2 ^ 40) : TakesOver (RobotState.ofIntern (moving start path n)) (Arr.fin fun i => path i ((n : ℝ) / 1000))
    (RobotState.ofIntern (moving start path (n + 1))) := by
  refine ⟨?_, rfl, fun i => ?_, fun i => ?_⟩
  · rw [time_moving hn, time_moving (by omega)]
  · show vel start path (n + 1) i = (pos start path (n + 1) i - pos start path n i) / _
    unfold vel pos
    rw [Arr.fin_apply, Arr.fin_apply, Arr.fin_apply, XR.fin_sub, XR.fin_div _ _ (by norm_num)]
    rfl
  · show acc start path (n + 1) i = (vel start path (n + 1) i - vel start path n i) / _
    unfold acc vel
    rw [Arr.fin_apply, Arr.fin_apply, Arr.fin_apply, XR.fin_sub, XR.fin_div _ _ (by norm_num)]
    rfl

theorem pairs_length (n : ℕ) : (pairs start path n).length = n := by simp [pairs]

theorem pairs_follow (x : ℕ → RobotCommand XR) (hx : ∀ k, (x k).motion.q_c = Arr.fin fun i => path i ((k : ℝ) / 1000)) : ∀ n, n ≤ 2 ^ 40 + 1 →
    FollowsJoints start ((List.range n).map fun k => (RobotState.ofIntern (moving start path k), x k)) := by
  intro n hn
  refine ⟨?_, ?_⟩
  · intro p hp
    cases n with
    | zero => cases hp
    | succ n =>
      rw [List.range_succ_eq_map] at hp
      cases hp
      exact ⟨rfl, rfl, rfl⟩
  · rw [List.isChain_iff_getElem]
    intro k hk
    simp only [List.length_map, List.length_range] at hk
    simp only [List.getElem_map, List.getElem_range]
    rw [hx]
    exact takes_over (by omega)

/-- The motion happens, if its values have bit patterns. -/
theorem happens {c : RobotCall XR} (hc : IsControl c jointCall (MotionGenerator.new (.fin sf) (Arr.fin goal))) (hp : IsPlan sf goal start g0 T path)
    (hal : ∀ i n, Allowed (codeLimits i) ((samples (start i) (path i) (n + 1) - samples (start i) (path i) n) / 0.001) (rate (samples (start i) (path i)) n)
      (rate (rate (samples (start i) (path i))) n)) (hN4 : N ≤ 2 ^ 40) (hN2 : ∀ k : ℕ, k < N → (k : ℝ) / 1000 < T) (hN1 : T ≤ (N : ℝ) / 1000)
    (k0 : Wire.ofBits (Wire.toBits (lit 0 : XR)) = (lit 0 : XR)) (kp : ∀ n ≤ N, Kept (pos start path n) ∧ Kept (vel start path n) ∧ Kept (acc start path n)) :
    ∃ w, RobotReachable w ∧ (c.run w).1 = .ok () ∧ FollowsJoints start (exchanges (newEvents w (c.run w).2)) ∧
      ∃ st x, Exchange w c (answered w c - 1) st x ∧ x.motion.motion_generation_finished = true := by
  have kz : Kept zeros := fun _ => k0
  obtain ⟨w, g1, g2, g3⟩ := C65_every_such_motion_happens hc (run_all hp hal hN4 hN2 hN1)
    (by rintro (h | h) <;> first | exact h rfl | cases h)
    (by
      intro r hr
      rcases List.mem_append.1 hr with hr | hr
      · rcases events_mem hr with ⟨_, _, _, h⟩ | ⟨_, _, h⟩ | ⟨_, _, h⟩ <;> cases h
      · simp [ending] at hr)
    ⟨starting, rfl, rfl, rfl⟩
    (by
      intro s hs
      have hmv : ∀ n ≤ N, ∃ data, HoldsState (moving start path n) data := fun n hn => plainState_holds k0 (kp n hn).1 (kp n hn).2.1 (kp n hn).2.2
      rcases List.mem_append.1 hs with hs | hs
      · simp at hs
        rw [hs]
        exact plainState_holds k0 kz kz kz
      · rcases List.mem_cons.1 hs with hs | hs
        · cases hs
          exact hmv 0 (Nat.zero_le _)
        · rcases List.mem_append.1 hs with hs | hs
          · rcases events_mem hs with ⟨_, _, _, h⟩ | ⟨_, _, h⟩ | ⟨n, hn, h⟩ <;> cases h
            exact hmv n hn
          · simp [ending] at hs
            rw [hs]
            exact plainState_holds k0 kz kz kz)
  have he := (exchanges_alike g3).symm.trans exchanges_eq
  refine ⟨w, g1, g2, ?_, ?_⟩
  · rw [he]
    have := pairs_follow (start := start) (path := path) (fun k => if k = N then ⟨(moving start path k).message_id, { cmd path k with motion_generation_finished := true }, noTorques⟩
      else ⟨(moving start path k).message_id, cmd path k, noTorques⟩) (fun k => by split <;> rfl) (N + 1) (by omega)
    rw [List.range_succ, List.map_append] at this
    have e : pairs start path N = (List.range N).map fun k => (RobotState.ofIntern (moving start path k),
        (if k = N then ⟨(moving start path k).message_id, { cmd path k with motion_generation_finished := true }, noTorques⟩
      else ⟨(moving start path k).message_id, cmd path k, noTorques⟩ : RobotCommand XR)) := by
      unfold pairs
      refine List.map_congr_left fun k hk => ?_
      rw [if_neg (List.mem_range.1 hk).ne]
    rw [e]
    simpa using this
  · unfold Exchange answered
    rw [he, List.length_append, pairs_length, List.length_singleton, Nat.add_sub_cancel, List.getElem?_append_right (by rw [pairs_length]), pairs_length, Nat.sub_self]
    exact ⟨_, _, rfl, rfl⟩

end Following
open Following

theorem leastTime_le {V A D : ℝ} (hV : 0 < V) (hA : 0 < A) (hD : 0 < D) : leastTime V A D ≤ 3 * V / A + D / V := by
  have h1 := reach_pos hV hA hD
  have h2 := reach_le hV hA hD
  rw [leastTime_eq hV hA hD]
  by_cases h : D < 3 / 4 * (V ^ 2 / A) + 3 / 4 * (V ^ 2 / A)
  · have e : reach V A D ^ 2 = 2 / 3 * (A * D) := by
      unfold reach
      rw [if_pos h, Real.sq_sqrt (by positivity)]
      field_simp
      ring
    have e2 : D / reach V A D = 3 / 2 * reach V A D / A := by
      rw [div_eq_div_iff h1.ne' hA.ne']
      nlinarith
    rw [e2]
    have : 3 / 2 * reach V A D / A ≤ 3 / 2 * V / A := by gcongr
    have : 3 / 2 * V / A + 3 / 2 * V / A = 3 * V / A := by ring
    have : 0 < D / V := by positivity
    linarith
  · have e : reach V A D = V := by unfold reach; rw [if_neg h]
    rw [e]
    have : 3 / 2 * V / A ≤ 3 * V / A := by gcongr; norm_num
    linarith

/-- **C75**, without hypotheses on the robot: for every start and goal (that can be reached within some months) there is a robot that follows, and then `joint_motion`
returns Ok after the planned number of commands. -/
theorem C75_every_such_motion_happens [Geo XR] {sf : ℝ} {goal start : Fin 7 → ℝ} (hsf : 0 < sf) (hsf1 : sf ≤ 1) (hg : Gentle sf start goal)
    (hnear : ∀ i, |goal i - start i| ≤ 1000000 * sf) :
    ∃ (_ : Wire XR) (w : World XR), RobotReachable w ∧ ((RobotCall.joint_motion (.fin sf) (Arr.fin goal)).run w).1 = .ok () ∧
      FollowsJoints start (exchanges (newEvents w ((RobotCall.joint_motion (.fin sf) (Arr.fin goal)).run w).2)) ∧
      ∃ st x, Exchange w (.joint_motion (.fin sf) (Arr.fin goal)) (answered w (.joint_motion (.fin sf) (Arr.fin goal)) - 1) st x ∧
        x.motion.motion_generation_finished = true := by
  obtain ⟨T, path, h1, h2, h3, hT, g0, hp⟩ := plan_exists hsf goal start
  have hg' : sf ≤ 0.37 ∨ 0.0137 ≤ T := by
    rcases hg with hg | ⟨i, hi⟩
    · exact .inl hg
    · exact .inr (planned_time hsf hsf1 (h3 i) hi)
  have hal : ∀ i n, Allowed (codeLimits i) ((samples (start i) (path i) (n + 1) - samples (start i) (path i) n) / 0.001) (rate (samples (start i) (path i)) n)
      (rate (rate (samples (start i) (path i))) n) := fun i n => by
    obtain ⟨a, b, -, -, hab, hm⟩ := h2 i
    exact planned_allowed hsf hsf1 hg' (h3 i) hm (fun h => (hab h).1) n
  have hT' : T ≤ 1000000 := by
    rcases hT with rfl | ⟨j, hj, rfl⟩
    · norm_num
    · have hV := jointSpeed_pos j
      have hV2 : 2 ≤ jointSpeed j ∧ jointSpeed j ≤ 2.5 := by unfold jointSpeed; fin_cases j <;> norm_num
      have hA : jointAcceleration = 5 := rfl
      refine (leastTime_le (mul_pos hsf hV) (by rw [hA]; positivity) (lt_trans (by norm_num) hj)).trans ?_
      rw [hA]
      have e1 : 3 * (sf * jointSpeed j) / (sf * 5) = 3 / 5 * jointSpeed j := by field_simp
      have e2 : |goal j - start j| / (sf * jointSpeed j) ≤ 500000 := by
        rw [div_le_iff₀ (by positivity)]
        have := hnear j
        nlinarith
      rw [e1]
      linarith [hV2.2]
  obtain ⟨N, hN⟩ : ∃ N, N = ⌈1000 * T⌉₊ := ⟨_, rfl⟩
  have hN1 : T ≤ (N : ℝ) / 1000 := by
    rw [le_div_iff₀ (by norm_num), hN, mul_comm]
    exact Nat.le_ceil _
  have hN2 : ∀ k : ℕ, k < N → (k : ℝ) / 1000 < T := by
    intro k hk
    rw [hN, Nat.lt_ceil] at hk
    linarith
  have hN3 : N ≤ 1000000000 := by
    rw [hN, Nat.ceil_le]
    push_cast
    linarith
  have hN4 : N ≤ 2 ^ 40 := by omega
  obtain ⟨wire, k0, kp⟩ := wire_for (pos start path) (vel start path) (acc start path) hN3
  obtain ⟨w, g1, g2, g3, g4⟩ := happens (IsControl.jointMotion (.fin sf) (Arr.fin goal)) hp hal hN4 hN2 hN1 k0 kp
  exact ⟨wire, w, g1, g2, g3, g4⟩

/-- For example: all joints move by one radian, at full speed. -/
example [Geo XR] : ∃ (_ : Wire XR) (w : World XR), RobotReachable w ∧ ((RobotCall.joint_motion (.fin 1) (Arr.fin fun _ => 1)).run w).1 = .ok () ∧
    FollowsJoints (fun _ => 0) (exchanges (newEvents w ((RobotCall.joint_motion (.fin 1) (Arr.fin fun _ => 1)).run w).2)) := by
  obtain ⟨wire, w, h1, h2, h3, -⟩ := C75_every_such_motion_happens (sf := 1) (goal := fun _ => 1) (start := fun _ => 0) (by norm_num) (by norm_num)
    (.inr ⟨0, by norm_num⟩) (fun _ => by norm_num)
  exact ⟨wire, w, h1, h2, h3⟩

end Verif
