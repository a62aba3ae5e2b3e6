import Verif.Spec.Examples
import Verif.Lemmas.PlannedTorques
import Verif.Props.FollowHappens
/-!
# The communication test: C83
-/
set_option linter.unusedSectionVars false
namespace Verif
open Prog Spec Fl

namespace Communication
variable {F : Type} [Fl F]

/-- The control call. -/
def call : ControlCall F (Examples.CommunicationState F) .JointVelocities :=
  { motion := fun c _ _ => (c, ({ dq := fun _ => Fl.lit 0, motion_finished := false } : JointVelocities F)), torque := some Examples.communication_callback,
    controller := .ExternalController, limit_rate := (some false).getD true, cutoff := (some (lit 1000)).getD (lit 100) }

theorem isControl : IsControl (communicationTest (F := F)) call Examples.CommunicationState.new := .torques _ _ _ _ _

theorem still (c : Examples.CommunicationState F) (st : RobotState F) (dt : ℕ) : (call.motion c st dt).1 = c ∧ (call.motion c st dt).2.is_finished = false := ⟨rfl, rfl⟩

/-- One call of the callback. -/
theorem step_time (c : Examples.CommunicationState F) (st : RobotState F) (dt : ℕ) : (Examples.communication_callback c st dt).1.time = c.time + dt := by
  unfold Examples.communication_callback
  dsimp only
  split <;> rfl

theorem step_counter (c : Examples.CommunicationState F) (st : RobotState F) (dt : ℕ) :
    (Examples.communication_callback c st dt).1.counter = if c.time + dt = 0 then c.counter else c.counter + 1 := by
  unfold Examples.communication_callback
  dsimp only
  split <;> rfl

theorem step_finished (c : Examples.CommunicationState F) (st : RobotState F) (dt : ℕ) :
    (Examples.communication_callback c st dt).2.is_finished = decide (10000 ≤ c.time + dt) := by
  unfold Examples.communication_callback
  dsimp only
  split
  · next h => rw [h]; rfl
  · by_cases h : 10000 ≤ c.time + dt
    · rw [decide_eq_true h]
      simp only [if_pos h]
      rfl
    · rw [decide_eq_false h]
      simp only [if_neg h]
      rfl

theorem step_torques (c : Examples.CommunicationState F) (st : RobotState F) (dt : ℕ) : (Examples.communication_callback c st dt).2.tau_J = fun _ => lit 0 := by
  unfold Examples.communication_callback
  dsimp only
  split
  · rfl
  · by_cases h : 10000 ≤ c.time + dt
    · simp only [if_pos h]
      rfl
    · simp only [if_neg h]
      rfl

/-- The last time stamp. -/
def lastTime (x0 : RobotState F × ℕ) (xs : List (RobotState F × ℕ)) : ℕ := (xs.getLast?.getD x0).1.time

theorem lastTime_snoc (x0 : RobotState F × ℕ) (xs : List (RobotState F × ℕ)) (x : RobotState F × ℕ) : lastTime x0 (xs ++ [x]) = x.1.time := by
  unfold lastTime
  rw [List.getLast?_concat]
  rfl

theorem timed_snoc {x0 : RobotState F × ℕ} {xs : List (RobotState F × ℕ)} {x : RobotState F × ℕ} (h : Timed (x0 :: (xs ++ [x]))) :
    Timed (x0 :: xs) ∧ lastTime x0 xs < x.1.time ∧ x.2 = x.1.time - lastTime x0 xs := by
  obtain ⟨h1, h2⟩ := h
  rw [← List.cons_append, List.isChain_append] at h2
  obtain ⟨h2, -, h3⟩ := h2
  refine ⟨⟨h1, h2⟩, ?_⟩
  refine h3 _ ?_ x (by simp)
  rw [Option.mem_def]
  cases xs using List.reverseRecOn with
  | nil => rfl
  | append_singleton xs y => rw [← List.cons_append, List.getLast?_concat, List.getLast?_concat]; rfl

theorem timed_le {x0 : RobotState F × ℕ} {xs : List (RobotState F × ℕ)} (h : Timed (x0 :: xs)) : x0.1.time + xs.length ≤ lastTime x0 xs := by
  induction xs using List.reverseRecOn with
  | nil => exact le_rfl
  | append_singleton xs x ih =>
    obtain ⟨h1, h2, h3⟩ := timed_snoc h
    have := ih h1
    rw [lastTime_snoc, List.length_append, List.length_singleton]
    omega

/-- The counters. -/
theorem counters {x0 : RobotState F × ℕ} {xs : List (RobotState F × ℕ)} (h : Timed (x0 :: xs)) :
    (capturedAfter Examples.communication_callback .new (x0 :: xs)).time = lastTime x0 xs - x0.1.time ∧
      (capturedAfter Examples.communication_callback .new (x0 :: xs)).counter = xs.length := by
  induction xs using List.reverseRecOn with
  | nil =>
    have h0 : x0.2 = 0 := h.1 _ rfl
    have e : capturedAfter Examples.communication_callback .new [x0] = (Examples.communication_callback (.new : Examples.CommunicationState F) x0.1 x0.2).1 := rfl
    rw [e, step_time, step_counter, h0]
    exact ⟨(Nat.sub_self _).symm, rfl⟩
  | append_singleton xs x ih =>
    obtain ⟨h1, h2, h3⟩ := timed_snoc h
    obtain ⟨i1, i2⟩ := ih h1
    have hle := timed_le h1
    rw [← List.cons_append, capturedAfter_snoc, step_time, step_counter, i1, i2, lastTime_snoc, List.length_append, List.length_singleton]
    refine ⟨by omega, ?_⟩
    rw [if_neg (by omega)]

theorem times_sorted {x0 : RobotState F × ℕ} {xs : List (RobotState F × ℕ)} (h : Timed (x0 :: xs)) : ((x0 :: xs).map (·.1.time)).Pairwise (· < ·) := by
  rw [← List.isChain_iff_pairwise, List.isChain_map]
  exact h.2.imp fun _ _ h => h.1

/-- The time stamps without a call. -/
theorem missing_card {x0 : RobotState F × ℕ} {xs : List (RobotState F × ℕ)} (h : Timed (x0 :: xs)) :
    ((Finset.Ioc x0.1.time (lastTime x0 xs)).filter fun t => ∀ x ∈ x0 :: xs, x.1.time ≠ t).card = lastTime x0 xs - x0.1.time - xs.length := by
  have hs := times_sorted h
  rw [List.map_cons, List.pairwise_cons] at hs
  have hlast : ∀ x ∈ xs, x.1.time ≤ lastTime x0 xs := by
    intro x hx
    cases xs using List.reverseRecOn with
    | nil => cases hx
    | append_singleton xs y =>
      rw [lastTime_snoc]
      rcases List.mem_append.1 hx with hx | hx
      · have := hs.2
        rw [List.map_append, List.pairwise_append] at this
        exact (this.2.2 _ (List.mem_map_of_mem hx) y.1.time (by simp)).le
      · rw [List.mem_singleton.1 hx]
  have hsub : (xs.map (·.1.time)).toFinset ⊆ Finset.Ioc x0.1.time (lastTime x0 xs) := by
    intro t ht
    obtain ⟨x, hx, rfl⟩ := List.mem_map.1 (List.mem_toFinset.1 ht)
    exact Finset.mem_Ioc.2 ⟨hs.1 _ (List.mem_map_of_mem hx), hlast x hx⟩
  have e : (Finset.Ioc x0.1.time (lastTime x0 xs)).filter (fun t => ∀ x ∈ x0 :: xs, x.1.time ≠ t) = Finset.Ioc x0.1.time (lastTime x0 xs) \ (xs.map (·.1.time)).toFinset := by
    ext t
    simp only [Finset.mem_filter, Finset.mem_sdiff, List.mem_toFinset, List.mem_map, not_exists, not_and, List.forall_mem_cons]
    constructor
    · rintro ⟨h1, -, h2⟩
      exact ⟨h1, h2⟩
    · rintro ⟨h1, h2⟩
      exact ⟨h1, fun he => absurd (Finset.mem_Ioc.1 h1).1 (by omega), h2⟩
  rw [e, Finset.card_sdiff_of_subset hsub, Nat.card_Ioc, List.toFinset_card_of_nodup (hs.2.imp fun h => Nat.ne_of_lt h), List.length_map]

end Communication
open Communication

section
variable {F : Type} [Fl F] [Wire F] [Geo F] {w : World F} (hw : RobotReachable w)
include hw

/-- **C83**: what the communication test counts. `x0` is the first call of the callback, `xs` are the later ones. The counter is the number of later calls, the time is
the one between the first and the last state, and the number of lost states is that of the milliseconds in between at which the callback was not called; computing it
does not overflow. -/
theorem C83_counters {x0 : RobotState F × ℕ} {xs : List (RobotState F × ℕ)} (h : torqueCalls (newEvents w (communicationTest.run w).2) = x0 :: xs) :
    (counted (newEvents w (communicationTest.run w).2)).counter = xs.length ∧
    (counted (newEvents w (communicationTest.run w).2)).time = (xs.getLast?.getD x0).1.time - x0.1.time ∧
    (counted (newEvents w (communicationTest.run w).2)).lost_robot_states =
      some ((Finset.Ioc x0.1.time (xs.getLast?.getD x0).1.time).filter fun t => ∀ x ∈ x0 :: xs, x.1.time ≠ t).card := by
  have ht := (C27_callback_timing hw isControl).2.1
  unfold counted
  rw [h] at ht ⊢
  obtain ⟨h1, h2⟩ := counters ht
  refine ⟨h2, h1, ?_⟩
  have h3 := missing_card ht
  have h4 := timed_le ht
  unfold Examples.CommunicationState.lost_robot_states
  rw [h1, h2, if_pos (by omega)]
  exact congrArg some h3.symm

/-- **C83**: if the control call returns Ok, then the test has gone on for ten seconds, until the first state after that. -/
theorem C83_duration (hok : (communicationTest.run w).1 = .ok ()) : ∃ x0 xs, torqueCalls (newEvents w (communicationTest.run w).2) = x0 :: xs ∧ xs ≠ [] ∧
    10000 ≤ (counted (newEvents w (communicationTest.run w).2)).time ∧ ∀ x ∈ (x0 :: xs).dropLast, x.1.time - x0.1.time < 10000 := by
  have ht := (C27_callback_timing hw isControl).2.1
  have hth := call_thread hw isControl rfl still
  obtain ⟨pre, x, hx, hfin⟩ := call_thread_ok hw isControl rfl still hok
  have hcalls := torqueRecords_calls (newEvents w (communicationTest.run w).2)
  have hcalls' := hcalls
  rw [hx, List.map_append, List.map_singleton] at hcalls
  have hout := (hth pre x [] hx).1
  rw [hout, step_finished] at hfin
  have h10 := of_decide_eq_true hfin
  have htime : (counted (newEvents w (communicationTest.run w).2)).time = (capturedAfter Examples.communication_callback .new (pre.map (·.1))).time + x.1.2 := by
    unfold counted
    rw [← hcalls, capturedAfter_snoc, step_time]
  cases pre with
  | nil =>
    exfalso
    rw [← hcalls] at ht
    have : x.1.2 = 0 := ht.1 _ rfl
    rw [this] at h10
    exact absurd h10 (by simp [capturedAfter, Examples.CommunicationState.new])
  | cons p0 ps =>
    refine ⟨p0.1, ps.map (·.1) ++ [x.1], hcalls.symm, by simp, by rw [htime]; exact h10, ?_⟩
    intro y hy
    rw [← List.cons_append, List.dropLast_concat, ← List.map_cons] at hy
    obtain ⟨z, hz, rfl⟩ := List.mem_map.1 hy
    obtain ⟨s, t, hst⟩ := List.append_of_mem hz
    have hz1 := hth s z (t ++ [x]) (by rw [hx, hst]; simp)
    have hz2 := (hth (p0 :: ps) x [] hx).2 z hz
    rw [hz1.1, step_finished] at hz2
    have hz3 := of_decide_eq_false hz2
    -- the time so far
    have hpre : Timed ((s ++ [z]).map (·.1)) := by
      rw [← hcalls, hst] at ht
      have : List.map (·.1) (s ++ z :: t) ++ [x.1] = (s ++ [z]).map (·.1) ++ (t.map (·.1) ++ [x.1]) := by simp
      rw [this] at ht
      refine ⟨fun a ha => ht.1 a ?_, (List.isChain_append.1 ht.2).1⟩
      rw [List.head?_append]
      cases s <;> exact ha
    cases s with
    | nil =>
      cases hst
      omega
    | cons s0 ss =>
      cases hst
      have hcs := (counters (xs := ss.map (·.1) ++ [z.1]) (x0 := p0.1) (by simpa using hpre)).1
      rw [← List.cons_append, capturedAfter_snoc, step_time, lastTime_snoc] at hcs
      rw [List.map_cons] at hz3
      omega

end

/-! ## The success rates -/

namespace Communication

/-- The rates after the first call. -/
theorem rates {x0 : RobotState XR × ℕ} {xs : List (RobotState XR × ℕ)} (h : Timed (x0 :: xs))
    (hr : ∀ x ∈ xs, x.1.control_command_success_rate = .fin (successRate x.1)) :
    ∃ a b c, (capturedAfter Examples.communication_callback .new (x0 :: xs)).avg_success_rate = .fin a ∧ a = (xs.map fun x => successRate x.1).sum ∧
      (capturedAfter Examples.communication_callback .new (x0 :: xs)).max_success_rate = .fin b ∧ IsGreatest (insert 0 {r | ∃ x ∈ xs, r = successRate x.1}) b ∧
      (capturedAfter Examples.communication_callback .new (x0 :: xs)).min_success_rate = .fin c ∧ IsLeast (insert 1 {r | ∃ x ∈ xs, r = successRate x.1}) c := by
  induction xs using List.reverseRecOn with
  | nil =>
    have h0 : x0.2 = 0 := h.1 _ rfl
    have e : capturedAfter Examples.communication_callback .new [x0] = (Examples.communication_callback (.new : Examples.CommunicationState XR) x0.1 x0.2).1 := rfl
    have e2 : (Examples.communication_callback (.new : Examples.CommunicationState XR) x0.1 0).1 = .new := rfl
    rw [e, h0, e2]
    refine ⟨0, 0, 1, ?_, rfl, ?_, ?_, ?_, ?_⟩
    · show (lit 0 : XR) = _; rw [XR.lit_fin]; norm_num
    · show (lit 0 : XR) = _; rw [XR.lit_fin]; norm_num
    · simp [IsGreatest, upperBounds]
    · show (lit 1 : XR) = _; rw [XR.lit_fin]; norm_num
    · simp [IsLeast, lowerBounds]
  | append_singleton xs x ih =>
    obtain ⟨h1, h2, h3⟩ := timed_snoc h
    obtain ⟨a, b, c, i1, i2, i3, i4, i5, i6⟩ := ih h1 fun y hy => hr y (List.mem_append_left _ hy)
    have hx := hr x (by simp)
    have ht := (counters h1).1
    have hle := timed_le h1
    rw [← List.cons_append, capturedAfter_snoc]
    generalize capturedAfter Examples.communication_callback .new (x0 :: xs) = st at i1 i3 i5 ht ⊢
    have e : (Examples.communication_callback st x.1 x.2).1 = { time := st.time + x.2, counter := st.counter + 1, avg_success_rate := .fin (a + successRate x.1), max_success_rate := .fin (max b (successRate x.1)), min_success_rate := .fin (min c (successRate x.1)) } := by
      unfold Examples.communication_callback
      dsimp only
      rw [if_neg (by omega), hx, i1, i3, i5, XR.fin_add, XR.flt_fin, XR.flt_fin]
      simp only [Examples.CommunicationState.mk.injEq, true_and]
      constructor
      · by_cases hb : successRate x.1 < c
        · rw [decide_eq_true hb, if_pos rfl, min_eq_right hb.le]
        · rw [decide_eq_false hb, if_neg nofun, min_eq_left (not_lt.1 hb)]
      · by_cases hb : b < successRate x.1
        · rw [decide_eq_true hb, if_pos rfl, max_eq_right hb.le]
        · rw [decide_eq_false hb, if_neg nofun, max_eq_left (not_lt.1 hb)]
    rw [e]
    have hset : {r | ∃ y ∈ xs ++ [x], r = successRate y.1} = insert (successRate x.1) {r | ∃ y ∈ xs, r = successRate y.1} := by
      ext r
      simp only [Set.mem_ofPred_eq, List.mem_append, List.mem_singleton, Set.mem_insert_iff]
      constructor
      · rintro ⟨y, hy | hy, e⟩
        · exact .inr ⟨y, hy, e⟩
        · rw [hy] at e
          exact .inl e
      · rintro (e | ⟨y, hy, e⟩)
        · exact ⟨x, .inr rfl, e⟩
        · exact ⟨y, .inl hy, e⟩
    refine ⟨_, _, _, rfl, ?_, rfl, ?_, rfl, ?_⟩
    · rw [List.map_append, List.sum_append, ← i2]
      simp
    · rw [hset, Set.insert_comm, max_comm]
      exact i4.insert _
    · rw [hset, Set.insert_comm, min_comm]
      exact i6.insert _

end Communication

section
variable [Wire XR] [Geo XR] {w : World XR} (hw : RobotReachable w)
include hw

/-- **C83**: the success rates, as real numbers. If the states after the first one show rates between 0 and 1, then the average, the greatest and the least of
them are what the test prints. -/
theorem C83_success_rates {x0 : RobotState XR × ℕ} {xs : List (RobotState XR × ℕ)} (h : torqueCalls (newEvents w (communicationTest.run w).2) = x0 :: xs) (hne : xs ≠ [])
    (hr : ∀ x ∈ xs, x.1.control_command_success_rate = .fin (successRate x.1) ∧ 0 ≤ successRate x.1 ∧ successRate x.1 ≤ 1) :
    (counted (newEvents w (communicationTest.run w).2)).average = .fin ((xs.map fun x => successRate x.1).sum / xs.length) ∧
    (∃ r, (counted (newEvents w (communicationTest.run w).2)).max_success_rate = .fin r ∧ IsGreatest {r | ∃ x ∈ xs, r = successRate x.1} r) ∧
    ∃ r, (counted (newEvents w (communicationTest.run w).2)).min_success_rate = .fin r ∧ IsLeast {r | ∃ x ∈ xs, r = successRate x.1} r := by
  have ht := (C27_callback_timing hw isControl).2.1
  unfold counted
  rw [h] at ht ⊢
  obtain ⟨a, b, c, h1, rfl, h3, h4, h5, h6⟩ := rates ht fun x hx => (hr x hx).1
  obtain ⟨y, ys, rfl⟩ := List.exists_cons_of_ne_nil hne
  refine ⟨?_, ⟨b, h3, ?_, fun r hr => h4.2 (Set.mem_insert_of_mem _ hr)⟩, c, h5, ?_, fun r hr => h6.2 (Set.mem_insert_of_mem _ hr)⟩
  · unfold Examples.CommunicationState.average
    rw [h1, (counters ht).2]
    show XR.fin _ / XR.fin _ = _
    rw [XR.fin_div _ _ (by simp; positivity)]
  · rcases h4.1 with rfl | h
    · have := h4.2 (Set.mem_insert_of_mem _ ⟨y, List.mem_cons_self, rfl⟩)
      exact ⟨y, List.mem_cons_self, le_antisymm (hr y List.mem_cons_self).2.1 this⟩
    · exact h
  · rcases h6.1 with rfl | h
    · have := h6.2 (Set.mem_insert_of_mem _ ⟨y, List.mem_cons_self, rfl⟩)
      exact ⟨y, List.mem_cons_self, le_antisymm this (hr y List.mem_cons_self).2.2⟩
    · exact h

/-- **C83**: the robot is told to apply no torques. -/
theorem C83_no_torques {n : ℕ} {st : RobotState XR} {x : RobotCommand XR} (h : Exchange w communicationTest n st x) : x.control.tau_J_d = Arr.fin fun _ => 0 := by
  obtain ⟨pre, t, g1, g2, g3, g4, g5⟩ := turn_at hw isControl h
  rcases g1.torque with g | g
  · rcases g.why with g' | g'
    · cases g'
    · rw [g1.moved.out] at g'
      cases g'
  · obtain ⟨o, τ, e1, e2, e3⟩ := g.conv
    obtain ⟨f, e4, e5⟩ := g.out
    have e6 := torques_same e2 (by
      show flt (lit 1000 : XR) MAX_CUTOFF_FREQUENCY = false
      rw [MAX_CUTOFF_FREQUENCY, XR.lit_fin, XR.flt_fin]
      simp)
    rw [← g4, e3]
    show τ = _
    rw [e6]
    rw [e1] at e5
    injection e5 with e5
    cases e4
    rw [e5, step_torques]
    funext i
    rw [XR.lit_fin]
    simp

end

/-! ## The test happens -/

namespace Communication

/-- A state that shows this success rate. -/
noncomputable def shows (r : ℝ) : RobotState XR := { RobotState.ofIntern (RobotStateIntern.dummy XR) with control_command_success_rate := .fin r }

theorem step_of {c : Examples.CommunicationState XR} {st : RobotState XR} {r : ℝ} (h : st.control_command_success_rate = .fin r) (dt : ℕ) :
    Examples.communication_callback c st dt = Examples.communication_callback c (shows r) dt := by
  unfold Examples.communication_callback
  rw [h]
  rfl

/-- What the callback has counted. -/
noncomputable def counts (r : ℕ → ℝ) : ℕ → Examples.CommunicationState XR
  | 0 => .new
  | n + 1 => (Examples.communication_callback (counts r n) (shows (r n)) (periodOf n)).1

noncomputable def out (r : ℕ → ℝ) (n : ℕ) : Torques XR := (Examples.communication_callback (counts r n) (shows (r n)) (periodOf n)).2

theorem counts_time (r : ℕ → ℝ) (n : ℕ) : (counts r n).time = n - 1 := by
  induction n with
  | zero => rfl
  | succ n ih =>
    rw [counts, step_time, ih]
    cases n with
    | zero => rfl
    | succ n => rfl

theorem out_finished (r : ℕ → ℝ) (n : ℕ) : (out r n).is_finished = decide (10000 ≤ n) := by
  unfold out
  rw [step_finished, counts_time]
  cases n with
  | zero => rfl
  | succ n => rfl

theorem zero_eq (n : ℕ) : (fun _ => lit 0 : Arr XR n) = Arr.fin fun _ => 0 := by
  funext i
  rw [XR.lit_fin]
  simp

theorem cutoff_off : flt (call (F := XR)).cutoff MAX_CUTOFF_FREQUENCY = false := by
  show flt (lit 1000 : XR) MAX_CUTOFF_FREQUENCY = false
  rw [MAX_CUTOFF_FREQUENCY, XR.lit_fin, XR.flt_fin]
  simp

theorem plan [Geo XR] (r : ℕ → ℝ) : IsTorquePlanOf call Examples.communication_callback .new (counts r) (out r) noMotion (fun _ => Arr.fin fun _ => 0)
    (fun n st => st.control_command_success_rate = .fin (r n)) where
  torque := rfl
  still _ _ _ := rfl
  start := rfl
  called n st h := by rw [step_of h]; rfl
  stays n st _ := by
    show JointVelocities.convert_motion _ _ _ _ false = _
    unfold JointVelocities.convert_motion
    rw [cutoff_off]
    simp only [Bool.false_eq_true, if_false, pure_bind]
    rw [zero_eq, assertFinite_fin, P_bind_ok_eq, ← zero_eq]
    cases n <;> rfl
  converted n st _ := by
    unfold ControlLoop.convert_torques
    rw [cutoff_off]
    show (do assertFinite (out r n).tau_J; return (out r n).tau_J) = _
    unfold out
    rw [step_torques, zero_eq, assertFinite_fin]
    rfl

end Communication

/-- **C83**: a test with these success rates happens. -/
theorem C83_happens [Geo XR] (r : ℕ → ℝ) : ∃ (_ : Wire XR) (w : World XR), RobotReachable w ∧ (communicationTest.run w).1 = .ok () ∧
    (torqueCalls (newEvents w (communicationTest.run w).2)).length = 10001 ∧
    ∀ (n : ℕ) (x : RobotState XR × ℕ), (torqueCalls (newEvents w (communicationTest.run w).2))[n]? = some x → x.1.control_command_success_rate = .fin (r n) := by
  obtain ⟨wire, k0, kp⟩ := Following.wire_for (N := 10000) (fun n => Arr.fin fun _ => r n) (fun _ => Arr.fin fun _ => 0) (fun _ => Arr.fin fun _ => 0) (by norm_num)
  obtain ⟨w, g1, g2, g3, -⟩ := (plan r).happens (torque_robot_for (by norm_num : 10000 ≤ 2 ^ 40) (fun _ _ => lit 0) (fun n => .fin (r n)) k0 (fun _ _ _ => k0)
    (fun n hn => (kp n hn).1 0) fun n st _ _ e _ _ => e)
    (fun n hn => by rw [out_finished]; exact decide_eq_false (by omega)) (by rw [out_finished]; exact decide_eq_true le_rfl) isControl
  have hl := torqueRecords_calls (newEvents w (communicationTest.run w).2)
  rw [g3, List.map_map] at hl
  refine ⟨wire, w, g1, g2, ?_, ?_⟩
  · rw [← hl, List.length_map, List.length_range]
  · intro n x hx
    rw [← hl, List.getElem?_map] at hx
    obtain ⟨m, hm, rfl⟩ := Option.map_eq_some_iff.1 hx
    obtain ⟨hm1, hm2⟩ := List.getElem?_eq_some_iff.1 hm
    rw [List.getElem_range] at hm2
    rw [hm2]
    rfl

/-- So the hypotheses of the other theorems can be met, with rates that are not all the same. -/
example [Geo XR] : ∃ (_ : Wire XR) (w : World XR) (x0 : RobotState XR × ℕ) (xs : List (RobotState XR × ℕ)), RobotReachable w ∧ (communicationTest.run w).1 = .ok () ∧
    torqueCalls (newEvents w (communicationTest.run w).2) = x0 :: xs ∧ xs.length = 10000 ∧
    (∀ x ∈ xs, x.1.control_command_success_rate = .fin (successRate x.1) ∧ 0 ≤ successRate x.1 ∧ successRate x.1 ≤ 1) ∧
    ∃ x ∈ xs, ∃ y ∈ xs, successRate x.1 = 1 / 2 ∧ successRate y.1 = 1 / 3 := by
  obtain ⟨wire, w, h1, h2, h3, h4⟩ := C83_happens fun n => 1 / ((n : ℝ) + 1)
  generalize hl : torqueCalls (newEvents w (communicationTest.run w).2) = l at h3 h4
  match l, h3 with
  | x0 :: xs, h3 =>
    rw [List.length_cons] at h3
    have hs : ∀ (n : ℕ) (x : RobotState XR × ℕ), xs[n]? = some x → x.1.control_command_success_rate = .fin (1 / ((n : ℝ) + 2)) := by
      intro n x hx
      rw [h4 (n + 1) x (by rw [List.getElem?_cons_succ]; exact hx)]
      push_cast
      norm_num
      ring_nf
    have hr : ∀ (n : ℕ) (x : RobotState XR × ℕ), xs[n]? = some x → successRate x.1 = 1 / ((n : ℝ) + 2) := by
      intro n x hx
      unfold successRate
      rw [hs n x hx]
    refine ⟨wire, w, x0, xs, h1, h2, hl, by omega, ?_, ?_⟩
    · intro x hx
      obtain ⟨n, hn⟩ := List.getElem?_of_mem hx
      rw [hs n x hn, hr n x hn]
      refine ⟨rfl, by positivity, ?_⟩
      rw [div_le_one (by positivity)]
      have : (0 : ℝ) ≤ n := Nat.cast_nonneg n
      linarith
    · have e0 : xs[0]? = some xs[0] := List.getElem?_eq_getElem (by omega)
      have e1 : xs[1]? = some xs[1] := List.getElem?_eq_getElem (by omega)
      refine ⟨xs[0], List.getElem_mem _, xs[1], List.getElem_mem _, ?_, ?_⟩
      · rw [hr 0 _ e0]; norm_num
      · rw [hr 1 _ e1]; norm_num

end Verif
