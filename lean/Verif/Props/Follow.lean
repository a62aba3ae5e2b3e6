import Verif.Spec.Follow
import Verif.Lemmas.Follow
import Verif.Props.ExchangeExample
/-!
# `joint_motion` goes as planned: C75

Doubles are real numbers here (`Spec/Real.lean`), with any bit patterns.
-/
set_option linter.unusedSectionVars false
namespace Verif
open Prog Fl Spec

theorem Spec.FollowsJoints.init {start : Fin 7 → ℝ} {l : List (RobotState XR × RobotCommand XR)} {p} (h : FollowsJoints start (l ++ [p])) : FollowsJoints start l := by
  refine ⟨fun q hq => h.first q ?_, ?_⟩
  · cases l with
    | nil => cases hq
    | cons a l => exact hq
  · have := h.next
    rw [List.isChain_append] at this
    exact this.1

/-- A plan: the generator after its first call, the duration and the paths. -/
structure IsPlan (sf : ℝ) (goal start : Fin 7 → ℝ) (g0 : MotionGenerator XR) (T : ℝ) (path : Fin 7 → ℝ → ℝ) : Prop where
  first : ∀ st : RobotState XR, st.q_d = Arr.fin start →
    (MotionGenerator.new (.fin sf) (Arr.fin goal)).generate_motion st 0 = (g0, ⟨decide (T ≤ 0), Arr.fin fun i => path i 0⟩)
  time : g0.time = .fin 0
  later : ∀ (n : ℕ) (st : RobotState XR), MotionGenerator.generate_motion { g0 with time := .fin ((n : ℝ) / 1000) } st 1 =
    ({ g0 with time := .fin (((n + 1 : ℕ) : ℝ) / 1000) }, ⟨decide (T ≤ ((n + 1 : ℕ) : ℝ) / 1000), Arr.fin fun i => path i (((n + 1 : ℕ) : ℝ) / 1000)⟩)

theorem plan_exists {sf : ℝ} (hsf : 0 < sf) (goal start : Fin 7 → ℝ) : ∃ (T : ℝ) (path : Fin 7 → ℝ → ℝ), 0 ≤ T ∧
    (∀ i, ∃ a b, |a - start i| ≤ 1 / 1000000 ∧ |b - goal i| ≤ 1 / 1000000 ∧ (1 / 1000000 < |goal i - start i| → a = start i ∧ b = goal i) ∧
      Move a b (sf * jointSpeed i) (sf * jointAcceleration) T (path i)) ∧
    (∀ i, PlannedJoint (start i) (goal i - start i) (sf * jointAcceleration) T (path i)) ∧
    (T = 0 ∨ ∃ j, 1 / 1000000 < |goal j - start j| ∧ T = leastTime (sf * jointSpeed j) (sf * jointAcceleration) |goal j - start j|) ∧
    ∃ g0, IsPlan sf goal start g0 T path := by
  let s0 : RobotState XR := RobotState.ofIntern { RobotStateIntern.dummy XR with q_d := Arr.fin start }
  obtain ⟨T, path, h1, h2, h3, hT, h4⟩ := first_call_planned sf hsf goal start s0 rfl
  obtain ⟨g0, hg0⟩ : ∃ g0, g0 = ((MotionGenerator.new (XR.fin sf) (Arr.fin goal)).generate_motion s0 0).1 := ⟨_, rfl⟩
  refine ⟨T, path, h1, h2, h3, hT, g0, ?_⟩
  rw [← hg0] at h4
  have ht : ((MotionGenerator.new (XR.fin sf) (Arr.fin goal)).time + secs 0 : XR) = .fin 0 := by
    show (lit 0 + secs 0 : XR) = _
    rw [XR.lit_fin, XR.secs_fin, XR.fin_add]
    norm_num
  have h0 : feq (XR.fin 0) (lit 0 : XR) = true := by
    rw [XR.lit_fin, XR.feq_fin]
    norm_num
  have htime : g0.time = .fin 0 := by
    rw [hg0]
    unfold MotionGenerator.generate_motion
    simp only [ht, h0, if_true]
    rfl
  have hsame : { g0 with time := XR.fin 0 } = g0 := by rw [← htime]
  have hfirst : ∀ st : RobotState XR, st.q_d = Arr.fin start → (MotionGenerator.new (.fin sf) (Arr.fin goal)).generate_motion st 0 =
      (g0, ⟨(g0.calculate_desired_values (.fin 0)).2, Arr.add g0.q_start (g0.calculate_desired_values (.fin 0)).1⟩) := by
    intro st hst
    have e : ∀ st : RobotState XR, st.q_d = Arr.fin start → (MotionGenerator.new (XR.fin sf) (Arr.fin goal)).generate_motion st 0 =
        (MotionGenerator.new (XR.fin sf) (Arr.fin goal)).generate_motion s0 0 := by
      intro st hst
      have hs0 : s0.q_d = Arr.fin start := rfl
      unfold MotionGenerator.generate_motion
      rw [hst, hs0]
    rw [e st hst, hg0]
    unfold MotionGenerator.generate_motion
    simp only [ht, h0, if_true]
    rfl
  refine ⟨?_, htime, ?_⟩
  · intro st hst
    rw [hfirst st hst]
    obtain ⟨e1, e2⟩ := h4 g0 0 le_rfl hsame
    rw [e1, e2]
  · intro n st
    unfold MotionGenerator.generate_motion
    have e : (XR.fin ((n : ℝ) / 1000) + secs 1 : XR) = .fin (((n + 1 : ℕ) : ℝ) / 1000) := by
      rw [XR.secs_fin, XR.fin_add]
      congr 1
      push_cast
      ring
    have e0 : feq (XR.fin (((n + 1 : ℕ) : ℝ) / 1000)) (lit 0 : XR) = false := by
      rw [XR.lit_fin, XR.feq_fin]
      have : (0 : ℝ) < ((n + 1 : ℕ) : ℝ) / 1000 := by positivity
      rw [decide_eq_false]
      push_cast
      push_cast at this
      linarith
    simp only [e, e0, Bool.false_eq_true, if_false]
    obtain ⟨e1, e2⟩ := h4 { g0 with time := XR.fin (((n + 1 : ℕ) : ℝ) / 1000) } (((n + 1 : ℕ) : ℝ) / 1000) (by positivity) hsame
    rw [e1, e2]

/-- The generator after `n` calls. -/
noncomputable def genAt (sf : ℝ) (goal : Fin 7 → ℝ) (g0 : MotionGenerator XR) : ℕ → MotionGenerator XR
  | 0 => MotionGenerator.new (.fin sf) (Arr.fin goal)
  | n + 1 => { g0 with time := .fin ((n : ℝ) / 1000) }

section
variable {sf : ℝ} {goal start : Fin 7 → ℝ} {g0 : MotionGenerator XR} {T : ℝ} {path : Fin 7 → ℝ → ℝ}

/-- The output of the `n`-th call. -/
noncomputable def outAt (T : ℝ) (path : Fin 7 → ℝ → ℝ) (n : ℕ) : JointPositions XR := ⟨decide (T ≤ (n : ℝ) / 1000), Arr.fin fun i => path i ((n : ℝ) / 1000)⟩

theorem IsPlan.call (h : IsPlan sf goal start g0 T path) {n dt : ℕ} {st : RobotState XR} (h0 : n = 0 → dt = 0 ∧ st.q_d = Arr.fin start) (h1 : n ≠ 0 → dt = 1) :
    (genAt sf goal g0 n).generate_motion st dt = (genAt sf goal g0 (n + 1), outAt T path n) := by
  cases n with
  | zero =>
    obtain ⟨rfl, h0'⟩ := h0 rfl
    show (MotionGenerator.new (.fin sf) (Arr.fin goal)).generate_motion st 0 = _
    rw [h.first st h0']
    have e : ((0 : ℕ) : ℝ) / 1000 = 0 := by norm_num
    have e' : genAt sf goal g0 (0 + 1) = g0 := by
      show { g0 with time := XR.fin (((0 : ℕ) : ℝ) / 1000) } = g0
      rw [e, ← h.time]
    rw [e']
    unfold outAt
    rw [e]
  | succ n =>
    rw [h1 (Nat.succ_ne_zero n)]
    exact h.later n st

/-- What the robot reports in the `n`-th state. -/
def ReportsAt (start : Fin 7 → ℝ) (path : Fin 7 → ℝ → ℝ) (n : ℕ) (st : RobotState XR) : Prop :=
  st.q_d = Arr.fin (fun i => samples (start i) (path i) n) ∧ st.dq_d = Arr.fin (fun i => rate (samples (start i) (path i)) n) ∧
    st.ddq_d = Arr.fin fun i => rate (rate (samples (start i) (path i))) n

/-- The states and commands up to now are the planned ones. -/
def AsPlanned (start : Fin 7 → ℝ) (T : ℝ) (path : Fin 7 → ℝ → ℝ) (l : List (RobotState XR × RobotCommand XR)) : Prop :=
  ∀ n p, l[n]? = some p → ReportsAt start path n p.1 ∧ p.2.motion.q_c = Arr.fin (fun i => path i ((n : ℝ) / 1000)) ∧
    p.2.motion.motion_generation_finished = decide (T ≤ (n : ℝ) / 1000)

theorem AsPlanned.reports {l : List (RobotState XR × RobotCommand XR)} {p} (h : AsPlanned start T path l) (hf : FollowsJoints start (l ++ [p])) :
    ReportsAt start path l.length p.1 := by
  rcases List.eq_nil_or_concat l with rfl | ⟨l', q, rfl⟩
  · exact hf.first p rfl
  · rw [List.concat_eq_append] at h hf ⊢
    have hn := hf.next
    rw [List.append_assoc, List.isChain_append] at hn
    have hq : TakesOver q.1 q.2.motion.q_c p.1 := by
      have := hn.2.1
      simpa using this
    obtain ⟨⟨r1, r2, r3⟩, r4, -⟩ := h l'.length q (by simp)
    have e1 : p.1.q_d = Arr.fin fun i => samples (start i) (path i) (l'.length + 1) := by
      rw [hq.position, r4]
      rfl
    have e2 : p.1.dq_d = Arr.fin fun i => rate (samples (start i) (path i)) (l'.length + 1) := by
      funext i
      rw [hq.velocity i, e1, r1, Arr.fin_apply, Arr.fin_apply, Arr.fin_apply, XR.fin_sub, XR.fin_div _ _ (by norm_num)]
      rfl
    refine ⟨by simpa using e1, by simpa using e2, ?_⟩
    funext i
    rw [hq.acceleration i, e2, r2, Arr.fin_apply, Arr.fin_apply, Arr.fin_apply, XR.fin_sub, XR.fin_div _ _ (by norm_num), List.length_append]
    rfl

theorem AsPlanned.snoc {l : List (RobotState XR × RobotCommand XR)} {p} (h : AsPlanned start T path l) (h1 : ReportsAt start path l.length p.1)
    (h2 : p.2.motion.q_c = Arr.fin (fun i => path i ((l.length : ℝ) / 1000))) (h3 : p.2.motion.motion_generation_finished = decide (T ≤ (l.length : ℝ) / 1000)) :
    AsPlanned start T path (l ++ [p]) := by
  intro n q hq
  rw [List.getElem?_append] at hq
  split at hq
  · exact h n q hq
  · have hn : n = l.length := by
      by_contra hne
      rw [List.getElem?_eq_none (by simp; omega)] at hq
      cases hq
    subst hn
    rw [Nat.sub_self] at hq
    cases hq
    exact ⟨h1, h2, h3⟩

/-- The last answered state had this time; for the first state `now` is passed. -/
def LastTime (l : List (RobotState XR × RobotCommand XR)) (now prev : ℕ) : Prop := (l = [] → prev = now) ∧ ∀ q ∈ l.getLast?, prev = q.1.time

/-- All commands up to now continue the motion. -/
def Unfinished (l : List (RobotState XR × RobotCommand XR)) : Prop := ∀ q ∈ l, q.2.motion.motion_generation_finished = false

/-- All commands but the last one continue the motion. -/
def UnfinishedInit (l : List (RobotState XR × RobotCommand XR)) : Prop := ∀ n q, l[n]? = some q → n + 1 < l.length → q.2.motion.motion_generation_finished = false

theorem Unfinished.init {l : List (RobotState XR × RobotCommand XR)} (h : Unfinished l) : UnfinishedInit l := fun _ q hq _ => h q (List.mem_of_getElem? hq)

theorem Unfinished.snocInit {l : List (RobotState XR × RobotCommand XR)} (h : Unfinished l) (p) : UnfinishedInit (l ++ [p]) := by
  intro n q hq hn
  rw [List.length_append, List.length_singleton] at hn
  rw [List.getElem?_append_left (by omega)] at hq
  exact h q (List.mem_of_getElem? hq)

theorem Unfinished.snoc {l : List (RobotState XR × RobotCommand XR)} {p} (h : Unfinished l) (hp : p.2.motion.motion_generation_finished = false) : Unfinished (l ++ [p]) := by
  intro q hq
  rcases List.mem_append.1 hq with hq | hq
  · exact h q hq
  · rw [List.mem_singleton.1 hq]; exact hp

/-- The state `st` was shown to the callback in the state `c1`, and the output was converted to `m`. -/
structure Made (sf : ℝ) (goal : Fin 7 → ℝ) (g0 : MotionGenerator XR) (l : List (RobotState XR × RobotCommand XR)) (c1 : MotionGenerator XR) (st : RobotState XR) (dt : ℕ)
    (c : MotionGenerator XR) (out : JointPositions XR) (m : MotionGeneratorCommand XR) : Prop where
  gen : c1 = genAt sf goal g0 l.length
  called : c1.generate_motion st dt = (c, out)
  converted : ∃ m0, m0.motion_generation_finished = false ∧ out.convert_motion st m0 (.fin 1000) true = .ok m
  time : ∃ prev, LastTime l st.time prev ∧ dt = st.time - prev

theorem Made.spec (hp : IsPlan sf goal start g0 T path)
    (hal : ∀ i n, Allowed (codeLimits i) ((samples (start i) (path i) (n + 1) - samples (start i) (path i) n) / 0.001) (rate (samples (start i) (path i)) n)
      (rate (rate (samples (start i) (path i))) n))
    {l : List (RobotState XR × RobotCommand XR)} {c1 c : MotionGenerator XR} {st : RobotState XR} {dt : ℕ} {out : JointPositions XR} {m : MotionGeneratorCommand XR}
    (h : Made sf goal g0 l c1 st dt c out m) (ha : AsPlanned start T path l) {x : RobotCommand XR} (hf : FollowsJoints start (l ++ [(st, x)])) :
    ReportsAt start path l.length st ∧ c = genAt sf goal g0 (l.length + 1) ∧ out = outAt T path l.length ∧
      m.q_c = Arr.fin (fun i => path i ((l.length : ℝ) / 1000)) ∧ m.motion_generation_finished = false := by
  have hr : ReportsAt start path l.length st := ha.reports hf
  obtain ⟨prev, hl, hdt⟩ := h.time
  have hcall := hp.call (n := l.length) (dt := dt) (st := st) (fun hn => by
      have hl0 : l = [] := List.eq_nil_of_length_eq_zero hn
      refine ⟨by rw [hdt, hl.1 hl0, Nat.sub_self], ?_⟩
      have := hr.1
      rw [hn] at this
      exact this) (fun hn => by
      obtain ⟨l', q, rfl⟩ : ∃ l' q, l = l' ++ [q] := by
        rcases List.eq_nil_or_concat l with rfl | ⟨l', q, rfl⟩
        · exact absurd rfl hn
        · exact ⟨l', q, List.concat_eq_append⟩
      have h1 := hl.2 q (by simp)
      have hn := hf.next
      rw [List.append_assoc, List.isChain_append] at hn
      have hq : TakesOver q.1 q.2.motion.q_c st := by
        have := hn.2.1
        simpa using this
      rw [hdt, h1, hq.time]
      omega)
  rw [← h.gen, h.called] at hcall
  obtain ⟨rfl, rfl⟩ := Prod.mk.inj hcall
  refine ⟨hr, rfl, rfl, ?_⟩
  obtain ⟨m0, hm0, hm⟩ := h.converted
  obtain ⟨r1, r2, r3⟩ := hr
  have := C44_convert_joint_positions (fin := decide (T ≤ (l.length : ℝ) / 1000)) (u := fun i => samples (start i) (path i) (l.length + 1)) (m := m0) (le_refl (1000 : ℝ)) r1 r2 r3
    fun i => hal i l.length
  have e : outAt T path l.length = ⟨decide (T ≤ (l.length : ℝ) / 1000), Arr.fin fun i => samples (start i) (path i) (l.length + 1)⟩ := rfl
  rw [e, this] at hm
  injection hm with hm
  rw [← hm]
  exact ⟨rfl, hm0⟩

/-- What holds in each phase of the call. -/
def FollowInv (sf : ℝ) (goal start : Fin 7 → ℝ) (g0 : MotionGenerator XR) (T : ℝ) (path : Fin 7 → ℝ → ℝ) (p : Option (RobotState XR) × List (RobotState XR × RobotCommand XR)) :
    Phase XR (MotionGenerator XR) → Prop
  | .before _ | .starting _ => p = (none, [])
  | .ready c s prev m _ => p.1 = none ∧ (FollowsJoints start p.2 → AsPlanned start T path p.2 ∧ Unfinished p.2 ∧ m.motion_generation_finished = false ∧
      c = genAt sf goal g0 p.2.length ∧ LastTime p.2 (RobotState.ofIntern s).time prev)
  | .decided c s m _ => p.1 = some (RobotState.ofIntern s) ∧ (FollowsJoints start p.2 → AsPlanned start T path p.2 ∧ Unfinished p.2 ∧
      ∃ c1 dt out, Made sf goal g0 p.2 c1 (RobotState.ofIntern s) dt c out m ∧ out.motion_finished = false)
  | .sent c s m _ => p.1 = none ∧ (FollowsJoints start p.2 → AsPlanned start T path p.2 ∧ Unfinished p.2 ∧ m.motion_generation_finished = false ∧
      c = genAt sf goal g0 p.2.length ∧ ∃ q, p.2.getLast? = some q ∧ q.1 = RobotState.ofIntern s)
  | .finishing s m _ => (p.1 = some (RobotState.ofIntern s) ∧ (FollowsJoints start p.2 → AsPlanned start T path p.2 ∧ Unfinished p.2 ∧
      ∃ c c1 dt out, Made sf goal g0 p.2 c1 (RobotState.ofIntern s) dt c out m ∧ out.motion_finished = true)) ∨
      (p.1 = none ∧ (FollowsJoints start p.2 → AsPlanned start T path p.2 ∧ UnfinishedInit p.2))
  | .finishSent _ _ _ => p.1 = none ∧ (FollowsJoints start p.2 → AsPlanned start T path p.2 ∧ UnfinishedInit p.2)
  | .moved _ _ _ _ _ => False
  | .broken _ | .stopping _ | .refused _ => FollowsJoints start p.2 → AsPlanned start T path p.2 ∧ UnfinishedInit p.2

theorem asPlanned_nil : AsPlanned start T path [] ∧ UnfinishedInit [] := ⟨fun _ _ h => by simp at h, fun _ _ h => by simp at h⟩

theorem unfinished_nil : Unfinished [] := fun _ h => absurd h List.not_mem_nil

theorem FollowInv.end {p : Option (RobotState XR) × List (RobotState XR × RobotCommand XR)} {ph : Phase XR (MotionGenerator XR)} (h : FollowInv sf goal start g0 T path p ph) :
    FollowsJoints start p.2 → AsPlanned start T path p.2 ∧ UnfinishedInit p.2 := by
  intro hf
  cases ph with
  | before => rw [show p = _ from h]; exact asPlanned_nil
  | starting => rw [show p = _ from h]; exact asPlanned_nil
  | ready => exact ⟨(h.2 hf).1, (h.2 hf).2.1.init⟩
  | moved => exact h.elim
  | decided => exact ⟨(h.2 hf).1, (h.2 hf).2.1.init⟩
  | sent => exact ⟨(h.2 hf).1, (h.2 hf).2.1.init⟩
  | finishing =>
    rcases h with h | h
    · exact ⟨(h.2 hf).1, (h.2 hf).2.1.init⟩
    · exact h.2 hf
  | finishSent => exact h.2 hf
  | broken => exact h hf
  | stopping => exact h hf
  | refused => exact h hf

/-- What `joint_motion` asks for. -/
noncomputable def jointCall : ControlCall XR (MotionGenerator XR) .JointPositions :=
  { motion := (fun g state time => MotionGenerator.generate_motion g state time : MotionGenerator XR → RobotState XR → Nat → MotionGenerator XR × Motion XR .JointPositions)
    torque := none, controller := .JointImpedance, limit_rate := true, cutoff := Fl.lit 1000 }

theorem jointCall_cutoff : jointCall.cutoff = .fin 1000 := by
  show (lit 1000 : XR) = _
  rw [XR.lit_fin]
  norm_num

theorem run_follow [Geo XR] (hp : IsPlan sf goal start g0 T path)
    (hal : ∀ i n, Allowed (codeLimits i) ((samples (start i) (path i) (n + 1) - samples (start i) (path i) n) / 0.001) (rate (samples (start i) (path i)) n)
      (rate (rate (samples (start i) (path i))) n))
    {s0 : RobotStateIntern XR} {tr : List (Ev XR)} {ph : Phase XR (MotionGenerator XR)}
    (h : Run jointCall (MotionGenerator.new (.fin sf) (Arr.fin goal)) (.before s0) tr ph) : FollowInv sf goal start g0 T path (tr.foldl exchangeStep (none, [])) ph := by
  induction h with
  | nil => rfl
  | @snoc tr ph e ph' hr hs ih =>
    rw [List.foldl_append, List.foldl_cons, List.foldl_nil]
    generalize tr.foldl exchangeStep (none, []) = p at ih ⊢
    obtain ⟨p, l⟩ := p
    have hmade : ∀ {c s prev m t dt c' out m'}, FollowInv sf goal start g0 T path (p, l) (.ready c s prev m t) → dt = (RobotState.ofIntern s).time - prev →
        jointCall.motion c (RobotState.ofIntern s) dt = (c', out) → Motion.convert_motion out (RobotState.ofIntern s) m jointCall.cutoff jointCall.limit_rate = .ok m' →
        FollowsJoints start l → AsPlanned start T path l ∧ Unfinished l ∧ Made sf goal g0 l c (RobotState.ofIntern s) dt c' out m' := by
      intro c s prev m t dt c' out m' hi hdt hc hm hf
      obtain ⟨-, hi⟩ := hi
      obtain ⟨i1, i2, i3, i4, i5⟩ := hi hf
      refine ⟨i1, i2, i4, hc, ⟨m, i3, ?_⟩, prev, i5, hdt⟩
      rw [jointCall_cutoff] at hm
      exact hm
    cases hs with
    | move => exact ih
    | wait => exact ih
    | first s s' =>
      cases ih
      refine ⟨rfl, fun _ => ⟨asPlanned_nil.1, unfinished_nil, rfl, rfl, fun _ => rfl, ?_⟩⟩
      intro q hq
      cases hq
    | firstBroken => cases ih; exact fun _ => asPlanned_nil
    | motion c s prev m t dt c' out m' hn hle hdt hc hm hfin =>
      refine ⟨rfl, fun hf => ?_⟩
      obtain ⟨i1, i2, i3⟩ := hmade ih hdt hc hm hf
      exact ⟨i1, i2, _, _, _, i3, hfin⟩
    | motionFirst c s prev m t dt c' out m' hn => exact absurd rfl hn
    | motionEnd c s prev m t dt c' out m' hle hdt hc hm hfin =>
      refine .inl ⟨rfl, fun hf => ?_⟩
      obtain ⟨i1, i2, i3⟩ := hmade ih hdt hc hm hf
      exact ⟨i1, i2, _, _, _, _, i3, hfin⟩
    | motionRefused => exact ih.end
    | torque => exact ih.elim
    | torqueEnd => exact ih.elim
    | torqueRefused => exact ih.elim
    | send c s m t a =>
      obtain ⟨h1, h2⟩ := ih
      subst h1
      refine ⟨rfl, fun hf => ?_⟩
      obtain ⟨i1, i2, c1, dt, out, i3, i4⟩ := h2 hf.init
      obtain ⟨j1, j2, j3, j4, j5⟩ := i3.spec hp hal i1 hf
      have hT : decide (T ≤ (l.length : ℝ) / 1000) = false := by rw [j3] at i4; exact i4
      refine ⟨i1.snoc j1 j4 (by rw [hT]; exact j5), i2.snoc j5, j5, ?_, (RobotState.ofIntern s, ⟨s.message_id, m, t⟩), ?_, rfl⟩
      · rw [j2]
        show _ = genAt sf goal g0 (l ++ [_]).length
        rw [List.length_append]
        rfl
      · exact List.getLast?_concat
    | next c s m t s' =>
      obtain ⟨h1, h2⟩ := ih
      refine ⟨h1, fun hf => ?_⟩
      obtain ⟨i1, i2, i3, i4, q, i5, i6⟩ := h2 hf
      refine ⟨i1, i2, i3, i4, ?_, ?_⟩
      · intro hl
        change l = [] at hl
        rw [hl] at i5
        cases i5
      · intro q' hq'
        change q' ∈ l.getLast? at hq'
        rw [Option.mem_def, show l.getLast? = some q from i5] at hq'
        cases hq'
        rw [i6]
    | nextBroken => exact ih.end
    | finish s m t a =>
      rcases ih with ⟨h1, h2⟩ | ⟨h1, h2⟩
      · change p = _ at h1
        subst h1
        refine ⟨rfl, fun hf => ?_⟩
        obtain ⟨i1, i2, c, c1, dt, out, i3, i4⟩ := h2 hf.init
        obtain ⟨j1, j2, j3, j4, j5⟩ := i3.spec hp hal i1 hf
        have hT : decide (T ≤ (l.length : ℝ) / 1000) = true := by rw [j3] at i4; exact i4
        exact ⟨i1.snoc j1 j4 (by rw [hT]), i2.snocInit _⟩
      · change p = _ at h1
        subst h1
        exact ⟨rfl, h2⟩
    | finishNext => exact .inr ih
    | stop => exact ih.end
    | stopped => exact ih

/-- The commands of any call that is such a motion. -/
theorem follow_commands [Wire XR] [Geo XR] (hp : IsPlan sf goal start g0 T path)
    (hal : ∀ i n, Allowed (codeLimits i) ((samples (start i) (path i) (n + 1) - samples (start i) (path i) n) / 0.001) (rate (samples (start i) (path i)) n)
      (rate (rate (samples (start i) (path i))) n))
    {w : World XR} (hw : RobotReachable w) {c : RobotCall XR} (hc : IsControl c jointCall (MotionGenerator.new (.fin sf) (Arr.fin goal)))
    (hf : FollowsJoints start (exchanges (newEvents w (c.run w).2))) :
    (∀ n st x, Exchange w c n st x →
      x.motion.q_c = Arr.fin (fun i => path i ((n : ℝ) / 1000)) ∧ x.motion.motion_generation_finished = decide (T ≤ (n : ℝ) / 1000)) ∧
    ∀ n, n + 1 < answered w c → (n : ℝ) / 1000 < T := by
  obtain ⟨s0, ph, -, -, hr, -⟩ := control_events hw hc
  obtain ⟨j1, j2⟩ := (run_follow hp hal hr).end hf
  refine ⟨fun n st x hx => (j1 n _ hx).2, fun n hn => ?_⟩
  obtain ⟨st, x, hx⟩ := exchange_exists (Nat.lt_of_succ_lt hn)
  have e1 := j2 n _ hx hn
  have e2 := (j1 n _ hx).2.2
  rw [e1] at e2
  exact not_le.1 (of_decide_eq_false e2.symm)

/-- **C75.** A call of `joint_motion` with the speed factor `sf` and the joint positions `goal`, for a robot that starts at rest at the positions `start` and follows its
commands. There is a duration `T` and a path for each joint, which is a `Move` (Spec/JointMotion.lean) from its start to its goal within the limits of the joint scaled by
`sf`, and the commands are just these paths, millisecond for millisecond: the rate limiting changes nothing. Exactly the first command at or after `T` ends the
motion. (A joint that is within 1e-6 rad of its goal need not move; then it rests within 1e-6 rad of both.) -/
theorem C75_joint_motion_goes_as_planned [Wire XR] [Geo XR] (hsf : 0 < sf) (hsf1 : sf ≤ 1) (hg : Gentle sf start goal) :
    ∃ (T : ℝ) (path : Fin 7 → ℝ → ℝ), 0 ≤ T ∧
      (∀ i, ∃ a b, |a - start i| ≤ 1 / 1000000 ∧ |b - goal i| ≤ 1 / 1000000 ∧ (1 / 1000000 < |goal i - start i| → a = start i ∧ b = goal i) ∧
        Move a b (sf * jointSpeed i) (sf * jointAcceleration) T (path i)) ∧
      ∀ w, RobotReachable w → FollowsJoints start (exchanges (newEvents w ((RobotCall.joint_motion (.fin sf) (Arr.fin goal)).run w).2)) →
        (∀ n st x, Exchange w (.joint_motion (.fin sf) (Arr.fin goal)) n st x →
          x.motion.q_c = Arr.fin (fun i => path i ((n : ℝ) / 1000)) ∧ x.motion.motion_generation_finished = decide (T ≤ (n : ℝ) / 1000)) ∧
        ∀ n, n + 1 < answered w (.joint_motion (.fin sf) (Arr.fin goal)) → (n : ℝ) / 1000 < T := by
  obtain ⟨T, path, h1, h2, h3, -, g0, hp⟩ := plan_exists hsf goal start
  refine ⟨T, path, h1, h2, fun w hw hf => ?_⟩
  have hg' : sf ≤ 0.37 ∨ 0.0137 ≤ T := by
    rcases hg with hg | ⟨i, hi⟩
    · exact .inl hg
    · exact .inr (planned_time hsf hsf1 (h3 i) hi)
  exact follow_commands hp (fun i n => by
    obtain ⟨a, b, -, -, hab, hm⟩ := h2 i
    exact planned_allowed hsf hsf1 hg' (h3 i) hm (fun h => (hab h).1) n) hw (IsControl.jointMotion (.fin sf) (Arr.fin goal)) hf

end
end Verif
