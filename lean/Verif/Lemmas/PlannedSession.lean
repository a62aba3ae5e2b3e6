import Verif.Props.CoopSession
import Verif.Props.Programs
import Verif.Lemmas.PlannedJoints
/-!
Lemmas: whole programs with two planned motions happen.
-/
set_option linter.unusedSectionVars false
namespace Verif
open Prog Spec

section
variable {F : Type} [Fl F] [Wire F] [Geo F] {σ : Type} {k : MotionKind}
variable {call : ControlCall F σ k} {c0 : σ} {cs : ℕ → σ} {o : ℕ → Motion F k} {ms : ℕ → MotionGeneratorCommand F} {R : ℕ → RobotState F → Prop}

/-- A robot for a plan that ends in the `N`-th cycle, when `s0` is the last state before: as `RobotFor`. -/
structure RobotFrom (call : ControlCall F σ k) (R : ℕ → RobotState F → Prop) (s0 : RobotStateIntern F) (N : ℕ) (s2 : RobotStateIntern F) (s : ℕ → RobotStateIntern F)
    (sE : RobotStateIntern F) : Prop where
  idle : ¬ Running s0
  id2 : s2.message_id.toNat = s0.message_id.toNat + 1
  modes2 : ShowsModes k call.controller s2
  ids : ∀ n ≤ N, (s n).message_id.toNat = s0.message_id.toNat + 2 + n
  healthy : ∀ n ≤ N, Healthy k call.controller (s n)
  planned : ∀ n ≤ N, R n (RobotState.ofIntern (s n))
  idE : sE.message_id.toNat = s0.message_id.toNat + N + 3
  still : ¬ Running sE
  data2 : ∃ data, HoldsState s2 data
  data : ∀ n ≤ N, ∃ data, HoldsState (s n) data
  dataE : ∃ data, HoldsState sE data

namespace RobotFrom
open IsPlanOf

/-- The time before. -/
def timeOf (M : ℕ) : ℕ → ℕ
  | 0 => M + 2
  | n + 1 => M + 2 + n

variable {N : ℕ} {s0 s2 sE : RobotStateIntern F} {s : ℕ → RobotStateIntern F}

theorem time_eq (hr : RobotFrom call R s0 N s2 s sE) {n : ℕ} (h : n ≤ N) : (RobotState.ofIntern (s n)).time = s0.message_id.toNat + 2 + n := hr.ids n h

theorem period_ok (hr : RobotFrom call R s0 N s2 s sE) {n : ℕ} (h : n ≤ N) :
    periodOf n = (RobotState.ofIntern (s n)).time - RobotFrom.timeOf s0.message_id.toNat n ∧ RobotFrom.timeOf s0.message_id.toNat n ≤ (RobotState.ofIntern (s n)).time := by
  rw [hr.time_eq h]
  cases n with
  | zero => simp [periodOf, RobotFrom.timeOf]
  | succ n =>
    simp only [periodOf, RobotFrom.timeOf]
    omega

theorem run_ready (hp : IsPlanOf call c0 cs o ms R) (hr : RobotFrom call R s0 N s2 s sE) (hfin : ∀ n < N, (o n).is_finished = false) : ∀ n : ℕ, n ≤ N →
    Run call c0 (.before s0) (.robotReq (request call) :: .accepted s2 :: .accepted (s 0) :: events o ms s n)
      (.ready (cs n) (s n) (RobotFrom.timeOf s0.message_id.toNat n) (msBefore ms n) noTorques) := by
  intro n
  induction n with
  | zero =>
    intro _
    have p1 := Run.snoc (.nil (.before s0)) (Step.move (call := call) (c0 := c0) _ ⟨.Move, 1, 0⟩ hr.idle rfl)
    have p2 := p1.snoc (.wait _ s2 (fun h => hr.idle (.inl (by rw [h.1]; cases k <;> nofun))) (by rw [UInt64.lt_iff_toNat_lt, hr.id2]; omega))
    have p3 := p2.snoc (.first _ (s 0) (by rw [UInt64.lt_iff_toNat_lt, hr.id2, hr.ids 0 (Nat.zero_le _)]; omega) (hr.healthy 0 (Nat.zero_le _)))
    rw [hr.time_eq (Nat.zero_le _), ← hp.start] at p3
    exact hp.start ▸ p3
  | succ n ih =>
    intro hn
    have h1 := ih (by omega)
    have hpe := hr.period_ok (n := n) (by omega)
    have hR := hr.planned n (by omega)
    have h2 := h1.snoc (Step.motion (call := call) (c0 := c0) _ _ _ _ _ (periodOf n) _ (o n) (ms n) hp.torque hpe.2 hpe.1 (hp.called n _ hR) (hp.converted n _ hR)
      (hfin n (by omega)))
    have h3 := h2.snoc (.send _ _ _ _ 0)
    have h4 := h3.snoc (.next _ _ _ _ (s (n + 1)) (by
      rw [UInt64.lt_iff_toNat_lt, hr.ids n (by omega), hr.ids (n + 1) hn]; omega) (hr.healthy (n + 1) hn))
    rw [hr.time_eq (by omega)] at h4
    have e : Ev.robotReq (request call) :: .accepted s2 :: .accepted (s 0) :: events o ms s (n + 1) =
        (((.robotReq (request call) :: .accepted s2 :: .accepted (s 0) :: events o ms s n) ++
          [.motionCb k (RobotState.ofIntern (s n)) (periodOf n) (o n)]) ++ [.udpSend 0 ⟨(s n).message_id, ms n, noTorques⟩]) ++ [.accepted (s (n + 1))] := by
      simp [events]
    rw [e]
    exact h4

theorem running (hr : RobotFrom call R s0 N s2 s sE) : Running (s N) := .inl (by
  rw [(hr.healthy N le_rfl).2.1]
  cases k <;> nofun)

/-- The events of the motion. -/
def motion (call : ControlCall F σ k) (o : ℕ → Motion F k) (ms : ℕ → MotionGeneratorCommand F) (N : ℕ) (s2 : RobotStateIntern F) (s : ℕ → RobotStateIntern F)
    (sE : RobotStateIntern F) : List (Ev F) :=
  .robotReq (request call) :: ([s2].map .accepted ++ .accepted (s 0) :: (events o ms s N ++ ending o ms s sE N))

theorem run_all (hp : IsPlanOf call c0 cs o ms R) (hr : RobotFrom call R s0 N s2 s sE) (hfin : ∀ n < N, (o n).is_finished = false) (hend : (o N).is_finished = true) :
    Run call c0 (.before s0) (motion call o ms N s2 s sE) (.finishing sE (ms N) noTorques) := by
  have h1 := hr.run_ready hp hfin N le_rfl
  have hpe := hr.period_ok (n := N) le_rfl
  have hR := hr.planned N le_rfl
  have h2 := h1.snoc (Step.motionEnd (call := call) (c0 := c0) _ _ _ _ _ (periodOf N) _ (o N) (ms N) hpe.2 hpe.1 (hp.called N _ hR) (hp.converted N _ hR) hend)
  have h3 := h2.snoc (.finish _ _ _ 0 hr.running)
  have h4 := h3.snoc (.finishNext _ _ _ sE (by rw [UInt64.lt_iff_toNat_lt, hr.ids N le_rfl, hr.idE]; omega))
  have e : motion call o ms N s2 s sE =
      (((.robotReq (request call) :: .accepted s2 :: .accepted (s 0) :: events o ms s N) ++
        [.motionCb k (RobotState.ofIntern (s N)) (periodOf N) (o N)]) ++
        [.udpSend 0 ⟨(s N).message_id, { ms N with motion_generation_finished := true }, noTorques⟩]) ++ [.accepted sE] := by
    simp [motion, ending]
  rw [e]
  exact h4

/-- The states and the commands of the motion. -/
def pairs (o : ℕ → Motion F k) (ms : ℕ → MotionGeneratorCommand F) (s : ℕ → RobotStateIntern F) (N : ℕ) : List (RobotState F × RobotCommand F) :=
  (List.range (N + 1)).map fun j => (RobotState.ofIntern (s j), (⟨(s j).message_id, sentCmd o ms j, noTorques⟩ : RobotCommand F))

theorem motion_pairs (hfin : ∀ n < N, (o n).is_finished = false) (hend : (o N).is_finished = true) : exchanges (motion call o ms N s2 s sE) = pairs o ms s N := by
  show ((events o ms s N ++ ending o ms s sE N).foldl exchangeStep (none, [])).2 = _
  unfold pairs
  rw [List.foldl_append, events_exchanges, List.range_succ, List.map_append]
  have e : (List.range N).map (fun j => (RobotState.ofIntern (s j), (⟨(s j).message_id, ms j, noTorques⟩ : RobotCommand F))) =
      (List.range N).map fun j => (RobotState.ofIntern (s j), (⟨(s j).message_id, sentCmd o ms j, noTorques⟩ : RobotCommand F)) := by
    refine List.map_congr_left fun j hj => ?_
    unfold sentCmd
    rw [hfin j (List.mem_range.1 hj)]
    rfl
  rw [e]
  unfold sentCmd
  simp only [List.map_singleton, hend, if_true]
  rfl

end RobotFrom

/-! ## Schedules -/

namespace Realize
open Toy (quiet tcp asking response)

theorem cooperates_from (id : UInt32) {waiting : List (RobotStateIntern F)} {tr : List (Ev F)} (hw : ∀ s ∈ waiting, ∃ data, HoldsState s data) (ht : ∀ e ∈ tr, Plain e) :
    ∃ p : Plan, udpArrived p.closing = [] ∧ ∀ ts, Cooperates id [] waiting tr { p with rest := ts } := by
  obtain ⟨start, h1, h2⟩ := suppliedStart hw
  obtain ⟨motion, h3, h4⟩ := supplied ht
  refine ⟨⟨quiet, [], tcp (MoveResponse.codec.enc ⟨⟨.Move, id, 13⟩, .MotionStarted⟩), quiet, quiet, quiet, start, motion, [],
    tcp (MoveResponse.codec.enc ⟨⟨.Move, id, 13⟩, .Success⟩), quiet, quiet, quiet, []⟩, rfl, fun ts => ?_⟩
  constructor
  case fine =>
    constructor
    · intro t ht
      simp only [Plan.opening, List.cons_append, List.nil_append, List.mem_cons, List.not_mem_nil, or_false] at ht
      rcases ht with rfl | rfl | rfl | rfl | rfl <;> exact ⟨rfl, rfl⟩
    · intro t ht
      simp only [Plan.closing, List.nil_append, List.mem_cons, List.not_mem_nil, or_false] at ht
      rcases ht with rfl | rfl | rfl | rfl <;> exact ⟨rfl, rfl⟩
  case accepts =>
    refine ⟨_, ⟨_, rfl, rfl, rfl, rfl⟩, rfl, ?_⟩
    intro t ht
    simp only [List.cons_append, List.nil_append, List.mem_cons, List.not_mem_nil, or_false, or_self] at ht
    rw [ht]; rfl
  case starts => exact ⟨h1, h2⟩
  case moves => exact h3
  case confirms =>
    refine ⟨_, ⟨⟨⟨.Move, id, 13⟩, .Success⟩, rfl, rfl, rfl, rfl⟩, ?_, .inl ⟨?_, rfl⟩⟩
    · intro t ht
      simp only [List.mem_cons, List.not_mem_nil, or_false, or_self] at ht
      rw [ht]; rfl
    · rw [List.append_nil]; exact h4

theorem robot_between (rest : List Tick) : Between 1 (s1 F) [] rest (robot (F := F) rest) := by
  have hi := robot_idle (F := F) rest
  have hf := robot_facts (F := F) rest
  refine ⟨robot_id _, robot_lastState _, robot_script _, hi.rx, hi.eof, hi.pending, fun i h => ?_, robot_udp _, hi.ready⟩
  cases hx : (robot (F := F) rest).net.received_responses i with
  | none => rfl
  | some bs =>
    obtain ⟨hk, -⟩ := RobotReachable.alive (robot_reachable (F := F) rest)
    have := hk.table _ _ hx
    generalize robot (F := F) rest = w at hf this
    simp only [Prod.mk.injEq] at hf
    rw [hf.2.2.2.2.2.2.2.1, List.mem_singleton] at this
    rw [(Prod.mk.inj this).1] at h
    exact absurd h (by decide)

end Realize

variable {rc : Option RealtimeConfig} {ls : Option Nat} {w0 : World F}

/-- A motion in a session. -/
theorem motion_did (hw0 : Fresh w0) (hlog : ls ≠ some 0) (hrt : RealTimeGranted rc w0) {cs0 : List (RobotCall F)} {w : World F} (hs : robotSession rc ls cs0 w0 = (.ok (), w))
    {id : UInt32} {s : RobotStateIntern F} {q : List Datagram} {p : Plan} (hb : Between id s q p.script w) (hid : id ≠ 0xffffffff) {c : RobotCall F} (hc : IsControl c call c0)
    {r : RobotReq F} {waiting : List (RobotStateIntern F)} {first sF : RobotStateIntern F} {tr : List (Ev F)} {mF : MotionGeneratorCommand F} {tF : ControllerCommand F}
    (hrun : Run call c0 (.before s) (.robotReq r :: (waiting.map .accepted ++ .accepted first :: tr)) (.finishing sF mF tF)) (hstill : ¬ Running sF)
    (hno : ∀ r, .robotReq r ∉ tr) (hshow : ∃ s1, waiting.getLast? = some s1 ∧ ShowsModes k call.controller s1) (hco : Cooperates id q waiting (.accepted first :: tr) p) :
    Post c.run w (Did (.ok ()) (.robotReq r :: (waiting.map .accepted ++ .accepted first :: tr)) (id + 1) sF (udpArrived p.closing) p.rest w) := by
  have hnt := (RobotReachable.alive (show RobotReachable w from ⟨rc, ls, cs0, w0, hw0, hs⟩)).1.type
  have hpos : 0 < ls.getD 50 := by
    cases ls with
    | none => decide
    | some n => exact Nat.pos_of_ne_zero fun h => hlog (congrArg some h)
  have hl := session_log rc ls cs0 w0 hw0
  unfold Post at hl
  rw [hs] at hl
  obtain ⟨he, hfit⟩ := IsControl.run_eq hc
  rw [he]
  have hn := hb.number
  refine (control_supplied (c0 := c0) hfit hstill (hb.resting hid) hb.absent hnt (fun h => (session_real_time hs).1 h hrt) hb.last hl.arises.ok hpos hrun hno hshow hb.script
    (by rw [hn, hb.udp]; exact hco)).mono ?_
  rintro res w' ⟨rfl, ⟨hE, hid'⟩, es, i1, i2⟩
  exact ⟨rfl, ⟨by rw [hid', hn], hE.last, hE.script, hE.rx, hE.eof, hE.pending, fun i hi => by rw [hE.table]; exact hb.table i (le_of_succ_le hid hi), hE.udp, hE.ready⟩, es, i1, i2⟩

/-- A planned motion in a session: its schedule. -/
theorem planned_did (hp : IsPlanOf call c0 cs o ms R) {s0 s2 sE : RobotStateIntern F} {s : ℕ → RobotStateIntern F} {N : ℕ} (hr : RobotFrom call R s0 N s2 s sE)
    (hfin : ∀ n < N, (o n).is_finished = false) (hend : (o N).is_finished = true) {c : RobotCall F} (hc : IsControl c call c0) {id : UInt32} (hid : id ≠ 0xffffffff) :
    ∃ ts0, ∀ {w0 w : World F} {cs0 : List (RobotCall F)} (ts : List Tick), Fresh w0 → RealTimeGranted none w0 → robotSession none none cs0 w0 = (.ok (), w) →
      Between id s0 [] (ts0 ++ ts) w → Post c.run w (Did (.ok ()) (RobotFrom.motion call o ms N s2 s sE) (id + 1) sE [] ts w) := by
  have hdata : ∀ z, .accepted z ∈ [s2].map .accepted ++ .accepted (s 0) :: (IsPlanOf.events o ms s N ++ IsPlanOf.ending o ms s sE N) → ∃ data, HoldsState z data := by
    intro z hs
    rcases List.mem_append.1 hs with hs | hs
    · simp at hs
      rw [hs]
      exact hr.data2
    · rcases List.mem_cons.1 hs with hs | hs
      · cases hs
        exact hr.data 0 (Nat.zero_le _)
      · rcases List.mem_append.1 hs with hs | hs
        · rcases IsPlanOf.events_mem hs with ⟨_, _, _, _, h⟩ | ⟨_, _, h⟩ | ⟨n, hn, h⟩ <;> cases h
          exact hr.data n hn
        · simp [IsPlanOf.ending] at hs
          rw [hs]
          exact hr.dataE
  have hno : ∀ r, .robotReq r ∉ IsPlanOf.events o ms s N ++ IsPlanOf.ending o ms s sE N := by
    intro r hr
    rcases List.mem_append.1 hr with hr | hr
    · rcases IsPlanOf.events_mem hr with ⟨_, _, _, _, h⟩ | ⟨_, _, h⟩ | ⟨_, _, h⟩ <;> cases h
    · simp [IsPlanOf.ending] at hr
  have hrun := hr.run_all hp hfin hend
  obtain ⟨p, hudp, hco⟩ := Realize.cooperates_from id (waiting := [s2]) (tr := .accepted (s 0) :: (IsPlanOf.events o ms s N ++ IsPlanOf.ending o ms s sE N))
    (fun s hs => hdata s (List.mem_append_left _ (List.mem_map_of_mem hs))) (fun e he => by
      rcases Realize.run_event hrun e (List.mem_cons_of_mem _ (List.mem_append_right _ he)) with ⟨r, rfl⟩ | ⟨s, rfl⟩ | ⟨a, x, rfl⟩ | h
      · rcases List.mem_cons.1 he with h | h
        · cases h
        · exact absurd h (hno r)
      · exact hdata s (List.mem_append_right _ he)
      · trivial
      · cases e <;> first | exact h | cases h)
  refine ⟨p.opening ++ (p.start ++ (p.motion ++ p.closing)), fun {w0 w cs0} ts hw0 hrt hs hb => ?_⟩
  have := motion_did (p := { p with rest := ts }) hw0 (by simp) hrt hs (by
      refine Eq.mp (congrArg (fun x => Between id s0 [] x w) ?_) hb
      simp [Plan.script, Plan.opening, Plan.closing]) hid hc hrun hr.still hno ⟨s2, rfl, hr.modes2⟩ (hco ts)
  rw [show udpArrived ({ p with rest := ts } : Plan).closing = [] from hudp] at this
  exact this

/-! ## The requests at the beginning -/

open Toy (asking response)

/-- The answers to the setters. -/
def setupTicks : List Tick := (asking (response 2 1 0)).script ++ ((asking (response 3 2 0)).script ++ ((asking (response 4 3 0)).script ++ []))

theorem setup_setting : ∃ tr, Setting (F := F) 1 defaultBehavior setupTicks (.ok ()) tr 4 :=
  ⟨_, .next (m := response 2 1 0) _ ⟨.SetCollisionBehavior, 1, 0⟩ (by decide) rfl ⟨⟨by decide, rfl, rfl⟩, rfl, by decide⟩ rfl (Toy.asking_brings (response 2 1 0)) <|
    .next (m := response 3 2 0) _ ⟨.SetJointImpedance, 2, 0⟩ (by decide) rfl ⟨⟨by decide, rfl, rfl⟩, rfl, by decide⟩ rfl (Toy.asking_brings (response 3 2 0)) <|
    .next (m := response 4 3 0) _ ⟨.SetCartesianImpedance, 3, 0⟩ (by decide) rfl ⟨⟨by decide, rfl, rfl⟩, rfl, by decide⟩ rfl (Toy.asking_brings (response 4 3 0)) <| .nil 4⟩

theorem thresholds_setting (b : RobotBody F) (hb : kind b = .SetCollisionBehavior) : ∃ tr, Setting (F := F) 4 [b] ((asking (response 2 4 0)).script ++ []) (.ok ()) tr 5 :=
  ⟨_, .next (m := response 2 4 0) _ ⟨.SetCollisionBehavior, 4, 0⟩ (by decide) hb.symm ⟨⟨by decide, rfl, rfl⟩, rfl, by decide⟩ rfl (Toy.asking_brings (response 2 4 0)) <| .nil 5⟩

theorem did_eq {tr : List (Ev F)} {id : UInt32} {s : RobotStateIntern F} {q : List Datagram} {ts : List Tick} {w : World F} {c : RobotCall F}
    (h : Post c.run w (Did (.ok ()) tr id s q ts w)) : ∃ w', c.run w = (.ok (), w') ∧ Between id s q ts w' ∧ ∃ es, visible w'.trace = visible w.trace ++ es ∧ List.Forall₂ Alike tr es :=
  ⟨_, Prod.ext h.1 rfl, h.2⟩

/-- The usual beginning of the examples, if all goes well: `w1` is before the motion to the start position, `w2` is after it. -/
def Prepared (w w1 w2 : World F) : Prop := ∃ wa wb, (Robot.new none none : Prog F Unit) w = (.ok (), wa) ∧ RobotCall.set_default_behavior.run wa = (.ok (), wb) ∧
  (thresholds usualTorques usualForces).run wb = (.ok (), w1) ∧ (RobotCall.joint_motion (Fl.lit (1 / 2)) startPosition).run w1 = (.ok (), w2)

theorem Prepared.unique {w w1 w2 w1' w2' : World F} (h : Prepared w w1 w2) (h' : Prepared w w1' w2') : w1 = w1' ∧ w2 = w2' := by
  obtain ⟨wa, wb, h1, h2, h3, h4⟩ := h
  obtain ⟨wa', wb', h1', h2', h3', h4'⟩ := h'
  rw [h1] at h1'
  cases h1'
  rw [h2] at h2'
  cases h2'
  rw [h3] at h3'
  cases h3'
  rw [h4] at h4'
  cases h4'
  exact ⟨rfl, rfl⟩

/-- An example with two planned motions happens. -/
theorem usual_happens [FlExtra F] {p : Prog F Unit} {c : RobotCall F} {bs : List (RobotBody F)} (h : Example p (usual c) bs)
    (hp : IsPlanOf call c0 cs o ms R) {s2 sE : RobotStateIntern F} {s : ℕ → RobotStateIntern F} {N : ℕ} (hr : RobotFrom call R (Realize.s1 F) N s2 s sE)
    (hfin : ∀ n < N, (o n).is_finished = false) (hend : (o N).is_finished = true) (hc : IsControl (.joint_motion (Fl.lit (1 / 2)) startPosition) call c0)
    {σ' : Type} {k' : MotionKind} {call' : ControlCall F σ' k'} {c0' : σ'} {cs' : ℕ → σ'} {o' : ℕ → Motion F k'} {ms' : ℕ → MotionGeneratorCommand F}
    {R' : ℕ → RobotState F → Prop} (hp' : IsPlanOf call' c0' cs' o' ms' R') {s2' sE' : RobotStateIntern F} {s' : ℕ → RobotStateIntern F} {N' : ℕ}
    (hr' : RobotFrom call' R' sE N' s2' s' sE') (hfin' : ∀ n < N', (o' n).is_finished = false) (hend' : (o' N').is_finished = true) (hc' : IsControl c call' c0') :
    ∃ w w1 w2, Fresh w ∧ (p w).1 = .ok () ∧ Prepared w w1 w2 ∧ c.run w2 = (.ok (), (p w).2) ∧
      exchanges (newEvents w1 w2) = RobotFrom.pairs o ms s N ∧ exchanges (newEvents w2 (p w).2) = RobotFrom.pairs o' ms' s' N' := by
  obtain ⟨ts1, m1⟩ := planned_did hp hr hfin hend hc (id := 5) (by decide)
  obtain ⟨ts2, m2⟩ := planned_did hp' hr' hfin' hend' hc' (id := 6) (by decide)
  obtain ⟨tr1, g1⟩ := setup_setting (F := F)
  obtain ⟨tr2, g2⟩ := thresholds_setting (thresholdsBody (F := F) usualTorques usualForces) rfl
  let ts := setupTicks ++ (((asking (response 2 4 0)).script ++ []) ++ (ts1 ++ (ts2 ++ [])))
  have hfresh := Realize.fresh (F := F) (Toy.handshake ++ ts)
  have hrt : RealTimeGranted none (Realize.world (F := F) (Toy.handshake ++ ts)) := .inr ⟨rfl, rfl, rfl, rfl⟩
  have hs0 := Realize.robot_session (F := F) ts
  have hb0 := Realize.robot_between (F := F) ts
  have hnt : ∀ {cs0 : List (RobotCall F)} {w : World F}, robotSession none none cs0 (Realize.world (F := F) (Toy.handshake ++ ts)) = (.ok (), w) → w.cfg.network_type = .Robot :=
    fun {cs0 w} hs => (RobotReachable.alive (show RobotReachable w from ⟨none, none, cs0, _, hfresh, hs⟩)).1.type
  have A : Post (RobotCall.run .set_default_behavior) (Realize.robot (F := F) ts) (Did (.ok ()) tr1 4 (Realize.s1 F) []
      (((asking (response 2 4 0)).script ++ []) ++ (ts1 ++ (ts2 ++ []))) (Realize.robot (F := F) ts)) := by
    have := setters_did g1 hb0 (hnt hs0)
    rw [← set_default_behavior_eq] at this
    exact this
  obtain ⟨wa, a1, a2, -⟩ := did_eq A
  have hsa := session_snoc hs0 .set_default_behavior (.inl (by rw [a1]))
  rw [a1] at hsa
  have B : Post (RobotCall.run (thresholds usualTorques usualForces)) wa (Did (.ok ()) tr2 5 (Realize.s1 F) [] (ts1 ++ (ts2 ++ [])) wa) := by
    have := setters_did g2 a2 (hnt hsa)
    unfold setters setters at this
    rw [bind_pure_unit, ← setter_run (show setterRequest (thresholds (F := F) usualTorques usualForces) = some (thresholdsBody usualTorques usualForces) from rfl)] at this
    exact this
  obtain ⟨wb, b1, b2, -⟩ := did_eq B
  have hsb := session_snoc hsa (thresholds usualTorques usualForces) (.inl (by rw [b1]))
  rw [b1] at hsb
  obtain ⟨wc, d1, d2, es1, d3, d4⟩ := did_eq (m1 (ts2 ++ []) hfresh hrt hsb b2)
  have hsc := session_snoc hsb (.joint_motion (Fl.lit (1 / 2)) startPosition) (.inl (by rw [d1]))
  rw [d1] at hsc
  obtain ⟨wd, e1, e2, es2, e3, e4⟩ := did_eq (m2 [] hfresh hrt hsc d2)
  obtain ⟨hpe, -⟩ := example_eq h
  have hnew : (Robot.new none none : Prog F Unit) (Realize.world (Toy.handshake ++ ts)) = (.ok (), Realize.robot ts) := by
    have e : robotSession none none [] = (Robot.new none none : Prog F Unit) := by
      unfold robotSession robotCalls
      exact bind_pure_unit _
    rw [← e]
    exact hs0
  have hfull : p (Realize.world (Toy.handshake ++ ts)) = (.ok (), wd) := by
    rw [hpe, bind_ok_eq hnew]
    unfold usual inTurn
    rw [bind_ok_eq a1]
    unfold inTurn
    rw [bind_ok_eq b1]
    unfold inTurn
    rw [bind_ok_eq d1]
    unfold inTurn
    rw [bind_ok_eq e1]
    rfl
  refine ⟨_, wb, wc, hfresh, by rw [hfull], ⟨_, _, hnew, a1, b1, d1⟩, by rw [hfull]; exact e1, ?_, ?_⟩
  · have := newEvents_of_grows (call_grows (RobotCall.joint_motion (Fl.lit (1 / 2)) startPosition) wb)
    rw [d1, d3] at this
    rw [← List.append_cancel_left this, ← exchanges_alike d4, RobotFrom.motion_pairs hfin hend]
  · rw [hfull]
    have := newEvents_of_grows (call_grows c wc)
    rw [e1, e3] at this
    rw [← List.append_cancel_left this, ← exchanges_alike e4, RobotFrom.motion_pairs hfin' hend']

end
end Verif
