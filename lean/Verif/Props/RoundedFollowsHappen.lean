import Verif.Props.RoundedFollows
import Verif.Props.FollowHappens
import Verif.Lemmas.Planned
/-!
# The motions of C106 happen

For every start and goal there is a robot that follows, and then `joint_motion` returns Ok. This shows that the hypotheses of `C106_joint_motion` are met.
-/
set_option linter.unusedSectionVars false
namespace Verif
open Prog Spec Fl

/-- Finitely many numbers, not too many, can be given bit patterns. -/
theorem wire_exists_for {F : Type} (S : Finset F) (d : F) (hS : S.card ≤ 2 ^ 64) : ∃ _ : Wire F, ∀ x ∈ S, Wire.ofBits (Wire.toBits x) = x := by
  classical
  refine ⟨{ toBits := fun x => if h : x ∈ S then UInt64.ofNat (S.equivFin ⟨x, h⟩) else 0
            ofBits := fun b => if h : b.toNat < S.card then (S.equivFin.symm ⟨b.toNat, h⟩ : F) else d }, fun x hx => ?_⟩
  have e : (UInt64.ofNat (S.equivFin ⟨x, hx⟩ : ℕ)).toNat = (S.equivFin ⟨x, hx⟩ : ℕ) := by
    rw [UInt64.toNat_ofNat']
    exact Nat.mod_eq_of_lt (lt_of_lt_of_le (S.equivFin ⟨x, hx⟩).2 hS)
  show (if h : (if h : x ∈ S then UInt64.ofNat (S.equivFin ⟨x, h⟩) else 0).toNat < S.card then _ else _) = x
  simp only [dif_pos hx, e, Fin.is_lt, dif_pos, Fin.eta, Equiv.symm_apply_apply]

/-- The arrays of the first states can be given bit patterns. -/
theorem wire_for_arrays {F : Type} [Fl F] (f : ℕ → Fin 3 → Arr F 7) {N : ℕ} (hN : N ≤ 1000000000) : ∃ _ : Wire F, Wire.ofBits (Wire.toBits (lit 0 : F)) = (lit 0 : F) ∧
    ∀ n ≤ N, ∀ k, Kept (f n k) := by
  classical
  obtain ⟨wire, hw⟩ := wire_exists_for (insert (lit 0) ((Finset.range (N + 1) ×ˢ (Finset.univ : Finset (Fin 3 × Fin 7))).image fun p => f p.1 p.2.1 p.2.2)) (lit 0) (by
    refine (Finset.card_insert_le _ _).trans ?_
    have := Finset.card_image_le (s := Finset.range (N + 1) ×ˢ (Finset.univ : Finset (Fin 3 × Fin 7))) (f := fun p => f p.1 p.2.1 p.2.2)
    simp only [Finset.card_product, Finset.card_range, Finset.card_univ, Fintype.card_prod, Fintype.card_fin] at this
    omega)
  exact ⟨wire, hw _ (Finset.mem_insert_self _ _), fun n hn k i => hw _ (Finset.mem_insert_of_mem (Finset.mem_image.2
    ⟨(n, k, i), Finset.mem_product.2 ⟨Finset.mem_range.2 (Nat.lt_succ_of_le hn), Finset.mem_univ _⟩, rfl⟩))⟩

variable {A : Rounding}

/-- The limiter of joint `i`. -/
noncomputable def limiterOf (A : Rounding) (i : Fin 7) (u p v a : ℝ) : P (Rd A) :=
  limit_rate_position (MAX_JOINT_VELOCITY i) (MAX_JOINT_ACCELERATION i) (MAX_JOINT_JERK i) (Rd.fin u) (Rd.fin p) (Rd.fin v) (Rd.fin a)

/-- A joint whose positions come from the limiter: if the commanded positions stay inside the limits, then the limiter always gives a number. -/
theorem joint_goes (i : Fin 7) {N : ℕ} {u y : ℕ → ℝ} (h0 : |y 0| ≤ 9) (hu : ∀ n < N, |u n| ≤ 9) (inside : PositionInside N (jointLimits i) (starting (y 0) u))
    (next : ∀ n < N, limiterOf A i (u n) (y n) (rate y n) (rate (rate y) n) = .ok (Rd.fin (y (n + 1))) ∨
      (∀ z, limiterOf A i (u n) (y n) (rate y n) (rate (rate y) n) ≠ .ok (Rd.fin z)) ∧ y (n + 1) = 1000) :
    ∀ n < N, limiterOf A i (u n) (y n) (rate y n) (rate (rate y) n) = .ok (Rd.fin (y (n + 1))) := by
  intro n
  induction n using Nat.strong_induction_on with
  | _ n ih =>
    intro hn
    rcases next n hn with h | ⟨hno, hy⟩
    · exact h
    exfalso
    have hxb : ∀ k ≤ n, |starting (y 0) u k| ≤ 9 := fun k hk => by
      cases k with
      | zero => exact h0
      | succ k => exact hu k (by omega)
    have := position_follows (most_wider i) (g := 1) (e := 0) (δ := 1 / 10 ^ 14) (by norm_num) (by norm_num) le_rfl (by norm_num) (by norm_num) (N := n + 1) (u := u)
      (x := starting (y 0) u) (y := y) (v := rate y) (a := rate (rate y)) rfl (fun k _ => by simp [starting]) (fun k hk => inside.2 k (by omega))
      (fun k _ => by rw [sub_self, abs_zero]; norm_num) (fun k _ => by rw [sub_self, abs_zero]; norm_num)
      (fun k hk hd hv ha => by
        refine ⟨u k, by simp, fun h6 hal => ?_⟩
        have hyb : |y k| ≤ 10 := by linarith [abs_le_of_close hd (hxb k (by omega))]
        rcases Nat.lt_or_ge k n with hkn | hkn
        · rw [abs_sub_comm, ← abs_sub_comm]
          exact position_limiter_passes (ih k hkn (by omega)) hyb h6 hv ha hal
        · obtain rfl : k = n := by omega
          obtain ⟨z, hz, -⟩ := rd_limit_position_near (near_velocity (A := A) i) (near_acceleration i) (near_jerk i) (code_moderate i) hyb h6 (hv.trans (by linarith)) ha
          exact absurd hz (hno z)) (n + 1) le_rfl
    rw [hy] at this
    have h1 := abs_le_of_close (x := 1000) this (hu n hn)
    norm_num at h1

/-- What is known of a joint motion that is carried out: the generator and the positions in the last three states. -/
structure Going (A : Rounding) where
  gen : MotionGenerator (Rd A)
  now : Fin 7 → ℝ
  before : Fin 7 → ℝ
  earlier : Fin 7 → ℝ

namespace Going

noncomputable def vel (x : Going A) : Fin 7 → ℝ := fun i => (x.now i - x.before i) / 0.001
noncomputable def acc (x : Going A) : Fin 7 → ℝ := fun i => (x.now i - 2 * x.before i + x.earlier i) / 0.001 / 0.001

/-- The `n`-th state. -/
noncomputable def state (n : ℕ) (x : Going A) : RobotStateIntern (Rd A) :=
  plainState (UInt64.ofNat (n + 3)) (Arr.rd x.now) (Arr.rd x.vel) (Arr.rd x.acc) .JointPosition .JointImpedance .Move

/-- The `n`-th call of the generator. -/
noncomputable def answer (n : ℕ) (x : Going A) : MotionGenerator (Rd A) × JointPositions (Rd A) := x.gen.generate_motion (RobotState.ofIntern (x.state n)) (periodOf n)

open Classical in
/-- The position a joint has afterwards. -/
noncomputable def moved (n : ℕ) (x : Going A) (i : Fin 7) : ℝ :=
  if h : ∃ z u, (x.answer n).2.q i = Rd.fin u ∧ limiterOf A i u (x.now i) (x.vel i) (x.acc i) = .ok (Rd.fin z) then h.choose else 1000

/-- The motion. -/
noncomputable def run (sf : ℝ) (goal start : Fin 7 → ℝ) : ℕ → Going A
  | 0 => ⟨MotionGenerator.new (Rd.fin sf) (Arr.rd goal), start, start, start⟩
  | n + 1 => ⟨((run sf goal start n).answer n).1, (run sf goal start n).moved n, (run sf goal start n).now, (run sf goal start n).before⟩

variable {sf : ℝ} {goal start : Fin 7 → ℝ}

/-- The position of a joint in the `n`-th state. -/
noncomputable def place (A : Rounding) (sf : ℝ) (goal start : Fin 7 → ℝ) (i : Fin 7) (n : ℕ) : ℝ := (run (A := A) sf goal start n).now i

theorem before_eq (n : ℕ) (i : Fin 7) : (run (A := A) sf goal start n).before i = place A sf goal start i (n - 1) := by cases n <;> rfl

theorem earlier_eq (n : ℕ) (i : Fin 7) : (run (A := A) sf goal start n).earlier i = place A sf goal start i (n - 2) := by
  match n with
  | 0 => rfl
  | 1 => rfl
  | n + 2 => rfl

theorem vel_eq (n : ℕ) (i : Fin 7) : (run (A := A) sf goal start n).vel i = rate (place A sf goal start i) n := by
  rw [(rates_before _ n).1]
  unfold vel
  rw [before_eq, show n + 3 - 3 = n by omega, show n + 2 - 3 = n - 1 by omega]
  rfl

theorem acc_eq (n : ℕ) (i : Fin 7) : (run (A := A) sf goal start n).acc i = rate (rate (place A sf goal start i)) n := by
  rw [(rates_before _ n).2]
  unfold acc
  rw [before_eq, earlier_eq, show n + 3 - 3 = n by omega, show n + 2 - 3 = n - 1 by omega, show n + 1 - 3 = n - 2 by omega]
  rfl

theorem moved_eq {n : ℕ} {x : Going A} {i : Fin 7} {u : ℝ} (hu : (x.answer n).2.q i = Rd.fin u) :
    limiterOf A i u (x.now i) (x.vel i) (x.acc i) = .ok (Rd.fin (x.moved n i)) ∨ (∀ z, limiterOf A i u (x.now i) (x.vel i) (x.acc i) ≠ .ok (Rd.fin z)) ∧ x.moved n i = 1000 := by
  unfold moved
  by_cases h : ∃ z u, (x.answer n).2.q i = Rd.fin u ∧ limiterOf A i u (x.now i) (x.vel i) (x.acc i) = .ok (Rd.fin z)
  · rw [dif_pos h]
    refine .inl ?_
    obtain ⟨u', h1, h2⟩ := h.choose_spec
    rwa [← Rd.fin_inj (hu.symm.trans h1)] at h2
  · rw [dif_neg h]
    exact .inr ⟨fun z hz => h ⟨z, u, hu, hz⟩, rfl⟩

end Going
open Going

/-- The answers of the generator are on the paths. -/
theorem answer_close {sf L : ℝ} {start goal T tf : Fin 7 → ℝ} {path : Fin 7 → ℝ → ℝ} (hsf : 0 < sf)
    (hp : ∀ i, JointPlan (start i) (goal i) (sf * jointSpeed i) (sf * jointAcceleration) L (T i) (path i)) {n : ℕ} {out : JointPositions (Rd A)} (ho : AnswerAt tf path n out)
    (hn : n ≤ 600000) (hs : sf * ((n : ℝ) / 1000) ≤ 5.01) : ∃ u : Fin 7 → ℝ, out.q = Arr.rd u ∧ ∀ i, |u i - path i ((n : ℝ) / 1000)| ≤ 47 / 10 ^ 10 := by
  obtain ⟨τ, t1, t2, -⟩ := ho hn
  choose u u1 u2 using t2
  refine ⟨u, funext u1, fun i => ?_⟩
  have h1 := abs_sub_le (u i) (path i τ) (path i ((n : ℝ) / 1000))
  have h2 : |path i τ - path i ((n : ℝ) / 1000)| ≤ 2503 / 1000 * sf * |τ - (n : ℝ) / 1000| := by
    obtain ⟨a, b, -, -, -, hm⟩ := (hp i).path
    refine ((C53_move hm).2.2.2.2 _ _).trans (mul_le_mul_of_nonneg_right ?_ (abs_nonneg _))
    have := mul_le_mul_of_nonneg_left (jointSpeed_range i).2 hsf.le
    linarith
  have h3 : 2503 / 1000 * sf * |τ - (n : ℝ) / 1000| ≤ 2503 / 1000 * sf * (2 / 10 ^ 13 * n) := by gcongr
  have h4 : 2503 / 1000 * sf * (2 / 10 ^ 13 * n) = 2503 / 1000 * (2 / 10 ^ 10) * (sf * ((n : ℝ) / 1000)) := by ring
  have h5 := u2 i
  norm_num at *
  linarith

theorem id_of {n : ℕ} (h : n ≤ 2 ^ 40) : (UInt64.ofNat (n + 3)).toNat = n + 3 := by
  rw [UInt64.toNat_ofNat']
  exact Nat.mod_eq_of_lt (by omega)

/-- Positions that pass the limiters are converted. -/
theorem converts {out : JointPositions (Rd A)} {u p v a z : Fin 7 → ℝ} {st : RobotState (Rd A)} {m m' : MotionGeneratorCommand (Rd A)} (ho : out.q = Arr.rd u)
    (hst : st.q_d = Arr.rd p ∧ st.dq_d = Arr.rd v ∧ st.ddq_d = Arr.rd a)
    (h : ∀ i, limiterOf A i (u i) (p i) (v i) (a i) = .ok (Rd.fin (z i))) (hm : { m with q_c := Arr.rd z } = m') :
    JointPositions.convert_motion out st m (lit 1000) true = .ok m' := by
  unfold JointPositions.convert_motion
  have e : flt (lit 1000 : Rd A) MAX_CUTOFF_FREQUENCY = false := rd_no_filter
  have e2 : limit_rate_joint_positions MAX_JOINT_VELOCITY MAX_JOINT_ACCELERATION MAX_JOINT_JERK (Arr.rd u) (Arr.rd p) (Arr.rd v) (Arr.rd a) = (.ok (Arr.rd z) : P (Arr (Rd A) 7)) := by
    unfold limit_rate_joint_positions
    rw [rd_assertFinite, P_bind_ok_eq]
    exact Arr.tabulateP_ok h
  simp only [e, Bool.false_eq_true, if_false, if_true]
  rw [ho, hst.1, hst.2.1, hst.2.2]
  show (limit_rate_joint_positions _ _ _ _ _ _ _ >>= fun y => assertFinite y >>= fun _ => (pure { m with q_c := y } : P (MotionGeneratorCommand (Rd A)))) = _
  rw [e2, P_bind_ok_eq, rd_assertFinite, P_bind_ok_eq, ← hm]
  rfl

/-- The robot reports these desired positions, and the velocities and accelerations that follow. -/
def ReportedRounded (q : Fin 7 → ℕ → ℝ) (n : ℕ) (st : RobotState (Rd A)) : Prop :=
  st.q_d = (Arr.rd fun i => q i n) ∧ st.dq_d = (Arr.rd fun i => rate (q i) n) ∧ st.ddq_d = Arr.rd fun i => rate (rate (q i)) n

/-- The commands with which it comes to these positions. -/
noncomputable def positionCommands (q : Fin 7 → ℕ → ℝ) (n : ℕ) : MotionGeneratorCommand (Rd A) := { noMotion with q_c := Arr.rd fun i => q i (n + 1) }

/-- The state in which it reports them. -/
noncomputable def reportRounded (M : ℕ) (q : Fin 7 → ℕ → ℝ) (n : ℕ) : RobotStateIntern (Rd A) :=
  plainState (UInt64.ofNat (M + 2 + n)) (Arr.rd fun i => q i n) (Arr.rd fun i => rate (q i) n) (Arr.rd fun i => rate (rate (q i)) n) .JointPosition .JointImpedance .Move

/-- Its states and their commands. -/
theorem reports_get {q : Fin 7 → ℕ → ℝ} {M N : ℕ} {o : ℕ → Motion (Rd A) .JointPositions} {s : ℕ → RobotStateIntern (Rd A)} (hs : s = reportRounded M q) {n : ℕ} {st : RobotState (Rd A)}
    {x : RobotCommand (Rd A)}
    (h : ((List.range (N + 1)).map fun j => (RobotState.ofIntern (s j), (⟨(s j).message_id, sentCmd o (positionCommands q) j, noTorques⟩ : RobotCommand (Rd A))))[n]? = some (st, x)) :
    n ≤ N ∧ st = RobotState.ofIntern (reportRounded M q n) ∧ x.motion.q_c = Arr.rd fun i => q i (n + 1) := by
  rw [List.getElem?_map] at h
  obtain ⟨j, hj, e⟩ := Option.map_eq_some_iff.1 h
  obtain ⟨hn, hj⟩ := List.getElem?_eq_some_iff.1 hj
  rw [List.getElem_range] at hj
  rw [List.length_range] at hn
  subst hj
  simp only [Prod.mk.injEq] at e
  refine ⟨by omega, by rw [← e.1, hs], ?_⟩
  rw [← e.2]
  show (sentCmd o (positionCommands q) n).q_c = _
  unfold sentCmd
  split <;> rfl

/-- Such a robot follows. -/
theorem reports_follow {start : Fin 7 → ℝ} {q : Fin 7 → ℕ → ℝ} (h0 : ∀ i, q i 0 = start i) {M N : ℕ} (hN : M + N ≤ 2 ^ 40) {o : ℕ → Motion (Rd A) .JointPositions}
    {s : ℕ → RobotStateIntern (Rd A)} (hs : s = reportRounded M q) :
    FollowsRounded start q ((List.range (N + 1)).map fun j => (RobotState.ofIntern (s j), (⟨(s j).message_id, sentCmd o (positionCommands q) j, noTorques⟩ : RobotCommand (Rd A)))) := by
  refine ⟨h0, fun n st x h => ?_, fun n st x h => ?_, fun n st x h => ?_, fun n st x st' x' h h' => ?_⟩
  · rw [(reports_get hs h).2.1]
    rfl
  · refine ⟨_, by rw [(reports_get hs h).2.1]; rfl, fun i => ?_⟩
    rw [sub_self, abs_zero]
    norm_num
  · refine ⟨_, by rw [(reports_get hs h).2.1]; rfl, fun i => ?_⟩
    rw [sub_self, abs_zero]
    norm_num
  · obtain ⟨e0, e1, e2⟩ := reports_get hs h
    obtain ⟨e3, e4, -⟩ := reports_get hs h'
    rw [e1, e4, e2]
    refine ⟨rfl, ?_⟩
    show (UInt64.ofNat (M + 2 + (n + 1))).toNat = (UInt64.ofNat (M + 2 + n)).toNat + 1
    rw [UInt64.toNat_ofNat', UInt64.toNat_ofNat', Nat.mod_eq_of_lt (by omega), Nat.mod_eq_of_lt (by omega)]
    rfl

/-- A plan for joint positions happens. -/
theorem rounded_positions_happen [Geo (Rd A)] {σ : Type} {call : ControlCall (Rd A) σ .JointPositions} {c0 : σ} {cs : ℕ → σ} {o : ℕ → Motion (Rd A) .JointPositions}
    {q : Fin 7 → ℕ → ℝ} {N : ℕ} {start : Fin 7 → ℝ} {c : RobotCall (Rd A)} (hctl : IsControl c call c0) (hm : call.controller = .JointImpedance) (hN : N ≤ 1000000)
    (h0 : ∀ i, q i 0 = start i) (hmin : ∀ n < N, (o n).is_finished = false) (hend : (o N).is_finished = true)
    (hplan : IsPlanOf call c0 cs o (positionCommands q) (fun n st => n ≤ N ∧ ReportedRounded q n st)) :
    ∃ (_ : Wire (Rd A)) (w : World (Rd A)), RobotReachable w ∧ (c.run w).1 = .ok () ∧ answered w c = N + 1 ∧ FollowsRounded start q (exchanges (newEvents w (c.run w).2)) ∧
      ∀ n st x, Exchange w c n st x → x.motion.q_c = Arr.rd fun i => q i (n + 1) := by
  obtain ⟨s, hs⟩ : ∃ s : ℕ → RobotStateIntern (Rd A), s = reportRounded 1 q := ⟨_, rfl⟩
  obtain ⟨wire, k0, kp⟩ := wire_for_arrays (F := Rd A) (fun n => ![(s n).q_d, (s n).dq_d, (s n).ddq_d]) (show N ≤ 1000000000 by omega)
  have kz : Kept (fun _ => lit 0 : Arr (Rd A) 7) := fun _ => k0
  have hrobot : RobotFor call (fun n st => n ≤ N ∧ ReportedRounded q n st) N
      (plainState (F := Rd A) 2 (fun _ => lit 0) (fun _ => lit 0) (fun _ => lit 0) .JointPosition .JointImpedance .Move) s
      (plainState (F := Rd A) (UInt64.ofNat (N + 4)) (fun _ => lit 0) (fun _ => lit 0) (fun _ => lit 0) .Idle .Other .Idle) := by
    refine ⟨by omega, rfl, by rw [hm]; exact ⟨rfl, rfl⟩, fun n _ => ?_, fun n _ => by rw [hs, hm]; exact ⟨rfl, rfl, rfl⟩, fun n hn => ⟨hn, by rw [hs]; exact ⟨rfl, rfl, rfl⟩⟩, rfl, ?_,
      plainState_holds k0 kz kz kz, fun n hn => ?_, plainState_holds k0 kz kz kz⟩
    · rw [hs]
      show UInt64.ofNat (1 + 2 + n) = _
      rw [Nat.add_comm]
    · rintro (h | h) <;> first | exact h rfl | cases h
    · have h1 := kp n hn 0
      have h2 := kp n hn 1
      have h3 := kp n hn 2
      rw [hs] at h1 h2 h3 ⊢
      exact plainState_holds k0 h1 h2 h3
  obtain ⟨w, g1, g2, g3⟩ := hplan.happens hrobot hmin hend hctl
  refine ⟨wire, w, g1, g2, ?_, ?_, fun n st x hx => ?_⟩
  · unfold answered
    rw [g3]
    simp
  · rw [g3]
    exact reports_follow h0 (by omega) hs
  · unfold Exchange at hx
    rw [g3] at hx
    exact (reports_get hs hx).2.2

theorem generate_motion_same (g : MotionGenerator (Rd A)) {st st' : RobotState (Rd A)} (h : st.q_d = st'.q_d) (t : ℕ) : g.generate_motion st t = g.generate_motion st' t := by
  unfold MotionGenerator.generate_motion
  rw [h]

set_option maxHeartbeats 1000000 in
/-- The plan of a joint motion. -/
theorem joint_plan_rounded [Geo (Rd A)] (hz : A.rnd 0 = 0) {sf : ℝ} (s1 : 1 / 100 ≤ sf) (s2 : sf ≤ 0.98) (goal start : Fin 7 → ℝ) (hgoal : ∀ i, |goal i| ≤ 4)
    (hstart : ∀ i, |start i| ≤ 4) (hg : Gentle sf start goal) :
    ∃ (gs : ℕ → MotionGenerator (Rd A)) (o : ℕ → Motion (Rd A) .JointPositions) (q : Fin 7 → ℕ → ℝ) (N : ℕ), N ≤ 502000 ∧ (∀ i, q i 0 = start i) ∧
      (∀ n < N, (o n).is_finished = false) ∧ (o N).is_finished = true ∧
      IsPlanOf ⟨MotionGenerator.generate_motion, none, .JointImpedance, true, lit 1000⟩ (MotionGenerator.new (Rd.fin sf) (Arr.rd goal)) gs o (positionCommands q)
        (fun n st => n ≤ N ∧ ReportedRounded q n st) := by
  have hsf : 0 < sf := by linarith
  obtain ⟨s0, hs0d⟩ : ∃ s0, s0 = RobotState.ofIntern ((run (A := A) sf goal start 0).state 0) := ⟨_, rfl⟩
  have hs0 : s0.q_d = Arr.rd start := by rw [hs0d]; rfl
  obtain ⟨L, T, tf, path, hL, hL5, hLj, hp, htf, hsh, hgen⟩ := rd_first_shape hz s1 (by norm_num at s2; linarith) goal start hgoal hstart s0 hs0
  have hgo : ∀ n, GeneratorAt (MotionGenerator.new (Rd.fin sf) (Arr.rd goal)) ((MotionGenerator.new (Rd.fin sf) (Arr.rd goal)).generate_motion s0 0).1 n (run (A := A) sf goal start n).gen ∧
      AnswerAt tf path n ((run (A := A) sf goal start n).answer n).2 := by
    intro n
    induction n with
    | zero =>
      refine ⟨rfl, (generator_goes hz hgen 0 _ _ rfl fun _ => hs0d.symm).2⟩
    | succ n ih =>
      have h1 := (generator_goes hz hgen n _ (RobotState.ofIntern ((run (A := A) sf goal start n).state n)) ih.1 fun h => by subst h; exact hs0d.symm).1
      exact ⟨h1, (generator_goes hz hgen (n + 1) _ _ h1 nofun).2⟩
  have hTL : ∀ i, 0 ≤ T i ∧ T i ≤ 1001 / 1000 * L := fun i => by
    rcases (hp i).time with h | h
    · rw [h]; exact ⟨le_rfl, by positivity⟩
    · have := abs_le.1 h
      constructor <;> linarith
  have hL500 : L ≤ 500 := by nlinarith
  -- the last command
  have hex : ∃ n, ((run (A := A) sf goal start n).answer n).2.motion_finished = true := by
    refine ⟨502000, ?_⟩
    obtain ⟨x, x1, -, x3⟩ := (hgo 502000).2 (by norm_num)
    refine x3.2 fun i => ?_
    have h1 := (abs_le.1 (htf i)).2
    have h2 := (hTL i).2
    have h3 := (abs_le.1 x1).1
    norm_num at *
    linarith
  obtain ⟨N, hN, hNmin, hN9⟩ : ∃ N, ((run (A := A) sf goal start N).answer N).2.motion_finished = true ∧
      (∀ n < N, ((run (A := A) sf goal start n).answer n).2.motion_finished = false) ∧ N ≤ 502000 := by
    classical
    refine ⟨Nat.find hex, Nat.find_spec hex, fun n hn => by simpa using Nat.find_min hex hn, ?_⟩
    refine Nat.find_min' hex ?_
    obtain ⟨x, x1, -, x3⟩ := (hgo 502000).2 (by norm_num)
    refine x3.2 fun i => ?_
    have h1 := (abs_le.1 (htf i)).2
    have h2 := (hTL i).2
    have h3 := (abs_le.1 x1).1
    norm_num at *
    linarith
  have early : ∀ n ≤ N, sf * ((n : ℝ) / 1000) ≤ 5.01 := by
    intro n hn
    cases n with
    | zero => norm_num
    | succ m =>
      obtain ⟨x, x1, -, x3⟩ := (hgo m).2 (by omega)
      have : ¬ ∀ i, tf i ≤ x := fun h => by
        have h1 := hNmin m (by omega)
        rw [x3.2 h] at h1
        cases h1
      push Not at this
      obtain ⟨i, hi⟩ := this
      have h1 := (abs_le.1 (htf i)).2
      have h2 := (hTL i).2
      have h3 := (abs_le.1 x1).1
      have hj0 : (0 : ℝ) ≤ m := Nat.cast_nonneg m
      have h4 : (m : ℝ) / 1000 ≤ 1.0011 * L + 2 / 10 ^ 12 := by norm_num at *; linarith
      have h5 := mul_le_mul_of_nonneg_left h4 hsf.le
      push_cast
      norm_num at *
      linarith
  have hu : ∀ n : ℕ, ∃ u : Fin 7 → ℝ, n ≤ N → ((run (A := A) sf goal start n).answer n).2.q = Arr.rd u ∧ ∀ i, |u i - path i ((n : ℝ) / 1000)| ≤ 47 / 10 ^ 10 := by
    intro n
    by_cases hn : n ≤ N
    · obtain ⟨u, h1, h2⟩ := answer_close hsf hp (hgo n).2 (by omega) (early n hn)
      exact ⟨u, fun _ => ⟨h1, h2⟩⟩
    · exact ⟨0, fun h => absurd h hn⟩
  choose u hu using hu
  have honpath : ∀ i t, |path i t| ≤ 5 := fun i t => by
    obtain ⟨a, b, h1, h2, -, hm⟩ := (hp i).path
    have h3 := (C53_move hm).2.2.2.1 t
    have ha := abs_le_of_close h1 (hstart i)
    have hb := abs_le_of_close h2 (hgoal i)
    rw [abs_le] at ha hb ⊢
    rcases Set.mem_uIcc.1 h3 with h | h <;> constructor <;> linarith
  have hgoes : ∀ i, ∀ n < N + 1, limiterOf A i (u n i) (place A sf goal start i n) (rate (place A sf goal start i) n) (rate (rate (place A sf goal start i)) n) =
      .ok (Rd.fin (place A sf goal start i (n + 1))) := fun i => by
    refine joint_goes i (u := fun n => u n i) (y := place A sf goal start i) ((hstart i).trans (by norm_num)) (fun n hn => ?_) ?_ fun n hn => ?_
    · have := abs_le_of_close ((hu n (by omega)).2 i) (honpath i _)
      linarith
    · exact shape_inside (hp i) (hsh i) hsf s2 (plan_long hsf s2 hp hg i) fun n hn => (hu n (by omega)).2 i
    · have := moved_eq (n := n) (x := run sf goal start n) (i := i) (congrFun (hu n (by omega)).1 i)
      rw [vel_eq, acc_eq] at this
      exact this
  refine ⟨fun n => (run (A := A) sf goal start n).gen, fun n => ((run (A := A) sf goal start n).answer n).2, place A sf goal start, N, hN9, fun _ => rfl, hNmin, hN, rfl, rfl,
    fun n st hst => ?_, fun n st hst => ?_⟩
  · obtain ⟨-, r1, -, -⟩ := hst
    show (run (A := A) sf goal start n).gen.generate_motion st (periodOf n) = _
    rw [generate_motion_same (st' := RobotState.ofIntern ((run (A := A) sf goal start n).state n)) _ r1]
    rfl
  · obtain ⟨hn, r1, r2, r3⟩ := hst
    show JointPositions.convert_motion ((run (A := A) sf goal start n).answer n).2 st _ _ true = _
    exact converts (z := fun i => place A sf goal start i (n + 1)) (hu n hn).1 ⟨r1, r2, r3⟩ (fun i => hgoes i n (by omega)) (by cases n <;> rfl)

/-- **C106**, without hypotheses on the robot: for every start and goal there is a robot that follows, and then `joint_motion` returns Ok. -/
theorem C106_every_such_motion_happens [Geo (Rd A)] (hz : A.rnd 0 = 0) {sf : ℝ} (s1 : 1 / 100 ≤ sf) (s2 : sf ≤ 0.98) (goal start : Fin 7 → ℝ) (hgoal : ∀ i, |goal i| ≤ 4)
    (hstart : ∀ i, |start i| ≤ 4) (hg : Gentle sf start goal) :
    ∃ (_ : Wire (Rd A)) (w : World (Rd A)), RobotReachable w ∧ ((RobotCall.joint_motion (Rd.fin sf) (Arr.rd goal)).run w).1 = .ok () ∧
      0 < answered w (.joint_motion (Rd.fin sf) (Arr.rd goal)) ∧
      ∃ q, FollowsRounded start q (exchanges (newEvents w ((RobotCall.joint_motion (Rd.fin sf) (Arr.rd goal)).run w).2)) := by
  obtain ⟨gs, o, q, N, h1, h2, h3, h4, h5⟩ := joint_plan_rounded (A := A) hz s1 s2 goal start hgoal hstart hg
  obtain ⟨wire, w, g1, g2, g3, g4, -⟩ := rounded_positions_happen (.jointMotion _ _) rfl (by omega) h2 h3 h4 h5
  exact ⟨wire, w, g1, g2, by omega, q, g4⟩

/-- Where the motion ends. -/
theorem joint_plan_ends [Geo (Rd A)] (hz : A.rnd 0 = 0) {sf : ℝ} (s1 : 1 / 100 ≤ sf) (s2 : sf ≤ 0.98) {goal start : Fin 7 → ℝ} (hgoal : ∀ i, |goal i| ≤ 4)
    (hstart : ∀ i, |start i| ≤ 4) (hg : Gentle sf start goal) {gs : ℕ → MotionGenerator (Rd A)} {o : ℕ → Motion (Rd A) .JointPositions} {q : Fin 7 → ℕ → ℝ} {N : ℕ} (h1 : N ≤ 502000)
    (h2 : ∀ i, q i 0 = start i) (h3 : ∀ n < N, (o n).is_finished = false) (h4 : (o N).is_finished = true)
    (h5 : IsPlanOf ⟨MotionGenerator.generate_motion, none, .JointImpedance, true, lit 1000⟩ (MotionGenerator.new (Rd.fin sf) (Arr.rd goal)) gs o (positionCommands q)
      (fun n st => n ≤ N ∧ ReportedRounded q n st)) (i : Fin 7) : |q i (N + 1) - goal i| ≤ 11 / 10 ^ 7 := by
  obtain ⟨wire, w, g1, g2, g3, g4, g5⟩ := rounded_positions_happen (.jointMotion _ _) rfl (by omega) h2 h3 h4 h5
  obtain ⟨L, T, path, -, -, -, -, hx⟩ := C106_joint_motion hz s1 s2 goal start hgoal hstart hg g1 g4
  obtain ⟨st, x, he⟩ := exchange_exists (show N < answered w (.joint_motion (Rd.fin sf) (Arr.rd goal)) by omega)
  obtain ⟨⟨y, y1, -, y3⟩, -, -, k⟩ := hx N st x he
  have := (y3 (k g2 (by omega)) i).1
  have e := congrFun ((g5 N st x he).symm.trans y1) i
  rwa [← Rd.fin_inj e] at this

/-- For example: all joints move by one radian, almost at full speed, with the rounding of `f64`. -/
example [Geo (Rd binary64)] : ∃ (_ : Wire (Rd binary64)) (w : World (Rd binary64)), RobotReachable w ∧
    ((RobotCall.joint_motion (Rd.fin 0.98) (Arr.rd fun _ => 1)).run w).1 = .ok () ∧ 0 < answered w (.joint_motion (Rd.fin 0.98) (Arr.rd fun _ => 1)) ∧
    ∃ q, FollowsRounded (fun _ => 0) q (exchanges (newEvents w ((RobotCall.joint_motion (Rd.fin 0.98) (Arr.rd fun _ => 1)).run w).2)) :=
  C106_every_such_motion_happens binary64_zero (by norm_num) (by norm_num) (fun _ => 1) (fun _ => 0) (fun _ => by norm_num) (fun _ => by norm_num) (.inr ⟨0, by norm_num⟩)

end Verif
