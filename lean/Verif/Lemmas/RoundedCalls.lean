import Verif.Lemmas.RoundedShape
import Verif.Lemmas.Planned
import Verif.Props.RoundedMotion
import Verif.Spec.Follow
import Verif.Props.ProgramMotions
/-!
The answers of the motion generator in a `joint_motion` if every operation is rounded.
-/
set_option linter.unusedSectionVars false
namespace Verif
open Prog Spec Fl

section
variable {F : Type} [Fl F] [Geo F] {σ : Type} {k : MotionKind} {call : ControlCall F σ k} {c0 : σ}

theorem turns_called {I : ℕ → σ → Prop} {O : ℕ → Motion F k → Prop} {R : ℕ → RobotState F → Prop} (ht : call.torque = none) (h0 : I 0 c0)
    (hI : ∀ n c st, I n c → R n st → I (n + 1) (call.motion c st (periodOf n)).1 ∧ O n (call.motion c st (periodOf n)).2)
    {l : List (Turn F σ k)} (hg : GoodTurns call c0 l) (hR : ∀ (n : ℕ) (x : Turn F σ k), l[n]? = some x → R n x.st)
    (hn : ∀ (n : ℕ) (x x' : Turn F σ k), l[n]? = some x → l[n + 1]? = some x' → x'.st.time = x.st.time + 1) :
    ∀ (n : ℕ) (x : Turn F σ k), l[n]? = some x → O n x.out ∧ x.tq = none ∧ I (n + 1) (x.after call) := by
  have htq : ∀ {pre x}, GoodTurn call c0 pre x → x.tq = none := fun {pre x} g => by
    rcases g.torque with h | h
    · exact h.tq
    · obtain ⟨f, e, -⟩ := h.out
      rw [ht] at e
      cases e
  intro n
  induction n with
  | zero =>
    intro x hx
    have hRx := hR 0 x hx
    cases l with
    | nil => cases hx
    | cons a l =>
      cases hx
      have g := hg [] x l rfl
      have hc : x.c = c0 := g.moved.c
      have hdt : x.dt = 0 := by rw [g.moved.dt]; exact Nat.sub_self _
      obtain ⟨k1, k2⟩ := hI 0 c0 _ h0 hRx
      refine ⟨?_, htq g, ?_⟩
      · rw [g.moved.out, hc, hdt]; exact k2
      · unfold Turn.after
        rw [ht, hc, hdt]; exact k1
  | succ n ih =>
    intro x hx
    obtain ⟨hnl, hxe⟩ := List.getElem?_eq_some_iff.1 hx
    have hn1 : n < l.length := by omega
    obtain ⟨-, -, i3⟩ := ih l[n] (List.getElem?_eq_getElem hn1)
    have htime := hn n _ x (List.getElem?_eq_getElem hn1) hx
    have g := hg (l.take (n + 1)) x (l.drop (n + 2)) (by rw [← hxe, ← List.drop_eq_getElem_cons hnl, List.take_append_drop])
    have hlast : (l.take (n + 1)).getLast? = some l[n] := by
      rw [List.take_add_one, List.getElem?_eq_getElem hn1, Option.toList_some, List.getLast?_concat]
    have hc : x.c = l[n].after call := by rw [g.moved.c, cBefore, hlast]; rfl
    have hdt : x.dt = 1 := by rw [g.moved.dt, timeBefore, hlast, Option.elim_some, htime]; omega
    obtain ⟨k1, k2⟩ := hI (n + 1) _ _ i3 (hR _ _ hx)
    refine ⟨?_, htq g, ?_⟩
    · rw [g.moved.out, hc, hdt]; exact k2
    · unfold Turn.after
      rw [ht, hc, hdt]; exact k1

theorem calls_called [Wire F] {I : ℕ → σ → Prop} {O : ℕ → Motion F k → Prop} {R : ℕ → RobotState F → Prop} (ht : call.torque = none) (h0 : I 0 c0)
    (hI : ∀ n c st, I n c → R n st → I (n + 1) (call.motion c st (periodOf n)).1 ∧ O n (call.motion c st (periodOf n)).2)
    {w : World F} (hw : RobotReachable w) {c : RobotCall F} (hc : IsControl c call c0) (hR : ∀ n st x, Exchange w c n st x → R n st)
    (hn : ∀ n st x st' x', Exchange w c n st x → Exchange w c (n + 1) st' x' → st'.time = st.time + 1) :
    ∀ n st x, Exchange w c n st x → ∃ out, (motionOutputs k (newEvents w (c.run w).2))[n]? = some out ∧ O n out ∧
      (∃ m m', out.convert_motion st m call.cutoff call.limit_rate = .ok m' ∧ x.motion = if out.is_finished then { m' with motion_generation_finished := true } else m') ∧
      x.motion.motion_generation_finished = out.is_finished ∧
      (∀ j < n, ∃ out', (motionOutputs k (newEvents w (c.run w).2))[j]? = some out' ∧ O j out' ∧ out'.is_finished = false) ∧ ((c.run w).1 = .ok () → n + 1 = answered w c → out.is_finished = true) := by
  have hex : ∀ {l pend : List (Turn F σ k)}, SeenTurns call c0 (newEvents w (c.run w).2) l pend → ∀ (n : ℕ) (y : Turn F σ k), l[n]? = some y → ∃ x, Exchange w c n y.st x := by
    intro l pend h n y hy
    have hpq := congrArg (·[n]?) h.pairs
    simp only [List.getElem?_map, hy, Option.map_some] at hpq
    obtain ⟨q, hq, e⟩ := Option.map_eq_some_iff.1 hpq
    obtain ⟨st, x⟩ := q
    simp only [Prod.mk.injEq] at e
    obtain ⟨rfl, e2, e3⟩ := e
    exact ⟨x, hq⟩
  have key : ∀ {l pend : List (Turn F σ k)}, SeenTurns call c0 (newEvents w (c.run w).2) l pend → _ := fun {l pend} h => turns_called ht h0 hI h.good
    (fun n y hy => by
      obtain ⟨x, e1⟩ := hex h n y hy
      exact hR n _ _ e1)
    (fun n y y' hy hy' => by
      obtain ⟨x, e1⟩ := hex h n y hy
      obtain ⟨x', e1'⟩ := hex h (n + 1) y' hy'
      exact hn n _ _ _ _ e1 e1')
  obtain ⟨l, pend, h⟩ := call_turns hw hc
  intro n st x hx
  obtain ⟨t, h1, h2, h3, h4, h5, h6⟩ := h.at hx
  obtain ⟨k1, k2, -⟩ := key h n t h1
  refine ⟨t.out, h6, k1, ⟨mBefore (l.take n), t.m, h3 ▸ h2.moved.conv, ?_⟩, ?_, fun j hj => ?_, fun hok hlast => ?_⟩
  · rw [← h4]
    unfold Turn.cmd Turn.ended
    rw [k2, Option.elim_none, Bool.or_false]
  · have := turns_unflagged h.good t (List.mem_of_getElem? h1)
    rw [← h4]
    unfold Turn.cmd Turn.ended
    rw [k2, Option.elim_none, Bool.or_false]
    cases t.out.is_finished
    · exact this.flag
    · rfl
  · obtain ⟨hnl, -⟩ := List.getElem?_eq_some_iff.1 h1
    have hjl : j < l.length := by omega
    obtain ⟨q1, -, -⟩ := key h j l[j] (List.getElem?_eq_getElem hjl)
    have := h2.moved.earlier l[j] (List.mem_take_iff_getElem.2 ⟨j, by omega, rfl⟩)
    unfold Turn.ended at this
    obtain ⟨y, hy⟩ := hex h j l[j] (List.getElem?_eq_getElem hjl)
    obtain ⟨t', g1, -, -, -, -, g6⟩ := h.at hy
    rw [List.getElem?_eq_getElem hjl] at g1
    injection g1 with g1
    exact ⟨_, g1 ▸ g6, q1, (Bool.or_eq_false_iff.1 this).1⟩
  · obtain ⟨l', t', h', he⟩ := call_turns_ok hw hc hok
    have hlen : answered w c = l'.length + 1 := by
      have := congrArg List.length h'.pairs
      rw [List.length_map, List.length_map, List.length_append] at this
      exact this
    obtain ⟨t2, g1, -, -, -, -, g6⟩ := h'.at hx
    rw [show n = l'.length by omega, List.getElem?_concat_length] at g1
    cases g1
    rw [h6] at g6
    injection g6 with g6
    obtain ⟨-, k3, -⟩ := key h' l'.length t' (List.getElem?_concat_length ..)
    unfold Turn.ended at he
    rw [k3, Option.elim_none, Bool.or_false] at he
    rw [g6]
    exact he

end

variable {A : Rounding}

/-- What is known about the generator before its `n`-th call, if `g0` is the one after the first. -/
def GeneratorAt (g1 g0 : MotionGenerator (Rd A)) : ℕ → MotionGenerator (Rd A) → Prop
  | 0, c => c = g1
  | m + 1, c => m ≤ 600000 → { c with time := Rd.fin 0 } = g0 ∧ ∃ x, c.time = Rd.fin x ∧ |x - (m : ℝ) / 1000| ≤ 2 / 10 ^ 13 * m

/-- What is known about its `n`-th answer. -/
def AnswerAt (tf : Fin 7 → ℝ) (path : Fin 7 → ℝ → ℝ) (n : ℕ) (out : JointPositions (Rd A)) : Prop :=
  n ≤ 600000 → ∃ x : ℝ, |x - (n : ℝ) / 1000| ≤ 2 / 10 ^ 13 * n ∧ (∀ i, Near (out.q i) (path i x) (2 / 10 ^ 9)) ∧ (out.motion_finished = true ↔ ∀ i, tf i ≤ x)

theorem generator_goes (hz : A.rnd 0 = 0) {sf : ℝ} {goal : Fin 7 → ℝ} {tf : Fin 7 → ℝ} {path : Fin 7 → ℝ → ℝ} {s0 : RobotState (Rd A)}
    (h : ∀ (g : MotionGenerator (Rd A)) (t : ℝ), t = 0 ∨ 1 / 10 ^ 4 ≤ t →
        { g with time := Rd.fin 0 } = ((MotionGenerator.new (Rd.fin sf) (Arr.rd goal)).generate_motion s0 0).1 →
        (∀ i, Near ((Arr.add g.q_start (g.calculate_desired_values (Rd.fin t)).1) i) (path i t) (2 / 10 ^ 9)) ∧
        ((g.calculate_desired_values (Rd.fin t)).2 = true ↔ ∀ i, tf i ≤ t))
    (n : ℕ) (c : MotionGenerator (Rd A)) (st : RobotState (Rd A))
    (hc : GeneratorAt (MotionGenerator.new (Rd.fin sf) (Arr.rd goal)) ((MotionGenerator.new (Rd.fin sf) (Arr.rd goal)).generate_motion s0 0).1 n c) (hst : n = 0 → st = s0) :
    GeneratorAt (MotionGenerator.new (Rd.fin sf) (Arr.rd goal)) ((MotionGenerator.new (Rd.fin sf) (Arr.rd goal)).generate_motion s0 0).1 (n + 1) (c.generate_motion st (periodOf n)).1 ∧
      AnswerAt tf path n (c.generate_motion st (periodOf n)).2 := by
  cases n with
  | zero =>
    cases hst rfl
    have hc : c = MotionGenerator.new (Rd.fin sf) (Arr.rd goal) := hc
    subst hc
    obtain ⟨g0, hg0⟩ : ∃ g0, g0 = ((MotionGenerator.new (Rd.fin sf) (Arr.rd goal)).generate_motion s0 0).1 := ⟨_, rfl⟩
    have ht : ((MotionGenerator.new (Rd.fin sf) (Arr.rd goal)).time + secs 0 : Rd A) = Rd.fin 0 := by
      show (lit 0 + Rd.round A (.fin ((0 : ℕ) / 1000)) : Rd A) = _
      rw [Rd.lit_zero hz, Nat.cast_zero, zero_div, rnd_fin (by norm_num), hz]
      show Rd.round A (.fin (0 + 0)) = _
      rw [add_zero, rnd_fin (by norm_num), hz]
    have h0 : feq (Rd.fin 0 : Rd A) (lit 0 : Rd A) = true := by
      rw [Rd.lit_zero hz]
      exact (XR.feq_fin 0 0).trans (by simp)
    have htime : g0.time = Rd.fin 0 := by
      rw [hg0]
      unfold MotionGenerator.generate_motion
      simp only [ht, h0, if_true]
      rfl
    have hsame : { g0 with time := Rd.fin 0 } = g0 := by rw [← htime]
    have h2 : ((MotionGenerator.new (Rd.fin sf) (Arr.rd goal)).generate_motion s0 0).2 =
        ⟨(g0.calculate_desired_values (Rd.fin 0)).2, Arr.add g0.q_start (g0.calculate_desired_values (Rd.fin 0)).1⟩ := by
      rw [hg0]
      unfold MotionGenerator.generate_motion
      simp only [ht, h0, if_true]
      rfl
    show GeneratorAt _ _ 1 ((MotionGenerator.new (Rd.fin sf) (Arr.rd goal)).generate_motion s0 0).1 ∧ AnswerAt tf path 0 ((MotionGenerator.new (Rd.fin sf) (Arr.rd goal)).generate_motion s0 0).2
    rw [h2, ← hg0]
    refine ⟨fun _ => ⟨hsame, 0, htime, by norm_num⟩, fun _ => ⟨0, by norm_num, ?_⟩⟩
    exact h g0 0 (.inl rfl) (hsame.trans hg0)
  | succ m =>
    by_cases hm : m + 1 ≤ 600000
    · obtain ⟨c1, x, c2, c3⟩ := hc (by omega)
      obtain ⟨y, y1, y2, y3⟩ := time_step (A := A) (n := m) (p := 1) (by norm_num) (by omega) c3
      have hgen : c.generate_motion st 1 = ({ c with time := Rd.fin y },
          ⟨(({ c with time := Rd.fin y } : MotionGenerator (Rd A)).calculate_desired_values (Rd.fin y)).2,
            Arr.add c.q_start (({ c with time := Rd.fin y } : MotionGenerator (Rd A)).calculate_desired_values (Rd.fin y)).1⟩) := by
        unfold MotionGenerator.generate_motion
        have e : (c.time + secs 1 : Rd A) = Rd.fin y := by rw [c2]; exact y1
        have e0 : feq (Rd.fin y : Rd A) (lit 0 : Rd A) = false := by
          rw [Rd.lit_zero hz]
          refine (XR.feq_fin y 0).trans (decide_eq_false ?_)
          linarith
        simp only [e, e0, Bool.false_eq_true, if_false]
      show GeneratorAt _ _ (m + 2) (c.generate_motion st 1).1 ∧ AnswerAt tf path (m + 1) (c.generate_motion st 1).2
      rw [hgen]
      exact ⟨fun _ => ⟨c1, y, rfl, y2⟩, fun _ => ⟨y, y2, h { c with time := Rd.fin y } y (.inr (by linarith)) c1⟩⟩
    · exact ⟨fun h => absurd h hm, fun h => absurd h hm⟩

/-- A joint motion inside the limits. -/
theorem shape_inside {i : Fin 7} {start goal sf L T : ℝ} {x : ℝ → ℝ} {u : ℕ → ℝ} {N : ℕ} (hp : JointPlan start goal (sf * jointSpeed i) (sf * jointAcceleration) L T x)
    (hs : PathShape start sf T x) (hsf : 0 < sf) (hsf1 : sf ≤ 0.98) (hg : sf ≤ 0.37 ∨ T = 0 ∨ 0.014 ≤ T) (hu : ∀ n < N, |u n - x ((n : ℝ) / 1000)| ≤ 47 / 10 ^ 10) :
    PositionInside N (jointLimits i) (starting start u) := by
  obtain ⟨p, q, -, -, -, hm⟩ := hp.path
  obtain ⟨j1, j2⟩ := jointSpeed_range i
  have hthird := shape_third hs hm hsf hsf1 hg
  rcases hs with ⟨c, hc, rfl⟩ | ⟨d, v, τ, t2, hd, hx, h1, h2, h3, h4, h5⟩
  · rw [abs_le] at hc
    refine inside_near i (X := fun k => if k ≤ 3 then start else c) (fun k hk => ?_) (fun k => ?_) (fun k => ?_) (fun k => ?_)
    · rcases Nat.lt_or_ge 3 k with h | h
      · obtain ⟨m, rfl⟩ : ∃ m, k = m + 4 := ⟨k - 4, by omega⟩
        rw [show m + 4 - 3 = m + 1 by omega]
        show |u m - if m + 4 ≤ 3 then start else c| ≤ _
        rw [if_neg (by omega)]
        exact hu m (by omega)
      · rw [show k - 3 = 0 by omega]
        show |start - if k ≤ 3 then start else c| ≤ _
        rw [if_pos h, sub_self, abs_zero]
        norm_num
    · rw [abs_le]
      split <;> split <;> first | omega | (constructor <;> norm_num at * <;> linarith)
    · rw [abs_le]
      split <;> split <;> split <;> first | omega | (constructor <;> norm_num at * <;> linarith)
    · rw [abs_le]
      split <;> split <;> split <;> split <;> first | omega | (constructor <;> norm_num at * <;> linarith)
  · have hx0 : ∀ t ≤ 0, x t = start := fun t ht => by
      rw [hx]
      unfold profile
      rw [ramp_of_nonpos (div_nonpos_of_nonpos_of_nonneg ht h2.le), ramp_of_nonpos (div_nonpos_of_nonpos_of_nonneg (by nlinarith) h2.le)]
      ring
    obtain ⟨w, g1, -, g2, g3⟩ := hm.velocity
    have e : ∀ (k j : ℕ), (((k + j : ℕ) : ℝ) - 4) / 1000 = ((k : ℝ) - 4) / 1000 + j * 0.001 := fun k j => by push_cast; ring
    refine inside_near i (X := fun k => x (((k : ℝ) - 4) / 1000)) (fun k hk => ?_) (fun k => ?_) (fun k => ?_) (fun k => ?_)
    · rcases Nat.lt_or_ge 3 k with h | h
      · obtain ⟨m, rfl⟩ : ∃ m, k = m + 4 := ⟨k - 4, by omega⟩
        rw [show m + 4 - 3 = m + 1 by omega]
        show |u m - x _| ≤ _
        rw [show (((m + 4 : ℕ) : ℝ) - 4) / 1000 = (m : ℝ) / 1000 by push_cast; ring]
        exact hu m (by omega)
      · rw [show k - 3 = 0 by omega]
        show |start - x _| ≤ _
        have : (k : ℝ) ≤ 3 := by exact_mod_cast h
        rw [hx0 _ (by linarith), sub_self, abs_zero]
        norm_num
    · have := lip_of_deriv g1 g2 (((k : ℝ) - 4) / 1000) ((((k + 1 : ℕ) : ℝ) - 4) / 1000)
      refine this.trans ?_
      rw [e k 1, add_sub_cancel_left]
      push_cast
      rw [one_mul, abs_of_pos (by norm_num : (0 : ℝ) < 0.001)]
      refine mul_le_mul_of_nonneg_right ?_ (by norm_num)
      have : sf * jointSpeed i ≤ 1 * jointSpeed i := mul_le_mul_of_nonneg_right (by norm_num at hsf1; linarith) (by linarith)
      linarith
    · have := second_diff g1 g3 (show (0 : ℝ) ≤ 0.001 by norm_num) ((((k + 2 : ℕ) : ℝ) - 4) / 1000)
      rw [show (((k + 2 : ℕ) : ℝ) - 4) / 1000 - 0.001 = (((k + 1 : ℕ) : ℝ) - 4) / 1000 by push_cast; ring,
        show (((k + 2 : ℕ) : ℝ) - 4) / 1000 - 2 * 0.001 = ((k : ℝ) - 4) / 1000 by push_cast; ring] at this
      refine this.trans (mul_le_mul_of_nonneg_right ?_ (by norm_num))
      unfold jointAcceleration
      norm_num at hsf1 ⊢
      linarith
    · have := hthird ((((k + 3 : ℕ) : ℝ) - 4) / 1000)
      rw [show (((k + 3 : ℕ) : ℝ) - 4) / 1000 - 0.001 = (((k + 2 : ℕ) : ℝ) - 4) / 1000 by push_cast; ring,
        show (((k + 3 : ℕ) : ℝ) - 4) / 1000 - 2 * 0.001 = (((k + 1 : ℕ) : ℝ) - 4) / 1000 by push_cast; ring,
        show (((k + 3 : ℕ) : ℝ) - 4) / 1000 - 3 * 0.001 = ((k : ℝ) - 4) / 1000 by push_cast; ring] at this
      exact this

end Verif
