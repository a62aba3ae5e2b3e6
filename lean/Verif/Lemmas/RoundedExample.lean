import Verif.Spec.RoundedExamples
import Verif.Props.RoundedFollows
import Verif.Props.ExamplePosition
import Verif.Props.PoseFilter
/-!
The callback of the joint position example if every operation is rounded.
-/
set_option linter.unusedSectionVars false
namespace Verif
open Prog Spec Fl

variable {A : Rounding}

namespace RoundedExample
open PositionExample (target target_zero target_step target_second target_first size)

theorem near_pi : Near (pi : Rd A) Real.pi (52 / 10 ^ 17) := by
  have h := Real.pi_lt_d2
  have h0 := Real.pi_pos
  have := near_round (A := A) (z := Real.pi) (r := Real.pi) (e := 0) (B := 4) (by simp) (by rw [abs_of_pos h0]; linarith) (by norm_num) (by norm_num)
  exact this.weaken (by rw [sub_self, abs_zero]; norm_num)

theorem near_cos {x : Rd A} {r e : ℝ} (hx : Near x r e) (he : e ≤ 1) : Near (fcos x) (Real.cos r) (e + 26 / 10 ^ 17) := by
  obtain ⟨y, rfl, hy⟩ := hx
  have h1 : |Real.cos y - Real.cos r| ≤ e := by
    have := Real.lipschitzWith_cos.dist_le_mul y r
    rw [Real.dist_eq, Real.dist_eq, NNReal.coe_one, one_mul] at this
    exact this.trans hy
  have := near_round (A := A) (z := Real.cos y) (r := Real.cos r) (e := e) (B := 2) h1 (by linarith [Real.abs_cos_le_one r]) (by norm_num) (by norm_num)
  exact this.weaken (by rw [sub_self, abs_zero]; norm_num)

/-- The angle by which the joints swing. -/
theorem near_delta {x t : ℝ} (ht : 0 ≤ t) (ht2 : t ≤ 5.001) (hx : |x - t| ≤ 1001 / 10 ^ 12) :
    Near (pi / lit 8 * (lit 1 - fcos (pi / lit (5 / 2) * Rd.fin x)) : Rd A) (Real.pi / 8 * (1 - Real.cos (2 * Real.pi * t / 5))) (7 / 10 ^ 10) := by
  have p0 := Real.pi_gt_d2
  have p1 := Real.pi_lt_d2
  have l8 : Near (lit 8 : Rd A) ((8 : ℚ) : ℝ) (13 / 10 ^ 17 * 8) := near_lit (by norm_num) (by norm_num) (by norm_num)
  have l1 : Near (lit 1 : Rd A) ((1 : ℚ) : ℝ) (13 / 10 ^ 17 * 1) := near_lit (by norm_num) (by norm_num) (by norm_num)
  have l5 : Near (lit (5 / 2) : Rd A) ((5 / 2 : ℚ) : ℝ) (13 / 10 ^ 17 * 3) := near_lit (by norm_num) (by norm_num) (by norm_num)
  have hp8 : |Real.pi / ((8 : ℚ) : ℝ)| ≤ 0.395 := by
    rw [abs_of_nonneg (by positivity)]; push_cast; norm_num at *; linarith
  have hp5 : |Real.pi / ((5 / 2 : ℚ) : ℝ)| ≤ 1.27 := by
    rw [abs_of_nonneg (by positivity)]; push_cast; norm_num at *; linarith
  have a1 := (near_pi (A := A)).div l8 (m := 1) (B := 1) (by norm_num) (hp8.trans (by norm_num)) (by norm_num at *; linarith) (by norm_num) (by norm_num)
  have a1 : Near (pi / lit 8 : Rd A) (Real.pi / 8) (2 / 10 ^ 15) := a1.weaken (by push_cast; rw [sub_self, abs_zero]; norm_num)
  have a2 := (near_pi (A := A)).div l5 (m := 2) (B := 2) (by norm_num) (hp5.trans (by norm_num)) (by norm_num at *; linarith) (by norm_num) (by norm_num)
  have a2 : Near (pi / lit (5 / 2) : Rd A) (2 * Real.pi / 5) (2 / 10 ^ 15) := a2.weaken (by
    rw [show Real.pi / ((5 / 2 : ℚ) : ℝ) = 2 * Real.pi / 5 by push_cast; ring, sub_self, abs_zero]; norm_num)
  have hw : |2 * Real.pi / 5| ≤ 1.27 := by rw [abs_of_nonneg (by positivity)]; norm_num at *; linarith
  have a3 := a2.mul (show Near (Rd.fin x : Rd A) t (1001 / 10 ^ 12) from ⟨x, rfl, hx⟩) (m := 1.28) (m' := 6) (B := 8) (by norm_num at *; linarith) (by rw [abs_of_nonneg ht]; norm_num at *; linarith)
    (by
      rw [abs_mul, abs_of_nonneg ht]
      have : |2 * Real.pi / 5| * t ≤ 1.27 * 5.001 := by gcongr
      norm_num at *; linarith) (by norm_num) (by norm_num)
  have a4 := near_cos a3 (by norm_num)
  have hc := Real.abs_cos_le_one (2 * Real.pi / 5 * t)
  have hc1 : |((1 : ℚ) : ℝ) - Real.cos (2 * Real.pi / 5 * t)| ≤ 2 := by
    push_cast
    rw [abs_le] at hc ⊢
    constructor <;> linarith
  have a5 := l1.sub a4 (B := 3) (by norm_num at *; linarith) (by norm_num) (by norm_num)
  have a5 : Near (lit 1 - fcos (pi / lit (5 / 2) * Rd.fin x) : Rd A) (1 - Real.cos (2 * Real.pi / 5 * t)) (13 / 10 ^ 10) := a5.weaken (by
    push_cast; rw [sub_self, abs_zero]; norm_num)
  have hp : |Real.pi / 8| ≤ 0.395 := by push_cast at hp8; exact hp8
  have a6 := a1.mul a5 (m := 0.4) (m' := 2) (B := 2) (by norm_num at *; linarith) (by push_cast at hc1; exact hc1)
    (by
      rw [abs_mul]
      have : |Real.pi / 8| * |1 - Real.cos (2 * Real.pi / 5 * t)| ≤ 0.395 * 2 := by
        push_cast at hc1
        gcongr
      norm_num at *; linarith) (by norm_num) (by norm_num)
  refine a6.weaken ?_
  rw [show 2 * Real.pi / 5 * t = 2 * Real.pi * t / 5 by ring, sub_self, abs_zero]
  norm_num

/-- What is known of the captured values before the `n`-th call. -/
def CapturedAt (start : Fin 7 → ℝ) : ℕ → Examples.PositionState (Rd A) → Prop
  | 0, c => c = .new
  | m + 1, c => m ≤ 5001 → c.initial_position = Arr.rd start ∧ ∃ x, c.time = Rd.fin x ∧ |x - (m : ℝ) / 1000| ≤ 2 / 10 ^ 13 * m

/-- What is known of the `n`-th answer. -/
def AnsweredAt (start : Fin 7 → ℝ) (n : ℕ) (out : JointPositions (Rd A)) : Prop :=
  n ≤ 5001 → (∀ i, Near (out.q i) (target start i n) (1 / 10 ^ 9)) ∧ (n < 5000 → out.motion_finished = false) ∧ (5000 < n → out.motion_finished = true)

theorem answer_of {start : Fin 7 → ℝ} (hs : ∀ i, |start i| ≤ 8) {n : ℕ} (hn : n ≤ 5001) {x : ℝ} (hx : |x - (n : ℝ) / 1000| ≤ 2 / 10 ^ 13 * n) {c : Examples.PositionState (Rd A)}
    {st : RobotState (Rd A)} {dt : ℕ} (ht : c.time + secs dt = Rd.fin x) (hi : (if feq (Rd.fin x : Rd A) (lit 0) then st.q_d else c.initial_position) = Arr.rd start) :
    (Examples.position_callback c st dt).1 = ⟨Arr.rd start, Rd.fin x⟩ ∧ AnsweredAt start n (Examples.position_callback c st dt).2 := by
  have hn0 : (0 : ℝ) ≤ n := Nat.cast_nonneg n
  have hn1 : (n : ℝ) ≤ 5001 := by exact_mod_cast hn
  have hx' : |x - (n : ℝ) / 1000| ≤ 1001 / 10 ^ 12 := hx.trans (by norm_num1; linarith)
  have hd := near_delta (A := A) (x := x) (t := (n : ℝ) / 1000) (by positivity) (by norm_num1; linarith) hx'
  obtain ⟨e5, he5, he5'⟩ : Near (lit 5 : Rd A) ((5 : ℚ) : ℝ) (13 / 10 ^ 17 * 5) := near_lit (by norm_num) (by norm_num) (by norm_num)
  have hfle : fle (lit 5 : Rd A) (Rd.fin x) = decide (e5 ≤ x) := by rw [he5]; exact XR.fle_fin e5 x
  push_cast at he5'
  obtain ⟨f1, f2⟩ := abs_le.1 he5'
  obtain ⟨f3, f4⟩ := abs_le.1 hx'
  unfold Examples.position_callback
  simp only [ht, hi, hfle]
  refine ⟨trivial, fun _ => ⟨fun i => ?_, fun h => ?_, fun h => ?_⟩⟩
  · suffices h : Near (if i = 3 ∨ i = 4 ∨ i = 6 then Rd.fin (start i) + pi / lit 8 * (lit 1 - fcos (pi / lit (5 / 2) * Rd.fin x)) else Rd.fin (start i) : Rd A) (target start i n) (1 / 10 ^ 9) by
      by_cases h5 : e5 ≤ x
      · simp only [decide_eq_true h5]
        exact h
      · simp only [decide_eq_false h5]
        exact h
    unfold target swing
    by_cases hi : i = 3 ∨ i = 4 ∨ i = 6
    · rw [if_pos hi, if_pos hi]
      have hb : |start i + Real.pi / 8 * (1 - Real.cos (2 * Real.pi * ((n : ℝ) / 1000) / 5))| ≤ 9 := by
        have h1 := hs i
        have h2 := Real.abs_cos_le_one (2 * Real.pi * ((n : ℝ) / 1000) / 5)
        have h3 := Real.pi_lt_d2
        have h4 := Real.pi_pos
        rw [abs_le] at h1 h2 ⊢
        constructor <;> nlinarith
      have := (near_fin (A := A) (start i)).add hd (B := 10) (by norm_num at *; linarith) (by norm_num) (by norm_num)
      exact this.weaken (by rw [sub_self, abs_zero]; norm_num)
    · rw [if_neg hi, if_neg hi, add_zero]
      exact (near_fin (A := A) (start i)).weaken (by rw [sub_self, abs_zero]; norm_num)
  · have h' : (n : ℝ) ≤ 4999 := by exact_mod_cast (show n ≤ 4999 by omega)
    have : ¬ e5 ≤ x := by rw [not_le]; norm_num1 at f1 f4; linarith
    simp only [decide_eq_false this]
    rfl
  · have h' : (5001 : ℝ) ≤ n := by exact_mod_cast h
    have : e5 ≤ x := by norm_num1 at f2 f3; linarith
    simp only [decide_eq_true this]
    rfl

theorem goes (hz : A.rnd 0 = 0) {start : Fin 7 → ℝ} (hs : ∀ i, |start i| ≤ 8) (n : ℕ) (c : Examples.PositionState (Rd A)) (st : RobotState (Rd A))
    (hc : CapturedAt start n c) (hst : n = 0 → st.q_d = Arr.rd start) :
    CapturedAt start (n + 1) (Examples.position_callback c st (periodOf n)).1 ∧ AnsweredAt start n (Examples.position_callback c st (periodOf n)).2 := by
  cases n with
  | zero =>
    have hc : c = .new := hc
    subst hc
    have ht : ((Examples.PositionState.new : Examples.PositionState (Rd A)).time + secs 0 : Rd A) = Rd.fin 0 := by
      show (lit 0 + Rd.round A (.fin ((0 : ℕ) / 1000)) : Rd A) = _
      rw [Rd.lit_zero hz, Nat.cast_zero, zero_div, rnd_fin (by norm_num), hz]
      show Rd.round A (.fin (0 + 0)) = _
      rw [add_zero, rnd_fin (by norm_num), hz]
    have h0 : feq (Rd.fin 0 : Rd A) (lit 0 : Rd A) = true := by
      rw [Rd.lit_zero hz]
      exact (XR.feq_fin 0 0).trans (by simp)
    obtain ⟨k1, k2⟩ := answer_of (A := A) hs (n := 0) (by norm_num) (x := 0) (by norm_num) (c := .new) (st := st) (dt := 0) ht (by rw [h0, if_pos rfl, hst rfl])
    refine ⟨fun _ => ?_, k2⟩
    show (Examples.position_callback .new st 0).1.initial_position = _ ∧ ∃ x, (Examples.position_callback .new st 0).1.time = _ ∧ _
    rw [k1]
    exact ⟨rfl, 0, rfl, by norm_num⟩
  | succ m =>
    by_cases hm : m + 1 ≤ 5001
    · obtain ⟨c1, x, c2, c3⟩ := hc (by omega)
      obtain ⟨y, y1, y2, y3⟩ := time_step (A := A) (n := m) (p := 1) (by norm_num) (by omega) c3
      have h0 : feq (Rd.fin y : Rd A) (lit 0 : Rd A) = false := by
        rw [Rd.lit_zero hz]
        refine (XR.feq_fin y 0).trans (decide_eq_false ?_)
        linarith
      obtain ⟨k1, k2⟩ := answer_of (A := A) hs (n := m + 1) hm (x := y) y2 (c := c) (st := st) (dt := 1) (by rw [c2]; exact y1) (by rw [h0, c1]; simp)
      refine ⟨fun _ => ?_, k2⟩
      show (Examples.position_callback c st 1).1.initial_position = _ ∧ ∃ x, (Examples.position_callback c st 1).1.time = _ ∧ _
      rw [k1]
      exact ⟨rfl, y, rfl, y2⟩
    · exact ⟨fun h => absurd h hm, fun h => absurd h hm⟩

/-- The swing is inside the limits. -/
theorem swing_inside {start : Fin 7 → ℝ} (i : Fin 7) {u : ℕ → ℝ} {N : ℕ} (hu : ∀ n < N, |u n - target start i n| ≤ 1 / 10 ^ 9) :
    PositionInside N (jointLimits i) (Spec.starting (start i) u) := by
  obtain ⟨s1, s2, -⟩ := size
  have j1 := (jointSpeed_range i).1
  have hsecond : ∀ k : ℕ, |target start i (k + 2 - 4) - 2 * target start i (k + 1 - 4) + target start i (k - 4)| ≤ 0.0000018 := by
    intro k
    match k with
    | 0 => simp [two_mul]; norm_num
    | 1 => simp [two_mul]; norm_num
    | 2 => simp [two_mul]; norm_num
    | 3 =>
      have := target_first start i
      simp only [show 3 + 2 - 4 = 1 by rfl, show 3 + 1 - 4 = 0 by rfl, target_zero]
      rw [show target start i 1 - 2 * start i + start i = target start i 1 - start i by ring]
      exact this.trans s2
    | k + 4 =>
      have := target_second start i k
      simp only [show k + 4 + 2 - 4 = k + 2 by omega, show k + 4 + 1 - 4 = k + 1 by omega, show k + 4 - 4 = k by omega]
      rw [show target start i (k + 2) - 2 * target start i (k + 1) + target start i k =
        target start i (k + 2) - target start i (k + 1) - (target start i (k + 1) - target start i k) by ring]
      exact this.trans s2
  refine inside_near i (X := fun k => target start i (k - 4)) (fun k hk => ?_) (fun k => ?_) (fun k => ?_) (fun k => ?_)
  · rcases Nat.lt_or_ge 3 k with h | h
    · obtain ⟨m, rfl⟩ : ∃ m, k = m + 4 := ⟨k - 4, by omega⟩
      rw [show m + 4 - 3 = m + 1 by omega]
      show |u m - target start i (m + 4 - 4)| ≤ _
      rw [Nat.add_sub_cancel]
      exact (hu m (by omega)).trans (by norm_num)
    · rw [show k - 3 = 0 by omega]
      show |start i - target start i (k - 4)| ≤ _
      rw [show k - 4 = 0 by omega, target_zero, sub_self, abs_zero]
      norm_num
  · have h1 : |target start i (k + 1 - 4) - target start i (k - 4)| ≤ 0.0005 := by
      rcases Nat.lt_or_ge k 4 with h | h
      · rw [show k + 1 - 4 = 0 by omega, show k - 4 = 0 by omega, sub_self, abs_zero]; norm_num
      · obtain ⟨m, rfl⟩ : ∃ m, k = m + 4 := ⟨k - 4, by omega⟩
        rw [show m + 4 + 1 - 4 = m + 1 by omega, show m + 4 - 4 = m by omega]
        exact (target_step start i m).trans s1
    refine h1.trans ?_
    norm_num at *
    linarith
  · exact (hsecond k).trans (by norm_num)
  · have h1 := hsecond k
    have h2 := hsecond (k + 1)
    rw [abs_le] at h1 h2 ⊢
    simp only [Nat.add_assoc, Nat.reduceAdd] at h1 h2 ⊢
    constructor <;> norm_num at * <;> linarith

theorem share_close {f : ℝ} (hf : |f - 100| ≤ 1 / 10 ^ 13) : |share f - share 100| ≤ 1 / 10 ^ 15 := by
  have p0 := Real.pi_pos
  have p1 := Real.pi_lt_d2
  obtain ⟨f1, f2⟩ := abs_le.1 hf
  have f0 : 0 ≤ f := by norm_num1 at f1; linarith
  have a0 : 0 ≤ 2 * Real.pi * f := by positivity
  have e : share f - share 100 = 2 * Real.pi * 1000 / ((1000 + 2 * Real.pi * f) * (1000 + 2 * Real.pi * 100)) * (f - 100) := by
    unfold share
    have h1 : 1000 + 2 * Real.pi * f ≠ 0 := by positivity
    have h2 : 1000 + 2 * Real.pi * 100 ≠ 0 := by positivity
    field_simp
    ring
  rw [e, abs_mul]
  have h1 : |2 * Real.pi * 1000 / ((1000 + 2 * Real.pi * f) * (1000 + 2 * Real.pi * 100))| ≤ 1 / 100 := by
    rw [abs_of_nonneg (by positivity), div_le_div_iff₀ (by positivity) (by norm_num)]
    nlinarith
  calc _ ≤ (1 / 100 : ℝ) * (1 / 10 ^ 13) := mul_le_mul h1 hf (abs_nonneg _) (by norm_num)
    _ = _ := by norm_num

/-- Two means with almost the same share of almost the same signals. -/
theorem means_close {g h e B E : ℝ} (h0 : 0 < h) (h1 : h ≤ 1) (hg : |g - h| ≤ 1 / 10 ^ 15) {N : ℕ} {u w x y : ℕ → ℝ} (hx : ∀ n < N, x (n + 1) = g * u n + (1 - g) * x n)
    (hy : ∀ n < N, y (n + 1) = h * w n + (1 - h) * y n) (hxy : x 0 = y 0) (huw : ∀ n < N, |u n - w n| ≤ e) (hu : ∀ n < N, |u n - x n| ≤ B) (hE0 : 0 ≤ E) (hE : h * e + B / 10 ^ 15 ≤ h * E) :
    ∀ n ≤ N, |x n - y n| ≤ E := by
  intro n
  induction n with
  | zero => intro _; rw [hxy, sub_self, abs_zero]; exact hE0
  | succ n ih =>
    intro hn
    have hi := ih (by omega)
    rw [hx n (by omega), hy n (by omega), show g * u n + (1 - g) * x n - (h * w n + (1 - h) * y n) = (h * (u n - w n) + (1 - h) * (x n - y n)) + (g - h) * (u n - x n) by ring]
    have k1 : |h * (u n - w n)| ≤ h * e := by rw [abs_mul, abs_of_pos h0]; exact mul_le_mul_of_nonneg_left (huw n (by omega)) h0.le
    have k2 : |(1 - h) * (x n - y n)| ≤ (1 - h) * E := by rw [abs_mul, abs_of_nonneg (by linarith)]; exact mul_le_mul_of_nonneg_left hi (by linarith)
    have k3 : |(g - h) * (u n - x n)| ≤ 1 / 10 ^ 15 * B := by rw [abs_mul]; exact mul_le_mul hg (hu n (by omega)) (abs_nonneg _) (by norm_num)
    have k4 := abs_add_le (h * (u n - w n) + (1 - h) * (x n - y n)) ((g - h) * (u n - x n))
    have k5 := abs_add_le (h * (u n - w n)) ((1 - h) * (x n - y n))
    have : 1 / 10 ^ 15 * B = B / 10 ^ 15 := by ring
    linarith

end RoundedExample

/-! ## Commands inside the limits -/

section
variable [Wire (Rd A)] [Geo (Rd A)] {w : World (Rd A)} (hw : RobotReachable w) {c : RobotCall (Rd A)} {σ : Type} {c0 : σ}
include hw

/-- The commands, if the callback stays inside the limits and the robot follows. -/
theorem commands_follow {f g : ℝ} {call : ControlCall (Rd A) σ .JointPositions} (hc : IsControl c call c0) (hl : call.limit_rate = true) (hfg : GoesBy call.cutoff f g) {start : Fin 7 → ℝ}
    (hstart : ∀ i, |start i| ≤ 9) {q : Fin 7 → ℕ → ℝ} (hf : FollowsRounded start q (exchanges (newEvents w (c.run w).2)))
    (hcmd : ∀ n st x, Exchange w c n st x → ∃ z : Fin 7 → ℝ, x.motion.q_c = Arr.rd z)
    (u : ℕ → Fin 7 → ℝ) (hu : ∀ n < answered w c, (∀ out, (motionOutputs .JointPositions (newEvents w (c.run w).2))[n]? = some out → JointPositions.q out = Arr.rd (u n)) ∧ ∀ i, |u n i| ≤ 9)
    (inside : ∀ i, PositionInside (answered w c) (jointLimits i) (Spec.starting (start i) fun n => u n i)) (y : Fin 7 → ℕ → ℝ)
    (hy : ∀ i, y i 0 = start i ∧ ∀ n < answered w c, y i (n + 1) = g * u n i + (1 - g) * y i n) :
    ∃ z : ℕ → Fin 7 → ℝ, (∀ n st x, Exchange w c n st x → x.motion.q_c = Arr.rd (z n)) ∧ ∀ i, ∀ n < answered w c, |z n i - y i (n + 1)| ≤ (4 / 10 ^ 14 + 1 / 10 ^ 14) / g := by
  have hlt : ∀ {n st x}, Exchange w c n st x → n < answered w c := fun hx => (List.getElem?_eq_some_iff.1 hx).1
  have huniq : ∀ {n st x st' x'}, Exchange w c n st x → Exchange w c n st' x' → st = st' ∧ x = x' := fun {n st x st' x'} h h' => by
    have : some (st, x) = some (st', x') := h.symm.trans h'
    simpa using this
  have hz' : ∀ n : ℕ, ∃ z : Fin 7 → ℝ, ∀ st x, Exchange w c n st x → x.motion.q_c = Arr.rd z := by
    intro n
    by_cases hn : n < answered w c
    · obtain ⟨st, x, hx⟩ := exchange_exists hn
      obtain ⟨z, h3⟩ := hcmd n st x hx
      refine ⟨z, fun st' x' hx' => ?_⟩
      rw [← (huniq hx hx').2, h3]
    · exact ⟨0, fun st x hx => absurd (hlt hx) hn⟩
  choose z hz1 using hz'
  obtain ⟨p, hp'⟩ : ∃ p : Fin 7 → ℕ → ℝ, p = fun i => Spec.starting (start i) fun n => z n i := ⟨_, rfl⟩
  have hp0 : ∀ i, p i 0 = start i := fun i => by rw [hp']; rfl
  have hps : ∀ i n, p i (n + 1) = z n i := fun i n => by rw [hp']; rfl
  have hpq : ∀ i, ∀ n < answered w c, q i n = p i n := by
    intro i n hn
    cases n with
    | zero => rw [hf.first, hp0]
    | succ n =>
      obtain ⟨st', x', hx'⟩ := exchange_exists hn
      obtain ⟨st, x, hx⟩ := exchange_exists (show n < answered w c by omega)
      have h1 := (hf.next n st x st' x' hx hx').1
      rw [hf.position _ _ _ hx', hz1 n st x hx] at h1
      rw [hps]
      exact congrFun (rd_arr_inj h1) i
  have hv : ∀ n : ℕ, ∃ v : Fin 7 → ℝ, ∀ st x, Exchange w c n st x → st.dq_d = Arr.rd v ∧ ∀ i, |v i - rate (p i) n| ≤ 1 / 10 ^ 10 := by
    intro n
    by_cases hn : n < answered w c
    · obtain ⟨st, x, hx⟩ := exchange_exists hn
      obtain ⟨v, h1, h2⟩ := hf.velocity n st x hx
      refine ⟨v, fun st' x' hx' => ⟨(huniq hx hx').1 ▸ h1, fun i => ?_⟩⟩
      rw [← rate_congr fun k hk => hpq i k (by omega)]
      exact h2 i
    · exact ⟨0, fun st x hx => absurd (hlt hx) hn⟩
  choose v hv using hv
  have ha : ∀ n : ℕ, ∃ a : Fin 7 → ℝ, ∀ st x, Exchange w c n st x → st.ddq_d = Arr.rd a ∧ ∀ i, |a i - rate (rate (p i)) n| ≤ 1 / 10 ^ 7 := by
    intro n
    by_cases hn : n < answered w c
    · obtain ⟨st, x, hx⟩ := exchange_exists hn
      obtain ⟨a, h1, h2⟩ := hf.acceleration n st x hx
      refine ⟨a, fun st' x' hx' => ⟨(huniq hx hx').1 ▸ h1, fun i => ?_⟩⟩
      rw [← rate_congr fun k hk => rate_congr fun k' hk' => hpq i k' (by omega)]
      exact h2 i
    · exact ⟨0, fun st x hx => absurd (hlt hx) hn⟩
  choose a ha using ha
  refine ⟨z, hz1, fun i n hn => ?_⟩
  have := rd_positions_follow hw hc hl hfg (fun i n => u n i) p (fun i n => v n i) (fun i n => a n i) y
    (fun i => ⟨by rw [hp0]; exact hstart i, fun n hn => (hu n hn).2 i⟩)
    (fun n hn out ho => (hu n hn).1 out ho)
    (fun n st x hx => ⟨by rw [hf.position n st x hx]; congr 1; exact funext fun i => hpq i n (hlt hx), (hv n st x hx).1, (ha n st x hx).1⟩)
    (fun i n hn => by obtain ⟨st, x, hx⟩ := exchange_exists hn; exact (hv n st x hx).2 i)
    (fun i n hn => by obtain ⟨st, x, hx⟩ := exchange_exists hn; exact (ha n st x hx).2 i)
    (fun n st x hx => by rw [hz1 n st x hx]; congr 1; exact funext fun i => (hps i n).symm)
    (fun i => by rw [hp0]; exact inside i)
    (fun i => by rw [hp0]; exact hy i) i (n + 1) hn
  rwa [hps] at this

end
end Verif
