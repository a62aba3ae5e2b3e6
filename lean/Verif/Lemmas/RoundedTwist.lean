import Verif.Spec.RoundedTwist
import Verif.Lemmas.RoundedVelocity
import Verif.Props.ExampleCartesianVelocity
import Verif.Props.RoundedCartesianFollow
/-!
The callback of the Cartesian velocity example if every operation is rounded.
-/
set_option linter.unusedSectionVars false
namespace Verif
open Prog Spec Fl

variable {A : Rounding}

namespace RoundedTwist
open RoundedExample (near_pi near_cos)
open RoundedVelocity (TimeAt VelocityAt lit_int)
open CartesianVelocityExample (target speed)

/-- The callback computes its speed as that of the joint velocity examples. -/
theorem as_joints (c : Rd A) (st : RobotState (Rd A)) (dt : ℕ) : Examples.cartesian_velocity_callback c st dt =
    ((Examples.velocity_callback (lit (1 / 10)) (lit ((4 : ℕ) : ℚ)) c st dt).1,
      (⟨(Examples.velocity_callback (lit (1 / 10)) (lit ((4 : ℕ) : ℚ)) c st dt).2.motion_finished,
        ![fcos (pi / lit 4) * (Examples.velocity_callback (lit (1 / 10)) (lit ((4 : ℕ) : ℚ)) c st dt).2.dq 3, lit 0,
          -fsin (pi / lit 4) * (Examples.velocity_callback (lit (1 / 10)) (lit ((4 : ℕ) : ℚ)) c st dt).2.dq 3, lit 0, lit 0, lit 0], none⟩ : CartesianVelocities (Rd A))) := by
  rw [show (((4 : ℕ) : ℚ)) = 4 by norm_num]
  unfold Examples.cartesian_velocity_callback Examples.velocity_callback
  dsimp only
  generalize fle (lit 2 * lit 4 : Rd A) (c + secs dt) = b
  cases b <;> rfl

theorem near_sin {x : Rd A} {r e : ℝ} (hx : Near x r e) (he : e ≤ 1) : Near (fsin x) (Real.sin r) (e + 26 / 10 ^ 17) := by
  obtain ⟨y, rfl, hy⟩ := hx
  have h1 : |Real.sin y - Real.sin r| ≤ e := by
    have := Real.lipschitzWith_sin.dist_le_mul y r
    rw [Real.dist_eq, Real.dist_eq, NNReal.coe_one, one_mul] at this
    exact this.trans hy
  have := near_round (A := A) (z := Real.sin y) (r := Real.sin r) (e := e) (B := 2) h1 (by linarith [Real.abs_sin_le_one r]) (by norm_num) (by norm_num)
  exact this.weaken (by rw [sub_self, abs_zero]; norm_num)

/-- What is known of the `n`-th answer. -/
def TwistAt (n : ℕ) (out : CartesianVelocities (Rd A)) : Prop :=
  n ≤ 8001 → (∀ i, Near (out.O_dP_EE i) (target i n) (6 / 10 ^ 9)) ∧ (n < 8000 → out.motion_finished = false) ∧ (8000 < n → out.motion_finished = true) ∧ out.elbow = none

theorem root : (√2 / 2 : ℝ) = 1 / √2 ∧ |(√2 / 2 : ℝ)| ≤ 0.708 := by
  have h : (0 : ℝ) < √2 := by positivity
  have h2 : (√2 : ℝ) * √2 = 2 := Real.mul_self_sqrt (by norm_num)
  constructor
  · rw [div_eq_div_iff (by norm_num) h.ne', h2]
    norm_num
  · rw [abs_of_pos (by positivity)]
    norm_num1
    nlinarith

theorem speed_eq (n : ℕ) : VelocityExample.target (1 / 10) (1000 * 4) 3 n = speed n := by
  unfold VelocityExample.target speed
  rw [if_pos (by decide)]
  norm_num

theorem speed_bound (n : ℕ) : |speed n| ≤ 0.1 := CartesianVelocityExample.speed_abs (n + 1)

theorem answer_of (hA : KeepsIntegers A) {n : ℕ} {out : JointVelocities (Rd A)} (h : VelocityAt (1 / 10) 4 n out) :
    TwistAt n (⟨out.motion_finished, ![fcos (pi / lit 4) * out.dq 3, lit 0, -fsin (pi / lit 4) * out.dq 3, lit 0, lit 0, lit 0], none⟩ : CartesianVelocities (Rd A)) := by
  intro hn
  obtain ⟨h1, h2, h3⟩ := h (by omega)
  have hv := h1 3
  rw [speed_eq] at hv
  obtain ⟨e, r⟩ := root
  have p0 := Real.pi_gt_d2
  have p1 := Real.pi_lt_d2
  have hq : |Real.pi / 4| ≤ 0.9 := by rw [abs_of_nonneg (by positivity)]; norm_num1 at p1 ⊢; linarith
  have e4 : (lit 4 : Rd A) = Rd.fin 4 := by simpa using lit_int hA (k := 4) (by norm_num)
  have a1 := (near_pi (A := A)).div (near_fin (A := A) 4) (m := 1) (B := 1) (by norm_num) (hq.trans (by norm_num)) (by norm_num1 at hq ⊢; linarith) (by norm_num) (by norm_num)
  have a1 : Near (pi / lit 4 : Rd A) (Real.pi / 4) (1 / 10 ^ 14) := by
    rw [e4]
    exact a1.weaken (by rw [sub_self, abs_zero]; norm_num)
  have c1 := near_cos a1 (by norm_num)
  have s1 := (near_sin a1 (by norm_num)).neg
  rw [Real.cos_pi_div_four] at c1
  rw [Real.sin_pi_div_four] at s1
  have hb := speed_bound n
  have hprod : |√2 / 2 * speed n| ≤ 0.08 := by
    rw [abs_mul]
    have := mul_le_mul r hb (abs_nonneg _) (by norm_num)
    norm_num1 at this ⊢
    linarith
  have c2 := c1.mul hv (m := 0.71) (m' := 0.1) (B := 1) (by norm_num1 at r ⊢; linarith) hb (by norm_num1 at hprod ⊢; linarith) (by norm_num) (by norm_num)
  have s2 := s1.mul hv (m := 0.71) (m' := 0.1) (B := 1) (by rw [abs_neg]; norm_num1 at r ⊢; linarith) hb (by rw [neg_mul, abs_neg]; norm_num1 at hprod ⊢; linarith) (by norm_num) (by norm_num)
  have hz : Near (lit 0 : Rd A) (0 * speed n) (6 / 10 ^ 9) := by
    rw [Rd.lit_zero (RoundedVelocity.keeps_zero hA), zero_mul]
    exact (near_fin (A := A) 0).weaken (by norm_num)
  refine ⟨fun i => ?_, fun h => h2 (by omega), fun h => h3 (by omega), rfl⟩
  fin_cases i
  · refine c2.weaken ?_
    rw [e, show target (⟨0, by norm_num⟩ : Fin 6) n = 1 / √2 * speed n from rfl, sub_self, abs_zero]
    norm_num
  · exact hz
  · refine s2.weaken ?_
    rw [e, show target (⟨2, by norm_num⟩ : Fin 6) n = -(1 / √2) * speed n from rfl, sub_self, abs_zero]
    norm_num
  all_goals exact hz

theorem goes (hA : KeepsIntegers A) (n : ℕ) (c : Rd A) (st : RobotState (Rd A)) (hc : TimeAt 4 n c) :
    TimeAt 4 (n + 1) (Examples.cartesian_velocity_callback c st (periodOf n)).1 ∧ TwistAt n (Examples.cartesian_velocity_callback c st (periodOf n)).2 := by
  rw [as_joints]
  obtain ⟨h1, h2⟩ := RoundedVelocity.goes hA (ω := 1 / 10) (t := 4) (by norm_num) le_rfl (by norm_num) (by norm_num) n c st hc
  exact ⟨h1, answer_of hA h2⟩

/-! ## The motion is inside the limits -/

theorem share_le (i : Fin 6) : |join CartesianVelocityExample.dir (fun _ => 0) i| ≤ 1 := by
  have h := fun j => (len_comp CartesianVelocityExample.dir j).trans_eq CartesianVelocityExample.dir_len
  fin_cases i
  · exact h 0
  · exact h 1
  · exact h 2
  all_goals exact abs_zero.trans_le zero_le_one

theorem starting_target (i : Fin 6) (n : ℕ) : Spec.starting 0 (target i) n = join CartesianVelocityExample.dir (fun _ => 0) i * Spec.starting 0 speed n := starting_mul _ _ _

theorem rate_target (i : Fin 6) (n : ℕ) : rate (Spec.starting 0 (target i)) n = join CartesianVelocityExample.dir (fun _ => 0) i * rate (Spec.starting 0 speed) n := by
  rw [show Spec.starting 0 (target i) = fun n => join CartesianVelocityExample.dir (fun _ => 0) i * Spec.starting 0 speed n from funext fun m => starting_target i m]
  exact rate_mul _ _ _

theorem scaled {c x b : ℝ} (hc : |c| ≤ 1) (hx : |x| ≤ b) : |c * x| ≤ b := by
  rw [abs_mul]
  have := mul_le_mul hc hx (abs_nonneg _) zero_le_one
  linarith

theorem target_abs (i : Fin 6) (n : ℕ) : |target i n| ≤ 0.1 := scaled (share_le i) (speed_bound n)

theorem target_step (i : Fin 6) (n : ℕ) : |target i n - Spec.starting 0 (target i) n| ≤ 0.00008 := by
  rw [starting_target]
  have := scaled (share_le i) (CartesianVelocityExample.speed_step n)
  rwa [mul_sub] at this

/-- Vectors with small components are allowed. -/
theorem small_allowed {L : Limits} (ha : 2 ≤ (mostOf L).acceleration) (hj : 2 ≤ (mostOf L).jerk) (hm : (mostOf L).acceleration / (mostOf L).jerk ≤ 0.01)
    (hv : 1 ≤ (mostOf L).velocity) {p q r : Fin 3 → ℝ} (h1 : ∀ i, |((p i - q i) / 0.001 - r i) / 0.001| ≤ 1) (h2 : ∀ i, |(p i - q i) / 0.001| ≤ 0.2)
    (h3 : ∀ i, |q i| ≤ 0.2) : CartesianAllowed (mostOf L) p q r := by
  have hc : ∀ {x : Fin 3 → ℝ} {y : ℝ}, 0 ≤ y → (∀ i, |x i| ≤ y) → len x ≤ 1.8 * y := by
    intro x y hy hx
    refine Real.sqrt_le_iff.2 ⟨by positivity, ?_⟩
    have := fun i => sq_le_sq' (abs_le.1 (hx i)).1 (abs_le.1 (hx i)).2
    have k0 := this 0
    have k1 := this 1
    have k2 := this 2
    nlinarith
  have hm0 : 0 ≤ (mostOf L).acceleration / (mostOf L).jerk := by positivity
  refine ⟨(hc zero_le_one h1).trans (by linarith), (hc (by norm_num) h2).trans (by norm_num1; linarith), (hc (y := 0.3) (by norm_num) fun i => ?_).trans (by norm_num1; linarith)⟩
  refine (abs_add_le _ _).trans ?_
  rw [abs_mul, abs_of_nonneg hm0]
  have := mul_le_mul hm (h2 i) (abs_nonneg _) (by norm_num)
  have := h3 i
  norm_num1 at *
  linarith

/-- The motion is inside the limits. -/
theorem inside {u : ℕ → Fin 6 → ℝ} {N : ℕ} (hu : ∀ n < N, ∀ i, |u n i - target i n| ≤ 6 / 10 ^ 9) :
    CartesianInside N translationLimits (translation fun i => Spec.starting 0 fun n => u n i) ∧ CartesianInside N rotationLimits (rotation fun i => Spec.starting 0 fun n => u n i) := by
  obtain ⟨y, hy⟩ : ∃ y : Fin 6 → ℕ → ℝ, y = fun i => Spec.starting 0 fun n => u n i := ⟨_, rfl⟩
  rw [← hy]
  have hs : ∀ n ≤ N, ∀ i, |y i n - Spec.starting 0 (target i) n| ≤ 6 / 10 ^ 9 := by
    intro n hn i
    rw [hy]
    cases n with
    | zero => simp only [Spec.starting]; norm_num
    | succ n => exact hu n (by omega) i
  have hr : ∀ n ≤ N, ∀ i, |rate (y i) n - rate (Spec.starting 0 (target i)) n| ≤ 2 / 10 ^ 5 := by
    intro n hn i
    cases n with
    | zero => simp only [rate]; norm_num
    | succ n =>
      have k1 := abs_le.1 (hs (n + 1) hn i)
      have k2 := abs_le.1 (hs n (by omega) i)
      rw [rate, rate, ← sub_div, abs_div, abs_of_pos (by norm_num : (0 : ℝ) < 0.001), div_le_iff₀ (by norm_num), abs_le]
      norm_num1 at k1 k2 ⊢
      constructor <;> linarith [k1.1, k1.2, k2.1, k2.2]
  have b1 : ∀ n < N, ∀ i, |((y i (n + 1) - y i n) / 0.001 - rate (y i) n) / 0.001| ≤ 1 := by
    intro n hn i
    have h2 := scaled (share_le i) (CartesianVelocityExample.speed_second n)
    rw [mul_sub, ← rate_target, ← rate_target] at h2
    have k1 := hr (n + 1) hn i
    have k0 := hr n (by omega) i
    show |(rate (y i) (n + 1) - rate (y i) n) / 0.001| ≤ 1
    rw [abs_div, abs_of_pos (by norm_num : (0 : ℝ) < 0.001), div_le_iff₀ (by norm_num)]
    rw [abs_le] at h2 k1 k0 ⊢
    norm_num1 at h2 k1 k0 ⊢
    constructor <;> linarith [h2.1, h2.2, k1.1, k1.2, k0.1, k0.2]
  have b2 : ∀ n < N, ∀ i, |(y i (n + 1) - y i n) / 0.001| ≤ 0.2 := by
    intro n hn i
    have h1 := target_step i n
    have k1 := hs (n + 1) hn i
    have k0 := hs n (by omega) i
    rw [Spec.starting] at k1
    rw [abs_div, abs_of_pos (by norm_num : (0 : ℝ) < 0.001), div_le_iff₀ (by norm_num)]
    rw [abs_le] at h1 k1 k0 ⊢
    norm_num1 at h1 k1 k0 ⊢
    constructor <;> linarith [h1.1, h1.2, k1.1, k1.2, k0.1, k0.2]
  have b3 : ∀ n ≤ N, ∀ i, |y i n| ≤ 0.2 := by
    intro n hn i
    have h : |Spec.starting 0 (target i) n| ≤ 0.1 := by
      cases n with
      | zero => simp only [Spec.starting]; norm_num
      | succ n => exact target_abs i n
    have := abs_le_of_close (hs n hn i) h
    norm_num1 at this ⊢
    linarith
  have hzero : ∀ i, y i 0 = 0 := fun i => by rw [hy]; rfl
  have e0 : len (fun _ : Fin 3 => (0 : ℝ)) = 0 := len_zero
  refine ⟨⟨?_, fun n hn => small_allowed (by norm_num [mostOf, translationLimits]) (by norm_num [mostOf, translationLimits]) (by norm_num [mostOf, translationLimits])
    (by norm_num [mostOf, translationLimits]) (fun i => ?_) (fun i => ?_) fun i => ?_⟩, ?_, fun n hn => small_allowed (by norm_num [mostOf, rotationLimits])
    (by norm_num [mostOf, rotationLimits]) (by norm_num [mostOf, rotationLimits]) (by norm_num [mostOf, rotationLimits]) (fun i => ?_) (fun i => ?_) fun i => ?_⟩
  · rw [show sample (translation y) 0 = fun _ => 0 from funext fun i => by fin_cases i <;> exact hzero _, e0]
    norm_num [mostOf, translationLimits]
  · fin_cases i <;> exact b1 n hn _
  · fin_cases i <;> exact b2 n hn _
  · fin_cases i <;> exact b3 n hn.le _
  · rw [show sample (rotation y) 0 = fun _ => 0 from funext fun i => by fin_cases i <;> exact hzero _, e0]
    norm_num [mostOf, rotationLimits]
  · fin_cases i <;> exact b1 n hn _
  · fin_cases i <;> exact b2 n hn _
  · fin_cases i <;> exact b3 n hn.le _

end RoundedTwist

/-! ## Commands inside the limits -/

/-- Limited velocities are numbers, and a callback without an elbow commands none. -/
theorem rd_twists_finite {out : CartesianVelocities (Rd A)} {st : RobotState (Rd A)} {m m' : MotionGeneratorCommand (Rd A)} {cutoff : Rd A} (he : out.elbow = none)
    (h : CartesianVelocities.convert_motion out st m cutoff true = .ok m') : (∃ z, m'.O_dP_EE_c = Arr.rd z) ∧ m'.valid_elbow = false := by
  have h : ((if Fl.flt cutoff MAX_CUTOFF_FREQUENCY then Arr.tabulateP fun i => low_pass_filter DELTA_T (out.O_dP_EE i) (st.O_dP_EE_c i) cutoff else pure out.O_dP_EE) >>= fun x =>
      limit_rate_cartesian_velocity MAX_TRANSLATIONAL_VELOCITY MAX_TRANSLATIONAL_ACCELERATION MAX_TRANSLATIONAL_JERK
        MAX_ROTATIONAL_VELOCITY MAX_ROTATIONAL_ACCELERATION MAX_ROTATIONAL_JERK x st.O_dP_EE_c st.O_ddP_EE_c >>= fun y =>
      assertFinite y >>= fun _ => convert_elbow out.elbow st { m with O_dP_EE_c := y } cutoff true) = .ok m' := by
    rw [← h]
    unfold CartesianVelocities.convert_motion
    split <;> rfl
  obtain ⟨x, h1, h⟩ := P_bind_inv h
  obtain ⟨y, h2, h⟩ := P_bind_inv h
  obtain ⟨_, h3, h⟩ := P_bind_inv h
  rw [he] at h
  obtain ⟨z, rfl⟩ := rd_assertFinite_inv h3
  cases h
  exact ⟨⟨z, rfl⟩, rfl⟩

section
variable [Wire (Rd A)] [Geo (Rd A)] {w : World (Rd A)} (hw : RobotReachable w) {c : RobotCall (Rd A)} {σ : Type} {c0 : σ}
include hw

/-- The commands, if the callback stays inside the limits and the robot follows. -/
theorem twist_commands_follow {f g : ℝ} {call : ControlCall (Rd A) σ .CartesianVelocities} (hc : IsControl c call c0) (hl : call.limit_rate = true) (hfg : GoesBy call.cutoff f g)
    {v : Fin 6 → ℕ → ℝ} (hf : FollowsTwistsRounded v (exchanges (newEvents w (c.run w).2)))
    (hcmd : ∀ n st x, Exchange w c n st x → ∃ z : Fin 6 → ℝ, x.motion.O_dP_EE_c = Arr.rd z)
    (u : ℕ → Fin 6 → ℝ)
    (hu : ∀ n < answered w c, ∀ out, (motionOutputs .CartesianVelocities (newEvents w (c.run w).2))[n]? = some out → CartesianVelocities.O_dP_EE out = Arr.rd (u n))
    (inside1 : CartesianInside (answered w c) translationLimits (translation fun i => Spec.starting 0 fun n => u n i))
    (inside2 : CartesianInside (answered w c) rotationLimits (rotation fun i => Spec.starting 0 fun n => u n i)) (y : Fin 6 → ℕ → ℝ)
    (hy : ∀ i, y i 0 = 0 ∧ ∀ n < answered w c, y i (n + 1) = g * u n i + (1 - g) * y i n) :
    ∃ z : ℕ → Fin 6 → ℝ, (∀ n st x, Exchange w c n st x → x.motion.O_dP_EE_c = Arr.rd (z n)) ∧ ∀ i, ∀ n < answered w c, |z n i - y i (n + 1)| ≤ (16 / 10 ^ 15 + 1 / 10 ^ 15) / g := by
  have hlt : ∀ {n st x}, Exchange w c n st x → n < answered w c := fun hx => (List.getElem?_eq_some_iff.1 hx).1
  have huniq : ∀ {n st x st' x'}, Exchange w c n st x → Exchange w c n st' x' → st = st' ∧ x = x' := fun {n st x st' x'} h h' => by
    have : some (st, x) = some (st', x') := h.symm.trans h'
    simpa using this
  have hz' : ∀ n : ℕ, ∃ z : Fin 6 → ℝ, ∀ st x, Exchange w c n st x → x.motion.O_dP_EE_c = Arr.rd z := by
    intro n
    by_cases hn : n < answered w c
    · obtain ⟨st, x, hx⟩ := exchange_exists hn
      obtain ⟨z, h3⟩ := hcmd n st x hx
      refine ⟨z, fun st' x' hx' => ?_⟩
      rw [← (huniq hx hx').2, h3]
    · exact ⟨0, fun st x hx => absurd (hlt hx) hn⟩
  choose z hz1 using hz'
  obtain ⟨p, hp'⟩ : ∃ p : Fin 6 → ℕ → ℝ, p = fun i => Spec.starting 0 fun n => z n i := ⟨_, rfl⟩
  have hp0 : ∀ i, p i 0 = 0 := fun i => by rw [hp']; rfl
  have hps : ∀ i n, p i (n + 1) = z n i := fun i n => by rw [hp']; rfl
  have hpq : ∀ i, ∀ n < answered w c, v i n = p i n := by
    intro i n hn
    cases n with
    | zero => rw [hf.first, hp0]
    | succ n =>
      obtain ⟨st', x', hx'⟩ := exchange_exists hn
      obtain ⟨st, x, hx⟩ := exchange_exists (show n < answered w c by omega)
      have h1 := (hf.next n st x st' x' hx hx').1
      rw [hf.velocity _ _ _ hx', hz1 n st x hx] at h1
      rw [hps]
      exact congrFun (rd_arr_inj h1) i
  have ha : ∀ n : ℕ, ∃ a : Fin 6 → ℝ, ∀ st x, Exchange w c n st x → st.O_ddP_EE_c = Arr.rd a ∧ ∀ i, |a i - rate (p i) n| ≤ 1 / 10 ^ 7 := by
    intro n
    by_cases hn : n < answered w c
    · obtain ⟨st, x, hx⟩ := exchange_exists hn
      obtain ⟨a, h1, h2⟩ := hf.acceleration n st x hx
      refine ⟨a, fun st' x' hx' => ⟨(huniq hx hx').1 ▸ h1, fun i => ?_⟩⟩
      rw [← rate_congr fun k hk => hpq i k (by omega)]
      exact h2 i
    · exact ⟨0, fun st x hx => absurd (hlt hx) hn⟩
  choose a ha using ha
  refine ⟨z, hz1, fun i n hn => ?_⟩
  have hst : (fun i => Spec.starting (p i 0) fun n => u n i) = fun i => Spec.starting 0 fun n => u n i := funext fun i => by rw [hp0]
  have := rd_cartesian_follow hw hc hl hfg (fun i n => u n i) p (fun i n => a n i) y hu
    (fun n st x hx => ⟨by rw [hf.velocity n st x hx]; congr 1; exact funext fun i => hpq i n (hlt hx), (ha n st x hx).1⟩)
    (fun i n hn => by obtain ⟨st, x, hx⟩ := exchange_exists hn; exact (ha n st x hx).2 i)
    (fun n st x hx => by rw [hz1 n st x hx]; congr 1; exact funext fun i => (hps i n).symm)
    (by rw [hst]; exact inside1) (by rw [hst]; exact inside2) (fun i => ⟨(hy i).1.trans (hp0 i).symm, (hy i).2⟩) (n + 1) hn i
  rwa [hps] at this

end
end Verif
