import Verif.Spec.RoundedVelocity
import Verif.Lemmas.RoundedExample
import Verif.Props.ExampleVelocity
/-!
The callback of the joint velocity examples if every operation is rounded.
-/
set_option linter.unusedSectionVars false
namespace Verif
open Prog Spec Fl

variable {A : Rounding}

namespace RoundedVelocity
open VelocityExample (target wave wave_half base_zero wave_abs wave_zero half_nonneg whole_step whole_second size)
open RoundedExample (near_pi near_cos)

section
variable (hA : KeepsIntegers A)
include hA

theorem round_int {k : ℤ} (hk : |k| ≤ 1000) : Rd.round A (.fin k) = Rd.fin (k : ℝ) := by
  have h : |(k : ℝ)| ≤ 1000 := by exact_mod_cast hk
  rw [rnd_fin (h.trans (by norm_num)), hA k (by omega)]

theorem lit_int {k : ℤ} (hk : |k| ≤ 1000) : (lit (k : ℚ) : Rd A) = Rd.fin (k : ℝ) := by
  show Rd.round A (.fin ((k : ℚ) : ℝ)) = _
  rw [show ((k : ℚ) : ℝ) = (k : ℝ) by push_cast; rfl]
  exact round_int hA hk

theorem keeps_zero : A.rnd 0 = 0 := by simpa using hA 0 (by norm_num)

/-- The direction of the motion. -/
theorem cycle_eq {t p : ℕ} (ht : 1 ≤ t) (ht4 : t ≤ 4) (hp3 : p ≤ 3) {x : ℝ} (hx : 0 ≤ x) (hp : ⌊x / t⌋ = (p : ℤ)) :
    FlExtra.ffloor (FlExtra.powf (-lit 1) ((Rd.fin x - FlExtra.fmod (Rd.fin x) (lit (t : ℚ))) / lit (t : ℚ)) : Rd A) = Rd.fin ((-1) ^ p) := by
  have t0 : (t : ℝ) ≠ 0 := by
    have : (1 : ℝ) ≤ t := by exact_mod_cast ht
    linarith
  have ht' : (lit (t : ℚ) : Rd A) = Rd.fin (t : ℝ) := by
    have := lit_int hA (k := (t : ℤ)) (by rw [abs_le]; omega)
    simpa using this
  have h1 : (lit 1 : Rd A) = Rd.fin 1 := by simpa using lit_int hA (k := 1) (by norm_num)
  have hm : FlExtra.fmod (Rd.fin x : Rd A) (Rd.fin (t : ℝ)) = Rd.fin (x - t * p) := by
    show (if (t : ℝ) = 0 then XR.nan else XR.fin _) = _
    rw [if_neg t0, if_pos (by positivity), hp]
    rfl
  have hs : (Rd.fin x - Rd.fin (x - t * p) : Rd A) = Rd.fin ((t : ℝ) * p) := by
    show Rd.round A (.fin (x + -(x - t * p))) = _
    have := round_int hA (k := (t : ℤ) * p) (by
      rw [abs_le]
      have : (t : ℤ) * p ≤ 4 * 3 := by exact_mod_cast Nat.mul_le_mul ht4 hp3
      have : (0 : ℤ) ≤ (t : ℤ) * p := by positivity
      constructor <;> omega)
    push_cast at this
    rw [← this]
    congr 2
    ring
  have hd : (Rd.fin ((t : ℝ) * p) / Rd.fin (t : ℝ) : Rd A) = Rd.fin (p : ℝ) := by
    show Rd.round A (XR.fin _ / XR.fin _) = _
    rw [XR.fin_div _ _ t0, mul_div_cancel_left₀ _ t0]
    exact_mod_cast round_int hA (k := (p : ℤ)) (by rw [abs_le]; omega)
  have hpow : FlExtra.powf (-(Rd.fin 1) : Rd A) (Rd.fin (p : ℝ)) = Rd.fin ((-1) ^ p) := by
    show Rd.round A (if ((-1 : ℝ) < 0 ∧ (p : ℝ) ≠ ⌊(p : ℝ)⌋) ∨ ((-1 : ℝ) = 0 ∧ (p : ℝ) < 0) then XR.nan else XR.fin ((-1 : ℝ) ^ (p : ℝ))) = _
    rw [if_neg (by rintro (⟨-, h⟩ | ⟨h, -⟩); exacts [h (by rw [Int.floor_natCast]; rfl), by norm_num at h]), Real.rpow_natCast]
    have := round_int hA (k := (-1) ^ p) (by rw [abs_pow]; norm_num)
    push_cast at this
    exact this
  rw [ht', h1, hm, hs, hd, hpow]
  show XR.fin _ = XR.fin _
  congr 1
  have : ((-1 : ℝ) ^ p) = (((-1 : ℤ) ^ p : ℤ) : ℝ) := by push_cast; rfl
  rw [this, Int.floor_intCast]

/-- The angular velocity. -/
theorem near_omega {t n p : ℕ} (ht : 1 ≤ t) (ht4 : t ≤ 4) (hn : n ≤ 2 * (1000 * t) + 1) {ω : ℚ} (h0 : 0 ≤ ω) (h1 : ω ≤ 1) {x : ℝ} (hx : |x - (n : ℝ) / 1000| ≤ 17 / 10 ^ 10) :
    Near (Rd.fin ((-1) ^ p) * lit ω / lit 2 * (lit 1 - fcos (lit 2 * pi / lit (t : ℚ) * Rd.fin x)) : Rd A)
      ((-1) ^ p * (ω / 2 * (1 - Real.cos (2 * Real.pi / (1000 * t : ℕ) * n)))) (6 / 10 ^ 9) := by
  have p0 := Real.pi_gt_d2
  have p1 := Real.pi_lt_d2
  have t1 : (1 : ℝ) ≤ t := by exact_mod_cast ht
  have w0 : (0 : ℝ) ≤ ω := by exact_mod_cast h0
  have w1 : (ω : ℝ) ≤ 1 := by exact_mod_cast h1
  have wa : |(ω : ℝ)| ≤ 1 := by rw [abs_of_nonneg w0]; exact w1
  have hn0 : (0 : ℝ) ≤ n := Nat.cast_nonneg n
  have hn1 : (n : ℝ) ≤ 8001 := by exact_mod_cast (by omega : n ≤ 8001)
  have ht' : (lit (t : ℚ) : Rd A) = Rd.fin (t : ℝ) := by
    have := lit_int hA (k := (t : ℤ)) (by rw [abs_le]; omega)
    simpa using this
  have e1 : (lit 1 : Rd A) = Rd.fin 1 := by simpa using lit_int hA (k := 1) (by norm_num)
  have e2 : (lit 2 : Rd A) = Rd.fin 2 := by simpa using lit_int hA (k := 2) (by norm_num)
  have hs : |((-1 : ℝ)) ^ p| = 1 := by rw [abs_pow, abs_neg, abs_one, one_pow]
  rw [ht', e1, e2]
  have hpi2 : |2 * Real.pi| ≤ 6.3 := by rw [abs_of_nonneg (by positivity)]; norm_num1 at p1 ⊢; linarith
  have hpi : |Real.pi| ≤ 4 := by rw [abs_of_nonneg (by positivity)]; norm_num1 at p1 ⊢; linarith
  have a1 := (near_fin (A := A) 2).mul near_pi (m := 2) (m' := 4) (B := 7) (by norm_num) hpi (by norm_num1 at *; linarith) (by norm_num) (by norm_num)
  have a1 : Near (Rd.fin 2 * pi : Rd A) (2 * Real.pi) (3 / 10 ^ 15) := a1.weaken (by rw [sub_self, abs_zero]; norm_num)
  have hdiv : |2 * Real.pi / t| ≤ 6.3 := by
    rw [abs_div, abs_of_nonneg (by linarith : (0 : ℝ) ≤ t)]
    exact (div_le_self (abs_nonneg _) t1).trans hpi2
  have a2 := a1.div (near_fin (A := A) (t : ℝ)) (m := 6.3) (B := 7) (by linarith) hdiv (by norm_num1 at *; linarith) (by norm_num) (by norm_num)
  have a2 : Near (Rd.fin 2 * pi / Rd.fin (t : ℝ) : Rd A) (2 * Real.pi / t) (5 / 10 ^ 15) := a2.weaken (by rw [sub_self, abs_zero]; norm_num)
  have hnn : |(n : ℝ) / 1000| ≤ 9 := by rw [abs_of_nonneg (by positivity)]; linarith
  have a3 := a2.mul (show Near (Rd.fin x : Rd A) ((n : ℝ) / 1000) (17 / 10 ^ 10) from ⟨x, rfl, hx⟩) (m := 6.31) (m' := 9) (B := 60) (by norm_num1 at *; linarith) hnn
    (by
      rw [abs_mul]
      have : |2 * Real.pi / t| * |(n : ℝ) / 1000| ≤ 6.3 * 9 := mul_le_mul hdiv hnn (abs_nonneg _) (by norm_num)
      norm_num1 at *; linarith) (by norm_num) (by norm_num)
  have a4 := near_cos a3 (by norm_num)
  have hc := Real.abs_cos_le_one (2 * Real.pi / t * ((n : ℝ) / 1000))
  have hc1 : |1 - Real.cos (2 * Real.pi / t * ((n : ℝ) / 1000))| ≤ 2 := by
    rw [abs_le] at hc ⊢
    constructor <;> linarith
  have a5 := (near_fin (A := A) 1).sub a4 (B := 3) (by norm_num1 at *; linarith) (by norm_num) (by norm_num)
  have a5 : Near (Rd.fin 1 - fcos (Rd.fin 2 * pi / Rd.fin (t : ℝ) * Rd.fin x) : Rd A) (1 - Real.cos (2 * Real.pi / t * ((n : ℝ) / 1000))) (11 / 10 ^ 9) :=
    a5.weaken (by rw [sub_self, abs_zero]; norm_num)
  have lω : Near (lit ω : Rd A) (ω : ℝ) (13 / 10 ^ 17 * 1) := near_lit wa (by norm_num) (by norm_num)
  have hsw : |(-1) ^ p * (ω : ℝ)| ≤ 1 := by rw [abs_mul, hs, one_mul]; exact wa
  have b1 := (near_fin (A := A) ((-1) ^ p)).mul lω (m := 1) (m' := 1) (B := 2) (by rw [hs]; norm_num) wa (by norm_num1 at *; linarith) (by norm_num) (by norm_num)
  have b1 : Near (Rd.fin ((-1) ^ p) * lit ω : Rd A) ((-1) ^ p * ω) (1 / 10 ^ 15) := b1.weaken (by rw [sub_self, abs_zero]; norm_num)
  have hsw2 : |(-1) ^ p * (ω : ℝ) / 2| ≤ 0.5 := by
    rw [abs_div, abs_of_pos (by norm_num : (0 : ℝ) < 2)]
    norm_num1
    linarith
  have b2 := b1.div (near_fin (A := A) 2) (m := 1) (B := 1) (by norm_num) (hsw2.trans (by norm_num)) (by norm_num1 at *; linarith) (by norm_num) (by norm_num)
  have b2 : Near (Rd.fin ((-1) ^ p) * lit ω / Rd.fin 2 : Rd A) ((-1) ^ p * ω / 2) (2 / 10 ^ 15) := b2.weaken (by rw [sub_self, abs_zero]; norm_num)
  have c := b2.mul a5 (m := 0.51) (m' := 2) (B := 2) (by norm_num1 at *; linarith) hc1
    (by
      rw [abs_mul]
      have : |(-1) ^ p * (ω : ℝ) / 2| * |1 - Real.cos (2 * Real.pi / t * ((n : ℝ) / 1000))| ≤ 0.5 * 2 := mul_le_mul hsw2 hc1 (abs_nonneg _) (by norm_num)
      norm_num1 at *; linarith) (by norm_num) (by norm_num)
  refine c.weaken ?_
  rw [show 2 * Real.pi / ((1000 * t : ℕ) : ℝ) * n = 2 * Real.pi / t * ((n : ℝ) / 1000) by push_cast; field_simp,
    show (-1) ^ p * (ω : ℝ) / 2 * (1 - Real.cos (2 * Real.pi / t * ((n : ℝ) / 1000))) = (-1) ^ p * (ω / 2 * (1 - Real.cos (2 * Real.pi / t * ((n : ℝ) / 1000)))) by ring, sub_self, abs_zero]
  norm_num

end

/-- The direction changes only where the velocity vanishes. -/
theorem signed {t n p : ℕ} (ht : 1 ≤ t) (ω : ℝ) {x : ℝ} (hx : |x - (n : ℝ) / 1000| ≤ 17 / 10 ^ 10) (hp : ⌊x / t⌋ = (p : ℤ)) :
    (-1) ^ p * (ω / 2 * (1 - Real.cos (2 * Real.pi / (1000 * t : ℕ) * n))) = wave (ω / 2) (1000 * t) n := by
  have t1 : (1 : ℝ) ≤ t := by exact_mod_cast ht
  rcases Nat.eq_zero_or_pos (n % (1000 * t)) with h | h
  · have hn : n = n / (1000 * t) * (1000 * t) := by
      have := Nat.div_add_mod n (1000 * t)
      rw [h, add_zero, mul_comm] at this
      exact this.symm
    have hz := base_zero (A := ω / 2) (K := 1000 * t) (by omega) (n / (1000 * t))
    rw [← hn] at hz
    rw [wave, hz, mul_zero]
    have : ω / 2 * (1 - Real.cos (2 * Real.pi / (1000 * t : ℕ) * n)) = 0 := hz
    rw [this, mul_zero]
  · have hm := Nat.div_add_mod n (1000 * t)
    have hlt := Nat.mod_lt n (show 0 < 1000 * t by omega)
    have e : p = n / (1000 * t) := by
      have h1 : (((n / (1000 * t) : ℕ) : ℤ)) = ⌊x / t⌋ := by
        symm
        rw [Int.floor_eq_iff, Int.cast_natCast, le_div_iff₀ (by linarith), div_lt_iff₀ (by linarith)]
        obtain ⟨x1, x2⟩ := abs_le.1 hx
        have k1 : ((1000 * t * (n / (1000 * t)) + 1 : ℕ) : ℝ) ≤ n := by exact_mod_cast (by omega)
        have k2 : (n : ℝ) + 1 ≤ ((1000 * t * (n / (1000 * t)) + 1000 * t : ℕ) : ℝ) := by exact_mod_cast (by omega)
        generalize n / (1000 * t) = m at k1 k2 ⊢
        push_cast at k1 k2
        norm_num1 at x1 x2
        constructor <;> nlinarith
      rw [hp] at h1
      exact_mod_cast h1.symm
    rw [e]
    rfl

/-- What is known of the captured time before the `n`-th call. -/
def TimeAt (t : ℕ) : ℕ → Rd A → Prop
  | 0, c => c = lit 0
  | m + 1, c => m ≤ 2 * (1000 * t) + 1 → ∃ x, c = Rd.fin x ∧ |x - (m : ℝ) / 1000| ≤ 2 / 10 ^ 13 * m

/-- What is known of the `n`-th answer. -/
def VelocityAt (ω : ℚ) (t n : ℕ) (out : JointVelocities (Rd A)) : Prop :=
  n ≤ 2 * (1000 * t) + 1 → (∀ i, Near (out.dq i) (target ω (1000 * t) i n) (6 / 10 ^ 9)) ∧ (n < 2 * (1000 * t) → out.motion_finished = false) ∧
    (2 * (1000 * t) < n → out.motion_finished = true)

section
variable (hA : KeepsIntegers A) {ω : ℚ} {t : ℕ} (ht : 1 ≤ t) (ht4 : t ≤ 4) (h0 : 0 ≤ ω) (h1 : ω ≤ 1)
include hA ht ht4 h0 h1

theorem answer_of {n : ℕ} (hn : n ≤ 2 * (1000 * t) + 1) {x : ℝ} (hx0 : 0 ≤ x) (hx : |x - (n : ℝ) / 1000| ≤ 2 / 10 ^ 13 * n) {c : Rd A}
    {st : RobotState (Rd A)} {dt : ℕ} (htime : c + secs dt = Rd.fin x) :
    (Examples.velocity_callback (lit ω) (lit (t : ℚ)) c st dt).1 = Rd.fin x ∧ VelocityAt ω t n (Examples.velocity_callback (lit ω) (lit (t : ℚ)) c st dt).2 := by
  have hn0 : (0 : ℝ) ≤ n := Nat.cast_nonneg n
  have t1 : (1 : ℝ) ≤ t := by exact_mod_cast ht
  have hnt : (n : ℝ) ≤ 2 * (1000 * t) + 1 := by exact_mod_cast hn
  have hn1 : (n : ℝ) ≤ 8001 := by exact_mod_cast (by omega : n ≤ 8001)
  have hx' : |x - (n : ℝ) / 1000| ≤ 17 / 10 ^ 10 := hx.trans (by norm_num1; linarith)
  obtain ⟨x1, x2⟩ := abs_le.1 hx'
  obtain ⟨p, hp⟩ := Int.eq_ofNat_of_zero_le (Int.floor_nonneg.2 (show 0 ≤ x / t by positivity))
  have hp3 : p ≤ 3 := by
    have h : ((p : ℤ) : ℝ) ≤ x / t := by rw [← hp]; exact Int.floor_le _
    rw [le_div_iff₀ (by linarith), Int.cast_natCast] at h
    by_contra hlt
    have : (4 : ℝ) ≤ p := by exact_mod_cast (by omega : 4 ≤ p)
    norm_num1 at x2
    nlinarith
  have hcycle := cycle_eq hA ht ht4 hp3 hx0 hp
  have homega := near_omega hA ht ht4 hn h0 h1 hx' (p := p)
  rw [signed ht ω hx' hp] at homega
  have hend : fle (lit 2 * lit (t : ℚ) : Rd A) (Rd.fin x) = decide (2 * (t : ℝ) ≤ x) := by
    have ht' : (lit (t : ℚ) : Rd A) = Rd.fin (t : ℝ) := by
      have := lit_int hA (k := (t : ℤ)) (by rw [abs_le]; omega)
      simpa using this
    have e2 : (lit 2 : Rd A) = Rd.fin 2 := by simpa using lit_int hA (k := 2) (by norm_num)
    have : (Rd.fin 2 * Rd.fin (t : ℝ) : Rd A) = Rd.fin (2 * (t : ℝ)) := by
      have := round_int hA (k := 2 * (t : ℤ)) (by rw [abs_le]; omega)
      push_cast at this
      exact this
    rw [ht', e2, this]
    exact XR.fle_fin _ _
  have hl0 : (lit 0 : Rd A) = Rd.fin 0 := Rd.lit_zero (keeps_zero hA)
  unfold Examples.velocity_callback
  simp only [htime, hcycle, hend]
  refine ⟨trivial, fun _ => ⟨fun i => ?_, fun h => ?_, fun h => ?_⟩⟩
  · generalize hΩ : (Rd.fin ((-1) ^ p) * lit ω / lit 2 * (lit 1 - fcos (lit 2 * pi / lit (t : ℚ) * Rd.fin x)) : Rd A) = Ω at homega ⊢
    suffices h : Near ((![lit 0, lit 0, lit 0, Ω, Ω, Ω, Ω] : Arr (Rd A) 7) i) (target ω (1000 * t) i n) (6 / 10 ^ 9) by
      by_cases h5 : 2 * (t : ℝ) ≤ x
      · simp only [decide_eq_true h5]
        exact h
      · simp only [decide_eq_false h5]
        exact h
    have hz : Near (lit 0 : Rd A) 0 (6 / 10 ^ 9) := by
      rw [hl0]
      exact (near_fin (A := A) 0).weaken (by norm_num)
    unfold target
    fin_cases i
    · exact hz
    · exact hz
    · exact hz
    · exact homega
    · exact homega
    · exact homega
    · exact homega
  · have h' : (n : ℝ) + 1 ≤ 2 * (1000 * t) := by exact_mod_cast h
    have : ¬ 2 * (t : ℝ) ≤ x := by rw [not_le]; norm_num1 at x2; linarith
    simp only [decide_eq_false this]
    rfl
  · have h' : 2 * (1000 * t) + 1 ≤ (n : ℝ) := by exact_mod_cast h
    have : 2 * (t : ℝ) ≤ x := by norm_num1 at x1; linarith
    simp only [decide_eq_true this]
    rfl

theorem goes (n : ℕ) (c : Rd A) (st : RobotState (Rd A)) (hc : TimeAt t n c) :
    TimeAt t (n + 1) (Examples.velocity_callback (lit ω) (lit (t : ℚ)) c st (periodOf n)).1 ∧
      VelocityAt ω t n (Examples.velocity_callback (lit ω) (lit (t : ℚ)) c st (periodOf n)).2 := by
  cases n with
  | zero =>
    have hc : c = lit 0 := hc
    subst hc
    have hz := keeps_zero hA
    have htime : ((lit 0 : Rd A) + secs 0 : Rd A) = Rd.fin 0 := by
      show (lit 0 + Rd.round A (.fin ((0 : ℕ) / 1000)) : Rd A) = _
      rw [Rd.lit_zero hz, Nat.cast_zero, zero_div, rnd_fin (by norm_num), hz]
      show Rd.round A (.fin (0 + 0)) = _
      rw [add_zero, rnd_fin (by norm_num), hz]
    obtain ⟨k1, k2⟩ := answer_of hA ht ht4 h0 h1 (n := 0) (by norm_num) (x := 0) le_rfl (by norm_num) (st := st) (dt := 0) htime
    exact ⟨fun _ => ⟨0, k1, by norm_num⟩, k2⟩
  | succ m =>
    by_cases hm : m + 1 ≤ 2 * (1000 * t) + 1
    · obtain ⟨x, rfl, c3⟩ := hc (by omega)
      obtain ⟨y, y1, y2, y3⟩ := time_step (A := A) (n := m) (p := 1) (by norm_num) (by omega) c3
      obtain ⟨k1, k2⟩ := answer_of hA ht ht4 h0 h1 (n := m + 1) hm (x := y) (by linarith) y2 (st := st) (dt := 1) y1
      exact ⟨fun _ => ⟨y, k1, y2⟩, k2⟩
    · exact ⟨fun h => absurd h hm, fun h => absurd h hm⟩

end

theorem target_zero (ω : ℚ) (K : ℕ) (i : Fin 7) : target ω K i 0 = 0 := by unfold target; rw [wave_zero, ite_self]

theorem target_abs {ω : ℚ} (h0 : 0 ≤ ω) (h1 : ω ≤ 1) (K : ℕ) (i : Fin 7) (n : ℕ) : |target ω K i n| ≤ 1 := by
  have h1' : (ω : ℝ) ≤ 1 := by exact_mod_cast h1
  unfold target
  split
  · exact (wave_abs (half_nonneg h0) n).trans (by linarith)
  · rw [abs_zero]; exact zero_le_one

/-- The motion is inside the limits. -/
theorem wave_inside {ω : ℚ} (h0 : 0 ≤ ω) (h1 : ω ≤ 1) {K : ℕ} (hK : 1000 ≤ K) (i : Fin 7) {u : ℕ → ℝ} {N : ℕ} (hu : ∀ n < N, |u n - target ω K i n| ≤ 6 / 10 ^ 9) :
    VelocityInside N (jointLimits i) (Spec.starting 0 u) := by
  have j1 := (jointSpeed_range i).1
  have hs : ∀ n ≤ N, |Spec.starting 0 u n - Spec.starting 0 (target ω K i) n| ≤ 6 / 10 ^ 9 := by
    intro n hn
    cases n with
    | zero => simp only [Spec.starting]; norm_num
    | succ n => exact hu n (by omega)
  have hr : ∀ n ≤ N, |rate (Spec.starting 0 u) n - rate (Spec.starting 0 (target ω K i)) n| ≤ 2 / 10 ^ 5 := by
    intro n hn
    cases n with
    | zero => simp only [rate]; norm_num
    | succ n =>
      have k1 := abs_le.1 (hs (n + 1) hn)
      have k2 := abs_le.1 (hs n (by omega))
      rw [rate, rate, ← sub_div, abs_div, abs_of_pos (by norm_num : (0 : ℝ) < 0.001), div_le_iff₀ (by norm_num), abs_le]
      norm_num1 at k1 k2 ⊢
      constructor <;> linarith [k1.1, k1.2, k2.1, k2.2]
  refine ⟨?_, fun n hn => ?_⟩
  · show |(0 : ℝ)| ≤ _
    rw [abs_zero]
    exact (most_wider i).ok.velocity
  have hb : |Spec.starting 0 (target ω K i) n| ≤ 1 := by
    cases n with
    | zero => simp only [Spec.starting]; norm_num
    | succ n => exact target_abs h0 h1 K i n
  have h2 := whole_second h0 h1 hK i n
  have ha : |rate (Spec.starting 0 (target ω K i)) (n + 1)| ≤ 4 := by
    rw [rate, abs_div, abs_of_pos (by norm_num : (0 : ℝ) < 0.001), div_le_iff₀ (by norm_num)]
    exact (whole_step h0 hK i n).trans ((size h0 h1 hK).1.trans (by norm_num))
  have hr1 := hr (n + 1) (by omega)
  have hr0 := hr n (by omega)
  refine mostOf_allowed i ?_ ?_ ?_
  · have := abs_le_of_close (hs n (by omega)) hb
    norm_num1 at this ⊢
    linarith
  · have := abs_le_of_close hr1 ha
    show |rate (Spec.starting 0 u) (n + 1)| ≤ 6
    norm_num1 at this
    linarith
  · show |(rate (Spec.starting 0 u) (n + 1) - rate (Spec.starting 0 u) n) / 0.001| ≤ 3746
    rw [abs_div, abs_of_pos (by norm_num : (0 : ℝ) < 0.001), div_le_iff₀ (by norm_num)]
    rw [abs_le] at h2 hr1 hr0 ⊢
    norm_num1 at h2 hr1 hr0 ⊢
    constructor <;> linarith [h2.1, h2.2, hr1.1, hr1.2, hr0.1, hr0.2]

end RoundedVelocity

/-! ## Commands inside the limits -/

/-- Limited velocities are numbers. -/
theorem rd_velocities_finite {out : JointVelocities (Rd A)} {st : RobotState (Rd A)} {m m' : MotionGeneratorCommand (Rd A)} {cutoff : Rd A}
    (h : JointVelocities.convert_motion out st m cutoff true = .ok m') : ∃ z, m'.dq_c = Arr.rd z := by
  have h : ((if Fl.flt cutoff MAX_CUTOFF_FREQUENCY then Arr.tabulateP fun i => low_pass_filter DELTA_T (out.dq i) (st.dq_d i) cutoff else pure out.dq) >>= fun x =>
      limit_rate_joint_velocities MAX_JOINT_VELOCITY MAX_JOINT_ACCELERATION MAX_JOINT_JERK x st.dq_d st.ddq_d >>= fun y =>
      assertFinite y >>= fun _ => (pure { m with dq_c := y } : P (MotionGeneratorCommand (Rd A)))) = .ok m' := by
    rw [← h]
    unfold JointVelocities.convert_motion
    split <;> rfl
  obtain ⟨x, h1, h⟩ := P_bind_inv h
  obtain ⟨y, h2, h⟩ := P_bind_inv h
  obtain ⟨_, h3, h⟩ := P_bind_inv h
  have h9 : { m with dq_c := y } = m' := by injection h
  obtain ⟨z, rfl⟩ := rd_assertFinite_inv h3
  exact ⟨z, by rw [← h9]⟩

section
variable [Wire (Rd A)] [Geo (Rd A)] {w : World (Rd A)} (hw : RobotReachable w) {c : RobotCall (Rd A)} {σ : Type} {c0 : σ}
include hw

/-- The commands, if the callback stays inside the limits and the robot follows. -/
theorem velocity_commands_follow {f g : ℝ} {call : ControlCall (Rd A) σ .JointVelocities} (hc : IsControl c call c0) (hl : call.limit_rate = true) (hfg : GoesBy call.cutoff f g)
    {v : Fin 7 → ℕ → ℝ} (hf : FollowsVelocitiesRounded v (exchanges (newEvents w (c.run w).2)))
    (hcmd : ∀ n st x, Exchange w c n st x → ∃ z : Fin 7 → ℝ, x.motion.dq_c = Arr.rd z)
    (u : ℕ → Fin 7 → ℝ) (hu : ∀ n < answered w c, ∀ out, (motionOutputs .JointVelocities (newEvents w (c.run w).2))[n]? = some out → JointVelocities.dq out = Arr.rd (u n))
    (inside : ∀ i, VelocityInside (answered w c) (jointLimits i) (Spec.starting 0 fun n => u n i)) (y : Fin 7 → ℕ → ℝ)
    (hy : ∀ i, y i 0 = 0 ∧ ∀ n < answered w c, y i (n + 1) = g * u n i + (1 - g) * y i n) :
    ∃ z : ℕ → Fin 7 → ℝ, (∀ n st x, Exchange w c n st x → x.motion.dq_c = Arr.rd (z n)) ∧ ∀ i, ∀ n < answered w c, |z n i - y i (n + 1)| ≤ (2 / 10 ^ 14 + 2 / 10 ^ 12) / g := by
  have hlt : ∀ {n st x}, Exchange w c n st x → n < answered w c := fun hx => (List.getElem?_eq_some_iff.1 hx).1
  have huniq : ∀ {n st x st' x'}, Exchange w c n st x → Exchange w c n st' x' → st = st' ∧ x = x' := fun {n st x st' x'} h h' => by
    have : some (st, x) = some (st', x') := h.symm.trans h'
    simpa using this
  have hz' : ∀ n : ℕ, ∃ z : Fin 7 → ℝ, ∀ st x, Exchange w c n st x → x.motion.dq_c = Arr.rd z := by
    intro n
    by_cases hn : n < answered w c
    · obtain ⟨st, x, hx⟩ := exchange_exists hn
      obtain ⟨z, h3⟩ := hcmd n st x hx
      refine ⟨z, fun st' x' hx' => ?_⟩
      rw [← (huniq hx hx').2, h3]
    · exact ⟨0, fun st x hx => absurd (hlt hx) hn⟩
  choose z hz1 using hz'
  obtain ⟨p, hp'⟩ : ∃ p : Fin 7 → ℕ → ℝ, p = fun i => Spec.starting 0 fun n => z n i := ⟨_, rfl⟩
  have hp0 : ∀ i, p i 0 = 0 := fun i => by rw [hp']; rfl
  have hps : ∀ i n, p i (n + 1) = z n i := fun i n => by rw [hp']; rfl
  have hpq : ∀ i, ∀ n < answered w c, v i n = p i n := by
    intro i n hn
    cases n with
    | zero => rw [hf.first, hp0]
    | succ n =>
      obtain ⟨st', x', hx'⟩ := exchange_exists hn
      obtain ⟨st, x, hx⟩ := exchange_exists (show n < answered w c by omega)
      have h1 := (hf.next n st x st' x' hx hx').1
      rw [hf.velocity _ _ _ hx', hz1 n st x hx] at h1
      rw [hps]
      exact congrFun (rd_arr_inj h1) i
  have ha : ∀ n : ℕ, ∃ a : Fin 7 → ℝ, ∀ st x, Exchange w c n st x → st.ddq_d = Arr.rd a ∧ ∀ i, |a i - rate (p i) n| ≤ 1 / 10 ^ 7 := by
    intro n
    by_cases hn : n < answered w c
    · obtain ⟨st, x, hx⟩ := exchange_exists hn
      obtain ⟨a, h1, h2⟩ := hf.acceleration n st x hx
      refine ⟨a, fun st' x' hx' => ⟨(huniq hx hx').1 ▸ h1, fun i => ?_⟩⟩
      rw [← rate_congr fun k hk => hpq i k (by omega)]
      exact h2 i
    · exact ⟨0, fun st x hx => absurd (hlt hx) hn⟩
  choose a ha using ha
  refine ⟨z, hz1, fun i n hn => ?_⟩
  have := rd_velocities_follow hw hc hl hfg (fun i n => u n i) p (fun i n => a n i) y hu
    (fun n st x hx => ⟨by rw [hf.velocity n st x hx]; congr 1; exact funext fun i => hpq i n (hlt hx), (ha n st x hx).1⟩)
    (fun i n hn => by obtain ⟨st, x, hx⟩ := exchange_exists hn; exact (ha n st x hx).2 i)
    (fun n st x hx => by rw [hz1 n st x hx]; congr 1; exact funext fun i => (hps i n).symm)
    (fun i => by rw [hp0]; exact inside i)
    (fun i => by rw [hp0]; exact hy i) i (n + 1) hn
  rwa [hps] at this

end
end Verif
