import Verif.Lemmas.RoundedNorm
import Verif.Lemmas.CartesianErrors
import Verif.Props.Rounding
/-!
One step of the Cartesian velocity limiter with rounded doubles.
-/
set_option linter.unusedSectionVars false
namespace Verif
open Spec Fl
variable {A : Rounding}

/-- Limits of the code (`L`) and of the documentation (`D`) with room for errors: `E` is the largest reported velocity, `c` bounds how far the limiter brakes or turns beyond its limit. -/
structure Roomy (L D : Limits) (E c : ℝ) : Prop where
  v1 : 1 ≤ L.velocity
  v2 : L.velocity ≤ E
  v3 : E ≤ 2.6
  v4 : E + 1 / 10 ^ 4 ≤ D.velocity
  v5 : D.velocity ≤ 3
  a1 : 12 ≤ L.acceleration
  a2 : L.acceleration ≤ 26
  a3 : L.acceleration + 1 / 10 ^ 4 ≤ D.acceleration
  k1 : 490 ≤ L.jerk / L.acceleration
  k2 : L.jerk / L.acceleration ≤ 510
  j : L.jerk ≤ 13000
  c0 : 0 ≤ c
  c1 : E ^ 2 - L.velocity ^ 2 + 1 / 10 ^ 9 ≤ c ^ 2
  c2 : 511 * c ≤ L.acceleration
  c3 : E ^ 2 + 2 * (27 / 1000) * c + (L.acceleration / 1000) ^ 2 + 1 / 10 ^ 6 ≤ D.velocity ^ 2

theorem roomy_translation : Roomy codeTranslation translationLimits 1.999 0.008 := by constructor <;> norm_num [codeTranslation, translationLimits]
theorem roomy_rotation : Roomy codeRotation rotationLimits 2.499 0.012 := by constructor <;> norm_num [codeRotation, rotationLimits]

variable {L D : Limits} {E c : ℝ}

/-- How far the limiter brakes: `t` is the computed distance to the velocity limit in the direction of the acceleration. -/
theorem brake_bound (h : Roomy L D E c) {w d ρ t : ℝ} (hw : w ≤ E) (hw0 : 0 ≤ w) (hρ : 0 ≤ ρ) (e1 : |ρ - (d ^ 2 - w ^ 2 + L.velocity ^ 2)| ≤ 1 / 10 ^ 10)
    (e2 : |t - (-d + √ρ)| ≤ 1 / 10 ^ 12) : -c - 1 / 10 ^ 12 ≤ t := by
  have hq := Real.sqrt_nonneg ρ
  have hq2 := Real.sq_sqrt hρ
  obtain ⟨e11, e12⟩ := abs_le.1 e1
  obtain ⟨e21, e22⟩ := abs_le.1 e2
  have key : d - √ρ ≤ c := by
    rcases le_or_gt (d - √ρ) 0 with h0 | h0
    · linarith [h.c0]
    · refine abs_le_of_sq_le_sq' ?_ h.c0 |>.2
      have h1 : (d - √ρ) ^ 2 ≤ (d - √ρ) * (d + √ρ) := by rw [sq]; exact mul_le_mul_of_nonneg_left (by linarith) h0.le
      have h2 : w ^ 2 ≤ E ^ 2 := pow_le_pow_left₀ hw0 hw 2
      have h3 : (d - √ρ) * (d + √ρ) = d ^ 2 - ρ := by linear_combination -hq2
      have := h.c1
      linarith
  linarith

/-- Between zero and `t`, up to `ε`. -/
theorem between_zero {t σ ε : ℝ} (hε : 0 ≤ ε) (h1 : σ ≤ max 0 t + ε) (h2 : min 0 t - ε ≤ σ) : ∃ l η : ℝ, 0 ≤ l ∧ l ≤ 1 ∧ |η| ≤ ε ∧ σ = l * t + η := by
  rcases le_total 0 t with h0 | h0
  · rw [max_eq_right h0] at h1
    rw [min_eq_left h0] at h2
    rcases le_total σ 0 with h3 | h3
    · exact ⟨0, σ, le_rfl, by norm_num, by rw [abs_le]; constructor <;> linarith, by ring⟩
    rcases le_total t σ with h4 | h4
    · exact ⟨1, σ - t, by norm_num, le_rfl, by rw [abs_le]; constructor <;> linarith, by ring⟩
    · rcases eq_or_lt_of_le h0 with h5 | h5
      · exact ⟨0, σ, le_rfl, by norm_num, by rw [abs_le]; constructor <;> linarith, by ring⟩
      · exact ⟨σ / t, 0, by positivity, (div_le_one h5).2 h4, by simpa using hε, by field_simp; ring⟩
  · rw [max_eq_left h0] at h1
    rw [min_eq_right h0] at h2
    rcases le_total 0 σ with h3 | h3
    · exact ⟨0, σ, le_rfl, by norm_num, by rw [abs_le]; constructor <;> linarith, by ring⟩
    rcases le_total σ t with h4 | h4
    · exact ⟨1, σ - t, by norm_num, le_rfl, by rw [abs_le]; constructor <;> linarith, by ring⟩
    · rcases eq_or_lt_of_le h0 with h5 | h5
      · exact ⟨0, σ, le_rfl, by norm_num, by rw [abs_le]; constructor <;> linarith, by ring⟩
      · refine ⟨σ / t, 0, div_nonneg_of_nonpos h3 h5.le, ?_, by simpa using hε, ?_⟩
        · rw [div_le_one_of_neg h5]
          exact h4
        · rw [div_mul_cancel₀ _ h5.ne]
          ring

/-- A part of the way, and an error. -/
theorem part_of_way {w d t l η V2 E2 : ℝ} (hl0 : 0 ≤ l) (hl1 : l ≤ 1) (hη : |η| ≤ 1 / 10 ^ 10) (hd : |d| ≤ 3) (ht : |t| ≤ 9) (hwE : w ^ 2 ≤ E2) (hV2 : V2 ≤ E2)
    (hend : 2 * t * d + t ^ 2 ≤ V2 - w ^ 2 + 1 / 10 ^ 9) : w ^ 2 + 2 * (l * t + η) * d + (l * t + η) ^ 2 ≤ E2 + 1 / 10 ^ 7 := by
  have g1 : w ^ 2 + 2 * (l * t) * d + (l * t) ^ 2 ≤ E2 + 1 / 10 ^ 9 := by
    have : (l * t) ^ 2 ≤ l * t ^ 2 := by
      rw [mul_pow]
      exact mul_le_mul_of_nonneg_right (by nlinarith) (sq_nonneg t)
    have : l * (2 * t * d + t ^ 2) ≤ l * (V2 - w ^ 2 + 1 / 10 ^ 9) := mul_le_mul_of_nonneg_left hend hl0
    have e : w ^ 2 + 2 * (l * t) * d + (l * t) ^ 2 ≤ (1 - l) * w ^ 2 + l * V2 + l * (1 / 10 ^ 9) := by linarith
    have h3 : (1 - l) * w ^ 2 ≤ (1 - l) * E2 := mul_le_mul_of_nonneg_left hwE (by linarith)
    have h4 : l * V2 ≤ l * E2 := mul_le_mul_of_nonneg_left hV2 hl0
    have h5 : l * (1 / 10 ^ 9) ≤ 1 / 10 ^ 9 := by linarith
    linarith
  have g2 : 2 * η * d ≤ 6 / 10 ^ 10 := by
    have := abs_mul_le hη hd
    have := (abs_le.1 this).2
    linarith
  have g3 : 2 * η * (l * t) ≤ 18 / 10 ^ 10 := by
    have h3 : |l * t| ≤ 9 := by
      rw [abs_mul, abs_of_nonneg hl0]
      nlinarith [abs_nonneg t]
    have := (abs_le.1 (abs_mul_le hη h3)).2
    linarith
  have g4 : η ^ 2 ≤ 1 / 10 ^ 10 := by
    rw [← sq_abs]
    refine (pow_le_pow_left₀ (abs_nonneg η) hη 2).trans (by norm_num)
  have e : w ^ 2 + 2 * (l * t + η) * d + (l * t + η) ^ 2 = (w ^ 2 + 2 * (l * t) * d + (l * t) ^ 2) + 2 * η * d + 2 * η * (l * t) + η ^ 2 := by ring
  rw [e]
  linarith

/-- The velocity after the step, if there is a root. -/
theorem step_rooted (h : Roomy L D E c) {w d ρ t σ : ℝ} (hw : w ≤ E) (hw0 : 0 ≤ w) (hd : |d| ≤ 3) (hρ : 0 ≤ ρ) (e1 : |ρ - (d ^ 2 - w ^ 2 + L.velocity ^ 2)| ≤ 1 / 10 ^ 10)
    (e2 : |t - (-d + √ρ)| ≤ 1 / 10 ^ 12) (h1 : σ ≤ max 0 t + 1 / 10 ^ 10) (h2 : min 0 t - 1 / 10 ^ 10 ≤ σ) : w ^ 2 + 2 * σ * d + σ ^ 2 ≤ E ^ 2 + 1 / 10 ^ 7 := by
  have hq := Real.sqrt_nonneg ρ
  have hq2 := Real.sq_sqrt hρ
  obtain ⟨e11, e12⟩ := abs_le.1 e1
  obtain ⟨e21, e22⟩ := abs_le.1 e2
  obtain ⟨d1, d2⟩ := abs_le.1 hd
  have hE := h.v3
  have hV := h.v1
  have hVE := h.v2
  have hwE : w ^ 2 ≤ E ^ 2 := pow_le_pow_left₀ hw0 hw 2
  have hV2 : L.velocity ^ 2 ≤ E ^ 2 := pow_le_pow_left₀ (by linarith) hVE 2
  have hE2 : E ^ 2 ≤ 7 := by nlinarith
  have hd2 : d ^ 2 ≤ 9 := by rw [← sq_abs]; exact (pow_le_pow_left₀ (abs_nonneg d) hd 2).trans (by norm_num)
  have hρ1 : ρ ≤ 25 := by linarith [sq_nonneg w]
  have hq1 : √ρ ≤ 5 := by
    rw [Real.sqrt_le_left (by norm_num)]
    linarith
  have ht : |t| ≤ 9 := by rw [abs_le]; constructor <;> linarith
  obtain ⟨t1, t2⟩ := abs_le.1 ht
  -- at the end of the way
  have hend : 2 * t * d + t ^ 2 ≤ L.velocity ^ 2 - w ^ 2 + 1 / 10 ^ 9 := by
    have e : 2 * t * d + t ^ 2 = (t + d) ^ 2 - d ^ 2 := by ring
    have e3 : t + d = √ρ + (t - (-d + √ρ)) := by ring
    rw [e, e3]
    generalize t - (-d + √ρ) = x at *
    have : (√ρ + x) ^ 2 = ρ + 2 * (√ρ * x) + x ^ 2 := by rw [add_sq, hq2]; ring
    rw [this]
    have hx : √ρ * x ≤ 5 * (1 / 10 ^ 12) := (mul_le_mul_of_nonneg_left e22 hq).trans (mul_le_mul_of_nonneg_right hq1 (by norm_num))
    have hx2 : x ^ 2 ≤ 1 / 10 ^ 12 := by
      rw [← sq_abs]
      refine (pow_le_pow_left₀ (abs_nonneg x) e2 2).trans (by norm_num)
    linarith
  obtain ⟨l, η, hl0, hl1, hη, rfl⟩ := between_zero (by norm_num) h1 h2
  exact part_of_way hl0 hl1 hη hd ht hwE hV2 hend

/-- The velocity after the step, if there is no root. -/
theorem step_free (h : Roomy L D E c) {w d ρ σ : ℝ} (hw : w ≤ E) (hw0 : 0 ≤ w) (hρ : ρ < 0) (e1 : |ρ - (d ^ 2 - w ^ 2 + L.velocity ^ 2)| ≤ 1 / 10 ^ 10)
    (h1 : σ ≤ L.acceleration / 1000 + 1 / 10 ^ 10) (h2 : 0 ≤ σ) : w ^ 2 + 2 * σ * d + σ ^ 2 ≤ D.velocity ^ 2 - 9 / 10 ^ 7 := by
  obtain ⟨e11, e12⟩ := abs_le.1 e1
  have hwE : w ^ 2 ≤ E ^ 2 := pow_le_pow_left₀ hw0 hw 2
  have hc1 := h.c1
  have hc3 := h.c3
  have hc0 := h.c0
  have ha2 := h.a2
  have hd : d ≤ c := (abs_le_of_sq_le_sq' (by linarith) hc0).2
  have g1 : σ * d ≤ 27 / 1000 * c := (mul_le_mul_of_nonneg_left hd h2).trans (mul_le_mul_of_nonneg_right (by norm_num at *; linarith) hc0)
  have g2 : σ ^ 2 ≤ (L.acceleration / 1000 + 1 / 10 ^ 10) ^ 2 := pow_le_pow_left₀ h2 h1 2
  have g3 : (L.acceleration / 1000 + 1 / 10 ^ 10) ^ 2 ≤ (L.acceleration / 1000) ^ 2 + 1 / 10 ^ 10 := by
    have : (L.acceleration / 1000 + 1 / 10 ^ 10) ^ 2 = (L.acceleration / 1000) ^ 2 + 2 * (L.acceleration / 1000) * (1 / 10 ^ 10) + (1 / 10 ^ 10) ^ 2 := by ring
    rw [this]
    norm_num at *
    linarith
  norm_num at *
  linarith

/-- Vectors that are near each other have nearly the same length. -/
theorem len_near {x y : Fin 3 → ℝ} {ε : ℝ} (h : ∀ i, |x i - y i| ≤ ε) : len x ≤ len y + 2 * ε := by
  have hε : 0 ≤ ε := (abs_nonneg _).trans (h 0)
  have e : x = fun i => y i + (x i - y i) := by funext i; ring
  have h1 := len_add_le y fun i => x i - y i
  rw [← e] at h1
  have h2 : len (fun i => x i - y i) ≤ 2 * ε := by
    have q : ∀ i, (x i - y i) ^ 2 ≤ ε ^ 2 := fun i => by rw [← sq_abs]; exact pow_le_pow_left₀ (abs_nonneg _) (h i) 2
    refine (abs_le_of_sq_le_sq' ?_ (by linarith)).2
    rw [len_sq]
    nlinarith [q 0, q 1, q 2]
  linarith

theorem dot3_le (x y : Fin 3 → ℝ) : |dot3 x y| ≤ len x * len y := by
  refine abs_le_of_sq_le_sq ?_ (mul_nonneg (len_nonneg _) (len_nonneg _))
  rw [mul_pow, len_sq, len_sq]
  unfold dot3
  nlinarith [sq_nonneg (x 0 * y 1 - x 1 * y 0), sq_nonneg (x 0 * y 2 - x 2 * y 0), sq_nonneg (x 1 * y 2 - x 2 * y 1)]

/-- The step respects the limits: `e` is the direction, `s` the length of the acceleration. -/
theorem step_respects (h : Roomy L D E c) {v e r : Fin 3 → ℝ} {s : ℝ} (he : len e = 1) (hr : ∀ i, |r i - (v i + e i * (s / 1000))| ≤ 1 / 10 ^ 10)
    (hs : |s| ≤ L.acceleration + 1 / 10 ^ 6)
    (hv : len v ^ 2 + 2 * (s / 1000) * dot3 e v + (s / 1000) ^ 2 ≤ D.velocity ^ 2 - 9 / 10 ^ 7) : StepRespects D v r := by
  have hD : 1 ≤ D.velocity := by linarith [h.v1, h.v2, h.v4]
  constructor
  · have h1 := len_near hr
    have e2 : (fun i => v i + e i * (s / 1000)) = fun i => v i + s / 1000 * e i := by funext i; ring
    have e3 : dot3 v (fun i => s / 1000 * e i) = s / 1000 * dot3 e v := by unfold dot3; ring
    have h2 : len (fun i => v i + e i * (s / 1000)) ^ 2 ≤ (D.velocity - 2 / 10 ^ 10) ^ 2 := by
      rw [e2, len_add_sq, len_smul, he, e3, mul_one, sq_abs]
      have v5 := h.v5
      have : (D.velocity - 2 / 10 ^ 10) ^ 2 = D.velocity ^ 2 - 4 / 10 ^ 10 * D.velocity + (2 / 10 ^ 10) ^ 2 := by ring
      rw [this]
      norm_num at *
      linarith
    have := (abs_le_of_sq_le_sq' h2 (by norm_num; linarith)).2
    norm_num at *
    linarith
  · have e1 : (fun i => (r i - v i) / 0.001) = fun i => 1000 * (r i - v i) := by funext i; norm_num; ring
    rw [e1, len_smul]
    have h1 : len (fun i => r i - v i) ≤ len (fun i => s / 1000 * e i) + 2 * (1 / 10 ^ 10) := len_near fun i => by
      have := hr i
      rwa [show r i - v i - s / 1000 * e i = r i - (v i + e i * (s / 1000)) by ring]
    rw [len_smul, he, mul_one, abs_div, abs_of_pos (by norm_num : (0 : ℝ) < 1000)] at h1
    rw [abs_of_pos (by norm_num : (0 : ℝ) < 1000)]
    have := h.a3
    norm_num at *
    linarith

/-- The last part of the limiter: what becomes of the acceleration `x` if the last velocity is `v` (as in `limit_rate_single_cartesian_velocity`). -/
noncomputable def tailStep (mv ma mj : Rd A) (x v : Arr (Rd A) 3) : Arr (Rd A) 3 :=
  if flt NORM_EPS (Vec3.norm x) then
    v.add (((Vec3.normalize x).rmul (fmin (Vec3.norm x) (fmin ((mj / ma) *
      (-(Vec3.dot (Vec3.normalize x) v) + fsqrt (powf2 (Vec3.dot (Vec3.normalize x) v) - Vec3.norm_squared v + powf2 mv))) ma))).rmul DELTA_T)
  else v

theorem respects_stay (h : Roomy L D E c) {v : Fin 3 → ℝ} (hv : len v ≤ E) : StepRespects D v v := by
  constructor
  · linarith [h.v4]
  · have e : (fun i => (v i - v i) / 0.001) = fun i => 0 * v i := by funext i; simp
    rw [e, len_smul, abs_zero, zero_mul]
    linarith [h.a1, h.a3]

theorem abs_comp {v : Fin 3 → ℝ} {E : ℝ} (h : len v ≤ E) (i : Fin 3) : |v i| ≤ E := (len_comp v i).trans h

variable {mv ma mj : Rd A} (hv : Near mv L.velocity (1 / 10 ^ 14)) (ha : Near ma L.acceleration (1 / 10 ^ 14)) (hj : Near mj L.jerk (1 / 10 ^ 11)) (h : Roomy L D E c)

theorem near_dot {U : Arr (Rd A) 3} {e v : Fin 3 → ℝ} (hu : ∀ i, Near (U i) (e i) (3 / 10 ^ 15)) (he : ∀ i, |e i| ≤ 1) (hv : ∀ i, |v i| ≤ 3) :
    Near (Vec3.dot U (Arr.rd v)) (dot3 e v) (4 / 10 ^ 14) := by
  have b : ∀ i, |e i * v i| ≤ 3 := fun i => (abs_mul_le (he i) (hv i)).trans (by norm_num)
  have p : ∀ i, Near (U i * Rd.fin (v i)) (e i * v i) (1 / 10 ^ 14) := fun i =>
    ((hu i).mul (near_fin (v i)) (m := 2) (m' := 3) (B := 4) (by linarith [he i]) (hv i) (by linarith [b i]) (by norm_num) (by norm_num)).weaken
      (by rw [sub_self, abs_zero]; norm_num)
  refine (((p 0).add (p 1) (B := 10) ?_ (by norm_num) (by norm_num)).add (p 2) (B := 20) ?_ (by norm_num) (by norm_num)).weaken ?_
  · have := abs_add_le (e 0 * v 0) (e 1 * v 1)
    linarith [b 0, b 1]
  · have := abs_add_le (e 0 * v 0) (e 1 * v 1)
    have := abs_add_le (e 0 * v 0 + e 1 * v 1) (e 2 * v 2)
    linarith [b 0, b 1, b 2]
  · rw [dot3, sub_self, abs_zero]
    norm_num

theorem near_norm_squared {v : Fin 3 → ℝ} (hv : ∀ i, |v i| ≤ 3) : Near (Vec3.norm_squared (Arr.rd v : Arr (Rd A) 3)) (len v ^ 2) (2 / 10 ^ 14) := by
  have b : ∀ i, |v i * v i| ≤ 9 := fun i => (abs_mul_le (hv i) (hv i)).trans (by norm_num)
  have p : ∀ i, Near (Rd.fin (v i) * Rd.fin (v i) : Rd A) (v i * v i) (2 / 10 ^ 15) := fun i =>
    ((near_fin (v i)).mul (near_fin (v i)) (m := 3) (m' := 3) (B := 10) (by linarith [hv i]) (hv i) (by linarith [b i]) (by norm_num) (by norm_num)).weaken
      (by rw [sub_self, abs_zero]; norm_num)
  have d : Near (Vec3.dot (Arr.rd v : Arr (Rd A) 3) (Arr.rd v)) (v 0 * v 0 + v 1 * v 1 + v 2 * v 2) (14 / 10 ^ 15) := by
    refine (((p 0).add (p 1) (B := 20) ?_ (by norm_num) (by norm_num)).add (p 2) (B := 30) ?_ (by norm_num) (by norm_num)).weaken ?_
    · have := abs_add_le (v 0 * v 0) (v 1 * v 1)
      linarith [b 0, b 1]
    · have := abs_add_le (v 0 * v 0) (v 1 * v 1)
      have := abs_add_le (v 0 * v 0 + v 1 * v 1) (v 2 * v 2)
      linarith [b 0, b 1, b 2]
    · rw [sub_self, abs_zero]
      norm_num
  refine ((near_lit (A := A) (q := 0) (B := 1) (by norm_num) (by norm_num) (by norm_num)).add d (B := 30) ?_ (by norm_num) (by norm_num)).weaken ?_
  · rw [Rat.cast_zero, zero_add]
    have := abs_add_le (v 0 * v 0) (v 1 * v 1)
    have := abs_add_le (v 0 * v 0 + v 1 * v 1) (v 2 * v 2)
    linarith [b 0, b 1, b 2]
  · rw [len_sq, show ((0 : ℚ) : ℝ) + (v 0 * v 0 + v 1 * v 1 + v 2 * v 2) - (v 0 ^ 2 + v 1 ^ 2 + v 2 ^ 2) = 0 by push_cast; ring, abs_zero]
    norm_num

include hv h in
theorem near_radicand {d : Rd A} {r : ℝ} {v : Fin 3 → ℝ} (hd : Near d r (4 / 10 ^ 14)) (hr : |r| ≤ 3) (hl : len v ≤ E) :
    Near (powf2 d - Vec3.norm_squared (Arr.rd v : Arr (Rd A) 3) + powf2 mv) (r ^ 2 - len v ^ 2 + L.velocity ^ 2) (1 / 10 ^ 12) := by
  have h3 := h.v3
  have hV : |L.velocity| ≤ 3 := by rw [abs_le]; constructor <;> linarith [h.v1, h.v2]
  have b1 : |r * r| ≤ 9 := (abs_mul_le hr hr).trans (by norm_num)
  have b2 : |L.velocity * L.velocity| ≤ 9 := (abs_mul_le hV hV).trans (by norm_num)
  have b3 : |len v ^ 2| ≤ 9 := by
    rw [abs_of_nonneg (sq_nonneg _)]
    exact (pow_le_pow_left₀ (len_nonneg v) (by linarith) 2).trans (by norm_num : (3 : ℝ) ^ 2 ≤ 9)
  have p1 : Near (powf2 d) (r * r) (3 / 10 ^ 13) :=
    (hd.mul hd (m := 4) (m' := 3) (B := 20) (by linarith) hr (by linarith) (by norm_num) (by norm_num)).weaken (by rw [sub_self, abs_zero]; norm_num)
  have p2 : Near (powf2 mv) (L.velocity * L.velocity) (8 / 10 ^ 14) :=
    (hv.mul hv (m := 4) (m' := 3) (B := 20) (by linarith) hV (by linarith) (by norm_num) (by norm_num)).weaken (by rw [sub_self, abs_zero]; norm_num)
  have p3 := near_norm_squared (A := A) (v := v) fun i => (abs_comp hl i).trans (by linarith)
  refine ((p1.sub p3 (B := 30) ?_ (by norm_num) (by norm_num)).add p2 (B := 40) ?_ (by norm_num) (by norm_num)).weaken ?_
  · have := abs_sub (r * r) (len v ^ 2)
    linarith
  · have := abs_sub (r * r) (len v ^ 2)
    have := abs_add_le (r * r - len v ^ 2) (L.velocity * L.velocity)
    linarith
  · rw [show r * r - len v ^ 2 + L.velocity * L.velocity - (r ^ 2 - len v ^ 2 + L.velocity ^ 2) = 0 by ring, abs_zero]
    norm_num

/-- The new velocity. -/
theorem near_step {U : Rd A} {e v s : ℝ} (hu : Near U e (3 / 10 ^ 15)) (he : |e| ≤ 1) (hv : |v| ≤ 3) (hs : |s| ≤ 27) :
    Near (Rd.fin v + U * Rd.fin s * DELTA_T) (v + e * (s / 1000)) (1 / 10 ^ 10) := by
  have b : |e * s| ≤ 27 := (abs_mul_le he hs).trans (by norm_num)
  have b2 : |e * s * (1 / 1000)| ≤ 1 := by
    rw [abs_mul, abs_of_pos (by norm_num : (0 : ℝ) < 1 / 1000)]
    linarith
  have p1 : Near (U * Rd.fin s) (e * s) (1 / 10 ^ 13) :=
    (hu.mul (near_fin s) (m := 2) (m' := 27) (B := 30) (by linarith) hs (by linarith) (by norm_num) (by norm_num)).weaken (by rw [sub_self, abs_zero]; norm_num)
  have p2 : Near (U * Rd.fin s * DELTA_T) (e * s * (1 / 1000)) (1 / 10 ^ 14) :=
    (p1.mul near_DELTA_T (m := 30) (m' := 1 / 1000) (B := 2) (by linarith) (by norm_num) (by linarith) (by norm_num) (by norm_num)).weaken
      (by rw [sub_self, abs_zero]; norm_num)
  refine ((near_fin v).add p2 (B := 5) ?_ (by norm_num) (by norm_num)).weaken ?_
  · have := abs_add_le v (e * s * (1 / 1000))
    linarith
  · rw [show v + e * s * (1 / 1000) - (v + e * (s / 1000)) = 0 by ring, abs_zero]
    norm_num

include hv ha hj h in
/-- The length of the acceleration. -/
theorem rd_length {n : ℝ} (hn : 0 ≤ n) {d : Rd A} {r : ℝ} {v : Fin 3 → ℝ} (hd : Near d r (4 / 10 ^ 14)) (hr : |r| ≤ 3) (hl : len v ≤ E) :
    ∃ s, fmin (Rd.fin n) (fmin ((mj / ma) * (-d + fsqrt (powf2 d - Vec3.norm_squared (Arr.rd v : Arr (Rd A) 3) + powf2 mv))) ma) = (Rd.fin s : Rd A) ∧
      |s| ≤ L.acceleration + 1 / 10 ^ 6 ∧ len v ^ 2 + 2 * (s / 1000) * r + (s / 1000) ^ 2 ≤ D.velocity ^ 2 - 9 / 10 ^ 7 := by
  obtain ⟨ρ, hρ, eρ⟩ := near_radicand hv h hd hr hl
  rw [hρ]
  obtain ⟨α, hα, eα⟩ := id ha
  obtain ⟨eα1, eα2⟩ := abs_le.1 eα
  have a1 := h.a1
  have a2 := h.a2
  have k1 := h.k1
  have k2 := h.k2
  have c0 := h.c0
  have hw0 := len_nonneg v
  rcases lt_or_ge ρ 0 with h0 | h0
  · have e1 : (fsqrt (Rd.fin ρ : Rd A)) = Rd.nan := congrArg (Rd.round A) (if_pos h0)
    have e2 : ∀ y : Rd A, y + Rd.nan = Rd.nan := fun y => by cases y <;> rfl
    have e3 : ∀ y : Rd A, y * Rd.nan = Rd.nan := fun y => by cases y <;> rfl
    have e4 : fmin (Rd.nan : Rd A) (Rd.fin α) = Rd.fin α := rfl
    rw [e1, e2, e3, hα, e4, Rd.fmin_fin]
    have s0 : 0 ≤ min n α := le_min hn (by linarith)
    have s1 : min n α ≤ L.acceleration + 1 / 10 ^ 14 := (min_le_right _ _).trans (by linarith)
    refine ⟨_, rfl, by rw [abs_of_nonneg s0]; linarith, ?_⟩
    exact step_free h hl hw0 h0 (eρ.trans (by norm_num)) (by linarith) (by positivity)
  · have q0 := Real.sqrt_nonneg ρ
    have hw2 : len v ^ 2 ≤ 9 := (pow_le_pow_left₀ hw0 (by linarith [h.v3]) 2).trans (by norm_num : (3 : ℝ) ^ 2 ≤ 9)
    have hr2 : r ^ 2 ≤ 9 := by rw [← sq_abs]; exact (pow_le_pow_left₀ (abs_nonneg r) hr 2).trans (by norm_num)
    have hV2 : L.velocity ^ 2 ≤ 9 := (pow_le_pow_left₀ (by linarith [h.v1]) (by linarith [h.v2, h.v3]) 2).trans (by norm_num : (3 : ℝ) ^ 2 ≤ 9)
    have q1 : √ρ ≤ 5 := by
      rw [Real.sqrt_le_left (by norm_num)]
      have := (abs_le.1 eρ).2
      have := sq_nonneg (len v)
      linarith
    have p1 : Near (fsqrt (Rd.fin ρ : Rd A)) √ρ (1 / 10 ^ 15) := by
      have e1 : (fsqrt (Rd.fin ρ : Rd A)) = Rd.round A (.fin √ρ) := congrArg (Rd.round A) (if_neg (not_lt.2 h0))
      rw [e1]
      obtain ⟨x, h1, h2⟩ := near_round (A := A) (z := √ρ) (r := √ρ) (e := 0) (B := 6) (by simp) (by rw [abs_of_nonneg q0]; linarith) (by norm_num) (by norm_num)
      exact ⟨x, h1, h2.trans (by norm_num)⟩
    have hb : |-r + √ρ| ≤ 8 := by
      obtain ⟨r1, r2⟩ := abs_le.1 hr
      rw [abs_le]; constructor <;> linarith
    obtain ⟨t, ht, et⟩ := (hd.neg.add p1 (B := 10) (by linarith) (by norm_num) (by norm_num)).weaken (r' := -r + √ρ) (e' := 1 / 10 ^ 13)
      (by rw [sub_self, abs_zero]; norm_num)
    rw [ht]
    obtain ⟨et1, et2⟩ := abs_le.1 et
    obtain ⟨hb1, hb2⟩ := abs_le.1 hb
    have tb : |t| ≤ 9 := by rw [abs_le]; constructor <;> linarith
    have hk : |L.jerk / L.acceleration| ≤ 510 := by rw [abs_le]; constructor <;> linarith
    have pk : Near (mj / ma) (L.jerk / L.acceleration) (2 / 10 ^ 11) :=
      (hj.div ha (m := 510) (B := 600) (by linarith) hk (by linarith) (by norm_num) (by norm_num)).weaken (by rw [sub_self, abs_zero]; norm_num)
    have bkt : |L.jerk / L.acceleration * t| ≤ 4600 := (abs_mul_le hk tb).trans (by norm_num)
    obtain ⟨y, hy, ey⟩ := (pk.mul (near_fin t) (m := 511) (m' := 9) (B := 5000) (by linarith) tb (by linarith) (by norm_num) (by norm_num)).weaken
      (r' := L.jerk / L.acceleration * t) (e' := 2 / 10 ^ 10) (by rw [sub_self, abs_zero]; norm_num)
    rw [hy, hα, Rd.fmin_fin, Rd.fmin_fin]
    obtain ⟨ey1, ey2⟩ := abs_le.1 ey
    have hlow := brake_bound h hl hw0 h0 (eρ.trans (by norm_num)) (et.trans (by norm_num))
    have hc2 := h.c2
    generalize L.jerk / L.acceleration = k at *
    have s1 : min n (min y α) ≤ α := (min_le_right _ _).trans (min_le_right _ _)
    have s2 : min n (min y α) ≤ y := (min_le_right _ _).trans (min_le_left _ _)
    have s3 : min 0 y ≤ min n (min y α) := le_min ((min_le_left _ _).trans hn) (le_min (min_le_right _ _) ((min_le_left _ _).trans (by linarith)))
    generalize min n (min y α) = s at *
    have up : s / 1000 ≤ max 0 t + 1 / 10 ^ 10 := by
      rcases le_total 0 t with h1 | h1
      · rw [max_eq_right h1]
        have : k * t ≤ 510 * t := mul_le_mul_of_nonneg_right k2 h1
        linarith
      · rw [max_eq_left h1]
        have : k * t ≤ 0 := mul_nonpos_of_nonneg_of_nonpos (by linarith) h1
        linarith
    have low : min 0 y ≥ -(2 / 10 ^ 10) ∨ min 0 y ≥ 510 * t - 2 / 10 ^ 10 ∧ t ≤ 0 := by
      rcases le_total 0 t with h1 | h1
      · left
        have : 0 ≤ k * t := mul_nonneg (by linarith) h1
        exact le_min (by norm_num) (by linarith)
      · right
        have : 510 * t ≤ k * t := mul_le_mul_of_nonpos_right k2 h1
        exact ⟨le_min (by norm_num; linarith) (by linarith), h1⟩
    have down : min 0 t - 1 / 10 ^ 10 ≤ s / 1000 := by
      rcases low with h1 | ⟨h1, h2⟩
      · have := min_le_left 0 t
        linarith
      · rw [min_eq_right h2]
        linarith
    refine ⟨s, rfl, ?_, ?_⟩
    · rw [abs_le]
      constructor
      · rcases low with h1 | ⟨h1, h2⟩ <;> linarith
      · linarith
    · have := step_rooted h hl hw0 hr h0 (eρ.trans (by norm_num)) (et.trans (by norm_num)) up down
      refine this.trans ?_
      have v4 := h.v4
      have v1 := h.v1
      have v2 := h.v2
      have : (E + 1 / 10 ^ 4) ^ 2 ≤ D.velocity ^ 2 := pow_le_pow_left₀ (by norm_num; linarith) v4 2
      have : E ^ 2 + 2 / 10 ^ 4 * E ≤ (E + 1 / 10 ^ 4) ^ 2 := by
        have : (E + 1 / 10 ^ 4) ^ 2 = E ^ 2 + 2 / 10 ^ 4 * E + (1 / 10 ^ 4) ^ 2 := by ring
        rw [this]
        norm_num
      linarith

include hv ha hj h in
theorem rd_tail {y v : Fin 3 → ℝ} (hy : ∀ i, |y i| ≤ 10 ^ 10) (hl : len v ≤ E) : ∃ r, tailStep mv ma mj (Arr.rd y) (Arr.rd v) = Arr.rd r ∧ StepRespects D v r := by
  obtain ⟨ε, hε, e0⟩ := eps_rd (A := A)
  have stay : flt NORM_EPS (Vec3.norm (Arr.rd y : Arr (Rd A) 3)) = false → ∃ r, tailStep mv ma mj (Arr.rd y) (Arr.rd v) = Arr.rd r ∧ StepRespects D v r := by
    intro h1
    refine ⟨v, ?_, respects_stay h hl⟩
    unfold tailStep
    rw [h1]
    rfl
  rcases norm_rd (A := A) hy with hn | ⟨n, hn, en⟩
  · refine stay ?_
    rw [hn, hε]
    exact @decide_eq_false _ (Classical.propDecidable _) id
  · by_cases ht : ε < n
    · have hu := normalize_rd hn en (e0.trans ht.le)
      have hl0 : 0 < len y := lt_of_lt_of_le (by norm_num) (hu 0).1
      have he : ∀ i, |y i / len y| ≤ 1 := fun i => by
        rw [abs_div, abs_of_pos hl0]
        exact (div_le_one hl0).2 (len_comp y i)
      have hunit : len (fun i => y i / len y) = 1 := by
        have : (fun i => y i / len y) = fun i => (len y)⁻¹ * y i := by funext i; ring
        rw [this, len_smul, abs_of_pos (by positivity)]
        field_simp
      have hvb : ∀ i, |v i| ≤ 3 := fun i => (abs_comp hl i).trans (by linarith [h.v3])
      have hd := near_dot (fun i => (hu i).2) he hvb
      have hr : |dot3 (fun i => y i / len y) v| ≤ 3 := by
        refine (dot3_le _ _).trans ?_
        rw [hunit]
        linarith [h.v3]
      obtain ⟨s, hs, s1, s2⟩ := rd_length hv ha hj h (n := n) (le_trans (le_trans (by norm_num) e0) ht.le) hd hr hl
      have hr := fun i => near_step (hu i).2 (he i) (hvb i) (s := s) (by linarith [h.a2])
      choose r hr1 hr2 using hr
      refine ⟨r, ?_, step_respects h hunit hr2 s1 s2⟩
      unfold tailStep
      rw [hn, hε, Rd.flt_fin, decide_eq_true ht, if_pos rfl, hs]
      funext i
      exact hr1 i
    · refine stay ?_
      rw [hn, hε, Rd.flt_fin, decide_eq_false ht]

/-- An infinite number. -/
def Rd.inf (b : Bool) : Rd A := XR.inf b

theorem Rd.kinds (x : Rd A) : x = Rd.nan ∨ (∃ b, x = Rd.inf b) ∨ ∃ r, x = Rd.fin r := by
  rcases (x : XR) with _ | b | r
  · exact Or.inl rfl
  · exact Or.inr (Or.inl ⟨b, rfl⟩)
  · exact Or.inr (Or.inr ⟨r, rfl⟩)

include hj h in
/-- The first part of the limiter: the components of the acceleration are numbers that are not too large, or not numbers at all, whatever the jerk is. -/
theorem rd_head {a : Fin 3 → ℝ} (hb : ∀ i, |a i| ≤ 10 ^ 6) (x : Arr (Rd A) 3) (i : Fin 3) :
    (if flt NORM_EPS (Vec3.norm x) then
      (Arr.rd a : Arr (Rd A) 3).add (((Vec3.normalize x).rmul (fmax (fmin (Vec3.norm x) mj) (-mj))).rmul DELTA_T) else Arr.rd a) i = Rd.nan ∨
    ∃ z, (if flt NORM_EPS (Vec3.norm x) then
      (Arr.rd a : Arr (Rd A) 3).add (((Vec3.normalize x).rmul (fmax (fmin (Vec3.norm x) mj) (-mj))).rmul DELTA_T) else Arr.rd a) i = Rd.fin z ∧ |z| ≤ 10 ^ 10 := by
  have a10 : |a i| ≤ 10 ^ 10 := (hb i).trans (by norm_num)
  obtain ⟨J, hJ, eJ⟩ := id hj
  obtain ⟨eJ1, eJ2⟩ := abs_le.1 eJ
  have hj0 : 0 ≤ L.jerk := by
    have h1 := h.k1
    have h2 := h.a1
    rw [le_div_iff₀ (by linarith)] at h1
    linarith
  have hj1 := h.j
  -- what is added
  have add : ∀ u t : ℝ, |u| ≤ 2 → |t| ≤ 14000 → ∃ z, (Rd.fin (a i) + Rd.fin u * Rd.fin t * DELTA_T : Rd A) = Rd.fin z ∧ |z| ≤ 10 ^ 10 := by
    intro u t h1 h2
    have b : |u * t| ≤ 28000 := (abs_mul_le h1 h2).trans (by norm_num)
    have b2 : |u * t * (1 / 1000)| ≤ 28 := by
      rw [abs_mul, abs_of_pos (by norm_num : (0 : ℝ) < 1 / 1000)]
      linarith
    have p1 := (near_fin (A := A) u).mul (near_fin t) (m := 2) (m' := 14000) (B := 30000) (by linarith) h2 (by linarith) (by norm_num) (by norm_num)
    have p2 := (p1.weaken (r' := u * t) (e' := 1 / 10 ^ 10) (by rw [sub_self, abs_zero]; norm_num)).mul near_DELTA_T (m := 30000) (m' := 1 / 1000) (B := 30)
      (by linarith) (by norm_num) (by linarith) (by norm_num) (by norm_num)
    obtain ⟨z, hz, ez⟩ := (near_fin (A := A) (a i)).add (p2.weaken (r' := u * t * (1 / 1000)) (e' := 1 / 10 ^ 10) (by rw [sub_self, abs_zero]; norm_num)) (B := 2 * 10 ^ 6)
      (by have := abs_add_le (a i) (u * t * (1 / 1000)); have := hb i; linarith) (by norm_num) (by norm_num)
    refine ⟨z, hz, ?_⟩
    have h3 := abs_sub_abs_le_abs_sub z (a i + u * t * (1 / 1000))
    have := abs_add_le (a i) (u * t * (1 / 1000))
    have := hb i
    linarith
  have hneg : (-mj : Rd A) = Rd.fin (-J) := by rw [hJ]; rfl
  obtain ⟨ε, hε, e0⟩ := eps_rd (A := A)
  have stay : flt NORM_EPS (Vec3.norm x) = false → (if flt NORM_EPS (Vec3.norm x) then
      (Arr.rd a : Arr (Rd A) 3).add (((Vec3.normalize x).rmul (fmax (fmin (Vec3.norm x) mj) (-mj))).rmul DELTA_T) else Arr.rd a) i = Rd.fin (a i) := by
    intro h1
    rw [h1]
    rfl
  have hJa : |J| ≤ 14000 := by rw [abs_le]; constructor <;> linarith
  rcases Rd.kinds (Vec3.norm x) with hx | ⟨b, hx⟩ | ⟨n, hx⟩
  · exact Or.inr ⟨a i, stay (by rw [hx, hε]; exact @decide_eq_false _ (Classical.propDecidable _) id), a10⟩
  · cases b with
    | true => exact Or.inr ⟨a i, stay (by rw [hx, hε]; exact @decide_eq_false _ (Classical.propDecidable _) nofun), a10⟩
    | false =>
      have e1 : flt (NORM_EPS : Rd A) (Rd.inf false : Rd A) = true := by rw [hε]; exact @decide_eq_true _ (Classical.propDecidable _) rfl
      have e2 : fmin (Rd.inf false : Rd A) mj = Rd.fin J := by
        rw [hJ]
        exact @if_neg _ (Classical.propDecidable _) nofun _ _ _
      have e3 : ∃ t, fmax (fmin (Rd.inf false : Rd A) mj) (-mj) = Rd.fin t ∧ |t| ≤ 14000 := by
        rw [e2, hneg, Rd.fmax_fin]
        refine ⟨_, rfl, ?_⟩
        rcases max_choice J (-J) with h1 | h1 <;> rw [h1]
        · exact hJa
        · rw [abs_neg]; exact hJa
      obtain ⟨t, e3, e4⟩ := e3
      rw [hx, e1, if_pos rfl, e3]
      rcases Rd.kinds (x i) with hi | ⟨b, hi⟩ | ⟨u, hi⟩
      · left
        show Rd.fin (a i) + x i / Vec3.norm x * Rd.fin t * DELTA_T = _
        rw [hi, hx]
        rfl
      · left
        show Rd.fin (a i) + x i / Vec3.norm x * Rd.fin t * DELTA_T = _
        rw [hi, hx]
        rfl
      · right
        have e5 : ∃ z, (x i / Vec3.norm x) = (Rd.fin z : Rd A) ∧ |z| ≤ 2 := by
          rw [hi, hx]
          obtain ⟨z, h1, h2⟩ := near_round (A := A) (z := 0) (r := 0) (e := 0) (B := 1) (by simp) (by simp) (by norm_num) (by norm_num)
          refine ⟨z, h1, ?_⟩
          rw [sub_zero] at h2
          exact h2.trans (by norm_num)
        obtain ⟨z, h1, h2⟩ := e5
        show ∃ z, Rd.fin (a i) + x i / Vec3.norm x * Rd.fin t * DELTA_T = _ ∧ _
        rw [h1]
        exact add z t h2 e4
  · right
    obtain ⟨y, rfl, en⟩ := norm_inv hx
    by_cases ht : ε < n
    · obtain ⟨-, z, h1, h2⟩ := normalize_rd hx en (e0.trans ht.le) i
      have hl0 : 0 < len y := lt_of_lt_of_le (by norm_num) (normalize_rd hx en (e0.trans ht.le) i).1
      have he : |y i / len y| ≤ 1 := by
        rw [abs_div, abs_of_pos hl0]
        exact (div_le_one hl0).2 (len_comp y i)
      have hn0 : 0 ≤ n := le_trans (le_trans (by norm_num) e0) ht.le
      have h3 : |z| ≤ 2 := by
        have := abs_sub_abs_le_abs_sub z (y i / len y)
        linarith
      have h4 : |max (min n J) (-J)| ≤ 14000 := by
        obtain ⟨j1, j2⟩ := abs_le.1 hJa
        rw [abs_le]
        constructor
        · exact le_trans (by linarith) (le_max_right _ _)
        · exact max_le ((min_le_right _ _).trans j2) (by linarith)
      rw [hx, hε, Rd.flt_fin, decide_eq_true ht, if_pos rfl, hneg, hJ, Rd.fmin_fin, Rd.fmax_fin]
      show ∃ z, Rd.fin (a i) + Vec3.normalize (Arr.rd y) i * Rd.fin _ * DELTA_T = _ ∧ _
      rw [h1]
      exact add z _ h3 h4
    · refine ⟨a i, ?_, a10⟩
      exact stay (by rw [hx, hε]; exact (Rd.flt_fin _ _).trans (decide_eq_false ht))

include hv ha hj h in
/-- One step of the limiter for any command, also for one that is no number. -/
theorem rd_single {a v : Fin 3 → ℝ} (hb : ∀ i, |a i| ≤ 10 ^ 6) (hl : len v ≤ E) (u : Arr (Rd A) 3) :
    ∃ r, limit_rate_single_cartesian_velocity mv ma mj u (Arr.rd v) (Arr.rd a) = Arr.rd r ∧ StepRespects D v r := by
  obtain ⟨x, hx⟩ : ∃ x, x = (((u.sub (Arr.rd v)).divs DELTA_T).sub (Arr.rd a)).divs DELTA_T := ⟨_, rfl⟩
  have head := rd_head hj h hb x
  obtain ⟨y, hy⟩ : ∃ y, y = (if flt NORM_EPS (Vec3.norm x) then
      (Arr.rd a : Arr (Rd A) 3).add (((Vec3.normalize x).rmul (fmax (fmin (Vec3.norm x) mj) (-mj))).rmul DELTA_T) else Arr.rd a) := ⟨_, rfl⟩
  rw [← hy] at head
  have e : limit_rate_single_cartesian_velocity mv ma mj u (Arr.rd v) (Arr.rd a) = tailStep mv ma mj y (Arr.rd v) := by
    rw [hy, hx]
    rfl
  rw [e]
  by_cases hn : ∃ i, y i = Rd.nan
  · obtain ⟨i, hi⟩ := hn
    refine ⟨v, ?_, respects_stay h hl⟩
    unfold tailStep
    obtain ⟨ε, hε, -⟩ := eps_rd (A := A)
    have : flt (NORM_EPS : Rd A) Rd.nan = false := by rw [hε]; exact @decide_eq_false _ (Classical.propDecidable _) id
    rw [norm_nan hi, this]
    rfl
  · have : ∀ i, ∃ z, y i = Rd.fin z ∧ |z| ≤ 10 ^ 10 := fun i => (head i).resolve_left fun h1 => hn ⟨i, h1⟩
    choose z hz hz2 using this
    obtain rfl : y = Arr.rd z := funext hz
    exact rd_tail hv ha hj h hz2 hl

end Verif
