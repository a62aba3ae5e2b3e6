import Verif.Spec.Rounding
import Verif.Lemmas.Limits
/-!
Computing with rounded doubles: a value is near an exact one.
-/
namespace Verif
open Spec
variable {A : Rounding}

/-- A double is finite and differs from `r` by at most `e`. -/
def Near (x : Rd A) (r e : ℝ) : Prop := ∃ y, x = Rd.fin y ∧ |y - r| ≤ e

theorem Near.weaken {x : Rd A} {r r' e e' : ℝ} (h : Near x r e) (he : e + |r - r'| ≤ e') : Near x r' e' := by
  obtain ⟨y, h1, h2⟩ := h
  refine ⟨y, h1, le_trans ?_ he⟩
  have := abs_sub_le y r r'
  linarith

theorem near_fin (x : ℝ) : Near (Rd.fin x : Rd A) x 0 := ⟨x, rfl, by simp⟩

theorem rnd_error (x : ℝ) : |A.rnd x - x| ≤ 12 / 10 ^ 17 * |x| + 1 / 10 ^ 30 := by
  refine (A.error x).trans (add_le_add (mul_le_mul_of_nonneg_right (by norm_num) (abs_nonneg x)) ?_)
  exact (pow_le_pow_of_le_one (by norm_num) (by norm_num) (by norm_num : 100 ≤ 1075)).trans (by norm_num)

theorem max_large : 10 ^ 12 ≤ A.max := le_trans (le_trans (by norm_num : (10 : ℝ) ^ 12 ≤ 2 ^ 40) (pow_le_pow_right₀ (by norm_num) (by norm_num))) A.big

theorem near_round {z r e B : ℝ} (h : |z - r| ≤ e) (hB : |r| + e ≤ B) (h1 : 1 / 10 ^ 10 ≤ B) (h2 : B ≤ 10 ^ 9) :
    Near (Rd.round A (.fin z)) r (e + 13 / 10 ^ 17 * B) := by
  have hz : |z| ≤ B := by
    have := abs_sub_abs_le_abs_sub z r
    linarith
  have he := rnd_error (A := A) z
  have h3 : |A.rnd z| ≤ A.max := by
    have := abs_sub_abs_le_abs_sub (A.rnd z) z
    have := max_large (A := A)
    linarith
  refine ⟨A.rnd z, ?_, ?_⟩
  · exact if_pos h3
  · have := abs_sub_le (A.rnd z) z r
    linarith

theorem near_lit {q : ℚ} {B : ℝ} (hB : |(q : ℝ)| ≤ B) (h1 : 1 / 10 ^ 10 ≤ B) (h2 : B ≤ 10 ^ 9) : Near (Fl.lit q : Rd A) q (13 / 10 ^ 17 * B) := by
  have := near_round (A := A) (z := (q : ℝ)) (r := q) (e := 0) (B := B) (by simp) (by simpa using hB) h1 h2
  rw [zero_add] at this
  exact this

theorem Near.add {x y : Rd A} {r r' e e' : ℝ} (hx : Near x r e) (hy : Near y r' e') {B : ℝ} (hB : |r + r'| + (e + e') ≤ B) (h1 : 1 / 10 ^ 10 ≤ B)
    (h2 : B ≤ 10 ^ 9) : Near (x + y) (r + r') (e + e' + 13 / 10 ^ 17 * B) := by
  obtain ⟨x, rfl, hx⟩ := hx
  obtain ⟨y, rfl, hy⟩ := hy
  refine near_round (A := A) (z := x + y) ?_ hB h1 h2
  have := abs_add_le (x - r) (y - r')
  rw [show x + y - (r + r') = x - r + (y - r') by ring]
  linarith

theorem Near.neg {x : Rd A} {r e : ℝ} (hx : Near x r e) : Near (-x) (-r) e := by
  obtain ⟨x, rfl, hx⟩ := hx
  refine ⟨-x, rfl, ?_⟩
  rwa [show -x - -r = -(x - r) by ring, abs_neg]

theorem Near.sub {x y : Rd A} {r r' e e' : ℝ} (hx : Near x r e) (hy : Near y r' e') {B : ℝ} (hB : |r - r'| + (e + e') ≤ B) (h1 : 1 / 10 ^ 10 ≤ B)
    (h2 : B ≤ 10 ^ 9) : Near (x - y) (r - r') (e + e' + 13 / 10 ^ 17 * B) :=
  Near.add hx hy.neg (by rwa [← sub_eq_add_neg]) h1 h2

theorem Near.mul {x y : Rd A} {r r' e e' : ℝ} (hx : Near x r e) (hy : Near y r' e') {m m' B : ℝ} (hm : |r| + e ≤ m) (hm' : |r'| ≤ m')
    (hB : |r * r'| + (m * e' + m' * e) ≤ B) (h1 : 1 / 10 ^ 10 ≤ B)
    (h2 : B ≤ 10 ^ 9) : Near (x * y) (r * r') (m * e' + m' * e + 13 / 10 ^ 17 * B) := by
  obtain ⟨x, rfl, hx⟩ := hx
  obtain ⟨y, rfl, hy⟩ := hy
  refine near_round (A := A) (z := x * y) ?_ hB h1 h2
  rw [show x * y - r * r' = x * (y - r') + r' * (x - r) by ring]
  refine (abs_add_le _ _).trans (add_le_add ?_ ?_)
  · rw [abs_mul]
    have : |x| ≤ m := by
      have := abs_sub_abs_le_abs_sub x r
      linarith
    exact mul_le_mul this hy (abs_nonneg _) ((abs_nonneg x).trans this)
  · rw [abs_mul]
    exact mul_le_mul hm' hx (abs_nonneg _) ((abs_nonneg r').trans hm')

/-- A quotient by a number in `[1, …)`. -/
theorem Near.div {x y : Rd A} {r r' e e' : ℝ} (hx : Near x r e) (hy : Near y r' e') {m B : ℝ} (hr : 1 + e' ≤ r') (hm : |r / r'| ≤ m)
    (hB : |r / r'| + (e + m * e') ≤ B) (h1 : 1 / 10 ^ 10 ≤ B)
    (h2 : B ≤ 10 ^ 9) : Near (x / y) (r / r') (e + m * e' + 13 / 10 ^ 17 * B) := by
  obtain ⟨x, rfl, hx⟩ := hx
  obtain ⟨y, rfl, hy⟩ := hy
  have hy1 : 1 ≤ y := by
    have := (abs_le.1 hy).1
    linarith
  have he' : 0 ≤ e' := (abs_nonneg _).trans hy
  have hd : XR.div (.fin x) (.fin y) = .fin (x / y) := if_neg (by linarith)
  have : Near (Rd.round A (.fin (x / y))) (r / r') (e + m * e' + 13 / 10 ^ 17 * B) := by
    refine near_round ?_ hB h1 h2
    have e1 : x / y - r / r' = ((x - r) - r / r' * (y - r')) / y := by
      have : r' ≠ 0 := by linarith
      field_simp
      ring
    rw [e1, abs_div, abs_of_pos (by linarith : 0 < y), div_le_iff₀ (by linarith)]
    have h3 : |(x - r) - r / r' * (y - r')| ≤ e + m * e' := by
      refine (abs_sub _ _).trans (add_le_add hx ?_)
      rw [abs_mul]
      exact mul_le_mul hm hy (abs_nonneg _) ((abs_nonneg _).trans hm)
    have h4 : 0 ≤ e + m * e' := (abs_nonneg _).trans h3
    nlinarith
  rw [← hd] at this
  exact this

theorem Rd.fmin_fin (x y : ℝ) : Fl.fmin (Rd.fin x : Rd A) (Rd.fin y) = Rd.fin (min x y) := XR.fmin_fin x y
theorem Rd.fmax_fin (x y : ℝ) : Fl.fmax (Rd.fin x : Rd A) (Rd.fin y) = Rd.fin (max x y) := XR.fmax_fin x y

theorem abs_min_sub_min {x y r r' e : ℝ} (hx : |x - r| ≤ e) (hy : |y - r'| ≤ e) : |min x y - min r r'| ≤ e :=
  (abs_min_sub_min_le_max _ _ _ _).trans (max_le hx hy)

theorem abs_max_sub_max {x y r r' e : ℝ} (hx : |x - r| ≤ e) (hy : |y - r'| ≤ e) : |max x y - max r r'| ≤ e :=
  (abs_max_sub_max_le_max _ _ _ _).trans (max_le hx hy)

theorem Near.min {x y : Rd A} {r r' e : ℝ} (hx : Near x r e) (hy : Near y r' e) : Near (Fl.fmin x y) (min r r') e := by
  obtain ⟨x, rfl, hx⟩ := hx
  obtain ⟨y, rfl, hy⟩ := hy
  exact ⟨_, Rd.fmin_fin x y, abs_min_sub_min hx hy⟩

theorem Near.max {x y : Rd A} {r r' e : ℝ} (hx : Near x r e) (hy : Near y r' e) : Near (Fl.fmax x y) (max r r') e := by
  obtain ⟨x, rfl, hx⟩ := hx
  obtain ⟨y, rfl, hy⟩ := hy
  exact ⟨_, Rd.fmax_fin x y, abs_max_sub_max hx hy⟩

/-- Not NaN. -/
def Ordered (x : Rd A) : Prop := x ≠ XR.nan

theorem ordered_round {z : XR} (h : z ≠ .nan) : Ordered (Rd.round A z) := by
  unfold Ordered Rd.round
  cases z with
  | nan => exact absurd rfl h
  | inf a => exact fun h => nomatch h
  | fin x =>
    by_cases h1 : |A.rnd x| ≤ A.max
    · exact fun h2 => nomatch (if_pos h1).symm.trans h2
    · exact fun h2 => nomatch (if_neg h1).symm.trans h2

theorem Ordered.sub_fin {x : Rd A} (h : Ordered x) (y : ℝ) : Ordered (x - Rd.fin y) := by
  refine ordered_round ?_
  cases x with
  | nan => exact absurd rfl h
  | inf a => exact fun h => nomatch h
  | fin x => exact fun h => nomatch h

theorem Ordered.div_fin {x : Rd A} (h : Ordered x) {y : ℝ} (hy : y ≠ 0) : Ordered (x / Rd.fin y) := by
  refine ordered_round ?_
  cases x with
  | nan => exact absurd rfl h
  | inf a => exact fun h => nomatch h
  | fin x =>
    show (if y = 0 then _ else XR.fin (x / y)) ≠ _
    rw [if_neg hy]
    exact fun h => nomatch h

/-- A clamped value is finite, whatever is clamped. -/
theorem clamp_fin {x : Rd A} (h : Ordered x) {s S : ℝ} (hs : s ≤ S) : ∃ t, Fl.fmax (Fl.fmin x (Rd.fin S)) (Rd.fin s) = Rd.fin t ∧ s ≤ t ∧ t ≤ S := by
  cases x with
  | nan => exact absurd rfl h
  | inf a =>
    cases a with
    | true =>
      have h1 : XR.min (.inf true) (.fin S) = .inf true := if_pos rfl
      have h2 : XR.max (.inf true) (.fin s) = .fin s := if_pos rfl
      exact ⟨s, (congrArg (XR.max · (.fin s)) h1).trans h2, le_rfl, hs⟩
    | false =>
      have h1 : XR.min (.inf false) (.fin S) = .fin S := if_neg (fun h => nomatch h)
      exact ⟨S, (congrArg (XR.max · (.fin s)) h1).trans ((XR.fmax_fin S s).trans (by rw [max_eq_left hs]; rfl)), hs, le_rfl⟩
  | fin x =>
    refine ⟨max (min x S) s, ?_, le_max_right _ _, max_le (min_le_right _ _) hs⟩
    exact (congrArg (Fl.fmax · (Rd.fin s)) (Rd.fmin_fin (A := A) x S)).trans (Rd.fmax_fin _ _)

theorem near_DELTA_T : Near (DELTA_T : Rd A) (1 / 1000) (13 / 10 ^ 20) := by
  have := near_lit (A := A) (q := 1 / 1000) (B := 1 / 1000) (by norm_num) (by norm_num) (by norm_num)
  norm_num at this ⊢
  exact this

/-- Limits of a size for which the rounding errors are computed below. -/
structure Moderate (L : Limits) : Prop where
  v1 : 1 ≤ L.velocity
  v2 : L.velocity ≤ 3
  a1 : 2 ≤ L.acceleration
  a2 : L.acceleration ≤ 30
  j1 : 490 * L.acceleration ≤ L.jerk
  j2 : L.jerk ≤ 510 * L.acceleration

theorem Moderate.k1 {L : Limits} (h : Moderate L) : 490 ≤ L.jerk / L.acceleration := by
  rw [le_div_iff₀ (by linarith [h.a1])]
  exact h.j1

theorem Moderate.k2 {L : Limits} (h : Moderate L) : L.jerk / L.acceleration ≤ 510 := by
  rw [div_le_iff₀ (by linarith [h.a1])]
  exact h.j2

/-- The acceleration that the limiter chooses, with bounded errors. -/
structure Target (L : Limits) (v a t : ℝ) : Prop where
  out : ∃ ca S s, t = max (min ca S) s ∧ |ca - a| ≤ L.jerk / 1000 + 1 / 10 ^ 9 ∧
    |S - min (L.jerk / L.acceleration * (L.velocity - v)) L.acceleration| ≤ 1 / 10 ^ 9 ∧
    |s - max (L.jerk / L.acceleration * (-L.velocity - v)) (-L.acceleration)| ≤ 1 / 10 ^ 9

theorem abs_sub_le_add {x y a b : ℝ} (hx : |x| ≤ a) (hy : |y| ≤ b) : |x - y| ≤ a + b := (abs_sub _ _).trans (add_le_add hx hy)
theorem abs_mul_le {x y a b : ℝ} (hx : |x| ≤ a) (hy : |y| ≤ b) : |x * y| ≤ a * b := by
  rw [abs_mul]
  exact mul_le_mul hx hy (abs_nonneg _) ((abs_nonneg _).trans hx)

theorem rd_limit_rate_velocity {L : Limits} {mv ma mj : Rd A} (hv : Near mv L.velocity (1 / 10 ^ 14)) (ha : Near ma L.acceleration (1 / 10 ^ 14))
    (hj : Near mj L.jerk (1 / 10 ^ 11)) (hL : Moderate L) (c : ℝ) {v a : ℝ} (h0 : |v| ≤ L.velocity + 1 / 1000) (h2 : |a| ≤ 100) :
    ∃ v' t, limit_rate_velocity mv ma mj (Rd.fin c) (Rd.fin v) (Rd.fin a) = .ok (Rd.fin v') ∧ |v' - (v + t / 1000)| ≤ 1 / 10 ^ 14 ∧ Target L v a t ∧
      |v'| ≤ 6 := by
  obtain ⟨v1, v2, a1, a2, j1, j2⟩ := id hL
  have h1 : |v| ≤ 4 := by linarith
  have k1 := hL.k1
  have k2 := hL.k2
  set k := L.jerk / L.acceleration with hk
  have kA : |k| ≤ 510 := abs_le.2 ⟨by linarith, k2⟩
  have vA : |L.velocity| ≤ 3 := abs_le.2 ⟨by linarith, v2⟩
  -- the quotient
  have e1 : Near (mj / ma) k (2 / 10 ^ 11) :=
    (hj.div ha (B := 600) (by linarith) kA (by linarith) (by norm_num) (by norm_num)).weaken (by rw [sub_self, abs_zero]; norm_num)
  -- the safe accelerations
  have e2 : Near (mv - Rd.fin v) (L.velocity - v) (2 / 10 ^ 14) :=
    (hv.sub (near_fin v) (B := 8) (by linarith [abs_sub_le_add vA h1]) (by norm_num) (by norm_num)).weaken (by rw [sub_self, abs_zero]; norm_num)
  have e3 : Near (-mv - Rd.fin v) (-L.velocity - v) (2 / 10 ^ 14) :=
    (hv.neg.sub (near_fin v) (B := 8) (by linarith [abs_sub_le_add (show |-L.velocity| ≤ 3 by rwa [abs_neg]) h1]) (by norm_num) (by norm_num)).weaken
      (by rw [sub_self, abs_zero]; norm_num)
  have b2 := abs_sub_le_add vA h1
  have b3 := abs_sub_le_add (show |-L.velocity| ≤ 3 by rwa [abs_neg]) h1
  have e4 : Near (mj / ma * (mv - Rd.fin v)) (k * (L.velocity - v)) (1 / 10 ^ 9) :=
    (e1.mul e2 (m := 511) (m' := 7) (B := 4000) (by linarith) (by linarith) (by linarith [abs_mul_le kA b2]) (by norm_num) (by norm_num)).weaken
      (by rw [sub_self, abs_zero]; norm_num)
  have e5 : Near (mj / ma * (-mv - Rd.fin v)) (k * (-L.velocity - v)) (1 / 10 ^ 9) :=
    (e1.mul e3 (m := 511) (m' := 7) (B := 4000) (by linarith) (by linarith) (by linarith [abs_mul_le kA b3]) (by norm_num) (by norm_num)).weaken
      (by rw [sub_self, abs_zero]; norm_num)
  have ha9 : Near ma L.acceleration (1 / 10 ^ 9) := ha.weaken (by rw [sub_self, abs_zero]; norm_num)
  obtain ⟨S, hS, bS⟩ := e4.min ha9
  obtain ⟨s, hs, bs⟩ := e5.max ha9.neg
  -- the commanded acceleration
  obtain ⟨dt, hdt, bdt⟩ := near_DELTA_T (A := A)
  have dt0 : dt ≠ 0 := by
    rintro rfl
    norm_num at bdt
  have o : Ordered (((Rd.fin c - Rd.fin v) / DELTA_T - Rd.fin a) / (DELTA_T : Rd A)) := by
    rw [hdt]
    refine (Ordered.sub_fin ?_ a).div_fin dt0
    exact (Ordered.sub_fin (x := Rd.fin c) (fun h => nomatch h) v).div_fin dt0
  obtain ⟨J, hJ, bJ⟩ := id hj
  have J0 : 0 ≤ J := by
    have := (abs_le.1 bJ).1
    nlinarith
  obtain ⟨w, hw, w1, w2⟩ := clamp_fin o (show -J ≤ J by linarith)
  have hw' : Fl.fmax (Fl.fmin (((Rd.fin c - Rd.fin v) / DELTA_T - Rd.fin a) / (DELTA_T : Rd A)) mj) (-mj) = Rd.fin w := by
    rw [hJ]
    exact hw
  have wA : |w| ≤ J := abs_le.2 ⟨w1, w2⟩
  have J1 : J ≤ L.jerk + 1 / 10 ^ 11 := by linarith [(abs_le.1 bJ).2]
  have e6 : Near (Rd.fin w * (DELTA_T : Rd A)) (w * (1 / 1000)) (1 / 10 ^ 13) :=
    ((near_fin w).mul near_DELTA_T (m := 16000) (m' := 1 / 1000) (B := 17) (by linarith) (by norm_num)
      (by
        have := abs_mul_le wA (show |(1 / 1000 : ℝ)| ≤ 1 / 1000 by norm_num)
        linarith) (by norm_num) (by norm_num)).weaken (by rw [sub_self, abs_zero]; norm_num)
  have bw : |w * (1 / 1000)| ≤ 16 := by
    have := abs_mul_le wA (show |(1 / 1000 : ℝ)| ≤ 1 / 1000 by norm_num)
    linarith
  have e7 : Near (Rd.fin a + Rd.fin w * (DELTA_T : Rd A)) (a + w * (1 / 1000)) (1 / 10 ^ 12) :=
    ((near_fin a).add e6 (B := 120) (by linarith [abs_add_le a (w * (1 / 1000))]) (by norm_num) (by norm_num)).weaken
      (by rw [sub_self, abs_zero]; norm_num)
  obtain ⟨ca, hca, bca⟩ := e7
  -- the chosen acceleration
  have bca' : |ca - a| ≤ L.jerk / 1000 + 1 / 10 ^ 9 := by
    have h3 : |w * (1 / 1000)| ≤ L.jerk / 1000 + 1 / 10 ^ 12 := by
      have := abs_mul_le wA (show |(1 / 1000 : ℝ)| ≤ 1 / 1000 by norm_num)
      linarith
    have := abs_add_le (ca - (a + w * (1 / 1000))) (w * (1 / 1000))
    rw [show ca - (a + w * (1 / 1000)) + w * (1 / 1000) = ca - a by ring] at this
    linarith
  set t := max (min ca S) s with ht
  have tA : |t| ≤ 31 := by
    have hS1 := abs_le.1 bS
    have hs1 := abs_le.1 bs
    obtain ⟨h3, h4⟩ := abs_le.1 h0
    have h5 : min (k * (L.velocity - v)) L.acceleration ≤ L.acceleration := min_le_right _ _
    have h6 : -L.acceleration ≤ max (k * (-L.velocity - v)) (-L.acceleration) := le_max_right _ _
    have h7 : max (k * (-L.velocity - v)) (-L.acceleration) ≤ 1 := max_le (by nlinarith) (by linarith)
    exact abs_le.2 ⟨le_trans (by linarith) (le_max_right (min ca S) s), max_le ((min_le_right _ _).trans (by linarith)) (by linarith)⟩
  have e8 : Near (Rd.fin t * (DELTA_T : Rd A)) (t * (1 / 1000)) (1 / 10 ^ 15) :=
    ((near_fin t).mul near_DELTA_T (m := 31) (m' := 1 / 1000) (B := 1 / 10) (by linarith) (by norm_num)
      (by
        have := abs_mul_le tA (show |(1 / 1000 : ℝ)| ≤ 1 / 1000 by norm_num)
        linarith) (by norm_num) (by norm_num)).weaken (by rw [sub_self, abs_zero]; norm_num)
  have bt : |t * (1 / 1000)| ≤ 1 := by
    have := abs_mul_le tA (show |(1 / 1000 : ℝ)| ≤ 1 / 1000 by norm_num)
    linarith
  obtain ⟨v', hv', bv'⟩ : Near (Rd.fin v + Rd.fin t * (DELTA_T : Rd A)) (v + t * (1 / 1000)) (1 / 10 ^ 14) :=
    ((near_fin v).add e8 (B := 6) (by linarith [abs_add_le v (t * (1 / 1000))]) (by norm_num) (by norm_num)).weaken
      (by rw [sub_self, abs_zero]; norm_num)
  refine ⟨v', t, ?_, by rwa [div_eq_mul_one_div], ⟨ca, S, s, rfl, bca', bS, bs⟩, ?_⟩
  swap
  · have := abs_sub_abs_le_abs_sub v' (v + t * (1 / 1000))
    linarith [abs_add_le v (t * (1 / 1000))]
  unfold limit_rate_velocity
  show (Except.ok _ : P (Rd A)) = _
  rw [hw', hca, hS, hs, Rd.fmin_fin, Rd.fmax_fin, ← ht, hv']

end Verif
