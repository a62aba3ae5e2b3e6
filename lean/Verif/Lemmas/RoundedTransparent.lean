import Verif.Lemmas.Rounding
/-!
The rate limiters with rounding give almost the same values as without.
-/
namespace Verif
open Spec
variable {A : Rounding}

/-- A quotient by the sample time. -/
theorem Near.div_dt {x : Rd A} {r e : ℝ} (hx : Near x r e) {m : ℝ} (hm : |r| + e ≤ m) (h1 : 1 / 10 ^ 12 ≤ m) (h2 : m ≤ 9 * 10 ^ 5) :
    Near (x / DELTA_T) (1000 * r) (1001 * e + 27 / 10 ^ 14 * m) := by
  obtain ⟨x, rfl, hx⟩ := hx
  obtain ⟨dt, hdt, bdt⟩ := near_DELTA_T (A := A)
  obtain ⟨d1, d2⟩ := abs_le.1 bdt
  have d0 : 0 < dt := by linarith
  have e0 : 0 ≤ e := (abs_nonneg _).trans hx
  rw [hdt]
  have hd : XR.div (.fin x) (.fin dt) = .fin (x / dt) := if_neg d0.ne'
  have hz : |x / dt - 1000 * r| ≤ 1001 * e + 132 / 10 ^ 15 * m := by
    rw [show x / dt - 1000 * r = ((x - r) - 1000 * (r * (dt - 1 / 1000))) / dt by field_simp; ring, abs_div, abs_of_pos d0, div_le_iff₀ d0]
    have hr : |r| ≤ m := by linarith
    have h3 := abs_mul_le hr bdt
    have h4 := abs_sub (x - r) (1000 * (r * (dt - 1 / 1000)))
    rw [abs_mul 1000, abs_of_pos (by norm_num : (0 : ℝ) < 1000)] at h4
    have h5 : 1 / 1001 ≤ dt := by linarith
    have h6 : (1001 * e + 132 / 10 ^ 15 * m) * (1 / 1001) ≤ (1001 * e + 132 / 10 ^ 15 * m) * dt := mul_le_mul_of_nonneg_left h5 (by linarith)
    linarith
  have : Near (Rd.round A (.fin (x / dt))) (1000 * r) (1001 * e + 132 / 10 ^ 15 * m + 13 / 10 ^ 17 * (1002 * m)) := by
    refine near_round hz ?_ (by linarith) (by linarith)
    rw [abs_mul, abs_of_pos (by norm_num : (0 : ℝ) < 1000)]
    linarith [abs_nonneg r]
  rw [← hd] at this
  exact Near.weaken this (by rw [sub_self, abs_zero]; linarith)

theorem abs_clamp_le {x s S B : ℝ} (h1 : -B ≤ s) (h2 : s ≤ B) (h3 : S ≤ B) : |max (min x S) s| ≤ B :=
  abs_le.2 ⟨h1.trans (le_max_right _ _), max_le ((min_le_right _ _).trans h3) h2⟩

/-- The velocity limiter. -/
theorem rd_limit_near {L : Limits} {mv ma mj : Rd A} (hv : Near mv L.velocity (1 / 10 ^ 14)) (ha : Near ma L.acceleration (1 / 10 ^ 14))
    (hj : Near mj L.jerk (1 / 10 ^ 11)) (hL : Moderate L) {x : Rd A} {u e v a : ℝ} (hx : Near x u e) (hu : |u| ≤ 100) (he : e ≤ 1 / 1000)
    (h0 : |v| ≤ L.velocity + 1 / 1000) (h2 : |a| ≤ 100) :
    ∃ v', limit_rate_velocity mv ma mj x (Rd.fin v) (Rd.fin a) = .ok (Rd.fin v') ∧ |v' - (v + limitAcc L u v a / 1000)| ≤ 2 * e + 2 / 10 ^ 12 := by
  obtain ⟨v1, v2, a1, a2, j1, j2⟩ := id hL
  have e0 : 0 ≤ e := by
    obtain ⟨y, -, h⟩ := hx
    exact (abs_nonneg _).trans h
  have h1 : |v| ≤ 4 := by linarith
  have k1 := hL.k1
  have k2 := hL.k2
  unfold limitAcc
  set k := L.jerk / L.acceleration with hk
  have kA : |k| ≤ 510 := abs_le.2 ⟨by linarith, k2⟩
  have vA : |L.velocity| ≤ 3 := abs_le.2 ⟨by linarith, v2⟩
  have e1 : Near (mj / ma) k (2 / 10 ^ 11) :=
    (hj.div ha (B := 600) (by linarith) kA (by linarith) (by norm_num) (by norm_num)).weaken (by rw [sub_self, abs_zero]; norm_num)
  have e2 : Near (mv - Rd.fin v) (L.velocity - v) (2 / 10 ^ 14) :=
    (hv.sub (near_fin v) (B := 8) (by linarith [abs_sub_le_add vA h1]) (by norm_num) (by norm_num)).weaken (by rw [sub_self, abs_zero]; norm_num)
  have e3 : Near (-mv - Rd.fin v) (-L.velocity - v) (2 / 10 ^ 14) :=
    (hv.neg.sub (near_fin v) (B := 8) (by linarith [abs_sub_le_add (show |-L.velocity| ≤ 3 by rwa [abs_neg]) h1]) (by norm_num) (by norm_num)).weaken
      (by rw [sub_self, abs_zero]; norm_num)
  have b2 := abs_sub_le_add vA h1
  have b3 := abs_sub_le_add (show |-L.velocity| ≤ 3 by rwa [abs_neg]) h1
  have e4 : Near (mj / ma * (mv - Rd.fin v)) (k * (L.velocity - v)) (1004 * e + 1 / 10 ^ 9) :=
    (e1.mul e2 (m := 511) (m' := 7) (B := 4000) (by linarith) (by linarith) (by linarith [abs_mul_le kA b2]) (by norm_num) (by norm_num)).weaken
      (by rw [sub_self, abs_zero]; linarith)
  have e5 : Near (mj / ma * (-mv - Rd.fin v)) (k * (-L.velocity - v)) (1004 * e + 1 / 10 ^ 9) :=
    (e1.mul e3 (m := 511) (m' := 7) (B := 4000) (by linarith) (by linarith) (by linarith [abs_mul_le kA b3]) (by norm_num) (by norm_num)).weaken
      (by rw [sub_self, abs_zero]; linarith)
  have ha9 : Near ma L.acceleration (1004 * e + 1 / 10 ^ 9) := ha.weaken (by rw [sub_self, abs_zero]; linarith)
  have eS := e4.min ha9
  have es := e5.max ha9.neg
  -- the commanded jerk
  have c1 : Near (x - Rd.fin v) (u - v) (e + 14 / 10 ^ 15) :=
    (hx.sub (near_fin v) (B := 105) (by linarith [abs_sub_le_add hu h1]) (by norm_num) (by norm_num)).weaken (by rw [sub_self, abs_zero]; linarith)
  have b4 : |u - v| ≤ 104 := by linarith [abs_sub_le_add hu h1]
  have c2 : Near ((x - Rd.fin v) / DELTA_T) (1000 * (u - v)) (1001 * e + 5 / 10 ^ 11) :=
    (c1.div_dt (m := 105) (by linarith) (by norm_num) (by norm_num)).weaken (by rw [sub_self, abs_zero]; linarith)
  have b5 : |1000 * (u - v)| ≤ 104000 := by
    rw [abs_mul, abs_of_pos (by norm_num : (0 : ℝ) < 1000)]
    linarith
  have b6 : |1000 * (u - v) - a| ≤ 104100 := by linarith [abs_sub_le_add b5 h2]
  have c3 : Near ((x - Rd.fin v) / DELTA_T - Rd.fin a) (1000 * (u - v) - a) (1001 * e + 7 / 10 ^ 11) :=
    (c2.sub (near_fin a) (B := 104200) (by linarith) (by norm_num) (by norm_num)).weaken (by rw [sub_self, abs_zero]; linarith)
  have c4 : Near (((x - Rd.fin v) / DELTA_T - Rd.fin a) / DELTA_T) (1000 * (1000 * (u - v) - a)) (1003000 * e + 2 / 10 ^ 7) :=
    (c3.div_dt (m := 104200) (by linarith) (by norm_num) (by norm_num)).weaken (by rw [sub_self, abs_zero]; linarith)
  have hj9 : Near mj L.jerk (1003000 * e + 2 / 10 ^ 7) := hj.weaken (by rw [sub_self, abs_zero]; linarith)
  have c5 := (c4.min hj9).max hj9.neg
  have bJ : |max (min (1000 * (1000 * (u - v) - a)) L.jerk) (-L.jerk)| ≤ 16000 := abs_clamp_le (by linarith) (by linarith) (by linarith)
  obtain ⟨J, hJ⟩ : ∃ J, J = max (min (1000 * (1000 * (u - v) - a)) L.jerk) (-L.jerk) := ⟨_, rfl⟩
  rw [← hJ] at c5 bJ ⊢
  have bJ' : |J * (1 / 1000)| ≤ 16 := by
    have := abs_mul_le bJ (show |(1 / 1000 : ℝ)| ≤ 1 / 1000 by norm_num)
    linarith
  -- the commanded acceleration
  have c6 := (c5.mul near_DELTA_T (m := 18000) (m' := 1 / 1000) (B := 18) (by linarith) (by norm_num) (by linarith) (by norm_num) (by norm_num)).weaken
    (r' := J / 1000) (e' := 1003 * e + 21 / 10 ^ 11) (by rw [show J * (1 / 1000) - J / 1000 = 0 by ring, abs_zero]; linarith)
  have bJ2 : |J / 1000| ≤ 16 := by rwa [div_eq_mul_one_div]
  have c7 := ((near_fin a).add c6 (B := 120) (by linarith [abs_add_le a (J / 1000)]) (by norm_num) (by norm_num)).weaken
    (r' := a + J / 1000) (e' := 1004 * e + 1 / 10 ^ 9) (by rw [sub_self, abs_zero]; linarith)
  have c8 := (c7.min eS).max es
  obtain ⟨S, hS⟩ : ∃ S, S = min (k * (L.velocity - v)) L.acceleration := ⟨_, rfl⟩
  obtain ⟨s, hs⟩ : ∃ s, s = max (k * (-L.velocity - v)) (-L.acceleration) := ⟨_, rfl⟩
  rw [← hS, ← hs] at c8 ⊢
  have bt : |max (min (a + J / 1000) S) s| ≤ 31 := by
    obtain ⟨h3, h4⟩ := abs_le.1 h0
    refine abs_clamp_le ?_ ?_ ?_
    · rw [hs]; exact le_trans (by linarith) (le_max_right _ _)
    · rw [hs]; exact max_le (by nlinarith) (by linarith)
    · rw [hS]; exact (min_le_right _ _).trans (by linarith)
  obtain ⟨t, ht⟩ : ∃ t, t = max (min (a + J / 1000) S) s := ⟨_, rfl⟩
  rw [← ht] at c8 bt ⊢
  have bt' : |t / 1000| ≤ 1 := by
    rw [abs_div, abs_of_pos (by norm_num : (0 : ℝ) < 1000)]
    linarith
  have c9 := (c8.mul near_DELTA_T (m := 40) (m' := 1 / 1000) (B := 2) (by linarith) (by norm_num) (by rw [← div_eq_mul_one_div]; linarith) (by norm_num) (by norm_num)).weaken
    (r' := t / 1000) (e' := 2 * e + 11 / 10 ^ 13) (by rw [show t * (1 / 1000) - t / 1000 = 0 by ring, abs_zero]; linarith)
  obtain ⟨v', hv', bv'⟩ := ((near_fin v).add c9 (B := 6) (by linarith [abs_add_le v (t / 1000)]) (by norm_num) (by norm_num)).weaken
    (r' := v + t / 1000) (e' := 2 * e + 2 / 10 ^ 12) (by rw [sub_self, abs_zero]; linarith)
  refine ⟨v', ?_, bv'⟩
  obtain ⟨y, rfl, -⟩ := hx
  unfold limit_rate_velocity
  show (Except.ok _ : P (Rd A)) = _
  rw [hv']

/-- The position limiter, for positions that are not far from the last one. -/
theorem rd_limit_position_near {L : Limits} {mv ma mj : Rd A} (hv : Near mv L.velocity (1 / 10 ^ 14)) (ha : Near ma L.acceleration (1 / 10 ^ 14))
    (hj : Near mj L.jerk (1 / 10 ^ 11)) (hL : Moderate L) {u x v a : ℝ} (hx : |x| ≤ 10) (hu : |u - x| ≤ 1 / 20)
    (h0 : |v| ≤ L.velocity + 1 / 1000) (h2 : |a| ≤ 100) :
    ∃ x', limit_rate_position mv ma mj (Rd.fin u) (Rd.fin x) (Rd.fin v) (Rd.fin a) = .ok (Rd.fin x') ∧
      |x' - (x + (v + limitAcc L (1000 * (u - x)) v a / 1000) / 1000)| ≤ 1 / 10 ^ 14 := by
  have c1 : Near (Rd.fin u - Rd.fin x : Rd A) (u - x) (7 / 10 ^ 18) :=
    ((near_fin u).sub (near_fin x) (B := 1 / 20) (by linarith) (by norm_num) (by norm_num)).weaken (by rw [sub_self, abs_zero]; norm_num)
  have c2 : Near ((Rd.fin u - Rd.fin x : Rd A) / DELTA_T) (1000 * (u - x)) (4 / 10 ^ 14) :=
    (c1.div_dt (m := 1 / 10) (by linarith) (by norm_num) (by norm_num)).weaken (by rw [sub_self, abs_zero]; norm_num)
  obtain ⟨v', hv', bv'⟩ := rd_limit_near hv ha hj hL c2 (by rw [abs_mul, abs_of_pos (by norm_num : (0 : ℝ) < 1000)]; linarith) (by norm_num) h0 h2
  have bA : |limitAcc L (1000 * (u - x)) v a| ≤ 31 := by
    obtain ⟨h3, h4⟩ := abs_le.1 h0
    obtain ⟨v1, v2, a1, a2, j1, j2⟩ := id hL
    have k1 := hL.k1
    have k2 := hL.k2
    unfold limitAcc
    refine abs_clamp_le (le_trans (by linarith) (le_max_right _ _)) (max_le (by nlinarith) (by linarith)) ((min_le_right _ _).trans (by linarith))
  obtain ⟨t, ht⟩ : ∃ t, t = limitAcc L (1000 * (u - x)) v a := ⟨_, rfl⟩
  rw [← ht] at bv' bA ⊢
  have b1 : |v + t / 1000| ≤ 5 := by
    have := abs_add_le v (t / 1000)
    rw [abs_div, abs_of_pos (by norm_num : (0 : ℝ) < 1000)] at this
    linarith [hL.v2]
  have c3 : Near (Rd.fin v' : Rd A) (v + t / 1000) (3 / 10 ^ 12) := ⟨v', rfl, bv'.trans (by norm_num)⟩
  have c4 := (c3.mul near_DELTA_T (m := 6) (m' := 1 / 1000) (B := 1 / 100) (by linarith) (by norm_num)
    (by
      have := abs_mul_le b1 (show |(1 / 1000 : ℝ)| ≤ 1 / 1000 by norm_num)
      linarith) (by norm_num) (by norm_num)).weaken
    (r' := (v + t / 1000) / 1000) (e' := 4 / 10 ^ 15) (by rw [show (v + t / 1000) * (1 / 1000) - (v + t / 1000) / 1000 = 0 by ring, abs_zero]; norm_num)
  have b2 : |(v + t / 1000) / 1000| ≤ 5 / 1000 := by
    rw [abs_div, abs_of_pos (by norm_num : (0 : ℝ) < 1000)]
    linarith
  obtain ⟨x', hx', bx'⟩ := ((near_fin x).add c4 (B := 11) (by linarith [abs_add_le x ((v + t / 1000) / 1000)]) (by norm_num) (by norm_num)).weaken
    (r' := x + (v + t / 1000) / 1000) (e' := 1 / 10 ^ 14) (by rw [sub_self, abs_zero]; norm_num)
  refine ⟨x', ?_, bx'⟩
  unfold limit_rate_position
  show (limit_rate_velocity mv ma mj ((Rd.fin u - Rd.fin x : Rd A) / DELTA_T) (Rd.fin v) (Rd.fin a) >>= fun v => (.ok (Rd.fin x + v * DELTA_T) : P (Rd A))) = _
  rw [hv']
  show Except.ok _ = _
  rw [hx']

/-- The torque limiter. -/
theorem rd_limit_torque_near {d : Rd A} {r : ℝ} (hd : Near d r (1 / 10 ^ 12)) (hr0 : 0 ≤ r) (hr : r ≤ 1000) {u l : ℝ} (hu : |u| ≤ 1000) (hl : |l| ≤ 1000) :
    ∃ t, (Rd.fin l + Fl.fmax (Fl.fmin ((Rd.fin u - Rd.fin l) / DELTA_T) d) (-d) * DELTA_T : Rd A) = Rd.fin t ∧
      |t - (l + max (min (1000 * (u - l)) r) (-r) / 1000)| ≤ 2 / 10 ^ 12 := by
  have b0 : |u - l| ≤ 2000 := by linarith [abs_sub_le_add hu hl]
  have c1 : Near (Rd.fin u - Rd.fin l : Rd A) (u - l) (26 / 10 ^ 14) :=
    ((near_fin u).sub (near_fin l) (B := 2000) (by linarith) (by norm_num) (by norm_num)).weaken (by rw [sub_self, abs_zero]; norm_num)
  have c2 : Near ((Rd.fin u - Rd.fin l : Rd A) / DELTA_T) (1000 * (u - l)) (9 / 10 ^ 10) :=
    (c1.div_dt (m := 2001) (by linarith) (by norm_num) (by norm_num)).weaken (by rw [sub_self, abs_zero]; norm_num)
  have hd9 : Near d r (9 / 10 ^ 10) := hd.weaken (by rw [sub_self, abs_zero]; norm_num)
  have c3 := (c2.min hd9).max hd9.neg
  have b1 : |max (min (1000 * (u - l)) r) (-r)| ≤ 1000 := abs_clamp_le (by linarith) (by linarith) hr
  obtain ⟨t, ht⟩ : ∃ t, t = max (min (1000 * (u - l)) r) (-r) := ⟨_, rfl⟩
  rw [← ht] at c3 b1 ⊢
  have b2 : |t / 1000| ≤ 1 := by
    rw [abs_div, abs_of_pos (by norm_num : (0 : ℝ) < 1000)]
    linarith
  have c4 := (c3.mul near_DELTA_T (m := 1001) (m' := 1 / 1000) (B := 2) (by linarith) (by norm_num) (by rw [← div_eq_mul_one_div]; linarith) (by norm_num) (by norm_num)).weaken
    (r' := t / 1000) (e' := 1 / 10 ^ 12) (by rw [show t * (1 / 1000) - t / 1000 = 0 by ring, abs_zero]; norm_num)
  obtain ⟨y, hy, by'⟩ := ((near_fin l).add c4 (B := 1002) (by linarith [abs_add_le l (t / 1000)]) (by norm_num) (by norm_num)).weaken
    (r' := l + t / 1000) (e' := 2 / 10 ^ 12) (by rw [sub_self, abs_zero]; norm_num)
  exact ⟨y, hy, by'⟩

/-! ## Signals that keep a distance to the limits -/

/-- A step that respects limits still respects larger ones if the values change a little. -/
theorem allowed_robust {L M : Limits} (hM : Moderate M) (hr : L.jerk / L.acceleration ≤ M.jerk / M.acceleration)
    (m1 : L.velocity + 1 / 1000 ≤ M.velocity) (m2 : L.acceleration + 6 / 1000 ≤ M.acceleration) (m3 : L.jerk + 37 / 10 ≤ M.jerk)
    {p q r u v a : ℝ} (h : Allowed L p q r) (hq : |q| ≤ L.velocity) (hu : |u - p| ≤ 1 / 10 ^ 6) (hv : |v - q| ≤ 1 / 10 ^ 6) (ha : |a - r| ≤ 1 / 1000) :
    Allowed M u v a := by
  obtain ⟨h1, h2, h3, h4⟩ := h
  have e : ∀ z : ℝ, z / 0.001 = 1000 * z := fun z => by norm_num; ring
  rw [e] at h1 h2 h3 h4
  rw [e] at h2
  obtain ⟨u1, u2⟩ := abs_le.1 hu
  obtain ⟨v1, v2⟩ := abs_le.1 hv
  obtain ⟨a1, a2⟩ := abs_le.1 ha
  obtain ⟨q1, q2⟩ := abs_le.1 hq
  obtain ⟨h11, h12⟩ := abs_le.1 h1
  obtain ⟨h21, h22⟩ := abs_le.1 h2
  have k1 := hM.k1
  have g1 := mul_le_mul_of_nonneg_right hr (by linarith : 0 ≤ L.velocity - q)
  have g2 := mul_le_mul_of_nonneg_right hr (by linarith : 0 ≤ L.velocity + q)
  have g3 := mul_le_mul_of_nonneg_left (show L.velocity - q + 1 / 10 ^ 4 ≤ M.velocity - v by linarith) (by linarith : 0 ≤ M.jerk / M.acceleration)
  have g4 := mul_le_mul_of_nonneg_left (show L.velocity + q + 1 / 10 ^ 4 ≤ M.velocity + v by linarith) (by linarith : 0 ≤ M.jerk / M.acceleration)
  constructor
  · rw [e]; exact abs_le.2 ⟨by linarith, by linarith⟩
  · rw [e, e]; exact abs_le.2 ⟨by linarith, by linarith⟩
  · rw [e]; linarith
  · rw [e]; linarith

end Verif
