import Verif.Lemmas.RoundedCartesian
import Verif.Lemmas.RoundedFollow
import Verif.Lemmas.NearCartesian
/-!
The Cartesian velocity limiter with rounding changes a command that keeps a distance to the limits by almost nothing.
-/
set_option linter.unusedSectionVars false
namespace Verif
open Spec Fl
variable {A : Rounding}

/-- A direction times a length. -/
theorem near_back {U : Rd A} {y : Fin 3 → ℝ} {n B : ℝ} {i : Fin 3} (hn : |n - len y| ≤ 1 / 10 ^ 15 * len y + 1 / 10 ^ 34) (hl : 1 / 10 ^ 16 ≤ len y)
    (hu : Near U (y i / len y) (3 / 10 ^ 15)) (hB : len y ≤ B) (b1 : 1 ≤ B) (b2 : B ≤ 14000) : Near (U * Rd.fin n) (y i) (5 / 10 ^ 15 * B) := by
  have l0 : 0 < len y := lt_of_lt_of_le (by norm_num) hl
  have he : |y i / len y| ≤ 1 := by
    rw [abs_div, abs_of_pos l0]
    exact (div_le_one l0).2 (len_comp y i)
  obtain ⟨n1, n2⟩ := abs_le.1 hn
  have hnB : |n| ≤ 1001 / 1000 * B := by
    rw [abs_le]
    constructor <;> norm_num at * <;> linarith
  have hp := abs_mul_le he hnB
  refine (hu.mul (near_fin n) (m := 2) (m' := 1001 / 1000 * B) (B := 101 / 100 * B) (by linarith) hnB (by norm_num at *; linarith) (by linarith) (by norm_num; linarith)).weaken ?_
  have e : y i / len y * n - y i = y i / len y * (n - len y) := by field_simp
  rw [e]
  have h2 := abs_mul_le he hn
  norm_num at *
  linarith

/-- A velocity command keeps a distance to the limits, see `CartesianAllowed`. -/
structure Clear (L : Limits) (u v a : Fin 3 → ℝ) : Prop where
  slow : len v ≤ L.velocity - 5 / 10 ^ 4
  jerk : len (fun i => ((u i - v i) / 0.001 - a i) / 0.001) ≤ L.jerk - 1
  acceleration : len (fun i => (u i - v i) / 0.001) ≤ L.acceleration - 1 / 1000
  margin : len (fun i => v i + L.acceleration / L.jerk * ((u i - v i) / 0.001)) ≤ L.velocity - 5 / 10 ^ 4
  last : ∀ i, |a i| ≤ 40

variable {L D : Limits} {E c : ℝ} {mv ma mj : Rd A} (hv : Near mv L.velocity (1 / 10 ^ 14)) (ha : Near ma L.acceleration (1 / 10 ^ 14)) (hj : Near mj L.jerk (1 / 10 ^ 11)) (h : Roomy L D E c)

include h in
theorem Roomy.j0 : 0 < L.jerk := by
  have h1 := h.k1
  have h2 := h.a1
  rw [le_div_iff₀ (by linarith)] at h1
  linarith

include h in
/-- The distance to the velocity limit is long enough: `r` is the part of the last velocity in the direction of the acceleration. -/
theorem clear_distance {v y : Fin 3 → ℝ} (hl : len v ≤ L.velocity - 5 / 10 ^ 4) (hm : len (fun i => v i + L.acceleration / L.jerk * y i) ≤ L.velocity - 4 / 10 ^ 4) (hy : len y ≤ 27)
    (y0 : 0 < len y) : let r := dot3 (fun i => y i / len y) v
      4 / 10 ^ 4 ≤ r ^ 2 - len v ^ 2 + L.velocity ^ 2 ∧ len y + 1 / 10 ^ 5 ≤ L.jerk / L.acceleration * (-r + √(r ^ 2 - len v ^ 2 + L.velocity ^ 2)) := by
  intro r
  have j0 := h.j0
  have a1 := h.a1
  have a0 : 0 < L.acceleration := by linarith
  have v1 := h.v1
  have hV : L.velocity ≤ 3 := by linarith [h.v2, h.v3]
  have l0 := len_nonneg v
  have k1 := h.k1
  have k0 : 0 < L.jerk / L.acceleration := by linarith
  set κ := L.acceleration / L.jerk with hκ
  have κk : κ * (L.jerk / L.acceleration) = 1 := by rw [hκ]; field_simp
  have κ0 : 0 < κ := div_pos a0 j0
  have κ1 : κ ≤ 1 / 490 := by
    by_contra hc
    have := mul_le_mul (not_le.1 hc).le k1 (by norm_num) κ0.le
    have := mul_lt_mul_of_pos_right (not_le.1 hc) k0
    rw [κk] at this
    linarith
  have hunit : len (fun i => y i / len y) = 1 := by
    have : (fun i => y i / len y) = fun i => (len y)⁻¹ * y i := by funext i; ring
    rw [this, len_smul, abs_of_pos (by positivity)]
    field_simp
  have hr : |r| ≤ len v := by
    have := dot3_le (fun i => y i / len y) v
    rwa [hunit, one_mul] at this
  have hr3 : |r| ≤ 3 := by linarith
  have hdot : dot3 v (fun i => κ * y i) = κ * (len y * r) := by
    show _ = κ * (len y * dot3 (fun i => y i / len y) v)
    unfold dot3
    field_simp
  have hsq : len (fun i => v i + κ * y i) ^ 2 ≤ (L.velocity - 4 / 10 ^ 4) ^ 2 := pow_le_pow_left₀ (len_nonneg _) hm 2
  rw [len_add_sq, len_smul, abs_of_pos κ0, hdot] at hsq
  have q1 : len v ^ 2 ≤ (L.velocity - 5 / 10 ^ 4) ^ 2 := pow_le_pow_left₀ l0 hl 2
  have q2 : 0 ≤ r ^ 2 := sq_nonneg r
  have q3 : (L.velocity - 5 / 10 ^ 4) ^ 2 ≤ L.velocity ^ 2 - 5 / 10 ^ 4 * L.velocity := by nlinarith
  have q4 : (L.velocity - 4 / 10 ^ 4) ^ 2 ≤ L.velocity ^ 2 - 4 / 10 ^ 4 * L.velocity := by nlinarith
  refine ⟨by norm_num at *; linarith, ?_⟩
  obtain ⟨r1, r2⟩ := abs_le.1 hr3
  have hκy : 0 ≤ κ * len y := by positivity
  have hκy' : κ * len y ≤ 1 := (mul_le_mul κ1 hy y0.le (by norm_num)).trans (by norm_num)
  have key : κ * len y + r + 1 / 10 ^ 6 ≤ √(r ^ 2 - len v ^ 2 + L.velocity ^ 2) := by
    refine Real.le_sqrt_of_sq_le ?_
    have e1 : (κ * len y + r + 1 / 10 ^ 6) ^ 2 = (κ * len y) ^ 2 + 2 * (κ * (len y * r)) + r ^ 2 + 2 / 10 ^ 6 * (κ * len y + r) + (1 / 10 ^ 6) ^ 2 := by ring
    rw [e1]
    norm_num at *
    linarith
  have := mul_le_mul_of_nonneg_left (by linarith : κ * len y + 1 / 10 ^ 6 ≤ -r + √(r ^ 2 - len v ^ 2 + L.velocity ^ 2)) k0.le
  rw [mul_add, show L.jerk / L.acceleration * (κ * len y) = κ * (L.jerk / L.acceleration) * len y by ring, κk, one_mul] at this
  linarith

include hv ha hj h in
/-- The acceleration is not shortened. -/
theorem rd_full_length {n : ℝ} (hn : n ≤ L.acceleration - 1 / 10 ^ 6) {d : Rd A} {r : ℝ} {v : Fin 3 → ℝ} (hd : Near d r (4 / 10 ^ 14)) (hr : |r| ≤ 3) (hl : len v ≤ E)
    (hρ0 : 4 / 10 ^ 4 ≤ r ^ 2 - len v ^ 2 + L.velocity ^ 2) (hs : n + 5 / 10 ^ 6 ≤ L.jerk / L.acceleration * (-r + √(r ^ 2 - len v ^ 2 + L.velocity ^ 2))) :
    fmin (Rd.fin n) (fmin ((mj / ma) * (-d + fsqrt (powf2 d - Vec3.norm_squared (Arr.rd v : Arr (Rd A) 3) + powf2 mv))) ma) = (Rd.fin n : Rd A) := by
  obtain ⟨ρ, hρ, eρ⟩ := near_radicand hv h hd hr hl
  rw [hρ]
  obtain ⟨α, hα, eα⟩ := id ha
  obtain ⟨eα1, eα2⟩ := abs_le.1 eα
  have a1 := h.a1
  have a2 := h.a2
  have k1 := h.k1
  have k2 := h.k2
  have hw0 := len_nonneg v
  obtain ⟨eρ1, eρ2⟩ := abs_le.1 eρ
  have h0 : 0 ≤ ρ := by norm_num at *; linarith
  have q0 := Real.sqrt_nonneg ρ
  have hr2 : r ^ 2 ≤ 9 := by rw [← sq_abs]; exact (pow_le_pow_left₀ (abs_nonneg r) hr 2).trans (by norm_num)
  have hV2 : L.velocity ^ 2 ≤ 9 := (pow_le_pow_left₀ (by linarith [h.v1]) (by linarith [h.v2, h.v3]) 2).trans (by norm_num : (3 : ℝ) ^ 2 ≤ 9)
  have q1 : √ρ ≤ 5 := by
    rw [Real.sqrt_le_left (by norm_num)]
    have := sq_nonneg (len v)
    linarith
  -- the root
  have root : √(r ^ 2 - len v ^ 2 + L.velocity ^ 2) ≤ √ρ + 1 / 10 ^ 10 := by
    have s1 : (1 / 100 : ℝ) ≤ √ρ := Real.le_sqrt_of_sq_le (by norm_num at *; linarith)
    rw [Real.sqrt_le_left (by linarith)]
    have : (√ρ + 1 / 10 ^ 10) ^ 2 = ρ + 2 / 10 ^ 10 * √ρ + (1 / 10 ^ 10) ^ 2 := by rw [add_sq, Real.sq_sqrt h0]; ring
    rw [this]
    norm_num at *
    linarith
  have p1 : Near (fsqrt (Rd.fin ρ : Rd A)) √ρ (1 / 10 ^ 15) := by
    have e1 : (fsqrt (Rd.fin ρ : Rd A)) = Rd.round A (.fin √ρ) := congrArg (Rd.round A) (if_neg (not_lt.2 h0))
    rw [e1]
    obtain ⟨x, h1, h2⟩ := near_round (A := A) (z := √ρ) (r := √ρ) (e := 0) (B := 6) (by simp) (by rw [abs_of_nonneg q0]; linarith) (by norm_num) (by norm_num)
    exact ⟨x, h1, h2.trans (by norm_num)⟩
  have hb : |-r + √ρ| ≤ 8 := by
    obtain ⟨r1, r2⟩ := abs_le.1 hr
    rw [abs_le]; constructor <;> linarith
  obtain ⟨t, ht, et⟩ := (hd.neg.add p1 (B := 10) (by linarith) (by norm_num) (by norm_num)).weaken (r' := -r + √ρ) (e' := 1 / 10 ^ 13)
    (by rw [sub_self, abs_zero]; norm_num)
  rw [ht]
  obtain ⟨et1, et2⟩ := abs_le.1 et
  obtain ⟨hb1, hb2⟩ := abs_le.1 hb
  have tb : |t| ≤ 9 := by rw [abs_le]; constructor <;> linarith
  have hk : |L.jerk / L.acceleration| ≤ 510 := by rw [abs_le]; constructor <;> linarith
  have pk : Near (mj / ma) (L.jerk / L.acceleration) (2 / 10 ^ 11) :=
    (hj.div ha (m := 510) (B := 600) (by linarith) hk (by linarith) (by norm_num) (by norm_num)).weaken (by rw [sub_self, abs_zero]; norm_num)
  have bkt : |L.jerk / L.acceleration * t| ≤ 4600 := (abs_mul_le hk tb).trans (by norm_num)
  obtain ⟨y, hy, ey⟩ := (pk.mul (near_fin t) (m := 511) (m' := 9) (B := 5000) (by linarith) tb (by linarith) (by norm_num) (by norm_num)).weaken
    (r' := L.jerk / L.acceleration * t) (e' := 2 / 10 ^ 10) (by rw [sub_self, abs_zero]; norm_num)
  rw [hy, hα, Rd.fmin_fin, Rd.fmin_fin]
  obtain ⟨ey1, ey2⟩ := abs_le.1 ey
  generalize L.jerk / L.acceleration = k at *
  have up : k * (-r + √(r ^ 2 - len v ^ 2 + L.velocity ^ 2)) ≤ k * (t + 2 / 10 ^ 10) := mul_le_mul_of_nonneg_left (by linarith) (by linarith)
  have : n ≤ min y α := le_min (by linarith) (by linarith)
  rw [min_eq_left this]

include hv ha hj h in
/-- The last part of the limiter. -/
theorem rd_tail_near {y v : Fin 3 → ℝ} (hl : len v ≤ L.velocity - 5 / 10 ^ 4) (hy : len y ≤ L.acceleration - 1 / 10 ^ 4)
    (hm : len (fun i => v i + L.acceleration / L.jerk * y i) ≤ L.velocity - 4 / 10 ^ 4) :
    ∃ r, tailStep mv ma mj (Arr.rd y) (Arr.rd v) = Arr.rd r ∧ ∀ i, |r i - (v i + y i / 1000)| ≤ 8 / 10 ^ 16 := by
  obtain ⟨ε, hε, e0, e1⟩ := eps_rd' (A := A)
  have l0 := len_nonneg y
  have a2 := h.a2
  have stay : flt NORM_EPS (Vec3.norm (Arr.rd y : Arr (Rd A) 3)) = false → len y ≤ 4 / 10 ^ 16 →
      ∃ r, tailStep mv ma mj (Arr.rd y) (Arr.rd v) = Arr.rd r ∧ ∀ i, |r i - (v i + y i / 1000)| ≤ 8 / 10 ^ 16 := by
    intro h1 h2
    refine ⟨v, ?_, fun i => ?_⟩
    · unfold tailStep
      rw [h1]
      rfl
    · rw [show v i - (v i + y i / 1000) = -(y i / 1000) by ring, abs_neg, abs_div, abs_of_pos (by norm_num : (0 : ℝ) < 1000)]
      have := len_comp y i
      linarith
  rcases norm_rd' (A := A) (y := y) (fun i => (len_comp y i).trans (by norm_num; linarith)) with ⟨hn, hn'⟩ | ⟨n, hn, en⟩
  · refine stay ?_ (hn'.trans (by norm_num))
    rw [hn, hε]
    exact @decide_eq_false _ (Classical.propDecidable _) id
  · obtain ⟨n1, n2⟩ := abs_le.1 en
    by_cases ht : ε < n
    · have hu := normalize_rd hn en (e0.trans ht.le)
      have hl0 : 0 < len y := lt_of_lt_of_le (by norm_num) (hu 0).1
      have he : ∀ i, |y i / len y| ≤ 1 := fun i => by
        rw [abs_div, abs_of_pos hl0]
        exact (div_le_one hl0).2 (len_comp y i)
      have hlE : len v ≤ E := by linarith [h.v2]
      have hvb : ∀ i, |v i| ≤ 3 := fun i => (abs_comp hlE i).trans (by linarith [h.v3])
      have hd := near_dot (fun i => (hu i).2) he hvb
      have hunit : len (fun i => y i / len y) = 1 := by
        have : (fun i => y i / len y) = fun i => (len y)⁻¹ * y i := by funext i; ring
        rw [this, len_smul, abs_of_pos (by positivity)]
        field_simp
      have hr : |dot3 (fun i => y i / len y) v| ≤ 3 := by
        refine (dot3_le _ _).trans ?_
        rw [hunit]
        linarith [h.v3]
      obtain ⟨g1, g2⟩ := clear_distance h hl hm (by linarith) hl0
      have hs := rd_full_length hv ha hj h (n := n) (by norm_num at *; linarith) hd hr hlE g1 (by norm_num at *; linarith)
      have hr : ∀ i, Near (Rd.fin (v i) + Vec3.normalize (Arr.rd y : Arr (Rd A) 3) i * Rd.fin n * DELTA_T) (v i + y i / 1000) (8 / 10 ^ 16) := by
        intro i
        have yb : |y i| ≤ 26 := by linarith [len_comp y i]
        have p1 := near_back en (hu i).1 (hu i).2 (B := 26) (by linarith) (by norm_num) (by norm_num)
        have yb2 : |y i * (1 / 1000)| ≤ 26 / 1000 := by
          rw [abs_mul, abs_of_pos (by norm_num : (0 : ℝ) < 1 / 1000)]
          linarith
        have p2 := (p1.mul near_DELTA_T (m := 27) (m' := 1 / 1000) (B := 3 / 100) (by linarith) (by norm_num) (by linarith) (by norm_num) (by norm_num)).weaken
          (r' := y i / 1000) (e' := 2 / 10 ^ 16) (by rw [show y i * (1 / 1000) - y i / 1000 = 0 by ring, abs_zero]; norm_num)
        refine ((near_fin (v i)).add p2 (B := 4) ?_ (by norm_num) (by norm_num)).weaken (by rw [sub_self, abs_zero]; norm_num)
        have := abs_add_le (v i) (y i / 1000)
        rw [show y i * (1 / 1000) = y i / 1000 by ring] at yb2
        linarith [hvb i]
      choose r hr1 hr2 using hr
      refine ⟨r, ?_, hr2⟩
      unfold tailStep
      rw [hn, hε, Rd.flt_fin, decide_eq_true ht, if_pos rfl, hs]
      funext i
      exact hr1 i
    · refine stay ?_ (by norm_num at *; linarith)
      rw [hn, hε, Rd.flt_fin, decide_eq_false ht]

include hj h in
/-- The first part. -/
theorem rd_head_near {a y : Fin 3 → ℝ} (hb : ∀ i, |a i| ≤ 40) (hy : len y ≤ L.jerk - 9 / 10) :
    ∃ z, (if flt NORM_EPS (Vec3.norm (Arr.rd y : Arr (Rd A) 3)) then (Arr.rd a : Arr (Rd A) 3).add (((Vec3.normalize (Arr.rd y)).rmul
      (fmax (fmin (Vec3.norm (Arr.rd y)) mj) (-mj))).rmul DELTA_T) else Arr.rd a) = Arr.rd z ∧ ∀ i, |z i - (a i + y i / 1000)| ≤ 1 / 10 ^ 13 := by
  obtain ⟨ε, hε, e0, e1⟩ := eps_rd' (A := A)
  obtain ⟨J, hJ, eJ⟩ := id hj
  obtain ⟨eJ1, eJ2⟩ := abs_le.1 eJ
  have l0 := len_nonneg y
  have j1 := h.j
  have stay : flt NORM_EPS (Vec3.norm (Arr.rd y : Arr (Rd A) 3)) = false → len y ≤ 4 / 10 ^ 16 →
      ∃ z, (if flt NORM_EPS (Vec3.norm (Arr.rd y : Arr (Rd A) 3)) then (Arr.rd a : Arr (Rd A) 3).add (((Vec3.normalize (Arr.rd y)).rmul
        (fmax (fmin (Vec3.norm (Arr.rd y)) mj) (-mj))).rmul DELTA_T) else Arr.rd a) = Arr.rd z ∧ ∀ i, |z i - (a i + y i / 1000)| ≤ 1 / 10 ^ 13 := by
    intro h1 h2
    refine ⟨a, ?_, fun i => ?_⟩
    · rw [h1]
      rfl
    · rw [show a i - (a i + y i / 1000) = -(y i / 1000) by ring, abs_neg, abs_div, abs_of_pos (by norm_num : (0 : ℝ) < 1000)]
      have := len_comp y i
      linarith
  rcases norm_rd' (A := A) (y := y) (fun i => (len_comp y i).trans (by norm_num; linarith)) with ⟨hn, hn'⟩ | ⟨n, hn, en⟩
  · refine stay ?_ (hn'.trans (by norm_num))
    rw [hn, hε]
    exact @decide_eq_false _ (Classical.propDecidable _) id
  · obtain ⟨n1, n2⟩ := abs_le.1 en
    by_cases ht : ε < n
    · have hu := normalize_rd hn en (e0.trans ht.le)
      have hs : fmax (fmin (Rd.fin n) mj) (-mj) = (Rd.fin n : Rd A) := by
        have hneg : (-mj : Rd A) = Rd.fin (-J) := by rw [hJ]; rfl
        rw [hneg, hJ, Rd.fmin_fin, Rd.fmax_fin, min_eq_left (by norm_num at *; linarith), max_eq_left (by norm_num at *; linarith)]
      have hr : ∀ i, Near (Rd.fin (a i) + Vec3.normalize (Arr.rd y : Arr (Rd A) 3) i * Rd.fin n * DELTA_T) (a i + y i / 1000) (1 / 10 ^ 13) := by
        intro i
        have yb : |y i| ≤ 13000 := by linarith [len_comp y i]
        have p1 := near_back en (hu i).1 (hu i).2 (B := 13000) (by linarith) (by norm_num) (by norm_num)
        have yb2 : |y i * (1 / 1000)| ≤ 13 := by
          rw [abs_mul, abs_of_pos (by norm_num : (0 : ℝ) < 1 / 1000)]
          linarith
        have p2 := (p1.mul near_DELTA_T (m := 13001) (m' := 1 / 1000) (B := 14) (by linarith) (by norm_num) (by linarith) (by norm_num) (by norm_num)).weaken
          (r' := y i / 1000) (e' := 8 / 10 ^ 14) (by rw [show y i * (1 / 1000) - y i / 1000 = 0 by ring, abs_zero]; norm_num)
        refine ((near_fin (a i)).add p2 (B := 60) ?_ (by norm_num) (by norm_num)).weaken (by rw [sub_self, abs_zero]; norm_num)
        have := abs_add_le (a i) (y i / 1000)
        rw [show y i * (1 / 1000) = y i / 1000 by ring] at yb2
        linarith [hb i]
      choose z hz1 hz2 using hr
      refine ⟨z, ?_, hz2⟩
      rw [hn, hε, Rd.flt_fin, decide_eq_true ht, if_pos rfl, hs]
      funext i
      exact hz1 i
    · refine stay ?_ (by norm_num at *; linarith)
      rw [hn, hε, Rd.flt_fin, decide_eq_false ht]

include hv ha hj h in
/-- The whole limiter. -/
theorem rd_single_near {u v a : Fin 3 → ℝ} (hc : Clear L u v a) :
    ∃ r, limit_rate_single_cartesian_velocity mv ma mj (Arr.rd u) (Arr.rd v) (Arr.rd a) = Arr.rd r ∧ ∀ i, |r i - u i| ≤ 1 / 10 ^ 15 := by
  have a2 := h.a2
  have j1 := h.j
  have hA := fun i => (len_comp _ i).trans hc.acceleration
  have hJ := fun i => (len_comp _ i).trans hc.jerk
  simp only [div_milli] at hA hJ
  -- the jerk
  have hjerk : ∀ i, Near (((((Arr.rd u : Arr (Rd A) 3).sub (Arr.rd v)).divs DELTA_T).sub (Arr.rd a)).divs DELTA_T i) (1000 * (1000 * (u i - v i) - a i)) (3 / 10 ^ 11) := by
    intro i
    have b1 : |u i - v i| ≤ 27 / 1000 := by
      have := hA i
      rw [abs_mul, abs_of_pos (by norm_num : (0 : ℝ) < 1000)] at this
      linarith
    have b2 : |1000 * (u i - v i) - a i| ≤ 13 := by
      have := hJ i
      rw [abs_mul, abs_of_pos (by norm_num : (0 : ℝ) < 1000)] at this
      linarith
    have p1 := (near_fin (A := A) (u i)).sub (near_fin (v i)) (B := 3 / 100) (by linarith) (by norm_num) (by norm_num)
    have p2 := (p1.div_dt (m := 4 / 100) (by linarith) (by norm_num) (by norm_num)).weaken (r' := 1000 * (u i - v i)) (e' := 2 / 10 ^ 14) (by rw [sub_self, abs_zero]; norm_num)
    have p3 := (p2.sub (near_fin (a i)) (B := 14) (by linarith) (by norm_num) (by norm_num))
    exact (p3.div_dt (m := 15) (by linarith) (by norm_num) (by norm_num)).weaken (by rw [sub_self, abs_zero]; norm_num)
  choose y hy1 hy2 using hjerk
  have ex : ((((Arr.rd u : Arr (Rd A) 3).sub (Arr.rd v)).divs DELTA_T).sub (Arr.rd a)).divs DELTA_T = Arr.rd y := funext hy1
  have hyl : len y ≤ L.jerk - 9 / 10 := by
    have h1 := hc.jerk
    simp only [div_milli] at h1
    have := len_near hy2
    linarith
  obtain ⟨z, hz1, hz2⟩ := rd_head_near hj h hc.last hyl
  have hz3 : ∀ i, |z i - 1000 * (u i - v i)| ≤ 2 / 10 ^ 13 := by
    intro i
    have e : z i - 1000 * (u i - v i) = (z i - (a i + y i / 1000)) + (y i - 1000 * (1000 * (u i - v i) - a i)) / 1000 := by ring
    rw [e]
    refine (abs_add_le _ _).trans ?_
    rw [abs_div, abs_of_pos (by norm_num : (0 : ℝ) < 1000)]
    linarith [hz2 i, hy2 i]
  have hzl := len_near hz3
  have h1 := hc.acceleration
  have h2 := hc.margin
  simp only [div_milli] at h1 h2
  have hκ : L.acceleration / L.jerk ≤ 1 := by
    rw [div_le_one h.j0]
    have := h.k1
    rw [le_div_iff₀ (by linarith [h.a1])] at this
    linarith [h.a1]
  have hκ0 : 0 ≤ L.acceleration / L.jerk := div_nonneg (by linarith [h.a1]) h.j0.le
  have hm := len_near (x := fun i => v i + L.acceleration / L.jerk * z i) (y := fun i => v i + L.acceleration / L.jerk * (1000 * (u i - v i))) (ε := 2 / 10 ^ 13) fun i => by
    have e : v i + L.acceleration / L.jerk * z i - (v i + L.acceleration / L.jerk * (1000 * (u i - v i))) = L.acceleration / L.jerk * (z i - 1000 * (u i - v i)) := by ring
    rw [e, abs_mul, abs_of_nonneg hκ0]
    calc _ ≤ 1 * (2 / 10 ^ 13) := mul_le_mul hκ (hz3 i) (abs_nonneg _) (by norm_num)
      _ = _ := one_mul _
  obtain ⟨r, hr1, hr2⟩ := rd_tail_near hv ha hj h (y := z) hc.slow (by norm_num at *; linarith) (by norm_num at *; linarith)
  refine ⟨r, ?_, fun i => ?_⟩
  · rw [← hr1, ← hz1, ← ex]
    rfl
  · have e : r i - u i = (r i - (v i + z i / 1000)) + (z i - 1000 * (u i - v i)) / 1000 := by ring
    rw [e]
    refine (abs_add_le _ _).trans ?_
    rw [abs_div, abs_of_pos (by norm_num : (0 : ℝ) < 1000)]
    linarith [hz3 i, hr2 i]


/-! ## Signals -/

/-- The limits `M` are smaller than `L`, by enough for the errors below. -/
structure Inner (M L : Limits) : Prop where
  ok : CartesianOk M
  velocity : M.velocity + 9 / 10 ^ 4 ≤ L.velocity
  most : L.velocity ≤ 26 / 10
  acceleration : M.acceleration + 1 / 100 ≤ L.acceleration
  jerk : M.jerk + 6 ≤ L.jerk
  ratio : |L.acceleration / L.jerk - M.acceleration / M.jerk| * M.acceleration ≤ 1 / 10 ^ 5
  small : L.acceleration / L.jerk ≤ 3 / 1000
  below : M.acceleration ≤ 25
  positive : 0 ≤ L.acceleration / L.jerk

/-- Small errors do not matter. -/
theorem clear_of_near {M L : Limits} (h : Inner M L) {p q s u v a : Fin 3 → ℝ} (hp : CartesianAllowed M p q s) (hq : len q ≤ M.velocity) (hs : ∀ i, |s i| ≤ 25)
    (hu : ∀ i, |u i - p i| ≤ 2 / 10 ^ 7) (hv : ∀ i, |v i - q i| ≤ 2 / 10 ^ 7) (ha : ∀ i, |a i - s i| ≤ 5 / 10 ^ 4) : Clear L u v a := by
  obtain ⟨h1, h2, h3⟩ := hp
  simp only [div_milli] at h1 h2 h3
  have d1 : ∀ i, |1000 * (u i - v i) - 1000 * (p i - q i)| ≤ 4 / 10 ^ 4 := by
    intro i
    rw [show 1000 * (u i - v i) - 1000 * (p i - q i) = 1000 * ((u i - p i) - (v i - q i)) by ring, abs_mul, abs_of_pos (by norm_num : (0 : ℝ) < 1000)]
    linarith [abs_sub_le_add (hu i) (hv i)]
  refine ⟨?_, ?_, ?_, ?_, fun i => ?_⟩
  · have := len_near hv
    linarith [h.velocity]
  · simp only [div_milli]
    have := len_near (x := fun i => 1000 * (1000 * (u i - v i) - a i)) (y := fun i => 1000 * (1000 * (p i - q i) - s i)) (ε := 9 / 10) fun i => by
      rw [show 1000 * (1000 * (u i - v i) - a i) - 1000 * (1000 * (p i - q i) - s i) = 1000 * ((1000 * (u i - v i) - 1000 * (p i - q i)) - (a i - s i)) by ring, abs_mul,
        abs_of_pos (by norm_num : (0 : ℝ) < 1000)]
      linarith [abs_sub_le_add (d1 i) (ha i)]
    linarith [h.jerk]
  · simp only [div_milli]
    have := len_near d1
    linarith [h.acceleration]
  · simp only [div_milli]
    have e1 : len (fun i => q i + L.acceleration / L.jerk * (1000 * (p i - q i))) ≤ M.velocity + 1 / 10 ^ 5 := by
      refine len_shift h3 ?_
      have e : (fun i => q i + L.acceleration / L.jerk * (1000 * (p i - q i)) - (q i + M.acceleration / M.jerk * (1000 * (p i - q i)))) =
          fun i => (L.acceleration / L.jerk - M.acceleration / M.jerk) * (1000 * (p i - q i)) := by funext i; ring
      rw [e, len_smul]
      exact (mul_le_mul_of_nonneg_left h2 (abs_nonneg _)).trans h.ratio
    have := len_near (x := fun i => v i + L.acceleration / L.jerk * (1000 * (u i - v i))) (y := fun i => q i + L.acceleration / L.jerk * (1000 * (p i - q i))) (ε := 2 / 10 ^ 6) fun i => by
      rw [show v i + L.acceleration / L.jerk * (1000 * (u i - v i)) - (q i + L.acceleration / L.jerk * (1000 * (p i - q i))) =
        (v i - q i) + L.acceleration / L.jerk * (1000 * (u i - v i) - 1000 * (p i - q i)) by ring]
      refine (abs_add_le _ _).trans ?_
      rw [abs_mul, abs_of_nonneg h.positive]
      have := mul_le_mul h.small (d1 i) (abs_nonneg _) (by norm_num)
      linarith [hv i]
    linarith [h.velocity]
  · have := abs_le_of_close (ha i) (hs i)
    linarith

/-- A Cartesian velocity after a low pass and a limiter with small errors. -/
theorem cartesian_follows {M L : Limits} (h : Inner M L) {g e δ : ℝ} (g0 : 0 < g) (g1 : g ≤ 1) (e0 : 0 ≤ e) (d0 : 0 ≤ δ) (small : (e + δ) / g ≤ 1 / 10 ^ 7) {N : ℕ}
    {u x y a : Fin 3 → ℕ → ℝ} (x0 : ∀ i, x i 0 = y i 0) (hx : ∀ i, ∀ n < N, x i (n + 1) = g * u i n + (1 - g) * x i n) (h0 : len (sample y 0) ≤ M.velocity)
    (ha : ∀ n < N, CartesianAllowed M (sample (fun i => starting (y i 0) (u i)) (n + 1)) (sample (fun i => starting (y i 0) (u i)) n) (fun i => rate (starting (y i 0) (u i)) n))
    (close : ∀ i, ∀ n < N, |a i n - rate (y i) n| ≤ 1 / 10 ^ 7)
    (step : ∀ n < N, (∀ i, |y i n| ≤ 3) → ∃ r : Fin 3 → ℝ, (∀ i, |r i - (g * u i n + (1 - g) * y i n)| ≤ e) ∧
      (Clear L r (sample y n) (sample a n) → ∀ i, |y i (n + 1) - r i| ≤ δ)) :
    ∀ n ≤ N, ∀ i, |y i n - x i n| ≤ (e + δ) / g := by
  have hx00 : sample x 0 = sample y 0 := funext x0
  have exact : ∀ n < N, CartesianAllowed M (fun i => g * u i n + (1 - g) * x i n) (sample x n) (fun i => rate (x i) n) := fun n hn =>
    cartesian_next h.ok g0.le g1 (v := fun i => starting (y i 0) (u i)) (w := x) h0 x0 ha n hn fun j hj i => hx i j (by omega)
  have hax : ∀ n < N, CartesianAllowed M (sample x (n + 1)) (sample x n) (fun i => rate (x i) n) := fun n hn => by
    have := exact n hn
    rwa [show (fun i => g * u i n + (1 - g) * x i n) = sample x (n + 1) from funext fun i => (hx i n hn).symm] at this
  have hv := cartesian_within h.ok (w := x) (by rwa [hx00]) hax
  have hrx : ∀ n ≤ N, ∀ i, |rate (x i) n| ≤ 25 := by
    intro n hn i
    cases n with
    | zero => simp [rate]
    | succ n => exact (len_comp (fun i => (sample x (n + 1) i - sample x n i) / 0.001) i).trans ((hax n (by omega)).acceleration.trans h.below)
  have key : ∀ n ≤ N, ∀ j ≤ n, ∀ i, |y i j - x i j| ≤ (e + δ) / g := by
    intro n
    induction n with
    | zero =>
      intro hn j hj i
      obtain rfl : j = 0 := by omega
      rw [x0, sub_self, abs_zero]
      exact div_nonneg (by linarith) g0.le
    | succ n ih =>
      intro hn j hj
      have ih := ih (by omega)
      rcases Nat.lt_or_ge j (n + 1) with hj' | hj'
      · exact ih j (by omega)
      obtain rfl : j = n + 1 := by omega
      have hac : ∀ i, |a i n - rate (x i) n| ≤ 5 / 10 ^ 4 := by
        intro i
        have := abs_sub_le (a i n) (rate (y i) n) (rate (x i) n)
        have := rate_close fun j hj => ih j hj i
        linarith [close i n (by omega)]
      obtain ⟨r, h1, h2⟩ := step n (by omega) fun i => by
        have := (len_comp (sample x n) i).trans (hv n (by omega))
        linarith [abs_le_of_close (ih n le_rfl i) this, h.velocity, h.most]
      have h3 := h2 (clear_of_near h (exact n (by omega)) (hv n (by omega)) (hrx n (by omega))
        (fun i => (filtered_close g0 g1 d0 (ih n le_rfl i) (h1 i)).trans (by linarith)) (fun i => (ih n le_rfl i).trans (by linarith)) hac)
      intro i
      rw [hx i n (by omega)]
      exact error_step g0 g1 (ih n le_rfl i) (h1 i) (h3 i)
  exact fun n hn => key n hn n le_rfl

end Verif
