import Verif.Lemmas.RoundedSync
import Verif.Lemmas.Cartesian
/-!
Lengths and directions of vectors of rounded doubles.
-/
set_option linter.unusedSectionVars false
namespace Verif
open Spec Fl
variable {A : Rounding}

theorem rd_fin_inj {x y : ℝ} (h : (Rd.fin x : Rd A) = Rd.fin y) : x = y := by
  injection h

/-- Not a number. -/
def Rd.nan : Rd A := XR.nan

theorem round_inv {z : XR} {r : ℝ} (h : Rd.round A z = Rd.fin r) : ∃ x, z = .fin x ∧ r = A.rnd x := by
  unfold Rd.round at h
  cases z with
  | nan => cases h
  | inf a => cases h
  | fin x =>
    refine ⟨x, rfl, ?_⟩
    by_cases hc : |A.rnd x| ≤ A.max
    · have h := (if_pos hc).symm.trans h
      injection h with h
      exact h.symm
    · have h := (if_neg hc).symm.trans h
      cases h

theorem add_inv {x y : Rd A} {r : ℝ} (h : x + y = Rd.fin r) : ∃ a b, x = Rd.fin a ∧ y = Rd.fin b ∧ r = A.rnd (a + b) := by
  obtain ⟨z, h1, h2⟩ := round_inv (z := XR.add x y) h
  cases x with
  | nan => cases h1
  | inf a => cases y with
    | nan => cases h1
    | inf b => simp only [XR.add] at h1; split at h1 <;> cases h1
    | fin b => cases h1
  | fin a => cases y with
    | nan => cases h1
    | inf b => cases h1
    | fin b => injection h1 with h1; exact ⟨a, b, rfl, rfl, by rw [h2, h1]⟩

theorem mul_inv {x y : Rd A} {r : ℝ} (h : x * y = Rd.fin r) : ∃ a b, x = Rd.fin a ∧ y = Rd.fin b ∧ r = A.rnd (a * b) := by
  obtain ⟨z, h1, h2⟩ := round_inv (z := XR.mul x y) h
  cases x with
  | nan => cases h1
  | inf a => cases y with
    | nan => cases h1
    | inf b => cases h1
    | fin b => simp only [XR.mul] at h1; split at h1 <;> cases h1
  | fin a => cases y with
    | nan => cases h1
    | inf b => simp only [XR.mul] at h1; split at h1 <;> cases h1
    | fin b => injection h1 with h1; exact ⟨a, b, rfl, rfl, by rw [h2, h1]⟩

theorem sqrt_inv {x : Rd A} {r : ℝ} (h : fsqrt x = Rd.fin r) : ∃ a, x = Rd.fin a ∧ 0 ≤ a ∧ r = A.rnd (√a) := by
  obtain ⟨z, h1, h2⟩ := round_inv (z := XR.sqrt x) h
  cases x with
  | nan => cases h1
  | inf a => simp only [XR.sqrt] at h1; split at h1 <;> cases h1
  | fin a =>
    simp only [XR.sqrt] at h1
    split at h1
    · cases h1
    · rename_i hn
      injection h1 with h1
      exact ⟨a, rfl, not_lt.1 hn, by rw [h2, h1]⟩

/-- The sum of the squares, as it is computed. -/
noncomputable def rdSum (A : Rounding) (y : Fin 3 → ℝ) : ℝ := A.rnd (A.rnd 0 + A.rnd (A.rnd (A.rnd (y 0 * y 0) + A.rnd (y 1 * y 1)) + A.rnd (y 2 * y 2)))

theorem rdSum_error (y : Fin 3 → ℝ) : |rdSum A y - len y ^ 2| ≤ 6 / 10 ^ 16 * len y ^ 2 + 1 / 10 ^ 69 := by
  rw [len_sq]
  have s0 := sq_nonneg (y 0)
  have s1 := sq_nonneg (y 1)
  have s2 := sq_nonneg (y 2)
  have e0 := rnd_le (A := A) (y 0 * y 0)
  have e1 := rnd_le (A := A) (y 1 * y 1)
  have e2 := rnd_le (A := A) (y 2 * y 2)
  have ez := rnd_le (A := A) 0
  rw [abs_zero] at ez
  rw [← sq] at e0 e1 e2
  rw [abs_of_nonneg s0] at e0
  rw [abs_of_nonneg s1] at e1
  rw [abs_of_nonneg s2] at e2
  unfold rdSum
  rw [← sq, ← sq, ← sq]
  generalize A.rnd (y 0 ^ 2) = p0 at *
  generalize A.rnd (y 1 ^ 2) = p1 at *
  generalize A.rnd (y 2 ^ 2) = p2 at *
  generalize A.rnd 0 = z at *
  generalize y 0 ^ 2 = q0 at *
  generalize y 1 ^ 2 = q1 at *
  generalize y 2 ^ 2 = q2 at *
  have f1 := rnd_le (A := A) (p0 + p1)
  generalize A.rnd (p0 + p1) = t1 at *
  have f2 := rnd_le (A := A) (t1 + p2)
  generalize A.rnd (t1 + p2) = t2 at *
  have f3 := rnd_le (A := A) (z + t2)
  generalize A.rnd (z + t2) = t3 at *
  obtain ⟨e01, e02⟩ := abs_le.1 e0
  obtain ⟨e11, e12⟩ := abs_le.1 e1
  obtain ⟨e21, e22⟩ := abs_le.1 e2
  obtain ⟨ez1, ez2⟩ := abs_le.1 ez
  have g1 : |p0 + p1| ≤ 1.1 * (q0 + q1) + 1 / 10 ^ 69 := by rw [abs_le]; constructor <;> norm_num at * <;> linarith
  have f1' := f1.trans (add_le_add (mul_le_mul_of_nonneg_left g1 (by norm_num)) le_rfl)
  obtain ⟨f11, f12⟩ := abs_le.1 f1'
  have g2 : |t1 + p2| ≤ 1.1 * (q0 + q1 + q2) + 1 / 10 ^ 68 := by rw [abs_le]; constructor <;> norm_num at * <;> linarith
  have f2' := f2.trans (add_le_add (mul_le_mul_of_nonneg_left g2 (by norm_num)) le_rfl)
  obtain ⟨f21, f22⟩ := abs_le.1 f2'
  have g3 : |z + t2| ≤ 1.1 * (q0 + q1 + q2) + 1 / 10 ^ 67 := by rw [abs_le]; constructor <;> norm_num at * <;> linarith
  have f3' := f3.trans (add_le_add (mul_le_mul_of_nonneg_left g3 (by norm_num)) le_rfl)
  obtain ⟨f31, f32⟩ := abs_le.1 f3'
  rw [abs_le]
  constructor <;> norm_num at * <;> linarith

/-- The error of a root. -/
theorem root_error {s l a b : ℝ} (hl : 0 ≤ l) (ha : 0 ≤ a) (ha1 : a ≤ 1) (hb : 0 ≤ b) (h : |s - l ^ 2| ≤ a * l ^ 2 + b ^ 2) : |√s - l| ≤ a * l + b := by
  obtain ⟨h1, h2⟩ := abs_le.1 h
  rw [abs_le]
  constructor
  · rcases le_or_gt ((1 - a) * l - b) 0 with h3 | h3
    · have := Real.sqrt_nonneg s
      linarith
    · have h4 : ((1 - a) * l - b) ^ 2 ≤ s := by
        have q1 : ((1 - a) * l - b) ^ 2 ≤ ((1 - a) * l) ^ 2 - b ^ 2 := by nlinarith
        have q2 : ((1 - a) * l) ^ 2 ≤ (1 - a) * l ^ 2 := by
          rw [mul_pow]
          exact mul_le_mul_of_nonneg_right (by nlinarith) (sq_nonneg l)
        linarith
      have := (le_abs_self _).trans (Real.abs_le_sqrt h4)
      linarith
  · have h3 : √s ≤ (1 + a) * l + b := by
      rw [Real.sqrt_le_left (by positivity)]
      nlinarith [mul_nonneg ha (sq_nonneg l), mul_nonneg hl hb, mul_nonneg (mul_nonneg ha hl) hb, sq_nonneg (a * l)]
    linarith

theorem norm_error (y : Fin 3 → ℝ) : |A.rnd (√(rdSum A y)) - len y| ≤ 1 / 10 ^ 15 * len y + 1 / 10 ^ 34 := by
  have h0 := len_nonneg y
  have h1 := root_error (s := rdSum A y) (l := len y) (a := 6 / 10 ^ 16) (b := 33 / 10 ^ 36) h0 (by norm_num) (by norm_num) (by norm_num)
    ((rdSum_error y).trans (by norm_num))
  have h2 := rnd_le (A := A) √(rdSum A y)
  rw [abs_of_nonneg (Real.sqrt_nonneg _)] at h2
  obtain ⟨h3, h4⟩ := abs_le.1 h1
  have h5 := h2.trans (add_le_add (mul_le_mul_of_nonneg_left (by linarith : √(rdSum A y) ≤ len y + (6 / 10 ^ 16 * len y + 33 / 10 ^ 36)) (by norm_num)) le_rfl)
  obtain ⟨h6, h7⟩ := abs_le.1 h5
  rw [abs_le]
  constructor <;> norm_num at * <;> linarith

/-- A length that is finite is accurate. -/
theorem norm_inv {x : Arr (Rd A) 3} {n : ℝ} (h : Vec3.norm x = Rd.fin n) : ∃ y, x = Arr.rd y ∧ |n - len y| ≤ 1 / 10 ^ 15 * len y + 1 / 10 ^ 34 := by
  obtain ⟨a, h1, -, hn⟩ := sqrt_inv h
  obtain ⟨z, b, h2, h3, ha⟩ := add_inv h1
  obtain ⟨c, p2, h4, h5, hb⟩ := add_inv h3
  obtain ⟨p0, p1, h6, h7, hc⟩ := add_inv h4
  obtain ⟨y0, y0', k0, k0', e0⟩ := mul_inv h6
  obtain ⟨y1, y1', k1, k1', e1⟩ := mul_inv h7
  obtain ⟨y2, y2', k2, k2', e2⟩ := mul_inv h5
  have i0 := rd_fin_inj (k0'.symm.trans k0)
  have i1 := rd_fin_inj (k1'.symm.trans k1)
  have i2 := rd_fin_inj (k2'.symm.trans k2)
  subst i0 i1 i2
  obtain ⟨z', hz, hz'⟩ := round_inv (A := A) (z := .fin ((0 : ℚ) : ℝ)) h2
  injection hz with hz
  have hz : z = A.rnd 0 := by rw [hz', ← hz]; norm_num
  refine ⟨![y0', y1', y2'], ?_, ?_⟩
  · funext i
    fin_cases i
    · exact k0
    · exact k1
    · exact k2
  · have := norm_error (A := A) ![y0', y1', y2']
    have e : rdSum A ![y0', y1', y2'] = a := by rw [ha, hb, hc, e0, e1, e2, hz]; rfl
    rwa [e, ← hn] at this

/-- The length of a vector that is not too long is finite (or not a number, if the vector is almost zero and zero is rounded to a negative number). -/
theorem norm_rd' {y : Fin 3 → ℝ} (hy : ∀ i, |y i| ≤ 10 ^ 10) : (Vec3.norm (Arr.rd y : Arr (Rd A) 3) = Rd.nan ∧ len y ≤ 1 / 10 ^ 30) ∨ ∃ n, Vec3.norm (Arr.rd y : Arr (Rd A) 3) = Rd.fin n ∧ |n - len y| ≤ 1 / 10 ^ 15 * len y + 1 / 10 ^ 34 := by
  have b : ∀ i, |y i * y i| ≤ 10 ^ 20 := fun i => by
    rw [abs_mul]
    refine (mul_le_mul (hy i) (hy i) (abs_nonneg _) (by norm_num)).trans (by norm_num)
  have r : ∀ z B : ℝ, |z| ≤ B → B ≤ 10 ^ 30 → |A.rnd z| ≤ 2 * B + 1 := by
    intro z B h1 h2
    have := rnd_le (A := A) z
    have h3 := abs_sub_abs_le_abs_sub (A.rnd z) z
    have h4 := abs_nonneg z
    have h5 : 12 / 10 ^ 17 * |z| ≤ |z| := by linarith
    have h6 : (1 : ℝ) / 10 ^ 70 ≤ 1 := by norm_num
    linarith
  have p : ∀ i, (Rd.fin (y i) * Rd.fin (y i) : Rd A) = Rd.fin (A.rnd (y i * y i)) := fun i => rnd_fin ((b i).trans (by norm_num))
  have add : ∀ x z : ℝ, |x| ≤ 10 ^ 40 → |z| ≤ 10 ^ 40 → (Rd.fin x + Rd.fin z : Rd A) = Rd.fin (A.rnd (x + z)) := fun x z hx hz =>
    rnd_fin ((abs_add_le x z).trans (by norm_num at *; linarith))
  have q : ∀ i, |A.rnd (y i * y i)| ≤ 10 ^ 21 := fun i => (r _ _ (b i) (by norm_num)).trans (by norm_num)
  have t1 : |A.rnd (A.rnd (y 0 * y 0) + A.rnd (y 1 * y 1))| ≤ 10 ^ 22 :=
    (r _ (2 * 10 ^ 21) ((abs_add_le _ _).trans (by linarith [q 0, q 1])) (by norm_num)).trans (by norm_num)
  have t2 : |A.rnd (A.rnd (A.rnd (y 0 * y 0) + A.rnd (y 1 * y 1)) + A.rnd (y 2 * y 2))| ≤ 10 ^ 23 :=
    (r _ (2 * 10 ^ 22) ((abs_add_le _ _).trans (by linarith [q 2])) (by norm_num)).trans (by norm_num)
  have z : |A.rnd 0| ≤ 10 := (r 0 0 (by simp) (by norm_num)).trans (by norm_num)
  have hl : (lit 0 : Rd A) = Rd.fin (A.rnd 0) := by
    have : (lit 0 : Rd A) = Rd.round A (.fin ((0 : ℚ) : ℝ)) := rfl
    rw [this, Rat.cast_zero]
    exact rnd_fin (by simp)
  have hs : Vec3.norm_squared (Arr.rd y : Arr (Rd A) 3) = Rd.fin (rdSum A y) := by
    show lit 0 + (Rd.fin (y 0) * Rd.fin (y 0) + Rd.fin (y 1) * Rd.fin (y 1) + Rd.fin (y 2) * Rd.fin (y 2)) = _
    rw [p, p, p, add _ _ ((q 0).trans (by norm_num)) ((q 1).trans (by norm_num)), add _ _ (t1.trans (by norm_num)) ((q 2).trans (by norm_num)), hl,
      add _ _ (z.trans (by norm_num)) (t2.trans (by norm_num))]
    rfl
  have hn : Vec3.norm (Arr.rd y : Arr (Rd A) 3) = Rd.round A (XR.sqrt (.fin (rdSum A y))) := congrArg fsqrt hs
  rcases lt_or_ge (rdSum A y) 0 with h0 | h0
  · refine .inl ⟨hn.trans (congrArg (Rd.round A) (if_pos h0)), ?_⟩
    have h1 := (abs_le.1 (rdSum_error (A := A) y)).1
    have h2 := sq_nonneg (len y)
    refine (abs_le_of_sq_le_sq' ?_ (by norm_num)).2
    norm_num at *
    linarith
  · refine .inr ⟨_, hn.trans ((congrArg (Rd.round A) (if_neg (not_lt.2 h0))).trans (rnd_fin ?_)), norm_error y⟩
    have t3 : rdSum A y ≤ 10 ^ 24 :=
      (le_abs_self _).trans ((r _ (2 * 10 ^ 23) ((abs_add_le _ _).trans (by linarith)) (by norm_num)).trans (by norm_num))
    rw [abs_of_nonneg (Real.sqrt_nonneg _), Real.sqrt_le_left (by norm_num)]
    exact t3.trans (by norm_num)

theorem norm_rd {y : Fin 3 → ℝ} (hy : ∀ i, |y i| ≤ 10 ^ 10) : Vec3.norm (Arr.rd y : Arr (Rd A) 3) = Rd.nan ∨ ∃ n, Vec3.norm (Arr.rd y : Arr (Rd A) 3) = Rd.fin n ∧ |n - len y| ≤ 1 / 10 ^ 15 * len y + 1 / 10 ^ 34 :=
  (norm_rd' hy).imp And.left id

/-- A vector with a component that is no number has no length. -/
theorem norm_nan {x : Arr (Rd A) 3} {i : Fin 3} (h : x i = Rd.nan) : Vec3.norm x = (Rd.nan : Rd A) := by
  have m : ∀ y : Rd A, (Rd.nan : Rd A) * y = Rd.nan := fun y => rfl
  have a1 : ∀ y : Rd A, (Rd.nan : Rd A) + y = Rd.nan := fun y => rfl
  have a2 : ∀ y : Rd A, y + (Rd.nan : Rd A) = Rd.nan := fun y => by cases y <;> rfl
  have s : (fsqrt (Rd.nan : Rd A)) = Rd.nan := rfl
  unfold Vec3.norm Vec3.norm_squared Vec3.dot
  fin_cases i
  · rw [show x 0 = Rd.nan from h, m, a1, a1, a2, s]
  · rw [show x 1 = Rd.nan from h, m, a2, a1, a2, s]
  · rw [show x 2 = Rd.nan from h, m, a2, a2, s]

theorem len_comp (y : Fin 3 → ℝ) (i : Fin 3) : |y i| ≤ len y := by
  refine Real.abs_le_sqrt ?_
  have s0 := sq_nonneg (y 0)
  have s1 := sq_nonneg (y 1)
  have s2 := sq_nonneg (y 2)
  fin_cases i <;> simp <;> linarith

/-- The direction of a vector that is long enough. -/
theorem normalize_rd {y : Fin 3 → ℝ} {n : ℝ} (h : Vec3.norm (Arr.rd y : Arr (Rd A) 3) = Rd.fin n) (hn : |n - len y| ≤ 1 / 10 ^ 15 * len y + 1 / 10 ^ 34) (ht : 2 / 10 ^ 16 ≤ n)
    (i : Fin 3) : 1 / 10 ^ 16 ≤ len y ∧ Near (Vec3.normalize (Arr.rd y : Arr (Rd A) 3) i) (y i / len y) (3 / 10 ^ 15) := by
  have l0 := len_nonneg y
  obtain ⟨n1, n2⟩ := abs_le.1 hn
  have hl : 1 / 10 ^ 16 ≤ len y := by norm_num at *; linarith
  refine ⟨hl, ?_⟩
  have hn0 : 0 < n := lt_of_lt_of_le (by norm_num) ht
  have hl0 : 0 < len y := lt_of_lt_of_le (by norm_num) hl
  have e1 : Vec3.normalize (Arr.rd y : Arr (Rd A) 3) i = Rd.round A (.fin (y i / n)) := by
    show Rd.fin (y i) / Vec3.norm (Arr.rd y) = _
    rw [h]
    exact congrArg (Rd.round A) (if_neg hn0.ne')
  have c := len_comp y i
  have e2 : |y i / n - y i / len y| ≤ 2 / 10 ^ 15 := by
    have : y i / n - y i / len y = y i / len y * ((len y - n) / n) := by field_simp
    rw [this, abs_mul, abs_div, abs_div, abs_of_pos hl0, abs_of_pos hn0]
    have h1 : |y i| / len y ≤ 1 := (div_le_one hl0).2 c
    have h2 : |len y - n| / n ≤ 2 / 10 ^ 15 := by
      rw [div_le_iff₀ hn0, abs_sub_comm]
      refine hn.trans ?_
      norm_num at *
      linarith
    calc _ ≤ 1 * (2 / 10 ^ 15) := mul_le_mul h1 h2 (by positivity) (by norm_num)
      _ = _ := by ring
  have e3 : |y i / len y| ≤ 1 := by
    rw [abs_div, abs_of_pos hl0]
    exact (div_le_one hl0).2 c
  rw [e1]
  obtain ⟨r, h1, h2⟩ := near_round (A := A) (B := 2) e2 (by norm_num at *; linarith) (by norm_num) (by norm_num)
  exact ⟨r, h1, h2.trans (by norm_num)⟩

/-- `f64::EPSILON` in doubles. -/
theorem eps_rd' : ∃ e, (NORM_EPS : Rd A) = Rd.fin e ∧ 2 / 10 ^ 16 ≤ e ∧ e ≤ 3 / 10 ^ 16 := by
  obtain ⟨e, h1, h2⟩ := rel_lit (A := A) (q := 1 / 2 ^ 52) (n := 20) (by norm_num) (by norm_num) (by norm_num)
  refine ⟨e, h1, ?_⟩
  obtain ⟨h3, h4⟩ := abs_le.1 h2.1
  norm_num at h3 h4 ⊢
  constructor <;> linarith

theorem eps_rd : ∃ e, (NORM_EPS : Rd A) = Rd.fin e ∧ 2 / 10 ^ 16 ≤ e := by
  obtain ⟨e, h1, h2, -⟩ := eps_rd' (A := A)
  exact ⟨e, h1, h2⟩

end Verif
