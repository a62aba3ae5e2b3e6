import Verif.Lemmas.Limits
/-!
The low pass filter on finite doubles.
-/
namespace Verif

/-- The gain of the filter. -/
noncomputable def gain (dt f : ℝ) : ℝ := 2 * Real.pi * f * dt / (1 + 2 * Real.pi * f * dt)

theorem gain_nonneg {dt f : ℝ} (hd : 0 ≤ dt) (hf : 0 ≤ f) : 0 ≤ gain dt f := by
  have := Real.pi_pos
  unfold gain
  positivity

theorem gain_lt_one {dt f : ℝ} (hd : 0 ≤ dt) (hf : 0 ≤ f) : gain dt f < 1 := by
  have hp := Real.pi_pos
  have : 0 ≤ 2 * Real.pi * f * dt := by positivity
  unfold gain
  rw [div_lt_one (by linarith)]
  linarith

theorem gain_pos {dt f : ℝ} (hd : 0 < dt) (hf : 0 < f) : 0 < gain dt f := by
  have := Real.pi_pos
  unfold gain
  positivity

theorem filter_gain_fin {dt f : ℝ} (hd : 0 ≤ dt) (hf : 0 ≤ f) : filter_gain (XR.fin dt) (XR.fin f) = .fin (gain dt f) := by
  have hp := Real.pi_pos
  have h2 : (Fl.lit 2 * Fl.pi * XR.fin f : XR) = .fin (2 * Real.pi * f) := by simp [XR.lit_fin, XR.pi_fin]
  have h1 : (Fl.lit 1 : XR) = .fin 1 := by simp [XR.lit_fin]
  unfold filter_gain
  rw [h2, h1]
  rcases hf.eq_or_lt with rfl | hf
  · have : (XR.fin 1 / XR.fin (2 * Real.pi * 0) : XR) = .inf false := by
      show (if (2 * Real.pi * 0 : ℝ) = 0 then _ else _) = _
      simp
    rw [this]
    show XR.fin 0 = _
    simp [gain]
  · have hne : 2 * Real.pi * f ≠ 0 := by positivity
    have hpos : 0 < dt + 1 / (2 * Real.pi * f) := by positivity
    rw [XR.fin_div _ _ hne, XR.fin_add, XR.fin_div _ _ hpos.ne']
    congr 1
    unfold gain
    have : (1 + 2 * Real.pi * f * dt) ≠ 0 := by positivity
    field_simp
    rw [add_comm]

theorem low_pass_filter_fin {dt f : ℝ} (hd : 0 ≤ dt) (hf : 0 ≤ f) (y y_last : ℝ) :
    low_pass_filter (XR.fin dt) (.fin y) (.fin y_last) (.fin f) = .ok (.fin (gain dt f * y + (1 - gain dt f) * y_last)) := by
  unfold low_pass_filter
  have h1 : (Fl.lit 1 : XR) = .fin 1 := by simp [XR.lit_fin]
  simp only [XR.isSignPositive_fin, XR.isFinite_fin, hd, hf, decide_true, Bool.and_self, assertP_true, P_bind_ok_eq, filter_gain_fin hd hf,
    XR.fin_mul, h1, XR.fin_sub, XR.fin_add]
  rfl

/-- What the filter accepts. -/
theorem low_pass_filter_inv {dt y y_last f r : XR} (h : low_pass_filter dt y y_last f = .ok r) :
    ∃ dt' y' l' f' : ℝ, dt = .fin dt' ∧ 0 ≤ dt' ∧ y = .fin y' ∧ y_last = .fin l' ∧ f = .fin f' ∧ 0 ≤ f' := by
  unfold low_pass_filter at h
  obtain ⟨_, h1, h⟩ := P_bind_inv h
  obtain ⟨_, h2, h⟩ := P_bind_inv h
  obtain ⟨_, h3, h⟩ := P_bind_inv h
  have key : ∀ {b : Bool} {m : String} {u : Unit}, assertP b m = .ok u → b = true := by
    intro b m u h
    cases b
    · cases h
    · rfl
  have h1 := key h1
  have h2 := key h2
  have h3 := key h3
  rw [Bool.and_eq_true] at h1 h2 h3
  obtain ⟨a, rfl⟩ := XR.isFinite_iff.1 h1.2
  obtain ⟨b, rfl⟩ := XR.isFinite_iff.1 h2.2
  obtain ⟨c, rfl⟩ := XR.isFinite_iff.1 h3.1
  obtain ⟨d, rfl⟩ := XR.isFinite_iff.1 h3.2
  exact ⟨a, c, d, b, rfl, of_decide_eq_true h1.1, rfl, rfl, rfl, of_decide_eq_true h2.1⟩

theorem mix_mem {g x y : ℝ} (h0 : 0 ≤ g) (h1 : g ≤ 1) : g * x + (1 - g) * y ∈ Set.uIcc y x := by
  rw [Set.mem_uIcc]
  rcases le_total y x with h | h
  · left
    constructor <;> nlinarith
  · right
    constructor <;> nlinarith

end Verif
