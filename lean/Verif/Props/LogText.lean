import Verif.Spec.LogText
import Verif.Props.ErrorText
import Std.Data.String.ToNat
import Mathlib.Data.List.OfFn
/-!
# The text of a log record: C107
-/
namespace Verif
open Spec

/-! ## Texts that can be read back -/

/-- A text that is empty or begins with a separator. -/
def Separated (r : List Char) : Prop := ∀ c, r.head? = some c → c ∈ separators

/-- From the text of something, whatever follows it, one can tell what `R` says about it. -/
def Tells {α : Type} (T : α → List Char) (R : α → α → Prop) : Prop :=
  ∀ x y r r', Separated r → Separated r' → T x ++ r = T y ++ r' → R x y ∧ r = r'

theorem Separated.cons {c : Char} {r : List Char} (h : c ∈ separators) : Separated (c :: r) := by
  intro d hd
  simp only [List.head?_cons, Option.some.injEq] at hd
  exact hd ▸ h

theorem split_plain : ∀ (a b r r' : List Char), (∀ c ∈ a, c ∉ separators) → (∀ c ∈ b, c ∉ separators) → Separated r → Separated r' → a ++ r = b ++ r' → a = b ∧ r = r'
  | [], [], _, _, _, _, _, _, h => ⟨rfl, h⟩
  | [], c :: b, r, r', _, hb, hr, _, h => by
    exfalso
    apply hb c (by simp)
    apply hr
    rw [List.nil_append] at h
    rw [h]; rfl
  | c :: a, [], r, r', ha, _, _, hr', h => by
    exfalso
    apply ha c (by simp)
    apply hr'
    rw [List.nil_append] at h
    rw [← h]; rfl
  | c :: a, d :: b, r, r', ha, hb, hr, hr', h => by
    simp only [List.cons_append, List.cons.injEq] at h
    have := split_plain a b r r' (fun c hc => ha c (List.mem_cons_of_mem _ hc)) (fun c hc => hb c (List.mem_cons_of_mem _ hc)) hr hr' h.2
    exact ⟨by rw [h.1, this.1], this.2⟩

theorem tells_plain {α : Type} {T : α → List Char} (inj : ∀ x y, T x = T y → x = y) (plain : ∀ x, ∀ c ∈ T x, c ∉ separators) : Tells T Eq := by
  intro x y r r' hr hr' h
  have := split_plain _ _ _ _ (plain x) (plain y) hr hr' h
  exact ⟨inj x y this.1, this.2⟩

theorem tells_field {α β : Type} (g : α → β) {T : β → List Char} (h : Tells T Eq) : Tells (fun x => T (g x)) (fun x y => g x = g y) :=
  fun x y r r' hr hr' e => h (g x) (g y) r r' hr hr' e

theorem ends_more {α : Type} (l : List (String × (α → List Char))) (x : α) (r : List Char) : Separated (moreText l x ++ r) := by
  cases l with
  | nil => exact Separated.cons (by decide)
  | cons f l => simp only [moreText, List.append_assoc, List.cons_append]; exact Separated.cons (by decide)

theorem tells_end {α : Type} : Tells (moreText ([] : List (String × (α → List Char)))) (fun _ _ => True) := by
  intro x y r r' _ _ h
  exact ⟨trivial, by simpa [moreText] using h⟩

theorem tells_more {α : Type} {R S : α → α → Prop} {name : String} {T : α → List Char} {l : List (String × (α → List Char))} (h : Tells T R)
    (hl : Tells (moreText l) S) : Tells (moreText ((name, T) :: l)) (fun x y => R x y ∧ S x y) := by
  intro x y r r' hr hr' e
  simp only [moreText, List.append_assoc, List.append_cancel_left_eq] at e
  have e1 := h x y _ _ (ends_more l x r) (ends_more l y r') e
  have e2 := hl x y r r' hr hr' e1.2
  exact ⟨⟨e1.1, e2.1⟩, e2.2⟩

theorem tells_struct {α : Type} {R S : α → α → Prop} {struct name : String} {T : α → List Char} {l : List (String × (α → List Char))} (h : Tells T R)
    (hl : Tells (moreText l) S) : Tells (structText struct ((name, T) :: l)) (fun x y => R x y ∧ S x y) := by
  intro x y r r' hr hr' e
  simp only [structText, List.append_assoc, List.append_cancel_left_eq] at e
  have e1 := h x y _ _ (ends_more l x r) (ends_more l y r') e
  have e2 := hl x y r r' hr hr' e1.2
  exact ⟨⟨e1.1, e2.1⟩, e2.2⟩

theorem Tells.mono {α : Type} {T : α → List Char} {R S : α → α → Prop} (h : Tells T R) (hs : ∀ x y, R x y → S x y) : Tells T S :=
  fun x y r r' hr hr' e => ⟨hs x y (h x y r r' hr hr' e).1, (h x y r r' hr hr' e).2⟩

theorem ends_rest {α : Type} (T : α → List Char) (l : List α) (r : List Char) : Separated (restText T l ++ r) := by
  cases l with
  | nil => exact Separated.cons (by decide)
  | cons f l => simp only [restText, List.append_assoc, List.cons_append]; exact Separated.cons (by decide)

theorem tells_rest {α : Type} {T : α → List Char} (h : Tells T Eq) : Tells (restText T) Eq := by
  intro x
  induction x with
  | nil =>
    intro y r r' _ _ e
    cases y with
    | nil => exact ⟨rfl, by simpa [restText] using e⟩
    | cons b y => simp [restText] at e
  | cons a x ih =>
    intro y r r' hr hr' e
    cases y with
    | nil => simp [restText] at e
    | cons b y =>
      simp only [restText, List.append_assoc, List.append_cancel_left_eq] at e
      have e1 := h a b _ _ (ends_rest T x r) (ends_rest T y r') e
      have e2 := ih y r r' hr hr' e1.2
      exact ⟨by rw [e1.1, e2.1], e2.2⟩

theorem tells_list {α : Type} {T : α → List Char} (h : Tells T Eq) (hh : ∀ x, ∃ c l, T x = c :: l ∧ c ≠ ']') : Tells (listText T) Eq := by
  intro x y r r' hr hr' e
  cases x with
  | nil =>
    cases y with
    | nil => exact ⟨rfl, by simpa [listText] using e⟩
    | cons b y =>
      obtain ⟨c, l, hc, hne⟩ := hh b
      simp only [listText, hc, List.cons_append, List.nil_append, List.cons.injEq, true_and] at e
      exact absurd e.1.symm hne
  | cons a x =>
    cases y with
    | nil =>
      obtain ⟨c, l, hc, hne⟩ := hh a
      simp only [listText, hc, List.cons_append, List.nil_append, List.cons.injEq, true_and] at e
      exact absurd e.1 hne
    | cons b y =>
      simp only [listText, List.append_assoc, List.append_cancel_left_eq] at e
      have e1 := h a b _ _ (ends_rest T x r) (ends_rest T y r') e
      have e2 := tells_rest h x y r r' hr hr' e1.2
      exact ⟨by rw [e1.1, e2.1], e2.2⟩

theorem tells_option {α : Type} {T : α → List Char} (h : Tells T Eq) : Tells (optionText T) Eq := by
  intro x y r r' hr hr' e
  cases x with
  | none =>
    cases y with
    | none => exact ⟨rfl, by simpa [optionText] using e⟩
    | some b => simp [optionText] at e
  | some a =>
    cases y with
    | none => simp [optionText] at e
    | some b =>
      simp only [optionText, List.append_assoc, List.append_cancel_left_eq] at e
      have e1 := h a b _ _ (Separated.cons (by decide)) (Separated.cons (by decide)) e
      exact ⟨by rw [e1.1], by simpa using e1.2⟩

/-! ## The parts of a record without numbers -/

theorem tells_bool : Tells boolText Eq :=
  tells_plain (by decide) (by decide)

theorem tells_mode : Tells modeText Eq :=
  tells_plain (by intro x y; cases x <;> cases y <;> decide) (by intro x; cases x <;> decide)

theorem errorText_plain (e : FrankaError) : ∀ c ∈ errorText e, c ∉ separators := by
  cases e <;> decide

theorem errorText_some (e : FrankaError) : ∃ c l, errorText e = c :: l ∧ c ≠ ']' := by
  cases h : errorText e with
  | nil => exact absurd h (by cases e <;> decide)
  | cons c l =>
    refine ⟨c, l, rfl, fun hc => errorText_plain e c (by rw [h]; simp) (by rw [hc]; decide)⟩

theorem tells_error : Tells errorText Eq :=
  tells_plain (fun _ _ h => fmt_injective (String.toList_inj.1 h)) errorText_plain

theorem tells_errors : Tells errorsText Eq :=
  (tells_struct (tells_field FrankaErrors.franka_errors (tells_list tells_error errorText_some)) tells_end).mono (by
    rintro ⟨x⟩ ⟨y⟩ ⟨h, _⟩
    exact congrArg _ h)

/-! ## The time -/

theorem repr_digits (n : ℕ) : ∀ c ∈ n.repr.toList, c.isDigit := by
  intro c hc
  rw [Nat.toList_repr] at hc
  exact Nat.isDigit_of_mem_toDigits (by decide) (by decide) hc

theorem fractionText_chars : ∀ r < 1000, (fractionText r = [] ∨ (fractionText r).head? = some '.') ∧ ∀ c ∈ fractionText r, c = '.' ∨ c.isDigit := by
  intro r hr
  have d : ∀ n, n < 10 → (Nat.digitChar n).isDigit = true := fun n hn => by rw [Nat.isDigit_digitChar]; simpa using hn
  have h1 := d (r / 100) (by omega)
  have h2 := d (r / 10 % 10) (by omega)
  have h3 := d (r % 10) (by omega)
  unfold fractionText
  split_ifs <;> simp [h1, h2, h3]

theorem digitChar_inj {m n : ℕ} (hm : m < 10) (hn : n < 10) (h : Nat.digitChar m = Nat.digitChar n) : m = n := by
  have key : ∀ a b : Fin 10, Nat.digitChar a = Nat.digitChar b → a = b := by decide
  exact congrArg Fin.val (key ⟨m, hm⟩ ⟨n, hn⟩ h)

theorem fractionText_inj {r r' : ℕ} (hr : r < 1000) (hr' : r' < 1000) (h : fractionText r = fractionText r') : r = r' := by
  unfold fractionText at h
  have d1 := @digitChar_inj (r / 100) (r' / 100) (by omega) (by omega)
  have d2 := @digitChar_inj (r / 10 % 10) (r' / 10 % 10) (by omega) (by omega)
  have d3 := @digitChar_inj (r % 10) (r' % 10) (by omega) (by omega)
  split_ifs at h <;> simp only [List.cons.injEq, reduceCtorEq, and_false, and_true, true_and] at h <;>
    first
    | omega
    | (have := d1 h; omega)
    | (have := d1 h.1; have := d2 h.2; omega)
    | (have := d1 h.1; have := d2 h.2.1; have := d3 h.2.2; omega)

theorem split_digits : ∀ (a b r r' : List Char), (∀ c ∈ a, c.isDigit) → (∀ c ∈ b, c.isDigit) → (r = [] ∨ r.head? = some '.') → (r' = [] ∨ r'.head? = some '.') →
    a ++ r = b ++ r' → a = b ∧ r = r'
  | [], [], _, _, _, _, _, _, h => ⟨rfl, h⟩
  | [], c :: b, r, r', _, hb, hr, _, h => by
    exfalso
    have hc := hb c (by simp)
    rw [List.nil_append] at h
    subst h
    simp only [List.cons_append, reduceCtorEq, List.head?_cons, Option.some.injEq, false_or] at hr
    subst hr
    exact absurd hc (by decide)
  | c :: a, [], r, r', ha, _, _, hr', h => by
    exfalso
    have hc := ha c (by simp)
    rw [List.nil_append] at h
    subst h
    simp only [List.cons_append, reduceCtorEq, List.head?_cons, Option.some.injEq, false_or] at hr'
    subst hr'
    exact absurd hc (by decide)
  | c :: a, d :: b, r, r', ha, hb, hr, hr', h => by
    simp only [List.cons_append, List.cons.injEq] at h
    have := split_digits a b r r' (fun c hc => ha c (List.mem_cons_of_mem _ hc)) (fun c hc => hb c (List.mem_cons_of_mem _ hc)) hr hr' h.2
    exact ⟨by rw [h.1, this.1], this.2⟩

/-- The characters of a time in seconds, without its unit. -/
theorem seconds_chars (n : ℕ) : ∀ c ∈ (n / 1000).repr.toList ++ fractionText (n % 1000), c = '.' ∨ c.isDigit := by
  intro c hc
  rcases List.mem_append.1 hc with h | h
  · exact Or.inr (repr_digits _ c h)
  · exact (fractionText_chars _ (Nat.mod_lt _ (by decide))).2 c h

theorem durationText_inj (m n : ℕ) (h : durationText m = durationText n) : m = n := by
  have key : ∀ (u : Char) (k : ℕ) (l : List Char), u ≠ '.' → u.isDigit = false → u ∈ l → (k / 1000).repr.toList ++ fractionText (k % 1000) ≠ l := by
    intro u k l h1 h2 hu e
    rcases seconds_chars k u (e ▸ hu) with h | h
    · exact h1 h
    · rw [h2] at h; exact absurd h (by decide)
  have hm : ∀ k : ℕ, k.repr.toList ++ ['m'] ≠ ['0', 'n'] := by
    intro k e
    have : 'm' ∈ ['0', 'n'] := e ▸ (by simp)
    exact absurd this (by decide)
  have t1 : ∀ k : ℕ, k.repr.toList ++ ['m', 's'] = (k.repr.toList ++ ['m']) ++ ['s'] := fun k => by simp
  have t2 : ['0', 'n', 's'] = ['0', 'n'] ++ ['s'] := rfl
  unfold durationText at h
  split_ifs at h with a b c d e f <;> simp only [t1, t2, List.append_cancel_right_eq] at h
  · have := split_digits _ _ _ _ (repr_digits _) (repr_digits _) (fractionText_chars _ (Nat.mod_lt m (by decide))).1
      (fractionText_chars _ (Nat.mod_lt n (by decide))).1 h
    have q := Nat.repr_injective (String.toList_inj.1 this.1)
    have r := fractionText_inj (Nat.mod_lt m (by decide)) (Nat.mod_lt n (by decide)) this.2
    omega
  · exact absurd h (key 'm' m _ (by decide) (by decide) (by simp))
  · exact absurd h (key 'n' m _ (by decide) (by decide) (by simp))
  · exact absurd h.symm (key 'm' n _ (by decide) (by decide) (by simp))
  · exact Nat.repr_injective (String.toList_inj.1 h)
  · exact absurd h (hm m)
  · exact absurd h.symm (key 'n' n _ (by decide) (by decide) (by simp))
  · exact absurd h.symm (hm n)
  · omega

theorem durationText_plain (n : ℕ) : ∀ c ∈ durationText n, c ∉ separators := by
  have key : ∀ c : Char, c = '.' ∨ c.isDigit = true → c ∉ separators := by
    intro c hc hs
    simp only [separators, List.mem_cons, List.not_mem_nil, or_false] at hs
    rcases hs with rfl | rfl | rfl | rfl | rfl <;> exact absurd hc (by decide)
  intro c hc
  unfold durationText at hc
  split_ifs at hc
  · rcases List.mem_append.1 hc with h | h
    · exact key c (seconds_chars n c h)
    · rw [List.mem_singleton.1 h]; decide
  · rcases List.mem_append.1 hc with h | h
    · exact key c (Or.inr (repr_digits _ c h))
    · revert c; simp only [List.mem_cons, List.not_mem_nil, or_false]
      rintro c - (rfl | rfl) <;> decide
  · revert c; decide

theorem tells_duration : Tells durationText Eq := tells_plain durationText_inj durationText_plain

/-! ## Numbers, commands and states -/

section
variable {F : Type} [FloatText F]

theorem tells_float (h : NumbersReadable F) : Tells (floatText : F → List Char) Eq := tells_plain h.different h.plain

theorem tells_arr (h : NumbersReadable F) {n : ℕ} : Tells (arrText : Arr F n → List Char) Eq := by
  intro x y r r' hr hr' e
  have := tells_list (tells_float h) (fun x => by
    cases hx : floatText x with
    | nil => exact absurd hx (h.some_text x)
    | cons c l => exact ⟨c, l, rfl, fun hc => h.plain x c (by rw [← floatText, hx]; simp) (by rw [hc]; decide)⟩) _ _ r r' hr hr' e
  exact ⟨List.ofFn_injective this.1, this.2⟩

theorem tells_state (h : NumbersReadable F) : Tells (stateText : RobotState F → List Char) Eq :=
  Tells.mono (tells_struct (tells_field RobotState.O_T_EE (tells_arr h)) (tells_more (tells_field RobotState.O_T_EE_d (tells_arr h)) (tells_more (tells_field RobotState.F_T_EE (tells_arr h)) 
    (tells_more (tells_field RobotState.F_T_NE (tells_arr h)) (tells_more (tells_field RobotState.NE_T_EE (tells_arr h)) (tells_more (tells_field RobotState.EE_T_K (tells_arr h)) 
    (tells_more (tells_field RobotState.m_ee (tells_float h)) (tells_more (tells_field RobotState.I_ee (tells_arr h)) (tells_more (tells_field RobotState.F_x_Cee (tells_arr h)) 
    (tells_more (tells_field RobotState.m_load (tells_float h)) (tells_more (tells_field RobotState.I_load (tells_arr h)) (tells_more (tells_field RobotState.F_x_Cload (tells_arr h)) 
    (tells_more (tells_field RobotState.m_total (tells_float h)) (tells_more (tells_field RobotState.I_total (tells_arr h)) (tells_more (tells_field RobotState.F_x_Ctotal (tells_arr h)) 
    (tells_more (tells_field RobotState.elbow (tells_arr h)) (tells_more (tells_field RobotState.elbow_d (tells_arr h)) (tells_more (tells_field RobotState.elbow_c (tells_arr h)) 
    (tells_more (tells_field RobotState.delbow_c (tells_arr h)) (tells_more (tells_field RobotState.ddelbow_c (tells_arr h)) (tells_more (tells_field RobotState.tau_J (tells_arr h)) 
    (tells_more (tells_field RobotState.tau_J_d (tells_arr h)) (tells_more (tells_field RobotState.dtau_J (tells_arr h)) (tells_more (tells_field RobotState.q (tells_arr h)) 
    (tells_more (tells_field RobotState.q_d (tells_arr h)) (tells_more (tells_field RobotState.dq (tells_arr h)) (tells_more (tells_field RobotState.dq_d (tells_arr h)) 
    (tells_more (tells_field RobotState.ddq_d (tells_arr h)) (tells_more (tells_field RobotState.joint_contact (tells_arr h)) (tells_more (tells_field RobotState.cartesian_contact (tells_arr h)) 
    (tells_more (tells_field RobotState.joint_collision (tells_arr h)) (tells_more (tells_field RobotState.cartesian_collision (tells_arr h)) (tells_more (tells_field RobotState.tau_ext_hat_filtered (tells_arr h)) 
    (tells_more (tells_field RobotState.O_F_ext_hat_K (tells_arr h)) (tells_more (tells_field RobotState.K_F_ext_hat_K (tells_arr h)) (tells_more (tells_field RobotState.O_dP_EE_d (tells_arr h)) 
    (tells_more (tells_field RobotState.O_ddP_O (tells_arr h)) (tells_more (tells_field RobotState.O_T_EE_c (tells_arr h)) (tells_more (tells_field RobotState.O_dP_EE_c (tells_arr h)) 
    (tells_more (tells_field RobotState.O_ddP_EE_c (tells_arr h)) (tells_more (tells_field RobotState.theta (tells_arr h)) (tells_more (tells_field RobotState.dtheta (tells_arr h)) 
    (tells_more (tells_field RobotState.current_errors tells_errors) (tells_more (tells_field RobotState.last_motion_errors tells_errors) (tells_more (tells_field RobotState.control_command_success_rate (tells_float h)) 
    (tells_more (tells_field RobotState.robot_mode tells_mode) (tells_more (tells_field RobotState.time tells_duration) tells_end))))))))))))))))))))))))))))))))))))))))))))))) (by
    intro x y e
    cases x
    cases y
    simp only [and_true] at e
    simp only [RobotState.mk.injEq]
    exact e)

theorem tells_jointPositions (h : NumbersReadable F) : Tells (jointPositionsText : JointPositions F → List Char) Eq :=
  Tells.mono (tells_struct (tells_field JointPositions.motion_finished tells_bool) (tells_more (tells_field JointPositions.q (tells_arr h)) tells_end)) (by
    rintro ⟨⟩ ⟨⟩ e; simpa using e)

theorem tells_jointVelocities (h : NumbersReadable F) : Tells (jointVelocitiesText : JointVelocities F → List Char) Eq :=
  Tells.mono (tells_struct (tells_field JointVelocities.motion_finished tells_bool) (tells_more (tells_field JointVelocities.dq (tells_arr h)) tells_end)) (by
    rintro ⟨⟩ ⟨⟩ e; simpa using e)

theorem tells_cartesianPose (h : NumbersReadable F) : Tells (cartesianPoseText : CartesianPose F → List Char) Eq :=
  Tells.mono (tells_struct (tells_field CartesianPose.motion_finished tells_bool) (tells_more (tells_field CartesianPose.O_T_EE (tells_arr h))
    (tells_more (tells_field CartesianPose.elbow (tells_option (tells_arr h))) tells_end))) (by
    rintro ⟨⟩ ⟨⟩ e; simpa using e)

theorem tells_cartesianVelocities (h : NumbersReadable F) : Tells (cartesianVelocitiesText : CartesianVelocities F → List Char) Eq :=
  Tells.mono (tells_struct (tells_field CartesianVelocities.motion_finished tells_bool) (tells_more (tells_field CartesianVelocities.O_dP_EE (tells_arr h))
    (tells_more (tells_field CartesianVelocities.elbow (tells_option (tells_arr h))) tells_end))) (by
    rintro ⟨⟩ ⟨⟩ e; simpa using e)

theorem tells_torques (h : NumbersReadable F) : Tells (torquesText : Torques F → List Char) Eq :=
  Tells.mono (tells_struct (tells_field Torques.motion_finished tells_bool) (tells_more (tells_field Torques.tau_J (tells_arr h)) tells_end)) (by
    rintro ⟨⟩ ⟨⟩ e; simpa using e)

theorem tells_command (h : NumbersReadable F) : Tells (commandText : RobotCommandLog F → List Char) Eq :=
  Tells.mono (tells_struct (tells_field RobotCommandLog.joint_positions (tells_jointPositions h)) (tells_more (tells_field RobotCommandLog.joint_velocities (tells_jointVelocities h))
    (tells_more (tells_field RobotCommandLog.cartesian_pose (tells_cartesianPose h)) (tells_more (tells_field RobotCommandLog.cartesian_velocities (tells_cartesianVelocities h))
    (tells_more (tells_field RobotCommandLog.torques (tells_torques h)) tells_end))))) (by
    rintro ⟨⟩ ⟨⟩ e; simpa using e)

/-- C107: two records with the same text are the same record: the same state of the robot, in every one of its numbers, errors and times, and the same
command. -/
theorem C107_text_tells_record (h : NumbersReadable F) (r r' : Record F) (same : r.log = r'.log) : r = r' := by
  have e := String.ofList_injective same
  have := (tells_struct (struct := "Record") (name := "state") (tells_field Record.state (tells_state h)) (tells_more (name := "command") (tells_field Record.command (tells_command h)) tells_end)) r r' [] []
    (by simp [Separated]) (by simp [Separated]) (by simpa using e)
  cases r
  cases r'
  simpa using this.1

/-- C107: also a program that saves the records of a log as lines of text has saved the whole log. -/
theorem C107_texts_tell_log (h : NumbersReadable F) (log log' : List (Record F)) (same : log.map Record.log = log'.map Record.log) : log = log' :=
  List.map_injective_iff.2 (fun r r' => C107_text_tells_record h r r') same

/-! ## What is shown -/

theorem restText_eq {α : Type} (T : α → List Char) : ∀ (x : α) (l : List α), T x ++ restText T l = ", ".toList.intercalate ((x :: l).map T) ++ "]".toList
  | x, [] => by simp [restText, List.intercalate]
  | x, y :: l => by
    have := restText_eq T y l
    simp only [restText, List.append_assoc, this]
    simp [List.intercalate]

theorem arrText_eq {n : ℕ} (v : Arr F n) : arrText v = bracketed (List.ofFn v) := by
  unfold arrText bracketed
  cases List.ofFn v with
  | nil => rfl
  | cons x l =>
    have := restText_eq floatText x l
    simp only [listText, List.append_assoc, this]
    rfl

theorem infix_more {α : Type} {name : String} {T : α → List Char} (x : α) : ∀ {l : List (String × (α → List Char))}, (name, T) ∈ l →
    (name ++ ": ").toList ++ T x <:+: moreText l x
  | f :: l, h => by
    rcases List.mem_cons.1 h with rfl | h
    · exact ⟨[',', ' '], moreText l x, by simp [moreText]⟩
    · exact (infix_more x h).trans (List.suffix_append _ _).isInfix

theorem infix_struct {α : Type} {struct name : String} {T : α → List Char} (x : α) : ∀ {l : List (String × (α → List Char))}, (name, T) ∈ l →
    (name ++ ": ").toList ++ T x <:+: structText struct l x
  | f :: l, h => by
    rcases List.mem_cons.1 h with rfl | h
    · exact ⟨struct.toList ++ [' ', '{', ' '], moreText l x, by simp [structText]⟩
    · exact (infix_more x h).trans (List.suffix_append _ _).isInfix

theorem infix_field {α : Type} {struct name : String} {T : α → List Char} (x : α) {l : List (String × (α → List Char))} (h : (name, T) ∈ l) :
    T x <:+: structText struct l x :=
  (List.suffix_append _ _).isInfix.trans (infix_struct x h)

/-- C107: each array of the state is shown with its name. -/
theorem C107_state_shown (r : Record F) : ∀ f ∈ stateArrays, (f.1 ++ ": ").toList ++ bracketed (f.2 r.state) <:+: r.log.toList := by
  intro f hf
  have hs : stateText r.state <:+: r.log.toList := by
    rw [Record.log, String.toList_ofList]
    exact infix_field (T := fun x : Record F => stateText x.state) r (name := "state") (by simp)
  refine List.IsInfix.trans ?_ hs
  simp only [stateArrays, List.mem_cons, List.not_mem_nil, or_false] at hf
  rcases hf with rfl | rfl | rfl | rfl | rfl | rfl | rfl | rfl | rfl | rfl | rfl | rfl | rfl | rfl | rfl | rfl | rfl | rfl | rfl | rfl | rfl | rfl | rfl | rfl | rfl | rfl | rfl | rfl | rfl | rfl | rfl | rfl | rfl | rfl | rfl | rfl | rfl | rfl | rfl <;>
    (simp only [← arrText_eq]; rw [stateText]; refine infix_struct (α := RobotState F) (T := fun s => arrText _) r.state ?_; simp only [List.mem_cons, true_or, or_true])

/-- C107: each array of the command is shown with its name, after the kind of motion or torques it belongs to and whether the motion has finished. -/
theorem C107_command_shown (r : Record F) : ∀ f ∈ commandArrays,
    (f.1 ++ " { motion_finished: " ++ (if (f.2.2 r.command).1 then "true" else "false") ++ ", " ++ f.2.1 ++ ": ").toList ++ bracketed (f.2.2 r.command).2 <:+: r.log.toList := by
  intro f hf
  have hs : commandText r.command <:+: r.log.toList := by
    rw [Record.log, String.toList_ofList]
    exact infix_field (T := fun x : Record F => commandText x.command) r (name := "command") (by simp)
  refine List.IsInfix.trans ?_ hs
  simp only [commandArrays, List.mem_cons, List.not_mem_nil, or_false] at hf
  rcases hf with rfl | rfl | rfl | rfl | rfl
  · refine List.IsInfix.trans ?_ (infix_field (name := "joint_positions") (T := fun x : RobotCommandLog F => jointPositionsText x.joint_positions) r.command (by simp))
    simp only [← arrText_eq]
    exact ⟨[], [' ', '}'], by rcases Bool.eq_false_or_eq_true r.command.joint_positions.motion_finished with h | h <;> simp [jointPositionsText, structText, moreText, boolText, h]⟩
  · refine List.IsInfix.trans ?_ (infix_field (name := "joint_velocities") (T := fun x : RobotCommandLog F => jointVelocitiesText x.joint_velocities) r.command (by simp))
    simp only [← arrText_eq]
    exact ⟨[], [' ', '}'], by rcases Bool.eq_false_or_eq_true r.command.joint_velocities.motion_finished with h | h <;> simp [jointVelocitiesText, structText, moreText, boolText, h]⟩
  · refine List.IsInfix.trans ?_ (infix_field (name := "cartesian_pose") (T := fun x : RobotCommandLog F => cartesianPoseText x.cartesian_pose) r.command (by simp))
    simp only [← arrText_eq]
    exact ⟨[], [',', ' '] ++ "elbow: ".toList ++ optionText arrText r.command.cartesian_pose.elbow ++ [' ', '}'],
      by rcases Bool.eq_false_or_eq_true r.command.cartesian_pose.motion_finished with h | h <;> simp [cartesianPoseText, structText, moreText, boolText, h]⟩
  · refine List.IsInfix.trans ?_ (infix_field (name := "cartesian_velocities") (T := fun x : RobotCommandLog F => cartesianVelocitiesText x.cartesian_velocities) r.command (by simp))
    simp only [← arrText_eq]
    exact ⟨[], [',', ' '] ++ "elbow: ".toList ++ optionText arrText r.command.cartesian_velocities.elbow ++ [' ', '}'],
      by rcases Bool.eq_false_or_eq_true r.command.cartesian_velocities.motion_finished with h | h <;> simp [cartesianVelocitiesText, structText, moreText, boolText, h]⟩
  · refine List.IsInfix.trans ?_ (infix_field (name := "torques") (T := fun x : RobotCommandLog F => torquesText x.torques) r.command (by simp))
    simp only [← arrText_eq]
    exact ⟨[], [' ', '}'], by rcases Bool.eq_false_or_eq_true r.command.torques.motion_finished with h | h <;> simp [torquesText, structText, moreText, boolText, h]⟩

end

/-! ## Examples -/

/-- Whole numbers written with their digits meet the assumption about numbers. -/
local instance : FloatText ℕ := ⟨fun n => n.repr.toList⟩

theorem naturals_readable : NumbersReadable ℕ where
  different x y h := Nat.repr_injective (String.toList_inj.1 h)
  some_text x h := by
    have : x.repr = "" := String.toList_inj.1 h
    exact Nat.repr_ne_empty this
  plain x c hc hs := by
    have hd := repr_digits x c hc
    simp only [separators, List.mem_cons, List.not_mem_nil, or_false] at hs
    rcases hs with rfl | rfl | rfl | rfl | rfl <;> exact absurd hd (by decide)

/-- Two records which differ only in one torque have different texts. -/
example (r : Record ℕ) (h : r.state.tau_J 6 = 5) (tau : Arr ℕ 7) (ht : tau 6 = 7) : r.log ≠ { r with state := { r.state with tau_J := tau } }.log := by
  intro e
  have := congrArg (fun r : Record ℕ => r.state.tau_J 6) (C107_text_tells_record naturals_readable _ _ e)
  simp only [h, ht] at this
  exact absurd this (by decide)

/-- Times. -/
example : String.ofList (durationText 0) = "0ns" ∧ String.ofList (durationText 42) = "42ms" ∧ String.ofList (durationText 1500) = "1.5s" ∧
    String.ofList (durationText 62003) = "62.003s" ∧ String.ofList (durationText 3000) = "3s" := by decide

/-- A command. -/
example : String.ofList (cartesianVelocitiesText (⟨true, fun i => i.val, some fun _ => 1⟩ : CartesianVelocities ℕ)) =
    "CartesianVelocities { motion_finished: true, O_dP_EE: [0, 1, 2, 3, 4, 5], elbow: Some([1, 1]) }" := by decide

end Verif
