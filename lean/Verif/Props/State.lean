import Verif.Spec.State
import Verif.Props.Stream
import Verif.Model.ModelLib
import Verif.Lemmas.Next
import Mathlib.Data.List.Nodup
import Mathlib.Data.List.Perm.Subperm
/-!
# What a robot state says: C50, C51, C55, C56

The order of the error flags and the offsets of the fields are in `Spec/State.lean`.
-/
set_option linter.unusedSectionVars false
namespace Verif
open Prog Spec

/-! ## C50 -/

theorem flagOrder_get (i : Fin 41) : flagOrder[i.val]? = FrankaError.from_i32 i.val := by revert i; decide

theorem flagOrder_lt {i : Nat} {e : FrankaError} (h : flagOrder[i]? = some e) : i < 41 := (List.getElem?_eq_some_iff.1 h).1

theorem flagOrder_inj {i j : Nat} {e : FrankaError} (hi : flagOrder[i]? = some e) (hj : flagOrder[j]? = some e) : i = j := by
  have hn : flagOrder.Nodup := by decide
  obtain ⟨h1, h2⟩ := List.getElem?_eq_some_iff.1 hi
  obtain ⟨h3, h4⟩ := List.getElem?_eq_some_iff.1 hj
  exact (List.Nodup.getElem_inj_iff hn).1 (h2.trans h4.symm)

theorem flagOrder_eq : flagOrder = (List.finRange 41).filterMap fun i => FrankaError.from_i32 i.val := by decide

/-- The list of errors made from 41 flags. -/
theorem flags_of_array {bs : Bytes} {off : Nat} {flags : Arr Bool 41} (h : ∀ i : Fin 41, boolAt bs (off + i.val) (flags i)) :
    Flags bs off ⟨((List.finRange 41).filter fun i => flags i).filterMap fun i => FrankaError.from_i32 i.val⟩ where
  exact i e hi := by
    have hlt := flagOrder_lt hi
    simp only [List.mem_filterMap, List.mem_filter, List.mem_finRange, true_and]
    have hb := h ⟨i, hlt⟩
    unfold boolAt at hb
    constructor
    · rintro ⟨j, hj, hej⟩
      obtain rfl := flagOrder_inj hi ((flagOrder_get j).trans hej)
      rw [hb, hj]; rfl
    · intro hn
      refine ⟨⟨i, hlt⟩, ?_, (flagOrder_get ⟨i, hlt⟩).symm.trans hi⟩
      rw [hn] at hb
      by_contra hf
      rw [Bool.not_eq_true] at hf
      rw [hf] at hb
      exact absurd hb (by decide)
  ordered := by
    rw [flagOrder_eq]
    exact (List.filter_sublist).filterMap _

theorem combined_flags {bs : Bytes} {off : Nat} {a : Arr Bool 32} {b : Arr Bool 9} (h1 : ∀ i : Fin 32, boolAt bs (off + i.val) (a i))
    (h2 : ∀ i : Fin 9, boolAt bs (off + 32 + i.val) (b i)) (i : Fin 41) :
    boolAt bs (off + i.val) (if h : i.val < 32 then a ⟨i.val, h⟩ else b ⟨i.val - 32, by omega⟩) := by
  split
  · exact h1 ⟨i.val, by assumption⟩
  · have := h2 ⟨i.val - 32, by omega⟩
    rw [show off + 32 + (i.val - 32) = off + i.val by omega] at this
    exact this

section
variable {F : Type} [Fl F] [Wire F]

/-- C50: an error is reported exactly if its flag in the datagram is set, in flag order and without duplicates; for the current errors and for
those that ended the last motion. -/
theorem C50_errors_are_the_flags {bs : Bytes} {s : RobotStateIntern F} (h : StateLayout bs s) :
    Flags bs 2282 (RobotState.ofIntern s).current_errors ∧ Flags bs 2323 (RobotState.ofIntern s).last_motion_errors :=
  ⟨flags_of_array (combined_flags h.errors_errors1 h.errors_errors2), flags_of_array (combined_flags h.errors_reflex_reason1 h.errors_reflex_reason2)⟩

/-- C50: no flag pattern panics: every one of the 41 flags has an error kind, and every error kind has a flag. -/
theorem C50_every_flag_has_a_kind : (∀ i < 41, ∃ e, FrankaError.from_i32 i = some e ∧ flagOrder[i]? = some e) ∧ ∀ e : FrankaError, e ∈ flagOrder := by
  refine ⟨fun i hi => ?_, fun e => by cases e <;> decide⟩
  have h := flagOrder_get ⟨i, hi⟩
  have hl : i < flagOrder.length := hi
  exact ⟨flagOrder[i], by rw [← h]; exact List.getElem?_eq_getElem hl, List.getElem?_eq_getElem hl⟩

/-- C50: as many errors are reported as flags are set. -/
theorem C50_number_of_errors {bs : Bytes} {off : Nat} {errors : FrankaErrors} (h : Flags bs off errors) :
    errors.franka_errors.length = ((List.range 41).filter fun i => natAt bs (off + i) 1 = 1).length := by
  have hn : flagOrder.Nodup := by decide
  have h1 : errors.franka_errors = flagOrder.filter fun e => e ∈ errors.franka_errors := by
    have hnd := h.ordered.nodup hn
    obtain ⟨l, hl⟩ : ∃ l, l = errors.franka_errors := ⟨_, rfl⟩
    rw [← hl] at hnd ⊢
    have ho := h.ordered
    rw [← hl] at ho
    refine List.Sublist.eq_of_length (l₁ := l) ?_ ?_
    · have := ho.filter fun e => decide (e ∈ l)
      rwa [List.filter_eq_self.2 (by simp)] at this
    · refine le_antisymm ?_ ?_
      · have := (ho.filter fun e => decide (e ∈ l)).length_le
        rwa [List.filter_eq_self.2 (by simp)] at this
      · exact (List.subperm_of_subset (hn.filter _) fun e he => by simpa using (List.mem_filter.1 he).2).length_le
  have h2 : flagOrder = (List.range 41).map fun i => (flagOrder[i]?).getD .JointReflex := by decide
  rw [h1]
  conv_lhs => rw [h2]
  rw [List.filter_map, List.length_map]
  congr 1
  refine List.filter_congr fun i hi => ?_
  have hl : i < flagOrder.length := List.mem_range.1 hi
  have hg : flagOrder[i]? = some flagOrder[i] := List.getElem?_eq_getElem hl
  have := h.exact i _ hg
  simp only [Function.comp_apply, hg, Option.getD_some, this]

/-- C50: `contains` answers for the list. -/
theorem C50_contains (errors : FrankaErrors) (e : FrankaError) : errors.contains e = true ↔ e ∈ errors.franka_errors := by
  unfold FrankaErrors.contains; exact decide_eq_true_iff

/-! ## C51 -/

/-- C51: every documented field of a robot state is in the datagram, at its offset, unchanged; the time is the message id. -/
theorem C51_every_field_is_kept {bs : Bytes} {s : RobotStateIntern F} (h : StateLayout bs s) : StateFields bs (RobotState.ofIntern s) where
  time := h.message_id.symm
  O_T_EE := h.O_T_EE
  O_T_EE_d := h.O_T_EE_d
  F_T_EE := h.F_T_EE
  F_T_NE := h.F_T_NE
  NE_T_EE := h.NE_T_EE
  EE_T_K := h.EE_T_K
  m_ee := h.m_ee
  I_ee := h.I_ee
  F_x_Cee := h.F_x_Cee
  m_load := h.m_load
  I_load := h.I_load
  F_x_Cload := h.F_x_Cload
  elbow := h.elbow
  elbow_d := h.elbow_d
  elbow_c := h.elbow_c
  delbow_c := h.delbow_c
  ddelbow_c := h.ddelbow_c
  tau_J := h.tau_J
  tau_J_d := h.tau_J_d
  dtau_J := h.dtau_J
  q := h.q
  q_d := h.q_d
  dq := h.dq
  dq_d := h.dq_d
  ddq_d := h.ddq_d
  joint_contact := h.joint_contact
  cartesian_contact := h.cartesian_contact
  joint_collision := h.joint_collision
  cartesian_collision := h.cartesian_collision
  tau_ext_hat_filtered := h.tau_ext_hat_filtered
  O_F_ext_hat_K := h.O_F_ext_hat_K
  K_F_ext_hat_K := h.K_F_ext_hat_K
  O_dP_EE_d := h.O_dP_EE_d
  O_ddP_O := h.O_ddP_O
  O_T_EE_c := h.O_T_EE_c
  O_dP_EE_c := h.O_dP_EE_c
  O_ddP_EE_c := h.O_ddP_EE_c
  theta := h.theta
  dtheta := h.dtheta
  current_errors := (C50_errors_are_the_flags h).1
  last_motion_errors := (C50_errors_are_the_flags h).2
  control_command_success_rate := h.control_command_success_rate
  robot_mode := h.robot_mode

end

section
variable {F : Type} [Fl F] [Wire F] [LawfulWire F] [Geo F]

/-- A state that is shown was accepted before. -/
def ShownBefore (pre : List (Ev F)) (e : Ev F) : Prop := ∀ st ∈ shownBy e, ∃ s ∈ accepted pre, st = RobotState.ofIntern s

theorem run_last_accepted {σ : Type} {k : MotionKind} {call : ControlCall F σ k} {c0 : σ} {s0 : RobotStateIntern F} {tr : List (Ev F)} {ph : Phase F σ}
    (h : Run call c0 (.before s0) tr ph) : ph.last = s0 ∨ ph.last ∈ accepted tr := by
  generalize hp : Phase.before s0 = ph0 at h
  induction h with
  | nil => left; rw [← hp]; rfl
  | snoc hr hs ih =>
    rw [accepted_append]
    have keep : ∀ {s : RobotStateIntern F} {l1 l2 : List (RobotStateIntern F)}, s = s0 ∨ s ∈ l1 → s = s0 ∨ s ∈ l1 ++ l2 := by
      rintro s l1 l2 (h | h)
      · exact .inl h
      · exact .inr (List.mem_append_left _ h)
    cases hs <;> first | exact keep ih | exact .inr (List.mem_append_right _ (List.mem_singleton.2 rfl))

theorem rule_C51 : EventRule (F := F) ShownBefore where
  request pre r _ := by intro st h; simp [shownBy] at h
  accepted pre s := by intro st h; simp [shownBy] at h
  shown pre s b := by
    intro st h
    rw [List.mem_singleton.1 h]
    exact ⟨s, by simp [accepted], rfl⟩
  control call c0 s ctx pre ph ph' e hf hs hr he := by
    intro st h
    have h0 : s ∈ accepted ctx := by
      unfold lastAccepted at hs
      exact List.mem_of_getLast? hs
    have h1 : ph.last ∈ accepted (ctx ++ pre) := by
      rw [accepted_append, List.mem_append]
      rcases run_last_accepted hr with h | h
      · rw [h]; exact .inl h0
      · exact .inr h
    refine ⟨ph.last, h1, ?_⟩
    cases he <;> first | exact List.mem_singleton.1 h | exact absurd h List.not_mem_nil

theorem visible_split {tr pre post : List (Ev F)} {e : Ev F} (h : tr = pre ++ e :: post) (he : shownBy e ≠ []) :
    visible tr = visible pre ++ e :: visible post := by
  rw [h, visible_append]
  congr 1
  rw [show e :: post = [e] ++ post from rfl, visible_append]
  cases e <;> first | rfl | exact absurd rfl he

theorem accepted_split {tr : List (Ev F)} {s : RobotStateIntern F} (h : s ∈ accepted tr) : ∃ p1 p2, tr = p1 ++ Ev.accepted s :: p2 := by
  unfold accepted at h
  obtain ⟨e', he', hs⟩ := List.mem_filterMap.1 h
  cases e' <;> simp at hs
  subst hs
  exact List.append_of_mem he'

/-- C51: in every history, if all datagrams have the size of a robot state, each robot state shown to a callback has every field of one datagram
received before. -/
theorem C51_shown_states_are_datagrams (rc : Option RealtimeConfig) (ls : Option Nat) (cs : List (RobotCall F)) (w : World F) (hw : Fresh w)
    (hx : ExactSize (udpArrived w.script)) :
    Before (fun pre e => ∀ st ∈ shownBy e, ∃ d ∈ datagrams pre, StateFields d.data st) (robotSession rc ls cs w).2.trace := by
  intro pre e post h st hst
  have hne : shownBy e ≠ [] := List.ne_nil_of_mem hst
  obtain ⟨s, h1, rfl⟩ := rule_C51.session rc ls cs w hw _ e _ (visible_split h hne) st hst
  rw [accepted_visible] at h1
  obtain ⟨pre1, post1, h2⟩ := accepted_split h1
  obtain ⟨d, hd, -, hl⟩ := C13_state_is_one_datagram_partial rc ls cs w hw hx pre1 (.accepted s) (post1 ++ e :: post) (by rw [h, h2]; simp) s rfl
  exact ⟨d, by rw [h2, datagrams_append]; exact List.mem_append_left _ hd, C51_every_field_is_kept hl⟩

/-- C51: the same for what `read_once` returns. -/
theorem C51_read_once_returns_a_datagram (rc : Option RealtimeConfig) (ls : Option Nat) (cs : List (RobotCall F)) (w0 : World F) (hw : Fresh w0)
    (hx : ExactSize (udpArrived w0.script)) {w w' : World F} (hs : robotSession rc ls cs w0 = (.ok (), w)) {st : RobotState F}
    (h : Robot.read_once w = (.ok st, w')) : ∃ d ∈ datagrams w'.trace, StateFields d.data st := by
  obtain ⟨s, rfl, h1, -⟩ := C11_read_once_is_newer ⟨rc, ls, cs, w0, hw, hs⟩ h
  have hr : (RobotCall.read_once (F := F)).run w = (.ok (), w') := (bind_of h).trans rfl
  have h2 := session_snoc hs .read_once (by rw [hr]; exact .inl rfl)
  rw [hr] at h2
  have h3 := C13_state_is_one_datagram_partial rc ls (cs ++ [.read_once]) w0 hw hx
  rw [h2] at h3
  have h4 : s ∈ accepted w'.trace := by rw [h1]; simp
  obtain ⟨pre, post, h5⟩ := accepted_split h4
  obtain ⟨d, hd, -, hl⟩ := h3 pre (.accepted s) post h5 s rfl
  exact ⟨d, by rw [h5, datagrams_append]; exact List.mem_append_left _ hd, C51_every_field_is_kept hl⟩

end

/-! ## Examples -/

namespace Toy

/-- A state datagram in which the flags 6 and 40 of the current errors and the flag 3 of the last motion are set. -/
def flagged : Bytes := (((state 4).set (2282 + 6) 1).set (2282 + 40) 1).set (2323 + 3) 1

/-- The errors of the state `read_once` returns. -/
def errorsShown (w : World UInt64) : Option (Nat × List FrankaError × List FrankaError) := match (Robot.read_once w).1 with
  | .ok s => some (s.time, s.current_errors.franka_errors, s.last_motion_errors.franka_errors)
  | _ => none

theorem flagged_shown : errorsShown (waiting [⟨7, flagged⟩]) =
    some (4, [.JointReflex, .BaseAccelerationInvalidReading], [.JointVelocityViolation]) := by kernel_rfl

end Toy

/-- Hypotheses of C50 and C51: a reachable robot, only datagrams of the right size, and a call that returns a state with errors. -/
example : Fresh (Toy.world (Toy.handshake ++ ([Toy.quiet, Toy.quiet, Toy.atOnce [⟨7, Toy.flagged⟩]] ++ List.replicate 5 Toy.quiet))) ∧
    ExactSize (udpArrived (Toy.handshake ++ ([Toy.quiet, Toy.quiet, Toy.atOnce [⟨7, Toy.flagged⟩]] ++ List.replicate 5 Toy.quiet))) ∧
    ∃ st w', Robot.read_once (Toy.waiting [⟨7, Toy.flagged⟩]) = (.ok st, w') ∧ st.current_errors.franka_errors = [.JointReflex, .BaseAccelerationInvalidReading] := by
  refine ⟨Toy.fresh _ _ _, ?_, ?_⟩
  · have : (udpArrived (Toy.handshake ++ ([Toy.quiet, Toy.quiet, Toy.atOnce [⟨7, Toy.flagged⟩]] ++ List.replicate 5 Toy.quiet))) =
      [⟨7, Toy.state 1⟩, ⟨7, Toy.flagged⟩] := by kernel_rfl
    rw [this]
    intro d hd
    simp only [List.mem_cons, List.not_mem_nil, or_false] at hd
    rcases hd with rfl | rfl <;> decide +kernel
  · have h := Toy.flagged_shown
    unfold Toy.errorsShown at h
    cases hr : Robot.read_once (Toy.waiting [⟨7, Toy.flagged⟩]) with
    | mk r w' =>
      rw [hr] at h
      cases r with
      | ok st =>
        simp only [Option.some.injEq, Prod.mk.injEq] at h
        exact ⟨st, w', rfl, h.2.1⟩
      | err e => cases h
      | panic m => cases h
      | blocked => cases h

end Verif
