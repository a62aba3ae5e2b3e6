import Verif.Spec.Mirror
import Verif.Props.Impedance
import Mathlib.Tactic.Linarith
/-!
# The two threads of the mirror example: C98
-/
set_option linter.unusedSectionVars false
namespace Verif
open Spec Examples Fl
variable {F : Type}

namespace Mirror

theorem userPoses_append (a b : List (MirrorTurn F)) : userPoses (a ++ b) = userPoses a ++ userPoses b := by simp [userPoses]

theorem mirrorCalls_append (a b : List (MirrorTurn F)) : mirrorCalls (a ++ b) = mirrorCalls a + mirrorCalls b := by simp [mirrorCalls]

theorem suffix_snoc {α : Type} {p ts : List α} {t : α} : p <:+ ts ++ [t] ↔ p = [] ∨ ∃ q, q <:+ ts ∧ p = q ++ [t] := by
  rcases List.eq_nil_or_concat p with rfl | ⟨q, x, rfl⟩
  · simp
  · simp only [List.concat_eq_append]
    constructor
    · rintro ⟨u, hu⟩
      rw [← List.append_assoc] at hu
      obtain ⟨h1, h2⟩ := List.append_inj' hu rfl
      exact .inr ⟨q, ⟨u, h1⟩, by rw [h2]⟩
    · rintro (h | ⟨q', ⟨u, hu⟩, h⟩)
      · simp at h
      · exact ⟨u, by rw [h, ← List.append_assoc, hu]⟩

theorem behind_nil : Behind ([] : List (MirrorTurn F)) 0 :=
  ⟨⟨[], List.suffix_refl _, rfl⟩, by rintro d ⟨p, hp, rfl⟩; rw [List.suffix_nil.1 hp]; rfl⟩

theorem behind_user {ts : List (MirrorTurn F)} {n : ℕ} (h : Behind ts n) (st : RobotState F) (dt : ℕ) : Behind (ts ++ [.user st dt]) (n + 1) := by
  have one : ∀ q : List (MirrorTurn F), ((userPoses (q ++ [.user st dt])).length : ℤ) - mirrorCalls (q ++ [.user st dt]) = (userPoses q).length - mirrorCalls q + 1 := by
    intro q
    rw [userPoses_append, mirrorCalls_append]
    simp [userPoses, mirrorCalls]
    ring
  obtain ⟨⟨p, hp, e⟩, hub⟩ := h
  refine ⟨⟨p ++ [.user st dt], suffix_snoc.2 (.inr ⟨p, hp, rfl⟩), by rw [one, ← e]; rfl⟩, ?_⟩
  rintro d ⟨q, hq, rfl⟩
  rcases suffix_snoc.1 hq with rfl | ⟨q, hq', rfl⟩
  · simp [userPoses, mirrorCalls]
    positivity
  · rw [one]
    have := hub ⟨q, hq', rfl⟩
    push_cast
    linarith

theorem behind_mirror {ts : List (MirrorTurn F)} {n : ℕ} (h : Behind ts n) (st : RobotState F) (dt : ℕ) : Behind (ts ++ [.mirror st dt]) (n - 1) := by
  have one : ∀ q : List (MirrorTurn F), ((userPoses (q ++ [.mirror st dt])).length : ℤ) - mirrorCalls (q ++ [.mirror st dt]) = (userPoses q).length - mirrorCalls q - 1 := by
    intro q
    rw [userPoses_append, mirrorCalls_append]
    simp [userPoses, mirrorCalls]
    ring
  obtain ⟨⟨p, hp, e⟩, hub⟩ := h
  refine ⟨?_, ?_⟩
  · cases n with
    | zero => exact ⟨[], List.nil_suffix, rfl⟩
    | succ n => exact ⟨p ++ [.mirror st dt], suffix_snoc.2 (.inr ⟨p, hp, rfl⟩), by rw [one, ← e]; simp⟩
  · rintro d ⟨q, hq, rfl⟩
    rcases suffix_snoc.1 hq with rfl | ⟨q, hq', rfl⟩
    · simp [userPoses, mirrorCalls]
    · rw [one]
      have := hub ⟨q, hq', rfl⟩
      omega

theorem behind_unique {ts : List (MirrorTurn F)} {m n : ℕ} (h1 : Behind ts m) (h2 : Behind ts n) : m = n := by
  have := h1.unique h2
  exact_mod_cast this

theorem behind_exists (ts : List (MirrorTurn F)) : ∃ n, Behind ts n := by
  induction ts using List.reverseRecOn with
  | nil => exact ⟨0, behind_nil⟩
  | append_singleton ts t ih =>
    obtain ⟨n, h⟩ := ih
    cases t with
    | user st dt => exact ⟨_, behind_user h st dt⟩
    | mirror st dt => exact ⟨_, behind_mirror h st dt⟩

variable [Fl F] [Geo F] [GeoExtra F] {model : ModelLibrary F}

theorem turns_append (c : MirrorState F) (ts us : List (MirrorTurn F)) : mirror_turns model c (ts ++ us) =
    ((mirror_turns model (mirror_turns model c ts).1 us).1, (mirror_turns model c ts).2 ++ (mirror_turns model (mirror_turns model c ts).1 us).2) := by
  induction ts generalizing c with
  | nil => rfl
  | cons t ts ih =>
    have := ih (mirror_turn model c t).1
    show ((mirror_turns model (mirror_turn model c t).1 (ts ++ us)).1, (mirror_turn model c t).2 :: (mirror_turns model (mirror_turn model c t).1 (ts ++ us)).2) = _
    rw [this]
    rfl

theorem turns_length (c : MirrorState F) (ts : List (MirrorTurn F)) : (mirror_turns model c ts).2.length = ts.length := by
  induction ts generalizing c with
  | nil => rfl
  | cons t ts ih => exact congrArg (· + 1) (ih _)

/-- What is in the channel and which pose is desired. -/
theorem turns_state (d0 : Arr F 16) (ts : List (MirrorTurn F)) {n : ℕ} (hn : Behind ts n) :
    n ≤ (userPoses ts).length ∧ (mirror_turns model ⟨[], d0⟩ ts).1.channel = (userPoses ts).drop ((userPoses ts).length - n) ∧
      (d0 :: userPoses ts)[(userPoses ts).length - n]? = some (mirror_turns model ⟨[], d0⟩ ts).1.desired_state := by
  induction ts using List.reverseRecOn generalizing n with
  | nil =>
    cases behind_unique hn behind_nil
    exact ⟨le_refl _, rfl, rfl⟩
  | append_singleton ts t ih =>
    obtain ⟨k, hk⟩ := behind_exists ts
    obtain ⟨h1, h2, h3⟩ := ih hk
    rw [turns_append]
    cases t with
    | user st dt =>
      cases behind_unique hn (behind_user hk st dt)
      have e : userPoses (ts ++ [.user st dt]) = userPoses ts ++ [st.O_T_EE] := by rw [userPoses_append]; rfl
      rw [e, List.length_append, List.length_singleton]
      refine ⟨by omega, ?_, ?_⟩
      · show (mirror_turns model ⟨[], d0⟩ ts).1.channel ++ [st.O_T_EE] = _
        rw [h2, show (userPoses ts).length + 1 - (k + 1) = (userPoses ts).length - k by omega, List.drop_append_of_le_length (by omega)]
      · show _ = some (mirror_turns model ⟨[], d0⟩ ts).1.desired_state
        rw [show (userPoses ts).length + 1 - (k + 1) = (userPoses ts).length - k by omega, ← h3, ← List.cons_append, List.getElem?_append_left (by simp)]
    | mirror st dt =>
      cases behind_unique hn (behind_mirror hk st dt)
      have e : userPoses (ts ++ [.mirror st dt]) = userPoses ts := by rw [userPoses_append]; exact List.append_nil _
      rw [e]
      refine ⟨by omega, ?_, ?_⟩
      · show (mirror_turns model ⟨[], d0⟩ ts).1.channel.tail = _
        rw [h2, List.tail_drop]
        cases k with
        | zero => simp
        | succ k => rw [show (userPoses ts).length - (k + 1) + 1 = (userPoses ts).length - (k + 1 - 1) by omega]
      · show _ = some ((mirror_turns model ⟨[], d0⟩ ts).1.channel.head?.getD (mirror_turns model ⟨[], d0⟩ ts).1.desired_state)
        rw [h2]
        cases k with
        | zero =>
          rw [Nat.sub_zero, List.drop_length]
          exact h3
        | succ k =>
          have hlt : (userPoses ts).length - (k + 1) < (userPoses ts).length := by omega
          rw [show (userPoses ts).length - (k + 1 - 1) = (userPoses ts).length - (k + 1) + 1 by omega, List.getElem?_cons_succ, List.head?_drop,
            List.getElem?_eq_getElem hlt]
          rfl

end Mirror

open Mirror
variable [Fl F] [Geo F] [GeoExtra F]

/-- **C98**: if the user's robot was called `n` times more often than the mirror in some period up to now, and never more, then the mirror follows the pose that the user's robot had `n` of
its calls ago: it takes the poses one after the other and leaves none out. Before the first pose it takes the one of the beginning. -/
theorem C98_follows (model : ModelLibrary F) (d0 : Arr F 16) (before after : List (MirrorTurn F)) (st : RobotState F) (dt : ℕ) {n : ℕ}
    (hn : Behind (before ++ [.mirror st dt]) n) :
    ∃ desired, (d0 :: userPoses before)[(userPoses before).length - n]? = some desired ∧ n ≤ (userPoses before).length ∧
      (mirror_turns model ⟨[], d0⟩ (before ++ .mirror st dt :: after)).2[before.length]? = some (mirror_callback model desired none st dt).2 := by
  obtain ⟨h1, -, h3⟩ := turns_state (model := model) d0 _ hn
  have e : userPoses (before ++ [.mirror st dt]) = userPoses before := by rw [userPoses_append]; exact List.append_nil _
  rw [e] at h1 h3
  refine ⟨_, h3, h1, ?_⟩
  rw [turns_append, turns_append, List.getElem?_append_right (by rw [turns_length]), turns_length, Nat.sub_self]
  rfl

/-- **C98**: the user's robot gets no torques. -/
theorem C98_user (model : ModelLibrary F) (c : MirrorState F) (before after : List (MirrorTurn F)) (st : RobotState F) (dt : ℕ) :
    (mirror_turns model c (before ++ .user st dt :: after)).2[before.length]? = some (.new fun _ => lit 0) := by
  rw [turns_append, List.getElem?_append_right (by rw [turns_length]), turns_length, Nat.sub_self]
  rfl

/-- **C98**: a mirror that is behind stays behind, by at least as much, as long as it is not called more often than the user's robot. -/
theorem C98_stays_behind {ts us : List (MirrorTurn F)} {m n : ℕ} (h1 : Behind ts m) (h2 : Behind (ts ++ us) n) (h : mirrorCalls us ≤ (userPoses us).length) : m ≤ n := by
  obtain ⟨⟨p, hp, e⟩, -⟩ := h1
  obtain ⟨u, hu⟩ := hp
  have := h2.2 ⟨p ++ us, ⟨u, by rw [← hu, List.append_assoc]⟩, rfl⟩
  rw [userPoses_append, mirrorCalls_append, List.length_append] at this
  push_cast at this
  omega

/-- **C98**: and it is never behind by more than the user's robot was called. If it is called after each call of the user's robot then it follows the newest pose. -/
theorem C98_up_to_date (ts : List (MirrorTurn F)) : (∃ n, Behind ts n ∧ n ≤ (userPoses ts).length) ∧
    ((∀ period, period <:+ ts → (userPoses period).length ≤ mirrorCalls period) → Behind ts 0) := by
  refine ⟨?_, fun h => ⟨⟨[], List.nil_suffix, rfl⟩, ?_⟩⟩
  · obtain ⟨n, hn⟩ := behind_exists ts
    refine ⟨n, hn, ?_⟩
    obtain ⟨⟨p, ⟨u, hu⟩, e⟩, -⟩ := hn
    have : (userPoses ts).length = (userPoses u).length + (userPoses p).length := by rw [← hu, userPoses_append, List.length_append]
    omega
  · rintro d ⟨p, hp, rfl⟩
    have := h p hp
    omega

/-- C98: the user's robot is called three times before the mirror is called; from then on they take turns. The mirror is behind by two for ever. -/
example (st : ℕ → RobotState F) (k : ℕ) : Behind ([.user (st 0) 1, .user (st 1) 1, .user (st 2) 1, .mirror (st 3) 1] ++
    (List.range k).flatMap fun i => [.user (st i) 1, .mirror (st i) 1]) 2 := by
  induction k with
  | zero => exact behind_mirror (behind_user (ts := [_, _]) (behind_user (ts := [_]) (behind_user (ts := []) behind_nil _ _) _ _) _ _) _ _
  | succ k ih =>
    rw [List.range_succ, List.flatMap_append, ← List.append_assoc]
    have := behind_mirror (behind_user ih (st k) 1) (st k) 1
    rw [List.append_assoc] at this
    exact this

/-- C98: and so the mirror follows the second pose when the newest one is the fourth. -/
example (model : ModelLibrary F) (st : ℕ → RobotState F) (d0 : Arr F 16) :
    (mirror_turns model ⟨[], d0⟩ [.user (st 0) 1, .user (st 1) 1, .user (st 2) 1, .mirror (st 3) 1, .user (st 4) 1, .mirror (st 5) 1]).2[5]? =
      some (mirror_callback model (st 1).O_T_EE none (st 5) 1).2 := rfl

end Verif
