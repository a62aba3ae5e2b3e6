import Verif.Spec.Logger
import Mathlib.Data.List.Rotate
/-! What `Logger::log` and `Logger::flush` do. -/
namespace Verif
open Spec
variable {F : Type}

/-- The logger holds the pairs `q`, oldest first. -/
structure Logger.Holds (l : Logger F) (q : List (RobotState F × RobotCommand F)) : Prop where
  states : l.states = q.map (·.1)
  commands : l.commands = q.map (·.2)

theorem Logger.Holds.tail {l : Logger F} {q : List (RobotState F × RobotCommand F)} (h : l.Holds q) :
    l.states.tail = q.tail.map (·.1) ∧ l.commands.tail = q.tail.map (·.2) := by
  rw [h.states, h.commands, List.map_tail, List.map_tail]
  exact ⟨rfl, rfl⟩

theorem Logger.log_eq {l : Logger F} {q : List (RobotState F × RobotCommand F)} (h : l.Holds q) (hL : 0 < l.log_size) (s : RobotState F) (c : RobotCommand F) :
    ∃ l', l.log s c = .ok l' ∧ l'.Holds (if l.ring_size = l.log_size then (q ++ [(s, c)]).tail else q ++ [(s, c)]) ∧
      l'.ring_front = (l.ring_front + 1) % l.log_size ∧ l'.ring_size = min l.log_size (l.ring_size + 1) ∧ l'.log_size = l.log_size := by
  have h0 : ¬ l.log_size = 0 := by omega
  have e : l.log s c = .ok
      { states := if l.ring_size = l.log_size then (l.states ++ [s]).tail else l.states ++ [s]
        commands := if l.ring_size = l.log_size then (l.commands ++ [c]).tail else l.commands ++ [c]
        ring_front := (l.ring_front + 1) % l.log_size
        ring_size := min l.log_size (l.ring_size + 1)
        log_size := l.log_size } := by
    unfold Logger.log
    simp only [h0, if_false]
  refine ⟨_, e, ⟨?_, ?_⟩, rfl, rfl, rfl⟩
  · dsimp only
    split
    · rw [List.map_tail, List.map_append, h.states]; rfl
    · rw [List.map_append, h.states]; rfl
  · dsimp only
    split
    · rw [List.map_tail, List.map_append, h.commands]; rfl
    · rw [List.map_append, h.commands]; rfl

theorem Logger.log_inv {l l' : Logger F} {s : RobotState F} {c : RobotCommand F} (h : l.log s c = .ok l') : 0 < l.log_size := by
  by_contra h0
  have h0 : l.log_size = 0 := by omega
  unfold Logger.log at h
  simp only [h0, if_true] at h
  cases h

theorem Logger.flushLoop_eq {l : Logger F} {q : List (RobotState F × RobotCommand F)} (h : l.Holds q) (f : Nat → RobotState F × RobotCommand F)
    (is : List Nat) (hf : ∀ i ∈ is, q[(l.ring_front + i) % l.ring_size]? = some (f i)) :
    l.flushLoop is = .ok (is.map fun i => record (f i).1 (f i).2) := by
  induction is with
  | nil => rfl
  | cons i is ih =>
    have h1 : l.commands[(l.ring_front + i) % l.ring_size]? = some (f i).2 := by
      rw [h.commands, List.getElem?_map, hf i List.mem_cons_self]; rfl
    have h2 : l.states[(l.ring_front + i) % l.ring_size]? = some (f i).1 := by
      rw [h.states, List.getElem?_map, hf i List.mem_cons_self]; rfl
    unfold Logger.flushLoop
    simp only [h1, h2]
    rw [ih fun j hj => hf j (List.mem_cons_of_mem _ hj)]
    rfl

/-- What a logger returns when it is flushed. -/
theorem Logger.flush_eq {l : Logger F} {q : List (RobotState F × RobotCommand F)} (h : l.Holds q) (hk : l.ring_size ≤ q.length) :
    l.flush = .ok (((q.take l.ring_size).rotate l.ring_front).map (fun p => record p.1 p.2), { l with ring_front := 0, ring_size := 0 }) := by
  have key : l.flushLoop (List.range l.ring_size) = .ok (((q.take l.ring_size).rotate l.ring_front).map fun p => record p.1 p.2) := by
    have hlen : ((q.take l.ring_size).rotate l.ring_front).length = l.ring_size := by rw [List.length_rotate, List.length_take]; omega
    rcases Nat.eq_zero_or_pos l.ring_size with h0 | h0
    · rw [List.length_eq_zero_iff.1 (hlen.trans h0), h0]
      rfl
    · have hq : 0 < q.length := by omega
      have hf : ∀ i (hi : i < l.ring_size), ((q.take l.ring_size).rotate l.ring_front)[i]'(by rw [hlen]; exact hi) =
          q[(l.ring_front + i) % l.ring_size]'(lt_of_lt_of_le (Nat.mod_lt _ h0) hk) := by
        intro i hi
        rw [List.getElem_rotate, List.getElem_take]
        congr 1
        rw [List.length_take, min_eq_left hk, Nat.add_comm]
      rw [Logger.flushLoop_eq h (fun i => (((q.take l.ring_size).rotate l.ring_front)[i]?).getD q[0])]
      · congr 1
        refine List.ext_getElem (by simp [hk]) fun i h1 h2 => ?_
        have hi : i < l.ring_size := by simpa using h1
        simp only [List.getElem_map, List.getElem_range]
        rw [List.getElem?_eq_getElem (by rw [hlen]; exact hi)]
        rfl
      · intro i hi
        have hi : i < l.ring_size := List.mem_range.1 hi
        have e : ((q.take l.ring_size).rotate l.ring_front)[i]? = some (q[(l.ring_front + i) % l.ring_size]'(lt_of_lt_of_le (Nat.mod_lt _ h0) hk)) := by
          rw [List.getElem?_eq_getElem (by rw [hlen]; exact hi), hf i hi]
        rw [e, List.getElem?_eq_getElem (lt_of_lt_of_le (Nat.mod_lt _ h0) hk)]
        rfl
  unfold Logger.flush
  rw [key]
  rfl

/-- What holds of every logger. -/
structure Logger.Ok (L : Nat) (l : Logger F) : Prop where
  log_size : l.log_size = L
  holds : ∃ q, l.Holds q ∧ l.ring_size ≤ q.length
  ring : l.ring_size ≤ L

theorem Logger.Ok.new (L : Nat) : (Logger.new L : Logger F).Ok L := ⟨rfl, ⟨[], ⟨rfl, rfl⟩, le_rfl⟩, Nat.zero_le _⟩

theorem Logger.Ok.log {L : Nat} {l l' : Logger F} {s : RobotState F} {c : RobotCommand F} (h : l.Ok L) (hl : l.log s c = .ok l') : l'.Ok L := by
  obtain ⟨h1, ⟨q, hq, hk⟩, h2⟩ := h
  obtain ⟨l2, g1, g2, -, g3, g4⟩ := Logger.log_eq hq (Logger.log_inv hl) s c
  rw [hl] at g1
  cases g1
  refine ⟨g4.trans h1, ⟨_, g2, ?_⟩, by rw [g3, h1]; exact min_le_left _ _⟩
  rw [g3]
  split
  · rename_i hr
    simp only [List.length_tail, List.length_append, List.length_singleton]
    omega
  · simp only [List.length_append, List.length_singleton]
    omega

theorem Logger.Ok.flush {L : Nat} {l l' : Logger F} {r : List (Record F)} (h : l.Ok L) (hl : l.flush = .ok (r, l')) : l'.Ok L := by
  obtain ⟨h1, ⟨q, hq, hk⟩, h2⟩ := h
  rw [Logger.flush_eq hq hk] at hl
  cases hl
  exact ⟨h1, ⟨q, ⟨hq.states, hq.commands⟩, Nat.zero_le _⟩, Nat.zero_le _⟩

theorem Spec.Arises.ok {L : Nat} {l : Logger F} (h : Arises L l) : l.Ok L := by
  induction h with
  | new => exact .new L
  | log s c _ h ih => exact ih.log h
  | flush r _ h ih => exact ih.flush h

/-- Logging after a flush. -/
theorem Logger.logAll {l0 : Logger F} {q : List (RobotState F × RobotCommand F)} (hq : l0.Holds q) (hf : l0.ring_front = 0) (hr : l0.ring_size = 0)
    (hL : 0 < l0.log_size) (ps : List (RobotState F × RobotCommand F)) :
    ∃ l1, ps.foldlM (fun l p => l.log p.1 p.2) l0 = .ok l1 ∧ l1.Holds ((q ++ ps).drop (ps.length - l0.log_size)) ∧
      l1.ring_front = ps.length % l0.log_size ∧ l1.ring_size = min ps.length l0.log_size ∧ l1.log_size = l0.log_size := by
  induction ps using List.reverseRecOn with
  | nil => exact ⟨l0, rfl, by simpa using hq, by simpa using hf, by simpa using hr, rfl⟩
  | append_singleton ps p ih =>
    obtain ⟨l1, h1, h2, h3, h4, h5⟩ := ih
    obtain ⟨l2, g1, g2, g3, g4, g5⟩ := Logger.log_eq h2 (by rw [h5]; exact hL) p.1 p.2
    refine ⟨l2, ?_, ?_, ?_, ?_, g5.trans h5⟩
    · rw [List.foldlM_append, h1]
      show (l1.log p.1 p.2 >>= pure) = _
      rw [g1]
      rfl
    · rw [h4, h5] at g2
      by_cases hfull : min ps.length l0.log_size = l0.log_size
      · rw [if_pos hfull] at g2
        have e : ((q ++ ps).drop (ps.length - l0.log_size) ++ [(p.1, p.2)]).tail = (q ++ (ps ++ [p])).drop ((ps ++ [p]).length - l0.log_size) := by
          rw [← List.drop_one, ← List.drop_append_of_le_length (by rw [List.length_append]; omega), List.drop_drop, List.append_assoc]
          congr 1
          rw [List.length_append, List.length_singleton]
          omega
        rwa [e] at g2
      · rw [if_neg hfull] at g2
        have e1 : ps.length - l0.log_size = 0 := by omega
        have e2 : (ps ++ [p]).length - l0.log_size = 0 := by rw [List.length_append, List.length_singleton]; omega
        rw [e1, List.drop_zero, List.append_assoc] at g2
        rw [e2, List.drop_zero]
        exact g2
    · rw [g3, h3, h5, List.length_append, List.length_singleton, Nat.mod_add_mod]
    · rw [g4, h4, h5, List.length_append, List.length_singleton]
      omega

end Verif
