import Verif.Lemmas.Wire
import Verif.Spec.Coop
import Mathlib.Data.Fintype.EquivFin
import Verif.Spec.Real
/-!
States whose numbers have bit patterns fit into datagrams, and finitely many real numbers can be given bit patterns.
-/
namespace Verif
open Spec
namespace Codec

/-- The value `x` is encoded in `n` bytes and decoded again. -/
structure Keeps {α : Type} (c : Codec α) (n : Nat) (x : α) : Prop where
  len : (c.enc x).length = n
  rt : ∀ rest, c.dec (c.enc x ++ rest) = some (x, rest)

theorem Lawful.keeps {α : Type} {c : Codec α} {n : Nat} (h : Lawful c n) (x : α) : Keeps c n x := ⟨h.len x, h.rt x⟩

theorem seq_keeps {α β : Type} {a : Codec α} {b : Codec β} {m n : Nat} {x : α} {y : β} (ha : Keeps a m x) (hb : Keeps b n y) : Keeps (seq a b) (m + n) (x, y) where
  len := by simp [seq, ha.len, hb.len]
  rt rest := by simp [seq, ha.rt, hb.rt]

theorem iso_keeps {α β : Type} {a : Codec α} {n : Nat} {f : β → α} {g : α → β} {x : β} (ha : Keeps a n (f x)) (h : g (f x) = x) : Keeps (iso a f g) n x where
  len := ha.len
  rt rest := by simp [iso, ha.rt, h]

theorem arr_keeps {α : Type} {a : Codec α} {m : Nat} : {n : Nat} → {v : Arr α n} → (∀ i, Keeps a m (v i)) → Keeps (arr a n) (n * m) v
  | 0, v, _ => ⟨by simp [arr], fun rest => by
      simp only [arr, List.nil_append]
      congr 2
      funext i
      exact i.elim0⟩
  | n + 1, v, h => by
    have ih := arr_keeps (n := n) (v := fun i => v i.succ) fun i => h i.succ
    refine ⟨?_, fun rest => ?_⟩
    · simp [arr, (h 0).len, ih.len, Nat.succ_mul, Nat.add_comm]
    · simp only [arr, List.append_assoc, (h 0).rt, Option.bind_some, ih.rt, Option.map_some]
      congr 2
      funext i
      refine Fin.cases ?_ (fun i => ?_) i <;> rfl

theorem f64_keeps {F : Type} [Wire F] {x : F} (h : Wire.ofBits (Wire.toBits x) = x) : Keeps (f64 F) 8 x := iso_keeps (u64_lawful.keeps _) h

end Codec
open Codec

/-- All numbers of the array have bit patterns. -/
def Kept {F : Type} [Wire F] {n : Nat} (v : Arr F n) : Prop := ∀ i, Wire.ofBits (Wire.toBits (v i)) = v i

theorem Kept.keeps {F : Type} [Wire F] {n : Nat} {v : Arr F n} (h : Kept v) : Keeps (arr (f64 F) n) (n * 8) v := arr_keeps fun i => f64_keeps (h i)

/-- A state with these desired values, in which everything else is zero. -/
def plainState {F : Type} [Fl F] (id : UInt64) (q dq ddq : Arr F 7) (g : MotionGeneratorMode) (c : ControllerMode) (r : RobotMode) : RobotStateIntern F :=
  { RobotStateIntern.dummy F with message_id := id, q_d := q, dq_d := dq, ddq_d := ddq, motion_generator_mode := g, controller_mode := c, robot_mode := r }

theorem plainState_holds {F : Type} [Fl F] [Wire F] {id : UInt64} {q dq ddq : Arr F 7} {g : MotionGeneratorMode} {c : ControllerMode} {r : RobotMode}
    (h0 : Wire.ofBits (Wire.toBits (Fl.lit 0 : F)) = (Fl.lit 0 : F)) (hq : Kept q) (hdq : Kept dq) (hddq : Kept ddq) :
    ∃ data, HoldsState (plainState (F := F) id q dq ddq g c r) data := by
  have z : ∀ n, Keeps (arr (f64 F) n) (n * 8) (fun _ => Fl.lit 0 : Arr F n) := fun n => arr_keeps fun _ => f64_keeps h0
  have z1 : Keeps (f64 F) 8 (Fl.lit 0 : F) := f64_keeps h0
  have h : Keeps (RobotStateIntern.codec F) 2373 (plainState id q dq ddq g c r) :=
    iso_keeps (n := 2373) (x := plainState id q dq ddq g c r) (seq_keeps (u64_lawful.keeps _) <|
      seq_keeps (z 16) <|
      seq_keeps (z 16) <|
      seq_keeps (z 16) <|
      seq_keeps (z 16) <|
      seq_keeps (z 16) <|
      seq_keeps (z 16) <|
      seq_keeps z1 <|
      seq_keeps (z 9) <|
      seq_keeps (z 3) <|
      seq_keeps z1 <|
      seq_keeps (z 9) <|
      seq_keeps (z 3) <|
      seq_keeps (z 2) <|
      seq_keeps (z 2) <|
      seq_keeps (z 7) <|
      seq_keeps (z 7) <|
      seq_keeps (z 7) <|
      seq_keeps (z 7) <|
      seq_keeps hq.keeps <|
      seq_keeps (z 7) <|
      seq_keeps hdq.keeps <|
      seq_keeps hddq.keeps <|
      seq_keeps (z 7) <|
      seq_keeps (z 6) <|
      seq_keeps (z 7) <|
      seq_keeps (z 6) <|
      seq_keeps (z 7) <|
      seq_keeps (z 6) <|
      seq_keeps (z 6) <|
      seq_keeps (z 6) <|
      seq_keeps (z 3) <|
      seq_keeps (z 2) <|
      seq_keeps (z 2) <|
      seq_keeps (z 2) <|
      seq_keeps (z 16) <|
      seq_keeps (z 6) <|
      seq_keeps (z 6) <|
      seq_keeps (z 7) <|
      seq_keeps (z 7) <|
      seq_keeps (MotionGeneratorMode.codec_lawful.keeps _) <|
      seq_keeps (ControllerMode.codec_lawful.keeps _) <|
      seq_keeps (RoboErrorHelperStruct.codec_lawful.keeps _) <|
      seq_keeps (RobotMode.codec_lawful.keeps _) z1) rfl
  refine ⟨_, h.len, ?_⟩
  have := h.rt []
  rwa [List.append_nil] at this

/-- Finitely many real numbers, not too many, can be given bit patterns. -/
theorem wire_exists (S : Finset XR) (hS : S.card ≤ 2 ^ 64) : ∃ _ : Wire XR, ∀ x ∈ S, Wire.ofBits (Wire.toBits x) = x := by
  classical
  refine ⟨{ toBits := fun x => if h : x ∈ S then UInt64.ofNat (S.equivFin ⟨x, h⟩) else 0
            ofBits := fun b => if h : b.toNat < S.card then (S.equivFin.symm ⟨b.toNat, h⟩ : XR) else .fin 0 }, fun x hx => ?_⟩
  have e : (UInt64.ofNat (S.equivFin ⟨x, hx⟩ : ℕ)).toNat = (S.equivFin ⟨x, hx⟩ : ℕ) := by
    rw [UInt64.toNat_ofNat']
    exact Nat.mod_eq_of_lt (lt_of_lt_of_le (S.equivFin ⟨x, hx⟩).2 hS)
  show (if h : (if h : x ∈ S then UInt64.ofNat (S.equivFin ⟨x, h⟩) else 0).toNat < S.card then _ else _) = x
  simp only [dif_pos hx, e, Fin.is_lt, dif_pos, Fin.eta, Equiv.symm_apply_apply]

end Verif
