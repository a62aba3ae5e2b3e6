import Verif.Spec.Wire
import Verif.Lemmas.Wire
/-! Lemmas: the codecs put every field at the offset given in `Spec/Wire.lean`. -/
namespace Verif
open Codec

/-- The bytes `e` start at offset `off` of `bs`. -/
def At (bs : Bytes) (off : Nat) (e : Bytes) : Prop := ∃ pre post, bs = pre ++ (e ++ post) ∧ pre.length = off

theorem At.append {bs a b : Bytes} {off m : Nat} (h : At bs off (a ++ b)) (hm : a.length = m) :
    At bs off a ∧ At bs (off + m) b := by
  obtain ⟨pre, post, rfl, hl⟩ := h
  exact ⟨⟨pre, b ++ post, by simp, hl⟩, ⟨pre ++ a, post, by simp, by simp [hl, hm]⟩⟩

theorem At.seq {bs : Bytes} {off m : Nat} {α β : Type} {a : Codec α} {b : Codec β} {p : α × β}
    (h : At bs off ((Codec.seq a b).enc p)) (hm : (a.enc p.1).length = m) :
    At bs off (a.enc p.1) ∧ At bs (off + m) (b.enc p.2) := At.append h hm

theorem natAt_append (pre e : Bytes) (k : Nat) : Spec.natAt (pre ++ e) pre.length k = Spec.natAt e 0 k := by
  induction k with
  | zero => rfl
  | succ k ih =>
    simp only [Spec.natAt, ih, Nat.zero_add]
    rw [List.getElem?_append_right (by omega)]
    simp

theorem natAt_cons (b : UInt8) (e : Bytes) (k : Nat) :
    Spec.natAt (b :: e) 0 (k + 1) = b.toNat + 256 * Spec.natAt e 0 k := by
  induction k with
  | zero => simp [Spec.natAt]
  | succ k ih =>
    rw [Spec.natAt, ih]
    simp only [Spec.natAt, Nat.zero_add, List.getElem?_cons_succ, Nat.pow_succ, Nat.mul_add]
    rw [Nat.mul_comm (256 ^ k) 256, Nat.mul_assoc, Nat.add_assoc]

theorem natAt_leEnc (k n : Nat) (post : Bytes) : Spec.natAt (leEnc k n ++ post) 0 k = n % 256 ^ k := by
  induction k generalizing n with
  | zero => simp [Spec.natAt, Nat.mod_one]
  | succ k ih =>
    rw [leEnc, List.cons_append, natAt_cons, ih]
    have h := Nat.mod_mul (x := n) (a := 256) (b := 256 ^ k)
    rw [Nat.pow_succ, Nat.mul_comm (256 ^ k) 256, h]
    simp

theorem At.nat {bs : Bytes} {off k n : Nat} (h : At bs off (leEnc k n)) (hn : n < 256 ^ k) :
    Spec.natAt bs off k = n := by
  obtain ⟨pre, post, rfl, rfl⟩ := h
  rw [natAt_append, natAt_leEnc, Nat.mod_eq_of_lt hn]

theorem At.nat8 {bs : Bytes} {off : Nat} {x : UInt64} (h : At bs off (u64.enc x)) :
    Spec.natAt bs off 8 = x.toNat := At.nat h x.toNat_lt

theorem At.nat4 {bs : Bytes} {off : Nat} {x : UInt32} (h : At bs off (u32.enc x)) :
    Spec.natAt bs off 4 = x.toNat := At.nat h x.toNat_lt

theorem At.nat2 {bs : Bytes} {off : Nat} {x : UInt16} (h : At bs off (u16.enc x)) :
    Spec.natAt bs off 2 = x.toNat := At.nat h x.toNat_lt

theorem At.nat1 {bs : Bytes} {off : Nat} {x : UInt8} (h : At bs off (u8.enc x)) :
    Spec.natAt bs off 1 = x.toNat := At.nat h x.toNat_lt

theorem At.bool {bs : Bytes} {off : Nat} {x : Bool} (h : At bs off (Codec.bool.enc x)) :
    Spec.boolAt bs off x := by
  have := At.nat1 (x := if x then 1 else 0) h
  unfold Spec.boolAt
  rw [this]; cases x <;> rfl

theorem At.float {F : Type} [Wire F] {bs : Bytes} {off : Nat} {x : F} (h : At bs off ((Codec.f64 F).enc x)) :
    Spec.floatAt bs off x := At.nat8 h

theorem At.arr {α : Type} {c : Codec α} {m : Nat} (hc : Lawful c m) {bs : Bytes} {n : Nat} {off : Nat} {v : Arr α n}
    (h : At bs off ((Codec.arr c n).enc v)) (i : Fin n) : At bs (off + m * i.val) (c.enc (v i)) := by
  induction n generalizing off with
  | zero => exact i.elim0
  | succ n ih =>
    obtain ⟨h1, h2⟩ := At.append h (hc.len _)
    refine Fin.cases ?_ (fun j => ?_) i
    · simpa using h1
    · have := ih h2 j
      have e : off + m * (Fin.succ j).val = off + m + m * j.val := by
        simp [Nat.mul_add]; omega
      rw [e]; exact this

theorem At.floats {F : Type} [Wire F] [LawfulWire F] {bs : Bytes} {off n : Nat} {v : Arr F n}
    (h : At bs off ((Codec.arr (Codec.f64 F) n).enc v)) (i : Fin n) : Spec.floatAt bs (off + 8 * i.val) (v i) :=
  At.float (At.arr f64_lawful h i)

theorem At.bools {bs : Bytes} {off n : Nat} {v : Arr Bool n}
    (h : At bs off ((Codec.arr Codec.bool n).enc v)) (i : Fin n) : Spec.boolAt bs (off + i.val) (v i) := by
  have := At.arr bool_lawful h i
  rw [Nat.one_mul] at this
  exact At.bool this

theorem stateLayout_of_at {F : Type} [Wire F] [LawfulWire F] {bs : Bytes} {s : RobotStateIntern F}
    (h : At bs 0 ((RobotStateIntern.codec F).enc s)) : Spec.StateLayout bs s := by
  obtain ⟨h_message_id, h⟩ := At.seq h (m := 8) (by first | exact (Codec.arr_lawful Codec.f64_lawful _).len _ | exact (Codec.arr_lawful Codec.bool_lawful _).len _ | exact Codec.u64_lawful.len _ | exact Codec.u32_lawful.len _ | exact Codec.u16_lawful.len _ | exact Codec.f64_lawful.len _ | exact Codec.bool_lawful.len _ | exact MotionGeneratorMode.codec_lawful.len _ | exact ControllerMode.codec_lawful.len _ | exact RobotMode.codec_lawful.len _ | exact RoboErrorHelperStruct.codec_lawful.len _ | exact MotionGeneratorCommand.codec_lawful.len _ | exact ControllerCommand.codec_lawful.len _)
  obtain ⟨h_O_T_EE, h⟩ := At.seq h (m := 128) (by first | exact (Codec.arr_lawful Codec.f64_lawful _).len _ | exact (Codec.arr_lawful Codec.bool_lawful _).len _ | exact Codec.u64_lawful.len _ | exact Codec.u32_lawful.len _ | exact Codec.u16_lawful.len _ | exact Codec.f64_lawful.len _ | exact Codec.bool_lawful.len _ | exact MotionGeneratorMode.codec_lawful.len _ | exact ControllerMode.codec_lawful.len _ | exact RobotMode.codec_lawful.len _ | exact RoboErrorHelperStruct.codec_lawful.len _ | exact MotionGeneratorCommand.codec_lawful.len _ | exact ControllerCommand.codec_lawful.len _)
  obtain ⟨h_O_T_EE_d, h⟩ := At.seq h (m := 128) (by first | exact (Codec.arr_lawful Codec.f64_lawful _).len _ | exact (Codec.arr_lawful Codec.bool_lawful _).len _ | exact Codec.u64_lawful.len _ | exact Codec.u32_lawful.len _ | exact Codec.u16_lawful.len _ | exact Codec.f64_lawful.len _ | exact Codec.bool_lawful.len _ | exact MotionGeneratorMode.codec_lawful.len _ | exact ControllerMode.codec_lawful.len _ | exact RobotMode.codec_lawful.len _ | exact RoboErrorHelperStruct.codec_lawful.len _ | exact MotionGeneratorCommand.codec_lawful.len _ | exact ControllerCommand.codec_lawful.len _)
  obtain ⟨h_F_T_EE, h⟩ := At.seq h (m := 128) (by first | exact (Codec.arr_lawful Codec.f64_lawful _).len _ | exact (Codec.arr_lawful Codec.bool_lawful _).len _ | exact Codec.u64_lawful.len _ | exact Codec.u32_lawful.len _ | exact Codec.u16_lawful.len _ | exact Codec.f64_lawful.len _ | exact Codec.bool_lawful.len _ | exact MotionGeneratorMode.codec_lawful.len _ | exact ControllerMode.codec_lawful.len _ | exact RobotMode.codec_lawful.len _ | exact RoboErrorHelperStruct.codec_lawful.len _ | exact MotionGeneratorCommand.codec_lawful.len _ | exact ControllerCommand.codec_lawful.len _)
  obtain ⟨h_EE_T_K, h⟩ := At.seq h (m := 128) (by first | exact (Codec.arr_lawful Codec.f64_lawful _).len _ | exact (Codec.arr_lawful Codec.bool_lawful _).len _ | exact Codec.u64_lawful.len _ | exact Codec.u32_lawful.len _ | exact Codec.u16_lawful.len _ | exact Codec.f64_lawful.len _ | exact Codec.bool_lawful.len _ | exact MotionGeneratorMode.codec_lawful.len _ | exact ControllerMode.codec_lawful.len _ | exact RobotMode.codec_lawful.len _ | exact RoboErrorHelperStruct.codec_lawful.len _ | exact MotionGeneratorCommand.codec_lawful.len _ | exact ControllerCommand.codec_lawful.len _)
  obtain ⟨h_F_T_NE, h⟩ := At.seq h (m := 128) (by first | exact (Codec.arr_lawful Codec.f64_lawful _).len _ | exact (Codec.arr_lawful Codec.bool_lawful _).len _ | exact Codec.u64_lawful.len _ | exact Codec.u32_lawful.len _ | exact Codec.u16_lawful.len _ | exact Codec.f64_lawful.len _ | exact Codec.bool_lawful.len _ | exact MotionGeneratorMode.codec_lawful.len _ | exact ControllerMode.codec_lawful.len _ | exact RobotMode.codec_lawful.len _ | exact RoboErrorHelperStruct.codec_lawful.len _ | exact MotionGeneratorCommand.codec_lawful.len _ | exact ControllerCommand.codec_lawful.len _)
  obtain ⟨h_NE_T_EE, h⟩ := At.seq h (m := 128) (by first | exact (Codec.arr_lawful Codec.f64_lawful _).len _ | exact (Codec.arr_lawful Codec.bool_lawful _).len _ | exact Codec.u64_lawful.len _ | exact Codec.u32_lawful.len _ | exact Codec.u16_lawful.len _ | exact Codec.f64_lawful.len _ | exact Codec.bool_lawful.len _ | exact MotionGeneratorMode.codec_lawful.len _ | exact ControllerMode.codec_lawful.len _ | exact RobotMode.codec_lawful.len _ | exact RoboErrorHelperStruct.codec_lawful.len _ | exact MotionGeneratorCommand.codec_lawful.len _ | exact ControllerCommand.codec_lawful.len _)
  obtain ⟨h_m_ee, h⟩ := At.seq h (m := 8) (by first | exact (Codec.arr_lawful Codec.f64_lawful _).len _ | exact (Codec.arr_lawful Codec.bool_lawful _).len _ | exact Codec.u64_lawful.len _ | exact Codec.u32_lawful.len _ | exact Codec.u16_lawful.len _ | exact Codec.f64_lawful.len _ | exact Codec.bool_lawful.len _ | exact MotionGeneratorMode.codec_lawful.len _ | exact ControllerMode.codec_lawful.len _ | exact RobotMode.codec_lawful.len _ | exact RoboErrorHelperStruct.codec_lawful.len _ | exact MotionGeneratorCommand.codec_lawful.len _ | exact ControllerCommand.codec_lawful.len _)
  obtain ⟨h_I_ee, h⟩ := At.seq h (m := 72) (by first | exact (Codec.arr_lawful Codec.f64_lawful _).len _ | exact (Codec.arr_lawful Codec.bool_lawful _).len _ | exact Codec.u64_lawful.len _ | exact Codec.u32_lawful.len _ | exact Codec.u16_lawful.len _ | exact Codec.f64_lawful.len _ | exact Codec.bool_lawful.len _ | exact MotionGeneratorMode.codec_lawful.len _ | exact ControllerMode.codec_lawful.len _ | exact RobotMode.codec_lawful.len _ | exact RoboErrorHelperStruct.codec_lawful.len _ | exact MotionGeneratorCommand.codec_lawful.len _ | exact ControllerCommand.codec_lawful.len _)
  obtain ⟨h_F_x_Cee, h⟩ := At.seq h (m := 24) (by first | exact (Codec.arr_lawful Codec.f64_lawful _).len _ | exact (Codec.arr_lawful Codec.bool_lawful _).len _ | exact Codec.u64_lawful.len _ | exact Codec.u32_lawful.len _ | exact Codec.u16_lawful.len _ | exact Codec.f64_lawful.len _ | exact Codec.bool_lawful.len _ | exact MotionGeneratorMode.codec_lawful.len _ | exact ControllerMode.codec_lawful.len _ | exact RobotMode.codec_lawful.len _ | exact RoboErrorHelperStruct.codec_lawful.len _ | exact MotionGeneratorCommand.codec_lawful.len _ | exact ControllerCommand.codec_lawful.len _)
  obtain ⟨h_m_load, h⟩ := At.seq h (m := 8) (by first | exact (Codec.arr_lawful Codec.f64_lawful _).len _ | exact (Codec.arr_lawful Codec.bool_lawful _).len _ | exact Codec.u64_lawful.len _ | exact Codec.u32_lawful.len _ | exact Codec.u16_lawful.len _ | exact Codec.f64_lawful.len _ | exact Codec.bool_lawful.len _ | exact MotionGeneratorMode.codec_lawful.len _ | exact ControllerMode.codec_lawful.len _ | exact RobotMode.codec_lawful.len _ | exact RoboErrorHelperStruct.codec_lawful.len _ | exact MotionGeneratorCommand.codec_lawful.len _ | exact ControllerCommand.codec_lawful.len _)
  obtain ⟨h_I_load, h⟩ := At.seq h (m := 72) (by first | exact (Codec.arr_lawful Codec.f64_lawful _).len _ | exact (Codec.arr_lawful Codec.bool_lawful _).len _ | exact Codec.u64_lawful.len _ | exact Codec.u32_lawful.len _ | exact Codec.u16_lawful.len _ | exact Codec.f64_lawful.len _ | exact Codec.bool_lawful.len _ | exact MotionGeneratorMode.codec_lawful.len _ | exact ControllerMode.codec_lawful.len _ | exact RobotMode.codec_lawful.len _ | exact RoboErrorHelperStruct.codec_lawful.len _ | exact MotionGeneratorCommand.codec_lawful.len _ | exact ControllerCommand.codec_lawful.len _)
  obtain ⟨h_F_x_Cload, h⟩ := At.seq h (m := 24) (by first | exact (Codec.arr_lawful Codec.f64_lawful _).len _ | exact (Codec.arr_lawful Codec.bool_lawful _).len _ | exact Codec.u64_lawful.len _ | exact Codec.u32_lawful.len _ | exact Codec.u16_lawful.len _ | exact Codec.f64_lawful.len _ | exact Codec.bool_lawful.len _ | exact MotionGeneratorMode.codec_lawful.len _ | exact ControllerMode.codec_lawful.len _ | exact RobotMode.codec_lawful.len _ | exact RoboErrorHelperStruct.codec_lawful.len _ | exact MotionGeneratorCommand.codec_lawful.len _ | exact ControllerCommand.codec_lawful.len _)
  obtain ⟨h_elbow, h⟩ := At.seq h (m := 16) (by first | exact (Codec.arr_lawful Codec.f64_lawful _).len _ | exact (Codec.arr_lawful Codec.bool_lawful _).len _ | exact Codec.u64_lawful.len _ | exact Codec.u32_lawful.len _ | exact Codec.u16_lawful.len _ | exact Codec.f64_lawful.len _ | exact Codec.bool_lawful.len _ | exact MotionGeneratorMode.codec_lawful.len _ | exact ControllerMode.codec_lawful.len _ | exact RobotMode.codec_lawful.len _ | exact RoboErrorHelperStruct.codec_lawful.len _ | exact MotionGeneratorCommand.codec_lawful.len _ | exact ControllerCommand.codec_lawful.len _)
  obtain ⟨h_elbow_d, h⟩ := At.seq h (m := 16) (by first | exact (Codec.arr_lawful Codec.f64_lawful _).len _ | exact (Codec.arr_lawful Codec.bool_lawful _).len _ | exact Codec.u64_lawful.len _ | exact Codec.u32_lawful.len _ | exact Codec.u16_lawful.len _ | exact Codec.f64_lawful.len _ | exact Codec.bool_lawful.len _ | exact MotionGeneratorMode.codec_lawful.len _ | exact ControllerMode.codec_lawful.len _ | exact RobotMode.codec_lawful.len _ | exact RoboErrorHelperStruct.codec_lawful.len _ | exact MotionGeneratorCommand.codec_lawful.len _ | exact ControllerCommand.codec_lawful.len _)
  obtain ⟨h_tau_J, h⟩ := At.seq h (m := 56) (by first | exact (Codec.arr_lawful Codec.f64_lawful _).len _ | exact (Codec.arr_lawful Codec.bool_lawful _).len _ | exact Codec.u64_lawful.len _ | exact Codec.u32_lawful.len _ | exact Codec.u16_lawful.len _ | exact Codec.f64_lawful.len _ | exact Codec.bool_lawful.len _ | exact MotionGeneratorMode.codec_lawful.len _ | exact ControllerMode.codec_lawful.len _ | exact RobotMode.codec_lawful.len _ | exact RoboErrorHelperStruct.codec_lawful.len _ | exact MotionGeneratorCommand.codec_lawful.len _ | exact ControllerCommand.codec_lawful.len _)
  obtain ⟨h_tau_J_d, h⟩ := At.seq h (m := 56) (by first | exact (Codec.arr_lawful Codec.f64_lawful _).len _ | exact (Codec.arr_lawful Codec.bool_lawful _).len _ | exact Codec.u64_lawful.len _ | exact Codec.u32_lawful.len _ | exact Codec.u16_lawful.len _ | exact Codec.f64_lawful.len _ | exact Codec.bool_lawful.len _ | exact MotionGeneratorMode.codec_lawful.len _ | exact ControllerMode.codec_lawful.len _ | exact RobotMode.codec_lawful.len _ | exact RoboErrorHelperStruct.codec_lawful.len _ | exact MotionGeneratorCommand.codec_lawful.len _ | exact ControllerCommand.codec_lawful.len _)
  obtain ⟨h_dtau_J, h⟩ := At.seq h (m := 56) (by first | exact (Codec.arr_lawful Codec.f64_lawful _).len _ | exact (Codec.arr_lawful Codec.bool_lawful _).len _ | exact Codec.u64_lawful.len _ | exact Codec.u32_lawful.len _ | exact Codec.u16_lawful.len _ | exact Codec.f64_lawful.len _ | exact Codec.bool_lawful.len _ | exact MotionGeneratorMode.codec_lawful.len _ | exact ControllerMode.codec_lawful.len _ | exact RobotMode.codec_lawful.len _ | exact RoboErrorHelperStruct.codec_lawful.len _ | exact MotionGeneratorCommand.codec_lawful.len _ | exact ControllerCommand.codec_lawful.len _)
  obtain ⟨h_q, h⟩ := At.seq h (m := 56) (by first | exact (Codec.arr_lawful Codec.f64_lawful _).len _ | exact (Codec.arr_lawful Codec.bool_lawful _).len _ | exact Codec.u64_lawful.len _ | exact Codec.u32_lawful.len _ | exact Codec.u16_lawful.len _ | exact Codec.f64_lawful.len _ | exact Codec.bool_lawful.len _ | exact MotionGeneratorMode.codec_lawful.len _ | exact ControllerMode.codec_lawful.len _ | exact RobotMode.codec_lawful.len _ | exact RoboErrorHelperStruct.codec_lawful.len _ | exact MotionGeneratorCommand.codec_lawful.len _ | exact ControllerCommand.codec_lawful.len _)
  obtain ⟨h_q_d, h⟩ := At.seq h (m := 56) (by first | exact (Codec.arr_lawful Codec.f64_lawful _).len _ | exact (Codec.arr_lawful Codec.bool_lawful _).len _ | exact Codec.u64_lawful.len _ | exact Codec.u32_lawful.len _ | exact Codec.u16_lawful.len _ | exact Codec.f64_lawful.len _ | exact Codec.bool_lawful.len _ | exact MotionGeneratorMode.codec_lawful.len _ | exact ControllerMode.codec_lawful.len _ | exact RobotMode.codec_lawful.len _ | exact RoboErrorHelperStruct.codec_lawful.len _ | exact MotionGeneratorCommand.codec_lawful.len _ | exact ControllerCommand.codec_lawful.len _)
  obtain ⟨h_dq, h⟩ := At.seq h (m := 56) (by first | exact (Codec.arr_lawful Codec.f64_lawful _).len _ | exact (Codec.arr_lawful Codec.bool_lawful _).len _ | exact Codec.u64_lawful.len _ | exact Codec.u32_lawful.len _ | exact Codec.u16_lawful.len _ | exact Codec.f64_lawful.len _ | exact Codec.bool_lawful.len _ | exact MotionGeneratorMode.codec_lawful.len _ | exact ControllerMode.codec_lawful.len _ | exact RobotMode.codec_lawful.len _ | exact RoboErrorHelperStruct.codec_lawful.len _ | exact MotionGeneratorCommand.codec_lawful.len _ | exact ControllerCommand.codec_lawful.len _)
  obtain ⟨h_dq_d, h⟩ := At.seq h (m := 56) (by first | exact (Codec.arr_lawful Codec.f64_lawful _).len _ | exact (Codec.arr_lawful Codec.bool_lawful _).len _ | exact Codec.u64_lawful.len _ | exact Codec.u32_lawful.len _ | exact Codec.u16_lawful.len _ | exact Codec.f64_lawful.len _ | exact Codec.bool_lawful.len _ | exact MotionGeneratorMode.codec_lawful.len _ | exact ControllerMode.codec_lawful.len _ | exact RobotMode.codec_lawful.len _ | exact RoboErrorHelperStruct.codec_lawful.len _ | exact MotionGeneratorCommand.codec_lawful.len _ | exact ControllerCommand.codec_lawful.len _)
  obtain ⟨h_ddq_d, h⟩ := At.seq h (m := 56) (by first | exact (Codec.arr_lawful Codec.f64_lawful _).len _ | exact (Codec.arr_lawful Codec.bool_lawful _).len _ | exact Codec.u64_lawful.len _ | exact Codec.u32_lawful.len _ | exact Codec.u16_lawful.len _ | exact Codec.f64_lawful.len _ | exact Codec.bool_lawful.len _ | exact MotionGeneratorMode.codec_lawful.len _ | exact ControllerMode.codec_lawful.len _ | exact RobotMode.codec_lawful.len _ | exact RoboErrorHelperStruct.codec_lawful.len _ | exact MotionGeneratorCommand.codec_lawful.len _ | exact ControllerCommand.codec_lawful.len _)
  obtain ⟨h_joint_contact, h⟩ := At.seq h (m := 56) (by first | exact (Codec.arr_lawful Codec.f64_lawful _).len _ | exact (Codec.arr_lawful Codec.bool_lawful _).len _ | exact Codec.u64_lawful.len _ | exact Codec.u32_lawful.len _ | exact Codec.u16_lawful.len _ | exact Codec.f64_lawful.len _ | exact Codec.bool_lawful.len _ | exact MotionGeneratorMode.codec_lawful.len _ | exact ControllerMode.codec_lawful.len _ | exact RobotMode.codec_lawful.len _ | exact RoboErrorHelperStruct.codec_lawful.len _ | exact MotionGeneratorCommand.codec_lawful.len _ | exact ControllerCommand.codec_lawful.len _)
  obtain ⟨h_cartesian_contact, h⟩ := At.seq h (m := 48) (by first | exact (Codec.arr_lawful Codec.f64_lawful _).len _ | exact (Codec.arr_lawful Codec.bool_lawful _).len _ | exact Codec.u64_lawful.len _ | exact Codec.u32_lawful.len _ | exact Codec.u16_lawful.len _ | exact Codec.f64_lawful.len _ | exact Codec.bool_lawful.len _ | exact MotionGeneratorMode.codec_lawful.len _ | exact ControllerMode.codec_lawful.len _ | exact RobotMode.codec_lawful.len _ | exact RoboErrorHelperStruct.codec_lawful.len _ | exact MotionGeneratorCommand.codec_lawful.len _ | exact ControllerCommand.codec_lawful.len _)
  obtain ⟨h_joint_collision, h⟩ := At.seq h (m := 56) (by first | exact (Codec.arr_lawful Codec.f64_lawful _).len _ | exact (Codec.arr_lawful Codec.bool_lawful _).len _ | exact Codec.u64_lawful.len _ | exact Codec.u32_lawful.len _ | exact Codec.u16_lawful.len _ | exact Codec.f64_lawful.len _ | exact Codec.bool_lawful.len _ | exact MotionGeneratorMode.codec_lawful.len _ | exact ControllerMode.codec_lawful.len _ | exact RobotMode.codec_lawful.len _ | exact RoboErrorHelperStruct.codec_lawful.len _ | exact MotionGeneratorCommand.codec_lawful.len _ | exact ControllerCommand.codec_lawful.len _)
  obtain ⟨h_cartesian_collision, h⟩ := At.seq h (m := 48) (by first | exact (Codec.arr_lawful Codec.f64_lawful _).len _ | exact (Codec.arr_lawful Codec.bool_lawful _).len _ | exact Codec.u64_lawful.len _ | exact Codec.u32_lawful.len _ | exact Codec.u16_lawful.len _ | exact Codec.f64_lawful.len _ | exact Codec.bool_lawful.len _ | exact MotionGeneratorMode.codec_lawful.len _ | exact ControllerMode.codec_lawful.len _ | exact RobotMode.codec_lawful.len _ | exact RoboErrorHelperStruct.codec_lawful.len _ | exact MotionGeneratorCommand.codec_lawful.len _ | exact ControllerCommand.codec_lawful.len _)
  obtain ⟨h_tau_ext_hat_filtered, h⟩ := At.seq h (m := 56) (by first | exact (Codec.arr_lawful Codec.f64_lawful _).len _ | exact (Codec.arr_lawful Codec.bool_lawful _).len _ | exact Codec.u64_lawful.len _ | exact Codec.u32_lawful.len _ | exact Codec.u16_lawful.len _ | exact Codec.f64_lawful.len _ | exact Codec.bool_lawful.len _ | exact MotionGeneratorMode.codec_lawful.len _ | exact ControllerMode.codec_lawful.len _ | exact RobotMode.codec_lawful.len _ | exact RoboErrorHelperStruct.codec_lawful.len _ | exact MotionGeneratorCommand.codec_lawful.len _ | exact ControllerCommand.codec_lawful.len _)
  obtain ⟨h_O_F_ext_hat_K, h⟩ := At.seq h (m := 48) (by first | exact (Codec.arr_lawful Codec.f64_lawful _).len _ | exact (Codec.arr_lawful Codec.bool_lawful _).len _ | exact Codec.u64_lawful.len _ | exact Codec.u32_lawful.len _ | exact Codec.u16_lawful.len _ | exact Codec.f64_lawful.len _ | exact Codec.bool_lawful.len _ | exact MotionGeneratorMode.codec_lawful.len _ | exact ControllerMode.codec_lawful.len _ | exact RobotMode.codec_lawful.len _ | exact RoboErrorHelperStruct.codec_lawful.len _ | exact MotionGeneratorCommand.codec_lawful.len _ | exact ControllerCommand.codec_lawful.len _)
  obtain ⟨h_K_F_ext_hat_K, h⟩ := At.seq h (m := 48) (by first | exact (Codec.arr_lawful Codec.f64_lawful _).len _ | exact (Codec.arr_lawful Codec.bool_lawful _).len _ | exact Codec.u64_lawful.len _ | exact Codec.u32_lawful.len _ | exact Codec.u16_lawful.len _ | exact Codec.f64_lawful.len _ | exact Codec.bool_lawful.len _ | exact MotionGeneratorMode.codec_lawful.len _ | exact ControllerMode.codec_lawful.len _ | exact RobotMode.codec_lawful.len _ | exact RoboErrorHelperStruct.codec_lawful.len _ | exact MotionGeneratorCommand.codec_lawful.len _ | exact ControllerCommand.codec_lawful.len _)
  obtain ⟨h_O_dP_EE_d, h⟩ := At.seq h (m := 48) (by first | exact (Codec.arr_lawful Codec.f64_lawful _).len _ | exact (Codec.arr_lawful Codec.bool_lawful _).len _ | exact Codec.u64_lawful.len _ | exact Codec.u32_lawful.len _ | exact Codec.u16_lawful.len _ | exact Codec.f64_lawful.len _ | exact Codec.bool_lawful.len _ | exact MotionGeneratorMode.codec_lawful.len _ | exact ControllerMode.codec_lawful.len _ | exact RobotMode.codec_lawful.len _ | exact RoboErrorHelperStruct.codec_lawful.len _ | exact MotionGeneratorCommand.codec_lawful.len _ | exact ControllerCommand.codec_lawful.len _)
  obtain ⟨h_O_ddP_O, h⟩ := At.seq h (m := 24) (by first | exact (Codec.arr_lawful Codec.f64_lawful _).len _ | exact (Codec.arr_lawful Codec.bool_lawful _).len _ | exact Codec.u64_lawful.len _ | exact Codec.u32_lawful.len _ | exact Codec.u16_lawful.len _ | exact Codec.f64_lawful.len _ | exact Codec.bool_lawful.len _ | exact MotionGeneratorMode.codec_lawful.len _ | exact ControllerMode.codec_lawful.len _ | exact RobotMode.codec_lawful.len _ | exact RoboErrorHelperStruct.codec_lawful.len _ | exact MotionGeneratorCommand.codec_lawful.len _ | exact ControllerCommand.codec_lawful.len _)
  obtain ⟨h_elbow_c, h⟩ := At.seq h (m := 16) (by first | exact (Codec.arr_lawful Codec.f64_lawful _).len _ | exact (Codec.arr_lawful Codec.bool_lawful _).len _ | exact Codec.u64_lawful.len _ | exact Codec.u32_lawful.len _ | exact Codec.u16_lawful.len _ | exact Codec.f64_lawful.len _ | exact Codec.bool_lawful.len _ | exact MotionGeneratorMode.codec_lawful.len _ | exact ControllerMode.codec_lawful.len _ | exact RobotMode.codec_lawful.len _ | exact RoboErrorHelperStruct.codec_lawful.len _ | exact MotionGeneratorCommand.codec_lawful.len _ | exact ControllerCommand.codec_lawful.len _)
  obtain ⟨h_delbow_c, h⟩ := At.seq h (m := 16) (by first | exact (Codec.arr_lawful Codec.f64_lawful _).len _ | exact (Codec.arr_lawful Codec.bool_lawful _).len _ | exact Codec.u64_lawful.len _ | exact Codec.u32_lawful.len _ | exact Codec.u16_lawful.len _ | exact Codec.f64_lawful.len _ | exact Codec.bool_lawful.len _ | exact MotionGeneratorMode.codec_lawful.len _ | exact ControllerMode.codec_lawful.len _ | exact RobotMode.codec_lawful.len _ | exact RoboErrorHelperStruct.codec_lawful.len _ | exact MotionGeneratorCommand.codec_lawful.len _ | exact ControllerCommand.codec_lawful.len _)
  obtain ⟨h_ddelbow_c, h⟩ := At.seq h (m := 16) (by first | exact (Codec.arr_lawful Codec.f64_lawful _).len _ | exact (Codec.arr_lawful Codec.bool_lawful _).len _ | exact Codec.u64_lawful.len _ | exact Codec.u32_lawful.len _ | exact Codec.u16_lawful.len _ | exact Codec.f64_lawful.len _ | exact Codec.bool_lawful.len _ | exact MotionGeneratorMode.codec_lawful.len _ | exact ControllerMode.codec_lawful.len _ | exact RobotMode.codec_lawful.len _ | exact RoboErrorHelperStruct.codec_lawful.len _ | exact MotionGeneratorCommand.codec_lawful.len _ | exact ControllerCommand.codec_lawful.len _)
  obtain ⟨h_O_T_EE_c, h⟩ := At.seq h (m := 128) (by first | exact (Codec.arr_lawful Codec.f64_lawful _).len _ | exact (Codec.arr_lawful Codec.bool_lawful _).len _ | exact Codec.u64_lawful.len _ | exact Codec.u32_lawful.len _ | exact Codec.u16_lawful.len _ | exact Codec.f64_lawful.len _ | exact Codec.bool_lawful.len _ | exact MotionGeneratorMode.codec_lawful.len _ | exact ControllerMode.codec_lawful.len _ | exact RobotMode.codec_lawful.len _ | exact RoboErrorHelperStruct.codec_lawful.len _ | exact MotionGeneratorCommand.codec_lawful.len _ | exact ControllerCommand.codec_lawful.len _)
  obtain ⟨h_O_dP_EE_c, h⟩ := At.seq h (m := 48) (by first | exact (Codec.arr_lawful Codec.f64_lawful _).len _ | exact (Codec.arr_lawful Codec.bool_lawful _).len _ | exact Codec.u64_lawful.len _ | exact Codec.u32_lawful.len _ | exact Codec.u16_lawful.len _ | exact Codec.f64_lawful.len _ | exact Codec.bool_lawful.len _ | exact MotionGeneratorMode.codec_lawful.len _ | exact ControllerMode.codec_lawful.len _ | exact RobotMode.codec_lawful.len _ | exact RoboErrorHelperStruct.codec_lawful.len _ | exact MotionGeneratorCommand.codec_lawful.len _ | exact ControllerCommand.codec_lawful.len _)
  obtain ⟨h_O_ddP_EE_c, h⟩ := At.seq h (m := 48) (by first | exact (Codec.arr_lawful Codec.f64_lawful _).len _ | exact (Codec.arr_lawful Codec.bool_lawful _).len _ | exact Codec.u64_lawful.len _ | exact Codec.u32_lawful.len _ | exact Codec.u16_lawful.len _ | exact Codec.f64_lawful.len _ | exact Codec.bool_lawful.len _ | exact MotionGeneratorMode.codec_lawful.len _ | exact ControllerMode.codec_lawful.len _ | exact RobotMode.codec_lawful.len _ | exact RoboErrorHelperStruct.codec_lawful.len _ | exact MotionGeneratorCommand.codec_lawful.len _ | exact ControllerCommand.codec_lawful.len _)
  obtain ⟨h_theta, h⟩ := At.seq h (m := 56) (by first | exact (Codec.arr_lawful Codec.f64_lawful _).len _ | exact (Codec.arr_lawful Codec.bool_lawful _).len _ | exact Codec.u64_lawful.len _ | exact Codec.u32_lawful.len _ | exact Codec.u16_lawful.len _ | exact Codec.f64_lawful.len _ | exact Codec.bool_lawful.len _ | exact MotionGeneratorMode.codec_lawful.len _ | exact ControllerMode.codec_lawful.len _ | exact RobotMode.codec_lawful.len _ | exact RoboErrorHelperStruct.codec_lawful.len _ | exact MotionGeneratorCommand.codec_lawful.len _ | exact ControllerCommand.codec_lawful.len _)
  obtain ⟨h_dtheta, h⟩ := At.seq h (m := 56) (by first | exact (Codec.arr_lawful Codec.f64_lawful _).len _ | exact (Codec.arr_lawful Codec.bool_lawful _).len _ | exact Codec.u64_lawful.len _ | exact Codec.u32_lawful.len _ | exact Codec.u16_lawful.len _ | exact Codec.f64_lawful.len _ | exact Codec.bool_lawful.len _ | exact MotionGeneratorMode.codec_lawful.len _ | exact ControllerMode.codec_lawful.len _ | exact RobotMode.codec_lawful.len _ | exact RoboErrorHelperStruct.codec_lawful.len _ | exact MotionGeneratorCommand.codec_lawful.len _ | exact ControllerCommand.codec_lawful.len _)
  obtain ⟨h_motion_generator_mode, h⟩ := At.seq h (m := 1) (by first | exact (Codec.arr_lawful Codec.f64_lawful _).len _ | exact (Codec.arr_lawful Codec.bool_lawful _).len _ | exact Codec.u64_lawful.len _ | exact Codec.u32_lawful.len _ | exact Codec.u16_lawful.len _ | exact Codec.f64_lawful.len _ | exact Codec.bool_lawful.len _ | exact MotionGeneratorMode.codec_lawful.len _ | exact ControllerMode.codec_lawful.len _ | exact RobotMode.codec_lawful.len _ | exact RoboErrorHelperStruct.codec_lawful.len _ | exact MotionGeneratorCommand.codec_lawful.len _ | exact ControllerCommand.codec_lawful.len _)
  obtain ⟨h_controller_mode, h⟩ := At.seq h (m := 1) (by first | exact (Codec.arr_lawful Codec.f64_lawful _).len _ | exact (Codec.arr_lawful Codec.bool_lawful _).len _ | exact Codec.u64_lawful.len _ | exact Codec.u32_lawful.len _ | exact Codec.u16_lawful.len _ | exact Codec.f64_lawful.len _ | exact Codec.bool_lawful.len _ | exact MotionGeneratorMode.codec_lawful.len _ | exact ControllerMode.codec_lawful.len _ | exact RobotMode.codec_lawful.len _ | exact RoboErrorHelperStruct.codec_lawful.len _ | exact MotionGeneratorCommand.codec_lawful.len _ | exact ControllerCommand.codec_lawful.len _)
  obtain ⟨h_errors, h⟩ := At.seq h (m := 82) (by first | exact (Codec.arr_lawful Codec.f64_lawful _).len _ | exact (Codec.arr_lawful Codec.bool_lawful _).len _ | exact Codec.u64_lawful.len _ | exact Codec.u32_lawful.len _ | exact Codec.u16_lawful.len _ | exact Codec.f64_lawful.len _ | exact Codec.bool_lawful.len _ | exact MotionGeneratorMode.codec_lawful.len _ | exact ControllerMode.codec_lawful.len _ | exact RobotMode.codec_lawful.len _ | exact RoboErrorHelperStruct.codec_lawful.len _ | exact MotionGeneratorCommand.codec_lawful.len _ | exact ControllerCommand.codec_lawful.len _)
  obtain ⟨h_errors_errors1, h_errors⟩ := At.seq h_errors (m := 32) (by first | exact (Codec.arr_lawful Codec.f64_lawful _).len _ | exact (Codec.arr_lawful Codec.bool_lawful _).len _ | exact Codec.u64_lawful.len _ | exact Codec.u32_lawful.len _ | exact Codec.u16_lawful.len _ | exact Codec.f64_lawful.len _ | exact Codec.bool_lawful.len _ | exact MotionGeneratorMode.codec_lawful.len _ | exact ControllerMode.codec_lawful.len _ | exact RobotMode.codec_lawful.len _ | exact RoboErrorHelperStruct.codec_lawful.len _ | exact MotionGeneratorCommand.codec_lawful.len _ | exact ControllerCommand.codec_lawful.len _)
  obtain ⟨h_errors_errors2, h_errors⟩ := At.seq h_errors (m := 9) (by first | exact (Codec.arr_lawful Codec.f64_lawful _).len _ | exact (Codec.arr_lawful Codec.bool_lawful _).len _ | exact Codec.u64_lawful.len _ | exact Codec.u32_lawful.len _ | exact Codec.u16_lawful.len _ | exact Codec.f64_lawful.len _ | exact Codec.bool_lawful.len _ | exact MotionGeneratorMode.codec_lawful.len _ | exact ControllerMode.codec_lawful.len _ | exact RobotMode.codec_lawful.len _ | exact RoboErrorHelperStruct.codec_lawful.len _ | exact MotionGeneratorCommand.codec_lawful.len _ | exact ControllerCommand.codec_lawful.len _)
  obtain ⟨h_errors_reflex_reason1, h_errors⟩ := At.seq h_errors (m := 32) (by first | exact (Codec.arr_lawful Codec.f64_lawful _).len _ | exact (Codec.arr_lawful Codec.bool_lawful _).len _ | exact Codec.u64_lawful.len _ | exact Codec.u32_lawful.len _ | exact Codec.u16_lawful.len _ | exact Codec.f64_lawful.len _ | exact Codec.bool_lawful.len _ | exact MotionGeneratorMode.codec_lawful.len _ | exact ControllerMode.codec_lawful.len _ | exact RobotMode.codec_lawful.len _ | exact RoboErrorHelperStruct.codec_lawful.len _ | exact MotionGeneratorCommand.codec_lawful.len _ | exact ControllerCommand.codec_lawful.len _)
  obtain ⟨h_robot_mode, h⟩ := At.seq h (m := 1) (by first | exact (Codec.arr_lawful Codec.f64_lawful _).len _ | exact (Codec.arr_lawful Codec.bool_lawful _).len _ | exact Codec.u64_lawful.len _ | exact Codec.u32_lawful.len _ | exact Codec.u16_lawful.len _ | exact Codec.f64_lawful.len _ | exact Codec.bool_lawful.len _ | exact MotionGeneratorMode.codec_lawful.len _ | exact ControllerMode.codec_lawful.len _ | exact RobotMode.codec_lawful.len _ | exact RoboErrorHelperStruct.codec_lawful.len _ | exact MotionGeneratorCommand.codec_lawful.len _ | exact ControllerCommand.codec_lawful.len _)
  constructor
  · exact At.nat8 h_message_id
  · exact At.floats h_O_T_EE
  · exact At.floats h_O_T_EE_d
  · exact At.floats h_F_T_EE
  · exact At.floats h_EE_T_K
  · exact At.floats h_F_T_NE
  · exact At.floats h_NE_T_EE
  · exact At.float h_m_ee
  · exact At.floats h_I_ee
  · exact At.floats h_F_x_Cee
  · exact At.float h_m_load
  · exact At.floats h_I_load
  · exact At.floats h_F_x_Cload
  · exact At.floats h_elbow
  · exact At.floats h_elbow_d
  · exact At.floats h_tau_J
  · exact At.floats h_tau_J_d
  · exact At.floats h_dtau_J
  · exact At.floats h_q
  · exact At.floats h_q_d
  · exact At.floats h_dq
  · exact At.floats h_dq_d
  · exact At.floats h_ddq_d
  · exact At.floats h_joint_contact
  · exact At.floats h_cartesian_contact
  · exact At.floats h_joint_collision
  · exact At.floats h_cartesian_collision
  · exact At.floats h_tau_ext_hat_filtered
  · exact At.floats h_O_F_ext_hat_K
  · exact At.floats h_K_F_ext_hat_K
  · exact At.floats h_O_dP_EE_d
  · exact At.floats h_O_ddP_O
  · exact At.floats h_elbow_c
  · exact At.floats h_delbow_c
  · exact At.floats h_ddelbow_c
  · exact At.floats h_O_T_EE_c
  · exact At.floats h_O_dP_EE_c
  · exact At.floats h_O_ddP_EE_c
  · exact At.floats h_theta
  · exact At.floats h_dtheta
  · exact At.nat1 h_motion_generator_mode
  · exact At.nat1 h_controller_mode
  · exact At.bools h_errors_errors1
  · exact At.bools h_errors_errors2
  · exact At.bools h_errors_reflex_reason1
  · exact At.bools h_errors
  · exact At.nat1 h_robot_mode
  · exact At.float h

theorem commandLayout_of_at {F : Type} [Wire F] [LawfulWire F] {bs : Bytes} {s : RobotCommand F}
    (h : At bs 0 ((RobotCommand.codec F).enc s)) : Spec.CommandLayout bs s := by
  obtain ⟨h_message_id, h⟩ := At.seq h (m := 8) (by first | exact (Codec.arr_lawful Codec.f64_lawful _).len _ | exact (Codec.arr_lawful Codec.bool_lawful _).len _ | exact Codec.u64_lawful.len _ | exact Codec.u32_lawful.len _ | exact Codec.u16_lawful.len _ | exact Codec.f64_lawful.len _ | exact Codec.bool_lawful.len _ | exact MotionGeneratorMode.codec_lawful.len _ | exact ControllerMode.codec_lawful.len _ | exact RobotMode.codec_lawful.len _ | exact RoboErrorHelperStruct.codec_lawful.len _ | exact MotionGeneratorCommand.codec_lawful.len _ | exact ControllerCommand.codec_lawful.len _)
  obtain ⟨h_motion, h⟩ := At.seq h (m := 306) (by first | exact (Codec.arr_lawful Codec.f64_lawful _).len _ | exact (Codec.arr_lawful Codec.bool_lawful _).len _ | exact Codec.u64_lawful.len _ | exact Codec.u32_lawful.len _ | exact Codec.u16_lawful.len _ | exact Codec.f64_lawful.len _ | exact Codec.bool_lawful.len _ | exact MotionGeneratorMode.codec_lawful.len _ | exact ControllerMode.codec_lawful.len _ | exact RobotMode.codec_lawful.len _ | exact RoboErrorHelperStruct.codec_lawful.len _ | exact MotionGeneratorCommand.codec_lawful.len _ | exact ControllerCommand.codec_lawful.len _)
  obtain ⟨h_motion_q_c, h_motion⟩ := At.seq h_motion (m := 56) (by first | exact (Codec.arr_lawful Codec.f64_lawful _).len _ | exact (Codec.arr_lawful Codec.bool_lawful _).len _ | exact Codec.u64_lawful.len _ | exact Codec.u32_lawful.len _ | exact Codec.u16_lawful.len _ | exact Codec.f64_lawful.len _ | exact Codec.bool_lawful.len _ | exact MotionGeneratorMode.codec_lawful.len _ | exact ControllerMode.codec_lawful.len _ | exact RobotMode.codec_lawful.len _ | exact RoboErrorHelperStruct.codec_lawful.len _ | exact MotionGeneratorCommand.codec_lawful.len _ | exact ControllerCommand.codec_lawful.len _)
  obtain ⟨h_motion_dq_c, h_motion⟩ := At.seq h_motion (m := 56) (by first | exact (Codec.arr_lawful Codec.f64_lawful _).len _ | exact (Codec.arr_lawful Codec.bool_lawful _).len _ | exact Codec.u64_lawful.len _ | exact Codec.u32_lawful.len _ | exact Codec.u16_lawful.len _ | exact Codec.f64_lawful.len _ | exact Codec.bool_lawful.len _ | exact MotionGeneratorMode.codec_lawful.len _ | exact ControllerMode.codec_lawful.len _ | exact RobotMode.codec_lawful.len _ | exact RoboErrorHelperStruct.codec_lawful.len _ | exact MotionGeneratorCommand.codec_lawful.len _ | exact ControllerCommand.codec_lawful.len _)
  obtain ⟨h_motion_O_T_EE_c, h_motion⟩ := At.seq h_motion (m := 128) (by first | exact (Codec.arr_lawful Codec.f64_lawful _).len _ | exact (Codec.arr_lawful Codec.bool_lawful _).len _ | exact Codec.u64_lawful.len _ | exact Codec.u32_lawful.len _ | exact Codec.u16_lawful.len _ | exact Codec.f64_lawful.len _ | exact Codec.bool_lawful.len _ | exact MotionGeneratorMode.codec_lawful.len _ | exact ControllerMode.codec_lawful.len _ | exact RobotMode.codec_lawful.len _ | exact RoboErrorHelperStruct.codec_lawful.len _ | exact MotionGeneratorCommand.codec_lawful.len _ | exact ControllerCommand.codec_lawful.len _)
  obtain ⟨h_motion_O_dP_EE_c, h_motion⟩ := At.seq h_motion (m := 48) (by first | exact (Codec.arr_lawful Codec.f64_lawful _).len _ | exact (Codec.arr_lawful Codec.bool_lawful _).len _ | exact Codec.u64_lawful.len _ | exact Codec.u32_lawful.len _ | exact Codec.u16_lawful.len _ | exact Codec.f64_lawful.len _ | exact Codec.bool_lawful.len _ | exact MotionGeneratorMode.codec_lawful.len _ | exact ControllerMode.codec_lawful.len _ | exact RobotMode.codec_lawful.len _ | exact RoboErrorHelperStruct.codec_lawful.len _ | exact MotionGeneratorCommand.codec_lawful.len _ | exact ControllerCommand.codec_lawful.len _)
  obtain ⟨h_motion_elbow_c, h_motion⟩ := At.seq h_motion (m := 16) (by first | exact (Codec.arr_lawful Codec.f64_lawful _).len _ | exact (Codec.arr_lawful Codec.bool_lawful _).len _ | exact Codec.u64_lawful.len _ | exact Codec.u32_lawful.len _ | exact Codec.u16_lawful.len _ | exact Codec.f64_lawful.len _ | exact Codec.bool_lawful.len _ | exact MotionGeneratorMode.codec_lawful.len _ | exact ControllerMode.codec_lawful.len _ | exact RobotMode.codec_lawful.len _ | exact RoboErrorHelperStruct.codec_lawful.len _ | exact MotionGeneratorCommand.codec_lawful.len _ | exact ControllerCommand.codec_lawful.len _)
  obtain ⟨h_motion_valid_elbow, h_motion⟩ := At.seq h_motion (m := 1) (by first | exact (Codec.arr_lawful Codec.f64_lawful _).len _ | exact (Codec.arr_lawful Codec.bool_lawful _).len _ | exact Codec.u64_lawful.len _ | exact Codec.u32_lawful.len _ | exact Codec.u16_lawful.len _ | exact Codec.f64_lawful.len _ | exact Codec.bool_lawful.len _ | exact MotionGeneratorMode.codec_lawful.len _ | exact ControllerMode.codec_lawful.len _ | exact RobotMode.codec_lawful.len _ | exact RoboErrorHelperStruct.codec_lawful.len _ | exact MotionGeneratorCommand.codec_lawful.len _ | exact ControllerCommand.codec_lawful.len _)
  constructor
  · exact At.nat8 h_message_id
  · exact At.floats h_motion_q_c
  · exact At.floats h_motion_dq_c
  · exact At.floats h_motion_O_T_EE_c
  · exact At.floats h_motion_O_dP_EE_c
  · exact At.floats h_motion_elbow_c
  · exact At.bool h_motion_valid_elbow
  · exact At.bool h_motion
  · exact At.floats h

theorem gripperStateLayout_of_at {F : Type} [Wire F] [LawfulWire F] {bs : Bytes} {s : Gripper.GripperStateIntern F}
    (h : At bs 0 ((Gripper.GripperStateIntern.codec F).enc s)) : Spec.GripperStateLayout bs s := by
  obtain ⟨h_message_id, h⟩ := At.seq h (m := 4) (by first | exact (Codec.arr_lawful Codec.f64_lawful _).len _ | exact (Codec.arr_lawful Codec.bool_lawful _).len _ | exact Codec.u64_lawful.len _ | exact Codec.u32_lawful.len _ | exact Codec.u16_lawful.len _ | exact Codec.f64_lawful.len _ | exact Codec.bool_lawful.len _ | exact MotionGeneratorMode.codec_lawful.len _ | exact ControllerMode.codec_lawful.len _ | exact RobotMode.codec_lawful.len _ | exact RoboErrorHelperStruct.codec_lawful.len _ | exact MotionGeneratorCommand.codec_lawful.len _ | exact ControllerCommand.codec_lawful.len _)
  obtain ⟨h_width, h⟩ := At.seq h (m := 8) (by first | exact (Codec.arr_lawful Codec.f64_lawful _).len _ | exact (Codec.arr_lawful Codec.bool_lawful _).len _ | exact Codec.u64_lawful.len _ | exact Codec.u32_lawful.len _ | exact Codec.u16_lawful.len _ | exact Codec.f64_lawful.len _ | exact Codec.bool_lawful.len _ | exact MotionGeneratorMode.codec_lawful.len _ | exact ControllerMode.codec_lawful.len _ | exact RobotMode.codec_lawful.len _ | exact RoboErrorHelperStruct.codec_lawful.len _ | exact MotionGeneratorCommand.codec_lawful.len _ | exact ControllerCommand.codec_lawful.len _)
  obtain ⟨h_max_width, h⟩ := At.seq h (m := 8) (by first | exact (Codec.arr_lawful Codec.f64_lawful _).len _ | exact (Codec.arr_lawful Codec.bool_lawful _).len _ | exact Codec.u64_lawful.len _ | exact Codec.u32_lawful.len _ | exact Codec.u16_lawful.len _ | exact Codec.f64_lawful.len _ | exact Codec.bool_lawful.len _ | exact MotionGeneratorMode.codec_lawful.len _ | exact ControllerMode.codec_lawful.len _ | exact RobotMode.codec_lawful.len _ | exact RoboErrorHelperStruct.codec_lawful.len _ | exact MotionGeneratorCommand.codec_lawful.len _ | exact ControllerCommand.codec_lawful.len _)
  obtain ⟨h_is_grasped, h⟩ := At.seq h (m := 1) (by first | exact (Codec.arr_lawful Codec.f64_lawful _).len _ | exact (Codec.arr_lawful Codec.bool_lawful _).len _ | exact Codec.u64_lawful.len _ | exact Codec.u32_lawful.len _ | exact Codec.u16_lawful.len _ | exact Codec.f64_lawful.len _ | exact Codec.bool_lawful.len _ | exact MotionGeneratorMode.codec_lawful.len _ | exact ControllerMode.codec_lawful.len _ | exact RobotMode.codec_lawful.len _ | exact RoboErrorHelperStruct.codec_lawful.len _ | exact MotionGeneratorCommand.codec_lawful.len _ | exact ControllerCommand.codec_lawful.len _)
  constructor
  · exact At.nat4 h_message_id
  · exact At.float h_width
  · exact At.float h_max_width
  · exact At.bool h_is_grasped
  · exact At.nat2 h

end Verif
