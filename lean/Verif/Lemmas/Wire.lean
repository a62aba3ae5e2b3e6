import Verif.Lemmas.Codec
import Verif.Model.Types
import Verif.Model.GripperTypes
/-! Lemmas: every message codec is lawful (its size is the sum of the sizes of its fields). -/
namespace Verif
open Codec

theorem Codec.f64_lawful {F : Type} [Wire F] [LawfulWire F] : Codec.Lawful (Codec.f64 F) 8 :=
  iso_lawful u64_lawful LawfulWire.of_to LawfulWire.to_of

theorem Codec.i32_lawful : Codec.Lawful Codec.i32 4 :=
  iso_lawful u32_lawful (fun x => by simp) (fun x => by simp)

theorem RobotCommandEnum.codec_lawful : Codec.Lawful RobotCommandEnum.codec 4 := by
  apply enum_lawful u32_lawful
  · intro x; cases x <;> rfl
  · intro x y h; unfold RobotCommandEnum.ofTag at h
    by_cases e : x = 0
    · rw [if_pos e] at h; injection h with h; subst h; exact e.symm
    rw [if_neg e] at h; clear e
    by_cases e : x = 1
    · rw [if_pos e] at h; injection h with h; subst h; exact e.symm
    rw [if_neg e] at h; clear e
    by_cases e : x = 2
    · rw [if_pos e] at h; injection h with h; subst h; exact e.symm
    rw [if_neg e] at h; clear e
    by_cases e : x = 3
    · rw [if_pos e] at h; injection h with h; subst h; exact e.symm
    rw [if_neg e] at h; clear e
    by_cases e : x = 4
    · rw [if_pos e] at h; injection h with h; subst h; exact e.symm
    rw [if_neg e] at h; clear e
    by_cases e : x = 5
    · rw [if_pos e] at h; injection h with h; subst h; exact e.symm
    rw [if_neg e] at h; clear e
    by_cases e : x = 6
    · rw [if_pos e] at h; injection h with h; subst h; exact e.symm
    rw [if_neg e] at h; clear e
    by_cases e : x = 7
    · rw [if_pos e] at h; injection h with h; subst h; exact e.symm
    rw [if_neg e] at h; clear e
    by_cases e : x = 8
    · rw [if_pos e] at h; injection h with h; subst h; exact e.symm
    rw [if_neg e] at h; clear e
    by_cases e : x = 9
    · rw [if_pos e] at h; injection h with h; subst h; exact e.symm
    rw [if_neg e] at h; clear e
    by_cases e : x = 10
    · rw [if_pos e] at h; injection h with h; subst h; exact e.symm
    rw [if_neg e] at h; clear e
    by_cases e : x = 11
    · rw [if_pos e] at h; injection h with h; subst h; exact e.symm
    rw [if_neg e] at h; clear e
    by_cases e : x = 12
    · rw [if_pos e] at h; injection h with h; subst h; exact e.symm
    rw [if_neg e] at h; clear e
    by_cases e : x = 13
    · rw [if_pos e] at h; injection h with h; subst h; exact e.symm
    rw [if_neg e] at h; clear e
    cases h

theorem ConnectStatus.codec_lawful : Codec.Lawful ConnectStatus.codec 1 := by
  apply enum_lawful u8_lawful
  · intro x; cases x <;> rfl
  · intro x y h; unfold ConnectStatus.ofTag at h
    by_cases e : x = 0
    · rw [if_pos e] at h; injection h with h; subst h; exact e.symm
    rw [if_neg e] at h; clear e
    by_cases e : x = 1
    · rw [if_pos e] at h; injection h with h; subst h; exact e.symm
    rw [if_neg e] at h; clear e
    cases h

theorem MoveStatus.codec_lawful : Codec.Lawful MoveStatus.codec 1 := by
  apply enum_lawful u8_lawful
  · intro x; cases x <;> rfl
  · intro x y h; unfold MoveStatus.ofTag at h
    by_cases e : x = 0
    · rw [if_pos e] at h; injection h with h; subst h; exact e.symm
    rw [if_neg e] at h; clear e
    by_cases e : x = 1
    · rw [if_pos e] at h; injection h with h; subst h; exact e.symm
    rw [if_neg e] at h; clear e
    by_cases e : x = 2
    · rw [if_pos e] at h; injection h with h; subst h; exact e.symm
    rw [if_neg e] at h; clear e
    by_cases e : x = 3
    · rw [if_pos e] at h; injection h with h; subst h; exact e.symm
    rw [if_neg e] at h; clear e
    by_cases e : x = 4
    · rw [if_pos e] at h; injection h with h; subst h; exact e.symm
    rw [if_neg e] at h; clear e
    by_cases e : x = 5
    · rw [if_pos e] at h; injection h with h; subst h; exact e.symm
    rw [if_neg e] at h; clear e
    by_cases e : x = 6
    · rw [if_pos e] at h; injection h with h; subst h; exact e.symm
    rw [if_neg e] at h; clear e
    by_cases e : x = 7
    · rw [if_pos e] at h; injection h with h; subst h; exact e.symm
    rw [if_neg e] at h; clear e
    by_cases e : x = 8
    · rw [if_pos e] at h; injection h with h; subst h; exact e.symm
    rw [if_neg e] at h; clear e
    by_cases e : x = 9
    · rw [if_pos e] at h; injection h with h; subst h; exact e.symm
    rw [if_neg e] at h; clear e
    cases h

theorem StopMoveStatus.codec_lawful : Codec.Lawful StopMoveStatus.codec 1 := by
  apply enum_lawful u8_lawful
  · intro x; cases x <;> rfl
  · intro x y h; unfold StopMoveStatus.ofTag at h
    by_cases e : x = 0
    · rw [if_pos e] at h; injection h with h; subst h; exact e.symm
    rw [if_neg e] at h; clear e
    by_cases e : x = 1
    · rw [if_pos e] at h; injection h with h; subst h; exact e.symm
    rw [if_neg e] at h; clear e
    by_cases e : x = 2
    · rw [if_pos e] at h; injection h with h; subst h; exact e.symm
    rw [if_neg e] at h; clear e
    by_cases e : x = 3
    · rw [if_pos e] at h; injection h with h; subst h; exact e.symm
    rw [if_neg e] at h; clear e
    by_cases e : x = 4
    · rw [if_pos e] at h; injection h with h; subst h; exact e.symm
    rw [if_neg e] at h; clear e
    cases h

theorem AutomaticErrorRecoveryStatus.codec_lawful : Codec.Lawful AutomaticErrorRecoveryStatus.codec 1 := by
  apply enum_lawful u8_lawful
  · intro x; cases x <;> rfl
  · intro x y h; unfold AutomaticErrorRecoveryStatus.ofTag at h
    by_cases e : x = 0
    · rw [if_pos e] at h; injection h with h; subst h; exact e.symm
    rw [if_neg e] at h; clear e
    by_cases e : x = 1
    · rw [if_pos e] at h; injection h with h; subst h; exact e.symm
    rw [if_neg e] at h; clear e
    by_cases e : x = 2
    · rw [if_pos e] at h; injection h with h; subst h; exact e.symm
    rw [if_neg e] at h; clear e
    by_cases e : x = 3
    · rw [if_pos e] at h; injection h with h; subst h; exact e.symm
    rw [if_neg e] at h; clear e
    by_cases e : x = 4
    · rw [if_pos e] at h; injection h with h; subst h; exact e.symm
    rw [if_neg e] at h; clear e
    by_cases e : x = 5
    · rw [if_pos e] at h; injection h with h; subst h; exact e.symm
    rw [if_neg e] at h; clear e
    cases h

theorem LoadModelLibraryStatus.codec_lawful : Codec.Lawful LoadModelLibraryStatus.codec 1 := by
  apply enum_lawful u8_lawful
  · intro x; cases x <;> rfl
  · intro x y h; unfold LoadModelLibraryStatus.ofTag at h
    by_cases e : x = 0
    · rw [if_pos e] at h; injection h with h; subst h; exact e.symm
    rw [if_neg e] at h; clear e
    by_cases e : x = 1
    · rw [if_pos e] at h; injection h with h; subst h; exact e.symm
    rw [if_neg e] at h; clear e
    cases h

theorem GetterSetterStatus.codec_lawful : Codec.Lawful GetterSetterStatus.codec 1 := by
  apply enum_lawful u8_lawful
  · intro x; cases x <;> rfl
  · intro x y h; unfold GetterSetterStatus.ofTag at h
    by_cases e : x = 0
    · rw [if_pos e] at h; injection h with h; subst h; exact e.symm
    rw [if_neg e] at h; clear e
    by_cases e : x = 1
    · rw [if_pos e] at h; injection h with h; subst h; exact e.symm
    rw [if_neg e] at h; clear e
    by_cases e : x = 2
    · rw [if_pos e] at h; injection h with h; subst h; exact e.symm
    rw [if_neg e] at h; clear e
    cases h

theorem MoveControllerMode.codec_lawful : Codec.Lawful MoveControllerMode.codec 4 := by
  apply enum_lawful u32_lawful
  · intro x; cases x <;> rfl
  · intro x y h; unfold MoveControllerMode.ofTag at h
    by_cases e : x = 0
    · rw [if_pos e] at h; injection h with h; subst h; exact e.symm
    rw [if_neg e] at h; clear e
    by_cases e : x = 1
    · rw [if_pos e] at h; injection h with h; subst h; exact e.symm
    rw [if_neg e] at h; clear e
    by_cases e : x = 2
    · rw [if_pos e] at h; injection h with h; subst h; exact e.symm
    rw [if_neg e] at h; clear e
    cases h

theorem MoveMotionGeneratorMode.codec_lawful : Codec.Lawful MoveMotionGeneratorMode.codec 4 := by
  apply enum_lawful u32_lawful
  · intro x; cases x <;> rfl
  · intro x y h; unfold MoveMotionGeneratorMode.ofTag at h
    by_cases e : x = 0
    · rw [if_pos e] at h; injection h with h; subst h; exact e.symm
    rw [if_neg e] at h; clear e
    by_cases e : x = 1
    · rw [if_pos e] at h; injection h with h; subst h; exact e.symm
    rw [if_neg e] at h; clear e
    by_cases e : x = 2
    · rw [if_pos e] at h; injection h with h; subst h; exact e.symm
    rw [if_neg e] at h; clear e
    by_cases e : x = 3
    · rw [if_pos e] at h; injection h with h; subst h; exact e.symm
    rw [if_neg e] at h; clear e
    cases h

theorem LoadModelLibraryArchitecture.codec_lawful : Codec.Lawful LoadModelLibraryArchitecture.codec 1 := by
  apply enum_lawful u8_lawful
  · intro x; cases x <;> rfl
  · intro x y h; unfold LoadModelLibraryArchitecture.ofTag at h
    by_cases e : x = 0
    · rw [if_pos e] at h; injection h with h; subst h; exact e.symm
    rw [if_neg e] at h; clear e
    by_cases e : x = 1
    · rw [if_pos e] at h; injection h with h; subst h; exact e.symm
    rw [if_neg e] at h; clear e
    by_cases e : x = 2
    · rw [if_pos e] at h; injection h with h; subst h; exact e.symm
    rw [if_neg e] at h; clear e
    by_cases e : x = 3
    · rw [if_pos e] at h; injection h with h; subst h; exact e.symm
    rw [if_neg e] at h; clear e
    cases h

theorem LoadModelLibrarySystem.codec_lawful : Codec.Lawful LoadModelLibrarySystem.codec 1 := by
  apply enum_lawful u8_lawful
  · intro x; cases x <;> rfl
  · intro x y h; unfold LoadModelLibrarySystem.ofTag at h
    by_cases e : x = 0
    · rw [if_pos e] at h; injection h with h; subst h; exact e.symm
    rw [if_neg e] at h; clear e
    by_cases e : x = 1
    · rw [if_pos e] at h; injection h with h; subst h; exact e.symm
    rw [if_neg e] at h; clear e
    cases h

theorem RobotCommandHeader.codec_lawful : Codec.Lawful RobotCommandHeader.codec 12 :=
  iso_lawful (n := 12) ((seq_lawful RobotCommandEnum.codec_lawful <|
    seq_lawful u32_lawful <|
    u32_lawful) : Codec.Lawful _ (12)) (fun _ => rfl) (fun _ => rfl)

theorem ConnectRequest.codec_lawful : Codec.Lawful ConnectRequest.codec 4 :=
  iso_lawful (n := 4) ((seq_lawful u16_lawful <|
    u16_lawful) : Codec.Lawful _ (4)) (fun _ => rfl) (fun _ => rfl)

theorem MoveDeviation.codec_lawful {F : Type} [Wire F] [LawfulWire F] : Codec.Lawful (MoveDeviation.codec F) 24 :=
  iso_lawful (n := 24) ((seq_lawful f64_lawful <|
    seq_lawful f64_lawful <|
    f64_lawful) : Codec.Lawful _ (24)) (fun _ => rfl) (fun _ => rfl)

theorem MoveRequest.codec_lawful {F : Type} [Wire F] [LawfulWire F] : Codec.Lawful (MoveRequest.codec F) 56 :=
  iso_lawful (n := 56) ((seq_lawful MoveControllerMode.codec_lawful <|
    seq_lawful MoveMotionGeneratorMode.codec_lawful <|
    seq_lawful MoveDeviation.codec_lawful <|
    MoveDeviation.codec_lawful) : Codec.Lawful _ (56)) (fun _ => rfl) (fun _ => rfl)

theorem GetCartesianLimitRequest.codec_lawful : Codec.Lawful GetCartesianLimitRequest.codec 4 :=
  iso_lawful (n := 4) ((i32_lawful) : Codec.Lawful _ (4)) (fun _ => rfl) (fun _ => rfl)

theorem SetCollisionBehaviorRequest.codec_lawful {F : Type} [Wire F] [LawfulWire F] : Codec.Lawful (SetCollisionBehaviorRequest.codec F) 416 :=
  iso_lawful (n := 416) ((seq_lawful (arr_lawful f64_lawful 7) <|
    seq_lawful (arr_lawful f64_lawful 7) <|
    seq_lawful (arr_lawful f64_lawful 7) <|
    seq_lawful (arr_lawful f64_lawful 7) <|
    seq_lawful (arr_lawful f64_lawful 6) <|
    seq_lawful (arr_lawful f64_lawful 6) <|
    seq_lawful (arr_lawful f64_lawful 6) <|
    (arr_lawful f64_lawful 6)) : Codec.Lawful _ (416)) (fun _ => rfl) (fun _ => rfl)

theorem SetJointImpedanceRequest.codec_lawful {F : Type} [Wire F] [LawfulWire F] : Codec.Lawful (SetJointImpedanceRequest.codec F) 56 :=
  iso_lawful (n := 56) (((arr_lawful f64_lawful 7)) : Codec.Lawful _ (56)) (fun _ => rfl) (fun _ => rfl)

theorem SetCartesianImpedanceRequest.codec_lawful {F : Type} [Wire F] [LawfulWire F] : Codec.Lawful (SetCartesianImpedanceRequest.codec F) 48 :=
  iso_lawful (n := 48) (((arr_lawful f64_lawful 6)) : Codec.Lawful _ (48)) (fun _ => rfl) (fun _ => rfl)

theorem SetGuidingModeRequest.codec_lawful : Codec.Lawful SetGuidingModeRequest.codec 7 :=
  iso_lawful (n := 7) ((seq_lawful (arr_lawful bool_lawful 6) <|
    bool_lawful) : Codec.Lawful _ (7)) (fun _ => rfl) (fun _ => rfl)

theorem SetEeToKRequest.codec_lawful {F : Type} [Wire F] [LawfulWire F] : Codec.Lawful (SetEeToKRequest.codec F) 128 :=
  iso_lawful (n := 128) (((arr_lawful f64_lawful 16)) : Codec.Lawful _ (128)) (fun _ => rfl) (fun _ => rfl)

theorem SetNeToEeRequest.codec_lawful {F : Type} [Wire F] [LawfulWire F] : Codec.Lawful (SetNeToEeRequest.codec F) 128 :=
  iso_lawful (n := 128) (((arr_lawful f64_lawful 16)) : Codec.Lawful _ (128)) (fun _ => rfl) (fun _ => rfl)

theorem SetLoadRequest.codec_lawful {F : Type} [Wire F] [LawfulWire F] : Codec.Lawful (SetLoadRequest.codec F) 104 :=
  iso_lawful (n := 104) ((seq_lawful f64_lawful <|
    seq_lawful (arr_lawful f64_lawful 3) <|
    (arr_lawful f64_lawful 9)) : Codec.Lawful _ (104)) (fun _ => rfl) (fun _ => rfl)

theorem SetFiltersRequest.codec_lawful {F : Type} [Wire F] [LawfulWire F] : Codec.Lawful (SetFiltersRequest.codec F) 40 :=
  iso_lawful (n := 40) ((seq_lawful f64_lawful <|
    seq_lawful f64_lawful <|
    seq_lawful f64_lawful <|
    seq_lawful f64_lawful <|
    f64_lawful) : Codec.Lawful _ (40)) (fun _ => rfl) (fun _ => rfl)

theorem LoadModelLibraryRequest.codec_lawful : Codec.Lawful LoadModelLibraryRequest.codec 2 :=
  iso_lawful (n := 2) ((seq_lawful LoadModelLibraryArchitecture.codec_lawful <|
    LoadModelLibrarySystem.codec_lawful) : Codec.Lawful _ (2)) (fun _ => rfl) (fun _ => rfl)

theorem ConnectResponse.codec_lawful : Codec.Lawful ConnectResponse.codec 15 :=
  iso_lawful (n := 15) ((seq_lawful RobotCommandHeader.codec_lawful <|
    seq_lawful ConnectStatus.codec_lawful <|
    u16_lawful) : Codec.Lawful _ (15)) (fun _ => rfl) (fun _ => rfl)

theorem MoveResponse.codec_lawful : Codec.Lawful MoveResponse.codec 13 :=
  iso_lawful (n := 13) ((seq_lawful RobotCommandHeader.codec_lawful <|
    MoveStatus.codec_lawful) : Codec.Lawful _ (13)) (fun _ => rfl) (fun _ => rfl)

theorem StopMoveResponse.codec_lawful : Codec.Lawful StopMoveResponse.codec 13 :=
  iso_lawful (n := 13) ((seq_lawful RobotCommandHeader.codec_lawful <|
    StopMoveStatus.codec_lawful) : Codec.Lawful _ (13)) (fun _ => rfl) (fun _ => rfl)

theorem GetCartesianLimitResponse.codec_lawful {F : Type} [Wire F] [LawfulWire F] : Codec.Lawful (GetCartesianLimitResponse.codec F) 166 :=
  iso_lawful (n := 166) ((seq_lawful RobotCommandHeader.codec_lawful <|
    seq_lawful GetterSetterStatus.codec_lawful <|
    seq_lawful (arr_lawful f64_lawful 3) <|
    seq_lawful (arr_lawful f64_lawful 16) <|
    bool_lawful) : Codec.Lawful _ (166)) (fun _ => rfl) (fun _ => rfl)

theorem SetterResponse.codec_lawful : Codec.Lawful SetterResponse.codec 13 :=
  iso_lawful (n := 13) ((seq_lawful RobotCommandHeader.codec_lawful <|
    GetterSetterStatus.codec_lawful) : Codec.Lawful _ (13)) (fun _ => rfl) (fun _ => rfl)

theorem AutomaticErrorRecoveryResponse.codec_lawful : Codec.Lawful AutomaticErrorRecoveryResponse.codec 13 :=
  iso_lawful (n := 13) ((seq_lawful RobotCommandHeader.codec_lawful <|
    AutomaticErrorRecoveryStatus.codec_lawful) : Codec.Lawful _ (13)) (fun _ => rfl) (fun _ => rfl)

theorem LoadModelLibraryResponse.codec_lawful : Codec.Lawful LoadModelLibraryResponse.codec 13 :=
  iso_lawful (n := 13) ((seq_lawful RobotCommandHeader.codec_lawful <|
    LoadModelLibraryStatus.codec_lawful) : Codec.Lawful _ (13)) (fun _ => rfl) (fun _ => rfl)

theorem MotionGeneratorMode.codec_lawful : Codec.Lawful MotionGeneratorMode.codec 1 := by
  apply enum_lawful u8_lawful
  · intro x; cases x <;> rfl
  · intro x y h; unfold MotionGeneratorMode.ofTag at h
    by_cases e : x = 0
    · rw [if_pos e] at h; injection h with h; subst h; exact e.symm
    rw [if_neg e] at h; clear e
    by_cases e : x = 1
    · rw [if_pos e] at h; injection h with h; subst h; exact e.symm
    rw [if_neg e] at h; clear e
    by_cases e : x = 2
    · rw [if_pos e] at h; injection h with h; subst h; exact e.symm
    rw [if_neg e] at h; clear e
    by_cases e : x = 3
    · rw [if_pos e] at h; injection h with h; subst h; exact e.symm
    rw [if_neg e] at h; clear e
    by_cases e : x = 4
    · rw [if_pos e] at h; injection h with h; subst h; exact e.symm
    rw [if_neg e] at h; clear e
    cases h

theorem ControllerMode.codec_lawful : Codec.Lawful ControllerMode.codec 1 := by
  apply enum_lawful u8_lawful
  · intro x; cases x <;> rfl
  · intro x y h; unfold ControllerMode.ofTag at h
    by_cases e : x = 0
    · rw [if_pos e] at h; injection h with h; subst h; exact e.symm
    rw [if_neg e] at h; clear e
    by_cases e : x = 1
    · rw [if_pos e] at h; injection h with h; subst h; exact e.symm
    rw [if_neg e] at h; clear e
    by_cases e : x = 2
    · rw [if_pos e] at h; injection h with h; subst h; exact e.symm
    rw [if_neg e] at h; clear e
    by_cases e : x = 3
    · rw [if_pos e] at h; injection h with h; subst h; exact e.symm
    rw [if_neg e] at h; clear e
    cases h

theorem RobotMode.codec_lawful : Codec.Lawful RobotMode.codec 1 := by
  apply enum_lawful u8_lawful
  · intro x; cases x <;> rfl
  · intro x y h; unfold RobotMode.ofTag at h
    by_cases e : x = 0
    · rw [if_pos e] at h; injection h with h; subst h; exact e.symm
    rw [if_neg e] at h; clear e
    by_cases e : x = 1
    · rw [if_pos e] at h; injection h with h; subst h; exact e.symm
    rw [if_neg e] at h; clear e
    by_cases e : x = 2
    · rw [if_pos e] at h; injection h with h; subst h; exact e.symm
    rw [if_neg e] at h; clear e
    by_cases e : x = 3
    · rw [if_pos e] at h; injection h with h; subst h; exact e.symm
    rw [if_neg e] at h; clear e
    by_cases e : x = 4
    · rw [if_pos e] at h; injection h with h; subst h; exact e.symm
    rw [if_neg e] at h; clear e
    by_cases e : x = 5
    · rw [if_pos e] at h; injection h with h; subst h; exact e.symm
    rw [if_neg e] at h; clear e
    by_cases e : x = 6
    · rw [if_pos e] at h; injection h with h; subst h; exact e.symm
    rw [if_neg e] at h; clear e
    cases h

theorem RoboErrorHelperStruct.codec_lawful : Codec.Lawful RoboErrorHelperStruct.codec 82 :=
  iso_lawful (n := 82) ((seq_lawful (arr_lawful bool_lawful 32) <|
    seq_lawful (arr_lawful bool_lawful 9) <|
    seq_lawful (arr_lawful bool_lawful 32) <|
    (arr_lawful bool_lawful 9)) : Codec.Lawful _ (82)) (fun _ => rfl) (fun _ => rfl)

theorem RobotStateIntern.codec_lawful {F : Type} [Wire F] [LawfulWire F] : Codec.Lawful (RobotStateIntern.codec F) 2373 :=
  iso_lawful (n := 2373) ((seq_lawful u64_lawful <|
    seq_lawful (arr_lawful f64_lawful 16) <|
    seq_lawful (arr_lawful f64_lawful 16) <|
    seq_lawful (arr_lawful f64_lawful 16) <|
    seq_lawful (arr_lawful f64_lawful 16) <|
    seq_lawful (arr_lawful f64_lawful 16) <|
    seq_lawful (arr_lawful f64_lawful 16) <|
    seq_lawful f64_lawful <|
    seq_lawful (arr_lawful f64_lawful 9) <|
    seq_lawful (arr_lawful f64_lawful 3) <|
    seq_lawful f64_lawful <|
    seq_lawful (arr_lawful f64_lawful 9) <|
    seq_lawful (arr_lawful f64_lawful 3) <|
    seq_lawful (arr_lawful f64_lawful 2) <|
    seq_lawful (arr_lawful f64_lawful 2) <|
    seq_lawful (arr_lawful f64_lawful 7) <|
    seq_lawful (arr_lawful f64_lawful 7) <|
    seq_lawful (arr_lawful f64_lawful 7) <|
    seq_lawful (arr_lawful f64_lawful 7) <|
    seq_lawful (arr_lawful f64_lawful 7) <|
    seq_lawful (arr_lawful f64_lawful 7) <|
    seq_lawful (arr_lawful f64_lawful 7) <|
    seq_lawful (arr_lawful f64_lawful 7) <|
    seq_lawful (arr_lawful f64_lawful 7) <|
    seq_lawful (arr_lawful f64_lawful 6) <|
    seq_lawful (arr_lawful f64_lawful 7) <|
    seq_lawful (arr_lawful f64_lawful 6) <|
    seq_lawful (arr_lawful f64_lawful 7) <|
    seq_lawful (arr_lawful f64_lawful 6) <|
    seq_lawful (arr_lawful f64_lawful 6) <|
    seq_lawful (arr_lawful f64_lawful 6) <|
    seq_lawful (arr_lawful f64_lawful 3) <|
    seq_lawful (arr_lawful f64_lawful 2) <|
    seq_lawful (arr_lawful f64_lawful 2) <|
    seq_lawful (arr_lawful f64_lawful 2) <|
    seq_lawful (arr_lawful f64_lawful 16) <|
    seq_lawful (arr_lawful f64_lawful 6) <|
    seq_lawful (arr_lawful f64_lawful 6) <|
    seq_lawful (arr_lawful f64_lawful 7) <|
    seq_lawful (arr_lawful f64_lawful 7) <|
    seq_lawful MotionGeneratorMode.codec_lawful <|
    seq_lawful ControllerMode.codec_lawful <|
    seq_lawful RoboErrorHelperStruct.codec_lawful <|
    seq_lawful RobotMode.codec_lawful <|
    f64_lawful) : Codec.Lawful _ (2373)) (fun _ => rfl) (fun _ => rfl)

theorem MotionGeneratorCommand.codec_lawful {F : Type} [Wire F] [LawfulWire F] : Codec.Lawful (MotionGeneratorCommand.codec F) 306 :=
  iso_lawful (n := 306) ((seq_lawful (arr_lawful f64_lawful 7) <|
    seq_lawful (arr_lawful f64_lawful 7) <|
    seq_lawful (arr_lawful f64_lawful 16) <|
    seq_lawful (arr_lawful f64_lawful 6) <|
    seq_lawful (arr_lawful f64_lawful 2) <|
    seq_lawful bool_lawful <|
    bool_lawful) : Codec.Lawful _ (306)) (fun _ => rfl) (fun _ => rfl)

theorem ControllerCommand.codec_lawful {F : Type} [Wire F] [LawfulWire F] : Codec.Lawful (ControllerCommand.codec F) 56 :=
  iso_lawful (n := 56) (((arr_lawful f64_lawful 7)) : Codec.Lawful _ (56)) (fun _ => rfl) (fun _ => rfl)

theorem RobotCommand.codec_lawful {F : Type} [Wire F] [LawfulWire F] : Codec.Lawful (RobotCommand.codec F) 370 :=
  iso_lawful (n := 370) ((seq_lawful u64_lawful <|
    seq_lawful MotionGeneratorCommand.codec_lawful <|
    ControllerCommand.codec_lawful) : Codec.Lawful _ (370)) (fun _ => rfl) (fun _ => rfl)

theorem Codec.f64_sized {F : Type} [Wire F] : Codec.Sized (Codec.f64 F) 8 := iso_sized u64_lawful.len

theorem MotionGeneratorCommand.codec_sized {F : Type} [Wire F] : Codec.Sized (MotionGeneratorCommand.codec F) 306 :=
  iso_sized (n := 306) ((seq_sized (arr_sized f64_sized 7) <|
    seq_sized (arr_sized f64_sized 7) <|
    seq_sized (arr_sized f64_sized 16) <|
    seq_sized (arr_sized f64_sized 6) <|
    seq_sized (arr_sized f64_sized 2) <|
    seq_sized bool_lawful.len <|
    bool_lawful.len) : Codec.Sized _ (306))

theorem ControllerCommand.codec_sized {F : Type} [Wire F] : Codec.Sized (ControllerCommand.codec F) 56 :=
  iso_sized (n := 56) ((arr_sized f64_sized 7) : Codec.Sized _ (56))

theorem RobotCommand.codec_sized {F : Type} [Wire F] : Codec.Sized (RobotCommand.codec F) 370 :=
  iso_sized (n := 370) ((seq_sized u64_lawful.len <|
    seq_sized MotionGeneratorCommand.codec_sized <|
    ControllerCommand.codec_sized) : Codec.Sized _ (370))

namespace Gripper

theorem Command.codec_lawful : Codec.Lawful Command.codec 2 := by
  apply enum_lawful u16_lawful
  · intro x; cases x <;> rfl
  · intro x y h; unfold Command.ofTag at h
    by_cases e : x = 0
    · rw [if_pos e] at h; injection h with h; subst h; exact e.symm
    rw [if_neg e] at h; clear e
    by_cases e : x = 1
    · rw [if_pos e] at h; injection h with h; subst h; exact e.symm
    rw [if_neg e] at h; clear e
    by_cases e : x = 2
    · rw [if_pos e] at h; injection h with h; subst h; exact e.symm
    rw [if_neg e] at h; clear e
    by_cases e : x = 3
    · rw [if_pos e] at h; injection h with h; subst h; exact e.symm
    rw [if_neg e] at h; clear e
    by_cases e : x = 4
    · rw [if_pos e] at h; injection h with h; subst h; exact e.symm
    rw [if_neg e] at h; clear e
    cases h

theorem Status.codec_lawful : Codec.Lawful Status.codec 2 := by
  apply enum_lawful u16_lawful
  · intro x; cases x <;> rfl
  · intro x y h; unfold Status.ofTag at h
    by_cases e : x = 0
    · rw [if_pos e] at h; injection h with h; subst h; exact e.symm
    rw [if_neg e] at h; clear e
    by_cases e : x = 1
    · rw [if_pos e] at h; injection h with h; subst h; exact e.symm
    rw [if_neg e] at h; clear e
    by_cases e : x = 2
    · rw [if_pos e] at h; injection h with h; subst h; exact e.symm
    rw [if_neg e] at h; clear e
    by_cases e : x = 3
    · rw [if_pos e] at h; injection h with h; subst h; exact e.symm
    rw [if_neg e] at h; clear e
    cases h

theorem GripperStateIntern.codec_lawful {F : Type} [Wire F] [LawfulWire F] : Codec.Lawful (GripperStateIntern.codec F) 23 :=
  iso_lawful (n := 23) ((seq_lawful u32_lawful <|
    seq_lawful f64_lawful <|
    seq_lawful f64_lawful <|
    seq_lawful bool_lawful <|
    u16_lawful) : Codec.Lawful _ (23)) (fun _ => rfl) (fun _ => rfl)

theorem CommandHeader.codec_lawful : Codec.Lawful CommandHeader.codec 10 :=
  iso_lawful (n := 10) ((seq_lawful Command.codec_lawful <|
    seq_lawful u32_lawful <|
    u32_lawful) : Codec.Lawful _ (10)) (fun _ => rfl) (fun _ => rfl)

theorem ConnectRequest.codec_lawful : Codec.Lawful ConnectRequest.codec 4 :=
  iso_lawful (n := 4) ((seq_lawful u16_lawful <|
    u16_lawful) : Codec.Lawful _ (4)) (fun _ => rfl) (fun _ => rfl)

theorem MoveRequest.codec_lawful {F : Type} [Wire F] [LawfulWire F] : Codec.Lawful (MoveRequest.codec F) 16 :=
  iso_lawful (n := 16) ((seq_lawful f64_lawful <|
    f64_lawful) : Codec.Lawful _ (16)) (fun _ => rfl) (fun _ => rfl)

theorem GraspEpsilon.codec_lawful {F : Type} [Wire F] [LawfulWire F] : Codec.Lawful (GraspEpsilon.codec F) 16 :=
  iso_lawful (n := 16) ((seq_lawful f64_lawful <|
    f64_lawful) : Codec.Lawful _ (16)) (fun _ => rfl) (fun _ => rfl)

theorem GraspRequest.codec_lawful {F : Type} [Wire F] [LawfulWire F] : Codec.Lawful (GraspRequest.codec F) 40 :=
  iso_lawful (n := 40) ((seq_lawful f64_lawful <|
    seq_lawful GraspEpsilon.codec_lawful <|
    seq_lawful f64_lawful <|
    f64_lawful) : Codec.Lawful _ (40)) (fun _ => rfl) (fun _ => rfl)

theorem ConnectResponse.codec_lawful : Codec.Lawful ConnectResponse.codec 14 :=
  iso_lawful (n := 14) ((seq_lawful CommandHeader.codec_lawful <|
    seq_lawful Status.codec_lawful <|
    u16_lawful) : Codec.Lawful _ (14)) (fun _ => rfl) (fun _ => rfl)

theorem MoveResponse.codec_lawful : Codec.Lawful MoveResponse.codec 12 :=
  iso_lawful (n := 12) ((seq_lawful CommandHeader.codec_lawful <|
    Status.codec_lawful) : Codec.Lawful _ (12)) (fun _ => rfl) (fun _ => rfl)

end Gripper
end Verif
