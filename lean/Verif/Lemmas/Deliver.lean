import Verif.Lemmas.Rpc
/-!
# An answer that arrives in one piece is handed to the caller; without an answer nobody returns
-/
set_option linter.unusedSectionVars false
namespace Verif
open Prog Spec
variable {F : Type}

theorem sendRequest_eq (b : RobotBody F) (w : World F) (t : Tick) (ts : List Tick) (hs : w.script = t :: ts) (hf : t.fail = false)
    (hid : w.net.command_id ≠ 0xffffffff) :
    sendRequest b w = (.ok w.net.command_id, { w with
            script := ts, ker := w.ker.arrive t, net := { w.net with command_id := w.net.command_id + 1 }
            trace := w.trace ++ [.robotReq ⟨⟨kind b, w.net.command_id, UInt32.ofNat (kind b).size_of_request⟩, b⟩] }) := by
  apply Post.eq
  unfold sendRequest create_header_for_robot next_command_id tcp_send_request
  simp only [post_bind, post_gets, after_ok, post_ite, post_panic, after_panic, post_modify, post_pure]
  refine ⟨fun h => absurd h (by simp [hid]), fun hno => ?_⟩
  rw [post_sys]
  refine ⟨fun h => by simp [hs] at h, ?_⟩
  intro t' ts' hs'
  rw [hs] at hs'
  cases hs'
  simp only [after_ok, post_ite, post_panic, post_bind, post_emit, post_pure]
  exact ⟨fun h => by simp [hf] at h, fun _ => ⟨trivial, trivial⟩⟩

theorem sendGripperRequest_eq (b : Gripper.Body F) (w : World F) (t : Tick) (ts : List Tick) (hs : w.script = t :: ts)
    (hf : t.fail = false) (hid : w.net.command_id ≠ 0xffffffff) :
    sendGripperRequest b w = (.ok w.net.command_id, { w with
            script := ts, ker := w.ker.arrive t, net := { w.net with command_id := w.net.command_id + 1 }
            trace := w.trace ++ [.gripperReq ⟨⟨gripperKind b, w.net.command_id, UInt32.ofNat (gripperKind b).size_of_request⟩, b⟩] }) := by
  apply Post.eq
  unfold sendGripperRequest create_header_for_gripper next_command_id tcp_send_request_gripper
  simp only [post_bind, post_gets, after_ok, post_ite, post_panic, after_panic, post_modify, post_pure]
  refine ⟨fun h => absurd h (by simp [hid]), fun hno => ?_⟩
  rw [post_sys]
  refine ⟨fun h => by simp [hs] at h, ?_⟩
  intro t' ts' hs'
  rw [hs] at hs'
  cases hs'
  simp only [after_ok, post_ite, post_panic, post_bind, post_emit, post_pure]
  exact ⟨fun h => by simp [hf] at h, fun _ => ⟨trivial, trivial⟩⟩

/-- After the first tick of `AnswerArrives` (the write), the rest is a `Delivery`. -/
theorem delivery_of_arrives (w : World F) (m : Bytes) (h : AnswerArrives w m) (tr : List (Ev F)) (c : UInt32) :
    ∃ t ts q t1 t2 t3 t4 us r, w.script = t :: ts ∧ t.fail = false ∧
      Delivery { w with script := ts, ker := w.ker.arrive t, net := { w.net with command_id := c }, trace := tr }
        w.net.command_id q t1 t2 t3 t4 us m r := by
  obtain ⟨q, t1, t2, t3, t4, us, r, h1, h2, h3, h4, h5, h6⟩ := h.schedule
  cases q with
  | nil => exact absurd rfl h2
  | cons t q =>
    obtain ⟨g1, g2, g3⟩ := h3 t (by simp)
    refine ⟨t, _, q, t1, t2, t3, t4, us, r, h1, g3, rfl, fun x hx => h3 x (by simp [hx]), h4, ?_, ?_, h.pending, h.absent, h5, h6,
      h.frame, h.long, h.short, h.known⟩
    · simp [Kernel.arrive, g1, h.rx]
    · simp [Kernel.arrive, g1, g2, h.edge]

theorem receive_delivers {α : Type} (c : Codec α) (id : UInt32) (q : List Tick) (t1 t2 t3 t4 : Tick) (ts : List Tick) (m r : Bytes)
    (w : World F) (h : Delivery w id q t1 t2 t3 t4 ts m r) (a : α) (rest : Bytes) (hd : c.dec m = some (a, rest)) :
    Post (tcp_blocking_receive_response c id : Prog F α) w fun res _ => res = .ok a := by
  unfold tcp_blocking_receive_response
  rw [post_bind]
  refine (wait_delivers id q t1 t2 t3 t4 ts m r w h).mono ?_
  rintro res w' ⟨rfl, -⟩
  simp [after_ok, deserialize, hd]

theorem ask_delivers {α : Type} (b : RobotBody F) (c : Codec α) (w : World F) (m : Bytes) (h : AnswerArrives w m) (a : α)
    (rest : Bytes) (hd : c.dec m = some (a, rest)) : Post (ask b c) w fun res _ => res = .ok a := by
  obtain ⟨t, ts, q, t1, t2, t3, t4, us, r, h1, h2, h3⟩ := delivery_of_arrives w m h
    (w.trace ++ [.robotReq ⟨⟨kind b, w.net.command_id, UInt32.ofNat (kind b).size_of_request⟩, b⟩]) (w.net.command_id + 1)
  unfold ask
  rw [post_bind, post_of_eq (sendRequest_eq b w t ts h1 h2 h.ids), after_ok]
  exact receive_delivers c _ q t1 t2 t3 t4 us m r _ h3 a rest hd

theorem askGripper_delivers {α : Type} (b : Gripper.Body F) (c : Codec α) (w : World F) (m : Bytes) (h : AnswerArrives w m) (a : α)
    (rest : Bytes) (hd : c.dec m = some (a, rest)) : Post (askGripper b c) w fun res _ => res = .ok a := by
  obtain ⟨t, ts, q, t1, t2, t3, t4, us, r, h1, h2, h3⟩ := delivery_of_arrives w m h
    (w.trace ++ [.gripperReq ⟨⟨gripperKind b, w.net.command_id, UInt32.ofNat (gripperKind b).size_of_request⟩, b⟩]) (w.net.command_id + 1)
  unfold askGripper
  rw [post_bind, post_of_eq (sendGripperRequest_eq b w t ts h1 h2 h.ids), after_ok]
  exact receive_delivers c _ q t1 t2 t3 t4 us m r _ h3 a rest hd

theorem rpc_delivers {α β : Type} (b : RobotBody F) (c : Codec α) (f : α → Outcome F β) (w : World F) (m : Bytes)
    (h : AnswerArrives w m) (a : α) (rest : Bytes) (hd : c.dec m = some (a, rest)) :
    (rpc b c f w).1 = returned (f a) := by
  suffices hp : Post (rpc b c f) w fun res _ => res = returned (f a) from hp
  unfold rpc
  refine (ask_delivers b c w m h a rest hd).bind ?_
  rintro res w' rfl
  rw [after_ok]
  cases f a <;> rfl

theorem rpcGripper_delivers {α β : Type} (b : Gripper.Body F) (c : Codec α) (f : α → Outcome F β) (w : World F) (m : Bytes)
    (h : AnswerArrives w m) (a : α) (rest : Bytes) (hd : c.dec m = some (a, rest)) :
    (rpcGripper b c f w).1 = returned (f a) := by
  suffices hp : Post (rpcGripper b c f) w fun res _ => res = returned (f a) from hp
  unfold rpcGripper
  refine (askGripper_delivers b c w m h a rest hd).bind ?_
  rintro res w' rfl
  rw [after_ok]
  cases f a <;> rfl

/-! ## Which answers can be decoded -/

theorem natAt_drop (bs : Bytes) (o i k : Nat) : natAt (bs.drop o) i k = natAt bs (o + i) k := by
  induction k with
  | zero => rfl
  | succ k ih => simp [natAt, ih, List.getElem?_drop, Nat.add_assoc]

theorem u8_dec_of (bs : Bytes) (h : 1 ≤ bs.length) : Codec.u8.dec bs = some (UInt8.ofNat (natAt bs 0 1), bs.drop 1) := by
  simp [Codec.u8, Codec.splitN, h, natAt_take bs 1 h]

theorem robot_header_dec (bs : Bytes) (hl : 12 ≤ bs.length) (hk : KnownCommand .Robot bs) :
    ∃ h, RobotCommandHeader.codec.dec bs = some (h, bs.drop 12) := by
  obtain ⟨c, hc⟩ := Option.isSome_iff_exists.mp (robot_tag_known _ hk)
  simp only [RobotCommandHeader.codec, Codec.iso, Codec.seq, RobotCommandEnum.codec, Codec.enum]
  rw [u32_dec_of bs (by omega)]
  simp only [Option.bind_some, hc, Option.map_some]
  rw [u32_dec_of _ (by simp; omega)]
  simp only [Option.bind_some]
  rw [u32_dec_of _ (by simp; omega)]
  simp only [Option.map_some, List.drop_drop]
  exact ⟨_, rfl⟩

theorem gripper_header_dec (bs : Bytes) (hl : 10 ≤ bs.length) (hk : KnownCommand .Gripper bs) :
    ∃ h, Gripper.CommandHeader.codec.dec bs = some (h, bs.drop 10) := by
  obtain ⟨c, hc⟩ := Option.isSome_iff_exists.mp (gripper_tag_known _ hk)
  simp only [Gripper.CommandHeader.codec, Codec.iso, Codec.seq, Gripper.Command.codec, Codec.enum]
  rw [u16_dec_of bs (by omega)]
  simp only [Option.bind_some, hc, Option.map_some]
  rw [u32_dec_of _ (by simp; omega)]
  simp only [Option.bind_some]
  rw [u32_dec_of _ (by simp; omega)]
  simp only [Option.map_some, List.drop_drop]
  exact ⟨_, rfl⟩

theorem setter_tag_known : ∀ n < 3, (GetterSetterStatus.ofTag (UInt8.ofNat n)).isSome = true := by decide
theorem stop_tag_known : ∀ n < 5, (StopMoveStatus.ofTag (UInt8.ofNat n)).isSome = true := by decide
theorem recovery_tag_known : ∀ n < 6, (AutomaticErrorRecoveryStatus.ofTag (UInt8.ofNat n)).isSome = true := by decide
theorem connect_tag_known : ∀ n < 2, (ConnectStatus.ofTag (UInt8.ofNat n)).isSome = true := by decide
theorem status_tag_known : ∀ n < 4, (Gripper.Status.ofTag (UInt16.ofNat n)).isSome = true := by decide

theorem setter_dec (m : Bytes) (hl : 13 ≤ m.length) (hk : KnownCommand .Robot m) (hs : natAt m 12 1 < 3) :
    ∃ a rest, SetterResponse.codec.dec m = some (a, rest) := by
  obtain ⟨h, hh⟩ := robot_header_dec m (by omega) hk
  obtain ⟨c, hc⟩ := Option.isSome_iff_exists.mp (setter_tag_known _ hs)
  have hn : natAt (m.drop 12) 0 1 = natAt m 12 1 := natAt_drop m 12 0 1
  simp only [SetterResponse.codec, Codec.iso, Codec.seq, GetterSetterStatus.codec, Codec.enum, hh, Option.bind_some]
  rw [u8_dec_of _ (by simp; omega)]
  simp [hn, hc]

theorem stop_dec (m : Bytes) (hl : 13 ≤ m.length) (hk : KnownCommand .Robot m) (hs : natAt m 12 1 < 5) :
    ∃ a rest, StopMoveResponse.codec.dec m = some (a, rest) := by
  obtain ⟨h, hh⟩ := robot_header_dec m (by omega) hk
  obtain ⟨c, hc⟩ := Option.isSome_iff_exists.mp (stop_tag_known _ hs)
  have hn : natAt (m.drop 12) 0 1 = natAt m 12 1 := natAt_drop m 12 0 1
  simp only [StopMoveResponse.codec, Codec.iso, Codec.seq, StopMoveStatus.codec, Codec.enum, hh, Option.bind_some]
  rw [u8_dec_of _ (by simp; omega)]
  simp [hn, hc]

theorem recovery_dec (m : Bytes) (hl : 13 ≤ m.length) (hk : KnownCommand .Robot m) (hs : natAt m 12 1 < 6) :
    ∃ a rest, AutomaticErrorRecoveryResponse.codec.dec m = some (a, rest) := by
  obtain ⟨h, hh⟩ := robot_header_dec m (by omega) hk
  obtain ⟨c, hc⟩ := Option.isSome_iff_exists.mp (recovery_tag_known _ hs)
  have hn : natAt (m.drop 12) 0 1 = natAt m 12 1 := natAt_drop m 12 0 1
  simp only [AutomaticErrorRecoveryResponse.codec, Codec.iso, Codec.seq, AutomaticErrorRecoveryStatus.codec, Codec.enum, hh,
    Option.bind_some]
  rw [u8_dec_of _ (by simp; omega)]
  simp [hn, hc]

theorem gripper_dec (m : Bytes) (hl : 12 ≤ m.length) (hk : KnownCommand .Gripper m) (hs : natAt m 10 2 < 4) :
    ∃ a rest, Gripper.MoveResponse.codec.dec m = some (a, rest) := by
  obtain ⟨h, hh⟩ := gripper_header_dec m (by omega) hk
  obtain ⟨c, hc⟩ := Option.isSome_iff_exists.mp (status_tag_known _ hs)
  have hn : natAt (m.drop 10) 0 2 = natAt m 10 2 := natAt_drop m 10 0 2
  simp only [Gripper.MoveResponse.codec, Codec.iso, Codec.seq, Gripper.Status.codec, Codec.enum, hh, Option.bind_some]
  rw [u16_dec_of _ (by simp; omega)]
  simp [hn, hc]

/-! ## What the decoded status says about the bytes -/

theorem setter_verdict (m rest : Bytes) (a : SetterResponse) (h : SetterResponse.codec.dec m = some (a, rest)) :
    setterVerdict (F := F) m (setterOutcome a.status) := by
  have h0 := SetterResponse.codec_lawful.sound _ _ _ h
  have ha : At m 0 (SetterResponse.codec.enc a) := ⟨[], rest, h0, rfl⟩
  obtain ⟨hh, hs⟩ := At.seq ha (m := 12) (RobotCommandHeader.codec_lawful.len _)
  have hst := At.nat1 hs
  simp only [Nat.zero_add] at hst
  unfold setterVerdict
  rw [hst]
  cases a with
  | mk hd st => cases st <;> rfl

theorem stop_verdict (m rest : Bytes) (a : StopMoveResponse) (h : StopMoveResponse.codec.dec m = some (a, rest)) :
    stopVerdict (F := F) m (stopOutcome a.status) := by
  have h0 := StopMoveResponse.codec_lawful.sound _ _ _ h
  have ha : At m 0 (StopMoveResponse.codec.enc a) := ⟨[], rest, h0, rfl⟩
  obtain ⟨hh, hs⟩ := At.seq ha (m := 12) (RobotCommandHeader.codec_lawful.len _)
  have hst := At.nat1 hs
  simp only [Nat.zero_add] at hst
  unfold stopVerdict
  rw [hst]
  cases a with
  | mk hd st => cases st <;> rfl

theorem recovery_verdict (m rest : Bytes) (a : AutomaticErrorRecoveryResponse)
    (h : AutomaticErrorRecoveryResponse.codec.dec m = some (a, rest)) :
    recoveryVerdict (F := F) m (recoveryOutcome a.status) := by
  have h0 := AutomaticErrorRecoveryResponse.codec_lawful.sound _ _ _ h
  have ha : At m 0 (AutomaticErrorRecoveryResponse.codec.enc a) := ⟨[], rest, h0, rfl⟩
  obtain ⟨hh, hs⟩ := At.seq ha (m := 12) (RobotCommandHeader.codec_lawful.len _)
  have hst := At.nat1 hs
  simp only [Nat.zero_add] at hst
  unfold recoveryVerdict
  rw [hst]
  cases a with
  | mk hd st => cases st <;> rfl

theorem gripper_verdict (m rest : Bytes) (a : Gripper.MoveResponse) (h : Gripper.MoveResponse.codec.dec m = some (a, rest)) :
    gripperVerdict (F := F) m (gripperOutcome a.status) := by
  have h0 := Gripper.MoveResponse.codec_lawful.sound _ _ _ h
  have ha : At m 0 (Gripper.MoveResponse.codec.enc a) := ⟨[], rest, h0, rfl⟩
  obtain ⟨hh, hs⟩ := At.seq ha (m := 10) (Gripper.CommandHeader.codec_lawful.len _)
  have hst := At.nat2 hs
  simp only [Nat.zero_add] at hst
  unfold gripperVerdict
  rw [hst]
  cases a with
  | mk hd st => cases st <;> rfl

theorem wall_verdict [Wire F] [LawfulWire F] (id : Int32) (m rest : Bytes) (a : GetCartesianLimitResponse F)
    (h : (GetCartesianLimitResponse.codec F).dec m = some (a, rest)) : wallVerdict id m (wallOutcome id a) := by
  have h0 := GetCartesianLimitResponse.codec_lawful.sound _ _ _ h
  have ha : At m 0 ((GetCartesianLimitResponse.codec F).enc a) := ⟨[], rest, h0, rfl⟩
  obtain ⟨hh, hr⟩ := At.seq ha (m := 12) (RobotCommandHeader.codec_lawful.len _)
  obtain ⟨hs, hr⟩ := At.seq hr (m := 1) (GetterSetterStatus.codec_lawful.len _)
  obtain ⟨h1, hr⟩ := At.seq hr (m := 24) ((Codec.arr_lawful Codec.f64_lawful 3).len _)
  obtain ⟨h2, h3⟩ := At.seq hr (m := 128) ((Codec.arr_lawful Codec.f64_lawful 16).len _)
  have hst := At.nat1 hs
  simp only [Nat.zero_add] at hst
  unfold wallVerdict
  rw [hst]
  cases a with
  | mk hd st s p act =>
    cases st
    · exact ⟨_, rfl, rfl, At.floats h1, At.floats h2, At.bool h3⟩
    · rfl
    · rfl

end Verif
