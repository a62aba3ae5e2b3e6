import Verif.Spec.ModelPrograms
import Verif.Props.Programs
import Verif.Props.ModelFile
import Verif.Props.Impedance
import Verif.Props.Kinematics
/-!
# Example programs that use the model: C97
-/
set_option linter.unusedSectionVars false
namespace Verif
open Prog Spec Fl
variable {F : Type}

/-- The robot is asked for nothing and the model file stays as it is. -/
structure AsksNothing (w w' : World F) : Prop where
  asked : asked w'.trace = asked w.trace
  file : w'.model_file = w.model_file

theorem AsksNothing.snoc {w : World F} {e : Ev F} (h : ∀ r, e ≠ .robotReq r) : Spec.asked (w.trace ++ [e]) = Spec.asked w.trace := by
  have : Spec.asked [e] = [] := by
    cases e with
    | robotReq r => exact absurd rfl (h r)
    | _ => rfl
  rw [show Spec.asked (w.trace ++ [e]) = Spec.asked w.trace ++ Spec.asked [e] by simp [Spec.asked], this, List.append_nil]

instance : TTcp (AsksNothing (F := F)) where
  refl _ := ⟨rfl, rfl⟩
  trans h1 h2 := ⟨h2.asked.trans h1.asked, h2.file.trans h1.file⟩
  tick _ _ _ _ := ⟨rfl, rfl⟩
  poll _ := ⟨rfl, rfl⟩
  read _ _ := ⟨AsksNothing.snoc (by simp), rfl⟩
  pend _ _ _ := ⟨rfl, rfl⟩
  head _ _ _ := ⟨rfl, rfl⟩
  store _ := ⟨AsksNothing.snoc (by simp), rfl⟩
  remove _ _ := ⟨rfl, rfl⟩

instance : TAcc (AsksNothing (F := F)) where
  upoll _ := ⟨rfl, rfl⟩
  recv _ _ _ _ := ⟨AsksNothing.snoc (by simp), rfl⟩
  addr _ _ := ⟨rfl, rfl⟩
  acc _ _ := ⟨AsksNothing.snoc (by simp), rfl⟩

instance : TRob (AsksNothing (F := F)) where
  rob _ _ _ _ _ := ⟨rfl, rfl⟩

/-- The model file stays as it is. -/
def SameFile (w w' : World F) : Prop := w'.model_file = w.model_file

instance : TTcp (SameFile (F := F)) where
  refl _ := rfl
  trans h1 h2 := Eq.trans h2 h1
  tick _ _ _ _ := rfl
  poll _ := rfl
  read _ _ := rfl
  pend _ _ _ := rfl
  head _ _ _ := rfl
  store _ := rfl
  remove _ _ := rfl

instance : TAcc (SameFile (F := F)) where
  upoll _ := rfl
  recv _ _ _ _ := rfl
  addr _ _ := rfl
  acc _ _ := rfl

instance : TRob (SameFile (F := F)) where
  rob _ _ _ _ _ := rfl

instance : TReq (SameFile (F := F)) (fun _ => True) where
  next _ := rfl
  req _ _ _ := rfl

instance : TAcc (Later (F := F)) where
  upoll _ _ h := h
  recv _ _ _ _ _ h := h
  addr _ _ _ h := h
  acc _ _ _ h := h

instance : TRob (Later (F := F)) where
  rob _ _ _ _ _ _ h := h

instance : TReq (Later (F := F)) (fun _ => True) where
  next _ _ h := h
  req _ _ _ _ h := h

variable [Fl F] [Wire F]

theorem new_later (rc : Option RealtimeConfig) (w : World F) : Later w (Robot.new rc none w).2 := by
  have : Pres Later (Robot.new rc none : Prog F Unit) := by
    unfold Robot.new
    pres [pres_network_new _ fun w _ h => h, pres_robotImpl_new (fun _ => trivial) (fun _ _ _ _ h => h) _ _]
  exact this w

theorem new_file (rc : Option RealtimeConfig) (w : World F) : (Robot.new rc none w).2.model_file = w.model_file := by
  have : Pres SameFile (Robot.new rc none : Prog F Unit) := by
    unfold Robot.new
    pres [pres_network_new _ fun w => rfl, pres_robotImpl_new (fun _ => trivial) (fun _ _ _ => rfl) _ _]
  exact this w

theorem read_once_silent (w : World F) : AsksNothing w (Robot.read_once w).2 := by
  have : Pres AsksNothing (Robot.read_once : Prog F (RobotState F)) := by
    unfold Robot.read_once
    exact pres_robotImpl_read_once
  exact this w

variable [Geo F]

/-- Asking for at most `bs`, and for all of it if it returns Ok. -/
structure SomeAsk {α : Type} (bs : List (RobotBody F)) (w : World F) (r : Res F α) (w' : World F) : Prop where
  all : ∀ a, r = .ok a → asked w'.trace = asked w.trace ++ bs
  some : ∃ l, l <+: bs ∧ asked w'.trace = asked w.trace ++ l

theorem SomeAsk.nothing {α : Type} {w w' : World F} {r : Res F α} (h : asked w'.trace = asked w.trace) : SomeAsk [] w r w' :=
  ⟨fun _ _ => by rw [h, List.append_nil], [], List.prefix_refl _, by rw [h, List.append_nil]⟩

theorem SomeAsk.then {α β : Type} {p : Prog F α} {f : α → Prog F β} {bs cs : List (RobotBody F)} {w : World F} (h1 : SomeAsk bs w (p w).1 (p w).2)
    (h2 : ∀ a w1, p w = (.ok a, w1) → SomeAsk cs w1 (f a w1).1 (f a w1).2) : SomeAsk (bs ++ cs) w ((p >>= f) w).1 ((p >>= f) w).2 := by
  obtain ⟨l, hl, h⟩ := h1.some
  have hl' : l <+: bs ++ cs := hl.trans (List.prefix_append _ _)
  show SomeAsk _ _ (Prog.bind p f w).1 (Prog.bind p f w).2
  unfold Prog.bind
  cases hp : p w with
  | mk r w1 =>
    rw [hp] at h1 h
    cases r with
    | ok a =>
      have h3 := h2 a w1 hp
      have h1 := h1.all a rfl
      obtain ⟨k, hk, hk'⟩ := h3.some
      exact ⟨fun b hb => by rw [h3.all b hb, h1, List.append_assoc], bs ++ k, (List.prefix_append_right_inj bs).2 hk, by rw [hk', h1, List.append_assoc]⟩
    | err e => exact ⟨(fun _ h => by cases h), l, hl', h⟩
    | panic m => exact ⟨(fun _ h => by cases h), l, hl', h⟩
    | blocked => exact ⟨(fun _ h => by cases h), l, hl', h⟩

theorem OneExchange.someAsk {b : RobotBody F} {v : Bytes → Outcome F Unit → Prop} {w w' : World F} {r : Res F Unit} (h : OneExchange b v w r w') : SomeAsk [b] w r w' := by
  have ha := OneExchange.asks h
  obtain ⟨hd, -, h⟩ := h
  refine ⟨fun a ha' => ha.all (by rw [ha']), ?_⟩
  have one : visible w'.trace = visible w.trace ++ [.robotReq ⟨hd, b⟩] → asked w'.trace = asked w.trace ++ [b] := by
    intro h
    rw [← asked_visible w'.trace, h, asked_append, asked_visible]
    rfl
  have none_ : visible w'.trace = visible w.trace → asked w'.trace = asked w.trace := by
    intro h
    rw [← asked_visible w'.trace, h, asked_visible]
  cases r with
  | ok v => exact ⟨[b], List.prefix_refl _, one h.1⟩
  | err e => exact ⟨[b], List.prefix_refl _, one h.1⟩
  | panic m => exact h.elim (fun h => ⟨[], List.nil_prefix, by rw [none_ h, List.append_nil]⟩) fun h => ⟨[b], List.prefix_refl _, one h⟩
  | blocked => exact h.elim (fun h => ⟨[], List.nil_prefix, by rw [none_ h, List.append_nil]⟩) fun h => ⟨[b], List.prefix_refl _, one h⟩

theorem new_someAsk (rc : Option RealtimeConfig) {w : World F} (hw : Fresh w) : SomeAsk [robotHello w] w (Robot.new rc none w).1 (Robot.new rc none w).2 := by
  have h := new_asks_with rc w hw
  have h0 : asked w.trace = [] := by rw [hw.1]; rfl
  refine ⟨fun a ha => by rw [h0]; exact h.all (by rw [ha]), ?_⟩
  obtain ⟨l, hl, h⟩ := h.some
  rcases h with h | ⟨h, m, hm⟩
  · exact ⟨l, hl, by rw [h0]; exact h⟩
  · obtain ⟨k, hk⟩ := hl
    cases l with
    | nil => cases hm
    | cons a l =>
      injection hk with h1 h2
      obtain ⟨rfl, rfl⟩ := List.append_eq_nil_iff.1 h2
      subst h1
      injection hm with hm
      cases hm

theorem download_asks (w : World F) (hw : TcpOk .Robot w) : SomeAsk [libraryBody] w ((download : Prog F Unit) w).1 ((download : Prog F Unit) w).2 := by
  suffices h : Post (download : Prog F Unit) w (SomeAsk [libraryBody] w) from h
  have all : Post (download : Prog F Unit) w fun r w' => ∀ u, r = .ok u → asked w'.trace = asked w.trace ++ [libraryBody] := by
    refine (download_spec w hw).mono ?_
    intro r w' h u hu
    obtain ⟨hd, -, -, h, -⟩ := h u hu
    rw [← asked_visible w'.trace, h, asked_append, asked_visible]
    rfl
  have some_ : Post (download : Prog F Unit) w fun r w' => asked w'.trace = asked w.trace ∨ asked w'.trace = asked w.trace ++ [libraryBody] := by
    unfold download
    simp only [post_bind, post_gets, after_ok, post_ite, post_err]
    refine ⟨fun _ => ?_, fun _ => by simp⟩
    have hk : Keeps (TcpOk .Robot) (TcpWeak .Robot) (sendRequest (F := F) libraryBody) :=
      Keeps.of_rel TcpSame.keep (pres_sendRequest _)
    have hsend := (sendRequest_spec (F := F) libraryBody w).and (hk w hw)
    unfold sendRequest at hsend
    rw [post_bind] at hsend
    refine hsend.mono ?_
    intro r w1 hr
    cases r with
    | ok header =>
      rw [after_ok] at hr ⊢
      rw [post_bind]
      refine hr.mono ?_
      rintro r w2 ⟨h1, h2⟩
      cases r with
      | ok id =>
        obtain ⟨rfl, t, ts, hs, -, -, rfl⟩ := h1
        simp only [after_ok]
        rw [post_bind]
        refine (receive_library_spec w.net.command_id _ h2).mono ?_
        rintro r w3 ⟨g1, g2, g3⟩
        have g2 : asked w3.trace = asked w.trace ++ [libraryBody] := by
          rw [← asked_visible w3.trace, g2, asked_visible, asked_append]
          rfl
        cases r with
        | ok b =>
          rw [after_ok, post_bind, post_sys]
          refine ⟨fun _ => .inr g2, fun t1 ts1 ht1 => ?_⟩
          simp only [after_ok, post_ite, post_err, post_bind, post_modify, post_sys]
          exact ⟨fun _ => .inr g2, fun _ => ⟨fun _ => .inr g2, fun _ _ _ => ⟨fun _ => .inr g2, fun _ => .inr g2⟩⟩⟩
        | err e => exact .inr g2
        | panic msg => exact .inr g2
        | blocked => exact .inr g2
      | err e => exact h1.elim
      | panic msg => exact .inl (by rw [h1])
      | blocked => exact .inl (by rw [h1])
    | err e => exact hr.1.elim
    | panic msg => exact .inl (by rw [hr.1])
    | blocked => exact .inl (by rw [hr.1])
  refine (all.and some_).mono ?_
  rintro r w' ⟨h1, h2⟩
  exact ⟨h1, h2.elim (fun h => ⟨[], List.nil_prefix, by rw [h, List.append_nil]⟩) fun h => ⟨_, List.prefix_refl _, h⟩⟩

theorem load_model_asks (p : Bool) {w : World F} (hw : TcpOk .Robot w) : SomeAsk (modelBodies w) w (Robot.load_model p w).1 (Robot.load_model p w).2 := by
  have tail : ∀ (old : Bool) (w1 : World F), SomeAsk [] w1 ((((model_new : Prog F Bytes) >>= fun model =>
        if !p && old then do
          let t ← sys
          if t.fail then Prog.panic "Could not delete file"
          else do
            modify fun w => { w with model_file := none }
            pure model
        else pure model) : Prog F Bytes) w1).1 ((((model_new : Prog F Bytes) >>= fun model =>
        if !p && old then do
          let t ← sys
          if t.fail then Prog.panic "Could not delete file"
          else do
            modify fun w => { w with model_file := none }
            pure model
        else pure model) : Prog F Bytes) w1).2 := by
    intro old w1
    refine SomeAsk.nothing (show Post _ w1 (fun _ w' => asked w'.trace = asked w1.trace) from ?_)
    rw [post_bind]
    refine (model_new_spec w1).mono ?_
    rintro r w2 ⟨rfl, -⟩
    cases r with
    | ok b =>
      simp only [after_ok, post_ite, post_bind, post_sys, post_panic, post_modify, post_pure]
      simp
    | err e => rfl
    | panic m => rfl
    | blocked => rfl
  unfold modelBodies
  cases hf : w.model_file with
  | some c =>
    have e : (Robot.load_model p : Prog F Bytes) w = (model_new >>= fun model =>
        if !p && true then do
          let t ← sys
          if t.fail then Prog.panic "Could not delete file"
          else do
            modify fun w => { w with model_file := none }
            pure model
        else pure model) w := by
      unfold Robot.load_model
      simp only [bind, Prog.bind, gets, hf, Option.isSome_some, if_true, pure]
    rw [e]
    exact tail true w
  | none =>
    have e : (Robot.load_model p : Prog F Bytes) w = (download >>= fun _ => model_new >>= fun model =>
        if !p && false then do
          let t ← sys
          if t.fail then Prog.panic "Could not delete file"
          else do
            modify fun w => { w with model_file := none }
            pure model
        else pure model) w := by
      unfold Robot.load_model
      simp only [bind, Prog.bind, gets, hf, Option.isSome_none, Bool.false_eq_true, if_false, pure]
    rw [e]
    exact SomeAsk.then (cs := []) (download_asks w hw) fun _ w1 _ => tail false w1

theorem first_bind {α β : Type} {p : Prog F α} {f : α → Prog F β} {w : World F} {k : α → World F → Prop}
    (h : ∀ a w1, p w = (.ok a, w1) → (p >>= f) w = f a w1 → k a w1) : First p w ((p >>= f) w).1 ((p >>= f) w).2 k := by
  unfold First
  cases hp : p w with
  | mk r w1 =>
    cases r with
    | ok a => exact h a w1 hp (bind_ok_eq hp)
    | err e =>
      have : (p >>= f) w = (.err e, w1) := by
        show Prog.bind p f w = _
        unfold Prog.bind
        rw [hp]
      rw [this]
      exact ⟨rfl, rfl⟩
    | panic m => rw [bind_eq_panic hp]; exact ⟨rfl, rfl⟩
    | blocked => rw [bind_eq_blocked hp]; exact ⟨rfl, rfl⟩

theorem first_of {α β : Type} {p : Prog F α} {f : α → Prog F β} {w w' : World F} {r : Res F β} {k : α → World F → Prop} (e : (p >>= f) w = (r, w'))
    (h : ∀ a w1, p w = (.ok a, w1) → f a w1 = (r, w') → k a w1) : First p w r w' k := by
  have := first_bind (p := p) (f := f) (w := w) (k := k) fun a w1 h1 h2 => h a w1 h1 (h2.symm.trans e)
  rwa [e] at this

theorem split_ok {α β : Type} {p : Prog F α} {f : α → Prog F β} {w w' : World F} {b : β} (h : (p >>= f) w = (.ok b, w')) :
    ∃ a w1, p w = (.ok a, w1) ∧ f a w1 = (.ok b, w') := by
  change Prog.bind p f w = _ at h
  unfold Prog.bind at h
  cases hp : p w with
  | mk r w1 =>
    rw [hp] at h
    cases r with
    | ok a => exact ⟨a, w1, rfl, h⟩
    | err e => cases congrArg Prod.fst h
    | panic m => cases congrArg Prod.fst h
    | blocked => cases congrArg Prod.fst h

/-! ## download_model -/

/-- **C97**, `download_model`: it connects, loads the model so that the file stays, and copies the file. The first of these that fails is the result. -/
theorem C97_download_calls (w : World F) : First (Robot.new (some .Ignore) none) w (Examples.download_model w).1 (Examples.download_model w).2 fun _ w1 =>
    First (Robot.load_model true) w1 (Examples.download_model w).1 (Examples.download_model w).2 fun _ w2 =>
      (Examples.download_model w).1 = .blocked ∨ (∃ b, w2.model_file = some b ∧ (Examples.download_model w).1 = .ok b) ∨
        (Examples.download_model w).1 = .err (.ModelException "Could copy model to download location") := by
  refine first_bind fun _ w1 _ e1 => ?_
  change Examples.download_model w = _ at e1
  rw [e1]
  refine first_bind fun b w2 _ e2 => ?_
  rw [e2]
  unfold Examples.copy_model
  simp only [bind, Prog.bind, gets]
  unfold sys
  cases hs : w2.script with
  | nil => exact .inl rfl
  | cons t ts =>
    cases hf : w2.model_file with
    | none => exact .inr (.inr rfl)
    | some c =>
      simp only
      cases t.fail with
      | true => exact .inr (.inr rfl)
      | false => exact .inr (.inl ⟨c, rfl, rfl⟩)

theorem copy_silent (w : World F) : AsksNothing w ((Examples.copy_model : Prog F Bytes) w).2 := by
  have : Pres AsksNothing (Examples.copy_model : Prog F Bytes) := by
    unfold Examples.copy_model
    pres [pres_sys]
  exact this w

/-- **C97**, `download_model`: the robot is asked for the connection and, if there is no file yet, for the model, and for nothing else. -/
theorem C97_download_requests {w : World F} (hw : Fresh w) : asked (Examples.download_model w).2.trace <+: robotHello w :: modelBodies w ∧
    ∀ b, (Examples.download_model w).1 = .ok b → asked (Examples.download_model w).2.trace = robotHello w :: modelBodies w := by
  have h0 : asked w.trace = [] := by rw [hw.1]; rfl
  have h : SomeAsk ([robotHello w] ++ (modelBodies w ++ [])) w (Examples.download_model w).1 (Examples.download_model w).2 := by
    refine SomeAsk.then (new_someAsk _ hw) fun _ w1 h1 => ?_
    have hf := new_file (some .Ignore) w
    rw [h1] at hf
    have hm : modelBodies w = modelBodies w1 := by unfold modelBodies; rw [← hf]
    rw [hm]
    exact SomeAsk.then (load_model_asks true (new_reachable_with hw h1).tcp) fun _ w2 _ => .nothing (copy_silent w2).asked
  rw [List.append_nil] at h
  refine ⟨?_, fun b hb => by rw [h.all b hb, h0]; rfl⟩
  obtain ⟨l, hl, h⟩ := h.some
  rw [h, h0]
  exact hl

/-- **C97**, `download_model`: if the program succeeds then the new file is the library: the file that was there before, or what the robot has sent in answer to the request
(all of it, if the write to /tmp/model.so has taken all). /tmp/model.so stays there with the same content. -/
theorem C97_download_file {w w' : World F} {b : Bytes} (hw : Fresh w) (hok : Examples.download_model w = (.ok b, w')) : w'.model_file = some b ∧
    (∀ c, w.model_file = some c → b = c) ∧
    (w.model_file = none → ∃ m, 13 < m.length ∧ natAt m 12 1 = 0 ∧ (∃ id, (id, m) ∈ responses w'.trace ∧ IsFrame .Robot id m) ∧ b <+: m.drop 13 ∧
      ((∀ t ∈ w.script, m.length ≤ t.accept) → b = m.drop 13)) := by
  obtain ⟨⟨⟩, w1, h1, hok⟩ := split_ok hok
  obtain ⟨model, w2, h2, hok⟩ := split_ok hok
  have hr := new_reachable_with hw h1
  have hfile := C57_persistent_keeps_the_file hr h2
  have hf := new_file (some .Ignore) w
  rw [h1] at hf
  unfold Examples.copy_model at hok
  simp only [bind, Prog.bind, gets, hfile] at hok
  unfold sys at hok
  cases hs : w2.script with
  | nil => rw [hs] at hok; cases congrArg Prod.fst hok
  | cons t ts =>
    rw [hs] at hok
    simp only at hok
    cases ht : t.fail with
    | true => rw [ht] at hok; cases congrArg Prod.fst hok
    | false =>
      rw [ht] at hok
      have e : model = b := by
        have := congrArg Prod.fst hok
        injection this
      subst e
      have e2 := congrArg Prod.snd hok
      change _ = w' at e2
      subst e2
      refine ⟨hfile, fun c hc => (C57_existing_file hr (hf.trans hc) h2).1, fun hn => ?_⟩
      obtain ⟨-, hd, -, -, m, m1, m2, m3, m4, m5, m6⟩ := C57_download_partial hr (hf.trans hn) h2
      refine ⟨m, m3, m4, ⟨_, m1, m2⟩, m5, fun h => m6 fun t ht => h t ?_⟩
      have := new_later (some .Ignore) w
      rw [h1] at this
      exact this t ht

/-! ## print_joint_poses -/

/-- **C97**, `print_joint_poses`: it connects, loads the model and reads one state. The first of these that fails is the result, and otherwise it prints nine frames: their names
and the poses that the model gives for the state, column by column. -/
theorem C97_print_calls (library : Bytes → ModelLibrary F) (w : World F) :
    let r := (Examples.print_joint_poses library w).1
    let w' := (Examples.print_joint_poses library w).2
    First (Robot.new (some .Ignore) none) w r w' fun _ w1 => First (Robot.load_model false) w1 r w' fun model w2 => First Robot.read_once w2 r w' fun st w3 =>
      w' = w3 ∧ ∃ out, r = .ok out ∧ out.map Prod.fst = printedFrames.map Prod.fst ∧ ∀ (k : ℕ) (i j : Fin 4) p q, printedFrames[k]? = some p → out[k]? = some q →
        q.2 i j = Model.pose_from_state (library model) p.2 st ⟨4 * j.val + i.val, by omega⟩ := by
  intro r w'
  refine first_bind fun _ w1 _ e1 => ?_
  change Examples.print_joint_poses library w = _ at e1
  rw [show r = _ from congrArg Prod.fst e1, show w' = _ from congrArg Prod.snd e1]
  refine first_bind fun model w2 _ e2 => ?_
  rw [e2]
  refine first_bind fun st w3 _ e3 => ?_
  rw [e3]
  refine ⟨rfl, _, rfl, rfl, fun k i j p q hp hq => ?_⟩
  have hlen : k < 9 := (List.getElem?_eq_some_iff.1 hp).1
  have e : printedFrames = Examples.frames.map fun f => (f.text, f) := rfl
  rw [e, List.getElem?_map] at hp
  rw [List.getElem?_map] at hq
  cases hf : Examples.frames[k]? with
  | none => rw [hf] at hp; cases hp
  | some f =>
    rw [hf] at hp hq
    cases hp
    cases hq
    show Model.pose_from_state _ f st _ = Model.pose_from_state _ f st _
    congr 1
    exact Fin.ext (Nat.add_comm _ _)

/-- **C97**, `print_joint_poses`: so for a library that describes an arm it prints where the seven joints, the flange and the end effector are, in the base frame. -/
theorem C97_prints_the_arm [Wire XR] [Geo XR] {library : Bytes → ModelLibrary XR} {w w' : World XR} {out : List (String × (Fin 4 → Fin 4 → XR))}
    (hok : Examples.print_joint_poses library w = (.ok out, w')) :
    ∃ (model : Bytes) (st : RobotState XR) (w1 w2 w3 : World XR), Robot.new (some .Ignore) none w = (.ok (), w1) ∧ Robot.load_model false w1 = (.ok model, w2) ∧
      Robot.read_once w2 = (.ok st, w3) ∧ ∀ (a : Arm) (q : Joints) (F_T_EE EE_T_K : Mat), LibraryOf a (library model) → st.q = Arr.fin q → st.F_T_EE = colMajor F_T_EE →
        st.EE_T_K = colMajor EE_T_K → out = [("Joint 1", fun i j => .fin (a.joint 0 q i j)), ("Joint 2", fun i j => .fin (a.joint 1 q i j)),
          ("Joint 3", fun i j => .fin (a.joint 2 q i j)), ("Joint 4", fun i j => .fin (a.joint 3 q i j)), ("Joint 5", fun i j => .fin (a.joint 4 q i j)),
          ("Joint 6", fun i j => .fin (a.joint 5 q i j)), ("Joint 7", fun i j => .fin (a.joint 6 q i j)), ("Flange", fun i j => .fin (a.flange q i j)),
          ("End-Effector", fun i j => .fin ((a.flange q * F_T_EE) i j))] := by
  obtain ⟨⟨⟩, w1, h1, hok⟩ := split_ok hok
  obtain ⟨model, w2, h2, hok⟩ := split_ok hok
  obtain ⟨st, w3, h3, hok⟩ := split_ok hok
  refine ⟨model, st, w1, w2, w3, h1, h2, h3, fun a q FE EK hl hq hF hK => ?_⟩
  have e : Examples.frames.map (fun frame => (frame.text, Examples.matrix4 (Model.pose_from_state (library model) frame st))) = out := by
    have := congrArg Prod.fst hok
    injection this
  have hm : ∀ M : Mat, Examples.matrix4 (colMajor M) = fun i j => .fin (M i j) := by
    intro M
    funext i j
    unfold Examples.matrix4 colMajor
    congr 2
    · exact Fin.ext (by have := i.isLt; show (i.val + 4 * j.val) % 4 = i.val; omega)
    · exact Fin.ext (by have := i.isLt; show (i.val + 4 * j.val) / 4 = j.val; omega)
  have hp : ∀ f, Examples.matrix4 (Model.pose_from_state (library model) f st) = fun i j => .fin (a.frame f FE EK q i j) := fun f => by
    rw [(C55_from_state hl f hq hF hK).1, hm]
  rw [← e]
  simp only [hp]
  rfl

/-- **C97**, `print_joint_poses`: the robot is asked for the connection and, if there is no file yet, for the model, and for nothing else. -/
theorem C97_print_requests (library : Bytes → ModelLibrary F) {w : World F} (hw : Fresh w) :
    asked (Examples.print_joint_poses library w).2.trace <+: robotHello w :: modelBodies w ∧
    ∀ out, (Examples.print_joint_poses library w).1 = .ok out → asked (Examples.print_joint_poses library w).2.trace = robotHello w :: modelBodies w := by
  have h0 : asked w.trace = [] := by rw [hw.1]; rfl
  have h : SomeAsk ([robotHello w] ++ (modelBodies w ++ ([] ++ []))) w (Examples.print_joint_poses library w).1 (Examples.print_joint_poses library w).2 := by
    refine SomeAsk.then (new_someAsk _ hw) fun _ w1 h1 => ?_
    have hf := new_file (some .Ignore) w
    rw [h1] at hf
    have hm : modelBodies w = modelBodies w1 := by unfold modelBodies; rw [← hf]
    rw [hm]
    refine SomeAsk.then (load_model_asks false (new_reachable_with hw h1).tcp) fun _ w2 _ => ?_
    exact SomeAsk.then (.nothing (read_once_silent w2).asked) fun _ w3 _ => .nothing rfl
  rw [List.append_nil, List.append_nil] at h
  refine ⟨?_, fun b hb => by rw [h.all b hb, h0]; rfl⟩
  obtain ⟨l, hl, h⟩ := h.some
  rw [h, h0]
  exact hl

/-- **C97**, `print_joint_poses`: when it succeeds it has removed a model file that was there before it, also one that somebody else has put there; if there was none then
it leaves the one it has downloaded. -/
theorem C97_print_file {library : Bytes → ModelLibrary F} {w w' : World F} {out : List (String × (Fin 4 → Fin 4 → F))} (hw : Fresh w)
    (hok : Examples.print_joint_poses library w = (.ok out, w')) : w'.model_file.isSome = w.model_file.isNone := by
  obtain ⟨⟨⟩, w1, h1, hok⟩ := split_ok hok
  obtain ⟨model, w2, h2, hok⟩ := split_ok hok
  obtain ⟨st, w3, h3, hok⟩ := split_ok hok
  have hr := new_reachable_with hw h1
  have hf := new_file (some .Ignore) w
  rw [h1] at hf
  have h4 := (read_once_silent w2).file
  rw [h3] at h4
  have : w3 = w' := congrArg Prod.snd hok
  subst this
  rw [h4, ← hf]
  cases hm : w1.model_file with
  | some c => rw [(C57_existing_file hr hm h2).2.2]; rfl
  | none => rw [(C57_download_partial hr hm h2).1]; rfl

/-! ## cartesian_impedance_control -/

section
variable [GeoExtra F]

/-- **C97**, `cartesian_impedance_control`: it connects, loads the model, makes three settings, reads one state and controls the robot. The first of these that fails is the
result, except for the last: whether the control call returns Ok or an error, the program returns Ok. -/
theorem C97_impedance_calls (model : ModelLibrary F) (w : World F) :
    let r := (Examples.cartesian_impedance_control model w).1
    let w' := (Examples.cartesian_impedance_control model w).2
    First (Robot.new none none) w r w' fun _ w1 => First (Robot.load_model true) w1 r w' fun _ w2 => First (thresholds (fun _ => lit 100) (fun _ => lit 100)).run w2 r w' fun _ w3 =>
      First (RobotCall.set_joint_impedance ![lit 3000, lit 3000, lit 3000, lit 2500, lit 2500, lit 2000, lit 2000]).run w3 r w' fun _ w4 =>
      First (RobotCall.set_cartesian_impedance ![lit 3000, lit 3000, lit 3000, lit 300, lit 300, lit 300]).run w4 r w' fun _ w5 => First Robot.read_once w5 r w' fun st w6 =>
      match (impedanceExample model st).run w6 with
      | (.ok _, w7) => r = .ok () ∧ w' = w7
      | (.err _, w7) => r = .ok () ∧ w' = w7
      | (.panic m, w7) => r = .panic m ∧ w' = w7
      | (.blocked, w7) => r = .blocked ∧ w' = w7 := by
  intro r w'
  have e : Examples.cartesian_impedance_control model w = (r, w') := rfl
  refine first_of e fun _ w1 _ e => first_of e fun _ w2 _ e => first_of e fun _ w3 _ e => first_of e fun _ w4 _ e => first_of e fun _ w5 _ e => first_of e fun st w6 _ e => ?_
  obtain ⟨r7, w7, h7⟩ : ∃ r7 w7, (impedanceExample model st).run w6 = (r7, w7) := ⟨_, _, rfl⟩
  have ha := attempt_eq h7
  change Prog.attempt (Robot.control_torques (Examples.impedance_callback model) none none (Examples.ImpedanceState.new st)) w6 = _ at ha
  rw [h7]
  cases r7 with
  | ok u => rw [bind_ok_eq ha] at e; exact ⟨(congrArg Prod.fst e).symm, (congrArg Prod.snd e).symm⟩
  | err _ => rw [bind_ok_eq ha] at e; exact ⟨(congrArg Prod.fst e).symm, (congrArg Prod.snd e).symm⟩
  | panic m => rw [bind_eq_panic ha] at e; exact ⟨(congrArg Prod.fst e).symm, (congrArg Prod.snd e).symm⟩
  | blocked => rw [bind_eq_blocked ha] at e; exact ⟨(congrArg Prod.fst e).symm, (congrArg Prod.snd e).symm⟩

/-- **C97**, `cartesian_impedance_control`: the robot is asked for the connection, the model if there is no file yet, the three settings, and a motion with torques that may be
stopped again; in this order, and for nothing else. If the program reports an error then the robot has not been asked to move. If it returns Ok then all settings were made. -/
theorem C97_impedance_requests (model : ModelLibrary F) {w : World F} (hw : Fresh w) :
    let r := (Examples.cartesian_impedance_control model w).1
    let new := asked (Examples.cartesian_impedance_control model w).2.trace
    let before := robotHello w :: (modelBodies w ++ impedanceBodies)
    new <+: before ++ [moveBody .JointVelocities .ExternalController, .StopMove] ∧ (∀ e, r = .err e → new <+: before) ∧ (r = .ok () → before <+: new) := by
  intro r new before
  have h0 : asked w.trace = [] := by rw [hw.1]; rfl
  have e : Examples.cartesian_impedance_control model w = (r, (Examples.cartesian_impedance_control model w).2) := rfl
  have stop : ∀ {l : List (RobotBody F)}, l <+: before → asked (Examples.cartesian_impedance_control model w).2.trace = l → r ≠ .ok () →
      new <+: before ++ [moveBody .JointVelocities .ExternalController, .StopMove] ∧ (∀ e, r = .err e → new <+: before) ∧ (r = .ok () → before <+: new) := by
    rintro l hl rfl hr
    exact ⟨hl.trans (List.prefix_append _ _), fun _ _ => hl, fun h => absurd h hr⟩
  -- one call after the other
  have step : ∀ {α : Type} {p : Prog F α} {f : α → Prog F Unit} {bs cs : List (RobotBody F)} {w1 : World F}, (p >>= f) w1 = (r, (Examples.cartesian_impedance_control model w).2) →
      ∀ done, asked w1.trace = done → SomeAsk bs w1 (p w1).1 (p w1).2 → done ++ bs ++ cs = before →
      (∀ a w2, p w1 = (.ok a, w2) → f a w2 = (r, (Examples.cartesian_impedance_control model w).2) → asked w2.trace = done ++ bs →
        new <+: before ++ [moveBody .JointVelocities .ExternalController, .StopMove] ∧ (∀ e, r = .err e → new <+: before) ∧ (r = .ok () → before <+: new)) →
      new <+: before ++ [moveBody .JointVelocities .ExternalController, .StopMove] ∧ (∀ e, r = .err e → new <+: before) ∧ (r = .ok () → before <+: new) := by
    intro α p f bs cs w1 he done hd ha hb hk
    obtain ⟨l, hl, hl'⟩ := ha.some
    have pre : done ++ l <+: before := by
      rw [← hb, List.append_assoc]
      exact (List.prefix_append_right_inj done).2 (hl.trans (List.prefix_append _ _))
    cases hp : p w1 with
    | mk r1 w2 =>
      rw [hp] at ha hl'
      cases r1 with
      | ok a =>
        rw [bind_ok_eq hp] at he
        exact hk a w2 hp he (by rw [ha.all a rfl, hd])
      | err e1 =>
        have : (p >>= f) w1 = (.err e1, w2) := by
          show Prog.bind p f w1 = _
          unfold Prog.bind
          rw [hp]
        rw [this] at he
        exact stop pre (by rw [← hd, ← hl', ← congrArg Prod.snd he]) (fun h => by cases (congrArg Prod.fst he).trans h)
      | panic m =>
        rw [bind_eq_panic hp] at he
        exact stop pre (by rw [← hd, ← hl', ← congrArg Prod.snd he]) (fun h => by cases (congrArg Prod.fst he).trans h)
      | blocked =>
        rw [bind_eq_blocked hp] at he
        exact stop pre (by rw [← hd, ← hl', ← congrArg Prod.snd he]) (fun h => by cases (congrArg Prod.fst he).trans h)
  have next : ∀ {w w' : World F} (c : RobotCall F), RobotReachable w → c.run w = (.ok (), w') → RobotReachable w' := fun c h e => by
    have := h.after c (.inl (by rw [e]))
    rw [e] at this
    exact this
  refine step (bs := [robotHello w]) (cs := modelBodies w ++ impedanceBodies) e [] h0 (new_someAsk none hw) rfl fun _ w1 h1 e a1 => ?_
  have r1 := new_reachable_with hw h1
  have hf := new_file none w
  rw [h1] at hf
  have hm : modelBodies w1 = modelBodies w := by unfold modelBodies; rw [← hf]
  have hl := load_model_asks true r1.tcp
  rw [hm] at hl
  refine step (cs := impedanceBodies) e _ a1 hl rfl fun b w2 h2 e a2 => ?_
  have r2 := next (.load_model true) r1 (w' := w2) (bind_ok_eq h2)
  refine step (cs := impedanceBodies.drop 1) e _ a2 (OneExchange.someAsk (C18_setter (thresholds (fun _ => lit 100) (fun _ => lit 100)) _ rfl w2 r2))
    (by rw [List.append_assoc]; rfl) fun _ w3 h3 e a3 => ?_
  have r3 := next (thresholds (fun _ => lit 100) (fun _ => lit 100)) r2 h3
  refine step (cs := impedanceBodies.drop 2) e _ a3 (OneExchange.someAsk (C18_setter (.set_joint_impedance _) _ rfl w3 r3))
    (by rw [List.append_assoc, List.append_assoc]; rfl) fun _ w4 h4 e a4 => ?_
  have r4 := next (.set_joint_impedance _) r3 h4
  refine step (cs := []) e _ a4 (OneExchange.someAsk (C18_setter (.set_cartesian_impedance _) _ rfl w4 r4))
    (by rw [List.append_nil, List.append_assoc, List.append_assoc, List.append_assoc]; rfl) fun _ w5 h5 e a5 => ?_
  have r5 := next (.set_cartesian_impedance _) r4 h5
  refine step (bs := []) (cs := []) e _ a5 (.nothing (read_once_silent w5).asked)
    (by rw [List.append_nil, List.append_nil, List.append_assoc, List.append_assoc, List.append_assoc]; rfl) fun st w6 h6 e a6 => ?_
  have r6 := next .read_once r5 (w' := w6) (bind_ok_eq h6)
  have a6 : asked w6.trace = before := by rw [a6, List.append_nil, List.append_assoc, List.append_assoc, List.append_assoc]; rfl
  have hc := (control_asks r6 (.torques _ (Examples.impedance_callback model) none none (Examples.ImpedanceState.new st))).1
  obtain ⟨r7, w7, h7⟩ : ∃ r7 w7, (impedanceExample model st).run w6 = (r7, w7) := ⟨_, _, rfl⟩
  have ha := attempt_eq h7
  change Prog.attempt (Robot.control_torques (Examples.impedance_callback model) none none (Examples.ImpedanceState.new st)) w6 = _ at ha
  change CallAsks [moveBody .JointVelocities .ExternalController] ((impedanceExample model st).run w6).1 w6 ((impedanceExample model st).run w6).2 at hc
  rw [h7] at hc
  have hnew : ∀ {w8}, w8 = w7 → w8 = (Examples.cartesian_impedance_control model w).2 → ∃ l, l <+: [moveBody .JointVelocities .ExternalController, .StopMove] ∧ new = before ++ l := by
    intro w8 h80 h8
    rw [h80] at h8
    obtain ⟨l, hl, h⟩ := hc.some
    have e1 : new = asked w7.trace := by rw [h8]
    rw [e1]
    rcases h with h | ⟨h, m, hm⟩
    · exact ⟨l, hl.trans (List.prefix_append [_] [_]), by rw [h, a6]⟩
    · have : l = [moveBody .JointVelocities .ExternalController] := by
        obtain ⟨k, hk⟩ := hl
        cases l with
        | nil => cases hm
        | cons a l =>
          injection hk with h1 h2
          rw [(List.append_eq_nil_iff.1 h2).1, h1]
      exact ⟨[_, _], List.prefix_refl _, by rw [h, this, a6, List.append_assoc]; rfl⟩
  have fin : ∀ {r8 : Res F Unit} {w8}, w8 = w7 → (∀ e, r8 ≠ .err e) → (r8, w8) = (r, (Examples.cartesian_impedance_control model w).2) →
      new <+: before ++ [moveBody .JointVelocities .ExternalController, .StopMove] ∧ (∀ e, r = .err e → new <+: before) ∧ (r = .ok () → before <+: new) := by
    intro r8 w8 h8 hr h
    obtain ⟨l, hl, hn⟩ := hnew h8 (congrArg Prod.snd h)
    rw [hn]
    exact ⟨(List.prefix_append_right_inj before).2 hl, fun e he => absurd ((congrArg Prod.fst h).trans he) (hr e), fun _ => List.prefix_append _ _⟩
  cases r7 with
  | ok u => rw [bind_ok_eq ha] at e; exact fin rfl (by simp) e
  | err _ => rw [bind_ok_eq ha] at e; exact fin rfl (by simp) e
  | panic m => rw [bind_eq_panic ha] at e; exact fin rfl (by simp) e
  | blocked => rw [bind_eq_blocked ha] at e; exact fin rfl (by simp) e

end

end Verif
