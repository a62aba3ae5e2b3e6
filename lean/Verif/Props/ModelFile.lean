import Verif.Lemmas.Deliver
import Verif.Lemmas.Reach
import Verif.Lemmas.ToyRun
/-!
# The model file: C57
-/
set_option linter.unusedSectionVars false
namespace Verif
open Prog Spec
variable {F : Type} [Fl F] [Wire F] [Geo F]

/-- The rest of the schedule shrinks. -/
def Later (w w' : World F) : Prop := ∀ t ∈ w'.script, t ∈ w.script

instance : TTcp (Later (F := F)) where
  refl _ _ h := h
  trans h1 h2 _ h := h1 _ (h2 _ h)
  tick w t ts h := by intro t' h'; rw [h]; exact List.mem_cons_of_mem _ h'
  poll _ _ h := h
  read _ _ _ h := h
  pend _ _ _ _ h := h
  head _ _ _ _ h := h
  store _ _ h := h
  remove _ _ _ h := h

theorem library_head (m rest : Bytes) (a : LoadModelLibraryResponse) (h : LoadModelLibraryResponse.codec.dec (m.take 13) = some (a, rest)) :
    natAt m 12 1 = a.status.toTag.toNat ∧ natAt m 8 4 = a.header.size.toNat := by
  have h0 := LoadModelLibraryResponse.codec_lawful.sound _ _ _ h
  have ha : At m 0 (LoadModelLibraryResponse.codec.enc a) :=
    ⟨[], rest ++ m.drop 13, by rw [List.nil_append, ← List.append_assoc, ← h0, List.take_append_drop], rfl⟩
  obtain ⟨hh, hs⟩ := At.seq ha (m := 12) (RobotCommandHeader.codec_lawful.len _)
  obtain ⟨h1, h2⟩ := At.seq hh (m := 4) (RobotCommandEnum.codec_lawful.len _)
  obtain ⟨h3, h4⟩ := At.seq h2 (m := 4) (Codec.u32_lawful.len _)
  exact ⟨At.nat1 hs, At.nat4 h4⟩

theorem receive_library_spec (id : UInt32) (w : World F) (hw : TcpOk .Robot w) :
    Post (tcp_blocking_receive_load_library_response id : Prog F Bytes) w fun r w' =>
      w'.model_file = w.model_file ∧ visible w'.trace = visible w.trace ∧
      ∀ b, r = .ok b → ∃ m, (id, m) ∈ responses w'.trace ∧ IsFrame .Robot id m ∧ 13 < m.length ∧ natAt m 12 1 = 0 ∧ b = m.drop 13 := by
  unfold tcp_blocking_receive_load_library_response
  have hk : Keeps (TcpOk .Robot) (TcpWeak .Robot) (wait_for_response_to_arrive id : Prog F Bytes) := keeps_wait_for_response_to_arrive id
  refine ((wait_spec id w).and (hk w hw)).bind ?_
  rintro r w' ⟨h1, h2⟩
  cases r with
  | ok m =>
    obtain ⟨w1, ⟨s1, s2, s3, s4, s5, es, s6, s7, s8⟩, htab, rfl⟩ := h1
    have h2 : TcpOk .Robot _ := h2
    have hmem : (id, m) ∈ responses w1.trace := by
      rw [s8 id] at htab
      rw [s6, responses_append, List.mem_append]
      rcases latestAnswer_mem _ _ _ _ htab with h | h
      · exact .inl (hw.table _ _ h)
      · exact .inr h
    have hv : visible w1.trace = visible w.trace := by rw [s6, visible_append, visible_tcp es s7, List.append_nil]
    have hfr : IsFrame .Robot id m := h2.frames.2 _ hmem
    rw [after_ok, size_of_LoadModelLibraryResponse, post_ite]
    simp only [post_panic, post_bind, deserialize]
    refine ⟨fun _ => ⟨s5, hv, by simp⟩, fun hl => ?_⟩
    cases hd : LoadModelLibraryResponse.codec.dec (m.take 13) with
    | none =>
      simp only [post_panic, after_panic]
      exact ⟨s5, hv, by simp⟩
    | some p =>
      obtain ⟨a, rest⟩ := p
      obtain ⟨e1, e2⟩ := library_head m rest a hd
      simp only [post_pure, after_ok]
      cases hs : a.status with
      | Error =>
        simp only [post_err]
        exact ⟨s5, hv, by simp⟩
      | Success =>
        rw [hs] at e1
        simp only [post_ite, post_panic, post_pure]
        refine ⟨fun _ => ⟨s5, hv, by simp⟩, fun hz => ⟨s5, hv, ?_⟩⟩
        rintro b hb
        cases hb
        have h3 : natAt m 8 4 = m.length := hfr.size
        exact ⟨m, hmem, hfr, by omega, e1, rfl⟩
  | err e => exact h1.elim
  | panic msg =>
    obtain ⟨s1, s2, s3, s4, s5, es, s6, s7, s8⟩ := h1
    exact ⟨s5, by rw [s6, visible_append, visible_tcp es s7, List.append_nil], by simp⟩
  | blocked =>
    obtain ⟨s1, s2, s3, s4, s5, es, s6, s7, s8⟩ := h1
    exact ⟨s5, by rw [s6, visible_append, visible_tcp es s7, List.append_nil], by simp⟩

/-- The model file holds bytes of an answer to the request `h`: those after the header and the status, up to some number, and all of them if
the system calls of the schedule accept that many. -/
def Downloaded (h : RobotCommandHeader) (w w' : World F) (content : Bytes) : Prop :=
  ∃ m, (h.command_id, m) ∈ responses w'.trace ∧ IsFrame .Robot h.command_id m ∧ 13 < m.length ∧ natAt m 12 1 = 0 ∧ content <+: m.drop 13 ∧
    ((∀ t ∈ w.script, m.length ≤ t.accept) → content = m.drop 13)

theorem download_spec (w : World F) (hw : TcpOk .Robot w) : Post (download : Prog F Unit) w fun r w' => ∀ u, r = .ok u →
    ∃ h : RobotCommandHeader, h.command = .LoadModelLibrary ∧ h.command_id = w.net.command_id ∧
      visible w'.trace = visible w.trace ++ [.robotReq ⟨h, .LoadModelLibrary { architecture := .X64, system := .Linux }⟩] ∧
      ∃ content, w'.model_file = some content ∧ Downloaded h w w' content := by
  unfold download
  simp only [post_bind, post_gets, after_ok, post_ite, post_err]
  refine ⟨fun _ => ?_, fun _ => by simp⟩
  have hk : Keeps (TcpOk .Robot) (TcpWeak .Robot) (sendRequest (F := F) (.LoadModelLibrary { architecture := .X64, system := .Linux })) :=
    Keeps.of_rel TcpSame.keep (pres_sendRequest _)
  have hsend := (sendRequest_spec (F := F) (.LoadModelLibrary { architecture := .X64, system := .Linux }) w).and (hk w hw)
  unfold sendRequest at hsend
  rw [post_bind] at hsend
  refine hsend.mono ?_
  intro r w1 hr
  cases r with
  | ok header =>
    rw [after_ok] at hr ⊢
    rw [post_bind]
    refine hr.mono ?_
    rintro r w2 ⟨h1, h2⟩
    cases r with
    | ok id =>
      obtain ⟨rfl, t, ts, hs, -, -, rfl⟩ := h1
      simp only [after_ok]
      rw [post_bind]
      refine ((receive_library_spec w.net.command_id _ h2).and ((pres_tcp_blocking_receive_load_library_response (T := Later) w.net.command_id).post _)).mono ?_
      rintro r w3 ⟨⟨g1, g2, g3⟩, g4⟩
      cases r with
      | ok b =>
        obtain ⟨m, m1, m2, m3, m4, rfl⟩ := g3 b rfl
        rw [after_ok, post_bind, post_sys]
        refine ⟨fun _ => by simp, fun t1 ts1 ht1 => ?_⟩
        simp only [after_ok, post_ite, post_err, post_bind, post_modify, post_sys]
        refine ⟨fun _ => by simp, fun _ => ⟨fun _ => by simp, fun t2 ts2 ht2 => ⟨fun _ => by simp, fun _ => ?_⟩⟩⟩
        intro u _
        have g2 : visible w3.trace = visible w.trace ++ [.robotReq ⟨⟨.LoadModelLibrary, w.net.command_id, UInt32.ofNat (RobotCommandEnum.LoadModelLibrary).size_of_request⟩,
            .LoadModelLibrary { architecture := .X64, system := .Linux }⟩] := by
          rw [g2, visible_append]; rfl
        refine ⟨_, rfl, rfl, g2, _, rfl, m, m1, m2, m3, m4, List.take_prefix _ _, fun ha => ?_⟩
        have : t2 ∈ w.script := by
          rw [hs]
          refine List.mem_cons_of_mem _ (g4 t2 ?_)
          rw [ht1]
          refine List.mem_cons_of_mem _ ?_
          have : ts1 = t2 :: ts2 := ht2
          rw [this]
          exact List.mem_cons_self
        refine List.take_of_length_le ?_
        have := ha _ this
        simp only [List.length_drop]
        omega
      | err e => simp
      | panic msg => simp
      | blocked => simp
    | err e => simp
    | panic msg => simp
    | blocked => simp
  | err e => simp
  | panic msg => simp
  | blocked => simp

theorem model_new_spec (w : World F) : Post (model_new : Prog F Bytes) w fun r w' => w' = w ∧ ∀ b, r = .ok b → w.model_file = some b := by
  unfold model_new
  simp only [post_bind, post_gets, after_ok]
  cases w.model_file with
  | none => simp
  | some c =>
    simp only
    cases w.cfg.model_error c with
    | none => simp
    | some m => simp

/-- What `load_model` leaves when it succeeds. -/
theorem load_model_spec (p : Bool) (w : World F) (hw : TcpOk .Robot w) : Post (Robot.load_model p : Prog F Bytes) w fun r w' => ∀ b, r = .ok b →
    (match w.model_file with
    | some c => b = c ∧ visible w'.trace = visible w.trace ∧ w'.model_file = if p then some c else none
    | none => w'.model_file = some b ∧ ∃ h : RobotCommandHeader, h.command = .LoadModelLibrary ∧ h.command_id = w.net.command_id ∧
        visible w'.trace = visible w.trace ++ [.robotReq ⟨h, .LoadModelLibrary { architecture := .X64, system := .Linux }⟩] ∧ Downloaded h w w' b) := by
  unfold Robot.load_model
  simp only [post_bind, post_gets, after_ok]
  cases hf : w.model_file with
  | some c =>
    simp only [Option.isSome_some, if_true, Bool.and_true]
    rw [post_bind]
    refine (model_new_spec w).mono ?_
    rintro r w1 ⟨rfl, h1⟩
    cases r with
    | ok b =>
      have h1 := h1 b rfl
      rw [hf] at h1
      cases h1
      cases p with
      | true => simp [hf]
      | false =>
        simp only [after_ok, Bool.not_false, if_true, post_bind, post_sys, Bool.false_eq_true, if_false, post_ite, post_panic, post_modify, post_pure]
        refine ⟨fun _ => by simp, fun t ts _ => ⟨fun _ => by simp, fun _ => ?_⟩⟩
        intro b hb
        cases hb
        simp
    | err e => simp
    | panic m => simp
    | blocked => simp
  | none =>
    simp only [Option.isSome_none, Bool.false_eq_true, if_false, Bool.and_false]
    rw [post_bind]
    refine (download_spec w hw).mono ?_
    intro r w1 h1
    cases r with
    | ok u =>
      obtain ⟨h, e1, e2, e3, content, e4, e5⟩ := h1 u rfl
      rw [after_ok, post_bind]
      refine (model_new_spec w1).mono ?_
      rintro r w2 ⟨rfl, h2⟩
      cases r with
      | ok b =>
        have h2 := h2 b rfl
        rw [e4] at h2
        cases h2
        simp only [after_ok, post_pure]
        intro b hb
        cases hb
        exact ⟨e4, h, e1, e2, e3, e5⟩
      | err e => simp
      | panic m => simp
      | blocked => simp
    | err e => simp
    | panic m => simp
    | blocked => simp

/-! ## C57 -/

/-- C57, `persistent`: after `load_model(true)` returned a model, the file exists and the model is its content. -/
theorem C57_persistent_keeps_the_file {w w' : World F} (hw : RobotReachable w) {model : Bytes} (h : Robot.load_model true w = (.ok model, w')) :
    w'.model_file = some model := by
  have := load_model_spec true w hw.tcp
  unfold Post at this
  rw [h] at this
  have := this model rfl
  split at this
  · obtain ⟨rfl, -, h2⟩ := this
    exact h2
  · exact this.1

/-- C57: a file that is there already is used: it is not downloaded again, the model is its content, and afterwards it is there iff `persistent`. -/
theorem C57_existing_file {w w' : World F} (hw : RobotReachable w) {p : Bool} {content model : Bytes} (hf : w.model_file = some content)
    (h : Robot.load_model p w = (.ok model, w')) :
    model = content ∧ visible w'.trace = visible w.trace ∧ (w'.model_file = if p then some content else none) := by
  have := load_model_spec p w hw.tcp
  unfold Post at this
  rw [h] at this
  have := this model rfl
  rwa [hf] at this

/-- C57, the content: if there was no file, the model is requested from the robot once, and the file holds bytes sent by the robot in an answer to this request
that reports success: a prefix of the library, and the whole library if every write of the schedule accepts that many bytes. What is missing is that
the file always holds the whole library (`C57_short_write`) and that it is removed if it is not persistent (`C57_not_removed`). -/
theorem C57_download_partial {w w' : World F} (hw : RobotReachable w) {p : Bool} {model : Bytes} (hf : w.model_file = none)
    (h : Robot.load_model p w = (.ok model, w')) :
    w'.model_file = some model ∧ ∃ hd : RobotCommandHeader, hd.command = .LoadModelLibrary ∧
      visible w'.trace = visible w.trace ++ [.robotReq ⟨hd, .LoadModelLibrary { architecture := .X64, system := .Linux }⟩] ∧ Downloaded hd w w' model := by
  have := load_model_spec p w hw.tcp
  unfold Post at this
  rw [h] at this
  have := this model rfl
  rw [hf] at this
  obtain ⟨h1, hd, h2, -, h3, h4⟩ := this
  exact ⟨h1, hd, h2, h3, h4⟩

/-- C57 is false of the code in full: if the file had to be downloaded, it stays, also if it should not be persistent. -/
theorem C57_not_removed {w w' : World F} (hw : RobotReachable w) {model : Bytes} (hf : w.model_file = none)
    (h : Robot.load_model false w = (.ok model, w')) : w'.model_file ≠ none := by
  rw [(C57_download_partial hw hf h).1]
  simp

/-- C57: a model that is returned can be loaded. -/
theorem C57_model_can_be_loaded {w w' : World F} {p : Bool} {model : Bytes} (h : Robot.load_model p w = (.ok model, w')) : w'.cfg.model_error model = none := by
  have : Post (Robot.load_model p : Prog F Bytes) w fun r w' => ∀ b, r = .ok b → w'.cfg.model_error b = none := by
    unfold Robot.load_model
    simp only [post_bind, post_gets, after_ok]
    have key : ∀ (old : Bool) (w1 : World F), Post ((model_new : Prog F Bytes) >>= fun model =>
        if !p && old then do
          let t ← sys
          if t.fail then Prog.panic "Could not delete file"
          else do
            modify fun w => { w with model_file := none }
            pure model
        else pure model) w1 fun r w' => ∀ b, r = .ok b → w'.cfg.model_error b = none := by
      intro old w1
      rw [post_bind]
      refine Post.mono (Q := fun r w' => ∀ b, r = .ok b → w'.cfg.model_error b = none) ?_ ?_
      · unfold model_new
        simp only [post_bind, post_gets, after_ok]
        cases w1.model_file with
        | none => simp
        | some c =>
          simp only
          cases hc : w1.cfg.model_error c with
          | none => simpa using hc
          | some m => simp
      · intro r w2 h2
        cases r with
        | ok b =>
          have h2 := h2 b rfl
          simp only [after_ok, post_ite, post_bind, post_sys, post_panic, post_modify, post_pure]
          refine ⟨fun _ => ⟨by simp, fun t ts _ => ⟨by simp, fun _ => ?_⟩⟩, fun _ => ?_⟩
          · intro b hb
            cases hb
            exact h2
          · intro b hb
            cases hb
            exact h2
        | err e => simp
        | panic m => simp
        | blocked => simp
    cases w.model_file.isSome with
    | true => exact key true w
    | false =>
      simp only [Bool.false_eq_true, if_false]
      rw [post_bind]
      refine Post.mono (Q := fun _ _ => True) (show Post _ _ _ from trivial) ?_
      intro r w1 _
      cases r with
      | ok u => exact key false w1
      | err e => simp
      | panic m => simp
      | blocked => simp
  unfold Post at this
  rw [h] at this
  exact this model rfl

/-- C57: a file that can not be loaded is reported, and nothing happens to it. -/
theorem C57_unusable_file {w : World F} {p : Bool} {content : Bytes} {m : String} (hf : w.model_file = some content) (he : w.cfg.model_error content = some m) :
    Robot.load_model p w = (.err (.ModelException m), w) := by
  have h : (model_new : Prog F Bytes) w = (.err (.ModelException m), w) := by
    unfold model_new
    simp only [bind, Prog.bind, gets, hf, he, err]
  unfold Robot.load_model
  simp only [bind, Prog.bind, gets, hf, Option.isSome_some, if_true, pure, h]

namespace Toy

/-- An answer with a library of five bytes. -/
def libraryAnswer : Bytes := [13, 0, 0, 0, 1, 0, 0, 0, 18, 0, 0, 0, 0] ++ [1, 2, 3, 4, 5]

/-- The library arrives; the write to the file is the system call `write`. -/
def loading (write : Tick) : List Tick := [quiet, quiet, tcp libraryAnswer, quiet, quiet, quiet, quiet, write]

/-- The model, or `none` if the call failed. -/
def loaded (r : Res UInt64 Bytes) : Option Bytes := match r with
  | .ok b => some b
  | _ => none

/-- Result of `load_model`, the file afterwards, and how many requests were sent by the object so far. -/
def loadShown (p : Bool) (w : World UInt64) : Option Bytes × Option Bytes × Nat :=
  (loaded (Robot.load_model p w).1, (Robot.load_model p w).2.model_file,
    ((Robot.load_model p w).2.trace.filter fun | .robotReq _ => true | _ => false).length)

/-- Hypotheses of `C57_persistent_keeps_the_file` and `C57_download_partial`: a download with writes that are long enough. -/
theorem loading_whole (p : Bool) : loadShown p (robot (loading { accept := 10 })) = (some [1, 2, 3, 4, 5], some [1, 2, 3, 4, 5], 2) := by
  cases p <;> kernel_rfl

theorem loading_no_file (ts : List Tick) : (robot ts).model_file = none := by kernel_rfl

/-- Hypotheses of `C57_existing_file`: a second call finds the file of the first one. -/
theorem loading_again : loadShown false (Robot.load_model true (robot (loading { accept := 10 } ++ [quiet]))).2 = (some [1, 2, 3, 4, 5], none, 2) ∧
    loadShown true (Robot.load_model true (robot (loading { accept := 10 } ++ [quiet]))).2 = (some [1, 2, 3, 4, 5], some [1, 2, 3, 4, 5], 2) :=
  ⟨by kernel_rfl, by kernel_rfl⟩

end Toy

/-- C57 is false of the code in full: a write that accepts three of five bytes leaves a file with three bytes, and the call succeeds. -/
theorem C57_short_write : ∃ w : World UInt64, RobotReachable w ∧ w.model_file = none ∧
    ∃ m, (1, m) ∈ responses (Robot.load_model true w).2.trace ∧ m.drop 13 = [1, 2, 3, 4, 5] ∧
      Toy.loaded (Robot.load_model true w).1 = some [1, 2, 3] ∧ (Robot.load_model true w).2.model_file = some [1, 2, 3] := by
  refine ⟨Toy.robot (Toy.loading { accept := 3 }), Toy.robot_reachable _, Toy.loading_no_file _, Toy.libraryAnswer, ?_, rfl, by kernel_rfl, by kernel_rfl⟩
  have : responses (Robot.load_model true (Toy.robot (Toy.loading { accept := 3 }))).2.trace = [(0, Toy.connected), (1, Toy.libraryAnswer)] := by kernel_rfl
  rw [this]
  simp

/-- C57 is false of the code in full: if the write fails the call reports an error, but an empty file stays, and the next call takes it for the library
without asking the robot. -/
theorem C57_failed_write : ∃ w : World UInt64, RobotReachable w ∧ w.model_file = none ∧
    Toy.loadShown true w = (none, some [], 2) ∧ Toy.loadShown true (Robot.load_model true w).2 = (some [], some [], 2) :=
  ⟨Toy.robot (Toy.loading { fail := true }), Toy.robot_reachable _, Toy.loading_no_file _, by kernel_rfl, by kernel_rfl⟩

/-- C57: a file of one byte that can not be loaded. -/
example : Robot.load_model false { Toy.robot [] with model_file := some [7], cfg := { (Toy.robot []).cfg with model_error := fun _ => some "file too short" } } =
    (.err (.ModelException "file too short"), { Toy.robot [] with model_file := some [7], cfg := { (Toy.robot []).cfg with model_error := fun _ => some "file too short" } }) :=
  C57_unusable_file rfl rfl

end Verif
