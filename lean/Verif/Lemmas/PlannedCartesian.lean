import Verif.Lemmas.NearCartesian
import Verif.Props.SmoothCartesian
/-!
Lemmas: planned Cartesian motions (see Lemmas/Planned.lean) that pass the low pass filter and the rate limiting, over real numbers.
-/
set_option linter.unusedSectionVars false
namespace Verif
open Prog Spec Fl

/-! ## Velocities that pass the filter and the limiter -/

/-- The velocity and the acceleration of a motion from rest, if `u` are the velocities which the callback returns. -/
noncomputable def limited (L : Limits) (f : ℝ) (u : Fin 3 → ℕ → ℝ) : ℕ → (Fin 3 → ℝ) × (Fin 3 → ℝ)
  | 0 => (fun _ => 0, fun _ => 0)
  | n + 1 =>
    let v := (limited L f u n).1
    let r := cOut L (fun i => gain (1 / 1000) f * u i n + (1 - gain (1 / 1000) f) * v i) v (limited L f u n).2
    (r, fun i => (r i - v i) / 0.001)

/-- The velocity. -/
noncomputable def limitedVelocity (L : Limits) (f : ℝ) (u : Fin 3 → ℕ → ℝ) (i : Fin 3) (n : ℕ) : ℝ := (limited L f u n).1 i

theorem limited_rate (L : Limits) (f : ℝ) (u : Fin 3 → ℕ → ℝ) (n : ℕ) : (limited L f u n).2 = fun i => rate (limitedVelocity L f u i) n := by
  cases n <;> rfl

theorem limited_succ (L : Limits) (f : ℝ) (u : Fin 3 → ℕ → ℝ) (n : ℕ) : sample (limitedVelocity L f u) (n + 1) =
    cOut L (fun i => gain (1 / 1000) f * u i n + (1 - gain (1 / 1000) f) * limitedVelocity L f u i n) (sample (limitedVelocity L f u) n)
      (fun i => rate (limitedVelocity L f u i) n) := by
  rw [← limited_rate]
  rfl

section
variable {L' L : Limits} (hL : Under L' L) {f : ℝ} (hf : 0.001 ≤ f) {u : Fin 3 → ℕ → ℝ} (hv : 0 ≤ L'.velocity)
  (ha : ∀ n, CartesianAllowed L' (sample (fun i => starting 0 (u i)) (n + 1)) (sample (fun i => starting 0 (u i)) n) (fun i => rate (starting 0 (u i)) n))
include hL hf hv ha

theorem limited_near (n : ℕ) : len (fun i => limitedVelocity L f u i (n + 1) - (gain (1 / 1000) f * u i n + (1 - gain (1 / 1000) f) * limitedVelocity L f u i n)) ≤ slip ∧
    len (sample (limitedVelocity L f u) n) ≤ L.velocity := by
  induction n using Nat.strong_induction_on with
  | _ n ih =>
    obtain ⟨h1, h2, -⟩ := noisy_next hL hf (N := n + 1) (n := n) (by omega) (u := u) (y := limitedVelocity L f u) (by
      refine le_trans (le_of_eq ?_) hv
      exact len_zero) (fun m _ => ha m) fun j hj => (ih j hj).1
    refine ⟨?_, h2⟩
    have := cOut_near hL.ok h2 h1
    refine le_of_eq_of_le (congrArg len (funext fun i => ?_)) this
    congr 1
    exact congrFun (limited_succ L f u n) i

theorem limited_low (N : ℕ) : NearlyLowPassedFor N (1 / 10 ^ 13) f u (limitedVelocity L f u) := fun n _ => near_low hf (limited_near hL hf hv ha n).1

end

/-- Nothing moves if nothing is to move. -/
theorem limited_zero {L : Limits} (hL : CartesianOk L) (hv : 0 ≤ L.velocity) (f : ℝ) (n : ℕ) : limited L f (fun _ _ => 0) n = (fun _ => 0, fun _ => 0) := by
  induction n with
  | zero => rfl
  | succ n ih =>
    have hs : cOut L (fun _ => 0) (fun _ => 0) (fun _ => 0) = fun _ => (0 : ℝ) := by
      refine cOut_same hL ?_ (cartesian_rest hL ?_) ⟨.inl ?_, .inl ?_⟩
      · rw [len_zero]; exact hv
      · rw [len_zero]; exact hv
      · intro i; simp
      · intro i; simp
    have e : (fun i : Fin 3 => gain (1 / 1000) f * 0 + (1 - gain (1 / 1000) f) * 0) = fun _ => 0 := by funext i; ring
    rw [limited, ih]
    simp only [mul_zero, add_zero]
    rw [hs]
    simp

/-! ## Plans -/

section
variable {σ : Type} {c0 : σ} {f : ℝ} {u : Fin 6 → ℕ → ℝ} {ends : ℕ → Bool} {cs : ℕ → σ}

/-- What the robot reports in the `n`-th state. -/
def TwistsReported (y : Fin 6 → ℕ → ℝ) (n : ℕ) (st : RobotState XR) : Prop :=
  st.O_dP_EE_c = Arr.fin (sample y n) ∧ st.O_ddP_EE_c = Arr.fin fun i => rate (y i) n

noncomputable def twistOut (u : Fin 6 → ℕ → ℝ) (ends : ℕ → Bool) (n : ℕ) : Motion XR .CartesianVelocities := (⟨ends n, Arr.fin (sample u n), none⟩ : CartesianVelocities XR)
noncomputable def twistCmd (y : Fin 6 → ℕ → ℝ) (n : ℕ) : MotionGeneratorCommand XR := { noMotion with O_dP_EE_c := Arr.fin (sample y (n + 1)) }

/-- The velocities that are sent. -/
noncomputable def limitedTwist (f : ℝ) (u : Fin 6 → ℕ → ℝ) (i : Fin 6) (n : ℕ) : ℝ :=
  join (sample (limitedVelocity codeTranslation f (translation u)) n) (sample (limitedVelocity codeRotation f (rotation u)) n) i

theorem limitedTwist_translation (f : ℝ) (u : Fin 6 → ℕ → ℝ) : translation (limitedTwist f u) = limitedVelocity codeTranslation f (translation u) := by
  funext i n
  fin_cases i <;> rfl
theorem limitedTwist_rotation (f : ℝ) (u : Fin 6 → ℕ → ℝ) : rotation (limitedTwist f u) = limitedVelocity codeRotation f (rotation u) := by
  funext i n
  fin_cases i <;> rfl

theorem rate_linear (y : Fin 6 → ℕ → ℝ) (n : ℕ) : linear (fun i => rate (y i) n) = fun i => rate (translation y i) n := by
  funext i
  cases n <;> fin_cases i <;> rfl
theorem rate_angular (y : Fin 6 → ℕ → ℝ) (n : ℕ) : angular (fun i => rate (y i) n) = fun i => rate (rotation y i) n := by
  funext i
  cases n <;> fin_cases i <;> rfl

theorem planned_twists [Geo XR] {call : ControlCall XR σ .CartesianVelocities} (ht : call.torque = none) (hl : call.limit_rate = true)
    (hf : call.cutoff = .fin f) (h0 : 0.001 ≤ f) (h1 : f < 1000) (hs : cs 0 = c0)
    (called : ∀ n st, call.motion (cs n) st (periodOf n) = (cs (n + 1), twistOut u ends n))
    (allowedT : ∀ n, CartesianAllowed (below (below translationLimits)) (sample (fun i => starting 0 (translation u i)) (n + 1))
      (sample (fun i => starting 0 (translation u i)) n) (fun i => rate (starting 0 (translation u i)) n))
    (allowedR : ∀ n, CartesianAllowed (below (below rotationLimits)) (sample (fun i => starting 0 (rotation u i)) (n + 1))
      (sample (fun i => starting 0 (rotation u i)) n) (fun i => rate (starting 0 (rotation u i)) n)) :
    IsPlanOf call c0 cs (twistOut u ends) (twistCmd (limitedTwist f u)) (TwistsReported (limitedTwist f u)) := by
  refine ⟨ht, hs, fun n st hR => called n st, fun n st hR => ?_⟩
  obtain ⟨r1, r2⟩ := hR
  have hT := (limited_near under_translation h0 (by norm_num [below, translationLimits]) allowedT n).2
  have hR := (limited_near under_rotation h0 (by norm_num [below, rotationLimits]) allowedR n).2
  rw [hf, hl]
  show CartesianVelocities.convert_motion ⟨ends n, Arr.fin (sample u n), none⟩ st _ (.fin f) true = _
  obtain ⟨t1, t2, t3⟩ := MAX_TRANSLATIONAL_fin
  obtain ⟨q1, q2, q3⟩ := MAX_ROTATIONAL_fin
  unfold CartesianVelocities.convert_motion
  rw [with_filter h1]
  dsimp only
  have e1 : linear (sample (limitedTwist f u) n) = sample (limitedVelocity codeTranslation f (translation u)) n := linear_join _ _
  have e2 : angular (sample (limitedTwist f u) n) = sample (limitedVelocity codeRotation f (rotation u)) n := angular_join _ _
  rw [if_pos rfl, r1, filtered6 (by linarith), P_bind_ok_eq, if_pos rfl, t1, t2, t3, q1, q2, q3, r2,
    cartesian_fin codeTranslation_ok codeRotation_ok (by rw [e1]; exact hT) (by rw [e2]; exact hR), P_bind_ok_eq, assertFinite_fin, P_bind_ok_eq,
    linear_mix, angular_mix, e1, e2, rate_linear, rate_angular, limitedTwist_translation, limitedTwist_rotation]
  have hc : (join (cOut codeTranslation (fun i => gain (1 / 1000) f * linear (sample u n) i + (1 - gain (1 / 1000) f) * sample (limitedVelocity codeTranslation f (translation u)) n i)
      (sample (limitedVelocity codeTranslation f (translation u)) n) fun i => rate (limitedVelocity codeTranslation f (translation u) i) n)
      (cOut codeRotation (fun i => gain (1 / 1000) f * angular (sample u n) i + (1 - gain (1 / 1000) f) * sample (limitedVelocity codeRotation f (rotation u)) n i)
      (sample (limitedVelocity codeRotation f (rotation u)) n) fun i => rate (limitedVelocity codeRotation f (rotation u) i) n)) = sample (limitedTwist f u) (n + 1) := by
    show _ = join _ _
    rw [limited_succ, limited_succ]
    rfl
  rw [hc]
  cases n <;> rfl

end

/-! ## Robots for such plans -/

/-- A state with these desired values, in which everything else is zero. -/
def cartesianState {F : Type} [Fl F] (id : UInt64) (T : Arr F 16) (v a : Arr F 6) (e de dde : Arr F 2) (g : MotionGeneratorMode) (c : ControllerMode) (r : RobotMode) : RobotStateIntern F :=
  { RobotStateIntern.dummy F with message_id := id, O_T_EE_c := T, O_dP_EE_c := v, O_ddP_EE_c := a, elbow_c := e, delbow_c := de, ddelbow_c := dde, motion_generator_mode := g, controller_mode := c, robot_mode := r }

open Codec in
theorem cartesianState_holds {F : Type} [Fl F] [Wire F] {id : UInt64} {T : Arr F 16} {v a : Arr F 6} {e de dde : Arr F 2} {g : MotionGeneratorMode} {c : ControllerMode} {r : RobotMode}
    (h0 : Wire.ofBits (Wire.toBits (Fl.lit 0 : F)) = (Fl.lit 0 : F)) (hT : Kept T) (hv : Kept v) (ha : Kept a) (he : Kept e) (hde : Kept de) (hdde : Kept dde) :
    ∃ data, HoldsState (cartesianState (F := F) id T v a e de dde g c r) data := by
  have z : ∀ n, Keeps (arr (f64 F) n) (n * 8) (fun _ => Fl.lit 0 : Arr F n) := fun n => arr_keeps fun _ => f64_keeps h0
  have z1 : Keeps (f64 F) 8 (Fl.lit 0 : F) := f64_keeps h0
  have h : Keeps (RobotStateIntern.codec F) 2373 (cartesianState id T v a e de dde g c r) :=
    iso_keeps (n := 2373) (x := cartesianState id T v a e de dde g c r) (seq_keeps (u64_lawful.keeps _) <|
      seq_keeps (z 16) <|
      seq_keeps (z 16) <|
      seq_keeps (z 16) <|
      seq_keeps (z 16) <|
      seq_keeps (z 16) <|
      seq_keeps (z 16) <|
      seq_keeps z1 <|
      seq_keeps (z 9) <|
      seq_keeps (z 3) <|
      seq_keeps z1 <|
      seq_keeps (z 9) <|
      seq_keeps (z 3) <|
      seq_keeps (z 2) <|
      seq_keeps (z 2) <|
      seq_keeps (z 7) <|
      seq_keeps (z 7) <|
      seq_keeps (z 7) <|
      seq_keeps (z 7) <|
      seq_keeps (z 7) <|
      seq_keeps (z 7) <|
      seq_keeps (z 7) <|
      seq_keeps (z 7) <|
      seq_keeps (z 7) <|
      seq_keeps (z 6) <|
      seq_keeps (z 7) <|
      seq_keeps (z 6) <|
      seq_keeps (z 7) <|
      seq_keeps (z 6) <|
      seq_keeps (z 6) <|
      seq_keeps (z 6) <|
      seq_keeps (z 3) <|
      seq_keeps he.keeps <|
      seq_keeps hde.keeps <|
      seq_keeps hdde.keeps <|
      seq_keeps hT.keeps <|
      seq_keeps hv.keeps <|
      seq_keeps ha.keeps <|
      seq_keeps (z 7) <|
      seq_keeps (z 7) <|
      seq_keeps (MotionGeneratorMode.codec_lawful.keeps _) <|
      seq_keeps (ControllerMode.codec_lawful.keeps _) <|
      seq_keeps (RoboErrorHelperStruct.codec_lawful.keeps _) <|
      seq_keeps (RobotMode.codec_lawful.keeps _) z1) rfl
  refine ⟨_, h.len, ?_⟩
  have := h.rt []
  rwa [List.append_nil] at this

theorem cartesian_robot_for [Wire XR] {σ : Type} {k : MotionKind} {call : ControlCall XR σ k} {R : ℕ → RobotState XR → Prop} {N : ℕ} (hN : N ≤ 2 ^ 40)
    (T : ℕ → Arr XR 16) (v a : ℕ → Arr XR 6) (e de dde : ℕ → Arr XR 2)
    (k0 : Wire.ofBits (Wire.toBits (lit 0 : XR)) = (lit 0 : XR)) (kp : ∀ n ≤ N, Kept (T n) ∧ Kept (v n) ∧ Kept (a n) ∧ Kept (e n) ∧ Kept (de n) ∧ Kept (dde n))
    (hR : ∀ n st, n ≤ N → st.O_T_EE_c = T n → st.O_dP_EE_c = v n → st.O_ddP_EE_c = a n → st.elbow_c = e n → st.delbow_c = de n → st.ddelbow_c = dde n → R n st) :
    RobotFor call R N (plainState 2 Following.zeros Following.zeros Following.zeros (generatorOf k) (controllerOf call.controller) .Move)
      (fun n => cartesianState (UInt64.ofNat (n + 3)) (T n) (v n) (a n) (e n) (de n) (dde n) (generatorOf k) (controllerOf call.controller) .Move)
      (plainState (UInt64.ofNat (N + 4)) Following.zeros Following.zeros Following.zeros .Idle .Other .Idle) where
  small := hN
  id2 := rfl
  modes2 := ⟨rfl, rfl⟩
  ids _ _ := rfl
  healthy _ _ := ⟨rfl, rfl, rfl⟩
  planned n hn := hR n _ hn rfl rfl rfl rfl rfl rfl
  idE := rfl
  still := by rintro (h | h) <;> first | exact h rfl | cases h
  data2 := plainState_holds k0 (fun _ => k0) (fun _ => k0) (fun _ => k0)
  data n hn := by
    obtain ⟨h1, h2, h3, h4, h5, h6⟩ := kp n hn
    exact cartesianState_holds k0 h1 h2 h3 h4 h5 h6
  dataE := plainState_holds k0 (fun _ => k0) (fun _ => k0) (fun _ => k0)

namespace Following

/-- The set of the values of some arrays. -/
noncomputable def valuesOf [DecidableEq XR] {m : ℕ} (f : ℕ → Arr XR m) (N : ℕ) : Finset XR := (Finset.range (N + 1) ×ˢ (Finset.univ : Finset (Fin m))).image fun p => f p.1 p.2

theorem valuesOf_card [DecidableEq XR] {m : ℕ} (f : ℕ → Arr XR m) (N : ℕ) : (valuesOf f N).card ≤ (N + 1) * m := by
  unfold valuesOf
  exact Finset.card_image_le.trans (by simp)

theorem mem_valuesOf [DecidableEq XR] {m N : ℕ} {f : ℕ → Arr XR m} {n : ℕ} (h : n ≤ N) (i : Fin m) : f n i ∈ valuesOf f N :=
  Finset.mem_image.2 ⟨(n, i), Finset.mem_product.2 ⟨Finset.mem_range.2 (Nat.lt_succ_of_le h), Finset.mem_univ _⟩, rfl⟩

theorem cartesian_wire {N : ℕ} (hN : N ≤ 1000000) (T : ℕ → Arr XR 16) (v a : ℕ → Arr XR 6) (e de dde : ℕ → Arr XR 2) :
    ∃ _ : Wire XR, Wire.ofBits (Wire.toBits (lit 0 : XR)) = (lit 0 : XR) ∧
      ∀ n ≤ N, Kept (T n) ∧ Kept (v n) ∧ Kept (a n) ∧ Kept (e n) ∧ Kept (de n) ∧ Kept (dde n) := by
  classical
  obtain ⟨wire, hw⟩ := wire_exists (insert (lit 0) (valuesOf T N ∪ (valuesOf v N ∪ (valuesOf a N ∪ (valuesOf e N ∪ (valuesOf de N ∪ valuesOf dde N)))))) (by
    have h1 := Finset.card_insert_le (lit 0 : XR) (valuesOf T N ∪ (valuesOf v N ∪ (valuesOf a N ∪ (valuesOf e N ∪ (valuesOf de N ∪ valuesOf dde N)))))
    have h2 := Finset.card_union_le (valuesOf T N) (valuesOf v N ∪ (valuesOf a N ∪ (valuesOf e N ∪ (valuesOf de N ∪ valuesOf dde N))))
    have h3 := Finset.card_union_le (valuesOf v N) (valuesOf a N ∪ (valuesOf e N ∪ (valuesOf de N ∪ valuesOf dde N)))
    have h4 := Finset.card_union_le (valuesOf a N) (valuesOf e N ∪ (valuesOf de N ∪ valuesOf dde N))
    have h5 := Finset.card_union_le (valuesOf e N) (valuesOf de N ∪ valuesOf dde N)
    have h6 := Finset.card_union_le (valuesOf de N) (valuesOf dde N)
    have c1 := valuesOf_card T N
    have c2 := valuesOf_card v N
    have c3 := valuesOf_card a N
    have c4 := valuesOf_card e N
    have c5 := valuesOf_card de N
    have c6 := valuesOf_card dde N
    omega)
  refine ⟨wire, hw _ (Finset.mem_insert_self _ _), fun n hn => ⟨fun i => hw _ ?_, fun i => hw _ ?_, fun i => hw _ ?_, fun i => hw _ ?_, fun i => hw _ ?_, fun i => hw _ ?_⟩⟩ <;>
    simp only [Finset.mem_insert, Finset.mem_union, mem_valuesOf hn, true_or, or_true]

end Following
end Verif
