import Verif.Spec.ErrorText
import Verif.Props.State
/-!
# The text of a list of errors: C99
-/
namespace Verif
open Spec

/-! ## The names -/

theorem flag_of_error (e : FrankaError) : ∃ i : Fin 41, flagOrder[i.val]? = some e := by
  cases e <;> decide

theorem errorName_at (i : Fin 41) : errorNames[i.val]? = (flagOrder[i.val]?).map FrankaError.fmt := by
  revert i; decide

/-- C99: each error is printed with its name. -/
theorem C99_name (e : FrankaError) (name : String) : e.fmt = name ↔ IsErrorName e name := by
  constructor
  · rintro rfl
    obtain ⟨i, hi⟩ := flag_of_error e
    exact ⟨i, hi, by rw [errorName_at, hi]; rfl⟩
  · rintro ⟨i, h1, h2⟩
    have := errorName_at ⟨i, flagOrder_lt h1⟩
    simp only [h1, h2] at this
    simpa using this.symm

theorem fmt_injective : Function.Injective FrankaError.fmt := by
  have key : (flagOrder.map FrankaError.fmt).Nodup := by decide
  have h2 : flagOrder.Nodup := by decide
  intro a b h
  obtain ⟨i, hi⟩ := flag_of_error a
  obtain ⟨j, hj⟩ := flag_of_error b
  have e1 : (flagOrder.map FrankaError.fmt)[i.val]? = some a.fmt := by simp [hi]
  have e2 : (flagOrder.map FrankaError.fmt)[j.val]? = some a.fmt := by simp [hj, h]
  have : i.val = j.val := by
    have l1 : i.val < (flagOrder.map FrankaError.fmt).length := (List.getElem?_eq_some_iff.1 e1).1
    exact (List.getElem?_inj l1 key).1 (e1.trans e2.symm)
  rw [this, hj] at hi
  exact (Option.some.inj hi).symm

/-- A name has no quotation mark. -/
theorem no_quote (e : FrankaError) : '"' ∉ e.fmt.toList := by
  cases e <;> decide

/-! ## The list -/

theorem fmtLoop_eq : ∀ (e : FrankaError) (es : List FrankaError),
    FrankaErrors.fmtLoop (e :: es) = ", ".intercalate ((e :: es).map fun e => "\"" ++ e.fmt ++ "\"") ++ "]"
  | e, [] => by
    apply String.toList_inj.1
    simp [FrankaErrors.fmtLoop]
  | e, e' :: es => by
    rw [FrankaErrors.fmtLoop, fmtLoop_eq e' es]
    · simp [String.intercalate_cons_cons, String.append_assoc]
    · simp

/-- C99: errors are shown with their names, in quotes and in their order, in brackets - if there are any; no errors are shown as an opening bracket
without a closing one. -/
theorem C99_text (errors : FrankaErrors) : (errors.franka_errors = [] → errors.fmt = "[") ∧
    ∀ names, errors.franka_errors ≠ [] → List.Forall₂ IsErrorName errors.franka_errors names → errors.fmt = shownErrors names := by
  obtain ⟨es⟩ := errors
  refine ⟨?_, fun names hne hn => ?_⟩
  · rintro rfl; rfl
  · have : names = es.map FrankaError.fmt := by
      clear hne
      change List.Forall₂ IsErrorName es names at hn
      induction hn with
      | nil => rfl
      | cons h _ ih => rw [List.map_cons, ← ih, (C99_name _ _).2 h]
    subst this
    obtain ⟨e, es, rfl⟩ := List.exists_cons_of_ne_nil hne
    simp only [FrankaErrors.fmt, fmtLoop_eq, shownErrors, List.map_map, String.append_assoc]
    rfl

theorem split_at_quote : ∀ {a b r s : List Char}, '"' ∉ a → '"' ∉ b → a ++ '"' :: r = b ++ '"' :: s → a = b ∧ r = s
  | [], [], _, _, _, _, h => ⟨rfl, by simpa using h⟩
  | [], y :: b, _, _, _, hb, h => by simp at h hb; exact absurd h.1 hb.1
  | x :: a, [], _, _, ha, _, h => by simp at h ha; exact absurd h.1.symm ha.1
  | x :: a, y :: b, r, s, ha, hb, h => by
    simp at h ha hb
    obtain ⟨e1, e2⟩ := split_at_quote (a := a) (b := b) ha.2 hb.2 h.2
    exact ⟨by rw [h.1, e1], e2⟩

theorem fmtLoop_injective : ∀ a b : List FrankaError, FrankaErrors.fmtLoop a = FrankaErrors.fmtLoop b → a = b
  | [], [], _ => rfl
  | [], [e], h => absurd (congrArg String.toList h) (by simp [FrankaErrors.fmtLoop])
  | [], e :: e' :: es, h => absurd (congrArg String.toList h) (by simp [FrankaErrors.fmtLoop])
  | [e], [], h => absurd (congrArg String.toList h) (by simp [FrankaErrors.fmtLoop])
  | e :: e' :: es, [], h => absurd (congrArg String.toList h) (by simp [FrankaErrors.fmtLoop])
  | [e], [f], h => by
    have := congrArg String.toList h
    simp only [FrankaErrors.fmtLoop, String.toList_append] at this
    obtain ⟨h1, _⟩ := split_at_quote (a := e.fmt.toList) (b := f.fmt.toList) (r := [']']) (s := [']']) (no_quote e) (no_quote f) (by simpa using this)
    rw [fmt_injective (String.toList_inj.1 h1)]
  | [e], f :: f' :: fs, h => by
    have := congrArg String.toList h
    simp only [FrankaErrors.fmtLoop, String.toList_append] at this
    obtain ⟨_, h2⟩ := split_at_quote (a := e.fmt.toList) (b := f.fmt.toList) (r := [']']) (s := ',' :: ' ' :: (FrankaErrors.fmtLoop (f' :: fs)).toList) (no_quote e) (no_quote f)
      (by simpa using this)
    simp at h2
  | e :: e' :: es, [f], h => by
    have := congrArg String.toList h
    simp only [FrankaErrors.fmtLoop, String.toList_append] at this
    obtain ⟨_, h2⟩ := split_at_quote (a := e.fmt.toList) (b := f.fmt.toList) (s := [']']) (r := ',' :: ' ' :: (FrankaErrors.fmtLoop (e' :: es)).toList) (no_quote e) (no_quote f)
      (by simpa using this)
    simp at h2
  | e :: e' :: es, f :: f' :: fs, h => by
    have := congrArg String.toList h
    simp only [FrankaErrors.fmtLoop, String.toList_append] at this
    obtain ⟨h1, h2⟩ := split_at_quote (a := e.fmt.toList) (b := f.fmt.toList) (r := ',' :: ' ' :: (FrankaErrors.fmtLoop (e' :: es)).toList)
      (s := ',' :: ' ' :: (FrankaErrors.fmtLoop (f' :: fs)).toList) (no_quote e) (no_quote f) (by simpa using this)
    rw [fmt_injective (String.toList_inj.1 h1), fmtLoop_injective (e' :: es) (f' :: fs) (String.toList_inj.1 (by simpa using h2))]

/-- C99: so the text tells which errors there are, and in which order: different lists have different texts. -/
theorem C99_text_tells_the_errors {a b : FrankaErrors} (h : a.fmt = b.fmt) : a = b := by
  obtain ⟨a⟩ := a; obtain ⟨b⟩ := b
  congr 1
  refine fmtLoop_injective a b (String.toList_inj.1 ?_)
  have := congrArg String.toList h
  simpa [FrankaErrors.fmt] using this

/-- Two errors. -/
example : (FrankaErrors.mk [.JointReflex, .PowerLimitViolation]).fmt = "[\"JointReflex\", \"PowerLimitViolation\"]" ∧
    List.Forall₂ IsErrorName [.JointReflex, .PowerLimitViolation] ["JointReflex", "PowerLimitViolation"] :=
  ⟨by decide, .cons ((C99_name _ _).1 rfl) (.cons ((C99_name _ _).1 rfl) .nil)⟩

end Verif
