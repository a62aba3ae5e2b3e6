import Verif.Spec.Real
import Verif.Model.Filters
import Mathlib.Tactic.Linarith
import Mathlib.Tactic.FieldSimp
import Mathlib.Tactic.NormNum
import Mathlib.Tactic.FinCases
/-!
Computing with finite doubles.
-/
namespace Verif

theorem P_bind_ok_eq {α β : Type} (x : α) (f : α → P β) : ((Except.ok x : P α) >>= f) = f x := rfl

theorem assertP_true (msg : String) : assertP true msg = .ok () := rfl

theorem Arr.tabulateP_ok {α : Type} {n : Nat} {f : Fin n → P α} {g : Arr α n} (h : ∀ i, f i = .ok (g i)) : Arr.tabulateP f = .ok g := by
  induction n with
  | zero =>
    unfold Arr.tabulateP
    congr 1
    funext i
    exact i.elim0
  | succ n ih =>
    unfold Arr.tabulateP
    rw [h 0, P_bind_ok_eq, ih (g := fun i => g i.succ) (fun i => h i.succ), P_bind_ok_eq]
    show Except.ok _ = _
    congr 1
    funext i
    refine Fin.cases ?_ (fun j => ?_) i <;> rfl

theorem Arr.tabulateP_inv {α : Type} {n : Nat} {f : Fin n → P α} {g : Arr α n} (h : Arr.tabulateP f = .ok g) : ∀ i, f i = .ok (g i) := by
  induction n with
  | zero => exact fun i => i.elim0
  | succ n ih =>
    unfold Arr.tabulateP at h
    cases h0 : f 0 with
    | error e => rw [h0] at h; cases h
    | ok x =>
      rw [h0, P_bind_ok_eq] at h
      cases h1 : Arr.tabulateP fun i => f (Fin.succ i) with
      | error e => rw [h1] at h; cases h
      | ok xs =>
        rw [h1, P_bind_ok_eq] at h
        obtain rfl : Arr.cons x xs = g := by injection h
        refine Fin.cases ?_ fun j => ?_
        · rw [h0]; rfl
        · rw [ih h1 j]; rfl

@[simp] theorem allFinite_fin {n : Nat} (v : Fin n → ℝ) : Arr.all Fl.isFinite (Arr.fin v) = true := by
  unfold Arr.all
  exact decide_eq_true fun i => rfl

@[simp] theorem assertFinite_fin {n : Nat} (v : Fin n → ℝ) : assertFinite (Arr.fin v) = .ok () := by
  unfold assertFinite
  rw [allFinite_fin]
  rfl

theorem DELTA_T_fin : (DELTA_T : XR) = .fin (1 / 1000) := by
  unfold DELTA_T
  rw [XR.lit_fin]
  norm_num

theorem fin_div_dt (x : ℝ) : (XR.fin x / DELTA_T : XR) = .fin (1000 * x) := by
  rw [DELTA_T_fin, XR.fin_div _ _ (by norm_num)]
  congr 1
  ring

theorem fin_mul_dt (x : ℝ) : (XR.fin x * DELTA_T : XR) = .fin (x / 1000) := by
  rw [DELTA_T_fin, XR.fin_mul]
  congr 1
  ring

end Verif
