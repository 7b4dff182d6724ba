import Mathlib.Analysis.Real.Sqrt
import Mathlib.Algebra.BigOperators.Group.Finset.Basic
import Mathlib.Algebra.Order.BigOperators.Group.Finset

/-!
# Exact arithmetic with the exceptional values of floating point

`XR` is the real line with the values `inf`, `-inf` and `nan` of floating point numbers. Arithmetic between finite values is
exact (no rounding, no overflow); everything else follows the rules of IEEE 754 as numpy applies them (no exception is raised,
comparisons with `nan` are false). There is one zero only: dividing a non-zero number by zero gives the infinity with the
sign of the numerator, as for the zero `+0.0`.
-/

namespace Verif

/-- A floating point value without rounding. -/
inductive XR where
  | fin (x : ℝ)
  | pinf
  | ninf
  | nan

namespace XR

open Classical in
/-- The infinity with the sign of `x`; `nan` for zero (`0 * inf`, `0 / 0`). -/
noncomputable def signInf (x : ℝ) : XR := if 0 < x then pinf else if x < 0 then ninf else nan

/-- Negation. -/
def neg : XR → XR
  | fin x => fin (-x)
  | pinf => ninf
  | ninf => pinf
  | nan => nan

/-- Addition: `inf - inf` is `nan`. -/
def add : XR → XR → XR
  | nan, _ => nan
  | _, nan => nan
  | fin x, fin y => fin (x + y)
  | fin _, pinf => pinf
  | fin _, ninf => ninf
  | pinf, fin _ => pinf
  | ninf, fin _ => ninf
  | pinf, pinf => pinf
  | ninf, ninf => ninf
  | pinf, ninf => nan
  | ninf, pinf => nan

/-- Subtraction. -/
def sub (a b : XR) : XR := add a (neg b)

/-- Multiplication: `0 * inf` is `nan`. -/
noncomputable def mul : XR → XR → XR
  | nan, _ => nan
  | _, nan => nan
  | fin x, fin y => fin (x * y)
  | fin x, pinf => signInf x
  | fin x, ninf => signInf (-x)
  | pinf, fin x => signInf x
  | ninf, fin x => signInf (-x)
  | pinf, pinf => pinf
  | ninf, ninf => pinf
  | pinf, ninf => ninf
  | ninf, pinf => ninf

open Classical in
/-- Division: `0 / 0` and `inf / inf` are `nan`. -/
noncomputable def div : XR → XR → XR
  | nan, _ => nan
  | _, nan => nan
  | fin x, fin y => if y = 0 then signInf x else fin (x / y)
  | fin _, _ => fin 0
  | pinf, fin y => if y < 0 then ninf else pinf
  | ninf, fin y => if y < 0 then pinf else ninf
  | _, _ => nan

open Classical in
/-- Square root. -/
noncomputable def sqrt : XR → XR
  | fin x => if x < 0 then nan else fin (Real.sqrt x)
  | pinf => pinf
  | _ => nan

open Classical in
/-- `a < b`. -/
noncomputable def lt : XR → XR → Bool
  | fin x, fin y => decide (x < y)
  | fin _, pinf => true
  | ninf, fin _ => true
  | ninf, pinf => true
  | _, _ => false

open Classical in
/-- `a <= b`. -/
noncomputable def le : XR → XR → Bool
  | fin x, fin y => decide (x ≤ y)
  | nan, _ => false
  | _, nan => false
  | _, pinf => true
  | ninf, _ => true
  | _, _ => false

instance : Zero XR := ⟨fin 0⟩
instance : Add XR := ⟨add⟩
instance : Neg XR := ⟨neg⟩
instance : Sub XR := ⟨sub⟩
noncomputable instance : Mul XR := ⟨mul⟩
noncomputable instance : Div XR := ⟨div⟩

theorem zero_def : (0 : XR) = fin 0 := rfl
theorem add_def (a b : XR) : a + b = add a b := rfl
theorem neg_def (a : XR) : -a = neg a := rfl
theorem sub_def (a b : XR) : a - b = add a (neg b) := rfl
theorem mul_def (a b : XR) : a * b = mul a b := rfl
theorem div_def (a b : XR) : a / b = div a b := rfl

noncomputable instance : AddCommMonoid XR where
  add_assoc a b c := by
    cases a <;> cases b <;> cases c <;> simp [add_def, add, add_assoc]
  zero_add a := by cases a <;> simp [add_def, zero_def, add]
  add_zero a := by cases a <;> simp [add_def, zero_def, add]
  add_comm a b := by cases a <;> cases b <;> simp [add_def, add, add_comm]
  nsmul := nsmulRec

@[simp] theorem fin_add (x y : ℝ) : fin x + fin y = fin (x + y) := rfl
@[simp] theorem fin_sub (x y : ℝ) : fin x - fin y = fin (x - y) := by simp [sub_def, add, neg, sub_eq_add_neg]
@[simp] theorem fin_neg (x : ℝ) : -fin x = fin (-x) := rfl
@[simp] theorem fin_mul (x y : ℝ) : fin x * fin y = fin (x * y) := rfl
theorem fin_div {y : ℝ} (x : ℝ) (h : y ≠ 0) : fin x / fin y = fin (x / y) := by simp [div_def, div, h]
@[simp] theorem nan_add (a : XR) : nan + a = nan := by cases a <;> rfl
@[simp] theorem add_nan (a : XR) : a + nan = nan := by cases a <;> rfl
@[simp] theorem nan_mul (a : XR) : nan * a = nan := by cases a <;> rfl
@[simp] theorem mul_nan (a : XR) : a * nan = nan := by cases a <;> rfl
@[simp] theorem nan_div (a : XR) : nan / a = nan := by cases a <;> rfl
@[simp] theorem div_nan (a : XR) : a / nan = nan := by cases a <;> rfl
@[simp] theorem lt_fin (x y : ℝ) : lt (fin x) (fin y) = true ↔ x < y := by simp [lt]
@[simp] theorem le_fin (x y : ℝ) : le (fin x) (fin y) = true ↔ x ≤ y := by simp [le]
@[simp] theorem fin_inj (x y : ℝ) : fin x = fin y ↔ x = y := ⟨fun h => by injection h, fun h => by rw [h]⟩

/-- A value that is a number. -/
def IsFin (a : XR) : Prop := ∃ x, a = fin x

theorem isFin_fin (x : ℝ) : IsFin (fin x) := ⟨x, rfl⟩

theorem isFin_add {a b : XR} : IsFin (a + b) ↔ IsFin a ∧ IsFin b := by
  cases a <;> cases b <;> simp [add_def, add, IsFin]

theorem isFin_neg {a : XR} : IsFin (-a) ↔ IsFin a := by
  cases a <;> simp [neg_def, neg, IsFin]

theorem not_isFin_signInf (x : ℝ) : ¬ IsFin (signInf x) := by
  unfold signInf IsFin; split_ifs <;> simp

theorem isFin_mul {a b : XR} : IsFin (a * b) ↔ IsFin a ∧ IsFin b := by
  cases a <;> cases b <;> simp [mul_def, mul, not_isFin_signInf] <;> simp [IsFin]

theorem isFin_sum {ι : Type*} (s : Finset ι) (f : ι → XR) : IsFin (∑ i ∈ s, f i) ↔ ∀ i ∈ s, IsFin (f i) := by
  classical
  induction s using Finset.induction_on with
  | empty => simp [zero_def, isFin_fin]
  | insert a s ha ih => rw [Finset.sum_insert ha, isFin_add, ih]; simp

theorem sum_fin {ι : Type*} (s : Finset ι) (f : ι → ℝ) : (∑ i ∈ s, fin (f i)) = fin (∑ i ∈ s, f i) := by
  classical
  induction s using Finset.induction_on with
  | empty => simp [zero_def]
  | insert a s ha ih => rw [Finset.sum_insert ha, ih, Finset.sum_insert ha, fin_add]

theorem sum_eq_nan {ι : Type*} (s : Finset ι) (f : ι → XR) {i : ι} (hi : i ∈ s) (h : f i = nan) : (∑ i ∈ s, f i) = nan := by
  classical
  rw [← Finset.add_sum_erase s f hi, h, nan_add]

end XR

end Verif
