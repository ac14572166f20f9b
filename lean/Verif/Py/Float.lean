import Mathlib.Analysis.Real.Sqrt

/-!
# Numbers and exceptions as the Python code sees them

`PyFloat F` lists the floating-point operations the stacking code of
`/repo/src/rfsed` performs.  It has **no laws**: IEEE doubles provide all of
these operations.  `IEEEOrder F` lists the only facts about comparisons that the
structural theorems use; they are true of IEEE doubles including NaN and
infinities.  Two instances with laws are given: `ℝ` (exact arithmetic) and
`NReal` (exact arithmetic with one NaN).
-/

namespace Rfsed

/-- Python exceptions that the modelled code can raise.
`synrfValueError` is the class `ValueError(Exception)` that
`src/rfsed/synrf.py:76` defines and which shadows the builtin one there. -/
inductive PyErr where
  | indexError | valueError | typeError | keyError | attributeError
  | unboundLocalError | zeroDivisionError | runtimeError
  | synrfValueError
  /-- any exception raised inside a library call that is a parameter -/
  | external (code : Nat)
  deriving DecidableEq, Repr

/-- Is a scalar a Python `float` or a numpy scalar?  It matters for `x ** 0.5`
with `x < 0` (complex number versus NaN) and for `1/0`. -/
inductive Kind where
  | py | np
  deriving DecidableEq, Repr

/-- kind of `a op b` for scalars: numpy wins. -/
def Kind.join : Kind → Kind → Kind
  | .py, .py => .py
  | _, _ => .np

/-- The floating-point operations used by the stacking code (numpy semantics:
never raising).  Operations only, no laws. -/
class PyFloat (F : Type) extends Add F, Sub F, Mul F, Div F, Neg F where
  /-- decimal literal `m * 10^(-e)`; `dec 65 1` is `6.5` -/
  dec : Nat → Nat → F
  abs : F → F
  /-- numpy `x ** 0.5`: NaN for negative `x` -/
  powHalf : F → F
  /-- Python `x ** 0.5` for negative `x`: real and imaginary part -/
  powHalfCplx : F → F × F
  /-- `np.abs` of a complex number -/
  hypot : F → F → F
  isNaN : F → Bool
  le : F → F → Bool
  lt : F → F → Bool

namespace PyFloat
variable {F : Type} [PyFloat F]
/-- integer converted to floating point -/
def ofNat (n : Nat) : F := dec n 0
/-- `0.0` -/
def zero : F := dec 0 0
/-- `1` / `1.0` -/
def one : F := dec 1 0
/-- `2` / `2.0` -/
def two : F := dec 2 0
/-- `x == y` -/
def eq (x y : F) : Bool := le x y && le y x
/-- `x ** 2` (numpy squares by multiplication); the `OverflowError` of Python floats beyond
1.3e154 is left out -/
def square (x : F) : F := x * x
end PyFloat

/-- Facts about comparisons (true of IEEE doubles). -/
class IEEEOrder (F : Type) [PyFloat F] : Prop where
  le_trans : ∀ x y z : F, PyFloat.le x y = true → PyFloat.le y z = true → PyFloat.le x z = true
  le_total : ∀ x y : F, PyFloat.isNaN x = false → PyFloat.isNaN y = false →
    PyFloat.le x y = true ∨ PyFloat.le y x = true
  le_nan_left : ∀ x y : F, PyFloat.isNaN x = true → PyFloat.le x y = false
  le_nan_right : ∀ x y : F, PyFloat.isNaN y = true → PyFloat.le x y = false
  lt_iff : ∀ x y : F, PyFloat.isNaN x = false → PyFloat.isNaN y = false →
    (PyFloat.lt x y = true ↔ PyFloat.le y x = false)
  lt_nan_left : ∀ x y : F, PyFloat.isNaN x = true → PyFloat.lt x y = false
  lt_nan_right : ∀ x y : F, PyFloat.isNaN y = true → PyFloat.lt x y = false

/-- Facts about NaN propagation (true of IEEE doubles). -/
class IEEENaN (F : Type) [PyFloat F] : Prop where
  sub_nan_right : ∀ x y : F, PyFloat.isNaN y = true → PyFloat.isNaN (x - y) = true
  sub_nan_left : ∀ x y : F, PyFloat.isNaN x = true → PyFloat.isNaN (x - y) = true
  add_nan_left : ∀ x y : F, PyFloat.isNaN x = true → PyFloat.isNaN (x + y) = true
  add_nan_right : ∀ x y : F, PyFloat.isNaN y = true → PyFloat.isNaN (x + y) = true
  mul_nan_left : ∀ x y : F, PyFloat.isNaN x = true → PyFloat.isNaN (x * y) = true
  mul_nan_right : ∀ x y : F, PyFloat.isNaN y = true → PyFloat.isNaN (x * y) = true
  div_nan_left : ∀ x y : F, PyFloat.isNaN x = true → PyFloat.isNaN (x / y) = true
  div_nan_right : ∀ x y : F, PyFloat.isNaN y = true → PyFloat.isNaN (x / y) = true
  abs_nan : ∀ x : F, PyFloat.isNaN x = true → PyFloat.isNaN (PyFloat.abs x) = true
  hypot_nan_left : ∀ x y : F, PyFloat.isNaN x = true → PyFloat.isNaN (PyFloat.hypot x y) = true
  hypot_nan_right : ∀ x y : F, PyFloat.isNaN y = true → PyFloat.isNaN (PyFloat.hypot x y) = true
  powHalf_neg : ∀ x : F, PyFloat.lt x PyFloat.zero = true → PyFloat.isNaN (PyFloat.powHalf x) = true
  powHalf_nan : ∀ x : F, PyFloat.isNaN x = true → PyFloat.isNaN (PyFloat.powHalf x) = true

/-! ## Exact real arithmetic -/

/-- Exact reals.  `powHalf` of a negative number is `0` here (there is no NaN);
theorems at `ℝ` assume the arguments non-negative where it matters. -/
noncomputable instance instPyFloatReal : PyFloat ℝ where
  dec m e := (m : ℝ) / (10 : ℝ) ^ e
  abs x := |x|
  powHalf x := Real.sqrt x
  powHalfCplx x := (0, Real.sqrt (-x))
  hypot x y := Real.sqrt (x ^ 2 + y ^ 2)
  isNaN _ := false
  le x y := @decide (x ≤ y) (Classical.propDecidable _)
  lt x y := @decide (x < y) (Classical.propDecidable _)

section RealLemmas
@[simp] theorem real_le (x y : ℝ) : PyFloat.le x y = true ↔ x ≤ y := by
  simp [PyFloat.le]
@[simp] theorem real_lt (x y : ℝ) : PyFloat.lt x y = true ↔ x < y := by
  simp [PyFloat.lt]
@[simp] theorem real_le_false (x y : ℝ) : PyFloat.le x y = false ↔ y < x := by
  simp [PyFloat.le]
@[simp] theorem real_lt_false (x y : ℝ) : PyFloat.lt x y = false ↔ y ≤ x := by
  simp [PyFloat.lt]
@[simp] theorem real_isNaN (x : ℝ) : PyFloat.isNaN x = false := rfl
@[simp] theorem real_abs (x : ℝ) : PyFloat.abs x = |x| := rfl
@[simp] theorem real_powHalf (x : ℝ) : PyFloat.powHalf x = Real.sqrt x := rfl
@[simp] theorem real_powHalfCplx (x : ℝ) : PyFloat.powHalfCplx x = (0, Real.sqrt (-x)) := rfl
@[simp] theorem real_hypot (x y : ℝ) : PyFloat.hypot x y = Real.sqrt (x ^ 2 + y ^ 2) := rfl
@[simp] theorem real_dec (m e : Nat) : (PyFloat.dec m e : ℝ) = (m : ℝ) / 10 ^ e := rfl
@[simp] theorem real_ofNat (n : Nat) : (PyFloat.ofNat n : ℝ) = n := by simp [PyFloat.ofNat]
@[simp] theorem real_zero : (PyFloat.zero : ℝ) = 0 := by simp [PyFloat.zero]
@[simp] theorem real_one : (PyFloat.one : ℝ) = 1 := by simp [PyFloat.one]
@[simp] theorem real_two : (PyFloat.two : ℝ) = 2 := by simp [PyFloat.two]
@[simp] theorem real_square (x : ℝ) : PyFloat.square x = x ^ 2 := by simp [PyFloat.square, pow_two]
@[simp] theorem real_eq (x y : ℝ) : PyFloat.eq x y = true ↔ x = y := by
  rw [PyFloat.eq, Bool.and_eq_true, real_le, real_le, ← le_antisymm_iff]
end RealLemmas

instance : IEEEOrder ℝ where
  le_trans x y z := by simpa using le_trans
  le_total x y _ _ := by simpa using le_total x y
  le_nan_left x y h := by simp at h
  le_nan_right x y h := by simp at h
  lt_iff x y _ _ := by simp
  lt_nan_left x y h := by simp at h
  lt_nan_right x y h := by simp at h

/-! ## Reals with a NaN -/

/-- A real number or NaN.  Infinities are identified with NaN (division by zero
gives NaN), the only simplification with respect to IEEE exceptional values. -/
inductive NReal where
  | nan
  | num (x : ℝ)

namespace NReal
/-- lift a binary operation, NaN if either argument is NaN -/
noncomputable def lift₂ (f : ℝ → ℝ → ℝ) : NReal → NReal → NReal
  | num x, num y => num (f x y)
  | _, _ => nan
/-- lift a unary operation -/
noncomputable def lift₁ (f : ℝ → ℝ) : NReal → NReal
  | num x => num (f x)
  | nan => nan
/-- compare, false if either argument is NaN -/
noncomputable def cmp (r : ℝ → ℝ → Prop) : NReal → NReal → Bool
  | num x, num y => @decide (r x y) (Classical.propDecidable _)
  | _, _ => false
/-- division; NaN when the divisor is zero -/
noncomputable def div : NReal → NReal → NReal
  | num x, num y => @ite _ (y = 0) (Classical.propDecidable _) nan (num (x / y))
  | _, _ => nan
/-- numpy `x ** 0.5` -/
noncomputable def powHalf : NReal → NReal
  | num x => @ite _ (x < 0) (Classical.propDecidable _) nan (num (Real.sqrt x))
  | nan => nan
/-- Python `x ** 0.5` for negative `x` -/
noncomputable def powHalfCplx : NReal → NReal × NReal
  | num x => (num 0, num (Real.sqrt (-x)))
  | nan => (nan, nan)
/-- NaN test -/
def isNaN : NReal → Bool
  | num _ => false
  | nan => true
end NReal

noncomputable instance instPyFloatNReal : PyFloat NReal where
  add := NReal.lift₂ (· + ·)
  sub := NReal.lift₂ (· - ·)
  mul := NReal.lift₂ (· * ·)
  div := NReal.div
  neg := NReal.lift₁ (- ·)
  dec m e := .num ((m : ℝ) / (10 : ℝ) ^ e)
  abs := NReal.lift₁ (|·|)
  powHalf := NReal.powHalf
  powHalfCplx := NReal.powHalfCplx
  hypot := NReal.lift₂ (fun x y => Real.sqrt (x ^ 2 + y ^ 2))
  isNaN := NReal.isNaN
  le := NReal.cmp (· ≤ ·)
  lt := NReal.cmp (· < ·)

section NRealLemmas
open NReal
variable (x y : ℝ)
@[simp] theorem nreal_add : (num x + num y : NReal) = num (x + y) := rfl
@[simp] theorem nreal_sub : (num x - num y : NReal) = num (x - y) := rfl
@[simp] theorem nreal_mul : (num x * num y : NReal) = num (x * y) := rfl
@[simp] theorem nreal_add_nan (a : NReal) : a + nan = nan := by cases a <;> rfl
@[simp] theorem nreal_nan_add (a : NReal) : nan + a = nan := rfl
@[simp] theorem nreal_sub_nan (a : NReal) : a - nan = nan := by cases a <;> rfl
@[simp] theorem nreal_nan_sub (a : NReal) : nan - a = nan := rfl
@[simp] theorem nreal_mul_nan (a : NReal) : a * nan = nan := by cases a <;> rfl
@[simp] theorem nreal_nan_mul (a : NReal) : nan * a = nan := rfl
@[simp] theorem nreal_div_nan (a : NReal) : a / nan = nan := by cases a <;> rfl
@[simp] theorem nreal_nan_div (a : NReal) : nan / a = nan := rfl
theorem nreal_div_zero (a : NReal) : a / num 0 = nan := by
  cases a with
  | nan => rfl
  | num x => exact if_pos rfl
theorem nreal_div (h : y ≠ 0) : (num x / num y : NReal) = num (x / y) := if_neg h
@[simp] theorem nreal_abs : PyFloat.abs (num x) = num |x| := rfl
@[simp] theorem nreal_abs_nan : PyFloat.abs nan = nan := rfl
theorem nreal_powHalf (h : 0 ≤ x) : PyFloat.powHalf (num x) = num (Real.sqrt x) :=
  if_neg (not_lt.mpr h)
theorem nreal_powHalf_neg (h : x < 0) : PyFloat.powHalf (num x) = nan := if_pos h
@[simp] theorem nreal_powHalf_nan : PyFloat.powHalf nan = nan := rfl
@[simp] theorem nreal_powHalfCplx :
    PyFloat.powHalfCplx (num x) = (num 0, num (Real.sqrt (-x))) := rfl
@[simp] theorem nreal_hypot :
    PyFloat.hypot (num x) (num y) = num (Real.sqrt (x ^ 2 + y ^ 2)) := rfl
@[simp] theorem nreal_hypot_nan (a : NReal) : PyFloat.hypot a nan = nan := by cases a <;> rfl
@[simp] theorem nreal_nan_hypot (a : NReal) : PyFloat.hypot nan a = nan := rfl
@[simp] theorem nreal_isNaN : PyFloat.isNaN (num x) = false := rfl
@[simp] theorem nreal_isNaN_nan : PyFloat.isNaN nan = true := rfl
@[simp] theorem nreal_le : PyFloat.le (num x) (num y) = true ↔ x ≤ y := by
  show @decide (x ≤ y) (Classical.propDecidable _) = true ↔ _
  rw [decide_eq_true_eq]
@[simp] theorem nreal_lt : PyFloat.lt (num x) (num y) = true ↔ x < y := by
  show @decide (x < y) (Classical.propDecidable _) = true ↔ _
  rw [decide_eq_true_eq]
@[simp] theorem nreal_le_nan (a : NReal) : PyFloat.le a nan = false := by cases a <;> rfl
@[simp] theorem nreal_nan_le (a : NReal) : PyFloat.le nan a = false := rfl
@[simp] theorem nreal_lt_nan (a : NReal) : PyFloat.lt a nan = false := by cases a <;> rfl
@[simp] theorem nreal_nan_lt (a : NReal) : PyFloat.lt nan a = false := rfl
@[simp] theorem nreal_dec (m e : Nat) : (PyFloat.dec m e : NReal) = num ((m : ℝ) / 10 ^ e) := rfl
@[simp] theorem nreal_zero : (PyFloat.zero : NReal) = num 0 := by simp [PyFloat.zero]
@[simp] theorem nreal_one : (PyFloat.one : NReal) = num 1 := by simp [PyFloat.one]
@[simp] theorem nreal_two : (PyFloat.two : NReal) = num 2 := by simp [PyFloat.two]
@[simp] theorem nreal_ofNat (n : Nat) : (PyFloat.ofNat n : NReal) = num n := by
  simp [PyFloat.ofNat]
@[simp] theorem nreal_square : PyFloat.square (num x) = num (x ^ 2) := by
  simp [PyFloat.square, pow_two]
end NRealLemmas

instance : IEEEOrder NReal where
  le_trans x y z := by
    cases x <;> cases y <;> cases z <;> simp
    exact le_trans
  le_total x y := by
    cases x <;> cases y <;> simp
    exact le_total _ _
  le_nan_left x y := by cases x <;> simp
  le_nan_right x y := by cases y <;> simp
  lt_iff x y := by
    cases x <;> cases y <;> simp
    rw [← Bool.not_eq_true, nreal_le, not_le]
  lt_nan_left x y := by cases x <;> simp
  lt_nan_right x y := by cases y <;> simp

instance : IEEENaN NReal where
  sub_nan_right x y := by cases y <;> simp
  sub_nan_left x y := by cases x <;> simp
  add_nan_left x y := by cases x <;> simp
  add_nan_right x y := by cases y <;> simp
  mul_nan_left x y := by cases x <;> simp
  mul_nan_right x y := by cases y <;> simp
  div_nan_left x y := by cases x <;> simp
  div_nan_right x y := by cases y <;> simp
  abs_nan x := by cases x <;> simp
  hypot_nan_left x y := by cases x <;> simp
  hypot_nan_right x y := by cases y <;> simp
  powHalf_neg x := by
    cases x with
    | nan => simp
    | num x => intro h; rw [nreal_powHalf_neg _ (by simpa using h)]; rfl
  powHalf_nan x := by cases x <;> simp

end Rfsed
