import Verif.Py.Numpy
import Mathlib.Data.Int.Log
import Mathlib.Algebra.Order.Round

/-!
# Rounded arithmetic

A third number type for the models: real numbers whose sums, differences, products, quotients, square roots and
decimal literals are rounded by an arbitrary function that is accurate to a relative error `u` (the *standard model* of
floating-point arithmetic).  IEEE doubles behave like this with `u = 2⁻⁵³` as long as no operation overflows or
underflows; `Rounding.binary` is rounding to nearest with a given number of binary digits and unlimited exponent.
There is no NaN and no infinity: theorems that use this type exclude division by zero and negative roots.
-/

namespace Rfsed

/-- a rounding function with relative error at most `u` that leaves 0, 1 and 2 alone -/
structure Rounding where
  fl : ℝ → ℝ
  u : ℝ
  u_nonneg : 0 ≤ u
  err : ∀ x, |fl x - x| ≤ u * |x|
  fl_one : fl 1 = 1
  fl_two : fl 2 = 2

/-- a number of the rounded arithmetic -/
structure FL (R : Rounding) where
  val : ℝ

/-- every operation is the exact one followed by rounding; `abs`, negation and comparisons are exact -/
noncomputable instance instPyFloatFL (R : Rounding) : PyFloat (FL R) where
  add x y := ⟨R.fl (x.val + y.val)⟩
  sub x y := ⟨R.fl (x.val - y.val)⟩
  mul x y := ⟨R.fl (x.val * y.val)⟩
  div x y := ⟨R.fl (x.val / y.val)⟩
  neg x := ⟨-x.val⟩
  dec m e := ⟨R.fl ((m : ℝ) / (10 : ℝ) ^ e)⟩
  abs x := ⟨|x.val|⟩
  powHalf x := ⟨R.fl (Real.sqrt x.val)⟩
  powHalfCplx x := (⟨0⟩, ⟨R.fl (Real.sqrt (-x.val))⟩)
  hypot x y := ⟨R.fl (Real.sqrt (x.val ^ 2 + y.val ^ 2))⟩
  isNaN _ := false
  le x y := @decide (x.val ≤ y.val) (Classical.propDecidable _)
  lt x y := @decide (x.val < y.val) (Classical.propDecidable _)

namespace FL
variable {R : Rounding}
@[simp] theorem val_add (x y : FL R) : (x + y).val = R.fl (x.val + y.val) := rfl
@[simp] theorem val_sub (x y : FL R) : (x - y).val = R.fl (x.val - y.val) := rfl
@[simp] theorem val_mul (x y : FL R) : (x * y).val = R.fl (x.val * y.val) := rfl
@[simp] theorem val_div (x y : FL R) : (x / y).val = R.fl (x.val / y.val) := rfl
@[simp] theorem val_abs (x : FL R) : (PyFloat.abs x).val = |x.val| := rfl
@[simp] theorem val_powHalf (x : FL R) : (PyFloat.powHalf x).val = R.fl (Real.sqrt x.val) := rfl
@[simp] theorem val_dec (m e : Nat) : (PyFloat.dec m e : FL R).val = R.fl ((m : ℝ) / 10 ^ e) := rfl
@[simp] theorem isNaN_eq (x : FL R) : PyFloat.isNaN x = false := rfl
@[simp] theorem le_iff (x y : FL R) : PyFloat.le x y = true ↔ x.val ≤ y.val := by simp [PyFloat.le]
@[simp] theorem lt_iff (x y : FL R) : PyFloat.lt x y = true ↔ x.val < y.val := by simp [PyFloat.lt]
@[simp] theorem le_false (x y : FL R) : PyFloat.le x y = false ↔ y.val < x.val := by simp [PyFloat.le]
@[simp] theorem lt_false (x y : FL R) : PyFloat.lt x y = false ↔ y.val ≤ x.val := by simp [PyFloat.lt]
theorem ext' {x y : FL R} (h : x.val = y.val) : x = y := by cases x; cases y; cases h; rfl
end FL

theorem Rounding.fl_zero (R : Rounding) : R.fl 0 = 0 := by
  have := R.err 0
  simpa using this

namespace FL
variable {R : Rounding}
@[simp] theorem val_zero : (PyFloat.zero : FL R).val = 0 := by
  simp [PyFloat.zero, R.fl_zero]
@[simp] theorem val_one : (PyFloat.one : FL R).val = 1 := by
  simp [PyFloat.one, R.fl_one]
@[simp] theorem val_two : (PyFloat.two : FL R).val = 2 := by
  simp [PyFloat.two, R.fl_two]
end FL

/-- comparisons of rounded numbers obey the laws of IEEE comparisons, so every structural theorem about the models
holds for this number type too -/
instance (R : Rounding) : IEEEOrder (FL R) where
  le_trans x y z := by simpa using le_trans
  le_total x y _ _ := by simpa using le_total x.val y.val
  le_nan_left x y h := by simp at h
  le_nan_right x y h := by simp at h
  lt_iff x y _ _ := by simp
  lt_nan_left x y h := by simp at h
  lt_nan_right x y h := by simp at h

/-- exact arithmetic is a rounding -/
noncomputable def Rounding.exact : Rounding where
  fl := id
  u := 0
  u_nonneg := le_rfl
  err x := by simp
  fl_one := rfl
  fl_two := rfl

/-- Rounding to nearest with `p + 1` binary digits (ties upwards), exponents unlimited; `p = 52` is the precision of a
double. -/
noncomputable def Rounding.binary (p : Nat) : Rounding where
  fl x := (round (x / (2 : ℝ) ^ (Int.log 2 |x| - p)) : ℝ) * (2 : ℝ) ^ (Int.log 2 |x| - p)
  u := (2 : ℝ)⁻¹ ^ (p + 1)
  u_nonneg := by positivity
  err x := by
    rcases eq_or_ne x 0 with rfl | hx
    · simp
    · have hpos : (0 : ℝ) < (2 : ℝ) ^ (Int.log 2 |x| - p) := zpow_pos (by norm_num) _
      set s := (2 : ℝ) ^ (Int.log 2 |x| - p) with hs
      have h1 := abs_sub_round (x / s)
      have h2 : (round (x / s) : ℝ) * s - x = -(x / s - round (x / s)) * s := by
        field_simp; ring
      have h3 : (2 : ℝ) ^ Int.log 2 |x| ≤ |x| := by
        simpa using Int.zpow_log_le_self (b := 2) (by norm_num) (abs_pos.2 hx)
      have h4 : s = (2 : ℝ) ^ Int.log 2 |x| * (2 : ℝ)⁻¹ ^ p := by
        rw [hs, zpow_sub₀ (by norm_num), zpow_natCast, inv_pow, div_eq_mul_inv]
      rw [h2, abs_mul, abs_neg, abs_of_pos hpos]
      calc |x / s - round (x / s)| * s ≤ 1 / 2 * s := by gcongr
        _ = (2 : ℝ)⁻¹ ^ (p + 1) * (2 : ℝ) ^ Int.log 2 |x| := by rw [h4, pow_succ]; ring
        _ ≤ (2 : ℝ)⁻¹ ^ (p + 1) * |x| := by gcongr
  fl_one := by
    have : Int.log 2 |(1 : ℝ)| = 0 := by simp
    rw [this]
    have e : (1 : ℝ) / (2 : ℝ) ^ ((0 : ℤ) - p) = ((2 ^ p : ℤ) : ℝ) := by
      rw [zero_sub, zpow_neg, zpow_natCast]; simp
    rw [e, round_intCast, zero_sub, zpow_neg, zpow_natCast]
    push_cast
    exact mul_inv_cancel₀ (by positivity)
  fl_two := by
    have : Int.log 2 |(2 : ℝ)| = 1 := by
      rw [abs_of_pos (by norm_num)]
      have := Int.log_zpow (R := ℝ) (b := 2) (by norm_num) 1
      simpa using this
    rw [this]
    have e : (2 : ℝ) / (2 : ℝ) ^ ((1 : ℤ) - p) = ((2 ^ p : ℤ) : ℝ) := by
      rw [zpow_sub₀ (by norm_num), zpow_natCast]; simp
    rw [e, round_intCast, zpow_sub₀ (by norm_num), zpow_natCast, zpow_one]
    push_cast
    field_simp

end Rfsed
