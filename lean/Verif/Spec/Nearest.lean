import Verif.Py.Rounded

/-!
# Specification vocabulary: rounding to nearest

Binary floating-point numbers with `p + 1` binary digits and unlimited exponent (`p = 52`: doubles).  Nothing is said
about ties, so rounding half to even, half up and half away from zero are all covered.
-/

namespace Rfsed.Spec

/-- a floating-point number: an integer of at most `p + 1` binary digits times a power of two -/
def Representable (p : ℕ) (y : ℝ) : Prop := ∃ m e : ℤ, |m| < 2 ^ (p + 1) ∧ y = (m : ℝ) * (2 : ℝ) ^ e

/-- the result of every operation is a floating-point number, and none is nearer to the exact result -/
structure Nearest (R : Rounding) (p : ℕ) : Prop where
  rep : ∀ x, Representable p (R.fl x)
  best : ∀ x y, Representable p y → |R.fl x - x| ≤ |y - x|

/-- `delta` is the sampling interval of `f` samples per second, up to an error that rounding to nearest leaves for the
usual sampling rates (see `c122_usual_rates`) -/
def SamplesPerSecond (p : ℕ) (delta : ℝ) (f : ℕ) : Prop :=
  0 < f ∧ -(1 / 2 ^ (p + 2)) < delta * f - 1 ∧ delta * f - 1 ≤ 1 / 2 ^ (p + 2)

end Rfsed.Spec
