import Mathlib.Analysis.SpecialFunctions.Complex.Circle
import Mathlib.Algebra.BigOperators.Group.Finset.Basic
import Mathlib.Algebra.BigOperators.Intervals

/-!
# `numpy.fft` on exact numbers

`fft(x, n)` and `ifft(X, n)` of `numpy.fft` by their definition.  The input is cut or
padded with zeros to `n` entries, which is what `getD _ 0` does.  Rounding is not
modelled.
-/

namespace Rfsed

/-- the root of unity `e^{2πi a/n}` -/
noncomputable def W (n : Nat) (a : ℤ) : ℂ :=
  Complex.exp (2 * Real.pi * Complex.I * a / n)

/-- `np.fft.fft(x, n)`: `X[k] = Σ_{j<n} x[j] e^{-2πi jk/n}`. -/
noncomputable def fft (x : List ℂ) (n : Nat) : List ℂ :=
  (List.range n).map (fun k : Nat => ∑ j ∈ Finset.range n, x.getD j 0 * W n (-(j * k)))

/-- `np.fft.ifft(X, n)`: `x[m] = (1/n) Σ_{k<n} X[k] e^{2πi mk/n}`. -/
noncomputable def ifft (X : List ℂ) (n : Nat) : List ℂ :=
  (List.range n).map (fun m : Nat => (∑ k ∈ Finset.range n, X.getD k 0 * W n (m * k)) / n)

/-- element-wise product of two arrays of equal length -/
noncomputable def vmul {R : Type} [Mul R] (x y : List R) : List R := List.zipWith (· * ·) x y

/-- real array as complex array -/
noncomputable def toC (x : List ℝ) : List ℂ := x.map Complex.ofReal

/-- `np.real` -/
noncomputable def toRe (x : List ℂ) : List ℝ := x.map Complex.re

end Rfsed
