import Mathlib.Algebra.Order.Archimedean.Real.Basic
import Mathlib.Algebra.BigOperators.Group.Finset.Basic
import Mathlib.Data.Complex.Basic
import Mathlib.Analysis.SpecialFunctions.Trigonometric.Basic

/-!
# Specification vocabulary for the resonance filter
(no reference to the model)
-/

namespace Rfsed.Spec
open Finset

/-- `d` is `x` without its least-squares straight line: `x - d` is affine in the sample
number, and `d` is orthogonal to the constant and to the sample number (the normal
equations). -/
def IsDetrended (x d : List ℝ) : Prop :=
  d.length = x.length ∧
  (∃ a b : ℝ, ∀ i < x.length, x.getD i 0 - d.getD i 0 = a + b * (i : ℝ)) ∧
  ∑ i ∈ range x.length, d.getD i 0 = 0 ∧
  ∑ i ∈ range x.length, (i : ℝ) * d.getD i 0 = 0

/-- autocorrelation at lag `k` (not normalised): `Σ_m d[m+k] d[m]` -/
noncomputable def autocorr (d : List ℝ) (k : Nat) : ℝ :=
  ∑ m ∈ range (d.length - k), d.getD (m + k) 0 * d.getD m 0

/-- `d[j mod n]` for any integer `j`: the record continued periodically -/
def periodic (d : List ℝ) (j : ℤ) : ℝ := d.getD (j % (d.length : ℤ)).toNat 0

/-- Samples `s, …, e` form an interior trough (flat bottom allowed) of `a`: all equal, at
least one sample away from both ends, and both neighbours are strictly higher. -/
def Trough (a : List ℝ) (s e : Nat) : Prop :=
  1 ≤ s ∧ s ≤ e ∧ e + 1 < a.length ∧ (∀ j, s ≤ j → j ≤ e → a.getD j 0 = a.getD s 0) ∧
  a.getD s 0 < a.getD (s - 1) 0 ∧ a.getD s 0 < a.getD (e + 1) 0

/-- the first (leftmost) trough -/
def FirstTrough (a : List ℝ) (s e : Nat) : Prop :=
  Trough a s e ∧ ∀ s' e', Trough a s' e' → s ≤ s'

/-- frequency of entry `k` of an `n`-point FFT with sampling interval `dt`:
`k/(n dt)` in the first half, `(k-n)/(n dt)` in the second -/
noncomputable def fftFreq (n : Nat) (dt : ℝ) (k : Nat) : ℝ :=
  if k ≤ n / 2 then (k : ℝ) / (n * dt) else ((k : ℝ) - n) / (n * dt)

end Rfsed.Spec
