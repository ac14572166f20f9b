import Verif.Spec.Norm
import Verif.Spec.Resonance

/-!
# `ResonanceFilt` in inexact arithmetic

`/repo/src/rfsed/ReverbFilter.py:104-139` (and `SynthAnalysis.py:462-497`, the same text) as a relation: every array the
code computes is within a tolerance `ε`, relative to the size of its operands, of the exact result of its line applied to
the *computed* operands.  `detrend`, `np.correlate`, `np.fft` are library routines; their algorithms are not modelled.
-/

namespace Rfsed.ReverbFilter
open Finset Rfsed.Spec

/-- A run of `ResonanceFilt` on the stacked record `x` with sampling interval `dt`, in arithmetic of tolerance `ε`, that
returned `autoc = ac`, `r`, `tlag` and `filteredrf = out` (ReverbFilter.py:104-139, SynthAnalysis.py:462-497).
Comparisons, negation, `np.abs` and `np.max` are exact.  Counted as one line each: lines 114-115 (mean and trend) and
line 133 (transform, product, inverse transform). -/
structure ResonanceRun (ε : ℝ) (x : List ℝ) (dt : ℝ) (ac : List ℝ) (r tlag : ℝ) (out : List ℝ) where
  /-- lines 114-115 -/
  D : Nat → ℝ
  /-- line 118, by lag -/
  acr : ℤ → ℝ
  /-- `np.max(ac)`, line 119 -/
  acmax : ℝ
  /-- lines 105-111 -/
  w : Nat → ℝ
  /-- line 132 -/
  flt : Nat → ℂ
  D_near : ∀ d, IsDetrended x d → size x.length (fun m => D m - d.getD m 0) ≤ ε * size x.length (smp x)
  acr_near : ∀ k : ℤ, k.natAbs < x.length →
    |acr k - ∑ m ∈ range (x.length - k.natAbs), D (m + k.natAbs) * D m| ≤ ε * energy x.length D
  acmax_max : (∃ k : ℤ, k.natAbs < x.length ∧ acmax = acr k) ∧ ∀ k : ℤ, k.natAbs < x.length → acr k ≤ acmax
  ac_length : ac.length = x.length
  /-- lines 119-120 -/
  ac_near : ∀ k < x.length, |ac.getD k 0 - acr k / acmax| ≤ ε * |acr k / acmax|
  /-- lines 122-130 -/
  pick : ((∀ s e, ¬ Trough ac s e) ∧ r = 0 ∧ tlag = 0) ∨
    ∃ s e L : Nat, FirstTrough ac s e ∧ L = (s + e) / 2 ∧ r = |ac.getD L 0| ∧ |tlag - L * dt| ≤ ε * |L * dt|
  w_near : ∀ k < x.length,
    |w k - 2 * Real.pi * fftFreq x.length dt k| ≤ ε * |2 * Real.pi * fftFreq x.length dt k|
  /-- line 132: the product `w * tlag` is rounded before the exponential -/
  flt_near : ∀ k < x.length, ‖flt k - (1 + r * Complex.exp (-Complex.I * (w k * tlag : ℝ)))‖ ≤
    ε * (1 + r + r * |w k * tlag|)
  out_length : out.length = x.length
  /-- line 133: relative to the size of the record times the largest amplification -/
  out_near : ∀ C, (∀ k < x.length, ‖flt k‖ ≤ C) →
    size x.length (fun m => out.getD m 0 - (idft x.length (fun k => dft x.length (fun j => (D j : ℂ)) k * flt k) m).re) ≤
      ε * (C * size x.length D)

end Rfsed.ReverbFilter
