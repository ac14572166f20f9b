import Verif.Spec.Deconv
import Verif.Py.Array

/-!
# `deconv_waterlevel` in inexact arithmetic

`/repo/src/rfsed/synrf.py:212-294` as a relation: every array the code computes is within a relative
tolerance `ε` of the exact result of its line applied to the *computed* operands.  For IEEE doubles `ε`
is a small multiple of 2⁻⁵³ for the element-wise lines and, for `np.fft`, the constant of the usual error bound for the
fast Fourier transform; `np.fft` itself is a library and its algorithm is not modelled.
-/

namespace Rfsed.Synrf
open Finset Rfsed.Spec

open Classical in
/-- Line 264: values whose real part is below the level are replaced by it; nothing is rounded. -/
noncomputable def clipC (φ : ℝ) (z : ℂ) : ℂ := if z.re < φ then (φ : ℂ) else z

/-- A run of `deconv_waterlevel`, synrf.py:212-294, in arithmetic of tolerance `ε`, that returned the receiver function
`rft`; `n` is the FFT length of line 242, `dt ≠ 0`.  The fields are the arrays and numbers of the code in the order of
their computation.  Simplified: the misfit `rms` is left out; the frequencies of lines 244-247 enter through the
factors computed from them (`gaussF`, `rffS`). -/
structure WaterRun (ε : ℝ) (uin win : List ℝ) (dt preonset wlevel a : ℝ) (normalize : Bool) (rft : List ℝ) where
  /-- line 254 -/
  uf : Nat → ℂ
  /-- line 255 -/
  wf : Nat → ℂ
  /-- line 258 -/
  df : Nat → ℂ
  /-- line 259 -/
  dmax : ℝ
  /-- line 262 -/
  phi1 : ℝ
  /-- line 265 -/
  gaussF : Nat → ℝ
  /-- line 266 -/
  nf : Nat → ℂ
  /-- line 269 -/
  rff : Nat → ℂ
  /-- line 276 -/
  rffS : Nat → ℂ
  /-- lines 279-280 -/
  raw : Nat → ℝ
  uf_near : ∀ k < nextPow2 uin.length,
    ‖uf k - traceSpectrum (nextPow2 uin.length) uin k‖ ≤ ε * ∑ j ∈ range uin.length, |smp uin j|
  wf_near : ∀ k < nextPow2 uin.length,
    ‖wf k - traceSpectrum (nextPow2 uin.length) win k‖ ≤ ε * ∑ j ∈ range uin.length, |smp win j|
  df_near : ∀ k < nextPow2 uin.length, ‖df k - wf k * (starRingEnd ℂ) (wf k)‖ ≤ ε * ‖wf k‖ ^ 2
  dmax_max : (∃ k < nextPow2 uin.length, dmax = (df k).re) ∧ ∀ k < nextPow2 uin.length, (df k).re ≤ dmax
  phi_near : |phi1 - wlevel * dmax| ≤ ε * |wlevel * dmax|
  gauss_near : ∀ k < nextPow2 uin.length, |gaussF k - gaussResponse dt (nextPow2 uin.length) a k / dt| ≤ ε / |dt|
  nf_near : ∀ k < nextPow2 uin.length,
    ‖nf k - gaussF k * uf k * (starRingEnd ℂ) (wf k)‖ ≤ ε * ‖gaussF k * uf k * (starRingEnd ℂ) (wf k)‖
  rff_near : ∀ k < nextPow2 uin.length,
    ‖rff k - nf k / clipC phi1 (df k)‖ ≤ ε * ‖nf k / clipC phi1 (df k)‖
  shift_near : ∀ k < nextPow2 uin.length,
    ‖rffS k - rff k * Complex.exp (-Complex.I * (omega dt (nextPow2 uin.length) k * preonset : ℝ))‖ ≤ ε * ‖rff k‖
  raw_near : ∀ m < uin.length, |raw m - (idft (nextPow2 uin.length) rffS m).re| ≤
    ε * ((∑ k ∈ range (nextPow2 uin.length), ‖rffS k‖) / nextPow2 uin.length)
  rft_length : rft.length = uin.length
  /-- lines 290-292: `gnorm = Σ gaussF · delf · dt`, where `delf · dt = 1/n` -/
  rft_near : if normalize then
      ∃ gnorm, |gnorm - (∑ k ∈ range (nextPow2 uin.length), gaussF k) / nextPow2 uin.length| ≤
          ε * |(∑ k ∈ range (nextPow2 uin.length), gaussF k) / nextPow2 uin.length| ∧
        ∀ m < uin.length, |smp rft m - raw m / gnorm| ≤ ε * |raw m / gnorm|
    else ∀ m < uin.length, smp rft m = raw m

end Rfsed.Synrf
