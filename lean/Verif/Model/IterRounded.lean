import Verif.Spec.Norm
import Verif.Py.Array

/-!
# `deconv_iterative` in inexact arithmetic

`/repo/src/rfsed/synrf.py:113-209` as a relation: every array the code computes is within a tolerance `ε`,
relative to the size of its operands, of the exact result of its line applied to the *computed* operands.
The two calls of `gfilter` of lines 192-193 count as one line.  `np.fft` is a library; its algorithm is not modelled.
-/

namespace Rfsed.Synrf
open Finset Rfsed.Spec

/-- A run of `deconv_iterative(uin, win, dt, gaussian=a, itmax, minderr, phase)` (synrf.py:113-202, `nt` not given) in
arithmetic of tolerance `ε` that made `k` passes and stored `rms 0, …, rms (k-1)`.  `n` is the FFT length.  Left out:
the last filter and the shift of the spike train (lines 204-206); for these see
`Model/IterOutRounded.lean`. -/
structure IterRun (ε : ℝ) (uin win : List ℝ) (dt a : ℝ) (itmax : Nat) (minderr : ℝ) (phase : String) (n k : Nat)
    (P : Nat → List ℝ) (rms : Nat → ℝ) where
  /-- line 167 -/
  u_flt : Nat → ℝ
  /-- line 168 -/
  w_flt : Nat → ℝ
  /-- line 173 -/
  powerU : ℝ
  /-- `np.sum(w_flt ** 2)`, line 183 -/
  powerW : ℝ
  /-- `r_flt` before pass `j`: lines 171, 195 -/
  r : Nat → Nat → ℝ
  /-- line 183 in pass `j` -/
  rw : Nat → Nat → ℝ
  /-- lines 185-188 in pass `j` -/
  i1 : Nat → Nat
  /-- the new value of `p0[i1]`, lines 189-191 in pass `j` -/
  v : Nat → ℝ
  /-- line 193 in pass `j` -/
  p_flt : Nat → Nat → ℝ
  /-- `d_error` before pass `j`: lines 177, 198 -/
  d_error : Nat → ℝ
  fft_length : n = nextPow2 uin.length
  u_near : size n (fun m => u_flt m - lowpass n dt a uin m) ≤ ε * size n (smp uin)
  w_near : size n (fun m => w_flt m - lowpass n dt a win m) ≤ ε * size n (smp win)
  powerU_near : |powerU - energy n u_flt| ≤ ε * energy n u_flt
  powerW_near : |powerW - energy n w_flt| ≤ ε * energy n w_flt
  p_start : P 0 = List.replicate n 0
  r_start : ∀ m < n, r 0 m = u_flt m
  rw_near : ∀ j < k, ∀ i < n, |rw j i - (∑ m ∈ range n, w_flt m * r j (cyc n (i + m))) / powerW| ≤
    ε * (size n (r j) * size n w_flt / powerW)
  i1_max : ∀ j < k, Lag n phase (i1 j) ∧ ∀ i, Lag n phase i → |rw j i| ≤ |rw j (i1 j)|
  spike : ∀ j < k, P (j + 1) = (P j).set (i1 j) (v j)
  v_near : ∀ j < k, |v j - (smp (P j) (i1 j) + rw j (i1 j) / dt)| ≤ ε * (|smp (P j) (i1 j)| + |rw j (i1 j) / dt|)
  p_near : ∀ j < k, size n (fun m => p_flt j m - dt * cconv n (smp (P (j + 1))) (lowpass n dt a win) m) ≤
    ε * (|dt| * (∑ m ∈ range n, |smp win m|) * size n (smp (P (j + 1))))
  r_near : ∀ j < k, ∀ m < n, |r (j + 1) m - (u_flt m - p_flt j m)| ≤ ε * |u_flt m - p_flt j m|
  rms_near : ∀ j < k, |rms j - energy n (r (j + 1)) / powerU| ≤ ε * (energy n (r (j + 1)) / powerU)
  d_start : |d_error 0 - (100 * powerU + minderr)| ≤ ε * |100 * powerU + minderr|
  d_near : ∀ j < k, |d_error (j + 1) - 100 * ((if j = 0 then 1 else rms (j - 1)) - rms j)| ≤
    ε * |100 * ((if j = 0 then 1 else rms (j - 1)) - rms j)|
  /-- line 181 -/
  go : ∀ j < k, minderr < |d_error j|
  /-- line 181 -/
  stop : k ≤ itmax ∧ (k = itmax ∨ |d_error k| ≤ minderr)

end Rfsed.Synrf
