import Verif.Py.Numpy
import Verif.Py.Fft

/-!
# numpy / scipy signal functions on exact real numbers

Rounding is not modelled here.
-/

namespace Rfsed
open Classical in
/-- `np.max(x)` of a non-empty array. -/
noncomputable def npMax : List ℝ → ℝ
  | [] => 0
  | x :: xs => xs.foldl max x

/-- `np.arange(a, b)` for integers. -/
def arangeZ (a b : ℤ) : List ℤ := (List.range (b - a).toNat).map (fun i : Nat => a + (i : ℤ))

/-- `scipy.signal.detrend(x)` (type 'linear'): the residual of the least-squares line.
scipy calls `lstsq`; here the solution of the normal equations is written out
(`detrend_isDetrended` in `Proofs/Resonance.lean` shows that it is the least-squares
residual).  For one sample `lstsq` fits exactly and the slope below is `0/0 = 0`. -/
noncomputable def detrend (x : List ℝ) : List ℝ :=
  let n := x.length
  let xm := x.sum / n
  let tm := ((n : ℝ) - 1) / 2
  let b := (∑ i ∈ Finset.range n, ((i : ℝ) - tm) * x.getD i 0) /
    (∑ i ∈ Finset.range n, ((i : ℝ) - tm) ^ 2)
  (List.range n).map (fun i : Nat => x.getD i 0 - (xm + b * ((i : ℝ) - tm)))

/-- `np.correlate(a, v, mode='full')` of two arrays of equal length `n`: entry `i` is
`Σ_m a[m + i - (n-1)] v[m]`, `2n - 1` entries. -/
noncomputable def correlateFull (a v : List ℝ) : List ℝ :=
  let n := a.length
  (List.range (2 * n - 1)).map (fun i : Nat =>
    ∑ m ∈ Finset.range n, (if n - 1 ≤ m + i then a.getD (m + i - (n - 1)) 0 else 0) * v.getD m 0)

open Classical in
/-- inner loop of scipy's `_local_maxima_1d`:
`while i_ahead < i_max and x[i_ahead] == x[i]: i_ahead += 1`. -/
noncomputable def aheadGo (x : Nat → ℝ) (i iMax ia : Nat) : Nat :=
  if ia < iMax ∧ x ia = x i then aheadGo x i iMax (ia + 1) else ia
termination_by iMax - ia

theorem aheadGo_ge (x : Nat → ℝ) (i iMax : Nat) : ∀ ia, ia ≤ aheadGo x i iMax ia := by
  intro ia
  fun_induction aheadGo x i iMax ia with
  | case1 ia h ih => omega
  | case2 ia h => exact le_refl _

open Classical in
/-- outer loop of scipy's `_local_maxima_1d` (`scipy/signal/_peak_finding_utils.pyx`):
plateaus are reported by their midpoint, rounded down. -/
noncomputable def peaksGo (x : Nat → ℝ) (iMax i : Nat) : List Nat :=
  if _h : i < iMax then
    if x (i - 1) < x i then
      if x (aheadGo x i iMax (i + 1)) < x i then
        (i + (aheadGo x i iMax (i + 1) - 1)) / 2 :: peaksGo x iMax (aheadGo x i iMax (i + 1) + 1)
      else peaksGo x iMax (i + 1)
    else peaksGo x iMax (i + 1)
  else []
termination_by iMax - i
decreasing_by
  · have := aheadGo_ge x i iMax (i + 1); omega
  · omega
  · omega

/-- `find_peaks(x)[0]` without conditions. -/
noncomputable def findPeaks (x : List ℝ) : List Nat :=
  peaksGo (fun i => x.getD i 0) (x.length - 1) 1

end Rfsed
