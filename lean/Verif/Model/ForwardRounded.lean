import Verif.Py.Arith
import Verif.Model.SynrfForward
import Verif.Spec.Elastic

/-!
# The forward modelling of `/repo/src/rfsed/synrf.py` in inexact arithmetic

`e_inverse`, `propagator_sol` and `haskell` as formulas, operation by operation as the code writes them (`Py/Arith.lean`
gives them their exact and their inexact values); `np.fft`'s inverse transform is one step.
-/

namespace Rfsed.Synrf
open Rfsed.Spec Finset

/-- 4×4 arrays of formulas -/
abbrev Arr4 := Fin 4 → Fin 4 → CE

/-- `np.matmul(a, b)` -/
def matmulE (a b : Arr4) : Arr4 := fun i j => .dot (fun k => a i k) (fun k => b k j)

/-- `e_inverse`, synrf.py:352-379 -/
noncomputable def eInverseE (omega rho alpha beta p : RE) : Arr4 :=
  let one : RE := .c 1
  let two : RE := .c 2
  let eta := RE.sqrt (one / (beta * beta) - p * p)
  let xi := RE.sqrt (one / (alpha * alpha) - p * p)
  let bp := one - two * beta * beta * p * p
  let e00 := CE.re (beta * beta * p / alpha)
  let e01 := CE.re (bp / (two * alpha * xi))
  let e02 := CE.im (-p / (two * omega * rho * alpha * xi))
  let e03 := CE.im (.c (-1) / (two * omega * rho * alpha))
  let e10 := CE.re (bp / (two * beta * eta))
  let e11 := CE.re (-beta * p)
  let e12 := CE.im (.c (-1) / (two * omega * rho * beta))
  let e13 := CE.im (p / (two * omega * rho * beta * eta))
  ![![e00, e01, e02, e03],
    ![e10, e11, e12, e13],
    ![e00, -e01, -e02, e03],
    ![e10, -e11, -e12, e13]]

/-- `propagator_sol`, synrf.py:382-416 -/
noncomputable def propagatorSolE (omega rho alpha beta p z : RE) : Arr4 :=
  let one : RE := .c 1
  let two : RE := .c 2
  let beta2 := beta * beta
  let p2 := p * p
  let bp := one - two * beta2 * p2
  let eta := RE.sqrt (one / beta2 - p2)
  let xi := RE.sqrt (one / (alpha * alpha) - p2)
  let cos_xi := RE.cos (omega * xi * z)
  let cos_eta := RE.cos (omega * eta * z)
  let sin_xi := RE.sin (omega * xi * z)
  let sin_eta := RE.sin (omega * eta * z)
  let p00 := CE.re (two * beta2 * p2 * cos_xi + bp * cos_eta)
  let p01 := CE.im (p * (bp / xi * sin_xi - two * beta2 * eta * sin_eta))
  let p02 := CE.re ((p2 / xi * sin_xi + eta * sin_eta) / (omega * rho))
  let p03 := CE.im (p * (-cos_xi + cos_eta) / (omega * rho))
  let p10 := CE.im (p * (two * beta2 * xi * sin_xi - bp / eta * sin_eta))
  let p11 := CE.re (bp * cos_xi + two * beta2 * p2 * cos_eta)
  let p12 := p03
  let p13 := CE.re ((xi * sin_xi + p2 / eta * sin_eta) / (omega * rho))
  let p20 := CE.re (omega * rho * (.c (-4) * beta2 * beta2 * p2 * xi * sin_xi - bp * bp / eta * sin_eta))
  let p21 := CE.im (two * omega * beta2 * rho * p * bp * (cos_xi - cos_eta))
  let p31 := CE.re (-omega * rho * (bp * bp / xi * sin_xi + .c 4 * beta2 * beta2 * p2 * eta * sin_eta))
  ![![p00, p01, p02, p03],
    ![p10, p11, p12, p13],
    ![p20, p21, p00, p10],
    ![p21, p31, p01, p11]]

/-- `e_inverse` of a layer -/
noncomputable def eInvOf (omega : RE) (p : ℝ) (l : Layer) : Arr4 :=
  eInverseE omega (.c l.ρ) (.c l.α) (.c l.β) (.c p)

/-- `propagator_sol` of a layer -/
noncomputable def propOf (omega : RE) (p : ℝ) (l : Layer) : Arr4 :=
  propagatorSolE omega (.c l.ρ) (.c l.α) (.c l.β) (.c p) (.c l.h)

/-- `sl`, synrf.py:420-429, for the layers `l :: rest` -/
noncomputable def slE (omega : RE) (p : ℝ) (l : Layer) (rest : List Layer) : Arr4 :=
  let e_inv := eInvOf omega p ((l :: rest).getLast (by simp))
  let p_mat := rest.foldl (fun p_mat k => matmulE (propOf omega p k) p_mat) (propOf omega p l)
  if rest = [] then e_inv else matmulE e_inv p_mat

/-- `haskell`, synrf.py:430-437: the formulas for `ur` and `uz` -/
noncomputable def haskellE (omega : RE) (p : ℝ) (ipha : ℤ) (l : Layer) (rest : List Layer) : CE × CE :=
  let sl := slE omega p l rest
  let denom := sl 2 0 * sl 3 1 - sl 2 1 * sl 3 0
  if 0 ≤ ipha then (sl 3 1 / denom, -sl 3 0 / denom) else (-sl 2 1 / denom, sl 2 0 / denom)

/-- `2*np.pi * i / (npts_max * dt)`, synrf.py:446 -/
noncomputable def omgE (n : Nat) (dt : ℝ) (i : Nat) : RE :=
  .c 2 * .c Real.pi * .c i / (.c n * .c dt)

/-- synrf.py:448 in exact arithmetic: the samples that belong to the spectrum with entries `u` in the bins
`1 … n/2` and zero elsewhere -/
noncomputable def samplesOf (n npts : Nat) (u : Nat → ℂ) : List ℝ :=
  ((toRe (ifft ((List.range n).map (fun i : Nat => if 1 ≤ i ∧ i ≤ n / 2 then u i else 0)) n)).reverse.map
    (fun x : ℝ => x / n)).take npts

/-- A run of `fwd_seis` (synrf.py:439-452) on the layers `l :: rest` in arithmetic of relative accuracy `ε` that returned
`ur` and `uz`; `none`: an array with entries that are not numbers.  The inverse transforms (lines 448-449) are one step
each, accurate relative to the sum of the moduli of the spectrum; if the spectrum has an entry that is not a number,
nothing is assumed of their result. -/
structure FwdRun (ε p dt : ℝ) (npts : Nat) (ipha : ℤ) (l : Layer) (rest : List Layer) (ur uz : Option (List ℝ)) where
  ur_freq : Nat → Option ℂ
  uz_freq : Nat → Option ℂ
  ur_freq_run : ∀ i, 1 ≤ i → i ≤ nextPow2 npts / 2 →
    (haskellE (omgE (nextPow2 npts) dt i) p ipha l rest).1.Rnd ε (ur_freq i)
  uz_freq_run : ∀ i, 1 ≤ i → i ≤ nextPow2 npts / 2 →
    (haskellE (omgE (nextPow2 npts) dt i) p ipha l rest).2.Rnd ε (uz_freq i)
  ur_near : ∀ u : Nat → ℂ, (∀ i, 1 ≤ i → i ≤ nextPow2 npts / 2 → ur_freq i = some (u i)) →
    ∃ x, ur = some x ∧ x.length = npts ∧ ∀ j < npts,
      |x.getD j 0 - (samplesOf (nextPow2 npts) npts u).getD j 0| ≤ ε * ∑ i ∈ Icc 1 (nextPow2 npts / 2), ‖u i‖
  uz_near : ∀ u : Nat → ℂ, (∀ i, 1 ≤ i → i ≤ nextPow2 npts / 2 → uz_freq i = some (u i)) →
    ∃ x, uz = some x ∧ x.length = npts ∧ ∀ j < npts,
      |x.getD j 0 - -(samplesOf (nextPow2 npts) npts u).getD j 0| ≤ ε * ∑ i ∈ Icc 1 (nextPow2 npts / 2), ‖u i‖

end Rfsed.Synrf
