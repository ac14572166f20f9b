import Verif.Model.ForwardRounded
import Verif.Model.WaterRounded

/-!
# A synthetic receiver function in inexact arithmetic

The chain `run_fwd` → filters → `run_deconvolution` of `/repo/src/rfsed/synrf.py` for one slowness.
-/

namespace Rfsed.Synrf
open Rfsed.Spec Finset

/-- A filter applied in inexact arithmetic (`filter`, synrf.py:535-555; obspy's `bandpass` is a library, `pass` stands for
what all passes together return in exact arithmetic): the samples obtained differ from the filtered samples by at most `ε` times the
sum of the moduli of the samples. -/
def PassRun (pass : List ℝ → List ℝ) (ε : ℝ) (x y : List ℝ) : Prop :=
  y.length = (pass x).length ∧ ∀ j < y.length, |smp y j - smp (pass x) j| ≤ ε * ∑ k ∈ range x.length, |smp x k|

/-- synrf.py:513-533 and 557-581.  One receiver function computed in inexact arithmetic for the slowness `p`: the synthetics, the filters, the
deconvolution.  If the synthetics are not numbers, nothing is assumed of the result. -/
def SynthRun (ε p dt : ℝ) (npts : Nat) (ipha : ℤ) (l : Layer) (rest : List Layer) (pass : List ℝ → List ℝ)
    (preonset wlevel a : ℝ) (normalize : Bool) (out : List ℝ) : Prop :=
  ∃ ur uz, Nonempty (FwdRun ε p dt npts ipha l rest ur uz) ∧
    ∀ x y, ur = some x → uz = some y → ∃ x' y', PassRun pass ε x x' ∧ PassRun pass ε y y' ∧
      Nonempty (WaterRun ε x' y' dt preonset wlevel a normalize out)

end Rfsed.Synrf
