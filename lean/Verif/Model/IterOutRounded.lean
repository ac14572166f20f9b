import Verif.Model.Deconv
import Verif.Model.IterRounded
import Verif.Model.SynthRounded

/-!
# The receiver functions of `deconv_iterative` in inexact arithmetic
-/

namespace Rfsed.Synrf
open Finset Rfsed.Spec

/-- What `deconv_iterative(uin, win, dt, None, preonset, a, itmax, minderr, phase)` (synrf.py:113-209) can return in
arithmetic of tolerance `ε`: the receiver function `out`, the number of passes `k`, and the misfits `rms 0, …, rms (k-2)`
(line 207 drops the last one that was stored).  The passes are those of `IterRun`; `p_flt` is line 204, and lines 205-206
shift it and cut it: `phaseshift` divides by a cosine, by which its errors are divided as well. -/
def IterOut (ε : ℝ) (uin win : List ℝ) (dt preonset a : ℝ) (itmax : Nat) (minderr : ℝ) (phase : String) (out : List ℝ)
    (k : Nat) (rms : Nat → ℝ) : Prop :=
  ∃ (n : Nat) (P : Nat → List ℝ) (p_flt : List ℝ), Nonempty (IterRun ε uin win dt a itmax minderr phase n k P rms) ∧
    size n (fun m => smp p_flt m - cconv n (smp (P k)) (gaussPulse dt n a) m) ≤ ε * size n (smp (P k)) ∧
    out.length = uin.length ∧ ∀ m < uin.length, |smp out m - smp (phaseshift p_flt n dt preonset) m| ≤
      ε * (size n (smp p_flt) / |Real.cos (2 * Real.pi * (pyInt (preonset / dt) : ℝ) / n)|)

/-- synrf.py:513-533 and 557-581.  One receiver function computed in inexact arithmetic for the slowness `p` with the default
method of `run_deconvolution`: the synthetics, the filters, the iterative deconvolution, which made `k` passes.  If the synthetics are not numbers,
nothing is assumed of the result. -/
def SynthIterRun (ε p dt : ℝ) (npts : Nat) (ipha : ℤ) (l : Layer) (rest : List Layer) (pass : List ℝ → List ℝ)
    (preonset a : ℝ) (itmax : Nat) (minderr : ℝ) (phase : String) (out : List ℝ) (k : Nat) : Prop :=
  ∃ ur uz, Nonempty (FwdRun ε p dt npts ipha l rest ur uz) ∧
    ∀ x y, ur = some x → uz = some y → ∃ x' y' rms, PassRun pass ε x x' ∧ PassRun pass ε y y' ∧
      IterOut ε x' y' dt preonset a itmax minderr phase out k rms

end Rfsed.Synrf
