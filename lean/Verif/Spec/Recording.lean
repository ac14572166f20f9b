import Verif.Model.IterOutRounded
import Verif.Model.WaterRounded
import Verif.Spec.Ties
import Verif.Spec.Continuity

/-!
# Specification vocabulary: receiver functions of recorded seismograms
-/

namespace Rfsed.Spec
open Rfsed Synrf

/-- the radial and the vertical seismogram of an event -/
structure Recording where
  radial : List ℝ
  vertical : List ℝ

/-- every sample changed by less than `e` -/
def Recording.Within (e : ℝ) (q q' : Recording) : Prop :=
  SamplesWithin e q.radial q'.radial ∧ SamplesWithin e q.vertical q'.vertical

/-- how receiver functions are made: the two methods of `synrf.py` and their parameters -/
inductive RFMethod where
  | iterative (itmax : Nat) (minderr : ℝ) (phase : String)
  | water (wlevel : ℝ) (normalize : Bool)

/-- `rf` is the receiver function the method returns for the recording. -/
def RFMethod.Gives (M : RFMethod) (dt preonset a : ℝ) (q : Recording) (rf : List ℝ) : Prop :=
  match M with
  | .iterative itmax minderr phase =>
    ∃ R, deconv_iterative q.radial q.vertical dt none preonset a itmax minderr phase = .ok R ∧ R.rf = some rf
  | .water wlevel normalize =>
    ∃ rms, deconv_waterlevel q.radial q.vertical dt preonset wlevel a normalize = .ok (rf, rms)

/-- `out` is a receiver function the method may return in arithmetic of tolerance `ε`. -/
def RFMethod.Computes (M : RFMethod) (ε dt preonset a : ℝ) (q : Recording) (out : List ℝ) : Prop :=
  match M with
  | .iterative itmax minderr phase =>
    ∃ k rms, IterOut ε q.radial q.vertical dt preonset a itmax minderr phase out k rms
  | .water wlevel normalize => Nonempty (WaterRun ε q.radial q.vertical dt preonset wlevel a normalize out)

/-- Nothing about the deconvolution of the recording is a coin toss.  Iterative: in every iteration one lag is the best (or, in
the last one, nothing is left to explain), and the stopping rule does not decide by a hair.  Water level: the vertical
seismogram is not zero. -/
def RFMethod.Clear (M : RFMethod) (dt preonset a : ℝ) (q : Recording) : Prop :=
  match M with
  | .iterative itmax minderr phase =>
    let n := nextPow2 q.radial.length
    0 ≤ minderr ∧ Real.cos (2 * Real.pi * (pyInt (preonset / dt) : ℝ) / n) ≠ 0 ∧
      ∃ k ≤ itmax, ∃ P, SteadyRun n dt (lowpass n dt a q.radial) (lowpass n dt a q.vertical) phase minderr itmax k P
  | .water wlevel _ => 0 < wlevel ∧ wlevel ≤ 1 ∧ ∃ v ∈ q.vertical, v ≠ 0

end Rfsed.Spec
