import Verif.Spec.WaveFigure

/-!
# Specification vocabulary for rounding errors of the waveform fit
-/

namespace Rfsed.Spec

/-- how large the samples of a record are (root mean square) compared with their standard deviation; 1 for a record
whose mean is zero -/
noncomputable def relativeSize (x : List ℝ) : ℝ :=
  Real.sqrt ((x.map (fun a => a ^ 2)).sum / x.length) / stdDev x

end Rfsed.Spec
