import Verif.Spec.Waveform
import Verif.Model.WaveformFitting

/-!
# Specification: the figures of waveform fitting
-/

namespace Rfsed.Spec
open Waveform

/-- standard deviation of the samples of one trace about their mean -/
noncomputable def stdDev (x : List ℝ) : ℝ :=
  Real.sqrt ((x.map (fun a => (a - mean x) ^ 2)).sum / x.length)

/-- The figure `f` shows the criterion `crit` over all the models `sols`, with a cross at depth `H`
and velocity ratio `K`; the stacked receiver function `sd` at the times `starttime - onset`,
`starttime - onset + delta`, …; a band of constant half-width, the standard deviation of `sd` *over
time*; and the velocity profile of a sedimentary layer, a crust with ratio `K` and a mantle, drawn
down to 50 km. -/
structure WaveformFigure (f : Fig ℝ) (title : String) (sols : List (Sol ℝ)) (crit : Sol ℝ → ℝ)
    (H K : ℝ) (tr0 : Trace ℝ) (onset : ℝ) (sd : List ℝ) (HSed VpSed VpCrust : ℝ)
    (savepath format : String) : Prop where
  heading : f.suff = title
  contour : f.points = sols.map (fun s => (s.h, s.k, crit s))
  cross : f.bestH = H ∧ f.bestK = K
  /-- the legend does not print `K` -/
  legend : f.labelK = K + 0.001
  stacked : f.stackCurve =
    ((List.range tr0.data.length).map (fun i : ℕ => (i : ℝ) * tr0.delta + (tr0.starttime - onset)), sd)
  band : f.bandHi = sd.map (fun x => x + stdDev sd) ∧ f.bandLo = sd.map (fun x => x - stdDev sd)
  depths : f.depProfile = [0, HSed, HSed, H, H, 50]
  vps : f.vpProfile = [VpSed, VpSed, VpCrust, VpCrust, 8.045, 8.045]
  vss : f.vsProfile = [vsPoly VpSed, vsPoly VpSed, VpCrust / K, VpCrust / K, 4.49, 4.49]
  file : f.filename = savepath ++ "/" ++ tr0.station ++ "_" ++ title ++ "." ++ format

end Rfsed.Spec
