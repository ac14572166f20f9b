import Verif.Model.WaveformFitting
import Verif.Model.SynrfForward

/-!
# The synthetic receiver function of one model of the waveform fitting

`WaveformFitting.py` and `WaveformFittingMultiproc.py` take the synthetics from `synrf`; here the
parameter `synthRF` of `WEnv` is filled with the model of `synrf.py`.  Obspy's band-pass stays a
parameter.
-/

namespace Rfsed.Waveform

/-- the number, unless NaN -/
def toReal : NReal → Option ℝ
  | .num x => some x
  | .nan => none

/-- all numbers, unless one is NaN -/
def toReals : List NReal → Option (List ℝ)
  | [] => some []
  | a :: as => match toReal a, toReals as with
    | some x, some xs => some (x :: xs)
    | _, _ => none

/-- the arguments, if none is NaN -/
def realArgs (a : SynthArgs NReal) : Option (SynthArgs ℝ) :=
  match toReals a.depth, toReals a.vp, toReals a.vs, toReals a.rho, toReal a.rayp, toReal a.dt,
      toReal a.preonset, toReal a.gaussian with
  | some depth, some vp, some vs, some rho, some rayp, some dt, some preonset, some gaussian =>
    some ⟨depth, vp, vs, rho, rayp, dt, a.npts, preonset, gaussian⟩
  | _, _, _, _, _, _, _, _ => none

/-- WaveformFitting.py:156-162 and 382-387, WaveformFittingMultiproc.py:182-188 and 445-451. -/
noncomputable def runSynth (bp : Synrf.Bandpass) (a : SynthArgs ℝ) : Except PyErr Synrf.RFTr := do
  let o ← Synrf.init a.depth a.vp a.vs a.rho (.float a.rayp) a.dt a.npts 1
  let r := Synrf.run_fwd o
  r.2
  let f := Synrf.filter bp r.1 { freqmin := 0.05, freqmax := 1.25, order := 2, zerophase := true }
  f.2
  let d := Synrf.run_deconvolution bp f.1 (some [0.05, 1.25]) a.preonset a.gaussian none {}
  let rf_synth ← d.2
  item rf_synth 0

/-- The data of the synthetic receiver function.  What happens for arguments that are NaN is left
open (`other`). -/
noncomputable def synthData (bp : Synrf.Bandpass) (other : SynthArgs NReal → Except PyErr (List NReal))
    (a : SynthArgs NReal) : Except PyErr (List NReal) :=
  match realArgs a with
  | none => other a
  | some a => (runSynth bp a).map (fun t => match t.data with
    | none => List.replicate a.npts .nan
    | some x => x.map .num)

end Rfsed.Waveform
