import Verif.Model.WaveformFitting
import Verif.Py.Pool

/-!
# Model of `/repo/src/rfsed/WaveformFittingMultiproc.py`
-/

namespace Rfsed
open PyFloat
variable {F : Type} [PyFloat F]

namespace Waveform

/-- `WaveformPara`, WaveformFittingMultiproc.py:48-136.  The returned one-element list is
identified with its element. -/
def WaveformPara [PyTrunc F] (env : WEnv F) (rfstream : List (Trace F))
    (preonset HSed VpSed VpCrust rayp : F) (KMoho HMoho : List F) (gaussian : F) :
    Except PyErr (Para F) := do
  let VsSed := vsOf VpSed
  let SedDen := rhoOf VpSed
  let CrustDen := rhoOf VpCrust
  let tr0 ← item rfstream 0
  let delta := tr0.delta
  let l := tr0.data.length
  let t := timeAxis delta preonset l
  let Stacked ← env.stackR rfstream
  let StackedData ← item Stacked 0
  let t0 ← item t 0
  let preonset := PyFloat.abs t0
  let n := StackedData.length
  let tzero ← item (whereEq t zero) 0
  let start := tzero
  if eq delta zero then .error .zeroDivisionError
  else
    let e ← PyTrunc.trunc (ofNat 25 / delta)
    let stop : Int := (tzero : Int) + e
    pure { rfstream := rfstream, rayp := rayp, gaussian := gaussian, HSed := HSed, VpSed := VpSed,
           VpCrust := VpCrust, VsSed := VsSed, SedDen := SedDen, CrustDen := CrustDen,
           HMoho := HMoho, KMoho := KMoho, delta := delta, time := t, staname := tr0.station,
           StackedData := StackedData, preonset := preonset, n := n, tstart := start, tend := stop }

/-- Loop body of `WaveformFit_multiproc`, WaveformFittingMultiproc.py:173-223. -/
def fitPoint (env : WEnv F) (P : Para F) (Htemp Ktemp : F) : Except PyErr (Crit F) := do
  let rf_synth ← env.synthRF
    { depth := [P.HSed, Htemp, dec 775 1]
      vp := [P.VpSed, P.VpCrust, dec 8045 3]
      vs := [P.VsSed, P.VpCrust / Ktemp, dec 449 2]
      rho := [P.SedDen, P.CrustDen, dec 3299 3]
      rayp := P.rayp, dt := P.delta, npts := P.n, preonset := P.preonset, gaussian := P.gaussian }
  let RealData := pySlice P.StackedData P.tstart P.tend
  let SynthData := pySlice rf_synth P.tstart P.tend
  let Correlation ← corrcoef01 RealData SynthData
  let mse ← meanSquaredError RealData SynthData
  let RMSE := powHalf mse
  let PG_Eq := signs RealData
  let Synth_Eq := signs SynthData
  let PG ← env.pg PG_Eq Synth_Eq P.delta
  pure ⟨Correlation, RMSE, PG, Htemp, Ktemp⟩

/-- `WaveformFit_multiproc`, WaveformFittingMultiproc.py:139-224, for `inputparams = ((H,), P)`. -/
def WaveformFit_multiproc (env : WEnv F) (P : Para F) (H : F) : Except PyErr (List (Crit F)) :=
  P.KMoho.foldlM (fun (sol : List (Crit F)) Ktemp => do
    let c ← fitPoint env P H Ktemp
    pure (sol ++ [c])) []

/-- `run_waveformfitting`, WaveformFittingMultiproc.py:227-269: `out` is a possible outcome. -/
def RunWaveformfitting (env : WEnv F) (nproc : Nat) (HMoho : List F) (P : Para F)
    (out : Except PyErr (List (Option (List (Crit F))))) : Prop :=
  ∃ log, Pool.MapsTo nproc (WaveformFit_multiproc env P) HMoho out log

/-- The first half of `plotbestmodel`, WaveformFittingMultiproc.py:334-371: the weights, the table
of criteria, the solutions, the four best models. -/
def tabulate (WaveformResults : List (List (Crit F))) (P : Para F)
    (wtCorr wtRMSE wtPG : Option F) : Except PyErr (List (Sol F) × Best F) := do
  let wtCorr := wtCorr.getD (dec 4 1)
  let wtRMSE := wtRMSE.getD (dec 4 1)
  let wtPG := wtPG.getD (dec 2 1)
  let st ← WaveformResults.foldlM (fun st i =>
    i.foldlM (fun (st : List (Crit F) × Nat) j => do
      let t ← setItem st.1 st.2 j
      pure (t, st.2 + 1)) st)
    (List.replicate (P.HMoho.length * P.KMoho.length) Crit.zero, 0)
  let AllSolutions := st.1
  let Corr := AllSolutions.map Crit.corr
  let MaxCorr ← pyMax Corr
  let RMSE := AllSolutions.map Crit.rmse
  let MaxRMSE ← pyMax RMSE
  let PG := AllSolutions.map Crit.pg
  let MaxPG ← pyMax PG
  let rows := AllSolutions.map (fun c : Crit F =>
    (⟨c.corr, c.rmse, c.pg,
      wtCorr * (c.corr / MaxCorr) + wtRMSE * (one - c.rmse / MaxRMSE) + wtPG * (c.pg / MaxPG),
      c.h, c.k⟩ : Sol F))
  let sols ← fillRows Sol.zero rows.length rows
  let i ← argmax (sols.map Sol.corr)
  let c ← item sols i
  let i ← argmin (sols.map Sol.rmse)
  let r ← item sols i
  let i ← argmax (sols.map Sol.pg)
  let p ← item sols i
  let i ← argmax (sols.map Sol.gof)
  let g ← item sols i
  pure (sols, ⟨c, r, p, g⟩)

/-- `plotbestmodel`, WaveformFittingMultiproc.py:272-494: the solutions, the printed best models
(372-379) and the figures saved. -/
def plotbestmodel (env : WEnv F) (WaveformResults : List (List (Crit F))) (P : Para F)
    (wtCorr wtRMSE wtPG : Option F) (savepath format : String) :
    Except PyErr (List (Sol F) × Best F × List (Fig F)) := do
  let (sols, best) ← tabulate WaveformResults P wtCorr wtRMSE wtPG
  let figs ← (panels best).mapM (fun p => do
    let minVpVs ← pyMin P.KMoho
    let maxVpVs ← pyMax P.KMoho
    let minMoho ← pyMin P.HMoho
    let maxMoho ← pyMax P.HMoho
    plotOne env P.rfstream P.staname P.HSed P.VpSed P.VsSed P.SedDen P.VpCrust P.CrustDen P.rayp
      P.gaussian P.preonset (minMoho, maxMoho) (minVpVs, maxVpVs) sols p.1 p.2.1 p.2.2
      savepath format)
  pure (sols, best, figs)

end Waveform
end Rfsed
