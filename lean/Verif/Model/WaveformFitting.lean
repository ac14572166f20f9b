import Verif.Py.Stats

/-!
# Model of `/repo/src/rfsed/WaveformFitting.py`

The synthetic receiver function (`synrf(...)`, `run_fwd`, `filter`, `run_deconvolution`, with the
fixed filter arguments of lines 156-162) and obspy's phase goodness of fit `pg` are parameters;
`rfstream.select(component='R').stack()` is a parameter.  `KMoho` and `HMoho` are numpy arrays
(so divisions by their entries do not raise).
-/

namespace Rfsed
open PyFloat
variable {F : Type} [PyFloat F]

namespace Waveform

/-- What `synrf` is given (WaveformFitting.py:152-162; ipha=1, freqmin=0.05, freqmax=1.25,
order=2, zerophase=True, pre_filt=[0.05, 1.25] are constant). -/
structure SynthArgs (F : Type) where
  depth : List F
  vp : List F
  vs : List F
  rho : List F
  rayp : F
  dt : F
  npts : Nat
  preonset : F
  gaussian : F

/-- One figure (WaveformFitting.py:334-431): the contoured criterion with the best-model cross,
the stacked and the synthetic receiver function, the velocity profile. -/
structure Fig (F : Type) where
  suff : String
  /-- (depth, Vp/Vs, criterion) of every contoured point -/
  points : List (F × F × F)
  bestH : F
  bestK : F
  labelK : F
  xlim : F × F
  ylim : F × F
  stackCurve : List F × List F
  synthCurve : List F × List F
  /-- standard deviation band -/
  bandHi : List F
  bandLo : List F
  depProfile : List F
  vpProfile : List F
  vsProfile : List F
  filename : String

/-- External behaviour the waveform fitting depends on. -/
structure WEnv (F : Type) where
  /-- `rfstream.select(component='R').stack()` (obspy, rf): data of the stacked traces -/
  stackR : List (Trace F) → Except PyErr (List (List F))
  /-- data of the first synthetic receiver function -/
  synthRF : SynthArgs F → Except PyErr (List F)
  /-- obspy's `pg(st1, st2, dt=dt, fmin=.5, fmax=10, nf=100, w0=6, st2_isref=True, a=10., k=1.)` -/
  pg : List F → List F → F → Except PyErr F
  /-- matplotlib drawing commands and `plt.savefig`: may raise -/
  draw : Fig F → Except PyErr Unit := fun _ => .ok ()

/-- `[Correlation, RMSE, PG, H, K]` (WaveformFitting.py:196) -/
structure Crit (F : Type) where
  corr : F
  rmse : F
  pg : F
  h : F
  k : F

/-- row of `np.zeros((n, 5))` -/
def Crit.zero : Crit F := ⟨PyFloat.zero, PyFloat.zero, PyFloat.zero, PyFloat.zero, PyFloat.zero⟩

/-- `[Correlation, RMSE, PG, GoF, H, K]` (WaveformFitting.py:223) -/
structure Sol (F : Type) where
  corr : F
  rmse : F
  pg : F
  gof : F
  h : F
  k : F

/-- row of `np.zeros((n, 6))` -/
def Sol.zero : Sol F :=
  ⟨PyFloat.zero, PyFloat.zero, PyFloat.zero, PyFloat.zero, PyFloat.zero, PyFloat.zero⟩

/-- WaveformFitting.py:113, 116 and 373 (also WaveformFittingMultiproc.py:100, 103): Vs from Vp. -/
def vsOf (v : F) : F :=
  dec 7858 4 - dec 12344 4 * v + dec 7949 4 * powNat v 2 - dec 1238 4 * powNat v 3
    + dec 64 4 * powNat v 4

/-- WaveformFitting.py:114-115, 117-118 (also 374-377 and WaveformFittingMultiproc.py:101-102, 104-105):
density from Vp. -/
def rhoOf (v : F) : F :=
  dec 16612 4 * v - dec 4721 4 * powNat v 2 + dec 671 4 * powNat v 3 - dec 43 4 * powNat v 4
    + dec 106 6 * powNat v 5

/-- WaveformFitting.py:152-162: the layered model of one grid point. -/
def synthArgs (HSed VpSed VsSed SedDen VpCrust CrustDen rayp delta preonset gaussian : F)
    (n : Nat) (Htemp Ktemp : F) : SynthArgs F where
  depth := [HSed, Htemp, dec 775 1]
  vp := [VpSed, VpCrust, dec 8045 3]
  vs := [VsSed, VpCrust / Ktemp, dec 449 2]
  rho := [SedDen, CrustDen, dec 3299 3]
  rayp := rayp
  dt := delta
  npts := n
  preonset := preonset
  gaussian := gaussian

/-- WaveformFitting.py:173-196: the criteria for one synthetic receiver function. -/
def criteria (env : WEnv F) (StackedData rf_synth : List F) (start : Nat) (stop : Int)
    (delta Htemp Ktemp : F) : Except PyErr (Crit F) := do
  let RealData := pySlice StackedData start stop
  let SynthData := pySlice rf_synth start stop
  let Correlation ← corrcoef01 RealData SynthData
  let mse ← meanSquaredError RealData SynthData
  let RMSE := powHalf mse
  let PG_Eq := signs RealData
  let Synth_Eq := signs SynthData
  let PG ← env.pg PG_Eq Synth_Eq delta
  pure ⟨Correlation, RMSE, PG, Htemp, Ktemp⟩

/-- The quantities computed before the grid search, WaveformFitting.py:113-140; the same record
is the dictionary `WaveformPara` returns (WaveformFittingMultiproc.py:128-135) without `Stdd`,
`StddPlus`, `StddMinus` and `VsCrust`, which nobody reads. -/
structure Para (F : Type) where
  rfstream : List (Trace F)
  rayp : F
  gaussian : F
  HSed : F
  VpSed : F
  VpCrust : F
  VsSed : F
  SedDen : F
  CrustDen : F
  HMoho : List F
  KMoho : List F
  delta : F
  time : List F
  staname : String
  StackedData : List F
  preonset : F
  n : Nat
  tstart : Nat
  tend : Int

/-- WaveformFitting.py:113-140. `stats.delta` is a Python float: `25/delta` raises for zero. -/
def prepare [PyTrunc F] (env : WEnv F) (rfstream : List (Trace F))
    (preonset HSed VpSed VpCrust rayp : F) (KMoho HMoho : List F) (gaussian : F) :
    Except PyErr (Para F) := do
  let VsSed := vsOf VpSed
  let SedDen := rhoOf VpSed
  let CrustDen := rhoOf VpCrust
  let tr0 ← item rfstream 0
  let delta := tr0.delta
  let l := tr0.data.length
  let t := timeAxis delta preonset l
  let Stacked ← env.stackR rfstream
  let StackedData ← item Stacked 0
  let t0 ← item t 0
  let preonset := PyFloat.abs t0
  let n := StackedData.length
  let tzero ← item (whereEq t zero) 0
  let start := tzero
  if eq delta zero then .error .zeroDivisionError
  else
    let e ← PyTrunc.trunc (ofNat 25 / delta)
    let stop : Int := (tzero : Int) + e
    pure { rfstream := rfstream, rayp := rayp, gaussian := gaussian, HSed := HSed, VpSed := VpSed,
           VpCrust := VpCrust, VsSed := VsSed, SedDen := SedDen, CrustDen := CrustDen,
           HMoho := HMoho, KMoho := KMoho, delta := delta, time := t, staname := tr0.station,
           StackedData := StackedData, preonset := preonset, n := n, tstart := start, tend := stop }

/-- The body of the grid loop, WaveformFitting.py:147-196. -/
def gridPoint (env : WEnv F) (P : Para F) (Htemp Ktemp : F) : Except PyErr (Crit F) := do
  let rf_synth ← env.synthRF (synthArgs P.HSed P.VpSed P.VsSed P.SedDen P.VpCrust P.CrustDen
    P.rayp P.delta P.preonset P.gaussian P.n Htemp Ktemp)
  criteria env P.StackedData rf_synth P.tstart P.tend P.delta Htemp Ktemp

/-- WaveformFitting.py:204-224: normalise, combine, build the table of solutions. -/
def normalise (AllSolutions : List (Crit F)) (wtCorr wtRMSE wtPG : F) :
    Except PyErr (List (Sol F)) := do
  let Corr := AllSolutions.map Crit.corr
  let MaxCorr ← pyMax Corr
  let RMSE := AllSolutions.map Crit.rmse
  let MaxRMSE ← pyMax RMSE
  let PG := AllSolutions.map Crit.pg
  let MaxPG ← pyMax PG
  let rows := AllSolutions.map (fun c : Crit F =>
    (⟨c.corr, c.rmse, c.pg,
      wtCorr * (c.corr / MaxCorr) + wtRMSE * (one - c.rmse / MaxRMSE) + wtPG * (c.pg / MaxPG),
      c.h, c.k⟩ : Sol F))
  fillRows Sol.zero rows.length rows

/-- The four best models. -/
structure Best (F : Type) where
  corr : Sol F
  rmse : Sol F
  pg : Sol F
  gof : Sol F

/-- WaveformFitting.py:225-228 and 300-304. -/
def bestModels (sols : List (Sol F)) : Except PyErr (Best F) := do
  let i ← argmax (sols.map Sol.corr)
  let c ← item sols i
  let i ← argmin (sols.map Sol.rmse)
  let r ← item sols i
  let i ← argmax (sols.map Sol.pg)
  let p ← item sols i
  let i ← argmax (sols.map Sol.gof)
  let g ← item sols i
  pure ⟨c, r, p, g⟩

/-- The dictionary `WaveformFitting` returns (WaveformFitting.py:237-241), and what it prints
(lines 229-236).  Its entries `savepath` and `format`, copies of arguments nothing reads, are left
out. -/
structure WResult (F : Type) where
  WaveformSolutions : List (Sol F)
  rfstream : List (Trace F)
  HSed : F
  VpSed : F
  VpCrust : F
  rayp : F
  KMoho : List F
  HMoho : List F
  gaussian : F
  wtCorr : F
  wtRMSE : F
  wtPG : F
  printed : Best F

/-- `WaveformFitting`, WaveformFitting.py:44-242. -/
def WaveformFitting [PyTrunc F] (env : WEnv F) (rfstream : List (Trace F))
    (preonset HSed VpSed VpCrust rayp : F) (KMoho HMoho : List F)
    (gaussian wtCorr wtRMSE wtPG : F) : Except PyErr (WResult F) := do
  let P ← prepare env rfstream preonset HSed VpSed VpCrust rayp KMoho HMoho gaussian
  let MohoSol ← KMoho.foldlM (fun sol Ktemp =>
    HMoho.foldlM (fun (sol : List (Crit F)) Htemp => do
      let c ← gridPoint env P Htemp Ktemp
      pure (sol ++ [c])) sol) []
  let AllSolutions ← fillRows Crit.zero MohoSol.length MohoSol
  let sols ← normalise AllSolutions wtCorr wtRMSE wtPG
  let best ← bestModels sols
  pure { WaveformSolutions := sols, rfstream := rfstream, HSed := HSed, VpSed := VpSed,
         VpCrust := VpCrust, rayp := rayp, KMoho := KMoho, HMoho := HMoho, gaussian := gaussian,
         wtCorr := wtCorr, wtRMSE := wtRMSE, wtPG := wtPG, printed := best }

/-- One pass of the plotting loop, WaveformFitting.py:313-431 and
WaveformFittingMultiproc.py:383-494.  They differ in the axis limits and in the `preonset` given
to `synrf`, which are parameters here.  Simplification: the drawing commands may raise
(`env.draw`), at the end. -/
def plotOne (env : WEnv F) (rfstream : List (Trace F)) (staname : String)
    (HSed VpSed VsSed SedDen VpCrust CrustDen rayp gaussian : F) (preonset : F)
    (xlim ylim : F × F) (sols : List (Sol F)) (suff : String) (crit : Sol F → F) (best : Sol F)
    (savepath format : String) : Except PyErr (Fig F) := do
  let tr0 ← item rfstream 0
  let delta := tr0.delta
  let onset ← tr0.getOnset
  let b := tr0.starttime - onset
  let t := (List.range tr0.data.length).map (fun i : Nat => ofNat i * delta + b)
  let Stacked ← env.stackR rfstream
  let StackedData ← item Stacked 0
  let Stdd := npStd StackedData
  let n := StackedData.length
  let H := best.h
  let K := best.k
  let rf_synth ← env.synthRF (synthArgs HSed VpSed VsSed SedDen VpCrust CrustDen
    rayp delta preonset gaussian n H K)
  let fig : Fig F :=
    { suff := suff
      points := sols.map (fun s => (s.h, s.k, crit s))
      bestH := H, bestK := K, labelK := K + dec 1 3
      xlim := xlim, ylim := ylim
      stackCurve := (t, StackedData)
      synthCurve := (timeAxis delta preonset rf_synth.length, rf_synth)
      bandHi := StackedData.map (fun x => x + Stdd)
      bandLo := StackedData.map (fun x => x - Stdd)
      depProfile := [zero, HSed, HSed, H, H, ofNat 50]
      vpProfile := [VpSed, VpSed, VpCrust, VpCrust, dec 8045 3, dec 8045 3]
      vsProfile := [VsSed, VsSed, VpCrust / K, VpCrust / K, dec 449 2, dec 449 2]
      filename := savepath ++ "/" ++ staname ++ "_" ++ suff ++ "." ++ format }
  env.draw fig
  pure fig

/-- titles and which criterion and best model belong to them (WaveformFitting.py:310-326,
WaveformFittingMultiproc.py:385-396) -/
def panels (best : Best F) : List (String × (Sol F → F) × Sol F) :=
  [("Correlation Coefficient", Sol.corr, best.corr), ("Root-mean-square Error", Sol.rmse, best.rmse),
   ("Phase Goodness of Fit", Sol.pg, best.pg), ("Overall Goodness of Fit", Sol.gof, best.gof)]

/-- `PlotWaveformFitting`, WaveformFitting.py:244-431: the figures saved.  The three weights are
parameters and are not used. `HMoho[0]`, `KMoho[-1]` … raise `IndexError` for empty arrays. -/
def PlotWaveformFitting (env : WEnv F) (R : WResult F) (_wtCorr _wtRMSE _wtPG : F)
    (savepath format : String) : Except PyErr (List (Fig F)) := do
  let tr0 ← item R.rfstream 0
  let best ← bestModels R.WaveformSolutions
  (panels best).mapM (fun p => do
    let minMoho ← item R.HMoho 0
    let maxMoho ← item R.HMoho.reverse 0
    let minVpVs ← item R.KMoho 0
    let maxVpVs ← item R.KMoho.reverse 0
    let onset ← tr0.getOnset
    let b := tr0.starttime - onset
    let t := (List.range tr0.data.length).map (fun i : Nat => ofNat i * tr0.delta + b)
    let t0 ← item t 0
    let preonset := PyFloat.abs t0
    plotOne env R.rfstream tr0.station R.HSed R.VpSed (vsOf R.VpSed) (rhoOf R.VpSed) R.VpCrust
      (rhoOf R.VpCrust) R.rayp R.gaussian preonset (minMoho, maxMoho) (minVpVs, maxVpVs)
      R.WaveformSolutions p.1 p.2.1 p.2.2 savepath format)

end Waveform
end Rfsed
