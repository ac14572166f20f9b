import Verif.Py.Signal
import Verif.Model.HkYu

/-!
# Model of the resonance filters
`/repo/src/rfsed/ReverbFilter.py` and `/repo/src/rfsed/SynthAnalysis.py`

Exact real arithmetic.  If the detrended data vanish identically numpy divides `0/0`
and `autoc` is NaN; here it is `0`.  No trough is found in either case.
-/

namespace Rfsed
open PyFloat

/-- The dictionary `ResonanceFilt` returns (ReverbFilter.py:136-139).  `tlag` is a numpy
float when a trough was found and the Python integer `0` otherwise. -/
structure FltResults where
  rf : List ℝ
  filteredrf : List ℝ
  resonancefilter : List ℂ
  time : List ℝ
  autoc : List ℝ
  r : ℝ
  tlag : Scalar ℝ
  staname : String
  delta : ℝ

/-- The entries `hkYu` reads from the dictionary (hkYu.py:130-133). -/
def FltResults.toYu (R : FltResults) : HkYu.FltInput ℝ :=
  { filteredrf := R.filteredrf, time := R.time, tlag := R.tlag }

/-- A saved line plot: title, the drawn (x, y) curves and the file name. -/
structure LineFig where
  title : String
  curves : List (List ℝ × List ℝ)
  filename : String

/-- `plt.plot(x, y)`: matplotlib raises `ValueError` when the lengths differ. -/
noncomputable def pltPlot (x y : List ℝ) : Except PyErr (List ℝ × List ℝ) :=
  if x.length = y.length then .ok (x, y) else .error .valueError

/-- One block of `plotfiltrf` (ReverbFilter.py:183-192 and the two like it): draw the curves,
save, forget.  Returns the figures saved so far and the outcome. -/
noncomputable def saveBlock (env : Env ℝ) (title : String) (xy : List (List ℝ × List ℝ))
    (filename : String) (saved : List LineFig) : List LineFig × Except PyErr Unit :=
  match (xy.mapM (fun p => pltPlot p.1 p.2) : Except PyErr _) with
  | .error e => (saved, .error e)
  | .ok cs => match env.savefig filename with
    | .error e => (saved, .error e)
    | .ok () => (saved ++ [⟨title, cs, filename⟩], .ok ())

/-- The three figures of `plotfiltrf` (ReverbFilter.py:175-214, `name` = station name) and
`plotfiltSynthrf` (SynthAnalysis.py:878-916, `name` = 'SyntheticRF'; otherwise the same text).
If a block raises the later ones do not run. -/
noncomputable def plotfilt (env : Env ℝ) (R : FltResults) (name savepath format : String) :
    List LineFig × Except PyErr Unit :=
  let b1 := saveBlock env s!"Autocorrelation of {name}" [(R.time, R.autoc)]
    s!"{savepath}/Autocorrelation.{format}" []
  match b1.2 with
  | .error e => (b1.1, .error e)
  | .ok () =>
    let b2 := saveBlock env s!"Resonance Filter of {name}" [(R.time, toRe R.resonancefilter)]
      s!"{savepath}/Resonance_Filter.{format}" b1.1
    match b2.2 with
    | .error e => (b2.1, .error e)
    | .ok () =>
      saveBlock env s!"RF and Filtered RF of {name}"
        [(R.time, R.rf), (R.time, R.filteredrf)] s!"{savepath}/RF_FilteredRF.{format}" b2.1

namespace ReverbFilter

/-- `plotfiltrf`, ReverbFilter.py:143-214. -/
noncomputable def plotfiltrf (env : Env ℝ) (R : FltResults) (savepath format : String) :
    List LineFig × Except PyErr Unit := plotfilt env R R.staname savepath format

/-- `ResonanceFilt`, ReverbFilter.py:62-140.  `stats.delta` is a Python float, so
`1 / (2.0 * dt)` (line 108) and `fmax / (n / 2)` (line 109) raise on zero.
(`f`, `nf` and the zero array of line 114 are never used and left out.) -/
noncomputable def ResonanceFilt (env : Env ℝ) (rfstream : List (Trace ℝ)) (preonset : ℝ) :
    Except PyErr FltResults := do
  let tr0 ← item rfstream 0
  let delta := tr0.delta
  let l := tr0.data.length
  let time := timeAxis delta preonset l
  let dt := tr0.delta
  let StackedRF ← env.stack rfstream
  let StackedData ← item StackedRF 0
  let n := StackedData.length
  let fmax ← scalarDiv ⟨.py, 1⟩ ⟨.py, 2 * dt⟩
  let df ← scalarDiv fmax ⟨.py, (n : ℝ) / 2⟩
  let dw := 2 * Real.pi * df.val
  let w : List ℝ := (arangeZ 0 ((n : ℤ) / 2 + 1) ++ arangeZ (-(n : ℤ) / 2 + 1) 0).map
    (fun k : ℤ => dw * (k : ℝ))
  let D := StackedData
  let D := D.map (fun x => x - npMean D)
  let D := detrend D
  let ac := correlateFull D D
  let ac := ac.map (fun x => x / npMax ac)
  let ac := (ac.drop (n - 1)).take n
  let rac := ac.map (fun x => -x)
  let locs := findPeaks rac
  let (r0, tlag) : ℝ × Scalar ℝ := match locs with
    | [] => (0, ⟨.py, 0⟩)
    | loc :: _ => (|rac.getD loc 0|, ⟨.np, (loc : ℝ) * dt⟩)
  let resonanceflt : List ℂ := w.map (fun wk : ℝ =>
    1 + (r0 : ℂ) * Complex.exp (-1 * Complex.I * (wk : ℂ) * (tlag.val : ℂ)))
  if resonanceflt.length ≠ n then .error .valueError         -- shapes could not be broadcast
  else
    let filtered_rf := toRe (ifft (vmul (fft (toC D) n) resonanceflt) n)
    pure { rf := StackedData, filteredrf := filtered_rf, resonancefilter := resonanceflt,
           time := time, autoc := ac, r := r0, tlag := tlag, staname := tr0.station,
           delta := delta }

end ReverbFilter

namespace SynthAnalysis

/-- `plotfiltSynthrf`, SynthAnalysis.py:846-916. -/
noncomputable def plotfiltSynthrf (env : Env ℝ) (R : FltResults) (savepath format : String) :
    List LineFig × Except PyErr Unit := plotfilt env R "SyntheticRF" savepath format

/-- `ResonanceFilt`, SynthAnalysis.py:407-497.  `delta` is a numpy float here; for
`delta = 0` or empty data numpy continues with infinities, which is not modelled
(`ValueError` from `np.correlate` for empty data). -/
noncomputable def ResonanceFilt (Synthrf time : List ℝ) : Except PyErr FltResults := do
  let t := time
  let t1 ← item t 1
  let t0 ← item t 0
  let delta := t1 - t0
  let dt := delta
  let n := Synthrf.length
  let fmax := 1 / (2 * dt)
  let df := fmax / ((n : ℝ) / 2)
  let dw := 2 * Real.pi * df
  let w : List ℝ := (arangeZ 0 ((n : ℤ) / 2 + 1) ++ arangeZ (-(n : ℤ) / 2 + 1) 0).map
    (fun k : ℤ => dw * (k : ℝ))
  let D := Synthrf
  let D := D.map (fun x => x - npMean D)
  let D := detrend D
  if n = 0 then .error .valueError                      -- np.correlate of an empty array
  else
    let ac := correlateFull D D
    let ac := ac.map (fun x => x / npMax ac)
    let ac := (ac.drop (n - 1)).take n
    let rac := ac.map (fun x => -x)
    let locs := findPeaks rac
    let (r0, tlag) : ℝ × Scalar ℝ := match locs with
      | [] => (0, ⟨.py, 0⟩)
      | loc :: _ => (|rac.getD loc 0|, ⟨.np, (loc : ℝ) * dt⟩)
    let resonanceflt : List ℂ := w.map (fun wk : ℝ =>
      1 + (r0 : ℂ) * Complex.exp (-1 * Complex.I * (wk : ℂ) * (tlag.val : ℂ)))
    if resonanceflt.length ≠ n then .error .valueError
    else
      let filtered_rf := toRe (ifft (vmul (fft (toC D) n) resonanceflt) n)
      pure { rf := Synthrf, filteredrf := filtered_rf, resonancefilter := resonanceflt,
             time := time, autoc := ac, r := r0, tlag := tlag, staname := "",
             delta := delta }

end SynthAnalysis
end Rfsed
