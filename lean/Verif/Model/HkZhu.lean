import Verif.Model.Grid

/-!
# Model of `/repo/src/rfsed/hkZhu.py`
-/

namespace Rfsed.HkZhu
open PyFloat
variable {F : Type} [PyFloat F]

/-- `getamp`, hkZhu.py:49-63: `rfdata[np.abs(tarray - t).argmin()]`. -/
def getamp (rfdata tarray : List F) (t : PyNum F) : Except PyErr F := do
  let i ← argmin (tarray.map (fun x => PyNum.absSub x t))
  item rfdata i

/-- The dictionary `hk` returns (hkZhu.py:191-194).  `bestmodel` is a numpy *view*
of row `bestIdx` of `stackvalues` (hkZhu.py:171, basic slicing), so only the index
is stored; see `HKResult.bestmodel`. -/
structure HKResult (F : Type) where
  RF : List (Trace F)
  RFStack : List F
  time : List F
  bestIdx : Nat
  staname : String
  Vp : Scalar F
  stackvalues : List (Row F)
  layer : String
  stack : Bool
  comp : String
  AvgSlow : F
  H : List F
  K : List F

/-- `HKResult['bestmodel']` read through the view. -/
def HKResult.bestmodel (r : HKResult F) : Option (Row F) := r.stackvalues[r.bestIdx]?

/-- hkZhu.py:144-168, the body of the loop over traces at one grid point: one
weighted amplitude `stemp`.  `H` and `K` are numpy arrays as documented
(hkZhu.py:75-78), so `term1` is a numpy float; `rp` is a numpy float when the
slowness is one or when `stack == True` (`AvgSlow` comes from `np.mean`).
`dbgvalues` (hkZhu.py:138, 165-167) is write-only, its index never exceeds its
size, and it is left out (a complex delay stored there, a numpy complex because `Htemp` is a numpy
float, loses its imaginary part with a `ComplexWarning`, no exception). -/
def traceTerm (env : Env F) (t : List F) (stackedData : List F) (AvgSlow : F)
    (Vp : Scalar F) (w1 w2 w3 : F) (stack : Bool) (Ktemp Htemp : F) (tr : Trace F) :
    Except PyErr F := do
  let _b ← tr.getOnset                                     -- line 146
  let slow ← tr.getSlowness                                -- line 148
  let trdata := if stack then stackedData else tr.data     -- lines 145, 149-150
  let rp := if stack then env.km2deg1 * AvgSlow else env.km2deg1 * slow.val  -- 148, 151
  let rpKind := if stack then Kind.np else slow.kind
  let term1 := powHalf (square (Ktemp / Vp.val) - square rp)       -- line 153
  let invVp ← oneOver Vp
  let term2 := powHalfK (Vp.kind.join rpKind) (square invVp - square rp)   -- line 154
  let tps := PyNum.rmul Htemp (PyNum.rsub term1 term2)     -- line 155
  let tppps := PyNum.rmul Htemp (PyNum.radd term1 term2)   -- line 156
  let tpsps := PyNum.real (Htemp * two * term1)            -- line 157
  let ampps ← getamp trdata t tps                          -- line 159
  let ampppps ← getamp trdata t tppps                      -- line 160
  let amppsps ← getamp trdata t tpsps                      -- line 161
  pure ((w1 * ampps) + (w2 * ampppps) - (w3 * amppsps))    -- line 163

/-- hkZhu.py:143-169, one grid point: `s = 0.0; for tr in rfstream: s = stemp + s`. -/
def cell (env : Env F) (rfstream : List (Trace F)) (t : List F) (stackedData : List F)
    (AvgSlow : F) (Vp : Scalar F) (w1 w2 w3 : F) (stack : Bool) (Ktemp Htemp : F) :
    Except PyErr F :=
  rfstream.foldlM (fun s tr => do
    let stemp ← traceTerm env t stackedData AvgSlow Vp w1 w2 w3 stack Ktemp Htemp tr
    pure (stemp + s)) zero

/-- `hk`, hkZhu.py:66-195. -/
def hk (env : Env F) (rfstream : List (Trace F)) (preonset : F) (H K : List F)
    (Vp : Option (Scalar F)) (w1 w2 w3 : Option F) (layer : Option String)
    (stack : Option Bool) : Except PyErr (HKResult F) := do
  -- lines 116-121
  let Vp := Vp.getD ⟨.py, dec 65 1⟩
  let w1 := w1.getD (dec 6 1)
  let w2 := w2.getD (dec 3 1)
  let w3 := w3.getD (dec 1 1)
  let layer := layer.getD "Moho"
  let stack := stack.getD false
  -- lines 122-128
  let stackedRF ← env.stack rfstream
  let RFStacked ← item stackedRF 0
  let slowness ← rfstream.mapM Trace.getSlowness
  let AvgSlow := npMean (slowness.map Scalar.val)
  -- lines 130-136
  let tr0 ← item rfstream 0
  let t := timeAxis tr0.delta preonset tr0.data.length
  -- lines 137-171
  let stk ← gridLoop K H (cell env rfstream t RFStacked AvgSlow Vp w1 w2 w3 stack)
  let best ← argmax (stk.map Row.s)
  -- lines 173-186
  env.draw stk
  pure { RF := rfstream, RFStack := RFStacked, time := t, bestIdx := best,
         staname := tr0.station, Vp := Vp, stackvalues := stk, layer := layer,
         stack := stack, comp := tr0.channel, AvgSlow := AvgSlow, H := H, K := K }

/-- hkZhu.py:244-264: delay times of the best model for ray parameter `rp`. -/
def bestTimes (Vp : Scalar F) (rpKind : Kind) (rp Hbm Kbm : F) :
    Except PyErr (PyNum F × PyNum F × PyNum F) := do
  let term1 := powHalf (square (Kbm / Vp.val) - square rp)                 -- lines 248 / 257
  let invVp ← oneOver Vp
  let term2 := powHalfK (Vp.kind.join rpKind) (square invVp - square rp)   -- 249 / 258
  let tps := PyNum.rmul Hbm (PyNum.rsub term1 term2)
  let tppps := PyNum.rmul Hbm (PyNum.radd term1 term2)
  let tpsps := PyNum.real (Hbm * two * term1)
  pure (tps, tppps, tpsps)

/-- hkZhu.py:255-264: `for tr in rfstream: … tr.stats['tps'] = tps …`.  The traces
are changed in place, so an exception leaves the earlier ones annotated. -/
def annotate (env : Env F) (Vp : Scalar F) (Hbm Kbm : F) :
    List (Trace F) → List (Trace F) × Except PyErr Unit
  | [] => ([], .ok ())
  | tr :: trs =>
    match (do let slow ← tr.getSlowness
              bestTimes Vp slow.kind (env.km2deg1 * slow.val) Hbm Kbm) with
    | .error e => (tr :: trs, .error e)
    | .ok (tps, tppps, tpsps) =>
      let rest := annotate env Vp Hbm Kbm trs
      ((((tr.setStat "tps" tps).setStat "tppps" tppps).setStat "tpsps" tpsps) :: rest.1, rest.2)

/-- hkZhu.py:268-277: `(mintime, maxtime)`; other layer names leave the variables
unbound. -/
def layerLimits (layer : String) : Option (Int × Int) :=
  if layer = "Moho" then some (-5, 30)
  else if layer = "Sed" then some (-1, 10)
  else none

/-- hkZhu.py:271, 276: `span`. -/
def layerSpan (layer : String) : F := if layer = "Moho" then dec 5 1 else dec 1 1

/-- hkZhu.py:346-356 and 391-402: one receiver function of the second (third)
panel; `level` is the back azimuth (distance), `g0`/`g1` the gains. -/
def drawTrace (lim : Option (Int × Int)) (level : Option F) (g : List F) (g0 g1 : Nat)
    (rf : Trace F) : Except PyErr (Curve F) := do
  let lev ← getAttr level
  let onset ← getAttr rf.onset
  let b := rf.starttime - onset
  let tps ← rf.getStat "tps"
  let tppps ← rf.getStat "tppps"
  let tpsps ← rf.getStat "tpsps"
  let gain0 ← item g g0
  let rfdata := rf.data.map (fun x => x * gain0 + lev)
  let t := (List.range rfdata.length).map (fun i => ofNat i * rf.delta + b)
  match lim with                                  -- `timestep` at line 355 / 400
  | none => .error .unboundLocalError
  | some _ => pure ()
  let gain1 ← item g g1
  pure { axis := t, values := rfdata, level := lev, marks := (tps, tppps, tpsps), gain := gain1 }

/-- hkZhu.py:288-443: everything after the mutations.  Of matplotlib only what is
handed to it is kept.  The shaded ranges (lines 334-336, 383-385, 434-436) use the loop
variables `tps`, `tppps`, `tpsps`, which hold the times of the last trace after the loops. -/
def figure (env : Env F) (r : HKResult F) (bmod : Row F)
    (stackTimes : Option (PyNum F × PyNum F × PyNum F)) (savepath : String) (g : List F)
    (format : String) : Except PyErr (Figure F) := do
  env.draw r.stackvalues
  let hlim ← axisLimits r.H                                      -- line 301
  let klim ← axisLimits r.K                                      -- line 302
  let lim := layerLimits r.layer
  let filename := s!"{savepath}/{r.staname}_{r.comp}_{r.layer}.{format}"
  match stackTimes with
  | some times =>                                                -- lines 308-340
    let gain0 ← item g 0
    let rfdata := r.RFStack.map (fun x => x * gain0 + ofNat 180)
    match lim with                                               -- line 312
    | none => .error .unboundLocalError
    | some lim => do
      plotXY r.time rfdata                                       -- line 321
      let gain1 ← item g 1
      env.savefig filename
      pure { table := r.stackvalues, bestH := bmod.h, bestK := bmod.k, labelK := bmod.k + dec 1 3,
             hlim := hlim, klim := klim, xlim := lim,
             panel2 := [{ axis := r.time, values := rfdata, level := ofNat 180,
                          marks := times, gain := gain1 }],
             panel3 := [], bands2 := shade (layerSpan r.layer) times, bands3 := [],
             filename := filename }
  | none =>                                                      -- lines 341-443
    let p2 ← r.RF.mapM (fun rf => drawTrace lim rf.backAzimuth g 0 1 rf)
    match p2.getLast?, lim with
    | none, _ => .error .unboundLocalError                       -- `tps` at line 383
    | some _, none => .error .unboundLocalError
    | some last2, some lim => do
      let p3 ← r.RF.mapM (fun rf => drawTrace (some lim) rf.distance g 2 3 rf)
      let last3 := p3.getLast?.getD last2
      env.savefig filename
      pure { table := r.stackvalues, bestH := bmod.h, bestK := bmod.k, labelK := bmod.k + dec 1 3,
             hlim := hlim, klim := klim, xlim := lim,
             panel2 := p2, panel3 := p3, bands2 := shade (layerSpan r.layer) last2.marks,
             bands3 := shade (layerSpan r.layer) last3.marks, filename := filename }

/-- `plothk`, hkZhu.py:197-443.  Returns the mutated result dictionary and the
figure or exception. -/
def plothk (env : Env F) (r : HKResult F) (savepath : String) (g : Option (List F))
    (rmneg : Option Bool) (format : Option String) :
    HKResult F × Except PyErr (Figure F) :=
  let rmneg := rmneg.getD true                                    -- lines 230-232
  let format := format.getD "pdf"
  let g := g.getD [ofNat 75, ofNat 10, ofNat 15, dec 25 1]
  match r.bestmodel with
  | none => (r, .error .indexError)        -- not reachable: `bestmodel` is a view of a row
  | some bmod =>
    let times : HKResult F × Except PyErr (Option (PyNum F × PyNum F × PyNum F)) :=
      if r.stack then
        (r, (bestTimes r.Vp .np (env.km2deg1 * r.AvgSlow) bmod.h bmod.k).map some)  -- 241-250
      else
        let a := annotate env r.Vp bmod.h bmod.k r.RF             -- 253-264
        ({ r with RF := a.1 }, a.2.map (fun _ => none))
    match times with
    | (r, .error e) => (r, .error e)
    | (r, .ok stackTimes) =>
      let r := if rmneg then { r with stackvalues := clipLoop r.stackvalues } else r  -- 284-287
      (r, figure env r bmod stackTimes savepath g format)

end Rfsed.HkZhu
