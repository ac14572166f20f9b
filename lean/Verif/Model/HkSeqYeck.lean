import Verif.Model.Grid

/-!
# Model of `/repo/src/rfsed/hkSeqYeck.py`
-/

namespace Rfsed.HkSeqYeck
open PyFloat
variable {F : Type} [PyFloat F]

/-- `getamp`, hkSeqYeck.py:48-65: `rfdata[np.abs(tarray - t).argmin()]`. -/
def getamp (rfdata tarray : List F) (t : PyNum F) : Except PyErr F := do
  let i ← argmin (tarray.map (fun x => PyNum.absSub x t))
  item rfdata i

/-- The dictionary `hkSeq` returns (hkSeqYeck.py:283-290).  Both best models are
views of a row of their table (hkSeqYeck.py:198, 259); only the indices are kept. -/
structure SeqResult (F : Type) where
  RFSed : List (Trace F)
  RFSedStack : List F
  RFMoho : List (Trace F)
  RFMohoStack : List F
  time : List F
  bestIdxSed : Nat
  stackvalueSed : List (Row F)
  bestIdxMoho : Nat
  stackvalueMoho : List (Row F)
  stack : Bool
  comp : String
  AvgSlow : F
  VpSed : Scalar F
  VpMoho : Option (Scalar F)
  HSed : List F
  KSed : List F
  HMoho : List F
  KMoho : List F
  staname : String

/-- `SequentialHKResult['bestmodelSed']` read through the view. -/
def SeqResult.bestmodelSed (r : SeqResult F) : Option (Row F) := r.stackvalueSed[r.bestIdxSed]?
/-- `SequentialHKResult['bestmodelMoho']` read through the view. -/
def SeqResult.bestmodelMoho (r : SeqResult F) : Option (Row F) := r.stackvalueMoho[r.bestIdxMoho]?

/-- a required numeric argument; `None` in arithmetic raises `TypeError` -/
def need {α : Type} : Option α → Except PyErr α
  | some v => .ok v
  | none => .error .typeError

/-- hkSeqYeck.py:175-196, one trace in the sediment stage: the value of `sSed`
(`sSed = stemp + s` with `s = 0.0`). -/
def sedTerm (env : Env F) (t stackedData : List F) (AvgSlow : F) (VpSed : Scalar F)
    (w1 w2 w3 : F) (stack : Bool) (Ktemp Htemp : F) (tr : Trace F) : Except PyErr F := do
  let s := zero                                            -- line 174
  let _b ← tr.getOnset                                     -- line 177
  let slow ← tr.getSlowness                                -- line 179
  let trdata := if stack then stackedData else tr.data     -- lines 176, 181
  let rp := if stack then env.km2deg1 * AvgSlow else env.km2deg1 * slow.val
  let rpKind := if stack then Kind.np else slow.kind
  let term1 := powHalf (square (Ktemp / VpSed.val) - square rp)
  let invVp ← oneOver VpSed
  let term2 := powHalfK (VpSed.kind.join rpKind) (square invVp - square rp)
  let tpsSed := PyNum.rmul Htemp (PyNum.rsub term1 term2)
  let tpppsSed := PyNum.rmul Htemp (PyNum.radd term1 term2)
  let tpspsSed := PyNum.real (Htemp * two * term1)
  let ampps ← getamp trdata t tpsSed
  let ampppps ← getamp trdata t tpppsSed
  let amppsps ← getamp trdata t tpspsSed
  let stemp := (w1 * ampps) + (w2 * ampppps) - (w3 * amppsps)
  pure (stemp + s)

/-- hkSeqYeck.py:232-255, one trace in the Moho stage: the value of `sMoho`.
`VpMoho` and the Moho weights have no default (hkSeqYeck.py:143-148), so `None`
raises `TypeError` where it is first used. -/
def mohoTerm (env : Env F) (rfstreamMoho : List (Trace F)) (t stackedData : List F) (AvgSlow : F)
    (VpSed : Scalar F) (H1 K1 : F) (VpMoho : Option (Scalar F)) (w1 w2 w3 : Option F)
    (stack : Bool) (Ktemp Htemp : F) (tr : Trace F) : Except PyErr F := do
  let s := zero                                            -- line 232
  let tr0 ← item rfstreamMoho 0                            -- line 235
  let _b ← tr0.getOnset
  let slow ← tr.getSlowness                                -- line 237
  let trdata := if stack then stackedData else tr.data
  let rp := if stack then env.km2deg1 * AvgSlow else env.km2deg1 * slow.val
  let rpKind := if stack then Kind.np else slow.kind
  let term1 := powHalf (square (K1 / VpSed.val) - square rp)
  let invVpSed ← oneOver VpSed
  let term2 := powHalfK (VpSed.kind.join rpKind) (square invVpSed - square rp)
  let VpMoho ← need VpMoho
  let term3 := powHalf (square (Ktemp / VpMoho.val) - square rp)
  let invVpMoho ← oneOver VpMoho
  let term4 := powHalfK (VpMoho.kind.join rpKind) (square invVpMoho - square rp)
  let tpsMoho := PyNum.add (PyNum.rmul H1 (PyNum.rsub term1 term2))
    (PyNum.rmul Htemp (PyNum.rsub term3 term4))
  let tpppsMoho := PyNum.add (PyNum.rmul H1 (PyNum.radd term1 term2))
    (PyNum.rmul Htemp (PyNum.radd term3 term4))
  let tpspsMoho := PyNum.real ((two * H1 * term1) + (two * Htemp * term3))
  let ampps ← getamp trdata t tpsMoho
  let ampppps ← getamp trdata t tpppsMoho
  let amppsps ← getamp trdata t tpspsMoho
  let w1 ← need w1
  let w2 ← need w2
  let w3 ← need w3
  let stemp := (w1 * ampps) + (w2 * ampppps) - (w3 * amppsps)
  pure (stemp + s)

/-- The loop `for tr in …: … sSed = stemp + s` of hkSeqYeck.py:175-196 / 232-257:
`s` stays `0.0`, the accumulator variable is overwritten by every trace and is
unbound when there is no trace. -/
def lastTrace (term : Trace F → Except PyErr F) (rfstream : List (Trace F)) : Except PyErr F := do
  let acc ← rfstream.foldlM (fun (_ : Option F) tr => do
    let v ← term tr
    pure (some v)) none
  match acc with
  | some v => .ok v
  | none => .error .unboundLocalError

/-- `hkSeq`, hkSeqYeck.py:68-291 (the argument `g` is unused and left out). -/
def hkSeq (env : Env F) (rfstreamSed rfstreamMoho : List (Trace F)) (preonset : F)
    (HSed KSed : List F) (VpSed : Option (Scalar F)) (w1Sed w2Sed w3Sed : Option F)
    (HMoho KMoho : List F) (VpMoho : Option (Scalar F)) (w1Moho w2Moho w3Moho : Option F)
    (stack : Option Bool) : Except PyErr (SeqResult F) := do
  -- lines 143-148
  let VpSed := VpSed.getD ⟨.py, dec 30 1⟩
  let w1Sed := w1Sed.getD (dec 6 1)
  let w2Sed := w2Sed.getD (dec 3 1)
  let w3Sed := w3Sed.getD (dec 1 1)
  let stack := stack.getD false
  -- lines 149-164
  let stackedSed ← env.stack rfstreamSed
  let RFStackedSed ← item stackedSed 0
  let stackedMoho ← env.stack rfstreamMoho
  let RFStackedMoho ← item stackedMoho 0
  let tr0 ← item rfstreamSed 0
  let slowness ← rfstreamMoho.mapM Trace.getSlowness
  let AvgSlow := npMean (slowness.map Scalar.val)
  let t := timeAxis tr0.delta preonset tr0.data.length
  -- lines 168-198
  let stkSed ← gridLoop KSed HSed (fun Ktemp Htemp =>
    lastTrace (sedTerm env t RFStackedSed AvgSlow VpSed w1Sed w2Sed w3Sed stack Ktemp Htemp)
      rfstreamSed)
  let bestSed ← argmax (stkSed.map Row.s)
  env.draw stkSed
  let bmodSed ← item stkSed bestSed
  -- lines 226-259
  let stkMoho ← gridLoop KMoho HMoho (fun Ktemp Htemp =>
    lastTrace (mohoTerm env rfstreamMoho t RFStackedMoho AvgSlow VpSed bmodSed.h bmodSed.k
      VpMoho w1Moho w2Moho w3Moho stack Ktemp Htemp) rfstreamMoho)
  let bestMoho ← argmax (stkMoho.map Row.s)
  -- lines 262-264
  let stkMoho := clipLoop stkMoho
  env.draw stkMoho
  pure { RFSed := rfstreamSed, RFSedStack := RFStackedSed, RFMoho := rfstreamMoho,
         RFMohoStack := RFStackedMoho, time := t, bestIdxSed := bestSed,
         stackvalueSed := stkSed, bestIdxMoho := bestMoho, stackvalueMoho := stkMoho,
         stack := stack, comp := tr0.channel, AvgSlow := AvgSlow, VpSed := VpSed,
         VpMoho := VpMoho, HSed := HSed, KSed := KSed, HMoho := HMoho, KMoho := KMoho,
         staname := tr0.station }

/-! ## `plotSeqhk` -/

/-- the three marked times -/
abbrev Times (F : Type) := PyNum F × PyNum F × PyNum F

/-- hkSeqYeck.py:349-353 and 358-362: sediment times of the best sediment model. -/
def sedTimes (VpSed : Scalar F) (rpKind : Kind) (rp H1 K1 : F) : Except PyErr (Times F) := do
  let term1 := powHalf (square (K1 / VpSed.val) - square rp)
  let invVp ← oneOver VpSed
  let term2 := powHalfK (VpSed.kind.join rpKind) (square invVp - square rp)
  pure (PyNum.rmul H1 (PyNum.rsub term1 term2), PyNum.rmul H1 (PyNum.radd term1 term2),
    PyNum.real (H1 * two * term1))

/-- hkSeqYeck.py:560-567 and 573-580: Moho times of the two best models. -/
def mohoTimes (VpSed : Scalar F) (VpMoho : Option (Scalar F)) (rpKind : Kind)
    (rp H1 K1 H2 K2 : F) : Except PyErr (Times F) := do
  let term1 := powHalf (square (K1 / VpSed.val) - square rp)
  let invVpSed ← oneOver VpSed
  let term2 := powHalfK (VpSed.kind.join rpKind) (square invVpSed - square rp)
  let VpMoho ← need VpMoho
  let term3 := powHalf (square (K2 / VpMoho.val) - square rp)
  let invVpMoho ← oneOver VpMoho
  let term4 := powHalfK (VpMoho.kind.join rpKind) (square invVpMoho - square rp)
  pure (PyNum.add (PyNum.rmul H1 (PyNum.rsub term1 term2)) (PyNum.rmul H2 (PyNum.rsub term3 term4)),
    PyNum.add (PyNum.rmul H1 (PyNum.radd term1 term2)) (PyNum.rmul H2 (PyNum.radd term3 term4)),
    PyNum.real ((two * H1 * term1) + (two * H2 * term3)))

/-- hkSeqYeck.py:356-365 and 571-584: `for tr in …: … tr.stats[key] = …`.  The traces
are changed in place, so an exception leaves the earlier ones annotated. -/
def annotate (env : Env F) (times : Kind → F → Except PyErr (Times F)) (k1 k2 k3 : String) :
    List (Trace F) → List (Trace F) × Except PyErr Unit
  | [] => ([], .ok ())
  | tr :: trs =>
    match (do let slow ← tr.getSlowness
              times slow.kind (env.km2deg1 * slow.val)) with
    | .error e => (tr :: trs, .error e)
    | .ok (t1, t2, t3) =>
      let rest := annotate env times k1 k2 k3 trs
      ((((tr.setStat k1 t1).setStat k2 t2).setStat k3 t3) :: rest.1, rest.2)

/-- hkSeqYeck.py:439-473, 488-525, 649-683, 697-734: one receiver function of the
second (third) panel. -/
def drawTrace (k1 k2 k3 : String) (level : Option F) (g : List F) (g0 g1 : Nat)
    (rf : Trace F) : Except PyErr (Curve F) := do
  let lev ← getAttr level
  let onset ← getAttr rf.onset
  let b := rf.starttime - onset
  let t1 ← rf.getStat k1
  let t2 ← rf.getStat k2
  let t3 ← rf.getStat k3
  let gain0 ← item g g0
  let rfdata := rf.data.map (fun x => x * gain0 + lev)
  let t := (List.range rfdata.length).map (fun i => ofNat i * rf.delta + b)
  let gain1 ← item g g1
  pure { axis := t, values := rfdata, level := lev, marks := (t1, t2, t3), gain := gain1 }

/-- hkSeqYeck.py:382-542 (sediment) and 593-746 (Moho): the figure of one stage, after
the mutations.  Of matplotlib only what is handed to it is kept.  Ranges are shaded (lines
477-479, 529-531 with `span` 0.1; 687-689, 738-740 with `span` 0.5) only without stacking and, because they
use the loop variables, around the times of the last trace. -/
def stageFigure (env : Env F) (table : List (Row F)) (bmod : Row F) (H K : List F) (xlim : Int × Int)
    (span : F) (stackTimes : Option (Times F)) (RF : List (Trace F)) (RFStack time : List F)
    (k1 k2 k3 : String) (g : List F) (filename : String) : Except PyErr (Figure F) := do
  env.draw table
  let hlim ← axisLimits H                                -- lines 396 / 605
  let klim ← axisLimits K
  match stackTimes with
  | some times => do
    let gain0 ← item g 0
    let rfdata := RFStack.map (fun x => x * gain0 + ofNat 180)
    plotXY time rfdata
    let gain1 ← item g 1
    env.savefig filename
    pure { table := table, bestH := bmod.h, bestK := bmod.k, labelK := bmod.k + dec 1 3,
           hlim := hlim, klim := klim, xlim := xlim,
           panel2 := [{ axis := time, values := rfdata, level := ofNat 180, marks := times,
                        gain := gain1 }],
           panel3 := [], bands2 := [], bands3 := [], filename := filename }
  | none => do
    let p2 ← RF.mapM (fun rf => drawTrace k1 k2 k3 rf.backAzimuth g 0 1 rf)
    match p2.getLast? with
    | none => .error .unboundLocalError                  -- `tpsSed` at line 477 / `tpsMoho` at 687
    | some last2 => do
      let p3 ← RF.mapM (fun rf => drawTrace k1 k2 k3 rf.distance g 2 3 rf)
      let last3 := p3.getLast?.getD last2
      env.savefig filename
      pure { table := table, bestH := bmod.h, bestK := bmod.k, labelK := bmod.k + dec 1 3,
             hlim := hlim, klim := klim, xlim := xlim, panel2 := p2, panel3 := p3,
             bands2 := shade span last2.marks, bands3 := shade span last3.marks,
             filename := filename }

/-- hkSeqYeck.py:335-543, the sediment stage of `plotSeqhk`. -/
def plotSed (env : Env F) (r : SeqResult F) (bmodSed : Row F) (savepath : String) (g : List F)
    (rmneg : Bool) (format : String) : SeqResult F × Except PyErr (Figure F) :=
  let st : SeqResult F × Except PyErr (Option (Times F)) :=
    if r.stack then
      (r, (sedTimes r.VpSed .np (env.km2deg1 * r.AvgSlow) bmodSed.h bmodSed.k).map some)
    else
      let a := annotate env (fun kd rp => sedTimes r.VpSed kd rp bmodSed.h bmodSed.k)
        "tpsSed" "tpppsSed" "tpspsSed" r.RFSed
      ({ r with RFSed := a.1 }, a.2.map (fun _ => none))
  match st with
  | (r, .error e) => (r, .error e)
  | (r, .ok times) =>
    let r := if rmneg then { r with stackvalueSed := clipLoop r.stackvalueSed } else r
    (r, stageFigure env r.stackvalueSed bmodSed r.HSed r.KSed (-1, 10) (dec 1 1) times r.RFSed r.RFSedStack r.time
      "tpsSed" "tpppsSed" "tpspsSed" g s!"{savepath}/{r.staname}_{r.comp}_Sediment.{format}")

/-- hkSeqYeck.py:547-746, the Moho stage of `plotSeqhk`. -/
def plotMoho (env : Env F) (r : SeqResult F) (bmodSed bmodMoho : Row F) (savepath : String)
    (g : List F) (rmneg : Bool) (format : String) : SeqResult F × Except PyErr (Figure F) :=
  let st : SeqResult F × Except PyErr (Option (Times F)) :=
    if r.stack then
      (r, (mohoTimes r.VpSed r.VpMoho .np (env.km2deg1 * r.AvgSlow) bmodSed.h bmodSed.k
        bmodMoho.h bmodMoho.k).map some)
    else
      let a := annotate env (fun kd rp => mohoTimes r.VpSed r.VpMoho kd rp bmodSed.h bmodSed.k
        bmodMoho.h bmodMoho.k) "tpsMoho" "tpppsMoho" "tpspsMoho" r.RFMoho
      ({ r with RFMoho := a.1 }, a.2.map (fun _ => none))
  match st with
  | (r, .error e) => (r, .error e)
  | (r, .ok times) =>
    let r := if rmneg then { r with stackvalueMoho := clipLoop r.stackvalueMoho } else r
    (r, stageFigure env r.stackvalueMoho bmodMoho r.HMoho r.KMoho (-5, 30) (dec 5 1) times r.RFMoho r.RFMohoStack r.time
      "tpsMoho" "tpppsMoho" "tpspsMoho" g s!"{savepath}/{r.staname}_{r.comp}_Moho.{format}")

/-- `plotSeqhk`, hkSeqYeck.py:293-746: the mutated result, the figures saved so far and
the exception, if any.  Simplification: `RFSed` and `RFMoho` are separate values even
if the caller passed one stream for both. -/
def plotSeqhk (env : Env F) (r : SeqResult F) (savepath : String) (g : Option (List F))
    (rmneg : Option Bool) (format : Option String) :
    SeqResult F × List (Figure F) × Except PyErr Unit :=
  let rmneg := rmneg.getD true                                     -- lines 332-334
  let format := format.getD "pdf"
  let g := g.getD [ofNat 75, ofNat 10, ofNat 15, dec 25 1]
  match r.bestmodelSed, r.bestmodelMoho with
  | some bmodSed, some bmodMoho =>
    match plotSed env r bmodSed savepath g rmneg format with
    | (r, .error e) => (r, [], .error e)
    | (r, .ok fig1) =>
      match plotMoho env r bmodSed bmodMoho savepath g rmneg format with
      | (r, .error e) => (r, [fig1], .error e)
      | (r, .ok fig2) => (r, [fig1, fig2], .ok ())
  | _, _ => (r, [], .error .indexError)        -- not reachable: views of rows

end Rfsed.HkSeqYeck
