import Verif.Model.Grid

/-!
# Model of the stacking part of `/repo/src/rfsed/SynthAnalysis.py`
-/

namespace Rfsed.SynthAnalysis
open PyFloat
variable {F : Type} [PyFloat F]

/-- `getamp`, SynthAnalysis.py:46-64: `rfdata[np.abs(tarray - t).argmin()]`. -/
def getamp (rfdata tarray : List F) (t : PyNum F) : Except PyErr F := do
  let i ← argmin (tarray.map (fun x => PyNum.absSub x t))
  item rfdata i

/-- The dictionary `hkSynth` returns (SynthAnalysis.py:188-189). -/
structure SynthResult (F : Type) where
  SynthRF : List F
  time : List F
  bestIdx : Nat
  Vp : Scalar F
  stackvalues : List (Row F)
  layer : String
  rayp : Scalar F
  H : List F
  K : List F

/-- `HKResultSynth['bestmodel']` read through the view. -/
def SynthResult.bestmodel (r : SynthResult F) : Option (Row F) := r.stackvalues[r.bestIdx]?

/-- SynthAnalysis.py:147-166, the value at one grid point of `hkSynth`. -/
def cell (trdata t : List F) (rp Vp : Scalar F) (w1 w2 w3 : F) (Ktemp Htemp : F) :
    Except PyErr F := do
  let s := zero
  let term1 := powHalf (square (Ktemp / Vp.val) - square rp.val)
  let invVp ← oneOver Vp
  let term2 := powHalfK (Vp.kind.join rp.kind) (square invVp - square rp.val)
  let tps := PyNum.rmul Htemp (PyNum.rsub term1 term2)
  let tppps := PyNum.rmul Htemp (PyNum.radd term1 term2)
  let tpsps := PyNum.real (Htemp * two * term1)
  let ampps ← getamp trdata t tps
  let ampppps ← getamp trdata t tppps
  let amppsps ← getamp trdata t tpsps
  let stemp := (w1 * ampps) + (w2 * ampppps) - (w3 * amppsps)
  pure (stemp + s)

/-- `hkSynth`, SynthAnalysis.py:67-190. -/
def hkSynth (env : Env F) (Synthrf time : List F) (rayp : Scalar F) (H K : List F)
    (Vp : Option (Scalar F)) (w1 w2 w3 : Option F) (layer : Option String) :
    Except PyErr (SynthResult F) := do
  let Vp := Vp.getD ⟨.py, dec 65 1⟩
  let w1 := w1.getD (dec 6 1)
  let w2 := w2.getD (dec 3 1)
  let w3 := w3.getD (dec 1 1)
  let layer := layer.getD "Moho"
  let stk ← gridLoop K H (cell Synthrf time rayp Vp w1 w2 w3)
  let best ← argmax (stk.map Row.s)
  env.draw stk
  pure { SynthRF := Synthrf, time := time, bestIdx := best, Vp := Vp, stackvalues := stk,
         layer := layer, rayp := rayp, H := H, K := K }

/-- SynthAnalysis.py:558-566: `(mintime, maxtime)`. -/
def layerLimits (layer : String) : Option (Int × Int) :=
  if layer = "Moho" then some (-5, 30)
  else if layer = "Sed" then some (-1, 10)
  else none

/-- SynthAnalysis.py:561, 566: `span`. -/
def layerSpan (layer : String) : F := if layer = "Moho" then dec 5 1 else dec 1 1

/-- `plothkSynth`, SynthAnalysis.py:499-637. -/
def plothkSynth (env : Env F) (r : SynthResult F) (savepath : String) (g : Option (List F))
    (rmneg : Option Bool) (format : Option String) : SynthResult F × Except PyErr (Figure F) :=
  let rmneg := rmneg.getD false
  let format := format.getD "pdf"
  let g := g.getD [ofNat 75, ofNat 10, ofNat 15, dec 25 1]
  match r.bestmodel with
  | none => (r, .error .indexError)        -- not reachable: view of a row
  | some bmod =>
    let term1 := powHalf (square (bmod.k / r.Vp.val) - square r.rayp.val)
    match oneOver r.Vp with
    | .error e => (r, .error e)
    | .ok invVp =>
      let term2 := powHalfK (r.Vp.kind.join r.rayp.kind) (square invVp - square r.rayp.val)
      let tps := PyNum.rmul bmod.h (PyNum.rsub term1 term2)
      let tppps := PyNum.rmul bmod.h (PyNum.radd term1 term2)
      let tpsps := PyNum.real (bmod.h * two * term1)
      let r := if rmneg then { r with stackvalues := clipLoop r.stackvalues } else r
      (r, do
        env.draw r.stackvalues
        let hlim ← axisLimits r.H                            -- lines 591-592
        let klim ← axisLimits r.K
        let gain0 ← item g 0
        match layerLimits r.layer with
        | none => .error .unboundLocalError
        | some lim => do
          plotXY r.time (r.SynthRF.map (fun x => x * gain0 + ofNat 180))
          let gain1 ← item g 1
          let filename := s!"{savepath}/SynthRF_{r.layer}.{format}"
          env.savefig filename
          pure { table := r.stackvalues, bestH := bmod.h, bestK := bmod.k,
                 labelK := bmod.k + dec 1 3, hlim := hlim, klim := klim, xlim := lim,
                 panel2 := [{ axis := r.time,
                              values := r.SynthRF.map (fun x => x * gain0 + ofNat 180),
                              level := ofNat 180, marks := (tps, tppps, tpsps), gain := gain1 }],
                 panel3 := [], bands2 := shade (layerSpan r.layer) (tps, tppps, tpsps),
                 bands3 := [], filename := filename })

/-- The dictionary `hkSeqSynth` returns (SynthAnalysis.py:398-403). -/
structure SeqSynthResult (F : Type) where
  SynthRFSed : List F
  SynthRFMoho : List F
  time : List F
  bestIdxSed : Nat
  stackvalueSed : List (Row F)
  bestIdxMoho : Nat
  stackvalueMoho : List (Row F)
  RayP : Scalar F
  VpSed : Scalar F
  VpMoho : Option (Scalar F)
  HSed : List F
  KSed : List F
  HMoho : List F
  KMoho : List F

/-- `bestmodelSed` read through the view. -/
def SeqSynthResult.bestmodelSed (r : SeqSynthResult F) : Option (Row F) :=
  r.stackvalueSed[r.bestIdxSed]?
/-- `bestmodelMoho` read through the view. -/
def SeqSynthResult.bestmodelMoho (r : SeqSynthResult F) : Option (Row F) :=
  r.stackvalueMoho[r.bestIdxMoho]?

/-- a required numeric argument; `None` in arithmetic raises `TypeError` -/
def need {α : Type} : Option α → Except PyErr α
  | some v => .ok v
  | none => .error .typeError

/-- SynthAnalysis.py:302-320, sediment stage of `hkSeqSynth` at one grid point. -/
def seqSedCell (trdata t : List F) (rp VpSed : Scalar F) (w1 w2 w3 : F) (Ktemp Htemp : F) :
    Except PyErr F := do
  let s := zero
  let term1 := powHalf (square (Ktemp / VpSed.val) - square rp.val)
  let invVp ← oneOver VpSed
  let term2 := powHalfK (VpSed.kind.join rp.kind) (square invVp - square rp.val)
  let tpsSed := PyNum.rmul Htemp (PyNum.rsub term1 term2)
  let tpppsSed := PyNum.rmul Htemp (PyNum.radd term1 term2)
  let tpspsSed := PyNum.real (Htemp * two * term1)
  let ampps ← getamp trdata t tpsSed
  let ampppps ← getamp trdata t tpppsSed
  let amppsps ← getamp trdata t tpspsSed
  let stemp := (w1 * ampps) + (w2 * ampppps) - (w3 * amppsps)
  pure (stemp + s)

/-- SynthAnalysis.py:351-373, Moho stage of `hkSeqSynth` at one grid point. -/
def seqMohoCell (trdata t : List F) (rp VpSed : Scalar F) (H1 K1 : F)
    (VpMoho : Option (Scalar F)) (w1 w2 w3 : Option F) (Ktemp Htemp : F) : Except PyErr F := do
  let s := zero
  let term1 := powHalf (square (K1 / VpSed.val) - square rp.val)
  let invVpSed ← oneOver VpSed
  let term2 := powHalfK (VpSed.kind.join rp.kind) (square invVpSed - square rp.val)
  let VpMoho ← need VpMoho
  let term3 := powHalf (square (Ktemp / VpMoho.val) - square rp.val)
  let invVpMoho ← oneOver VpMoho
  let term4 := powHalfK (VpMoho.kind.join rp.kind) (square invVpMoho - square rp.val)
  let tpsMoho := PyNum.add (PyNum.rmul H1 (PyNum.rsub term1 term2))
    (PyNum.rmul Htemp (PyNum.rsub term3 term4))
  let tpppsMoho := PyNum.add (PyNum.rmul H1 (PyNum.radd term1 term2))
    (PyNum.rmul Htemp (PyNum.radd term3 term4))
  let tpspsMoho := PyNum.real ((two * H1 * term1) + (two * Htemp * term3))
  let ampps ← getamp trdata t tpsMoho
  let ampppps ← getamp trdata t tpppsMoho
  let amppsps ← getamp trdata t tpspsMoho
  let w1 ← need w1
  let w2 ← need w2
  let w3 ← need w3
  let stemp := (w1 * ampps) + (w2 * ampppps) - (w3 * amppsps)
  pure (stemp + s)

/-- `hkSeqSynth`, SynthAnalysis.py:193-404 (`g` and `rmneg` are unused there and left
out; `VpMoho` and the Moho weights have no default). -/
def hkSeqSynth (env : Env F) (rfSynthSed rfSynthMoho time : List F) (rayp : Scalar F)
    (HSed KSed : List F) (VpSed : Option (Scalar F)) (w1Sed w2Sed w3Sed : Option F)
    (HMoho KMoho : List F) (VpMoho : Option (Scalar F)) (w1Moho w2Moho w3Moho : Option F) :
    Except PyErr (SeqSynthResult F) := do
  let VpSed := VpSed.getD ⟨.py, dec 30 1⟩
  let w1Sed := w1Sed.getD (dec 6 1)
  let w2Sed := w2Sed.getD (dec 3 1)
  let w3Sed := w3Sed.getD (dec 1 1)
  let stkSed ← gridLoop KSed HSed (seqSedCell rfSynthSed time rayp VpSed w1Sed w2Sed w3Sed)
  let bestSed ← argmax (stkSed.map Row.s)
  env.draw stkSed
  let bmodSed ← item stkSed bestSed
  let stkMoho ← gridLoop KMoho HMoho (seqMohoCell rfSynthMoho time rayp VpSed bmodSed.h bmodSed.k
    VpMoho w1Moho w2Moho w3Moho)
  let bestMoho ← argmax (stkMoho.map Row.s)
  let stkMoho := clipLoop stkMoho
  env.draw stkMoho
  pure { SynthRFSed := rfSynthSed, SynthRFMoho := rfSynthMoho, time := time,
         bestIdxSed := bestSed, stackvalueSed := stkSed, bestIdxMoho := bestMoho,
         stackvalueMoho := stkMoho, RayP := rayp, VpSed := VpSed, VpMoho := VpMoho,
         HSed := HSed, KSed := KSed, HMoho := HMoho, KMoho := KMoho }

/-- SynthAnalysis.py:695-699: sediment times of the best sediment model. -/
def seqSedTimes (VpSed rp : Scalar F) (H1 K1 : F) : Except PyErr (PyNum F × PyNum F × PyNum F) := do
  let term1 := powHalf (square (K1 / VpSed.val) - square rp.val)
  let invVp ← oneOver VpSed
  let term2 := powHalfK (VpSed.kind.join rp.kind) (square invVp - square rp.val)
  pure (PyNum.rmul H1 (PyNum.rsub term1 term2), PyNum.rmul H1 (PyNum.radd term1 term2),
    PyNum.real (H1 * two * term1))

/-- SynthAnalysis.py:777-784: Moho times of the two best models. -/
def seqMohoTimes (VpSed : Scalar F) (VpMoho : Option (Scalar F)) (rp : Scalar F)
    (H1 K1 H2 K2 : F) : Except PyErr (PyNum F × PyNum F × PyNum F) := do
  let term1 := powHalf (square (K1 / VpSed.val) - square rp.val)
  let invVpSed ← oneOver VpSed
  let term2 := powHalfK (VpSed.kind.join rp.kind) (square invVpSed - square rp.val)
  let VpMoho ← need VpMoho
  let term3 := powHalf (square (K2 / VpMoho.val) - square rp.val)
  let invVpMoho ← oneOver VpMoho
  let term4 := powHalfK (VpMoho.kind.join rp.kind) (square invVpMoho - square rp.val)
  pure (PyNum.add (PyNum.rmul H1 (PyNum.rsub term1 term2)) (PyNum.rmul H2 (PyNum.rsub term3 term4)),
    PyNum.add (PyNum.rmul H1 (PyNum.radd term1 term2)) (PyNum.rmul H2 (PyNum.radd term3 term4)),
    PyNum.real ((two * H1 * term1) + (two * H2 * term3)))

/-- `plothkSeqSynth`, SynthAnalysis.py:640-843: the mutated result, the figures saved
so far and the exception, if any.  (The sediment RF is drawn with half the gain,
line 735.) -/
def plothkSeqSynth (env : Env F) (r : SeqSynthResult F) (savepath : String) (g : Option (List F))
    (rmneg : Option Bool) (format : Option String) :
    SeqSynthResult F × List (Figure F) × Except PyErr Unit :=
  let rmneg := rmneg.getD false
  let format := format.getD "pdf"
  let g := g.getD [ofNat 75, ofNat 10, ofNat 15, dec 25 1]
  match r.bestmodelSed, r.bestmodelMoho with
  | some bmodSed, some bmodMoho =>
    match seqSedTimes r.VpSed r.RayP bmodSed.h bmodSed.k with
    | .error e => (r, [], .error e)
    | .ok timesSed =>
      let r := if rmneg then { r with stackvalueSed := clipLoop r.stackvalueSed } else r
      let fig1 : Except PyErr (Figure F) := do
        env.draw r.stackvalueSed
        let hlim ← axisLimits r.HSed
        let klim ← axisLimits r.KSed
        let gain0 ← item g 0
        plotXY r.time (r.SynthRFSed.map (fun x => x * (gain0 / two) + ofNat 180))
        let gain1 ← item g 1
        let filename := s!"{savepath}/SynthRF_SeqHK_Sediment.{format}"
        env.savefig filename
        pure { table := r.stackvalueSed, bestH := bmodSed.h, bestK := bmodSed.k,
               labelK := bmodSed.k + dec 1 3, hlim := hlim, klim := klim, xlim := (-1, 10),
               panel2 := [{ axis := r.time,
                            values := r.SynthRFSed.map (fun x => x * (gain0 / two) + ofNat 180),
                            level := ofNat 180, marks := timesSed, gain := gain1 }],
               panel3 := [], bands2 := [], bands3 := [], filename := filename }
      match fig1 with
      | .error e => (r, [], .error e)
      | .ok fig1 =>
        match seqMohoTimes r.VpSed r.VpMoho r.RayP bmodSed.h bmodSed.k bmodMoho.h bmodMoho.k with
        | .error e => (r, [fig1], .error e)
        | .ok timesMoho =>
          let r := if rmneg then { r with stackvalueMoho := clipLoop r.stackvalueMoho } else r
          let fig2 : Except PyErr (Figure F) := do
            env.draw r.stackvalueMoho
            let hlim ← axisLimits r.HMoho
            let klim ← axisLimits r.KMoho
            let gain0 ← item g 0
            plotXY r.time (r.SynthRFMoho.map (fun x => x * gain0 + ofNat 180))
            let gain1 ← item g 1
            let filename := s!"{savepath}/SynthRF_SeqHK_Moho.{format}"
            env.savefig filename
            pure { table := r.stackvalueMoho, bestH := bmodMoho.h, bestK := bmodMoho.k,
                   labelK := bmodMoho.k + dec 1 3, hlim := hlim, klim := klim, xlim := (-5, 30),
                   panel2 := [{ axis := r.time,
                                values := r.SynthRFMoho.map (fun x => x * gain0 + ofNat 180),
                                level := ofNat 180, marks := timesMoho, gain := gain1 }],
                   panel3 := [], bands2 := [], bands3 := [], filename := filename }
          match fig2 with
          | .error e => (r, [fig1], .error e)
          | .ok fig2 => (r, [fig1, fig2], .ok ())
  | _, _ => (r, [], .error .indexError)        -- not reachable: views of rows

end Rfsed.SynthAnalysis
