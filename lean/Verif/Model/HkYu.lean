import Verif.Model.Grid

/-!
# Model of `/repo/src/rfsed/hkYu.py`
-/

namespace Rfsed.HkYu
open PyFloat
variable {F : Type} [PyFloat F]

/-- `getamp`, hkYu.py:49-66: `rfdata[np.abs(tarray - t).argmin()]`. -/
def getamp (rfdata tarray : List F) (t : PyNum F) : Except PyErr F := do
  let i ← argmin (tarray.map (fun x => PyNum.absSub x t))
  item rfdata i

/-- The entries of the resonance-filter result that `hkYu` uses
(hkYu.py:130-133). -/
structure FltInput (F : Type) where
  filteredrf : List F
  time : List F
  tlag : Scalar F

/-- The dictionary `hkYu` returns (hkYu.py:192-196); `bestmodelSubSed` is a view. -/
structure YuResult (F : Type) where
  FltRF : List F
  time : List F
  tlag : Scalar F
  Pdelay : F
  rayp : Scalar F
  bestIdx : Nat
  VpMoho : Scalar F
  VpSed : Scalar F
  stackvaluesSubSed : List (Row F)
  HMoho : List F
  KMoho : List F
  SubSedThick : F
  SubSedVpVs : F
  SedThick : F

/-- `HKYuResult['bestmodelSubSed']` read through the view. -/
def YuResult.bestmodel (r : YuResult F) : Option (Row F) := r.stackvaluesSubSed[r.bestIdx]?

/-- a required numeric argument; `None` in arithmetic raises `TypeError` -/
def need {α : Type} : Option α → Except PyErr α
  | some v => .ok v
  | none => .error .typeError

/-- hkYu.py:146-167, the value at one grid point.  `None` weights stay `None`
(hkYu.py:125-127 assign the defaults to `w1`, `w2`, `w3`, which nothing reads), so
the multiplication in line 165 raises `TypeError`. -/
def cell (flt : FltInput F) (rp : Scalar F) (VpMoho : Scalar F) (Pdelay : F)
    (w1SubSed w2SubSed w3SubSed : Option F) (Ktemp Htemp : F) : Except PyErr F := do
  let s := zero
  let term1 := powHalf (square (Ktemp / VpMoho.val) - square rp.val)          -- line 150
  let invVp ← oneOver VpMoho
  let term2 := powHalfK (VpMoho.kind.join rp.kind) (square invVp - square rp.val)  -- line 151
  let tps := PyNum.rmul Htemp (PyNum.rsub term1 term2)
  let tppps := PyNum.rmul Htemp (PyNum.radd term1 term2)
  let tpsps := PyNum.real (Htemp * two * term1)
  let tpsSubSed := PyNum.addr tps Pdelay                              -- line 157
  let tpppsSubSed := PyNum.subr (PyNum.addr tppps flt.tlag.val) Pdelay  -- line 158
  let tpspsSubSed := PyNum.addr tpsps flt.tlag.val                    -- line 159
  let ampps ← getamp flt.filteredrf flt.time tpsSubSed
  let ampppps ← getamp flt.filteredrf flt.time tpppsSubSed
  let amppsps ← getamp flt.filteredrf flt.time tpspsSubSed
  let w1 ← need w1SubSed
  let w2 ← need w2SubSed
  let w3 ← need w3SubSed
  let stemp := (w1 * ampps) + (w2 * ampppps) - (w3 * amppsps)
  pure (stemp + s)

/-- `hkYu`, hkYu.py:69-198. -/
def hkYu (env : Env F) (flt : FltInput F) (rayp : Scalar F) (HSubSed KSubSed : List F)
    (VpMoho VpSed VsSed : Option (Scalar F)) (w1SubSed w2SubSed w3SubSed : Option F) :
    Except PyErr (YuResult F) := do
  let VpMoho := VpMoho.getD ⟨.py, dec 65 1⟩                           -- line 123
  let VpSed := VpSed.getD ⟨.py, dec 25 1⟩                             -- line 124
  let VsSed ← need VsSed
  let SedH : Scalar F :=                                              -- line 135
    ⟨flt.tlag.kind.join VsSed.kind, flt.tlag.val * VsSed.val / two⟩
  let a ← scalarDiv SedH VsSed                                        -- line 138
  let b ← scalarDiv SedH VpSed
  let Pdelay := a.val - b.val
  let stk ← gridLoop KSubSed HSubSed
    (cell flt rayp VpMoho Pdelay w1SubSed w2SubSed w3SubSed)          -- lines 141-168
  let best ← argmax (stk.map Row.s)                                   -- line 169
  env.draw stk
  let bmod ← item stk best
  pure { FltRF := flt.filteredrf, time := flt.time, tlag := flt.tlag, Pdelay := Pdelay,
         rayp := rayp, bestIdx := best, VpMoho := VpMoho, VpSed := VpSed,
         stackvaluesSubSed := stk, HMoho := HSubSed, KMoho := KSubSed,
         SubSedThick := bmod.h, SubSedVpVs := bmod.k, SedThick := SedH.val }

/-- `plothkYu`, hkYu.py:201-333. -/
def plothkYu (env : Env F) (r : YuResult F) (savepath : String) (g : Option (List F))
    (rmneg : Option Bool) (format : Option String) : YuResult F × Except PyErr (Figure F) :=
  let rmneg := rmneg.getD false                                       -- lines 241-243
  let format := format.getD "pdf"
  let g := g.getD [ofNat 75, ofNat 10, ofNat 15, dec 25 1]
  match r.bestmodel with
  | none => (r, .error .indexError)        -- not reachable: view of a row
  | some bmod =>
    let H2 := bmod.h
    let K2 := bmod.k
    let term1 := powHalf (square (K2 / r.VpMoho.val) - square r.rayp.val)     -- line 262
    match oneOver r.VpMoho with
    | .error e => (r, .error e)
    | .ok invVp =>
      let term2 := powHalfK (r.VpMoho.kind.join r.rayp.kind) (square invVp - square r.rayp.val)
      let tps := PyNum.rmul H2 (PyNum.rsub term1 term2)
      let tppps := PyNum.rmul H2 (PyNum.radd term1 term2)
      let tpsps := PyNum.real (H2 * two * term1)
      let tpsSubSed := PyNum.addr tps r.Pdelay                        -- lines 269-271
      let tpppsSubSed := PyNum.subr (PyNum.addr tppps r.tlag.val) r.Pdelay
      let tpspsSubSed := PyNum.addr tpsps r.tlag.val
      let r := if rmneg then { r with stackvaluesSubSed := clipLoop r.stackvaluesSubSed } else r
      (r, do
        env.draw r.stackvaluesSubSed
        let hlim ← axisLimits r.HMoho                                 -- lines 295-296
        let klim ← axisLimits r.KMoho
        let gain0 ← item g 0
        plotXY r.time (r.FltRF.map (fun x => x * gain0 + ofNat 180))  -- line 313
        let gain1 ← item g 1
        let filename := s!"{savepath}/FilteredRF_HKYu_SubSediment.{format}"
        env.savefig filename
        pure { table := r.stackvaluesSubSed, bestH := H2, bestK := K2, labelK := K2 + dec 1 3,
               hlim := hlim, klim := klim, xlim := (-5, 30),
               panel2 := [{ axis := r.time, values := r.FltRF.map (fun x => x * gain0 + ofNat 180),
                            level := ofNat 180, marks := (tpsSubSed, tpppsSubSed, tpspsSubSed),
                            gain := gain1 }],
               panel3 := [], bands2 := [], bands3 := [], filename := filename })

end Rfsed.HkYu
