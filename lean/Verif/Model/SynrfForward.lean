import Verif.Model.Deconv
import Mathlib.Data.Matrix.Mul
import Mathlib.LinearAlgebra.Matrix.Notation

/-!
# Model of the forward modelling part of `/repo/src/rfsed/synrf.py`

Exact real and complex arithmetic.  The velocities, densities and thicknesses are numpy arrays, so
their arithmetic never raises; where it yields NaN the model says so explicitly.
-/

namespace Rfsed.Synrf
open PyFloat

/-- complex 4×4 matrices (`np.zeros([4,4], dtype=complex)`) -/
abbrev Mat4 := Matrix (Fin 4) (Fin 4) ℂ

/-- `np.sqrt(1.0/(v*v) - p*p)`, synrf.py:359-360 and 392-393: the vertical slowness. -/
noncomputable def vslow (v p : ℝ) : ℝ := Real.sqrt (1 / (v * v) - p * p)

/-- `ei = 0+1j`, synrf.py:350 -/
noncomputable def ei : ℂ := Complex.I

/-- `e_inverse`, synrf.py:352-379.  The values are those of the code wherever the code yields no
NaN; `haskell` below takes care of NaN. -/
noncomputable def eInverse (ω ρ α β p : ℝ) : Mat4 :=
  let η := vslow β p
  let ξ := vslow α p
  let bp := 1 - 2 * β * β * p * p
  let e00 : ℂ := ((β * β * p / α : ℝ) : ℂ)
  let e01 : ℂ := ((bp / (2 * α * ξ) : ℝ) : ℂ)
  let e02 : ℂ := ((-p / (2 * ω * ρ * α * ξ) : ℝ) : ℂ) * ei
  let e03 : ℂ := ((-1 / (2 * ω * ρ * α) : ℝ) : ℂ) * ei
  let e10 : ℂ := ((bp / (2 * β * η) : ℝ) : ℂ)
  let e11 : ℂ := ((-β * p : ℝ) : ℂ)
  let e12 : ℂ := ((-1 / (2 * ω * ρ * β) : ℝ) : ℂ) * ei
  let e13 : ℂ := ((p / (2 * ω * ρ * β * η) : ℝ) : ℂ) * ei
  !![e00, e01, e02, e03;
     e10, e11, e12, e13;
     e00, -e01, -e02, e03;
     e10, -e11, -e12, e13]

/-- `propagator_sol`, synrf.py:382-416 (values as in `eInverse`). -/
noncomputable def propagatorSol (ω ρ α β p z : ℝ) : Mat4 :=
  let β2 := β * β
  let p2 := p * p
  let bp := 1 - 2 * β2 * p2
  let η := vslow β p
  let ξ := vslow α p
  let cx := Real.cos (ω * ξ * z)
  let ce := Real.cos (ω * η * z)
  let sx := Real.sin (ω * ξ * z)
  let se := Real.sin (ω * η * z)
  let p00 : ℂ := ((2 * β2 * p2 * cx + bp * ce : ℝ) : ℂ)
  let p01 : ℂ := ((p * (bp / ξ * sx - 2 * β2 * η * se) : ℝ) : ℂ) * ei
  let p02 : ℂ := (((p2 / ξ * sx + η * se) / (ω * ρ) : ℝ) : ℂ)
  let p03 : ℂ := ((p * (-cx + ce) / (ω * ρ) : ℝ) : ℂ) * ei
  let p10 : ℂ := ((p * (2 * β2 * ξ * sx - bp / η * se) : ℝ) : ℂ) * ei
  let p11 : ℂ := ((bp * cx + 2 * β2 * p2 * ce : ℝ) : ℂ)
  let p12 : ℂ := p03
  let p13 : ℂ := (((ξ * sx + p2 / η * se) / (ω * ρ) : ℝ) : ℂ)
  let p20 : ℂ := ((ω * ρ * (-4 * β2 * β2 * p2 * ξ * sx - bp * bp / η * se) : ℝ) : ℂ)
  let p21 : ℂ := ((2 * ω * β2 * ρ * p * bp * (cx - ce) : ℝ) : ℂ) * ei
  let p31 : ℂ := ((-ω * ρ * (bp * bp / ξ * sx + 4 * β2 * β2 * p2 * η * se) : ℝ) : ℂ)
  !![p00, p01, p02, p03;
     p10, p11, p12, p13;
     p20, p21, p00, p10;
     p21, p31, p01, p11]

/-- The vertical slownesses of a layer are positive numbers: otherwise `np.sqrt` of a negative
number, `bp/0*0`, `1/0` or `np.cos(inf)` make columns 0 and 1 of `propagator_sol` and the
corresponding row of `e_inverse` NaN. -/
def layerFinite (α β p : ℝ) : Prop :=
  α ≠ 0 ∧ β ≠ 0 ∧ 0 < 1 / (α * α) - p * p ∧ 0 < 1 / (β * β) - p * p

/-- last entry, `a[-1]` -/
def lastItem {R : Type} (a : List R) : Except PyErr R := item a (a.length - 1)

/-- synrf.py:422-425: the product of the propagators, top layer first.  The accumulator is the
matrix so far and whether it is free of NaN (a zero density in a layer below the top one makes
its propagator's last two columns NaN, and with them the product; in the top layer those
columns are not used). -/
noncomputable def propProduct (ω p : ℝ) (nl : Nat) (alpha beta rho h : List ℝ) :
    Except PyErr (Mat4 × Prop) := do
  let r0 ← item rho 0
  let a0 ← item alpha 0
  let b0 ← item beta 0
  let h0 ← item h 0
  (List.range' 1 (nl - 1)).foldlM (fun (acc : Mat4 × Prop) (i : Nat) => do
      let r ← item rho i
      let a ← item alpha i
      let b ← item beta i
      let z ← item h i
      pure (propagatorSol ω r a b p z * acc.1, acc.2 ∧ layerFinite a b p ∧ r ≠ 0))
    (propagatorSol ω r0 a0 b0 p h0, layerFinite a0 b0 p)

open Classical in
/-- `haskell`, synrf.py:418-437.  `none` stands for a pair of NaN: a layer that is used is not
`layerFinite`, has zero density, or the determinant vanishes.  With one layer (`nl = 1`) the
propagator is computed and discarded, so only the half-space entries matter (and of these, not the
density, which only enters columns 2 and 3). -/
noncomputable def haskell (ω p : ℝ) (nl : Nat) (ipha : ℤ) (alpha beta rho h : List ℝ) :
    Except PyErr (Option (ℂ × ℂ)) := do
  let rl ← lastItem rho
  let al ← lastItem alpha
  let bl ← lastItem beta
  let e_inv := eInverse ω rl al bl p
  let (p_mat, fin) ← propProduct ω p nl alpha beta rho h
  let (sl, fin) := if 1 < nl then (e_inv * p_mat, fin ∧ layerFinite al bl p ∧ rl ≠ 0)
    else (e_inv, layerFinite al bl p)
  let denom := sl 2 0 * sl 3 1 - sl 2 1 * sl 3 0
  if ¬ fin ∨ denom = 0 then pure none
  else if 0 ≤ ipha then pure (some (sl 3 1 / denom, -sl 3 0 / denom))
  else pure (some (-sl 2 1 / denom, sl 2 0 / denom))

/-- A one-dimensional array of floats: numbers, or NaN everywhere. -/
inductive Samples where
  | nan (n : Nat)
  | num (x : List ℝ)

/-- `len` -/
def Samples.size : Samples → Nat
  | .nan n => n
  | .num x => x.length

/-- `x[0:n]` -/
def Samples.take (n : Nat) : Samples → Samples
  | .nan m => .nan (min n m)
  | .num x => .num (x.take n)

/-- synrf.py:440-447: the spectra of the radial and the vertical component, `none` if a bin is
NaN.  `dt` is a Python float. -/
noncomputable def fwdSpectra (rayp dt : ℝ) (npts_max : Nat) (ipha : ℤ)
    (alpha beta rho h : List ℝ) : Except PyErr (Option (List ℂ × List ℂ)) :=
  let nlay := h.length
  let nhalf := npts_max / 2 + 1
  (List.range' 1 (nhalf - 1)).foldlM (fun (acc : Option (List ℂ × List ℂ)) (i : Nat) => do
      let omg ← scalarDiv ⟨.py, 2 * Real.pi * (i : ℝ)⟩ ⟨.py, (npts_max : ℝ) * dt⟩
      let u ← haskell omg.val rayp nlay ipha alpha beta rho h
      match acc, u with
      | some (ur, uz), some (a, b) =>
          let ur ← setItem ur i a
          let uz ← setItem uz i b
          pure (some (ur, uz))
      | _, _ => pure none)
    (some (List.replicate npts_max (0 : ℂ), List.replicate npts_max (0 : ℂ)))

/-- `fwd_seis`, synrf.py:439-452.  One NaN bin makes every sample of the inverse FFT NaN.
`npts = 0` makes `ifft` raise `ValueError`. -/
noncomputable def fwd_seis (rayp dt : ℝ) (npts : Nat) (ipha : ℤ) (alpha beta rho h : List ℝ) :
    Except PyErr (Samples × Samples) := do
  let npts_max := nextPow2 npts
  let spec ← fwdSpectra rayp dt npts_max ipha alpha beta rho h
  if npts_max = 0 then .error .valueError
  else match spec with
    | none => pure ((Samples.nan npts_max).take npts, (Samples.nan npts_max).take npts)
    | some (ur_freq, uz_freq) =>
      let ur := (toRe (ifft ur_freq npts_max)).reverse.map (fun x : ℝ => x / npts_max)
      let uz := ((toRe (ifft uz_freq npts_max)).map (fun x : ℝ => -x)).reverse.map
        (fun x : ℝ => x / npts_max)
      pure ((Samples.num ur).take npts, (Samples.num uz).take npts)

/-! ## the class `synrf`, synrf.py:454-582 -/

/-- the ray parameter argument of the constructor, by its Python type -/
inductive RaypArg where
  | float (x : ℝ)
  | list (xs : List ℝ)
  | ndarray (xs : List ℝ)
  /-- anything else, e.g. an `int`, a tuple or `None` -/
  | other

/-- a trace of `rstream`, `zstream` (synrf.py:527-533) -/
structure SynTr where
  data : Samples
  delta : ℝ

/-- A `synrf` object.  `streams = none`: the attributes `rstream`, `zstream` do not exist yet. -/
structure Obj where
  depth : List ℝ
  vp : List ℝ
  vs : List ℝ
  rho : List ℝ
  dt : ℝ
  npts : Nat
  thickness : List ℝ
  rayp : List ℝ
  ipha : ℤ
  streams : Option (List SynTr × List SynTr)

/-- synrf.py:494-504 -/
noncomputable def thicknesses (depth : List ℝ) : List ℝ :=
  (List.range depth.length).map (fun i : Nat =>
    if i = 0 then depth.getD i 0 else depth.getD i 0 - depth.getD (i - 1) 0)

/-- `synrf.__init__`, synrf.py:482-511 (`filter` is ignored there).  An `ndarray` of ray
parameters is one-dimensional. -/
noncomputable def init (depth vp vs rho : List ℝ) (rayp : RaypArg) (dt : ℝ) (npts : Nat)
    (ipha : ℤ) : Except PyErr Obj := do
  let rayp ← match rayp with
    | .other => .error .typeError
    | .float x => pure [x]
    | .list xs => pure xs
    | .ndarray xs => pure xs
  pure { depth := depth, vp := vp, vs := vs, rho := rho, dt := dt, npts := npts,
         thickness := thicknesses depth, rayp := rayp, ipha := ipha, streams := none }

/-- the loop of `run_fwd`, synrf.py:523-533: what has been appended so far, and whether an
exception stopped it -/
noncomputable def fwdLoop (o : Obj) : List ℝ → List SynTr × List SynTr →
    (List SynTr × List SynTr) × Except PyErr Unit
  | [], acc => (acc, .ok ())
  | p :: ps, acc =>
    match fwd_seis p o.dt o.npts o.ipha o.vp o.vs o.rho o.thickness with
    | .error e => (acc, .error e)
    | .ok (ur, uz) => fwdLoop o ps (acc.1 ++ [⟨ur, o.dt⟩], acc.2 ++ [⟨uz, o.dt⟩])

/-- `run_fwd`, synrf.py:513-533: the object afterwards and the outcome. -/
noncomputable def run_fwd (o : Obj) : Obj × Except PyErr Unit :=
  let r := fwdLoop o o.rayp ([], [])
  ({ o with streams := some r.1 }, r.2)

/-- The positional arguments of `filter`; `zerophase` is a truth value. -/
structure FilterArgs where
  freqmin : ℝ
  freqmax : ℝ
  order : ℝ := 2
  zerophase : Bool := true

/-- obspy's band-pass filter `Trace.filter('bandpass', …)` on the samples of a trace with the
given sampling interval: external, it may raise.  Arrays of NaN stay NaN, with the exceptions
arrays of zeros raise. -/
abbrev Bandpass := FilterArgs → ℝ → List ℝ → Except PyErr (List ℝ)

/-- `Trace.filter` -/
def filterTr (bp : Bandpass) (a : FilterArgs) (t : SynTr) : Except PyErr SynTr :=
  match t.data with
  | .nan n => (bp a t.delta (List.replicate n 0)).map (fun _ => ⟨.nan n, t.delta⟩)
  | .num x => (bp a t.delta x).map (fun y => ⟨.num y, t.delta⟩)

/-- `Stream.filter`: trace after trace in place; those before an exception stay filtered. -/
def filterStream (bp : Bandpass) (a : FilterArgs) : List SynTr → List SynTr × Except PyErr Unit
  | [] => ([], .ok ())
  | t :: ts =>
    match filterTr bp a t with
    | .error e => (t :: ts, .error e)
    | .ok t' => let r := filterStream bp a ts; (t' :: r.1, r.2)

/-- `synrf.filter`, synrf.py:535-555. -/
def filter (bp : Bandpass) (o : Obj) (a : FilterArgs) : Obj × Except PyErr Unit :=
  match o.streams with
  | none => (o, .error .attributeError)
  | some (rs, zs) =>
    let r := filterStream bp a rs
    match r.2 with
    | .error e => ({ o with streams := some (r.1, zs) }, .error e)
    | .ok () =>
      let z := filterStream bp a zs
      ({ o with streams := some (r.1, z.1) }, z.2)

/-- `self.filter(*pre_filt)`, synrf.py:574: two to four positional arguments. -/
noncomputable def splat (pre_filt : List ℝ) : Except PyErr FilterArgs :=
  match pre_filt with
  | [a, b] => .ok { freqmin := a, freqmax := b }
  | [a, b, c] => .ok { freqmin := a, freqmax := b, order := c }
  | [a, b, c, d] => .ok { freqmin := a, freqmax := b, order := c,
                          zerophase := @decide (d ≠ 0) (Classical.propDecidable _) }
  | _ => .error .typeError

/-- `deconv_iterative` when both inputs are arrays of NaN: `powerU` and with it `d_error` are NaN,
all other quantities before the loop have the shape (and raise the errors) they have for arrays
of zeros. -/
noncomputable def deconv_iterative_nan (n m : Nat) (dt : ℝ) (nt : Option Nat)
    (preonset gaussian : ℝ) (itmax : Nat) (minderr : ℝ) (phase : String) :
    Except PyErr IterResult := do
  if n ≠ m then .error .synrfValueError
  else
    let nt := nt.getD n
    let (c, s0) ← iterInit (List.replicate n 0) (List.replicate m 0) dt nt gaussian itmax
      minderr phase
    let s ← iterLoop c { s0 with nan := true }
    let p_flt := gfilter s.p0 c.nfft (toC c.gaussF) dt
    let p_flt := phaseshift p_flt c.nfft dt preonset
    let RFI := p_flt.take nt
    pure { rf := if s.nanRF then none else some RFI,
           rms := sliceTo s.rms ((s.it : ℤ) - 1), it := s.it }

/-- `RFTrace.deconvolve(rstream[i], zstream[i], …)`, synrf.py:330-347, for traces that may be NaN.
With the water-level method NaN inputs give an array of NaN and a NaN misfit (and the errors of
the numerical case).  The mixed case, one trace NaN and the other not, does not occur
(`fwd_seis` returns both NaN or none, and filters keep that). -/
noncomputable def deconvTr (utr wtr : SynTr) (method : Option String) (kw : KwArgs) :
    Except PyErr RFTr :=
  match utr.data, wtr.data with
  | .num u, .num w => RFTrace_deconvolve ⟨u, utr.delta⟩ ⟨w, wtr.delta⟩ method kw
  | u, w => do
    let method := method.getD "iter"
    if method.toLower = "iter" then
      if kw.wlevel.isSome || kw.normalize.isSome then .error .typeError
      else
        let r ← deconv_iterative_nan u.size w.size utr.delta kw.nt (kw.preonset.getD 10)
          (kw.gaussian.getD 2) (kw.itmax.getD 400) (kw.minderr.getD 0.001) (kw.phase.getD "P")
        pure { data := r.rf, delta := utr.delta, kwargs := kw, rms := .inl r.rms,
               iter := some r.it }
    else if method.toLower = "water" then
      let _ ← callWater (List.replicate u.size 0) (List.replicate w.size 0) utr.delta kw
      pure { data := none, delta := utr.delta, kwargs := kw, rms := .inr none, iter := none }
    else .error .synrfValueError

/-- the loop of `run_deconvolution`, synrf.py:576-581 -/
noncomputable def deconvLoop (streams : Option (List SynTr × List SynTr)) (method : Option String)
    (kw : KwArgs) (n : Nat) : Except PyErr (List RFTr) :=
  (List.range n).mapM (fun i : Nat => do
    match streams with
    | none => .error .attributeError
    | some (rs, zs) =>
      let u ← item rs i
      let w ← item zs i
      deconvTr u w method kw)

/-- synrf.py:573-574: `if pre_filt is not None: self.filter(*pre_filt)` -/
noncomputable def preFilter (bp : Bandpass) (o : Obj) (pre_filt : Option (List ℝ)) :
    Obj × Except PyErr Unit :=
  match pre_filt with
  | none => (o, .ok ())
  | some l => match splat l with
    | .error e => (o, .error e)
    | .ok a => filter bp o a

/-- `run_deconvolution`, synrf.py:557-582: the object afterwards and the returned stream.
`kw` are the further keyword arguments (without `preonset`, `gaussian`). -/
noncomputable def run_deconvolution (bp : Bandpass) (o : Obj) (pre_filt : Option (List ℝ))
    (preonset gaussian : ℝ) (method : Option String) (kw : KwArgs) :
    Obj × Except PyErr (List RFTr) :=
  let kw := { kw with preonset := some preonset, gaussian := some gaussian }
  let f := preFilter bp o pre_filt
  match f.2 with
  | .error e => (f.1, .error e)
  | .ok () => (f.1, deconvLoop f.1.streams method kw f.1.rayp.length)

end Rfsed.Synrf
