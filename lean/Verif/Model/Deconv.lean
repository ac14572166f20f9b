import Verif.Py.Array
import Mathlib.Analysis.SpecialFunctions.Trigonometric.Basic
import Mathlib.Analysis.SpecialFunctions.Exp

/-!
# Model of the deconvolution part of `/repo/src/rfsed/synrf.py`

Exact real arithmetic.  `dt` is a Python float (`stats.delta`), so `x / (nft * dt)` raises
`ZeroDivisionError` for zero.  Divisions of numpy arrays by zero give NaN in Python; where that
can happen it is modelled explicitly (`nan`) or named in the comment.
-/

namespace Rfsed.Synrf
open PyFloat

/-- `gaussFilter`, synrf.py:78-91.  `np.arange(0, nft21)` with `nft21 = 0.5*nft + 1` has
`⌈nft21⌉` entries, one more than `int(nft21)` when `nft` is odd; then the assignment of line 87
raises.  Not modelled: `gaussian = 0` (numpy: NaN at zero frequency, 0 elsewhere). -/
noncomputable def gaussFilter (dt : ℝ) (nft : Nat) (gaussian : ℝ) : Except PyErr (List ℝ) := do
  let df ← scalarDiv ⟨.py, 1⟩ ⟨.py, (nft : ℝ) * dt⟩                   -- line 79
  let f := (List.range ((nft + 3) / 2)).map (fun i : Nat => df.val * (i : ℝ))
  let w := f.map (fun x : ℝ => 2 * Real.pi * x)
  let gauss := List.replicate nft (0 : ℝ)
  let gauss1 := w.map (fun x : ℝ => Real.exp (-0.25 * (x / gaussian) ^ 2) / dt)
  let gauss ← setSlice gauss 0 (nft / 2 + 1) gauss1                    -- line 87
  setSlice gauss (nft / 2 + 1) nft (slice gauss 1 (nft / 2 + 1 - 1)).reverse   -- line 88

/-- `gfilter`, synrf.py:93-97 (`gauss` real or complex, `nfft` entries; only called so). -/
noncomputable def gfilter (x : List ℝ) (nfft : Nat) (gauss : List ℂ) (dt : ℝ) : List ℝ :=
  let Xf := fft (toC x) nfft
  let Xf := (vmul Xf gauss).map (fun z : ℂ => z * (dt : ℂ))
  toRe (ifft Xf nfft)

/-- `correl`, synrf.py:99-102. -/
noncomputable def correl (R W : List ℝ) (nfft : Nat) : List ℝ :=
  toRe (ifft (vmul (fft (toC R) nfft) ((fft (toC W) nfft).map (starRingEnd ℂ))) nfft)

/-- `phaseshift`, synrf.py:104-111.  Called with `dt ≠ 0` and `nfft ≥ 1` only.  Where the cosine
of line 109 vanishes Lean's `z / 0 = 0` stands for the undefined numpy value. -/
noncomputable def phaseshift (x : List ℝ) (nfft : Nat) (dt preonset : ℝ) : List ℝ :=
  let Xf := fft (toC x) nfft
  let shift_i := pyInt (preonset / dt)
  let p := (List.range nfft).map (fun i : Nat =>
    2 * Real.pi * ((i : ℝ) + 1) * (shift_i : ℝ) / (nfft : ℝ))
  let Xf := vmul Xf (p.map (fun a : ℝ => (⟨Real.cos a, -Real.sin a⟩ : ℂ)))
  let x := (ifft Xf nfft).map (fun z : ℂ =>
    z / (Real.cos (2 * Real.pi * (shift_i : ℝ) / (nfft : ℝ)) : ℂ))
  toRe x

/-- Loop variables of `deconv_iterative` (synrf.py:154-202).  `nan = true` when `d_error` is NaN
(then the loop stops); `nanRF = true` when `p0` has NaN entries. -/
structure IterState where
  it : Nat
  p0 : List ℝ
  r_flt : List ℝ
  sumsq_i : ℝ
  d_error : ℝ
  rms : List ℝ
  nan : Bool
  nanRF : Bool

/-- What the loop of `deconv_iterative` reads and does not change. -/
structure IterConst where
  dt : ℝ
  nfft : Nat
  itmax : Nat
  minderr : ℝ
  phase : String
  gaussF : List ℝ
  u_flt : List ℝ
  w_flt : List ℝ
  wf : List ℂ
  powerU : ℝ

open Classical in
/-- synrf.py:181: `while np.abs(d_error) > minderr and it < itmax` (a NaN compares false). -/
noncomputable def loopCond (c : IterConst) (s : IterState) : Bool :=
  !s.nan && decide (c.minderr < |s.d_error|) && decide (s.it < c.itmax)

open Classical in
/-- The loop body, synrf.py:182-202.
* `np.sum(w_flt ** 2) = 0`: `rw` is `0/0 = NaN`, `argmax` returns the first index, `p0`, `r_flt`
  and the misfit become NaN;
* `powerU = 0`: the misfit is `0/0 = NaN`. -/
noncomputable def iterBody (c : IterConst) (s : IterState) : Except PyErr IterState := do
  let rw0 := correl s.r_flt c.w_flt c.nfft
  let sumW := sumSq c.w_flt
  let rw1 := rw0.map (fun v : ℝ => v / sumW)
  let window := if c.phase = "P" then sliceTo rw1 ((c.nfft / 2 : Nat) - 1 : ℤ) else rw1
  let i1 ← argmax (window.map (fun v : ℝ => |v|))
  if sumW = 0 then
    pure { s with it := s.it + 1, nan := true, nanRF := true }
  else
    let rwi ← item rw1 i1
    let amp := rwi / c.dt
    let old ← item s.p0 i1
    let p0 ← setItem s.p0 i1 (old + amp)
    let p_flt := gfilter p0 c.nfft (toC c.gaussF) c.dt
    let p_flt := gfilter p_flt c.nfft c.wf c.dt
    let r_flt := arrSub c.u_flt p_flt
    if c.powerU = 0 then
      pure { s with it := s.it + 1, p0 := p0, r_flt := r_flt, nan := true }
    else
      let sumsq := sumSq r_flt / c.powerU
      let rms ← setItem s.rms s.it sumsq
      pure { s with it := s.it + 1, p0 := p0, r_flt := r_flt, sumsq_i := sumsq,
                    d_error := 100 * (s.sumsq_i - sumsq), rms := rms }

/-- The `while` loop, synrf.py:181-202.  The counter increases by one in every pass, so the
number of remaining passes `itmax - it` serves as the measure. -/
noncomputable def iterLoop (c : IterConst) (s : IterState) : Except PyErr IterState :=
  if _h : loopCond c s = true then
    match _hb : iterBody c s with
    | .error e => .error e
    | .ok s' => if _ht : c.itmax - s'.it < c.itmax - s.it then iterLoop c s' else .ok s'
  else .ok s
termination_by c.itmax - s.it

/-- The receiver function, the misfits and the number of iterations `deconv_iterative` returns;
`rf = none` stands for an array of NaN. -/
structure IterResult where
  rf : Option (List ℝ)
  rms : List ℝ
  it : Nat

/-- synrf.py:147-178: everything before the loop. -/
noncomputable def iterInit (uin win : List ℝ) (dt : ℝ) (nt : Nat) (gaussian : ℝ) (itmax : Nat)
    (minderr : ℝ) (phase : String) : Except PyErr (IterConst × IterState) := do
  let rms := List.replicate itmax (0 : ℝ)
  let nfft := nextPow2 nt
  let p0 := List.replicate nfft (0 : ℝ)
  let u0 ← setSlice (List.replicate nfft (0 : ℝ)) 0 nt uin
  let w0 ← setSlice (List.replicate nfft (0 : ℝ)) 0 nt win
  let gaussF ← gaussFilter dt nfft gaussian
  let u_flt := gfilter u0 nfft (toC gaussF) dt
  let w_flt := gfilter w0 nfft (toC gaussF) dt
  let wf := fft (toC w0) nfft
  let powerU := sumSq u_flt
  pure ({ dt := dt, nfft := nfft, itmax := itmax, minderr := minderr, phase := phase,
          gaussF := gaussF, u_flt := u_flt, w_flt := w_flt, wf := wf, powerU := powerU },
        { it := 0, p0 := p0, r_flt := u_flt, sumsq_i := 1, d_error := 100 * powerU + minderr,
          rms := rms, nan := false, nanRF := false })

/-- `deconv_iterative`, synrf.py:113-209. -/
noncomputable def deconv_iterative (uin win : List ℝ) (dt : ℝ) (nt : Option Nat)
    (preonset gaussian : ℝ) (itmax : Nat) (minderr : ℝ) (phase : String) :
    Except PyErr IterResult := do
  if uin.length ≠ win.length then .error .synrfValueError
  else
    let nt := nt.getD uin.length
    let (c, s0) ← iterInit uin win dt nt gaussian itmax minderr phase
    let s ← iterLoop c s0
    let p_flt := gfilter s.p0 c.nfft (toC c.gaussF) dt
    let p_flt := phaseshift p_flt c.nfft dt preonset
    let RFI := p_flt.take nt
    pure { rf := if s.nanRF then none else some RFI,
           rms := sliceTo s.rms ((s.it : ℤ) - 1), it := s.it }

/-- Python's builtin `max` of an array -/
noncomputable def pyMax : List ℝ → Except PyErr ℝ
  | [] => .error .valueError
  | x :: xs => .ok (xs.foldl max x)

open Classical in
/-- synrf.py:264-292: everything after the spectra `uf`, `wf`, the denominator `df` before the
water level, the level `phi1` and the Gaussian are known; `w` is the array of line 247.  Where a
divisor (`df` in line 269, `powerU` in line 288, `gnorm` in line 292) is zero Lean's `x / 0 = 0`
stands for NaN. -/
noncomputable def waterFit (uf wf df : List ℂ) (gaussF w : List ℝ) (phi1 delf dt preonset : ℝ)
    (nt nft : Nat) (normalize : Bool) : List ℝ × ℝ :=
  let df := df.map (fun z : ℂ => if z.re < phi1 then (phi1 : ℂ) else z)
  let nf := vmul (vmul (toC gaussF) uf) (wf.map (starRingEnd ℂ))
  let rff := List.zipWith (· / ·) nf df
  let upf := vmul rff wf
  let w := w ++ (slice w 1 (w.length - 1)).reverse.map (fun x : ℝ => -x)   -- line 275
  let rff := vmul rff (w.map (fun x : ℝ => Complex.exp (-1 * Complex.I * (x : ℂ) * (preonset : ℂ))))
  let rft := toRe ((ifft rff nft).take nt)
  let uf := vmul (toC gaussF) uf
  let ut := toRe (ifft uf nft)
  let upt := toRe (ifft upf nft)
  let powerU := sumSq (ut.take nt)
  let rms := sumSq (arrSub (upt.take nt) (ut.take nt)) / powerU
  let rft := if normalize then
      let gnorm := gaussF.sum * delf * dt
      rft.map (fun x : ℝ => x / gnorm)
    else rft
  (rft, rms)

/-- `deconv_waterlevel`, synrf.py:212-294; returns `(rft, rms)`. -/
noncomputable def deconv_waterlevel (uin win : List ℝ) (dt preonset wlevel gaussian : ℝ)
    (normalize : Bool) : Except PyErr (List ℝ × ℝ) := do
  if uin.length ≠ win.length then .error .synrfValueError
  else
    let nt := uin.length
    let nft := nextPow2 nt
    let fny ← scalarDiv ⟨.py, 1⟩ ⟨.py, 2 * dt⟩                          -- line 244
    let delf ← scalarDiv fny ⟨.py, 0.5 * (nft : ℝ)⟩                     -- line 245
    let freq := (List.range ((nft + 3) / 2)).map (fun i : Nat => delf.val * (i : ℝ))
    let w := freq.map (fun x : ℝ => 2 * Real.pi * x)
    let uf := fft (toC uin) nft
    let wf := fft (toC win) nft
    let df := vmul wf (wf.map (starRingEnd ℂ))
    let dmax ← pyMax (toRe df)
    let phi1 := wlevel * dmax
    let gaussF ← gaussFilter dt nft gaussian
    pure (waterFit uf wf df gaussF w phi1 delf.val dt preonset nt nft normalize)

/-- The keyword arguments the two methods know between them. -/
structure KwArgs where
  nt : Option Nat := none
  preonset : Option ℝ := none
  gaussian : Option ℝ := none
  itmax : Option Nat := none
  minderr : Option ℝ := none
  phase : Option String := none
  wlevel : Option ℝ := none
  normalize : Option Bool := none

/-- what the two methods return -/
inductive DeconvResult where
  | iter (r : IterResult)
  | water (rf : List ℝ) (rms : ℝ)

/-- `deconv_iterative(uin, win, dt, **kwargs)`; keyword arguments it does not know raise
`TypeError`, missing ones get the defaults of synrf.py:113-114. -/
noncomputable def callIter (uin win : List ℝ) (dt : ℝ) (kw : KwArgs) : Except PyErr IterResult :=
  if kw.wlevel.isSome || kw.normalize.isSome then .error .typeError
  else deconv_iterative uin win dt kw.nt (kw.preonset.getD 10) (kw.gaussian.getD 2)
    (kw.itmax.getD 400) (kw.minderr.getD 0.001) (kw.phase.getD "P")

/-- `deconv_waterlevel(uin, win, dt, **kwargs)` with the defaults of synrf.py:212-213. -/
noncomputable def callWater (uin win : List ℝ) (dt : ℝ) (kw : KwArgs) :
    Except PyErr (List ℝ × ℝ) :=
  if kw.nt.isSome || kw.itmax.isSome || kw.minderr.isSome then .error .typeError
  else deconv_waterlevel uin win dt (kw.preonset.getD 10) (kw.wlevel.getD 0.05)
    (kw.gaussian.getD 2) (kw.normalize.getD false)

/-- `deconvolve`, synrf.py:296-324 (`method='iter'` by default). -/
noncomputable def deconvolve (uin win : List ℝ) (dt : ℝ) (method : Option String) (kw : KwArgs) :
    Except PyErr DeconvResult :=
  let method := method.getD "iter"
  if method.toLower = "iter" then (callIter uin win dt kw).map DeconvResult.iter
  else if method.toLower = "water" then
    (callWater uin win dt kw).map (fun p => DeconvResult.water p.1 p.2)
  else .error .synrfValueError

/-- A trace as `synrf` builds it (synrf.py:527-533). -/
structure Tr where
  data : List ℝ
  delta : ℝ

/-- An `RFTrace` (synrf.py:326-347): the data, the sampling interval inherited from the numerator
trace, the keyword arguments and the header entries `rms` and `iter` (`none` is NaN). -/
structure RFTr where
  /-- `none` stands for an array of NaN -/
  data : Option (List ℝ)
  delta : ℝ
  kwargs : KwArgs
  rms : List ℝ ⊕ Option ℝ
  iter : Option Nat

/-- `RFTrace.deconvolve`, synrf.py:330-347. -/
noncomputable def RFTrace_deconvolve (utr wtr : Tr) (method : Option String) (kw : KwArgs) :
    Except PyErr RFTr := do
  let method := method.getD "iter"
  if method.toLower = "iter" then
    let r ← callIter utr.data wtr.data utr.delta kw
    pure { data := r.rf, delta := utr.delta, kwargs := kw, rms := .inl r.rms, iter := some r.it }
  else if method.toLower = "water" then
    let r ← callWater utr.data wtr.data utr.delta kw
    pure { data := some r.1, delta := utr.delta, kwargs := kw, rms := .inr (some r.2), iter := none }
  else .error .synrfValueError

end Rfsed.Synrf
