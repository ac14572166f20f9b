import Verif.Py.Float

/-!
# numpy vocabulary used by the stacking code
-/

namespace Rfsed
open PyFloat

variable {F : Type} [PyFloat F]

/-- Inner loop of numpy's `argmin` for floating point
(`numpy/core/src/multiarray/arraytypes.c.src`, `@fname@_argmin`):
the running minimum is replaced when `!(x >= mp)`, which is also true for a NaN;
after meeting a NaN the search stops. -/
def argminGo (mp : F) (idx i : Nat) : List F → Nat
  | [] => idx
  | x :: xs =>
    if !(le mp x) then
      if isNaN x then i else argminGo x i (i + 1) xs
    else argminGo mp idx (i + 1) xs

/-- `a.argmin()` of a 1-D array; `ValueError` on an empty one. -/
def argmin : List F → Except PyErr Nat
  | [] => .error .valueError
  | x :: xs => .ok (if isNaN x then 0 else argminGo x 0 1 xs)

/-- Inner loop of numpy's `argmax`: replaced when `!(x <= mp)`. -/
def argmaxGo (mp : F) (idx i : Nat) : List F → Nat
  | [] => idx
  | x :: xs =>
    if !(le x mp) then
      if isNaN x then i else argmaxGo x i (i + 1) xs
    else argmaxGo mp idx (i + 1) xs

/-- `np.argmax(a)` of a 1-D array; `ValueError` on an empty one. -/
def argmax : List F → Except PyErr Nat
  | [] => .error .valueError
  | x :: xs => .ok (if isNaN x then 0 else argmaxGo x 0 1 xs)

/-- `a[i]` with `i ≥ 0`; `IndexError` beyond the end. -/
def item {α : Type} (a : List α) (i : Nat) : Except PyErr α :=
  match a[i]? with
  | some x => .ok x
  | none => .error .indexError

/-- `a[i] = v` with `i ≥ 0`; `IndexError` beyond the end. -/
def setItem {α : Type} (a : List α) (i : Nat) (v : α) : Except PyErr (List α) :=
  if i < a.length then .ok (a.set i v) else .error .indexError

/-- `delta * np.arange(0, l) - preonset`. -/
def timeAxis (delta preonset : F) (l : Nat) : List F :=
  (List.range l).map (fun i => delta * ofNat i - preonset)

/-- `np.mean(xs)` of a list of floats.  Simplification: numpy's pairwise summation
order is replaced by left-to-right summation (they differ by rounding only). -/
def npMean (xs : List F) : F := xs.foldl (· + ·) zero / ofNat xs.length

/-- A scalar together with its Python type (`float` or numpy scalar). -/
structure Scalar (F : Type) where
  kind : Kind
  val : F

/-- Value of a real or complex number in the delay-time formulas. -/
inductive PyNum (F : Type) where
  | real (x : F)
  | cplx (re im : F)

namespace PyNum
/-- `a - z` for a numpy real `a`. -/
def rsub (a : F) : PyNum F → PyNum F
  | real x => real (a - x)
  | cplx re im => cplx (a - re) (-im)
/-- `a + z` for a numpy real `a`. -/
def radd (a : F) : PyNum F → PyNum F
  | real x => real (a + x)
  | cplx re im => cplx (a + re) im
/-- `a * z` for a numpy real `a`. -/
def rmul (a : F) : PyNum F → PyNum F
  | real x => real (a * x)
  | cplx re im => cplx (a * re) (a * im)
/-- `w + z`. -/
def add : PyNum F → PyNum F → PyNum F
  | real x, z => radd x z
  | cplx re im, real y => cplx (re + y) im
  | cplx re im, cplx re' im' => cplx (re + re') (im + im')
/-- `z - a`. -/
def subr : PyNum F → F → PyNum F
  | real x, a => real (x - a)
  | cplx re im, a => cplx (re - a) im
/-- `z + a`. -/
def addr : PyNum F → F → PyNum F
  | real x, a => real (x + a)
  | cplx re im, a => cplx (re + a) im
/-- `np.abs(x - z)` for a real array element `x`. -/
def absSub (x : F) : PyNum F → F
  | real t => abs (x - t)
  | cplx re im => hypot (x - re) (-im)
end PyNum

/-- `x ** 0.5`: for a negative Python `float` the result is complex, for a negative
numpy scalar it is NaN. -/
def powHalfK (k : Kind) (x : F) : PyNum F :=
  match k with
  | .np => .real (powHalf x)
  | .py => if lt x zero then .cplx (powHalfCplx x).1 (powHalfCplx x).2 else .real (powHalf x)

/-- `1 / v`: a Python float zero raises `ZeroDivisionError`, a numpy zero does not. -/
def oneOver (v : Scalar F) : Except PyErr F :=
  match v.kind with
  | .np => .ok (one / v.val)
  | .py => if eq v.val zero then .error .zeroDivisionError else .ok (one / v.val)

/-- One row `[H, K, s]` of an H-k table. -/
structure Row (F : Type) where
  h : F
  k : F
  s : F

/-- row of `np.zeros((n, 3))` -/
def Row.zero : Row F := ⟨PyFloat.zero, PyFloat.zero, PyFloat.zero⟩

/-- The part of an obspy/rf trace the code looks at.  `Option` fields are header
entries that may be missing. -/
structure Trace (F : Type) where
  station : String
  channel : String
  data : List F
  delta : F
  starttime : F
  onset : Option F
  slowness : Option (Scalar F)
  backAzimuth : Option F
  distance : Option F
  /-- further header entries that the plotting functions add (`tr.stats['tps'] = …`) -/
  extra : String → Option (PyNum F) := fun _ => none

/-- `tr.stats['slowness']`; `KeyError` when missing. -/
def Trace.getSlowness (tr : Trace F) : Except PyErr (Scalar F) :=
  match tr.slowness with
  | some s => .ok s
  | none => .error .keyError

/-- `tr.stats.onset`; `AttributeError` when missing. -/
def Trace.getOnset (tr : Trace F) : Except PyErr F :=
  match tr.onset with
  | some s => .ok s
  | none => .error .attributeError

/-- `tr.stats[key] = v` for one of the added header entries. -/
def Trace.setStat (tr : Trace F) (key : String) (v : PyNum F) : Trace F :=
  { tr with extra := fun k => if k = key then some v else tr.extra k }

/-- `tr.stats.key` (attribute access); `AttributeError` when missing. -/
def Trace.getStat (tr : Trace F) (key : String) : Except PyErr (PyNum F) :=
  match tr.extra key with
  | some v => .ok v
  | none => .error .attributeError

/-- optional attribute; `AttributeError` when missing -/
def getAttr {α : Type} : Option α → Except PyErr α
  | some v => .ok v
  | none => .error .attributeError

/-- `a / b` for two scalars: only two Python floats raise `ZeroDivisionError`. -/
def scalarDiv (a b : Scalar F) : Except PyErr (Scalar F) :=
  match a.kind.join b.kind with
  | .np => .ok ⟨.np, a.val / b.val⟩
  | .py => if eq b.val zero then .error .zeroDivisionError else .ok ⟨.py, a.val / b.val⟩

/-- A receiver function drawn in a figure: its time axis and values, the level
(back azimuth or distance) it is drawn at, the three marked delay times and the
half-height of the markers. -/
structure Curve (F : Type) where
  axis : List F
  values : List F
  level : F
  marks : PyNum F × PyNum F × PyNum F
  gain : F

/-- Python's `min(xs)`: the first element is kept until a smaller one comes; `ValueError` for an empty
sequence. -/
def builtinMin : List F → Except PyErr F
  | [] => .error .valueError
  | x :: xs => .ok (xs.foldl (fun m y => if lt y m then y else m) x)

/-- Python's `max(xs)`. -/
def builtinMax : List F → Except PyErr F
  | [] => .error .valueError
  | x :: xs => .ok (xs.foldl (fun m y => if lt m y then y else m) x)

/-- `min(xs), max(xs)`, the arguments of `set_xlim` / `set_ylim` (that matplotlib refuses NaN limits is part of
the parameter `Env.draw`). -/
def axisLimits (xs : List F) : Except PyErr (F × F) := do
  let lo ← builtinMin xs
  let hi ← builtinMax xs
  pure (lo, hi)

/-- `ax.plot(t, rfdata)`: matplotlib raises `ValueError` when the lengths differ. -/
def plotXY (t rfdata : List F) : Except PyErr Unit :=
  if t.length = rfdata.length then .ok () else .error .valueError

/-- the three calls `ax.axvspan(t - span, t + span, …)` -/
def shade (span : F) (marks : PyNum F × PyNum F × PyNum F) : List (PyNum F × PyNum F) :=
  [marks.1, marks.2.1, marks.2.2].map (fun t => (PyNum.subr t span, PyNum.addr t span))

/-- What one saved H-k figure shows. -/
structure Figure (F : Type) where
  table : List (Row F)
  /-- position of the best-model cross -/
  bestH : F
  bestK : F
  /-- Vp/Vs printed in the legend -/
  labelK : F
  /-- limits of the axes of the contour panel -/
  hlim : F × F
  klim : F × F
  xlim : Int × Int
  panel2 : List (Curve F)
  panel3 : List (Curve F)
  /-- ends of the shaded ranges of the second and of the third panel -/
  bands2 : List (PyNum F × PyNum F)
  bands3 : List (PyNum F × PyNum F)
  filename : String

/-- Body of the clipping loop: `if stk[i,2] <= 0: stk[i,2] = 0` (hkZhu.py:285-287). -/
def clipStep (stk : List (Row F)) (i : Nat) : List (Row F) :=
  match stk[i]? with
  | some row => if le row.s zero then stk.set i { row with s := zero } else stk
  | none => stk

/-- The clipping loop `for i in range(len(stk)): if stk[i,2] <= 0: stk[i,2] = 0`
(hkZhu.py:284-287, hkSeqYeck.py:262-264 and in `plotSeqhk`, `plothkYu`,
`hkSeqSynth`, `plothkSynth`, `plothkSeqSynth`), as the loop over indices. -/
def clipLoop (stk : List (Row F)) : List (Row F) :=
  (List.range stk.length).foldl clipStep stk

/-- External behaviour the stacking functions depend on.
* `km2deg1` is obspy's `kilometer2degrees(1)` (a Python float);
* `stack` returns the data arrays of `rfstream.stack()` (package `rf`);
* `draw` is the preview contour figure the functions draw before returning: it
  may raise (matplotlib needs three non-collinear points and finite values). -/
structure Env (F : Type) where
  km2deg1 : F
  stack : List (Trace F) → Except PyErr (List (List F))
  draw : List (Row F) → Except PyErr Unit
  /-- `plt.savefig(filename)`: may raise (unwritable path, unknown format) -/
  savefig : String → Except PyErr Unit := fun _ => .ok ()

end Rfsed
