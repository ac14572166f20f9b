import Verif.Spec.Stacking
import Verif.Py.Numpy

/-!
# Specification vocabulary for the saved H-k figures

`Figure` and `Curve` (Verif/Py/Numpy.lean) record what is handed to matplotlib; the
predicates here say which user data has to appear there.
-/

namespace Rfsed.Spec

/-- `lim` is the range of the numbers in `xs`: their minimum and their maximum -/
def Extent (xs : List ℝ) (lim : ℝ × ℝ) : Prop :=
  IsLeast {x | x ∈ xs} lim.1 ∧ IsGreatest {x | x ∈ xs} lim.2

/-- What every H-k figure shows: the stacking table as filled contours, the cross at the
best model, the legend (which prints `K + 0.001`, not `K`), axes that span the searched depths `H` and
Vp/Vs ratios `K`, the limits of the time axis of the receiver function panels and the name of the file it is
saved under. -/
structure HkFigure (fig : Figure ℝ) (table : List (Row ℝ)) (best : Row ℝ) (H K : List ℝ) (xlim : Int × Int)
    (filename : String) : Prop where
  table : fig.table = table
  crossH : fig.bestH = best.h
  crossK : fig.bestK = best.k
  legendK : fig.labelK = best.k + 0.001
  hlim : Extent H fig.hlim
  klim : Extent K fig.klim
  xlim : fig.xlim = xlim
  filename : fig.filename = filename

/-- The contour panel shows everything: all grid points and the cross lie inside its axes, and each end of
the axes is the coordinate of some grid point. -/
structure InFrame (fig : Figure ℝ) : Prop where
  rows : ∀ row ∈ fig.table, fig.hlim.1 ≤ row.h ∧ row.h ≤ fig.hlim.2 ∧ fig.klim.1 ≤ row.k ∧ row.k ≤ fig.klim.2
  cross : fig.hlim.1 ≤ fig.bestH ∧ fig.bestH ≤ fig.hlim.2 ∧ fig.klim.1 ≤ fig.bestK ∧ fig.bestK ≤ fig.klim.2
  tight : ∀ x ∈ [fig.hlim.1, fig.hlim.2], ∀ k ∈ [fig.klim.1, fig.klim.2],
    ∃ row ∈ fig.table, row.h = x ∧ row.k = k

/-- The samples `data`, taken at `times`, are drawn as one curve: scaled by `gain` and
lifted to `level`, with markers of half-height `markGain` at the three times `marks`. -/
structure DrawnRF (c : Curve ℝ) (times data : List ℝ) (gain level markGain : ℝ)
    (marks : PyNum ℝ × PyNum ℝ × PyNum ℝ) : Prop where
  axis : c.axis = times
  values : c.values = data.map (fun x => x * gain + level)
  level : c.level = level
  markGain : c.gain = markGain
  marks : c.marks = marks

/-- sample times of a trace relative to its P onset -/
noncomputable def onsetTimes (tr : Trace ℝ) (onset : ℝ) : List ℝ :=
  (List.range tr.data.length).map (fun i : Nat => (i : ℝ) * tr.delta + (tr.starttime - onset))

/-- One curve per trace of the stream, in its order: the trace's samples against time
after its P onset, at the level given by `level`, marked at the times `marks` gives for the
trace's slowness (in s/deg). -/
def DrawnStream (panel : List (Curve ℝ)) (st : List (Trace ℝ)) (level : Trace ℝ → Option ℝ)
    (gain markGain : ℝ) (marks : ℝ → PyNum ℝ × PyNum ℝ × PyNum ℝ) : Prop :=
  List.Forall₂ (fun c tr => ∃ onset slow lev, tr.onset = some onset ∧ tr.slowness = some slow ∧
    level tr = some lev ∧
    DrawnRF c (onsetTimes tr onset) tr.data gain lev markGain (marks slow.val)) panel st

/-- the three delay times of a single layer -/
noncomputable def layerMarks (p Vp H K : ℝ) : PyNum ℝ × PyNum ℝ × PyNum ℝ :=
  (.real (tPs p Vp H K), .real (tPpPs p Vp H K), .real (tPsPs p Vp H K))

/-- the three delay times of the base of a crust (`VpM`, `H2`, `K2`) under a sediment layer
(`VpS`, `H1`, `K1`) -/
noncomputable def twoLayerMarks (p VpS H1 K1 VpM H2 K2 : ℝ) : PyNum ℝ × PyNum ℝ × PyNum ℝ :=
  (.real (tPs p VpS H1 K1 + tPs p VpM H2 K2), .real (tPpPs p VpS H1 K1 + tPpPs p VpM H2 K2),
   .real (tPsPs p VpS H1 K1 + tPsPs p VpM H2 K2))

/-- the gains the plotting functions use when the user gives none -/
noncomputable def defaultGains : List ℝ := [75, 10, 15, 2.5]

/-- the time window shown for a layer, -5 to 30 s for the Moho, -1 to 10 s for the sediment, and the
half-width of the ranges shaded there -/
def LayerWindow (layer : String) (lim : Int × Int) (half : ℝ) : Prop :=
  (layer = "Moho" ∧ lim = (-5, 30) ∧ half = 0.5) ∨ (layer = "Sed" ∧ lim = (-1, 10) ∧ half = 0.1)

/-- the shaded ranges of a panel: `half` seconds to both sides of each of the three times, or none at all -/
def Shaded (bands : List (PyNum ℝ × PyNum ℝ)) (half : Option ℝ) (marks : PyNum ℝ × PyNum ℝ × PyNum ℝ) : Prop :=
  match half with
  | none => bands = []
  | some w => bands = [(PyNum.subr marks.1 w, PyNum.addr marks.1 w),
      (PyNum.subr marks.2.1 w, PyNum.addr marks.2.1 w), (PyNum.subr marks.2.2 w, PyNum.addr marks.2.2 w)]

/-- a real marker time lies inside a shaded range -/
def InBand (mark : PyNum ℝ) (band : PyNum ℝ × PyNum ℝ) : Prop :=
  ∃ x lo hi, mark = .real x ∧ band = (.real lo, .real hi) ∧ lo ≤ x ∧ x ≤ hi

/-- `fig` is the figure of an unstacked result: drawing and saving work, the stream is shown by
back azimuth in the second and by distance in the third panel, with the gains `G`.  In both panels the
ranges around the times of the *last* trace are shaded, whatever the slownesses of the others. -/
def StreamFigure (env : Env ℝ) (G : List ℝ) (fig : Figure ℝ) (table : List (Row ℝ)) (best : Row ℝ)
    (H K : List ℝ) (xlim : Int × Int) (half : ℝ) (name : String) (st : List (Trace ℝ))
    (marks : ℝ → PyNum ℝ × PyNum ℝ × PyNum ℝ) : Prop :=
  env.draw table = .ok () ∧ env.savefig name = .ok () ∧ HkFigure fig table best H K xlim name ∧
  (∃ last slow, st.getLast? = some last ∧ last.slowness = some slow ∧
    Shaded fig.bands2 (some half) (marks slow.val) ∧ Shaded fig.bands3 (some half) (marks slow.val)) ∧
  ∃ g0 g1 g2 g3, G[0]? = some g0 ∧ G[1]? = some g1 ∧ G[2]? = some g2 ∧ G[3]? = some g3 ∧
    DrawnStream fig.panel2 st Trace.backAzimuth g0 g1 marks ∧
    DrawnStream fig.panel3 st Trace.distance g2 g3 marks

/-- In a figure of several receiver functions there are three shaded ranges per panel, and the `j`-th mark of
the `i`-th curve of either panel lies in the `j`-th of them exactly when the corresponding time of trace `i`
is within `half` seconds of that of the *last* trace. -/
def ShadedByLast (fig : Figure ℝ) (st : List (Trace ℝ)) (half : ℝ) (t1 t2 t3 : ℝ → ℝ) : Prop :=
  ∃ (last : Trace ℝ) (sl : Scalar ℝ) (b1 b2 b3 : PyNum ℝ × PyNum ℝ),
    st.getLast? = some last ∧ last.slowness = some sl ∧
    fig.bands2 = [b1, b2, b3] ∧ fig.bands3 = [b1, b2, b3] ∧
    ∀ (i : Nat) (tr : Trace ℝ) (s : Scalar ℝ), st[i]? = some tr → tr.slowness = some s →
      ∀ panel ∈ [fig.panel2, fig.panel3], ∃ c, panel[i]? = some c ∧
        (InBand c.marks.1 b1 ↔ |t1 s.val - t1 sl.val| ≤ half) ∧
        (InBand c.marks.2.1 b2 ↔ |t2 s.val - t2 sl.val| ≤ half) ∧
        (InBand c.marks.2.2 b3 ↔ |t3 s.val - t3 sl.val| ≤ half)

/-- `fig` is the figure of a single receiver function: it is drawn at level 180 with the gain
`G[0] / div` (there must be one sample per time), ranges are shaded as `half` says, and there is no third
panel. -/
def SingleFigure (env : Env ℝ) (G : List ℝ) (div : ℝ) (fig : Figure ℝ) (table : List (Row ℝ))
    (best : Row ℝ) (H K : List ℝ) (xlim : Int × Int) (half : Option ℝ) (name : String) (times data : List ℝ)
    (marks : PyNum ℝ × PyNum ℝ × PyNum ℝ) : Prop :=
  env.draw table = .ok () ∧ env.savefig name = .ok () ∧ HkFigure fig table best H K xlim name ∧
  times.length = data.length ∧ Shaded fig.bands2 half marks ∧ fig.bands3 = [] ∧
  ∃ g0 g1, G[0]? = some g0 ∧ G[1]? = some g1 ∧ fig.panel3 = [] ∧
    ∃ c, fig.panel2 = [c] ∧ DrawnRF c times data (g0 / div) 180 g1 marks

/-- The figures saved by a two-stage plotting function, in order, and its outcome: the first
figure is saved exactly when `first` describes it, the second when in addition `second` does (a
failure in the second stage leaves the first figure saved), nothing else is saved, and the call
returns normally exactly when both are. -/
def TwoFigures (figs : List (Figure ℝ)) (outcome : Except PyErr Unit)
    (first second : Figure ℝ → Prop) : Prop :=
  (∀ fig, figs[0]? = some fig ↔ first fig) ∧
  (∀ fig, figs[1]? = some fig ↔ (∃ fig₁, first fig₁) ∧ second fig) ∧
  figs.length ≤ 2 ∧ (outcome = .ok () ↔ figs.length = 2)

end Rfsed.Spec
