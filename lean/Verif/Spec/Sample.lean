import Verif.Py.Numpy

/-!
# Concrete inputs used to show that hypotheses of theorems can be met

Nothing here is part of the model; it only serves the `example`s beside the
theorems.
-/

namespace Rfsed.Sample

/-- point-wise mean of the traces' data (what `RFStream.stack` computes for traces
with one id and equal length) -/
noncomputable def meanStack (st : List (Trace ℝ)) : Except PyErr (List (List ℝ)) :=
  match st with
  | [] => .ok []
  | tr :: _ => .ok [(List.range tr.data.length).map (fun i =>
      (st.map (fun tr => tr.data.getD i 0)).sum / st.length)]

/-- environment: 1 km = 1/111 degree, mean stack, drawing succeeds -/
noncomputable def env : Env ℝ where
  km2deg1 := 1 / 111
  stack := meanStack
  draw := fun _ => .ok ()

/-- a trace with given data and slowness (s/deg) -/
noncomputable def trace (data : List ℝ) (slow : ℝ) : Trace ℝ where
  station := "STA"
  channel := "R"
  data := data
  delta := 1 / 2
  starttime := 0
  onset := some 2
  slowness := some ⟨.py, slow⟩
  backAzimuth := some 10
  distance := some 60

/-- two different traces of five samples each -/
noncomputable def stream : List (Trace ℝ) := [trace [0, 1, 3, 2, 0] 6, trace [1, 1, 2, 0, -1] 7]

end Rfsed.Sample
