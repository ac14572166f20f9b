import Mathlib.Data.Real.Basic
import Mathlib.Data.List.GetD

/-!
# Specification vocabulary: averaging records
-/

namespace Rfsed.Spec

/-- `sd` is, up to `e`, the sample-wise average of the records `ds`, which all have its length. -/
def AverageWithin (e : ℝ) (ds : List (List ℝ)) (sd : List ℝ) : Prop :=
  ds ≠ [] ∧ (∀ d ∈ ds, d.length = sd.length) ∧
    ∀ i < sd.length, |sd.getD i 0 - (ds.map (fun d : List ℝ => d.getD i 0)).sum / ds.length| ≤ e

end Rfsed.Spec
