import Verif.Spec.Accuracy
import Verif.Spec.Grid
import Mathlib.Data.Set.Card

/-!
# Specification vocabulary: what the sampling interval leaves of a fine search grid
-/

namespace Rfsed.Spec

/-- the arrival times of the three phases of a layer with P velocity `V`, as functions of thickness and velocity ratio -/
noncomputable def phases (p V : ℝ) : List (ℝ → ℝ → ℝ) := [tPs p V, tPpPs p V, tPsPs p V]

/-- all arrival times `T` have the same nearest sample for the models of the two rows -/
def SameReads (axis : List ℝ) (T : List (ℝ → ℝ → ℝ)) (u v : Row ℝ) : Prop :=
  ∀ t ∈ T, SameSample axis (t u.h u.k) (t v.h v.k)

/-- how many different stack values the rows with velocity ratio `k` have -/
noncomputable def distinctValues (tb : List (Row ℝ)) (k : ℝ) : ℕ := {s | ∃ row ∈ tb, row.k = k ∧ row.s = s}.ncard

/-- The stack values of a table whose models predict the arrival times `T`, read from records with the time axis `axis`
and the sampling interval `dt`: models that differ by less than the sampling tie, the first of them is reported, and the
number of different values is limited by how many samples the arrivals move over, not by the number of grid points. -/
structure LimitedBySampling (axis : List ℝ) (dt : ℝ) (T : List (ℝ → ℝ → ℝ)) (tb : List (Row ℝ)) (bestIdx : Nat) :
    Prop where
  ties : ∀ u ∈ tb, ∀ v ∈ tb, SameReads axis T u v → u.s = v.s
  first : ∀ best, tb[bestIdx]? = some best → ∀ (n : Nat) (v : Row ℝ), tb[n]? = some v →
    SameReads axis T best v → bestIdx ≤ n
  count : ∀ k a b : ℝ, 1 ≤ k → a ≤ b → (∀ row ∈ tb, row.k = k → a ≤ row.h ∧ row.h ≤ b) →
    (distinctValues tb k : ℝ) ≤ 1 + (T.map (fun t => 1 + (t b k - t a k) / dt)).sum

end Rfsed.Spec
