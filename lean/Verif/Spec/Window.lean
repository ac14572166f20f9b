import Verif.Py.Numpy

/-!
# Specification vocabulary: two recordings of the same receiver function, cut differently
-/

namespace Rfsed.Spec

/-- Sample `i` of a record that starts `pre` seconds before the P wave is taken at time `dt * i - pre`.  The
records `d` (starting `pre` before P) and `d'` (starting `pre'` before P) agree at all times from half a sample
before the P wave to half a sample after time `T`. -/
def SameWindow (dt pre pre' T : ℝ) (d d' : List ℝ) : Prop :=
  ∀ i j : Nat, dt * i - pre = dt * j - pre' → -(dt / 2) ≤ dt * i - pre → dt * i - pre ≤ T + dt / 2 →
    d[i]? = d'[j]?

/-- a record of `l` samples starting `pre` before P contains the times from 0 to `T` -/
def CoversTo (dt pre T : ℝ) (l : Nat) : Prop := 0 ≤ pre ∧ T + dt + pre ≤ dt * l

/-- both records are sampled at the same instants -/
def Aligned (dt pre pre' : ℝ) : Prop := ∃ n : ℤ, pre' = pre + dt * n

end Rfsed.Spec
