import Verif.Spec.Stacking
import Verif.Py.Numpy

/-!
# Specification vocabulary: the trade-off between the assumed P velocity and the model found

For ray parameter `p`, a layer with P velocity `V`, thickness `H` and velocity ratio `K` has the same delay times as
a layer with P velocity `V'`, thickness `tradeH` and velocity ratio `tradeK` (theorem `c118_times`).
-/

namespace Rfsed.Spec

/-- the thickness found with the velocity `V'` instead of `V` -/
noncomputable def tradeH (p V V' H : ℝ) : ℝ := H * (eta p V / eta p V')

/-- the velocity ratio found with the velocity `V'` instead of `V` -/
noncomputable def tradeK (p V V' K : ℝ) : ℝ := V' * Real.sqrt (p ^ 2 + (eta p (V / K) * (eta p V' / eta p V)) ^ 2)

/-- P waves with ray parameter `p` propagate in a layer of velocity `V` -/
def Propagates (p V : ℝ) : Prop := 0 < V ∧ p ^ 2 < (1 / V) ^ 2

/-- a stack table with other names for the grid points and the same values -/
noncomputable def relabelled (f g : ℝ → ℝ) (tb : List (Row ℝ)) : List (Row ℝ) :=
  tb.map (fun x : Row ℝ => (⟨f x.h, g x.k, x.s⟩ : Row ℝ))

end Rfsed.Spec
