import Verif.Spec.Tradeoff

/-!
# Specification vocabulary: a wrong slowness and the model found

A layer with P velocity `V`, thickness `H` and velocity ratio `K` has for ray parameter `p` the same delay times as
a layer with the same P velocity, thickness `slowH` and velocity ratio `slowK` for ray parameter `p'`
(theorem `c123_times`).
-/

namespace Rfsed.Spec

/-- the thickness found with the ray parameter `p'` instead of `p` -/
noncomputable def slowH (p p' V H : ℝ) : ℝ := H * (eta p V / eta p' V)

/-- the velocity ratio found with the ray parameter `p'` instead of `p` -/
noncomputable def slowK (p p' V K : ℝ) : ℝ :=
  V * Real.sqrt (p' ^ 2 + (eta p (V / K) * (eta p' V / eta p V)) ^ 2)

/-- the average of a list of numbers -/
noncomputable def average (xs : List ℝ) : ℝ := xs.sum / xs.length

end Rfsed.Spec
