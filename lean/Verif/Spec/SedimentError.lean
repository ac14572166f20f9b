import Verif.Spec.Tradeoff

/-!
# Specification vocabulary: errors in the sediment and the Moho found below it

`dP`, `dS` are the differences (true minus assumed) of the one-way P and S delay times of the sediment.
-/

namespace Rfsed.Spec

/-- the crustal thickness found when the one-way P time of the sediment is wrong by `dP` -/
noncomputable def biasedH (p V H dP : ℝ) : ℝ := H + dP / eta p V

/-- the crustal velocity ratio found when the one-way P and S times of the sediment are wrong by `dP` and `dS` -/
noncomputable def biasedK (p V H K dP dS : ℝ) : ℝ :=
  V * Real.sqrt (p ^ 2 + ((H * eta p (V / K) + dS) / biasedH p V H dP) ^ 2)

end Rfsed.Spec
