import Verif.Spec.Deconv

/-!
# Specification vocabulary: runs of the iterative deconvolution without ties
-/

namespace Rfsed.Spec

/-- A run of the greedy algorithm in which nothing is decided by a hair: in each iteration every other admissible lag gives
a larger misfit, and the improvement of the last iteration is not exactly `minderr` per cent (unless `itmax` iterations
were made). -/
structure ClearRun (n : Nat) (dt : ℝ) (u w : Nat → ℝ) (phase : String) (minderr : ℝ) (itmax k : Nat)
    (P : Nat → List ℝ) : Prop extends GreedyRun n dt u w phase minderr itmax k P where
  alone : ∀ j < k, ∃ i v, Lag n phase i ∧ P (j + 1) = (P j).set i v ∧ ∀ i' v', Lag n phase i' → i' ≠ i →
    misfit n dt u w (smp (P (j + 1))) < misfit n dt u w (smp ((P j).set i' v'))
  halt : k = itmax ∨ ∃ j, k = j + 1 ∧
    100 * (misfit n dt u w (smp (P j)) - misfit n dt u w (smp (P (j + 1)))) < minderr

/-- The same, except that the last iteration may also be one in which no admissible spike improves the misfit (as when the
numerator is explained completely): then it does not matter which lag it picks. -/
structure SteadyRun (n : Nat) (dt : ℝ) (u w : Nat → ℝ) (phase : String) (minderr : ℝ) (itmax k : Nat)
    (P : Nat → List ℝ) : Prop extends GreedyRun n dt u w phase minderr itmax k P where
  alone : ∀ j < k, (∃ i v, Lag n phase i ∧ P (j + 1) = (P j).set i v ∧ ∀ i' v', Lag n phase i' → i' ≠ i →
      misfit n dt u w (smp (P (j + 1))) < misfit n dt u w (smp ((P j).set i' v'))) ∨
    j + 1 = k ∧ misfit n dt u w (smp (P (j + 1))) = misfit n dt u w (smp (P j))
  halt : k = itmax ∨ ∃ j, k = j + 1 ∧
    100 * (misfit n dt u w (smp (P j)) - misfit n dt u w (smp (P (j + 1)))) < minderr

end Rfsed.Spec
