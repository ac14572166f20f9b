import Verif.Spec.Waveform

/-!
# Specification vocabulary for noise
-/

namespace Rfsed.Spec

/-- every sample of the noisy record `x'` differs from that of `x` by less than the size of the
sample of `x` (or not at all) -/
def BelowSignal (x x' : List ℝ) : Prop := List.Forall₂ (fun a b : ℝ => |b - a| < |a| ∨ b = a) x x'

/-- the autocorrelation falls by more than `δ` at each step down to sample `L` and then rises by more than `δ` -/
def ClearTrough (δ : ℝ) (a : List ℝ) (L : Nat) : Prop :=
  1 ≤ L ∧ L + 1 < a.length ∧ (∀ k < L, a.getD (k + 1) 0 + δ < a.getD k 0) ∧ a.getD L 0 + δ < a.getD (L + 1) 0

end Rfsed.Spec
