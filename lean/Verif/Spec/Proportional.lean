import Verif.Spec.Continuity

/-!
# Specification vocabulary: filters under which changes stay proportional
-/

namespace Rfsed.Spec

/-- a filter that keeps the number of samples and that, around each trace, enlarges differences between samples at most by
a fixed factor; every linear filter is one -/
def ProportionalFilter (g : List ℝ → List ℝ) : Prop :=
  ∀ x, (g x).length = x.length ∧ ∃ L > 0, ∀ δ > 0, ∀ y, SamplesWithin δ x y → SamplesWithin (L * δ) (g x) (g y)

/-- every output sample is a linear combination of the input samples, with coefficients that depend on the number of
samples only (e.g. a recursive digital filter started at rest, forwards, or forwards and backwards) -/
def LinearFilter (g : List ℝ → List ℝ) : Prop :=
  ∃ a : ℕ → ℕ → ℕ → ℝ, ∀ x, g x = (List.range x.length).map (fun m : ℕ =>
    ((List.range x.length).map (fun k : ℕ => a x.length m k * x.getD k 0)).sum)

end Rfsed.Spec
