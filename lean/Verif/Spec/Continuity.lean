import Verif.Spec.Elastic

/-!
# Specification vocabulary: small changes of a stack of layers
-/

namespace Rfsed.Spec

/-- velocities, density and thickness differ by less than `δ` -/
def Layer.Within (δ : ℝ) (l k : Layer) : Prop :=
  |k.α - l.α| < δ ∧ |k.β - l.β| < δ ∧ |k.ρ - l.ρ| < δ ∧ |k.h - l.h| < δ

/-- as many samples, all of which differ by less than `ε` -/
def SamplesWithin (ε : ℝ) (x y : List ℝ) : Prop := List.Forall₂ (fun a b => |b - a| < ε) x y

/-- a filter that keeps the number of samples and under which small changes of the samples stay small -/
def SteadyFilter (g : List ℝ → List ℝ) : Prop :=
  ∀ x, (g x).length = x.length ∧ ∀ ε > 0, ∃ δ > 0, ∀ y, SamplesWithin δ x y → SamplesWithin ε (g x) (g y)

end Rfsed.Spec
