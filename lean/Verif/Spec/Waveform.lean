import Mathlib.Analysis.Real.Sqrt

/-!
# Specification vocabulary for waveform fitting: the fitted window, misfit, correlation
-/

namespace Rfsed.Spec

/-- The samples of `x` whose time `delta * i - preonset` lies between `0` and `25 s - delta`
(both included), in order. -/
noncomputable def window (delta preonset : ℝ) (x : List ℝ) : List ℝ :=
  (x.zipIdx.filter (fun p : ℝ × ℕ => @decide (0 ≤ delta * (p.2 : ℝ) - preonset ∧
    delta * (p.2 : ℝ) - preonset ≤ 25 - delta) (Classical.propDecidable _))).map Prod.fst

/-- root mean square difference -/
noncomputable def rms (x y : List ℝ) : ℝ :=
  Real.sqrt ((List.zipWith (fun a b => (a - b) ^ 2) x y).sum / x.length)

/-- arithmetic mean -/
noncomputable def mean (x : List ℝ) : ℝ := x.sum / x.length

/-- sum of the products of deviations from the means -/
noncomputable def comoment (x y : List ℝ) : ℝ :=
  (List.zipWith (fun a b => (a - mean x) * (b - mean y)) x y).sum

/-- Pearson's correlation coefficient -/
noncomputable def pearson (x y : List ℝ) : ℝ :=
  comoment x y / (Real.sqrt (comoment x x) * Real.sqrt (comoment y y))

/-- all entries are equal -/
def Constant (x : List ℝ) : Prop := ∀ a ∈ x, ∀ b ∈ x, a = b

/-- `m` is the largest entry of `xs` -/
def IsMaxVal (xs : List ℝ) (m : ℝ) : Prop := m ∈ xs ∧ ∀ x ∈ xs, x ≤ m

/-- `m` is the smallest entry of `xs` -/
def IsMinVal (xs : List ℝ) (m : ℝ) : Prop := m ∈ xs ∧ ∀ x ∈ xs, m ≤ x

/-- `y` is `x` with every sample multiplied by some positive number (its own one each) -/
def PosRescaled (x y : List ℝ) : Prop := List.Forall₂ (fun a b => ∃ c : ℝ, 0 < c ∧ b = c * a) x y

/-- shear velocity the code derives from a P velocity -/
noncomputable def vsPoly (v : ℝ) : ℝ :=
  0.7858 - 1.2344 * v + 0.7949 * v ^ 2 - 0.1238 * v ^ 3 + 0.0064 * v ^ 4

/-- density the code derives from a P velocity -/
noncomputable def rhoPoly (v : ℝ) : ℝ :=
  1.6612 * v - 0.4721 * v ^ 2 + 0.0671 * v ^ 3 - 0.0043 * v ^ 4 + 0.000106 * v ^ 5

end Rfsed.Spec
