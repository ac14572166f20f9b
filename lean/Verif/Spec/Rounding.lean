import Verif.Spec.Stacking

/-!
# Specification vocabulary for rounding errors

`u` is the unit roundoff (2⁻⁵³ for doubles).
-/

namespace Rfsed.Spec

/-- How strongly the vertical slowness `√(s² - p²)` reacts to relative errors of `s` and `p`; it equals `s` for vertical
incidence and grows without bound towards the critical slowness. -/
noncomputable def sensitivity (p s : ℝ) : ℝ := (s ^ 2 + p ^ 2) / Real.sqrt (s ^ 2 - p ^ 2)

/-- sensitivity of the delay times of a layer: thickness times the sensitivities of its S and P vertical slownesses -/
noncomputable def timeScale (p Vp H K : ℝ) : ℝ := |H| * (sensitivity p (K / Vp) + sensitivity p (1 / Vp))

/-- pre-critical by more than rounding can destroy -/
def WellConditioned (u p Vp K : ℝ) : Prop :=
  5 * u * ((K / Vp) ^ 2 + p ^ 2) < (K / Vp) ^ 2 - p ^ 2 ∧ 5 * u * ((1 / Vp) ^ 2 + p ^ 2) < (1 / Vp) ^ 2 - p ^ 2

/-- accuracy (in seconds) with which a delay time is compared with the `n` samples of a time axis that starts at `-pre`
with spacing `δ` -/
noncomputable def timeAccuracy (u δ pre : ℝ) (n : Nat) (p Vp H K : ℝ) : ℝ :=
  40 * u * (|δ| * n + |pre| + timeScale p Vp H K)

/-- the time axis `δ·i - pre`, exactly -/
noncomputable def exactAxis (δ pre : ℝ) (n : Nat) : List ℝ := (List.range n).map (fun i : Nat => δ * (i : ℝ) - pre)

/-- `a` is the entry of `data` at a sample that is nearest to `t` up to `E`: no other sample is nearer by more than
`E` -/
def AlmostReads (data axis : List ℝ) (t E a : ℝ) : Prop :=
  ∃ (i : Nat) (x : ℝ), axis[i]? = some x ∧ data[i]? = some a ∧
    ∀ (j : Nat) (y : ℝ), axis[j]? = some y → |x - t| ≤ |y - t| + E

/-- one sample of the axis is nearer to `t` than every other by more than `E` -/
def ClearlyNearest (axis : List ℝ) (t E : ℝ) : Prop :=
  ∃ (i : Nat) (x : ℝ), axis[i]? = some x ∧
    ∀ (j : Nat) (y : ℝ), j ≠ i → axis[j]? = some y → |x - t| + E < |y - t|

/-- relative error of `n` successive operations -/
noncomputable def accumulated (u : ℝ) (n : Nat) : ℝ := (1 + u) ^ n - 1

end Rfsed.Spec
