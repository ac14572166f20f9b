import Verif.Spec.Stacking

/-!
# Specification vocabulary: receiver functions that show the three phases of a layer
-/

namespace Rfsed.Spec

/-- The record `d` shows arrivals of amplitude `A`, `A` and `-A` at the samples nearest to the times `t1`, `t2` and
`t3`, and nothing elsewhere, everything up to `e`. -/
def ShowsPhases (d axis : List ℝ) (t1 t2 t3 A e : ℝ) : Prop :=
  ∃ i1 i2 i3, NearestSample axis t1 i1 ∧ NearestSample axis t2 i2 ∧ NearestSample axis t3 i3 ∧
    ∀ (j : Nat) (a : ℝ), d[j]? = some a →
      ((j = i1 ∨ j = i2) → |a - A| ≤ e) ∧ (j = i3 → |a + A| ≤ e) ∧ (j ≠ i1 → j ≠ i2 → j ≠ i3 → |a| ≤ e)

/-- the times `t` and `s` have the same nearest sample -/
def SameSample (axis : List ℝ) (t s : ℝ) : Prop := ∃ i, NearestSample axis t i ∧ NearestSample axis s i

/-- `(H, K)` differs from the layer `(H0, K0)` by no more than a sampling interval `dt` allows: the two-way time of
the P leg by at most `3 dt` (`2 dt` if that time is longer than a sampling interval), the two-way time of the S leg
by at most `dt`. -/
def WithinSampling (dt p V H0 K0 H K : ℝ) : Prop :=
  2 * |H - H0| * eta p V ≤ 3 * dt ∧ (dt < 2 * H * eta p V → 2 * |H - H0| * eta p V ≤ 2 * dt) ∧
  2 * |H * eta p (V / K) - H0 * eta p (V / K0)| ≤ dt

end Rfsed.Spec
