import Verif.Spec.Rounding
import Verif.Spec.Grid

/-!
# Specification vocabulary for rounding errors of the two-layer stacks
-/

namespace Rfsed.Spec

/-- `s` is, up to the relative error `m`, the weighted sum of the amplitudes at samples that are nearest to the three
arrival times up to `E` -/
def AlmostStack (w1 w2 w3 : ℝ) (data axis : List ℝ) (t1 t2 t3 E m s : ℝ) : Prop :=
  ∃ a1 a2 a3, AlmostReads data axis t1 E a1 ∧ AlmostReads data axis t2 E a2 ∧ AlmostReads data axis t3 E a3 ∧
    |s - (w1 * a1 + w2 * a2 - w3 * a3)| ≤ m * (|w1 * a1| + |w2 * a2| + |w3 * a3|)

/-- each of the three times has a clearly nearest sample -/
def ClearTimes (axis : List ℝ) (t1 t2 t3 E : ℝ) : Prop :=
  ClearlyNearest axis t1 E ∧ ClearlyNearest axis t2 E ∧ ClearlyNearest axis t3 E

/-- delay of the direct P wave in a sediment whose reverberations have period `tlag` -/
noncomputable def sedimentDelay (tlag VpSed VsSed : ℝ) : ℝ := tlag / 2 * (1 - VsSed / VpSed)

/-- size of the time shifts of a sediment whose reverberations have period `tlag` -/
noncomputable def shiftScale (tlag VpSed VsSed : ℝ) : ℝ := |tlag| / 2 * (1 + |VsSed / VpSed|)

/-- delay time of Ps from the Moho below a sediment (`VpS`, `H1`, `K1`): the delays of the two layers add up -/
noncomputable def mohoPs (p VpS H1 K1 VpM H K : ℝ) : ℝ := tPs p VpS H1 K1 + tPs p VpM H K

/-- the same for PpPs -/
noncomputable def mohoPpPs (p VpS H1 K1 VpM H K : ℝ) : ℝ := tPpPs p VpS H1 K1 + tPpPs p VpM H K

/-- the same for PsPs -/
noncomputable def mohoPsPs (p VpS H1 K1 VpM H K : ℝ) : ℝ := tPsPs p VpS H1 K1 + tPsPs p VpM H K

end Rfsed.Spec
