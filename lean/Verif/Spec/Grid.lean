import Verif.Spec.Stacking
import Verif.Py.Numpy

/-!
# Specification vocabulary: search grids, best rows, stack values
-/

namespace Rfsed.Spec
open PyFloat
variable {F : Type} [PyFloat F]

/-- `tb` has exactly one row per grid point, in K-major order. -/
def GridTable (K H : List F) (tb : List (Row F)) : Prop :=
  tb.length = K.length * H.length ∧
  ∀ (i j : Nat) (k x : F), K[i]? = some k → H[j]? = some x →
    ∃ s, tb[i * H.length + j]? = some ⟨x, k, s⟩

/-- `best` is row `n` of `tb`; no row has a larger stack value and every earlier row
has a strictly smaller one. -/
def BestRow (tb : List (Row F)) (n : Nat) (best : Row F) : Prop :=
  tb[n]? = some best ∧ (∀ (m : Nat) (row : Row F), tb[m]? = some row → le row.s best.s = true) ∧
  (∀ (m : Nat) (row : Row F), m < n → tb[m]? = some row → lt row.s best.s = true)

/-- `s` is the weighted sum of the amplitudes at the samples nearest to the three
arrival times (the third phase has negative polarity). -/
def StackValue (w1 w2 w3 : ℝ) (data axis : List ℝ) (t1 t2 t3 s : ℝ) : Prop :=
  ∃ a1 a2 a3, ReadsNearest data axis t1 a1 ∧ ReadsNearest data axis t2 a2 ∧
    ReadsNearest data axis t3 a3 ∧ s = w1 * a1 + w2 * a2 - w3 * a3

end Rfsed.Spec
