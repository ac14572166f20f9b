import Verif.Spec.Grid

/-!
# Specification vocabulary for missing samples (NaN)
-/

namespace Rfsed.Spec
open NReal

/-- one of the samples nearest to the three times is missing (NaN) -/
def ReadsMissing (data axis : List NReal) (t1 t2 t3 : ℝ) : Prop :=
  ReadsNearest data axis (num t1) nan ∨ ReadsNearest data axis (num t2) nan ∨ ReadsNearest data axis (num t3) nan

section
variable {F : Type} [PyFloat F]

/-- `best` is the first row of the table, at position `n`, whose value is missing -/
def FirstMissing (tb : List (Row F)) (n : Nat) (best : Row F) : Prop :=
  tb[n]? = some best ∧ PyFloat.isNaN best.s = true ∧
    ∀ (m : Nat) (row : Row F), m < n → tb[m]? = some row → PyFloat.isNaN row.s = false
end

end Rfsed.Spec
