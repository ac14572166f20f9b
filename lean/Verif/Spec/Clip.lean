import Verif.Py.Numpy

/-!
# Specification vocabulary: removing non-positive stack values
-/

namespace Rfsed.Spec
open PyFloat
variable {F : Type} [PyFloat F]

/-- `new` is `old` with every stack value `≤ 0` replaced by `0` and nothing else
changed. -/
def ClippedFrom (old new : List (Row F)) : Prop :=
  new.length = old.length ∧
  ∀ (i : Nat) (row : Row F), old[i]? = some row →
    new[i]? = some ⟨row.h, row.k, if le row.s zero then zero else row.s⟩

end Rfsed.Spec
