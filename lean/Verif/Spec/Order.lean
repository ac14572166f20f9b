import Verif.Py.Float

/-!
# Specification vocabulary: first maximum, first minimum, first NaN
-/

namespace Rfsed.Spec
open PyFloat
variable {F : Type} [PyFloat F]

/-- position `i` holds a value that no entry exceeds, and every earlier entry is
strictly smaller -/
def IsFirstMax (xs : List F) (i : Nat) : Prop :=
  ∃ x, xs[i]? = some x ∧ (∀ (j : Nat) (y : F), xs[j]? = some y → le y x = true) ∧
    (∀ (j : Nat) (y : F), j < i → xs[j]? = some y → lt y x = true)

/-- position `i` holds a value that no entry goes below, and every earlier entry is
strictly larger -/
def IsFirstMin (xs : List F) (i : Nat) : Prop :=
  ∃ x, xs[i]? = some x ∧ (∀ (j : Nat) (y : F), xs[j]? = some y → le x y = true) ∧
    (∀ (j : Nat) (y : F), j < i → xs[j]? = some y → lt x y = true)

/-- position `i` holds the first NaN -/
def IsFirstNaN (xs : List F) (i : Nat) : Prop :=
  ∃ x, xs[i]? = some x ∧ isNaN x = true ∧
    (∀ (j : Nat) (y : F), j < i → xs[j]? = some y → isNaN y = false)

/-- no entry is NaN -/
def NoNaN (xs : List F) : Prop := ∀ x ∈ xs, isNaN x = false

end Rfsed.Spec
