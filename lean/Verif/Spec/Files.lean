/-!
# Specification vocabulary: files in a folder
-/

namespace Rfsed.Spec

/-- What is found under `name` after files were saved in the given order (first saved first): the
file saved last under that name; earlier ones of the same name are lost. -/
def found {α : Type} : List (String × α) → String → Option α
  | [], _ => none
  | (n, x) :: later, name =>
    match found later name with
    | some y => some y
    | none => if n = name then some x else none

end Rfsed.Spec
