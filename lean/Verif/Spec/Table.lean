import Verif.Py.Numpy

/-!
# Specification vocabulary: arithmetic of stack tables
-/

namespace Rfsed.Spec

/-- the table with the sum of the stack values at every grid point -/
noncomputable def tableAdd (a b : List (Row ℝ)) : List (Row ℝ) :=
  List.zipWith (fun x y : Row ℝ => (⟨x.h, x.k, x.s + y.s⟩ : Row ℝ)) a b

/-- the table with all stack values multiplied by `c` -/
noncomputable def tableScale (c : ℝ) (a : List (Row ℝ)) : List (Row ℝ) :=
  a.map (fun x : Row ℝ => (⟨x.h, x.k, c * x.s⟩ : Row ℝ))

/-- weighted sum of three tables -/
noncomputable def tableComb (w1 w2 w3 : ℝ) (a b c : List (Row ℝ)) : List (Row ℝ) :=
  tableAdd (tableAdd (tableScale w1 a) (tableScale w2 b)) (tableScale w3 c)

/-- the table with negative stack values replaced by zero -/
noncomputable def tableClip (a : List (Row ℝ)) : List (Row ℝ) :=
  a.map (fun x : Row ℝ => (⟨x.h, x.k, max x.s 0⟩ : Row ℝ))

end Rfsed.Spec
