import Verif.Py.Numpy

/-!
# Specification vocabulary: changing the gain of the data

A gain is a map of numbers that is compatible, *exactly*, with the arithmetic of the program.  In exact arithmetic
every multiplication by a positive number is one; in binary floating-point arithmetic every multiplication by a power
of two is one as long as nothing overflows or underflows.
-/

namespace Rfsed.Spec
open Rfsed PyFloat
variable {F : Type} [PyFloat F]

/-- `φ` commutes with sums, differences and products with a fixed weight, keeps zero, the order and NaN -/
structure Gain (φ : F → F) : Prop where
  zero : φ zero = zero
  add : ∀ x y, φ (x + y) = φ x + φ y
  sub : ∀ x y, φ (x - y) = φ x - φ y
  weight : ∀ w x, φ (w * x) = w * φ x
  le : ∀ x y, PyFloat.le (φ x) (φ y) = PyFloat.le x y
  nan : ∀ x, isNaN (φ x) = isNaN x

/-- the stream recorded with another gain -/
def gainStream (φ : F → F) (st : List (Trace F)) : List (Trace F) :=
  st.map (fun tr => { tr with data := tr.data.map φ })

/-- the table with the gain applied to the stack values -/
def gainTable (φ : F → F) (tb : List (Row F)) : List (Row F) := tb.map (fun row => ⟨row.h, row.k, φ row.s⟩)

/-- what is assumed of the environment: stacking commutes with the gain, and whether the preview figure can be drawn
does not depend on it -/
structure GainEnv (φ : F → F) (env : Env F) : Prop where
  stack : ∀ st, env.stack (gainStream φ st) = (env.stack st).map (List.map (List.map φ))
  draw : ∀ tb, env.draw (gainTable φ tb) = env.draw tb

end Rfsed.Spec
