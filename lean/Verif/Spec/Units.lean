import Verif.Py.Numpy

/-!
# Specification vocabulary: other units of length and time

The unit of length becomes `1/a` of the old one and the unit of time `1/b` of the old one: a
length `x` is then written `a x`, a time `b x`, a velocity `(a/b) x` and a slowness `(b/a) x`.
-/

namespace Rfsed.Spec

/-- a velocity -/
noncomputable def velocityIn (a b : ℝ) (v : Scalar ℝ) : Scalar ℝ := ⟨v.kind, a / b * v.val⟩

/-- a slowness or ray parameter -/
noncomputable def slownessIn (a b : ℝ) (p : Scalar ℝ) : Scalar ℝ := ⟨p.kind, b / a * p.val⟩

/-- a time -/
noncomputable def timeIn (b : ℝ) (t : Scalar ℝ) : Scalar ℝ := ⟨t.kind, b * t.val⟩

/-- a list of lengths (of times) -/
noncomputable def allIn (a : ℝ) (xs : List ℝ) : List ℝ := xs.map (fun x : ℝ => a * x)

/-- a record: sampling interval, start, onset and slowness change, the samples do not -/
noncomputable def traceIn (a b : ℝ) (tr : Trace ℝ) : Trace ℝ :=
  { tr with delta := b * tr.delta, starttime := b * tr.starttime,
            onset := tr.onset.map (fun t : ℝ => b * t),
            slowness := tr.slowness.map (slownessIn a b) }

/-- a stack table: the thicknesses change, velocity ratios and stack values do not -/
noncomputable def tableIn (a : ℝ) (tb : List (Row ℝ)) : List (Row ℝ) :=
  tb.map (fun x : Row ℝ => (⟨a * x.h, x.k, x.s⟩ : Row ℝ))

end Rfsed.Spec
