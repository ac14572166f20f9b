import Verif.Spec.Stacking
import Verif.Spec.Nearest

/-!
# Specification vocabulary: post-critical slownesses in the sequential stackings

A wave of ray parameter `p` does not propagate with velocity `v` when `p > 1/v`: the vertical slowness
`√(1/v² - p²)` has a negative radicand.
-/

namespace Rfsed.Spec
open PyFloat

/-- what a P leg contributes to the real part of a delay time: its vertical slowness if it propagates, nothing if the
slowness is imaginary -/
noncomputable def realP (p v : ℝ) : ℝ := if p ^ 2 ≤ (1 / v) ^ 2 then eta p v else 0

/-- A P leg that makes the delay times NaN: it is post-critical and the velocity or the ray parameter is a numpy number
(Python floats would give a complex slowness instead). -/
def LostP (velocity ray : Kind) (p v : ℝ) : Prop :=
  (1 / v) ^ 2 < p ^ 2 ∧ (velocity = .np ∨ ray = .np)

section
variable {F : Type} [PyFloat F]

/-- the stack value if all three times are NaN: the first sample, three times -/
def FirstThrice (w1 w2 w3 : F) (data : List F) (s : F) : Prop :=
  ∃ d0, data[0]? = some d0 ∧ s = w1 * d0 + w2 * d0 - w3 * d0 + zero

/-- the stack value if the first two times are NaN: the first sample twice, and the sample nearest to `t3` -/
def FirstTwice (w1 w2 w3 : F) (data axis : List F) (t3 s : F) : Prop :=
  ∃ d0 a3, data[0]? = some d0 ∧ ReadsNearest data axis t3 a3 ∧ s = w1 * d0 + w2 * d0 - w3 * a3 + zero

/-- the stack value if all times can be read: the samples nearest to `t1`, `t2`, `t3` -/
def NearestThrice (w1 w2 w3 : F) (data axis : List F) (t1 t2 t3 s : F) : Prop :=
  ∃ a1 a2 a3, ReadsNearest data axis t1 a1 ∧ ReadsNearest data axis t2 a2 ∧ ReadsNearest data axis t3 a3 ∧
    s = w1 * a1 + w2 * a2 - w3 * a3 + zero

/-- `s` is the entry of the Moho table whose value was `u` before values `≤ 0` were set to 0 -/
def CutAtZero (u s : F) : Prop := s = if le u zero then zero else u

end

end Rfsed.Spec
