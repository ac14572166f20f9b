import Verif.Spec.Order

/-!
# Specification vocabulary for H-k stacking

Independent of the model: nearest sample of a time axis, and the delay times of
the converted phases in a single layer over a half-space.
-/

namespace Rfsed.Spec
open PyFloat

section
variable {F : Type} [PyFloat F]

/-- `i` is the position of the sample of `axis` nearest to time `t`; the earliest
one if several are equally near. -/
def NearestSample (axis : List F) (t : F) (i : Nat) : Prop :=
  ∃ x, axis[i]? = some x ∧
    (∀ (j : Nat) (y : F), axis[j]? = some y → le (abs (x - t)) (abs (y - t)) = true) ∧
    (∀ (j : Nat) (y : F), j < i → axis[j]? = some y → lt (abs (x - t)) (abs (y - t)) = true)

/-- `a` is the entry of `data` at the sample nearest to `t`. -/
def ReadsNearest (data axis : List F) (t a : F) : Prop :=
  ∃ i, NearestSample axis t i ∧ data[i]? = some a
end

/-! Delay times relative to the direct P wave for ray parameter `p`, layer
thickness `H`, P velocity `Vp` and velocity ratio `K = Vp/Vs`
(Zhu & Kanamori 2000). -/

/-- vertical slowness of a wave with velocity `v` -/
noncomputable def eta (p v : ℝ) : ℝ := Real.sqrt (1 / v ^ 2 - p ^ 2)
/-- Ps: one S leg instead of one P leg -/
noncomputable def tPs (p Vp H K : ℝ) : ℝ := H * (eta p (Vp / K) - eta p Vp)
/-- PpPs: one S and two P legs, minus the direct P leg -/
noncomputable def tPpPs (p Vp H K : ℝ) : ℝ := H * (eta p (Vp / K) + eta p Vp)
/-- PsPs + PpSs: two S legs -/
noncomputable def tPsPs (p Vp H K : ℝ) : ℝ := 2 * H * eta p (Vp / K)

/-- both P and S propagate (neither is post-critical) -/
def PreCritical (p Vp K : ℝ) : Prop := p ^ 2 ≤ (K / Vp) ^ 2 ∧ p ^ 2 ≤ (1 / Vp) ^ 2

end Rfsed.Spec
