import Verif.Spec.Deconv

/-!
# Size of a signal
-/

namespace Rfsed.Spec
open Finset

/-- root of the energy -/
noncomputable def size (n : Nat) (x : Nat → ℝ) : ℝ := √(energy n x)

/-- how large the numbers of a pass with the spike train `p` can be: size of the numerator trace plus that of the
prediction -/
noncomputable def magnitude (n : Nat) (uin win : List ℝ) (dt : ℝ) (p : List ℝ) : ℝ :=
  size n (smp uin) + |dt| * (∑ m ∈ range n, |smp win m|) * size n (smp p)

/-- how much larger the energy of a trace is than that of its low-passed version -/
noncomputable def filterLoss (n : Nat) (dt a : ℝ) (x : List ℝ) : ℝ :=
  energy n (smp x) / energy n (lowpass n dt a x)

end Rfsed.Spec
