import Verif.Spec.Elastic

/-!
# Specification: delayed arrivals in a stack of layers
-/

namespace Rfsed.Spec
open Complex

/-- The four delays a layer can add: none, that of Ps (an S leg instead of a P leg), that of PpPs
(an S and a P leg more), that of PpSs + PsPs (two S legs). -/
noncomputable def legs (p : ℝ) (l : Layer) : List ℝ :=
  [0, l.h * (vert l.β p - vert l.α p), l.h * (vert l.β p + vert l.α p), 2 * l.h * vert l.β p]

/-- All sums of delays, one of the four for each layer (`4ⁿ` for `n` layers). -/
noncomputable def delays (p : ℝ) : List Layer → List ℝ
  | [] => [0]
  | l :: ls => (legs p l).flatMap (fun t => (delays p ls).map (fun s => t + s))

/-- Spectrum of a sum of pulses with amplitudes `c` and delays `d` (time dependence `e^{-iωt}`). -/
noncomputable def pulses (c : List ℂ) (d : List ℝ) (ω : ℝ) : ℂ :=
  (List.zipWith (fun c d => c * exp (I * (ω * d : ℝ))) c d).sum

/-- the same materials with other thicknesses -/
def rethick (ls : List Layer) (h : List ℝ) : List Layer := List.zipWith (fun l h => { l with h := h }) ls h

/-- Periods of the reverberations within a layer: none, PP, PS, SS, and PP together with SS. -/
noncomputable def revLegs (p : ℝ) (l : Layer) : List ℝ :=
  [0, 2 * l.h * vert l.α p, l.h * (vert l.α p + vert l.β p), 2 * l.h * vert l.β p,
    2 * l.h * (vert l.α p + vert l.β p)]

/-- All sums of reverberation periods, one of the five for each layer. -/
noncomputable def reverbs (p : ℝ) : List Layer → List ℝ
  | [] => [0]
  | l :: ls => (revLegs p l).flatMap (fun t => (reverbs p ls).map (fun s => t + s))

/-- travel time of a P wave through the layers -/
noncomputable def pTime (p : ℝ) (ls : List Layer) : ℝ := (ls.map (fun l => l.h * vert l.α p)).sum

end Rfsed.Spec
