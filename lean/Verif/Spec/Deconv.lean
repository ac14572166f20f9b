import Verif.Proofs.Fft
import Mathlib.Analysis.SpecialFunctions.Exp

/-!
# Specification vocabulary for deconvolution

Signals of period `n` are functions `Nat → ℝ` read at `0 … n-1`; `cyc n a` is `a mod n`.
-/

namespace Rfsed.Spec
open Finset

/-- circular convolution: `(x ⊛ y)(m) = Σ_{j<n} x(j) y(m-j mod n)` -/
noncomputable def cconv (n : Nat) (x y : Nat → ℝ) (m : Nat) : ℝ :=
  ∑ j ∈ range n, x j * y (cyc n ((m : ℤ) - j))

/-- energy `Σ_{m<n} x(m)²` -/
noncomputable def energy (n : Nat) (x : Nat → ℝ) : ℝ := ∑ m ∈ range n, x m ^ 2

/-- sample `i` of an array, zero beyond its end -/
noncomputable def smp (x : List ℝ) (i : Nat) : ℝ := x.getD i 0

/-- The Gaussian low-pass of Ligorría & Ammon: `exp(-(ω/2a)²)` with `ω = 2π f`, at the frequency
`f = min(k, n-k) / (n dt)` of DFT bin `k`. -/
noncomputable def gaussResponse (dt : ℝ) (n : Nat) (a : ℝ) (k : Nat) : ℝ :=
  Real.exp (-(2 * Real.pi * ((min k (n - k) : ℕ) : ℝ) / (n * dt) / (2 * a)) ^ 2)

/-- The Gaussian pulse: the signal of period `n` with spectrum `gaussResponse`. -/
noncomputable def gaussPulse (dt : ℝ) (n : Nat) (a : ℝ) (m : Nat) : ℝ :=
  (∑ k ∈ range n, gaussResponse dt n a k * Real.cos (2 * Real.pi * (m * k) / n)) / n

/-- a trace after the Gaussian low-pass, on `n` samples (zero padded, circular) -/
noncomputable def lowpass (n : Nat) (dt a : ℝ) (x : List ℝ) : Nat → ℝ :=
  cconv n (smp x) (gaussPulse dt n a)

/-- The part of the energy of `u` that the prediction `dt · (p ⊛ w)` leaves unexplained. -/
noncomputable def misfit (n : Nat) (dt : ℝ) (u w p : Nat → ℝ) : ℝ :=
  energy n (fun m => u m - dt * cconv n p w m) / energy n u

/-- lags that may receive a spike: all for S receiver functions, the first half minus one for P -/
def Lag (n : Nat) (phase : String) (i : Nat) : Prop := i < n ∧ (phase = "P" → i < n / 2 - 1)

/-- `p'` is `p` with the best single spike changed: no admissible lag and value gives a smaller
misfit, every earlier lag and every other value at this lag gives a larger one. -/
def BestSpike (n : Nat) (dt : ℝ) (u w : Nat → ℝ) (phase : String) (p p' : List ℝ) : Prop :=
  ∃ i v, Lag n phase i ∧ p' = p.set i v ∧
    (∀ i' v', Lag n phase i' → misfit n dt u w (smp p') ≤ misfit n dt u w (smp (p.set i' v'))) ∧
    (∀ i' v', i' < i → misfit n dt u w (smp p') < misfit n dt u w (smp (p.set i' v'))) ∧
    (∀ v', v' ≠ v → misfit n dt u w (smp p') < misfit n dt u w (smp (p.set i v')))

/-- A run of the greedy algorithm of Ligorría & Ammon (1999): `P 0, …, P k` are the spike trains
after 0, …, k iterations, each iteration adds the best spike, all but the last one improve the
misfit by more than `minderr` per cent, and the run ends after `itmax` iterations or when the last
one improved it by at most that. -/
structure GreedyRun (n : Nat) (dt : ℝ) (u w : Nat → ℝ) (phase : String) (minderr : ℝ)
    (itmax k : Nat) (P : Nat → List ℝ) : Prop where
  start : P 0 = List.replicate n 0
  spike : ∀ j < k, BestSpike n dt u w phase (P j) (P (j + 1))
  go : ∀ j, j + 1 < k →
    minderr < 100 * (misfit n dt u w (smp (P j)) - misfit n dt u w (smp (P (j + 1))))
  stop : k = itmax ∨ (k = 0 ∧ energy n u = 0) ∨ ∃ j, k = j + 1 ∧
    100 * (misfit n dt u w (smp (P j)) - misfit n dt u w (smp (P (j + 1)))) ≤ minderr

end Rfsed.Spec

/-! ## water level -/

namespace Rfsed.Spec
open Finset

/-- spectrum of a trace on `n` samples -/
noncomputable def traceSpectrum (n : Nat) (x : List ℝ) (k : Nat) : ℂ := dft n (fun j => (smp x j : ℂ)) k

/-- angular frequency of DFT bin `k`: the bins after the Nyquist one are negative frequencies -/
noncomputable def omega (dt : ℝ) (n k : Nat) : ℝ :=
  2 * Real.pi * (if k ≤ n / 2 then (k : ℝ) else (k : ℝ) - n) / (n * dt)

/-- `d` is the largest power `|X_k|²` in the spectrum -/
def IsMaxPower (n : Nat) (X : Nat → ℂ) (d : ℝ) : Prop :=
  (∃ k < n, d = ‖X k‖ ^ 2) ∧ ∀ k < n, ‖X k‖ ^ 2 ≤ d

/-- the water-level quotient `U · conj W / max(|W|², φ)` -/
noncomputable def waterQuot (φ : ℝ) (U W : ℂ) : ℂ :=
  U * (starRingEnd ℂ) W / ((max (‖W‖ ^ 2) φ : ℝ) : ℂ)

end Rfsed.Spec
