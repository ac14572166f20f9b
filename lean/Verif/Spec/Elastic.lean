import Mathlib.Analysis.Calculus.Deriv.Basic
import Mathlib.Analysis.SpecialFunctions.Complex.Circle
import Mathlib.Analysis.Real.Sqrt
import Mathlib.LinearAlgebra.Matrix.Notation

/-!
# Specification vocabulary: plane P-SV waves in a stack of elastic layers

Independent of the code.  All fields have the form `f(z) · exp(iω(px - t))` with `z` pointing
down, `f = (u_x, u_z, τ_zx, τ_zz)`: horizontal and vertical displacement, shear and normal
traction on a horizontal plane.
-/

namespace Rfsed.Spec
open Complex

/-- One layer: P velocity, S velocity, density, thickness. -/
structure Layer where
  α : ℝ
  β : ℝ
  ρ : ℝ
  h : ℝ

/-- A solid layer in which both kinds of wave with horizontal slowness `p` propagate (`p` is
below the critical slownesses `1/α`, `1/β`). -/
def Layer.Propagating (p : ℝ) (l : Layer) : Prop :=
  0 < l.α ∧ 0 < l.β ∧ 0 < l.ρ ∧ |p| < 1 / l.α ∧ |p| < 1 / l.β

/-- `f` obeys Hooke's law and Newton's second law in a homogeneous isotropic medium with
velocities `α`, `β` and density `ρ`, i.e. Lamé parameters `μ = ρβ²`, `λ = ρ(α² - 2β²)`. -/
def PSV (ω p : ℝ) (l : Layer) (f : ℝ → Fin 4 → ℂ) : Prop :=
  ∀ z, ∃ d : Fin 4 → ℂ, (∀ k, HasDerivAt (fun z => f z k) (d k) z) ∧
    let μ : ℂ := l.ρ * l.β ^ 2
    let lam : ℂ := l.ρ * (l.α ^ 2 - 2 * l.β ^ 2)
    let τxx : ℂ := (lam + 2 * μ) * (I * ω * p * f z 0) + lam * d 1
    -- Hooke's law
    f z 2 = μ * (d 0 + I * ω * p * f z 1) ∧
    f z 3 = (lam + 2 * μ) * d 1 + lam * (I * ω * p * f z 0) ∧
    -- Newton's second law
    -(l.ρ * ω ^ 2) * f z 0 = I * ω * p * τxx + d 2 ∧
    -(l.ρ * ω ^ 2) * f z 1 = I * ω * p * f z 2 + d 3

/-- vertical slowness of a wave with velocity `v` -/
noncomputable def vert (v p : ℝ) : ℝ := Real.sqrt (1 / v ^ 2 - p ^ 2)

/-- which plane wave arrives from below -/
inductive Incident where
  | P | S

/-- Displacement `(u_x, u_z)` of the plane waves with unit amplitude; `up = true`: travelling
upwards. -/
noncomputable def waveP (ω p : ℝ) (l : Layer) (up : Bool) (z : ℝ) : ℂ × ℂ :=
  let ξ := vert l.α p
  let s : ℝ := if up then -1 else 1
  (l.α * p * exp (I * ω * (s * ξ) * z), l.α * (s * ξ) * exp (I * ω * (s * ξ) * z))

/-- see `waveP`; the displacement of an S wave is perpendicular to its direction -/
noncomputable def waveS (ω p : ℝ) (l : Layer) (up : Bool) (z : ℝ) : ℂ × ℂ :=
  let η := vert l.β p
  let s : ℝ := if up then -1 else 1
  (l.β * η * exp (I * ω * (s * η) * z), -(l.β * p * s) * exp (I * ω * (s * η) * z))

/-- the incident wave, unit amplitude -/
noncomputable def incident (ω p : ℝ) (l : Layer) : Incident → ℝ → ℂ × ℂ
  | .P => waveP ω p l true
  | .S => waveS ω p l true

/-- The free surface of a stack of layers moves by `(ur, uz)` when the given wave of unit
amplitude arrives from below: there are wave fields in the layers (`g i` is the field in layer
`i`, with depth counted from its top) that obey the equations of motion, are continuous across
the interfaces, have no traction at the surface, and in the last layer consist, with depth counted
from `ref`, of the incident wave and of waves travelling downwards with amplitudes `A`
(P) and `B` (S). -/
def Response (ω p ref : ℝ) (layers : List Layer) (inc : Incident) (ur uz A B : ℂ) : Prop :=
  ∃ g : Nat → ℝ → Fin 4 → ℂ,
    (∀ (i : Nat) (hi : i < layers.length), PSV ω p layers[i] (g i)) ∧
    g 0 0 = ![ur, uz, 0, 0] ∧
    (∀ (i : Nat) (hi : i + 1 < layers.length), g (i + 1) 0 = g i layers[i].h) ∧
    ∀ (hn : layers ≠ []) (z : ℝ),
      let l := layers.getLast hn
      let f := g (layers.length - 1) (ref + z)
      (f 0, f 1) = incident ω p l inc z + A • waveP ω p l false z + B • waveS ω p l false z

/-- The reference depth the code uses in the last layer: its bottom; the surface if it is the only
layer. -/
noncomputable def refDepth (ls : List Layer) (hn : ls ≠ []) : ℝ :=
  if 1 < ls.length then (ls.getLast hn).h else 0

/-! the arrays handed to the code: velocities, densities, thicknesses -/

/-- P velocities -/
def alphas (ls : List Layer) : List ℝ := ls.map (fun l => l.α)
/-- S velocities -/
def betas (ls : List Layer) : List ℝ := ls.map (fun l => l.β)
/-- densities -/
def rhos (ls : List Layer) : List ℝ := ls.map (fun l => l.ρ)
/-- thicknesses -/
def hs (ls : List Layer) : List ℝ := ls.map (fun l => l.h)

/-- Sample `j` of a seismogram of FFT length `n` with spectrum `U(ω)` at the frequencies
`ω_i = 2πi/(n dt)`, `1 ≤ i ≤ n/2` (time dependence `e^{-iωt}`, sample `j` belongs to time
`(j+1) dt`, amplitudes divided by `n²`). -/
noncomputable def synthSample (n : Nat) (dt : ℝ) (U : ℝ → ℂ) (j : Nat) : ℝ :=
  (∑ i ∈ Finset.Icc 1 (n / 2),
    (U (2 * Real.pi * i / (n * dt)) *
      exp (-I * ((2 * Real.pi * i / (n * dt) : ℝ) * (((j : ℝ) + 1) * dt : ℝ)))).re) / (n : ℝ) ^ 2

end Rfsed.Spec
