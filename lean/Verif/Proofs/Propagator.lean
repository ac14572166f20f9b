import Verif.Model.SynrfForward
import Verif.Spec.Elastic
import Mathlib.Analysis.SpecialFunctions.Trigonometric.Deriv
import Mathlib.Analysis.Calculus.MeanValue
import Mathlib.Analysis.Calculus.Deriv.Pi
import Mathlib.LinearAlgebra.Matrix.Determinant.Basic
import Mathlib.LinearAlgebra.Matrix.ToLinearEquiv
import Mathlib.Tactic.LinearCombination
import Mathlib.Tactic.FinCases
import Mathlib.Tactic.Module

/-! # Algebra of the propagator matrix -/

namespace Rfsed.Synrf
open Matrix Complex

section generic
variable (r b p X : ℂ)

noncomputable def gC1 : Mat4 :=
  !![2*b*p^2, 0, 0, -I*p/r; 0, 1-2*b*p^2, -I*p/r, 0;
     0, 2*r*b*p*(1-2*b*p^2)*I, 2*b*p^2, 0; 2*r*b*p*(1-2*b*p^2)*I, 0, 0, 1-2*b*p^2]
noncomputable def gS1 : Mat4 :=
  !![0, I*p*(1-2*b*p^2)/X, p^2/(X*r), 0; 2*I*b*p*X, 0, 0, X/r;
     -4*r*b^2*p^2*X, 0, 0, 2*I*b*p*X; 0, -r*(1-2*b*p^2)^2/X, I*p*(1-2*b*p^2)/X, 0]
noncomputable def gC2 : Mat4 :=
  !![1-2*b*p^2, 0, 0, I*p/r; 0, 2*b*p^2, I*p/r, 0;
     0, -2*r*b*p*(1-2*b*p^2)*I, 1-2*b*p^2, 0; -2*r*b*p*(1-2*b*p^2)*I, 0, 0, 2*b*p^2]
noncomputable def gS2 : Mat4 :=
  !![0, -2*I*b*p*X, X/r, 0; -I*p*(1-2*b*p^2)/X, 0, 0, p^2/(X*r);
     -r*(1-2*b*p^2)^2/X, 0, 0, -I*p*(1-2*b*p^2)/X; 0, -4*r*b^2*p^2*X, -2*I*b*p*X, 0]

variable {r b p X} {E : ℂ} (hr : r ≠ 0) (hX : X ≠ 0) (hE : E ≠ 0)

theorem I_sq' : (I : ℂ) ^ 2 = -1 := I_sq

macro "mat4" : tactic => `(tactic|
  (have hI := I_sq'
   generalize (I : ℂ) = i at hI
   ext j k
   fin_cases j <;> fin_cases k <;>
     simp [gC1, gS1, gC2, gS2, Matrix.mul_apply, Fin.sum_univ_four] <;> grind))

include hr in
theorem c1c1 : gC1 r b p * gC1 r b p = gC1 r b p := by
  unfold gC1; mat4
include hr hX in
theorem c1s1 : gC1 r b p * gS1 r b p X = gS1 r b p X := by
  unfold gC1 gS1; mat4
include hr hX in
theorem s1c1 : gS1 r b p X * gC1 r b p = gS1 r b p X := by
  unfold gC1 gS1; mat4
include hr hX in
theorem s1s1 : gS1 r b p X * gS1 r b p X = -gC1 r b p := by
  unfold gC1 gS1; mat4
include hr in
theorem c2c2 : gC2 r b p * gC2 r b p = gC2 r b p := by
  unfold gC2; mat4
include hr hE in
theorem c2s2 : gC2 r b p * gS2 r b p E = gS2 r b p E := by
  unfold gC2 gS2; mat4
include hr hE in
theorem s2c2 : gS2 r b p E * gC2 r b p = gS2 r b p E := by
  unfold gC2 gS2; mat4
include hr hE in
theorem s2s2 : gS2 r b p E * gS2 r b p E = -gC2 r b p := by
  unfold gC2 gS2; mat4
include hr in
theorem c1c2 : gC1 r b p * gC2 r b p = 0 := by
  unfold gC1 gC2; mat4
include hr in
theorem c2c1 : gC2 r b p * gC1 r b p = 0 := by
  unfold gC1 gC2; mat4
include hr hE in
theorem c1s2 : gC1 r b p * gS2 r b p E = 0 := by
  unfold gC1 gS2; mat4
include hr hE in
theorem s2c1 : gS2 r b p E * gC1 r b p = 0 := by
  unfold gC1 gS2; mat4
include hr hX in
theorem s1c2 : gS1 r b p X * gC2 r b p = 0 := by
  unfold gC2 gS1; mat4
include hr hX in
theorem c2s1 : gC2 r b p * gS1 r b p X = 0 := by
  unfold gC2 gS1; mat4
include hr hX hE in
theorem s1s2 : gS1 r b p X * gS2 r b p E = 0 := by
  unfold gS1 gS2; mat4
include hr hX hE in
theorem s2s1 : gS2 r b p E * gS1 r b p X = 0 := by
  unfold gS1 gS2; mat4
theorem c1_add_c2 : gC1 r b p + gC2 r b p = 1 := by
  ext j k
  fin_cases j <;> fin_cases k <;> simp [gC1, gC2] <;> ring

/-- the propagator with phases `x`, `y` -/
noncomputable def gP (r b p X E : ℂ) (x y : ℝ) : Mat4 :=
  ((Real.cos x : ℝ) : ℂ) • gC1 r b p + ((Real.sin x : ℝ) : ℂ) • gS1 r b p X +
    (((Real.cos y : ℝ) : ℂ) • gC2 r b p + ((Real.sin y : ℝ) : ℂ) • gS2 r b p E)

theorem gP_zero : gP r b p X E 0 0 = 1 := by
  simp [gP, c1_add_c2]

include hr hX hE in
theorem gP_mul (x y x' y' : ℝ) :
    gP r b p X E x y * gP r b p X E x' y' = gP r b p X E (x + x') (y + y') := by
  simp only [gP, mul_add, add_mul, smul_mul_assoc, mul_smul_comm, c1c1 hr, c1s1 hr hX, s1c1 hr hX,
    s1s1 hr hX, c2c2 hr, c2s2 hr hE, s2c2 hr hE, s2s2 hr hE, c1c2 hr, c2c1 hr, c1s2 hr hE,
    s2c1 hr hE, s1c2 hr hX, c2s1 hr hX, s1s2 hr hX hE, s2s1 hr hX hE, Real.cos_add, Real.sin_add,
    Complex.ofReal_add, Complex.ofReal_sub, Complex.ofReal_mul]
  module
end generic

/-- `propagator_sol` as a combination of four constant matrices -/
theorem propagatorSol_eq (ω ρ α β p z : ℝ) :
    propagatorSol ω ρ α β p z = gP ((ω * ρ : ℝ) : ℂ) ((β * β : ℝ) : ℂ) p (vslow α p) (vslow β p)
      (ω * vslow α p * z) (ω * vslow β p * z) := by
  ext j k
  fin_cases j <;> fin_cases k <;>
    simp [propagatorSol, gP, gC1, gS1, gC2, gS2, ei] <;> ring

theorem vslow_sq {v p : ℝ} (h : 0 < 1 / (v * v) - p * p) : vslow v p ^ 2 = 1 / (v * v) - p * p :=
  Real.sq_sqrt h.le

theorem vslow_pos {v p : ℝ} (h : 0 < 1 / (v * v) - p * p) : 0 < vslow v p := Real.sqrt_pos.2 h

end Rfsed.Synrf
