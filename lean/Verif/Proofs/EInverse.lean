import Verif.Proofs.Propagator3

/-! # The eigenvector matrix of `e_inverse` -/

namespace Rfsed.Synrf
open Matrix Complex Rfsed.Spec

/-- `e_inverse` with complex parameters (`r = ωρ`, `b = β²`) -/
noncomputable def gE (r a β p X E : ℂ) : Mat4 :=
  !![β^2*p/a, (1-2*β^2*p^2)/(2*a*X), -I*p/(2*r*a*X), -I/(2*r*a);
     (1-2*β^2*p^2)/(2*β*E), -β*p, -I/(2*r*β), I*p/(2*r*β*E);
     β^2*p/a, -(1-2*β^2*p^2)/(2*a*X), I*p/(2*r*a*X), -I/(2*r*a);
     (1-2*β^2*p^2)/(2*β*E), β*p, I/(2*r*β), I*p/(2*r*β*E)]

/-- columns: displacement and traction of the four plane waves (P down, S down, P up, S up) -/
noncomputable def gW (r a β p X E : ℂ) : Mat4 :=
  !![a*p, β*E, a*p, β*E;
     a*X, -β*p, -a*X, β*p;
     2*I*r*β^2*p*a*X, I*r*β*(1-2*β^2*p^2), -2*I*r*β^2*p*a*X, -I*r*β*(1-2*β^2*p^2);
     I*r*a*(1-2*β^2*p^2), -2*I*r*β^3*p*E, I*r*a*(1-2*β^2*p^2), -2*I*r*β^3*p*E]

section
variable {r a β p X E : ℂ} (hr : r ≠ 0) (ha : a ≠ 0) (hβ : β ≠ 0) (hX : X ≠ 0) (hE : E ≠ 0)

include hr ha hβ hX hE in
theorem gE_gW (hX2 : a ^ 2 * (X ^ 2 + p ^ 2) = 1) (hE2 : β ^ 2 * (E ^ 2 + p ^ 2) = 1) :
    gE r a β p X E * gW r a β p X E = 1 := by
  unfold gE gW
  have hI := I_sq'
  generalize (I : ℂ) = i at hI
  ext j k
  fin_cases j <;> fin_cases k <;> simp [Matrix.mul_apply, Fin.sum_univ_four] <;> field_simp <;> grind

macro "diag4" : tactic => `(tactic|
  (have hI := I_sq'
   generalize (I : ℂ) = i at hI
   ext j k
   fin_cases j <;> fin_cases k <;>
     simp [Matrix.mul_apply, Fin.sum_univ_four, Matrix.diagonal_apply] <;>
     (try field_simp) <;> grind))

include hr ha hβ hX hE in
theorem gE_c1 : gE r a β p X E * gC1 r (β * β) p = Matrix.diagonal ![1, 0, 1, 0] * gE r a β p X E := by
  unfold gE gC1; diag4
include hr ha hβ hX hE in
theorem gE_c2 : gE r a β p X E * gC2 r (β * β) p = Matrix.diagonal ![0, 1, 0, 1] * gE r a β p X E := by
  unfold gE gC2; diag4
include hr ha hβ hX hE in
theorem gE_s1 : gE r a β p X E * gS1 r (β * β) p X = Matrix.diagonal ![I, 0, -I, 0] * gE r a β p X E := by
  unfold gE gS1; diag4
include hr ha hβ hX hE in
theorem gE_s2 : gE r a β p X E * gS2 r (β * β) p E = Matrix.diagonal ![0, I, 0, -I] * gE r a β p X E := by
  unfold gE gS2; diag4

end

theorem eInverse_eq (ω ρ α β p : ℝ) :
    eInverse ω ρ α β p = gE ((ω * ρ : ℝ) : ℂ) α β p (vslow α p) (vslow β p) := by
  ext j k
  fin_cases j <;> fin_cases k <;> simp [eInverse, gE, ei] <;> ring
end Rfsed.Synrf
