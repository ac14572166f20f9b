import Verif.Proofs.EInverse

/-! # Up- and down-going waves; conservation of energy flux -/

namespace Rfsed.Synrf
open Matrix Complex Rfsed.Spec

variable {ω p : ℝ} {l : Layer}

/-- `e_inverse` of a layer -/
noncomputable def lE (ω p : ℝ) (l : Layer) : Mat4 := eInverse ω l.ρ l.α l.β p

/-- plane waves of a layer -/
noncomputable def lW (ω p : ℝ) (l : Layer) : Mat4 :=
  gW ((ω * l.ρ : ℝ) : ℂ) l.α l.β p (vslow l.α p) (vslow l.β p)

/-- phase factors of the four waves -/
noncomputable def lD (ω p : ℝ) (l : Layer) (z : ℝ) : Fin 4 → ℂ :=
  ![exp (I * (ω * vslow l.α p * z : ℝ)), exp (I * (ω * vslow l.β p * z : ℝ)),
    exp (-I * (ω * vslow l.α p * z : ℝ)), exp (-I * (ω * vslow l.β p * z : ℝ))]

theorem Good.ha (h : Good p l) : (l.α : ℂ) ≠ 0 := by exact_mod_cast h.fin.1
theorem Good.hb (h : Good p l) : (l.β : ℂ) ≠ 0 := by exact_mod_cast h.fin.2.1

theorem Good.hX2 (h : Good p l) : (l.α : ℂ) ^ 2 * ((vslow l.α p : ℂ) ^ 2 + (p : ℂ) ^ 2) = 1 := by
  have h1 := vslow_sq h.fin.2.2.1
  have ha := h.fin.1
  have : l.α ^ 2 * (vslow l.α p ^ 2 + p ^ 2) = 1 := by
    rw [h1]; field_simp; ring
  exact_mod_cast this

theorem Good.hE2 (h : Good p l) : (l.β : ℂ) ^ 2 * ((vslow l.β p : ℂ) ^ 2 + (p : ℂ) ^ 2) = 1 := by
  have h1 := vslow_sq h.fin.2.2.2
  have ha := h.fin.2.1
  have : l.β ^ 2 * (vslow l.β p ^ 2 + p ^ 2) = 1 := by
    rw [h1]; field_simp; ring
  exact_mod_cast this

theorem lE_lW (h : Good p l) (hω : ω ≠ 0) : lE ω p l * lW ω p l = 1 := by
  rw [lE, eInverse_eq, lW]
  exact gE_gW (h.hr hω) h.ha h.hb h.hX h.hE h.hX2 h.hE2

theorem lW_lE (h : Good p l) (hω : ω ≠ 0) : lW ω p l * lE ω p l = 1 :=
  mul_eq_one_comm.1 (lE_lW h hω)

theorem exp_I (x : ℝ) : exp (I * x) = (Real.cos x : ℂ) + (Real.sin x : ℂ) * I := by
  rw [mul_comm, exp_mul_I, ofReal_cos, ofReal_sin]

theorem exp_neg_I (x : ℝ) : exp (-I * x) = (Real.cos x : ℂ) - (Real.sin x : ℂ) * I := by
  have : -I * (x : ℂ) = ((-x : ℝ) : ℂ) * I := by push_cast; ring
  rw [this, exp_mul_I, ← ofReal_cos, ← ofReal_sin, Real.cos_neg, Real.sin_neg]
  push_cast; ring

theorem lE_lp (h : Good p l) (hω : ω ≠ 0) (z : ℝ) :
    lE ω p l * lp ω p l z = Matrix.diagonal (lD ω p l z) * lE ω p l := by
  rw [lE, eInverse_eq, lp_eq_gP]
  have e : ((l.β * l.β : ℝ) : ℂ) = (l.β : ℂ) * l.β := by push_cast; ring
  rw [e]
  simp only [gP, mul_add, mul_smul_comm, gE_c1 (h.hr hω) h.ha h.hb h.hX h.hE,
    gE_c2 (h.hr hω) h.ha h.hb h.hX h.hE, gE_s1 (h.hr hω) h.ha h.hb h.hX h.hE,
    gE_s2 (h.hr hω) h.ha h.hb h.hX h.hE, ← smul_mul_assoc, ← add_mul]
  congr 1
  ext j k
  fin_cases j <;> fin_cases k <;>
    simp only [lD, exp_I, exp_neg_I, Matrix.add_apply, Matrix.smul_apply, Matrix.diagonal_apply] <;> simp <;>
    ring

theorem conj2 : (starRingEnd ℂ) 2 = 2 := map_ofNat _ 2
theorem conj4 : (starRingEnd ℂ) 4 = 4 := map_ofNat _ 4

/-! ## flux -/

/-- the form whose imaginary part is the vertical energy flux -/
def J4 : Mat4 := !![0, 0, 1, 0; 0, 0, 0, 1; -1, 0, 0, 0; 0, -1, 0, 0]

theorem J4_sq : J4 * J4 = -1 := by
  ext j k
  fin_cases j <;> fin_cases k <;> simp [J4, Matrix.mul_apply, Fin.sum_univ_four]

macro "flux" : tactic => `(tactic|
   (ext j k
    fin_cases j <;> fin_cases k <;>
     simp [J4, gC1, gC2, gS1, gS2, Matrix.mul_apply, Fin.sum_univ_four, conj2, conj4] <;> ring))

variable (r b q X : ℝ)
theorem flux_c1 : (gC1 r b q)ᴴ * J4 = J4 * gC1 r b q := by flux
theorem flux_c2 : (gC2 r b q)ᴴ * J4 = J4 * gC2 r b q := by flux
theorem flux_s1 : (gS1 r b q X)ᴴ * J4 = -(J4 * gS1 r b q X) := by flux
theorem flux_s2 : (gS2 r b q X)ᴴ * J4 = -(J4 * gS2 r b q X) := by flux

variable {r b q X}

theorem lp_flux (z : ℝ) : (lp ω p l z)ᴴ * J4 = J4 * lp ω p l (-z) := by
  rw [lp_eq_gP, lp_eq_gP]
  simp only [gP, conjTranspose_add, conjTranspose_smul, add_mul, smul_mul_assoc, flux_c1, flux_c2,
    flux_s1, flux_s2, mul_add, mul_smul_comm, mul_neg, Real.cos_neg, Real.sin_neg]
  simp only [RCLike.star_def, conj_ofReal, ofReal_neg]
  module

/-- the propagator conserves the flux -/
theorem lp_conserve (h : Good p l) (hω : ω ≠ 0) (z : ℝ) :
    (lp ω p l z)ᴴ * J4 * lp ω p l z = J4 := by
  rw [lp_flux, Matrix.mul_assoc, lp_neg_mul h hω, Matrix.mul_one]

/-- flux of the four waves -/
noncomputable def lK (ω p : ℝ) (l : Layer) : Fin 4 → ℂ :=
  let P : ℂ := 2 * ω * l.ρ * l.α ^ 2 * vslow l.α p
  let S : ℂ := 2 * ω * l.ρ * l.β ^ 2 * vslow l.β p
  ![P, S, -P, -S]

theorem gE_flux {r a β q X E : ℝ} (hr : r ≠ 0) (ha : a ≠ 0) (hβ : β ≠ 0) (hX : X ≠ 0) (hE : E ≠ 0) :
    (gE r a β q X E)ᴴ * Matrix.diagonal ![2*(r:ℂ)*a^2*X, 2*(r:ℂ)*β^2*E, -(2*(r:ℂ)*a^2*X), -(2*(r:ℂ)*β^2*E)] *
      gE r a β q X E = -I • J4 := by
  have hr : (r : ℂ) ≠ 0 := by exact_mod_cast hr
  have ha : (a : ℂ) ≠ 0 := by exact_mod_cast ha
  have hβ : (β : ℂ) ≠ 0 := by exact_mod_cast hβ
  have hX : (X : ℂ) ≠ 0 := by exact_mod_cast hX
  have hE : (E : ℂ) ≠ 0 := by exact_mod_cast hE
  ext j k
  have hI := I_sq'
  fin_cases j <;> fin_cases k <;>
    simp [J4, gE, conj2, Matrix.mul_apply, Fin.sum_univ_four, Matrix.diagonal_apply] <;>
    generalize (I : ℂ) = i at * <;> field_simp <;> grind

end Rfsed.Synrf
