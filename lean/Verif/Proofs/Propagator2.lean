import Verif.Proofs.Propagator
import Mathlib.Analysis.Calculus.Deriv.Prod

/-! # The propagator solves the equations of motion -/

namespace Rfsed.Synrf
open Matrix Complex Rfsed.Spec

/-- the matrix of the first-order system equivalent to `PSV` -/
noncomputable def elA (ω p ρ a b : ℂ) : Mat4 :=
  let k := I * ω * p
  let lam := ρ * (a - 2 * b)
  !![0, -k, 1 / (ρ * b), 0;
     -(lam * k) / (ρ * a), 0, 0, 1 / (ρ * a);
     -ρ * ω ^ 2 - k * (ρ * a * k + lam * (-(lam * k) / (ρ * a))), 0, 0, -k * lam / (ρ * a);
     0, -ρ * ω ^ 2, -k, 0]

theorem elA_eq {ω p ρ a b X E : ℂ} (hω : ω ≠ 0) (hρ : ρ ≠ 0) (ha : a ≠ 0) (hb : b ≠ 0)
    (hX : X ≠ 0) (hE : E ≠ 0) (hX2 : X ^ 2 = 1 / a - p * p) (hE2 : E ^ 2 = 1 / b - p * p) :
    elA ω p ρ a b = (ω * X) • gS1 (ω * ρ) b p X + (ω * E) • gS2 (ω * ρ) b p E := by
  unfold elA gS1 gS2
  have hI := I_sq'
  generalize (I : ℂ) = i at hI
  ext j k
  fin_cases j <;> fin_cases k <;> simp [mul_inv] <;> field_simp at * <;> grind

variable {ω p : ℝ} {l : Layer}

theorem _root_.Rfsed.Spec.Layer.Propagating.finite (h : l.Propagating p) : layerFinite l.α l.β p := by
  obtain ⟨ha, hb, _, h1, h2⟩ := h
  have key : ∀ v : ℝ, 0 < v → |p| < 1 / v → 0 < 1 / (v * v) - p * p := by
    intro v hv hp
    have : p * p < (1 / v) * (1 / v) := by
      rw [← abs_mul_abs_self p]
      exact mul_self_lt_mul_self (abs_nonneg p) hp
    rw [one_div_mul_one_div] at this
    linarith
  exact ⟨ha.ne', hb.ne', key _ ha h1, key _ hb h2⟩

/-- the conditions under which the propagator of a layer is what it should be -/
structure Good (p : ℝ) (l : Layer) : Prop where
  fin : layerFinite l.α l.β p
  rho : l.ρ ≠ 0

theorem _root_.Rfsed.Spec.Layer.Propagating.good (h : l.Propagating p) : Good p l := ⟨h.finite, h.2.2.1.ne'⟩

/-- propagator of a layer -/
noncomputable def lp (ω p : ℝ) (l : Layer) (z : ℝ) : Mat4 := propagatorSol ω l.ρ l.α l.β p z

theorem lp_zero : lp ω p l 0 = 1 := by
  rw [lp, propagatorSol_eq]; simp [gP_zero]

theorem Good.hr (h : Good p l) (hω : ω ≠ 0) : ((ω * l.ρ : ℝ) : ℂ) ≠ 0 := by
  exact_mod_cast mul_ne_zero hω h.rho
theorem Good.hX (h : Good p l) : ((vslow l.α p : ℝ) : ℂ) ≠ 0 := by
  exact_mod_cast (vslow_pos h.fin.2.2.1).ne'
theorem Good.hE (h : Good p l) : ((vslow l.β p : ℝ) : ℂ) ≠ 0 := by
  exact_mod_cast (vslow_pos h.fin.2.2.2).ne'

theorem lp_add (h : Good p l) (hω : ω ≠ 0) (z z' : ℝ) :
    lp ω p l (z + z') = lp ω p l z * lp ω p l z' := by
  simp only [lp, propagatorSol_eq]
  rw [gP_mul (h.hr hω) h.hX h.hE, mul_add, mul_add]

/-- the system matrix of a layer -/
noncomputable def lA (ω p : ℝ) (l : Layer) : Mat4 :=
  elA ω p l.ρ ((l.α * l.α : ℝ) : ℂ) ((l.β * l.β : ℝ) : ℂ)

theorem lA_eq (h : Good p l) (hω : ω ≠ 0) :
    lA ω p l = ((ω * vslow l.α p : ℝ) : ℂ) • gS1 ((ω * l.ρ : ℝ) : ℂ) ((l.β * l.β : ℝ) : ℂ) p (vslow l.α p) +
      ((ω * vslow l.β p : ℝ) : ℂ) • gS2 ((ω * l.ρ : ℝ) : ℂ) ((l.β * l.β : ℝ) : ℂ) p (vslow l.β p) := by
  have h1 := vslow_sq h.fin.2.2.1
  have h2 := vslow_sq h.fin.2.2.2
  have ha := h.fin.1
  have hb := h.fin.2.1
  have hr := h.rho
  have h1' : ((vslow l.α p : ℝ) : ℂ) ^ 2 = 1 / ((l.α * l.α : ℝ) : ℂ) - (p : ℂ) * p := by
    have := congrArg Complex.ofReal h1; push_cast at this ⊢; exact this
  have h2' : ((vslow l.β p : ℝ) : ℂ) ^ 2 = 1 / ((l.β * l.β : ℝ) : ℂ) - (p : ℂ) * p := by
    have := congrArg Complex.ofReal h2; push_cast at this ⊢; exact this
  have := elA_eq (ω := (ω : ℂ)) (ρ := (l.ρ : ℂ)) (p := (p : ℂ)) (by exact_mod_cast hω)
    (by exact_mod_cast hr) (by exact_mod_cast mul_ne_zero ha ha) (by exact_mod_cast mul_ne_zero hb hb)
    h.hX h.hE h1' h2'
  rw [lA, this]
  simp only [Complex.ofReal_mul]

theorem psv_iff (h : Good p l) (f : ℝ → Fin 4 → ℂ) :
    PSV ω p l f ↔ ∀ z, HasDerivAt f (lA ω p l *ᵥ f z) z := by
  have ha : (l.α : ℂ) ≠ 0 := by exact_mod_cast h.fin.1
  have hb : (l.β : ℂ) ≠ 0 := by exact_mod_cast h.fin.2.1
  have hr : (l.ρ : ℂ) ≠ 0 := by exact_mod_cast h.rho
  unfold PSV
  refine forall_congr' fun z => ?_
  rw [hasDerivAt_pi]
  constructor
  · rintro ⟨d, hd, h1, h2, h3, h4⟩ k
    have : (lA ω p l *ᵥ f z) k = d k := by
      clear hd
      have h4' : d 3 = -(l.ρ * ω ^ 2) * f z 1 - I * ω * p * f z 2 := by linear_combination -h4
      have h3' := eq_sub_of_add_eq' h3.symm
      fin_cases k <;> simp [lA, elA, Matrix.mulVec, dotProduct, Fin.sum_univ_four]
      · rw [h1]; field_simp; ring
      · rw [h2]; field_simp; ring
      · rw [h3', h2]; field_simp; ring
      · rw [h4']; ring
    rw [this]
    exact hd k
  · intro hd
    refine ⟨lA ω p l *ᵥ f z, hd, ?_⟩
    refine ⟨?_, ?_, ?_, ?_⟩ <;>
    simp [lA, elA, Matrix.mulVec, dotProduct, Fin.sum_univ_four] <;> grind

end Rfsed.Synrf
