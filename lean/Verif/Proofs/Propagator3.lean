import Verif.Proofs.Propagator2

/-! # `PSV` fields are exactly those transported by the propagator -/

namespace Rfsed.Synrf
open Matrix Complex Rfsed.Spec

variable {ω p : ℝ} {l : Layer}

theorem hasDerivAt_mulVec (M : Mat4) {f : ℝ → Fin 4 → ℂ} {f' : Fin 4 → ℂ} {z : ℝ}
    (h : HasDerivAt f f' z) : HasDerivAt (fun z => M *ᵥ f z) (M *ᵥ f') z := by
  rw [hasDerivAt_pi] at h ⊢
  intro k
  simp only [Matrix.mulVec, dotProduct, Fin.sum_univ_four]
  exact ((((h 0).const_mul _).add ((h 1).const_mul _)).add ((h 2).const_mul _)).add
    ((h 3).const_mul _)

theorem hasDerivAt_cos (c z : ℝ) :
    HasDerivAt (fun z : ℝ => ((Real.cos (c * z) : ℝ) : ℂ)) (((-Real.sin (c * z) * c : ℝ)) : ℂ) z := by
  have h : HasDerivAt (fun z : ℝ => c * z) c z := by
    simpa using (hasDerivAt_id z).const_mul c
  exact ((Real.hasDerivAt_cos (c * z)).comp z h).ofReal_comp

theorem hasDerivAt_sin (c z : ℝ) :
    HasDerivAt (fun z : ℝ => ((Real.sin (c * z) : ℝ) : ℂ)) (((Real.cos (c * z) * c : ℝ)) : ℂ) z := by
  have h : HasDerivAt (fun z : ℝ => c * z) c z := by
    simpa using (hasDerivAt_id z).const_mul c
  exact ((Real.hasDerivAt_sin (c * z)).comp z h).ofReal_comp

theorem hasDerivAt_gP (r b q X E : ℂ) (a c : ℝ) {f : ℝ → Fin 4 → ℂ} {f' : Fin 4 → ℂ} {z : ℝ}
    (h : HasDerivAt f f' z) :
    HasDerivAt (fun z => gP r b q X E (a * z) (c * z) *ᵥ f z)
      (gP r b q X E (a * z) (c * z) *ᵥ f' +
        ((((-Real.sin (a * z) * a : ℝ)) : ℂ) • gC1 r b q + (((Real.cos (a * z) * a : ℝ)) : ℂ) • gS1 r b q X +
         ((((-Real.sin (c * z) * c : ℝ)) : ℂ) • gC2 r b q + (((Real.cos (c * z) * c : ℝ)) : ℂ) • gS2 r b q E)) *ᵥ f z) z := by
  have e : (fun z => gP r b q X E (a * z) (c * z) *ᵥ f z) = fun z =>
      ((Real.cos (a * z) : ℝ) : ℂ) • (gC1 r b q *ᵥ f z) + ((Real.sin (a * z) : ℝ) : ℂ) • (gS1 r b q X *ᵥ f z) +
      (((Real.cos (c * z) : ℝ) : ℂ) • (gC2 r b q *ᵥ f z) + ((Real.sin (c * z) : ℝ) : ℂ) • (gS2 r b q E *ᵥ f z)) := by
    funext z
    simp only [gP, add_mulVec, smul_mulVec]
  rw [e]
  have := (((hasDerivAt_cos a z).smul (hasDerivAt_mulVec (gC1 r b q) h)).add
    ((hasDerivAt_sin a z).smul (hasDerivAt_mulVec (gS1 r b q X) h))).add
    (((hasDerivAt_cos c z).smul (hasDerivAt_mulVec (gC2 r b q) h)).add
    ((hasDerivAt_sin c z).smul (hasDerivAt_mulVec (gS2 r b q E) h)))
  refine this.congr_deriv ?_
  simp only [gP, add_mulVec, smul_mulVec]
  module

theorem lp_eq_gP (z : ℝ) : lp ω p l z = gP ((ω * l.ρ : ℝ) : ℂ) ((l.β * l.β : ℝ) : ℂ) p
    (vslow l.α p) (vslow l.β p) (ω * vslow l.α p * z) (ω * vslow l.β p * z) := propagatorSol_eq ..

theorem lA_mul_lp (h : Good p l) (hω : ω ≠ 0) (z : ℝ) :
    lA ω p l * lp ω p l z = lp ω p l z * lA ω p l := by
  rw [lp_eq_gP, lA_eq h hω]
  simp only [gP, mul_add, add_mul, smul_mul_assoc, mul_smul_comm, c1s1 (h.hr hω) h.hX, s1c1 (h.hr hω) h.hX,
    s1s1 (h.hr hω) h.hX, c2s2 (h.hr hω) h.hE, s2c2 (h.hr hω) h.hE, s2s2 (h.hr hω) h.hE, c1s2 (h.hr hω) h.hE,
    s2c1 (h.hr hω) h.hE, s1c2 (h.hr hω) h.hX, c2s1 (h.hr hω) h.hX, s1s2 (h.hr hω) h.hX h.hE, s2s1 (h.hr hω) h.hX h.hE]
  module

/-- the derivative of the propagator -/
theorem lp_deriv (h : Good p l) (hω : ω ≠ 0) {f : ℝ → Fin 4 → ℂ} {f' : Fin 4 → ℂ} {z : ℝ}
    (hf : HasDerivAt f f' z) :
    HasDerivAt (fun z => lp ω p l z *ᵥ f z) (lp ω p l z *ᵥ f' + (lA ω p l * lp ω p l z) *ᵥ f z) z := by
  have := hasDerivAt_gP ((ω * l.ρ : ℝ) : ℂ) ((l.β * l.β : ℝ) : ℂ) p (vslow l.α p) (vslow l.β p)
    (ω * vslow l.α p) (ω * vslow l.β p) hf
  simp only [lp_eq_gP]
  refine this.congr_deriv ?_
  rw [lA_eq h hω]
  congr 2
  simp only [gP, mul_add, add_mul, smul_mul_assoc, mul_smul_comm, s1c1 (h.hr hω) h.hX,
    s1s1 (h.hr hω) h.hX, s2c2 (h.hr hω) h.hE, s2s2 (h.hr hω) h.hE,
    s2c1 (h.hr hω) h.hE, s1c2 (h.hr hω) h.hX, s1s2 (h.hr hω) h.hX h.hE, s2s1 (h.hr hω) h.hX h.hE]
  push_cast
  module

theorem lp_neg_mul (h : Good p l) (hω : ω ≠ 0) (z : ℝ) : lp ω p l (-z) * lp ω p l z = 1 := by
  rw [← lp_add h hω, neg_add_cancel, lp_zero]

theorem lp_mul_neg (h : Good p l) (hω : ω ≠ 0) (z : ℝ) : lp ω p l z * lp ω p l (-z) = 1 := by
  rw [← lp_add h hω, add_neg_cancel, lp_zero]

/-- A field obeys the equations of motion iff the propagator transports it. -/
theorem psv_iff_transport (h : Good p l) (hω : ω ≠ 0) (f : ℝ → Fin 4 → ℂ) :
    PSV ω p l f ↔ ∀ z, f z = lp ω p l z *ᵥ f 0 := by
  rw [psv_iff h]
  constructor
  · intro hf z
    have hg : ∀ z, HasDerivAt (fun z => lp ω p l z *ᵥ f (-z)) 0 z := by
      intro z
      have h1 : HasDerivAt (fun z => f (-z)) (-(lA ω p l *ᵥ f (-z))) z := by
        have := (hf (-z)).scomp z (hasDerivAt_neg z)
        rw [neg_one_smul] at this
        exact this
      refine (lp_deriv h hω h1).congr_deriv ?_
      rw [lA_mul_lp h hω, ← mulVec_mulVec, mulVec_neg, neg_add_cancel]
    have hc := is_const_of_deriv_eq_zero (fun z => (hg z).differentiableAt)
      (fun z => (hg z).deriv) (-z) 0
    simp only [neg_neg, neg_zero, lp_zero, one_mulVec] at hc
    rw [← hc, mulVec_mulVec, lp_mul_neg h hω, one_mulVec]
  · intro hf z
    have := lp_deriv h hω (hasDerivAt_const z (f 0))
    have e : f = fun z => lp ω p l z *ᵥ f 0 := funext hf
    have h2 : HasDerivAt f (lp ω p l z *ᵥ 0 + (lA ω p l * lp ω p l z) *ᵥ f 0) z := by
      rw [← e] at this
      exact this
    refine h2.congr_deriv ?_
    rw [mulVec_zero, zero_add, ← mulVec_mulVec, ← hf z]

end Rfsed.Synrf
