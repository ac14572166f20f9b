import Verif.Proofs.Haskell
import Mathlib.Analysis.Complex.Exponential
import Mathlib.Tactic.Positivity

/-! # The determinant of `haskell` never vanishes; the boundary value problem -/

namespace Rfsed.Synrf
open Matrix Complex Rfsed.Spec

variable {ω p : ℝ} {l : Layer} {ls : List Layer}

theorem prodMat_conserve (hω : ω ≠ 0) (h : ∀ l ∈ ls, Good p l) :
    (prodMat ω p ls)ᴴ * J4 * prodMat ω p ls = J4 := by
  induction ls with
  | nil => simp [prodMat]
  | cons l ls ih =>
    rw [List.forall_mem_cons] at h
    rw [prodMat, conjTranspose_mul]
    calc (lp ω p l l.h)ᴴ * (prodMat ω p ls)ᴴ * J4 * (prodMat ω p ls * lp ω p l l.h)
        = (lp ω p l l.h)ᴴ * ((prodMat ω p ls)ᴴ * J4 * prodMat ω p ls) * lp ω p l l.h := by
          simp only [Matrix.mul_assoc]
      _ = J4 := by rw [ih h.2, lp_conserve h.1 hω]

theorem left_inv_of_conserve {M : Mat4} (h : Mᴴ * J4 * M = J4) : (-J4 * Mᴴ * J4) * M = 1 := by
  rw [Matrix.mul_assoc, Matrix.mul_assoc, ← Matrix.mul_assoc Mᴴ, h, neg_mul, J4_sq, neg_neg]

theorem lE_flux (h : Good p l) (hω : ω ≠ 0) :
    (lE ω p l)ᴴ * Matrix.diagonal (lK ω p l) * lE ω p l = -I • J4 := by
  rw [lE, eInverse_eq]
  have := gE_flux (r := ω * l.ρ) (a := l.α) (β := l.β) (q := p) (X := vslow l.α p) (E := vslow l.β p)
    (mul_ne_zero hω h.rho) h.fin.1 h.fin.2.1 (vslow_pos h.fin.2.2.1).ne' (vslow_pos h.fin.2.2.2).ne'
  rw [← this]
  congr 3
  funext i
  fin_cases i <;> simp only [lK] <;> push_cast <;> ring_nf

/-- conservation of energy between the surface (no traction) and the half-space -/
theorem energy_of_conserve (h : Good p l) (hω : ω ≠ 0) {M : Mat4} (hM : Mᴴ * J4 * M = J4)
    (x y : ℂ) (w : Fin 4 → ℂ) (hw : (lE ω p l * M) *ᵥ ![x, y, 0, 0] = w) :
    l.α ^ 2 * vslow l.α p * (‖w 0‖ ^ 2 - ‖w 2‖ ^ 2) + l.β ^ 2 * vslow l.β p * (‖w 1‖ ^ 2 - ‖w 3‖ ^ 2) = 0 := by
  have h1 : star w ⬝ᵥ (Matrix.diagonal (lK ω p l) *ᵥ w) = 0 := by
    rw [← hw, star_mulVec, ← dotProduct_mulVec, mulVec_mulVec, mulVec_mulVec]
    have : (lE ω p l * M)ᴴ * (Matrix.diagonal (lK ω p l) * (lE ω p l * M)) = -I • J4 := by
      rw [conjTranspose_mul]
      calc Mᴴ * (lE ω p l)ᴴ * (Matrix.diagonal (lK ω p l) * (lE ω p l * M))
          = Mᴴ * ((lE ω p l)ᴴ * Matrix.diagonal (lK ω p l) * lE ω p l) * M := by
            simp only [Matrix.mul_assoc]
        _ = -I • J4 := by
            rw [lE_flux h hω, Matrix.mul_smul, Matrix.smul_mul, hM]
    rw [Matrix.mul_assoc, this, smul_mulVec]
    simp [J4, Matrix.mulVec, dotProduct, Fin.sum_univ_four]
  have h2 : ((2 * ω * l.ρ * (l.α ^ 2 * vslow l.α p * (‖w 0‖ ^ 2 - ‖w 2‖ ^ 2) +
      l.β ^ 2 * vslow l.β p * (‖w 1‖ ^ 2 - ‖w 3‖ ^ 2)) : ℝ) : ℂ) = 0 := by
    rw [← h1]
    simp only [Matrix.mulVec_diagonal, dotProduct, Fin.sum_univ_four, lK, Pi.star_apply]
    have hn : ∀ u : ℂ, star u * u = ((‖u‖ ^ 2 : ℝ) : ℂ) := by
      intro u
      rw [RCLike.star_def, Complex.conj_mul']
      push_cast
      rfl
    push_cast
    have e0 := hn (w 0); have e1 := hn (w 1); have e2 := hn (w 2); have e3 := hn (w 3)
    push_cast at e0 e1 e2 e3
    rw [← e0, ← e1, ← e2, ← e3]
    ring
  have h3 := Complex.ofReal_eq_zero.1 h2
  have h4 : 2 * ω * l.ρ ≠ 0 := mul_ne_zero (mul_ne_zero two_ne_zero hω) h.rho
  exact (mul_eq_zero.1 h3).resolve_left h4

theorem den_ne_zero_of_conserve (h : Good p l) (hω : ω ≠ 0) {M : Mat4} (hM : Mᴴ * J4 * M = J4) :
    den (lE ω p l * M) ≠ 0 := by
  intro h0
  set S := lE ω p l * M with hS
  obtain ⟨v, hv0, hv⟩ := (Matrix.exists_mulVec_eq_zero_iff (M := !![S 2 0, S 2 1; S 3 0, S 3 1])).2
    (by rw [Matrix.det_fin_two_of]; exact h0)
  have e0 : S 2 0 * v 0 + S 2 1 * v 1 = 0 := by
    have := congrFun hv 0
    simpa [Matrix.mulVec, dotProduct, Fin.sum_univ_two] using this
  have e1 : S 3 0 * v 0 + S 3 1 * v 1 = 0 := by
    have := congrFun hv 1
    simpa [Matrix.mulVec, dotProduct, Fin.sum_univ_two] using this
  have hen := energy_of_conserve h hω hM (v 0) (v 1) _ rfl
  set w := (lE ω p l * M) *ᵥ ![v 0, v 1, 0, 0] with hw
  have w2 : w 2 = 0 := by
    rw [hw, ← hS]
    simpa [Matrix.mulVec, dotProduct, Fin.sum_univ_four] using e0
  have w3 : w 3 = 0 := by
    rw [hw, ← hS]
    simpa [Matrix.mulVec, dotProduct, Fin.sum_univ_four] using e1
  have pa : 0 < l.α ^ 2 * vslow l.α p := mul_pos (pow_pos_of_ne h.fin.1) (vslow_pos h.fin.2.2.1)
  have pb : 0 < l.β ^ 2 * vslow l.β p := mul_pos (pow_pos_of_ne h.fin.2.1) (vslow_pos h.fin.2.2.2)
  rw [w2, w3] at hen
  simp only [norm_zero, ne_eq, OfNat.ofNat_ne_zero, not_false_eq_true, zero_pow, sub_zero] at hen
  have q0 := mul_nonneg pa.le (sq_nonneg ‖w 0‖)
  have q1 := mul_nonneg pb.le (sq_nonneg ‖w 1‖)
  have w0 : w 0 = 0 := by
    have : l.α ^ 2 * vslow l.α p * ‖w 0‖ ^ 2 = 0 := by linarith
    have := (mul_eq_zero.1 this).resolve_left pa.ne'
    simpa using this
  have w1 : w 1 = 0 := by
    have : l.β ^ 2 * vslow l.β p * ‖w 1‖ ^ 2 = 0 := by linarith
    have := (mul_eq_zero.1 this).resolve_left pb.ne'
    simpa using this
  have hwz : w = 0 := by
    funext i
    fin_cases i
    · exact w0
    · exact w1
    · exact w2
    · exact w3
  have hinv : ((-J4 * Mᴴ * J4) * lW ω p l) * (lE ω p l * M) = 1 := by
    rw [Matrix.mul_assoc, ← Matrix.mul_assoc (lW ω p l), lW_lE h hω, Matrix.one_mul,
      left_inv_of_conserve hM]
  have : (![v 0, v 1, 0, 0] : Fin 4 → ℂ) = 0 := by
    rw [← Matrix.one_mulVec (![v 0, v 1, 0, 0] : Fin 4 → ℂ), ← hinv, ← mulVec_mulVec, ← hw, hwz,
      mulVec_zero]
  apply hv0
  funext i
  fin_cases i
  · exact congrFun this 0
  · exact congrFun this 1
where
  pow_pos_of_ne {x : ℝ} (hx : x ≠ 0) : 0 < x ^ 2 := by positivity

theorem getLast_good (hn : ls ≠ []) (h : ∀ l ∈ ls, Good p l) : Good p (ls.getLast hn) :=
  h _ (List.getLast_mem hn)

/-- the matrix between surface and half-space conserves the flux -/
theorem slMat_factor (hn : ls ≠ []) (hω : ω ≠ 0) (h : ∀ l ∈ ls, Good p l) :
    ∃ M : Mat4, Mᴴ * J4 * M = J4 ∧ slMat ω p ls hn = lE ω p (ls.getLast hn) * M ∧
      M = if 1 < ls.length then prodMat ω p ls else 1 := by
  unfold slMat
  split_ifs with h1
  · exact ⟨_, prodMat_conserve hω h, rfl, rfl⟩
  · exact ⟨1, by simp, by simp, rfl⟩

theorem den_ne_zero (hn : ls ≠ []) (hω : ω ≠ 0) (h : ∀ l ∈ ls, Good p l) :
    den (slMat ω p ls hn) ≠ 0 := by
  obtain ⟨M, hM, e, _⟩ := slMat_factor hn hω h
  rw [e]
  exact den_ne_zero_of_conserve (getLast_good hn h) hω hM

theorem allFinite_of_good (h : ∀ l ∈ ls, Good p l) : AllFinite p ls := by
  match ls, h with
  | [], _ => trivial
  | [l], h => exact (h l (by simp)).fin
  | l :: m :: rest, h =>
    rw [AllFinite]
    · rw [List.forall_mem_cons] at h; exact ⟨h.1.fin, h.2⟩
    · simp

end Rfsed.Synrf
