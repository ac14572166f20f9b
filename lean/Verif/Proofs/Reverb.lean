import Verif.Proofs.Delays

/-! # The determinant of the layered response as a sum of reverberations -/

namespace Rfsed.Synrf
open Matrix Complex Rfsed.Spec

variable {ω p : ℝ} {l e : Layer}

/-- the product of the propagators without the scaling of tractions -/
noncomputable def qMat (ω p : ℝ) : List Layer → Mat4
  | [] => 1
  | l :: ls => qMat ω p ls * (lW 1 p l * Matrix.diagonal (lD ω p l l.h) * lE 1 p l)

theorem prodMat_q (hω : ω ≠ 0) (ls : List Layer) (hg : ∀ l ∈ ls, Good p l) :
    prodMat ω p ls = wS ω * qMat ω p ls * wS ω⁻¹ := by
  induction ls with
  | nil =>
    have : wS ω * wS ω⁻¹ = 1 := mul_eq_one_comm.1 (wS_inv hω)
    simp [prodMat, qMat, this]
  | cons l ls ih =>
    rw [prodMat, ih (fun k hk => hg k (List.mem_cons_of_mem _ hk)), lp_eig (hg l (by simp)) hω, qMat]
    generalize lW 1 p l * Matrix.diagonal (lD ω p l l.h) * lE 1 p l = X
    calc _ = wS ω * qMat ω p ls * (wS ω⁻¹ * wS ω) * X * wS ω⁻¹ := by simp only [Matrix.mul_assoc]
      _ = _ := by rw [wS_inv hω, Matrix.mul_one, Matrix.mul_assoc (wS ω)]

/-- antisymmetric form selecting rows 2 and 3 -/
def J23 : Mat4 := !![0, 0, 0, 0; 0, 0, 0, 0; 0, 0, 0, 1; 0, 0, -1, 0]

/-- the 2×2 minors of rows 2 and 3 -/
noncomputable def wedge (M : Mat4) : Mat4 := Mᵀ * J23 * M

theorem wedge_apply (M : Mat4) (j k : Fin 4) : wedge M j k = M 2 j * M 3 k - M 3 j * M 2 k := by
  simp [wedge, J23, Matrix.mul_apply, Fin.sum_univ_four]
  ring

theorem wedge_den (M : Mat4) : wedge M 0 1 = den M := by
  rw [wedge_apply, den]; ring

theorem wedge_mul (M N : Mat4) : wedge (M * N) = Nᵀ * wedge M * N := by
  simp only [wedge, Matrix.transpose_mul, Matrix.mul_assoc]

theorem wedge_anti (M : Mat4) (j k : Fin 4) : wedge M j k = -wedge M k j := by
  rw [wedge_apply, wedge_apply]; ring

/-- the part of a form that belongs to a pair of waves -/
noncomputable def sel (j k : Fin 4) (B : Mat4) : Mat4 := proj j * B * proj k + proj k * B * proj j

/-- the five parts, by reverberation period -/
noncomputable def sels : List (Mat4 → Mat4) :=
  [sel 2 3, sel 0 3, fun B => sel 0 2 B + sel 1 3 B, sel 1 2, sel 0 1]

theorem sel_add (j k : Fin 4) (A B : Mat4) : sel j k (A + B) = sel j k A + sel j k B := by
  simp only [sel, Matrix.mul_add, Matrix.add_mul]; abel
theorem sel_smul (j k : Fin 4) (c : ℂ) (A : Mat4) : sel j k (c • A) = c • sel j k A := by
  simp only [sel, Matrix.mul_smul, Matrix.smul_mul, smul_add]

theorem sels_add {s : Mat4 → Mat4} (hs : s ∈ sels) (A B : Mat4) : s (A + B) = s A + s B := by
  simp only [sels, List.mem_cons, List.not_mem_nil, or_false] at hs
  rcases hs with rfl | rfl | rfl | rfl | rfl <;> simp only [sel_add]
  abel
theorem sels_smul {s : Mat4 → Mat4} (hs : s ∈ sels) (c : ℂ) (A : Mat4) : s (c • A) = c • s A := by
  simp only [sels, List.mem_cons, List.not_mem_nil, or_false] at hs
  rcases hs with rfl | rfl | rfl | rfl | rfl <;> simp only [sel_smul, smul_add]

theorem diag_form {B : Mat4} (hB : ∀ j k, B j k = -B k j) (h : ℝ) :
    Matrix.diagonal (lD ω p l h) * B * Matrix.diagonal (lD ω p l h) =
    exp (-I * (ω * (h * (vert l.α p + vert l.β p)) : ℝ)) •
      (exp (I * (ω * 0 : ℝ)) • sel 2 3 B + (exp (I * (ω * (2 * h * vert l.α p) : ℝ)) • sel 0 3 B +
        (exp (I * (ω * (h * (vert l.α p + vert l.β p)) : ℝ)) • (sel 0 2 B + sel 1 3 B) +
          (exp (I * (ω * (2 * h * vert l.β p) : ℝ)) • sel 1 2 B +
            exp (I * (ω * (2 * h * (vert l.α p + vert l.β p)) : ℝ)) • sel 0 1 B)))) := by
  have hd : ∀ j, B j j = 0 := by
    intro j
    have := hB j j
    have h2 : (2 : ℂ) * B j j = 0 := by linear_combination this
    exact (mul_eq_zero.1 h2).resolve_left two_ne_zero
  simp only [smul_add, smul_smul, ← exp_add, vert_eq]
  ext j k
  rw [Matrix.mul_diagonal, Matrix.diagonal_mul]
  have hs : ∀ a b : Fin 4, sel a b B j k = (Pi.single a 1 : Fin 4 → ℂ) j * B j k * (Pi.single b 1 : Fin 4 → ℂ) k +
      (Pi.single b 1 : Fin 4 → ℂ) j * B j k * (Pi.single a 1 : Fin 4 → ℂ) k := by
    intro a b
    rw [sel, proj, proj, Matrix.add_apply, Matrix.mul_diagonal, Matrix.mul_diagonal, Matrix.diagonal_mul,
      Matrix.diagonal_mul]
  simp only [Matrix.add_apply, Matrix.smul_apply, hs, smul_eq_mul]
  fin_cases j <;> fin_cases k <;> simp [lD, Pi.single_apply, hd] <;>
    first
    | (rw [mul_right_comm, ← exp_add]; congr 2; ring1)
    | (rw [mul_right_comm, ← exp_add]; ring_nf; simp)

theorem mPulses_lin {f : Mat4 → Mat4} (hadd : ∀ A B, f (A + B) = f A + f B)
    (hsmul : ∀ (c : ℂ) A, f (c • A) = c • f A) {A : List Mat4} (a : List ℝ) (t : ℝ) (ha : A.length = a.length) :
    mPulses (A.map f) (a.map (fun s => t + s)) ω = exp (I * (ω * t : ℝ)) • f (mPulses A a ω) := by
  induction A generalizing a with
  | nil =>
    have : f 0 = 0 := by have := hsmul 0 0; simpa using this
    simp [mPulses, this]
  | cons x xs ih =>
    cases a with
    | nil => simp at ha
    | cons y ys =>
      have := ih ys (by simpa using ha)
      simp only [mPulses, List.map_cons, List.zipWith_cons_cons, List.sum_cons] at this ⊢
      rw [this, hadd, hsmul, smul_add, smul_smul, ← exp_add]
      congr 3
      push_cast; ring

/-- amplitudes of the reverberations -/
noncomputable def revAmp (p : ℝ) (e : Layer) : List Layer → List Mat4
  | [] => [wedge (lE 1 p e)]
  | l :: ls => sels.flatMap
      (fun s => (revAmp p e ls).map (fun A : Mat4 => (lE 1 p l)ᵀ * s ((lW 1 p l)ᵀ * A * lW 1 p l) * lE 1 p l))

theorem revAmp_length (ls : List Layer) : (revAmp p e ls).length = 5 ^ ls.length := by
  induction ls with
  | nil => rfl
  | cons l ls ih => simp [revAmp, sels, ih, pow_succ]; ring

theorem reverbs_length (ls : List Layer) : (reverbs p ls).length = 5 ^ ls.length := by
  induction ls with
  | nil => rfl
  | cons l ls ih => simp [reverbs, revLegs, ih, pow_succ]; ring

theorem revAmp_rethick (ls : List Layer) (h : List ℝ) (hl : h.length = ls.length) (H : ℝ) :
    revAmp p (withH e H) (rethick ls h) = revAmp p e ls := by
  induction ls generalizing h with
  | nil => simp only [rethick, List.zipWith_nil_left]; rfl
  | cons l ls ih =>
    cases h with
    | nil => simp at hl
    | cons h hs =>
      have := ih hs (by simpa using hl)
      rw [rethick] at this
      rw [rethick, List.zipWith_cons_cons, revAmp, revAmp, this]
      rfl

theorem wedge_pulses (ls : List Layer) :
    wedge (lE 1 p e * qMat ω p ls) = exp (-I * (ω * (pTime p ls + sTime p ls) : ℝ)) •
      mPulses (revAmp p e ls) (reverbs p ls) ω := by
  induction ls with
  | nil => simp [qMat, pTime, sTime, revAmp, reverbs, mPulses]
  | cons l ls ih =>
    have hlen : (revAmp p e ls).length = (reverbs p ls).length := by rw [revAmp_length, reverbs_length]
    have hlin : ∀ s ∈ sels, ∀ t : ℝ, mPulses ((revAmp p e ls).map (fun A : Mat4 =>
        (lE 1 p l)ᵀ * s ((lW 1 p l)ᵀ * A * lW 1 p l) * lE 1 p l)) ((reverbs p ls).map (fun s => t + s)) ω =
        exp (I * (ω * t : ℝ)) • ((lE 1 p l)ᵀ * s ((lW 1 p l)ᵀ * mPulses (revAmp p e ls) (reverbs p ls) ω *
          lW 1 p l) * lE 1 p l) := by
      intro s hs t
      refine mPulses_lin (f := fun A : Mat4 => (lE 1 p l)ᵀ * s ((lW 1 p l)ᵀ * A * lW 1 p l) * lE 1 p l) ?_ ?_ _ t hlen
      · intro A B
        simp only [Matrix.mul_add, Matrix.add_mul, sels_add hs]
      · intro c A
        simp only [Matrix.mul_smul, Matrix.smul_mul, sels_smul hs]
    have hm : mPulses (revAmp p e (l :: ls)) (reverbs p (l :: ls)) ω =
        (lE 1 p l)ᵀ * (exp (I * (ω * 0 : ℝ)) • sel 2 3 ((lW 1 p l)ᵀ * mPulses (revAmp p e ls) (reverbs p ls) ω *
          lW 1 p l) + (exp (I * (ω * (2 * l.h * vert l.α p) : ℝ)) • sel 0 3 ((lW 1 p l)ᵀ *
          mPulses (revAmp p e ls) (reverbs p ls) ω * lW 1 p l) +
        (exp (I * (ω * (l.h * (vert l.α p + vert l.β p)) : ℝ)) • (sel 0 2 ((lW 1 p l)ᵀ *
          mPulses (revAmp p e ls) (reverbs p ls) ω * lW 1 p l) + sel 1 3 ((lW 1 p l)ᵀ *
          mPulses (revAmp p e ls) (reverbs p ls) ω * lW 1 p l)) +
          (exp (I * (ω * (2 * l.h * vert l.β p) : ℝ)) • sel 1 2 ((lW 1 p l)ᵀ *
          mPulses (revAmp p e ls) (reverbs p ls) ω * lW 1 p l) +
            exp (I * (ω * (2 * l.h * (vert l.α p + vert l.β p)) : ℝ)) • sel 0 1 ((lW 1 p l)ᵀ *
          mPulses (revAmp p e ls) (reverbs p ls) ω * lW 1 p l))))) * lE 1 p l := by
      have h3 := hlin (fun B => sel 0 2 B + sel 1 3 B) (by simp [sels]) (l.h * (vert l.α p + vert l.β p))
      beta_reduce at h3
      have : revAmp p e (l :: ls) = sels.flatMap
        (fun s => (revAmp p e ls).map (fun A : Mat4 => (lE 1 p l)ᵀ * s ((lW 1 p l)ᵀ * A * lW 1 p l) * lE 1 p l)) := rfl
      rw [this]
      have hs : sels = [sel 2 3, sel 0 3, fun B => sel 0 2 B + sel 1 3 B, sel 1 2, sel 0 1] := rfl
      simp only [hs, List.flatMap_cons, List.flatMap_nil, List.append_nil, reverbs, revLegs]
      rw [mPulses_append (by simp [hlen]), mPulses_append (by simp [hlen]), mPulses_append (by simp [hlen]),
        mPulses_append (by simp [hlen]), hlin (sel 2 3) (by simp [sels]), hlin (sel 0 3) (by simp [sels]), h3,
        hlin (sel 1 2) (by simp [sels]), hlin (sel 0 1) (by simp [sels])]
      simp only [Matrix.mul_add, Matrix.add_mul, Matrix.mul_smul, Matrix.smul_mul]
    rw [hm]
    set Y := (lW 1 p l)ᵀ * mPulses (revAmp p e ls) (reverbs p ls) ω * lW 1 p l with hY
    have hanti : ∀ j k, Y j k = -Y k j := by
      have e1 : wedge (lE 1 p e * qMat ω p ls * lW 1 p l) =
          exp (-I * (ω * (pTime p ls + sTime p ls) : ℝ)) • Y := by
        rw [wedge_mul, ih, Matrix.mul_smul, Matrix.smul_mul]
      have e2 : Y = (exp (-I * (ω * (pTime p ls + sTime p ls) : ℝ)))⁻¹ •
          wedge (lE 1 p e * qMat ω p ls * lW 1 p l) := by
        rw [e1, smul_smul, inv_mul_cancel₀ (exp_ne_zero _), one_smul]
      intro j k
      rw [e2, Matrix.smul_apply, Matrix.smul_apply, wedge_anti, smul_neg]
    have e3 := diag_form (ω := ω) (p := p) (l := l) hanti l.h
    have e4 : exp (-I * (ω * (pTime p (l :: ls) + sTime p (l :: ls)) : ℝ)) =
        exp (-I * (ω * (pTime p ls + sTime p ls) : ℝ)) * exp (-I * (ω * (l.h * (vert l.α p + vert l.β p)) : ℝ)) := by
      rw [← exp_add]; congr 1; simp [sTime, pTime]; ring
    have e5 : ∀ X : Mat4, exp (-I * (ω * (pTime p (l :: ls) + sTime p (l :: ls)) : ℝ)) • ((lE 1 p l)ᵀ * X * lE 1 p l) =
        exp (-I * (ω * (pTime p ls + sTime p ls) : ℝ)) • ((lE 1 p l)ᵀ *
          (exp (-I * (ω * (l.h * (vert l.α p + vert l.β p)) : ℝ)) • X) * lE 1 p l) := by
      intro X
      rw [e4, Matrix.mul_smul, Matrix.smul_mul, smul_smul]
    rw [e5, ← e3, qMat, ← Matrix.mul_assoc, wedge_mul, ih, hY]
    simp only [Matrix.transpose_mul, Matrix.diagonal_transpose, Matrix.mul_smul, Matrix.smul_mul, Matrix.mul_assoc]

/-! ## the direct wave -/

/-- energy: waves that only travel upwards in one medium need a wave arriving from below in the other -/
theorem transmission_ne_zero (he : e.Propagating p) (hl : l.Propagating p) :
    wedge (lE 1 p e * lW 1 p l) 2 3 ≠ 0 := by
  intro h0
  set S := lE 1 p e * lW 1 p l with hS
  rw [wedge_apply] at h0
  obtain ⟨v, hv0, hv⟩ := (Matrix.exists_mulVec_eq_zero_iff (M := !![S 2 2, S 2 3; S 3 2, S 3 3])).2
    (by rw [Matrix.det_fin_two_of]; linear_combination h0)
  have e0 : S 2 2 * v 0 + S 2 3 * v 1 = 0 := by
    have := congrFun hv 0
    simpa [Matrix.mulVec, dotProduct, Fin.sum_univ_two] using this
  have e1 : S 3 2 * v 0 + S 3 3 * v 1 = 0 := by
    have := congrFun hv 1
    simpa [Matrix.mulVec, dotProduct, Fin.sum_univ_two] using this
  have hg := he.good
  have hgl := hl.good
  set a : Fin 4 → ℂ := ![0, 0, v 0, v 1] with ha
  set w := S *ᵥ a with hw
  have w2 : w 2 = 0 := by
    rw [hw, ha]
    simpa [Matrix.mulVec, dotProduct, Fin.sum_univ_four] using e0
  have w3 : w 3 = 0 := by
    rw [hw, ha]
    simpa [Matrix.mulVec, dotProduct, Fin.sum_univ_four] using e1
  have hflux : Sᴴ * Matrix.diagonal (lK 1 p e) * S = Matrix.diagonal (lK 1 p l) := by
    rw [hS, conjTranspose_mul]
    calc (lW 1 p l)ᴴ * (lE 1 p e)ᴴ * Matrix.diagonal (lK 1 p e) * (lE 1 p e * lW 1 p l)
        = (lW 1 p l)ᴴ * ((lE 1 p e)ᴴ * Matrix.diagonal (lK 1 p e) * lE 1 p e) * lW 1 p l := by
          simp only [Matrix.mul_assoc]
      _ = (lW 1 p l)ᴴ * ((lE 1 p l)ᴴ * Matrix.diagonal (lK 1 p l) * lE 1 p l) * lW 1 p l := by
          rw [lE_flux hg one_ne_zero, lE_flux hgl one_ne_zero]
      _ = (lE 1 p l * lW 1 p l)ᴴ * Matrix.diagonal (lK 1 p l) * (lE 1 p l * lW 1 p l) := by
          rw [conjTranspose_mul]; simp only [Matrix.mul_assoc]
      _ = _ := by rw [lE_lW hgl one_ne_zero]; simp
  have h1 : star w ⬝ᵥ (Matrix.diagonal (lK 1 p e) *ᵥ w) = star a ⬝ᵥ (Matrix.diagonal (lK 1 p l) *ᵥ a) := by
    rw [hw, star_mulVec, ← dotProduct_mulVec, mulVec_mulVec, mulVec_mulVec, ← hflux, Matrix.mul_assoc]
  have hn : ∀ u : ℂ, star u * u = ((‖u‖ ^ 2 : ℝ) : ℂ) := by
    intro u
    rw [RCLike.star_def, Complex.conj_mul']
    push_cast
    rfl
  have h2 : ((e.ρ * (e.α ^ 2 * vslow e.α p * ‖w 0‖ ^ 2 + e.β ^ 2 * vslow e.β p * ‖w 1‖ ^ 2) : ℝ) : ℂ) =
      ((-(l.ρ * (l.α ^ 2 * vslow l.α p * ‖v 0‖ ^ 2 + l.β ^ 2 * vslow l.β p * ‖v 1‖ ^ 2)) : ℝ) : ℂ) := by
    simp only [Matrix.mulVec_diagonal, dotProduct, Fin.sum_univ_four, lK, Pi.star_apply, w2, w3, ha] at h1
    simp only [Matrix.cons_val_zero, Matrix.cons_val_one, Matrix.cons_val, star_zero, zero_mul, mul_zero, add_zero,
      zero_add, ofReal_one, mul_one] at h1
    have e0 := hn (w 0); have e1 := hn (w 1); have f0 := hn (v 0); have f1 := hn (v 1)
    push_cast at e0 e1 f0 f1 ⊢
    rw [← e0, ← e1, ← f0, ← f1]
    linear_combination h1 / 2
  have h3 := Complex.ofReal_inj.1 h2
  have pa : 0 < e.α ^ 2 * vslow e.α p := mul_pos (sq_pos_of_ne_zero hg.fin.1) (vslow_pos hg.fin.2.2.1)
  have pb : 0 < e.β ^ 2 * vslow e.β p := mul_pos (sq_pos_of_ne_zero hg.fin.2.1) (vslow_pos hg.fin.2.2.2)
  have qa : 0 < l.α ^ 2 * vslow l.α p := mul_pos (sq_pos_of_ne_zero hgl.fin.1) (vslow_pos hgl.fin.2.2.1)
  have qb : 0 < l.β ^ 2 * vslow l.β p := mul_pos (sq_pos_of_ne_zero hgl.fin.2.1) (vslow_pos hgl.fin.2.2.2)
  have he3 := he.2.2.1
  have hl3 := hl.2.2.1
  have n1 : 0 ≤ e.ρ * (e.α ^ 2 * vslow e.α p * ‖w 0‖ ^ 2 + e.β ^ 2 * vslow e.β p * ‖w 1‖ ^ 2) := by positivity
  have n2 : l.α ^ 2 * vslow l.α p * ‖v 0‖ ^ 2 + l.β ^ 2 * vslow l.β p * ‖v 1‖ ^ 2 = 0 := by
    have n3 : 0 ≤ l.α ^ 2 * vslow l.α p * ‖v 0‖ ^ 2 + l.β ^ 2 * vslow l.β p * ‖v 1‖ ^ 2 := by positivity
    by_contra hne
    have := mul_pos hl3 (lt_of_le_of_ne n3 (Ne.symm hne))
    linarith
  have m0 := mul_nonneg qa.le (sq_nonneg ‖v 0‖)
  have m1 := mul_nonneg qb.le (sq_nonneg ‖v 1‖)
  have v0 : v 0 = 0 := by
    have : l.α ^ 2 * vslow l.α p * ‖v 0‖ ^ 2 = 0 := by linarith
    have := (mul_eq_zero.1 this).resolve_left qa.ne'
    simpa using this
  have v1 : v 1 = 0 := by
    have : l.β ^ 2 * vslow l.β p * ‖v 1‖ ^ 2 = 0 := by linarith
    have := (mul_eq_zero.1 this).resolve_left qb.ne'
    simpa using this
  apply hv0
  funext i
  fin_cases i
  · exact v0
  · exact v1

theorem sel_wedge (M : Mat4) : sel 2 3 (wedge M) = wedge M 2 3 • J23 := by
  have h : wedge M 3 2 = -wedge M 2 3 := wedge_anti M 3 2
  ext j k
  rw [sel, proj, proj, Matrix.add_apply, Matrix.mul_diagonal, Matrix.mul_diagonal, Matrix.diagonal_mul,
      Matrix.diagonal_mul, Matrix.smul_apply]
  fin_cases j <;> fin_cases k <;> simp [Pi.single_apply, J23, h]

theorem revAmp_head (he : e.Propagating p) (ls : List Layer) (h : ∀ l ∈ ls, l.Propagating p) :
    ∃ (c : ℂ) (t : Layer) (rest : List Mat4), c ≠ 0 ∧ t.Propagating p ∧
      revAmp p e ls = c • wedge (lE 1 p t) :: rest := by
  induction ls with
  | nil => exact ⟨1, e, [], one_ne_zero, he, by simp [revAmp]⟩
  | cons l ls ih =>
    obtain ⟨c, t, rest, hc, ht, hr⟩ := ih (fun k hk => h k (List.mem_cons_of_mem _ hk))
    have hl := h l (by simp)
    refine ⟨c * wedge (lE 1 p t * lW 1 p l) 2 3, l, (revAmp p e (l :: ls)).tail, mul_ne_zero hc (transmission_ne_zero ht hl), hl, ?_⟩
    rw [revAmp, sels, List.flatMap_cons, hr, List.map_cons, List.cons_append]
    congr 1
    rw [Matrix.mul_smul, Matrix.smul_mul, ← wedge_mul, sel_smul, sel_wedge]
    simp only [Matrix.mul_smul, Matrix.smul_mul, smul_smul]
    rfl

theorem slMat_q (hω : ω ≠ 0) (xs : List Layer) (hxs : xs ≠ []) (hg : ∀ k ∈ xs ++ [l], Good p k)
    (hn : xs ++ [l] ≠ []) (j k : Fin 4) (hk : k = 0 ∨ k = 1) :
    slMat ω p (xs ++ [l]) hn j k = lD ω p l l.h j * (lE 1 p l * qMat ω p xs) j k := by
  have hl : Good p l := hg l (by simp)
  have hlen : 0 < xs.length := List.length_pos_iff.2 hxs
  unfold slMat
  rw [if_pos (by simp; omega)]
  have e1 : (xs ++ [l]).getLast hn = l := by simp
  rw [e1, prodMat_append]
  have e3 : prodMat ω p [l] = lp ω p l l.h := by simp [prodMat]
  rw [e3, ← Matrix.mul_assoc, lE_lp hl hω, Matrix.mul_assoc, Matrix.diagonal_mul]
  congr 1
  rw [prodMat_q hω xs (fun k hk => hg k (by simp [hk])), lE_freq hl hω]
  have e4 : lE 1 p l * wS ω⁻¹ * (wS ω * qMat ω p xs * wS ω⁻¹) = lE 1 p l * qMat ω p xs * wS ω⁻¹ := by
    calc _ = lE 1 p l * (wS ω⁻¹ * wS ω) * qMat ω p xs * wS ω⁻¹ := by simp only [Matrix.mul_assoc]
      _ = _ := by rw [wS_inv hω, Matrix.mul_one]
  rw [e4, wS, Matrix.mul_diagonal]
  rcases hk with rfl | rfl <;> simp

theorem den_pulses (hω : ω ≠ 0) (xs : List Layer) (hxs : xs ≠ []) (hg : ∀ k ∈ xs ++ [l], Good p k)
    (hn : xs ++ [l] ≠ []) :
    den (slMat ω p (xs ++ [l]) hn) = lD ω p l l.h 2 * lD ω p l l.h 3 *
      exp (-I * (ω * (pTime p xs + sTime p xs) : ℝ)) *
      pulses ((revAmp p l xs).map (fun M => M 0 1)) (reverbs p xs) ω := by
  have h1 : den (slMat ω p (xs ++ [l]) hn) = lD ω p l l.h 2 * lD ω p l l.h 3 * den (lE 1 p l * qMat ω p xs) := by
    simp only [den]
    rw [slMat_q hω xs hxs hg hn 2 0 (Or.inl rfl), slMat_q hω xs hxs hg hn 2 1 (Or.inr rfl),
      slMat_q hω xs hxs hg hn 3 0 (Or.inl rfl), slMat_q hω xs hxs hg hn 3 1 (Or.inr rfl)]
    ring
  rw [h1, ← wedge_den, wedge_pulses, Matrix.smul_apply, smul_eq_mul]
  have := mPulses_entry (ω := ω) (revAmp p l xs) (reverbs p xs) 1 0 1
  rw [Matrix.one_mul] at this
  rw [this]
  simp only [Matrix.one_mul]
  ring

end Rfsed.Synrf
