import Verif.Proofs.Haskell2
import Mathlib.Analysis.SpecialFunctions.ExpDeriv

/-! # `haskell` solves the boundary value problem `Spec.Response` -/

namespace Rfsed.Synrf
open Matrix Complex Rfsed.Spec

variable {ω p : ℝ} {l : Layer} {ls : List Layer}

theorem vert_eq (v p : ℝ) : vert v p = vslow v p := by
  rw [vert, vslow, pow_two, pow_two]

/-- amplitudes of the waves from below -/
def incVec : Incident → ℂ × ℂ
  | .P => (1, 0)
  | .S => (0, 1)

theorem hasDerivAt_exp (c : ℂ) (z : ℝ) :
    HasDerivAt (fun z : ℝ => exp (c * z)) (c * exp (c * z)) z := by
  have h1 : HasDerivAt (fun z : ℝ => c * (z : ℂ)) c z := by
    have := (hasDerivAt_id z).ofReal_comp.const_mul c
    simpa using this
  have := (Complex.hasDerivAt_exp (c * z)).comp z h1
  rw [mul_comm]
  exact this

/-- the displacement of a combination of plane waves, written with the matrix of wave vectors -/
theorem waves_eq (inc : Incident) (A B : ℂ) (z : ℝ) :
    incident ω p l inc z + A • waveP ω p l false z + B • waveS ω p l false z =
      ((lW ω p l *ᵥ (Matrix.diagonal (lD ω p l z) *ᵥ ![A, B, (incVec inc).1, (incVec inc).2])) 0,
       (lW ω p l *ᵥ (Matrix.diagonal (lD ω p l z) *ᵥ ![A, B, (incVec inc).1, (incVec inc).2])) 1) := by
  have a1 : I * ω * (((1 : ℝ) : ℂ) * (vslow l.α p : ℂ)) * z = I * ((ω * vslow l.α p * z : ℝ) : ℂ) := by
    push_cast; ring
  have a2 : I * ω * (((-1 : ℝ) : ℂ) * (vslow l.α p : ℂ)) * z = -I * ((ω * vslow l.α p * z : ℝ) : ℂ) := by
    push_cast; ring
  have b1 : I * ω * (((1 : ℝ) : ℂ) * (vslow l.β p : ℂ)) * z = I * ((ω * vslow l.β p * z : ℝ) : ℂ) := by
    push_cast; ring
  have b2 : I * ω * (((-1 : ℝ) : ℂ) * (vslow l.β p : ℂ)) * z = -I * ((ω * vslow l.β p * z : ℝ) : ℂ) := by
    push_cast; ring
  cases inc <;> ext <;>
    simp only [incident, waveP, waveS, vert_eq, incVec, a1, a2, b1, b2, if_true, Bool.false_eq_true, if_false,
      lW, gW, lD, Matrix.mulVec_diagonal, Matrix.mulVec, dotProduct, Fin.sum_univ_four, Prod.fst_add, Prod.snd_add,
      Prod.smul_fst, Prod.smul_snd, smul_eq_mul] <;>
    simp [Matrix.of_apply, Matrix.diagonal_apply] <;> ring

theorem halfspace_iff (h : Good p l) (hω : ω ≠ 0) {f : ℝ → Fin 4 → ℂ} (hf : PSV ω p l f) (ref : ℝ)
    (inc : Incident) (A B : ℂ) :
    (∀ z : ℝ, (f (ref + z) 0, f (ref + z) 1) =
      incident ω p l inc z + A • waveP ω p l false z + B • waveS ω p l false z) ↔
    lE ω p l *ᵥ f ref = ![A, B, (incVec inc).1, (incVec inc).2] := by
  set w : Fin 4 → ℂ := ![A, B, (incVec inc).1, (incVec inc).2] with hw
  have ht := (psv_iff_transport h hω f).1 hf
  have hstep : ∀ z, f (ref + z) = lp ω p l z *ᵥ f ref := by
    intro z
    rw [ht (ref + z), ht ref, mulVec_mulVec, ← lp_add h hω, add_comm]
  -- the field with amplitudes `w`
  have hfield : ∀ z, lp ω p l z *ᵥ (lW ω p l *ᵥ w) = lW ω p l *ᵥ (Matrix.diagonal (lD ω p l z) *ᵥ w) := by
    intro z
    have e : lp ω p l z * lW ω p l = lW ω p l * Matrix.diagonal (lD ω p l z) := by
      calc lp ω p l z * lW ω p l = lW ω p l * lE ω p l * (lp ω p l z * lW ω p l) := by
            rw [lW_lE h hω, Matrix.one_mul]
        _ = lW ω p l * (lE ω p l * lp ω p l z) * lW ω p l := by simp only [Matrix.mul_assoc]
        _ = lW ω p l * Matrix.diagonal (lD ω p l z) * (lE ω p l * lW ω p l) := by
            rw [lE_lp h hω]; simp only [Matrix.mul_assoc]
        _ = _ := by rw [lE_lW h hω, Matrix.mul_one]
    rw [mulVec_mulVec, e, ← mulVec_mulVec]
  constructor
  · intro hz
    -- the difference of the two fields has vanishing displacement
    set g : ℝ → Fin 4 → ℂ := fun z => lp ω p l z *ᵥ (f ref - lW ω p l *ᵥ w) with hg
    have hgp : PSV ω p l g := by
      rw [psv_iff_transport h hω]
      intro z
      simp only [hg, lp_zero, one_mulVec]
    have hg01 : ∀ z, g z 0 = 0 ∧ g z 1 = 0 := by
      intro z
      have h1 := hz z
      rw [waves_eq, ← hw, ← hfield, hstep] at h1
      rw [Prod.mk.injEq] at h1
      simp only [hg, mulVec_sub, Pi.sub_apply]
      exact ⟨sub_eq_zero.2 h1.1, sub_eq_zero.2 h1.2⟩
    obtain ⟨d, hd, h2, h3, _, _⟩ := hgp 0
    have d0 : d 0 = 0 := by
      have e : (fun z => g z 0) = fun _ => (0 : ℂ) := funext fun z => (hg01 z).1
      have := hd 0
      rw [e] at this
      exact this.unique (hasDerivAt_const _ _)
    have d1 : d 1 = 0 := by
      have e : (fun z => g z 1) = fun _ => (0 : ℂ) := funext fun z => (hg01 z).2
      have := hd 1
      rw [e] at this
      exact this.unique (hasDerivAt_const _ _)
    have g2 : g 0 2 = 0 := by rw [h2, d0, (hg01 0).2]; simp
    have g3 : g 0 3 = 0 := by rw [h3, d1, (hg01 0).1]; simp
    have g0 : g 0 = 0 := by
      funext i
      fin_cases i
      · exact (hg01 0).1
      · exact (hg01 0).2
      · exact g2
      · exact g3
    have : f ref = lW ω p l *ᵥ w := by
      have := g0
      simp only [hg, lp_zero, one_mulVec] at this
      exact sub_eq_zero.1 this
    rw [this, mulVec_mulVec, lE_lW h hω, one_mulVec]
  · intro he z
    have : f ref = lW ω p l *ᵥ w := by
      rw [← he, mulVec_mulVec, lW_lE h hω, one_mulVec]
    rw [waves_eq, ← hw, ← hfield, hstep, this]

theorem chain {g : Nat → ℝ → Fin 4 → ℂ} (hω : ω ≠ 0) (h : ∀ l ∈ ls, Good p l)
    (hg : ∀ (i : Nat) (hi : i < ls.length), PSV ω p ls[i] (g i))
    (hc : ∀ (i : Nat) (hi : i + 1 < ls.length), g (i + 1) 0 = g i ls[i].h) :
    ∀ k < ls.length, g k 0 = prodMat ω p (ls.take k) *ᵥ g 0 0 := by
  intro k
  induction k with
  | zero => intro _; simp [prodMat]
  | succ k ih =>
    intro hk
    rw [hc k hk, (psv_iff_transport (h _ (List.getElem_mem _)) hω _).1 (hg k (by omega)), ih (by omega),
      List.take_succ_eq_append_getElem (by omega : k < ls.length), prodMat_append, mulVec_mulVec]
    simp [prodMat]

theorem response_iff (hω : ω ≠ 0) (hn : ls ≠ []) (h : ∀ l ∈ ls, Good p l) (inc : Incident)
    (ur uz A B : ℂ) :
    Response ω p (refDepth ls hn) ls inc ur uz A B ↔
      slMat ω p ls hn *ᵥ ![ur, uz, 0, 0] = ![A, B, (incVec inc).1, (incVec inc).2] := by
  have hlen : 0 < ls.length := List.length_pos_iff.2 hn
  have hlast : ls.getLast hn = ls[ls.length - 1] := List.getLast_eq_getElem hn
  -- the field at the reference depth
  have key : ∀ g : Nat → ℝ → Fin 4 → ℂ,
      (∀ (i : Nat) (hi : i < ls.length), PSV ω p ls[i] (g i)) →
      (∀ (i : Nat) (hi : i + 1 < ls.length), g (i + 1) 0 = g i ls[i].h) →
      lE ω p (ls.getLast hn) *ᵥ g (ls.length - 1) (refDepth ls hn) = slMat ω p ls hn *ᵥ g 0 0 := by
    intro g hg hc
    have h1 := chain hω h hg hc (ls.length - 1) (by omega)
    have h2 := (psv_iff_transport (h _ (List.getElem_mem (n := ls.length - 1) (by omega))) hω _).1
      (hg (ls.length - 1) (by omega)) (refDepth ls hn)
    rw [h2, h1, slMat, refDepth]
    split_ifs with hl
    · rw [mulVec_mulVec, mulVec_mulVec]
      congr 1
      rw [hlast]
      have : ls = ls.take (ls.length - 1) ++ [ls[ls.length - 1]] := by
        rw [← hlast, ← List.dropLast_eq_take, List.dropLast_append_getLast]
      have e := congrArg (prodMat ω p) this
      rw [prodMat_append] at e
      rw [e]
      simp [prodMat, Matrix.mul_assoc]
    · have : ls.length - 1 = 0 := by omega
      simp [this, prodMat, lp_zero]
  constructor
  · rintro ⟨g, hg, h0, hc, hz⟩
    have hz := hz hn
    have hp := hg (ls.length - 1) (by omega)
    rw [← hlast] at hp
    have := (halfspace_iff (getLast_good hn h) hω hp (refDepth ls hn) inc A B).1 hz
    rw [← this, key g hg hc, h0]
  · intro hs
    set g : Nat → ℝ → Fin 4 → ℂ := fun i z =>
      if hi : i < ls.length then lp ω p ls[i] z *ᵥ (prodMat ω p (ls.take i) *ᵥ ![ur, uz, 0, 0])
      else 0 with hgdef
    have hg : ∀ (i : Nat) (hi : i < ls.length), PSV ω p ls[i] (g i) := by
      intro i hi
      rw [psv_iff_transport (h _ (List.getElem_mem _)) hω]
      intro z
      simp only [hgdef, dif_pos hi, lp_zero, one_mulVec]
    have h0 : g 0 0 = ![ur, uz, 0, 0] := by
      simp only [hgdef, dif_pos hlen, lp_zero, one_mulVec, List.take_zero, prodMat]
    have hc : ∀ (i : Nat) (hi : i + 1 < ls.length), g (i + 1) 0 = g i ls[i].h := by
      intro i hi
      simp only [hgdef, dif_pos hi, dif_pos (Nat.lt_of_succ_lt hi), lp_zero, one_mulVec]
      rw [List.take_succ_eq_append_getElem (by omega : i < ls.length), prodMat_append, mulVec_mulVec]
      simp [prodMat]
    refine ⟨g, hg, h0, hc, fun _ => ?_⟩
    have hp := hg (ls.length - 1) (by omega)
    rw [← hlast] at hp
    refine (halfspace_iff (getLast_good hn h) hω hp (refDepth ls hn) inc A B).2 ?_
    rw [key g hg hc, h0, hs]

end Rfsed.Synrf
