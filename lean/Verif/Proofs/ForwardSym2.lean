import Verif.Proofs.ForwardSym

/-! # Half-space response, delays -/

namespace Rfsed.Synrf
open Matrix Complex Rfsed.Spec

variable {ω p dt : ℝ} {ls : List Layer} {l : Layer} {ipha : ℤ}

/-- Rayleigh function -/
noncomputable def rayl (p : ℝ) (l : Layer) : ℝ :=
  (1 - 2 * l.β ^ 2 * p ^ 2) ^ 2 + 4 * l.β ^ 4 * p ^ 2 * vert l.α p * vert l.β p

theorem rayl_pos (h : Good p l) : 0 < rayl p l := by
  unfold rayl
  rw [vert_eq, vert_eq]
  have h1 := vslow_pos h.fin.2.2.1
  have h2 := vslow_pos h.fin.2.2.2
  by_cases hp : p = 0
  · subst hp; norm_num
  · have hb := h.fin.2.1
    have : 0 < 4 * l.β ^ 4 * p ^ 2 * vslow l.α p * vslow l.β p := by positivity
    positivity

theorem resp_halfspace (h : Good p l) (hn : [l] ≠ []) :
    resp p [l] hn ipha ω = if 0 ≤ ipha then
      (((4 * l.α * l.β ^ 2 * p * vert l.α p * vert l.β p / rayl p l : ℝ) : ℂ),
       ((-(2 * l.α * vert l.α p * (1 - 2 * l.β ^ 2 * p ^ 2) / rayl p l) : ℝ) : ℂ))
      else
      (((2 * l.β * vert l.β p * (1 - 2 * l.β ^ 2 * p ^ 2) / rayl p l : ℝ) : ℂ),
       ((4 * l.β ^ 3 * p * vert l.α p * vert l.β p / rayl p l : ℝ) : ℂ)) := by
  have hR := rayl_pos h
  unfold rayl at hR ⊢
  rw [vert_eq, vert_eq] at hR ⊢
  have h1 := vslow_pos h.fin.2.2.1
  have h2 := vslow_pos h.fin.2.2.2
  have ha := h.fin.1
  have hb := h.fin.2.1
  have hM : ∀ j k, slMat ω p [l] hn j k = lE ω p l j k := by intro j k; simp [slMat]
  have m20 : lE ω p l 2 0 = ((l.β * l.β * p / l.α : ℝ) : ℂ) := by simp [lE, eInverse]
  have m21 : lE ω p l 2 1 = ((-((1 - 2 * l.β * l.β * p * p) / (2 * l.α * vslow l.α p)) : ℝ) : ℂ) := by
    simp [lE, eInverse]
  have m30 : lE ω p l 3 0 = (((1 - 2 * l.β * l.β * p * p) / (2 * l.β * vslow l.β p) : ℝ) : ℂ) := by
    simp [lE, eInverse]
  have m31 : lE ω p l 3 1 = ((l.β * p : ℝ) : ℂ) := by simp [lE, eInverse]
  have hd : den (lE ω p l) = ((((1 - 2 * l.β ^ 2 * p ^ 2) ^ 2 + 4 * l.β ^ 4 * p ^ 2 * vslow l.α p * vslow l.β p) /
      (4 * l.α * l.β * vslow l.α p * vslow l.β p) : ℝ) : ℂ) := by
    unfold den
    rw [m20, m21, m30, m31, ← Complex.ofReal_mul, ← Complex.ofReal_mul, ← Complex.ofReal_sub]
    congr 1
    field_simp
    ring
  have hs : slMat ω p [l] hn = lE ω p l := by ext j k; exact hM j k
  unfold resp
  simp only [hs]
  rw [hd]
  set R := (1 - 2 * l.β ^ 2 * p ^ 2) ^ 2 + 4 * l.β ^ 4 * p ^ 2 * vslow l.α p * vslow l.β p with hRdef
  by_cases hi : 0 ≤ ipha
  · rw [if_pos hi, if_pos hi, m31, m30, ← Complex.ofReal_neg, ← Complex.ofReal_div, ← Complex.ofReal_div]
    congr 2
    · field_simp
    · field_simp
      ring
  · rw [if_neg hi, if_neg hi, m21, m20, ← Complex.ofReal_neg, ← Complex.ofReal_div, ← Complex.ofReal_div]
    congr 2
    · field_simp
      ring
    · field_simp

/-- the vertical slowness of the incident wave -/
noncomputable def incVert (ipha : ℤ) (p : ℝ) (l : Layer) : ℝ := if 0 ≤ ipha then vert l.α p else vert l.β p

theorem lD_inv (Δ : ℝ) : (if 0 ≤ ipha then lD ω p l Δ 2 else lD ω p l Δ 3)⁻¹ =
    exp (I * (ω * (incVert ipha p l * Δ) : ℝ)) := by
  unfold incVert
  split_ifs
  · simp only [lD, vert_eq]
    change (exp (-I * (ω * vslow l.α p * Δ : ℝ)))⁻¹ = _
    rw [← Complex.exp_neg]
    congr 1
    push_cast; ring
  · simp only [lD, vert_eq]
    change (exp (-I * (ω * vslow l.β p * Δ : ℝ)))⁻¹ = _
    rw [← Complex.exp_neg]
    congr 1
    push_cast; ring

theorem resp_last (xs : List Layer) (hxs : xs ≠ []) (hω : ω ≠ 0) (hg : Good p l) (h Δ : ℝ)
    (hn : xs ++ [withH l (h + Δ)] ≠ []) (hn' : xs ++ [withH l h] ≠ []) :
    resp p (xs ++ [withH l (h + Δ)]) hn ipha ω =
      exp (I * (ω * (incVert ipha p l * Δ) : ℝ)) • resp p (xs ++ [withH l h]) hn' ipha ω := by
  rw [resp_diag hn hn' (lD ω p l Δ) (by exact Complex.exp_ne_zero _) (by exact Complex.exp_ne_zero _)
    (slMat_last xs hxs hω hg h Δ hn hn'), lD_inv]

theorem resp_homogeneous (hω : ω ≠ 0) (hg : Good p l) (zs : List ℝ) (hz : 1 < zs.length)
    (hn : zs.map (withH l) ≠ []) (hn' : [l] ≠ []) :
    resp p (zs.map (withH l)) hn ipha ω =
      exp (I * (ω * (incVert ipha p l * zs.sum) : ℝ)) • resp p [l] hn' ipha ω := by
  rw [resp_diag hn hn' (lD ω p l zs.sum) (by exact Complex.exp_ne_zero _) (by exact Complex.exp_ne_zero _) ?_, lD_inv]
  unfold slMat
  rw [if_pos (by simpa using hz), if_neg (by simp), prodMat_homogeneous hω hg]
  have : (zs.map (withH l)).getLast hn = withH l (zs.getLast (by rintro rfl; simp at hz)) := by
    rw [List.getLast_map]
  rw [this, lE_withH, lE_lp hg hω]
  simp

/-- a phase factor is a shift in time -/
theorem synthSample_shift {n : Nat} (U V : ℝ → ℂ) (s : Nat)
    (h : ∀ ω, ω ≠ 0 → V ω = exp (I * (ω * (s * dt) : ℝ)) * U ω) (hn : 0 < n) (hdt : dt ≠ 0) (j : Nat) :
    synthSample n dt V (j + s) = synthSample n dt U j := by
  unfold synthSample
  congr 1
  apply Finset.sum_congr rfl
  intro i hi
  rw [Finset.mem_Icc] at hi
  have hb := h _ (binFreq_ne hdt hi.1 hn)
  unfold binFreq at hb
  rw [hb, mul_comm (exp _) (U _), mul_assoc, ← Complex.exp_add]
  congr 3
  push_cast
  ring

/-- the samples are periodic -/
theorem synthSample_period {n : Nat} (U : ℝ → ℂ) (hn : 0 < n) (hdt : dt ≠ 0) (j : Nat) :
    synthSample n dt U (j + n) = synthSample n dt U j := by
  unfold synthSample
  congr 1
  apply Finset.sum_congr rfl
  intro i hi
  congr 2
  rw [Complex.exp_eq_exp_iff_exists_int]
  refine ⟨-(i : ℤ), ?_⟩
  have h2 : (n : ℂ) ≠ 0 := by exact_mod_cast (by omega : n ≠ 0)
  have h3 : (dt : ℂ) ≠ 0 := by exact_mod_cast hdt
  push_cast
  field_simp
  ring

/-- no zero frequency -/
theorem synthSample_sum {n : Nat} (U : ℝ → ℂ) (hdt : dt ≠ 0) (hn : 0 < n) :
    ∑ j ∈ Finset.range n, synthSample n dt U j = 0 := by
  unfold synthSample
  rw [← Finset.sum_div, Finset.sum_comm]
  rw [Finset.sum_eq_zero, zero_div]
  intro i hi
  rw [Finset.mem_Icc] at hi
  rw [← Complex.re_sum, ← Finset.mul_sum]
  have hin : i < n := by omega
  have key : ∑ j ∈ Finset.range n,
      exp (-I * ((2 * Real.pi * i / (n * dt) : ℝ) * (((j : ℝ) + 1) * dt : ℝ))) = 0 := by
    have h2 : (n : ℂ) ≠ 0 := by exact_mod_cast (by omega : n ≠ 0)
    have h3 : (dt : ℂ) ≠ 0 := by exact_mod_cast hdt
    have hi0 : (i : ℂ) ≠ 0 := by exact_mod_cast (by omega : i ≠ 0)
    set q := exp (-I * (2 * Real.pi * i / n)) with hq
    have e : ∀ j : Nat, exp (-I * ((2 * Real.pi * i / (n * dt) : ℝ) * (((j : ℝ) + 1) * dt : ℝ))) = q * q ^ j := by
      intro j
      rw [hq, ← Complex.exp_nat_mul, ← Complex.exp_add]
      congr 1
      push_cast
      field_simp
      ring
    simp only [e]
    rw [← Finset.mul_sum]
    have hqn : q ^ n = 1 := by
      rw [hq, ← Complex.exp_nat_mul, Complex.exp_eq_one_iff]
      refine ⟨-(i : ℤ), ?_⟩
      push_cast
      field_simp
    have hq1 : q ≠ 1 := by
      rw [hq, Ne, Complex.exp_eq_one_iff]
      rintro ⟨k, hk⟩
      have hpi : (Real.pi : ℂ) ≠ 0 := by exact_mod_cast Real.pi_ne_zero
      have hk2 : -(i : ℂ) = k * n := by
        have hI : I ≠ 0 := Complex.I_ne_zero
        field_simp at hk
        linear_combination hk
      have hk3 : -(i : ℤ) = k * n := by exact_mod_cast hk2
      have : (n : ℤ) ∣ (i : ℤ) := ⟨-k, by linarith⟩
      have := Int.le_of_dvd (by omega) this
      omega
    rw [geom_sum_eq hq1, hqn, sub_self, zero_div, mul_zero]
  rw [key, mul_zero, Complex.zero_re]

theorem synthSample_congr {n : Nat} {U V : ℝ → ℂ} (h : ∀ ω, ω ≠ 0 → U ω = V ω) (hdt : dt ≠ 0) (hn : 0 < n)
    (j : Nat) : synthSample n dt U j = synthSample n dt V j := by
  unfold synthSample
  congr 1
  apply Finset.sum_congr rfl
  intro i hi
  rw [Finset.mem_Icc] at hi
  have hb := h _ (binFreq_ne hdt hi.1 hn)
  unfold binFreq at hb
  rw [hb]

end Rfsed.Synrf
