import Verif.Proofs.Water

/-!
# Noise in the water-level quotient
-/

namespace Rfsed.Synrf
open Finset Rfsed.Spec

theorem water_div_le {W : ℂ} {c : ℝ} (hc : 0 < c) : ‖W‖ / max (‖W‖ ^ 2) c ≤ 1 / √c := by
  have hs : 0 < √c := Real.sqrt_pos.2 hc
  have hm : 0 < max (‖W‖ ^ 2) c := lt_max_of_lt_right hc
  rw [div_le_div_iff₀ hm hs, one_mul]
  have hs2 : √c ^ 2 = c := Real.sq_sqrt hc.le
  have hv := norm_nonneg W
  rcases le_total ‖W‖ (√c) with h | h
  · exact le_trans (by nlinarith) (le_max_right _ _)
  · exact le_trans (by nlinarith) (le_max_left _ _)

/-- the factor of the numerator -/
noncomputable def waterG (c : ℝ) (W : ℂ) : ℂ := (starRingEnd ℂ) W / ((max (‖W‖ ^ 2) c : ℝ) : ℂ)

theorem waterQuot_eq (c : ℝ) (U W : ℂ) : waterQuot c U W = U * waterG c W := by
  unfold waterQuot waterG
  rw [mul_div_assoc]

theorem waterG_norm {W : ℂ} {c : ℝ} (hc : 0 < c) : ‖waterG c W‖ ≤ 1 / √c := by
  have hm : 0 < max (‖W‖ ^ 2) c := lt_max_of_lt_right hc
  unfold waterG
  rw [norm_div, RCLike.norm_conj, Complex.norm_real, Real.norm_eq_abs, abs_of_pos hm]
  exact water_div_le hc

theorem waterG_move {W W' : ℂ} {w d d' e : ℝ} (hw : 0 < w) (hd : 0 < d) (hd' : 0 < d') (hW : ‖W‖ ^ 2 ≤ d)
    (hW' : ‖W'‖ ^ 2 ≤ d') (he : ‖W' - W‖ ≤ e) (hdd : |√d' - √d| ≤ e) :
    ‖waterG (w * d') W' - waterG (w * d) W‖ ≤
      e / (w * d) * (1 + max 1 w * (√d + √d') / √(w * d')) := by
  have he0 : 0 ≤ e := (norm_nonneg _).trans he
  have hc : 0 < w * d := mul_pos hw hd
  have hc' : 0 < w * d' := mul_pos hw hd'
  set M := max (‖W‖ ^ 2) (w * d) with hM
  set M' := max (‖W'‖ ^ 2) (w * d') with hM'
  have hM0 : 0 < M := lt_max_of_lt_right hc
  have hM0' : 0 < M' := lt_max_of_lt_right hc'
  have hMC : (M : ℂ) ≠ 0 := by exact_mod_cast hM0.ne'
  have hMC' : (M' : ℂ) ≠ 0 := by exact_mod_cast hM0'.ne'
  have hsd : √d ^ 2 = d := Real.sq_sqrt hd.le
  have hsd' : √d' ^ 2 = d' := Real.sq_sqrt hd'.le
  have h0 := Real.sqrt_nonneg d
  have h0' := Real.sqrt_nonneg d'
  have hv := norm_nonneg W
  have hv' := norm_nonneg W'
  have hWs : ‖W‖ ≤ √d := Real.le_sqrt_of_sq_le hW
  have hWs' : ‖W'‖ ≤ √d' := Real.le_sqrt_of_sq_le hW'
  have hmax : 1 ≤ max 1 w := le_max_left _ _
  have hmaxw : w ≤ max 1 w := le_max_right _ _
  have hdiff : |‖W'‖ - ‖W‖| ≤ e := (abs_norm_sub_norm_le W' W).trans he
  have hMM : |M' - M| ≤ max 1 w * (√d + √d') * e := by
    refine (abs_max_sub_max_le_max _ _ _ _).trans ?_
    refine max_le ?_ ?_
    · have : ‖W'‖ ^ 2 - ‖W‖ ^ 2 = (‖W'‖ - ‖W‖) * (‖W'‖ + ‖W‖) := by ring
      rw [this, abs_mul, abs_of_nonneg (add_nonneg hv' hv)]
      calc |‖W'‖ - ‖W‖| * (‖W'‖ + ‖W‖) ≤ e * (√d + √d') := by
            apply mul_le_mul hdiff (by linarith) (by positivity) he0
        _ ≤ max 1 w * (√d + √d') * e := by
          have : 0 ≤ (√d + √d') * e := by positivity
          nlinarith
    · have : w * d' - w * d = w * ((√d' - √d) * (√d + √d')) := by
        rw [← hsd, ← hsd', Real.sqrt_sq h0, Real.sqrt_sq h0']; ring
      rw [this, abs_mul, abs_of_pos hw, abs_mul, abs_of_nonneg (add_nonneg h0 h0')]
      calc w * (|√d' - √d| * (√d + √d')) ≤ max 1 w * (e * (√d + √d')) := by
            apply mul_le_mul hmaxw _ (by positivity) (by positivity)
            exact mul_le_mul_of_nonneg_right hdd (by positivity)
        _ = _ := by ring
  have hsplit : waterG (w * d') W' - waterG (w * d) W =
      ((starRingEnd ℂ) W' - (starRingEnd ℂ) W) / (M : ℂ) + (starRingEnd ℂ) W' / (M' : ℂ) * (((M - M' : ℝ) : ℂ) / (M : ℂ)) := by
    unfold waterG
    rw [← hM, ← hM']
    push_cast
    field_simp
    ring
  rw [hsplit]
  refine (norm_add_le _ _).trans ?_
  have e1 : ‖((starRingEnd ℂ) W' - (starRingEnd ℂ) W) / (M : ℂ)‖ ≤ e / (w * d) := by
    rw [← map_sub, norm_div, RCLike.norm_conj, Complex.norm_real, Real.norm_eq_abs, abs_of_pos hM0]
    exact div_le_div₀ he0 he hc (le_max_right _ _)
  have e2 : ‖(starRingEnd ℂ) W' / (M' : ℂ) * (((M - M' : ℝ) : ℂ) / (M : ℂ))‖ ≤
      1 / √(w * d') * (max 1 w * (√d + √d') * e / (w * d)) := by
    rw [norm_mul]
    apply mul_le_mul
    · exact waterG_norm hc'
    · rw [norm_div, Complex.norm_real, Complex.norm_real, Real.norm_eq_abs, Real.norm_eq_abs, abs_of_pos hM0,
        abs_sub_comm]
      exact div_le_div₀ (by positivity) hMM hc (le_max_right _ _)
    · exact norm_nonneg _
    · positivity
  refine (add_le_add e1 e2).trans (le_of_eq ?_)
  field_simp

theorem quot_move {U U' W W' : ℂ} {w d d' e E A : ℝ} (hw : 0 < w) (hd : 0 < d) (hd' : 0 < d') (hW : ‖W‖ ^ 2 ≤ d)
    (hW' : ‖W'‖ ^ 2 ≤ d') (he : ‖W' - W‖ ≤ e) (hdd : |√d' - √d| ≤ e) (hE : ‖U' - U‖ ≤ E) (hA : ‖U‖ ≤ A) :
    ‖waterQuot (w * d') U' W' - waterQuot (w * d) U W‖ ≤
      E / √(w * d') + A * (e / (w * d) * (1 + max 1 w * (√d + √d') / √(w * d'))) := by
  have h1 := waterG_move hw hd hd' hW hW' he hdd
  have h2 := waterG_norm (W := W') (mul_pos hw hd')
  have hsplit : waterQuot (w * d') U' W' - waterQuot (w * d) U W =
      (U' - U) * waterG (w * d') W' + U * (waterG (w * d') W' - waterG (w * d) W) := by
    rw [waterQuot_eq, waterQuot_eq]; ring
  rw [hsplit]
  refine (norm_add_le _ _).trans (add_le_add ?_ ?_)
  · rw [norm_mul, div_eq_mul_one_div]
    exact mul_le_mul hE h2 (norm_nonneg _) ((norm_nonneg _).trans hE)
  · rw [norm_mul]
    exact mul_le_mul hA h1 (norm_nonneg _) ((norm_nonneg _).trans hA)

/-- the largest amplitude moves no more than the amplitudes -/
theorem maxPower_move {n : Nat} {X Y : Nat → ℂ} {d d' e : ℝ} (hd : IsMaxPower n X d) (hd' : IsMaxPower n Y d')
    (h : ∀ k < n, ‖Y k - X k‖ ≤ e) : |√d' - √d| ≤ e := by
  obtain ⟨⟨i, hi, rfl⟩, hle⟩ := hd
  obtain ⟨⟨j, hj, rfl⟩, hle'⟩ := hd'
  rw [Real.sqrt_sq (norm_nonneg _), Real.sqrt_sq (norm_nonneg _)]
  have a1 := abs_le_of_sq_le_sq (hle j hj) (norm_nonneg _)
  have a2 := abs_le_of_sq_le_sq (hle' i hi) (norm_nonneg _)
  rw [abs_of_nonneg (norm_nonneg _)] at a1 a2
  have b1 := (abs_le.1 ((abs_norm_sub_norm_le (Y i) (X i)).trans (h i hi)))
  have b2 := (abs_le.1 ((abs_norm_sub_norm_le (Y j) (X j)).trans (h j hj)))
  rw [abs_le]
  constructor <;> linarith

theorem spectrum_norm (n : Nat) (x : List ℝ) (k : Nat) : ‖traceSpectrum n x k‖ ≤ ∑ j ∈ range n, |smp x j| := by
  unfold traceSpectrum dft
  refine norm_sum_le_of_le _ (fun j _ => ?_)
  rw [norm_mul, W_norm, mul_one, Complex.norm_real, Real.norm_eq_abs]

theorem spectrum_move (n : Nat) (x y : List ℝ) (k : Nat) :
    ‖traceSpectrum n y k - traceSpectrum n x k‖ ≤ ∑ j ∈ range n, |smp y j - smp x j| := by
  unfold traceSpectrum dft
  rw [← sum_sub_distrib]
  refine norm_sum_le_of_le _ (fun j _ => ?_)
  rw [← sub_mul, norm_mul, W_norm, mul_one, ← Complex.ofReal_sub, Complex.norm_real, Real.norm_eq_abs]

theorem idft_move {n : Nat} (hn : 0 < n) {X Y : Nat → ℂ} {B : ℝ} (h : ∀ k < n, ‖Y k - X k‖ ≤ B) (m : Nat) :
    |(idft n Y m).re - (idft n X m).re| ≤ B := by
  have hnR : (0 : ℝ) < n := by exact_mod_cast hn
  rw [← Complex.sub_re]
  refine (Complex.abs_re_le_norm _).trans ?_
  unfold idft
  rw [← sub_div, ← sum_sub_distrib, norm_div, Complex.norm_natCast, div_le_iff₀ hnR]
  have : ‖∑ k ∈ range n, (Y k * W n (m * k) - X k * W n (m * k))‖ ≤ ∑ k ∈ range n, B := by
    refine norm_sum_le_of_le _ (fun k hk => ?_)
    rw [← sub_mul, norm_mul, W_norm, mul_one]
    exact h k (mem_range.1 hk)
  rw [sum_const, card_range, nsmul_eq_mul] at this
  linarith

end Rfsed.Synrf
