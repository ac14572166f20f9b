import Verif.Model.WaterRounded
import Verif.Proofs.WaterNoise

/-!
# Rounding errors of the water-level deconvolution
-/

namespace Rfsed.Synrf
open Finset Rfsed.Spec

/-- the clipped denominator is within `4ε` of the exact one -/
theorem clip_near {ε p w d φ : ℝ} {z : ℂ} (hε : 0 ≤ ε) (hε1 : ε ≤ 1 / 100) (hp : 0 ≤ p) (hw : 0 < w) (hd : 0 < d)
    (hz : ‖z - (p : ℂ)‖ ≤ ε * p) (hφ1 : (1 - 2 * ε) * (w * d) ≤ φ) (hφ2 : φ ≤ (1 + 2.1 * ε) * (w * d)) :
    ‖clipC φ z - ((max p (w * d) : ℝ) : ℂ)‖ ≤ 4 * ε * max p (w * d) := by
  have hc : 0 < w * d := mul_pos hw hd
  have hre : |z.re - p| ≤ ε * p := by
    have := (Complex.abs_re_le_norm (z - (p : ℂ))).trans hz
    simpa using this
  obtain ⟨hr1, hr2⟩ := abs_le.1 hre
  unfold clipC
  split
  · rename_i hlt
    rw [← Complex.ofReal_sub, Complex.norm_real, Real.norm_eq_abs, abs_le]
    rcases le_total p (w * d) with h | h
    · rw [max_eq_right h]
      constructor <;> nlinarith
    · rw [max_eq_left h]
      constructor
      · nlinarith
      · have : ε * (w * d) ≤ ε * p := mul_le_mul_of_nonneg_left h hε
        nlinarith
  · rename_i hge
    push Not at hge
    rcases le_total p (w * d) with h | h
    · rw [max_eq_right h]
      have hsplit : z - ((w * d : ℝ) : ℂ) = (z - (p : ℂ)) + ((p - w * d : ℝ) : ℂ) := by push_cast; ring
      rw [hsplit]
      refine (norm_add_le _ _).trans ?_
      rw [Complex.norm_real, Real.norm_eq_abs, abs_of_nonpos (by linarith)]
      have hεp : ε * p ≤ ε * (w * d) := mul_le_mul_of_nonneg_left h hε
      nlinarith
    · rw [max_eq_left h]
      have : 0 ≤ ε * p := mul_nonneg hε hp
      linarith

/-- a product and a quotient with relative errors -/
theorem rff_near_quot {ε M : ℝ} {N nf D rff : ℂ} (hε : 0 ≤ ε) (hε1 : ε ≤ 1 / 100) (hM : 0 < M)
    (hD : ‖D - (M : ℂ)‖ ≤ 4 * ε * M) (hnf : ‖nf - N‖ ≤ ε * ‖N‖) (hr : ‖rff - nf / D‖ ≤ ε * ‖nf / D‖) :
    ‖rff - N / (M : ℂ)‖ ≤ 7 * ε * ‖N / (M : ℂ)‖ := by
  have hMC : (M : ℂ) ≠ 0 := by exact_mod_cast hM.ne'
  have hMn : ‖(M : ℂ)‖ = M := by rw [Complex.norm_real, Real.norm_eq_abs, abs_of_pos hM]
  have hDlo : 0.96 * M ≤ ‖D‖ := by
    have h1 : ‖(M : ℂ)‖ ≤ ‖D‖ + ‖D - (M : ℂ)‖ := by
      have := norm_sub_norm_le (M : ℂ) D
      rw [norm_sub_rev] at this
      linarith
    rw [hMn] at h1
    nlinarith
  have hD0 : 0 < ‖D‖ := lt_of_lt_of_le (by positivity) hDlo
  have hDC : D ≠ 0 := norm_pos_iff.1 hD0
  set q := ‖N / (M : ℂ)‖ with hq
  have hq0 : 0 ≤ q := norm_nonneg _
  have hN : ‖N‖ = q * M := by rw [hq, norm_div, hMn]; field_simp
  have hsplit : nf / D - N / (M : ℂ) = (nf - N) / D + N / (M : ℂ) * (((M : ℂ) - D) / D) := by
    field_simp; ring
  have hdiff : ‖nf / D - N / (M : ℂ)‖ ≤ 5.3 * ε * q := by
    rw [hsplit]
    refine (norm_add_le _ _).trans ?_
    have e1 : ‖(nf - N) / D‖ ≤ 1.05 * ε * q := by
      rw [norm_div, div_le_iff₀ hD0]
      rw [hN] at hnf
      have : 1.05 * ε * q * (0.96 * M) ≤ 1.05 * ε * q * ‖D‖ := mul_le_mul_of_nonneg_left hDlo (by positivity)
      have h0 : 0 ≤ ε * (q * M) := by positivity
      nlinarith
    have e2 : ‖N / (M : ℂ) * (((M : ℂ) - D) / D)‖ ≤ 4.2 * ε * q := by
      rw [norm_mul, ← hq, norm_div, mul_comm]
      apply mul_le_mul_of_nonneg_right _ hq0
      rw [norm_sub_rev, div_le_iff₀ hD0]
      have : 4.2 * ε * (0.96 * M) ≤ 4.2 * ε * ‖D‖ := mul_le_mul_of_nonneg_left hDlo (by positivity)
      have h0 : 0 ≤ ε * M := by positivity
      nlinarith
    have := mul_nonneg hε hq0
    nlinarith
  have hnD : ‖nf / D‖ ≤ (1 + 5.3 * ε) * q := by
    have := norm_le_insert' (nf / D) (N / (M : ℂ))
    rw [← hq] at this
    linarith
  have hfin : ‖rff - N / (M : ℂ)‖ ≤ ‖rff - nf / D‖ + ‖nf / D - N / (M : ℂ)‖ := norm_sub_le_norm_sub_add_norm_sub _ _ _
  have h3 : ε * ‖nf / D‖ ≤ ε * ((1 + 5.3 * ε) * q) := mul_le_mul_of_nonneg_left hnD hε
  have h4 : ε * ε * q ≤ 1 / 100 * (ε * q) := by
    have : 0 ≤ ε * q := by positivity
    nlinarith
  nlinarith

/-- a bound like that of `c129_small_noise`, bin by bin -/
theorem quot_small {U U' W W' : ℂ} {w d d' e E A : ℝ} (hw : 0 < w) (hw1 : w ≤ 1) (hd : 0 < d)
    (hW : ‖W‖ ^ 2 ≤ d) (hW' : ‖W'‖ ^ 2 ≤ d') (he : ‖W' - W‖ ≤ e) (hdd : |√d' - √d| ≤ e) (hs : e ≤ √d / 2)
    (hE : ‖U' - U‖ ≤ E) (hA : ‖U‖ ≤ A) :
    ‖waterQuot (w * d') U' W' - waterQuot (w * d) U W‖ ≤ 2 * E / √(w * d) + 6 * A * e / (w * √w * d) ∧
      ‖waterQuot (w * d') U' W'‖ ≤ 2 * (A + E) / √(w * d) ∧ 0 < d' := by
  have hs0 : 0 < √d := Real.sqrt_pos.2 hd
  have hr := abs_le.1 hdd
  have hlo : √d / 2 ≤ √d' := by linarith
  have hd0' : 0 < d' := Real.sqrt_pos.1 (by linarith)
  have he0 : 0 ≤ e := (norm_nonneg _).trans he
  have hE0 : 0 ≤ E := (norm_nonneg _).trans hE
  have hA0 : 0 ≤ A := (norm_nonneg _).trans hA
  have hsw : 0 < √w := Real.sqrt_pos.2 hw
  have hsw1 : √w ≤ 1 := Real.sqrt_le_one.2 hw1
  have hs' : 0 < √d' := by linarith
  have h2s : 1 / √d' ≤ 2 / √d := by
    rw [div_le_div_iff₀ hs' hs0]; linarith
  have hrat : √d / √d' ≤ 2 := by
    rw [div_le_iff₀ hs']; linarith
  refine ⟨?_, ?_, hd0'⟩
  · refine (quot_move hw hd hd0' hW hW' he hdd hE hA).trans ?_
    rw [max_eq_left hw1, Real.sqrt_mul hw.le, Real.sqrt_mul hw.le]
    apply add_le_add
    · calc E / (√w * √d') = E / √w * (1 / √d') := by field_simp
        _ ≤ E / √w * (2 / √d) := mul_le_mul_of_nonneg_left h2s (by positivity)
        _ = _ := by field_simp
    · have h3 : 1 + 1 * (√d + √d') / (√w * √d') ≤ 6 / √w := by
        have e1 : 1 + 1 * (√d + √d') / (√w * √d') = 1 + (√d / √d' + 1) / √w := by field_simp
        rw [e1]
        have : 1 ≤ 1 / √w := by rw [le_div_iff₀ hsw]; linarith
        have h4 : (√d / √d' + 1) / √w ≤ 3 / √w := div_le_div_of_nonneg_right (by linarith) hsw.le
        have h5 : 6 / √w = 3 / √w + 3 * (1 / √w) := by ring
        rw [h5]
        linarith
      calc A * (e / (w * d) * (1 + 1 * (√d + √d') / (√w * √d')))
          ≤ A * (e / (w * d) * (6 / √w)) :=
            mul_le_mul_of_nonneg_left (mul_le_mul_of_nonneg_left h3 (by positivity)) hA0
        _ = _ := by field_simp
  · have hU' : ‖U'‖ ≤ A + E := by
      have := norm_le_insert' U' U
      linarith
    rw [waterQuot_eq, norm_mul]
    have h2 := waterG_norm (W := W') (mul_pos hw hd0')
    calc ‖U'‖ * ‖waterG (w * d') W'‖ ≤ (A + E) * (1 / √(w * d')) := mul_le_mul hU' h2 (norm_nonneg _) (by positivity)
      _ = (A + E) / √w * (1 / √d') := by rw [Real.sqrt_mul hw.le]; field_simp
      _ ≤ (A + E) / √w * (2 / √d) := mul_le_mul_of_nonneg_left h2s (by positivity)
      _ = _ := by rw [Real.sqrt_mul hw.le]; field_simp

/-- the level of a rounded run -/
theorem level_near {n : Nat} {ε w d φ D : ℝ} {X P : Nat → ℂ} (hε : 0 ≤ ε) (hε1 : ε ≤ 1 / 100) (hw : 0 < w)
    (hd : IsMaxPower n X d) (hd0 : 0 < d)
    (hP : ∀ k < n, ‖P k - X k * (starRingEnd ℂ) (X k)‖ ≤ ε * ‖X k‖ ^ 2)
    (hD : (∃ k < n, D = (P k).re) ∧ ∀ k < n, (P k).re ≤ D) (hφ : |φ - w * D| ≤ ε * |w * D|) :
    (1 - 2 * ε) * (w * d) ≤ φ ∧ φ ≤ (1 + 2.1 * ε) * (w * d) := by
  have hre : ∀ k < n, |(P k).re - ‖X k‖ ^ 2| ≤ ε * ‖X k‖ ^ 2 := by
    intro k hk
    have := (Complex.abs_re_le_norm _).trans (hP k hk)
    rw [mul_conj_norm, Complex.sub_re, Complex.ofReal_re] at this
    exact this
  obtain ⟨⟨i, hi, rfl⟩, hle⟩ := hd
  obtain ⟨⟨j, hj, rfl⟩, hle'⟩ := hD
  have a1 := abs_le.1 (hre i hi)
  have a2 := abs_le.1 (hre j hj)
  have b1 := hle' i hi
  have b2 := hle j hj
  have hlo : (1 - ε) * ‖X i‖ ^ 2 ≤ (P j).re := by linarith
  have hhi : (P j).re ≤ (1 + ε) * ‖X i‖ ^ 2 := by nlinarith
  set d := ‖X i‖ ^ 2
  set D := (P j).re
  have hD0 : 0 < D := lt_of_lt_of_le (mul_pos (by linarith) hd0) hlo
  have hwD : 0 < w * D := mul_pos hw hD0
  rw [abs_of_pos hwD] at hφ
  obtain ⟨c1, c2⟩ := abs_le.1 hφ
  have hwd : 0 < w * d := mul_pos hw hd0
  have e1 : (1 - ε) * (w * d) ≤ w * D := by nlinarith
  have e2 : w * D ≤ (1 + ε) * (w * d) := by nlinarith
  have e3 : 0 ≤ ε * (w * d) := by positivity
  constructor
  · have : (1 - ε) * ((1 - ε) * (w * d)) ≤ (1 - ε) * (w * D) := mul_le_mul_of_nonneg_left e1 (by linarith)
    have : 0 ≤ ε * ε * (w * d) := by positivity
    nlinarith
  · have : (1 + ε) * (w * D) ≤ (1 + ε) * ((1 + ε) * (w * d)) := mul_le_mul_of_nonneg_left e2 (by linarith)
    have : ε * (ε * (w * d)) ≤ 1 / 100 * (ε * (w * d)) := mul_le_mul_of_nonneg_right hε1 e3
    nlinarith

theorem gaussResponse_le_one (dt a : ℝ) (n k : Nat) : gaussResponse dt n a k ≤ 1 := by
  unfold gaussResponse
  apply Real.exp_le_one_iff.2
  have := sq_nonneg (2 * Real.pi * ((min k (n - k) : ℕ) : ℝ) / (n * dt) / (2 * a))
  linarith

theorem norm_shift (x : ℝ) : ‖Complex.exp (-Complex.I * (x : ℂ))‖ = 1 := by
  have := Complex.norm_exp_ofReal_mul_I (-x)
  rw [← this]
  congr 2
  push_cast; ring

/-- one bin of a rounded run -/
theorem bin_near {ε w d d' B A G g dt x : ℝ} {U U' W W' D nf rff sh : ℂ} (hε : 0 ≤ ε) (hε1 : ε ≤ 1 / 100)
    (hw : 0 < w) (hw1 : w ≤ 1) (hd : 0 < d) (hdt : dt ≠ 0)
    (hW : ‖W‖ ^ 2 ≤ d) (hW' : ‖W'‖ ^ 2 ≤ d') (he : ‖W' - W‖ ≤ ε * B) (hdd : |√d' - √d| ≤ ε * B) (hs : ε * B ≤ √d / 2)
    (hE : ‖U' - U‖ ≤ ε * A) (hA : ‖U‖ ≤ A)
    (hD : ‖D - ((max (‖W'‖ ^ 2) (w * d') : ℝ) : ℂ)‖ ≤ 4 * ε * max (‖W'‖ ^ 2) (w * d'))
    (hG0 : 0 ≤ G) (hG1 : G ≤ 1) (hg : |g - G / dt| ≤ ε / |dt|)
    (hnf : ‖nf - g * U' * (starRingEnd ℂ) W'‖ ≤ ε * ‖g * U' * (starRingEnd ℂ) W'‖)
    (hr : ‖rff - nf / D‖ ≤ ε * ‖nf / D‖)
    (hsh : ‖sh - rff * Complex.exp (-Complex.I * (x : ℂ))‖ ≤ ε * ‖rff‖) :
    ‖sh - ((G / dt : ℝ) : ℂ) * waterQuot (w * d) U W * Complex.exp (-Complex.I * (x : ℂ))‖ ≤
        ε * (20.6 * (A / √(w * d)) + 6 * A * B / (w * √w * d)) / |dt| ∧
      ‖sh‖ ≤ 2.3 * (A / √(w * d)) / |dt| := by
  obtain ⟨hq1, hq2, hd'⟩ := quot_small hw hw1 hd hW hW' he hdd hs hE hA
  have hdt0 : 0 < |dt| := abs_pos.2 hdt
  have hA0 : 0 ≤ A := (norm_nonneg _).trans hA
  have hM0 : 0 < max (‖W'‖ ^ 2) (w * d') := lt_max_of_lt_right (mul_pos hw hd')
  set Q' := waterQuot (w * d') U' W' with hQ'
  set Q := waterQuot (w * d) U W with hQ
  set s := Complex.exp (-Complex.I * (x : ℂ)) with hs'
  have hs1 : ‖s‖ = 1 := norm_shift x
  set M := A / √(w * d) with hM
  have hM00 : 0 ≤ M := by positivity
  have hR0 : 0 ≤ M / |dt| := by positivity
  have hNq : (g : ℂ) * U' * (starRingEnd ℂ) W' / ((max (‖W'‖ ^ 2) (w * d') : ℝ) : ℂ) = g * Q' := by
    rw [hQ']; unfold waterQuot; ring
  have h7 := rff_near_quot hε hε1 hM0 hD hnf hr
  rw [hNq] at h7
  have hQb : ‖Q'‖ ≤ 2.02 * M := by
    have : 2 * (A + ε * A) / √(w * d) = 2 * (1 + ε) * M := by rw [hM]; ring
    rw [this] at hq2
    nlinarith
  have hgb : |g| ≤ 1.01 / |dt| := by
    have h1 : |G / dt| ≤ 1 / |dt| := by
      rw [abs_div, abs_of_nonneg hG0]
      exact div_le_div_of_nonneg_right hG1 hdt0.le
    have h2 : |g| ≤ |G / dt| + |g - G / dt| := by
      have := abs_add_le (G / dt) (g - G / dt)
      rwa [add_sub_cancel] at this
    have h3 : ε / |dt| ≤ 0.01 / |dt| := div_le_div_of_nonneg_right (by linarith) hdt0.le
    have h4 : (1.01 : ℝ) / |dt| = 1 / |dt| + 0.01 / |dt| := by rw [← add_div]; norm_num
    linarith
  have hgQ : ‖(g : ℂ) * Q'‖ ≤ 2.0402 * (M / |dt|) := by
    rw [norm_mul, Complex.norm_real, Real.norm_eq_abs]
    calc |g| * ‖Q'‖ ≤ 1.01 / |dt| * (2.02 * M) := mul_le_mul hgb hQb (norm_nonneg _) (by positivity)
      _ = _ := by ring
  have hrffb : ‖rff‖ ≤ 2.184 * (M / |dt|) := by
    have h1 := norm_le_insert' rff ((g : ℂ) * Q')
    have h2 : 7 * ε * ‖(g : ℂ) * Q'‖ ≤ 7 * (1 / 100) * ‖(g : ℂ) * Q'‖ :=
      mul_le_mul_of_nonneg_right (by linarith) (norm_nonneg _)
    linarith
  have hεR : 0 ≤ ε * (M / |dt|) := by positivity
  have t1 : ‖sh - rff * s‖ ≤ 2.184 * (ε * (M / |dt|)) :=
    hsh.trans ((mul_le_mul_of_nonneg_left hrffb hε).trans (le_of_eq (by ring)))
  have t2 : ‖rff - g * Q'‖ ≤ 14.3 * (ε * (M / |dt|)) := by
    refine h7.trans ?_
    have : 7 * ε * ‖(g : ℂ) * Q'‖ ≤ 7 * ε * (2.0402 * (M / |dt|)) := mul_le_mul_of_nonneg_left hgQ (by positivity)
    linarith
  have t3 : ‖((g - G / dt : ℝ) : ℂ) * Q'‖ ≤ 2.02 * (ε * (M / |dt|)) := by
    rw [norm_mul, Complex.norm_real, Real.norm_eq_abs]
    calc |g - G / dt| * ‖Q'‖ ≤ ε / |dt| * (2.02 * M) := mul_le_mul hg hQb (norm_nonneg _) (by positivity)
      _ = _ := by ring
  have t4 : ‖((G / dt : ℝ) : ℂ) * (Q' - Q)‖ ≤ 2 * (ε * (M / |dt|)) + ε * (6 * A * B / (w * √w * d)) / |dt| := by
    rw [norm_mul, Complex.norm_real, Real.norm_eq_abs, abs_div, abs_of_nonneg hG0]
    have h1 : G / |dt| ≤ 1 / |dt| := div_le_div_of_nonneg_right hG1 hdt0.le
    calc G / |dt| * ‖Q' - Q‖ ≤ 1 / |dt| * (2 * (ε * A) / √(w * d) + 6 * A * (ε * B) / (w * √w * d)) :=
          mul_le_mul h1 hq1 (norm_nonneg _) (by positivity)
      _ = _ := by rw [hM]; ring
  constructor
  · have hsplit : sh - ((G / dt : ℝ) : ℂ) * Q * s = (sh - rff * s)
        + ((rff - g * Q') + ((g - G / dt : ℝ) : ℂ) * Q' + ((G / dt : ℝ) : ℂ) * (Q' - Q)) * s := by
      push_cast; ring
    rw [hsplit]
    refine (norm_add_le _ _).trans ?_
    rw [norm_mul, hs1, mul_one]
    have h1 := norm_add_le ((rff - g * Q') + ((g - G / dt : ℝ) : ℂ) * Q') (((G / dt : ℝ) : ℂ) * (Q' - Q))
    have h2 := norm_add_le (rff - g * Q') (((g - G / dt : ℝ) : ℂ) * Q')
    have h3 : ε * (20.6 * M + 6 * A * B / (w * √w * d)) / |dt| =
        20.6 * (ε * (M / |dt|)) + ε * (6 * A * B / (w * √w * d)) / |dt| := by ring
    rw [h3]
    linarith
  · have h1 := norm_le_insert' sh (rff * s)
    rw [norm_mul, hs1, mul_one] at h1
    have h2 : ε * (M / |dt|) ≤ 1 / 100 * (M / |dt|) := mul_le_mul_of_nonneg_right hε1 hR0
    rw [mul_div_assoc]
    linarith

end Rfsed.Synrf
