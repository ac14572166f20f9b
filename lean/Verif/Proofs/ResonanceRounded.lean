import Verif.Model.ResonanceRounded
import Verif.Proofs.IterRounded
import Verif.Props.ResonanceNoise
import Mathlib.Analysis.Real.Pi.Bounds

/-!
# Rounding errors of the resonance filter: lemmas
-/

namespace Rfsed.ReverbFilter
open Finset Rfsed Rfsed.Spec Rfsed.Props Rfsed.Synrf

/-- a filter whose coefficients are at most `C` amplifies by at most `C` -/
theorem filter_size {n : Nat} (hn : 0 < n) (x : Nat → ℝ) (g : Nat → ℂ) {C : ℝ} (hC : 0 ≤ C) (hg : ∀ k < n, ‖g k‖ ≤ C) :
    size n (fun m => (idft n (fun k => dft n (fun j => (x j : ℂ)) k * g k) m).re) ≤ C * size n x := by
  have hnR : (0 : ℝ) < n := by exact_mod_cast hn
  unfold size
  rw [show C = √(C ^ 2) from (Real.sqrt_sq hC).symm, ← Real.sqrt_mul (sq_nonneg C)]
  apply Real.sqrt_le_sqrt
  unfold energy
  calc ∑ m ∈ range n, (idft n (fun k => dft n (fun j => (x j : ℂ)) k * g k) m).re ^ 2
      ≤ ∑ m ∈ range n, ‖idft n (fun k => dft n (fun j => (x j : ℂ)) k * g k) m‖ ^ 2 := by
        refine sum_le_sum (fun m _ => ?_)
        rw [← sq_abs]
        exact pow_le_pow_left₀ (abs_nonneg _) (Complex.abs_re_le_norm _) 2
    _ = (∑ k ∈ range n, ‖dft n (fun j => (x j : ℂ)) k * g k‖ ^ 2) / n := idft_energy hn _
    _ ≤ (∑ k ∈ range n, C ^ 2 * ‖dft n (fun j => (x j : ℂ)) k‖ ^ 2) / n := by
        apply div_le_div_of_nonneg_right _ hnR.le
        refine sum_le_sum (fun k hk => ?_)
        rw [norm_mul, mul_pow, mul_comm]
        exact mul_le_mul_of_nonneg_right (pow_le_pow_left₀ (norm_nonneg _) (hg k (mem_range.1 hk)) 2) (sq_nonneg _)
    _ = C ^ 2 * ∑ m ∈ range n, x m ^ 2 := by
        rw [← mul_sum, parsevalC hn]
        rw [show C ^ 2 * (n * ∑ m ∈ range n, ‖((x m : ℝ) : ℂ)‖ ^ 2) / n =
          C ^ 2 * ∑ m ∈ range n, ‖((x m : ℝ) : ℂ)‖ ^ 2 by field_simp]
        congr 1
        refine sum_congr rfl (fun m _ => ?_)
        rw [Complex.norm_real, Real.norm_eq_abs, sq_abs]

/-- two records and two filters -/
theorem filter_diff {n : Nat} (hn : 0 < n) (x y : Nat → ℝ) (g h : Nat → ℂ) {C δ : ℝ} (hC : 0 ≤ C) (hδ : 0 ≤ δ)
    (hg : ∀ k < n, ‖g k‖ ≤ C) (hd : ∀ k < n, ‖g k - h k‖ ≤ δ) :
    size n (fun m => (idft n (fun k => dft n (fun j => (x j : ℂ)) k * g k) m).re -
      (idft n (fun k => dft n (fun j => (y j : ℂ)) k * h k) m).re) ≤
      C * size n (fun m => x m - y m) + δ * size n y := by
  have e : ∀ m, (idft n (fun k => dft n (fun j => (x j : ℂ)) k * g k) m).re -
      (idft n (fun k => dft n (fun j => (y j : ℂ)) k * h k) m).re =
      (idft n (fun k => dft n (fun j => ((x j - y j : ℝ) : ℂ)) k * g k) m).re +
      (idft n (fun k => dft n (fun j => (y j : ℂ)) k * (g k - h k)) m).re := by
    intro m
    rw [← Complex.sub_re, ← Complex.add_re, ← idft_add]
    congr 1
    unfold idft
    rw [← sub_div, ← sum_sub_distrib]
    congr 1
    refine sum_congr rfl (fun k _ => ?_)
    have : dft n (fun j => ((x j - y j : ℝ) : ℂ)) k = dft n (fun j => (x j : ℂ)) k - dft n (fun j => (y j : ℂ)) k := by
      unfold dft
      rw [← sum_sub_distrib]
      exact sum_congr rfl (fun j _ => by push_cast; ring)
    simp only
    rw [this]
    ring
  simp_rw [e]
  exact (size_add _ _ _).trans (add_le_add (filter_size hn _ g hC hg) (filter_size hn y _ hδ hd))

/-- moving the argument of a phase factor -/
theorem phase_near (a b : ℝ) : ‖Complex.exp (-Complex.I * (a : ℝ)) - Complex.exp (-Complex.I * (b : ℝ))‖ ≤ |a - b| := by
  have e : Complex.exp (-Complex.I * (a : ℝ)) - Complex.exp (-Complex.I * (b : ℝ)) =
      Complex.exp (((-b : ℝ) : ℂ) * Complex.I) * (Complex.exp (Complex.I * ((b - a : ℝ) : ℂ)) - 1) := by
    rw [mul_sub, mul_one, ← Complex.exp_add]
    congr 1 <;> congr 1 <;> push_cast <;> ring
  rw [e, norm_mul, Complex.norm_exp_ofReal_mul_I, one_mul]
  have := Real.norm_exp_I_mul_ofReal_sub_one_le (x := b - a)
  rwa [Real.norm_eq_abs, abs_sub_comm] at this

theorem fftFreq_le {n : Nat} (hn : 0 < n) {dt : ℝ} (hdt : dt ≠ 0) {k : Nat} (hk : k < n) :
    |fftFreq n dt k| * |dt| ≤ 1 / 2 := by
  have hnR : (0 : ℝ) < n := by exact_mod_cast hn
  have hd := abs_pos.2 hdt
  have hkR : (k : ℝ) < n := by exact_mod_cast hk
  unfold fftFreq
  split
  · rename_i h
    have h2 : (2 * k : ℝ) ≤ n := by exact_mod_cast (by omega : 2 * k ≤ n)
    rw [abs_div, abs_mul, abs_of_nonneg (Nat.cast_nonneg k), abs_of_pos hnR, div_mul_eq_mul_div, div_le_div_iff₀ (by positivity) (by norm_num)]
    nlinarith
  · rename_i h
    have h2 : (n : ℝ) ≤ 2 * k := by exact_mod_cast (by omega : n ≤ 2 * k)
    rw [abs_div, abs_mul, abs_of_neg (by linarith : (k : ℝ) - n < 0), abs_of_pos hnR, div_mul_eq_mul_div,
      div_le_div_iff₀ (by positivity) (by norm_num)]
    nlinarith

/-- the size of a record without its trend is at most that of the record -/
theorem size_detrended {x d : List ℝ} (hd : IsDetrended x d) : size x.length (fun m => d.getD m 0) ≤ size x.length (smp x) := by
  apply Real.sqrt_le_sqrt
  obtain ⟨z, hz⟩ := exists_detrended (List.replicate x.length (0 : ℝ))
  have hzero : ∀ i, (List.replicate x.length (0 : ℝ)).getD i 0 = 0 := by
    intro i
    rw [List.getD, List.getElem?_replicate]
    split <;> rfl
  have hz' : IsDetrended (List.replicate x.length (0 : ℝ)) (List.replicate x.length (0 : ℝ)) := by
    refine ⟨rfl, ⟨0, 0, fun i _ => by ring⟩, ?_, ?_⟩ <;> simp only [hzero, mul_zero, sum_const_zero]
  have := detrend_noise (x := List.replicate x.length (0 : ℝ)) (x' := x) (by simp) hz' hd
  rw [List.length_replicate] at this
  simp only [hzero, sub_zero] at this
  exact this

/-- the computed autocorrelation, normalised by its computed maximum, against the exact one of the same record -/
theorem norm_near {ε E A M c v : ℝ} (hε : 0 ≤ ε) (hε1 : ε ≤ 1 / 100) (hE : 0 < E) (hA : |A| ≤ E) (hc : |c - A| ≤ ε * E)
    (hM1 : (1 - ε) * E ≤ M) (hM2 : M ≤ (1 + ε) * E) (hv : |v - c / M| ≤ ε * |c / M|) :
    |v - A / E| ≤ 4 * ε ∧ |v| ≤ 1.04 := by
  have hM : 0 < M := lt_of_lt_of_le (by nlinarith) hM1
  have hM' : 0.99 * E ≤ M := by nlinarith
  have hcb : |c| ≤ 1.01 * E := by
    have := abs_add_le A (c - A)
    rw [add_sub_cancel] at this
    nlinarith
  have h1 : |c / M| ≤ 1.021 := by
    rw [abs_div, abs_of_pos hM, div_le_iff₀ hM]
    linarith
  have h2 : |c / M - A / E| ≤ 2.03 * ε := by
    have e : c / M - A / E = ((c - A) + A / E * (E - M)) / M := by field_simp; ring
    rw [e, abs_div, abs_of_pos hM, div_le_iff₀ hM]
    have h3 : |A / E| ≤ 1 := by rw [abs_div, abs_of_pos hE, div_le_one hE]; exact hA
    have h4 : |E - M| ≤ ε * E := by rw [abs_le]; constructor <;> linarith
    have h5 : |A / E * (E - M)| ≤ ε * E := by
      rw [abs_mul]
      have := mul_le_mul h3 h4 (abs_nonneg _) zero_le_one
      linarith
    have h6 := abs_add_le (c - A) (A / E * (E - M))
    have h7 : 2.03 * ε * (0.99 * E) ≤ 2.03 * ε * M := mul_le_mul_of_nonneg_left hM' (by linarith)
    have h8 : 0 ≤ ε * E := by positivity
    linarith
  have h3 : ε * |c / M| ≤ ε * 1.021 := mul_le_mul_of_nonneg_left h1 hε
  constructor
  · have := abs_sub_le v (c / M) (A / E)
    linarith
  · have := abs_add_le (c / M) (v - c / M)
    rw [add_sub_cancel] at this
    linarith

/-- one coefficient of the computed filter -/
theorem coeff_near {ε r r0 w w0 t t0 η P : ℝ} {z : ℂ} (hε : 0 ≤ ε) (hε1 : ε ≤ 1 / 100) (hr0 : 0 ≤ r) (hr : r ≤ 1.04)
    (h00 : 0 ≤ r0) (h01 : r0 ≤ 1) (hη : |r - r0| ≤ η) (hw : |w - w0| ≤ ε * |w0|) (ht : |t - t0| ≤ ε * |t0|)
    (hP : |w0 * t0| ≤ P) (hPε : ε * P ≤ 0.0315)
    (hz : ‖z - (1 + r * Complex.exp (-Complex.I * (w * t : ℝ)))‖ ≤ ε * (1 + r + r * |w * t|)) :
    ‖z‖ ≤ 2.1 ∧ ‖z - (1 + r0 * Complex.exp (-Complex.I * (w0 * t0 : ℝ)))‖ ≤ η + ε * (3 + 3.09 * P) := by
  have hP0 : 0 ≤ P := (abs_nonneg _).trans hP
  have hwt : |w * t - w0 * t0| ≤ 2.01 * ε * P := by
    have e : w * t - w0 * t0 = (w - w0) * t0 + w0 * (t - t0) + (w - w0) * (t - t0) := by ring
    have h1 := abs_add_le ((w - w0) * t0 + w0 * (t - t0)) ((w - w0) * (t - t0))
    have h2 := abs_add_le ((w - w0) * t0) (w0 * (t - t0))
    rw [abs_mul, abs_mul] at h2
    rw [abs_mul (w - w0) (t - t0)] at h1
    have a1 : |w - w0| * |t0| ≤ ε * (|w0| * |t0|) := by
      have := mul_le_mul_of_nonneg_right hw (abs_nonneg t0); linarith
    have a2 : |w0| * |t - t0| ≤ ε * (|w0| * |t0|) := by
      have := mul_le_mul_of_nonneg_left ht (abs_nonneg w0); linarith
    have a3 : |w - w0| * |t - t0| ≤ ε * |w0| * (ε * |t0|) :=
      mul_le_mul hw ht (abs_nonneg _) (by positivity)
    rw [abs_mul] at hP
    have a4 : ε * (|w0| * |t0|) ≤ ε * P := mul_le_mul_of_nonneg_left hP hε
    have a5 : ε * |w0| * (ε * |t0|) ≤ 1 / 100 * (ε * P) := by
      have : ε * |w0| * (ε * |t0|) = ε * (ε * (|w0| * |t0|)) := by ring
      rw [this]
      exact mul_le_mul hε1 a4 (by positivity) (by norm_num)
    rw [e]
    linarith
  have hwtb : |w * t| ≤ 1.03 * P := by
    have h1 := abs_add_le (w0 * t0) (w * t - w0 * t0)
    rw [add_sub_cancel] at h1
    have : ε * P ≤ 1 / 100 * P := mul_le_mul_of_nonneg_right hε1 hP0
    linarith
  have hrw : r * |w * t| ≤ 1.0712 * P := by
    have := mul_le_mul hr hwtb (abs_nonneg _) (by norm_num)
    linarith
  have hz' : ‖z - (1 + r * Complex.exp (-Complex.I * (w * t : ℝ)))‖ ≤ ε * (2.04 + 1.0712 * P) :=
    hz.trans (mul_le_mul_of_nonneg_left (by linarith) hε)
  have hone : ∀ a : ℝ, ‖Complex.exp (-Complex.I * (a : ℝ))‖ = 1 := by
    intro a
    rw [show -Complex.I * (a : ℝ) = ((-a : ℝ) : ℂ) * Complex.I by push_cast; ring, Complex.norm_exp_ofReal_mul_I]
  have hεP : 0 ≤ ε * P := by positivity
  constructor
  · have h1 := norm_add_le (z - (1 + r * Complex.exp (-Complex.I * (w * t : ℝ)))) (1 + r * Complex.exp (-Complex.I * (w * t : ℝ)))
    rw [sub_add_cancel] at h1
    have h2 := norm_add_le (1 : ℂ) (r * Complex.exp (-Complex.I * (w * t : ℝ)))
    rw [norm_mul, hone, norm_one, Complex.norm_real, Real.norm_eq_abs, abs_of_nonneg hr0] at h2
    nlinarith
  · have e : z - (1 + r0 * Complex.exp (-Complex.I * (w0 * t0 : ℝ))) =
        (z - (1 + r * Complex.exp (-Complex.I * (w * t : ℝ)))) + ((r - r0 : ℝ) : ℂ) * Complex.exp (-Complex.I * (w * t : ℝ)) +
        r0 * (Complex.exp (-Complex.I * (w * t : ℝ)) - Complex.exp (-Complex.I * (w0 * t0 : ℝ))) := by
      push_cast; ring
    rw [e]
    refine (norm_add_le _ _).trans ((add_le_add (norm_add_le _ _) le_rfl).trans ?_)
    rw [norm_mul, norm_mul, hone, Complex.norm_real, Complex.norm_real, Real.norm_eq_abs, Real.norm_eq_abs,
      abs_of_nonneg h00, mul_one]
    have h3 := mul_le_mul h01 ((phase_near (w * t) (w0 * t0)).trans hwt) (norm_nonneg _) zero_le_one
    linarith

end Rfsed.ReverbFilter
