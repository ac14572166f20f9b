import Verif.Model.IterRounded
import Verif.Proofs.DeconvNoise
import Verif.Props.DeconvNoise

/-!
# Rounding errors of the iterative deconvolution: lemmas
-/

namespace Rfsed.Synrf
open Finset Rfsed.Spec Rfsed.Props

theorem size_nonneg (n : Nat) (x : Nat → ℝ) : 0 ≤ size n x := Real.sqrt_nonneg _

theorem size_sq (n : Nat) (x : Nat → ℝ) : size n x ^ 2 = energy n x := Real.sq_sqrt (energy_nonneg n x)

theorem size_congr {n : Nat} {x y : Nat → ℝ} (h : ∀ m < n, x m = y m) : size n x = size n y := by
  unfold size; rw [energy_congr h]

theorem size_add (n : Nat) (x y : Nat → ℝ) : size n (fun m => x m + y m) ≤ size n x + size n y := by
  have h := energy_tri n x y
  have := Real.sqrt_le_sqrt h
  rwa [Real.sqrt_sq (add_nonneg (Real.sqrt_nonneg _) (Real.sqrt_nonneg _))] at this

theorem size_neg (n : Nat) (x : Nat → ℝ) : size n (fun m => -x m) = size n x := by
  unfold size energy; simp

theorem size_sub_comm (n : Nat) (x y : Nat → ℝ) : size n (fun m => x m - y m) = size n (fun m => y m - x m) := by
  rw [← size_neg]; apply size_congr; intros; ring

theorem size_sub (n : Nat) (x y : Nat → ℝ) : size n (fun m => x m - y m) ≤ size n x + size n y := by
  have := size_add n x (fun m => -y m)
  rw [size_neg] at this
  exact this

/-- a signal near another one is not much larger -/
theorem size_le (n : Nat) (x y : Nat → ℝ) : size n x ≤ size n y + size n (fun m => x m - y m) := by
  have := size_add n y (fun m => x m - y m)
  rwa [size_congr (y := x) (fun m _ => by ring)] at this

theorem size_mul (n : Nat) (c : ℝ) (x : Nat → ℝ) : size n (fun m => c * x m) = |c| * size n x := by
  unfold size energy
  simp_rw [mul_pow]
  rw [← mul_sum, Real.sqrt_mul (sq_nonneg c), Real.sqrt_sq_eq_abs]

theorem size_mono {n : Nat} {x y : Nat → ℝ} (h : ∀ m < n, |x m| ≤ |y m|) : size n x ≤ size n y := by
  apply Real.sqrt_le_sqrt
  unfold energy
  exact sum_le_sum (fun m hm => sq_le_sq.2 (h m (mem_range.1 hm)))

theorem energy_diff (n : Nat) (x y : Nat → ℝ) :
    |energy n x - energy n y| ≤ size n (fun m => x m - y m) * (size n x + size n y) := by
  have h1 := size_le n x y
  have h2 := size_le n y x
  rw [size_sub_comm] at h2
  rw [← size_sq, ← size_sq, show size n x ^ 2 - size n y ^ 2 = (size n x - size n y) * (size n x + size n y) by ring,
    abs_mul, abs_of_nonneg (add_nonneg (size_nonneg n x) (size_nonneg n y))]
  apply mul_le_mul_of_nonneg_right _ (add_nonneg (size_nonneg n x) (size_nonneg n y))
  rw [abs_le]; constructor <;> linarith

theorem abs_le_size {n m : Nat} (x : Nat → ℝ) (h : m < n) : |x m| ≤ size n x := by
  apply Real.abs_le_sqrt
  exact single_le_sum (f := fun m => x m ^ 2) (fun _ _ => sq_nonneg _) (mem_range.2 h)

/-- correlations are bounded by the sizes -/
theorem corr_size {n : Nat} (hn : 0 < n) (r w : Nat → ℝ) (i : Nat) :
    |∑ m ∈ range n, w m * r (cyc n (i + m))| ≤ size n r * size n w := by
  have h1 := inner_sq_le n w (fun m => r (cyc n ((i : ℤ) + m)))
  have h2 : energy n (fun m => r (cyc n ((i : ℤ) + m))) = energy n r := by
    unfold energy
    have := sum_cyc_add hn (i : ℤ) (fun m => r m ^ 2)
    rw [← this]
    exact sum_congr rfl (fun m _ => by rw [add_comm])
  rw [h2, mul_comm] at h1
  have := Real.abs_le_sqrt h1
  rwa [Real.sqrt_mul (energy_nonneg n r)] at this

theorem corr_diff {n : Nat} (hn : 0 < n) (r r' w w' : Nat → ℝ) (i : Nat) :
    |(∑ m ∈ range n, w' m * r' (cyc n (i + m))) - ∑ m ∈ range n, w m * r (cyc n (i + m))| ≤
      size n (fun m => r' m - r m) * size n w' + size n r * size n (fun m => w' m - w m) := by
  have e : (∑ m ∈ range n, w' m * r' (cyc n (i + m))) - ∑ m ∈ range n, w m * r (cyc n (i + m)) =
      (∑ m ∈ range n, w' m * (r' (cyc n (i + m)) - r (cyc n (i + m)))) + ∑ m ∈ range n, (w' m - w m) * r (cyc n (i + m)) := by
    rw [← sum_sub_distrib, ← sum_add_distrib]
    exact sum_congr rfl (fun m _ => by ring)
  rw [e]
  exact (abs_add_le _ _).trans (add_le_add (corr_size hn (fun m => r' m - r m) w' i) (corr_size hn r _ i))

theorem size_lowpass {n : Nat} (hn : 0 < n) (dt a : ℝ) (x : List ℝ) : size n (lowpass n dt a x) ≤ size n (smp x) :=
  Real.sqrt_le_sqrt (gauss_energy hn dt a (smp x))

theorem size_predicted {n : Nat} (hn : 0 < n) (dt a : ℝ) (win : List ℝ) (p : Nat → ℝ) :
    size n (cconv n p (lowpass n dt a win)) ≤ (∑ m ∈ range n, |smp win m|) * size n p := by
  have hB : 0 ≤ ∑ m ∈ range n, |smp win m| := sum_nonneg (fun _ _ => abs_nonneg _)
  have h : energy n (cconv n p (lowpass n dt a win)) ≤ (∑ m ∈ range n, |smp win m|) ^ 2 * energy n p := by
    apply frame_upper hn
    intro k hk
    unfold lowpass
    rw [rdft_cconv hn _ _ hk, rdft_gaussPulse hn hk, norm_mul, Complex.norm_real, Real.norm_eq_abs,
      abs_of_nonneg (show 0 ≤ gaussResponse dt n a k from (Real.exp_pos _).le)]
    apply pow_le_pow_left₀ (mul_nonneg (norm_nonneg _) (Real.exp_pos _).le)
    have h1 : ‖rdft n (smp win) k‖ ≤ ∑ m ∈ range n, |smp win m| := by
      unfold rdft dft
      refine norm_sum_le_of_le _ (fun j _ => ?_)
      rw [norm_mul, W_norm, mul_one, Complex.norm_real, Real.norm_eq_abs]
    have h2 : gaussResponse dt n a k ≤ 1 := by
      unfold gaussResponse
      apply Real.exp_le_one_iff.2
      have := sq_nonneg (2 * Real.pi * ((min k (n - k) : ℕ) : ℝ) / (n * dt) / (2 * a))
      linarith
    calc ‖rdft n (smp win) k‖ * gaussResponse dt n a k ≤ (∑ m ∈ range n, |smp win m|) * 1 :=
          mul_le_mul h1 h2 (Real.exp_pos _).le hB
      _ = _ := mul_one _
  have := Real.sqrt_le_sqrt h
  rwa [Real.sqrt_mul (sq_nonneg _), Real.sqrt_sq hB] at this

theorem size_le_sum (n : Nat) (x : Nat → ℝ) : size n x ≤ ∑ m ∈ range n, |x m| := by
  have hB : 0 ≤ ∑ m ∈ range n, |x m| := sum_nonneg (fun _ _ => abs_nonneg _)
  apply Real.sqrt_le_iff.2 ⟨hB, ?_⟩
  unfold energy
  have h := sum_sq_le_sq_sum_of_nonneg (s := range n) (f := fun m => |x m|) (fun _ _ => abs_nonneg _)
  simpa [sq_abs] using h

end Rfsed.Synrf
