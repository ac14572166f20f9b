import Verif.Proofs.IterRounded

/-!
# Rounding errors of the iterative deconvolution: one pass
-/

namespace Rfsed.Synrf
open Finset Rfsed.Spec Rfsed.Props

/-- the misfit quotient of computed numbers -/
theorem quotient_near {ε e e' p p' K2 κ x : ℝ} (hε : 0 ≤ ε) (hε1 : ε ≤ 1 / 100) (hp : 0 < p)
    (he0 : 0 ≤ e) (he0' : 0 ≤ e') (he : e ≤ K2) (hd : |e' - e| ≤ 4.3 * ε * K2) (hκ : 1 ≤ κ) (hεκ : ε * κ ≤ 1 / 400)
    (hpp : |p' - p| ≤ 3.1 * ε * κ * p) (hx : |x - e' / p'| ≤ ε * (e' / p')) :
    |x - e / p| ≤ 9 * ε * κ * K2 / p ∧ 0.99 * p ≤ p' ∧ 0 ≤ x := by
  have hK : 0 ≤ K2 := he0.trans he
  have hlo : 0.99 * p ≤ p' := by
    have := (abs_le.1 hpp).1
    nlinarith
  have hp' : 0 < p' := lt_of_lt_of_le (by positivity) hlo
  have hεκ0 : ε ≤ ε * κ := le_mul_of_one_le_right hε hκ
  have he'K : e' ≤ 1.043 * K2 := by
    have := (abs_le.1 hd).2
    nlinarith
  have hinv : 1 / p' ≤ 1.0102 / p := by
    rw [div_le_div_iff₀ hp' hp]; nlinarith
  have hq : e' / p' ≤ 1.054 * (K2 / p) := by
    calc e' / p' = e' * (1 / p') := by ring
      _ ≤ 1.043 * K2 * (1.0102 / p) := mul_le_mul he'K hinv (by positivity) (by positivity)
      _ ≤ _ := by
        have : 0 ≤ K2 / p := by positivity
        have h2 : 1.043 * K2 * (1.0102 / p) = 1.043 * 1.0102 * (K2 / p) := by ring
        rw [h2]; nlinarith
  refine ⟨?_, hlo, ?_⟩
  · have hsplit : x - e / p = (x - e' / p') + (e' - e) * (1 / p') + e / p * ((p - p') * (1 / p')) := by
      field_simp; ring
    rw [hsplit]
    have h0 : 0 ≤ K2 / p := by positivity
    have h00 : 0 ≤ ε * (K2 / p) := by positivity
    have h01 : ε * (K2 / p) ≤ ε * κ * (K2 / p) := mul_le_mul_of_nonneg_right hεκ0 h0
    have t1 : |x - e' / p'| ≤ 1.054 * (ε * (K2 / p)) := by
      refine hx.trans ?_
      have := mul_le_mul_of_nonneg_left hq hε
      linarith
    have t2 : |(e' - e) * (1 / p')| ≤ 4.35 * (ε * (K2 / p)) := by
      rw [abs_mul, abs_of_pos (show 0 < 1 / p' by positivity)]
      calc |e' - e| * (1 / p') ≤ 4.3 * ε * K2 * (1.0102 / p) := mul_le_mul hd hinv (by positivity) (by positivity)
        _ = 4.3 * 1.0102 * (ε * (K2 / p)) := by ring
        _ ≤ _ := by nlinarith
    have t3 : |e / p * ((p - p') * (1 / p'))| ≤ 3.14 * (ε * κ * (K2 / p)) := by
      rw [abs_mul, abs_mul, abs_of_nonneg (show 0 ≤ e / p by positivity), abs_of_pos (show 0 < 1 / p' by positivity), abs_sub_comm]
      have h1 : |p' - p| * (1 / p') ≤ 3.1 * ε * κ * p * (1.0102 / p) :=
        mul_le_mul hpp hinv (by positivity) (by positivity)
      have h2 : 3.1 * ε * κ * p * (1.0102 / p) = 3.1 * 1.0102 * (ε * κ) := by field_simp
      rw [h2] at h1
      have h3 : e / p ≤ K2 / p := div_le_div_of_nonneg_right he hp.le
      have h5 : 0 ≤ ε * κ := by positivity
      calc e / p * (|p' - p| * (1 / p')) ≤ K2 / p * (3.1 * 1.0102 * (ε * κ)) :=
            mul_le_mul h3 h1 (by positivity) h0
        _ ≤ _ := by
          have : 0 ≤ ε * κ * (K2 / p) := by positivity
          nlinarith
    have h1 := abs_add_le ((x - e' / p') + (e' - e) * (1 / p')) (e / p * ((p - p') * (1 / p')))
    have h2 := abs_add_le (x - e' / p') ((e' - e) * (1 / p'))
    have h3 : 9 * ε * κ * K2 / p = 9 * (ε * κ * (K2 / p)) := by ring
    rw [h3]
    linarith
  · have h1 := (abs_le.1 hx).1
    have h2 : 0 ≤ e' / p' := by positivity
    nlinarith

/-- a power computed from a computed signal -/
theorem power_near {n : Nat} {ε α p : ℝ} {x x' : Nat → ℝ} (hε : 0 ≤ ε) (hε1 : ε ≤ 1 / 100) (hα : size n x ≤ α)
    (hx : size n (fun m => x' m - x m) ≤ ε * α) (hp : |p - energy n x'| ≤ ε * energy n x') :
    |p - energy n x| ≤ 3.1 * ε * α ^ 2 ∧ size n x' ≤ 1.01 * α := by
  have hα0 : 0 ≤ α := (size_nonneg n x).trans hα
  have h1 : size n x' ≤ 1.01 * α := by
    have := size_le n x' x
    nlinarith
  refine ⟨?_, h1⟩
  have h2 := energy_diff n x' x
  have h3 : size n (fun m => x' m - x m) * (size n x' + size n x) ≤ ε * α * (2.01 * α) :=
    mul_le_mul hx (by linarith) (add_nonneg (size_nonneg _ _) (size_nonneg _ _)) (by positivity)
  have h4 : energy n x' ≤ 1.03 * α ^ 2 := by
    rw [← size_sq]
    have := pow_le_pow_left₀ (size_nonneg n x') h1 2
    nlinarith
  have h5 := mul_le_mul_of_nonneg_left h4 hε
  have h6 := abs_sub_le p (energy n x') (energy n x)
  have h7 : 0 ≤ ε * α ^ 2 := by positivity
  nlinarith

/-- a residual computed from a computed prediction -/
theorem residual_near {n : Nat} {ε α b : ℝ} {u u' q p r : Nat → ℝ} (hε : 0 ≤ ε) (hε1 : ε ≤ 1 / 100)
    (hu : size n u ≤ α) (hq : size n q ≤ b) (hu' : size n (fun m => u' m - u m) ≤ ε * α)
    (hp : size n (fun m => p m - q m) ≤ ε * b) (hr : ∀ m < n, |r m - (u' m - p m)| ≤ ε * |u' m - p m|) :
    size n (fun m => r m - (u m - q m)) ≤ 2.1 * ε * (α + b) ∧ size n (fun m => u m - q m) ≤ α + b := by
  have hα0 : 0 ≤ α := (size_nonneg n u).trans hu
  have hb0 : 0 ≤ b := (size_nonneg n q).trans hq
  have h1 : size n (fun m => u' m - p m) ≤ 1.01 * (α + b) := by
    have a1 := size_sub n u' p
    have a2 := size_le n u' u
    have a3 := size_le n p q
    nlinarith
  have h2 : size n (fun m => r m - (u' m - p m)) ≤ ε * (1.01 * (α + b)) := by
    have a1 : size n (fun m => r m - (u' m - p m)) ≤ size n (fun m => ε * (u' m - p m)) := by
      apply size_mono
      intro m hm
      rw [abs_mul, abs_of_nonneg hε]
      exact hr m hm
    rw [size_mul, abs_of_nonneg hε] at a1
    exact a1.trans (mul_le_mul_of_nonneg_left h1 hε)
  have h3 : size n (fun m => r m - (u m - q m)) ≤ size n (fun m => r m - (u' m - p m)) +
      (size n (fun m => u' m - u m) + size n (fun m => p m - q m)) := by
    have a1 := size_add n (fun m => r m - (u' m - p m)) (fun m => (u' m - u m) - (p m - q m))
    have a2 := size_sub n (fun m => u' m - u m) (fun m => p m - q m)
    rw [size_congr (y := fun m => r m - (u m - q m)) (fun m _ => by ring)] at a1
    linarith
  refine ⟨?_, (size_sub n u q).trans (by linarith)⟩
  have : 0 ≤ ε * (α + b) := by positivity
  nlinarith

/-- a normalised correlation computed from computed signals -/
theorem corr_near {n : Nat} (hn : 0 < n) {ε K β S pW x : ℝ} {w w' ρ r : Nat → ℝ} {i : Nat} (hε : 0 ≤ ε) (hε1 : ε ≤ 1 / 100)
    (hS : S = energy n w) (hS0 : 0 < S) (hw : size n w ≤ β) (hw' : size n (fun m => w' m - w m) ≤ ε * β)
    (hw'b : size n w' ≤ 1.01 * β)
    (hρ : size n ρ ≤ K) (hr : size n (fun m => r m - ρ m) ≤ 2.1 * ε * K)
    (hpW : |pW - S| ≤ 3.1 * ε * β ^ 2) (hκ : ε * (β ^ 2 / S) ≤ 1 / 400)
    (hx : |x - (∑ m ∈ range n, w' m * r (cyc n (i + m))) / pW| ≤ ε * (size n r * size n w' / pW)) :
    |x - (∑ m ∈ range n, w m * ρ (cyc n (i + m))) / S| ≤ 7.4 * ε * (β ^ 2 / S) * (K * β / S) ∧
      |(∑ m ∈ range n, w m * ρ (cyc n (i + m))) / S| ≤ K * β / S := by
  have hβ0 : 0 ≤ β := (size_nonneg n w).trans hw
  have hK0 : 0 ≤ K := (size_nonneg n ρ).trans hρ
  have hSβ : S ≤ β ^ 2 := by
    rw [hS, ← size_sq]; exact pow_le_pow_left₀ (size_nonneg n w) hw 2
  have hκ1 : 1 ≤ β ^ 2 / S := by rw [le_div_iff₀ hS0]; linarith
  set κ := β ^ 2 / S with hκd
  have hβS : β ^ 2 = κ * S := by rw [hκd]; field_simp
  rw [hβS] at hpW
  have hlo : 0.99 * S ≤ pW := by
    have := (abs_le.1 hpW).1
    nlinarith
  have hp' : 0 < pW := lt_of_lt_of_le (by positivity) hlo
  have hinv : 1 / pW ≤ 1.0102 / S := by
    rw [div_le_div_iff₀ hp' hS0]; nlinarith
  set c := ∑ m ∈ range n, w m * ρ (cyc n (i + m)) with hc
  set c' := ∑ m ∈ range n, w' m * r (cyc n (i + m)) with hc'
  have hcb : |c| ≤ K * β := (corr_size hn ρ w i).trans (mul_le_mul hρ hw (size_nonneg _ _) hK0)
  have hrb : size n r ≤ 1.021 * K := by
    have := size_le n r ρ
    nlinarith
  have hdiff : |c' - c| ≤ 3.13 * (ε * (K * β)) := by
    refine (corr_diff hn ρ r w w' i).trans ?_
    have a1 : size n (fun m => r m - ρ m) * size n w' ≤ 2.1 * ε * K * (1.01 * β) :=
      mul_le_mul hr hw'b (size_nonneg _ _) (by positivity)
    have a2 : size n ρ * size n (fun m => w' m - w m) ≤ K * (ε * β) := mul_le_mul hρ hw' (size_nonneg _ _) hK0
    have : 0 ≤ ε * (K * β) := by positivity
    nlinarith
  have hcS : |c / S| ≤ K * β / S := by
    rw [abs_div, abs_of_pos hS0]
    exact div_le_div_of_nonneg_right hcb hS0.le
  refine ⟨?_, hcS⟩
  set T := K * β / S with hT
  have hT0 : 0 ≤ T := by positivity
  have hεT : 0 ≤ ε * T := by positivity
  have hεκ : ε * T ≤ ε * κ * T := mul_le_mul_of_nonneg_right (le_mul_of_one_le_right hε hκ1) hT0
  have t1 : |x - c' / pW| ≤ 1.05 * (ε * T) := by
    refine hx.trans ?_
    have a1 : size n r * size n w' ≤ 1.021 * K * (1.01 * β) := mul_le_mul hrb hw'b (size_nonneg _ _) (by positivity)
    have a2 : size n r * size n w' / pW ≤ 1.021 * K * (1.01 * β) * (1.0102 / S) := by
      rw [div_eq_mul_one_div]
      exact mul_le_mul a1 hinv (by positivity) (by positivity)
    have a3 : 1.021 * K * (1.01 * β) * (1.0102 / S) = 1.021 * 1.01 * 1.0102 * T := by rw [hT]; ring
    rw [a3] at a2
    have := mul_le_mul_of_nonneg_left a2 hε
    nlinarith
  have t2 : |(c' - c) * (1 / pW)| ≤ 3.17 * (ε * T) := by
    rw [abs_mul, abs_of_pos (show 0 < 1 / pW by positivity)]
    calc |c' - c| * (1 / pW) ≤ 3.13 * (ε * (K * β)) * (1.0102 / S) := mul_le_mul hdiff hinv (by positivity) (by positivity)
      _ = 3.13 * 1.0102 * (ε * T) := by rw [hT]; ring
      _ ≤ _ := by nlinarith
  have t3 : |c / S * ((S - pW) * (1 / pW))| ≤ 3.14 * (ε * κ * T) := by
    rw [abs_mul, abs_mul, abs_of_pos (show 0 < 1 / pW by positivity), abs_sub_comm]
    have h1 : |pW - S| * (1 / pW) ≤ 3.1 * ε * (κ * S) * (1.0102 / S) :=
      mul_le_mul hpW hinv (by positivity) (by positivity)
    have h2 : 3.1 * ε * (κ * S) * (1.0102 / S) = 3.1 * 1.0102 * (ε * κ) := by field_simp
    rw [h2] at h1
    calc |c / S| * (|pW - S| * (1 / pW)) ≤ T * (3.1 * 1.0102 * (ε * κ)) :=
          mul_le_mul hcS h1 (by positivity) hT0
      _ ≤ _ := by
        have : 0 ≤ ε * κ * T := by positivity
        nlinarith
  have hsplit : x - c / S = (x - c' / pW) + (c' - c) * (1 / pW) + c / S * ((S - pW) * (1 / pW)) := by
    field_simp; ring
  rw [hsplit]
  have h1 := abs_add_le ((x - c' / pW) + (c' - c) * (1 / pW)) (c / S * ((S - pW) * (1 / pW)))
  have h2 := abs_add_le (x - c' / pW) ((c' - c) * (1 / pW))
  have h3 : 7.4 * ε * κ * T = 7.4 * (ε * κ * T) := by ring
  rw [h3]
  linarith

/-- the energies after a pass: `c` the correlations of the exact residual, `x` the computed ones, `t` the amplitude that
was added at lag `i` -/
theorem pass_energy {S E T δ1 δ c ci t xc xi : ℝ} (hS : 0 < S) (h1 : |xc - c| ≤ δ1) (h2 : |xi - ci| ≤ δ1)
    (hmax : |xc| ≤ |xi|) (ht : |t - ci| ≤ δ) (hδ : 0 ≤ δ) (hc : |c| ≤ T) :
    E - ci ^ 2 * S + (t - ci) ^ 2 * S ≤ E + δ ^ 2 * S ∧
      E - ci ^ 2 * S + (t - ci) ^ 2 * S ≤ E - c ^ 2 * S + (4 * δ1 * T + δ ^ 2) * S := by
  have hsq : (t - ci) ^ 2 ≤ δ ^ 2 := sq_le_sq.2 (by rwa [abs_of_nonneg hδ])
  have hδ1 : 0 ≤ δ1 := (abs_nonneg _).trans h1
  have hT : 0 ≤ T := (abs_nonneg _).trans hc
  have a1 : |c| ≤ |ci| + 2 * δ1 := by
    have b1 := abs_sub_abs_le_abs_sub c xc
    rw [abs_sub_comm] at b1
    have b2 := abs_sub_abs_le_abs_sub xi ci
    linarith
  have a2 : c ^ 2 ≤ ci ^ 2 + 4 * δ1 * T := by
    rw [← sq_abs c, ← sq_abs ci]
    have := abs_nonneg ci
    have := abs_nonneg c
    rcases le_total |c| |ci| with h | h
    · have := pow_le_pow_left₀ (abs_nonneg c) h 2
      have : 0 ≤ δ1 * T := by positivity
      linarith
    · nlinarith
  constructor
  · have := mul_le_mul_of_nonneg_right hsq hS.le
    have : 0 ≤ ci ^ 2 * S := by positivity
    linarith
  · have b1 := mul_le_mul_of_nonneg_right hsq hS.le
    have b2 := mul_le_mul_of_nonneg_right a2 hS.le
    nlinarith

end Rfsed.Synrf
