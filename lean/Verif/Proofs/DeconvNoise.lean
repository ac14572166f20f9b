import Verif.Props.DeconvConverge

/-!
# The greedy algorithm with noise in the numerator (lemmas about its specification only)
-/

namespace Rfsed.Props
open Rfsed Synrf Spec Finset

theorem inner_sq_le (n : Nat) (x y : Nat → ℝ) :
    (∑ m ∈ range n, x m * y m) ^ 2 ≤ energy n x * energy n y := sum_mul_sq_le_sq_mul_sq (range n) x y

/-- triangle inequality -/
theorem energy_tri (n : Nat) (x y : Nat → ℝ) :
    energy n (fun m => x m + y m) ≤ (√(energy n x) + √(energy n y)) ^ 2 := by
  have e : energy n (fun m => x m + y m) = energy n x + 2 * (∑ m ∈ range n, x m * y m) + energy n y := by
    unfold energy
    rw [mul_sum, ← sum_add_distrib, ← sum_add_distrib]
    exact sum_congr rfl (fun _ _ => by ring)
  have h1 : (∑ m ∈ range n, x m * y m) ≤ √(energy n x) * √(energy n y) := by
    rw [← Real.sqrt_mul (energy_nonneg n x)]
    exact Real.le_sqrt_of_sq_le (inner_sq_le n x y)
  rw [e, add_sq, Real.sq_sqrt (energy_nonneg n x), Real.sq_sqrt (energy_nonneg n y)]
  linarith

/-- as `corr_energy`, with noise at most half as large as the residual -/
theorem corr_energy_noise {n : Nat} (hn : 0 < n) {w r c f : Nat → ℝ} {dt μ : ℝ} (hμ0 : 0 < μ)
    (hμ : ∀ k < n, μ ≤ ‖rdft n w k‖ ^ 2) {L : Nat} (hL : L ≤ n) (hc : ∀ i, L ≤ i → c i = 0)
    (hr : ∀ m < n, r m = dt * cconv n c w m + f m) (hf : 4 * energy n f ≤ energy n r) :
    μ / 9 * energy n r ≤ ∑ i ∈ range L, corr n r w i ^ 2 := by
  have hsub : range L ⊆ range n := range_subset_range.2 hL
  set r0 : Nat → ℝ := fun m => dt * cconv n c w m with hr0
  have e1 : (∑ m ∈ range n, r m * r0 m) = dt * ∑ i ∈ range L, c i * corr n r w i := by
    have : (∑ m ∈ range n, r m * r0 m) =
        ∑ m ∈ range n, ∑ i ∈ range n, dt * (c i * (r m * w (cyc n ((m : ℤ) - i)))) := by
      apply sum_congr rfl
      intro m _
      rw [hr0]
      unfold cconv
      simp only
      rw [mul_sum, mul_sum]
      exact sum_congr rfl (fun i _ => by ring)
    rw [this, sum_comm, mul_sum]
    symm
    apply sum_subset_zero_on_sdiff hsub
    · intro i hi
      have : L ≤ i := by
        have := (mem_sdiff.1 hi).2
        rw [mem_range] at this; omega
      simp [hc i this]
    · intro i _
      unfold corr
      rw [mul_sum, mul_sum]
  have e2 : energy n c = ∑ i ∈ range L, c i ^ 2 := by
    unfold energy
    symm
    apply sum_subset hsub
    intro i _ hi
    have : L ≤ i := by rw [mem_range] at hi; omega
    rw [hc i this]; ring
  have e3 : energy n r0 = dt ^ 2 * energy n (cconv n c w) := by
    unfold energy
    rw [mul_sum]
    exact sum_congr rfl (fun m _ => by rw [hr0]; ring)
  have hcs := sum_mul_sq_le_sq_mul_sq (range L) c (corr n r w)
  have hfb := frame_bound hn hμ c
  have hE := energy_nonneg n r
  have hF := energy_nonneg n f
  have hB : 0 ≤ ∑ i ∈ range L, corr n r w i ^ 2 := sum_nonneg (fun _ _ => sq_nonneg _)
  set E := energy n r with hEd
  set B := ∑ i ∈ range L, corr n r w i ^ 2 with hBd
  have hsE := Real.sqrt_nonneg E
  have hsqE := Real.sq_sqrt hE
  have hfE : √(energy n f) ≤ √E / 2 := by
    rw [show √E / 2 = √(E / 4) by
      rw [Real.sqrt_div hE, show (4 : ℝ) = 2 ^ 2 by norm_num, Real.sqrt_sq (by norm_num)]]
    exact Real.sqrt_le_sqrt (by linarith)
  -- `⟨r, r0⟩ ≥ E/2`
  have h1 : E / 2 ≤ ∑ m ∈ range n, r m * r0 m := by
    have a1 : E = (∑ m ∈ range n, r m * r0 m) + ∑ m ∈ range n, r m * f m := by
      rw [hEd]; unfold energy
      rw [← sum_add_distrib]
      apply sum_congr rfl
      intro m hm
      rw [pow_two]
      nth_rw 2 [hr m (mem_range.1 hm)]
      rw [hr0]; ring
    have a2 : (∑ m ∈ range n, r m * f m) ≤ √E * √(energy n f) := by
      rw [← Real.sqrt_mul hE]
      exact Real.le_sqrt_of_sq_le (inner_sq_le n r f)
    nlinarith [mul_le_mul_of_nonneg_left hfE hsE]
  -- `|r0|² ≤ (9/4) E`
  have h2 : energy n r0 ≤ 9 / 4 * E := by
    have a1 := energy_tri n r (fun m => -f m)
    have a2 : energy n (fun m => -f m) = energy n f := by
      unfold energy; exact sum_congr rfl (fun _ _ => by ring)
    have a3 : energy n (fun m => r m + -f m) = energy n r0 :=
      energy_congr (fun m hm => by simp only [hr0]; rw [hr m hm]; ring)
    rw [a2, a3] at a1
    have a4 := Real.sqrt_nonneg (energy n f)
    nlinarith
  have h3 : (E / 2) ^ 2 ≤ dt ^ 2 * energy n c * B := by
    have a1 : (E / 2) ^ 2 ≤ (∑ m ∈ range n, r m * r0 m) ^ 2 := pow_le_pow_left₀ (by positivity) h1 2
    refine a1.trans ?_
    rw [e1, e2, mul_pow, mul_assoc]
    exact mul_le_mul_of_nonneg_left hcs (sq_nonneg _)
  have h4 : dt ^ 2 * (μ * energy n c) ≤ 9 / 4 * E := by
    refine le_trans ?_ h2
    rw [e3]; exact mul_le_mul_of_nonneg_left hfb (sq_nonneg _)
  rcases hE.lt_or_eq with hpos | hz
  · have h5 : μ * (E / 2) ^ 2 ≤ 9 / 4 * E * B := by
      calc μ * (E / 2) ^ 2 ≤ μ * (dt ^ 2 * energy n c * B) := mul_le_mul_of_nonneg_left h3 hμ0.le
        _ = (dt ^ 2 * (μ * energy n c)) * B := by ring
        _ ≤ _ := mul_le_mul_of_nonneg_right h4 hB
    have h6 : E * (μ / 9 * E) ≤ E * B := by nlinarith
    exact le_of_mul_le_mul_left h6 hpos
  · rw [← hz, mul_zero]; exact hB

/-- one greedy step with noise at most half as large as the residual -/
theorem spike_gain_noise {n : Nat} (hn : 0 < n) {dt : ℝ} (hdt : dt ≠ 0) {u w q f : Nat → ℝ} {phase : String}
    {μ : ℝ} (hμ0 : 0 < μ) (hμ : ∀ k < n, μ ≤ ‖rdft n w k‖ ^ 2)
    (hq : ∀ i, ¬ Lag n phase i → q i = 0) (hu : ∀ m < n, u m = dt * cconv n q w m + f m)
    {p p' : List ℝ} (hp : p.length = n) (hpl : ∀ i, ¬ Lag n phase i → smp p i = 0)
    (hf : 4 * energy n f ≤ energy n (fun m => u m - dt * cconv n (smp p) w m))
    (h : BestSpike n dt u w phase p p') :
    misfit n dt u w (smp p') ≤ (1 - μ / 9 / (lags n phase * energy n w)) * misfit n dt u w (smp p) := by
  refine spike_gain_of hn hdt (energy_of_power hn hμ0 hμ) hp ?_ h
  refine corr_energy_noise (c := fun i => q i - smp p i) (dt := dt) (f := f) hn hμ0 hμ (lags_le n phase) ?_ ?_ hf
  · intro i hi
    have : ¬ Lag n phase i := by rw [lag_iff]; omega
    simp only [hq i this, hpl i this, sub_zero]
  · intro m hm
    rw [hu m hm]
    have : cconv n (fun i => q i - smp p i) w m = cconv n q w m - cconv n (smp p) w m := by
      unfold cconv
      rw [← sum_sub_distrib]
      exact sum_congr rfl (fun _ _ => by ring)
    rw [this]; ring

/-- the distance from the true spike train, with noise -/
theorem train_error_noise {n : Nat} (hn : 0 < n) {dt : ℝ} (hdt : dt ≠ 0) {u w q f : Nat → ℝ}
    {μ : ℝ} (hμ0 : 0 < μ) (hμ : ∀ k < n, μ ≤ ‖rdft n w k‖ ^ 2)
    (hu : ∀ m < n, u m = dt * cconv n q w m + f m) (p : Nat → ℝ) :
    energy n (fun i => p i - q i) ≤
      (√(energy n (fun m => u m - dt * cconv n p w m)) + √(energy n f)) ^ 2 / (dt ^ 2 * μ) := by
  have hd : 0 < dt ^ 2 := by positivity
  rw [le_div_iff₀ (by positivity)]
  have a1 := energy_tri n (fun m => u m - dt * cconv n p w m) (fun m => -f m)
  have a2 : energy n (fun m => -f m) = energy n f := by
    unfold energy; exact sum_congr rfl (fun _ _ => by ring)
  rw [a2] at a1
  refine le_trans ?_ a1
  have a3 : energy n (fun m => u m - dt * cconv n p w m + -f m) =
      dt ^ 2 * energy n (cconv n (fun i => p i - q i) w) := by
    unfold energy
    rw [mul_sum]
    apply sum_congr rfl
    intro m hm
    simp only
    rw [hu m (mem_range.1 hm)]
    have : cconv n (fun i => p i - q i) w m = cconv n p w m - cconv n q w m := by
      unfold cconv
      rw [← sum_sub_distrib]
      exact sum_congr rfl (fun _ _ => by ring)
    rw [this]; ring
  rw [a3]
  calc _ = dt ^ 2 * (μ * energy n (fun i => p i - q i)) := by ring
    _ ≤ _ := mul_le_mul_of_nonneg_left (frame_bound hn hμ _) hd.le

end Rfsed.Props
