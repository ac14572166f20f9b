import Verif.Props.Deconv2
import Verif.Proofs.Deconv6
import Mathlib.Algebra.Order.BigOperators.Ring.Finset

/-!
# Geometric convergence of the greedy algorithm (lemmas about its specification only)
-/

namespace Rfsed.Props
open Rfsed Synrf Spec Finset

theorem energy_add_zero_iff {n : Nat} {x : Nat → ℝ} : energy n x = 0 ↔ ∀ m < n, x m = 0 := by
  unfold energy
  rw [sum_eq_zero_iff_of_nonneg (fun _ _ => sq_nonneg _)]
  simp

/-- lower frame bound of the translates of `w` -/
theorem frame_bound {n : Nat} (hn : 0 < n) {w : Nat → ℝ} {μ : ℝ} (hμ : ∀ k < n, μ ≤ ‖rdft n w k‖ ^ 2)
    (c : Nat → ℝ) : μ * energy n c ≤ energy n (cconv n c w) := by
  have h1 := parseval hn c
  have h2 := parseval hn (cconv n c w)
  have hn' : (0 : ℝ) < n := by exact_mod_cast hn
  have h3 : μ * ∑ k ∈ range n, ‖rdft n c k‖ ^ 2 ≤ ∑ k ∈ range n, ‖rdft n (cconv n c w) k‖ ^ 2 := by
    rw [mul_sum]
    apply sum_le_sum
    intro k hk
    rw [rdft_cconv hn c w (mem_range.1 hk), norm_mul, mul_pow, mul_comm]
    exact mul_le_mul_of_nonneg_left (hμ k (mem_range.1 hk)) (sq_nonneg _)
  rw [h1, h2] at h3
  have : n * (μ * energy n c) ≤ n * energy n (cconv n c w) := by linarith
  exact le_of_mul_le_mul_left this hn'

/-- upper bound -/
theorem frame_upper {n : Nat} (hn : 0 < n) {w : Nat → ℝ} {M : ℝ} (hM : ∀ k < n, ‖rdft n w k‖ ^ 2 ≤ M)
    (c : Nat → ℝ) : energy n (cconv n c w) ≤ M * energy n c := by
  have h1 := parseval hn c
  have h2 := parseval hn (cconv n c w)
  have hn' : (0 : ℝ) < n := by exact_mod_cast hn
  have h3 : ∑ k ∈ range n, ‖rdft n (cconv n c w) k‖ ^ 2 ≤ M * ∑ k ∈ range n, ‖rdft n c k‖ ^ 2 := by
    rw [mul_sum]
    apply sum_le_sum
    intro k hk
    rw [rdft_cconv hn c w (mem_range.1 hk), norm_mul, mul_pow, mul_comm]
    exact mul_le_mul_of_nonneg_right (hM k (mem_range.1 hk)) (sq_nonneg _)
  rw [h1, h2] at h3
  have : n * energy n (cconv n c w) ≤ n * (M * energy n c) := by linarith
  exact le_of_mul_le_mul_left this hn'

/-- correlation of a residual with the translate by `i` -/
noncomputable def corr (n : Nat) (r w : Nat → ℝ) (i : Nat) : ℝ := ∑ m ∈ range n, r m * w (cyc n ((m : ℤ) - i))

theorem corr_eq {n : Nat} (hn : 0 < n) (r w : Nat → ℝ) (i : Nat) :
    corr n r w i = ∑ j ∈ range n, w j * r (cyc n (i + j)) := by
  unfold corr
  have := sum_cyc_add hn (i : ℤ) (fun m => r m * w (cyc n ((m : ℤ) - i)))
  rw [← this]
  apply sum_congr rfl
  intro j hj
  have : cyc n ((cyc n ((j : ℤ) + i) : ℤ) - i) = j := by
    rw [sub_eq_add_neg, cyc_cyc_add hn]
    rw [show (j : ℤ) + i + -i = j by ring, cyc_of_lt (mem_range.1 hj)]
  rw [this, add_comm (j : ℤ), mul_comm]

/-- a residual made of translates at admissible lags is seen by their correlations -/
theorem corr_energy {n : Nat} (hn : 0 < n) {w r c : Nat → ℝ} {dt μ : ℝ} (hμ0 : 0 < μ)
    (hμ : ∀ k < n, μ ≤ ‖rdft n w k‖ ^ 2) {L : Nat} (hL : L ≤ n) (hc : ∀ i, L ≤ i → c i = 0)
    (hr : ∀ m < n, r m = dt * cconv n c w m) :
    μ * energy n r ≤ ∑ i ∈ range L, corr n r w i ^ 2 := by
  have hsub : range L ⊆ range n := range_subset_range.2 hL
  have e1 : energy n r = dt * ∑ i ∈ range L, c i * corr n r w i := by
    have : energy n r = ∑ m ∈ range n, ∑ i ∈ range n, dt * (c i * (r m * w (cyc n ((m : ℤ) - i)))) := by
      unfold energy
      apply sum_congr rfl
      intro m hm
      rw [pow_two]
      nth_rw 2 [hr m (mem_range.1 hm)]
      unfold cconv
      rw [mul_sum, mul_sum]
      exact sum_congr rfl (fun i _ => by ring)
    rw [this, sum_comm, mul_sum]
    symm
    apply sum_subset_zero_on_sdiff hsub
    · intro i hi
      have : L ≤ i := by
        have := (mem_sdiff.1 hi).2
        rw [mem_range] at this; omega
      simp [hc i this]
    · intro i _
      unfold corr
      rw [mul_sum, mul_sum]
  have e2 : energy n c = ∑ i ∈ range L, c i ^ 2 := by
    unfold energy
    symm
    apply sum_subset hsub
    intro i _ hi
    have : L ≤ i := by rw [mem_range] at hi; omega
    rw [hc i this]; ring
  have e3 : energy n r = dt ^ 2 * energy n (cconv n c w) := by
    unfold energy
    rw [mul_sum]
    exact sum_congr rfl (fun m hm => by rw [hr m (mem_range.1 hm)]; ring)
  have hcs := sum_mul_sq_le_sq_mul_sq (range L) c (corr n r w)
  have hfb := frame_bound hn hμ c
  have hE := energy_nonneg n r
  have hB : 0 ≤ ∑ i ∈ range L, corr n r w i ^ 2 := sum_nonneg (fun _ _ => sq_nonneg _)
  rcases hE.lt_or_eq with hpos | hz
  · -- `E² ≤ dt² C B`, `dt² μ C ≤ E`
    have h1 : energy n r ^ 2 ≤ dt ^ 2 * energy n c * ∑ i ∈ range L, corr n r w i ^ 2 := by
      rw [e2]
      conv_lhs => rw [e1]
      rw [mul_pow, mul_assoc]
      exact mul_le_mul_of_nonneg_left hcs (sq_nonneg _)
    have h2 : dt ^ 2 * (μ * energy n c) ≤ energy n r := by
      rw [e3]; exact mul_le_mul_of_nonneg_left hfb (sq_nonneg _)
    have h3 : μ * energy n r ^ 2 ≤ energy n r * ∑ i ∈ range L, corr n r w i ^ 2 := by
      calc μ * energy n r ^ 2 ≤ μ * (dt ^ 2 * energy n c * ∑ i ∈ range L, corr n r w i ^ 2) :=
            mul_le_mul_of_nonneg_left h1 hμ0.le
        _ = (dt ^ 2 * (μ * energy n c)) * ∑ i ∈ range L, corr n r w i ^ 2 := by ring
        _ ≤ _ := mul_le_mul_of_nonneg_right h2 hB
    have h4 : energy n r * (μ * energy n r) ≤ energy n r * ∑ i ∈ range L, corr n r w i ^ 2 := by
      linarith [h3, show energy n r * (μ * energy n r) = μ * energy n r ^ 2 by ring]
    exact le_of_mul_le_mul_left h4 hpos
  · rw [← hz, mul_zero]; exact hB

/-- number of admissible lags -/
def lags (n : Nat) (phase : String) : Nat := if phase = "P" then n / 2 - 1 else n

theorem lag_iff {n : Nat} {phase : String} {i : Nat} : Lag n phase i ↔ i < lags n phase := by
  unfold Lag lags
  split
  · rename_i h; simp only [h, true_imp_iff]; omega
  · rename_i h; simp [h]

theorem lags_le (n : Nat) (phase : String) : lags n phase ≤ n := by unfold lags; split <;> omega

/-- a denominator with power has energy -/
theorem energy_of_power {n : Nat} (hn : 0 < n) {w : Nat → ℝ} {μ : ℝ} (hμ0 : 0 < μ)
    (hμ : ∀ k < n, μ ≤ ‖rdft n w k‖ ^ 2) : 0 < energy n w := by
  have h1 := parseval hn w
  have hn' : (0 : ℝ) < n := by exact_mod_cast hn
  have h2 : 0 < ∑ k ∈ range n, ‖rdft n w k‖ ^ 2 :=
    sum_pos (fun k hk => lt_of_lt_of_le hμ0 (hμ k (mem_range.1 hk))) ⟨0, mem_range.2 hn⟩
  rw [h1] at h2
  exact (mul_pos_iff_of_pos_left hn').1 h2

/-- one greedy step, given that the correlations at the admissible lags see the fraction `μ` of the residual -/
theorem spike_gain_of {n : Nat} (hn : 0 < n) {dt : ℝ} (hdt : dt ≠ 0) {u w : Nat → ℝ} {phase : String}
    {μ : ℝ} (hE : 0 < energy n w) {p p' : List ℝ} (hp : p.length = n)
    (hB : μ * energy n (fun m => u m - dt * cconv n (smp p) w m) ≤
      ∑ i ∈ range (lags n phase), corr n (fun m => u m - dt * cconv n (smp p) w m) w i ^ 2)
    (h : BestSpike n dt u w phase p p') :
    misfit n dt u w (smp p') ≤ (1 - μ / (lags n phase * energy n w)) * misfit n dt u w (smp p) := by
  set r : Nat → ℝ := fun m => u m - dt * cconv n (smp p) w m with hr
  set L := lags n phase with hL
  obtain ⟨i0, v0, hi0, -, hbest, -⟩ := h
  have hLpos : 0 < L := by have := lag_iff.1 hi0; omega
  have hLR : (0 : ℝ) < L := by exact_mod_cast hLpos
  -- every admissible lag
  have hlag : ∀ i < L, energy n u * misfit n dt u w (smp p') ≤
      energy n r - corr n r w i ^ 2 / energy n w := by
    intro i hi
    have hi' := lag_iff.2 hi
    set a := corr n r w i / energy n w with ha
    have h1 := hbest i (smp p i + a / dt) hi'
    have h2 : misfit n dt u w (smp (p.set i (smp p i + a / dt))) =
        energy n (fun m => r m - a * w (cyc n ((m : ℤ) - i))) / energy n u := by
      unfold misfit
      congr 1
      apply energy_congr
      intro m _
      rw [cconv_spike hi'.1 hp]
      rw [hr]
      field_simp
      ring
    have h3 := spike_energy hn r w i a hE.ne'
    simp only [← corr_eq hn, ← ha, sub_self] at h3
    rw [h2, h3] at h1
    rcases (energy_nonneg n u).lt_or_eq with hup | huz
    · rw [le_div_iff₀ hup] at h1
      rw [mul_comm]
      refine h1.trans (le_of_eq ?_)
      rw [ha]; field_simp; ring
    · rw [← huz, zero_mul]
      have e := spike_energy hn r w i a hE.ne'
      simp only [← corr_eq hn, ← ha, sub_self] at e
      have := energy_nonneg n (fun m => r m - a * w (cyc n ((m : ℤ) - i)))
      rw [e] at this
      have e2 : a ^ 2 * energy n w = corr n r w i ^ 2 / energy n w := by
        rw [ha]; field_simp
      rw [e2] at this
      linarith
  have hsum : (L : ℝ) * (energy n u * misfit n dt u w (smp p')) ≤
      L * energy n r - (∑ i ∈ range L, corr n r w i ^ 2) / energy n w := by
    have := sum_le_sum (s := range L) (fun i hi => hlag i (mem_range.1 hi))
    rw [sum_const, card_range, nsmul_eq_mul, sum_sub_distrib, sum_const, card_range, nsmul_eq_mul,
      ← sum_div] at this
    exact this
  have hfin : energy n u * misfit n dt u w (smp p') ≤ (1 - μ / (L * energy n w)) * energy n r := by
    have h1 : μ * energy n r / energy n w ≤ (∑ i ∈ range L, corr n r w i ^ 2) / energy n w :=
      div_le_div_of_nonneg_right hB hE.le
    have h2 : (L : ℝ) * (energy n u * misfit n dt u w (smp p')) ≤
        L * ((1 - μ / (L * energy n w)) * energy n r) := by
      have : (L : ℝ) * ((1 - μ / (L * energy n w)) * energy n r) =
          L * energy n r - μ * energy n r / energy n w := by field_simp
      rw [this]; linarith
    exact le_of_mul_le_mul_left h2 hLR
  rcases (energy_nonneg n u).lt_or_eq with hup | huz
  · have : misfit n dt u w (smp p) = energy n r / energy n u := rfl
    rw [this, mul_div_assoc', le_div_iff₀ hup, mul_comm]
    exact hfin
  · have h0 : ∀ x : Nat → ℝ, misfit n dt u w x = 0 := by
      intro x; unfold misfit; rw [← huz, div_zero]
    rw [h0, h0, mul_zero]

/-- one greedy step removes at least the fraction `μ / (L E)` of the residual -/
theorem spike_gain {n : Nat} (hn : 0 < n) {dt : ℝ} (hdt : dt ≠ 0) {u w q : Nat → ℝ} {phase : String}
    {μ : ℝ} (hμ0 : 0 < μ) (hμ : ∀ k < n, μ ≤ ‖rdft n w k‖ ^ 2)
    (hq : ∀ i, ¬ Lag n phase i → q i = 0) (hu : ∀ m < n, u m = dt * cconv n q w m)
    {p p' : List ℝ} (hp : p.length = n) (hpl : ∀ i, ¬ Lag n phase i → smp p i = 0)
    (h : BestSpike n dt u w phase p p') :
    misfit n dt u w (smp p') ≤ (1 - μ / (lags n phase * energy n w)) * misfit n dt u w (smp p) := by
  set r : Nat → ℝ := fun m => u m - dt * cconv n (smp p) w m with hr
  set L := lags n phase with hL
  -- residual as a combination of admissible translates
  have hres : ∀ m < n, r m = dt * cconv n (fun i => q i - smp p i) w m := by
    intro m hm
    rw [hr]
    simp only
    rw [hu m hm]
    unfold cconv
    rw [← mul_sub, ← sum_sub_distrib]
    congr 1
    exact sum_congr rfl (fun _ _ => by ring)
  have hcz : ∀ i, L ≤ i → (fun i => q i - smp p i) i = 0 := by
    intro i hi
    have : ¬ Lag n phase i := by rw [lag_iff]; omega
    simp only [hq i this, hpl i this, sub_zero]
  have hB := corr_energy hn hμ0 hμ (lags_le n phase) hcz hres
  exact spike_gain_of hn hdt (energy_of_power hn hμ0 hμ) hp hB h

/-- spike trains of a greedy run live on the admissible lags -/
theorem greedyRun_lags {n : Nat} {dt : ℝ} {u w : Nat → ℝ} {phase : String} {minderr : ℝ}
    {itmax k : Nat} {P : Nat → List ℝ} (h : GreedyRun n dt u w phase minderr itmax k P) :
    ∀ j ≤ k, ∀ i, ¬ Lag n phase i → smp (P j) i = 0 := by
  intro j
  induction j with
  | zero =>
    intro _ i _
    rw [h.start]
    unfold smp
    simp only [List.getD_eq_getElem?_getD, List.getElem?_replicate]
    split <;> rfl
  | succ j ih =>
    intro hj i hi
    obtain ⟨i0, v, h1, h2, -⟩ := h.spike j (by omega)
    rw [h2, smp_set (by rw [greedyRun_length h j (by omega)]; exact h1.1), if_neg]
    · exact ih (by omega) i hi
    · rintro rfl; exact hi h1

/-- geometric decay of the misfit -/
theorem greedyRun_decay {n : Nat} (hn : 0 < n) {dt : ℝ} (hdt : dt ≠ 0) {u w q : Nat → ℝ} {phase : String}
    {μ : ℝ} (hμ0 : 0 < μ) (hμ : ∀ k < n, μ ≤ ‖rdft n w k‖ ^ 2)
    (hq : ∀ i, ¬ Lag n phase i → q i = 0) (hu : ∀ m < n, u m = dt * cconv n q w m)
    {minderr : ℝ} {itmax k : Nat} {P : Nat → List ℝ}
    (h : GreedyRun n dt u w phase minderr itmax k P) (j : Nat) (hj : j < k) :
    misfit n dt u w (smp (P (j + 1))) ≤
      (1 - μ / (lags n phase * energy n w)) * misfit n dt u w (smp (P j)) :=
  spike_gain hn hdt hμ0 hμ hq hu (greedyRun_length h j hj.le) (greedyRun_lags h j hj.le) (h.spike j hj)

/-- the distance from the true spike train is bounded by the misfit -/
theorem train_error {n : Nat} (hn : 0 < n) {dt : ℝ} (hdt : dt ≠ 0) {u w q : Nat → ℝ}
    {μ : ℝ} (hμ0 : 0 < μ) (hμ : ∀ k < n, μ ≤ ‖rdft n w k‖ ^ 2)
    (hu : ∀ m < n, u m = dt * cconv n q w m) (hu0 : energy n u ≠ 0) (p : Nat → ℝ) :
    energy n (fun i => p i - q i) ≤ misfit n dt u w p * energy n u / (dt ^ 2 * μ) := by
  have hres : energy n (fun m => u m - dt * cconv n p w m) =
      dt ^ 2 * energy n (cconv n (fun i => p i - q i) w) := by
    unfold energy
    rw [mul_sum]
    apply sum_congr rfl
    intro m hm
    simp only
    rw [hu m (mem_range.1 hm)]
    have : cconv n (fun i => p i - q i) w m = cconv n p w m - cconv n q w m := by
      unfold cconv
      rw [← sum_sub_distrib]
      exact sum_congr rfl (fun _ _ => by ring)
    rw [this]; ring
  have hfb := frame_bound hn hμ (fun i => p i - q i)
  have hd : 0 < dt ^ 2 := by positivity
  rw [le_div_iff₀ (by positivity)]
  have h1 : energy n (fun i => p i - q i) * (dt ^ 2 * μ) ≤
      energy n (fun m => u m - dt * cconv n p w m) := by
    rw [hres]
    calc _ = dt ^ 2 * (μ * energy n (fun i => p i - q i)) := by ring
      _ ≤ _ := mul_le_mul_of_nonneg_left hfb hd.le
  unfold misfit
  rw [div_mul_cancel₀ _ hu0]
  exact h1

end Rfsed.Props
