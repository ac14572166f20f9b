import Verif.Proofs.DeconvNoise
import Mathlib.Tactic.Positivity.Finset

/-!
# Property C113: noise in deconvolution
-/

namespace Rfsed.Props
open Rfsed Synrf Spec Finset

/-- The numerator `uin` is the denominator `win` convolved with the spike train `q` (spikes at admissible lags only)
plus the noise `e`. -/
structure NoisyRF (uin win : List ℝ) (dt : ℝ) (phase : String) (q e : Nat → ℝ) : Prop where
  lags : ∀ i, ¬ Lag (nextPow2 uin.length) phase i → q i = 0
  conv : ∀ m < nextPow2 uin.length, smp uin m = dt * cconv (nextPow2 uin.length) q (smp win) m + e m
  alive : ∃ x ∈ uin, x ≠ 0

/-- the factor by which an iteration reduces the misfit at least, as long as the noise is at most half of the residual -/
noncomputable def noisyDecay (n : Nat) (dt a : ℝ) (win : List ℝ) (phase : String) (μ : ℝ) : ℝ :=
  1 - μ / 9 / (lags n phase * energy n (lowpass n dt a win))

/-- low-pass filtering does not amplify -/
theorem gauss_energy {n : Nat} (hn : 0 < n) (dt a : ℝ) (e : Nat → ℝ) :
    energy n (cconv n e (gaussPulse dt n a)) ≤ energy n e := by
  rw [← one_mul (energy n e)]
  apply frame_upper hn
  intro k hk
  rw [rdft_gaussPulse hn hk, Complex.norm_real, Real.norm_eq_abs, sq_abs]
  unfold gaussResponse
  rw [sq_le_one_iff₀ (Real.exp_pos _).le]
  exact Real.exp_le_one_iff.2 (by
    have := sq_nonneg (2 * Real.pi * ((min k (n - k) : ℕ) : ℝ) / (n * dt) / (2 * a))
    linarith)

theorem lowpass_noise {uin win : List ℝ} {dt a : ℝ} {n : Nat} (hn : 0 < n) {q e : Nat → ℝ}
    (h : ∀ m < n, smp uin m = dt * cconv n q (smp win) m + e m) :
    ∀ m < n, lowpass n dt a uin m =
      dt * cconv n q (lowpass n dt a win) m + cconv n e (gaussPulse dt n a) m := by
  intro m _
  unfold lowpass
  rw [cconv_congr hn h (fun _ _ => rfl)]
  have e : cconv n (fun m => dt * cconv n q (smp win) m + e m) (gaussPulse dt n a) m =
      dt * cconv n (cconv n q (smp win)) (gaussPulse dt n a) m + cconv n e (gaussPulse dt n a) m := by
    unfold cconv
    rw [mul_sum, ← sum_add_distrib]
    exact sum_congr rfl (fun _ _ => by ring)
  rw [e, cconv_assoc' hn]
  congr 2
  exact cconv_congr hn (fun _ _ => rfl) (fun j _ => cconv_comm hn _ _ j) m

section
variable {uin win : List ℝ} {dt : ℝ} {nt : Option Nat} {preonset a : ℝ} {itmax : Nat}
  {minderr : ℝ} {phase : String} {R : IterResult} {q e : Nat → ℝ} {μ : ℝ}

theorem noisyRF_pos (hq : NoisyRF uin win dt phase q e) : 0 < uin.length := by
  obtain ⟨x, hx, -⟩ := hq.alive
  exact List.length_pos_of_mem hx

theorem noisyRF_energy (hq : NoisyRF uin win dt phase q e) :
    energy (nextPow2 uin.length) (lowpass (nextPow2 uin.length) dt a uin) ≠ 0 := by
  intro hz
  obtain ⟨x, hx, hx0⟩ := hq.alive
  exact hx0 ((cconv_smp_inj (nextPow2_gt (noisyRF_pos hq)) (le_nextPow2 _)).1 hz x hx)

/-- **C113** The factor is from 0 to 1, and below 1 if there are admissible lags. -/
theorem c113_factor {n : Nat} (hn : 0 < n) (hμ : PowerAtLeast n dt a win μ) :
    0 ≤ noisyDecay n dt a win phase μ ∧ noisyDecay n dt a win phase μ ≤ 1 ∧
    (0 < lags n phase → noisyDecay n dt a win phase μ < 1) := by
  have hnR : (0 : ℝ) < n := by exact_mod_cast hn
  have hE : μ ≤ energy n (lowpass n dt a win) := by
    have h1 := parseval hn (lowpass n dt a win)
    have h2 := sum_le_sum (s := range n) (fun k hk => lowpass_power hn hμ k (mem_range.1 hk))
    rw [h1, sum_const, card_range, nsmul_eq_mul] at h2
    exact le_of_mul_le_mul_left h2 hnR
  have hEpos := lt_of_lt_of_le hμ.1 hE
  have hμ9 : 0 < μ / 9 := by have := hμ.1; positivity
  unfold noisyDecay
  rcases Nat.eq_zero_or_pos (lags n phase) with h0 | hL
  · rw [h0]; norm_num
  · have hLR : (1 : ℝ) ≤ lags n phase := by exact_mod_cast hL
    have hden : 0 < (lags n phase : ℝ) * energy n (lowpass n dt a win) := by positivity
    have hp := div_pos hμ9 hden
    refine ⟨?_, by linarith, fun _ => by linarith⟩
    rw [sub_nonneg, div_le_one hden]
    nlinarith [hμ.1]

/-- the run behind a result -/
theorem noise_core (h : deconv_iterative uin win dt nt preonset a itmax minderr phase = .ok R)
    (hnt : nt = none ∨ nt = some uin.length) (hm : 0 ≤ minderr) {rf : List ℝ} (hrf : R.rf = some rf)
    (hq : NoisyRF uin win dt phase q e) (hμ : PowerAtLeast (nextPow2 uin.length) dt a win μ) :
    let n := nextPow2 uin.length
    let u := lowpass n dt a uin
    let w := lowpass n dt a win
    ∃ P, GreedyRun n dt u w phase minderr itmax R.it P ∧
      (∀ j, j + 1 < R.it → R.rms[j]? = some (misfit n dt u w (smp (P (j + 1))))) ∧
      (∀ j < R.it, misfit n dt u w (smp (P (j + 1))) ≤ misfit n dt u w (smp (P j))) ∧
      (∀ j < R.it, 4 * energy n e ≤ misfit n dt u w (smp (P j)) * energy n u →
        misfit n dt u w (smp (P (j + 1))) ≤ noisyDecay n dt a win phase μ * misfit n dt u w (smp (P j))) ∧
      (Real.cos (2 * Real.pi * (pyInt (preonset / dt) : ℝ) / n) ≠ 0 →
        ∑ m ∈ range uin.length, (smp rf m - idealRF n dt a preonset q m) ^ 2 ≤
          (√(misfit n dt u w (smp (P R.it)) * energy n u) + √(energy n e)) ^ 2 / (dt ^ 2 * μ)) := by
  intro n u w
  have hn : 0 < n := nextPow2_gt (noisyRF_pos hq)
  have hnt' : nt.getD uin.length = uin.length := by rcases hnt with rfl | rfl <;> rfl
  obtain ⟨hdt, -⟩ := deconv_master h hnt'
  obtain ⟨P, hg, h8, h9⟩ := c54_greedy h hnt hm hrf
  have hE : energy n u ≠ 0 := noisyRF_energy hq
  have hcv := lowpass_noise (a := a) hn hq.conv
  have hpw := lowpass_power hn hμ
  have hge := gauss_energy hn dt a e
  have hmis : ∀ p, misfit n dt u w p * energy n u = energy n (fun m => u m - dt * cconv n p w m) :=
    fun p => div_mul_cancel₀ _ hE
  refine ⟨P, hg, h8, ?_, ?_, ?_⟩
  · intro j hj
    exact bestSpike_le (greedyRun_length hg j hj.le) (hg.spike j hj)
  · intro j hj hbig
    rw [hmis] at hbig
    exact spike_gain_noise hn hdt hμ.1 hpw hq.lags hcv (greedyRun_length hg j hj.le)
      (greedyRun_lags hg j hj.le) (by linarith) (hg.spike j hj)
  · intro hcos
    refine (rf_error hn (le_nextPow2 _) (h9 hcos) q).trans ?_
    refine (train_error_noise hn hdt hμ.1 hpw hcv (smp (P R.it))).trans ?_
    rw [hmis]
    have hd : 0 ≤ dt ^ 2 * μ := mul_nonneg (sq_nonneg _) hμ.1.le
    refine div_le_div_of_nonneg_right (pow_le_pow_left₀ (by positivity) ?_ 2) hd
    exact add_le_add_right (Real.sqrt_le_sqrt hge) _

theorem noise_misfit {u w : Nat → ℝ} {n : Nat} {P : Nat → List ℝ} {k : Nat} {ρ N : ℝ} (hρ0 : 0 ≤ ρ)
    (hu : 0 < energy n u) (h0 : misfit n dt u w (smp (P 0)) = 1)
    (hmono : ∀ j < k, misfit n dt u w (smp (P (j + 1))) ≤ misfit n dt u w (smp (P j)))
    (hdec : ∀ j < k, 4 * N ≤ misfit n dt u w (smp (P j)) * energy n u →
        misfit n dt u w (smp (P (j + 1))) ≤ ρ * misfit n dt u w (smp (P j))) :
    ∀ j ≤ k, misfit n dt u w (smp (P j)) * energy n u ≤ max (ρ ^ j * energy n u) (4 * N) := by
  intro j
  induction j with
  | zero => intro _; rw [h0, pow_zero]; exact le_max_left _ _
  | succ j ih =>
    intro hj
    have ih := ih (by omega)
    rcases le_total (4 * N) (misfit n dt u w (smp (P j)) * energy n u) with hb | hb
    · have h1 := mul_le_mul_of_nonneg_right (hdec j (by omega) hb) hu.le
      rcases le_max_iff.1 ih with h2 | h2
      · refine le_max_of_le_left (h1.trans ?_)
        rw [pow_succ, mul_assoc, mul_comm _ ρ, mul_assoc]
        exact mul_le_mul_of_nonneg_left h2 hρ0
      · exact le_max_of_le_right ((mul_le_mul_of_nonneg_right (hmono j (by omega)) hu.le).trans h2)
    · exact le_max_of_le_right ((mul_le_mul_of_nonneg_right (hmono j (by omega)) hu.le).trans hb)

theorem noise_it (h : deconv_iterative uin win dt nt preonset a itmax minderr phase = .ok R)
    (hnt : nt = none ∨ nt = some uin.length) (hm : 0 ≤ minderr)
    (hq : NoisyRF uin win dt phase q e) : 1 ≤ R.it ∨ itmax = 0 := by
  by_contra h0
  push Not at h0
  have hz : R.it = 0 := by omega
  rcases (c53_dead_numerator h hnt hm).1 hz with hd | hd
  · exact h0.2 hd
  · obtain ⟨x, hx, hx0⟩ := hq.alive
    exact hx0 (hd x hx)

/-- **C113** Misfits of a noisy numerator: they fall at least geometrically until the residual has four times the
energy of the noise; from there on they stay below. -/
theorem c113_misfits (h : deconv_iterative uin win dt nt preonset a itmax minderr phase = .ok R)
    (hnt : nt = none ∨ nt = some uin.length) (hm : 0 ≤ minderr) {rf : List ℝ} (hrf : R.rf = some rf)
    (hq : NoisyRF uin win dt phase q e) (hμ : PowerAtLeast (nextPow2 uin.length) dt a win μ) :
    let n := nextPow2 uin.length
    ∀ (j : Nat) (r : ℝ), R.rms[j]? = some r →
      r * energy n (lowpass n dt a uin) ≤
        max (noisyDecay n dt a win phase μ ^ (j + 1) * energy n (lowpass n dt a uin)) (4 * energy n e) := by
  intro n j r hr
  obtain ⟨P, hg, h8, h9, h10, -⟩ := noise_core h hnt hm hrf hq hμ
  have hn : 0 < n := nextPow2_gt (noisyRF_pos hq)
  have hE : energy n (lowpass n dt a uin) ≠ 0 := noisyRF_energy hq
  have hj : j < R.rms.length := (List.getElem?_eq_some_iff.1 hr).1
  have hit : 1 ≤ R.it := by
    rcases noise_it h hnt hm hq with h1 | h1
    · exact h1
    · by_contra h0
      rw [(c53_work h hnt).2.2.1 (by omega), h1] at hj
      simp at hj
  have hlen := (c53_work h hnt).2.1 hit
  rw [h8 j (by omega)] at hr
  rw [← Option.some.inj hr]
  exact noise_misfit (c113_factor hn hμ).1
    (lt_of_le_of_ne (energy_nonneg _ _) (Ne.symm hE)) (by rw [hg.start]; exact misfit_start hE) h9 h10 (j + 1) (by omega)

/-- **C113** (a posteriori) Any misfit returned bounds the error of the receiver function: with the energy `r` times
that of the numerator left unexplained, the root of the summed squared error is at most the root of that energy plus
the root of the energy of the noise, over `|dt|` and the root of the smallest power of the denominator. -/
theorem c113_posterior (h : deconv_iterative uin win dt nt preonset a itmax minderr phase = .ok R)
    (hnt : nt = none ∨ nt = some uin.length) (hm : 0 ≤ minderr) {rf : List ℝ} (hrf : R.rf = some rf)
    (hq : NoisyRF uin win dt phase q e) (hμ : PowerAtLeast (nextPow2 uin.length) dt a win μ)
    (hcos : Real.cos (2 * Real.pi * (pyInt (preonset / dt) : ℝ) / nextPow2 uin.length) ≠ 0) :
    let n := nextPow2 uin.length
    ∀ r ∈ R.rms, ∑ m ∈ range uin.length, (smp rf m - idealRF n dt a preonset q m) ^ 2 ≤
      (√(r * energy n (lowpass n dt a uin)) + √(energy n e)) ^ 2 / (dt ^ 2 * μ) := by
  intro n r hr
  obtain ⟨P, hg, h8, h9, h10, h11⟩ := noise_core h hnt hm hrf hq hμ
  obtain ⟨j, hj, hjr⟩ := List.getElem_of_mem hr
  have hit : 1 ≤ R.it := by
    rcases noise_it h hnt hm hq with h1 | h1
    · exact h1
    · by_contra h0
      rw [(c53_work h hnt).2.2.1 (by omega), h1] at hj
      simp at hj
  have hlen := (c53_work h hnt).2.1 hit
  have hr' := h8 j (by omega)
  rw [List.getElem?_eq_getElem hj, hjr] at hr'
  have hmono : ∀ d, j + 1 + d ≤ R.it →
      misfit n dt (lowpass n dt a uin) (lowpass n dt a win) (smp (P (j + 1 + d))) ≤ r := by
    intro d
    induction d with
    | zero => intro _; exact le_of_eq (Option.some.inj hr').symm
    | succ d ih => intro hd; exact (h9 (j + 1 + d) (by omega)).trans (ih (by omega))
  have hlast := hmono (R.it - (j + 1)) (by omega)
  rw [show j + 1 + (R.it - (j + 1)) = R.it by omega] at hlast
  refine (h11 hcos).trans ?_
  have hd : 0 ≤ dt ^ 2 * μ := mul_nonneg (sq_nonneg _) hμ.1.le
  refine div_le_div_of_nonneg_right (pow_le_pow_left₀ (by positivity) ?_ 2) hd
  exact add_le_add_left (Real.sqrt_le_sqrt (mul_le_mul_of_nonneg_right hlast (energy_nonneg _ _))) _

/-- **C113** (recovery) Error of the receiver function from a noisy numerator after `it` iterations. -/
theorem c113_recovers (h : deconv_iterative uin win dt nt preonset a itmax minderr phase = .ok R)
    (hnt : nt = none ∨ nt = some uin.length) (hm : 0 ≤ minderr) {rf : List ℝ} (hrf : R.rf = some rf)
    (hq : NoisyRF uin win dt phase q e) (hμ : PowerAtLeast (nextPow2 uin.length) dt a win μ)
    (hcos : Real.cos (2 * Real.pi * (pyInt (preonset / dt) : ℝ) / nextPow2 uin.length) ≠ 0) :
    let n := nextPow2 uin.length
    ∑ m ∈ range uin.length, (smp rf m - idealRF n dt a preonset q m) ^ 2 ≤
      (√(max (noisyDecay n dt a win phase μ ^ R.it * energy n (lowpass n dt a uin)) (4 * energy n e))
        + √(energy n e)) ^ 2 / (dt ^ 2 * μ) := by
  intro n
  obtain ⟨P, hg, h8, h9, h10, h11⟩ := noise_core h hnt hm hrf hq hμ
  have hn : 0 < n := nextPow2_gt (noisyRF_pos hq)
  have hE : energy n (lowpass n dt a uin) ≠ 0 := noisyRF_energy hq
  refine (h11 hcos).trans ?_
  have hd : 0 ≤ dt ^ 2 * μ := mul_nonneg (sq_nonneg _) hμ.1.le
  refine div_le_div_of_nonneg_right (pow_le_pow_left₀ (by positivity) ?_ 2) hd
  refine add_le_add_left (Real.sqrt_le_sqrt ?_) _
  exact noise_misfit (c113_factor hn hμ).1
    (lt_of_le_of_ne (energy_nonneg _ _) (Ne.symm hE)) (by rw [hg.start]; exact misfit_start hE) h9 h10 R.it le_rfl

/-- **C113** (stopping rule) If the iterations ended because the last one improved the misfit by at most `minderr` per
cent, then the receiver function is as good as that and the noise allow. -/
theorem c113_stopped (h : deconv_iterative uin win dt nt preonset a itmax minderr phase = .ok R)
    (hnt : nt = none ∨ nt = some uin.length) (hm : 0 ≤ minderr) {rf : List ℝ} (hrf : R.rf = some rf)
    (hq : NoisyRF uin win dt phase q e) (hμ : PowerAtLeast (nextPow2 uin.length) dt a win μ)
    (hcos : Real.cos (2 * Real.pi * (pyInt (preonset / dt) : ℝ) / nextPow2 uin.length) ≠ 0)
    (hit : R.it < itmax) :
    let n := nextPow2 uin.length
    ∑ m ∈ range uin.length, (smp rf m - idealRF n dt a preonset q m) ^ 2 ≤
      (√(max (minderr / 100 / (1 - noisyDecay n dt a win phase μ) * energy n (lowpass n dt a uin))
          (4 * energy n e)) + √(energy n e)) ^ 2 / (dt ^ 2 * μ) := by
  intro n
  obtain ⟨P, hg, h8, h9, h10, h11⟩ := noise_core h hnt hm hrf hq hμ
  have hn : 0 < n := nextPow2_gt (noisyRF_pos hq)
  have hE : energy n (lowpass n dt a uin) ≠ 0 := noisyRF_energy hq
  have hE0 := energy_nonneg n (lowpass n dt a uin)
  refine (h11 hcos).trans ?_
  have hd : 0 ≤ dt ^ 2 * μ := mul_nonneg (sq_nonneg _) hμ.1.le
  refine div_le_div_of_nonneg_right (pow_le_pow_left₀ (by positivity) ?_ 2) hd
  refine add_le_add_left (Real.sqrt_le_sqrt ?_) _
  rcases hg.stop with hs | ⟨-, hs⟩ | ⟨j, hj, hs⟩
  · omega
  · exact absurd hs hE
  · have hL : 0 < lags n phase := by
      obtain ⟨i, -, hi, -⟩ := hg.spike j (by omega)
      exact lt_of_le_of_lt (Nat.zero_le i) (lag_iff.1 hi)
    have hρ1 := (c113_factor (phase := phase) hn hμ).2.2 hL
    have hlast := h9 j (by omega)
    rw [hj]
    rcases le_total (4 * energy n e)
        (misfit n dt (lowpass n dt a uin) (lowpass n dt a win) (smp (P j)) * energy n (lowpass n dt a uin)) with hb | hb
    · refine le_max_of_le_left (mul_le_mul_of_nonneg_right ?_ hE0)
      have hdec := h10 j (by omega) hb
      rw [le_div_iff₀ (by linarith)]
      set x := misfit n dt (lowpass n dt a uin) (lowpass n dt a win) (smp (P j))
      set y := misfit n dt (lowpass n dt a uin) (lowpass n dt a win) (smp (P (j + 1)))
      set ρ := noisyDecay n dt a win phase μ
      have h1 : y * (1 - ρ) ≤ x * (1 - ρ) := mul_le_mul_of_nonneg_right hlast (by linarith)
      nlinarith
    · exact le_max_of_le_right ((mul_le_mul_of_nonneg_right hlast hE0).trans hb)

end

/-- **C113** (limit) With `minderr = 0` and enough iterations the summed squared error is at most nine times the energy
of the noise over `dt²` and the smallest power of the denominator. -/
theorem c113_limit {uin win : List ℝ} {dt preonset a : ℝ} {phase : String} {q e : Nat → ℝ} {μ : ℝ}
    (hq : NoisyRF uin win dt phase q e) (hμ : PowerAtLeast (nextPow2 uin.length) dt a win μ)
    (hcos : Real.cos (2 * Real.pi * (pyInt (preonset / dt) : ℝ) / nextPow2 uin.length) ≠ 0)
    (he : 0 < energy (nextPow2 uin.length) e) :
    ∃ N, ∀ itmax ≥ N, ∀ (R : IterResult) (rf : List ℝ),
      deconv_iterative uin win dt none preonset a itmax 0 phase = .ok R → R.rf = some rf →
      ∑ m ∈ range uin.length, (smp rf m - idealRF (nextPow2 uin.length) dt a preonset q m) ^ 2 ≤
        9 * energy (nextPow2 uin.length) e / (dt ^ 2 * μ) := by
  have hn : 0 < nextPow2 uin.length := nextPow2_gt (noisyRF_pos hq)
  obtain ⟨hρ0, hρ1, hρ2⟩ := c113_factor (phase := phase) hn hμ
  have hE0 := energy_nonneg (nextPow2 uin.length) (lowpass (nextPow2 uin.length) dt a uin)
  set E := energy (nextPow2 uin.length) (lowpass (nextPow2 uin.length) dt a uin) with hEd
  set F := energy (nextPow2 uin.length) e with hF
  have hd : 0 ≤ dt ^ 2 * μ := mul_nonneg (sq_nonneg _) hμ.1.le
  have hfin : ∀ x ≤ 4 * F, (√x + √F) ^ 2 / (dt ^ 2 * μ) ≤ 9 * F / (dt ^ 2 * μ) := by
    intro x hx
    refine div_le_div_of_nonneg_right ?_ hd
    have h1 : √x ≤ 2 * √F := by
      rw [show 2 * √F = √(4 * F) by
        rw [Real.sqrt_mul (by norm_num), show (4 : ℝ) = 2 ^ 2 by norm_num, Real.sqrt_sq (by norm_num)]]
      exact Real.sqrt_le_sqrt hx
    have h2 := Real.sq_sqrt he.le
    have h3 := Real.sqrt_nonneg x
    nlinarith [Real.sqrt_nonneg F]
  obtain ⟨N, hN⟩ : ∃ N, 1 ≤ N ∧ (0 < lags (nextPow2 uin.length) phase →
      noisyDecay (nextPow2 uin.length) dt a win phase μ ^ N * E ≤ 4 * F) := by
    rcases Nat.eq_zero_or_pos (lags (nextPow2 uin.length) phase) with h0 | hL
    · exact ⟨1, le_rfl, fun h => by omega⟩
    · obtain ⟨N, hN⟩ := exists_pow_lt_of_lt_one (show 0 < 4 * F / (E + 1) by positivity) (hρ2 hL)
      refine ⟨N + 1, by omega, fun _ => ?_⟩
      have h1 : noisyDecay (nextPow2 uin.length) dt a win phase μ ^ (N + 1) ≤ 4 * F / (E + 1) :=
        (pow_le_pow_of_le_one hρ0 hρ1 (by omega)).trans hN.le
      calc _ ≤ 4 * F / (E + 1) * E := mul_le_mul_of_nonneg_right h1 hE0
        _ ≤ 4 * F := by
          rw [div_mul_eq_mul_div, div_le_iff₀ (by positivity)]
          nlinarith
  refine ⟨N, fun itmax hi R rf h hrf => ?_⟩
  rcases lt_or_ge R.it itmax with hlt | hge
  · have := c113_stopped h (Or.inl rfl) le_rfl hrf hq hμ hcos hlt
    simp only [zero_div, zero_mul] at this
    exact this.trans (hfin _ (max_le (by positivity) le_rfl))
  · have hrec := c113_recovers h (Or.inl rfl) le_rfl hrf hq hμ hcos
    refine hrec.trans (hfin _ (max_le ?_ le_rfl))
    have hL : 0 < lags (nextPow2 uin.length) phase := by
      obtain ⟨P, hg, -⟩ := noise_core h (Or.inl rfl) le_rfl hrf hq hμ
      obtain ⟨i, -, hl, -⟩ := hg.spike 0 (by omega)
      exact lt_of_le_of_lt (Nat.zero_le i) (lag_iff.1 hl)
    refine le_trans ?_ (hN.2 hL)
    exact mul_le_mul_of_nonneg_right (pow_le_pow_of_le_one hρ0 hρ1 (by omega)) hE0

/-! ## water level -/

theorem parsevalC {n : Nat} (hn : 0 < n) (x : Nat → ℂ) :
    ∑ k ∈ range n, ‖dft n x k‖ ^ 2 = n * ∑ m ∈ range n, ‖x m‖ ^ 2 := by
  have h := idft_mul_conj hn x x 0
  have hnC : (n : ℂ) ≠ 0 := by exact_mod_cast hn.ne'
  unfold idft at h
  rw [div_eq_iff hnC] at h
  have e1 : ∀ k ∈ range n, dft n x k * (starRingEnd ℂ) (dft n x k)
      * W n ((0 : ℕ) * k) = ((‖dft n x k‖ ^ 2 : ℝ) : ℂ) := by
    intro k _
    rw [mul_conj_norm, Nat.cast_zero, zero_mul, W_zero, mul_one]
  rw [sum_congr rfl e1] at h
  have e2 : ∀ j ∈ range n, (starRingEnd ℂ) (x j) * (x (cyc n (((0 : ℕ) : ℤ) + j)))
      = ((‖x j‖ ^ 2 : ℝ) : ℂ) := by
    intro j hj
    rw [Nat.cast_zero, zero_add, cyc_of_lt (mem_range.1 hj), mul_comm, mul_conj_norm]
  rw [sum_congr rfl e2] at h
  have h' : ((∑ k ∈ range n, ‖dft n x k‖ ^ 2 : ℝ) : ℂ) = ((n * ∑ m ∈ range n, ‖x m‖ ^ 2 : ℝ) : ℂ) := by
    push_cast at h ⊢
    rw [h]; ring
  exact_mod_cast h'

theorem idft_energy {n : Nat} (hn : 0 < n) (X : Nat → ℂ) :
    ∑ m ∈ range n, ‖idft n X m‖ ^ 2 = (∑ k ∈ range n, ‖X k‖ ^ 2) / n := by
  have hnR : (n : ℝ) ≠ 0 := by exact_mod_cast hn.ne'
  rw [eq_div_iff hnR, mul_comm, ← parsevalC hn]
  exact sum_congr rfl (fun k hk => by rw [dft_idft X (mem_range.1 hk)])

/-- the filtered, shifted water-level quotient in the time domain -/
noncomputable def waterOut (n : Nat) (dt a preonset φ : ℝ) (V U : Nat → ℂ) (m : Nat) : ℝ :=
  (idft n (fun k => ((gaussResponse dt n a k / dt : ℝ) : ℂ) * waterQuot φ (U k) (V k)
    * Complex.exp (-Complex.I * (omega dt n k * preonset : ℝ))) m).re

theorem waterOut_lin (n : Nat) (dt a preonset φ : ℝ) (V U1 U2 : Nat → ℂ) (α β : ℝ) (m : Nat) :
    waterOut n dt a preonset φ V (fun k => α * U1 k + β * U2 k) m =
      α * waterOut n dt a preonset φ V U1 m + β * waterOut n dt a preonset φ V U2 m := by
  unfold waterOut
  have e : ∀ k, ((gaussResponse dt n a k / dt : ℝ) : ℂ) * waterQuot φ (α * U1 k + β * U2 k) (V k)
        * Complex.exp (-Complex.I * (omega dt n k * preonset : ℝ)) =
      (α : ℂ) * (((gaussResponse dt n a k / dt : ℝ) : ℂ) * waterQuot φ (U1 k) (V k)
        * Complex.exp (-Complex.I * (omega dt n k * preonset : ℝ))) +
      (β : ℂ) * (((gaussResponse dt n a k / dt : ℝ) : ℂ) * waterQuot φ (U2 k) (V k)
        * Complex.exp (-Complex.I * (omega dt n k * preonset : ℝ))) := by
    intro k
    unfold waterQuot
    ring
  rw [idft_congr (fun k _ => e k), idft_add, idft_smul, idft_smul, Complex.add_re, Complex.re_ofReal_mul,
    Complex.re_ofReal_mul]

theorem waterOut_energy {n : Nat} (hn : 0 < n) {dt : ℝ} (hdt : dt ≠ 0) (a preonset : ℝ) {φ : ℝ} (hφ : 0 < φ)
    (V U : Nat → ℂ) :
    ∑ m ∈ range n, waterOut n dt a preonset φ V U m ^ 2 ≤
      (∑ k ∈ range n, ‖U k‖ ^ 2) / n / (dt ^ 2 * φ) := by
  have hnR : (0 : ℝ) < n := by exact_mod_cast hn
  have hd : 0 < dt ^ 2 := by positivity
  have h1 : ∑ m ∈ range n, waterOut n dt a preonset φ V U m ^ 2 ≤
      ∑ m ∈ range n, ‖idft n (fun k => ((gaussResponse dt n a k / dt : ℝ) : ℂ) * waterQuot φ (U k) (V k)
        * Complex.exp (-Complex.I * (omega dt n k * preonset : ℝ))) m‖ ^ 2 := by
    apply sum_le_sum
    intro m _
    rw [← sq_abs]
    exact pow_le_pow_left₀ (abs_nonneg _) (Complex.abs_re_le_norm _) 2
  refine h1.trans ?_
  rw [idft_energy hn, div_div, mul_comm (n : ℝ), ← div_div]
  refine div_le_div_of_nonneg_right ?_ hnR.le
  rw [sum_div]
  apply sum_le_sum
  intro k _
  have e1 : ‖Complex.exp (-Complex.I * (omega dt n k * preonset : ℝ))‖ = 1 := by
    have := Complex.norm_exp_ofReal_mul_I (-(omega dt n k * preonset))
    rw [← this]
    congr 2
    push_cast; ring
  rw [norm_mul, norm_mul, e1, mul_one, Complex.norm_real, Real.norm_eq_abs, mul_pow, sq_abs]
  have hG0 : 0 ≤ gaussResponse dt n a k := (Real.exp_pos _).le
  have hG1 : gaussResponse dt n a k ≤ 1 := by
    unfold gaussResponse
    apply Real.exp_le_one_iff.2
    have := sq_nonneg (2 * Real.pi * ((min k (n - k) : ℕ) : ℝ) / (n * dt) / (2 * a))
    linarith
  have hG : (gaussResponse dt n a k / dt) ^ 2 ≤ 1 / dt ^ 2 := by
    rw [div_pow]
    exact div_le_div_of_nonneg_right (by nlinarith) hd.le
  have hq : ‖waterQuot φ (U k) (V k)‖ ^ 2 ≤ ‖U k‖ ^ 2 / φ := by
    unfold waterQuot
    rw [norm_div, norm_mul, RCLike.norm_conj, Complex.norm_real, Real.norm_eq_abs]
    have hmx : 0 < max (‖V k‖ ^ 2) φ := lt_max_of_lt_right hφ
    rw [abs_of_pos hmx, div_pow, mul_pow, div_le_div_iff₀ (by positivity) hφ, mul_assoc]
    apply mul_le_mul_of_nonneg_left _ (sq_nonneg _)
    rw [pow_two (max _ _)]
    exact mul_le_mul (le_max_left _ _) (le_max_right _ _) hφ.le hmx.le
  calc _ ≤ 1 / dt ^ 2 * (‖U k‖ ^ 2 / φ) := mul_le_mul hG hq (sq_nonneg _) (by positivity)
    _ = _ := by field_simp

theorem maxPower_unique {n : Nat} {X : Nat → ℂ} {d d' : ℝ} (h : IsMaxPower n X d) (h' : IsMaxPower n X d') :
    d = d' := by
  obtain ⟨⟨i, hi, ei⟩, hle⟩ := h
  obtain ⟨⟨j, hj, ej⟩, hle'⟩ := h'
  apply le_antisymm
  · rw [ei]; exact hle' i hi
  · rw [ej]; exact hle j hj

theorem spectrum_lin {n : Nat} {x y z : List ℝ} {α β : ℝ} (h : ∀ m < n, smp z m = α * smp x m + β * smp y m)
    (k : Nat) : traceSpectrum n z k = α * traceSpectrum n x k + β * traceSpectrum n y k := by
  unfold traceSpectrum dft
  rw [mul_sum, mul_sum, ← sum_add_distrib]
  apply sum_congr rfl
  intro m hm
  rw [h m (mem_range.1 hm)]
  push_cast; ring

section
variable {u1 u2 u win : List ℝ} {dt preonset wlevel a : ℝ} {normalize : Bool} {r1 r2 r : List ℝ} {e1 e2 e3 : ℝ}

/-- **C113** (water level) Water-level deconvolution is linear in the numerator. -/
theorem c113_water_linear (h1 : deconv_waterlevel u1 win dt preonset wlevel a normalize = .ok (r1, e1))
    (h2 : deconv_waterlevel u2 win dt preonset wlevel a normalize = .ok (r2, e2))
    (h : deconv_waterlevel u win dt preonset wlevel a normalize = .ok (r, e3)) {α β : ℝ}
    (hu : ∀ m, smp u m = α * smp u1 m + β * smp u2 m) :
    ∀ m, smp r m = α * smp r1 m + β * smp r2 m := by
  obtain ⟨l1, hdt, ⟨k, hk, hn⟩, d1, a1, b1, c1, -⟩ := water_master h1
  obtain ⟨l2, -, -, d2, a2, b2, c2, -⟩ := water_master h2
  obtain ⟨l3, -, -, d3, a3, b3, c3, -⟩ := water_master h
  have k1 : u1.length = u.length := by rw [l1, l3]
  have k2 : u2.length = u.length := by rw [l2, l3]
  rw [k1] at a1 b1 c1
  rw [k2] at a2 b2 c2
  rw [maxPower_unique a1 a3] at c1
  rw [maxPower_unique a2 a3] at c2
  intro m
  by_cases hm : m < u.length
  · rw [c1 m hm, c2 m hm, c3 m hm]
    have hl := waterOut_lin (nextPow2 u.length) dt a preonset (wlevel * d3) (traceSpectrum (nextPow2 u.length) win)
      (traceSpectrum (nextPow2 u.length) u1) (traceSpectrum (nextPow2 u.length) u2) α β m
    unfold waterOut at hl
    rw [idft_congr (fun k _ => by rw [spectrum_lin (fun m _ => hu m) k]), hl]
    ring
  · have z : ∀ x : List ℝ, x.length = u.length → smp x m = 0 := fun x hx => getD_of_le (by omega)
    rw [z r b3, z r1 b1, z r2 b2]; ring

/-- **C113** (water level) Noise in the numerator changes the receiver function by no more than its energy over `dt²`
and the water level. -/
theorem c113_water_noise (h1 : deconv_waterlevel u1 win dt preonset wlevel a false = .ok (r1, e1))
    (h2 : deconv_waterlevel u2 win dt preonset wlevel a false = .ok (r2, e2))
    (hw : 0 < wlevel) {d : ℝ} (hd : IsMaxPower (nextPow2 win.length)
      (traceSpectrum (nextPow2 win.length) win) d) (hd0 : 0 < d) :
    ∑ m ∈ range win.length, (smp r1 m - smp r2 m) ^ 2 ≤
      (∑ m ∈ range win.length, (smp u1 m - smp u2 m) ^ 2) / (dt ^ 2 * (wlevel * d)) := by
  obtain ⟨l1, hdt, ⟨k, hk, hn⟩, d1, a1, b1, c1, -⟩ := water_master h1
  obtain ⟨l2, -, -, d2, a2, b2, c2, -⟩ := water_master h2
  rw [l1] at a1 b1 c1 hn
  rw [l2] at a2 b2 c2
  rw [maxPower_unique a1 hd] at c1
  rw [maxPower_unique a2 hd] at c2
  set n := nextPow2 win.length with hnd
  have hn0 : 0 < n := by omega
  have hnR : (0 : ℝ) < n := by exact_mod_cast hn0
  set U : Nat → ℂ := fun k => ((1 : ℝ) : ℂ) * traceSpectrum n u1 k + ((-1 : ℝ) : ℂ) * traceSpectrum n u2 k with hU
  have hout : ∀ m < win.length, smp r1 m - smp r2 m =
      waterOut n dt a preonset (wlevel * d) (traceSpectrum n win) U m := by
    intro m hm
    rw [hU, waterOut_lin, c1 m hm, c2 m hm]
    simp only [Bool.false_eq_true, if_false, div_one]
    unfold waterOut
    ring
  have hen := waterOut_energy hn0 hdt a preonset (mul_pos hw hd0) (traceSpectrum n win) U
  have hsp : (∑ k ∈ range n, ‖U k‖ ^ 2) / n = ∑ m ∈ range win.length, (smp u1 m - smp u2 m) ^ 2 := by
    have hUk : ∀ k, U k = rdft n (fun m => smp u1 m - smp u2 m) k := by
      intro k
      rw [hU]
      unfold rdft traceSpectrum dft
      simp only
      rw [mul_sum, mul_sum, ← sum_add_distrib]
      apply sum_congr rfl
      intro m _
      push_cast; ring
    rw [sum_congr rfl (fun k _ => by rw [hUk k]), parseval hn0, mul_div_cancel_left₀ _ hnR.ne']
    unfold energy
    symm
    apply sum_subset (range_subset_range.2 (le_nextPow2 _))
    intro m _ hm
    have : win.length ≤ m := by rw [mem_range] at hm; omega
    have z1 : smp u1 m = 0 := getD_of_le (by omega)
    have z2 : smp u2 m = 0 := getD_of_le (by omega)
    rw [z1, z2]; ring
  rw [hsp] at hen
  refine le_trans ?_ hen
  rw [sum_congr rfl (fun m hm => by rw [hout m (mem_range.1 hm)])]
  exact sum_le_sum_of_subset_of_nonneg (range_subset_range.2 (le_nextPow2 _)) (fun _ _ _ => sq_nonneg _)

/-- the noise-free part, in the frequency domain -/
theorem waterOut_true {n : Nat} (hn : 0 < n) {dt a : ℝ} (hdt : dt ≠ 0) {φ : ℝ} {q w : Nat → ℝ} {s : ℤ}
    (hV : ∀ k < n, rdft n w k ≠ 0 ∧ φ ≤ ‖rdft n w k‖ ^ 2) (m : Nat) :
    waterOut n dt a (s * dt) φ (rdft n w) (fun k => dt * (rdft n q k * rdft n w k)) m =
      cconv n q (gaussPulse dt n a) (cyc n ((m : ℤ) - s)) := by
  have hdtC : (dt : ℂ) ≠ 0 := by exact_mod_cast hdt
  unfold waterOut
  have e : ∀ k < n, ((gaussResponse dt n a k / dt : ℝ) : ℂ)
        * waterQuot φ (dt * (rdft n q k * rdft n w k)) (rdft n w k)
        * Complex.exp (-Complex.I * (omega dt n k * (s * dt) : ℝ))
      = rdft n (cconv n q (gaussPulse dt n a)) k * W n (k * (-s)) := by
    intro k hk
    obtain ⟨hne, hle⟩ := hV k hk
    rw [rdft_cconv hn _ _ hk, rdft_gaussPulse hn hk]
    unfold waterQuot
    rw [max_eq_left hle, ← mul_conj_norm]
    have hc : (starRingEnd ℂ) (rdft n w k) ≠ 0 := by
      rw [Ne, map_eq_zero]; exact hne
    have hph : Complex.exp (-Complex.I * (omega dt n k * (s * dt) : ℝ)) = W n (k * (-s)) := by
      unfold omega
      split
      · unfold W
        congr 1
        push_cast
        field_simp
      · have : W n (k * (-s)) = W n (((k : ℤ) - n) * (-s)) := by
          rw [show ((k : ℤ) - n) * (-s) = k * (-s) + n * s by ring, W_add, W_mul_period hn, mul_one]
        rw [this]
        unfold W
        congr 1
        push_cast
        field_simp
    rw [hph]
    push_cast
    field_simp
  have hsh := idft_dft_shift hn (fun j => (cconv n q (gaussPulse dt n a) j : ℂ)) (-s) m
  rw [idft_congr e]
  unfold rdft
  rw [hsh, ← sub_eq_add_neg, Complex.ofReal_re]

theorem idealRF_int {n : Nat} {dt a : ℝ} (hdt : dt ≠ 0) (s : ℤ) (q : Nat → ℝ) (m : Nat) :
    idealRF n dt a (s * dt) q m = cconv n q (gaussPulse dt n a) (cyc n ((m : ℤ) - s)) := by
  unfold idealRF
  rw [mul_div_cancel_right₀ _ hdt]
  have : pyInt ((s : ℤ) : ℝ) = s := by simp [pyInt]
  rw [this]

/-- spectrum of a noisy numerator -/
theorem spectrum_noise {n : Nat} (hn : 0 < n) {uin win : List ℝ} {dt : ℝ} {q e : Nat → ℝ}
    (h : ∀ m < n, smp uin m = dt * cconv n q (smp win) m + e m) {k : Nat} (hk : k < n) :
    traceSpectrum n uin k = dt * (rdft n q k * traceSpectrum n win k) + rdft n e k := by
  have h1 : traceSpectrum n uin k = dt * rdft n (cconv n q (smp win)) k + rdft n e k := by
    unfold traceSpectrum rdft dft
    rw [mul_sum, ← sum_add_distrib]
    apply sum_congr rfl
    intro m hm
    rw [h m (mem_range.1 hm)]
    push_cast; ring
  rw [h1, rdft_cconv hn _ _ hk]
  rfl

/-- **C113** (water level) If the numerator is the denominator convolved with spikes plus noise, no bin of the
denominator's spectrum is below the water level and `preonset` is a whole number of samples, the receiver function is
the true one, low-pass filtered and shifted, up to an error of energy at most that of the noise over `dt²` and the
water level. -/
theorem c113_water_recovers {q e : Nat → ℝ} {s : ℤ}
    (h : deconv_waterlevel u win dt (s * dt) wlevel a false = .ok (r, e3))
    (hl : NoLevelNeeded win (nextPow2 u.length) wlevel) (hw : 0 < wlevel) {d : ℝ}
    (hd : IsMaxPower (nextPow2 u.length) (traceSpectrum (nextPow2 u.length) win) d)
    (hq : ∀ m < nextPow2 u.length, smp u m = dt * cconv (nextPow2 u.length) q (smp win) m + e m) :
    ∑ m ∈ range u.length, (smp r m - idealRF (nextPow2 u.length) dt a (s * dt) q m) ^ 2 ≤
      energy (nextPow2 u.length) e / (dt ^ 2 * (wlevel * d)) := by
  obtain ⟨l1, hdt, ⟨k, hk, hn⟩, d1, a1, b1, c1, -⟩ := water_master h
  rw [maxPower_unique a1 hd] at c1
  set n := nextPow2 u.length with hnd
  have hn0 : 0 < n := by omega
  have hnR : (0 : ℝ) < n := by exact_mod_cast hn0
  have hd0 : 0 < d := by
    have h0 := (hl d hd 0 hn0).1
    exact lt_of_lt_of_le (by positivity : (0 : ℝ) < ‖traceSpectrum n win 0‖ ^ 2) (hd.2 0 hn0)
  have hout : ∀ m < u.length, smp r m - idealRF n dt a (s * dt) q m =
      waterOut n dt a (s * dt) (wlevel * d) (traceSpectrum n win) (rdft n e) m := by
    intro m hm
    rw [c1 m hm, idealRF_int hdt]
    simp only [Bool.false_eq_true, if_false, div_one]
    rw [idft_congr (fun k hk => by rw [spectrum_noise hn0 hq hk])]
    have hl1 := waterOut_lin n dt a (s * dt) (wlevel * d) (traceSpectrum n win)
      (fun k => dt * (rdft n q k * traceSpectrum n win k)) (rdft n e) 1 1 m
    have hl2 := waterOut_true (a := a) (φ := wlevel * d) (q := q) (w := smp win) (s := s) hn0 hdt
      (fun k hk => hl d hd k hk) m
    have e1 : (rdft n (smp win)) = traceSpectrum n win := rfl
    rw [e1] at hl2
    rw [hl2] at hl1
    simp only [Complex.ofReal_one, one_mul] at hl1
    unfold waterOut at hl1 ⊢
    rw [hl1]
    ring
  have hen := waterOut_energy hn0 hdt a (s * dt) (mul_pos hw hd0) (traceSpectrum n win) (rdft n e)
  rw [parseval hn0, mul_div_cancel_left₀ _ hnR.ne'] at hen
  refine le_trans ?_ hen
  rw [sum_congr rfl (fun m hm => by rw [hout m (mem_range.1 hm)])]
  exact sum_le_sum_of_subset_of_nonneg (range_subset_range.2 (le_nextPow2 _)) (fun _ _ _ => sq_nonneg _)

/-- **C113** (water level, no noise) Then the receiver function is exactly the true one, low-pass filtered and shifted. -/
theorem c113_water_exact {q : Nat → ℝ} {s : ℤ}
    (h : deconv_waterlevel u win dt (s * dt) wlevel a false = .ok (r, e3))
    (hl : NoLevelNeeded win (nextPow2 u.length) wlevel)
    (hq : ∀ m < nextPow2 u.length, smp u m = dt * cconv (nextPow2 u.length) q (smp win) m) :
    ∀ m < u.length, smp r m = idealRF (nextPow2 u.length) dt a (s * dt) q m := by
  obtain ⟨l1, hdt, ⟨k, hk, hn⟩, d, hd, b1, c1, -⟩ := water_master h
  have hn0 : 0 < nextPow2 u.length := by omega
  intro m hm
  rw [c1 m hm, idealRF_int hdt]
  simp only [Bool.false_eq_true, if_false, div_one]
  have hl2 := waterOut_true (a := a) (φ := wlevel * d) (q := q) (w := smp win) (s := s) hn0 hdt
      (fun k hk => hl d hd k hk) m
  unfold waterOut at hl2
  rw [← hl2]
  congr 1
  apply idft_congr
  intro k hk
  have hz : rdft (nextPow2 u.length) (fun _ => (0 : ℝ)) k = 0 := by
    unfold rdft dft; simp
  rw [spectrum_noise (e := fun _ => 0) hn0 (fun m hm => by rw [hq m hm, add_zero]) hk, hz, add_zero]
  rfl

end

/-- The hypotheses of the iterative theorems are met by a two-spike receiver function, an impulsive denominator and
noise in two samples, one of them after the last admissible lag. -/
example : ∃ (uin win : List ℝ) (q e : Nat → ℝ) (μ : ℝ) (R : IterResult) (rf : List ℝ),
    uin = [3, -1, 1/4, 0, 0, 1/8, 0, 0] ∧ win = [1, 0, 0, 0, 0, 0, 0, 0] ∧ q = smp [3, -1] ∧
    NoisyRF uin win 1 "P" q e ∧ PowerAtLeast (nextPow2 uin.length) 1 2 win μ ∧
    deconv_iterative uin win 1 none 0 2 400 0 "P" = .ok R ∧ R.rf = some rf ∧
    Real.cos (2 * Real.pi * (pyInt ((0 : ℝ) / 1) : ℝ) / nextPow2 uin.length) ≠ 0 ∧
    0 < energy (nextPow2 uin.length) e := by
  have hn : nextPow2 8 = 8 := by
    rw [nextPow2_pos (by norm_num)]; decide
  have hset : ([1, 0, 0, 0, 0, 0, 0, 0] : List ℝ) = (List.replicate 8 (0 : ℝ)).set 0 1 := rfl
  obtain ⟨μ, hμ⟩ : ∃ μ, PowerAtLeast 8 1 2 [1, 0, 0, 0, 0, 0, 0, 0] μ := by
    rw [c110_power (by norm_num)]
    intro k _
    unfold traceSpectrum dft
    rw [sum_eq_single 0]
    · simp [smp, W_zero]
    · intro j hj hj0
      rw [hset, smp_set (by simp), if_neg hj0]
      have : smp (List.replicate 8 (0 : ℝ)) j = 0 := by
        unfold smp; simp only [List.getD_eq_getElem?_getD, List.getElem?_replicate]; split <;> rfl
      rw [this]; simp
    · simp
  obtain ⟨R, hR⟩ := c53_total (uin := [3, -1, 1/4, 0, 0, 1/8, 0, 0]) (win := [1, 0, 0, 0, 0, 0, 0, 0]) (dt := 1)
    (preonset := 0) (a := 2) (itmax := 400) (minderr := 0) (phase := "P") rfl (by simp) one_ne_zero
  obtain ⟨rf, hrf⟩ : ∃ rf, R.rf = some rf := by
    cases hr : R.rf with
    | some rf => exact ⟨rf, rfl⟩
    | none =>
      have := ((c53_dead_denominator hR (Or.inl rfl) le_rfl).1 hr).2.2 1 (by simp)
      norm_num at this
  refine ⟨_, _, _, smp [0, 0, 1/4, 0, 0, 1/8], μ, R, rf, rfl, rfl, rfl, ⟨?_, ?_, 3, by simp, by norm_num⟩, ?_, hR,
    hrf, ?_, ?_⟩
  · intro i hi
    simp only [List.length_cons, List.length_nil, Nat.reduceAdd, hn, Lag, not_and, forall_const] at hi
    by_cases h8 : i < 8
    · have h3 : ¬ i < 8 / 2 - 1 := fun h => hi h8 (by simpa using h)
      have : i = 3 ∨ i = 4 ∨ i = 5 ∨ i = 6 ∨ i = 7 := by omega
      rcases this with rfl | rfl | rfl | rfl | rfl <;> rfl
    · unfold smp
      rw [List.getD_eq_getElem?_getD, List.getElem?_eq_none (by simp; omega)]
      rfl
  · intro m hm
    simp only [List.length_cons, List.length_nil, Nat.reduceAdd, hn] at hm ⊢
    rw [cconv_comm (by norm_num), hset, cconv_single (by norm_num)]
    have hc : cyc 8 ((m : ℤ) - (0 : ℕ)) = m := by simp [cyc_of_lt hm]
    rw [hc]
    have : m = 0 ∨ m = 1 ∨ m = 2 ∨ m = 3 ∨ m = 4 ∨ m = 5 ∨ m = 6 ∨ m = 7 := by omega
    rcases this with rfl | rfl | rfl | rfl | rfl | rfl | rfl | rfl <;> simp [smp]
  · simpa [hn] using hμ
  · have : pyInt ((0 : ℝ) / 1) = 0 := by simp [pyInt]
    rw [this]; simp
  · simp only [List.length_cons, List.length_nil, Nat.reduceAdd, hn]
    unfold energy
    simp [sum_range_succ, smp]
    norm_num

/-- The hypotheses of the water-level theorems are met by a noisy numerator and an impulsive denominator. -/
example : ∃ r e3, deconv_waterlevel [3, -1, 1/4] [1, 0, 0] 1 (((1 : ℤ) : ℝ) * 1) (1/20) 2 false = .ok (r, e3) ∧
    NoLevelNeeded [1, 0, 0] (nextPow2 ([3, -1, 1/4] : List ℝ).length) (1/20) ∧
    IsMaxPower (nextPow2 ([3, -1, 1/4] : List ℝ).length)
      (traceSpectrum (nextPow2 ([3, -1, 1/4] : List ℝ).length) [1, 0, 0]) 1 ∧
    ∀ m < nextPow2 ([3, -1, 1/4] : List ℝ).length, smp [3, -1, 1/4] m =
      1 * cconv (nextPow2 ([3, -1, 1/4] : List ℝ).length) (smp [3, -1]) (smp [1, 0, 0]) m + smp [0, 0, 1/4] m := by
  have h4 : nextPow2 ([3, -1, 1/4] : List ℝ).length = 4 := by decide
  obtain ⟨⟨r, e3⟩, h⟩ := c58_total (uin := [3, -1, 1/4]) (win := [1, 0, 0]) (dt := 1)
    (preonset := ((1 : ℤ) : ℝ) * 1) (wlevel := 1/20) (a := 2) (normalize := false) rfl (by simp) (by norm_num)
  have hs : ∀ k, traceSpectrum 4 [1, 0, 0] k = 1 := by
    intro k
    unfold traceSpectrum dft
    simp [sum_range_succ, smp, W_zero]
  refine ⟨r, e3, h, by rw [h4]; exact noLevel_spike, ?_, ?_⟩
  · rw [h4]
    exact ⟨⟨0, by norm_num, by rw [hs]; norm_num⟩, fun k _ => by rw [hs]; norm_num⟩
  · rw [h4]
    intro m hm
    have hw : ∀ j < 4, smp [1, 0, 0] j = smp ((List.replicate 4 (0 : ℝ)).set 0 1) j := by
      intro j hj
      have : j = 0 ∨ j = 1 ∨ j = 2 ∨ j = 3 := by omega
      rcases this with rfl | rfl | rfl | rfl <;> rfl
    rw [cconv_congr (by norm_num) (fun _ _ => rfl) hw, cconv_comm (by norm_num), cconv_single (by norm_num)]
    have hc : cyc 4 ((m : ℤ) - (0 : ℕ)) = m := by simp [cyc_of_lt hm]
    rw [hc]
    have : m = 0 ∨ m = 1 ∨ m = 2 ∨ m = 3 := by omega
    rcases this with rfl | rfl | rfl | rfl <;> simp [smp]

end Rfsed.Props
