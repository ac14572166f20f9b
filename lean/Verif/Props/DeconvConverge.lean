import Verif.Proofs.DeconvConverge
import Verif.Props.Deconv
import Mathlib.Analysis.SpecificLimits.Basic

/-!
# Property C110: iterative deconvolution finds the receiver function
-/

namespace Rfsed.Props
open Rfsed Synrf Spec Finset

/-- The numerator `uin` is the denominator `win` convolved with the spike train `q` (a sum of copies of `win`,
copy `i` delayed by `i` samples and multiplied by `dt q(i)`), and `q` has spikes at admissible lags only: `q` is the
true receiver function. -/
structure TrueRF (uin win : List ℝ) (dt : ℝ) (phase : String) (q : Nat → ℝ) : Prop where
  lags : ∀ i, ¬ Lag (nextPow2 uin.length) phase i → q i = 0
  conv : ∀ m < nextPow2 uin.length, smp uin m = dt * cconv (nextPow2 uin.length) q (smp win) m
  alive : ∃ x ∈ uin, x ≠ 0

/-- after the Gaussian low-pass no frequency of the denominator has less power than `μ` -/
def PowerAtLeast (n : Nat) (dt a : ℝ) (win : List ℝ) (μ : ℝ) : Prop :=
  0 < μ ∧ ∀ k < n, μ ≤ (gaussResponse dt n a k * ‖traceSpectrum n win k‖) ^ 2

/-- the factor by which an iteration reduces the misfit at least: one minus the smallest power over the number of lags
times the energy of the denominator -/
noncomputable def decay (n : Nat) (dt a : ℝ) (win : List ℝ) (phase : String) (μ : ℝ) : ℝ :=
  1 - μ / (lags n phase * energy n (lowpass n dt a win))

/-- what the receiver function should be: the true one, low-pass filtered and delayed by `int(preonset/dt)` samples -/
noncomputable def idealRF (n : Nat) (dt a preonset : ℝ) (q : Nat → ℝ) (m : Nat) : ℝ :=
  cconv n q (gaussPulse dt n a) (cyc n ((m : ℤ) - pyInt (preonset / dt)))

theorem cconv_comm {n : Nat} (hn : 0 < n) (x y : Nat → ℝ) (m : Nat) : cconv n x y m = cconv n y x m := by
  have h1 := idft_conv_real hn x y m
  have h2 := idft_conv_real hn y x m
  rw [idft_congr (Y := fun k => rdft n y k * rdft n x k) (fun k _ => mul_comm _ _), h2] at h1
  exact_mod_cast h1.symm

theorem lowpass_conv {uin win : List ℝ} {dt a : ℝ} {n : Nat} (hn : 0 < n) {q : Nat → ℝ}
    (h : ∀ m < n, smp uin m = dt * cconv n q (smp win) m) :
    ∀ m < n, lowpass n dt a uin m = dt * cconv n q (lowpass n dt a win) m := by
  intro m _
  unfold lowpass
  rw [cconv_congr hn h (fun _ _ => rfl)]
  have e : cconv n (fun m => dt * cconv n q (smp win) m) (gaussPulse dt n a) m =
      dt * cconv n (cconv n q (smp win)) (gaussPulse dt n a) m := by
    unfold cconv
    rw [mul_sum]
    exact sum_congr rfl (fun _ _ => by ring)
  rw [e, cconv_assoc' hn]
  congr 1
  exact cconv_congr hn (fun _ _ => rfl) (fun j _ => cconv_comm hn _ _ j) m

theorem lowpass_power {dt a : ℝ} {n : Nat} (hn : 0 < n) {win : List ℝ} {μ : ℝ}
    (h : PowerAtLeast n dt a win μ) : ∀ k < n, μ ≤ ‖rdft n (lowpass n dt a win) k‖ ^ 2 := by
  intro k hk
  have := h.2 k hk
  unfold lowpass
  rw [rdft_cconv hn _ _ hk, rdft_gaussPulse hn hk, norm_mul, Complex.norm_real, Real.norm_eq_abs,
    abs_of_nonneg (show 0 ≤ gaussResponse dt n a k from (Real.exp_pos _).le), mul_comm]
  exact this

section
variable {uin win : List ℝ} {dt : ℝ} {nt : Option Nat} {preonset a : ℝ} {itmax : Nat}
  {minderr : ℝ} {phase : String} {R : IterResult} {q : Nat → ℝ} {μ : ℝ}

theorem nextPow2_gt {k : Nat} (h : 0 < k) : 0 < nextPow2 k := lt_of_lt_of_le h (le_nextPow2 k)

theorem trueRF_pos (hq : TrueRF uin win dt phase q) : 0 < uin.length := by
  obtain ⟨x, hx, -⟩ := hq.alive
  exact List.length_pos_of_mem hx

theorem trueRF_energy (hq : TrueRF uin win dt phase q) :
    energy (nextPow2 uin.length) (lowpass (nextPow2 uin.length) dt a uin) ≠ 0 := by
  intro hz
  obtain ⟨x, hx, hx0⟩ := hq.alive
  exact hx0 ((cconv_smp_inj (nextPow2_gt (trueRF_pos hq)) (le_nextPow2 _)).1 hz x hx)

/-- **C110** The factor is a number from 0 (inclusive) to 1 (exclusive). -/
theorem c110_factor (hq : TrueRF uin win dt phase q)
    (hμ : PowerAtLeast (nextPow2 uin.length) dt a win μ) :
    0 ≤ decay (nextPow2 uin.length) dt a win phase μ ∧ decay (nextPow2 uin.length) dt a win phase μ < 1 := by
  have hn := nextPow2_gt (trueRF_pos hq)
  have hnR : (0 : ℝ) < nextPow2 uin.length := by exact_mod_cast hn
  have hL : 0 < lags (nextPow2 uin.length) phase := by
    by_contra h0
    have hz : ∀ i, q i = 0 := fun i => hq.lags i (by rw [lag_iff]; omega)
    obtain ⟨x, hx, hx0⟩ := hq.alive
    obtain ⟨i, hi, rfl⟩ := List.getElem_of_mem hx
    apply hx0
    have := hq.conv i (lt_of_lt_of_le hi (le_nextPow2 _))
    unfold smp at this
    rw [getD_of_lt hi] at this
    rw [this]
    unfold cconv
    simp [hz]
  have hLR : (1 : ℝ) ≤ lags (nextPow2 uin.length) phase := by exact_mod_cast hL
  have hE : μ ≤ energy (nextPow2 uin.length) (lowpass (nextPow2 uin.length) dt a win) := by
    have h1 := parseval hn (lowpass (nextPow2 uin.length) dt a win)
    have h2 := sum_le_sum (s := range (nextPow2 uin.length))
      (fun k hk => lowpass_power hn hμ k (mem_range.1 hk))
    rw [h1, sum_const, card_range, nsmul_eq_mul] at h2
    exact le_of_mul_le_mul_left h2 hnR
  have hEpos := lt_of_lt_of_le hμ.1 hE
  unfold decay
  have hden : 0 < (lags (nextPow2 uin.length) phase : ℝ) *
      energy (nextPow2 uin.length) (lowpass (nextPow2 uin.length) dt a win) := by positivity
  constructor
  · rw [sub_nonneg, div_le_one hden]
    nlinarith
  · have := div_pos hμ.1 hden
    linarith

/-- an error in the spike train makes no larger an error in the receiver function -/
theorem rf_error {n len : Nat} (hn : 0 < n) (hlen : len ≤ n) {dt a preonset : ℝ} {rf p : List ℝ}
    (h10 : ∀ m < len, smp rf m = cconv n (smp p) (gaussPulse dt n a) (cyc n ((m : ℤ) - pyInt (preonset / dt))))
    (q : Nat → ℝ) :
    ∑ m ∈ range len, (smp rf m - idealRF n dt a preonset q m) ^ 2 ≤ energy n (fun i => smp p i - q i) := by
  have hup : energy n (cconv n (fun i => smp p i - q i) (gaussPulse dt n a)) ≤
      1 * energy n (fun i => smp p i - q i) := by
    apply frame_upper hn
    intro k hk
    rw [rdft_gaussPulse hn hk, Complex.norm_real, Real.norm_eq_abs, sq_abs]
    unfold gaussResponse
    rw [sq_le_one_iff₀ (Real.exp_pos _).le]
    exact Real.exp_le_one_iff.2 (by
      have := sq_nonneg (2 * Real.pi * ((min k (n - k) : ℕ) : ℝ) / (n * dt) / (2 * a))
      linarith)
  rw [one_mul] at hup
  refine le_trans ?_ hup
  have e : ∀ m ∈ range len, (smp rf m - idealRF n dt a preonset q m) ^ 2 =
      cconv n (fun i => smp p i - q i) (gaussPulse dt n a)
        (cyc n ((m : ℤ) + (-pyInt (preonset / dt)))) ^ 2 := by
    intro m hm
    rw [h10 m (mem_range.1 hm)]
    unfold idealRF
    rw [← sub_eq_add_neg]
    congr 1
    unfold cconv
    rw [← sum_sub_distrib]
    exact sum_congr rfl (fun _ _ => by ring)
  rw [sum_congr rfl e]
  have hall := sum_cyc_add hn (-pyInt (preonset / dt))
    (fun m => cconv n (fun i => smp p i - q i) (gaussPulse dt n a) m ^ 2)
  unfold energy
  rw [← hall]
  exact sum_le_sum_of_subset_of_nonneg (range_subset_range.2 hlen)
    (fun _ _ _ => sq_nonneg _)

/-- the run behind a result, with the geometric decay -/
theorem converge_core (h : deconv_iterative uin win dt nt preonset a itmax minderr phase = .ok R)
    (hnt : nt = none ∨ nt = some uin.length) (hm : 0 ≤ minderr) {rf : List ℝ} (hrf : R.rf = some rf)
    (hq : TrueRF uin win dt phase q) (hμ : PowerAtLeast (nextPow2 uin.length) dt a win μ) :
    let n := nextPow2 uin.length
    let u := lowpass n dt a uin
    let w := lowpass n dt a win
    let ρ := decay n dt a win phase μ
    ∃ P, GreedyRun n dt u w phase minderr itmax R.it P ∧
      (∀ j, j + 1 < R.it → R.rms[j]? = some (misfit n dt u w (smp (P (j + 1))))) ∧
      (∀ j < R.it, misfit n dt u w (smp (P (j + 1))) ≤ ρ * misfit n dt u w (smp (P j))) ∧
      (∀ j ≤ R.it, misfit n dt u w (smp (P j)) ≤ ρ ^ j) ∧
      (Real.cos (2 * Real.pi * (pyInt (preonset / dt) : ℝ) / n) ≠ 0 →
        ∑ m ∈ range uin.length, (smp rf m - idealRF n dt a preonset q m) ^ 2 ≤
          misfit n dt u w (smp (P R.it)) * energy n u / (dt ^ 2 * μ)) := by
  intro n u w ρ
  have hn : 0 < n := nextPow2_gt (trueRF_pos hq)
  have hnt' : nt.getD uin.length = uin.length := by rcases hnt with rfl | rfl <;> rfl
  obtain ⟨hdt, -⟩ := deconv_master h hnt'
  obtain ⟨P, hg, h8, h9⟩ := c54_greedy h hnt hm hrf
  have hE : energy n u ≠ 0 := trueRF_energy hq
  have hcv := lowpass_conv (a := a) hn hq.conv
  have hpw := lowpass_power hn hμ
  have hdec := greedyRun_decay hn hdt hμ.1 hpw hq.lags hcv hg
  have hρ := c110_factor hq hμ
  refine ⟨P, hg, h8, hdec, ?_, ?_⟩
  · intro j
    induction j with
    | zero =>
      intro _
      rw [hg.start, pow_zero]
      exact le_of_eq (misfit_start hE)
    | succ j ih =>
      intro hj
      calc _ ≤ ρ * misfit n dt u w (smp (P j)) := hdec j (by omega)
        _ ≤ ρ * ρ ^ j := mul_le_mul_of_nonneg_left (ih (by omega)) hρ.1
        _ = ρ ^ (j + 1) := by ring
  · intro hcos
    have h10 := h9 hcos
    have hte := train_error hn hdt hμ.1 hpw hcv hE (smp (P R.it))
    exact (rf_error hn (le_nextPow2 _) h10 q).trans hte

/-- **C110** If the numerator is the denominator convolved with spikes at admissible lags and the (low-passed)
denominator has power at all frequencies, the misfits returned fall at least geometrically. -/
theorem c110_misfits (h : deconv_iterative uin win dt nt preonset a itmax minderr phase = .ok R)
    (hnt : nt = none ∨ nt = some uin.length) (hm : 0 ≤ minderr) {rf : List ℝ} (hrf : R.rf = some rf)
    (hq : TrueRF uin win dt phase q) (hμ : PowerAtLeast (nextPow2 uin.length) dt a win μ) :
    ∀ (j : Nat) (r : ℝ), R.rms[j]? = some r → r ≤ decay (nextPow2 uin.length) dt a win phase μ ^ (j + 1) := by
  intro j r hr
  obtain ⟨P, hg, h8, -, h10, -⟩ := converge_core h hnt hm hrf hq hμ
  have hl := (c53_work h hnt).2.1
  have hit : 1 ≤ R.it := by
    by_contra h0
    have h0 : R.it = 0 := by omega
    have hd := (c53_dead_numerator h hnt hm).1 h0
    rcases hd with hd | hd
    · have := (c53_work h hnt).2.2.1 h0
      rw [this, hd] at hr
      simp at hr
    · obtain ⟨x, hx, hx0⟩ := hq.alive
      exact hx0 (hd x hx)
  have hlen := hl hit
  have hj : j < R.rms.length := (List.getElem?_eq_some_iff.1 hr).1
  rw [h8 j (by omega)] at hr
  rw [← Option.some.inj hr]
  exact h10 (j + 1) (by omega)

/-- **C110** (recovery) The receiver function returned differs from the true one, low-pass filtered and shifted, by at
most what is left after `it` reductions; in the sense of the sum of squares. -/
theorem c110_recovers (h : deconv_iterative uin win dt nt preonset a itmax minderr phase = .ok R)
    (hnt : nt = none ∨ nt = some uin.length) (hm : 0 ≤ minderr) {rf : List ℝ} (hrf : R.rf = some rf)
    (hq : TrueRF uin win dt phase q) (hμ : PowerAtLeast (nextPow2 uin.length) dt a win μ)
    (hcos : Real.cos (2 * Real.pi * (pyInt (preonset / dt) : ℝ) / nextPow2 uin.length) ≠ 0) :
    let n := nextPow2 uin.length
    ∑ m ∈ range uin.length, (smp rf m - idealRF n dt a preonset q m) ^ 2 ≤
      decay n dt a win phase μ ^ R.it * energy n (lowpass n dt a uin) / (dt ^ 2 * μ) := by
  intro n
  obtain ⟨P, hg, h8, -, h10, h11⟩ := converge_core h hnt hm hrf hq hμ
  refine (h11 hcos).trans ?_
  have hd : 0 ≤ dt ^ 2 * μ := mul_nonneg (sq_nonneg _) hμ.1.le
  exact div_le_div_of_nonneg_right
    (mul_le_mul_of_nonneg_right (h10 R.it le_rfl) (energy_nonneg _ _)) hd

/-- **C110** (stopping rule) If the iterations ended because the last one improved the misfit by at most `minderr` per
cent, the error is at most proportional to `minderr`. -/
theorem c110_stopped (h : deconv_iterative uin win dt nt preonset a itmax minderr phase = .ok R)
    (hnt : nt = none ∨ nt = some uin.length) (hm : 0 ≤ minderr) {rf : List ℝ} (hrf : R.rf = some rf)
    (hq : TrueRF uin win dt phase q) (hμ : PowerAtLeast (nextPow2 uin.length) dt a win μ)
    (hcos : Real.cos (2 * Real.pi * (pyInt (preonset / dt) : ℝ) / nextPow2 uin.length) ≠ 0)
    (hit : R.it < itmax) :
    let n := nextPow2 uin.length
    ∑ m ∈ range uin.length, (smp rf m - idealRF n dt a preonset q m) ^ 2 ≤
      minderr / 100 / (1 - decay n dt a win phase μ) * energy n (lowpass n dt a uin) / (dt ^ 2 * μ) := by
  intro n
  obtain ⟨P, hg, h8, hdec, h10, h11⟩ := converge_core h hnt hm hrf hq hμ
  obtain ⟨hρ0, hρ1⟩ := c110_factor hq hμ
  refine (h11 hcos).trans ?_
  have hd : 0 ≤ dt ^ 2 * μ := mul_nonneg (sq_nonneg _) hμ.1.le
  refine div_le_div_of_nonneg_right (mul_le_mul_of_nonneg_right ?_ (energy_nonneg _ _)) hd
  rcases hg.stop with hs | ⟨-, hs⟩ | ⟨j, hj, hs⟩
  · omega
  · exact absurd hs (trueRF_energy hq)
  · have hlast := hdec j (by omega)
    rw [hj]
    have hnn := misfit_nonneg n dt (lowpass n dt a uin) (lowpass n dt a win) (smp (P j))
    rw [le_div_iff₀ (by linarith)]
    set x := misfit n dt (lowpass n dt a uin) (lowpass n dt a win) (smp (P j))
    set y := misfit n dt (lowpass n dt a uin) (lowpass n dt a win) (smp (P (j + 1)))
    set ρ := decay n dt a win phase μ
    -- `y ≤ ρ x`, `100 (x - y) ≤ minderr`
    have h1 : y * (1 - ρ) ≤ x * (1 - ρ) := by
      apply mul_le_mul_of_nonneg_right _ (by linarith)
      nlinarith
    nlinarith

end

/-- **C110** (limit) With `minderr = 0` the true receiver function is found to any accuracy if enough iterations are
allowed. -/
theorem c110_limit {uin win : List ℝ} {dt preonset a : ℝ} {phase : String} {q : Nat → ℝ} {μ : ℝ}
    (hq : TrueRF uin win dt phase q) (hμ : PowerAtLeast (nextPow2 uin.length) dt a win μ)
    (hcos : Real.cos (2 * Real.pi * (pyInt (preonset / dt) : ℝ) / nextPow2 uin.length) ≠ 0)
    {ε : ℝ} (hε : 0 < ε) :
    ∃ N, ∀ itmax ≥ N, ∀ (R : IterResult) (rf : List ℝ),
      deconv_iterative uin win dt none preonset a itmax 0 phase = .ok R → R.rf = some rf →
      ∑ m ∈ range uin.length, (smp rf m - idealRF (nextPow2 uin.length) dt a preonset q m) ^ 2 ≤ ε := by
  obtain ⟨hρ0, hρ1⟩ := c110_factor hq hμ
  set C := energy (nextPow2 uin.length) (lowpass (nextPow2 uin.length) dt a uin) / (dt ^ 2 * μ) with hC
  have hC0 : 0 ≤ C := div_nonneg (energy_nonneg _ _) (mul_nonneg (sq_nonneg _) hμ.1.le)
  obtain ⟨N, hN⟩ := exists_pow_lt_of_lt_one (show 0 < ε / (C + 1) by positivity) hρ1
  refine ⟨N, fun itmax hi R rf h hrf => ?_⟩
  rcases lt_or_ge R.it itmax with hlt | hge
  · have := c110_stopped h (Or.inl rfl) le_rfl hrf hq hμ hcos hlt
    simp only [zero_div, zero_mul] at this
    exact this.trans hε.le
  · have := c110_recovers h (Or.inl rfl) le_rfl hrf hq hμ hcos
    simp only at this
    rw [mul_div_assoc, ← hC] at this
    refine this.trans ?_
    have h1 : decay (nextPow2 uin.length) dt a win phase μ ^ R.it ≤
        decay (nextPow2 uin.length) dt a win phase μ ^ N := pow_le_pow_of_le_one hρ0 hρ1.le (by omega)
    calc _ ≤ ε / (C + 1) * C := mul_le_mul_of_nonneg_right (h1.trans hN.le) hC0
      _ ≤ ε := by
        rw [div_mul_eq_mul_div, div_le_iff₀ (by positivity)]
        nlinarith

/-- **C110** The denominator has power at all frequencies exactly if no bin of its spectrum is zero. -/
theorem c110_power {n : Nat} (hn : 0 < n) (dt a : ℝ) (win : List ℝ) :
    (∃ μ, PowerAtLeast n dt a win μ) ↔ ∀ k < n, traceSpectrum n win k ≠ 0 := by
  have hg : ∀ k, 0 < gaussResponse dt n a k := fun k => Real.exp_pos _
  constructor
  · rintro ⟨μ, h0, h⟩ k hk hz
    have := h k hk
    rw [hz, norm_zero, mul_zero] at this
    norm_num at this
    linarith
  · intro h
    obtain ⟨k0, hk0, hmin⟩ := exists_min_image (range n)
      (fun k => (gaussResponse dt n a k * ‖traceSpectrum n win k‖) ^ 2) ⟨0, mem_range.2 hn⟩
    refine ⟨_, ?_, fun k hk => hmin k (mem_range.2 hk)⟩
    exact pow_pos (mul_pos (hg k0) (norm_pos_iff.2 (h k0 (mem_range.1 hk0)))) 2

/-- The hypotheses are met by a two-spike receiver function and an impulsive denominator. -/
example : ∃ (uin win : List ℝ) (μ : ℝ) (R : IterResult) (rf : List ℝ),
    uin = [3, -1, 0, 0, 0, 0, 0, 0] ∧ win = [1, 0, 0, 0, 0, 0, 0, 0] ∧
    TrueRF uin win 1 "P" (smp uin) ∧ PowerAtLeast (nextPow2 uin.length) 1 2 win μ ∧
    deconv_iterative uin win 1 none 0 2 400 0 "P" = .ok R ∧ R.rf = some rf ∧
    Real.cos (2 * Real.pi * (pyInt ((0 : ℝ) / 1) : ℝ) / nextPow2 uin.length) ≠ 0 := by
  have hn : nextPow2 8 = 8 := by
    rw [nextPow2_pos (by norm_num)]; decide
  have hset : ([1, 0, 0, 0, 0, 0, 0, 0] : List ℝ) = (List.replicate 8 (0 : ℝ)).set 0 1 := rfl
  obtain ⟨μ, hμ⟩ : ∃ μ, PowerAtLeast 8 1 2 [1, 0, 0, 0, 0, 0, 0, 0] μ := by
    rw [c110_power (by norm_num)]
    intro k _
    unfold traceSpectrum dft
    rw [sum_eq_single 0]
    · simp [smp, W_zero]
    · intro j hj hj0
      rw [hset, smp_set (by simp), if_neg hj0]
      have : smp (List.replicate 8 (0 : ℝ)) j = 0 := by
        unfold smp; simp only [List.getD_eq_getElem?_getD, List.getElem?_replicate]; split <;> rfl
      rw [this]; simp
    · simp
  obtain ⟨R, hR⟩ := c53_total (uin := [3, -1, 0, 0, 0, 0, 0, 0]) (win := [1, 0, 0, 0, 0, 0, 0, 0]) (dt := 1)
    (preonset := 0) (a := 2) (itmax := 400) (minderr := 0) (phase := "P") rfl (by simp) one_ne_zero
  obtain ⟨rf, hrf⟩ : ∃ rf, R.rf = some rf := by
    cases hr : R.rf with
    | some rf => exact ⟨rf, rfl⟩
    | none =>
      have := ((c53_dead_denominator hR (Or.inl rfl) le_rfl).1 hr).2.2 1 (by simp)
      norm_num at this
  refine ⟨_, _, μ, R, rf, rfl, rfl, ⟨?_, ?_, 3, by simp, by norm_num⟩, ?_, hR, hrf, ?_⟩
  · intro i hi
    simp only [List.length_cons, List.length_nil, Nat.reduceAdd, hn, Lag, not_and, forall_const] at hi
    by_cases h8 : i < 8
    · have h3 : ¬ i < 8 / 2 - 1 := fun h => hi h8 (by simpa using h)
      have : i = 3 ∨ i = 4 ∨ i = 5 ∨ i = 6 ∨ i = 7 := by omega
      rcases this with rfl | rfl | rfl | rfl | rfl <;> rfl
    · unfold smp
      rw [List.getD_eq_getElem?_getD, List.getElem?_eq_none (by simp; omega)]
      rfl
  · intro m hm
    simp only [List.length_cons, List.length_nil, Nat.reduceAdd, hn] at hm ⊢
    rw [cconv_comm (by norm_num), hset, cconv_single (by norm_num)]
    simp [cyc_of_lt hm]
  · simpa [hn] using hμ
  · have : pyInt ((0 : ℝ) / 1) = 0 := by simp [pyInt]
    rw [this]; simp

end Rfsed.Props
