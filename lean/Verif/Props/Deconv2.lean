import Verif.Proofs.Water
import Mathlib.Analysis.SpecialFunctions.Trigonometric.Complex

/-!
# C56–C59: phase shift, Gaussian filter, water-level deconvolution, dispatch
-/

namespace Rfsed.Props
open Rfsed Synrf Spec Finset

/-! ## C56 -/

/-- **C56** `phaseshift` delays circularly by `int(preonset/dt)` samples. -/
theorem c56_circular_shift {n : Nat} (hn : 0 < n) (x : List ℝ) (dt preonset : ℝ)
    (h : ¬ ∃ k : ℤ, 4 * pyInt (preonset / dt) = (2 * k + 1) * n) :
    (phaseshift x n dt preonset).length = n ∧
    ∀ m < n, smp (phaseshift x n dt preonset) m = smp x (cyc n ((m : ℤ) - pyInt (preonset / dt))) := by
  refine ⟨phaseshift_length .., fun m hm => phaseshift_eq hn x dt preonset ?_ hm⟩
  intro h0
  apply h
  obtain ⟨k, hk⟩ := Real.cos_eq_zero_iff.1 h0
  refine ⟨k, ?_⟩
  have hnR : (n : ℝ) ≠ 0 := by exact_mod_cast hn.ne'
  have hpi := Real.pi_ne_zero
  field_simp at hk
  have : (4 : ℝ) * (pyInt (preonset / dt) : ℤ) = (2 * (k : ℝ) + 1) * n := by linarith
  exact_mod_cast this

/-- **C56** the excluded shifts, the odd multiples of a quarter period, are exactly those where
the correction factor is zero. -/
theorem c56_excluded {n : Nat} (hn : 0 < n) (s : ℤ) :
    Real.cos (2 * Real.pi * (s : ℝ) / n) = 0 ↔ ∃ k : ℤ, 4 * s = (2 * k + 1) * n := by
  have hnR : (n : ℝ) ≠ 0 := by exact_mod_cast hn.ne'
  have hpi := Real.pi_ne_zero
  rw [Real.cos_eq_zero_iff]
  apply exists_congr
  intro k
  constructor
  · intro hk
    field_simp at hk
    have : (4 : ℝ) * (s : ℝ) = (2 * (k : ℝ) + 1) * n := by linarith
    exact_mod_cast this
  · intro hk
    have : (4 : ℝ) * (s : ℝ) = (2 * (k : ℝ) + 1) * n := by exact_mod_cast hk
    field_simp
    linarith

/-- **C56** a multiple of the sampling interval shifts by exactly that many samples; other shifts
are truncated towards zero. -/
theorem c56_samples {dt : ℝ} (hdt : 0 < dt) (k : ℤ) (x : ℝ) :
    (pyInt (k * dt / dt) = k) ∧
    (0 ≤ x → pyInt (x / dt) * dt ≤ x ∧ x < (pyInt (x / dt) + 1) * dt) ∧
    (x ≤ 0 → x ≤ pyInt (x / dt) * dt ∧ (pyInt (x / dt) - 1) * dt < x) := by
  refine ⟨?_, ?_, ?_⟩
  · rw [mul_div_assoc, div_self hdt.ne', mul_one]
    unfold pyInt
    split
    · exact Int.floor_intCast k
    · exact Int.ceil_intCast k
  · intro hx
    unfold pyInt
    rw [if_pos (div_nonneg hx hdt.le)]
    constructor
    · rw [← le_div_iff₀ hdt]; exact Int.floor_le _
    · rw [← div_lt_iff₀ hdt]; exact Int.lt_floor_add_one _
  · intro hx
    have hq : x / dt ≤ 0 := div_nonpos_of_nonpos_of_nonneg hx hdt.le
    unfold pyInt
    split
    · have : x / dt = 0 := le_antisymm hq (by assumption)
      have hx0 : x = 0 := by
        rcases div_eq_zero_iff.1 this with h | h
        · exact h
        · exact absurd h hdt.ne'
      subst hx0
      simp [hdt]
    · constructor
      · rw [← div_le_iff₀ hdt]; exact Int.le_ceil _
      · rw [← lt_div_iff₀ hdt]
        have := Int.ceil_lt_add_one (x / dt)
        linarith

/-- the 8-point shift by 2 is excluded, every other shift `0 … 7` except 6 is allowed -/
example : (∃ k : ℤ, 4 * (2 : ℤ) = (2 * k + 1) * (8 : ℕ)) ∧ ¬ ∃ k : ℤ, 4 * (3 : ℤ) = (2 * k + 1) * (8 : ℕ) := by
  constructor
  · exact ⟨0, by norm_num⟩
  · rintro ⟨k, hk⟩
    push_cast at hk
    omega

/-! ## C57 -/

/-- **C57** `gaussFilter` on an even number of points: `nft` values `exp(-(ω/2a)²)/dt`, symmetric
about Nyquist, positive, `1/dt` at zero frequency, the largest there, non-increasing up to
Nyquist. -/
theorem c57_gauss {dt : ℝ} {n : Nat} (a : ℝ) (hdt : 0 < dt) (hn : 2 ≤ n) (he : Even n) :
    ∃ g, gaussFilter dt n a = .ok g ∧ g.length = n ∧
      (∀ k < n, smp g k = gaussResponse dt n a k / dt) ∧
      (∀ k, 1 ≤ k → k < n → smp g (n - k) = smp g k) ∧
      (∀ k < n, 0 < smp g k ∧ smp g k ≤ 1 / dt) ∧ smp g 0 = 1 / dt ∧
      (∀ i j, i ≤ j → j ≤ n / 2 → smp g j ≤ smp g i) := by
  obtain ⟨k, hk⟩ := he
  have hk2 : n = 2 * k := by omega
  subst hk2
  have hval : ∀ i < 2 * k, smp ((List.range (2 * k)).map (fun i : Nat => gaussResponse dt (2 * k) a i / dt)) i
      = gaussResponse dt (2 * k) a i / dt := fun i hi => smp_map_range _ hi
  have hmono : ∀ i j, i ≤ j → j ≤ k → gaussResponse dt (2 * k) a j ≤ gaussResponse dt (2 * k) a i := by
    intro i j hij hj
    unfold gaussResponse
    apply Real.exp_le_exp.2
    rw [show min i (2 * k - i) = i by omega, show min j (2 * k - j) = j by omega]
    have hij' : (i : ℝ) ≤ j := by exact_mod_cast hij
    have e : ∀ t : ℝ, (2 * Real.pi * t / ((2 * k : ℕ) * dt) / (2 * a)) ^ 2
        = (2 * Real.pi / ((2 * k : ℕ) * dt) / (2 * a)) ^ 2 * t ^ 2 := by intro t; ring
    rw [e, e]
    have h1 : (i : ℝ) ^ 2 ≤ (j : ℝ) ^ 2 := by
      have : (0 : ℝ) ≤ i := by positivity
      nlinarith
    have := mul_le_mul_of_nonneg_left h1 (sq_nonneg (2 * Real.pi / (((2 * k : ℕ) : ℝ) * dt) / (2 * a)))
    linarith
  refine ⟨_, gaussFilter_even a hdt.ne' (by omega), by simp, hval, ?_, ?_, ?_, ?_⟩
  · intro i h1 h2
    rw [hval _ (by omega), hval _ h2]
    unfold gaussResponse
    rw [show min (2 * k - i) (2 * k - (2 * k - i)) = min i (2 * k - i) by omega]
  · intro i hi
    rw [hval _ hi]
    refine ⟨div_pos (Real.exp_pos _) hdt, ?_⟩
    apply div_le_div_of_nonneg_right _ hdt.le
    unfold gaussResponse
    apply Real.exp_le_one_iff.2
    have := sq_nonneg (2 * Real.pi * ((min i (2 * k - i) : ℕ) : ℝ) / ((2 * k : ℕ) * dt) / (2 * a))
    linarith
  · rw [hval _ (by omega)]
    unfold gaussResponse
    simp
  · intro i j hij hj
    rw [hval _ (by omega), hval _ (by omega)]
    exact div_le_div_of_nonneg_right (hmono i j hij (by omega)) hdt.le

/-- **C57** for an odd number of points it raises `ValueError`, for zero points or `dt = 0` it
divides by zero. -/
theorem c57_errors {dt : ℝ} {n : Nat} (a : ℝ) :
    (dt ≠ 0 → Odd n → gaussFilter dt n a = .error .valueError) ∧
    (dt = 0 ∨ n = 0 → gaussFilter dt n a = .error .zeroDivisionError) := by
  constructor
  · rintro hdt ⟨k, rfl⟩
    exact gaussFilter_odd a hdt
  · intro h
    apply gaussFilter_zeroDiv
    rcases h with h | h
    · rw [h, mul_zero]
    · rw [h]; simp

theorem parseval {n : Nat} (hn : 0 < n) (x : Nat → ℝ) :
    ∑ k ∈ range n, ‖rdft n x k‖ ^ 2 = n * energy n x := by
  have h := idft_mul_conj hn (fun j => (x j : ℂ)) (fun j => (x j : ℂ)) 0
  have hnC : (n : ℂ) ≠ 0 := by exact_mod_cast hn.ne'
  unfold idft at h
  rw [div_eq_iff hnC] at h
  have e1 : ∀ k ∈ range n, dft n (fun j => (x j : ℂ)) k * (starRingEnd ℂ) (dft n (fun j => (x j : ℂ)) k)
      * W n ((0 : ℕ) * k) = ((‖rdft n x k‖ ^ 2 : ℝ) : ℂ) := by
    intro k _
    rw [mul_conj_norm, Nat.cast_zero, zero_mul, W_zero, mul_one]
  rw [sum_congr rfl e1] at h
  have e2 : ∀ j ∈ range n, (starRingEnd ℂ) (x j : ℂ) * (x (cyc n (((0 : ℕ) : ℤ) + j)) : ℂ)
      = ((x j ^ 2 : ℝ) : ℂ) := by
    intro j hj
    rw [Complex.conj_ofReal, Nat.cast_zero, zero_add, cyc_of_lt (mem_range.1 hj)]
    push_cast
    ring
  rw [sum_congr rfl e2] at h
  unfold energy
  have h' : ((∑ k ∈ range n, ‖rdft n x k‖ ^ 2 : ℝ) : ℂ) = ((n * ∑ m ∈ range n, x m ^ 2 : ℝ) : ℂ) := by
    push_cast at h ⊢
    rw [h]; ring
  exact_mod_cast h'

/-- **C57** filtering a real trace gives `n` real samples: the circular convolution with the
Gaussian pulse; it keeps the sum of the samples and never increases the energy. -/
theorem c57_filter {dt a : ℝ} {n : Nat} {g : List ℝ} (hg : gaussFilter dt n a = .ok g) (x : List ℝ) :
    (gfilter x n (toC g) dt).length = n ∧
    (∀ m < n, smp (gfilter x n (toC g) dt) m = cconv n (smp x) (gaussPulse dt n a) m) ∧
    ∑ m ∈ range n, smp (gfilter x n (toC g) dt) m = ∑ m ∈ range n, smp x m ∧
    energy n (smp (gfilter x n (toC g) dt)) ≤ energy n (smp x) := by
  obtain ⟨hdt, k, hk, hn, _⟩ := gaussFilter_ok hg
  have hn0 : 0 < n := by omega
  have hnR : (0 : ℝ) < n := by exact_mod_cast hn0
  have hc := fun m hm => gfilter_gauss hg x (m := m) hm
  have hspec : ∀ k < n, rdft n (smp (gfilter x n (toC g) dt)) k
      = rdft n (smp x) k * (gaussResponse dt n a k : ℂ) := by
    intro k hk
    rw [← rdft_gaussPulse hn0 hk, ← rdft_cconv hn0 _ _ hk]
    apply dft_congr
    intro m hm
    rw [hc m hm]
  have hsum : ∀ y : Nat → ℝ, rdft n y 0 = ((∑ m ∈ range n, y m : ℝ) : ℂ) := by
    intro y
    unfold rdft dft
    push_cast
    apply sum_congr rfl
    intro j _
    simp [W_zero]
  refine ⟨gfilter_length .., hc, ?_, ?_⟩
  · have := hspec 0 hn0
    rw [hsum, hsum] at this
    have h1 : gaussResponse dt n a 0 = 1 := by unfold gaussResponse; simp
    rw [h1] at this
    push_cast at this
    rw [mul_one] at this
    exact_mod_cast this
  · have h1 := parseval hn0 (smp (gfilter x n (toC g) dt))
    have h2 := parseval hn0 (smp x)
    have h3 : ∑ k ∈ range n, ‖rdft n (smp (gfilter x n (toC g) dt)) k‖ ^ 2
        ≤ ∑ k ∈ range n, ‖rdft n (smp x) k‖ ^ 2 := by
      apply sum_le_sum
      intro k hk
      rw [hspec k (mem_range.1 hk), norm_mul, Complex.norm_real]
      have hG0 : 0 ≤ gaussResponse dt n a k := (Real.exp_pos _).le
      have hG1 : gaussResponse dt n a k ≤ 1 := by
        unfold gaussResponse
        apply Real.exp_le_one_iff.2
        have := sq_nonneg (2 * Real.pi * ((min k (n - k) : ℕ) : ℝ) / (n * dt) / (2 * a))
        linarith
      rw [Real.norm_eq_abs, abs_of_nonneg hG0, mul_pow]
      have : gaussResponse dt n a k ^ 2 ≤ 1 := pow_le_one₀ hG0 hG1
      nlinarith [sq_nonneg ‖rdft n (smp x) k‖]
    rw [h1, h2] at h3
    exact le_of_mul_le_mul_left h3 hnR

/-- `c57_gauss` and `c57_filter` apply to the eight-point filter -/
example : ∃ g, gaussFilter (1/10) 8 2 = .ok g ∧ smp g 0 = 10 ∧
    ∑ m ∈ range 8, smp (gfilter [1, 2, 3] 8 (toC g) (1/10)) m = 6 := by
  obtain ⟨g, hg, _, _, _, _, h0, _⟩ := c57_gauss (dt := 1/10) (n := 8) 2 (by norm_num) (by norm_num)
    ⟨4, rfl⟩
  refine ⟨g, hg, by rw [h0]; norm_num, ?_⟩
  rw [(c57_filter hg [1, 2, 3]).2.2.1]
  simp [sum_range_succ, smp]
  norm_num

/-! ## C58 -/

section
variable {uin win : List ℝ} {dt preonset wlevel a : ℝ} {normalize : Bool} {rft : List ℝ} {rms : ℝ}

/-- **C58** errors -/
theorem c58_errors :
    (uin.length ≠ win.length →
      deconv_waterlevel uin win dt preonset wlevel a normalize = .error .synrfValueError) ∧
    (uin.length = win.length → (dt = 0 ∨ uin = []) →
      deconv_waterlevel uin win dt preonset wlevel a normalize = .error .zeroDivisionError) ∧
    (uin.length = win.length → dt ≠ 0 → uin.length = 1 →
      deconv_waterlevel uin win dt preonset wlevel a normalize = .error .valueError) := by
  refine ⟨?_, ?_, ?_⟩
  · intro h
    unfold deconv_waterlevel
    rw [if_pos h]
  · intro h h0
    unfold deconv_waterlevel
    rw [if_neg (by simpa using h)]
    simp only
    by_cases hdt : dt = 0
    · rw [scalarDiv_py_zero (by rw [hdt, mul_zero])]
      rfl
    · rw [scalarDiv_py (by simpa using hdt)]
      simp only [ok_bind']
      rcases h0 with h0 | h0
      · exact absurd h0 hdt
      · rw [scalarDiv_py_zero (by simp [h0, nextPow2])]
        rfl
  · intro h hdt h1
    unfold deconv_waterlevel
    rw [if_neg (by simpa using h)]
    simp only
    rw [scalarDiv_py (by simpa using hdt)]
    simp only [ok_bind']
    rw [h1, nextPow2_one, scalarDiv_py (by norm_num)]
    simp only [ok_bind']
    have hp : ∀ X : List ℂ, X.length = 1 → ∃ d, pyMax (toRe X) = .ok d := by
      intro X hX
      match X, hX with
      | [z], _ => exact ⟨_, rfl⟩
    obtain ⟨d, hd⟩ := hp (vmul (fft (toC win) 1) ((fft (toC win) 1).map (starRingEnd ℂ)))
      (by simp [vmul, fft_length])
    rw [hd]
    simp only [ok_bind']
    rw [gaussFilter_odd (k := 0) a hdt]
    rfl

/-- **C58** two or more samples are always deconvolved. -/
theorem c58_total (h : uin.length = win.length) (h2 : 2 ≤ uin.length) (hdt : dt ≠ 0) :
    ∃ r, deconv_waterlevel uin win dt preonset wlevel a normalize = .ok r := by
  obtain ⟨k, hk, hn⟩ := nextPow2_even h2
  have hnR : (0.5 : ℝ) * ((nextPow2 uin.length : ℕ) : ℝ) ≠ 0 := by
    have : (0 : ℝ) < ((nextPow2 uin.length : ℕ) : ℝ) := by
      exact_mod_cast (by omega : 0 < nextPow2 uin.length)
    positivity
  unfold deconv_waterlevel
  rw [if_neg (by simpa using h)]
  simp only
  rw [scalarDiv_py (by simpa using hdt)]
  simp only [ok_bind']
  rw [scalarDiv_py hnR]
  simp only [ok_bind']
  have hp : ∀ X : List ℂ, 0 < X.length → ∃ d, pyMax (toRe X) = .ok d := by
    intro X hX
    match X, hX with
    | z :: zs, _ => exact ⟨_, rfl⟩
  obtain ⟨d, hd⟩ := hp (vmul (fft (toC win) (nextPow2 uin.length))
      ((fft (toC win) (nextPow2 uin.length)).map (starRingEnd ℂ))) (by simp [vmul, fft_length]; omega)
  rw [hd]
  simp only [ok_bind']
  rw [hn, gaussFilter_even a hdt hk]
  exact ⟨_, rfl⟩

/-- **C58** the receiver function: the water-level quotient of the spectra, low-pass filtered and
delayed by `preonset`; with `normalize` divided by the peak of the Gaussian pulse. -/
theorem c58_formula (h : deconv_waterlevel uin win dt preonset wlevel a normalize = .ok (rft, rms)) :
    let n := nextPow2 uin.length
    let U := traceSpectrum n uin
    let V := traceSpectrum n win
    ∃ d, IsMaxPower n V d ∧ rft.length = uin.length ∧ ∀ m < uin.length, smp rft m
        = (idft n (fun k => ((gaussResponse dt n a k / dt : ℝ) : ℂ)
              * (U k * (starRingEnd ℂ) (V k) / ((max (‖V k‖ ^ 2) (wlevel * d) : ℝ) : ℂ))
              * Complex.exp (-Complex.I * (omega dt n k * preonset : ℝ))) m).re
          / (if normalize then gaussPulse dt n a 0 / dt else 1) := by
  obtain ⟨_, _, _, d, h1, h2, h3, _⟩ := water_master h
  exact ⟨d, h1, h2, h3⟩

/-- **C58** stability: for a positive water level no sample exceeds
`Σ|U_k| / (n |dt| √(wlevel · max|W|²))`, however small the denominator spectrum is elsewhere. -/
theorem c58_stable (h : deconv_waterlevel uin win dt preonset wlevel a false = .ok (rft, rms))
    (hw : 0 < wlevel) {d : ℝ} (hd : IsMaxPower (nextPow2 uin.length)
      (traceSpectrum (nextPow2 uin.length) win) d) (hd0 : 0 < d) {m : Nat} (hm : m < uin.length) :
    |smp rft m| ≤ (∑ k ∈ range (nextPow2 uin.length), ‖traceSpectrum (nextPow2 uin.length) uin k‖)
      / (nextPow2 uin.length * |dt| * Real.sqrt (wlevel * d)) := by
  obtain ⟨_, hdt, ⟨k, hk, hn⟩, d', h1, h2, h3, _⟩ := water_master h
  have hdd : d' = d := by
    obtain ⟨⟨i, hi, ei⟩, hle⟩ := h1
    obtain ⟨⟨j, hj, ej⟩, hle'⟩ := hd
    apply le_antisymm
    · rw [ei]; exact hle' i hi
    · rw [ej]; exact hle j hj
  subst hdd
  rw [h3 m hm]
  simp only [Bool.false_eq_true, if_false, div_one]
  refine le_trans (Complex.abs_re_le_norm _) ?_
  set n := nextPow2 uin.length with hnd
  set s := Real.sqrt (wlevel * d') with hs
  have hs0 : 0 < s := Real.sqrt_pos.2 (mul_pos hw hd0)
  have hs2 : s ^ 2 = wlevel * d' := Real.sq_sqrt (mul_pos hw hd0).le
  have hn0 : 0 < n := by omega
  have hnR : (0 : ℝ) < n := by exact_mod_cast hn0
  have hdt0 : 0 < |dt| := abs_pos.2 hdt
  unfold idft
  rw [norm_div, Complex.norm_natCast]
  have key : ∀ k ∈ range n, ‖((gaussResponse dt n a k / dt : ℝ) : ℂ)
        * waterQuot (wlevel * d') (traceSpectrum n uin k) (traceSpectrum n win k)
        * Complex.exp (-Complex.I * (omega dt n k * preonset : ℝ)) * W n (m * k)‖
      ≤ ‖traceSpectrum n uin k‖ / (|dt| * s) := by
    intro k _
    rw [norm_mul, norm_mul, norm_mul, W_norm, mul_one]
    have e1 : ‖Complex.exp (-Complex.I * (omega dt n k * preonset : ℝ))‖ = 1 := by
      have := Complex.norm_exp_ofReal_mul_I (-(omega dt n k * preonset))
      rw [← this]
      congr 2
      push_cast; ring
    rw [e1, mul_one, Complex.norm_real, Real.norm_eq_abs, abs_div]
    have hG0 : 0 ≤ gaussResponse dt n a k := (Real.exp_pos _).le
    have hG1 : gaussResponse dt n a k ≤ 1 := by
      unfold gaussResponse
      apply Real.exp_le_one_iff.2
      have := sq_nonneg (2 * Real.pi * ((min k (n - k) : ℕ) : ℝ) / (n * dt) / (2 * a))
      linarith
    rw [abs_of_nonneg hG0]
    have hq : ‖waterQuot (wlevel * d') (traceSpectrum n uin k) (traceSpectrum n win k)‖
        ≤ ‖traceSpectrum n uin k‖ / s := by
      unfold waterQuot
      rw [norm_div, norm_mul, RCLike.norm_conj, Complex.norm_real, Real.norm_eq_abs, ← hs2]
      set v := ‖traceSpectrum n win k‖
      have hv : 0 ≤ v := norm_nonneg _
      have hmx : 0 < max (v ^ 2) (s ^ 2) := lt_max_of_lt_right (by positivity)
      rw [abs_of_pos hmx, div_le_div_iff₀ hmx hs0, mul_assoc]
      apply mul_le_mul_of_nonneg_left _ (norm_nonneg _)
      rcases le_total v s with h | h
      · exact le_trans (by nlinarith) (le_max_right _ _)
      · exact le_trans (by nlinarith) (le_max_left _ _)
    have h1 : gaussResponse dt n a k / |dt| ≤ 1 / |dt| := div_le_div_of_nonneg_right hG1 hdt0.le
    calc gaussResponse dt n a k / |dt| * ‖waterQuot (wlevel * d') (traceSpectrum n uin k) (traceSpectrum n win k)‖
        ≤ 1 / |dt| * (‖traceSpectrum n uin k‖ / s) :=
          mul_le_mul h1 hq (norm_nonneg _) (by positivity)
      _ = _ := by field_simp
  calc ‖∑ k ∈ range n, ((gaussResponse dt n a k / dt : ℝ) : ℂ)
        * waterQuot (wlevel * d') (traceSpectrum n uin k) (traceSpectrum n win k)
        * Complex.exp (-Complex.I * (omega dt n k * preonset : ℝ)) * W n (m * k)‖ / n
      ≤ (∑ k ∈ range n, ‖traceSpectrum n uin k‖ / (|dt| * s)) / n :=
        div_le_div_of_nonneg_right (norm_sum_le_of_le _ key) hnR.le
    _ = _ := by
      rw [← Finset.sum_div]
      field_simp

/-- no bin of the denominator spectrum is zero or below the water level -/
def NoLevelNeeded (win : List ℝ) (n : Nat) (wlevel : ℝ) : Prop :=
  ∀ d, IsMaxPower n (traceSpectrum n win) d → ∀ k < n,
    traceSpectrum n win k ≠ 0 ∧ wlevel * d ≤ ‖traceSpectrum n win k‖ ^ 2

theorem waterQuot_exact {φ : ℝ} {U V : ℂ} (hV : V ≠ 0) (h : φ ≤ ‖V‖ ^ 2) :
    waterQuot φ U V = U / V := by
  unfold waterQuot
  rw [max_eq_left h, ← mul_conj_norm]
  have hc : (starRingEnd ℂ) V ≠ 0 := by simpa using hV
  field_simp

/-- **C58** where no water level is needed the numerator is predicted exactly. -/
theorem c58_exact (h : deconv_waterlevel uin win dt preonset wlevel a normalize = .ok (rft, rms))
    (hl : NoLevelNeeded win (nextPow2 uin.length) wlevel) : rms = 0 := by
  obtain ⟨_, hdt, ⟨k, hk, hn⟩, d, h1, h2, h3, h4⟩ := water_master h
  rw [h4]
  have : ∀ m ∈ range uin.length,
      ((idft (nextPow2 uin.length) (fun k => ((gaussResponse dt (nextPow2 uin.length) a k / dt : ℝ) : ℂ)
            * (waterQuot (wlevel * d) (traceSpectrum (nextPow2 uin.length) uin k)
                (traceSpectrum (nextPow2 uin.length) win k)
              * traceSpectrum (nextPow2 uin.length) win k)) m).re
           - lowpass (nextPow2 uin.length) dt a uin m / dt) ^ 2 = 0 := by
    intro m _
    rw [← lowpass_idft (by omega)]
    have e : ∀ k < nextPow2 uin.length, ((gaussResponse dt (nextPow2 uin.length) a k / dt : ℝ) : ℂ)
            * (waterQuot (wlevel * d) (traceSpectrum (nextPow2 uin.length) uin k)
                (traceSpectrum (nextPow2 uin.length) win k)
              * traceSpectrum (nextPow2 uin.length) win k)
        = ((gaussResponse dt (nextPow2 uin.length) a k / dt : ℝ) : ℂ)
            * traceSpectrum (nextPow2 uin.length) uin k := by
      intro k hk
      obtain ⟨hne, hle⟩ := hl d h1 k hk
      rw [waterQuot_exact hne hle, div_mul_cancel₀ _ hne]
    rw [idft_congr e, sub_self]
    norm_num
  rw [sum_eq_zero this, zero_div]

/-- **C58** deconvolving a trace by itself gives the Gaussian pulse delayed by `s` samples
(`preonset = s·dt`), scaled by `1/dt`; with `normalize` it has the value 1 at sample `s`. -/
theorem c58_self {s : ℤ} (h : deconv_waterlevel uin uin dt (s * dt) wlevel a normalize = .ok (rft, rms))
    (hl : NoLevelNeeded uin (nextPow2 uin.length) wlevel) :
    rms = 0 ∧ ∀ m < uin.length,
      smp rft m = gaussPulse dt (nextPow2 uin.length) a (cyc (nextPow2 uin.length) ((m : ℤ) - s))
        / (if normalize then gaussPulse dt (nextPow2 uin.length) a 0 else dt) := by
  refine ⟨c58_exact h hl, ?_⟩
  obtain ⟨_, hdt, ⟨k, hk, hn⟩, d, h1, h2, h3, h4⟩ := water_master h
  intro m hm
  rw [h3 m hm]
  set n := nextPow2 uin.length with hnd
  have hn0 : 0 < n := by omega
  have hnR : (n : ℝ) ≠ 0 := by exact_mod_cast hn0.ne'
  have hnC : (n : ℂ) ≠ 0 := by exact_mod_cast hn0.ne'
  have hdtC : (dt : ℂ) ≠ 0 := by exact_mod_cast hdt
  have e : ∀ k < n, ((gaussResponse dt n a k / dt : ℝ) : ℂ)
        * waterQuot (wlevel * d) (traceSpectrum n uin k) (traceSpectrum n uin k)
        * Complex.exp (-Complex.I * (omega dt n k * (s * dt) : ℝ))
      = ((1 / dt : ℝ) : ℂ) * (rdft n (gaussPulse dt n a) k * W n (k * (-s))) := by
    intro k hk
    obtain ⟨hne, hle⟩ := hl d h1 k hk
    rw [waterQuot_exact hne hle, div_self hne, rdft_gaussPulse hn0 hk]
    have hph : Complex.exp (-Complex.I * (omega dt n k * (s * dt) : ℝ)) = W n (k * (-s)) := by
      unfold omega
      split
      · unfold W
        congr 1
        push_cast
        field_simp
      · have : W n (k * (-s)) = W n (((k : ℤ) - n) * (-s)) := by
          rw [show ((k : ℤ) - n) * (-s) = k * (-s) + n * s by ring, W_add, W_mul_period hn0, mul_one]
        rw [this]
        unfold W
        congr 1
        push_cast
        field_simp
    rw [hph]
    push_cast
    ring
  have hsh := idft_dft_shift hn0 (fun j => (gaussPulse dt n a j : ℂ)) (-s) m
  have e2 : idft n (fun k => ((1 / dt : ℝ) : ℂ) * (rdft n (gaussPulse dt n a) k * W n (k * (-s)))) m
      = ((1 / dt * gaussPulse dt n a (cyc n ((m : ℤ) - s)) : ℝ) : ℂ) := by
    rw [idft_smul]
    unfold rdft
    rw [hsh, ← sub_eq_add_neg]
    push_cast
    ring
  rw [idft_congr e, e2, Complex.ofReal_re]
  cases normalize with
  | false => simp only [Bool.false_eq_true, if_false]; field_simp
  | true =>
    simp only [if_true]
    have hg0 : gaussPulse dt n a 0 ≠ 0 := by
      unfold gaussPulse
      apply div_ne_zero _ hnR
      apply ne_of_gt
      simp only [Nat.cast_zero, zero_mul, mul_zero, zero_div, Real.cos_zero, mul_one]
      exact sum_pos (fun k _ => Real.exp_pos _) ⟨0, mem_range.2 hn0⟩
    field_simp

end

/-- a unit spike has a flat spectrum and needs no water level -/
theorem noLevel_spike : NoLevelNeeded [1, 0, 0] 4 (1/20) := by
  have hs : ∀ k, traceSpectrum 4 [1, 0, 0] k = 1 := by
    intro k
    unfold traceSpectrum dft
    simp [sum_range_succ, smp, W_zero]
  intro d hd k _
  obtain ⟨⟨i, _, hi⟩, _⟩ := hd
  rw [hs] at hi
  rw [hi, hs]
  norm_num

/-- `c58_self` applies to a three-sample trace with `preonset` of one sample: peak 1 at sample 1 -/
example : ∃ rft, deconv_waterlevel [1, 0, 0] [1, 0, 0] (1/10) ((1 : ℤ) * (1/10)) (1/20) 2 true = .ok (rft, 0)
    ∧ smp rft 1 = 1 := by
  obtain ⟨⟨rft, rms⟩, h⟩ := c58_total (uin := [1, 0, 0]) (win := [1, 0, 0]) (dt := 1/10)
    (preonset := (1 : ℤ) * (1/10)) (wlevel := 1/20) (a := 2) (normalize := true) rfl (by simp) (by norm_num)
  have h4 : nextPow2 ([1, 0, 0] : List ℝ).length = 4 := by decide
  obtain ⟨h1, h2⟩ := c58_self h (by rw [h4]; exact noLevel_spike)
  refine ⟨rft, by rw [h, h1], ?_⟩
  rw [h2 1 (by simp), h4]
  simp only [if_true]
  have : cyc 4 (((1 : ℕ) : ℤ) - 1) = 0 := by decide
  rw [this]
  apply div_self
  unfold gaussPulse
  apply div_ne_zero _ (by norm_num)
  apply ne_of_gt
  simp only [Nat.cast_zero, zero_mul, mul_zero, zero_div, Real.cos_zero, mul_one]
  exact sum_pos (fun k _ => Real.exp_pos _) ⟨0, by simp⟩

/-! ## C59 -/

section
variable (uin win : List ℝ) (dt : ℝ) (kw : KwArgs) (method : String)

/-- **C59** dispatch on the lower-cased method name -/
theorem c59_dispatch :
    (method.toLower = "iter" →
      deconvolve uin win dt (some method) kw = (callIter uin win dt kw).map DeconvResult.iter) ∧
    (method.toLower = "water" → deconvolve uin win dt (some method) kw
      = (callWater uin win dt kw).map (fun p => DeconvResult.water p.1 p.2)) ∧
    (method.toLower ≠ "iter" → method.toLower ≠ "water" →
      deconvolve uin win dt (some method) kw = .error .synrfValueError ∧
      ∀ utr wtr, RFTrace_deconvolve utr wtr (some method) kw = .error .synrfValueError) ∧
    deconvolve uin win dt none kw = deconvolve uin win dt (some "iter") kw := by
  refine ⟨?_, ?_, ?_, rfl⟩
  · intro h
    unfold deconvolve
    simp only [Option.getD_some, h, if_true]
  · intro h
    unfold deconvolve
    simp only [Option.getD_some, h, if_true]
    rw [if_neg (by decide)]
  · intro h1 h2
    constructor
    · unfold deconvolve
      simp only [Option.getD_some]
      rw [if_neg h1, if_neg h2]
    · intro utr wtr
      unfold RFTrace_deconvolve
      simp only [Option.getD_some]
      rw [if_neg h1, if_neg h2]

/-- **C59** a keyword argument the chosen method does not know raises `TypeError`; those given are
passed on, the others get the documented defaults. -/
theorem c59_kwargs :
    ((kw.wlevel.isSome ∨ kw.normalize.isSome) → callIter uin win dt kw = .error .typeError) ∧
    ((kw.nt.isSome ∨ kw.itmax.isSome ∨ kw.minderr.isSome) → callWater uin win dt kw = .error .typeError) ∧
    (callIter uin win dt {} = deconv_iterative uin win dt none 10 2 400 0.001 "P") ∧
    (callWater uin win dt {} = deconv_waterlevel uin win dt 10 0.05 2 false) ∧
    (∀ nt p g i m ph, callIter uin win dt ⟨nt, some p, some g, some i, some m, some ph, none, none⟩
      = deconv_iterative uin win dt nt p g i m ph) ∧
    (∀ p g l nz ph, callWater uin win dt ⟨none, some p, some g, none, none, ph, some l, some nz⟩
      = deconv_waterlevel uin win dt p l g nz) := by
  refine ⟨?_, ?_, rfl, rfl, fun _ _ _ _ _ _ => rfl, fun _ _ _ _ _ => rfl⟩
  · intro h
    unfold callIter
    rw [if_pos]
    simpa using h
  · intro h
    unfold callWater
    rw [if_pos]
    rcases h with h | h | h <;> simp [h]

/-- **C59** `RFTrace.deconvolve` returns what `deconvolve` returns for the data of the two traces
and the sampling interval of the first, as a trace with that sampling interval, the keyword
arguments and `rms`, `iter` in its header; it fails when `deconvolve` fails, in the same way. -/
theorem c59_trace (utr wtr : Tr) (m : Option String) :
    RFTrace_deconvolve utr wtr m kw = (deconvolve utr.data wtr.data utr.delta m kw).map (fun r =>
      match r with
      | .iter r => { data := r.rf, delta := utr.delta, kwargs := kw, rms := .inl r.rms, iter := some r.it }
      | .water rf rms => { data := some rf, delta := utr.delta, kwargs := kw, rms := .inr (some rms), iter := none }) := by
  unfold RFTrace_deconvolve deconvolve
  simp only
  split
  · cases callIter utr.data wtr.data utr.delta kw <;> rfl
  · split
    · cases callWater utr.data wtr.data utr.delta kw <;> rfl
    · rfl

end

theorem toLower_eq {s t : String} (h : s.toList.map Char.toLower = t.toList) : s.toLower = t := by
  apply String.toList_inj.1
  rw [← h]
  unfold String.toLower
  exact String.toList_map

/-- all capitalisations, character by character -/
theorem c59_names (method : String) :
    (method.toLower = "iter" ↔ method.toList.map Char.toLower = ['i', 't', 'e', 'r']) ∧
    (method.toLower = "water" ↔ method.toList.map Char.toLower = ['w', 'a', 't', 'e', 'r']) := by
  constructor
  · constructor
    · intro h
      have := congrArg String.toList h
      unfold String.toLower at this
      rw [String.toList_map] at this
      exact this
    · exact fun h => toLower_eq h
  · constructor
    · intro h
      have := congrArg String.toList h
      unfold String.toLower at this
      rw [String.toList_map] at this
      exact this
    · exact fun h => toLower_eq h

example : "ITER".toLower = "iter" ∧ "Water".toLower = "water" ∧ "time".toLower ≠ "iter" :=
  ⟨toLower_eq (by decide), toLower_eq (by decide), fun h => by
    have := (c59_names "time").1.1 h
    revert this; decide⟩

end Rfsed.Props
