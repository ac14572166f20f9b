import Verif.Proofs.WaterNoise
import Verif.Props.Deconv2

/-!
# C129: noise in the water-level deconvolution
-/

namespace Rfsed.Props
open Rfsed Synrf Spec Finset

/-- padding adds nothing to a sum of changes -/
theorem sum_smp_pad {n : Nat} {x y : List ℝ} (hxy : y.length = x.length) (hn : x.length ≤ n) :
    ∑ j ∈ range n, |smp y j - smp x j| = ∑ j ∈ range x.length, |smp y j - smp x j| := by
  symm
  apply sum_subset (by simpa using hn)
  intro j _ hj
  have hj : x.length ≤ j := by simpa using hj
  simp [smp, List.getElem?_eq_none, hj, hxy]

theorem sum_smp_pad0 {n : Nat} {x : List ℝ} (hn : x.length ≤ n) :
    ∑ j ∈ range n, |smp x j| = ∑ j ∈ range x.length, |smp x j| := by
  symm
  apply sum_subset (by simpa using hn)
  intro j _ hj
  have hj : x.length ≤ j := by simpa using hj
  simp [smp, List.getElem?_eq_none, hj]

theorem maxPower_unique {n : Nat} {X : Nat → ℂ} {d d' : ℝ} (h : IsMaxPower n X d) (h' : IsMaxPower n X d') :
    d = d' := by
  obtain ⟨⟨i, hi, ei⟩, hle⟩ := h
  obtain ⟨⟨j, hj, ej⟩, hle'⟩ := h'
  apply le_antisymm
  · rw [ei]; exact hle' i hi
  · rw [ej]; exact hle j hj

theorem gaussPulse_zero_pos {dt a : ℝ} {n : Nat} (hn : 0 < n) : 0 < gaussPulse dt n a 0 := by
  unfold gaussPulse
  apply div_pos _ (by exact_mod_cast hn)
  simp only [Nat.cast_zero, zero_mul, mul_zero, zero_div, Real.cos_zero, mul_one]
  exact sum_pos (fun k _ => Real.exp_pos _) ⟨0, by simpa using hn⟩

section
variable {uin win uin' win' : List ℝ} {dt preonset wlevel a : ℝ} {normalize : Bool} {rft rft' : List ℝ} {rms rms' : ℝ}

/-- **C129** every sample of the receiver function moves by a bounded multiple of the sum of the changes of the two
traces (`E` radial, `e` vertical), whatever the strongest powers `d`, `d'` of the vertical spectra -/
theorem c129_noise (h : deconv_waterlevel uin win dt preonset wlevel a normalize = .ok (rft, rms))
    (h' : deconv_waterlevel uin' win' dt preonset wlevel a normalize = .ok (rft', rms'))
    (hl : uin'.length = uin.length) (hw : 0 < wlevel) {d d' : ℝ}
    (hd : IsMaxPower (nextPow2 uin.length) (traceSpectrum (nextPow2 uin.length) win) d) (hd0 : 0 < d)
    (hd' : IsMaxPower (nextPow2 uin.length) (traceSpectrum (nextPow2 uin.length) win') d') (hd0' : 0 < d')
    {m : Nat} (hm : m < uin.length) :
    let E := ∑ j ∈ range uin.length, |smp uin' j - smp uin j|
    let e := ∑ j ∈ range uin.length, |smp win' j - smp win j|
    let A := ∑ j ∈ range uin.length, |smp uin j|
    |smp rft' m - smp rft m| ≤
      (E / √(wlevel * d') + A * (e / (wlevel * d) * (1 + max 1 wlevel * (√d + √d') / √(wlevel * d'))))
        / (if normalize then gaussPulse dt (nextPow2 uin.length) a 0 else |dt|) := by
  intro E e A
  obtain ⟨hlen, hdt, ⟨k, hk, hn⟩, d1, h1, h2, h3, _⟩ := water_master h
  obtain ⟨hlen', _, _, d2, h1', h2', h3', _⟩ := water_master h'
  rw [hl] at h1' h2' h3'
  obtain rfl := maxPower_unique h1 hd
  obtain rfl := maxPower_unique h1' hd'
  set n := nextPow2 uin.length with hnd
  have hn0 : 0 < n := by omega
  have hln : uin.length ≤ n := le_nextPow2 _
  have hE : ∀ k, ‖traceSpectrum n uin' k - traceSpectrum n uin k‖ ≤ E := by
    intro k
    have := spectrum_move n uin uin' k
    rwa [sum_smp_pad hl hln] at this
  have he : ∀ k, ‖traceSpectrum n win' k - traceSpectrum n win k‖ ≤ e := by
    intro k
    have := spectrum_move n win win' k
    rwa [sum_smp_pad (by omega) (by omega), ← hlen] at this
  have hA : ∀ k, ‖traceSpectrum n uin k‖ ≤ A := by
    intro k
    have := spectrum_norm n uin k
    rwa [sum_smp_pad0 hln] at this
  have hdd := maxPower_move h1 h1' (fun k _ => he k)
  have hdt0 : 0 < |dt| := abs_pos.2 hdt
  set B := E / √(wlevel * d2) + A * (e / (wlevel * d1) * (1 + max 1 wlevel * (√d1 + √d2) / √(wlevel * d2))) with hB
  have key : ∀ k < n, ‖((gaussResponse dt n a k / dt : ℝ) : ℂ)
        * waterQuot (wlevel * d2) (traceSpectrum n uin' k) (traceSpectrum n win' k)
        * Complex.exp (-Complex.I * (omega dt n k * preonset : ℝ)) - ((gaussResponse dt n a k / dt : ℝ) : ℂ)
        * waterQuot (wlevel * d1) (traceSpectrum n uin k) (traceSpectrum n win k)
        * Complex.exp (-Complex.I * (omega dt n k * preonset : ℝ))‖ ≤ B / |dt| := by
    intro k hk
    rw [← sub_mul, ← mul_sub, norm_mul, norm_mul]
    have e1 : ‖Complex.exp (-Complex.I * (omega dt n k * preonset : ℝ))‖ = 1 := by
      have := Complex.norm_exp_ofReal_mul_I (-(omega dt n k * preonset))
      rw [← this]
      congr 2
      push_cast; ring
    rw [e1, mul_one, Complex.norm_real, Real.norm_eq_abs, abs_div]
    have hG0 : 0 ≤ gaussResponse dt n a k := (Real.exp_pos _).le
    have hG1 : gaussResponse dt n a k ≤ 1 := by
      unfold gaussResponse
      apply Real.exp_le_one_iff.2
      have := sq_nonneg (2 * Real.pi * ((min k (n - k) : ℕ) : ℝ) / (n * dt) / (2 * a))
      linarith
    rw [abs_of_nonneg hG0]
    have hq := quot_move hw hd0 hd0' (h1.2 k hk) (h1'.2 k hk) (he k) hdd (hE k) (hA k)
    have hg : gaussResponse dt n a k / |dt| ≤ 1 / |dt| := div_le_div_of_nonneg_right hG1 hdt0.le
    calc _ ≤ 1 / |dt| * B := mul_le_mul hg hq (norm_nonneg _) (by positivity)
      _ = _ := by ring
  have hmv := idft_move hn0 key m
  rw [h3 m hm, h3' m hm, ← sub_div, abs_div]
  have hg := gaussPulse_zero_pos (dt := dt) (a := a) hn0
  cases normalize
  · simpa using hmv
  · simp only [if_true]
    rw [abs_div, abs_of_pos hg, div_div_eq_mul_div]
    apply div_le_div_of_nonneg_right _ hg.le
    rwa [le_div_iff₀ hdt0] at hmv

/-- **C129** the same from the clean traces alone: a vertical noise sum of at most half the strongest spectral
amplitude `√d` -/
theorem c129_small_noise (h : deconv_waterlevel uin win dt preonset wlevel a normalize = .ok (rft, rms))
    (h' : deconv_waterlevel uin' win' dt preonset wlevel a normalize = .ok (rft', rms'))
    (hl : uin'.length = uin.length) (hw : 0 < wlevel) (hw1 : wlevel ≤ 1) {d : ℝ}
    (hd : IsMaxPower (nextPow2 uin.length) (traceSpectrum (nextPow2 uin.length) win) d) (hd0 : 0 < d)
    (hs : ∑ j ∈ range uin.length, |smp win' j - smp win j| ≤ √d / 2)
    {m : Nat} (hm : m < uin.length) :
    |smp rft' m - smp rft m| ≤
      (2 * (∑ j ∈ range uin.length, |smp uin' j - smp uin j|) / √(wlevel * d)
        + 6 * (∑ j ∈ range uin.length, |smp uin j|) * (∑ j ∈ range uin.length, |smp win' j - smp win j|)
          / (wlevel * √wlevel * d))
        / (if normalize then gaussPulse dt (nextPow2 uin.length) a 0 else |dt|) := by
  obtain ⟨hlen, hdt, ⟨k, hk, hn⟩, _, _, _, _, _⟩ := water_master h
  obtain ⟨hlen', _, _, d', hd', _⟩ := water_master h'
  rw [hl] at hd'
  have hln : uin.length ≤ nextPow2 uin.length := le_nextPow2 _
  have hdd := maxPower_move hd hd' (fun k _ => by
    have := spectrum_move (nextPow2 uin.length) win win' k
    rwa [sum_smp_pad (by omega) (by omega), ← hlen] at this)
  set E := ∑ j ∈ range uin.length, |smp uin' j - smp uin j| with hE
  set e := ∑ j ∈ range uin.length, |smp win' j - smp win j| with he
  set A := ∑ j ∈ range uin.length, |smp uin j| with hA
  have hE0 : 0 ≤ E := sum_nonneg (fun _ _ => abs_nonneg _)
  have he0 : 0 ≤ e := sum_nonneg (fun _ _ => abs_nonneg _)
  have hA0 : 0 ≤ A := sum_nonneg (fun _ _ => abs_nonneg _)
  have hs0 : 0 < √d := Real.sqrt_pos.2 hd0
  have hr := abs_le.1 hdd
  have hlo : √d / 2 ≤ √d' := by linarith
  have hd0' : 0 < d' := Real.sqrt_pos.1 (by linarith)
  have hmain := c129_noise h h' hl hw hd hd0 hd' hd0' hm
  refine hmain.trans ?_
  have hden : 0 ≤ (if normalize then gaussPulse dt (nextPow2 uin.length) a 0 else |dt|) := by
    split
    · exact (gaussPulse_zero_pos (by omega)).le
    · exact abs_nonneg _
  apply div_le_div_of_nonneg_right _ hden
  have hsw : 0 < √wlevel := Real.sqrt_pos.2 hw
  have hsw1 : √wlevel ≤ 1 := Real.sqrt_le_one.2 hw1
  rw [max_eq_left hw1, Real.sqrt_mul hw.le, Real.sqrt_mul hw.le]
  have hs' : 0 < √d' := by linarith
  have h2s : 1 / √d' ≤ 2 / √d := by
    rw [div_le_div_iff₀ hs' hs0]; linarith
  have hrat : √d / √d' ≤ 2 := by
    rw [div_le_iff₀ hs']; linarith
  apply add_le_add
  · calc E / (√wlevel * √d') = E / √wlevel * (1 / √d') := by field_simp
      _ ≤ E / √wlevel * (2 / √d) := mul_le_mul_of_nonneg_left h2s (by positivity)
      _ = _ := by field_simp
  · have h3 : 1 + 1 * (√d + √d') / (√wlevel * √d') ≤ 6 / √wlevel := by
      have e1 : 1 + 1 * (√d + √d') / (√wlevel * √d') = 1 + (√d / √d' + 1) / √wlevel := by field_simp
      rw [e1]
      have : 1 ≤ 1 / √wlevel := by rw [le_div_iff₀ hsw]; linarith
      have h4 : (√d / √d' + 1) / √wlevel ≤ 3 / √wlevel := div_le_div_of_nonneg_right (by linarith) hsw.le
      have h5 : 6 / √wlevel = 3 / √wlevel + 3 * (1 / √wlevel) := by ring
      rw [h5]
      linarith
    calc A * (e / (wlevel * d) * (1 + 1 * (√d + √d') / (√wlevel * √d')))
        ≤ A * (e / (wlevel * d) * (6 / √wlevel)) :=
          mul_le_mul_of_nonneg_left (mul_le_mul_of_nonneg_left h3 (by positivity)) hA0
      _ = _ := by field_simp

/-- **C129** with the same vertical trace only the radial noise counts, and the bound is that of C58 -/
theorem c129_radial (h : deconv_waterlevel uin win dt preonset wlevel a normalize = .ok (rft, rms))
    (h' : deconv_waterlevel uin' win dt preonset wlevel a normalize = .ok (rft', rms'))
    (hl : uin'.length = uin.length) (hw : 0 < wlevel) {d : ℝ}
    (hd : IsMaxPower (nextPow2 uin.length) (traceSpectrum (nextPow2 uin.length) win) d) (hd0 : 0 < d)
    {m : Nat} (hm : m < uin.length) :
    |smp rft' m - smp rft m| ≤ (∑ j ∈ range uin.length, |smp uin' j - smp uin j|) / √(wlevel * d)
        / (if normalize then gaussPulse dt (nextPow2 uin.length) a 0 else |dt|) := by
  simpa using c129_noise h h' hl hw hd hd0 hd hd0 hm

end

/-- the strongest power of a unit spike is 1 -/
theorem maxPower_spike : IsMaxPower 4 (traceSpectrum 4 [1, 0, 0]) 1 := by
  have hs : ∀ k, traceSpectrum 4 [1, 0, 0] k = 1 := by
    intro k
    unfold traceSpectrum dft
    simp [sum_range_succ, smp, W_zero]
  exact ⟨⟨0, by norm_num, by rw [hs]; norm_num⟩, fun k _ => by rw [hs]; norm_num⟩

/-- a noisy spike deconvolved by a noisy spike -/
example : ∃ rft rms rft' rms',
    deconv_waterlevel [1, 0, 0] [1, 0, 0] (1/10) (1/10) (1/4) 2 false = .ok (rft, rms) ∧
    deconv_waterlevel [1, 0.01, 0] [0.99, 0, 0] (1/10) (1/10) (1/4) 2 false = .ok (rft', rms') ∧
    ∀ m < 3, |smp rft' m - smp rft m| ≤ 5.2 := by
  obtain ⟨⟨rft, rms⟩, h⟩ := c58_total (uin := [1, 0, 0]) (win := [1, 0, 0]) (dt := 1/10)
    (preonset := 1/10) (wlevel := 1/4) (a := 2) (normalize := false) rfl (by simp) (by norm_num)
  obtain ⟨⟨rft', rms'⟩, h'⟩ := c58_total (uin := [1, 0.01, 0]) (win := [0.99, 0, 0]) (dt := 1/10)
    (preonset := 1/10) (wlevel := 1/4) (a := 2) (normalize := false) rfl (by simp) (by norm_num)
  refine ⟨rft, rms, rft', rms', h, h', fun m hm => ?_⟩
  have h4 : nextPow2 ([1, 0, 0] : List ℝ).length = 4 := by decide
  have h2 : √(1/4 : ℝ) = 1/2 := by
    rw [show (1/4 : ℝ) = (1/2) ^ 2 by norm_num, Real.sqrt_sq (by norm_num)]
  have := c129_small_noise h h' rfl (by norm_num) (by norm_num) (by rw [h4]; exact maxPower_spike) (by norm_num)
    (by simp [sum_range_succ, smp]; norm_num [abs_of_neg, abs_of_pos]) (by simpa using hm)
  refine this.trans ?_
  rw [mul_one, h2]
  simp [sum_range_succ, smp]
  norm_num [abs_of_neg, abs_of_pos]

end Rfsed.Props
