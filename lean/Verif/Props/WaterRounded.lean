import Verif.Proofs.WaterRounded
import Verif.Props.WaterNoise

/-!
# C131: rounding errors of the water-level deconvolution
-/

namespace Rfsed.Props
open Rfsed Synrf Spec Finset

theorem gaussPulse_zero_le {dt a : ℝ} {n : Nat} (hn : 0 < n) : gaussPulse dt n a 0 ≤ 1 := by
  have hnR : (0 : ℝ) < n := by exact_mod_cast hn
  unfold gaussPulse
  rw [div_le_one hnR]
  simp only [Nat.cast_zero, zero_mul, mul_zero, zero_div, Real.cos_zero, mul_one]
  calc ∑ k ∈ range n, gaussResponse dt n a k ≤ ∑ k ∈ range n, (1 : ℝ) :=
        sum_le_sum (fun k _ => gaussResponse_le_one dt a n k)
    _ = n := by simp

theorem sum_gauss {dt a : ℝ} {n : Nat} :
    (∑ k ∈ range n, gaussResponse dt n a k / dt) / n = gaussPulse dt n a 0 / dt := by
  unfold gaussPulse
  simp only [Nat.cast_zero, zero_mul, mul_zero, zero_div, Real.cos_zero, mul_one]
  rw [← sum_div]
  ring

/-- the normalisation of a rounded run -/
theorem normalize_near {ε γ dt M C S gn raw ex out : ℝ} (hε : 0 ≤ ε) (hγ0 : 0 < γ) (hγ1 : γ ≤ 1) (hγ : ε ≤ γ / 100)
    (hdt : dt ≠ 0) (hM0 : 0 ≤ M) (hsum : |S - γ / dt| ≤ ε / |dt|) (hgn : |gn - S| ≤ ε * |S|)
    (b1 : |raw - ex * (γ / dt)| ≤ ε * (23 * M + C) / |dt|) (b2 : |raw| ≤ 2.33 * M / |dt|)
    (ho : |out - raw / gn| ≤ ε * |raw / gn|) :
    |out - ex| ≤ ε / γ * (31 * M / γ + C) := by
  have hdt0 : 0 < |dt| := abs_pos.2 hdt
  have hT : |γ / dt| = γ / |dt| := by rw [abs_div, abs_of_pos hγ0]
  have hSb : |S| ≤ 1.01 * (γ / |dt|) := by
    have h1 := abs_add_le (γ / dt) (S - γ / dt)
    rw [add_sub_cancel, hT] at h1
    have h2 : ε / |dt| ≤ γ / 100 / |dt| := div_le_div_of_nonneg_right hγ hdt0.le
    have h3 : γ / 100 / |dt| = 0.01 * (γ / |dt|) := by ring
    linarith
  have hgd : |gn - γ / dt| ≤ 2.01 * ε / |dt| := by
    refine (abs_sub_le _ S _).trans ?_
    have h1 : ε * |S| ≤ ε * (1.01 * (1 / |dt|)) := by
      apply mul_le_mul_of_nonneg_left _ hε
      refine hSb.trans ?_
      have : γ / |dt| ≤ 1 / |dt| := div_le_div_of_nonneg_right hγ1 hdt0.le
      linarith
    have h2 : 2.01 * ε / |dt| = ε * (1.01 * (1 / |dt|)) + ε / |dt| := by ring
    linarith
  have hglo : 0.97 * (γ / |dt|) ≤ |gn| := by
    have h1 := abs_add_le gn (γ / dt - gn)
    rw [add_sub_cancel, hT, abs_sub_comm] at h1
    have h2 : 2.01 * ε / |dt| ≤ 2.01 * (γ / 100) / |dt| := div_le_div_of_nonneg_right (by linarith) hdt0.le
    have h3 : 2.01 * (γ / 100) / |dt| = 0.0201 * (γ / |dt|) := by ring
    have h4 : 0 < γ / |dt| := by positivity
    linarith
  have hT0 : 0 < γ / |dt| := by positivity
  have hg0 : 0 < |gn| := lt_of_lt_of_le (by positivity) hglo
  have hgne : gn ≠ 0 := abs_pos.1 hg0
  have hγdt : γ / dt ≠ 0 := div_ne_zero hγ0.ne' hdt
  -- the quotient of the computed numbers
  have hinv : |raw / gn| ≤ 2.41 * (M / γ) := by
    rw [abs_div, div_le_iff₀ hg0]
    have h1 : 2.41 * (M / γ) * (0.97 * (γ / |dt|)) ≤ 2.41 * (M / γ) * |gn| := mul_le_mul_of_nonneg_left hglo (by positivity)
    have h2 : 2.41 * (M / γ) * (0.97 * (γ / |dt|)) = 2.3377 * (M / |dt|) := by
      have : M / γ * (γ / |dt|) = M / |dt| := div_mul_div_cancel₀ hγ0.ne'
      rw [← this]; ring
    have h3 : 2.33 * M / |dt| = 2.33 * (M / |dt|) := by ring
    have h4 : 0 ≤ M / |dt| := by positivity
    linarith
  have hsplit : out - ex = (out - raw / gn) + raw / gn * ((γ / dt - gn) / (γ / dt))
      + (raw - ex * (γ / dt)) / (γ / dt) := by
    field_simp
    ring
  rw [hsplit]
  have t1 : |out - raw / gn| ≤ 2.41 * (ε / γ * (M / γ)) := by
    refine ho.trans ((mul_le_mul_of_nonneg_left hinv hε).trans ?_)
    have h1 : ε ≤ ε / γ := by rw [le_div_iff₀ hγ0]; nlinarith
    have h2 : ε * (M / γ) ≤ ε / γ * (M / γ) := mul_le_mul_of_nonneg_right h1 (by positivity)
    linarith
  have t2 : |raw / gn * ((γ / dt - gn) / (γ / dt))| ≤ 4.85 * (ε / γ * (M / γ)) := by
    rw [abs_mul, abs_div (γ / dt - gn), hT, abs_sub_comm]
    have h1 : |gn - γ / dt| / (γ / |dt|) ≤ 2.01 * (ε / γ) := by
      rw [div_le_iff₀ hT0]
      refine hgd.trans (le_of_eq ?_)
      field_simp
    calc |raw / gn| * (|gn - γ / dt| / (γ / |dt|)) ≤ 2.41 * (M / γ) * (2.01 * (ε / γ)) :=
          mul_le_mul hinv h1 (by positivity) (by positivity)
      _ ≤ _ := by
        have : 0 ≤ ε / γ * (M / γ) := by positivity
        nlinarith
  have t3 : |(raw - ex * (γ / dt)) / (γ / dt)| ≤ ε / γ * (23 * (M / γ) + C) := by
    rw [abs_div, hT, div_le_iff₀ hT0]
    refine b1.trans ?_
    have h1 : ε / γ * (23 * (M / γ) + C) * (γ / |dt|) = ε * (23 * (M / γ) + C) / |dt| := by field_simp
    rw [h1]
    apply div_le_div_of_nonneg_right _ hdt0.le
    apply mul_le_mul_of_nonneg_left _ hε
    have : M ≤ M / γ := by rw [le_div_iff₀ hγ0]; nlinarith
    linarith
  have h1 := abs_add_le ((out - raw / gn) + raw / gn * ((γ / dt - gn) / (γ / dt)))
    ((raw - ex * (γ / dt)) / (γ / dt))
  have h2 := abs_add_le (out - raw / gn) (raw / gn * ((γ / dt - gn) / (γ / dt)))
  have h3 : 0 ≤ ε / γ * (M / γ) := by positivity
  have h4 : ε / γ * (31 * M / γ + C) = 31 * (ε / γ * (M / γ)) + ε / γ * C := by ring
  rw [h4]
  have h5 : ε / γ * (23 * (M / γ) + C) = 23 * (ε / γ * (M / γ)) + ε / γ * C := by ring
  linarith

section
variable {ε : ℝ} {uin win : List ℝ} {dt preonset wlevel a : ℝ} {normalize : Bool} {rft out : List ℝ} {rms : ℝ}

/-- **C131** the exact run is a run of every tolerance -/
theorem c131_exact (h : deconv_waterlevel uin win dt preonset wlevel a normalize = .ok (rft, rms)) (hε : 0 ≤ ε) :
    Nonempty (WaterRun ε uin win dt preonset wlevel a normalize rft) := by
  obtain ⟨hlen, hdt, ⟨k, hk, hn⟩, d, h1, h2, h3, _⟩ := water_master h
  set n := nextPow2 uin.length with hnd
  have hn0 : 0 < n := by omega
  have hnR : (0 : ℝ) < n := by exact_mod_cast hn0
  have hA : 0 ≤ ∑ j ∈ range uin.length, |smp uin j| := sum_nonneg (fun _ _ => abs_nonneg _)
  have hB : 0 ≤ ∑ j ∈ range uin.length, |smp win j| := sum_nonneg (fun _ _ => abs_nonneg _)
  refine ⟨{
    uf := traceSpectrum n uin
    wf := traceSpectrum n win
    df := fun k => traceSpectrum n win k * (starRingEnd ℂ) (traceSpectrum n win k)
    dmax := d
    phi1 := wlevel * d
    gaussF := fun k => gaussResponse dt n a k / dt
    nf := fun k => ((gaussResponse dt n a k / dt : ℝ) : ℂ) * traceSpectrum n uin k * (starRingEnd ℂ) (traceSpectrum n win k)
    rff := fun k => ((gaussResponse dt n a k / dt : ℝ) : ℂ) * waterQuot (wlevel * d) (traceSpectrum n uin k) (traceSpectrum n win k)
    rffS := fun k => ((gaussResponse dt n a k / dt : ℝ) : ℂ) * waterQuot (wlevel * d) (traceSpectrum n uin k) (traceSpectrum n win k)
        * Complex.exp (-Complex.I * (omega dt n k * preonset : ℝ))
    raw := fun m => (idft n (fun k => ((gaussResponse dt n a k / dt : ℝ) : ℂ)
        * waterQuot (wlevel * d) (traceSpectrum n uin k) (traceSpectrum n win k)
            * Complex.exp (-Complex.I * (omega dt n k * preonset : ℝ))) m).re
    uf_near := ?_
    wf_near := ?_
    df_near := ?_
    dmax_max := ?_
    phi_near := ?_
    gauss_near := ?_
    nf_near := ?_
    rff_near := ?_
    shift_near := ?_
    raw_near := ?_
    rft_length := h2
    rft_near := ?_ }⟩
  · intro k _; simp only [← hnd, sub_self, norm_zero]; positivity
  · intro k _; simp only [← hnd, sub_self, norm_zero]; positivity
  · intro k _; simp only [sub_self, norm_zero]; positivity
  · have hre : ∀ k, (traceSpectrum n win k * (starRingEnd ℂ) (traceSpectrum n win k)).re = ‖traceSpectrum n win k‖ ^ 2 := by
      intro k; rw [mul_conj_norm, Complex.ofReal_re]
    simp only [hre]
    exact h1
  · simp only [sub_self, abs_zero]; positivity
  · intro k _; simp only [← hnd, sub_self, abs_zero]; positivity
  · intro k _; simp only [sub_self, norm_zero]; positivity
  · intro k _
    have : ((gaussResponse dt n a k / dt : ℝ) : ℂ) * waterQuot (wlevel * d) (traceSpectrum n uin k) (traceSpectrum n win k)
        = ((gaussResponse dt n a k / dt : ℝ) : ℂ) * traceSpectrum n uin k * (starRingEnd ℂ) (traceSpectrum n win k)
          / clipC (wlevel * d) (traceSpectrum n win k * (starRingEnd ℂ) (traceSpectrum n win k)) := by
      have hcl : clipC (wlevel * d) (traceSpectrum n win k * (starRingEnd ℂ) (traceSpectrum n win k)) =
          ((max (‖traceSpectrum n win k‖ ^ 2) (wlevel * d) : ℝ) : ℂ) := by
        unfold clipC
        rw [mul_conj_norm, Complex.ofReal_re]
        split
        · rename_i hlt; rw [max_eq_right hlt.le]
        · rename_i hge; rw [max_eq_left (not_lt.1 hge)]
      rw [hcl]; unfold waterQuot; ring
    simp only [this, sub_self, norm_zero]; positivity
  · intro k _; simp only [← hnd, sub_self, norm_zero]; positivity
  · intro m _
    simp only [← hnd, sub_self, abs_zero]
    exact mul_nonneg hε (div_nonneg (sum_nonneg fun _ _ => norm_nonneg _) hnR.le)
  · cases normalize
    · intro m hm
      have := h3 m hm
      simpa using this
    · refine ⟨gaussPulse dt n a 0 / dt, ?_, ?_⟩
      · rw [← hnd, sum_gauss]; simp only [sub_self, abs_zero]; positivity
      · intro m hm
        have := h3 m hm
        simp only [if_true] at this
        rw [this]
        simp only [sub_self, abs_zero]; positivity

/-- what a rounded run computes before the normalisation -/
theorem raw_bounds (h : deconv_waterlevel uin win dt preonset wlevel a normalize = .ok (rft, rms))
    (r : WaterRun ε uin win dt preonset wlevel a normalize out) (hε : 0 ≤ ε) (hε1 : ε ≤ 1 / 100)
    (hw : 0 < wlevel) (hw1 : wlevel ≤ 1) {d : ℝ}
    (hd : IsMaxPower (nextPow2 uin.length) (traceSpectrum (nextPow2 uin.length) win) d) (hd0 : 0 < d)
    (hs : ε * ∑ j ∈ range uin.length, |smp win j| ≤ √d / 2) {m : Nat} (hm : m < uin.length) :
    let A := ∑ j ∈ range uin.length, |smp uin j|
    let B := ∑ j ∈ range uin.length, |smp win j|
    |r.raw m - smp rft m * (if normalize then gaussPulse dt (nextPow2 uin.length) a 0 / dt else 1)| ≤
        ε * (23 * (A / √(wlevel * d)) + 6 * A * B / (wlevel * √wlevel * d)) / |dt| ∧
      |r.raw m| ≤ 2.33 * (A / √(wlevel * d)) / |dt| := by
  intro A B
  obtain ⟨hlen, hdt, ⟨k, hk, hn⟩, d1, h1, h2, h3, _⟩ := water_master h
  obtain rfl := maxPower_unique h1 hd
  set n := nextPow2 uin.length with hnd
  have hn0 : 0 < n := by omega
  have hnR : (0 : ℝ) < n := by exact_mod_cast hn0
  have hln : uin.length ≤ n := le_nextPow2 _
  have hdt0 : 0 < |dt| := abs_pos.2 hdt
  have hA : ∀ k, ‖traceSpectrum n uin k‖ ≤ A := by
    intro k
    have := spectrum_norm n uin k
    rwa [sum_smp_pad0 hln] at this
  have hA0 : 0 ≤ A := (norm_nonneg _).trans (hA 0)
  obtain ⟨d', hd'⟩ : ∃ d', IsMaxPower n r.wf d' := by
    obtain ⟨i, hi, hle⟩ := exists_max_image (range n) (fun k => ‖r.wf k‖ ^ 2) ⟨0, by simpa using hn0⟩
    exact ⟨_, ⟨i, by simpa using hi, rfl⟩, fun k hk => hle k (by simpa using hk)⟩
  have hdd := maxPower_move h1 hd' (fun k hk => r.wf_near k hk)
  have hlo : √d1 / 2 ≤ √d' := by
    have := (abs_le.1 hdd).1
    linarith
  have hd0' : 0 < d' := Real.sqrt_pos.1 (lt_of_lt_of_le (by positivity) hlo)
  obtain ⟨hφ1, hφ2⟩ := level_near hε hε1 hw hd' hd0' r.df_near r.dmax_max r.phi_near
  have key := fun k (hk : k < n) => bin_near (G := gaussResponse dt n a k) (x := omega dt n k * preonset) hε hε1 hw hw1 hd0 hdt
    (h1.2 k hk) (hd'.2 k hk) (r.wf_near k hk) hdd hs (r.uf_near k hk) (hA k)
    (clip_near hε hε1 (sq_nonneg _) hw hd0' (by have := r.df_near k hk; rwa [mul_conj_norm] at this) hφ1 hφ2)
    (Real.exp_pos _).le (gaussResponse_le_one dt a n k) (r.gauss_near k hk) (r.nf_near k hk) (r.rff_near k hk)
    (r.shift_near k hk)
  have hmv := idft_move hn0 (fun k hk => (key k hk).1) m
  have hraw := r.raw_near m hm
  rw [← hnd] at hraw
  set M := A / √(wlevel * d1) with hM
  have hM0 : 0 ≤ M / |dt| := by positivity
  have hmean : (∑ k ∈ range n, ‖r.rffS k‖) / n ≤ 2.3 * M / |dt| := by
    rw [div_le_iff₀ hnR]
    have := sum_le_sum (fun k (hk : k ∈ range n) => (key k (mem_range.1 hk)).2)
    rw [sum_const, card_range, nsmul_eq_mul] at this
    linarith
  have hgn : (if normalize then gaussPulse dt n a 0 / dt else 1) ≠ 0 := by
    split
    · exact div_ne_zero (gaussPulse_zero_pos hn0).ne' hdt
    · exact one_ne_zero
  have hex : smp rft m * (if normalize then gaussPulse dt n a 0 / dt else 1) = (idft n (fun k => ((gaussResponse dt n a k / dt : ℝ) : ℂ)
        * waterQuot (wlevel * d1) (traceSpectrum n uin k) (traceSpectrum n win k)
            * Complex.exp (-Complex.I * (omega dt n k * preonset : ℝ))) m).re := by
    rw [h3 m hm, div_mul_cancel₀ _ hgn]
  rw [hex]
  have hmean' : ε * ((∑ k ∈ range n, ‖r.rffS k‖) / n) ≤ ε * (2.3 * M / |dt|) := mul_le_mul_of_nonneg_left hmean hε
  constructor
  · refine (abs_sub_le _ ((idft n r.rffS m).re) _).trans ?_
    have e1 : ε * (23 * M + 6 * A * B / (wlevel * √wlevel * d1)) / |dt| =
        ε * (20.6 * M + 6 * A * B / (wlevel * √wlevel * d1)) / |dt| + ε * (2.4 * M / |dt|) := by ring
    have e2 : ε * (2.3 * M / |dt|) ≤ ε * (2.4 * M / |dt|) := by
      apply mul_le_mul_of_nonneg_left _ hε
      rw [mul_div_assoc, mul_div_assoc]
      linarith
    rw [e1]
    linarith
  · have hz := idft_move (X := fun _ => 0) hn0 (fun k hk => by simpa using (key k hk).2) m
    have hz0 : (idft n (fun _ => (0 : ℂ)) m).re = 0 := by simp [idft]
    rw [hz0, sub_zero] at hz
    have h4 : |r.raw m| ≤ |(idft n r.rffS m).re| + |r.raw m - (idft n r.rffS m).re| := by
      have := abs_add_le (idft n r.rffS m).re (r.raw m - (idft n r.rffS m).re)
      rwa [add_sub_cancel] at this
    have h5 : ε * (2.3 * M / |dt|) ≤ 1 / 100 * (2.3 * M / |dt|) := by
      apply mul_le_mul_of_nonneg_right hε1
      rw [mul_div_assoc]; positivity
    have h6 : 2.33 * M / |dt| = 1.0130434782608695652 * (2.3 * M / |dt|) + 0.00000000000000000004 * (M / |dt|) := by ring
    rw [h6]
    have h7 : 0 ≤ 2.3 * M / |dt| := by rw [mul_div_assoc]; positivity
    linarith

/-- **C131** a run in arithmetic of tolerance `ε` returns every sample within `ε` times a constant of the traces of the
exact receiver function -/
theorem c131_rounding (h : deconv_waterlevel uin win dt preonset wlevel a false = .ok (rft, rms))
    (r : WaterRun ε uin win dt preonset wlevel a false out) (hε : 0 ≤ ε) (hε1 : ε ≤ 1 / 100)
    (hw : 0 < wlevel) (hw1 : wlevel ≤ 1) {d : ℝ}
    (hd : IsMaxPower (nextPow2 uin.length) (traceSpectrum (nextPow2 uin.length) win) d) (hd0 : 0 < d)
    (hs : ε * ∑ j ∈ range uin.length, |smp win j| ≤ √d / 2) :
    out.length = rft.length ∧ ∀ m < uin.length,
      let A := ∑ j ∈ range uin.length, |smp uin j|
      let B := ∑ j ∈ range uin.length, |smp win j|
      |smp out m - smp rft m| ≤ ε * (23 * (A / √(wlevel * d)) + 6 * A * B / (wlevel * √wlevel * d)) / |dt| := by
  refine ⟨?_, fun m hm => ?_⟩
  · obtain ⟨_, _, _, _, _, h2, _⟩ := water_master h
    rw [r.rft_length, h2]
  · have h1 := (raw_bounds h r hε hε1 hw hw1 hd hd0 hs hm).1
    have h2 : smp out m = r.raw m := by
      have := r.rft_near
      simp only [Bool.false_eq_true, if_false] at this
      exact this m hm
    simp only [Bool.false_eq_true, if_false, mul_one] at h1
    rw [h2]
    exact h1

/-- **C131** with `normalize`: divided once more by the height `γ` of the Gaussian pulse -/
theorem c131_normalized (h : deconv_waterlevel uin win dt preonset wlevel a true = .ok (rft, rms))
    (r : WaterRun ε uin win dt preonset wlevel a true out) (hε : 0 ≤ ε)
    (hw : 0 < wlevel) (hw1 : wlevel ≤ 1) {d : ℝ}
    (hd : IsMaxPower (nextPow2 uin.length) (traceSpectrum (nextPow2 uin.length) win) d) (hd0 : 0 < d)
    (hs : ε * ∑ j ∈ range uin.length, |smp win j| ≤ √d / 2)
    (hγ : ε ≤ gaussPulse dt (nextPow2 uin.length) a 0 / 100) :
    out.length = rft.length ∧ ∀ m < uin.length,
      let A := ∑ j ∈ range uin.length, |smp uin j|
      let B := ∑ j ∈ range uin.length, |smp win j|
      let γ := gaussPulse dt (nextPow2 uin.length) a 0
      |smp out m - smp rft m| ≤
        ε / γ * (31 * (A / √(wlevel * d)) / γ + 6 * A * B / (wlevel * √wlevel * d)) := by
  obtain ⟨_, hdt, ⟨k, hk, hn⟩, _, _, h2, _⟩ := water_master h
  refine ⟨by rw [r.rft_length, h2], fun m hm => ?_⟩
  intro A B γ
  set n := nextPow2 uin.length with hnd
  have hn0 : 0 < n := by omega
  have hnR : (0 : ℝ) < n := by exact_mod_cast hn0
  have hγ0 : 0 < γ := gaussPulse_zero_pos hn0
  have hγ1 : γ ≤ 1 := gaussPulse_zero_le hn0
  have hdt0 : 0 < |dt| := abs_pos.2 hdt
  have hA0 : 0 ≤ A := sum_nonneg (fun _ _ => abs_nonneg _)
  obtain ⟨b1, b2⟩ := raw_bounds h r hε (by linarith) hw hw1 hd hd0 hs hm
  simp only [if_true] at b1
  obtain ⟨gn, hgn, hout⟩ : ∃ gnorm, |gnorm - (∑ k ∈ range n, r.gaussF k) / n| ≤
      ε * |(∑ k ∈ range n, r.gaussF k) / n| ∧ ∀ m < uin.length, |smp out m - r.raw m / gnorm| ≤ ε * |r.raw m / gnorm| := by
    have := r.rft_near
    simpa using this
  have ho := hout m hm
  have hsum : |(∑ k ∈ range n, r.gaussF k) / n - γ / dt| ≤ ε / |dt| := by
    rw [← sum_gauss, ← sub_div, ← sum_sub_distrib, abs_div, abs_of_pos hnR, div_le_iff₀ hnR]
    refine (abs_sum_le_sum_abs _ _).trans ?_
    have := sum_le_sum (fun k (hk : k ∈ range n) => r.gauss_near k (mem_range.1 hk))
    rw [sum_const, card_range, nsmul_eq_mul] at this
    linarith
  exact normalize_near hε hγ0 hγ1 hγ hdt (by positivity) hsum hgn b1 b2 ho

/-- an inexact run: every sample of the exact receiver function too large by the factor `1 + ε` -/
theorem c131_inexact_run (h : deconv_waterlevel uin win dt preonset wlevel a false = .ok (rft, rms)) (hε : 0 ≤ ε) :
    Nonempty (WaterRun ε uin win dt preonset wlevel a false (rft.map (fun x : ℝ => (1 + ε) * x))) := by
  obtain ⟨r⟩ := c131_exact h le_rfl
  have hex : ∀ m < uin.length, smp rft m = r.raw m := by
    have := r.rft_near
    simpa using this
  have up : ∀ {x y : ℝ}, 0 ≤ y → x ≤ 0 * y → x ≤ ε * y := fun hy hx => by
    rw [zero_mul] at hx
    exact hx.trans (mul_nonneg hε hy)
  have hn : (0 : ℝ) ≤ (nextPow2 uin.length : ℕ) := Nat.cast_nonneg _
  have hA : ∀ x : List ℝ, 0 ≤ ∑ j ∈ range uin.length, |smp x j| := fun x => sum_nonneg (fun _ _ => abs_nonneg _)
  refine ⟨{ r with
    raw := fun m => (1 + ε) * r.raw m
    uf_near := fun k hk => up (hA _) (r.uf_near k hk)
    wf_near := fun k hk => up (hA _) (r.wf_near k hk)
    df_near := fun k hk => up (sq_nonneg _) (r.df_near k hk)
    phi_near := up (abs_nonneg _) r.phi_near
    gauss_near := fun k hk => (r.gauss_near k hk).trans (div_le_div_of_nonneg_right hε (abs_nonneg _))
    nf_near := fun k hk => up (norm_nonneg _) (r.nf_near k hk)
    rff_near := fun k hk => up (norm_nonneg _) (r.rff_near k hk)
    shift_near := fun k hk => up (norm_nonneg _) (r.shift_near k hk)
    raw_near := fun m hm => ?_
    rft_length := by rw [List.length_map, r.rft_length]
    rft_near := ?_ }⟩
  · have h0 := r.raw_near m hm
    rw [zero_mul] at h0
    have h1 : r.raw m = (idft (nextPow2 uin.length) r.rffS m).re :=
      sub_eq_zero.1 (abs_eq_zero.1 (le_antisymm h0 (abs_nonneg _)))
    rw [h1, show ∀ x : ℝ, (1 + ε) * x - x = ε * x by intro x; ring, abs_mul, abs_of_nonneg hε]
    apply mul_le_mul_of_nonneg_left _ hε
    refine (Complex.abs_re_le_norm _).trans ?_
    unfold idft
    rw [norm_div, Complex.norm_natCast]
    apply div_le_div_of_nonneg_right _ hn
    refine norm_sum_le_of_le _ (fun k _ => ?_)
    rw [norm_mul, W_norm, mul_one]
  · simp only [Bool.false_eq_true, if_false]
    intro m hm
    rw [← hex m hm]
    have hl : m < rft.length := by rw [r.rft_length]; exact hm
    simp [smp, hl]

end

/-- a spike deconvolved by a spike with six correct digits -/
example : ∃ rft rms out, deconv_waterlevel [1, 0, 0] [1, 0, 0] (1/10) (1/10) (1/4) 2 false = .ok (rft, rms) ∧
    Nonempty (WaterRun (1 / 10 ^ 6) [1, 0, 0] [1, 0, 0] (1/10) (1/10) (1/4) 2 false out) ∧
    out = rft.map (fun x : ℝ => (1 + 1 / 10 ^ 6) * x) ∧ ∀ m < 3, |smp out m - smp rft m| ≤ 1 / 1000 := by
  obtain ⟨⟨rft, rms⟩, h⟩ := c58_total (uin := [1, 0, 0]) (win := [1, 0, 0]) (dt := 1/10)
    (preonset := 1/10) (wlevel := 1/4) (a := 2) (normalize := false) rfl (by simp) (by norm_num)
  obtain ⟨r⟩ := c131_inexact_run (ε := 1 / 10 ^ 6) h (by norm_num)
  refine ⟨rft, rms, _, h, ⟨r⟩, rfl, fun m hm => ?_⟩
  have h4 : nextPow2 ([1, 0, 0] : List ℝ).length = 4 := by decide
  have h2 : √(1/4 : ℝ) = 1/2 := by
    rw [show (1/4 : ℝ) = (1/2) ^ 2 by norm_num, Real.sqrt_sq (by norm_num)]
  have := (c131_rounding h r (by norm_num) (by norm_num) (by norm_num) (by norm_num)
    (by rw [h4]; exact maxPower_spike) (by norm_num)
    (by simp [sum_range_succ, smp]; norm_num)).2 m (by simpa using hm)
  refine this.trans ?_
  rw [mul_one, h2]
  simp [sum_range_succ, smp]
  norm_num [abs_of_pos]

end Rfsed.Props
