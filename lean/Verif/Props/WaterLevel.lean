import Verif.Props.DeconvNoise

/-!
# C148: raising the water level trades fit for stability
-/

namespace Rfsed.Props
open Rfsed Synrf Spec Finset

theorem dft_conj_time {n : Nat} (hn : 0 < n) (x : Nat → ℂ) (k : Nat) :
    dft n (fun m => (starRingEnd ℂ) (x m)) k = (starRingEnd ℂ) (dft n x (cyc n (-(k : ℤ)))) := by
  unfold dft
  rw [map_sum]
  apply sum_congr rfl
  intro j _
  rw [map_mul, W_conj]
  congr 1
  have h := W_cyc hn (-(k : ℤ)) (j : ℤ)
  rw [show -(-((j : ℤ) * (cyc n (-(k : ℤ)) : ℤ))) = (cyc n (-(k : ℤ)) : ℤ) * j by ring, h]
  congr 1
  ring

theorem dft_re {n : Nat} (hn : 0 < n) (X : Nat → ℂ) {k : Nat} (hk : k < n) :
    dft n (fun m => (((idft n X m).re : ℝ) : ℂ)) k = (X k + (starRingEnd ℂ) (X (cyc n (-(k : ℤ))))) / 2 := by
  have e : (fun m => (((idft n X m).re : ℝ) : ℂ)) =
      fun m => (idft n X m + (starRingEnd ℂ) (idft n X m)) / 2 := by
    funext m
    rw [Complex.add_conj]
    push_cast
    ring
  rw [e]
  have h1 := dft_idft X hk
  have h2 := dft_idft X (cyc_lt hn (-(k : ℤ)))
  have h3 := dft_conj_time hn (idft n X) k
  rw [h2] at h3
  rw [← h1, ← h3]
  rw [h1]
  have h1' : dft n (fun m => idft n X m) k = X k := h1
  rw [← h1']
  unfold dft
  rw [← sum_add_distrib, sum_div]
  apply sum_congr rfl
  intro j _
  ring

/-- the energy of the real part of a signal whose spectrum is weighted by real, symmetric factors -/
theorem re_energy {n : Nat} (hn : 0 < n) (c : Nat → ℝ) (V : Nat → ℂ) (hc : ∀ k < n, c (cyc n (-(k : ℤ))) = c k) :
    ∑ m ∈ range n, (idft n (fun k => (c k : ℂ) * V k) m).re ^ 2 =
      (∑ k ∈ range n, c k ^ 2 * ‖(V k + (starRingEnd ℂ) (V (cyc n (-(k : ℤ))))) / 2‖ ^ 2) / n := by
  have hnR : (n : ℝ) ≠ 0 := by exact_mod_cast hn.ne'
  rw [eq_div_iff hnR, mul_comm]
  have h := parsevalC hn (fun m => (((idft n (fun k => (c k : ℂ) * V k) m).re : ℝ) : ℂ))
  have e : ∑ m ∈ range n, ‖(((idft n (fun k => (c k : ℂ) * V k) m).re : ℝ) : ℂ)‖ ^ 2 =
      ∑ m ∈ range n, (idft n (fun k => (c k : ℂ) * V k) m).re ^ 2 :=
    sum_congr rfl (fun m _ => by rw [Complex.norm_real, Real.norm_eq_abs, sq_abs])
  rw [e] at h
  rw [← h]
  apply sum_congr rfl
  intro k hk
  rw [dft_re hn _ (mem_range.1 hk), hc k (mem_range.1 hk), map_mul, Complex.conj_ofReal, ← mul_add, mul_div_assoc,
    norm_mul, mul_pow, Complex.norm_real, Real.norm_eq_abs, sq_abs]

theorem re_energy_mono {n : Nat} (hn : 0 < n) {c c' : Nat → ℝ} (V : Nat → ℂ) (hc : ∀ k < n, c (cyc n (-(k : ℤ))) = c k)
    (hc' : ∀ k < n, c' (cyc n (-(k : ℤ))) = c' k) (h : ∀ k < n, 0 ≤ c k ∧ c k ≤ c' k) :
    ∑ m ∈ range n, (idft n (fun k => (c k : ℂ) * V k) m).re ^ 2 ≤
      ∑ m ∈ range n, (idft n (fun k => (c' k : ℂ) * V k) m).re ^ 2 := by
  rw [re_energy hn c V hc, re_energy hn c' V hc']
  apply div_le_div_of_nonneg_right _ (by positivity)
  apply sum_le_sum
  intro k hk
  obtain ⟨h1, h2⟩ := h k (mem_range.1 hk)
  exact mul_le_mul_of_nonneg_right (pow_le_pow_left₀ h1 h2 2) (by positivity)

theorem spectrum_mirror {n : Nat} (hn : 0 < n) (x : List ℝ) (k : Nat) :
    ‖traceSpectrum n x (cyc n (-(k : ℤ)))‖ = ‖traceSpectrum n x k‖ := by
  have h := dft_conj_time hn (fun j => (smp x j : ℂ)) k
  have e : (fun m => (starRingEnd ℂ) ((smp x m : ℝ) : ℂ)) = fun j => (smp x j : ℂ) := by
    funext m; rw [Complex.conj_ofReal]
  rw [e] at h
  unfold traceSpectrum
  rw [h, RCLike.norm_conj]

/-- **C148** Traces whose length is a power of two (so that the FFT adds no zeros): a higher water level never fits the
numerator better, the misfit is at most one, and the receiver function has at most the energy it has with the lower
level. -/
theorem c148_water_level {uin win r₁ r₂ : List ℝ} {dt preonset w₁ w₂ a e₁ e₂ : ℝ} {normalize : Bool}
    (h₁ : deconv_waterlevel uin win dt preonset w₁ a normalize = .ok (r₁, e₁))
    (h₂ : deconv_waterlevel uin win dt preonset w₂ a normalize = .ok (r₂, e₂))
    (hw : 0 < w₁) (hle : w₁ ≤ w₂) (hp : ∃ j, uin.length = 2 ^ j) (hwin : ∃ x ∈ win, x ≠ 0) :
    e₁ ≤ e₂ ∧ e₂ ≤ 1 ∧ ∑ m ∈ range uin.length, smp r₂ m ^ 2 ≤ ∑ m ∈ range uin.length, smp r₁ m ^ 2 := by
  obtain ⟨hlen, hdt, ⟨k, hk, hn⟩, d, hd, -, f₁, g₁⟩ := water_master h₁
  obtain ⟨-, -, -, d', hd', -, f₂, g₂⟩ := water_master h₂
  obtain rfl := maxPower_unique hd hd'
  have hnp : nextPow2 uin.length = uin.length := by
    obtain ⟨j, hj⟩ := hp
    rw [hj, nextPow2_pos (by positivity), Nat.clog_pow _ _ (by norm_num)]
  rw [hnp] at hn hd f₁ f₂ g₁ g₂
  set n := uin.length with hnn
  have hn0 : 0 < n := by omega
  have hd0 : 0 < d := by
    obtain ⟨⟨i, hi, ei⟩, hmax⟩ := hd
    rcases lt_or_eq_of_le (by rw [ei]; positivity : 0 ≤ d) with h | h
    · exact h
    · exfalso
      have hz : ∀ j < n, ‖rdft n (smp win) j‖ ^ 2 = 0 := fun j hj =>
        le_antisymm (by rw [h]; exact hmax j hj) (by positivity)
      have hP := parseval hn0 (smp win)
      rw [sum_eq_zero (fun j hj => hz j (mem_range.1 hj))] at hP
      have hE : energy n (smp win) = 0 := by
        have hnR : (n : ℝ) ≠ 0 := by exact_mod_cast hn0.ne'
        rcases mul_eq_zero.1 hP.symm with h | h
        · exact absurd h hnR
        · exact h
      obtain ⟨x, hx, hx0⟩ := hwin
      obtain ⟨j, hj, rfl⟩ := List.mem_iff_getElem.1 hx
      have := (sum_eq_zero_iff_of_nonneg (fun m _ => sq_nonneg (smp win m))).1 hE j (mem_range.2 (by omega))
      apply hx0
      have h3 : smp win j = win[j] := by simp [smp, List.getD_eq_getElem?_getD, hj]
      rw [← h3]
      exact pow_eq_zero_iff (two_ne_zero) |>.1 this
  set V := traceSpectrum n win with hV
  set U := traceSpectrum n uin with hU
  have hm : ∀ w : ℝ, 0 < w → ∀ j, 0 < max (‖V j‖ ^ 2) (w * d) := fun w h0 j => lt_max_of_lt_right (mul_pos h0 hd0)
  have hsym : ∀ j : Nat, ‖V (cyc n (-(j : ℤ)))‖ = ‖V j‖ := fun j => spectrum_mirror hn0 win j
  have hmono : ∀ j, max (‖V j‖ ^ 2) (w₁ * d) ≤ max (‖V j‖ ^ 2) (w₂ * d) := fun j =>
    max_le_max le_rfl (mul_le_mul_of_nonneg_right hle hd0.le)
  -- the residual
  have hres : ∀ w : ℝ, 0 < w → ∀ m : ℕ, ((idft n (fun k => ((gaussResponse dt n a k / dt : ℝ) : ℂ)
            * (waterQuot (w * d) (U k) (V k) * V k)) m).re - lowpass n dt a uin m / dt) ^ 2 =
      (idft n (fun k => ((1 - ‖V k‖ ^ 2 / max (‖V k‖ ^ 2) (w * d) : ℝ) : ℂ) *
        (((gaussResponse dt n a k / dt : ℝ) : ℂ) * U k)) m).re ^ 2 := by
    intro w h0 m
    rw [← lowpass_idft hn0, ← Complex.sub_re, ← neg_sq, ← Complex.neg_re]
    congr 2
    unfold idft
    rw [← sub_div, ← sum_sub_distrib, ← neg_div, ← sum_neg_distrib]
    congr 1
    apply sum_congr rfl
    intro j _
    rw [← hU]
    unfold waterQuot
    have h3 : ((max (‖V j‖ ^ 2) (w * d) : ℝ) : ℂ) ≠ 0 := by exact_mod_cast (hm w h0 j).ne'
    have h4 := mul_conj_norm (V j)
    beta_reduce
    rw [Complex.ofReal_sub, Complex.ofReal_one, Complex.ofReal_div (‖V j‖ ^ 2), ← h4]
    field_simp
    ring
  have hlow : ∀ m : ℕ, (lowpass n dt a uin m / dt) ^ 2 =
      (idft n (fun k => ((1 : ℝ) : ℂ) * (((gaussResponse dt n a k / dt : ℝ) : ℂ) * U k)) m).re ^ 2 := by
    intro m
    rw [← lowpass_idft hn0]
    simp only [Complex.ofReal_one, one_mul, hU]
  have hc : ∀ w, ∀ j < n, (fun k => 1 - ‖V k‖ ^ 2 / max (‖V k‖ ^ 2) (w * d)) (cyc n (-(j : ℤ))) =
      (fun k => 1 - ‖V k‖ ^ 2 / max (‖V k‖ ^ 2) (w * d)) j := by
    intro w j _
    simp only [hsym]
  have hw2 : 0 < w₂ := lt_of_lt_of_le hw hle
  have hq : ∀ w : ℝ, 0 < w → ∀ j, 0 ≤ ‖V j‖ ^ 2 / max (‖V j‖ ^ 2) (w * d) ∧ ‖V j‖ ^ 2 / max (‖V j‖ ^ 2) (w * d) ≤ 1 := by
    intro w h0 j
    exact ⟨div_nonneg (by positivity) (hm w h0 j).le, (div_le_one (hm w h0 j)).2 (le_max_left _ _)⟩
  refine ⟨?_, ?_, ?_⟩
  · rw [g₁, g₂]
    apply div_le_div_of_nonneg_right _ (sum_nonneg (fun _ _ => sq_nonneg _))
    rw [sum_congr rfl (fun m _ => hres w₁ hw m), sum_congr rfl (fun m _ => hres w₂ hw2 m)]
    refine re_energy_mono hn0 _ (hc w₁) (hc w₂) (fun j _ => ⟨by linarith [(hq w₁ hw j).2], ?_⟩)
    have := div_le_div_of_nonneg_left (sq_nonneg ‖V j‖) (hm w₁ hw j) (hmono j)
    linarith
  · rw [g₂]
    apply div_le_one_of_le₀ _ (sum_nonneg (fun _ _ => sq_nonneg _))
    rw [sum_congr rfl (fun m _ => hres w₂ hw2 m), sum_congr rfl (fun m _ => hlow m)]
    exact re_energy_mono hn0 (c' := fun _ => 1) _ (hc w₂) (fun _ _ => rfl)
      (fun j _ => ⟨by linarith [(hq w₂ hw2 j).2], by linarith [(hq w₂ hw2 j).1]⟩)
  · set N := (if normalize = true then gaussPulse dt n a 0 / dt else 1) with hN
    have hout : ∀ w : ℝ, ∀ m, ((idft n (fun k => ((gaussResponse dt n a k / dt : ℝ) : ℂ) * waterQuot (w * d) (U k) (V k)
            * Complex.exp (-Complex.I * (omega dt n k * preonset : ℝ))) m).re / N) ^ 2 =
        (idft n (fun k => ((1 / max (‖V k‖ ^ 2) (w * d) : ℝ) : ℂ) * (((gaussResponse dt n a k / dt : ℝ) : ℂ) *
          (U k * (starRingEnd ℂ) (V k)) * Complex.exp (-Complex.I * (omega dt n k * preonset : ℝ)))) m).re ^ 2 / N ^ 2 := by
      intro w m
      rw [div_pow]
      congr 3
      apply idft_congr
      intro j _
      unfold waterQuot
      push_cast
      ring
    have q₂ : ∀ m ∈ range n, smp r₂ m ^ 2 = _ := fun m h => by rw [f₂ m (mem_range.1 h), hout w₂ m]
    have q₁ : ∀ m ∈ range n, smp r₁ m ^ 2 = _ := fun m h => by rw [f₁ m (mem_range.1 h), hout w₁ m]
    rw [sum_congr rfl q₂, sum_congr rfl q₁, ← sum_div, ← sum_div]
    apply div_le_div_of_nonneg_right _ (sq_nonneg _)
    refine re_energy_mono hn0 (c := fun k => 1 / max (‖V k‖ ^ 2) (w₂ * d)) (c' := fun k => 1 / max (‖V k‖ ^ 2) (w₁ * d)) _
      (fun j _ => by simp only [hsym]) (fun j _ => by simp only [hsym])
      (fun j _ => ⟨(one_div_pos.2 (hm w₂ hw2 j)).le, one_div_le_one_div_of_le (hm w₁ hw j) (hmono j)⟩)

/-- **C148** From a water level of one on, every frequency is raised to the level: the receiver function is the low-passed
cross-correlation and raising the level further only divides it (traces of any length). -/
theorem c148_high_level {uin win r₁ r₂ : List ℝ} {dt preonset w₁ w₂ a e₁ e₂ : ℝ} {normalize : Bool}
    (h₁ : deconv_waterlevel uin win dt preonset w₁ a normalize = .ok (r₁, e₁))
    (h₂ : deconv_waterlevel uin win dt preonset w₂ a normalize = .ok (r₂, e₂))
    (hw : 1 ≤ w₁) (hw' : 1 ≤ w₂) (m : ℕ) : w₁ * smp r₁ m = w₂ * smp r₂ m := by
  obtain ⟨hlen, hdt, ⟨k, hk, hn⟩, d, hd, l₁, f₁, -⟩ := water_master h₁
  obtain ⟨-, -, -, d', hd', l₂, f₂, -⟩ := water_master h₂
  obtain rfl := maxPower_unique hd hd'
  rcases Nat.lt_or_ge m uin.length with hm | hm
  · rw [f₁ m hm, f₂ m hm, ← mul_div_assoc, ← mul_div_assoc]
    congr 1
    have key : ∀ w : ℝ, 1 ≤ w → w * (idft (nextPow2 uin.length) (fun k =>
          ((gaussResponse dt (nextPow2 uin.length) a k / dt : ℝ) : ℂ) *
            waterQuot (w * d) (traceSpectrum (nextPow2 uin.length) uin k) (traceSpectrum (nextPow2 uin.length) win k) *
            Complex.exp (-Complex.I * (omega dt (nextPow2 uin.length) k * preonset : ℝ))) m).re =
        (idft (nextPow2 uin.length) (fun k => ((gaussResponse dt (nextPow2 uin.length) a k / dt : ℝ) : ℂ) *
            (traceSpectrum (nextPow2 uin.length) uin k *
              (starRingEnd ℂ) (traceSpectrum (nextPow2 uin.length) win k) / (d : ℂ)) *
            Complex.exp (-Complex.I * (omega dt (nextPow2 uin.length) k * preonset : ℝ))) m).re := by
      intro w h1
      rw [← Complex.re_ofReal_mul]
      congr 1
      unfold idft
      rw [← mul_div_assoc, mul_sum]
      congr 1
      apply sum_congr rfl
      intro j hj
      have hmax := hd.2 j (mem_range.1 hj)
      have hd0 : 0 ≤ d := le_trans (sq_nonneg _) hmax
      have hwC : (w : ℂ) ≠ 0 := by exact_mod_cast (by linarith : w ≠ 0)
      unfold waterQuot
      have hmx : max (‖traceSpectrum (nextPow2 uin.length) win j‖ ^ 2) (w * d) = w * d :=
        max_eq_right (le_trans hmax (by nlinarith))
      beta_reduce
      rw [hmx]
      by_cases hz : d = 0
      · simp [hz]
      · have hdC : (d : ℂ) ≠ 0 := by exact_mod_cast hz
        rw [Complex.ofReal_mul w d]
        field_simp
    rw [key w₁ hw, key w₂ hw']
  · have z : ∀ x : List ℝ, x.length = uin.length → smp x m = 0 := fun x hx => getD_of_le (by omega)
    rw [z _ l₁, z _ l₂, mul_zero, mul_zero]

/-- the hypotheses are met by two traces of four samples and the levels 5% and 20% -/
example : ∃ r₁ r₂ e₁ e₂, deconv_waterlevel [1, 2, 0, 0] [1, 0, 3, 0] (1/10) 1 (1/20) 2 true = .ok (r₁, e₁) ∧
    deconv_waterlevel [1, 2, 0, 0] [1, 0, 3, 0] (1/10) 1 (1/5) 2 true = .ok (r₂, e₂) ∧ e₁ ≤ e₂ ∧ e₂ ≤ 1 ∧
    ∑ m ∈ range 4, smp r₂ m ^ 2 ≤ ∑ m ∈ range 4, smp r₁ m ^ 2 := by
  obtain ⟨⟨r₁, e₁⟩, h₁⟩ := c58_total (uin := [1, 2, 0, 0]) (win := [1, 0, 3, 0]) (dt := 1/10) (preonset := 1)
    (wlevel := 1/20) (a := 2) (normalize := true) rfl (by simp) (by norm_num)
  obtain ⟨⟨r₂, e₂⟩, h₂⟩ := c58_total (uin := [1, 2, 0, 0]) (win := [1, 0, 3, 0]) (dt := 1/10) (preonset := 1)
    (wlevel := 1/5) (a := 2) (normalize := true) rfl (by simp) (by norm_num)
  exact ⟨r₁, r₂, e₁, e₂, h₁, h₂,
    c148_water_level h₁ h₂ (by norm_num) (by norm_num) ⟨2, rfl⟩ ⟨1, by simp, one_ne_zero⟩⟩

/-- levels one and two: the second receiver function is half of the first -/
example : ∃ r₁ r₂ e₁ e₂, deconv_waterlevel [1, 2, 0] [1, 0, 3] (1/10) 1 1 2 false = .ok (r₁, e₁) ∧
    deconv_waterlevel [1, 2, 0] [1, 0, 3] (1/10) 1 2 2 false = .ok (r₂, e₂) ∧ ∀ m, smp r₁ m = 2 * smp r₂ m := by
  obtain ⟨⟨r₁, e₁⟩, h₁⟩ := c58_total (uin := [1, 2, 0]) (win := [1, 0, 3]) (dt := 1/10) (preonset := 1)
    (wlevel := 1) (a := 2) (normalize := false) rfl (by simp) (by norm_num)
  obtain ⟨⟨r₂, e₂⟩, h₂⟩ := c58_total (uin := [1, 2, 0]) (win := [1, 0, 3]) (dt := 1/10) (preonset := 1)
    (wlevel := 2) (a := 2) (normalize := false) rfl (by simp) (by norm_num)
  refine ⟨r₁, r₂, e₁, e₂, h₁, h₂, fun m => ?_⟩
  have := c148_high_level h₁ h₂ le_rfl (by norm_num) m
  rwa [one_mul] at this

end Rfsed.Props
